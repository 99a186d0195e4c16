import Verif.Spec.Charset
import Verif.Props.Transcode
import Verif.Props.MkTable
import Verif.Props.Nfc
/-
Character sets given by tables: searching them in the kernel, and the phases that read and write them.
-/
namespace Verif.Spec

/-! ### Searching -/

theorem Chart.mem_run {n v : Nat} : ∀ {k : Nat} {vs : List Nat}, (n, v) ∈ Chart.run k vs ↔ k ≤ n ∧ vs[n - k]? = some v
  | k, [] => by simp [Chart.run]
  | k, w :: vs => by
    rw [Chart.run, List.mem_cons, Chart.mem_run (k := k + 1)]
    by_cases h : k = n
    · subst h; simp; omega
    · simp only [Prod.mk.injEq]
      by_cases h2 : k ≤ n
      · obtain ⟨m, rfl⟩ : ∃ m, n = k + 1 + m := ⟨n - (k + 1), by omega⟩
        rw [show k + 1 + m - k = m + 1 by omega, show k + 1 + m - (k + 1) = m by omega, List.getElem?_cons_succ]
        constructor
        · rintro (⟨h1, _⟩ | ⟨_, h1⟩)
          · omega
          · exact ⟨by omega, h1⟩
        · rintro ⟨_, h1⟩
          exact .inr ⟨by omega, h1⟩
      · constructor
        · rintro (⟨h1, _⟩ | ⟨h1, _⟩) <;> omega
        · rintro ⟨h1, _⟩; omega

theorem Chart.run_lt {r : Nat × Nat} {k : Nat} {vs : List Nat} (h : r ∈ Chart.run k vs) : k ≤ r.1 ∧ r.1 < k + vs.length := by
  obtain ⟨n, v⟩ := r
  obtain ⟨h1, h2⟩ := Chart.mem_run.1 h
  obtain ⟨h3, _⟩ := List.getElem?_eq_some_iff.1 h2
  exact ⟨h1, by simp only; omega⟩

/-- The runs follow each other in ascending order. -/
def Chart.rising : Nat → Chart → Bool
  | _, [] => true
  | lo, (k, vs) :: t => Nat.ble lo k && Chart.rising (k + vs.length) t

theorem Chart.rising_pairwise : ∀ {t : Chart} {lo : Nat}, Chart.rising lo t = true →
    (t.pairs.Pairwise fun a b => a.1 < b.1) ∧ ∀ r ∈ t.pairs, lo ≤ r.1
  | [], _, _ => ⟨by simp [Chart.pairs], by simp [Chart.pairs]⟩
  | (k, vs) :: t, lo, h => by
    simp only [Chart.rising, Bool.and_eq_true, Nat.ble_eq] at h
    obtain ⟨i1, i2⟩ := Chart.rising_pairwise h.2
    have e : Chart.pairs ((k, vs) :: t) = Chart.run k vs ++ Chart.pairs t := rfl
    rw [e]
    constructor
    · rw [List.pairwise_append]
      refine ⟨?_, i1, ?_⟩
      · clear h i2 e
        induction vs generalizing k with
        | nil => simp [Chart.run]
        | cons v vs ih =>
          rw [Chart.run, List.pairwise_cons]
          refine ⟨?_, ih _⟩
          intro r hr
          have := Chart.run_lt hr
          simp only; omega
      · intro a ha b hb
        have := (Chart.run_lt ha).2
        have := i2 b hb
        omega
    · intro r hr
      rcases List.mem_append.1 hr with hr | hr
      · have := Chart.run_lt hr; omega
      · have := i2 r hr; omega

theorem Chart.find_mem {t : Chart} {n v : Nat} (h : t.find n = some v) : (n, v) ∈ t.pairs := by
  unfold Chart.find at h
  cases hf : t.pairs.find? fun e => Nat.beq e.1 n with
  | none => rw [hf] at h; simp at h
  | some r =>
    rw [hf] at h
    simp only [Option.map_some, Option.some.injEq] at h
    have h1 : r.1 = n := by
      have := List.find?_some hf
      exact Nat.eq_of_beq_eq_true this
    have := List.mem_of_find?_eq_some hf
    rw [← h, ← h1]
    exact this

theorem Chart.mem_find {t : Chart} (ht : t.pairs.Pairwise fun a b => a.1 < b.1) {n v : Nat} (h : (n, v) ∈ t.pairs) : t.find n = some v := by
  unfold Chart.find
  cases hf : t.pairs.find? fun e => Nat.beq e.1 n with
  | none =>
    have := List.find?_eq_none.1 hf _ h
    simp at this
  | some r =>
    have h1 : r.1 = n := by
      have := List.find?_some hf
      exact Nat.eq_of_beq_eq_true this
    have h2 := List.mem_of_find?_eq_some hf
    simp only [Option.map_some, Option.some.injEq]
    have key : ∀ l : List (Nat × Nat), (l.Pairwise fun a b => a.1 < b.1) → ∀ a ∈ l, ∀ b ∈ l, a.1 = b.1 → a = b := by
      intro l
      induction l with
      | nil => simp
      | cons x l ih =>
        intro hp a ha b hb e
        obtain ⟨p1, p2⟩ := List.pairwise_cons.1 hp
        rcases List.mem_cons.1 ha with ha | ha <;> rcases List.mem_cons.1 hb with hb | hb
        · rw [ha, hb]
        · have := p1 b hb; rw [← ha] at this; omega
        · have := p1 a ha; rw [← hb] at this; omega
        · exact ih p2 a ha b hb e
    have := key _ ht r h2 (n, v) h h1
    rw [this]

/-- A tree to find runs in. -/
inductive CTree
  | leaf (t : Chart)
  | bin (l : CTree) (m : Nat) (r : CTree)

def headKey : Chart → Nat
  | [] => 0
  | r :: _ => r.1

def CTree.build : Nat → Chart → CTree
  | 0, t => .leaf t
  | d + 1, t => .bin (CTree.build d (t.take (t.length / 2))) (headKey (t.drop (t.length / 2))) (CTree.build d (t.drop (t.length / 2)))

/-! The functions below are evaluated in the kernel many times; they are given by recursors, which is quicker there. -/

noncomputable def pick2 {α : Type} (b : Bool) (x y : α) : α := Bool.rec y x b

theorem pick2_eq {α : Type} (b : Bool) (x y : α) : pick2 b x y = bif b then x else y := by cases b <;> rfl

/-- The entry of a list, 0 if there is none. -/
noncomputable def nth (vs : List Nat) : Nat → Nat :=
  List.rec (motive := fun _ => Nat → Nat) (fun _ => 0) (fun v _ ih i => pick2 (Nat.beq i 0) v (ih (Nat.sub i 1))) vs

/-- What the runs say for `n`, 0 if nothing. -/
noncomputable def scanRuns (t : Chart) : Nat → Nat :=
  List.rec (motive := fun _ => Nat → Nat) (fun _ => 0)
    (fun r _ ih n => pick2 (Nat.ble r.1 n) (pick2 (Nat.blt n (Nat.add r.1 r.2.length)) (nth r.2 (Nat.sub n r.1)) (ih n)) 0) t

noncomputable def CTree.get (t : CTree) : Nat → Nat :=
  CTree.rec (motive := fun _ => Nat → Nat) (fun t n => scanRuns t n) (fun _ m _ gl gr n => pick2 (Nat.blt n m) (gl n) (gr n)) t

theorem nth_eq : ∀ (vs : List Nat) (i : Nat), nth vs i = vs[i]?.getD 0
  | [], i => by simp [nth]
  | v :: vs, 0 => by simp [nth, pick2]
  | v :: vs, i + 1 => by
    rw [List.getElem?_cons_succ, ← nth_eq]
    rfl

theorem scanRuns_mem {n v : Nat} (hv : v ≠ 0) : ∀ {t : Chart}, scanRuns t n = v → (n, v) ∈ t.pairs
  | [], h => absurd h.symm hv
  | (k, vs) :: t, h => by
    have e : Chart.pairs ((k, vs) :: t) = Chart.run k vs ++ Chart.pairs t := rfl
    rw [e, List.mem_append]
    have h : pick2 (Nat.ble k n) (pick2 (Nat.blt n (Nat.add k vs.length)) (nth vs (Nat.sub n k)) (scanRuns t n)) 0 = v := h
    rw [pick2_eq, pick2_eq] at h
    cases hb : Nat.ble k n with
    | false => rw [hb] at h; exact absurd h.symm hv
    | true =>
      rw [hb, cond_true] at h
      have hk := Nat.le_of_ble_eq_true hb
      cases hn : Nat.blt n (Nat.add k vs.length) with
      | true =>
        rw [hn, cond_true, nth_eq] at h
        left
        refine Chart.mem_run.2 ⟨hk, ?_⟩
        cases hg : vs[Nat.sub n k]? with
        | none => rw [hg] at h; exact absurd h.symm hv
        | some w =>
          rw [hg, Option.getD_some] at h
          subst h
          rfl
      | false =>
        rw [hn, cond_false] at h
        exact .inr (scanRuns_mem hv h)

theorem pairs_sub {s t : Chart} (h : ∀ r ∈ s, r ∈ t) {r : Nat × Nat} (hr : r ∈ s.pairs) : r ∈ t.pairs := by
  obtain ⟨q, hq, h1⟩ := List.mem_flatMap.1 hr
  exact List.mem_flatMap.2 ⟨q, h q hq, h1⟩

theorem build_mem {n v : Nat} (hv : v ≠ 0) : ∀ {d : Nat} {t : Chart}, (CTree.build d t).get n = v → (n, v) ∈ t.pairs
  | 0, _, h => scanRuns_mem hv h
  | d + 1, t, h => by
    have h : pick2 (Nat.blt n (headKey (t.drop (t.length / 2)))) ((CTree.build d (t.take (t.length / 2))).get n)
      ((CTree.build d (t.drop (t.length / 2))).get n) = v := h
    rw [pick2_eq] at h
    cases hb : Nat.blt n (headKey (t.drop (t.length / 2))) with
    | true => rw [hb, cond_true] at h; exact pairs_sub (fun r hr => List.mem_of_mem_take hr) (build_mem hv h)
    | false => rw [hb, cond_false] at h; exact pairs_sub (fun r hr => List.mem_of_mem_drop hr) (build_mem hv h)

/-- One run. -/
noncomputable def backRun (t : CTree) (ex : List Nat) (vs : List Nat) : Nat → Bool :=
  List.rec (motive := fun _ => Nat → Bool) (fun _ => true)
    (fun v _ ih k => pick2 (Nat.beq (t.get v) k) (ih (Nat.succ k)) (pick2 (ex.any (Nat.beq k)) (ih (Nat.succ k)) false)) vs

noncomputable def allRuns (f : Nat × List Nat → Bool) (l : Chart) : Bool :=
  List.rec (motive := fun _ => Bool) true (fun r _ ih => pick2 (f r) ih false) l

/-- Every pair of `a` but those for `ex` is in `b` the other way round. -/
noncomputable def Chart.backIn (a b : Chart) (ex : List Nat) : Bool :=
  (fun t => allRuns (fun r => backRun t ex r.2 r.1) a) (CTree.build 12 b)

theorem allRuns_mem {f : Nat × List Nat → Bool} : ∀ {l : Chart}, allRuns f l = true → ∀ r ∈ l, f r = true
  | [], _, r, hr => by simp at hr
  | q :: l, h, r, hr => by
    have h : pick2 (f q) (allRuns f l) false = true := h
    rw [pick2_eq] at h
    cases hf : f q with
    | false => rw [hf] at h; simp at h
    | true =>
      rw [hf, cond_true] at h
      rcases List.mem_cons.1 hr with rfl | hr
      · exact hf
      · exact allRuns_mem h r hr

theorem backRun_all {t : CTree} {ex : List Nat} : ∀ {k : Nat} {vs : List Nat}, backRun t ex vs k = true →
    ∀ r ∈ Chart.run k vs, t.get r.2 = r.1 ∨ r.1 ∈ ex
  | _, [], _, r, hr => by simp [Chart.run] at hr
  | k, v :: vs, h, r, hr => by
    have h : pick2 (Nat.beq (t.get v) k) (backRun t ex vs (k + 1)) (pick2 (ex.any (Nat.beq k)) (backRun t ex vs (k + 1)) false) = true := h
    rw [pick2_eq, pick2_eq] at h
    rw [Chart.run, List.mem_cons] at hr
    have key : (t.get v = k ∨ k ∈ ex) ∧ backRun t ex vs (k + 1) = true := by
      cases h1 : Nat.beq (t.get v) k with
      | true => rw [h1, cond_true] at h; exact ⟨.inl (Nat.eq_of_beq_eq_true h1), h⟩
      | false =>
        rw [h1, cond_false] at h
        cases h2 : ex.any (Nat.beq k) with
        | false => rw [h2] at h; simp at h
        | true =>
          rw [h2, cond_true] at h
          obtain ⟨m, hm, e⟩ := List.any_eq_true.1 h2
          have := Nat.eq_of_beq_eq_true e
          subst this
          exact ⟨.inr hm, h⟩
    rcases hr with rfl | hr
    · exact key.1
    · exact backRun_all key.2 r hr

theorem backIn_mem {a b : Chart} {ex : List Nat} (h : a.backIn b ex = true) {c u : Nat} (hc : (c, u) ∈ a.pairs) (h0 : c ≠ 0) (hx : c ∉ ex) :
    (u, c) ∈ b.pairs := by
  obtain ⟨q, hq, hr⟩ := List.mem_flatMap.1 hc
  rcases backRun_all (allRuns_mem h q hq) _ hr with h1 | h1
  · exact build_mem h0 h1
  · exact absurd h1 hx

noncomputable def keepRun (t t' : CTree) (vs : List Nat) : Bool :=
  List.rec (motive := fun _ => Bool) true (fun v _ ih => (fun c => pick2 (Nat.beq c 0) false (pick2 (Nat.beq (t'.get c) v) ih false)) (t.get v)) vs

/-- Every value of `a` is a key of `b`, and what it goes to there goes back to it in `a`. -/
noncomputable def Chart.keptBy (a b : Chart) : Bool :=
  (fun t t' => allRuns (fun r => keepRun t t' r.2) a) (CTree.build 12 b) (CTree.build 12 a)

theorem keepRun_all {t t' : CTree} : ∀ {k : Nat} {vs : List Nat}, keepRun t t' vs = true → ∀ r ∈ Chart.run k vs, t.get r.2 ≠ 0 ∧ t'.get (t.get r.2) = r.2
  | _, [], _, r, hr => by simp [Chart.run] at hr
  | k, v :: vs, h, r, hr => by
    have h : pick2 (Nat.beq (t.get v) 0) false (pick2 (Nat.beq (t'.get (t.get v)) v) (keepRun t t' vs) false) = true := h
    rw [pick2_eq, pick2_eq] at h
    rw [Chart.run, List.mem_cons] at hr
    have key : (t.get v ≠ 0 ∧ t'.get (t.get v) = v) ∧ keepRun t t' vs = true := by
      cases h1 : Nat.beq (t.get v) 0 with
      | true => rw [h1] at h; simp at h
      | false =>
        rw [h1, cond_false] at h
        cases h2 : Nat.beq (t'.get (t.get v)) v with
        | false => rw [h2] at h; simp at h
        | true =>
          rw [h2, cond_true] at h
          refine ⟨⟨?_, Nat.eq_of_beq_eq_true h2⟩, h⟩
          intro h0
          rw [h0] at h1
          simp at h1
    rcases hr with rfl | hr
    · exact key.1
    · exact keepRun_all key.2 r hr

theorem keptBy_mem {a b : Chart} (h : a.keptBy b = true) {c u : Nat} (hc : (c, u) ∈ a.pairs) (h0 : u ≠ 0) :
    ∃ c', (u, c') ∈ b.pairs ∧ (c', u) ∈ a.pairs := by
  obtain ⟨q, hq, hr⟩ := List.mem_flatMap.1 hc
  obtain ⟨h1, h2⟩ := keepRun_all (allRuns_mem h q hq) _ hr
  exact ⟨_, build_mem h1 rfl, build_mem h0 h2⟩

/-- ASCII characters among the keys are in `ex`. -/
def Chart.backLow (b : Chart) (ex : List Nat) : Bool :=
  b.all fun r => Nat.ble 0x80 r.1 || (Nat.ble r.2.length 1 && ex.any (Nat.beq r.1))

theorem backLow_mem {b : Chart} {ex : List Nat} (h : b.backLow ex = true) {r : Nat × Nat} (hr : r ∈ b.pairs) : 0x80 ≤ r.1 ∨ r.1 ∈ ex := by
  obtain ⟨q, hq, hr⟩ := List.mem_flatMap.1 hr
  have := List.all_eq_true.1 h q hq
  simp only [Bool.or_eq_true, Bool.and_eq_true, Nat.ble_eq, List.any_eq_true, Nat.beq_eq] at this
  have hl := Chart.run_lt hr
  rcases this with this | ⟨k1, m, k2, k3⟩
  · left; omega
  · right
    have : r.1 = m := by omega
    rw [this]; exact k2

/-! ### Well-formed character sets -/

/-- One or two bytes, the first not 0. -/
def goodCode (c : Nat) : Bool := Nat.blt 0 c && Nat.blt c 0x10000

def goodChar (n : Nat) : Bool := Nat.blt 0 n && (Nat.blt n 0xD800 || (Nat.blt 0xDFFF n && Nat.blt n 0x110000))

def goodChars (k m : Nat) : Bool := Nat.blt 0 k && (Nat.ble (k + m) 0xD800 || (Nat.blt 0xDFFF k && Nat.ble (k + m) 0x110000))

/-- The one-byte codes. -/
def Charset.singles (x : Charset) : List Nat := (Chart.pairs (x.reads.filter fun r => Nat.blt r.1 0x100)).map Prod.fst

/-- Codes of one or two bytes, no one-byte code being the first byte of a two-byte code; every code and every character once. -/
def Charset.fine (x : Charset) : Bool :=
  Chart.rising 0 x.reads && Chart.rising 0 x.writes &&
    x.reads.all (fun r => Nat.blt 0 r.1 && Nat.ble (r.1 + r.2.length) 0x10000 && r.2.all goodChar) &&
    x.writes.all (fun r => goodChars r.1 r.2.length && r.2.all goodCode) && x.odd.all (fun r => Nat.blt r.1 0x100 && goodCode r.2) &&
    match x.singles with
    | ss => x.reads.all fun r => Nat.ble (r.1 + r.2.length) 0x100 || (Nat.ble 0x100 r.1 && Nat.beq (r.1 / 0x100) ((r.1 + r.2.length - 1) / 0x100) &&
      ss.all fun q => !Nat.beq q (r.1 / 0x100))

/-- No code begins with an ASCII byte. -/
def Charset.high (x : Charset) : Bool := x.reads.all fun r => Nat.ble 0x8000 r.1 || (Nat.ble 0x80 r.1 && Nat.ble (r.1 + r.2.length) 0x100)

theorem high_pairs {x : Charset} (h : x.high = true) {r : Nat × Nat} (hr : r ∈ x.reads.pairs) : 0x8000 ≤ r.1 ∨ (0x80 ≤ r.1 ∧ r.1 < 0x100) := by
  obtain ⟨q, hq, hr⟩ := List.mem_flatMap.1 hr
  have := List.all_eq_true.1 h q hq
  simp only [Bool.or_eq_true, Bool.and_eq_true, Nat.ble_eq] at this
  have := Chart.run_lt hr
  omega

/-- The check behind `Exact`. -/
noncomputable def Charset.backs (x : Charset) (ex : List Nat) : Bool :=
  x.reads.backIn x.writes ex && Chart.backLow x.writes ex

structure Charset.Fine (x : Charset) : Prop where
  reads : x.reads.pairs.Pairwise fun a b => a.1 < b.1
  writes : x.writes.pairs.Pairwise fun a b => a.1 < b.1
  codes : ∀ r ∈ x.reads.pairs, 0 < r.1 ∧ r.1 < 0x10000 ∧ Props.Scalar r.2
  chars : ∀ r ∈ x.writes.pairs, Props.Scalar r.1 ∧ 0 < r.2 ∧ r.2 < 0x10000
  odd : ∀ r ∈ x.odd, r.1 < 0x100 ∧ 0 < r.2 ∧ r.2 < 0x10000
  free : ∀ r ∈ x.reads.pairs, ∀ q ∈ x.reads.pairs, 0x100 ≤ r.1 → q.1 < 0x100 → q.1 ≠ r.1 / 0x100

theorem goodCode_iff {c : Nat} (h : goodCode c = true) : 0 < c ∧ c < 0x10000 := by
  simpa only [goodCode, Bool.and_eq_true, Nat.blt_eq] using h

theorem goodChar_iff {n : Nat} (h : goodChar n = true) : Props.Scalar n := by
  simp only [goodChar, Bool.and_eq_true, Bool.or_eq_true, Nat.blt_eq] at h
  unfold Props.Scalar Surrogate
  omega

theorem run_vals {P : Nat → Bool} : ∀ {k : Nat} {vs : List Nat}, vs.all P = true → ∀ r ∈ Chart.run k vs, P r.2 = true
  | _, [], _, r, hr => by simp [Chart.run] at hr
  | k, v :: vs, h, r, hr => by
    rw [List.all_cons, Bool.and_eq_true] at h
    rw [Chart.run, List.mem_cons] at hr
    rcases hr with rfl | hr
    · exact h.1
    · exact run_vals h.2 r hr

theorem Charset.fine_iff {x : Charset} (h : x.fine = true) : x.Fine := by
  unfold Charset.fine at h
  simp only [Bool.and_eq_true] at h
  obtain ⟨⟨⟨⟨⟨h1, h2⟩, h3⟩, h4⟩, h5⟩, h6⟩ := h
  refine ⟨(Chart.rising_pairwise h1).1, (Chart.rising_pairwise h2).1, ?_, ?_, ?_, ?_⟩
  · intro r hr
    obtain ⟨q, hq, hr⟩ := List.mem_flatMap.1 hr
    have := List.all_eq_true.1 h3 q hq
    simp only [Bool.and_eq_true, Nat.ble_eq, Nat.blt_eq] at this
    have hl := Chart.run_lt hr
    exact ⟨by omega, by omega, goodChar_iff (run_vals this.2 r hr)⟩
  · intro r hr
    obtain ⟨q, hq, hr⟩ := List.mem_flatMap.1 hr
    have := List.all_eq_true.1 h4 q hq
    simp only [goodChars, Bool.and_eq_true, Bool.or_eq_true, Nat.ble_eq, Nat.blt_eq] at this
    have hl := Chart.run_lt hr
    exact ⟨by unfold Props.Scalar Surrogate; omega, goodCode_iff (run_vals this.2 r hr)⟩
  · intro r hr
    have := List.all_eq_true.1 h5 r hr
    simp only [Bool.and_eq_true, Nat.blt_eq] at this
    exact ⟨this.1, goodCode_iff this.2⟩
  · intro r hr q hq hr1 hq1 e
    obtain ⟨r0, hr0, hr⟩ := List.mem_flatMap.1 hr
    have hl := Chart.run_lt hr
    have hs : q.1 ∈ x.singles := by
      obtain ⟨q0, hq0, hq⟩ := List.mem_flatMap.1 hq
      have hl := Chart.run_lt hq
      refine List.mem_map.2 ⟨q, List.mem_flatMap.2 ⟨q0, List.mem_filter.2 ⟨hq0, ?_⟩, hq⟩, rfl⟩
      rw [Nat.blt_eq]
      omega
    have := List.all_eq_true.1 h6 r0 hr0
    simp only [Bool.or_eq_true, Bool.and_eq_true, Nat.ble_eq, Nat.beq_eq, List.all_eq_true, Bool.not_eq_true'] at this
    rcases this with this | ⟨⟨k1, k2⟩, k3⟩
    · omega
    · have := k3 _ hs
      have e2 : r.1 / 0x100 = r0.1 / 0x100 := by omega
      rw [e, e2] at this
      simp at this

end Verif.Spec

namespace Verif.Props
open Verif.Spec
open Verif.Engine hiding Datum step

variable {π : Type}

/-! ### The rules -/

/-- The bytes of a code of one or two bytes. -/
theorem code_bytes {c : Nat} (h : c < 0x10000) :
    IsBytes (beBytes c) ∧ ((c < 0x100 ∧ beBytes c = [c]) ∨ (0x100 ≤ c ∧ beBytes c = [c / 0x100, c % 0x100])) := by
  by_cases h1 : c < 0x100
  · rw [be1 h1]
    exact ⟨by intro b hb; simp at hb; omega, .inl ⟨h1, rfl⟩⟩
  · rw [be2 (by omega) h]
    exact ⟨by intro b hb; simp at hb; omega, .inr ⟨by omega, rfl⟩⟩

theorem code_inj {a b : Nat} (ha : a < 0x10000) (hb : b < 0x10000) (h : beBytes a = beBytes b) : a = b := by
  obtain ⟨_, h1⟩ := code_bytes ha
  obtain ⟨_, h2⟩ := code_bytes hb
  rcases h1 with ⟨_, h1⟩ | ⟨_, h1⟩ <;> rcases h2 with ⟨_, h2⟩ | ⟨_, h2⟩ <;> rw [h1, h2] at h <;> simp at h <;> omega

theorem fromRules_lookup {x : Charset} (hx : x.Fine) {c : Nat} (hc : c < 0x10000) :
    lookup x.fromRules (beBytes c) = (x.reads.find c).map fun u => [uniDatum u] := by
  unfold Charset.fromRules Chart.find
  have key : ∀ rs : List (Nat × Nat), (∀ r ∈ rs, r.1 < 0x10000) →
      lookup (rs.map fun r => (beBytes r.1, [uniDatum r.2])) (beBytes c) = ((rs.find? fun e => Nat.beq e.1 c).map Prod.snd).map fun u => [uniDatum u] := by
    intro rs
    induction rs with
    | nil => intro _; rfl
    | cons r rs ih =>
      intro h
      rw [List.map_cons, lookup, List.find?_cons]
      by_cases e : r.1 = c
      · subst e; simp
      · rw [if_neg (fun he => e (code_inj (h r (by simp)) hc he)), ih fun r hr => h r (by simp [hr])]
        have : Nat.beq r.1 c = false := by
          cases hb : Nat.beq r.1 c with
          | false => rfl
          | true => exact absurd (Nat.eq_of_beq_eq_true hb) e
        simp [this]
  exact key _ fun r hr => (hx.codes r hr).2.1

theorem fromRules_prefixFree {x : Charset} (hx : x.Fine) : PrefixFree x.fromRules := by
  intro p b h
  obtain ⟨r, hr, e, _⟩ := single_lookup_none.lookup_some_mem h
  obtain ⟨a, ha, rfl⟩ := List.mem_map.1 hr
  simp only at e
  rw [extendable, List.any_eq_false]
  intro r' hr'
  obtain ⟨a', ha', rfl⟩ := List.mem_map.1 hr'
  rw [← e]
  have h1 := (code_bytes (hx.codes a ha).2.1).2
  have h2 := (code_bytes (hx.codes a' ha').2.1).2
  rcases h1 with ⟨k1, h1⟩ | ⟨k1, h1⟩ <;> rcases h2 with ⟨k2, h2⟩ | ⟨k2, h2⟩ <;> simp only [h1, h2]
  · simp [List.isPrefixOf]; omega
  · have := hx.free a' ha' a ha k2 k1
    simp [List.isPrefixOf, this]
  · simp [List.isPrefixOf]
  · simp [List.isPrefixOf]; omega

theorem fromRules_data {x : Charset} : ∀ r ∈ x.fromRules, r.2 ≠ [] ∧ ∀ d ∈ r.2, IsBytes d := by
  intro r hr
  obtain ⟨a, _, rfl⟩ := List.mem_map.1 hr
  refine ⟨by simp, ?_⟩
  intro d hd
  simp only [List.mem_singleton] at hd
  subst hd
  exact uniDatum_bytes _

theorem fallback_prefixFree : PrefixFree fallbackRules := by
  intro p b h
  obtain ⟨r, hr, e, _⟩ := single_lookup_none.lookup_some_mem h
  obtain ⟨a, ha, rfl⟩ := List.mem_map.1 hr
  rw [extendable, List.any_eq_false]
  intro r' hr'
  obtain ⟨a', ha', rfl⟩ := List.mem_map.1 hr'
  simp only at e
  rw [← e]
  simp [List.isPrefixOf]
  omega

theorem fallback_data : ∀ r ∈ fallbackRules, r.2 ≠ [] ∧ ∀ d ∈ r.2, IsBytes d := by
  intro r hr
  obtain ⟨a, ha, rfl⟩ := List.mem_map.1 hr
  refine ⟨by simp, ?_⟩
  intro d hd
  simp only [List.mem_singleton] at hd
  subst hd
  intro b hb
  simp at hb ha
  omega

theorem toRules_lookup {x : Charset} (hx : x.Fine) {cp : Nat} (hc : Scalar cp) :
    lookup x.toRules [uniDatum cp] = (x.writes.find cp).map fun c => [beBytes c] := by
  unfold Charset.toRules Chart.find
  have odd : ∀ rs : List (Nat × Nat), lookup (rs.map fun r => ([[1, 0, r.1]], [beBytes r.2])) [uniDatum cp] = none := by
    intro rs
    induction rs with
    | nil => rfl
    | cons r rs ih =>
      rw [List.map_cons, lookup, if_neg, ih]
      intro he
      simp only [List.cons.injEq, and_true] at he
      unfold Scalar at hc
      by_cases k1 : cp < 0x100
      · rw [uniDatum, be1 k1] at he; simp at he
      · by_cases k2 : cp < 0x10000
        · rw [uniDatum, be2 (by omega) k2] at he; simp at he; omega
        · rw [uniDatum, be3 (by omega) (by omega)] at he; simp at he
  have key : ∀ rs : List (Nat × Nat), (∀ r ∈ rs, Scalar r.1) →
      lookup ((rs.map fun r => ([uniDatum r.1], [beBytes r.2])) ++ x.odd.map fun r => ([[1, 0, r.1]], [beBytes r.2])) [uniDatum cp] =
        ((rs.find? fun e => Nat.beq e.1 cp).map Prod.snd).map fun c => [beBytes c] := by
    intro rs
    induction rs with
    | nil => intro _; exact odd _
    | cons r rs ih =>
      intro h
      rw [List.map_cons, List.cons_append, lookup, List.find?_cons]
      by_cases e : r.1 = cp
      · subst e; simp
      · have hne : ¬ [uniDatum r.1] = [uniDatum cp] := by
          intro he
          simp only [List.cons.injEq, and_true] at he
          have h1 := (h r (by simp)).2.1
          have h2 := hc.2.1
          exact e (uni_inj (by omega) (by omega) he)
        rw [if_neg hne, ih fun r hr => h r (by simp [hr])]
        have : Nat.beq r.1 cp = false := by
          cases hb : Nat.beq r.1 cp with
          | false => rfl
          | true => exact absurd (Nat.eq_of_beq_eq_true hb) e
        simp [this]
  exact key _ fun r hr => (hx.chars r hr).1

theorem toRules_good {x : Charset} (hx : x.Fine) : GoodRules x.toRules ∧ ∀ r ∈ x.toRules, r.1.length ≤ 1 := by
  have hcode : ∀ c, 0 < c → c < 0x10000 → GoodData [beBytes c] := by
    intro c h0 h
    obtain ⟨h1, h2⟩ := code_bytes h
    refine ⟨by simp, ?_⟩
    intro d hd
    simp only [List.mem_singleton] at hd
    subst hd
    exact ⟨by rcases h2 with ⟨_, h2⟩ | ⟨_, h2⟩ <;> rw [h2] <;> simp, h1⟩
  constructor
  · intro r hr
    rcases List.mem_append.1 hr with hr | hr
    · obtain ⟨q, hq, rfl⟩ := List.mem_map.1 hr
      obtain ⟨k1, k2, k3⟩ := hx.chars q hq
      refine ⟨by simp, ?_, hcode _ k2 k3⟩
      intro d hd
      simp only [List.mem_singleton] at hd
      subst hd
      exact ⟨by simp [uniDatum], uniDatum_bytes _⟩
    · obtain ⟨q, hq, rfl⟩ := List.mem_map.1 hr
      obtain ⟨k1, k2, k3⟩ := hx.odd q hq
      refine ⟨by simp, ?_, hcode _ k2 k3⟩
      intro d hd
      simp only [List.mem_singleton] at hd
      subst hd
      exact ⟨by simp, by intro b hb; simp at hb; omega⟩
  · intro r hr
    rcases List.mem_append.1 hr with hr | hr
    · obtain ⟨q, _, rfl⟩ := List.mem_map.1 hr; simp
    · obtain ⟨q, _, rfl⟩ := List.mem_map.1 hr; simp

end Verif.Props
