import Verif.Props.Gb2312
import Verif.Model.Big5Table
/-
C77 for BIG5, which is read with the tables of UAO250 and written with those of CP950.
-/
namespace Verif.Props
open Verif.Spec
open Verif.Engine hiding Datum step

variable {π : Type}

theorem rising_runs : ∀ {t : Chart} {lo : Nat}, Chart.rising lo t = true →
    (t.Pairwise fun a b => a.1 + a.2.length ≤ b.1) ∧ ∀ r ∈ t, lo ≤ r.1
  | [], _, _ => by simp
  | (k, vs) :: t, lo, h => by
    simp only [Chart.rising, Bool.and_eq_true, Nat.ble_eq] at h
    obtain ⟨i1, i2⟩ := rising_runs h.2
    rw [List.pairwise_cons]
    refine ⟨⟨fun r hr => i2 r hr, i1⟩, ?_⟩
    intro r hr
    rcases List.mem_cons.1 hr with rfl | hr
    · exact h.1
    · have := i2 r hr; omega

/-- The search in a run list, and in the tree, finds what is there. -/
theorem scanRuns_find {n v : Nat} : ∀ {t : Chart}, (t.Pairwise fun a b => a.1 + a.2.length ≤ b.1) → (n, v) ∈ t.pairs → scanRuns t n = v
  | [], _, h => by simp [Chart.pairs] at h
  | (k, vs) :: t, hp, h => by
    obtain ⟨p1, p2⟩ := List.pairwise_cons.1 hp
    have e : Chart.pairs ((k, vs) :: t) = Chart.run k vs ++ Chart.pairs t := rfl
    rw [e, List.mem_append] at h
    change pick2 (Nat.ble k n) (pick2 (Nat.blt n (Nat.add k vs.length)) (nth vs (Nat.sub n k)) (scanRuns t n)) 0 = v
    rw [pick2_eq, pick2_eq]
    rcases h with h | h
    · obtain ⟨h1, h2⟩ := Chart.mem_run.1 h
      have h3 := (Chart.run_lt h).2
      rw [Nat.ble_eq_true_of_le h1, cond_true, show Nat.blt n (Nat.add k vs.length) = true from Nat.ble_eq_true_of_le h3, cond_true, Verif.Spec.nth_eq]
      change (vs[n - k]?).getD 0 = v
      rw [h2, Option.getD_some]
    · obtain ⟨q, hq, hm⟩ := List.mem_flatMap.1 h
      have h1 := p1 q hq
      have h2 := (Chart.run_lt hm).1
      simp only at h1 h2
      have h3 : Nat.blt n (Nat.add k vs.length) = false := by
        cases hb : Nat.blt n (Nat.add k vs.length) with
        | false => rfl
        | true => rw [Nat.blt_eq] at hb; have : n < k + vs.length := hb; omega
      rw [Nat.ble_eq_true_of_le (by omega), cond_true, h3, cond_false]
      exact scanRuns_find p2 h

theorem build_find {n v : Nat} : ∀ {d : Nat} {t : Chart}, (t.Pairwise fun a b => a.1 + a.2.length ≤ b.1) → (n, v) ∈ t.pairs →
    (CTree.build d t).get n = v ∨ (t.drop (t.length / 2) = [] ∧ d ≠ 0)
  | 0, _, hp, h => .inl (scanRuns_find hp h)
  | d + 1, t, hp, h => by
    by_cases hd : t.drop (t.length / 2) = []
    · exact .inr ⟨hd, by omega⟩
    · left
      obtain ⟨r0, rest, hr0⟩ := List.exists_cons_of_ne_nil hd
      have hsplit : t.take (t.length / 2) ++ t.drop (t.length / 2) = t := List.take_append_drop _ _
      have hp' := hp
      rw [← hsplit, List.pairwise_append] at hp'
      obtain ⟨p1, p2, p3⟩ := hp'
      have hne : ∀ {s : Chart}, s ≠ [] → s.drop (s.length / 2) ≠ [] := by
        intro s hs h0
        have h1 := congrArg List.length h0
        have h2 : s.length ≠ 0 := by simpa using hs
        simp at h1
        omega
      have hm : (n, v) ∈ Chart.pairs (t.take (t.length / 2)) ∨ (n, v) ∈ Chart.pairs (t.drop (t.length / 2)) := by
        rw [← List.mem_append]
        have : Chart.pairs (t.take (t.length / 2)) ++ Chart.pairs (t.drop (t.length / 2)) = Chart.pairs t := by
          unfold Chart.pairs
          rw [← List.flatMap_append, hsplit]
        rw [this]
        exact h
      change pick2 (Nat.blt n (headKey (t.drop (t.length / 2)))) ((CTree.build d (t.take (t.length / 2))).get n)
        ((CTree.build d (t.drop (t.length / 2))).get n) = v
      rw [pick2_eq, hr0]
      simp only [headKey]
      have hmr : r0 ∈ t.drop (t.length / 2) := by rw [hr0]; simp
      rcases hm with hm | hm
      · obtain ⟨q, hq, hm'⟩ := List.mem_flatMap.1 hm
        have h1 := p3 q hq r0 hmr
        have h2 := (Chart.run_lt hm').2
        simp only at h2
        rw [show Nat.blt n r0.1 = true from Nat.ble_eq_true_of_le (show n + 1 ≤ r0.1 by omega), cond_true]
        rcases build_find (d := d) p1 hm with k | k
        · exact k
        · exact absurd k.1 (hne (by intro h0; rw [h0] at hq; simp at hq))
      · have h1 : r0.1 ≤ n := by
          rw [hr0] at hm p2
          obtain ⟨p4, _⟩ := List.pairwise_cons.1 p2
          obtain ⟨q, hq, hm'⟩ := List.mem_flatMap.1 hm
          have h2 := (Chart.run_lt hm').1
          simp only at h2
          rcases List.mem_cons.1 hq with rfl | hq
          · exact h2
          · have := p4 q hq; omega
        have h3 : Nat.blt n r0.1 = false := by
          cases hb : Nat.blt n r0.1 with
          | false => rfl
          | true => rw [Nat.blt_eq] at hb; omega
        rw [h3, cond_false, ← hr0]
        rcases build_find (d := d) p2 hm with k | k
        · exact k
        · exact absurd k.1 (hne hd)

/-- None of the characters `vs` is in the table. -/
noncomputable def noneRun (t : CTree) (vs : List Nat) : Bool :=
  List.rec (motive := fun _ => Bool) true (fun v _ ih => pick2 (Nat.beq (t.get v) 0) ih false) vs

theorem noneRun_mem {t : CTree} : ∀ {vs : List Nat}, noneRun t vs = true → ∀ v ∈ vs, t.get v = 0
  | [], _, v, hv => by simp at hv
  | w :: vs, h, v, hv => by
    have h : pick2 (Nat.beq (t.get w) 0) (noneRun t vs) false = true := h
    rw [pick2_eq] at h
    cases hb : Nat.beq (t.get w) 0 with
    | false => rw [hb] at h; exact absurd h (by simp)
    | true =>
      rw [hb, cond_true] at h
      rcases List.mem_cons.1 hv with rfl | hv
      · exact Nat.eq_of_beq_eq_true hb
      · exact noneRun_mem h v hv

/-- The runs of codes that begin with the byte `b`. -/
def startsWith (t : Chart) (b : Nat) : Chart := t.filter fun r => Nat.beq (r.1 / 0x100) b

/-- The check: every code that begins with `b` stands for a character that cannot be written. -/
noncomputable def unwritten (x : Charset) (bs : List Nat) : Bool :=
  (fun t => bs.all fun b => (startsWith x.reads b).all fun r => r.2.all (fun u => Nat.ble 0x80 u && !Nat.beq u 0x2DC) && noneRun t r.2) (CTree.build 12 x.writes)

theorem unwritten_code {x : Charset} (hx : x.fine = true) {bs : List Nat} (hbs : ∀ b ∈ bs, 0x80 ≤ b) (h : unwritten x bs = true) :
    ∀ c cp, c / 0x100 ∈ bs → x.char c = some cp → x.code cp = none := by
  intro c cp hc hp
  have hb := hbs _ hc
  have hx0 := Charset.fine_iff hx
  unfold Charset.char at hp
  rw [if_neg (by omega)] at hp
  obtain ⟨r, hr, hm⟩ := List.mem_flatMap.1 (Chart.find_mem hp)
  have hl := Chart.run_lt hm
  simp only at hl
  have hlead : r.1 / 0x100 = c / 0x100 := by
    unfold Charset.fine at hx
    simp only [Bool.and_eq_true] at hx
    have := List.all_eq_true.1 hx.2 r hr
    simp only [Bool.or_eq_true, Bool.and_eq_true, Nat.ble_eq, Nat.beq_eq] at this
    rcases this with h1 | ⟨⟨h1, h2⟩, _⟩
    · omega
    · have h3 : r.1 / 0x100 ≤ c / 0x100 := Nat.div_le_div_right hl.1
      have h4 : c / 0x100 ≤ (r.1 + r.2.length - 1) / 0x100 := Nat.div_le_div_right (by omega)
      omega
  have h0 := List.all_eq_true.1 h _ hc
  have h1 := List.all_eq_true.1 h0 r (List.mem_filter.2 ⟨hr, by rw [hlead]; exact Nat.beq_refl _⟩)
  rw [Bool.and_eq_true] at h1
  have hmem := List.mem_of_getElem? (Chart.mem_run.1 hm).2
  have h2 := List.all_eq_true.1 h1.1 cp hmem
  simp only [Bool.and_eq_true, Nat.ble_eq, Bool.not_eq_true'] at h2
  have h3 := noneRun_mem h1.2 cp hmem
  have h4 : x.writes.find cp = none := by
    cases hf : x.writes.find cp with
    | none => rfl
    | some v =>
      have hv := Chart.find_mem hf
      have hx1 := hx
      unfold Charset.fine at hx1
      simp only [Bool.and_eq_true] at hx1
      rcases build_find (d := 12) (rising_runs hx1.1.1.1.1.2).1 hv with k | k
      · have := (hx0.chars _ hv).2.1
        simp only at this
        omega
      · obtain ⟨q, hq, _⟩ := List.mem_flatMap.1 hv
        have h5 := congrArg List.length k.1
        have h6 := List.length_pos_of_mem hq
        simp at h5
        omega
  unfold Charset.code
  rw [h4]
  simp only
  rw [if_neg (by omega), if_neg (Nat.ne_of_beq_eq_false h2.2)]

theorem big5_fine : Charsets.big5.fine = true ∧ Charsets.big5.high = true ∧ Charset.small Charsets.big5 = true := by
  have : (Charsets.big5.fine && Charsets.big5.high && Charset.small Charsets.big5) = true := by decide +kernel
  simp only [Bool.and_eq_true] at this
  exact ⟨this.1.1, this.1.2, this.2⟩

/-- C77.  The codes of BIG5 beginning with 81, 9A, 9E (Chinese characters) or C7 (katakana, Cyrillic letters) can be read but their characters
cannot be written. -/
theorem C77_big5_lost : ∀ c cp, c / 0x100 ∈ [0x81, 0x9A, 0x9E, 0xC7] → Charsets.big5.char c = some cp → Charsets.big5.code cp = none :=
  unwritten_code big5_fine.1 (by simp) (by decide +kernel)

/-- C77.  So `BIG5:BIG5` drops a whole text of such characters. -/
theorem C77_big5_violated {st : Nat → Static π} {ip : Nat → Nat → π → π} {ins : Ins π} (hn : ins.phasen = 2)
    (ha : ReadsCharset (st 1) Charsets.big5) (hb : WritesCharset (st 2) Charsets.big5)
    (cs : List Nat) (hcs : ∀ c ∈ cs, c / 0x100 ∈ [0x81, 0x9A, 0x9E, 0xC7] ∧ (Charsets.big5.char c).isSome)
    (as : List Arg) (l : Arg) (h1 : ∀ y ∈ as, y.flush = false) (h2 : l.flush = true) (h3 : ∀ y ∈ as ++ [l], y.mode ≠ .null)
    (h4 : ((as ++ [l]).filterMap (fun y => y.input)).flatten = codeBytes cs) :
    ∃ ds ins', Session st (ins.init st ip) (as ++ [l]) ds ins' ∧
      (ds.map (fun d => d.bytes)).flatten ++ ins'.pending.flatten = [] ∧
      ins'.ierr = ins.ierr ∧ ins'.oerr = ins.oerr + cs.length := by
  obtain ⟨h5, h6, _⟩ := big5_fine
  obtain ⟨ds, ins', k1, k2, k3, k4⟩ := C76_again h5 h6 h5 hn ha hb cs _ (chars_some fun c hc => (hcs c hc).2) as l h1 h2 h3 h4
  have key : ∀ {cs : List Nat}, (∀ c ∈ cs, c / 0x100 ∈ [0x81, 0x9A, 0x9E, 0xC7] ∧ (Charsets.big5.char c).isSome) →
      (cs.filterMap Charsets.big5.char).filterMap Charsets.big5.code = [] ∧
      ((cs.filterMap Charsets.big5.char).filter fun cp => (Charsets.big5.code cp).isNone).length = cs.length := by
    intro cs
    induction cs with
    | nil => intro _; exact ⟨rfl, rfl⟩
    | cons c cs ih =>
      intro h
      obtain ⟨i1, i2⟩ := ih fun c hc => h c (by simp [hc])
      obtain ⟨hc1, hc2⟩ := h c (by simp)
      obtain ⟨cp, hc⟩ := Option.isSome_iff_exists.1 hc2
      have e := C77_big5_lost c cp hc1 hc
      rw [List.filterMap_cons_some hc, List.filterMap_cons_none e, i1, List.filter_cons_of_pos (by simp [e]), List.length_cons, i2]
      exact ⟨rfl, rfl⟩
  obtain ⟨e1, e2⟩ := key hcs
  exact ⟨ds, ins', k1, by rw [k2, e1]; rfl, k3, by rw [k4, e2]⟩

-- C7 A2: katakana U.  All 157 codes C7 40 .. are characters.
example : Charsets.big5.char 0xC7A2 = some 0x30A6 ∧ (startsWith Charsets.big5.reads 0xC7).pairs.length = 157 := by decide +kernel

end Verif.Props
