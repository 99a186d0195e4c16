import Verif.Proofs.EngineLoop
import Verif.Model.Output

/-! From the main loop to whole calls and sequences of calls. -/

namespace Verif.Engine
open Verif.Spec

variable {π : Type}

/-! ### Determinism -/

theorem run_done (st : Nat → Static π) (ins : Ins π) (m : Nat) :
    run st m (ins, .done) = (ins, .done) := by
  induction m with
  | zero => rfl
  | succ m ih => simp only [run]; rw [show step st (ins, .done) = (ins, .done) from rfl]; exact ih

theorem Call.unique {st : Nat → Static π} {ins : Ins π} {a : Arg} {d d' : Delivery} {i1 i2 : Ins π}
    (h : Call st ins a d i1) (h' : Call st ins a d' i2) : d = d' ∧ i1 = i2 := by
  obtain ⟨m, x, h1, h2, h3⟩ := h
  obtain ⟨m', x', h1', h2', h3'⟩ := h'
  have key : ∀ (m m' : Nat) (x x' : Ins π) (c : Ins π × PC), m ≤ m' → run st m c = (x, .done) →
      run st m' c = (x', .done) → x = x' := by
    intro m m' x x' c hle h1 h2
    obtain ⟨k, rfl⟩ := Nat.le.dest hle
    rw [run_add, h1, run_done] at h2
    exact (Prod.mk.inj h2).1
  have hx : x = x' := by
    rcases Nat.le_total m m' with h | h
    · exact key m m' x x' _ h h1 h1'
    · exact (key m' m x' x _ h h1' h1).symm
  subst hx
  exact ⟨h2.trans h2'.symm, h3.trans h3'.symm⟩

theorem Session.unique {st : Nat → Static π} {ins : Ins π} {as : List Arg} {ds ds' : List Delivery}
    {i1 i2 : Ins π} (h : Session st ins as ds i1) (h' : Session st ins as ds' i2) : ds = ds' ∧ i1 = i2 := by
  induction h generalizing ds' i2 with
  | nil => cases h'; exact ⟨rfl, rfl⟩
  | cons hc _ ih =>
    cases h' with
    | cons hc' hs' =>
      obtain ⟨rfl, rfl⟩ := hc.unique hc'
      obtain ⟨rfl, rfl⟩ := ih hs'
      exact ⟨rfl, rfl⟩

theorem Session.append {st : Nat → Static π} {a b c : Ins π} {as bs : List Arg} {ds es : List Delivery}
    (h : Session st a as ds b) (h' : Session st b bs es c) : Session st a (as ++ bs) (ds ++ es) c := by
  induction h with
  | nil => exact h'
  | cons hc _ ih => exact .cons hc (ih h')

/-! ### Delivery -/

theorem copyFit_spec (ds : List Datum) (room : Nat) :
    ∃ a b, copyFit ds ds.length room = (a.flatten, b, b.length) ∧ ds = a ++ b ∧ a.flatten.length ≤ room := by
  induction ds generalizing room with
  | nil => exact ⟨[], [], rfl, rfl, by simp⟩
  | cons d ds ih =>
    simp only [copyFit]
    split
    · rename_i h
      obtain ⟨a, b, h1, h2, h3⟩ := ih (room - d.length)
      refine ⟨d :: a, b, ?_, by rw [h2]; rfl, ?_⟩
      · simp only [List.length_cons, Nat.add_sub_cancel]
        rw [h1]; rfl
      · simp only [List.flatten_cons, List.length_append]; omega
    · exact ⟨[], d :: ds, rfl, rfl, by simp⟩

/-- Every mode takes a prefix of the pending data; all but NULL hand it to the caller. -/
theorem deliver_spec (m : Mode) {q : Queue} (h : q.Ok) (hl : Nat) :
    (deliver m q hl).2.Ok ∧ ∃ a, q.items = a ++ (deliver m q hl).2.items ∧
      (m ≠ .null → (deliver m q hl).1.bytes = a.flatten) := by
  cases m with
  | hold => exact ⟨h, [], rfl, fun _ => rfl⟩
  | automalloc r => exact ⟨rfl, q.items, by simp [deliver, Queue.empty], fun _ => rfl⟩
  | file => exact ⟨rfl, q.items, by simp [deliver, Queue.empty], fun _ => rfl⟩
  | fd => exact ⟨rfl, q.items, by simp [deliver, Queue.empty], fun _ => rfl⟩
  | null => exact ⟨rfl, q.items, by simp [deliver, Queue.empty], fun h => absurd rfl h⟩
  | premalloced cap =>
    cases cap with
    | none => exact ⟨h, [], rfl, fun _ => rfl⟩
    | some cap =>
      obtain ⟨a, b, h1, h2, h3⟩ := copyFit_spec q.items cap
      simp only [deliver]
      rw [show q.tail = q.items.length from h, h1]
      exact ⟨rfl, a, h2, fun _ => rfl⟩

/-! ### The invariant at the boundaries of a call -/

/-- Input of phase `k+1` when the whole input of phase 1 is `ds`. -/
def stream (F : Nat → List Datum → List Datum) (ds : List Datum) : Nat → List Datum
  | 0 => ds
  | k + 1 => F (k + 1) (stream F ds k)

theorem init_ph (st : Nat → Static π) (ip : Nat → Nat → π → π) (ins : Ins π) {k : Nat} (hk : k ≤ ins.phasen) :
    let p := (ins.init st ip).ph k
    p.q = Queue.empty ∧ p.consumed = 0 ∧ p.fMatch = false ∧ p.fPending = false ∧ p.fLoop = false ∧
    (1 ≤ k → p.index = 0 ∧ p.st = 0 ∧ p.curr = 0) := by
  simp only [Ins.init, if_pos hk]
  split
  · exact ⟨rfl, rfl, rfl, rfl, rfl, fun h => by omega⟩
  · exact ⟨rfl, rfl, rfl, rfl, rfl, fun _ => ⟨rfl, rfl, rfl⟩⟩

/-- A phase record as `bsdconv_init` leaves it. -/
structure Fresh (l : Loc π) : Prop where
  prev : l.prev = Queue.empty
  head : l.prevHeadLen = 0
  q : l.ph.q = Queue.empty
  consumed : l.ph.consumed = 0
  fMatch : l.ph.fMatch = false
  fPending : l.ph.fPending = false
  fLoop : l.ph.fLoop = false
  index : l.ph.index = 0
  st : l.ph.st = 0
  curr : l.ph.curr = 0

theorem init_fresh (st : Nat → Static π) (ip : Nat → Nat → π → π) (ins : Ins π) {k : Nat} (h1 : 1 ≤ k)
    (hk : k ≤ ins.phasen) : Fresh ((ins.init st ip).locAt k) := by
  obtain ⟨a1, a2, a3, a4, a5, a6⟩ := init_ph st ip ins hk
  obtain ⟨b1, b2, _⟩ := init_ph st ip ins (k := k - 1) (by omega)
  exact ⟨b1, b2, a1, a2, a3, a4, a5, (a6 h1).1, (a6 h1).2.1, (a6 h1).2.2⟩

theorem ginv_init {st : Nat → Static π} {K : ∀ k, Kind (st k)} {n : Nat} (hb : Built st K n)
    (ip : Nat → Nat → π → π) (ins : Ins π) (hn : ins.phasen = n) (F : Nat → Beh π) (ds : List Datum)
    (hfirst : (F 1).inE ds = 0 ∨ ds.length ≤ 1)
    (hclean : ∀ k, 2 ≤ k → k ≤ n → (F k).inE (stream (fun k => (F k).out) ds (k - 1)) = 0)
    (hinv : ∀ k, 1 ≤ k → k ≤ n → (K k).Inv (F k) ((ins.init st ip).locAt k) []
      (stream (fun k => (F k).out) ds (k - 1))) :
    GInv st K n (nonEmpty (stream (fun k => (F k).out) ds n))
      (ins.ierr + sumTo (fun k => (F k).inE (stream (fun k => (F k).out) ds (k - 1))) n)
      (ins.oerr + sumTo (fun k => (F k).outE (stream (fun k => (F k).out) ds (k - 1))) n)
      (fun k => (F k).fin (stream (fun k => (F k).out) ds (k - 1)))
      (ins.init st ip) F (fun _ => []) (fun k => stream (fun k => (F k).out) ds (k - 1)) := by
  have hph : ∀ k, k ≤ n → _ := fun k hk => init_ph st ip ins (k := k) (by omega)
  refine ⟨hn, (hph 0 (by omega)).2.1, fun k _ h _ => (hph k h).2.1, hinv, ?_, ?_, ?_, ?_, ?_, ?_, ?_⟩
  · intro k hk hkn
    simp only [List.nil_append]
    obtain ⟨j, rfl⟩ : ∃ j, k = j + 1 := ⟨k - 1, by omega⟩
    rfl
  · simp only [List.nil_append]
    rw [(hph n (Nat.le_refl _)).1]
    have hpos := hb.pos
    obtain ⟨j, rfl⟩ : ∃ j, n = j + 1 := ⟨n - 1, by omega⟩
    rfl
  · simp only [List.nil_append]; rfl
  · simp only [List.nil_append]; rfl
  · intro k _ _; simp only [List.nil_append]
  · intro k hk hkn
    simp only [List.nil_append]
    exact hclean k hk hkn
  · simp only [List.nil_append]
    rw [(hph 0 (by omega)).1]
    rcases hfirst with h | h
    · exact .inl h
    · exact .inr (by simpa [Queue.empty, stream] using h)

variable {st : Nat → Static π} {K : ∀ k, Kind (st k)} {n : Nat} {E : List Datum} {EI EO : Nat}
  {EF : Nat → (Nat → π) → Prop}

/-- Only the bookkeeping fields differ. -/
theorem ginv_flush {ins : Ins π} {F : Nat → Beh π} {rem fut : Nat → List Datum} (hg : GInv st K n E EI EO EF ins F rem fut)
    (x : Nat) (f : Bool) : GInv st K n E EI EO EF { ins with pidx := x, flush := f } F rem fut :=
  ⟨hg.num, hg.c0, hg.cons, hg.inv, hg.chain, hg.out, hg.ierr, hg.oerr, hg.fin, hg.clean, hg.first⟩

/-- Handing in a chunk. -/
theorem ginv_feed (hb : Built st K n) {ins : Ins π} {F : Nat → Beh π} {rem fut : Nat → List Datum} {c : Datum}
    {cs : List Datum} (hg : GInv st K n E EI EO EF ins F rem fut) (hf : fut 1 = c :: cs) (hc : IsBytes c) :
    GInv st K n E EI EO EF (ins.feed (some (c, []))) F
      (fun k => if k = 1 then rem 1 ++ [c] else rem k) (fun k => if k = 1 then cs else fut k) := by
  have hpos := hb.pos
  have hcat : ∀ k, (if k = 1 then rem 1 ++ [c] else rem k) ++ (if k = 1 then cs else fut k)
      = rem k ++ fut k := by
    intro k
    by_cases h : k = 1
    · subst h; simp [hf]
    · simp [h]
  have hph : ∀ j, 1 ≤ j → (ins.feed (some (c, []))).ph j = ins.ph j := by
    intro j hj
    have : ¬ j = 0 := by omega
    simp [Ins.feed, this]
  have hph0 : ((ins.feed (some (c, []))).ph 0).q = (ins.ph 0).q.pushAll [c] := by
    simp [Ins.feed, Queue.pushAll, Queue.push]
  have hcon0 : ((ins.feed (some (c, []))).ph 0).consumed = (ins.ph 0).consumed := by
    simp [Ins.feed]
  have hq0 : (ins.ph 0).q.Ok := by
    have := ((K 1).qok (hg.inv 1 (by omega) hpos)).2.1
    simpa [Ins.locAt] using this
  refine ⟨hg.num, by rw [hcon0]; exact hg.c0, ?_, ?_, ?_, ?_, ?_, ?_, ?_, ?_, ?_⟩
  · intro k h1 h2 h3
    rw [hph k h1]; exact hg.cons k h1 h2 h3
  · intro k h1 h2
    by_cases hk : k = 1
    · subst hk
      simp only [if_true]
      refine (K 1).append (hg.inv 1 h1 h2) ?_ ?_ ?_ ?_ ?_ ?_
      · rw [hf]; simp only [nonEmpty]; rw [← List.filter_append]; rfl
      · simp only [Ins.locAt, Nat.sub_self]; exact hph0
      · simp only [Ins.locAt]; exact hph 1 (by omega)
      · intro _; simp only [Ins.locAt, Nat.sub_self]; exact hcon0
      · intro d hd; simp at hd; subst hd; exact hc
      · intro _
        rcases hg.first with h | h
        · exact .inl h
        · right
          rw [hf] at h
          simp only [Ins.locAt, Nat.sub_self, List.length_append, List.length_cons, List.length_nil] at h ⊢
          omega
    · simp only [if_neg hk]
      have : (ins.feed (some (c, []))).locAt k = ins.locAt k := by
        simp only [Ins.locAt]
        rw [hph k h1, hph (k - 1) (by omega)]
        rfl
      rw [this]; exact hg.inv k h1 h2
  · intro k h1 h2
    rw [hcat k, if_neg (by omega)]
    exact hg.chain k h1 h2
  · rw [hcat n, hph n hpos]; exact hg.out
  · simp only [hcat]; exact hg.ierr
  · simp only [hcat]; exact hg.oerr
  · intro k h1 h2; rw [hcat k]; exact hg.fin k h1 h2
  · intro k h1 h2; rw [hcat k]; exact hg.clean k h1 h2
  · rw [hcat 1, hph0]
    simp only [if_true]
    rw [(Queue.pushAll_ok hq0 [c]).2]
    rcases hg.first with h | h
    · exact .inl h
    · right; rw [hf] at h; simp only [List.length_append, List.length_cons, List.length_nil] at h ⊢; omega

/-- Taking a prefix of the pending output away. -/
theorem ginv_setLast (hb : Built st K n) {ins : Ins π} {F : Nat → Beh π} {rem fut : Nat → List Datum}
    (hg : GInv st K n E EI EO EF ins F rem fut) {a : List Datum} {q : Queue} (hq : q.Ok)
    (ha : (ins.ph n).q.items = a ++ q.items) :
    ∃ E', E = nonEmpty a ++ E' ∧ GInv st K n E' EI EO EF (ins.setLast q) F rem fut := by
  have hpos := hb.pos
  refine ⟨nonEmpty q.items ++ nonEmpty ((F n).out (rem n ++ fut n)), ?_, ?_⟩
  · rw [← hg.out, ha, nonEmpty_append, List.append_assoc]
  · have hph : ∀ j, j ≠ n → (ins.setLast q).ph j = ins.ph j := by
      intro j hj
      have : ¬ j = ins.phasen := by rw [hg.num]; exact hj
      simp [Ins.setLast, this]
    have hphn : (ins.setLast q).ph n = { ins.ph n with q := q } := by
      simp [Ins.setLast, hg.num]
    refine ⟨hg.num, by rw [hph 0 (by omega)]; exact hg.c0, ?_, ?_, hg.chain, ?_, hg.ierr, hg.oerr, hg.fin, hg.clean, ?_⟩
    · intro k h1 h2 h3
      have h4 := hg.cons k h1 h2 h3
      by_cases hk : k = n
      · subst hk; rw [hphn]; exact h4
      · rw [hph k hk]; exact h4
    · intro k h1 h2
      have e1 : (ins.setLast q).ph (k - 1) = ins.ph (k - 1) := hph _ (by omega)
      refine (K k).frame (hg.inv k h1 h2) ?_ ?_ ?_ ?_
      · simp only [Ins.locAt]; rw [e1]
      · simp only [Ins.locAt]
        by_cases hk : k = n
        · subst hk; rw [hphn]; exact hq
        · rw [hph k hk]; exact ((K k).qok (hg.inv k h1 h2)).1
      · simp only [Ins.locAt]
        by_cases hk : k = n
        · subst hk; rw [hphn]
        · rw [hph k hk]
      · intro _; simp only [Ins.locAt]; rw [e1]
    · rw [hphn]
    · rw [hph 0 (by omega)]; exact hg.first

/-- One call. -/
theorem call_ginv (hb : Built st K n) {ins : Ins π} {F : Nat → Beh π} {rem fut : Nat → List Datum} (a : Arg) {more : List Datum}
    (hg : GInv st K n E EI EO EF ins F rem fut) (hf : fut 1 = a.input.toList ++ more)
    (hc : ∀ c ∈ a.input, IsBytes c) (hfl : a.flush = true → more = []) (hm : a.mode ≠ .null) :
    ∃ d ins' F' rem' fut' E', Call st ins a d ins' ∧ GInv st K n E' EI EO EF ins' F' rem' fut' ∧ fut' 1 = more ∧
      E.flatten = d.bytes ++ E'.flatten ∧ Idle ins' ∧ (a.flush = true → NoPending ins') ∧
      (a.mode = .hold → E' = E) := by
  have hpos := hb.pos
  have hstart : ∃ rem1 fut1, GInv st K n E EI EO EF
      (ins.start (a.input.map (fun x => (x, []))) a.flush).1 F rem1 fut1 ∧ fut1 1 = more := by
    cases hi : a.input with
    | none =>
      rw [hi] at hf
      exact ⟨rem, fut, ginv_flush hg _ _, hf⟩
    | some c =>
      rw [hi] at hf
      refine ⟨_, _, ginv_flush (ginv_feed hb hg hf (hc c (by rw [hi]; rfl))) _ _, by simp⟩
  obtain ⟨rem1, fut1, hg1, hf1⟩ := hstart
  have hpc : LoopPC st n (ins.start (a.input.map (fun x => (x, []))) a.flush).1 .begin 1 :=
    .inr ⟨Nat.le_refl _, rfl, .inl rfl⟩
  obtain ⟨ins1, F2, rem2, fut2, ⟨m, hm1⟩, hg2, hf2, hidle, hnp, hflush⟩ := engine_loop hb _ F rem1 fut1 .begin 1 hg1
    (by intro h; rw [hf1, hfl h]; rfl) hpc
  have hok : (ins1.ph n).q.Ok := ((K n).qok (hg2.inv n hpos (Nat.le_refl _))).1
  obtain ⟨hqok, al, ha1, ha2⟩ := deliver_spec a.mode hok (ins1.ph n).consumed
  obtain ⟨E', hE, hg3⟩ := ginv_setLast hb hg2 hqok ha1
  have hnum := hg2.num
  refine ⟨(deliver a.mode (ins1.ph n).q (ins1.ph n).consumed).1,
    ins1.setLast (deliver a.mode (ins1.ph n).q (ins1.ph n).consumed).2, F2, rem2, fut2, E',
    ⟨m, ins1, hm1, by rw [hnum], by rw [hnum]⟩, hg3, hf2.trans hf1, ?_, ?_, ?_, ?_⟩
  · rw [hE, List.flatten_append, flatten_nonEmpty, ha2 hm]
  · intro k h1 h2
    have h2' : k ≤ ins1.phasen := h2
    have := hidle k h1 h2'
    simp only [Ins.setLast]
    have h3 : ¬ k - 1 = ins1.phasen := by omega
    rw [if_neg h3]
    by_cases hk : k = ins1.phasen
    · rw [if_pos hk]; exact this
    · rw [if_neg hk]; exact this
  · intro h k h1 h2
    have := hnp h k h1 h2
    simp only [Ins.setLast]
    split <;> exact this
  · intro hh
    rw [hh] at ha1
    have hal : al = [] := by
      have := congrArg List.length ha1
      simp only [deliver, List.length_append] at this
      exact List.length_eq_zero_iff.1 (by omega)
    rw [hE, hal]; rfl

/-- Calls without flush. -/
theorem session_ginv (hb : Built st K n) (as : List Arg) {ins : Ins π} {F : Nat → Beh π} {rem fut : Nat → List Datum}
    {more : List Datum} (hg : GInv st K n E EI EO EF ins F rem fut)
    (hf : fut 1 = as.filterMap (fun a => a.input) ++ more)
    (hc : ∀ a ∈ as, ∀ c ∈ a.input, IsBytes c) (hfl : ∀ a ∈ as, a.flush = false) (hm : ∀ a ∈ as, a.mode ≠ .null) :
    ∃ ds ins' F' rem' fut' E', Session st ins as ds ins' ∧ GInv st K n E' EI EO EF ins' F' rem' fut' ∧
      fut' 1 = more ∧ E.flatten = (ds.map (fun d => d.bytes)).flatten ++ E'.flatten ∧
      ((∀ a ∈ as, a.mode = .hold) → E' = E) := by
  induction as generalizing E ins F rem fut with
  | nil => exact ⟨[], ins, F, rem, fut, E, .nil _, hg, by simpa using hf, by simp, fun _ => rfl⟩
  | cons a as ih =>
    have hf' : fut 1 = a.input.toList ++ (as.filterMap (fun a => a.input) ++ more) := by
      rw [hf, List.filterMap_cons]
      cases a.input <;> rfl
    obtain ⟨d, ins1, F1, rem1, fut1, E1, h1, h2, h3, h4, _, _, h5⟩ := call_ginv hb a hg hf' (hc a (by simp))
      (by rw [hfl a (by simp)]; intro h; simp at h) (hm a (by simp))
    obtain ⟨ds, ins2, F2, rem2, fut2, E2, k1, k2, k3, k4, k5⟩ := ih h2 h3 (fun a h => hc a (by simp [h]))
      (fun a h => hfl a (by simp [h])) (fun a h => hm a (by simp [h]))
    refine ⟨d :: ds, ins2, F2, rem2, fut2, E2, .cons h1 k1, k2, k3, ?_, ?_⟩
    · rw [h4, k4]; simp
    · intro hh
      exact (k5 (fun a h => hh a (by simp [h]))).trans (h5 (hh a (by simp)))

/-- After a flushed call everything has been converted. -/
theorem ginv_final (hb : Built st K n) {ins : Ins π} {F : Nat → Beh π} {rem fut : Nat → List Datum}
    (hg : GInv st K n E EI EO EF ins F rem fut) (hf : fut 1 = []) (hi : Idle ins) (hp : NoPending ins) :
    E = nonEmpty ins.pending ∧ EI = ins.ierr ∧ EO = ins.oerr ∧
      ∀ k, 1 ≤ k → k ≤ n → EF k (ins.ph k).priv := by
  have hpos := hb.pos
  have hall : ∀ k, 1 ≤ k → k ≤ n → nonEmpty ((F k).out (rem k ++ fut k)) = [] ∧
      (F k).inE (rem k ++ fut k) = 0 ∧ (F k).outE (rem k ++ fut k) = 0 ∧
      (F k).fin (rem k ++ fut k) (ins.ph k).priv := by
    intro k h1 h2
    exact (K k).idle (hg.inv k h1 h2) (hi k h1 (by rw [hg.num]; exact h2)) (hp k h1 (by rw [hg.num]; exact h2))
      (fut_empty hg hi (by rw [hf]; rfl) h1 h2 (fun i a b => hp i a (by rw [hg.num]; omega)))
  refine ⟨?_, ?_, ?_, ?_⟩
  · rw [← hg.out, (hall n hpos (Nat.le_refl _)).1]
    simp [Ins.pending, hg.num]
  · rw [← hg.ierr, sumTo_zero (fun k h1 h2 => (hall k h1 h2).2.1)]; rfl
  · rw [← hg.oerr, sumTo_zero (fun k h1 h2 => (hall k h1 h2).2.2.1)]; rfl
  · intro k h1 h2
    rw [← hg.fin k h1 h2]
    exact (hall k h1 h2).2.2.2

theorem stream_congr {F F' : Nat → List Datum → List Datum} (ds : List Datum) {k : Nat}
    (h : ∀ j, 1 ≤ j → j ≤ k → F j = F' j) : stream F ds k = stream F' ds k := by
  induction k with
  | zero => rfl
  | succ k ih =>
    simp only [stream]
    rw [ih (fun j a b => h j a (by omega)), h (k + 1) (by omega) (by omega)]

theorem sumTo_shift (f : Nat → Nat) (n : Nat) : sumTo f (n + 1) = f 1 + sumTo (fun k => f (k + 1)) n := by
  induction n with
  | zero => simp [sumTo]
  | succ n ih => rw [sumTo, ih]; simp only [sumTo]; omega

/-- A whole session on a freshly initialised instance. -/
theorem session_kinds (hb : Built st K n) (ip : Nat → Nat → π → π) (ins : Ins π) (hn : ins.phasen = n)
    (F : Nat → Beh π)
    (as : List Arg) (a : Arg) (hflush : ∀ x ∈ as, x.flush = false) (hlast : a.flush = true)
    (hmode : ∀ x ∈ as ++ [a], x.mode ≠ .null) (hbytes : ∀ x ∈ as ++ [a], ∀ c ∈ x.input, IsBytes c)
    (inp : List Datum) (hin : (as ++ [a]).filterMap (fun x => x.input) = inp)
    (hfirst : (F 1).inE inp = 0 ∨ inp.length ≤ 1)
    (hclean : ∀ k, 2 ≤ k → k ≤ n → (F k).inE (stream (fun k => (F k).out) inp (k - 1)) = 0)
    (hinv : ∀ k, 1 ≤ k → k ≤ n → (K k).Inv (F k) ((ins.init st ip).locAt k) []
      (stream (fun k => (F k).out) inp (k - 1))) :
    ∃ ds ins', Session st (ins.init st ip) (as ++ [a]) ds ins' ∧
      (ds.map (fun d => d.bytes)).flatten ++ ins'.pending.flatten
        = (stream (fun k => (F k).out) inp n).flatten ∧
      ((∀ x ∈ as ++ [a], x.mode = .hold) →
        nonEmpty ins'.pending = nonEmpty (stream (fun k => (F k).out) inp n)) ∧
      ins'.ierr = ins.ierr + sumTo (fun k => (F k).inE (stream (fun k => (F k).out) inp (k - 1))) n ∧
      ins'.oerr = ins.oerr + sumTo (fun k => (F k).outE (stream (fun k => (F k).out) inp (k - 1))) n ∧
      (∀ k, 1 ≤ k → k ≤ n → (F k).fin (stream (fun k => (F k).out) inp (k - 1)) (ins'.ph k).priv) ∧
      Idle ins' ∧ NoPending ins' ∧ ins'.phasen = n := by
  have hg := ginv_init hb ip ins hn F inp hfirst hclean hinv
  obtain ⟨ds, ins1, F1, rem1, fut1, E1, h1, h2, h3, h4, h5⟩ := session_ginv hb as (more := a.input.toList) hg
    (by
      simp only [Nat.sub_self, stream]
      rw [← hin, List.filterMap_append]
      congr 1)
    (fun x hx => hbytes x (by simp [hx])) hflush (fun x hx => hmode x (by simp [hx]))
  obtain ⟨d, ins2, F2, rem2, fut2, E2, k1, k2, k3, k4, k5, k6, k7⟩ := call_ginv hb a h2 (more := [])
    (by rw [h3]; simp) (hbytes a (by simp)) (fun _ => rfl) (hmode a (by simp))
  obtain ⟨e1, e2, e3, e4⟩ := ginv_final hb k2 k3 k5 (k6 hlast)
  refine ⟨ds ++ [d], ins2, h1.append (.cons k1 (.nil _)), ?_, ?_, ?_, ?_, ?_, k5, k6 hlast, k2.num⟩
  · rw [flatten_nonEmpty] at h4
    rw [h4, k4, e1, flatten_nonEmpty]
    simp
  · intro hh
    rw [← e1, k7 (hh a (by simp)), h5 (fun x hx => hh x (by simp [hx]))]
  · exact e2.symm
  · exact e3.symm
  · exact e4

end Verif.Engine
