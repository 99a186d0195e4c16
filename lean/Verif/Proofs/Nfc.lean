import Verif.Proofs.Placed
import Verif.Proofs.Compose

/-! _NFC as a kind of phase. -/

namespace Verif.Engine
open Verif.Spec

variable {π : Type}

/-- A datum that can be put out: not empty, and made of bytes. -/
def Fine (d : Datum) : Prop := d ≠ [] ∧ IsBytes d

/-- What the codec holds can be put out. -/
structure Nfc.Fine (t : Nfc) : Prop where
  starter : t.on = true → Engine.Fine t.starter
  pending : ∀ d ∈ t.pending, Engine.Fine d

/-- The composites can be put out. -/
def FineComb (comb : Datum → Datum → Option Datum) : Prop := ∀ s c x, comb s c = some x → Fine x

theorem flush_fine {t : Nfc} (h : t.Fine) : t.flush.1.Fine ∧ t.flush.1.on = false ∧ ∀ d ∈ t.flush.2, Fine d := by
  unfold Nfc.flush
  split
  · rename_i hon
    refine ⟨⟨fun k => by simp at k, by simp⟩, rfl, ?_⟩
    intro d hd
    rcases List.mem_cons.1 hd with e | hd
    · subst e; exact h.starter hon
    · exact h.pending d hd
  · rename_i hon
    exact ⟨h, by simpa using hon, by simp⟩

theorem release_fine (t : Nfc) : t.release.pending = t.pending := (release_pending t).1

/-- What one step does. -/
def StepFine (t : Nfc) : Nfc × NfcAct → Prop
  | (t', .dead) => t.on = false ∧ t' = { t with cls := 0 } ∧ t'.Fine
  | (t', .hold em back) => t'.on = true ∧ t'.Fine ∧ (∀ d ∈ em, Fine d) ∧ ∀ d ∈ back, Fine d
  | (t', .pass em) => t'.on = false ∧ t'.Fine ∧ ∀ d ∈ em, Fine d

theorem step_fine {comb : Datum → Datum → Option Datum} (hx : FineComb comb) {t : Nfc} (h : t.Fine) {d : Datum} (hd : Fine d) :
    StepFine t (t.step comb d) := by
  have happ : ∀ c, StepFine t ({ t with cls := c, pending := t.pending ++ [d] }, .hold [] []) ∨ t.on = false := by
    intro c
    cases hon : t.on with
    | false => exact .inr rfl
    | true =>
      refine .inl ⟨rfl, ⟨fun _ => h.starter hon, ?_⟩, by simp, by simp⟩
      intro x hm
      rcases List.mem_append.1 hm with k | k
      · exact h.pending x k
      · simp at k; subst k; exact hd
  unfold Nfc.step
  split
  · dsimp only
    split
    · rename_i hon
      split
      · refine ⟨rfl, ⟨fun _ => hd, ?_⟩, by simp, by simp⟩
        simp only; rw [(release_pending _).1]; exact h.pending
      · exact ⟨hon, rfl, ⟨fun k => by simp [hon] at k, h.pending⟩⟩
    · rename_i hon
      have hon : t.on = true := by simpa using hon
      have hf := flush_fine (t := { t with cls := 0 }) ⟨h.starter, h.pending⟩
      have hn : StepFine t ({ ({ t with cls := 0 } : Nfc).flush.1 with on := true, starter := d, ptr := .live }, NfcAct.hold ({ t with cls := 0 } : Nfc).flush.2 []) :=
        ⟨rfl, ⟨fun _ => hd, hf.1.pending⟩, hf.2.2, by simp⟩
      split
      · split
        · split
          · rename_i x hm
            exact ⟨hon, ⟨fun _ => hx _ _ _ hm, h.pending⟩, by simp, by simp⟩
          · exact hn
        · exact hn
      · split
        · exact (happ _).resolve_right (by simp [hon])
        · split
          · rename_i x hm
            exact ⟨hon, ⟨fun _ => hx _ _ _ hm, by simp⟩, by simp, h.pending⟩
          · exact (happ _).resolve_right (by simp [hon])
  · have hf := flush_fine (t := { t with cls := 0 }) ⟨h.starter, h.pending⟩
    refine ⟨hf.2.1, hf.1, ?_⟩
    intro x hm
    rcases List.mem_append.1 hm with k | k
    · exact hf.2.2 x k
    · simp at k; subst k; exact hd

theorem step_off {comb : Datum → Datum → Option Datum} {t : Nfc} (h : t.on = false) (d : Datum) :
    ({ t with cls := 0 } : Nfc).step comb d = t.step comb d := by
  unfold Nfc.step; simp [h]

theorem nfcRun_off {comb : Datum → Datum → Option Datum} {t : Nfc} (h : t.on = false) (ds : List Datum) :
    nfcRun comb { t with cls := 0 } ds = nfcRun comb t ds := by
  cases ds with
  | nil => rw [nfcRun_nil, nfcRun_nil]; simp [Nfc.flush, h]
  | cons d ds =>
    have hs := step_off (comb := comb) h d
    cases hr : t.step comb d with
    | mk t' a =>
      rw [hr] at hs
      cases a with
      | dead => rw [nfcRun_dead hr, nfcRun_dead hs]
      | hold em back => rw [nfcRun_hold hr, nfcRun_hold hs]
      | pass em => rw [nfcRun_pass hr, nfcRun_pass hs]

theorem fine_nonEmpty {em : List Datum} (h : ∀ d ∈ em, Fine d) : nonEmpty em = em ∧ empties em = 0 := by
  refine ⟨nonEmpty_of_all fun d hd => (h d hd).1, ?_⟩
  induction em with
  | nil => rfl
  | cons x xs ih =>
    have := (h x (by simp)).1
    simp [empties, this, ih (fun d hd => h d (List.mem_cons_of_mem _ hd))]

/-- What an _NFC phase will do from the state `t`. -/
def nbeh (comb : Datum → Datum → Option Datum) (t : Nfc) : Beh π where
  out := fun ds => nfcRun comb t (nonEmpty ds)
  inE := fun _ => 0
  outE := fun _ => 0
  toks := fun ds => t.size (nonEmpty ds).length
  fin := fun _ _ => True
  congr := by intro a b h; simp only [h, true_and]

/-- The invariant. -/
structure NInv (e : Lens π Nfc) (comb : Datum → Datum → Option Datum) (F : Beh π) (l : Loc π) (rem fut : List Datum) : Prop where
  beh : F = nbeh comb (e.get (l.ph.priv 0))
  qOk : l.ph.q.Ok
  prevOk : l.prev.Ok
  bytes : ∀ d ∈ l.prev.items, IsBytes d
  currle : l.ph.curr ≤ l.prev.items.length
  remEq : nonEmpty rem = nonEmpty (l.prev.items.drop l.ph.curr)
  fine : (e.get (l.ph.priv 0)).Fine
  st : ((e.get (l.ph.priv 0)).on = false ∧ Start 0 l ∧
      (nonEmpty (l.prev.items.take l.ph.curr) = [] ∨ (nonEmpty rem = [] ∧ nonEmpty fut = []))) ∨
    ((e.get (l.ph.priv 0)).on = true ∧ Held 0 l)

/-- The phase. -/
structure NPhase (s : Static π) (e : Lens π Nfc) (comb : Datum → Datum → Option Datum) : Prop where
  type : s.type = .inter
  one : s.codecn = 0
  codec : s.codecs 0 = nfcCodec e comb
  fine : FineComb comb

def nrank (l : Loc π) : Nat := l.prev.items.length - l.ph.curr

variable {s : Static π} {e : Lens π Nfc} {comb : Datum → Datum → Option Datum} {F : Beh π} {l : Loc π} {rem fut : List Datum}

abbrev NQuiet (e : Lens π Nfc) (comb : Datum → Datum → Option Datum) (F : Beh π) (l l' : Loc π) (rem fut : List Datum) : Prop :=
  Quiet (NInv e comb) false hpads nrank F l l' rem fut

abbrev NDecide (e : Lens π Nfc) (comb : Datum → Datum → Option Datum) (F : Beh π) (l l' : Loc π) (rem fut : List Datum)
    (F' : Beh π) (rem' em : List Datum) : Prop :=
  Decide (NInv e comb) false hpads F l l' rem fut F' rem' em

theorem NInv.idx (h : NInv e comb F l rem fut) : l.ph.index = 0 := by
  rcases h.st with ⟨_, k, _⟩ | ⟨_, k⟩
  · exact k.index
  · exact k.index

theorem n_empty (hN : NPhase s e comb) (h : NInv e comb F l rem fut) (hc : l.ph.curr < l.prev.items.length)
    (he : l.prev.items[l.ph.curr] = []) :
    ∃ l', LReach s s.type.outer l l' .nextBegin ∧ NQuiet e comb F l l' rem fut ∧ nrank l' < nrank l := by
  have hh : l.prev.hasNext l.ph.curr = true := by simp [Queue.hasNext, hc]
  have htk : nonEmpty (l.prev.items.take (l.ph.curr + 1)) = nonEmpty (l.prev.items.take l.ph.curr) := by
    rw [take_succ' hc, nonEmpty_append, he]; simp [nonEmpty]
  have hg : l.prev.get (l.ph.curr + 1) = [] := by
    simp [Queue.get, List.getD_eq_getElem?_getD, List.getElem?_eq_getElem hc, he]
  refine ⟨{ l with ph := { l.ph with curr := l.ph.curr + 1, status := .nomatch, i := 0 } },
    .cons (pc1 := .interSw) (l1 := { l with ph := { l.ph with curr := l.ph.curr + 1, status := .nomatch, i := 0 } })
      (by rw [hN.type]; rfl) ?_ (.one rfl ?_), ⟨⟨h.beh, h.qOk, h.prevOk, h.bytes, by simp only; omega, ?_, h.fine, ?_⟩, rfl, rfl, rfl, rfl,
        fun _ => rfl, fun _ => Nat.le_refl _, Nat.le_refl _, ?_⟩, ?_⟩
  · simp [hN.type, PType.outer, localStep, itOuter, hh, hg, Ph.scan]
  · simp [localStep, interSw]
  · rw [h.remEq, drop_cons hc, he]; rfl
  · simp only [htk]
    rcases h.st with ⟨k1, k2, k3⟩ | ⟨k1, k2⟩
    · exact .inl ⟨k1, ⟨k2.index, k2.st, k2.loop, k2.fmatch, k2.pend⟩, k3⟩
    · exact .inr ⟨k1, ⟨k2.index, k2.st, k2.offset, k2.loop, k2.fmatch, k2.pend, k2.data⟩⟩
  · simp only [nrank]; omega
  · simp only [nrank]; omega

/-- Letting the first datum pass. -/
theorem n_pop (hN : NPhase s e comb) {t t' : Nfc} (hF : F = nbeh comb t) (hq : l.ph.q.Ok) (hp : l.prev.Ok)
    (hb : ∀ d ∈ l.prev.items, IsBytes d) (ht : e.get (l.ph.priv 0) = t') (hi : l.ph.index = 0) (hf : l.ph.fMatch = false)
    {k : Nat} (hk : k < l.prev.items.length) (hne : l.prev.items[k] ≠ []) (htk : nonEmpty (l.prev.items.take k) = [])
    (hrem : nonEmpty rem = nonEmpty (l.prev.items.drop k)) (hstep : t.step comb l.prev.items[k] = (t', .dead))
    (hsf : StepFine t (t', .dead)) :
    ∃ l' rem' em, LReach s s.type.dead l l' .nextBegin ∧ NDecide e comb F l l' rem fut (nbeh comb t') rem' em := by
  obtain ⟨hoff, ht', hfine⟩ := hsf
  cases hit : l.prev.items with
  | nil => rw [hit] at hk; simp at hk
  | cons x xs =>
    have htail : l.prev.tail = xs.length + 1 := by have := hp; rw [Queue.Ok, hit] at this; simpa using this
    have hall : nonEmpty rem = nonEmpty (x :: xs) := by
      rw [hrem, ← hit, nonEmpty_take_drop l.prev.items k, htk]; rfl
    refine ⟨{ l with prev := ⟨xs, l.prev.tail - 1⟩, ph := ({ l.ph with fPending := false, fLoop := false, curr := 0, q := l.ph.q.push x }).reset s },
      xs, [x], .one (by rw [hN.type]; rfl) ?_, ?_⟩
    · rw [hN.type]
      simp only [PType.dead, localStep, interDead, hf, hi, hN.one, Nat.lt_irrefl, if_false, Bool.false_eq_true, hit]
    have hinv : NInv e comb (nbeh comb t') { l with prev := ⟨xs, l.prev.tail - 1⟩, ph := ({ l.ph with fPending := false, fLoop := false, curr := 0, q := l.ph.q.push x }).reset s } xs fut := by
      refine ⟨by rw [← ht]; rfl, (Queue.pushAll_ok hq [x]).1, ?_, ?_, Nat.zero_le _, rfl, ?_, .inl ⟨?_, ⟨rfl, rfl, rfl, hf, rfl⟩, .inl rfl⟩⟩
      · simp only [Queue.Ok]; rw [htail]; rfl
      · intro d hd; exact hb d (by rw [hit]; exact List.mem_cons_of_mem _ hd)
      · show (e.get (l.ph.priv 0)).Fine
        rw [ht]; exact hfine
      · show (e.get (l.ph.priv 0)).on = false
        rw [ht, ht']; exact hoff
    -- the datum in front is empty, or it is the one that was read
    have hx : (x = [] ∧ nonEmpty rem = nonEmpty xs) ∨ (x ≠ [] ∧ nonEmpty rem = x :: nonEmpty xs ∧ t.step comb x = (t', .dead)) := by
      by_cases h0 : x = []
      · subst h0; exact .inl ⟨rfl, by rw [hall]; exact nonEmpty_cons_nil _⟩
      · refine .inr ⟨h0, by rw [hall]; exact nonEmpty_cons h0 _, ?_⟩
        cases k with
        | zero => simp only [hit, List.getElem_cons_zero] at hstep; exact hstep
        | succ k =>
          rw [hit, List.take_succ_cons, nonEmpty_cons h0] at htk
          simp at htk
    have hrun : nfcRun comb t' (nonEmpty xs ++ nonEmpty fut) = nfcRun comb t (nonEmpty xs ++ nonEmpty fut) := by
      rw [ht']; exact nfcRun_off hoff _
    have hsize : ∀ n, t'.size n = t.size n := by intro n; rw [ht']; rfl
    refine ⟨hinv, rfl, ?_, rfl, fun _ => rfl, fun h => absurd h (by simp), ?_, ?_, ?_, ?_, ?_, ?_⟩
    · intro d hd; simp at hd; subst hd; exact hb _ (by rw [hit]; simp)
    · rw [hF]; exact Nat.le_refl _
    · rw [hF]; simp only [nbeh]
      rw [nonEmpty_append, nonEmpty_append]
      rcases hx with ⟨h1, h2⟩ | ⟨h1, h2, h3⟩
      · rw [h1, h2, hrun]; simp [nonEmpty]
      · rw [h2, List.cons_append, nfcRun_dead h3, nonEmpty_cons h1 _, nonEmpty_cons h1 _]; rfl
    · rw [hF]; rfl
    · rw [hF]; rfl
    · rw [hF]; rfl
    · rw [hF]; simp only [nbeh, hpads]
      rw [nonEmpty_append, nonEmpty_append, hit]
      rcases hx with ⟨h1, h2⟩ | ⟨h1, h2, h3⟩
      · right
        rw [h1, h2, hsize]
        refine ⟨rfl, ?_, ?_⟩ <;> simp [empties] <;> omega
      · left
        have := step_size comb t x (nonEmpty xs ++ nonEmpty fut).length
        rw [h3] at this
        simp only [NfcAct.left] at this
        rw [h2]
        refine ⟨?_, ?_⟩
        · simp only [empties, if_neg h1]; rw [List.cons_append, List.length_cons]; omega
        · simp [empties, h1]

theorem insertAfter_ok {q : Queue} (hq : q.Ok) {k : Nat} (hk : k ≤ q.items.length) (ds : List Datum) :
    (q.insertAfter k ds).Ok ∧ (q.insertAfter k ds).items = q.items.take k ++ ds ++ q.items.drop k := by
  unfold Queue.insertAfter
  split
  · rename_i h; subst h; simp [hq]
  · exact ⟨rfl, rfl⟩

/-- Reading a datum. -/
theorem n_read (hN : NPhase s e comb) (h : NInv e comb F l rem fut) (hc : l.ph.curr < l.prev.items.length)
    (hne : l.prev.items[l.ph.curr] ≠ []) :
    ∃ l' ctl F' rem' em, LReach s s.type.outer l l' ctl ∧ DCtl s.type ctl ∧ NDecide e comb F l l' rem fut F' rem' em := by
  have hn : s.type ≠ .from_ := by rw [hN.type]; simp
  have hb := h.bytes _ (List.getElem_mem hc)
  have hi := h.idx
  have hcd : s.codecs l.ph.index = anyByte (nfcConv e comb) (some (nfcFlush e)) := by rw [hi, hN.codec]; rfl
  have hr := any_read (s := s) hn hcd (by
    rcases h.st with ⟨_, k, _⟩ | ⟨_, k⟩
    · exact .inl k.st
    · exact .inr ⟨k.st, k.offset, k.loop⟩) hc hne hb
  have hg : l.prev.get (l.ph.curr + 1) = l.prev.items[l.ph.curr] := by
    simp [Queue.get, List.getD_eq_getElem?_getD, List.getElem?_eq_getElem hc]
  have hdrop : nonEmpty rem = l.prev.items[l.ph.curr] :: nonEmpty (l.prev.items.drop (l.ph.curr + 1)) := by
    rw [h.remEq, drop_cons hc, nonEmpty_cons hne]; rfl
  have hF := h.beh
  have hsf := step_fine hN.fine h.fine (d := l.prev.items[l.ph.curr]) ⟨hne, hb⟩
  have hsz := step_size comb (e.get (l.ph.priv 0)) l.prev.items[l.ph.curr] (nonEmpty (l.prev.items.drop (l.ph.curr + 1)) ++ nonEmpty fut).length
  generalize ht : e.get (l.ph.priv 0) = t at hF hsf hsz
  generalize hst : t.step comb l.prev.items[l.ph.curr] = r at hsf hsz
  obtain ⟨t', a⟩ := r
  have hin : nonEmpty (rem ++ fut) = l.prev.items[l.ph.curr] :: (nonEmpty (l.prev.items.drop (l.ph.curr + 1)) ++ nonEmpty fut) := by
    rw [nonEmpty_append, hdrop]; rfl
  cases a with
  | dead =>
    obtain ⟨hoff, ht', hfine⟩ := hsf
    have hst0 : Start 0 l ∧ nonEmpty (l.prev.items.take l.ph.curr) = [] := by
      rcases h.st with ⟨_, k, k2⟩ | ⟨k, _⟩
      · refine ⟨k, ?_⟩
        rcases k2 with k2 | k2
        · exact k2
        · rw [hdrop] at k2; simp at k2
      · rw [ht, hoff] at k; simp at k
    obtain ⟨l', rem', em, k1, k2⟩ := n_pop (s := s) (e := e) (comb := comb) (F := F) (rem := rem) (fut := fut) (t := t) (t' := t')
      (l := { l with ph := { l.ph with
        curr := l.ph.curr + 1, offset := 1, st := 1, status := .deadend, fLoop := true
        i := l.prev.items[l.ph.curr].length
        priv := setPriv l.ph.priv l.ph.index (e.put t' (l.ph.priv l.ph.index)) } }) hN hF h.qOk h.prevOk h.bytes
      (by simp [setPriv, hi, e.get_put]) hi hst0.1.fmatch hc hne hst0.2 h.remEq hst ⟨hoff, ht', hfine⟩
    refine ⟨l', _, nbeh comb t', rem', em, hr.trans (.trans (sw_dead hn ?_) ?_), .inr (.inr rfl), ?_⟩
    · simp [nfcConv, hg, hi, ht, hst]
    · have : nfcConv e comb { l with ph := { l.ph with
          curr := l.ph.curr + 1, offset := 1, st := 1, status := .subroutine, fLoop := true
          i := l.prev.items[l.ph.curr].length } } = { l with ph := { l.ph with
        curr := l.ph.curr + 1, offset := 1, st := 1, status := .deadend, fLoop := true
        i := l.prev.items[l.ph.curr].length
        priv := setPriv l.ph.priv l.ph.index (e.put t' (l.ph.priv l.ph.index)) } } := by
        simp [nfcConv, hg, hi, ht, hst]
      rw [this]; exact k1
    · exact ⟨k2.inv, k2.q, k2.bytes, k2.head, k2.consumed, fun k => absurd k (by simp), k2.inErr_le, k2.out, k2.ierr, k2.oerr, k2.fin, k2.measure⟩
  | pass em =>
    obtain ⟨hoff, hfine, hem⟩ := hsf
    obtain ⟨l', k1, k2⟩ := sw_next (s := s) hn (t := e.put t' (l.ph.priv l.ph.index)) (out := em) (l := l)
      (l1 := nfcConv e comb { l with ph := { l.ph with
        curr := l.ph.curr + 1, offset := 1, st := 1, status := .subroutine, fLoop := true
        i := l.prev.items[l.ph.curr].length } }) h.prevOk hc
      (by constructor <;> simp [nfcConv, hg, hi, ht, hst])
      (by simp [nfcConv, hg, hi, ht, hst]) (by simp [nfcConv, hg, hi, ht, hst]) (by simp [nfcConv, hg, hi, ht, hst])
      (by simp [nfcConv, hg, hi, ht, hst]) (by simp [nfcConv, hg, hi, ht, hst])
    have hget : e.get (l'.ph.priv 0) = t' := by rw [k2.priv]; simp [setPriv, hi, e.get_put]
    refine ⟨l', _, nbeh comb t', l'.prev.items, em, hr.trans k1, .inr (.inr rfl), ⟨⟨by rw [hget], ?_, k2.prevOk, ?_, ?_, ?_, ?_, .inl ⟨?_, k2.start, .inl ?_⟩⟩,
      k2.q, fun d hd => (hem d hd).2, k2.head, fun _ => k2.consumed, fun k => absurd k (by simp), ?_, ?_, ?_, ?_, ?_, .inl ⟨?_, ?_⟩⟩⟩
    · rw [k2.q]; exact (Queue.pushAll_ok h.qOk _).1
    · intro d hd
      rcases k2.bytes d hd with k | k
      · exact h.bytes d k
      · subst k; intro x hx; simp at hx
    · rw [k2.curr]; exact Nat.zero_le _
    · rw [k2.curr, List.drop_zero]
    · rw [hget]; exact hfine
    · rw [hget]; exact hoff
    · rw [k2.curr]; rfl
    · rw [hF]; exact Nat.le_refl _
    · rw [hF]; simp only [nbeh]
      rw [hin, nfcRun_pass hst, nonEmpty_append, nonEmpty_append (a := l'.prev.items), k2.ne]
    · rw [hF, k2.ierr]; rfl
    · rw [hF, k2.oerr]; rfl
    · rw [hF]; rfl
    · rw [hF]; simp only [nbeh]
      rw [hin, nonEmpty_append (a := l'.prev.items), k2.ne, (fine_nonEmpty hem).2, List.length_cons]
      simp only [NfcAct.left] at hsz; omega
    · exact k2.emp
  | hold em back =>
    obtain ⟨hon, hfine, hem, hback⟩ := hsf
    have hins := insertAfter_ok h.prevOk (k := l.ph.curr + 1) (by omega) back
    obtain ⟨l', k1, k2⟩ := any_hold (s := s) hn (t := e.put t' (l.ph.priv l.ph.index)) (out := em)
      (l := { l with prev := l.prev.insertAfter (l.ph.curr + 1) back })
      (l1 := nfcConv e comb { l with ph := { l.ph with
        curr := l.ph.curr + 1, offset := 1, st := 1, status := .subroutine, fLoop := true
        i := l.prev.items[l.ph.curr].length } }) hcd hins.1
      (by constructor <;> simp [nfcConv, hg, hi, ht, hst])
      (by simp [nfcConv, hg, hi, ht, hst]) (by simp [nfcConv, hg, hi, ht, hst]) (by simp [nfcConv, hg, hi, ht, hst])
      (by simp [nfcConv, hg, hi, ht, hst]) (by simp [nfcConv, hg, hi, ht, hst]) (by simp [nfcConv, hg, hi, ht, hst])
      (by simp [nfcConv, hg, hi, ht, hst]) (by simp [nfcConv, hg, hi, ht, hst]) (by simp [nfcConv, hg, hi, ht, hst])
    have hget : e.get (l'.ph.priv 0) = t' := by rw [k2.priv]; simp [setPriv, hi, e.get_put]
    have hcur : l'.ph.curr = l.ph.curr + 1 := k2.curr
    have hlt : (l.prev.items.take (l.ph.curr + 1)).length = l.ph.curr + 1 := by rw [List.length_take]; omega
    have hne' : nonEmpty (l'.prev.items.drop l'.ph.curr) = back ++ nonEmpty (l.prev.items.drop (l.ph.curr + 1)) := by
      have : nonEmpty ((l.prev.items.take (l.ph.curr + 1) ++ back ++ l.prev.items.drop (l.ph.curr + 1)).drop (l.ph.curr + 1)) =
          back ++ nonEmpty (l.prev.items.drop (l.ph.curr + 1)) := by
        rw [List.append_assoc, List.drop_append_of_le_length (by omega), List.drop_of_length_le (by omega), List.nil_append,
          nonEmpty_append, (fine_nonEmpty hback).1]
      rw [hcur]
      rcases k2.items with k | k
      · rw [k]; simp only; rw [hins.2]; exact this
      · rw [k]; simp only
        rw [hins.2, List.drop_append_of_le_length (by simp only [List.length_append]; omega), nonEmpty_append, this]
        simp [nonEmpty]
    have hemp : empties l'.prev.items ≤ empties l.prev.items + 1 := by
      have h1 : empties (l.prev.items.take (l.ph.curr + 1) ++ back ++ l.prev.items.drop (l.ph.curr + 1)) = empties l.prev.items := by
        rw [empties_append, empties_append, (fine_nonEmpty hback).2, Nat.add_zero, ← empties_append, List.take_append_drop]
      rcases k2.items with k | k
      · rw [k]; simp only; rw [hins.2, h1]; omega
      · rw [k]; simp only; rw [hins.2, empties_append, h1]; simp [empties]
    refine ⟨l', _, nbeh comb t', l'.prev.items.drop l'.ph.curr, em, hr.trans k1, .inr (.inl rfl), ⟨⟨by rw [hget], ?_, k2.prevOk, ?_, ?_, rfl, ?_, .inr ⟨?_, ?_⟩⟩,
      k2.q, fun d hd => (hem d hd).2, k2.head, fun _ => k2.consumed, fun k => absurd k (by simp), ?_, ?_, ?_, ?_, ?_, .inl ⟨?_, ?_⟩⟩⟩
    · rw [k2.q]; exact (Queue.pushAll_ok h.qOk _).1
    · have h1 : ∀ d ∈ l.prev.items.take (l.ph.curr + 1) ++ back ++ l.prev.items.drop (l.ph.curr + 1), IsBytes d := by
        intro d hd
        rcases List.mem_append.1 hd with hd | hd
        · rcases List.mem_append.1 hd with hd | hd
          · exact h.bytes d (List.mem_of_mem_take hd)
          · exact (hback d hd).2
        · exact h.bytes d (List.mem_of_mem_drop hd)
      intro d hd
      rcases k2.items with k | k
      · rw [k] at hd; simp only at hd; rw [hins.2] at hd; exact h1 d hd
      · rw [k] at hd; simp only at hd; rw [hins.2] at hd
        rcases List.mem_append.1 hd with hd | hd
        · exact h1 d hd
        · simp at hd; subst hd; intro x hx; simp at hx
    · rw [hcur]
      have : l.ph.curr + 1 ≤ (l.prev.items.take (l.ph.curr + 1) ++ back ++ l.prev.items.drop (l.ph.curr + 1)).length := by
        simp only [List.length_append]; omega
      rcases k2.items with k | k
      · rw [k]; simp only; rw [hins.2]; exact this
      · rw [k]; simp only; rw [hins.2, List.length_append (bs := [[]])]; omega
    · rw [hget]; exact hfine
    · rw [hget]; exact hon
    · have := k2.held; simp only [hi] at this; exact this
    · rw [hF]; exact Nat.le_refl _
    · rw [hF]; simp only [nbeh]
      rw [hin, nfcRun_hold hst, nonEmpty_append, nonEmpty_append (a := l'.prev.items.drop _), hne', List.append_assoc]
    · rw [hF, k2.ierr]; rfl
    · rw [hF, k2.oerr]; rfl
    · rw [hF]; rfl
    · rw [hF]; simp only [nbeh]
      rw [hin, nonEmpty_append (a := l'.prev.items.drop _), hne', (fine_nonEmpty hem).2, List.length_cons]
      simp only [NfcAct.left] at hsz
      rw [List.append_assoc, List.length_append (as := back)]; omega
    · exact hemp

theorem n_visit (hN : NPhase s e comb) (h : NInv e comb F l rem fut) :
    (∃ l' ctl, LReach s s.type.outer l l' ctl ∧ (ctl = .goto .leave ∨ ctl = .nextBegin) ∧
      NQuiet e comb F l l' rem fut ∧ (l.ph.curr < l.prev.items.length → nrank l' < nrank l) ∧
      (ctl = .nextBegin → l.ph.curr < l.prev.items.length)) ∨
    (∃ l' ctl F' rem' em, LReach s s.type.outer l l' ctl ∧ DCtl s.type ctl ∧
      NDecide e comb F l l' rem fut F' rem' em) := by
  by_cases hc : l.ph.curr < l.prev.items.length
  · by_cases he : l.prev.items[l.ph.curr] = []
    · left
      obtain ⟨l', h1, h2, h3⟩ := n_empty hN h hc he
      exact ⟨l', _, h1, .inr rfl, h2, fun _ => h3, fun _ => hc⟩
    · exact .inr (n_read hN h hc he)
  · left
    have hh : l.prev.hasNext l.ph.curr = false := by simp [Queue.hasNext, hc]
    refine ⟨l, .goto .leave, ?_, .inl rfl, ⟨h, rfl, rfl, rfl, rfl, fun _ => rfl, fun _ => Nat.le_refl _, Nat.le_refl _, Nat.le_refl _⟩,
      fun e => absurd e hc, fun e => by simp at e⟩
    rw [hN.type]
    exact .one rfl (by simp [PType.outer, localStep, itOuter, hh])

theorem n_flush (hN : NPhase s e comb) (h : NInv e comb F l rem fut) (hf : nonEmpty fut = [])
    (hc : l.ph.curr = l.prev.items.length) (hp : l.ph.fPending = true) :
    ∃ l' ctl F' rem' em, LReach s s.type.dead l l' ctl ∧ DCtl s.type ctl ∧ NDecide e comb F l l' rem fut F' rem' em := by
  have hheld : (e.get (l.ph.priv 0)).on = true ∧ Held 0 l := by
    rcases h.st with ⟨_, k, _⟩ | k
    · rw [k.pend] at hp; simp at hp
    · exact k
  have hi := h.idx
  have hrem : nonEmpty rem = [] := by rw [h.remEq, hc, List.drop_length]; rfl
  have hF := h.beh
  have hff := flush_fine h.fine
  have hfine := h.fine
  generalize ht : e.get (l.ph.priv 0) = t at hF hff hheld hfine
  refine ⟨{ l with ph := ({ l.ph with
      fPending := false, fLoop := false, fMatch := false
      priv := setPriv l.ph.priv l.ph.index (e.put t.flush.1 (l.ph.priv l.ph.index))
      q := l.ph.q.pushAll t.flush.2 }).reset s }, .goto .begin, nbeh comb t.flush.1, rem, t.flush.2, .one (by rw [hN.type]; rfl) ?_, .inl rfl, ?_⟩
  · rw [hN.type]
    simp only [PType.dead, localStep, interDead, hheld.2.fmatch, if_true, emitMatch, hheld.2.data, Static.codec, hi, hN.codec, nfcCodec, anyByte, nfcFlush, ht]
    simp [Ph.reset]
  have hget : e.get (setPriv l.ph.priv l.ph.index (e.put t.flush.1 (l.ph.priv l.ph.index)) 0) = t.flush.1 := by
    simp [setPriv, hi, e.get_put]
  have hrf : nonEmpty (rem ++ fut) = [] := by rw [nonEmpty_append, hrem, hf]; rfl
  refine ⟨⟨by show _ = nbeh comb (e.get (setPriv _ _ _ 0)); rw [hget], (Queue.pushAll_ok h.qOk _).1, h.prevOk, h.bytes, h.currle, h.remEq, ?_, .inl ⟨?_, ⟨rfl, rfl, rfl, rfl, rfl⟩, .inr ⟨hrem, hf⟩⟩⟩,
    rfl, fun d hd => (hff.2.2 d hd).2, rfl, fun _ => rfl, fun k => absurd k (by simp), ?_, ?_, ?_, ?_, ?_, .inl ⟨?_, ?_⟩⟩
  · show (e.get (setPriv _ _ _ 0)).Fine
    rw [hget]; exact hff.1
  · show (e.get (setPriv _ _ _ 0)).on = false
    rw [hget]; exact hff.2.1
  · rw [hF]; exact Nat.le_refl _
  · rw [hF]; simp only [nbeh]
    rw [hrf, nfcRun_nil, nfcRun_nil]
    have : t.flush.1.flush.2 = [] := by unfold Nfc.flush; simp [hheld.1]
    rw [this]; simp [nonEmpty]
  · rw [hF]; rfl
  · rw [hF]; rfl
  · rw [hF]; rfl
  · rw [hF]; simp only [nbeh]
    rw [hrf, (fine_nonEmpty hff.2.2).2]
    simp [Nfc.size, Nfc.flush, hheld.1]
  · exact Nat.le_succ _

/-- _NFC phases are a kind of phase. -/
def nfcKind (hN : NPhase s e comb) : Kind s where
  Inv := NInv e comb
  dec := false
  pads := hpads
  rank := nrank
  qok := fun h => ⟨h.qOk, h.prevOk, h.currle⟩
  visit := fun h => n_visit hN h
  flush := fun h h1 h2 h3 => .inr (n_flush hN h h1 h2 h3)
  append := by
    intro F l l' rem fut em fut' h h1 h2 h3 _ h5 _
    have hit : l'.prev.items = l.prev.items ++ em := by rw [h2, (Queue.pushAll_ok h.prevOk em).2]
    have htk : l'.prev.items.take l'.ph.curr = l.prev.items.take l.ph.curr := by
      rw [h3, hit, List.take_append_of_le_length h.currle]
    refine ⟨by rw [h3]; exact h.beh, by rw [h3]; exact h.qOk, by rw [h2]; exact (Queue.pushAll_ok h.prevOk em).1, ?_, ?_, ?_,
      by rw [h3]; exact h.fine, ?_⟩
    · intro d hd
      rw [hit] at hd
      rcases List.mem_append.1 hd with h6 | h6
      · exact h.bytes d h6
      · exact h5 d h6
    · rw [h3, hit]
      have := h.currle
      simp only [List.length_append]; omega
    · rw [hit, h3, List.drop_append_of_le_length h.currle, nonEmpty_append, nonEmpty_append, h.remEq]
    · rw [htk, h3]
      rcases h.st with ⟨k1, k2, k3⟩ | ⟨k1, k2⟩
      · refine .inl ⟨k1, ⟨by rw [h3]; exact k2.index, by rw [h3]; exact k2.st, by rw [h3]; exact k2.loop, by rw [h3]; exact k2.fmatch, by rw [h3]; exact k2.pend⟩, ?_⟩
        rcases k3 with k3 | ⟨k3, k4⟩
        · exact .inl k3
        · rw [k4] at h1
          have h6 := (List.append_eq_nil_iff.1 h1.symm)
          exact .inr ⟨by rw [nonEmpty_append, k3, h6.1]; rfl, h6.2⟩
      · exact .inr ⟨k1, ⟨by rw [h3]; exact k2.index, by rw [h3]; exact k2.st, by rw [h3]; exact k2.offset, by rw [h3]; exact k2.loop, by rw [h3]; exact k2.fmatch, by rw [h3]; exact k2.pend, by rw [h3]; exact k2.data⟩⟩
  frame := by
    intro F l l' rem fut h h1 h2 h3 _
    refine ⟨by rw [h3]; exact h.beh, h2, by rw [h1]; exact h.prevOk, by rw [h1]; exact h.bytes, by rw [h1, h3]; exact h.currle,
      by rw [h1, h3]; exact h.remEq, by rw [h3]; exact h.fine, ?_⟩
    rw [h1, h3]
    rcases h.st with ⟨k1, k2, k3⟩ | ⟨k1, k2⟩
    · exact .inl ⟨k1, ⟨by rw [h3]; exact k2.index, by rw [h3]; exact k2.st, by rw [h3]; exact k2.loop, by rw [h3]; exact k2.fmatch, by rw [h3]; exact k2.pend⟩, k3⟩
    · exact .inr ⟨k1, ⟨by rw [h3]; exact k2.index, by rw [h3]; exact k2.st, by rw [h3]; exact k2.offset, by rw [h3]; exact k2.loop, by rw [h3]; exact k2.fmatch, by rw [h3]; exact k2.pend, by rw [h3]; exact k2.data⟩⟩
  rank_frame := by intro l l' h1 h2; simp only [nrank]; rw [h1, h2]
  pads_frame := by intro l l' h1 h2; simp only [hpads]; rw [h1]
  pads_append := by
    intro F l l' rem fut em h h1 h2
    simp only [hpads]; rw [h1, (Queue.pushAll_ok h.prevOk em).2, empties_append]; omega
  idle := by
    intro F l rem fut h h1 h2 h3
    have hoff : (e.get (l.ph.priv 0)).on = false := by
      rcases h.st with ⟨k, _⟩ | ⟨_, k⟩
      · exact k
      · rw [k.pend] at h2; simp at h2
    have hrem : nonEmpty rem = [] := by rw [h.remEq, List.drop_of_length_le (by omega)]; rfl
    rw [h.beh]
    simp only [nbeh]
    rw [nonEmpty_append, hrem, h3]
    refine ⟨?_, trivial, trivial, trivial⟩
    rw [List.nil_append, nfcRun_nil]
    simp [Nfc.flush, hoff, nonEmpty]
  noIn := by
    intro _ F l rem fut h
    rw [h.beh]; rfl

theorem nfcRun_fine {comb : Datum → Datum → Option Datum} (hx : FineComb comb) (n : Nat) :
    ∀ (t : Nfc) (ds : List Datum), t.size ds.length ≤ n → t.Fine → (∀ d ∈ ds, Fine d) → ∀ d ∈ nfcRun comb t ds, Fine d := by
  induction n using Nat.strongRecOn with
  | ind n ih =>
    intro t ds hn ht hds
    cases ds with
    | nil => rw [nfcRun_nil]; exact (flush_fine ht).2.2
    | cons d ds =>
      have hsz := step_size comb t d ds.length
      have hsf := step_fine hx ht (hds d (by simp))
      have hdt : ∀ x ∈ ds, Fine x := fun x hx => hds x (List.mem_cons_of_mem _ hx)
      generalize hst : t.step comb d = r at hsf hsz
      obtain ⟨t', a⟩ := r
      simp only [List.length_cons] at hn
      cases a with
      | dead =>
        rw [nfcRun_dead hst]
        intro x hxm
        rcases List.mem_cons.1 hxm with k | k
        · subst k; exact hds _ (by simp)
        · exact ih _ (by simp only [NfcAct.left] at hsz; omega) t' ds (Nat.le_refl _) hsf.2.2 hdt x k
      | hold em back =>
        rw [nfcRun_hold hst]
        intro x hxm
        rcases List.mem_append.1 hxm with k | k
        · exact hsf.2.2.1 x k
        · refine ih _ (by simp only [NfcAct.left] at hsz; rw [List.length_append]; omega) t' (back ++ ds) (Nat.le_refl _) hsf.2.1 ?_ x k
          intro y hy
          rcases List.mem_append.1 hy with k | k
          · exact hsf.2.2.2 y k
          · exact hdt y k
      | pass em =>
        rw [nfcRun_pass hst]
        intro x hxm
        rcases List.mem_append.1 hxm with k | k
        · exact hsf.2.2 x k
        · exact ih _ (by simp only [NfcAct.left] at hsz; omega) t' ds (Nat.le_refl _) hsf.2.1 hdt x k

/-- An _NFC phase. -/
theorem nfc_realises (hN : NPhase s e comb) {p : Nat → π} (hp : (e.get (p 0)).on = false) (hpe : (e.get (p 0)).pending = []) :
    Realises s (fun q => q = p) { out := fun ds => nfcRun comb (e.get (p 0)) (nonEmpty ds) } := by
  have hfine : (e.get (p 0)).Fine := ⟨fun k => by rw [hp] at k; simp at k, by rw [hpe]; simp⟩
  refine ⟨nfcKind hN, nbeh comb (e.get (p 0)), rfl, ?_, ?_⟩
  · intro ds hb _
    refine ⟨rfl, rfl, rfl, fun _ _ => trivial, ?_⟩
    have := nonEmpty_bytes hb
    intro d hd
    exact (nfcRun_fine hN.fine _ _ _ (Nat.le_refl _) hfine (fun d hd => ⟨this.2 d hd, this.1 d hd⟩) d hd).2
  intro l fut _ hl hpr _
  subst hpr
  have hn : nonEmpty l.prev.items = [] := by rw [hl.prev]; rfl
  refine ⟨rfl, by rw [hl.q]; rfl, by rw [hl.prev]; rfl, by rw [hl.prev]; simp [Queue.empty], by rw [hl.curr]; omega, ?_, hfine,
    .inl ⟨hp, ⟨hl.index, hl.st, hl.fLoop, hl.fMatch, hl.fPending⟩, .inl (by rw [hl.curr]; rfl)⟩⟩
  rw [hl.prev]; simp [Queue.empty]

end Verif.Engine
