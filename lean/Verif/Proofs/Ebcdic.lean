import Verif.Proofs.Placed
import Verif.Proofs.MkCompiled
import Verif.Model.Ebcdic
import Verif.Spec.Shift

/-! The EBCDIC encoders as a kind of phase. -/

namespace Verif.Engine
open Verif.Spec
open Verif.MkTable (compiled)

variable {π : Type}

/-- `o` is reached by `d` without passing a dead end. -/
structure Reached (c : Codec π) (o : Nat) (d : List Nat) (o' : Nat) : Prop where
  walk : walk c o d = some o'
  alive : ∀ a b x, d = a ++ b → a ≠ [] → Verif.Engine.walk c o a = some x → c.status x ≠ .deadend

theorem Reached.cons {c : Codec π} {o o' b : Nat} {d : List Nat} (h : Reached c o (b :: d) o') :
    c.next o b ≠ 0 ∧ c.status (c.next o b) ≠ .deadend ∧ Reached c (c.next o b) d o' := by
  have hn : c.next o b ≠ 0 := by
    intro k
    have := h.walk
    simp [Verif.Engine.walk, k] at this
  refine ⟨hn, h.alive [b] d _ rfl (by simp) (by simp [Verif.Engine.walk, hn]), ?_, ?_⟩
  · have := h.walk
    simpa [Verif.Engine.walk, hn] using this
  · intro a b' x h1 h2 h3
    refine h.alive (b :: a) b' x (by rw [h1]; rfl) (by simp) ?_
    simpa [Verif.Engine.walk, hn] using h3

/-- The transitions on a whole datum, when there is a path for it. -/
theorem scan_reached {s : Static π} (d : List Nat) (hd : d ≠ []) {p : Ph π} {o : Nat}
    (h : Reached (s.codecs p.index) p.st d o) :
    ∃ b, p.scan s d = (false, { p with offset := o, st := o, status := (s.codecs p.index).status o, i := p.i + d.length, fLoop := b }) := by
  induction d generalizing p with
  | nil => exact absurd rfl hd
  | cons c d ih =>
    obtain ⟨h1, h2, h3⟩ := h.cons
    have hadv : p.advance s c = { p with offset := (s.codecs p.index).next p.st c, st := (s.codecs p.index).next p.st c,
                                         status := (s.codecs p.index).status ((s.codecs p.index).next p.st c) } := by
      simp only [Ph.advance, Static.codec, ne_eq, h1, not_false_eq_true, if_true]
    have key : ∃ b, p.scan s (c :: d) = ({ p with offset := (s.codecs p.index).next p.st c, st := (s.codecs p.index).next p.st c
                                                  status := (s.codecs p.index).status ((s.codecs p.index).next p.st c)
                                                  fLoop := b, i := p.i + 1 } : Ph π).scan s d := by
      simp only [Ph.scan, hadv]
      cases hst : (s.codecs p.index).status ((s.codecs p.index).next p.st c)
      all_goals first
        | exact absurd hst h2
        | exact ⟨p.fLoop, rfl⟩
        | exact ⟨true, rfl⟩
    obtain ⟨b, key⟩ := key
    rw [key]
    cases d with
    | nil =>
      have ho : o = (s.codecs p.index).next p.st c := by
        have := h3.walk
        simp [Verif.Engine.walk] at this
        exact this.symm
      exact ⟨b, by rw [ho]; rfl⟩
    | cons c' d' =>
      obtain ⟨b', hb'⟩ := ih (by simp) (p := { p with offset := (s.codecs p.index).next p.st c, st := (s.codecs p.index).next p.st c
                                                      status := (s.codecs p.index).status ((s.codecs p.index).next p.st c)
                                                      fLoop := b, i := p.i + 1 }) h3
      refine ⟨b', ?_⟩
      rw [hb']
      simp only [List.length_cons]
      congr 2
      omega

/-- The table sends a datum with a code to a callback state with this code. -/
def SendsCodes (c : Codec π) (T : Rules Nat Datum) : Prop :=
  ∀ d x, lookup T d = some x → d ≠ [] → x ≠ [] ∧ IsBytes x ∧ ∃ o, Reached c 0 d o ∧
    (c.status o = .subroutine ∨ c.status o = .submatchSubroutine) ∧ c.data o = [x]

/-- An encoding phase with shift codes. -/
structure EPhase (s : Static π) (e : Lens π Bool) (c : Codec π) (T : Rules Nat Datum) : Prop where
  type : s.type = .to_
  one : s.codecn = 0
  codec : s.codecs 0 = ebcdicEncoder e c
  enc : SendsCodes c T

/-- The codes of data that have one. -/
def codesFor (T : Rules Nat Datum) (ds : List Datum) : List Datum := ds.filterMap (lookup T)

/-- What it will do. -/
def ebeh (e : Lens π Bool) (T : Rules Nat Datum) (m : Bool) : Beh π where
  out := fun ds => shifted m (codesFor T (nonEmpty ds))
  inE := fun _ => 0
  outE := fun _ => 0
  toks := fun ds => 2 * (codesFor T (nonEmpty ds)).length + if m then 1 else 0
  fin := fun _ p => e.get (p 0) = false
  congr := by intro a b h; simp only [h, true_and]

/-- The invariant. -/
structure EInv (e : Lens π Bool) (T : Rules Nat Datum) (F : Beh π) (l : Loc π) (rem fut : List Datum) : Prop where
  beh : F = ebeh e T (e.get (l.ph.priv 0))
  qOk : l.ph.q.Ok
  prevOk : l.prev.Ok
  bytes : ∀ d ∈ l.prev.items, IsBytes d
  currle : l.ph.curr ≤ l.prev.items.length
  seen : nonEmpty (l.prev.items.take l.ph.curr) = []
  remEq : nonEmpty rem = nonEmpty l.prev.items
  idx : l.ph.index = 0
  st : l.ph.st = 0
  consumed : l.ph.consumed = 0
  flags : l.ph.fMatch = e.get (l.ph.priv 0) ∧ l.ph.fPending = e.get (l.ph.priv 0) ∧ (e.get (l.ph.priv 0) = true → l.ph.matchData = [])
  ok : ∀ d ∈ nonEmpty rem ++ nonEmpty fut, (lookup T d).isSome

def erank (l : Loc π) : Nat := l.prev.items.length - l.ph.curr

variable {s : Static π} {e : Lens π Bool} {c : Codec π} {T : Rules Nat Datum} {F : Beh π} {l : Loc π} {rem fut : List Datum}

abbrev EQuiet (e : Lens π Bool) (T : Rules Nat Datum) (F : Beh π) (l l' : Loc π) (rem fut : List Datum) : Prop :=
  Quiet (EInv e T) false hpads erank F l l' rem fut

abbrev EDecide (e : Lens π Bool) (T : Rules Nat Datum) (F : Beh π) (l l' : Loc π) (rem fut : List Datum)
    (F' : Beh π) (rem' em : List Datum) : Prop :=
  Decide (EInv e T) false hpads F l l' rem fut F' rem' em

theorem e_empty (hR : EPhase s e c T) (h : EInv e T F l rem fut) (hc : l.ph.curr < l.prev.items.length)
    (he : l.prev.items[l.ph.curr] = []) :
    ∃ l', LReach s s.type.outer l l' (.goto s.type.outer) ∧ EQuiet e T F l l' rem fut ∧ erank l' < erank l := by
  have hh : l.prev.hasNext l.ph.curr = true := by simp [Queue.hasNext, hc]
  have htk : nonEmpty (l.prev.items.take (l.ph.curr + 1)) = nonEmpty (l.prev.items.take l.ph.curr) := by
    rw [take_succ' hc, nonEmpty_append, he]; simp [nonEmpty]
  have hg : l.prev.get (l.ph.curr + 1) = [] := by
    simp [Queue.get, List.getD_eq_getElem?_getD, List.getElem?_eq_getElem hc, he]
  refine ⟨{ l with ph := { l.ph with curr := l.ph.curr + 1, status := .nomatch, i := 0 } },
    .cons (pc1 := .toSw) (l1 := { l with ph := { l.ph with curr := l.ph.curr + 1, status := .nomatch, i := 0 } })
      (by rw [hR.type]; rfl) ?_ (.one rfl ?_), ⟨⟨h.beh, h.qOk, h.prevOk, h.bytes, by simp only; omega, by simp only [htk]; exact h.seen, h.remEq, h.idx, h.st, h.consumed,
        h.flags, h.ok⟩, rfl, rfl, rfl, rfl, fun _ => rfl, fun _ => Nat.le_refl _, Nat.le_refl _, ?_⟩, ?_⟩
  · simp [hR.type, PType.outer, localStep, itOuter, hh, hg, Ph.scan]
  · simp [hR.type, PType.outer, localStep, toSw]
  · simp only [erank]; omega
  · simp only [erank]; omega

theorem codesFor_cons {d x : Datum} {ds : List Datum} (h : lookup T d = some x) : codesFor T (d :: ds) = x :: codesFor T ds := by
  simp [codesFor, h]

theorem e_read (hR : EPhase s e c T) (h : EInv e T F l rem fut) (hc : l.ph.curr < l.prev.items.length)
    (hne : l.prev.items[l.ph.curr] ≠ []) :
    ∃ l' F' rem' em, LReach s s.type.outer l l' .nextBegin ∧ EDecide e T F l l' rem fut F' rem' em := by
  have hsplit : nonEmpty rem = l.prev.items[l.ph.curr] :: nonEmpty (l.prev.items.drop (l.ph.curr + 1)) := by
    rw [h.remEq, nonEmpty_take_drop l.prev.items l.ph.curr, h.seen, drop_cons hc, nonEmpty_cons hne]; rfl
  have hg : l.prev.get (l.ph.curr + 1) = l.prev.items[l.ph.curr] := by
    simp [Queue.get, List.getD_eq_getElem?_getD, List.getElem?_eq_getElem hc]
  have hok := h.ok l.prev.items[l.ph.curr] (by rw [hsplit]; simp)
  obtain ⟨x, hx⟩ := Option.isSome_iff_exists.1 hok
  obtain ⟨hx0, hxb, o, ho, hst, hdat⟩ := hR.enc _ _ hx hne
  have ho' : Reached (s.codecs l.ph.index) l.ph.st l.prev.items[l.ph.curr] o := by
    rw [h.idx, h.st, hR.codec]
    have hw : ∀ q p, walk (ebcdicEncoder e c) p q = walk c p q := by
      intro q
      induction q with
      | nil => intro p; rfl
      | cons a q ih => intro p; simp only [walk, ih]; rfl
    exact ⟨by rw [hw]; exact ho.walk, fun a b y h1 h2 h3 => ho.alive a b y h1 h2 (by rw [← hw]; exact h3)⟩
  obtain ⟨b, hscan⟩ := scan_reached (s := s) l.prev.items[l.ph.curr] hne
    (p := { l.ph with curr := l.ph.curr + 1, status := .nomatch, i := 0 }) ho'
  have hh : l.prev.hasNext l.ph.curr = true := by simp [Queue.hasNext, hc]
  have hcst : (s.codecs l.ph.index).status o = c.status o := by rw [h.idx, hR.codec]; rfl
  have hr : LReach s s.type.outer l { l with ph := { l.ph with
      curr := l.ph.curr + 1, offset := o, st := o, status := c.status o, i := l.prev.items[l.ph.curr].length, fLoop := b } } (.goto .toSw) := by
    refine .one (by rw [hR.type]; rfl) ?_
    simp only [hR.type, PType.outer, localStep, itOuter, hh, if_true, hg, hscan, hcst, Bool.false_eq_true, if_false, Nat.zero_add]
  have hfree := Queue.listFree_ok h.prevOk (l.ph.curr + 1 + 1)
  have hfi : (l.prev.listFree (l.ph.curr + 1 + 1)).items = l.prev.items.drop (l.ph.curr + 1) := hfree.2
  have hconv : (s.codec l.ph).conv = ebcdicConv e c.data := by
    show (s.codecs l.ph.index).conv = _
    rw [h.idx, hR.codec]; rfl
  -- the two states and what is put out
  obtain ⟨m', sh, hm', hsh, hout⟩ : ∃ (m' : Bool) (sh : List Datum),
      (if 1 < x.length ∧ e.get (l.ph.priv 0) = false then (true, [[0x0E]])
        else if x.length = 1 ∧ e.get (l.ph.priv 0) = true then (false, [[0x0F]]) else (e.get (l.ph.priv 0), [])) = (m', sh) ∧
      (AllBytes sh ∧ empties sh = 0) ∧
      ∀ cs, shifted (e.get (l.ph.priv 0)) (x :: cs) = sh ++ x :: shifted m' cs := by
    have hl : 0 < x.length := List.length_pos_iff.2 hx0
    by_cases h1 : 1 < x.length <;> cases hm : e.get (l.ph.priv 0)
    · exact ⟨true, [[0x0E]], by simp [h1], by simp [AllBytes, IsBytes, empties], by intro cs; simp [shifted, h1]⟩
    · exact ⟨true, [], by simp [h1]; omega, by simp [AllBytes, empties], by intro cs; simp [shifted, h1]⟩
    · exact ⟨false, [], by simp [h1], by simp [AllBytes, empties], by intro cs; simp [shifted, h1]⟩
    · exact ⟨false, [[0x0F]], by simp; omega, by simp [AllBytes, IsBytes, empties], by intro cs; simp [shifted, h1]⟩
  have hem : empties (sh ++ [x]) = 0 := by
    rw [empties_append, hsh.2]; simp [empties, hx0]
  refine ⟨{ l with
      prev := l.prev.listFree (l.ph.curr + 1 + 1)
      ph := { l.ph with
        curr := 0, index := 0, offset := 0, st := 0
        i := l.prev.items[l.ph.curr].length
        fLoop := if m' then b else false
        fMatch := m', fPending := m', matchData := []
        status := if m' then .noopNext else (s.codecs 0).status 0
        bak := l.ph.curr + 1 + 1
        priv := setPriv l.ph.priv 0 (e.put m' (l.ph.priv 0))
        q := l.ph.q.pushAll (sh ++ [x]) } },
    ebeh e T m', l.prev.items.drop (l.ph.curr + 1), sh ++ [x], ?_, ?_⟩
  · have hsw : ∀ l1 : Loc π, l1.ph.index = 0 → (l1.ph.status = .subroutine ∨ l1.ph.status = .submatchSubroutine) →
        toSw s l1 = (ebcdicConv e c.data l1, .goto .toSw) := by
      intro l1 k1 k2
      have k3 : (s.codec l1.ph).conv = ebcdicConv e c.data := by
        show (s.codecs l1.ph.index).conv = _
        rw [k1, hR.codec]; rfl
      rcases k2 with k | k <;> simp only [toSw, k, k3]
    refine hr.trans (.cons (pc1 := .toSw) rfl (hsw _ h.idx hst) ?_)
    have hdat' : (List.headD [x] ([] : Datum)) = x := rfl
    refine .one rfl ?_
    show toSw s _ = _
    simp only [ebcdicConv, h.idx, hdat, hdat', hm']
    cases m' with
    | true =>
      simp only [toSw, if_true]
      simp [h.consumed, Queue.pushAll]
    | false =>
      simp only [toSw, if_false, Bool.false_eq_true]
      simp [Queue.pushAll, Ph.reset]
  · refine ⟨⟨?_, (Queue.pushAll_ok h.qOk _).1, hfree.1, ?_, Nat.zero_le _, rfl, by simp only; rw [hfi], rfl, rfl, h.consumed, ?_, ?_⟩,
      rfl, ?_, rfl, fun _ => rfl, fun k => absurd k (by simp), ?_, ?_, ?_, ?_, ?_, .inl ⟨?_, ?_⟩⟩
    · simp [setPriv, e.get_put]
    · intro d hd; simp only at hd; rw [hfi] at hd; exact h.bytes d (List.mem_of_mem_drop hd)
    · simp [setPriv, e.get_put]
    · intro d hd
      refine h.ok d ?_
      rw [hsplit]
      simp only [List.cons_append, List.mem_cons]
      exact .inr hd
    · intro d hd
      rcases List.mem_append.1 hd with k | k
      · exact hsh.1 d k
      · simp at k; subst k; exact hxb
    · rw [h.beh]; exact Nat.le_refl _
    · rw [h.beh]; simp only [ebeh]
      rw [nonEmpty_append, nonEmpty_append, hsplit, List.cons_append, codesFor_cons hx, hout, nonEmpty_append, nonEmpty_append, nonEmpty_cons hx0, nonEmpty_cons hx0]
      simp [nonEmpty]
    · rw [h.beh]; rfl
    · rw [h.beh]; rfl
    · rw [h.beh]; rfl
    · rw [h.beh]; simp only [ebeh]
      rw [nonEmpty_append, nonEmpty_append, hsplit, List.cons_append, codesFor_cons hx, hem]
      simp only [List.length_cons]
      split <;> split <;> omega
    · simp only [hpads]; rw [hfi]
      have := empties_drop_le l.prev.items (l.ph.curr + 1); omega

theorem e_visit (hR : EPhase s e c T) (h : EInv e T F l rem fut) :
    (∃ l' ctl, LReach s s.type.outer l l' ctl ∧ (ctl = .goto .leave ∨ ctl = .nextBegin) ∧
      EQuiet e T F l l' rem fut ∧ (l.ph.curr < l.prev.items.length → erank l' < erank l) ∧
      (ctl = .nextBegin → l.ph.curr < l.prev.items.length)) ∨
    (∃ l' ctl F' rem' em, LReach s s.type.outer l l' ctl ∧ DCtl s.type ctl ∧
      EDecide e T F l l' rem fut F' rem' em) := by
  generalize hr : erank l = r
  induction r using Nat.strongRecOn generalizing l with
  | ind r ih =>
    by_cases hc : l.ph.curr < l.prev.items.length
    · by_cases he : l.prev.items[l.ph.curr] = []
      · obtain ⟨l1, h1, h3, h4⟩ := e_empty hR h hc he
        rcases ih (erank l1) (by omega) h3.inv rfl with ⟨l', ctl, k1, k2, k3, k4, k5⟩ | ⟨l', ctl, F', rem', em, k1, k2, k3⟩
        · left
          refine ⟨l', ctl, h1.trans k1, k2, ⟨k3.inv, k3.q.trans h3.q, k3.ierr.trans h3.ierr, k3.oerr.trans h3.oerr, k3.head.trans h3.head,
            fun e => (k3.consumed e).trans (h3.consumed e), fun e => absurd e (by simp), Nat.le_trans k3.pads h3.pads,
            Nat.le_trans k3.rank h3.rank⟩, fun _ => ?_, fun _ => hc⟩
          have := k3.rank; omega
        · right
          refine ⟨l', ctl, F', rem', em, h1.trans k1, k2, ⟨k3.inv, by rw [k3.q, h3.q], k3.bytes, k3.head.trans h3.head, fun e => (k3.consumed e).trans (h3.consumed e),
            fun e => absurd e (by simp), k3.inErr_le, k3.out, by rw [k3.ierr, h3.ierr], by rw [k3.oerr, h3.oerr], k3.fin, ?_⟩⟩
          have := h3.pads
          rcases k3.measure with ⟨m1, m2⟩ | ⟨m1, m2, m3⟩
          · exact .inl ⟨m1, by omega⟩
          · exact .inr ⟨m1, by omega, m3⟩
      · right
        obtain ⟨l', F', rem', em, h1, h2⟩ := e_read hR h hc he
        exact ⟨l', _, F', rem', em, h1, .inr (.inr rfl), h2⟩
    · left
      have hh : l.prev.hasNext l.ph.curr = false := by simp [Queue.hasNext, hc]
      refine ⟨l, .goto .leave, ?_, .inl rfl, ⟨h, rfl, rfl, rfl, rfl, fun _ => rfl, fun _ => Nat.le_refl _, Nat.le_refl _, Nat.le_refl _⟩,
        fun e => absurd e hc, fun e => by simp at e⟩
      rw [hR.type]
      exact .one rfl (by simp [PType.outer, localStep, itOuter, hh])

theorem e_flush (hR : EPhase s e c T) (h : EInv e T F l rem fut) (hf : nonEmpty fut = [])
    (hc : l.ph.curr = l.prev.items.length) (hp : l.ph.fPending = true) :
    ∃ l' ctl F' rem' em, LReach s s.type.dead l l' ctl ∧ DCtl s.type ctl ∧
      EDecide e T F l l' rem fut F' rem' em := by
  have hm : e.get (l.ph.priv 0) = true := h.flags.2.1 ▸ hp
  have hfm : l.ph.fMatch = true := h.flags.1.trans hm
  have hmd : l.ph.matchData = [] := h.flags.2.2 hm
  have hseen : nonEmpty l.prev.items = [] := by have := h.seen; rw [hc, List.take_length] at this; exact this
  have hrem : nonEmpty (rem ++ fut) = [] := by rw [nonEmpty_append, h.remEq, hseen, hf]; rfl
  refine ⟨{ l with ph := { l.ph with
      fPending := false, fLoop := false, fMatch := false, index := 0, offset := 0, st := 0, status := (s.codecs 0).status 0
      q := l.ph.q.push [0x0F]
      priv := setPriv l.ph.priv 0 (e.put false (l.ph.priv 0)) } }, .nextBegin, ebeh e T false, rem, [[0x0F]], .one (by rw [hR.type]; rfl) ?_, .inr (.inr rfl), ?_⟩
  · rw [hR.type]
    show toDead s l = _
    simp only [toDead, hfm, if_true, emitMatch, hmd, ne_eq, not_true_eq_false, if_false]
    simp [Static.codec, h.idx, hR.codec, ebcdicEncoder, ebcdicFlush, hm, Ph.reset]
  · refine ⟨⟨?_, (Queue.pushAll_ok h.qOk [[0x0F]]).1, h.prevOk, h.bytes, h.currle, h.seen, h.remEq, rfl, rfl, h.consumed, ?_, h.ok⟩,
      rfl, ?_, rfl, fun _ => rfl, fun k => absurd k (by simp), ?_, ?_, ?_, ?_, ?_, .inl ⟨?_, ?_⟩⟩
    · simp [setPriv, e.get_put]
    · simp [setPriv, e.get_put]
    · intro d hd; simp at hd; subst hd; simp [IsBytes]
    · rw [h.beh]; exact Nat.le_refl _
    · rw [h.beh]; simp only [ebeh, hrem, hm]
      simp [codesFor, shifted, nonEmpty]
    · rw [h.beh]; rfl
    · rw [h.beh]; rfl
    · rw [h.beh]; rfl
    · rw [h.beh]; simp only [ebeh, hrem, hm]
      simp [codesFor, empties]
    · simp only [hpads]; omega

/-- The encoders are a kind of phase. -/
def ebcdicKind (hR : EPhase s e c T) : Kind s where
  Inv := EInv e T
  dec := false
  pads := hpads
  rank := erank
  qok := fun h => ⟨h.qOk, h.prevOk, h.currle⟩
  visit := fun h => e_visit hR h
  flush := fun h h1 h2 h3 => .inr (e_flush hR h h1 h2 h3)
  append := by
    intro F l l' rem fut em fut' h h1 h2 h3 _ h5 _
    have hit : l'.prev.items = l.prev.items ++ em := by rw [h2, (Queue.pushAll_ok h.prevOk em).2]
    have htk : l'.prev.items.take l'.ph.curr = l.prev.items.take l.ph.curr := by
      rw [h3, hit, List.take_append_of_le_length h.currle]
    refine ⟨by rw [h3]; exact h.beh, by rw [h3]; exact h.qOk, by rw [h2]; exact (Queue.pushAll_ok h.prevOk em).1, ?_, ?_, by rw [htk]; exact h.seen, ?_,
      by rw [h3]; exact h.idx, by rw [h3]; exact h.st, by rw [h3]; exact h.consumed, by rw [h3]; exact h.flags, ?_⟩
    · intro d hd
      rw [hit] at hd
      rcases List.mem_append.1 hd with h6 | h6
      · exact h.bytes d h6
      · exact h5 d h6
    · rw [h3, hit]
      have := h.currle
      simp only [List.length_append]; omega
    · rw [hit, nonEmpty_append, nonEmpty_append, h.remEq]
    · intro d hd
      refine h.ok d ?_
      rw [nonEmpty_append, List.append_assoc, ← h1] at hd
      exact hd
  frame := by
    intro F l l' rem fut h h1 h2 h3 _
    exact ⟨by rw [h3]; exact h.beh, h2, by rw [h1]; exact h.prevOk, by rw [h1]; exact h.bytes, by rw [h1, h3]; exact h.currle, by rw [h1, h3]; exact h.seen,
      by rw [h1]; exact h.remEq, by rw [h3]; exact h.idx, by rw [h3]; exact h.st, by rw [h3]; exact h.consumed, by rw [h3]; exact h.flags, h.ok⟩
  rank_frame := by intro l l' h1 h2; simp only [erank]; rw [h1, h2]
  pads_frame := by intro l l' h1 h2; simp only [hpads]; rw [h1]
  pads_append := by
    intro F l l' rem fut em h h1 h2
    simp only [hpads]; rw [h1, (Queue.pushAll_ok h.prevOk em).2, empties_append]; omega
  idle := by
    intro F l rem fut h h1 h2 h3
    have hseen : nonEmpty l.prev.items = [] := by
      have := h.seen; rw [List.take_of_length_le (by omega)] at this; exact this
    have hm : e.get (l.ph.priv 0) = false := h.flags.2.1 ▸ h2
    rw [h.beh]
    simp only [ebeh]
    rw [nonEmpty_append, h.remEq, hseen, h3, hm]
    simp [codesFor, shifted, nonEmpty]
  noIn := by
    intro _ F l rem fut h
    rw [h.beh]; rfl

theorem shifted_bytes {cs : List Datum} (h : AllBytes cs) (m : Bool) : AllBytes (shifted m cs) := by
  induction cs generalizing m with
  | nil => cases m <;> simp [shifted, AllBytes, IsBytes]
  | cons x cs ih =>
    have ih' := fun m => ih (fun d hd => h d (List.mem_cons_of_mem _ hd)) m
    have hx := h x (by simp)
    have he : IsBytes [0x0E] := by simp [IsBytes]
    have hf : IsBytes [0x0F] := by simp [IsBytes]
    cases m <;> simp only [shifted] <;> split <;> intro d hd <;> simp only [List.mem_cons] at hd
    · rcases hd with rfl | rfl | hd
      · exact he
      · exact hx
      · exact ih' _ d hd
    · rcases hd with rfl | hd
      · exact hx
      · exact ih' _ d hd
    · rcases hd with rfl | hd
      · exact hx
      · exact ih' _ d hd
    · rcases hd with rfl | rfl | hd
      · exact hf
      · exact hx
      · exact ih' _ d hd

theorem codesOf_for {ds cs : List Datum} (h : codesOf T ds = some cs) : codesFor T ds = cs ∧ ∀ d ∈ ds, (lookup T d).isSome := by
  induction ds generalizing cs with
  | nil => simp [codesOf] at h; subst h; exact ⟨rfl, by simp⟩
  | cons d ds ih =>
    rw [codesOf] at h
    split at h
    · rename_i x xs h1 h2
      simp only [Option.some.injEq] at h
      subst h
      obtain ⟨k1, k2⟩ := ih h2
      refine ⟨by rw [codesFor_cons h1, k1], ?_⟩
      intro d' hd
      rcases List.mem_cons.1 hd with rfl | hd
      · rw [h1]; rfl
      · exact k2 d' hd
    · simp at h

/-- The encoding phase encodes. -/
theorem ebcdic_realises (hR : EPhase s e c T) {p : Nat → π} (hp : e.get (p 0) = false) :
    Realises s (fun q => q = p)
      { out := fun ds => shifted false ((codesOf T (nonEmpty ds)).getD [])
        ok := fun ds => (codesOf T (nonEmpty ds)).isSome
        fin := fun _ q => e.get (q 0) = false } := by
  refine ⟨ebcdicKind hR, ebeh e T false, rfl, ?_, ?_⟩
  · intro ds hb hk
    obtain ⟨cs, hcs⟩ := Option.isSome_iff_exists.1 hk
    obtain ⟨h1, h2⟩ := codesOf_for hcs
    have hout : (ebeh e T false).out ds = shifted false ((codesOf T (nonEmpty ds)).getD []) := by
      simp only [ebeh]; rw [h1, hcs]; rfl
    refine ⟨hout, rfl, rfl, fun _ h => h, ?_⟩
    show AllBytes (shifted false ((codesOf T (nonEmpty ds)).getD []))
    rw [hcs]
    refine shifted_bytes ?_ _
    intro x hx
    simp only [Option.getD_some] at hx
    rw [← h1, codesFor, List.mem_filterMap] at hx
    obtain ⟨d, hd, hx⟩ := hx
    exact (hR.enc d x hx ((nonEmpty_bytes hb).2 d hd)).2.1
  intro l fut _ hl hpr hok
  subst hpr
  obtain ⟨cs, hcs⟩ := Option.isSome_iff_exists.1 hok
  have hn : nonEmpty l.prev.items = [] := by rw [hl.prev]; rfl
  exact ⟨by rw [hp], by rw [hl.q]; rfl, by rw [hl.prev]; rfl, by rw [hl.prev]; simp [Queue.empty], by rw [hl.curr]; omega,
    by rw [hl.curr]; rfl, hn.symm, hl.index, hl.st, hl.consumed, ⟨by rw [hp]; exact hl.fMatch, by rw [hp]; exact hl.fPending, by rw [hp]; simp⟩,
    by simpa [nonEmpty] using (codesOf_for hcs).2⟩

end Verif.Engine
