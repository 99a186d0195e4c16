import Verif.Proofs.Symbols
import Verif.Proofs.EngineFrom

/-! The INTER and TO branches refine the token specification. -/

namespace Verif.Engine
open Verif.Spec

variable {π : Type}

/-- Tables of a rewriting or encoding phase. -/
structure ITables (s : Static π) (Rs : List (Rules Datum (List Datum))) : Prop where
  len : Rs.length ≤ s.codecn + 1
  rep : ∀ j, j < Rs.length → Represents (s.codecs j) (symbolRules (ruleAt Rs j))
  good : ∀ j, j < Rs.length → GoodRules (ruleAt Rs j)

/-- Number of empty data. -/
def empties : List Datum → Nat
  | [] => 0
  | d :: ds => (if d = [] then 1 else 0) + empties ds

theorem empties_append (a b : List Datum) : empties (a ++ b) = empties a + empties b := by
  induction a with
  | nil => simp [empties]
  | cons d a ih => simp [empties, ih]; omega

theorem empties_drop_le (a : List Datum) (k : Nat) : empties (a.drop k) ≤ empties a := by
  have := empties_append (a.take k) (a.drop k)
  rw [List.take_append_drop] at this; omega

theorem empties_drop_mono (a : List Datum) {j k : Nat} (h : j ≤ k) :
    empties (a.drop k) ≤ empties (a.drop j) := by
  have := empties_drop_le (a.drop j) (k - j)
  rwa [List.drop_drop, Nat.add_sub_cancel' h] at this

theorem empties_drop_pred (a : List Datum) (k : Nat) :
    empties (a.drop (k - 1)) ≤ empties (a.drop k) + 1 := by
  by_cases hk : k - 1 < a.length
  · rw [List.drop_eq_getElem_cons hk]
    simp only [empties]
    have : empties (a.drop (k - 1 + 1)) ≤ empties (a.drop k) := empties_drop_mono a (by omega)
    split <;> omega
  · rw [List.drop_of_length_le (by omega)]; simp [empties]

theorem empties_zero {a : List Datum} (h : ∀ d ∈ a, d ≠ []) : empties a = 0 := by
  induction a with
  | nil => rfl
  | cons d a ih =>
    simp only [empties, if_neg (h d (by simp)), ih (fun x hx => h x (by simp [hx]))]

/-- Empty data that still have to be passed on. -/
def padCount (l : Loc π) : Nat :=
  empties (if l.ph.fMatch then l.prev.items.drop l.ph.bak else l.prev.items)

/-- What holds throughout the INTER and TO branches: the current codec has decided on the basis of
having read the data `u`. -/
structure ICore (s : Static π) (Rs : List (Rules Datum (List Datum))) (l : Loc π)
    (u fut : List Datum) : Prop where
  prevOk : l.prev.Ok
  qOk : l.ph.q.Ok
  idx : l.ph.index < Rs.length
  loop : l.ph.fLoop = false
  bytes : ∀ d ∈ l.prev.items, IsBytes d
  currle : l.ph.curr ≤ l.prev.items.length
  pre : u <+: nonEmpty l.prev.items
  earlier : ∀ j, j < l.ph.index → longest (ruleAt Rs j) (nonEmpty l.prev.items ++ fut) = none
  unmatched : l.ph.fMatch = false → longest (ruleAt Rs l.ph.index) u = none
  ismatch : l.ph.fMatch = true → ∃ m b, longest (ruleAt Rs l.ph.index) u = some (m, b) ∧
    l.ph.matchData = b ∧ 1 ≤ l.ph.bak ∧ l.ph.bak ≤ l.prev.items.length ∧
    nonEmpty (l.prev.items.drop (l.ph.bak - 1)) = (nonEmpty l.prev.items).drop m

/-- Between data. -/
structure IInv (s : Static π) (Rs : List (Rules Datum (List Datum))) (l : Loc π)
    (u fut : List Datum) : Prop extends ICore s Rs l u fut where
  read : nonEmpty (l.prev.items.take l.ph.curr) = u
  walk : walk (s.codecs l.ph.index) 0 (syms u) = some l.ph.st
  pend : l.ph.fPending = true ↔ u ≠ []

/-- Nothing but the reading position changed. -/
structure Same (l l' : Loc π) : Prop where
  ne : nonEmpty l'.prev.items = nonEmpty l.prev.items
  q : l'.ph.q = l.ph.q
  ierr : l'.ierr = l.ierr
  oerr : l'.oerr = l.oerr
  head : l'.prevHeadLen = l.prevHeadLen
  consumed : l'.ph.consumed = l.ph.consumed
  priv : l'.ph.priv = l.ph.priv
  pads : padCount l' ≤ padCount l

theorem Same.refl (l : Loc π) : Same l l := ⟨rfl, rfl, rfl, rfl, rfl, rfl, rfl, Nat.le_refl _⟩

theorem Same.trans {a b c : Loc π} (h : Same a b) (k : Same b c) : Same a c :=
  ⟨k.ne.trans h.ne, k.q.trans h.q, k.ierr.trans h.ierr, k.oerr.trans h.oerr, k.head.trans h.head,
    k.consumed.trans h.consumed, k.priv.trans h.priv, Nat.le_trans k.pads h.pads⟩

/-- Progress measure of a phase. -/
def rankV (s : Static π) (l : Loc π) : Nat :=
  (if l.ph.fMatch then 0 else (s.codecn - l.ph.index) * (l.prev.items.length + 1)) +
    (l.prev.items.length - l.ph.curr)

/-- A decision of an INTER (`isTo = false`) or TO phase. -/
structure IDecide (isTo : Bool) (s : Static π) (Rs : List (Rules Datum (List Datum))) (l l' : Loc π)
    (fut : List Datum) : Prop where
  inv : IInv s Rs l' [] fut
  head : l'.prevHeadLen = l.prevHeadLen
  consumed : l'.ph.consumed = l.ph.consumed
  ierr : l'.ierr = l.ierr
  priv : l'.ph.priv = l.ph.priv
  ex : (∃ t, tokens Rs (nonEmpty l.prev.items ++ fut) = t :: tokens Rs (nonEmpty l'.prev.items ++ fut) ∧
        l'.ph.q = l.ph.q.pushAll (if isTo then dropMisses [t] else passMisses [t]) ∧
        (∀ d ∈ (if isTo then dropMisses [t] else passMisses [t]), d ≠ [] ∧ IsBytes d) ∧
        l'.oerr = l.oerr + (if isTo then misses [t] else 0) ∧ padCount l' ≤ padCount l + 1) ∨
      (isTo = false ∧ l'.ph.q = l.ph.q.pushAll [[]] ∧ nonEmpty l'.prev.items = nonEmpty l.prev.items ∧
        l'.oerr = l.oerr ∧ padCount l' + 1 ≤ padCount l)

theorem IDecide.of_same {isTo : Bool} {s : Static π} {Rs : List (Rules Datum (List Datum))}
    {l l1 l' : Loc π} {fut : List Datum} (h : IDecide isTo s Rs l1 l' fut) (k : Same l l1) :
    IDecide isTo s Rs l l' fut := by
  have hp := k.pads
  refine ⟨h.inv, h.head.trans k.head, h.consumed.trans k.consumed, h.ierr.trans k.ierr, h.priv.trans k.priv, ?_⟩
  rcases h.ex with ⟨t, h1, h2, h3, h4, h5⟩ | ⟨h1, h2, h3, h4, h5⟩
  · left; exact ⟨t, by rw [← k.ne]; exact h1, by rw [h2, k.q], h3, by rw [h4, k.oerr], by omega⟩
  · right; exact ⟨h1, by rw [h2, k.q], h3.trans k.ne, h4.trans k.oerr, by omega⟩

/-- The switch of a phase type. -/
def PType.sw : PType → PC
  | .from_ => .fromSw | .inter => .interSw | .to_ => .toSw

theorem nonEmpty_take_drop (ds : List Datum) (k : Nat) :
    nonEmpty ds = nonEmpty (ds.take k) ++ nonEmpty (ds.drop k) := by
  rw [← nonEmpty_append, List.take_append_drop]

theorem take_succ' {ds : List Datum} {k : Nat} (h : k < ds.length) :
    ds.take (k + 1) = ds.take k ++ [ds[k]] := by
  rw [List.take_add_one, List.getElem?_eq_getElem h]; rfl

theorem good_nonEmpty {ds : List Datum} (h : ∀ d ∈ ds, IsBytes d) : Good (nonEmpty ds) := by
  intro d hd
  obtain ⟨h1, h2⟩ := mem_nonEmpty.1 hd
  exact ⟨h2, h d h1⟩

/-- The dead-end entry: the current codec's match does not depend on what it has not read. -/
structure IDead (s : Static π) (Rs : List (Rules Datum (List Datum))) (l : Loc π)
    (u fut : List Datum) : Prop extends ICore s Rs l u fut where
  dec : longest (ruleAt Rs l.ph.index) (nonEmpty l.prev.items ++ fut) = longest (ruleAt Rs l.ph.index) u
  ne : nonEmpty l.prev.items ≠ []
  single : l.ph.fMatch = false → (∀ r ∈ ruleAt Rs l.ph.index, r.1.length ≤ 1) →
    (nonEmpty (l.prev.items.take l.ph.curr)).length = 1

theorem interSw_eq (s : Static π) (l : Loc π) (hl : l.ph.fLoop = false) {t : PType} (ht : t ≠ .from_) :
    localStep s t.sw l = match l.ph.status with
      | .nomatch => localStep s t.sw l
      | .deadend => (l, .goto t.dead)
      | .match_ =>
        let p := { l.ph with fMatch := false, fPending := false, fLoop := false, matchData := [],
                             q := l.ph.q.pushAll ((s.codec l.ph).data l.ph.st), bak := l.ph.curr + 1 }
        ({ l with prev := l.prev.listFree p.bak, ph := { p with curr := 0 }.reset s }, .nextBegin)
      | .submatch => itSep s (itSubmatch s l) t.outer t.dead
      | .cont => itSep s { l with ph := { l.ph with fPending := true } } t.outer t.dead
      | _ => localStep s t.sw l := by
  cases t with
  | from_ => exact absurd rfl ht
  | inter =>
    simp only [PType.sw, localStep, interSw, PType.outer, PType.dead]
    cases l.ph.status <;> rfl
  | to_ =>
    simp only [PType.sw, localStep, toSw, PType.outer, PType.dead]
    cases h : l.ph.status <;> simp only
    rw [hl]

theorem it_outer_eq (s : Static π) (l : Loc π) {t : PType} (ht : t ≠ .from_) :
    localStep s t.outer l = itOuter s l t.sw t.dead := by
  cases t with
  | from_ => exact absurd rfl ht
  | inter => rfl
  | to_ => rfl

theorem PType.outer_local (t : PType) : t.outer.isLocal = true := by cases t <;> rfl
theorem PType.sw_local (t : PType) : t.sw.isLocal = true := by cases t <;> rfl
theorem PType.dead_local (t : PType) : t.dead.isLocal = true := by cases t <;> rfl

/-- The separator transition after data `v` were read. -/
theorem it_sep {s : Static π} {Rs : List (Rules Datum (List Datum))} (hT : ITables s Rs)
    {t : PType} {l : Loc π} {v : List Datum} {d : Datum} {fut : List Datum}
    (hc : ICore s Rs l (v ++ [d]) fut)
    (hread : nonEmpty (l.prev.items.take l.ph.curr) = v ++ [d])
    (hw : walk (s.codecs l.ph.index) 0 (syms v ++ d) = some l.ph.st)
    (hpend : l.ph.fPending = true)
    (hv : (∀ r ∈ ruleAt Rs l.ph.index, r.1.length ≤ 1) → v = []) :
    ∃ l1, l1.prev = l.prev ∧ l1.ph.curr = l.ph.curr ∧ l1.ph.fMatch = l.ph.fMatch ∧
      l1.ph.index = l.ph.index ∧ Same l l1 ∧
      ((itSep s l t.outer t.dead = (l1, .goto t.outer) ∧ IInv s Rs l1 (v ++ [d]) fut) ∨
       (itSep s l t.outer t.dead = (l1, .goto t.dead) ∧ IDead s Rs l1 (v ++ [d]) fut)) := by
  have hrep := hT.rep _ hc.idx
  have hsn := walk_snoc hw 256
  by_cases hnx : (s.codecs l.ph.index).next l.ph.st 256 = 0
  · rw [if_pos hnx] at hsn
    have hadv : l.ph.advance s 256 = { l.ph with offset := 0, st := 0, status := .deadend } := by
      simp [Ph.advance, Static.codec, hnx, hc.loop, hrep.root]
    have hstep : itSep s l t.outer t.dead
        = ({ l with ph := { l.ph with offset := 0, st := 0, status := .deadend } }, .goto t.dead) := by
      simp [itSep, hadv]
    refine ⟨{ l with ph := { l.ph with offset := 0, st := 0, status := .deadend } },
      rfl, rfl, rfl, rfl, ⟨rfl, rfl, rfl, rfl, rfl, rfl, rfl, Nat.le_refl _⟩, .inr ⟨hstep, ?_⟩⟩
    have hdead := hrep.dead (p := syms v ++ d ++ [256]) (by simp) hsn
    rw [← syms_snoc] at hdead
    have hcl := dead_sep hdead
    refine ⟨⟨hc.prevOk, hc.qOk, hc.idx, hc.loop, hc.bytes, hc.currle, hc.pre, hc.earlier, hc.unmatched,
      hc.ismatch⟩, ?_, ?_, ?_⟩
    · obtain ⟨y, hy⟩ := hc.pre
      show longest (ruleAt Rs l.ph.index) (nonEmpty l.prev.items ++ fut) = _
      rw [← hy, List.append_assoc]
      exact longest_append_of_closed hcl
    · obtain ⟨y, hy⟩ := hc.pre
      show nonEmpty l.prev.items ≠ []
      rw [← hy]; simp
    · intro _ hs
      have := hv hs
      show (nonEmpty (l.prev.items.take l.ph.curr)).length = 1
      rw [hread, this]; rfl
  · rw [if_neg hnx] at hsn
    have hst := hrep.status _ _ (by simp) hsn
    have hne := (nodeStatus_ne_deadend (symbolRules (ruleAt Rs l.ph.index)) (syms v ++ d ++ [256])).1
    have hadv : l.ph.advance s 256 = { l.ph with
        offset := (s.codecs l.ph.index).next l.ph.st 256, st := (s.codecs l.ph.index).next l.ph.st 256,
        status := nodeStatus (symbolRules (ruleAt Rs l.ph.index)) (syms v ++ d ++ [256]) } := by
      simp [Ph.advance, Static.codec, hnx, hst]
    have hstep : itSep s l t.outer t.dead
        = ({ l with ph := { l.ph with
        offset := (s.codecs l.ph.index).next l.ph.st 256, st := (s.codecs l.ph.index).next l.ph.st 256,
        status := nodeStatus (symbolRules (ruleAt Rs l.ph.index)) (syms v ++ d ++ [256]) } },
          .goto t.outer) := by
      simp only [itSep, hadv, if_neg hne]
    refine ⟨{ l with ph := { l.ph with
        offset := (s.codecs l.ph.index).next l.ph.st 256, st := (s.codecs l.ph.index).next l.ph.st 256,
        status := nodeStatus (symbolRules (ruleAt Rs l.ph.index)) (syms v ++ d ++ [256]) } },
      rfl, rfl, rfl, rfl, ⟨rfl, rfl, rfl, rfl, rfl, rfl, rfl, Nat.le_refl _⟩, .inl ⟨hstep, ?_⟩⟩
    refine ⟨⟨hc.prevOk, hc.qOk, hc.idx, hc.loop, hc.bytes, hc.currle, hc.pre, hc.earlier, hc.unmatched,
      hc.ismatch⟩, hread, ?_, ?_⟩
    · rw [syms_snoc]; exact hsn
    · simp [hpend]

theorem walk_multi {c : Codec π} {R : Rules Datum (List Datum)} (hrep : Represents c (symbolRules R))
    (hR : GoodRules R) {u : List Datum} {o : Nat} (hu : u ≠ []) (hw : walk c 0 (syms u) = some o)
    (hs : ∀ r ∈ R, r.1.length ≤ 1) : False := by
  obtain ⟨v, d, rfl⟩ : ∃ v d, u = v ++ [d] := ⟨_, _, (List.dropLast_concat_getLast hu).symm⟩
  rw [syms_snoc] at hw
  obtain ⟨r', hr', hpre⟩ := (hrep.path (syms v ++ d ++ [256]) (by simp)).1 (by rw [hw]; rfl)
  obtain ⟨r, hr, rfl⟩ := List.mem_map.1 hr'
  have hl := hs r hr
  obtain ⟨y, hy⟩ := hpre
  have h256 : 256 ∈ symbols r.1 := by
    have hy' : syms v ++ d ++ [256] ++ y = symbols r.1 := hy
    rw [← hy']; simp
  have hg := (hR r hr).2.1
  match hr1 : r.1, hl with
  | [], _ => rw [hr1] at h256; simp [symbols] at h256
  | [e], _ =>
    rw [hr1] at h256 hg
    have := (hg e (by simp)).2 256 (by simpa [symbols] using h256)
    omega

/-- One datum is read. -/
theorem it_step {s : Static π} {Rs : List (Rules Datum (List Datum))} (hT : ITables s Rs)
    {t : PType} (ht : t ≠ .from_) {l : Loc π} {u fut : List Datum} (hi : IInv s Rs l u fut)
    (hlt : l.ph.curr < l.prev.items.length) :
    (∃ l1, localStep s t.outer l = (l1, .goto t.sw) ∧ l1.ph.status = .nomatch ∧ IInv s Rs l1 u fut ∧
      l1.prev = l.prev ∧ l1.ph.curr = l.ph.curr + 1 ∧ l1.ph.fMatch = l.ph.fMatch ∧
      l1.ph.index = l.ph.index ∧ Same l l1) ∨
    (∃ l1 u1 ctl, LReach s t.outer l l1 ctl ∧ Same l l1 ∧ l1.ph.index = l.ph.index ∧
      l1.ph.curr = l.ph.curr + 1 ∧ (l.ph.fMatch = true → l1.ph.fMatch = true) ∧
      (l1.prev.items.length = l.prev.items.length ∨
        (l1.prev.items.length = l.prev.items.length + 1 ∧ l.ph.curr + 1 = l.prev.items.length ∧
          l1.ph.fMatch = true)) ∧
      ((ctl = .goto t.outer ∧ IInv s Rs l1 u1 fut ∧ u1.length = u.length + 1) ∨
       (ctl = .goto t.dead ∧ IDead s Rs l1 u1 fut))) ∨
    (∃ l1, LReach s t.outer l l1 .nextBegin ∧ ∀ isTo, IDecide isTo s Rs l l1 fut) := by
  have hrep := hT.rep _ hi.idx
  have hgood := hT.good _ hi.idx
  generalize hd : l.prev.items[l.ph.curr] = d
  have hget : l.prev.get (l.ph.curr + 1) = d := by
    rw [← hd]; simp [Queue.get, List.getD_eq_getElem?_getD, List.getElem?_eq_getElem hlt]
  have htake : l.prev.items.take (l.ph.curr + 1) = l.prev.items.take l.ph.curr ++ [d] := by
    rw [take_succ' hlt, hd]
  have hdm : d ∈ l.prev.items := by rw [← hd]; exact List.getElem_mem _
  have hdb := hi.bytes d hdm
  have hstep : localStep s t.outer l =
      ({ l with ph := (Ph.scan s { l.ph with curr := l.ph.curr + 1, status := .nomatch, i := 0 } d).2 },
        .goto (if (Ph.scan s { l.ph with curr := l.ph.curr + 1, status := .nomatch, i := 0 } d).1
          then t.dead else t.sw)) := by
    rw [it_outer_eq s l ht]
    simp only [itOuter, Queue.hasNext, decide_eq_true hlt, if_true, hget]
  rcases scan_spec { l.ph with curr := l.ph.curr + 1, status := .nomatch, i := 0 } (syms u) d
      hrep hi.loop hi.walk with ⟨x, off, st, status, i, hx1, hx2, hx3, hx4⟩ |
        ⟨off, st, status, i, hs1, hs2, hs3, hs4⟩
  · -- dead end inside the datum
    right; left
    rw [hx4] at hstep
    have hdne : d ≠ [] := by
      rintro rfl
      simp at hx2; exact hx1 hx2
    have hall : nonEmpty l.prev.items = u ++ d :: nonEmpty (l.prev.items.drop (l.ph.curr + 1)) := by
      rw [nonEmpty_take_drop _ (l.ph.curr + 1), htake, nonEmpty_append, hi.read, nonEmpty_cons hdne]
      simp
    have hdead := dead_datum hx2 (hrep.dead (by simp [hx1]) hx3)
    refine ⟨_, u, _, .one t.outer_local hstep, ⟨rfl, rfl, rfl, rfl, rfl, rfl, rfl, Nat.le_refl _⟩, rfl, rfl, id,
      .inl rfl, .inr ⟨rfl, ⟨⟨hi.prevOk, hi.qOk, hi.idx, hi.loop, hi.bytes, hlt, hi.pre, hi.earlier,
        hi.unmatched, hi.ismatch⟩, ?_, ?_, ?_⟩⟩⟩
    · show longest (ruleAt Rs l.ph.index) (nonEmpty l.prev.items ++ fut) = _
      rw [hall, List.append_assoc, List.cons_append]
      exact longest_append_of_dead hdead
    · show nonEmpty l.prev.items ≠ []
      rw [hall]; simp
    · intro _ hsing
      have hu : u = [] := by
        by_cases hu : u = []
        · exact hu
        · exact (walk_multi hrep hgood hu hi.walk hsing).elim
      show (nonEmpty (l.prev.items.take (l.ph.curr + 1))).length = 1
      rw [htake, nonEmpty_append, hi.read, hu, nonEmpty_cons hdne]; rfl
  · rw [hs4] at hstep
    by_cases hdne : d = []
    · -- an empty datum
      left
      refine ⟨_, hstep, hs3 hdne, ?_, rfl, rfl, rfl, rfl, ⟨rfl, rfl, rfl, rfl, rfl, rfl, rfl, Nat.le_refl _⟩⟩
      refine ⟨⟨hi.prevOk, hi.qOk, hi.idx, hi.loop, hi.bytes, hlt, hi.pre, hi.earlier,
        hi.unmatched, hi.ismatch⟩, ?_, ?_, hi.pend⟩
      · show nonEmpty (l.prev.items.take (l.ph.curr + 1)) = u
        rw [htake, nonEmpty_append, hi.read, hdne, nonEmpty_cons_nil]; simp
      · rw [hdne, List.append_nil] at hs1; exact hs1
    · right
      have hstat := hs2 hdne
      have hread : nonEmpty (l.prev.items.take (l.ph.curr + 1)) = u ++ [d] := by
        rw [htake, nonEmpty_append, hi.read, nonEmpty_cons hdne]; rfl
      have hall : nonEmpty l.prev.items
          = (u ++ [d]) ++ nonEmpty (l.prev.items.drop (l.ph.curr + 1)) := by
        rw [nonEmpty_take_drop _ (l.ph.curr + 1), hread]
      have hgud : Good (u ++ [d]) := by
        rw [← hread]
        exact good_nonEmpty (fun e he => hi.bytes e (List.mem_of_mem_take he))
      have hlk : lookup (symbolRules (ruleAt Rs l.ph.index)) (syms u ++ d)
          = lookup (ruleAt Rs l.ph.index) (u ++ [d]) := by
        rw [← symbols_snoc]; exact lookup_symbolRules hgood hgud
      have hsing : (∀ r ∈ ruleAt Rs l.ph.index, r.1.length ≤ 1) → u = [] := by
        intro hsing
        by_cases hu : u = []
        · exact hu
        · exact (walk_multi hrep hgood hu hi.walk hsing).elim
      have hpre : (u ++ [d]) <+: nonEmpty l.prev.items := ⟨_, hall.symm⟩
      rcases nodeStatus_cases (symbolRules (ruleAt Rs l.ph.index)) (syms u ++ d) with hns | hns | hns
      · -- CONTINUE
        left
        rw [hns] at hstat
        subst hstat
        have hnone := longest_rules_cont hns
        rw [hlk] at hnone
        have hlong : longest (ruleAt Rs l.ph.index) (u ++ [d]) = longest (ruleAt Rs l.ph.index) u := by
          rw [longest_snoc, hnone]
        generalize hl0 : ({ l with ph := { l.ph with
            curr := l.ph.curr + 1, status := .cont, i := i, offset := off, st := st } } : Loc π) = l0 at hstep
        have hstep2 := interSw_eq s l0 (by rw [← hl0]; exact hi.loop) ht
        have hst0 : l0.ph.status = .cont := by rw [← hl0]
        rw [hst0] at hstep2
        simp only at hstep2
        generalize hl1 : ({ l0 with ph := { l0.ph with fPending := true } } : Loc π) = l1 at hstep2
        have hcore : ICore s Rs l1 (u ++ [d]) fut := by
          subst hl1; subst hl0
          refine ⟨hi.prevOk, hi.qOk, hi.idx, hi.loop, hi.bytes, hlt, hpre, hi.earlier, ?_, ?_⟩
          · intro h; rw [hlong]; exact hi.unmatched h
          · intro h
            rw [hlong]; exact hi.ismatch h
        have e1 : l1.prev = l.prev := by subst hl1; subst hl0; rfl
        have e2 : l1.ph.curr = l.ph.curr + 1 := by subst hl1; subst hl0; rfl
        have e3 : l1.ph.fMatch = l.ph.fMatch := by subst hl1; subst hl0; rfl
        have e4 : l1.ph.index = l.ph.index := by subst hl1; subst hl0; rfl
        have e5 : Same l l1 := by
          subst hl1; subst hl0; exact ⟨rfl, rfl, rfl, rfl, rfl, rfl, rfl, Nat.le_refl _⟩
        obtain ⟨l2, g1, g2, g3, g4, g5, g6⟩ := it_sep (t := t) hT hcore (by rw [e1, e2]; exact hread)
          (by rw [e4]; subst hl1; subst hl0; exact hs1) (by subst hl1; rfl) (by rw [e4]; exact hsing)
        rcases g6 with ⟨h1, h2⟩ | ⟨h1, h2⟩
        · refine ⟨l2, u ++ [d], _, .cons t.outer_local hstep (.one t.sw_local (hstep2.trans h1)),
            e5.trans g5, g4.trans e4, g2.trans e2, fun h => by rw [g3, e3]; exact h,
            .inl (by rw [g1, e1]), .inl ⟨rfl, h2, by simp⟩⟩
        · refine ⟨l2, u ++ [d], _, .cons t.outer_local hstep (.one t.sw_local (hstep2.trans h1)),
            e5.trans g5, g4.trans e4, g2.trans e2, fun h => by rw [g3, e3]; exact h,
            .inl (by rw [g1, e1]), .inr ⟨rfl, h2⟩⟩
      · -- SUBMATCH
        left
        rw [hns] at hstat
        subst hstat
        obtain ⟨b, hb⟩ := nodeStatus_submatch hns
        have hdata := hrep.data (syms u ++ d) _ b hs1 hb
        rw [hlk] at hb
        have hlong : longest (ruleAt Rs l.ph.index) (u ++ [d]) = some ((u ++ [d]).length, b) := by
          rw [longest_snoc, hb]; simp
        generalize hl0 : ({ l with ph := { l.ph with
            curr := l.ph.curr + 1, status := .submatch, i := i, offset := off, st := st } } : Loc π) = l0 at hstep
        have hstep2 := interSw_eq s l0 (by rw [← hl0]; exact hi.loop) ht
        have hst0 : l0.ph.status = .submatch := by rw [← hl0]
        rw [hst0] at hstep2
        simp only at hstep2
        generalize hl1 : itSubmatch s l0 = l1 at hstep2
        have hq := Queue.push_ok hi.prevOk []
        by_cases hnx : l.ph.curr + 1 < l.prev.items.length
        · have hl1' : l1 = { l0 with ph := { l0.ph with
              fMatch := true, fPending := true, matchData := b, bak := l.ph.curr + 2 } } := by
            subst hl1; subst hl0
            simp only [itSubmatch, Queue.hasNext, decide_eq_true hnx, if_true]
            simp only [Static.codec, hdata]
          have e1 : l1.prev = l.prev := by rw [hl1']; subst hl0; rfl
          have e2 : l1.ph.curr = l.ph.curr + 1 := by rw [hl1']; subst hl0; rfl
          have e3 : l1.ph.fMatch = true := by rw [hl1']
          have e4 : l1.ph.index = l.ph.index := by rw [hl1']; subst hl0; rfl
          have hpads : padCount l1 ≤ padCount l := by
            unfold padCount
            rw [e3, e1, if_pos rfl]
            have hbak : l1.ph.bak = l.ph.curr + 2 := by rw [hl1']
            rw [hbak]
            cases hf : l.ph.fMatch with
            | false => simpa using empties_drop_le _ _
            | true =>
              simp only [if_true]
              apply empties_drop_mono
              obtain ⟨m, b', h1, h2, h3, h4, h5⟩ := hi.ismatch hf
              -- the earlier match ended at or before the current datum
              rcases Nat.lt_or_ge (l.ph.curr + 2) l.ph.bak with hgt | hle
              · exfalso
                have hlen := congrArg List.length h5
                have hmle := (longest_some h1).2.1
                rw [nonEmpty_take_drop l.prev.items (l.ph.bak - 1)] at hlen
                have htk : u.length + 1 ≤ (nonEmpty (l.prev.items.take (l.ph.bak - 1))).length := by
                  have : l.prev.items.take (l.ph.curr + 1)
                      = (l.prev.items.take (l.ph.bak - 1)).take (l.ph.curr + 1) := by
                    rw [List.take_take]; congr 1; omega
                  have h6 : nonEmpty (l.prev.items.take (l.ph.bak - 1))
                      = (u ++ [d]) ++ nonEmpty ((l.prev.items.take (l.ph.bak - 1)).drop (l.ph.curr + 1)) := by
                    rw [nonEmpty_take_drop _ (l.ph.curr + 1), ← this, hread]
                  rw [h6]; simp
                simp at hlen
                omega
              · exact hle
          have e5 : Same l l1 := by
            rw [hl1']; rw [hl1'] at hpads; subst hl0
            exact ⟨rfl, rfl, rfl, rfl, rfl, rfl, rfl, hpads⟩
          have hcore : ICore s Rs l1 (u ++ [d]) fut := by
            rw [hl1']; subst hl0
            refine ⟨hi.prevOk, hi.qOk, hi.idx, hi.loop, hi.bytes, hlt, hpre, hi.earlier, ?_, ?_⟩
            · intro h; simp at h
            · intro _
              refine ⟨_, b, hlong, rfl, by simp, by show l.ph.curr + 2 ≤ l.prev.items.length; omega, ?_⟩
              show nonEmpty (l.prev.items.drop (l.ph.curr + 2 - 1)) = _
              rw [hall, List.drop_left]; rfl
          obtain ⟨l2, g1, g2, g3, g4, g5, g6⟩ := it_sep (t := t) hT hcore (by rw [e1, e2]; exact hread)
            (by rw [e4, hl1']; subst hl0; exact hs1) (by rw [hl1']) (by rw [e4]; exact hsing)
          rcases g6 with ⟨h1, h2⟩ | ⟨h1, h2⟩
          · refine ⟨l2, u ++ [d], _, .cons t.outer_local hstep (.one t.sw_local (hstep2.trans h1)),
              e5.trans g5, g4.trans e4, g2.trans e2, fun h => by rw [g3, e3],
              .inl (by rw [g1, e1]), .inl ⟨rfl, h2, by simp⟩⟩
          · refine ⟨l2, u ++ [d], _, .cons t.outer_local hstep (.one t.sw_local (hstep2.trans h1)),
              e5.trans g5, g4.trans e4, g2.trans e2, fun h => by rw [g3, e3],
              .inl (by rw [g1, e1]), .inr ⟨rfl, h2⟩⟩
        · have hN : l.ph.curr + 1 = l.prev.items.length := by omega
          have htail : l.prev.tail = l.prev.items.length := hi.prevOk
          have hl1' : l1 = { l0 with prev := l.prev.push [], ph := { l0.ph with
              fMatch := true, fPending := true, matchData := b, bak := l.ph.curr + 2 } } := by
            subst hl1; subst hl0
            simp only [itSubmatch, Queue.hasNext, decide_eq_false hnx]
            simp only [Static.codec, hdata, htail, ← hN]
            rfl
          have e1 : l1.prev = l.prev.push [] := by rw [hl1']
          have e1' : l1.prev.items = l.prev.items ++ [[]] := by rw [e1]; exact hq.2
          have e2 : l1.ph.curr = l.ph.curr + 1 := by rw [hl1']; subst hl0; rfl
          have e3 : l1.ph.fMatch = true := by rw [hl1']
          have e4 : l1.ph.index = l.ph.index := by rw [hl1']; subst hl0; rfl
          have hne1 : nonEmpty (l.prev.items ++ [[]]) = nonEmpty l.prev.items := by
            rw [nonEmpty_append, nonEmpty_cons_nil]; simp
          have hbak : l1.ph.bak = l.ph.curr + 2 := by rw [hl1']
          have hpads : padCount l1 ≤ padCount l := by
            unfold padCount
            rw [e3, e1', if_pos rfl, hbak, List.drop_of_length_le (by simp; omega)]
            simp [empties]
          have e5 : Same l l1 := by
            refine ⟨by rw [e1', hne1], ?_, ?_, ?_, ?_, ?_, ?_, hpads⟩ <;> rw [hl1'] <;> subst hl0 <;> rfl
          have htk1 : (l.prev.items ++ [[]]).take (l.ph.curr + 1) = l.prev.items.take (l.ph.curr + 1) := by
            rw [List.take_append_of_le_length (by omega)]
          have hcore : ICore s Rs l1 (u ++ [d]) fut := by
            refine ⟨by rw [e1]; exact hq.1, ?_, ?_, ?_, ?_, ?_, by rw [e1', hne1]; exact hpre, ?_, ?_, ?_⟩
            · rw [hl1']; subst hl0; exact hi.qOk
            · rw [e4]; exact hi.idx
            · rw [hl1']; subst hl0; exact hi.loop
            · rw [e1']
              intro e he
              rcases List.mem_append.1 he with h | h
              · exact hi.bytes e h
              · simp at h; subst h; intro b hb; simp at hb
            · rw [e1', e2]; simp; omega
            · rw [e1', hne1, e4]; exact hi.earlier
            · intro h; rw [e3] at h; simp at h
            · intro _
              refine ⟨_, b, by rw [e4]; exact hlong, ?_, by rw [hbak]; omega, ?_, ?_⟩
              · rw [hl1']
              · rw [hbak, e1']; simp; omega
              · rw [hbak, e1', hne1, hall, List.drop_left]
                show nonEmpty ((l.prev.items ++ [[]]).drop (l.ph.curr + 1)) = _
                rw [List.drop_append_of_le_length (by omega), nonEmpty_append, nonEmpty_cons_nil]
                simp
          obtain ⟨l2, g1, g2, g3, g4, g5, g6⟩ := it_sep (t := t) hT hcore
            (by rw [e1', e2, htk1]; exact hread)
            (by rw [e4, hl1']; subst hl0; exact hs1) (by rw [hl1']) (by rw [e4]; exact hsing)
          have hlen2 : l2.prev.items.length = l.prev.items.length + 1 := by rw [g1, e1']; simp
          rcases g6 with ⟨h1, h2⟩ | ⟨h1, h2⟩
          · refine ⟨l2, u ++ [d], _, .cons t.outer_local hstep (.one t.sw_local (hstep2.trans h1)),
              e5.trans g5, g4.trans e4, g2.trans e2, fun h => by rw [g3, e3],
              .inr ⟨hlen2, hN, by rw [g3, e3]⟩, .inl ⟨rfl, h2, by simp⟩⟩
          · refine ⟨l2, u ++ [d], _, .cons t.outer_local hstep (.one t.sw_local (hstep2.trans h1)),
              e5.trans g5, g4.trans e4, g2.trans e2, fun h => by rw [g3, e3],
              .inr ⟨hlen2, hN, by rw [g3, e3]⟩, .inr ⟨rfl, h2⟩⟩
      · -- MATCH
        right
        rw [hns] at hstat
        subst hstat
        obtain ⟨⟨b, hb⟩, hleaf⟩ := nodeStatus_match hns
        have hdata := hrep.data (syms u ++ d) _ b hs1 hb
        rw [hlk] at hb
        have hlong : longest (ruleAt Rs l.ph.index) (u ++ [d]) = some ((u ++ [d]).length, b) := by
          rw [longest_snoc, hb]; simp
        have hcl := leaf_datum hgood hgud hleaf
        have hgb : GoodData b := (hgood _ (lookup_mem hb)).2.2
        generalize hl0 : ({ l with ph := { l.ph with
            curr := l.ph.curr + 1, status := .match_, i := i, offset := off, st := st } } : Loc π) = l0 at hstep
        have hstep2 := interSw_eq s l0 (by rw [← hl0]; exact hi.loop) ht
        have hst0 : l0.ph.status = .match_ := by rw [← hl0]
        rw [hst0] at hstep2
        simp only at hstep2
        refine ⟨_, .cons t.outer_local hstep (.one t.sw_local hstep2), fun isTo => ?_⟩
        subst hl0
        have hf := Queue.listFree_ok hi.prevOk (l.ph.curr + 1 + 1)
        have hqq := Queue.pushAll_ok hi.qOk b
        have hdataeq : (s.codec { l.ph with
            curr := l.ph.curr + 1, status := .match_, i := i, offset := off, st := st }).data st = b := hdata
        have hfi : (l.prev.listFree (l.ph.curr + 1 + 1)).items = l.prev.items.drop (l.ph.curr + 1) := hf.2
        have hfm : firstMatch Rs (nonEmpty l.prev.items ++ fut) = some ((u ++ [d]).length, b) := by
          apply firstMatch_at hi.idx hi.earlier
          rw [hall, List.append_assoc, longest_append_of_closed hcl, hlong]
        simp only [hdataeq]
        refine ⟨⟨⟨hf.1, ?_, by have := hi.idx; simp only [Ph.reset]; omega, rfl, ?_, by simp [Ph.reset], by simp, ?_, ?_, ?_⟩, ?_, ?_, ?_⟩,
          rfl, rfl, rfl, rfl, .inl ⟨.hit b, ?_, ?_, ?_, ?_, ?_⟩⟩
        · simpa [Ph.reset] using hqq.1
        · simp only [hfi]
          intro e he; exact hi.bytes e (List.mem_of_mem_drop he)
        · intro j hj; simp [Ph.reset] at hj
        · intro _; rfl
        · intro h; simp [Ph.reset] at h
        · simp [Ph.reset]
        · simp [Ph.reset, Verif.Engine.walk]
        · simp [Ph.reset]
        · simp only [hfi]
          rw [tokens_hit hfm, hall, List.append_assoc, List.drop_left]
        · cases isTo <;> simp [Ph.reset, dropMisses, passMisses]
        · cases isTo <;> simpa [dropMisses, passMisses] using hgb.2
        · cases isTo <;> simp [misses]
        · have hpl : padCount l ≥ empties (l.prev.items.drop (l.ph.curr + 1)) - 1 := by
            unfold padCount
            cases hfmm : l.ph.fMatch with
            | false => simp; have := empties_drop_le l.prev.items (l.ph.curr + 1); omega
            | true =>
              simp only [if_true]
              obtain ⟨m, b', h1, h2, h3, h4, h5⟩ := hi.ismatch hfmm
              have hbk : l.ph.bak ≤ l.ph.curr + 2 := by
                rcases Nat.lt_or_ge (l.ph.curr + 2) l.ph.bak with hgt | hle
                · exfalso
                  have hlen := congrArg List.length h5
                  have hmle := (longest_some h1).2.1
                  rw [nonEmpty_take_drop l.prev.items (l.ph.bak - 1)] at hlen
                  have h6 : nonEmpty (l.prev.items.take (l.ph.bak - 1))
                      = (u ++ [d]) ++ nonEmpty ((l.prev.items.take (l.ph.bak - 1)).drop (l.ph.curr + 1)) := by
                    have : l.prev.items.take (l.ph.curr + 1)
                        = (l.prev.items.take (l.ph.bak - 1)).take (l.ph.curr + 1) := by
                      rw [List.take_take]; congr 1; omega
                    rw [nonEmpty_take_drop _ (l.ph.curr + 1), ← this, hread]
                  rw [h6] at hlen; simp at hlen; omega
                · exact hle
              have h7 := empties_drop_pred l.prev.items (l.ph.curr + 2)
              have h8 := empties_drop_mono l.prev.items hbk
              have : l.ph.curr + 2 - 1 = l.ph.curr + 1 := by omega
              rw [this] at h7
              omega
          unfold padCount at hpl ⊢
          simp only [Ph.reset, hfi, Bool.false_eq_true, if_false]
          omega

end Verif.Engine
