import Verif.Proofs.EngineHandler

/-! Codecs with the tables `* ?` and `01* ?` are members of handler phases. -/

namespace Verif.Engine
open Verif.Spec

variable {π : Type}

theorem scan_any_loop {s : Static π} {conv : Loc π → Loc π} {fl : Option (Loc π → Loc π)} (d : Datum) :
    ∀ (p : Ph π), s.codecs p.index = anyByte conv fl → p.st = 1 → p.offset = 1 → p.fLoop = true → p.status = .subroutine →
      p.scan s d = (false, { p with i := p.i + d.length }) := by
  induction d with
  | nil => intro p _ _ _ _ _; rfl
  | cons c cs ih =>
    intro p h0 h1 h2 h3 h4
    have ha : p.advance s c = p := by
      simp only [Ph.advance, Static.codec, h0, anyByte, h1, h2, h3]
      cases p; simp_all
    simp only [Ph.scan, ha, h4]
    rw [ih _ (by exact h0) (by exact h1) (by exact h2) rfl rfl]
    cases p; simp_all; omega

theorem scan_any {s : Static π} {conv : Loc π → Loc π} {fl : Option (Loc π → Loc π)} {d : Datum} (hne : d ≠ [])
    (hb : IsBytes d) (p : Ph π) (h0 : s.codecs p.index = anyByte conv fl)
    (h : p.st = 0 ∨ (p.st = 1 ∧ p.offset = 1 ∧ p.fLoop = true)) :
    p.scan s d = (false, { p with offset := 1, st := 1, status := .subroutine, fLoop := true, i := p.i + d.length }) := by
  cases d with
  | nil => exact absurd rfl hne
  | cons c cs =>
    have hc : c < 256 := hb c (by simp)
    have ha : p.advance s c = { p with offset := 1, st := 1, status := .subroutine } := by
      rcases h with h | ⟨h1, h2, h3⟩
      · simp [Ph.advance, Static.codec, h0, anyByte, h, Nat.le_of_lt hc]
      · simp [Ph.advance, Static.codec, h0, anyByte, h1, h2, h3]
    simp only [Ph.scan, ha]
    rw [scan_any_loop cs _ (by exact h0) rfl rfl rfl rfl]
    simp; omega

/-- Reading a datum with the table `* ?`. -/
theorem any_read {s : Static π} (hn : s.type ≠ .from_) {conv : Loc π → Loc π} {fl : Option (Loc π → Loc π)} {l : Loc π}
    (h0 : s.codecs l.ph.index = anyByte conv fl)
    (hst : l.ph.st = 0 ∨ (l.ph.st = 1 ∧ l.ph.offset = 1 ∧ l.ph.fLoop = true))
    (hc : l.ph.curr < l.prev.items.length) (hne : l.prev.items[l.ph.curr] ≠ []) (hb : IsBytes l.prev.items[l.ph.curr]) :
    LReach s s.type.outer l (conv { l with ph := { l.ph with
      curr := l.ph.curr + 1, offset := 1, st := 1, status := .subroutine, fLoop := true
      i := l.prev.items[l.ph.curr].length } }) (.goto (if s.type = .inter then .interSw else .toSw)) := by
  have hg : l.prev.get (l.ph.curr + 1) = l.prev.items[l.ph.curr] := by
    simp [Queue.get, List.getD_eq_getElem?_getD, List.getElem?_eq_getElem hc]
  have hh : l.prev.hasNext l.ph.curr = true := by simp [Queue.hasNext, hc]
  have hs := scan_any (s := s) (conv := conv) (fl := fl) hne hb { l.ph with curr := l.ph.curr + 1, status := .nomatch, i := 0 } h0 hst
  simp only [Nat.zero_add] at hs
  cases ht : s.type with
  | from_ => exact absurd ht hn
  | inter =>
    refine .cons (pc1 := .interSw) (l1 := { l with ph := { l.ph with
      curr := l.ph.curr + 1, offset := 1, st := 1, status := .subroutine, fLoop := true
      i := l.prev.items[l.ph.curr].length } }) rfl ?_ (.one rfl ?_)
    · simp [PType.outer, localStep, itOuter, hh, hg, hs]
    · simp [localStep, interSw, Static.codec, h0, anyByte]
  | to_ =>
    refine .cons (pc1 := .toSw) (l1 := { l with ph := { l.ph with
      curr := l.ph.curr + 1, offset := 1, st := 1, status := .subroutine, fLoop := true
      i := l.prev.items[l.ph.curr].length } }) rfl ?_ (.one rfl ?_)
    · simp [PType.outer, localStep, itOuter, hh, hg, hs]
    · simp [localStep, toSw, Static.codec, h0, anyByte]

/-- What follows a callback that set NEXTPHASE. -/
theorem sw_next {s : Static π} (hn : s.type ≠ .from_) {l l1 : Loc π} {t : π} {out : List Datum} (hp : l.prev.Ok)
    (hc : l.ph.curr < l.prev.items.length) (hk : Kept l l1) (h1 : l1.prev = l.prev) (h2 : l1.ph.q = l.ph.q.pushAll out)
    (h3 : l1.ph.priv = setPriv l.ph.priv l.ph.index t) (h4 : l1.ph.curr = l.ph.curr + 1) (h5 : l1.ph.status = .nextphase) :
    ∃ l', LReach s (if s.type = .inter then .interSw else .toSw) l1 l' .nextBegin ∧ Emitted l l' t out := by
  have hfree : (l1.prev.listFree (l1.ph.curr + 1)).Ok ∧ (l1.prev.listFree (l1.ph.curr + 1)).items = l.prev.items.drop (l.ph.curr + 1) := by
    rw [h1, h4]
    refine ⟨(Queue.listFree_ok hp _).1, ?_⟩
    rw [(Queue.listFree_ok hp _).2]; rfl
  refine ⟨{ l1 with
      prev := l1.prev.listFree (l1.ph.curr + 1)
      ph := { l1.ph with fMatch := false, fPending := false, fLoop := false, matchData := [],
                         bak := l1.ph.curr + 1, curr := 0 }.reset s }, ?_, ?_⟩
  · cases ht : s.type with
    | from_ => exact absurd ht hn
    | inter => exact .one rfl (by simp [localStep, interSw, h5])
    | to_ => exact .one rfl (by simp [localStep, toSw, h5])
  · refine ⟨⟨hk.ierr, hk.oerr, hk.head, hk.consumed⟩, hfree.1, by simp only; rw [hfree.2], ?_, ?_, h2, h3, rfl,
      ⟨rfl, rfl, rfl, rfl, rfl⟩⟩
    · intro d hd; simp only at hd; rw [hfree.2] at hd; exact .inl (List.mem_of_mem_drop hd)
    · simp only; rw [hfree.2]
      have := empties_drop_le l.prev.items (l.ph.curr + 1); omega

/-- What follows a callback that set SUBMATCH, table `* ?`. -/
theorem any_hold {s : Static π} (hn : s.type ≠ .from_) {conv : Loc π → Loc π} {fl : Option (Loc π → Loc π)}
    {l l1 : Loc π} {t : π} {out : List Datum} (h0 : s.codecs l.ph.index = anyByte conv fl) (hp : l.prev.Ok)
    (hk : Kept l l1) (h1 : l1.prev = l.prev) (h2 : l1.ph.q = l.ph.q.pushAll out)
    (h3 : l1.ph.priv = setPriv l.ph.priv l.ph.index t) (h4 : l1.ph.curr = l.ph.curr + 1) (h5 : l1.ph.status = .submatch)
    (h6 : l1.ph.st = 1) (h7 : l1.ph.offset = 1) (h8 : l1.ph.fLoop = true) (h9 : l1.ph.index = l.ph.index) :
    ∃ l', LReach s (if s.type = .inter then .interSw else .toSw) l1 l' (.goto s.type.outer) ∧ Holding l l' t out := by
  have hcd : s.codecs l1.ph.index = anyByte conv fl := by rw [h9]; exact h0
  have hsep : ∀ (m : Loc π) (o d : PC), m.ph.index = l.ph.index → m.ph.st = 1 → m.ph.offset = 1 → m.ph.fLoop = true →
      itSep s m o d = ({ m with ph := { m.ph with offset := 1, st := 1, status := .subroutine } }, .goto o) := by
    intro m o d e1 e2 e3 e4
    simp [itSep, Ph.advance, Static.codec, e1, e2, e3, e4, h0, anyByte]
  have hsm : (itSubmatch s l1).ph.index = l.ph.index ∧ (itSubmatch s l1).ph.st = 1 ∧ (itSubmatch s l1).ph.offset = 1 ∧
      (itSubmatch s l1).ph.fLoop = true ∧ (itSubmatch s l1).ph.fMatch = true ∧ (itSubmatch s l1).ph.fPending = true ∧
      (itSubmatch s l1).ph.matchData = [] ∧ (itSubmatch s l1).ph.curr = l1.ph.curr ∧ (itSubmatch s l1).ph.q = l1.ph.q ∧
      (itSubmatch s l1).ph.priv = l1.ph.priv ∧ (itSubmatch s l1).ph.consumed = l1.ph.consumed ∧
      (itSubmatch s l1).ierr = l1.ierr ∧ (itSubmatch s l1).oerr = l1.oerr ∧ (itSubmatch s l1).prevHeadLen = l1.prevHeadLen := by
    have hd : (s.codec l1.ph).data l1.ph.st = [] := by simp [Static.codec, hcd, anyByte]
    simp only [itSubmatch]
    split <;> simp [h6, h7, h8, h9, (by rw [← h6]; exact hd : (s.codec l1.ph).data 1 = [])]
  obtain ⟨a1, a2, a3, a4, a5, a6, a7, a8, a9, a10, a11, a12, a13, a14⟩ := hsm
  have hit : (itSubmatch s l1).prev.Ok ∧ ((itSubmatch s l1).prev.items = l.prev.items ∨ (itSubmatch s l1).prev.items = l.prev.items ++ [[]]) := by
    simp only [itSubmatch, h1]
    split
    · exact ⟨hp, .inl rfl⟩
    · exact ⟨(Queue.pushAll_ok hp [[]]).1, .inr (Queue.pushAll_ok hp [[]]).2⟩
  have hl : LReach s (if s.type = .inter then .interSw else .toSw) l1
      { itSubmatch s l1 with ph := { (itSubmatch s l1).ph with offset := 1, st := 1, status := .subroutine } }
      (.goto s.type.outer) := by
    cases ht : s.type with
    | from_ => exact absurd ht hn
    | inter => exact .one rfl (by simp only [if_true, localStep, interSw, h5]; rw [hsep _ _ _ a1 a2 a3 a4]; rfl)
    | to_ => exact .one rfl (by
        rw [if_neg (by simp)]; simp only [localStep, toSw, h5]; rw [hsep _ _ _ a1 a2 a3 a4]; rfl)
  refine ⟨_, hl, ⟨⟨?_, ?_, ?_, ?_⟩, hit.1, hit.2, ?_, ?_, ?_, ⟨a1, rfl, rfl, a4, a5, a6, a7⟩⟩⟩
  · exact a12.trans hk.ierr
  · exact a13.trans hk.oerr
  · exact a14.trans hk.head
  · exact a11.trans hk.consumed
  · exact a9.trans h2
  · exact a10.trans h3
  · exact a8.trans h4

/-- What follows a callback that set DEADEND. -/
theorem sw_dead {s : Static π} (hn : s.type ≠ .from_) {l1 : Loc π} (h5 : l1.ph.status = .deadend) :
    LReach s (if s.type = .inter then .interSw else .toSw) l1 l1 (.goto s.type.dead) := by
  cases ht : s.type with
  | from_ => exact absurd ht hn
  | inter => exact .one rfl (by simp [localStep, interSw, h5, PType.dead])
  | to_ => exact .one rfl (by simp [localStep, toSw, h5, PType.dead])

theorem any_post {s : Static π} (hn : s.type ≠ .from_) {h : Handler π} {fl : Option (Loc π → Loc π)} {l : Loc π}
    (h0 : s.codecs l.ph.index = anyByte h.conv fl) (hp : l.prev.Ok)
    (hst : l.ph.st = 0 ∨ (l.ph.st = 1 ∧ l.ph.offset = 1 ∧ l.ph.fLoop = true))
    (hc : l.ph.curr < l.prev.items.length) (hne : l.prev.items[l.ph.curr] ≠ []) (hb : IsBytes l.prev.items[l.ph.curr])
    (hm : l.ph.fMatch = false ∨ h.act (l.ph.priv l.ph.index) l.prev.items[l.ph.curr] ≠ none) :
    Post s l (h.act (l.ph.priv l.ph.index) l.prev.items[l.ph.curr]) := by
  have hr := any_read hn h0 hst hc hne hb
  have hg : l.prev.get (l.ph.curr + 1) = l.prev.items[l.ph.curr] := by
    simp [Queue.get, List.getD_eq_getElem?_getD, List.getElem?_eq_getElem hc]
  have hgc : ∀ (k : Nat), k = l.ph.curr + 1 → l.prev.get k = l.prev.items[l.ph.curr] := fun k e => e ▸ hg
  cases ha : h.act (l.ph.priv l.ph.index) l.prev.items[l.ph.curr] with
  | none =>
    have hf : l.ph.fMatch = false := by
      rcases hm with hm | hm
      · exact hm
      · exact absurd ha hm
    refine ⟨_, hr.trans (sw_dead hn ?_), ⟨⟨?_, ?_, ?_, ?_⟩, ?_, ?_, ?_, ?_, ?_, ?_⟩⟩ <;>
      simp [Handler.conv, hg, ha, hf]
  | some r =>
    obtain ⟨t, out, b⟩ := r
    cases b with
    | false =>
      obtain ⟨l', k1, k2⟩ := sw_next (s := s) hn (t := t) (out := out) (l := l)
        (l1 := h.conv { l with ph := { l.ph with
          curr := l.ph.curr + 1, offset := 1, st := 1, status := .subroutine, fLoop := true
          i := l.prev.items[l.ph.curr].length } }) hp hc
        (by constructor <;> simp [Handler.conv, hg, ha])
        (by simp [Handler.conv, hg, ha]) (by simp [Handler.conv, hg, ha]) (by simp [Handler.conv, hg, ha])
        (by simp [Handler.conv, hg, ha]) (by simp [Handler.conv, hg, ha])
      exact ⟨l', _, hr.trans k1, .inr (.inr rfl), k2⟩
    | true =>
      obtain ⟨l', k1, k2⟩ := any_hold (s := s) hn (t := t) (out := out) (l := l)
        (l1 := h.conv { l with ph := { l.ph with
          curr := l.ph.curr + 1, offset := 1, st := 1, status := .subroutine, fLoop := true
          i := l.prev.items[l.ph.curr].length } }) h0 hp
        (by constructor <;> simp [Handler.conv, hg, ha])
        (by simp [Handler.conv, hg, ha]) (by simp [Handler.conv, hg, ha]) (by simp [Handler.conv, hg, ha])
        (by simp [Handler.conv, hg, ha]) (by simp [Handler.conv, hg, ha]) (by simp [Handler.conv, hg, ha])
        (by simp [Handler.conv, hg, ha]) (by simp [Handler.conv, hg, ha]) (by simp [Handler.conv, hg, ha])
      exact ⟨l', hr.trans k1, k2⟩

theorem setPriv_self (p : Nat → π) (j : Nat) : setPriv p j (p j) = p := by
  funext k; unfold setPriv; split
  · rename_i e; rw [e]
  · rfl

/-- Flushing a codec that waits. -/
theorem held_flush {s : Static π} (hn : s.type ≠ .from_) {h : Handler π} {j : Nat}
    (hfl : (s.codecs j).flush = some h.cbflush ∨ ((s.codecs j).flush = none ∧ ∀ t, h.flush t = (t, []))) :
    ∀ (l : Loc π), Held j l → ∃ l' ctl, LReach s s.type.dead l l' ctl ∧ DCtl s.type ctl ∧ Kept l l' ∧
    l'.prev = l.prev ∧ l'.ph.q = l.ph.q.pushAll (h.flush (l.ph.priv j)).2 ∧
    l'.ph.priv = setPriv l.ph.priv j (h.flush (l.ph.priv j)).1 ∧ l'.ph.curr = l.ph.curr ∧ Start 0 l' := by
  intro l hl
  have hE : ∀ (m : Loc π), m.ph.index = j → m.ph.matchData = [] →
      emitMatch s m false = { m with
        ph := { m.ph with
          priv := setPriv m.ph.priv j (h.flush (m.ph.priv j)).1
          q := m.ph.q.pushAll (h.flush (m.ph.priv j)).2
          fMatch := false }.reset s } := by
    intro m e1 e2
    subst e1
    simp only [emitMatch]
    rw [if_neg (by simp [e2])]
    simp only [Static.codec]
    rcases hfl with e | ⟨e, ef⟩
    · rw [e]; rfl
    · rw [e, ef, setPriv_self]; rfl
  refine ⟨emitMatch s { l with ph := { l.ph with fPending := false, fLoop := false } } false,
    if s.type = .inter then .goto .begin else .nextBegin, ?_, ?_, ?_⟩
  · cases ht : s.type with
    | from_ => exact absurd ht hn
    | inter => exact .one rfl (by simp [PType.dead, localStep, interDead, hl.fmatch])
    | to_ => exact .one rfl (by simp [PType.dead, localStep, toDead, hl.fmatch])
  · split
    · exact .inl rfl
    · exact .inr (.inr rfl)
  · rw [hE { l with ph := { l.ph with fPending := false, fLoop := false } } hl.index hl.data]
    exact ⟨⟨rfl, rfl, rfl, rfl⟩, rfl, rfl, rfl, rfl, ⟨rfl, rfl, rfl, rfl, rfl⟩⟩

/-- A codec with the table `* ?`. -/
theorem any_member {s : Static π} (hn : s.type ≠ .from_) {h : Handler π} {fl : Option (Loc π → Loc π)} {j : Nat}
    (h0 : s.codecs j = anyByte h.conv fl) (hfl : fl = some h.cbflush ∨ (fl = none ∧ ∀ t, h.flush t = (t, []))) :
    Member s j h where
  fresh := by
    intro l hs hp hb hc hne _
    have e := hs.index; subst e
    exact any_post hn h0 hp (.inl hs.st) hc hne (hb _ (List.getElem_mem hc)) (.inl hs.fmatch)
  held := by
    intro _ l hs hp hb hc hne ha
    have e := hs.index; subst e
    exact any_post hn h0 hp (.inr ⟨hs.st, hs.offset, hs.loop⟩) hc hne (hb _ (List.getElem_mem hc)) (.inr ha)
  flush := fun _ => held_flush hn (by rw [h0]; exact hfl)

end Verif.Engine
