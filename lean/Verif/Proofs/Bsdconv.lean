import Verif.Proofs.EngineScan
import Verif.Model.Bsdconv

/-! The decoder of the text representation. -/

namespace Verif.Engine
open Verif.Spec

variable {π : Type}

theorem pairUp_even : ∀ (ns : List Nat) (v : Nat), ns.length % 2 = 0 → pairUp (ns ++ [v]) = pairUp ns ++ [v]
  | [], _, _ => rfl
  | [_], _, h => by simp at h
  | a :: b :: r, v, h => by
    have := pairUp_even r v (by simp at h; omega)
    simp only [List.cons_append, pairUp, this]

theorem pairUp_ne {ns : List Nat} (h : ns ≠ []) : pairUp ns ≠ [] := by
  match ns, h with
  | [_], _ => simp [pairUp]
  | _ :: _ :: _, _ => simp [pairUp]

theorem nibble_or {a v : Nat} (ha : a < 16) (hv : v < 16) : (a * 16 ||| v) % 256 = 16 * a + v := by
  have e : a * 16 ||| v = 2 ^ 4 * a + v := by
    rw [Nat.two_pow_add_eq_or_of_lt (by omega)]; congr 1; omega
  rw [e]
  have : 2 ^ 4 * a + v < 256 := by omega
  rw [Nat.mod_eq_of_lt this]

theorem pairUp_odd : ∀ (ns : List Nat) (v : Nat), ns.length % 2 = 1 → (∀ x ∈ ns, x < 16) → v < 16 → pairUp (ns ++ [v]) = shiftLast (pairUp ns) v
  | [], _, h, _, _ => by simp at h
  | [a], v, _, h, hv => by
    simp only [List.cons_append, List.nil_append, pairUp, shiftLast]
    rw [nibble_or (h a (by simp)) hv]
  | a :: b :: r, v, h, hx, hv => by
    have ih := pairUp_odd r v (by simp at h; omega) (fun x h => hx x (by simp [h])) hv
    have hr : r ≠ [] := by intro e; subst e; simp at h
    simp only [List.cons_append, pairUp, ih]
    cases hp : pairUp r with
    | nil => exact absurd hp (pairUp_ne hr)
    | cons y ys => simp [shiftLast]

theorem pairUp_bytes : ∀ (ns : List Nat), (∀ x ∈ ns, x < 16) → IsBytes (pairUp ns)
  | [], _ => by intro b hb; simp [pairUp] at hb
  | [a], h => by intro b hb; simp [pairUp] at hb; have := h a (by simp); omega
  | a :: b :: r, h => by
    intro x hx
    simp only [pairUp, List.mem_cons] at hx
    rcases hx with rfl | hx
    · have := h a (by simp); have := h b (by simp); omega
    · exact pairUp_bytes r (fun y hy => h y (by simp [hy])) x hx

theorem digit_lt {c v : Nat} (h : digitValue c = some v) : v < 16 := by
  unfold digitValue at h
  split at h
  · simp at h; omega
  · split at h
    · simp at h; omega
    · split at h
      · simp at h; omega
      · simp at h

theorem hexTable_eq (c : Nat) : hexTable c = digitValue c := rfl

/-- The decoder as an automaton on the digits read; `none` after the end. -/
def hexScanner : Scanner (Option { ns : List Nat // ∀ x ∈ ns, x < 16 }) where
  step := fun q c =>
    match q with
    | none => none
    | some ns =>
      match h : digitValue c with
      | none => none
      | some v => some (some ⟨ns.1 ++ [v], by
          intro x hx
          rcases List.mem_append.1 hx with hx | hx
          · exact ns.2 x hx
          · simp at hx; subst hx; exact digit_lt h⟩, none)
  rest := fun q => match q with
    | none => true
    | some ns => ns.1.isEmpty
  last := fun q => match q with
    | none => none
    | some ns => if 2 ≤ ns.1.length then some [pairUp ns.1] else none

/-- The phase in a state of the automaton. -/
def HexAt (e : Lens π HexPriv) : Option { ns : List Nat // ∀ x ∈ ns, x < 16 } → Ph π → Prop
  | none, p => p.fPending = false
  | some ns, p => p.index = 0 ∧
    if ns.1 = [] then p.st = 0 ∧ p.fPending = false ∧ p.fMatch = false ∧ p.fLoop = false ∧ (e.get (p.priv 0)).flag = .clear
    else p.st = 1 ∧ p.fPending = true ∧ p.fLoop = true ∧ p.offset = 1 ∧ (p.fMatch = decide (2 ≤ ns.1.length)) ∧ (2 ≤ ns.1.length → p.matchData = []) ∧
      (e.get (p.priv 0)).buf = pairUp ns.1 ∧ (e.get (p.priv 0)).flag = (if ns.1.length % 2 = 0 then .a else .b)

/-- A phase with the decoder. -/
structure HexPhase (s : Static π) (e : Lens π HexPriv) : Prop where
  type : s.type = .from_
  codec : s.codecs 0 = hexDecoder e

variable {s : Static π} {e : Lens π HexPriv}

theorem hex_dead (hs : HexPhase s e) {l : Loc π} (h1 : l.ph.index = 0) (h5 : l.ph.fMatch = true) (h6 : l.ph.matchData = []) :
    localStep s .fromDead l = ({ l with ph := { l.ph with
        fPending := false, fLoop := false, fMatch := false
        q := l.ph.q.push (e.get (l.ph.priv 0)).buf
        index := 0, offset := 0, st := 0, status := (s.codecs 0).status 0 } }, .goto .begin) := by
  have hfl : (s.codecs 0).flush = some (hexFlush e) := by rw [hs.codec]; rfl
  simp [localStep, fromDead, emitMatch, h5, h6, Static.codec, h1, hfl, hexFlush, Ph.reset]

/-- The phase follows the automaton. -/
theorem hex_scans (hs : HexPhase s e) : Scans s hexScanner (HexAt e) where
  isFrom := hs.type
  same := by
    intro q p x i k h
    cases q with
    | none => exact h
    | some ns => exact h
  pend := by
    intro q p h
    cases q with
    | none => exact h
    | some ns =>
      obtain ⟨_, h⟩ := h
      by_cases hn : ns.1 = []
      · rw [if_pos hn] at h; rw [h.2.1]; simp [hexScanner, hn]
      · rw [if_neg hn] at h; rw [h.2.1]; simp [hexScanner, hn]
  step := by
    intro l q b hat hc hb hlt
    cases q with
    | none => trivial
    | some ns =>
      simp only [hexScanner]
      split
      · trivial
      · rename_i q' heq
        split at heq
        · simp at heq
        · rename_i v hv
          simp only [Option.some.injEq, Prod.mk.injEq, and_true] at heq
          subst heq
          refine ⟨by simp, ?_⟩
          obtain ⟨h1, h⟩ := hat
          obtain ⟨i1, i2⟩ := List.getElem?_eq_some_iff.1 hb
          have hc0 : ¬ l.ph.curr = 0 := by omega
          have hoff : (if (hexDecoder e).next l.ph.st b ≠ 0 then (hexDecoder e).next l.ph.st b else if l.ph.fLoop then l.ph.offset else 0) = 1 := by
            by_cases hn : ns.1 = []
            · rw [if_pos hn] at h
              rw [h.1]
              have : b ≤ 256 := by omega
              simp [hexDecoder, anyByte, this]
            · rw [if_neg hn] at h
              rw [h.1, h.2.2.1, h.2.2.2.1]
              simp [hexDecoder, anyByte]
          have hadv : localStep s .fromInner l = ({ l with ph := { l.ph with offset := 1, st := 1, status := .subroutine } }, .goto .fromSw) := by
            simp only [localStep, fromInner, if_neg hc0, dif_pos i1, i2, Ph.advance, Static.codec, h1, hs.codec, hoff]
            simp [hexDecoder, anyByte]
          have hget : (l.prev.get l.ph.curr).getD l.ph.i 0 = b := by
            rw [List.getD_eq_getElem?_getD, hb]; rfl
          have hconv : localStep s .fromSw { l with ph := { l.ph with offset := 1, st := 1, status := .subroutine } } =
              ({ l with ph := { l.ph with
                  offset := 1, st := 1, status := (hexDigitStep (e.get (l.ph.priv 0)) v).2, fLoop := true
                  priv := setPriv l.ph.priv 0 (e.put (hexDigitStep (e.get (l.ph.priv 0)) v).1 (l.ph.priv 0)) } }, .goto .fromSw) := by
            simp only [localStep, fromSw, Static.codec, h1, hs.codec, hexDecoder, anyByte, hexConv, hget, hexTable_eq, hv]
          have hdat : ∀ p : Ph π, p.index = 0 → (s.codec p).data = fun _ => [] := by
            intro p hp; show (s.codecs p.index).data = _; rw [hp, hs.codec]; rfl
          have hv16 := digit_lt hv
          by_cases hn : ns.1 = []
          · rw [if_pos hn] at h
            obtain ⟨a1, a2, a3, a4, a5⟩ := h
            have hst : hexDigitStep (e.get (l.ph.priv 0)) v = ({ (e.get (l.ph.priv 0)) with buf := [v], ptr := .live, flag := .b }, .cont) := by
              simp [hexDigitStep, a5]
            rw [hst] at hconv
            refine ⟨{ l with ph := { l.ph with
                  offset := 1, st := 1, status := .cont, fLoop := true, fPending := true, i := l.ph.i + 1
                  priv := setPriv l.ph.priv 0 (e.put { (e.get (l.ph.priv 0)) with buf := [v], ptr := .live, flag := .b } (l.ph.priv 0)) } },
              .cons rfl hadv (.cons rfl hconv (.one rfl ?_)), ⟨rfl, rfl, rfl, rfl, rfl, rfl, rfl⟩, h1, ?_⟩
            · simp [localStep, fromSw]
            · simp [hn, a3, setPriv, e.get_put, pairUp]
          · rw [if_neg hn] at h
            obtain ⟨a1, a2, a3, a4, a5, a6, a7, a8⟩ := h
            have hne : pairUp ns.1 ≠ [] := pairUp_ne hn
            obtain ⟨pt, hst⟩ : ∃ pt, hexDigitStep (e.get (l.ph.priv 0)) v =
                ({ (e.get (l.ph.priv 0)) with buf := pairUp (ns.1 ++ [v]), ptr := pt, flag := if (ns.1 ++ [v]).length % 2 = 0 then .a else .b }, .submatch) := by
              by_cases hp : ns.1.length % 2 = 0
              · refine ⟨.live, ?_⟩
                rw [if_pos hp] at a8
                have : ¬ (ns.1.length + 1) % 2 = 0 := by omega
                simp [hexDigitStep, a8, a7, hne, pairUp_even _ _ hp, this]
              · refine ⟨(e.get (l.ph.priv 0)).ptr, ?_⟩
                rw [if_neg hp] at a8
                have : (ns.1.length + 1) % 2 = 0 := by omega
                simp [hexDigitStep, a8, a7, hne, pairUp_odd _ _ (by omega) ns.2 hv16, this]
            rw [hst] at hconv
            have hlen : 1 ≤ ns.1.length := List.length_pos_iff.2 hn
            refine ⟨{ l with ph := { l.ph with
                  offset := 1, st := 1, status := .submatch, fLoop := true, fPending := true, fMatch := true, matchData := [], bak := l.ph.curr
                  consumed := l.ph.i + 1, i := l.ph.i + 1
                  priv := setPriv l.ph.priv 0 (e.put { (e.get (l.ph.priv 0)) with
                    buf := pairUp (ns.1 ++ [v]), ptr := pt, flag := if (ns.1 ++ [v]).length % 2 = 0 then .a else .b } (l.ph.priv 0)) } },
              .cons rfl hadv (.cons rfl hconv (.one rfl ?_)), ⟨rfl, rfl, rfl, rfl, rfl, rfl, rfl⟩, h1, ?_⟩
            · simp [localStep, fromSw, hdat, h1]
            · simp [setPriv, e.get_put, hlen]
      · rename_i heq
        split at heq <;> simp at heq
  last := by
    intro l q out hat hr hl
    cases q with
    | none => simp [hexScanner] at hr
    | some ns =>
      simp only [hexScanner] at hl
      split at hl
      · rename_i h2
        simp only [Option.some.injEq] at hl
        subst hl
        obtain ⟨h1, h⟩ := hat
        have hn : ns.1 ≠ [] := by intro e; rw [e] at h2; simp at h2
        rw [if_neg hn] at h
        obtain ⟨a1, a2, a3, a4, a5, a6, a7, a8⟩ := h
        refine ⟨by intro d hd; simp at hd; subst hd; exact pairUp_bytes _ ns.2, _, none,
          .one rfl (hex_dead hs h1 (by rw [a5]; simpa using h2) (a6 h2)), ⟨rfl, rfl, rfl, rfl, rfl, rfl, ?_⟩, rfl, rfl⟩
        simp [a7, Queue.pushAll]
      · simp at hl

end Verif.Engine
