import Verif.Proofs.EngineScan
import Verif.Proofs.MkMarked
import Verif.Proofs.Ebcdic

/-! The EBCDIC decoders, and the tables of both directions. -/

namespace Verif.Engine
open Verif.Spec
open Verif.MkTable (compiled)

variable {π : Type}

/-- The compiled table of an encoder. -/
theorem encoder_sends {T : Rules Nat Datum} (h : MarkedOk (fun _ => true) T) : SendsCodes (compiled π (encoderLines T)) T := by
  intro d x hx _
  obtain ⟨h1, h2, o, h3, h4, h5⟩ := marked_rule (π := π) h hx
  refine ⟨h1, h2, o, ⟨h3, fun a _ y _ ha hy => marked_alive h ha hy⟩, ?_, h4⟩
  have h5' : (compiled π (encoderLines T)).status o = _ := h5
  rw [h5']
  cases T.any (fun r => d.isPrefixOf r.1 && r.1 != d)
  · exact .inl rfl
  · exact .inr rfl

/-- What is needed of the table of a decoder. -/
structure ReadsCodes (c : Codec π) (S : Rules Nat Datum) : Prop where
  single : ∀ b x, lookup S [b] = some x → c.next 0 b ≠ 0 ∧ (c.status (c.next 0 b) = .subroutine ∨ c.status (c.next 0 b) = .submatchSubroutine) ∧
    c.data (c.next 0 b) = [x] ∧ IsBytes x
  pair : ∀ b d x, lookup S [b, d] = some x → c.next 0 b ≠ 0 ∧ (lookup S [b] = none → c.status (c.next 0 b) = .cont) ∧ c.next (c.next 0 b) d ≠ 0 ∧
    c.status (c.next (c.next 0 b) d) = .match_ ∧ c.data (c.next (c.next 0 b) d) = [x] ∧ IsBytes x

theorem walk_single {c : Codec π} {o b : Nat} (h : walk c 0 [b] = some o) : c.next 0 b ≠ 0 ∧ o = c.next 0 b := by
  simp only [walk] at h
  split at h
  · simp at h
  · rename_i k; simp at h; exact ⟨k, h.symm⟩

theorem walk_two {c : Codec π} {o b d : Nat} (h : walk c 0 [b, d] = some o) : c.next 0 b ≠ 0 ∧ c.next (c.next 0 b) d ≠ 0 ∧ o = c.next (c.next 0 b) d := by
  simp only [walk] at h
  split at h
  · simp at h
  · rename_i k
    split at h
    · simp at h
    · rename_i k2; simp at h; exact ⟨k, k2, h.symm⟩

/-- The compiled table of a decoder. -/
theorem decoder_reads {S : Rules Nat Datum} (h : MarkedOk (fun p => p.length == 1) S) (h2 : ∀ r ∈ S, r.1.length ≤ 2) :
    ReadsCodes (compiled π (decoderLines S)) S where
  single := by
    intro b x hx
    obtain ⟨k1, k2, o, k3, k4, k5⟩ := marked_rule (π := π) h hx
    obtain ⟨m1, rfl⟩ := walk_single k3
    refine ⟨m1, ?_, k4, k2⟩
    have k5' : (compiled π (decoderLines S)).status ((compiled π (decoderLines S)).next 0 b) = _ := k5
    rw [k5']
    cases S.any (fun r => [b].isPrefixOf r.1 && r.1 != [b])
    · exact .inl rfl
    · exact .inr rfl
  pair := by
    intro b d x hx
    obtain ⟨k1, k2, o, k3, k4, k5⟩ := marked_rule (π := π) h hx
    obtain ⟨m1, m2, rfl⟩ := walk_two k3
    refine ⟨m1, ?_, m2, ?_, k4, k2⟩
    · intro hn
      have := marked_lookup (π := π) h [b] (by simp)
      have hany : S.any (fun r => [b].isPrefixOf r.1 && r.1 != [b]) = true := by
        rw [List.any_eq_true]
        exact ⟨_, lookup_rule hx, by simp⟩
      rw [Verif.Engine.meaning_marked, hn, hany] at this
      obtain ⟨o', n1, n2, _⟩ := this
      obtain ⟨_, rfl⟩ := walk_single n1
      exact n2
    · have k5' : (compiled π (decoderLines S)).status ((compiled π (decoderLines S)).next ((compiled π (decoderLines S)).next 0 b) d) = _ := k5
      rw [k5']
      have hany : S.any (fun r => [b, d].isPrefixOf r.1 && r.1 != [b, d]) = false := by
        rw [List.any_eq_false]
        intro r hr
        simp only [Bool.and_eq_true, bne_iff_ne, not_and, Classical.not_not, List.isPrefixOf_iff_prefix]
        intro hp
        exact (hp.eq_of_length (by have := hp.length_le; have := h2 r hr; simp at *; omega)).symm
      rw [hany]
      rfl

/-- The decoder as an automaton. -/
def ebcdicScanner (S : Rules Nat Datum) : Scanner (Bool × Option Nat) where
  step := fun q b =>
    match q with
    | (m, none) =>
      if b = 0x0E then some ((true, none), some [])
      else if b = 0x0F then some ((false, none), some [])
      else if m then (if S.any (fun r => r.1.length == 2 && r.1.head? == some b) then some ((true, some b), none) else none)
      else (lookup S [b]).map fun x => ((false, none), some [x])
    | (_, some a) => (lookup S [a, b]).map fun x => ((true, none), some [x])
  rest := fun q => q.2.isNone

/-- The table has the shift codes, and nothing else that looks like them. -/
structure ShiftRules (S : Rules Nat Datum) : Prop where
  out : lookup S [0x0E] = some [0x01, 0x0E]
  in_ : lookup S [0x0F] = some [0x01, 0x0F]
  only : ∀ b x, lookup S [b] = some x → b ≠ 0x0E → b ≠ 0x0F → x ≠ [0x01, 0x0E] ∧ x ≠ [0x01, 0x0F]
  two : ∀ r ∈ S, r.1.length ≤ 2

/-- The phase. -/
structure DPhase (s : Static π) (e : Lens π Bool) (c : Codec π) (S : Rules Nat Datum) : Prop where
  type : s.type = .from_
  codec : s.codecs 0 = ebcdicDecoder e c
  reads : ReadsCodes c S
  shifts : ShiftRules S

/-- The phase in a state of the automaton. -/
def DAt (e : Lens π Bool) (c : Codec π) (q : Bool × Option Nat) (p : Ph π) : Prop :=
  p.index = 0 ∧ e.get (p.priv 0) = q.1 ∧
  match q.2 with
  | none => p.st = 0 ∧ p.fLoop = false ∧ p.fPending = false ∧ p.fMatch = false
  | some a => p.st = c.next 0 a ∧ p.fPending = true ∧ q.1 = true

variable {s : Static π} {e : Lens π Bool} {c : Codec π} {S : Rules Nat Datum}

theorem lookup_first {b : Nat} (h : S.any (fun r => r.1.length == 2 && r.1.head? == some b) = true) : ∃ d x, lookup S [b, d] = some x := by
  obtain ⟨r, hr, h'⟩ := List.any_eq_true.1 h
  clear h
  simp only [Bool.and_eq_true, beq_iff_eq] at h'
  obtain ⟨d, hd⟩ : ∃ d, r.1 = [b, d] := by
    match hr1 : r.1, h'.1, h'.2 with
    | [x, y], _, h2 => simp at h2; exact ⟨y, by rw [h2]⟩
  refine ⟨d, ?_⟩
  clear h'
  induction S with
  | nil => simp at hr
  | cons t S ih =>
    simp only [lookup]
    split
    · exact ⟨_, rfl⟩
    · rename_i hne
      rcases List.mem_cons.1 hr with rfl | hr
      · exact absurd hd hne
      · exact ih hr

/-- The step to the transition. -/
theorem d_adv (hD : DPhase s e c S) {l : Loc π} {b : Nat} (hi : l.ph.index = 0) (hc : 1 ≤ l.ph.curr)
    (hb : (l.prev.get l.ph.curr)[l.ph.i]? = some b) (hn : c.next l.ph.st b ≠ 0) :
    localStep s .fromInner l = ({ l with ph := { l.ph with offset := c.next l.ph.st b, st := c.next l.ph.st b, status := c.status (c.next l.ph.st b) } }, .goto .fromSw) := by
  obtain ⟨hlt, hbe⟩ := List.getElem?_eq_some_iff.1 hb
  have hc0 : ¬ l.ph.curr = 0 := by omega
  have h1 : (s.codec l.ph).next = c.next := by
    show (s.codecs l.ph.index).next = _; rw [hi, hD.codec]; rfl
  have h2 : (s.codec l.ph).status = c.status := by
    show (s.codecs l.ph.index).status = _; rw [hi, hD.codec]; rfl
  simp only [localStep, fromInner, if_neg hc0, dif_pos hlt, hbe, Ph.advance, h1, h2, ne_eq, hn, not_false_eq_true, if_true]

/-- The step to the callback. -/
theorem d_conv (hD : DPhase s e c S) {l : Loc π} (hi : l.ph.index = 0) (hs : l.ph.status = .subroutine ∨ l.ph.status = .submatchSubroutine) :
    localStep s .fromSw l = ({ ebcdicReadConv e c.data l with ph := { (ebcdicReadConv e c.data l).ph with fLoop := true } }, .goto .fromSw) := by
  have h1 : (s.codec l.ph).conv = ebcdicReadConv e c.data := by
    show (s.codecs l.ph.index).conv = _; rw [hi, hD.codec]; rfl
  rcases hs with k | k <;> simp only [localStep, fromSw, k, h1]

/-- The phase follows the automaton. -/
theorem ebcdic_scans (hD : DPhase s e c S) : Scans s (ebcdicScanner S) (DAt e c) where
  isFrom := hD.type
  same := by
    intro q p x i k h
    exact h
  pend := by
    rintro ⟨m, a⟩ p ⟨_, _, h⟩
    cases a with
    | none => exact h.2.2.1
    | some a => exact h.2.1
  step := by
    rintro l ⟨m, a⟩ b ⟨h1, h2, h3⟩ hc hb _
    simp only at h2
    cases a with
    | none =>
      obtain ⟨g1, g2, g3, g4⟩ := h3
      have single : ∀ x, lookup S [b] = some x → LReach s .fromInner l
          { ebcdicReadConv e c.data { l with ph := { l.ph with offset := c.next 0 b, st := c.next 0 b, status := c.status (c.next 0 b) } } with
            ph := { (ebcdicReadConv e c.data { l with ph := { l.ph with offset := c.next 0 b, st := c.next 0 b, status := c.status (c.next 0 b) } }).ph with fLoop := true } }
          (.goto .fromSw) := by
        intro x hx
        obtain ⟨k1, k2, k3, _⟩ := hD.reads.single b x hx
        have hadv := d_adv hD h1 hc hb (by rw [g1]; exact k1)
        rw [g1] at hadv
        exact .cons rfl hadv (.one rfl (d_conv hD h1 k2))
      simp only [ebcdicScanner]
      by_cases hE : b = 0x0E
      · simp only [if_pos hE]
        subst hE
        obtain ⟨k1, k2, k3, _⟩ := hD.reads.single _ _ hD.shifts.out
        refine ⟨rfl, by intro d hd; simp at hd, { l with
            prev := l.prev.listFree l.ph.curr
            ph := { l.ph with
              fMatch := false, fPending := false, fLoop := false, matchData := [], bak := l.ph.curr, curr := 0, consumed := l.ph.i + 1
              index := 0, offset := 0, st := 0, status := (s.codecs 0).status 0, priv := setPriv l.ph.priv 0 (e.put true (l.ph.priv 0)) } },
          (single _ hD.shifts.out).trans (.one rfl ?_), ⟨rfl, rfl, rfl, rfl, rfl, rfl, rfl⟩, ⟨rfl, by simp [setPriv, e.get_put], rfl, rfl, rfl, rfl⟩⟩
        simp [localStep, fromSw, ebcdicReadConv, k3, h1, Ph.reset]
      · simp only [if_neg hE]
        by_cases hF : b = 0x0F
        · simp only [if_pos hF]
          subst hF
          obtain ⟨k1, k2, k3, _⟩ := hD.reads.single _ _ hD.shifts.in_
          refine ⟨rfl, by intro d hd; simp at hd, { l with
              prev := l.prev.listFree l.ph.curr
              ph := { l.ph with
                fMatch := false, fPending := false, fLoop := false, matchData := [], bak := l.ph.curr, curr := 0, consumed := l.ph.i + 1
                index := 0, offset := 0, st := 0, status := (s.codecs 0).status 0, priv := setPriv l.ph.priv 0 (e.put false (l.ph.priv 0)) } },
            (single _ hD.shifts.in_).trans (.one rfl ?_), ⟨rfl, rfl, rfl, rfl, rfl, rfl, rfl⟩, ⟨rfl, by simp [setPriv, e.get_put], rfl, rfl, rfl, rfl⟩⟩
          simp [localStep, fromSw, ebcdicReadConv, k3, h1, Ph.reset]
        · simp only [if_neg hF]
          cases m with
          | false =>
            simp only [Bool.false_eq_true, if_false]
            cases hx : lookup S [b] with
            | none => trivial
            | some x =>
              obtain ⟨k1, k2, k3, k4⟩ := hD.reads.single _ _ hx
              obtain ⟨n1, n2⟩ := hD.shifts.only b x hx hE hF
              simp only [Option.map_some]
              refine ⟨rfl, by intro d hd; simp at hd; subst hd; exact k4, { l with
                  prev := l.prev.listFree l.ph.curr
                  ph := { l.ph with
                    fMatch := false, fPending := false, fLoop := false, matchData := [], bak := l.ph.curr, curr := 0, consumed := l.ph.i + 1
                    index := 0, offset := 0, st := 0, status := (s.codecs 0).status 0, q := l.ph.q.pushAll [x] } },
                (single _ hx).trans (.one rfl ?_), ⟨rfl, rfl, rfl, rfl, rfl, rfl, rfl⟩, ⟨rfl, h2, rfl, rfl, rfl, rfl⟩⟩
              have hdat : ∀ p : Ph π, p.index = 0 → (s.codec p).data = c.data := by
                intro p hp; show (s.codecs p.index).data = _; rw [hp, hD.codec]; rfl
              simp [localStep, fromSw, ebcdicReadConv, k3, h1, h2, n1, n2, Ph.reset, hdat]
          | true =>
            simp only [if_true]
            by_cases hany : S.any (fun r => r.1.length == 2 && r.1.head? == some b) = true
            · rw [if_pos hany]
              refine ⟨rfl, ?_⟩
              obtain ⟨d, y, hy⟩ := lookup_first hany
              obtain ⟨p1, p2, p3, p4, p5, _⟩ := hD.reads.pair b d y hy
              cases hx : lookup S [b] with
              | some x =>
                obtain ⟨k1, k2, k3, k4⟩ := hD.reads.single _ _ hx
                obtain ⟨n1, n2⟩ := hD.shifts.only b x hx hE hF
                have hdat : ∀ p : Ph π, p.index = 0 → (s.codec p).data = c.data := by
                  intro p hp; show (s.codecs p.index).data = _; rw [hp, hD.codec]; rfl
                refine ⟨{ l with
                    ph := { l.ph with
                      fMatch := true, fPending := true, fLoop := true, matchData := [x], bak := l.ph.curr, consumed := l.ph.i + 1, i := l.ph.i + 1
                      offset := c.next 0 b, st := c.next 0 b, status := .submatch } },
                  (single _ hx).trans (.one rfl ?_), ⟨rfl, rfl, rfl, rfl, rfl, rfl, rfl⟩, ⟨h1, h2, rfl, rfl, rfl⟩⟩
                simp [localStep, fromSw, ebcdicReadConv, k3, h1, h2, n1, n2, hdat]
              | none =>
                have hadv := d_adv hD h1 hc hb (by rw [g1]; exact p1)
                rw [g1] at hadv
                refine ⟨{ l with ph := { l.ph with offset := c.next 0 b, st := c.next 0 b, status := c.status (c.next 0 b), fPending := true, i := l.ph.i + 1 } },
                  .cons rfl hadv (.one rfl ?_), ⟨rfl, rfl, rfl, rfl, rfl, rfl, rfl⟩, ⟨h1, h2, rfl, rfl, rfl⟩⟩
                simp [localStep, fromSw, p2 hx]
            · rw [if_neg hany]; trivial
    | some a =>
      obtain ⟨g1, g2, g3⟩ := h3
      simp only [ebcdicScanner]
      cases hx : lookup S [a, b] with
      | none => trivial
      | some x =>
        simp only [Option.map_some]
        obtain ⟨p1, p2, p3, p4, p5, p6⟩ := hD.reads.pair a b x hx
        have hadv := d_adv hD h1 hc hb (by rw [g1]; exact p3)
        rw [g1] at hadv
        have hdat : ∀ p : Ph π, p.index = 0 → (s.codec p).data = c.data := by
          intro p hp; show (s.codecs p.index).data = _; rw [hp, hD.codec]; rfl
        refine ⟨rfl, by intro d hd; simp at hd; subst hd; exact p6, { l with
            prev := l.prev.listFree l.ph.curr
            ph := { l.ph with
              fMatch := false, fPending := false, fLoop := false, matchData := [], bak := l.ph.curr, curr := 0, consumed := l.ph.i + 1
              index := 0, offset := 0, st := 0, status := (s.codecs 0).status 0, q := l.ph.q.pushAll [x] } },
          .cons rfl hadv (.one rfl ?_), ⟨rfl, rfl, rfl, rfl, rfl, rfl, rfl⟩, ⟨rfl, by simp only at g3 ⊢; rw [h2, g3], rfl, rfl, rfl, rfl⟩⟩
        simp [localStep, fromSw, p4, p5, h1, Ph.reset, hdat]
  last := by
    intro l q out _ _ h
    simp [ebcdicScanner] at h

end Verif.Engine
