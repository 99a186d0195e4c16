import Verif.Proofs.HandlerTable
import Verif.Spec.Codec

/-! Phases with a single callback codec. -/

namespace Verif.Engine
open Verif.Spec

variable {π σ : Type}

theorem setPriv_same (p : Nat → π) (j : Nat) (t : π) : setPriv p j t j = t := by simp [setPriv]

theorem handle_single (pass : Bool) (e : Lens π σ) (h : Handler σ) {hs : Nat → Handler π} (h0 : hs 0 = h.on e)
    (w : Bool) (p : Nat → π) (ds : List Datum) :
    (handle pass hs 0 (if w then some 0 else none) p ds).out = (h.run pass w (e.get (p 0)) ds).out ∧
    (handle pass hs 0 (if w then some 0 else none) p ds).refused = (h.run pass w (e.get (p 0)) ds).refused ∧
    e.get ((handle pass hs 0 (if w then some 0 else none) p ds).priv 0) = (h.run pass w (e.get (p 0)) ds).priv := by
  induction ds generalizing w p with
  | nil =>
    cases w
    · exact ⟨rfl, rfl, rfl⟩
    · simp only [if_true, handle, Handler.run, setPriv_same, h0, Handler.on, e.get_put, and_self]
  | cons d ds ih =>
    have hc : choose hs 0 p d (if w then some 0 else none) = ((hs 0).act (p 0) d).map (fun r => (0, r)) := by
      cases w <;> simp only [choose, attempt, if_true, Bool.false_eq_true, if_false] <;>
        (cases (hs 0).act (p 0) d <;> rfl)
    rw [handle_cons, hc, h0]
    cases ha : h.act (e.get (p 0)) d with
    | none =>
      have ha' : (h.on e).act (p 0) d = none := by simp only [Handler.on, ha, Option.map_none]
      rw [ha', Handler.run, ha]
      obtain ⟨a, b, c⟩ := ih false p
      simp only [Bool.false_eq_true, if_false] at a b c
      simp only [Option.map_none, Out.after, a, b, c, and_self]
    | some r =>
      obtain ⟨t', o, hold⟩ := r
      have ha' : (h.on e).act (p 0) d = some (e.put t' (p 0), o, hold) := by
        simp only [Handler.on, ha, Option.map_some]
      rw [ha', Handler.run, ha]
      obtain ⟨a, b, c⟩ := ih hold (setPriv p 0 (e.put t' (p 0)))
      rw [setPriv_same, e.get_put] at a b c
      simp only [Option.map_some, Out.after, a, b, c, and_self]

/-- What a codec has to guarantee: an invariant of its private data; only bytes are put out; a waiting codec does
not refuse the next datum. -/
structure Sound (h : Handler σ) (I : σ → Prop) : Prop where
  act : ∀ t d, I t → d ≠ [] → IsBytes d → ∀ t' out b, h.act t d = some (t', out, b) →
    I t' ∧ (∀ x ∈ out, IsBytes x) ∧ (b = true → ∀ d', d' ≠ [] → IsBytes d' → h.act t' d' ≠ none)
  flush : ∀ t, I t → I (h.flush t).1 ∧ ∀ x ∈ (h.flush t).2, IsBytes x

/-- The phase `s` has just the codec `h` with the table `* ?`. -/
structure Single (s : Static π) (e : Lens π σ) (h : Handler σ) : Prop where
  notFrom : s.type ≠ .from_
  one : s.codecn = 0
  codec : s.codecs 0 = anyByte (h.on e).conv (some (h.on e).cbflush) ∨
    (s.codecs 0 = anyByte (h.on e).conv none ∧ ∀ t, h.flush t = (t, []))

/-- A handler that refuses everything. -/
def Handler.never : Handler π where act := fun _ _ => none

theorem Sound.on {h : Handler σ} {I : σ → Prop} (hI : Sound h I) (e : Lens π σ) :
    Sound (h.on e) (fun x => I (e.get x)) where
  act := by
    intro x d hx hd hb x' out b ha
    simp only [Handler.on] at ha
    cases hr : h.act (e.get x) d with
    | none => rw [hr] at ha; simp at ha
    | some r =>
      obtain ⟨t, o, c⟩ := r
      rw [hr] at ha
      simp only [Option.map_some, Option.some.injEq, Prod.mk.injEq] at ha
      obtain ⟨rfl, rfl, rfl⟩ := ha
      obtain ⟨i1, i2, i3⟩ := hI.act _ _ hx hd hb _ _ _ hr
      refine ⟨by rw [e.get_put]; exact i1, i2, ?_⟩
      intro hc d' h1 h2
      have := i3 hc d' h1 h2
      simp only [Handler.on, e.get_put]
      cases hq : h.act t d' with
      | none => exact absurd hq this
      | some _ => simp
  flush := by
    intro x hx
    simp only [Handler.on, e.get_put]
    exact hI.flush _ hx

theorem single_handlers {s : Static π} {e : Lens π σ} {h : Handler σ} (hs : Single s e h) {I : σ → Prop}
    (hI : Sound h I) : Handlers s (fun j => if j = 0 then h.on e else Handler.never)
      (fun j x => j = 0 → I (e.get x)) where
  notFrom := hs.notFrom
  member := by
    intro j hj
    rw [hs.one] at hj
    obtain rfl : j = 0 := by omega
    rw [if_pos rfl]
    rcases hs.codec with hc | ⟨hc, hf⟩
    · exact any_member hs.notFrom hc (.inl rfl)
    · refine any_member hs.notFrom hc (.inr ⟨rfl, ?_⟩)
      intro x
      simp only [Handler.on, hf, e.put_get]
  act := by
    intro j x d hx hd hb x' out b ha
    by_cases hj : j = 0
    · subst hj
      rw [if_pos rfl] at ha ⊢
      obtain ⟨a, b, c⟩ := (hI.on e).act x d (hx rfl) hd hb _ _ _ ha
      exact ⟨fun _ => a, b, c⟩
    · rw [if_neg hj] at ha; simp [Handler.never] at ha
  flush := by
    intro j x hx
    by_cases hj : j = 0
    · subst hj
      rw [if_pos rfl]
      obtain ⟨a, b⟩ := (hI.on e).flush x (hx rfl)
      exact ⟨fun _ => a, b⟩
    · rw [if_neg hj]; exact ⟨fun h => absurd h hj, by simp [Handler.never]⟩

/-- A phase with one codec does to its input what the codec does. -/
theorem single_realises {s : Static π} {e : Lens π σ} {h : Handler σ} (hs : Single s e h) {I : σ → Prop}
    (hI : Sound h I) {p : Nat → π} (hp : I (e.get (p 0))) :
    Realises s (fun q => q = p) (h.proc (passes s) e (e.get (p 0))) := by
  have key := handler_realises (single_handlers hs hI) (p := p) (by rintro j rfl; exact hp)
  have hh := fun ds => handle_single (passes s) e h
    (hs := fun j => if j = 0 then h.on e else Handler.never) (if_pos rfl) false p ds
  simp only [Bool.false_eq_true, if_false] at hh
  refine key.as rfl (fun _ _ _ => trivial) ?_
  intro ds _ _
  refine ⟨?_, rfl, ?_, ?_⟩
  · simp only [handlerProc, Handler.proc, hs.one]
    exact (hh _).1
  · simp only [handlerProc, Handler.proc, hs.one, (hh _).2.1]
  · intro q hq
    simp only [handlerProc, hs.one] at hq
    rw [hq]
    exact (hh _).2.2

end Verif.Engine
