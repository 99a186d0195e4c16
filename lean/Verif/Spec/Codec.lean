import Verif.Spec.Handler

/-
A phase with a single codec working datum by datum.
-/

namespace Verif.Spec

/-- The private data of one codec inside the type of private data of all codecs of an instance. -/
structure Lens (π σ : Type) where
  get : π → σ
  put : σ → π → π
  get_put : ∀ t x, get (put t x) = t
  put_get : ∀ x, put (get x) x = x

/-- Private data of the only kind. -/
def Lens.self (σ : Type) : Lens σ σ := ⟨id, fun t _ => t, fun _ _ => rfl, fun _ => rfl⟩

/-- No private data. -/
def Lens.unit (π : Type) : Lens π Unit := ⟨fun _ => (), fun _ x => x, fun _ _ => rfl, fun _ => rfl⟩

variable {π σ : Type}

/-- The codec `h` with its private data in its place. -/
def Handler.on (e : Lens π σ) (h : Handler σ) : Handler π where
  act := fun x d => (h.act (e.get x) d).map fun r => (e.put r.1 x, r.2.1, r.2.2)
  flush := fun x => (e.put (h.flush (e.get x)).1 x, (h.flush (e.get x)).2)

/-- The result of a phase with one codec. -/
structure Out (σ : Type) where
  out : List Datum
  /-- data refused -/
  refused : Nat
  priv : σ

/-- Put `o` out first. -/
def Out.after (o : List Datum) (r : Out σ) : Out σ := { r with out := o ++ r.out }

/-- A codec run over a list of data; refused data are passed on (`pass`) or dropped; `w` tells whether the codec
is waiting for another datum. -/
def Handler.run (pass : Bool) (h : Handler σ) : (w : Bool) → σ → List Datum → Out σ
  | false, t, [] => ⟨[], 0, t⟩
  | true, t, [] => ⟨(h.flush t).2, 0, (h.flush t).1⟩
  | _, t, d :: ds =>
    match h.act t d with
    | some (t', o, hold) => (h.run pass hold t' ds).after o
    | none =>
      let r := h.run pass false t ds
      { r.after (if pass then [d] else []) with refused := r.refused + 1 }

theorem Handler.run_some {h : Handler σ} {t t' : σ} {d : Datum} {o : List Datum} {hold : Bool}
    (ha : h.act t d = some (t', o, hold)) (pass w : Bool) (ds : List Datum) :
    h.run pass w t (d :: ds) = (h.run pass hold t' ds).after o := by rw [Handler.run, ha]

/-- As a stream processor, started with private data `t`. -/
def Handler.proc (pass : Bool) (e : Lens π σ) (h : Handler σ) (t : σ) : Proc π where
  out := fun ds => (h.run pass false t (nonEmpty ds)).out
  outErrors := fun ds => if pass then 0 else (h.run pass false t (nonEmpty ds)).refused
  fin := fun ds q => e.get (q 0) = (h.run pass false t (nonEmpty ds)).priv

/-- Two codecs that never wait: the second gets what the first refuses. -/
def Handler.either {τ : Type} (h : Handler σ) (g : Handler τ) : Handler (σ × τ) where
  act := fun t d =>
    match h.act t.1 d with
    | some (a, o, _) => some ((a, t.2), o, false)
    | none => (g.act t.2 d).map fun r => ((t.1, r.1), r.2.1, false)

end Verif.Spec
