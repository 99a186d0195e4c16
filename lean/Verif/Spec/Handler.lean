import Verif.Spec.Proc

/-
Codecs that look at one datum at a time, and what a phase made of several of them does to a stream of data:
each datum goes to the first codec that does not refuse it.
-/

namespace Verif.Spec

/-- A codec working datum by datum.  `π` is the type of private data. -/
structure Handler (π : Type) where
  /-- refuse a datum, or take it: new private data, what is put out, and whether the codec wants to see the next
  datum before any other codec does -/
  act : π → Datum → Option (π × List Datum × Bool)
  /-- what is put out at the end if the codec was waiting for another datum -/
  flush : π → π × List Datum := fun t => (t, [])

variable {π : Type}

/-- A codec given by a list of rules for single data. -/
def Handler.table (R : Rules Datum (List Datum)) : Handler π where
  act := fun t d => (lookup R [d]).map (fun out => (t, out, false))

/-- A codec that only looks at unicode data: a byte 01 followed by at least one byte. -/
def Handler.uni (h : Handler π) : Handler π where
  act := fun t d => match d with
    | 1 :: _ :: _ => h.act t d
    | _ => none
  flush := h.flush

/-- Replace the private data of codec `j`. -/
def setPriv (p : Nat → π) (j : Nat) (t : π) : Nat → π := fun k => if k = j then t else p k

/-- The first of the codecs `j`, `j+1`, … (`k` of them) that takes the datum. -/
def attempt (hs : Nat → Handler π) (p : Nat → π) (d : Datum) : (j k : Nat) → Option (Nat × π × List Datum × Bool)
  | _, 0 => none
  | j, k + 1 =>
    match (hs j).act (p j) d with
    | some r => some (j, r)
    | none => attempt hs p d (j + 1) k

/-- Who takes the datum: the waiting codec if there is one, otherwise the first of `0..n` that does not refuse it. -/
def choose (hs : Nat → Handler π) (n : Nat) (p : Nat → π) (d : Datum) : Option Nat → Option (Nat × π × List Datum × Bool)
  | none => attempt hs p d 0 (n + 1)
  | some j => attempt hs p d j 1

/-- The result of a phase. -/
structure Ran (π : Type) where
  out : List Datum
  /-- data refused by all codecs -/
  refused : Nat
  priv : Nat → π

/-- A phase of codecs `0..n` run over a list of data; `w` is the codec waiting for another datum, if any.  A
datum refused by all codecs is passed on (`pass`) or dropped. -/
def handle (pass : Bool) (hs : Nat → Handler π) (n : Nat) : (w : Option Nat) → (Nat → π) → List Datum → Ran π
  | none, p, [] => ⟨[], 0, p⟩
  | some j, p, [] => ⟨((hs j).flush (p j)).2, 0, setPriv p j ((hs j).flush (p j)).1⟩
  | w, p, d :: ds =>
    match choose hs n p d w with
    | some (j, t, out, hold) =>
      let r := handle pass hs n (if hold then some j else none) (setPriv p j t) ds
      { r with out := out ++ r.out }
    | none =>
      let r := handle pass hs n none p ds
      { r with out := (if pass then [d] else []) ++ r.out, refused := r.refused + 1 }

/-- Such a phase, started with private data `p`, as a stream processor: refused data are errors when encoding. -/
def handlerProc (pass : Bool) (hs : Nat → Handler π) (n : Nat) (p : Nat → π) : Proc π where
  out := fun ds => (handle pass hs n none p (nonEmpty ds)).out
  outErrors := fun ds => if pass then 0 else (handle pass hs n none p (nonEmpty ds)).refused
  fin := fun ds q => q = (handle pass hs n none p (nonEmpty ds)).priv

end Verif.Spec
