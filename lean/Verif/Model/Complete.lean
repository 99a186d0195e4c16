import Verif.Model.Listing
/-
The program bsdconv-completion, /repo/src/bsdconv-completion.c.  The lists of codecs are arguments (`bsdconv_modules_list`, `Model/Listing`).
-/
namespace Verif.Complete
open Verif.Spec (upperBytes)
open Verif.Listing (strstr)

/-- `'` or `"` -/
def quote (b : Nat) : Bool := b == 39 || b == 34

/-- The argument without the quotes around it, bsdconv-completion.c:32-38; nothing if a byte in front of the copy is read (`arg[-1]`; if a quote was skipped it is the quote, and
overwriting it changes nothing). -/
def unquote (arg : List Nat) : Option (List Nat) :=
  match arg with
  | [] => none
  | b :: s =>
    let a := if quote b then s else b :: s
    match a.getLast? with
    | none => some []
    | some c => some (if quote c then a.dropLast else a)

/-- The loop at bsdconv-completion.c:43-57: position, `part-arg`, and `mode==TO`. -/
structure Scan where
  pos : Nat
  part : Nat
  to : Bool

/-- Its body. -/
def Scan.step (s : Scan) (b : Nat) : Scan :=
  if b = 58 then ⟨s.pos + 1, s.pos + 1, true⟩
  else if b = 124 then ⟨s.pos + 1, s.pos + 1, false⟩
  else if b = 44 then ⟨s.pos + 1, s.pos + 1, s.to⟩
  else { s with pos := s.pos + 1 }

/-- The array `codecs_list`, bsdconv-completion.c:68: slots allocated, names stored, and whether every store was inside. -/
structure Cands where
  slots : Nat
  names : List (List Nat)
  safe : Bool

/-- The body of the loops at bsdconv-completion.c:69-82. -/
def Cands.offer (part : List Nat) (c : Cands) (n : List Nat) : Cands :=
  let c := if strstr n part = some 0 ∧ c.names.contains n = false then { c with names := c.names ++ [n], safe := c.safe && decide (c.names.length < c.slots) } else c
  { c with safe := c.safe && decide (c.names.length < c.slots) }

/-- `res`: its bytes, or nothing if the buffer is too small; bsdconv-completion.c:85-88 -/
def line (arg : List Nat) (part : Nat) (n : List Nat) : Option (List Nat) :=
  if part + n.length + 1 ≤ arg.length + n.length + 1 then some (arg.take part ++ n) else none

/-- All results, or nothing. -/
def lines (arg : List Nat) (part : Nat) : List (List Nat) → Option (List (List Nat))
  | [] => some []
  | n :: ns => match line arg part n, lines arg part ns with
    | some x, some xs => some (x :: xs)
    | _, _ => none

/-- The lines printed by `main`, bsdconv-completion.c:14-108; nothing if memory is read or written outside the buffers. -/
def completions (inter from_ to_ : List (List Nat)) (arg : List Nat) : Option (List (List Nat)) :=
  match unquote arg with
  | none => none
  | some a =>
    let a := upperBytes a
    let s := a.foldl Scan.step ⟨0, 0, false⟩
    let l := if s.to then to_ else from_
    let c := l.foldl (Cands.offer (a.drop s.part)) (inter.foldl (Cands.offer (a.drop s.part)) ⟨inter.length + l.length + 1, [], true⟩)
    if c.safe then lines a s.part c.names else none

end Verif.Complete
