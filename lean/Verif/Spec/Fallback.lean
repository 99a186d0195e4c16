import Verif.Spec.Reader
import Verif.Spec.Mended
/-
Decoding with a replacement for what cannot be read.
-/
namespace Verif.Spec

variable {π : Type}

/-- Decode with codecs `0..n`; a byte none of them can read counts and stands for `sub`. -/
def decodeSub (rs : Nat → Reader π) (n : Nat) (sub : List Datum) (p : Nat → π) : List Nat → List Datum × Nat
  | [] => ([], 0)
  | b :: s =>
    match h : resume rs n 0 p [] (b :: s) with
    | (p', some (rest, out)) =>
      let r := decodeSub rs n sub p' rest
      (out ++ r.1, r.2)
    | (p', none) =>
      let r := decodeSub rs n sub p' s
      (sub ++ r.1, r.2 + 1)
termination_by s => s.length
decreasing_by
  · have := resume_lt rs n 0 p [] (b :: s) h; simpa using this
  · simp

/-- `bs` reads as the code points `cps` with `n` bytes replaced by the code points `sub`: at each place, the character that begins there is taken; if no
character begins there, nor is the rest the beginning of one, a byte is replaced. -/
inductive Repaired (enc : Nat → List Nat) (valid range : Nat → Prop) (sub : List Nat) : List Nat → List Nat → Nat → Prop
  | nil : Repaired enc valid range sub [] [] 0
  | char {cp : Nat} {rest cps : List Nat} {n : Nat} : valid cp → Repaired enc valid range sub rest cps n →
      Repaired enc valid range sub (enc cp ++ rest) (cp :: cps) n
  | skip {b : Nat} {rest cps : List Nat} {n : Nat} : (∀ cp, valid cp → ¬enc cp <+: b :: rest) → ¬Unfinished enc range (b :: rest) →
      Repaired enc valid range sub rest cps n → Repaired enc valid range sub (b :: rest) (sub ++ cps) (n + 1)

end Verif.Spec
