import Verif.Spec.Hangul
import Verif.Spec.Compose
/-
Normalisation forms D and C as in the Unicode standard (D68, D118, D119 and section 3.12): full decomposition, canonical
ordering, and composition with the Hangul syllables.
-/
namespace Verif.Spec

/-- Every datum that has a decomposition in the table replaced by it. -/
def expand (t : Datum → Option (List Datum)) (ds : List Datum) : List Datum := ds.flatMap fun d => (t d).getD [d]

/-- Normalisation form D, for the decomposition mappings `t` (Hangul syllables are decomposed by rule). -/
def nfd (t : Datum → Option (List Datum)) (ds : List Datum) : List Datum := reorder combining (decomposed (expand t ds))

/-- The composites of jamo: a leading consonant and a vowel, or a syllable without trailing consonant and a trailing consonant. -/
def hangulPair (a b : Datum) : Option Datum :=
  if isL a && isV b then some (uniDatum (syllable (chr a) (chr b) 0x11A7))
  else if isS a && (chr a - 0xAC00) % 28 == 0 && isT b then some (uniDatum (chr a + (chr b - 0x11A7)))
  else none

/-- The composites of a table and those of jamo. -/
def withHangul (comb : Datum → Datum → Option Datum) (a b : Datum) : Option Datum :=
  match comb a b with
  | some x => some x
  | none => hangulPair a b

/-- Normalisation form C, for the decomposition mappings `t` and the primary composites `comb`. -/
def nfc (t : Datum → Option (List Datum)) (comb : Datum → Datum → Option Datum) (ds : List Datum) : List Datum :=
  compose (withHangul comb) (nfd t ds)

example : nfc (fun d => if d = [1, 0xE9] then some [[1, 0x65], [1, 3, 1]] else none)
      (fun a b => if a = [1, 0x65] ∧ b = [1, 3, 1] then some [1, 0xE9] else none)
      [[1, 0x65], [1, 3, 1], [1, 3, 0x16], [1, 0x11, 0], [1, 0x11, 0x61], [1, 0x11, 0xA8]] =
    [[1, 0xE9], [1, 3, 0x16], [1, 0xAC, 1]] := by decide +kernel

end Verif.Spec
