import Verif.Spec.Inter
/-
Hangul syllables as in the Unicode standard, section 3.12.
-/
namespace Verif.Spec

/-- The datum is a character between `a` and `b`. -/
def within (a b : Nat) (d : Datum) : Bool :=
  match char? d with
  | some u => decide (a ≤ u ∧ u ≤ b)
  | none => false

/-- Leading consonants U+1100..U+1112. -/
def isL : Datum → Bool := within 0x1100 0x1112
/-- Vowels U+1161..U+1175. -/
def isV : Datum → Bool := within 0x1161 0x1175
/-- Trailing consonants U+11A8..U+11C2. -/
def isT : Datum → Bool := within 0x11A8 0x11C2
/-- Precomposed syllables U+AC00..U+D7A3. -/
def isS : Datum → Bool := within 0xAC00 0xD7A3

/-- The number of a character. -/
def chr (d : Datum) : Nat := (char? d).getD 0

/-- The syllable of a leading consonant, a vowel and (0x11A7: no) trailing consonant. -/
def syllable (l v t : Nat) : Nat := 0xAC00 + ((l - 0x1100) * 21 + (v - 0x1161)) * 28 + (t - 0x11A7)

/-- The jamo of a syllable. -/
def jamo (s : Nat) : List Nat :=
  let i := s - 0xAC00
  let l := 0x1100 + i / 588
  let v := 0x1161 + i % 588 / 28
  let t := 0x11A7 + i % 28
  if t = 0x11A7 then [l, v] else [l, v, t]

/-- Every syllable replaced by its jamo. -/
def decomposed (ds : List Datum) : List Datum := ds.flatMap fun d => if isS d then (jamo (chr d)).map uniDatum else [d]

/-- Sequences of leading consonant, vowel and possibly trailing consonant replaced by their syllables, from left to
right.  A leading consonant that stays is written anew. -/
def composed : List Datum → List Datum
  | l :: v :: t :: ds =>
    if isL l && isV v then
      if isT t then uniDatum (syllable (chr l) (chr v) (chr t)) :: composed ds
      else uniDatum (syllable (chr l) (chr v) 0x11A7) :: composed (t :: ds)
    else (if isL l then uniDatum (chr l) else l) :: composed (v :: t :: ds)
  | [l, v] =>
    if isL l && isV v then [uniDatum (syllable (chr l) (chr v) 0x11A7)]
    else [if isL l then uniDatum (chr l) else l, if isL v then uniDatum (chr v) else v]
  | [l] => [if isL l then uniDatum (chr l) else l]
  | [] => []

example : jamo 0xD55C = [0x1112, 0x1161, 0x11AB] ∧ syllable 0x1112 0x1161 0x11AB = 0xD55C ∧ jamo 0xAC00 = [0x1100, 0x1161] := by
  decide

end Verif.Spec
