/-
Specification of Unicode encodings, independent of the code: code points are natural numbers.
-/
namespace Verif.Spec

/-- Big-endian bytes of a number without leading zeros (one zero byte for 0). -/
def beBytes (n : Nat) : List Nat := if n < 256 then [n] else beBytes (n / 256) ++ [n % 256]
  termination_by n
  decreasing_by omega

/-- The unicode datum of a code point: type byte 1, then the number. -/
def uniDatum (cp : Nat) : List Nat := 1 :: beBytes cp

/-- The surrogate code points. -/
def Surrogate (cp : Nat) : Prop := 0xD800 ≤ cp ∧ cp ≤ 0xDFFF

instance (cp : Nat) : Decidable (Surrogate cp) := inferInstanceAs (Decidable (_ ∧ _))

/-- The last `n` continuation bytes of a UTF-8 form: 6 bits each, most significant first. -/
def utf8Tail : Nat → Nat → List Nat
  | 0, _ => []
  | n + 1, cp => (0x80 + cp / 64 ^ n % 64) :: utf8Tail n cp

/-- The `n`-byte UTF-8 form of `cp` (`n` from 2 to 6): `n` leading ones and a zero, then the bits of
`cp`.  It is defined for `cp` below `utf8Cap n`. -/
def utf8Form (n cp : Nat) : List Nat := (256 - 2 ^ (8 - n) + cp / 64 ^ (n - 1)) :: utf8Tail (n - 1) cp

/-- One more than the largest number an `n`-byte form can carry. -/
def utf8Cap (n : Nat) : Nat := 2 ^ (7 - n) * 64 ^ (n - 1)

/-- Least number for which the `n`-byte form is the shortest one. -/
def utf8Min (n : Nat) : Nat := if n = 2 then 0x80 else utf8Cap (n - 1)

/-- The standard (shortest) encoding of `cp`. -/
def utf8 (cp : Nat) : List Nat :=
  if cp < 0x80 then [cp]
  else if cp < 0x800 then utf8Form 2 cp
  else if cp < 0x10000 then utf8Form 3 cp
  else if cp < 0x200000 then utf8Form 4 cp
  else if cp < 0x4000000 then utf8Form 5 cp
  else utf8Form 6 cp

/-- UTF-16 code units. -/
def utf16Units (cp : Nat) : List Nat :=
  if cp < 0x10000 then [cp]
  else [0xD800 + (cp - 0x10000) / 0x400, 0xDC00 + (cp - 0x10000) % 0x400]

/-- Two bytes, big-endian. -/
def be16 (u : Nat) : List Nat := [u / 256, u % 256]
/-- Two bytes, little-endian. -/
def le16 (u : Nat) : List Nat := [u % 256, u / 256]

def utf16be (cp : Nat) : List Nat := (utf16Units cp).flatMap be16
def utf16le (cp : Nat) : List Nat := (utf16Units cp).flatMap le16

/-- Four bytes, big-endian. -/
def utf32be (n : Nat) : List Nat := [n / 0x1000000, n / 0x10000 % 256, n / 256 % 256, n % 256]
def utf32le (n : Nat) : List Nat := (utf32be n).reverse

example : utf8 0x20AC = [0xE2, 0x82, 0xAC] ∧ utf8 0x1F600 = [0xF0, 0x9F, 0x98, 0x80] ∧ utf8 0xE9 = [0xC3, 0xA9] := by
  decide
example : utf16be 0x1F600 = [0xD8, 0x3D, 0xDE, 0x00] ∧ utf16le 0x20AC = [0xAC, 0x20] := by decide
example : [utf8Cap 2, utf8Cap 3, utf8Cap 4, utf8Cap 5, utf8Cap 6] = [0x800, 0x10000, 0x200000, 0x4000000, 0x80000000] := by
  decide

end Verif.Spec
