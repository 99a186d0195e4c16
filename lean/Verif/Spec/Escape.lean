import Verif.Spec.Unicode
/-
Specification of escape sequences and numeric entities.  Characters are byte values (ASCII).
-/
namespace Verif.Spec

/-- `c` is the character `s[n]` of one of the texts: a digit with value `n`. -/
def DigitOf (texts : List String) (c n : Nat) : Prop := ∃ s ∈ texts, (s.toList.map Char.toNat)[n]? = some c

/-- Hexadecimal digit of either case. -/
def HexByte (c n : Nat) : Prop := DigitOf ["0123456789ABCDEF", "0123456789abcdef"] c n
/-- Decimal digit. -/
def DecByte (c n : Nat) : Prop := DigitOf ["0123456789"] c n
/-- Octal digit. -/
def OctByte (c n : Nat) : Prop := DigitOf ["01234567"] c n

/-- ASCII codes of a text. -/
def ascii (s : String) : List Nat := s.toList.map Char.toNat

/-- `digits` is a non-empty numeral of value `v` in base `b`. -/
inductive Numeral (Digit : Nat → Nat → Prop) (b : Nat) : List Nat → Nat → Prop
  | one {c n} : Digit c n → Numeral Digit b [c] n
  | snoc {cs v c n} : Numeral Digit b cs v → Digit c n → Numeral Digit b (cs ++ [c]) (v * b + n)

/-- The escape sequences of a byte: `%XX`, `\xXX`, `\ooo`. -/
inductive ByteEsc : List Nat → Nat → Prop
  | pct {x y m n} : HexByte x m → HexByte y n → ByteEsc (ascii "%" ++ [x, y]) (m * 16 + n)
  | hex {x y m n} : HexByte x m → HexByte y n → ByteEsc (ascii "\\x" ++ [x, y]) (m * 16 + n)
  | oct {x y z l m n} : OctByte x l → OctByte y m → OctByte z n → l * 64 + m * 8 + n < 256 →
      ByteEsc (ascii "\\" ++ [x, y, z]) (l * 64 + m * 8 + n)

/-- The escape sequences of a character: `%uXXXX`, `\uXXXX`. -/
inductive UniEsc : List Nat → Nat → Prop
  | pct {w x y z a b c d} : HexByte w a → HexByte x b → HexByte y c → HexByte z d →
      UniEsc (ascii "%u" ++ [w, x, y, z]) (a * 4096 + b * 256 + c * 16 + d)
  | bs {w x y z a b c d} : HexByte w a → HexByte x b → HexByte y c → HexByte z d →
      UniEsc (ascii "\\u" ++ [w, x, y, z]) (a * 4096 + b * 256 + c * 16 + d)

/-- What a numeric entity has between `&#` and `;`. -/
inductive EntityBody : List Nat → Nat → Prop
  | dec {ds v} : Numeral DecByte 10 ds v → EntityBody ds v
  | hex {ds v} : Numeral HexByte 16 ds v → EntityBody (ascii "x" ++ ds) v

end Verif.Spec
