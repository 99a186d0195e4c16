import Verif.Spec.Escape
/-
Specification of the HTML pictures of characters.
-/
namespace Verif.Spec

/-- The hexadecimal numeral of a number in capital letters, without leading zeros. -/
def capitalHex (n : Nat) : List Nat := (Nat.toDigits 16 n).map fun c => c.toUpper.toNat

/-- The same with an even number of digits. -/
def capitalHexEven (n : Nat) : List Nat :=
  if (Nat.toDigits 16 n).length % 2 = 1 then ascii "0" ++ capitalHex n else capitalHex n

/-- The bytes of a datum as digits: the first byte without leading zeros, each other byte as two digits. -/
def capitalBytes : List Nat → List Nat
  | [] => []
  | b :: bs => capitalHex b ++ bs.flatMap capitalHexEven

/-- What stands for a datum beginning with 01: the text of its picture. -/
def pictureText : List Nat → Option (List Nat)
  | 1 :: bs => some (ascii "<img class=\"unicode_img\" src=\"http://www.unicode.org/cgi-bin/refglyph?24-" ++ capitalBytes bs ++ ascii "\" />")
  | _ => none

/-- The picture of the character with code point `n` on unicode.org. -/
def picture (n : Nat) : List Nat :=
  ascii "<img class=\"unicode_img\" src=\"http://www.unicode.org/cgi-bin/refglyph?24-" ++ capitalHex n ++ ascii "\" />"

/-- The picture with a link to the page of the character on fileformat.info. -/
def linkedPicture (n : Nat) : List Nat :=
  ascii "<a href=\"http://www.fileformat.info/info/unicode/char/" ++ capitalHexEven n ++ ascii "/index.htm\">" ++ picture n ++ ascii "</a>"

/-- The picture of the character with code `code` on plane `plane` of CNS 11643 (both in digits). -/
def cnsPicture (plane code : List Nat) : List Nat :=
  ascii "<a href=\"http://www.cns11643.gov.tw/AIDB/query_general_view.do?page=" ++ plane ++ ascii "&code=" ++
    code ++ ascii "\"><img src=\"http://www.cns11643.gov.tw/AIDB/png.do?page=" ++ plane ++ ascii "&code=" ++ code ++
    ascii "\" /></a>"

/-- What stands for a datum beginning with 01 or 02: the text of its linked picture. -/
def linkText : List Nat → Option (List Nat)
  | 1 :: bs => some (ascii "<a href=\"http://www.fileformat.info/info/unicode/char/" ++ bs.flatMap capitalHexEven ++
      ascii "/index.htm\"><img class=\"unicode_img\" src=\"http://www.unicode.org/cgi-bin/refglyph?24-" ++ capitalBytes bs ++ ascii "\" /></a>")
  | 2 :: bs => some (cnsPicture (capitalBytes (bs.take 1)) ((bs.drop 1).flatMap capitalHexEven))
  | _ => none

end Verif.Spec
