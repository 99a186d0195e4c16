import Verif.Model.Cp932Table
/-
/repo/modules/from/_CP932.txt.  Eight of its lines, of the form `code 0100xx`, give a datum with a zero byte in front of the number of the character,
where every other rule file has `01xx`.
-/
namespace Verif.Cp932
open Verif.Spec

/-- /repo/modules/from/_CP932.txt : the codes of the lines `code 0100xx`. -/
def zeros : List Nat := [0x814C, 0x814E, 0x817D, 0x817E, 0x8180, 0x818B, 0x8198, 0x81F7]

/-- The datum of a line; `u` is the number of the character, without the zero byte. -/
def datum (c u : Nat) : List Nat := if zeros.contains c then [1, 0, u] else uniDatum u

/-- The lines of /repo/modules/from/_CP932.txt as rules. -/
def fromRules : Rules Nat (List (List Nat)) := Charsets.cp932.reads.pairs.map fun r => (beBytes r.1, [datum r.1 r.2])

end Verif.Cp932
