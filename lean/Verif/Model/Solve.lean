import Verif.Spec.Tokens
import Verif.Spec.Solve
import Verif.Model.Aliases
import Verif.Model.Ascii
import Verif.Model.Inter
import Verif.Model.Output
import Verif.Model.Str
/-
Looking up an alias by a conversion: `bsdconv_solve_alias`, /repo/src/libbsdconv_module.c:31-75, with the tables
/repo/modules/inter/ALIAS-FROM.txt, ALIAS-INTER.txt, ALIAS-TO.txt, ALIAS-FILTER.txt and the callbacks ALIAS-FROM.c,
ALIAS-INTER.c, ALIAS-TO.c.

The tables are made from the alias files by /repo/tools/mkalias.py, one row `01xx,01xx,.. 01yy,01yy,..` for each line
(compared with the alias files row by row when this model was written); /repo/Makefile:246-251 adds the rows with `?`.
Strings are lists of bytes without the terminating NUL.
-/
namespace Verif.Solve
open Verif.Spec
open Verif.Engine hiding Datum

/-- Names and definitions, as bytes. -/
abbrev Rows := List (List Nat × List Nat)

/-- A C string literal. -/
def lit (s : String) : List Nat := s.toList.map Char.toNat

/-- A table of names as bytes. -/
def rowsOf (T : List (String × String)) : Rows := T.map fun r => (lit r.1, lit r.2)

/-- Characters as data: `01xx`. -/
def charData (s : List Nat) : List (List Nat) := s.map fun b => [1, b]

/-- The rows as rules, as /repo/tools/mkalias.py writes them. -/
def aliasRules (rows : Rows) : Rules (List Nat) (List (List Nat)) := rows.map fun r => (charData r.1, charData r.2)

/-- /repo/modules/filter/alias -/
def filterAliases : List (String × String) :=
  [("01", "UNICODE"), ("1", "UNICODE"), ("02", "CNS11643"), ("2", "CNS11643"), ("03", "BYTE"), ("3", "BYTE"), ("1B", "ANSI")]

/-- The text behind the first `.`: `strstr(locale, ".")+1`. -/
def behindDot : List Nat → Option (List Nat)
  | [] => none
  | b :: s => if b = 46 then some s else behindDot s

/-- Which text stands for LOCALE, given the variables LC_ALL, LC_CTYPE and LANG; /repo/modules/inter/ALIAS-FROM.c:21-30. -/
def localeText (lcAll lcCtype lang : Option (List Nat)) : List Nat :=
  match (lcAll.or lcCtype).or lang with
  | none => lit "ASCII"
  | some l =>
    let s := (behindDot l).getD l
    if s = [] ∨ s = lit "C" ∨ s = lit "POSIX" then lit "ASCII" else s

/-- Which text stands for UNICODE; /repo/modules/inter/ALIAS-INTER.c:24-59 (`cns`: the module CNS11643-UNICODE exists). -/
def unicodeText (cns : Bool) : List Nat := if cns then lit "CNS11643-UNICODE" else lit "PASS"

/-- The rows of ALIAS-FROM with what its callback makes of `?` (the ASCII characters of the text, as the inner
conversion `ASCII:PASS` gives them out). -/
def fromRows (loc : List Nat) : Rows := rowsOf Conv.fromAliases ++ [(lit "LOCALE", asciiPart loc)]

/-- The rows of ALIAS-INTER. -/
def interRows (cns : Bool) : Rows := rowsOf Conv.interAliases ++ [(lit "UNICODE", unicodeText cns)]

/-- The rows of ALIAS-TO. -/
def toRows (loc : List Nat) : Rows := rowsOf Conv.toAliases ++ [(lit "LOCALE", asciiPart loc)]

/-- The rows of ALIAS-FILTER. -/
def filterRows : Rows := rowsOf filterAliases

/-- One lookup, /repo/src/libbsdconv_module.c:31-75: the name in upper case, one call with `flush` into an allocated
buffer with one byte in addition; NULL if the counter ERR is above 0.  (`bsdconv_create` gave the instance `ins` with
the phases `st`; that it can fail, and memory, are not modelled.) -/
def Looked {π : Type} (st : Nat → Static π) (ip : Nat → Nat → π → π) (ins : Ins π) (err : Ins π → Nat) (name : List Nat)
    (res : Option (List Nat)) : Prop :=
  ∃ d ins', Call st (ins.init st ip) ⟨some (upperBytes name), true, .automalloc 1⟩ d ins' ∧
    res = if 0 < err ins' then none else some d.bytes

end Verif.Solve
