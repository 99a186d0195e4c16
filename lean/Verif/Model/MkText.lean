import Verif.Model.MkTable
/-
Model of the reading of a rule file by /repo/src/bsdconv-mktable.c:239-354.  Text is a list of characters without NUL.
`none` stands for undefined behaviour: a NULL pointer is dereferenced, or the line buffer is read behind the end of the line.
-/
namespace Verif.MkTable

/-- `table[c]`, /repo/src/bsdconv-mktable.c:170-177: the value of a hexadecimal digit, 0 for anything else. -/
def hexTable (c : Nat) : Nat :=
  if 0x30 ≤ c ∧ c ≤ 0x39 then c - 0x30
  else if 0x61 ≤ c ∧ c ≤ 0x66 then c - 0x61 + 10
  else if 0x41 ≤ c ∧ c ≤ 0x46 then c - 0x41 + 10
  else 0

/-- The loop over the pattern: /repo/src/bsdconv-mktable.c:266-278, 327.  A single digit at the end makes `f` step over the
terminating NUL. -/
def readPattern : List Nat → Option (List (Nat × Nat))
  | [] => some []
  | [c] => if c = 0x2A then some [(0, 256)] else if c = 0x2C then some [(256, 256)] else none
  | c :: d :: cs =>
    if c = 0x2A then (readPattern (d :: cs)).map ((0, 256) :: ·)
    else if c = 0x2C then (readPattern (d :: cs)).map ((256, 256) :: ·)
    else (readPattern cs).map ((16 * hexTable c + hexTable d, 16 * hexTable c + hexTable d) :: ·)

/-- The loop over the data: /repo/src/bsdconv-mktable.c:337-354; `half` is `c` if `j` is 1. -/
def readData' (half : Option Nat) : List Nat → List Nat
  | [] => []
  | t :: ts =>
    if t = 0x2C then 256 :: readData' half ts
    else match half with
      | none => readData' (some (hexTable t)) ts
      | some h => (16 * h + hexTable t) :: readData' none ts

/-- One line: `strsep` at a tab or space, the skipping of further ones, `strsep` at the end of the data.  `strchr("\t ",0)` is
not NULL, so the skipping runs over the end of a line without data.  /repo/src/bsdconv-mktable.c:241-265, 330-336 -/
def readLine (line : List Nat) : Option Rule :=
  let isSep := fun c => c = 9 ∨ c = 0x20
  let f := line.takeWhile fun c => ¬ isSep c
  match line.dropWhile fun c => ¬ isSep c with
  | [] => none
  | _ :: rest =>
    match rest.dropWhile fun c => isSep c with
    | [] => none
    | c :: cs =>
      let t := (c :: cs).takeWhile fun c => ¬ (c = 9 ∨ c = 13 ∨ c = 10 ∨ c = 0x23 ∨ c = 0x20)
      let ci := f.head? = some 0x21
      let cb := t.head? = some 0x3F
      (readPattern (if ci then f.drop 1 else f)).map fun p =>
        { ci := ci, pat := p, cb := cb, dat := readData' none (if cb then t.drop 1 else t) }

/-- `fgets(inbuf, 1024, fp)` until the end of the file: lines of at most 1023 characters. -/
def cutLines (room : Nat) : List Nat → List (List Nat)
  | [] => []
  | c :: cs =>
    if c = 10 ∨ room ≤ 1 then [c] :: cutLines 1023 cs
    else match cutLines (room - 1) cs with
      | [] => [[c]]
      | l :: ls => (c :: l) :: ls

/-- The rules of a file.  /repo/src/bsdconv-mktable.c:239-427 -/
def readFile (text : List Nat) : Option (List Rule) :=
  ((cutLines 1023 text).filter fun l => l.head? ≠ some 0x23).mapM readLine

end Verif.MkTable
