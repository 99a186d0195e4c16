/-
Specification: the names of codecs in a directory of modules, and completions of a typed conversion.
-/
namespace Verif.Spec

/-- A line of an alias file. -/
inductive AliasLine
  | row (name definition : List Nat)
  | comment (text : List Nat)

/-- As it is written: `name TAB definition NEWLINE`, `# text NEWLINE`. -/
def AliasLine.bytes : AliasLine → List Nat
  | .row n d => n ++ 9 :: d ++ [10]
  | .comment t => 35 :: t ++ [10]

/-- The names are names and the lines are lines. -/
def AliasLine.Valid : AliasLine → Prop
  | .row n d => (∀ b ∈ n, b ≠ 0 ∧ b ≠ 9 ∧ b ≠ 10) ∧ n.head? ≠ some 35 ∧ ∀ b ∈ d, b ≠ 10
  | .comment t => ∀ b ∈ t, b ≠ 10

/-- The name a line defines. -/
def AliasLine.name : AliasLine → Option (List Nat)
  | .row n _ => some n
  | .comment _ => none

/-- Is this entry of a directory a codec?  One without `.`, but not `alias`. -/
def isCodecFile (d : List Nat) : Bool := !d.contains 46 && d != [97, 108, 105, 97, 115]

/-- An entry of a directory of filters: a shared object `NAME.so`, or anything else. -/
inductive FilterFile
  | object (name : List Nat)
  | other (entry : List Nat)

/-- Its file name. -/
def FilterFile.bytes : FilterFile → List Nat
  | .object n => n ++ [46, 115, 111]
  | .other d => d

/-- Names have no `.`, and other entries no `.so`. -/
def FilterFile.Valid : FilterFile → Prop
  | .object n => 46 ∉ n
  | .other d => ¬ [46, 115, 111] <:+: d

/-- The filter it is. -/
def FilterFile.name : FilterFile → Option (List Nat)
  | .object n => some n
  | .other _ => none

/-- No name comes before the one in front of it, in the order of their bytes. -/
def Alphabetical (l : List (List Nat)) : Prop := l.Pairwise fun a b => ¬ b < a

/-- The characters that separate codecs in a conversion: `:` `|` `,`. -/
def isSeparator (b : Nat) : Bool := b == 58 || b == 124 || b == 44

/-- Phases where a codec is looked for behind `t`: for writing if the last of `:` and `|` in `t` is `:`. -/
def writing (t : List Nat) : Bool :=
  match (t.filter fun b => b == 58 || b == 124).getLast? with
  | some b => b == 58
  | none => false

end Verif.Spec
