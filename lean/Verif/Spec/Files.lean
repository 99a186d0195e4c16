/-
Files and what happens to them, for the command line program: a file system as a map from names to contents, changed by atomic steps
between which a process may die.  Names are strings; there are no directories, links or permissions.
-/

namespace Verif.Spec

/-- The contents of the files, by name. -/
abbrev Fs := String → Option (List Nat)

/-- `fs` with the file `p` set to `c` (`none`: removed). -/
def Fs.set (fs : Fs) (p : String) (c : Option (List Nat)) : Fs := fun q => if q = p then c else fs q

/-- A step the operating system performs as a whole. -/
inductive FileEvent
  /-- a new, empty file -/
  | create (p : String)
  /-- bytes added at the end of an open file -/
  | write (p : String) (b : List Nat)
  | unlink (p : String)
  | rename (p q : String)
  deriving DecidableEq, Repr

/-- What a step does to the files. -/
def Fs.after (fs : Fs) : FileEvent → Fs
  | .create p => fs.set p (some [])
  | .write p b => fs.set p ((fs p).map (· ++ b))
  | .unlink p => fs.set p none
  | .rename p q => (fs.set q (fs p)).set p none

/-- The files after some steps; if the process dies after `es`, this is what is left. -/
def Fs.afterAll (fs : Fs) (es : List FileEvent) : Fs := es.foldl Fs.after fs

/-- `d'` comes from `d` by `n` conversions, `C` being the conversion. -/
inductive Converted (C : List Nat → List Nat → Prop) : Nat → List Nat → List Nat → Prop
  | zero (d : List Nat) : Converted C 0 d d
  | succ {n : Nat} {d d' d'' : List Nat} : C d d' → Converted C n d' d'' → Converted C (n + 1) d d''

/-- Names `mkstemp` makes for a file next to `p`: `p`, a dot and six characters. -/
def TempName (p t : String) : Prop := ∃ x : List Char, x.length = 6 ∧ t.toList = p.toList ++ '.' :: x

end Verif.Spec
