import Verif.Spec.Solve
/-
The list of codecs, /repo/src/libbsdconv_module.c:141-250, and the check for a module, :77-139.

Strings are lists of bytes without the terminating NUL; a directory is the list of the names `readdir` returns.  `chdir`, the environment
and memory exhaustion are not modelled; `fopen` of a name without `/` is taken to succeed if the directory has that entry.
-/
namespace Verif.Listing
open Verif.Spec (upperBytes)

/-- The array of the list: slots allocated, strings stored, and whether every store was inside. -/
structure Arr where
  size : Nat
  items : List (List Nat)
  safe : Bool

/-- `malloc(sizeof(char *) * 8)`, `list[0]=NULL`; libbsdconv_module.c:151-153, 170 -/
def Arr.new : Arr := ⟨8, [], decide (0 < 8)⟩

/-- `if(length>=size){size+=8; realloc}`; libbsdconv_module.c:197-200, 210-213, 226-229, 236-239 -/
def Arr.room (a : Arr) : Arr := if a.items.length ≥ a.size then { a with size := a.size + 8 } else a

/-- `list[length]=..; length+=1`, libbsdconv_module.c:201-204, 214-215, 231-232 -/
def Arr.push (a : Arr) (s : List Nat) : Arr :=
  let a := a.room
  { a with items := a.items ++ [s], safe := a.safe && decide (a.items.length < a.size) }

/-- `list[length]=NULL`, libbsdconv_module.c:236-241 -/
def Arr.close (a : Arr) : Arr :=
  let a := a.room
  { a with safe := a.safe && decide (a.items.length < a.size) }

/-- `strstr`: where the second string begins in the first. -/
def strstr : List Nat → List Nat → Option Nat
  | [], n => if n = [] then some 0 else none
  | b :: s, n => if n.isPrefixOf (b :: s) then some 0 else (strstr s n).map (· + 1)

/-- `strsep`: the text up to the delimiter. -/
def upTo (x : Nat) (s : List Nat) : List Nat := s.takeWhile (· ≠ x)

/-- Entries of a directory of filters or scorers, libbsdconv_module.c:194-205 -/
def addFilters (a : Arr) : List (List Nat) → Arr
  | [] => a
  | d :: ds => if (strstr d [46, 115, 111]).isNone || d == [97, 108, 105, 97, 115] then addFilters a ds else addFilters (a.push (upTo 46 d)) ds

/-- Entries of a directory of codecs, libbsdconv_module.c:207-216 -/
def addCodecs (a : Arr) : List (List Nat) → Arr
  | [] => a
  | d :: ds => if (strstr d [46]).isSome || d == [97, 108, 105, 97, 115] then addCodecs a ds else addCodecs (a.push d) ds

/-- `fgets(buf, n+1, fp)`: at most `n` bytes, up to a newline; what is read and what is left. -/
def fgets : Nat → List Nat → List Nat × List Nat
  | 0, s => ([], s)
  | _ + 1, [] => ([], [])
  | n + 1, b :: s => if b = 10 then ([b], s) else ((b :: (fgets n s).1), (fgets n s).2)

theorem fgets_lt (n : Nat) : ∀ s : List Nat, s ≠ [] → (fgets (n + 1) s).2.length < s.length := by
  have key : ∀ (n : Nat) (s : List Nat), (fgets n s).2.length ≤ s.length := by
    intro n
    induction n with
    | zero => intro s; simp [fgets]
    | succ n ih =>
      intro s
      cases s with
      | nil => simp [fgets]
      | cons b s =>
        simp only [fgets]
        split
        · simp
        · have := ih s
          simp only [List.length_cons]; omega
  intro s hs
  cases s with
  | nil => exact absurd rfl hs
  | cons b s =>
    simp only [fgets]
    split
    · simp
    · have := key n s
      simp only [List.length_cons]; omega

/-- The lines of an alias file, libbsdconv_module.c:223-233 (`buf[256]`; a NUL byte ends the text of a line). -/
def addAliases (a : Arr) (file : List Nat) : Arr :=
  if _h : file = [] then a
  else
    let r := fgets 255 file
    if r.1.head? = some 35 then addAliases a r.2
    else addAliases (a.push (upTo 9 (upTo 0 r.1))) r.2
termination_by file.length
decreasing_by all_goals exact fgets_lt 254 file _h

/-- `strcmp`: is the first string not behind the second? -/
def strcmpLe : List Nat → List Nat → Bool
  | [], _ => true
  | _ :: _, [] => false
  | a :: s, b :: t => if a = b then strcmpLe s t else decide (a < b)

/-- The array before it is sorted: `bsdconv_modules_list`, libbsdconv_module.c:149-250, for a directory (of filters or scorers if `f`) and its alias file, if they are there. -/
def gathered (f : Bool) (dir : Option (List (List Nat))) (file : Option (List Nat)) : Arr :=
  let a := match dir with
    | none => Arr.new
    | some ds => if f then addFilters Arr.new ds else addCodecs Arr.new ds
  let a := match file with
    | none => a
    | some t => addAliases a t
  a.close

/-- `bsdconv_modules_list` returns the strings `l`, a NULL behind them: `qsort` gives any permutation that `scmp` (:141-143) says is in order. -/
def Lists (f : Bool) (dir : Option (List (List Nat))) (file : Option (List Nat)) (l : List (List Nat)) : Prop :=
  (gathered f dir file).safe = true ∧ l.Perm (gathered f dir file).items ∧ l.Pairwise fun a b => strcmpLe a b = true

/-- `bsdconv_module_check` for a name without `/`, libbsdconv_module.c:81-139 -/
def moduleCheck (f : Bool) (dir : List (List Nat)) (name : List Nat) : Bool :=
  dir.contains (if f then upperBytes name ++ [46, 115, 111] else upperBytes name)

end Verif.Listing
