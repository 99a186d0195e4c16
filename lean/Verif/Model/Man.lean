import Verif.Model.Solve
/-
The program bsdconv-man, /repo/src/bsdconv-man.c.

The files are a function from directory and name (`NAME` of `NAME.man`) to contents; `look` is `bsdconv_solve_alias` and `check`
`bsdconv_module_check`.  `chdir` into an absolute path is taken to succeed.  BUFSIZ is that of glibc.
-/
namespace Verif.Man
open Verif.Spec (upperBytes)
open Verif.Solve (lit)

/-- BUFSIZ, /usr/include/stdio.h -/
def bufsiz : Nat := 8192

/-- `isspace` -/
def space (b : Nat) : Bool := b == 32 || (decide (9 ≤ b) && decide (b ≤ 13))

/-- What `fscanf` returns with one conversion: 1 and the word, 0, or EOF. -/
inductive Scanned
  | word (w : List Nat)
  | mismatch
  | ended

/-- `fscanf(fp, ".redirect %s", buf)`, bsdconv-man.c:57: literal characters, white space, a word. -/
def scan : List Nat → List Nat → Scanned
  | [], f => match f.dropWhile space with
    | [] => .ended
    | b :: s => .word ((b :: s).takeWhile fun x => !space x)
  | _ :: _, [] => .ended
  | a :: l, b :: s => if a = b then scan l s else .mismatch

/-- The directory of a phase type, bsdconv-man.c:31-48 -/
def dirOf (phase : List Nat) : Option String :=
  if phase = lit "FROM" then some "from"
  else if phase = lit "INTER" then some "inter"
  else if phase = lit "TO" then some "to"
  else if phase = lit "FILTER" then some "filter"
  else none

/-- How `man` ends. -/
inductive Outcome
  /-- 1 is returned: `main` prints the usage -/
  | usage
  /-- 0 is returned, this text printed -/
  | shown (text : List Nat)
  /-- a pointer into the middle of a block is given to `free` -/
  | badFree
  /-- a buffer that was never set is read -/
  | unset
  /-- a buffer is overrun -/
  | overrun

/-- `phase/codec:` and a newline, bsdconv-man.c:65, 81 -/
def header (ph c : List Nat) : List Nat := ph ++ lit "/" ++ c ++ lit ":\n"

/-- The files and functions used. -/
structure World where
  page : String → List Nat → Option (List Nat)
  look : String → List Nat → Option (List Nat)
  check : String → List Nat → Bool

/-- `man(pc)` returns (or not: then there is no outcome), bsdconv-man.c:11-95 -/
inductive Man (W : World) : List Nat → Outcome → Prop
  /-- :24-28 -/
  | noSlash {pc : List Nat} : 47 ∉ pc → Man W pc .usage
  /-- :45-49 -/
  | badType {ph c : List Nat} : 47 ∉ ph → dirOf (upperBytes ph) = none → Man W (ph ++ 47 :: c) .badFree
  /-- :57-63 -/
  | redirect {ph c f w : List Nat} {d : String} {o : Outcome} : 47 ∉ ph → dirOf (upperBytes ph) = some d → W.page d (upperBytes c) = some f →
      scan (lit ".redirect") f = .word w → w.length < bufsiz → Man W w o → Man W (ph ++ 47 :: c) o
  | tooLong {ph c f w : List Nat} {d : String} : 47 ∉ ph → dirOf (upperBytes ph) = some d → W.page d (upperBytes c) = some f →
      scan (lit ".redirect") f = .word w → bufsiz ≤ w.length → Man W (ph ++ 47 :: c) .overrun
  | ended {ph c f : List Nat} {d : String} : 47 ∉ ph → dirOf (upperBytes ph) = some d → W.page d (upperBytes c) = some f →
      scan (lit ".redirect") f = .ended → Man W (ph ++ 47 :: c) .unset
  /-- :64-74 -/
  | page {ph c f : List Nat} {d : String} : 47 ∉ ph → dirOf (upperBytes ph) = some d → W.page d (upperBytes c) = some f →
      scan (lit ".redirect") f = .mismatch → Man W (ph ++ 47 :: c) (.shown (header (upperBytes ph) (upperBytes c) ++ f))
  /-- :78-82 -/
  | alias {ph c a : List Nat} {d : String} : 47 ∉ ph → dirOf (upperBytes ph) = some d → W.page d (upperBytes c) = none →
      W.look d (upperBytes c) = some a → Man W (ph ++ 47 :: c) (.shown (header (upperBytes ph) (upperBytes c) ++ lit "Alias to " ++ a ++ lit "\n"))
  /-- :83-84 -/
  | noPage {ph c : List Nat} {d : String} : 47 ∉ ph → dirOf (upperBytes ph) = some d → W.page d (upperBytes c) = none →
      W.look d (upperBytes c) = none → W.check d (upperBytes c) = true → Man W (ph ++ 47 :: c) (.shown (lit "No man page for such codec\n"))
  /-- :85-87 -/
  | noCodec {ph c : List Nat} {d : String} : 47 ∉ ph → dirOf (upperBytes ph) = some d → W.page d (upperBytes c) = none →
      W.look d (upperBytes c) = none → W.check d (upperBytes c) = false → Man W (ph ++ 47 :: c) (.shown (lit "No such codec\n"))

/-- The argument `man` gets from `main`, bsdconv-man.c:97-111: one argument, or two with `/` between them. -/
def argument : List (List Nat) → Option (List Nat)
  | [a] => some a
  | [a, b] => some (a ++ 47 :: b)
  | _ => none

end Verif.Man
