import Verif.Model.MkTable
/-
Specification of a table file: what a list of rules means, string by string.
-/
namespace Verif.Spec.Table
open Verif.MkTable (Rule)
open Verif.Engine (Status)

/-- What a symbol is also taken for by a rule marked `!` (0: nothing): the entry of the compiler's table. -/
abbrev folded : Nat → Nat := Verif.MkTable.ciTable

/-- Does the symbol lie within the bounds, or what it is also taken for? -/
def symbolFits (ci : Bool) (b : Nat × Nat) (c : Nat) : Bool :=
  decide (b.1 ≤ c ∧ c ≤ b.2) || (ci && decide (folded c ≠ 0 ∧ b.1 ≤ folded c ∧ folded c ≤ b.2))

/-- Does the string `q` fit the bounds, symbol by symbol (and have the same length)? -/
def within (ci : Bool) : List (Nat × Nat) → List Nat → Bool
  | [], [] => true
  | b :: bs, c :: cs => symbolFits ci b c && within ci bs cs
  | _, _ => false

/-- The number of symbols that lie within their bounds themselves. -/
def exactly : List (Nat × Nat) → List Nat → Nat
  | b :: bs, c :: cs => (if b.1 ≤ c ∧ c ≤ b.2 then 1 else 0) + exactly bs cs
  | _, _ => 0

/-- The rule is for the string `q`. -/
def covers (r : Rule) (q : List Nat) : Bool := within r.ci r.pat q

/-- The string `q` is a proper beginning of a string the rule is for. -/
def begins (r : Rule) (q : List Nat) : Bool := decide (q.length < r.pat.length) && within r.ci (r.pat.take q.length) q

/-- Another rule for `q` comes after the best one so far. -/
def better (q : List Nat) (o : Option Rule) (r : Rule) : Option Rule :=
  match o with
  | none => if covers r q then some r else none
  | some x => if covers r q ∧ (exactly x.pat q < exactly r.pat q ∨ x.cb = true ∧ r.cb = false) then some r else some x

/-- The rule in charge of `q`: among those for `q` the one that fits most exactly, a later plain rule before a callback;
the first one of these. -/
def best (rs : List Rule) (q : List Nat) : Option Rule := rs.foldl (better q) none

/-- What the automaton has to say about a string: nothing if no rule begins with it; otherwise whether a rule is for it
and whether it can be extended, and the data of the rule in charge. -/
def meaning (rs : List Rule) (q : List Nat) : Option (Status × List Nat) :=
  match best rs q, rs.any (begins · q) with
  | none, false => none
  | none, true => some (.cont, [])
  | some r, e =>
    some (match r.cb, e with
      | false, false => .match_
      | false, true => .submatch
      | true, false => .subroutine
      | true, true => .submatchSubroutine, r.dat)

/-- A rule with a pattern of symbols 0..256. -/
def Plain (r : Rule) : Prop := r.pat ≠ [] ∧ ∀ b ∈ r.pat, b.2 ≤ 256

/-- Where two rules are for the same string, the second one replaces the first one only if it is no callback and the
string cannot be extended; the first one may be a callback only if it is replaced. -/
def NoClash (rs : List Rule) : Prop :=
  rs.Pairwise fun r r' => ∀ q, covers r q = true → covers r' q = true →
    (r.cb = false ∧ exactly r'.pat q ≤ exactly r.pat q) ∨ (r'.cb = false ∧ ∀ x ∈ rs, begins x q = false)

/-- The data in a string of symbols: separated by 256, which may also end it. -/
def datums (p : List Nat) : List (List Nat) :=
  if h : p = [] then [] else p.takeWhile (· ≠ 256) :: datums ((p.dropWhile (· ≠ 256)).drop 1)
termination_by p.length
decreasing_by
  have := (List.dropWhile_suffix (l := p) (· ≠ 256)).length_le
  have := List.length_pos_iff.2 h
  rw [List.length_drop]
  omega

end Verif.Spec.Table
