import Verif.Model.Engine
import Verif.Spec.Tokens

/-
What it means for a codec's automaton (the compiled table) to represent a list of rules.
The compiler /repo/src/bsdconv-mktable.c is modelled in Model/MkTable.lean, where the automaton it
builds is shown to represent its input rules.
-/

namespace Verif.Engine
open Verif.Spec (Rules lookup)

variable {π : Type}

/-- Following transitions from node `o`; `none` when a transition is missing (offset 0). -/
def walk (c : Codec π) (o : Nat) : List Nat → Option Nat
  | [] => some o
  | s :: ss => if c.next o s = 0 then none else walk c (c.next o s) ss

/-- Is `p` a proper prefix of some pattern? -/
def extendable (S : Rules Nat (List Datum)) (p : List Nat) : Bool :=
  S.any (fun r => p.isPrefixOf r.1 && r.1 != p)

/-- Status of the node reached by `p`: MATCH for a pattern that is a leaf, SUBMATCH for a pattern that
some longer pattern extends, CONTINUE for a proper prefix only
(/repo/src/bsdconv-mktable.c:268-287, 352-397). -/
def nodeStatus (S : Rules Nat (List Datum)) (p : List Nat) : Status :=
  match lookup S p with
  | none => .cont
  | some _ => if extendable S p then .submatch else .match_

/-- The automaton of a codec represents the rules `S` over symbols 0..256 (256 = separator of data). -/
structure Represents (c : Codec π) (S : Rules Nat (List Datum)) : Prop where
  /-- offset 0 is the root, with status DEADEND (/repo/src/bsdconv-mktable.c:218) -/
  root : c.status 0 = .deadend
  /-- a path exists exactly for the prefixes of patterns -/
  path : ∀ p, p ≠ [] → ((walk c 0 p).isSome ↔ ∃ r ∈ S, p <+: r.1)
  status : ∀ p o, p ≠ [] → walk c 0 p = some o → c.status o = nodeStatus S p
  data : ∀ p o b, walk c 0 p = some o → lookup S p = some b → c.data o = b

/-- Symbol string of a sequence of data: data separated by 256. -/
def symbols : List Datum → List Nat
  | [] => []
  | [d] => d
  | d :: ds => d ++ 256 :: symbols ds

/-- Rules over data as rules over symbols. -/
def symbolRules (R : Rules Datum (List Datum)) : Rules Nat (List Datum) :=
  R.map (fun r => (symbols r.1, r.2))

/-- All elements are bytes. -/
def IsBytes (d : Datum) : Prop := ∀ b ∈ d, b < 256

/-- A rule rewrites to at least one datum, and to non-empty data of bytes. -/
def GoodData (ds : List Datum) : Prop := ds ≠ [] ∧ ∀ d ∈ ds, d ≠ [] ∧ IsBytes d

/-- The codecs of a phase are tables representing the phase's rule sets. -/
def PhaseTables (s : Static π) : Verif.Spec.Phase → Prop
  | .decode Rs => s.type = .from_ ∧ Rs.length = s.codecn + 1 ∧
      (∀ j (h : j < Rs.length), Represents (s.codecs j) Rs[j]) ∧
      ∀ R ∈ Rs, ∀ r ∈ R, r.1 ≠ [] ∧ GoodData r.2
  | .rewrite Rs => s.type = .inter ∧ Rs.length = s.codecn + 1 ∧
      (∀ j (h : j < Rs.length), Represents (s.codecs j) (symbolRules Rs[j])) ∧
      ∀ R ∈ Rs, ∀ r ∈ R, r.1 ≠ [] ∧ (∀ d ∈ r.1, d ≠ [] ∧ IsBytes d) ∧ GoodData r.2
  | .encode Rs => s.type = .to_ ∧ Rs.length = s.codecn + 1 ∧
      (∀ j (h : j < Rs.length), Represents (s.codecs j) (symbolRules Rs[j])) ∧
      ∀ R ∈ Rs, ∀ r ∈ R, r.1 ≠ [] ∧ (∀ d ∈ r.1, d ≠ [] ∧ IsBytes d) ∧ GoodData r.2

end Verif.Engine
