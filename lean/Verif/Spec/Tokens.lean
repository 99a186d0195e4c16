/-
Specification of rule-driven rewriting, independent of the engine.

A rule set maps patterns (non-empty sequences over an alphabet `α`) to output data.  Text is cut into
tokens from left to right: at each position the first rule set (in priority order) that has any
matching pattern wins, with its longest matching pattern; otherwise the single next element is a miss.
-/

namespace Verif.Spec

/-- Rules in file order: pattern and what it is rewritten to.  The first rule for a pattern counts. -/
abbrev Rules (α β : Type) := List (List α × β)

section
variable {α β : Type} [DecidableEq α]

/-- The rewriting of exactly the pattern `p`. -/
def lookup (R : Rules α β) (p : List α) : Option β :=
  match R with
  | [] => none
  | r :: rs => if r.1 = p then some r.2 else lookup rs p

/-- The longest prefix of `s` of length at most `n` (and at least 1) that is a pattern. -/
def longestUpTo (R : Rules α β) (s : List α) : Nat → Option (Nat × β)
  | 0 => none
  | n + 1 =>
    match lookup R (s.take (n + 1)) with
    | some b => some (n + 1, b)
    | none => longestUpTo R s n

/-- The longest prefix of `s` that is a pattern: its length and rewriting. -/
def longest (R : Rules α β) (s : List α) : Option (Nat × β) := longestUpTo R s s.length

/-- The first rule set with a match at the head of `s`. -/
def firstMatch (Rs : List (Rules α β)) (s : List α) : Option (Nat × β) :=
  match Rs with
  | [] => none
  | R :: rest =>
    match longest R s with
    | some r => some r
    | none => firstMatch rest s

/-- A token: a rewritten stretch or a single element that no rule matches. -/
inductive Tok (α β : Type)
  | hit (b : β)
  | miss (a : α)
  deriving DecidableEq, Repr

/-- Cutting a text into tokens. -/
def tokens (Rs : List (Rules α β)) : List α → List (Tok α β)
  | [] => []
  | a :: t =>
    match firstMatch Rs (a :: t) with
    | some (n, b) => .hit b :: tokens Rs (t.drop (n - 1))
    | none => .miss a :: tokens Rs t
termination_by s => s.length
decreasing_by
  all_goals simp
  all_goals omega

/-- Number of misses. -/
def misses (ts : List (Tok α β)) : Nat :=
  match ts with
  | [] => 0
  | .hit _ :: r => misses r
  | .miss _ :: r => misses r + 1
end

/-- Output of a decoding or encoding phase: the rewritings, misses produce nothing. -/
def dropMisses {α γ : Type} : List (Tok α (List γ)) → List γ
  | [] => []
  | .hit b :: r => b ++ dropMisses r
  | .miss _ :: r => dropMisses r

/-- Output of an intermediate phase: misses are passed on. -/
def passMisses {γ : Type} : List (Tok γ (List γ)) → List γ
  | [] => []
  | .hit b :: r => b ++ passMisses r
  | .miss a :: r => a :: passMisses r

/-- A datum is a string of bytes. -/
abbrev Datum := List Nat

/-- What a phase does, given by its rule sets in priority order. -/
inductive Phase
  | decode (Rs : List (Rules Nat (List Datum)))      -- patterns are byte strings
  | rewrite (Rs : List (Rules Datum (List Datum)))   -- patterns are sequences of data
  | encode (Rs : List (Rules Datum (List Datum)))

/-- Empty data carry nothing. -/
def nonEmpty (ds : List Datum) : List Datum := ds.filter (fun d => !d.isEmpty)

/-- Output of a phase on a finished stream of data. -/
def Phase.out : Phase → List Datum → List Datum
  | .decode Rs, ds => dropMisses (tokens Rs ds.flatten)
  | .rewrite Rs, ds => passMisses (tokens Rs (nonEmpty ds))
  | .encode Rs, ds => dropMisses (tokens Rs (nonEmpty ds))

/-- Decoding errors of a phase. -/
def Phase.inErrors : Phase → List Datum → Nat
  | .decode Rs, ds => misses (tokens Rs ds.flatten)
  | _, _ => 0

/-- Encoding errors of a phase. -/
def Phase.outErrors : Phase → List Datum → Nat
  | .encode Rs, ds => misses (tokens Rs (nonEmpty ds))
  | _, _ => 0

/-- Output of a chain of phases. -/
def pipeline : List Phase → List Datum → List Datum
  | [], ds => ds
  | p :: ps, ds => pipeline ps (p.out ds)

/-- Total decoding errors of a chain. -/
def pipelineIn : List Phase → List Datum → Nat
  | [], _ => 0
  | p :: ps, ds => p.inErrors ds + pipelineIn ps (p.out ds)

/-- Total encoding errors of a chain. -/
def pipelineOut : List Phase → List Datum → Nat
  | [], _ => 0
  | p :: ps, ds => p.outErrors ds + pipelineOut ps (p.out ds)

end Verif.Spec
