import Verif.Spec.Handler

/-
Codecs that read bytes one by one, and what a decoding phase made of several of them does to a stream of bytes: at
each position the codecs are tried in order; if none can make sense of the bytes, one byte is skipped and counted as
an error.
-/

namespace Verif.Spec

/-- A codec's answer to a byte. -/
inductive Ans (π : Type)
  /-- go on -/
  | more (t : π)
  /-- the bytes read so far stand for `out` -/
  | done (t : π) (out : List Datum)
  /-- no -/
  | dead (t : π)
  deriving DecidableEq

/-- A codec reading bytes: from its private data, the bytes it has read since the start of the token, and the next
byte. -/
structure Reader (π : Type) where
  step : π → List Nat → Nat → Ans π

/-- Outcome of reading a list of bytes. -/
inductive Read (π : Type)
  /-- no bytes are left -/
  | ended (t : π)
  | done (rest : List Nat) (t : π) (out : List Datum)
  | dead (t : π)
  deriving DecidableEq

variable {π : Type}

/-- Read on, having read `u`. -/
def Reader.read (r : Reader π) : π → List Nat → List Nat → Read π
  | t, _, [] => .ended t
  | t, u, b :: bs =>
    match r.step t u b with
    | .more t' => r.read t' (u ++ [b]) bs
    | .done t' out => .done bs t' out
    | .dead t' => .dead t'

/-- A rule set none of whose patterns is a proper prefix of another, as a codec. -/
def Reader.table (R : Rules Nat (List Datum)) : Reader π where
  step := fun t u b =>
    match lookup R (u ++ [b]) with
    | some out => .done t out
    | none => if R.any (fun r => (u ++ [b]).isPrefixOf r.1) then .more t else .dead t

/-- Codec `j` goes on with `rest`, having read `u`; if it fails (or the bytes end), `k` further codecs are tried from
the start of the token.  Result: private data, and the remaining bytes and output if a codec succeeded. -/
def resume (rs : Nat → Reader π) : (k j : Nat) → (Nat → π) → (u rest : List Nat) → (Nat → π) × Option (List Nat × List Datum)
  | k, j, p, u, rest =>
    match (rs j).read (p j) u rest with
    | .done rest' t out => (setPriv p j t, some (rest', out))
    | .dead t =>
      match k with
      | 0 => (setPriv p j t, none)
      | k + 1 => resume rs k (j + 1) (setPriv p j t) [] (u ++ rest)
    | .ended t =>
      match k with
      | 0 => (setPriv p j t, none)
      | k + 1 => resume rs k (j + 1) (setPriv p j t) [] (u ++ rest)

/-- The result of decoding. -/
structure Decoded (π : Type) where
  out : List Datum
  /-- bytes skipped -/
  errors : Nat
  priv : Nat → π

theorem read_lt (r : Reader π) (t : π) (u s : List Nat) {rest : List Nat} {t' : π} {out : List Datum}
    (h : r.read t u s = .done rest t' out) : rest.length < s.length := by
  induction s generalizing t u with
  | nil => simp [Reader.read] at h
  | cons b s ih =>
    rw [Reader.read] at h
    cases hs : r.step t u b with
    | more t1 => rw [hs] at h; have := ih _ _ h; simp; omega
    | done t1 o => rw [hs] at h; simp only [Read.done.injEq] at h; rw [h.1]; simp
    | dead t1 => rw [hs] at h; simp at h

theorem resume_lt (rs : Nat → Reader π) (k j : Nat) (p : Nat → π) (u s : List Nat) {p' : Nat → π} {rest : List Nat}
    {out : List Datum} (h : resume rs k j p u s = (p', some (rest, out))) : rest.length < (u ++ s).length := by
  induction k generalizing j p u s with
  | zero =>
    rw [resume] at h
    split at h
    · rename_i rest' t o hr
      simp only [Prod.mk.injEq, Option.some.injEq] at h
      have := read_lt _ _ _ _ hr
      rw [← h.2.1]; simp; omega
    · simp at h
    · simp at h
  | succ k ih =>
    rw [resume] at h
    split at h
    · rename_i rest' t o hr
      simp only [Prod.mk.injEq, Option.some.injEq] at h
      have := read_lt _ _ _ _ hr
      rw [← h.2.1]; simp; omega
    · simpa using ih _ _ _ _ h
    · simpa using ih _ _ _ _ h

/-- Decode a string of bytes with codecs `0..n` from private data `p`. -/
def decode (rs : Nat → Reader π) (n : Nat) (p : Nat → π) : List Nat → Decoded π
  | [] => ⟨[], 0, p⟩
  | b :: s =>
    match h : resume rs n 0 p [] (b :: s) with
    | (p', some (rest, out)) =>
      let r := decode rs n p' rest
      { r with out := out ++ r.out }
    | (p', none) =>
      let r := decode rs n p' s
      { r with errors := r.errors + 1 }
termination_by s => s.length
decreasing_by
  · have := resume_lt rs n 0 p [] (b :: s) h; simpa using this
  · simp

/-- A decoding phase as a stream processor. -/
def decoderProc (rs : Nat → Reader π) (n : Nat) (p : Nat → π) : Proc π where
  out := fun ds => (decode rs n p ds.flatten).out
  dec := true
  inErrors := fun ds => (decode rs n p ds.flatten).errors
  fin := fun ds q => q = (decode rs n p ds.flatten).priv

end Verif.Spec
