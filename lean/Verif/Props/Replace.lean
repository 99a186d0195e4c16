import Verif.Proofs.Replace
import Verif.Props.Inter
/-
C37: inter/REPLACE.
-/
namespace Verif.Props
open Verif.Spec
open Verif.Engine hiding Datum step

variable {π σ : Type}

/-- C37.  Whatever the chunking, the output modes and the other phases, `REPLACE` turns its input into the input
with the occurrences of its pattern replaced from left to right — if the input does not end in the middle of what
could become an occurrence, or if the last datum of the pattern occurs only once in it.  Without this condition it
does not (`C37_violated`). -/
theorem C37_replace_partial {st : Nat → Static π} {ip : Nat → Nat → π → π} {ins : Ins π} {pre post : List (Proc π)} {s : Static π}
    (h : Placed st ip ins pre s post) {e : Lens π (List Datum)} {pat to : List Datum} (hp : pat ≠ []) (ht : AllBytes to)
    (hs : Only s .inter (replaceCodec e pat to)) (hi : ∀ x, e.get (ip (pre.length + 1) 0 x) = replaceInit pat (e.get x)) :
    Converts st ip ins (pre ++ { out := fun ds => replaceAll pat to (nonEmpty ds)
                                 ok := fun ds => ReplaceOk pat (nonEmpty ds) } :: post) := by
  refine placed_converts h (replace_realises ⟨hs.type, hs.one, hs.codec, hp, ht⟩ ?_) rfl
  exact initPriv_get (placed_le h) (by omega) e (replaceInit pat) hi

/-- C37.  A pattern of one datum needs no condition. -/
theorem C37_single {st : Nat → Static π} {ip : Nat → Nat → π → π} {ins : Ins π} {pre post : List (Proc π)} {s : Static π}
    (h : Placed st ip ins pre s post) {e : Lens π (List Datum)} {x : Datum} {to : List Datum} (ht : AllBytes to)
    (hs : Only s .inter (replaceCodec e [x] to)) (hi : ∀ y, e.get (ip (pre.length + 1) 0 y) = replaceInit [x] (e.get y)) :
    Converts st ip ins (pre ++ { out := fun ds => (nonEmpty ds).flatMap fun d => if d = x then to else [d] } :: post) := by
  refine placed_converts h ((replace_realises ⟨hs.type, hs.one, hs.codec, by simp, ht⟩ (initPriv_get (placed_le h) (by omega) e (replaceInit [x]) hi)).as
    rfl (fun ds _ _ => .inl (by simp)) ?_) rfl
  intro ds _ _
  refine ⟨?_, rfl, rfl, fun _ _ => trivial⟩
  show replaceAll [x] to (nonEmpty ds) = (nonEmpty ds).flatMap fun d => if d = x then to else [d]
  generalize nonEmpty ds = es
  induction es with
  | nil => rw [replaceAll_nil]; rfl
  | cons d es ih =>
    by_cases hd : d = x
    · subst hd
      have := replaceAll_hit (pat := [d]) (to := to) (by simp) es
      simp only [List.cons_append, List.nil_append] at this
      rw [this, ih]; simp
    · rw [replaceAll_miss (by rw [List.cons_prefix_cons]; exact fun k => hd k.1.symm), ih]
      simp [hd]

/-- The result is the one described by `Replaced`, and no other. -/
theorem C37_replaced {pat to : List Datum} (hp : pat ≠ []) (ds out : List Datum) :
    Replaced pat to ds out ↔ out = replaceAll pat to ds :=
  ⟨replaced_eq hp, fun h => h ▸ replaceAll_replaced hp ds⟩

/-- Nothing is touched where the pattern does not occur. -/
theorem C37_unchanged {pat to : List Datum} (ds : List Datum) (h : ¬ pat <:+: ds) : replaceAll pat to ds = ds := by
  induction ds with
  | nil => rw [replaceAll_nil]
  | cons d ds ih =>
    rw [replaceAll_miss (fun k => h k.isInfix), ih (fun k => h (k.trans (List.suffix_cons _ _).isInfix))]

/-- `REPLACE` alone, pattern A B B, replacement X. -/
def repPhase : Static (List Datum) := onePhase .inter (replaceCodec (Lens.self _) [[1, 65], [1, 66], [1, 66]] [[1, 88]])

/-- C37 is false in general: with the pattern A B B, the input A B becomes A X, because the end of the input does
not put the cursor back to the beginning of the pattern (/repo/modules/inter/REPLACE.c has no `cbflush`). -/
theorem C37_violated :
    (∃ ds i, Session (fun _ => repPhase) ((solo []).init (fun _ => repPhase) (fun _ _ => replaceInit [[1, 65], [1, 66], [1, 66]]))
      (twoCalls [1, 65] [1, 66]) ds i ∧ i.pending = [[1, 65], [1, 88]]) ∧
    Replaced [[1, 65], [1, 66], [1, 66]] [[1, 88]] [[1, 65], [1, 66]] [[1, 65], [1, 66]] := by
  refine ⟨⟨_, _, .cons (call_eval 60 (by decide +kernel)) (.cons (call_eval 60 (by decide +kernel)) (.nil _)), by decide +kernel⟩, ?_⟩
  exact .miss (by decide) (.miss (by decide) .nil)

/-- The same conversion fed A B B and an unfinished second occurrence A A. -/
theorem rep_ok : ReplaceOk [[1, 65], [1, 65], [1, 66]] [[1, 65], [1, 65], [1, 65], [1, 66], [1, 65], [1, 65]] := .inl (by decide)

/-- Non-vacuity: the pattern A A B in A A A B A A, one datum per call. -/
example : ∃ ds ins', Session (fun _ => onePhase .inter (replaceCodec (Lens.self (List Datum)) [[1, 65], [1, 65], [1, 66]] [[1, 88]]))
      ((solo []).init (fun _ => onePhase .inter (replaceCodec (Lens.self (List Datum)) [[1, 65], [1, 65], [1, 66]] [[1, 88]]))
        (fun _ _ => replaceInit [[1, 65], [1, 65], [1, 66]]))
      (([[1, 65], [1, 65], [1, 65], [1, 66], [1, 65]].map fun d => ⟨some d, false, .hold⟩) ++ [⟨some [1, 65], true, .hold⟩]) ds ins' ∧
    nonEmpty ins'.pending = [[1, 65], [1, 88], [1, 65], [1, 65]] := by
  have h := C37_replace_partial (placed_solo (π := List Datum) _ (fun _ _ => replaceInit [[1, 65], [1, 65], [1, 66]]) [])
    (e := Lens.self _) (pat := [[1, 65], [1, 65], [1, 66]]) (to := [[1, 88]]) (by simp) (by decide) (only_one .inter _) (fun _ => rfl)
  obtain ⟨ds, ins', a, _, b, _⟩ := h ([[1, 65], [1, 65], [1, 65], [1, 66], [1, 65]].map fun d => ⟨some d, false, .hold⟩)
    ⟨some [1, 65], true, .hold⟩ (by simp) rfl (by simp) (by decide) _ rfl ⟨.inl rfl, rep_ok, trivial⟩
  refine ⟨ds, ins', a, ?_⟩
  rw [b (by simp)]
  have hr : Replaced [[1, 65], [1, 65], [1, 66]] [[1, 88]] [[1, 65], [1, 65], [1, 65], [1, 66], [1, 65], [1, 65]] [[1, 65], [1, 88], [1, 65], [1, 65]] :=
    .miss (by decide) (.hit (ds := [[1, 65], [1, 65]]) (.miss (by decide) (.miss (by decide) .nil)))
  have := replaced_eq (by simp) hr
  show nonEmpty (replaceAll _ _ [[1, 65], [1, 65], [1, 65], [1, 66], [1, 65], [1, 65]]) = _
  rw [← this]; rfl

end Verif.Props
