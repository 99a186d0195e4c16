import Verif.Spec.Codec
import Verif.Spec.Range
import Verif.Spec.Unicode
/-
Specification of the intermediate codecs: what a user expects COUNT, WIDTH, TRIM-WIDTH, ... to compute.
-/
namespace Verif.Spec
open Verif.Range (Row)

/-- The number written big-endian. -/
def beNat (bs : List Nat) : Nat := bs.foldl (fun n b => n * 256 + b) 0

/-- The character a datum stands for, if it is unicode data: a byte 1 and a 32-bit number. -/
def char? : Datum → Option Nat
  | 1 :: bs => some (beNat bs % 2 ^ 32)
  | _ => none

/-- The value a table gives to a datum's character. -/
def valueIn (t : List Row) (d : Datum) : Option Int :=
  (char? d).bind fun u => (t.find? fun r => decide (In u r)).map Row.val

example : char? [1, 0x20, 0xAC] = some 0x20AC ∧ char? [3, 0x41] = none := by decide

/-- Total of a measure over a list of data. -/
def total (w : Datum → Nat) (ds : List Datum) : Nat := (ds.map w).sum

/-- The longest prefix of total at most `n`. -/
def longestFit (w : Datum → Nat) (n : Int) : List Datum → List Datum
  | [] => []
  | d :: ds => if (w d : Int) ≤ n then d :: longestFit w (n - w d) ds else []

theorem longestFit_prefix (w : Datum → Nat) (n : Int) (ds : List Datum) : longestFit w n ds <+: ds := by
  induction ds generalizing n with
  | nil => exact List.prefix_refl _
  | cons d ds ih =>
    simp only [longestFit]
    split
    · obtain ⟨t, ht⟩ := ih (n - w d)
      exact ⟨t, by rw [List.cons_append, ht]⟩
    · exact List.nil_prefix

/-- It fits (if anything can). -/
theorem longestFit_fits (w : Datum → Nat) (n : Int) (hn : 0 ≤ n) (ds : List Datum) :
    (total w (longestFit w n ds) : Int) ≤ n := by
  induction ds generalizing n with
  | nil => simpa [longestFit, total] using hn
  | cons d ds ih =>
    simp only [longestFit]
    split
    · have := ih (n - w d) (by omega)
      simp only [total, List.map_cons, List.sum_cons] at this ⊢
      omega
    · simpa [total] using hn

/-- No longer prefix fits. -/
theorem longestFit_longest (w : Datum → Nat) (n : Int) (ds p : List Datum) (hp : p <+: ds) (hf : (total w p : Int) ≤ n) :
    p <+: longestFit w n ds := by
  induction ds generalizing n p with
  | nil => rw [List.prefix_nil.1 hp]; exact List.nil_prefix
  | cons d ds ih =>
    cases p with
    | nil => exact List.nil_prefix
    | cons c p =>
      obtain ⟨rfl, hp'⟩ := List.cons_prefix_cons.1 hp
      simp only [total, List.map_cons, List.sum_cons] at hf
      have hle : (w c : Int) ≤ n := by omega
      simp only [longestFit, if_pos hle]
      exact List.cons_prefix_cons.2 ⟨rfl, ih _ p hp' (by simp only [total]; omega)⟩

/-- Maximal runs of data satisfying `f`, given the run that is open. -/
def runsFrom (f : Datum → Bool) (open_ : List Datum) : List Datum → List (List Datum)
  | [] => if open_ = [] then [] else [open_]
  | d :: ds =>
    if f d then runsFrom f (open_ ++ [d]) ds
    else (if open_ = [] then [] else [open_]) ++ runsFrom f [] ds

/-- Maximal runs of data satisfying `f`. -/
def runs (f : Datum → Bool) (ds : List Datum) : List (List Datum) := runsFrom f [] ds

example : runs (fun d => d == [1, 0x41]) [[1, 0x41], [1, 0x41], [3, 1], [3, 2], [1, 0x41]] =
    [[[1, 0x41], [1, 0x41]], [[1, 0x41]]] := by decide

/-- The runs cut the data at every datum that does not satisfy `f`: appending a run of data that do, then one that
does not, in front of the rest adds exactly that run. -/
theorem runs_cut (f : Datum → Bool) (r : List Datum) (hr : ∀ d ∈ r, f d = true) (x : Datum) (hx : f x = false)
    (ds : List Datum) : runs f (r ++ x :: ds) = (if r = [] then [] else [r]) ++ runs f ds := by
  have key : ∀ (o r : List Datum), (∀ d ∈ r, f d = true) →
      runsFrom f o (r ++ x :: ds) = (if o ++ r = [] then [] else [o ++ r]) ++ runs f ds := by
    intro o r hr
    induction r generalizing o with
    | nil => simp [runsFrom, hx, runs]
    | cons d r ih =>
      have hd := hr d (by simp)
      rw [List.cons_append, runsFrom, if_pos hd, ih (o ++ [d]) (fun a ha => hr a (by simp [ha]))]
      simp
  exact key [] r hr

/-- The last run. -/
theorem runs_last (f : Datum → Bool) (r : List Datum) (hr : ∀ d ∈ r, f d = true) :
    runs f r = if r = [] then [] else [r] := by
  have key : ∀ (o r : List Datum), (∀ d ∈ r, f d = true) → runsFrom f o r = if o ++ r = [] then [] else [o ++ r] := by
    intro o r hr
    induction r generalizing o with
    | nil => simp [runsFrom]
    | cons d r ih =>
      rw [runsFrom, if_pos (hr d (by simp)), ih (o ++ [d]) (fun a ha => hr a (by simp [ha]))]
      simp
  exact key [] r hr

end Verif.Spec
