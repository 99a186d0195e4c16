import Verif.Spec.Exclusions
import Verif.Props.Normalize
/-
Kernel-checked facts on the tables of NFD and NFC, for Props/NfcSingle.lean.
-/
namespace Verif.Props
open Verif.Spec
open Verif.Engine hiding Datum step

/-- The composite of two numbers. -/
def Nfc.find (s c : Nat) : Option Nat := (Nfc.rules.find? fun r => Nat.beq r.1 s && Nat.beq r.2.1 c).map (·.2.2.1)

/-- Classes that do not decrease. -/
def cccOrdered : List Nat → Bool
  | a :: b :: l => (Inter.ccc (uniDatum b) == 0 || decide (Inter.ccc (uniDatum a) ≤ Inter.ccc (uniDatum b))) && cccOrdered (b :: l)
  | _ => true

/-- A decomposition that is composed to `n` again, from left to right. -/
def recomposes (n : Nat) : List Nat → Bool
  | [] => false
  | h :: t => Inter.ccc (uniDatum h) == 0 && cccOrdered (h :: t) && t.foldl (fun o c => o.bind fun s => Nfc.find s c) (some h) == some n

def excludedB (n : Nat) : Bool := exclusions.any fun r => Nat.ble r.1 n && Nat.ble n r.2

theorem excludedB_iff (n : Nat) : excludedB n = true ↔ Excluded n := by
  unfold excludedB Excluded
  rw [List.any_eq_true]
  simp only [Bool.and_eq_true, Nat.ble_eq]

set_option maxRecDepth 100000 in
theorem nfd_recomposes : (Nfd.rules.all fun r => excludedB r.1 || recomposes r.1 r.2) = true := by decide +kernel

set_option maxRecDepth 100000 in
theorem nfc_not_excluded : (Nfc.rules.all fun r => !excludedB r.2.2.1) = true := by decide +kernel

set_option maxRecDepth 100000 in
theorem excluded_rules : (exclusions.all fun r => (List.range' r.1 (r.2 + 1 - r.1)).all fun n => (Nfd.find n).isSome) = true := by decide +kernel

end Verif.Props
