import Verif.Spec.Handler
/-
Specification of the bonus for characters.
-/
namespace Verif.Spec

/-- The bonus of a code point: that of its row, and 0 for a character without a row. -/
def bonusIn (rows : List (Nat × Nat)) (cp : Nat) : Nat := ((rows.find? fun r => r.1 = cp).map (·.2)).getD 0

/-- The bonus of a text. -/
def bonusOf (rows : List (Nat × Nat)) (cps : List Nat) : Nat := (cps.map (bonusIn rows)).sum

end Verif.Spec
