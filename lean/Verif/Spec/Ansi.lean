import Verif.Spec.Transcode
/-
Text with terminal control sequences.
-/
namespace Verif.Spec

/-- A piece of such a text. -/
inductive TermItem
  | control (s : List Nat)
  | char (cp : Nat)
  deriving DecidableEq, Repr

/-- A letter other than `O`. -/
def CtrlEnd (b : Nat) : Prop := (0x61 ≤ b ∧ b ≤ 0x7A) ∨ (0x41 ≤ b ∧ b ≤ 0x4E) ∨ (0x50 ≤ b ∧ b ≤ 0x5A)

instance (b : Nat) : Decidable (CtrlEnd b) := by unfold CtrlEnd; infer_instance

/-- A control sequence: `ESC [`, any bytes but such letters, such a letter, 30 bytes at most; or `ESC` and any other byte. -/
def ControlSeq (s : List Nat) : Prop :=
  (∃ ps f, s = 0x1B :: 0x5B :: (ps ++ [f]) ∧ (∀ p ∈ ps, p < 256 ∧ ¬CtrlEnd p) ∧ CtrlEnd f ∧ s.length ≤ 30) ∨ (∃ c, s = [0x1B, c] ∧ c < 256 ∧ c ≠ 0x5B)

/-- The bytes of a piece in UTF-8. -/
def TermItem.bytes : TermItem → List Nat
  | .control s => s
  | .char cp => utf8 cp

/-- The datum for a piece: a control sequence as it is, or the character. -/
def TermItem.datum : TermItem → Datum
  | .control s => s
  | .char cp => uniDatum cp

end Verif.Spec
