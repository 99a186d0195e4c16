/-
The four-byte codes of GB18030 that are computed (not listed): legal byte ranges, their position in the
sequence 81308130, 81308131, …, and the blocks of consecutive code points.
-/
namespace Verif.Spec

/-- Four bytes of the form required by the standard. -/
def GbLegal (a b c d : Nat) : Prop :=
  (0x81 ≤ a ∧ a ≤ 0xFE) ∧ (0x30 ≤ b ∧ b ≤ 0x39) ∧ (0x81 ≤ c ∧ c ≤ 0xFE) ∧ (0x30 ≤ d ∧ d ≤ 0x39)

instance (a b c d : Nat) : Decidable (GbLegal a b c d) := inferInstanceAs (Decidable (_ ∧ _))

/-- Position of a code in the sequence of all legal four-byte codes. -/
def gbIndex (a b c d : Nat) : Nat := (((a - 0x81) * 10 + (b - 0x30)) * 126 + (c - 0x81)) * 10 + (d - 0x30)

/-- Blocks: first code point, last code point, bytes of the first code. -/
def gbBlocks : List (Nat × Nat × (Nat × Nat × Nat × Nat)) := [
  (0x0452, 0x200F, (0x81, 0x30, 0xD3, 0x30)), (0x2643, 0x2E80, (0x81, 0x37, 0xA8, 0x39)),
  (0x361B, 0x3917, (0x82, 0x30, 0xA6, 0x33)), (0x3CE1, 0x4055, (0x82, 0x31, 0xD4, 0x38)),
  (0x4160, 0x4336, (0x82, 0x32, 0xC9, 0x37)), (0x44D7, 0x464B, (0x82, 0x33, 0xA3, 0x39)),
  (0x478E, 0x4946, (0x82, 0x33, 0xE8, 0x38)), (0x49B8, 0x4C76, (0x82, 0x34, 0xA1, 0x31)),
  (0x9FA6, 0xD7FF, (0x82, 0x35, 0x8F, 0x33)), (0xE865, 0xF92B, (0x83, 0x36, 0xD0, 0x30)),
  (0xFA2A, 0xFE2F, (0x84, 0x30, 0x9C, 0x38)), (0xFFE6, 0xFFFF, (0x84, 0x31, 0xA2, 0x34)),
  (0x10000, 0x10FFFF, (0x90, 0x30, 0x81, 0x30))]

/-- `a b c d` is the four-byte code of `cp`. -/
def GbCode (cp a b c d : Nat) : Prop :=
  GbLegal a b c d ∧ ∃ r ∈ gbBlocks, (r.1 ≤ cp ∧ cp ≤ r.2.1) ∧
    gbIndex a b c d = gbIndex r.2.2.1 r.2.2.2.1 r.2.2.2.2.1 r.2.2.2.2.2 + (cp - r.1)

/-- `cp` has a computed four-byte code. -/
def GbComputed (cp : Nat) : Prop := ∃ r ∈ gbBlocks, r.1 ≤ cp ∧ cp ≤ r.2.1

instance (cp a b c d : Nat) : Decidable (GbCode cp a b c d) := inferInstanceAs (Decidable (_ ∧ _))
instance (cp : Nat) : Decidable (GbComputed cp) := inferInstanceAs (Decidable (∃ r ∈ gbBlocks, _))

example : GbCode 0x10000 0x90 0x30 0x81 0x30 ∧ GbCode 0x10FFFF 0xE3 0x32 0x9A 0x35 := by decide +kernel

end Verif.Spec
