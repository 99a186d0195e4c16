import Verif.Props.CcciiKept
/-
C106: every code that is written is read as its character.  (The import of CcciiKept only keeps large checks from running at the same time.)
-/
namespace Verif.Props.Cccii
open Verif.Spec Verif.Cccii

theorem back_ok : writes.backIn reads [] = true := by decide +kernel

end Verif.Props.Cccii
