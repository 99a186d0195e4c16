import Verif.Proofs.IbmMixed
import Verif.Props.CcciiBack
/-
C107: the tables of IBM-930, IBM-933.  (The last import only keeps large checks from running at the same time.)
-/
namespace Verif.Props.Mixed
open Verif.Spec Verif.IbmMixed

theorem shape930 : shape ⟨ibm930, lost930, alt930⟩ = true := by decide +kernel

theorem back930 : ibm930.reads.backIn ibm930.writes lost930 = true := by decide +kernel

theorem forth930 : ibm930.writes.backIn ibm930.reads alt930 = true := by decide +kernel

theorem shape933 : shape ⟨ibm933, lost933, alt933⟩ = true := by decide +kernel

theorem back933 : ibm933.reads.backIn ibm933.writes lost933 = true := by decide +kernel

theorem forth933 : ibm933.writes.backIn ibm933.reads alt933 = true := by decide +kernel

end Verif.Props.Mixed
