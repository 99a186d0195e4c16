import Verif.Props.IbmMixed1
/-
C107: the tables of IBM-935, IBM-937, IBM-939.  (The last import only keeps large checks from running at the same time.)
-/
namespace Verif.Props.Mixed
open Verif.Spec Verif.IbmMixed

theorem shape935 : shape ⟨ibm935, lost935, alt935⟩ = true := by decide +kernel

theorem back935 : ibm935.reads.backIn ibm935.writes lost935 = true := by decide +kernel

theorem forth935 : ibm935.writes.backIn ibm935.reads alt935 = true := by decide +kernel

theorem shape937 : shape ⟨ibm937, lost937, alt937⟩ = true := by decide +kernel

theorem back937 : ibm937.reads.backIn ibm937.writes lost937 = true := by decide +kernel

theorem forth937 : ibm937.writes.backIn ibm937.reads alt937 = true := by decide +kernel

theorem shape939 : shape ⟨ibm939, lost939, alt939⟩ = true := by decide +kernel

theorem back939 : ibm939.reads.backIn ibm939.writes lost939 = true := by decide +kernel

theorem forth939 : ibm939.writes.backIn ibm939.reads alt939 = true := by decide +kernel

end Verif.Props.Mixed
