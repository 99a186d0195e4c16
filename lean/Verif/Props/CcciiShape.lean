import Verif.Proofs.Charset
import Verif.Model.Cccii
import Verif.Props.FamilyTable
/-
C106: the shape of the tables of CCCII.  (The import of FamilyTable only keeps large checks from running at the same time.)
-/
namespace Verif.Props.Cccii
open Verif.Spec Verif.Cccii

/-- The shape of the tables. -/
def shape : Bool :=
  Chart.rising 0 reads && Chart.rising 0 writes &&
    reads.all (fun r => Nat.ble 0x10000 r.1 && Nat.ble (r.1 + r.2.length) 0x1000000 && r.2.all goodChar) &&
    writes.all (fun r => goodChars r.1 r.2.length && r.2.all fun c => Nat.ble 0x10000 c && Nat.blt c 0x1000000) &&
    Nat.ble (reads.map fun r => r.2.length).sum 60000 && Nat.ble (writes.map fun r => r.2.length).sum 60000

theorem shape_ok : shape = true := by decide +kernel

end Verif.Props.Cccii
