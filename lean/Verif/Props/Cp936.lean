import Verif.Props.Cp949
import Verif.Model.Cp936Table
/-
C76, C77 for the tables of CP936 (Chinese Windows).
-/
namespace Verif.Props
open Verif.Spec
open Verif.Engine hiding Datum step

/-- `CP936:CP936` gives every text back unchanged but for the euro sign (80). -/
theorem C76_cp936_partial : CharsetOk Charsets.cp936 [0x80] := charset_ok (by decide +kernel)

/-- C77.  The euro sign of CP936 can be read but not written, so `CP936:CP936` drops it (`C77_drops`). -/
theorem C77_cp936_violated : Charsets.cp936.char 0x80 = some 0x20AC ∧
    ∀ c ∈ [0x80], ∀ cp, Charsets.cp936.char c = some cp → Charsets.cp936.code cp = none := ⟨by decide +kernel, noCode_all (by decide +kernel)⟩

-- 80 31 (the euro sign and `1`) comes out as 31.
example : ∃ ds ins', Session (charsetConv Charsets.cp936 Charsets.cp936)
      (({ ph := fun _ => { priv := fun _ => () }, phasen := 2 } : Ins Unit).init (charsetConv Charsets.cp936 Charsets.cp936) (fun _ _ t => t))
      ([] ++ [⟨some [0x80, 0x31], true, .file⟩]) ds ins' ∧
    (ds.map (fun d => d.bytes)).flatten ++ ins'.pending.flatten = [0x31] ∧ ins'.ierr = 0 ∧ ins'.oerr = 1 := by
  have hok := C76_cp936_partial
  obtain ⟨ds, ins', k1, k2, k3, k4⟩ := C77_drops (st := charsetConv Charsets.cp936 Charsets.cp936) (ip := fun _ _ t => t)
    (ins := { ph := fun _ => { priv := fun _ => () }, phasen := 2 }) hok C77_cp936_violated.2 rfl (charsetConv_reads hok.fine hok.small)
    (charsetConv_writes hok.fine hok.small) [0x80, 0x31] (by decide +kernel) [] ⟨some [0x80, 0x31], true, .file⟩ (by simp) rfl (by simp)
    (by simp [codeBytes, be1])
  exact ⟨ds, ins', k1, by rw [k2]; simp [codeBytes, be1], k3, k4⟩

end Verif.Props
