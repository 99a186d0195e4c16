import Verif.Props.Sjis
import Verif.Model.Cp949Table
/-
C76 for the tables of CP949 (Korean Windows).  (The import of Sjis keeps the large checks from running at the same time.)
-/
namespace Verif.Props
open Verif.Spec
open Verif.Engine hiding Datum step

/-- `CP949:CP949` gives every text back unchanged. -/
theorem C76_cp949 : CharsetOk Charsets.cp949 [] := charset_ok (by decide +kernel)

-- U+AC00, `A`, U+D55C: B0 A1 41 C7 D1, cut in the middle of a character.
example : ∃ ds ins', Session (charsetConv Charsets.cp949 Charsets.cp949)
      (({ ph := fun _ => { priv := fun _ => () }, phasen := 2 } : Ins Unit).init (charsetConv Charsets.cp949 Charsets.cp949) (fun _ _ t => t))
      ([⟨some [0xB0], false, .file⟩] ++ [⟨some [0xA1, 0x41, 0xC7, 0xD1], true, .file⟩]) ds ins' ∧
    (ds.map (fun d => d.bytes)).flatten ++ ins'.pending.flatten = [0xB0, 0xA1, 0x41, 0xC7, 0xD1] ∧ ins'.ierr = 0 ∧ ins'.oerr = 0 := by
  obtain ⟨ds, ins', k1, k2, k3, k4⟩ := C76_files C76_cp949 [0xB0A1, 0x41, 0xC7D1] (by decide +kernel) [⟨some [0xB0], false, .file⟩]
    ⟨some [0xA1, 0x41, 0xC7, 0xD1], true, .file⟩ (by simp) rfl (by simp) (by simp [codeBytes, be1, be2])
    (ins := { ph := fun _ => { priv := fun _ => () }, phasen := 2 }) rfl
  exact ⟨ds, ins', k1, by rw [k2]; simp [codeBytes, be1, be2], k3, k4⟩

end Verif.Props
