import Verif.Props.Cp936
import Verif.Model.GbkTable
/-
C76 for the tables of GBK.
-/
namespace Verif.Props
open Verif.Spec

/-- `GBK:GBK` gives every text back unchanged. -/
theorem C76_gbk : CharsetOk Charsets.gbk [] := charset_ok (by decide +kernel)

example : [0xC4E3, 0x41, 0xBAC3].map Charsets.gbk.char = [some 0x4F60, some 0x41, some 0x597D] := by decide +kernel

end Verif.Props
