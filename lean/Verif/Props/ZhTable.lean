import Verif.Props.MapTable
import Verif.Model.ZhTables
/-
C75: simplified and traditional Chinese.
-/
namespace Verif.Props
open Verif.Spec

set_option maxRecDepth 100000 in
theorem zhcn_ok : (MapTable.zhcn.fine && MapTable.zhcn.small) = true := by decide +kernel
set_option maxRecDepth 100000 in
theorem zhtw_ok : (MapTable.zhtw.fine && MapTable.zhtw.small) = true := by decide +kernel

/-- Characters that ZHCN leaves alone, but simplifies after ZHTW. -/
def zhcnOdd : List Nat := [0x5EFB, 0xFAB7]

/-- Characters that ZHTW makes something else of after ZHCN. -/
def zhtwOdd : List Nat := [0x3A3F, 0x3A40, 0x62E0, 0x64DA, 0x774F, 0x79A6, 0x7A40, 0x8988, 0x95D8, 0x96F2, 0x9B25, 0x9B2A, 0x9B2D, 0x9B31, 0xFA54,
  0x22D03, 0x26906, 0x2F959]

set_option maxRecDepth 100000 in
theorem zhcn_idem_ok : MapTable.zhcn.absorbs MapTable.zhcnCuts MapTable.zhcn MapTable.zhcnCuts [] = true := by decide +kernel
set_option maxRecDepth 100000 in
theorem zhtw_idem_ok : MapTable.zhtw.absorbs MapTable.zhtwCuts MapTable.zhtw MapTable.zhtwCuts [] = true := by decide +kernel
set_option maxRecDepth 100000 in
theorem zhcn_zhtw_ok : MapTable.zhcn.absorbs MapTable.zhcnCuts MapTable.zhtw MapTable.zhtwCuts zhcnOdd = true := by decide +kernel
set_option maxRecDepth 100000 in
theorem zhtw_zhcn_ok : MapTable.zhtw.absorbs MapTable.zhtwCuts MapTable.zhcn MapTable.zhcnCuts zhtwOdd = true := by decide +kernel

/-- C75.  ZHCN and ZHTW, done a second time, change nothing. -/
theorem C75_idempotent (cps : List Nat) : MapTable.zhcn.apply (MapTable.zhcn.apply cps) = MapTable.zhcn.apply cps ∧
    MapTable.zhtw.apply (MapTable.zhtw.apply cps) = MapTable.zhtw.apply cps :=
  ⟨Pages.apply_absorbs zhcn_idem_ok cps (by simp), Pages.apply_absorbs zhtw_idem_ok cps (by simp)⟩

/-- C75.  A text and its traditional form have the same simplified form, unless one of two characters is in it. -/
theorem C75_simplified_partial (cps : List Nat) (h : ∀ n ∈ zhcnOdd, n ∉ cps) : MapTable.zhcn.apply (MapTable.zhtw.apply cps) = MapTable.zhcn.apply cps :=
  Pages.apply_absorbs zhcn_zhtw_ok cps h

/-- C75.  A text and its simplified form have the same traditional form, unless one of 18 characters is in it. -/
theorem C75_traditional_partial (cps : List Nat) (h : ∀ n ∈ zhtwOdd, n ∉ cps) : MapTable.zhtw.apply (MapTable.zhcn.apply cps) = MapTable.zhtw.apply cps :=
  Pages.apply_absorbs zhtw_zhcn_ok cps h

set_option maxRecDepth 100000 in
/-- C75 violated: U+5EFB is not changed by ZHCN, but made U+56DE after ZHTW; U+96F2 (cloud) is not changed by ZHTW, but stays simplified after ZHCN. -/
theorem C75_violated : MapTable.zhcn.apply (MapTable.zhtw.apply [0x5EFB]) ≠ MapTable.zhcn.apply [0x5EFB] ∧
    MapTable.zhtw.apply (MapTable.zhcn.apply [0x96F2]) ≠ MapTable.zhtw.apply [0x96F2] := by decide +kernel

-- The conversion to simplified Chinese as a phase (C72_maps).
example {s : Engine.Static Unit} (h1 : s.type = .inter) (h2 : s.codecn = 0)
    (h3 : s.codecs 0 = Verif.MkTable.compiled Unit (Verif.MkTable.lines (Engine.symbolRules MapTable.zhcn.data))) : Maps s MapTable.zhcn := by
  have := zhcn_ok
  rw [Bool.and_eq_true] at this
  exact C72_compiled this.1 this.2 h1 h2 h3

end Verif.Props
