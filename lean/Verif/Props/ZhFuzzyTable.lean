import Verif.Props.ZhTable
import Verif.Model.FuzzyTables
/-
C102: the tables of ZH-FUZZY-CN, ZH-FUZZY-TW, BMP-TRANS-CN, BMP-TRANS-TW evaluated.
-/
namespace Verif.Props
open Verif.Spec

/-- The four tables. -/
def fuzzyTables : List Pages := [MapTable.fuzzyCn, MapTable.fuzzyTw, MapTable.bmpCn, MapTable.bmpTw]

set_option maxRecDepth 100000 in
theorem fuzzy_ok : (fuzzyTables.all fun t => t.fine && t.small) = true := by decide +kernel

/-- The row is from a character above FFFF to one character not above FFFF. -/
def toBmp (r : Nat × List Nat) : Bool := Nat.blt 0xFFFF r.1 && match r.2 with | [x] => Nat.ble x 0xFFFF | _ => false

/-- Every row replaces one character by one. -/
def lone (t : Pages) : Bool := t.rules.all fun r => match r.2 with | [_] => true | _ => false

set_option maxRecDepth 100000 in
theorem bmp_rows : (MapTable.bmpCn.rules.all toBmp && MapTable.bmpTw.rules.all toBmp) = true := by decide +kernel
set_option maxRecDepth 100000 in
theorem lone_rows : (fuzzyTables.all lone) = true := by decide +kernel

/-- What ZH-FUZZY-CN makes the same of, with the characters for which it does not. -/
def fuzzyCnForms : List (Pages × List Nat) :=
  [(MapTable.fuzzyCn, []), (MapTable.zhcn, []), (MapTable.hanja, []), (MapTable.bmpCn, []), (MapTable.bmpTw, []),
   (MapTable.fuzzyTw, [0xFAB7]), (MapTable.zhtw, [0xFAB7]), (MapTable.kanji, [0xFAB7, 0x7F3A])]
/-- The same for ZH-FUZZY-TW. -/
def fuzzyTwForms : List (Pages × List Nat) :=
  [(MapTable.fuzzyTw, []), (MapTable.zhcn, []), (MapTable.zhtw, []), (MapTable.hanja, []), (MapTable.bmpCn, []), (MapTable.bmpTw, []),
   (MapTable.fuzzyCn, [0x937E, 0x7E34]), (MapTable.kanji, [0x7F3A])]

set_option maxRecDepth 100000 in
theorem fuzzyCn_ok1 : (MapTable.fuzzyCn.absorbs MapTable.fuzzyCnCuts MapTable.fuzzyCn MapTable.fuzzyCnCuts [] && MapTable.fuzzyCn.absorbs MapTable.fuzzyCnCuts MapTable.zhcn MapTable.zhcnCuts []) = true := by decide +kernel
set_option maxRecDepth 100000 in
theorem fuzzyCn_ok2 : (MapTable.fuzzyCn.absorbs MapTable.fuzzyCnCuts MapTable.hanja MapTable.hanjaCuts [] && MapTable.fuzzyCn.absorbs MapTable.fuzzyCnCuts MapTable.bmpCn MapTable.bmpCnCuts [] && MapTable.fuzzyCn.absorbs MapTable.fuzzyCnCuts MapTable.bmpTw MapTable.bmpTwCuts []) = true := by decide +kernel
set_option maxRecDepth 100000 in
theorem fuzzyCn_ok3 : (MapTable.fuzzyCn.absorbs MapTable.fuzzyCnCuts MapTable.fuzzyTw MapTable.fuzzyTwCuts [0xFAB7] && MapTable.fuzzyCn.absorbs MapTable.fuzzyCnCuts MapTable.zhtw MapTable.zhtwCuts [0xFAB7] && MapTable.fuzzyCn.absorbs MapTable.fuzzyCnCuts MapTable.kanji MapTable.kanjiCuts [0xFAB7, 0x7F3A]) = true := by decide +kernel
set_option maxRecDepth 100000 in
theorem fuzzyTw_ok1 : (MapTable.fuzzyTw.absorbs MapTable.fuzzyTwCuts MapTable.fuzzyTw MapTable.fuzzyTwCuts [] && MapTable.fuzzyTw.absorbs MapTable.fuzzyTwCuts MapTable.zhcn MapTable.zhcnCuts [] && MapTable.fuzzyTw.absorbs MapTable.fuzzyTwCuts MapTable.zhtw MapTable.zhtwCuts []) = true := by decide +kernel
set_option maxRecDepth 100000 in
theorem fuzzyTw_ok2 : (MapTable.fuzzyTw.absorbs MapTable.fuzzyTwCuts MapTable.hanja MapTable.hanjaCuts [] && MapTable.fuzzyTw.absorbs MapTable.fuzzyTwCuts MapTable.bmpCn MapTable.bmpCnCuts [] && MapTable.fuzzyTw.absorbs MapTable.fuzzyTwCuts MapTable.bmpTw MapTable.bmpTwCuts []) = true := by decide +kernel
set_option maxRecDepth 100000 in
theorem fuzzyTw_ok3 : (MapTable.fuzzyTw.absorbs MapTable.fuzzyTwCuts MapTable.fuzzyCn MapTable.fuzzyCnCuts [0x937E, 0x7E34] && MapTable.fuzzyTw.absorbs MapTable.fuzzyTwCuts MapTable.kanji MapTable.kanjiCuts [0x7F3A]) = true := by decide +kernel
set_option maxRecDepth 100000 in
theorem bmp_ok1 : (MapTable.bmpCn.absorbs MapTable.bmpCnCuts MapTable.bmpCn MapTable.bmpCnCuts [] && MapTable.bmpTw.absorbs MapTable.bmpTwCuts MapTable.bmpTw MapTable.bmpTwCuts []) = true := by decide +kernel
set_option maxRecDepth 100000 in
theorem bmp_ok2 : (MapTable.zhcn.absorbs MapTable.zhcnCuts MapTable.bmpCn MapTable.bmpCnCuts [] && MapTable.zhcn.absorbs MapTable.zhcnCuts MapTable.bmpTw MapTable.bmpTwCuts []) = true := by decide +kernel
set_option maxRecDepth 100000 in
theorem bmp_ok3 : (MapTable.zhtw.absorbs MapTable.zhtwCuts MapTable.bmpTw MapTable.bmpTwCuts [] && MapTable.zhtw.absorbs MapTable.zhtwCuts MapTable.bmpCn MapTable.bmpCnCuts [0x22D03, 0x26906, 0x2F959]) = true := by decide +kernel

end Verif.Props
