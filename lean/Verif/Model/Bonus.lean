import Verif.Model.Callback
import Verif.Model.Automaton
import Verif.Spec.Codec
import Verif.Spec.Unicode
/-
inter/ZH-BONUS and ZH-BONUS-PHRASE: rule tables in which every row ends in a call of the codec's own function
(`?01,0123` in the table: the first datum is the bonus, the others are put out).

Simplifications: the counter (`size_t`) does not wrap; a counter shared by several codecs under the name SCORE appears as
the codec's own amount.
-/
namespace Verif.Bonus
open Verif.Spec (Lens Datum Rules setPriv)
open Verif.Engine (Codec Loc Status )

variable {π : Type}

/-- The node of a row with `?`: SUBROUTINE instead of MATCH, SUBMATCH_SUBROUTINE instead of SUBMATCH:
/repo/src/bsdconv-mktable.c:352-397 -/
def called : Status → Status
  | .match_ => .subroutine
  | .submatch => .submatchSubroutine
  | x => x

/-- /repo/modules/inter/BONUS.c:9-24: `*counter += *data;` with the first datum of the row, `LISTCPY_ST(…, data_st.next, …)`
with the rest, `status=NEXTPHASE`. -/
def cbconv (e : Lens π Nat) (data : Nat → List Datum) (l : Loc π) : Loc π :=
  let row := data l.ph.st
  let j := l.ph.index
  { l with ph := { l.ph with
      priv := setPriv l.ph.priv j (e.put (e.get (l.ph.priv j) + (row.headD []).headD 0) (l.ph.priv j))
      q := l.ph.q.pushAll row.tail
      status := .nextphase } }

/-- The codec made of the automaton `t` for the table: /repo/modules/inter/ZH-BONUS.c:1, ZH-BONUS-PHRASE.c:1 -/
def codec (e : Lens π Nat) (t : Codec π) : Codec π :=
  { t with status := fun o => called (t.status o), conv := cbconv e t.data, flush := none }

/-- The row `01xx ?bb,01xx` for a code point and a bonus. -/
def row (r : Nat × Nat) : List Datum × List Datum := ([Verif.Spec.uniDatum r.1], [[r.2], Verif.Spec.uniDatum r.1])

/-- /repo/modules/inter/ZH-BONUS.txt:2-51 -/
def zhBonus : List (Nat × Nat) := [
  (0x23, 1), (0x3639, 2), (0x233B4, 4), (0xC5, 5), (0xFC, 5), (0x4E24, 1), (0x5179, 1), (0x52B9, 1), (0x53F7, 1), (0x5553, 1), (0x63F8, 1), (0x6B74, 1),
  (0x70DF, 1), (0x714A, 1), (0x71DF, 1), (0x7371, 1), (0x743C, 1), (0x7468, 1), (0x7740, 1), (0x7793, 1), (0x781C, 1), (0x78B1, 1), (0x793C, 1),
  (0x7962, 1), (0x7AEA, 2), (0x7DAB, 1), (0x7EDF, 1), (0x83D3, 1), (0x84AD, 1), (0x885E, 1), (0x89A7, 1), (0x89C6, 1), (0x8D4E, 1), (0x8D77, 1),
  (0x8E2A, 1), (0x8E46, 1), (0x8EAD, 1), (0x8FF9, 1), (0x90A8, 2), (0x90D1, 2), (0x90FD, 1), (0x9176, 3), (0x94C3, 1), (0x94CA, 1), (0x976D, 1),
  (0x9938, 2), (0x9A90, 1), (0x9DC4, 1), (0x9E37, 1), (0x9FA5, 1)]

/-- The row `01xx,01yy,.. ?06,01xx,01yy,..` for a phrase. -/
def phraseRow (cps : List Nat) : List Datum × List Datum := (cps.map Verif.Spec.uniDatum, [6] :: cps.map Verif.Spec.uniDatum)

/-- /repo/modules/inter/ZH-BONUS-PHRASE.txt:2-249 -/
def zhPhrases : List (List Nat) := [
  [0x63, 0xFA], [0xE9, 0x63], [0xC9, 0x63], [0xE9, 0x64], [0xC9, 0x64], [0xE9, 0x72], [0xC9, 0x72], [0x70, 0xE9], [0x73, 0xE9], [0x4E00, 0x96D9],
  [0x4E00, 0x5687], [0x4E00, 0x6735], [0x4E00, 0x7D71], [0x4E0B, 0x5EDA], [0x5169, 0x7684], [0x5169, 0x4EBA], [0x5169, 0x500B], [0x5169, 0x53E5],
  [0x4E2D, 0x9A5B], [0x8209, 0x5DF5], [0x4E59, 0x9170], [0x4F55, 0x6CC1], [0x4F60, 0x54CB], [0x5088, 0x5088], [0x5165, 0x5EDA], [0x5168, 0x6E2F],
  [0x5192, 0x7159], [0x6CC1, 0x4E14], [0x51B7, 0x975C], [0x51D3, 0x6DBC], [0x52AB, 0x6A5F], [0x52AB, 0x96E3], [0x5287, 0x5834], [0x52D5, 0x4F5C],
  [0x6548, 0x679C], [0x6548, 0x7528], [0x52D5, 0x5834], [0x52DE, 0x5DE5, 0x6898], [0x5348, 0x994D], [0x5EDA, 0x5E2B], [0x5EDA, 0x623F], [0x53C3,
  0x52A0], [0x53C3, 0x7167], [0x53C3, 0x8003], [0x53C3, 0x8207], [0x53C3, 0x8CFD], [0x96D9, 0x5C0D], [0x96D9, 0x624B], [0x6558, 0x5229], [0x53F1,
  0x54A4], [0x5438, 0x7159], [0x29433, 0x5473], [0x547C, 0x9FA5], [0x97FF, 0x61C9], [0x5547, 0x5834], [0x555F, 0x7A0B], [0x556B, 0x55B1], [0x55BA,
  0x5514], [0x55BA, 0x6709], [0x5605, 0x4F62], [0x5668, 0x6750], [0x56DE, 0x97FF], [0x570B, 0x5CF0], [0x570D, 0x7881], [0x57FA, 0x5932], [0x57FA,
  0x9176], [0x5875, 0x87CE], [0x212FE, 0x5885], [0x590F, 0x6128], [0x5927, 0x5EDA], [0x5927, 0x7159], [0x5927, 0x81BD], [0x5932, 0x9762], [0x5967,
  0x7955], [0x5967, 0x7FA9], [0x5967, 0x904B], [0x597D, 0x5622], [0x5B8F, 0x7881], [0x5C4B, 0x7E3D], [0x5C4B, 0x6751], [0x5C55, 0x7881], [0x5CD1,
  0x7063], [0x5E1D, 0x5CF0], [0x5E73, 0x275FD], [0x5EE3, 0x5834], [0x5EFA, 0x714A], [0x5EFA, 0x7881], [0x60A3, 0x8005], [0x60C5, 0x6CC1], [0x6210,
  0x6548], [0x6210, 0x96D9], [0x6247, 0x6898], [0x6253, 0x52AB], [0x62BD, 0x7159], [0x64D4, 0x4EFB], [0x62C9, 0x80A7], [0x62CD, 0x5687], [0x639B,
  0x9264], [0x63A1, 0x945B], [0x63FE, 0x5230], [0x6436, 0x52AB], [0x64CD, 0x5834], [0x653F, 0x219DB], [0x6558, 0x8FF0], [0x6578, 0x9FAB], [0x65E9,
  0x994D], [0x665A, 0x994D], [0x66F8, 0x52B5], [0x6708, 0x520B], [0x6735, 0x82B1], [0x67A1, 0x7530], [0x67A1, 0x91CE], [0x6821, 0x8B8E], [0x6898,
  0x6DB2], [0x696D, 0x6751], [0x6B67, 0x8996], [0x6B77, 0x7DF4], [0x6BD2, 0x75B1], [0x6C34, 0x57D7], [0x6C34, 0x7159], [0x6C39, 0x4ED4], [0x6CB9,
  0x8534], [0x6CE5, 0x6898], [0x6D77, 0x73A8], [0x6DF7, 0x97F3, 0x5668], [0x532F, 0x8C50], [0x6EFE, 0x52D5], [0x306E, 0x7027], [0x7027, 0x306E],
  [0x700F, 0x89BD], [0x706B, 0x7210], [0x706B, 0x80CC, 0x9DF4], [0x7210, 0x5FC3], [0x7159, 0x706B], [0x7159, 0x82B1], [0x7159, 0x9727], [0x72C0,
  0x6CC1], [0x72C2, 0x98C6], [0x734E, 0x52B5], [0x7389, 0x5DF5], [0x7403, 0x5834], [0x74E6, 0x7AB0], [0x751A, 0x9EBD], [0x7528, 0x994D], [0x7567,
  0x4F5C], [0x75B1, 0x75B9], [0x7672, 0x764E], [0x767D, 0x7159], [0x7682, 0x6898], [0x76EE, 0x6A19, 0x9176], [0x771F, 0x8AE6], [0x7793, 0x5E73],
  [0x7881, 0x5CF0], [0x78DA, 0x7AB0], [0x7981, 0x7159], [0x79AE, 0x52B5], [0x79FB, 0x52D5], [0x7AB0, 0x71D2], [0x7ACB, 0x7881], [0x7B62, 0x5B50],
  [0x7C97, 0x80A7], [0x7CD6, 0x82F7], [0x7CFB, 0x7D71], [0x7D20, 0x82F7], [0x9FAB, 0x7D30, 0x80DE], [0x7D89, 0x82B1], [0x7D93, 0x6B77], [0x9FAB,
  0x7DDA], [0x7D93, 0x6FDF], [0x7D93, 0x6FDF, 0x5B78], [0x7D71, 0x4E00], [0x7FFB, 0x9801], [0x8001, 0x8005], [0x8072, 0x97FF], [0x80A7, 0x80CE],
  [0x80A7, 0x82BD], [0x81BD, 0x6562], [0x81BD, 0x6A5F], [0x8102, 0x9176], [0x812B, 0x9264], [0x8150, 0x81B6], [0x817A, 0x82F7], [0x81B6, 0x8178],
  [0x81C1, 0x7621], [0x81C1, 0x8095], [0x81C1, 0x9AA8], [0x81EA, 0x52D5], [0x82B1, 0x6735], [0x82F7, 0x9178], [0x85E5, 0x929A], [0x8471, 0x71D2],
  [0x8480, 0x8349], [0x85CD, 0x8179, 0x9DF3], [0x85CD, 0x7530, 0x532F], [0x866F, 0x9AEF], [0x885B, 0x751F], [0x8863, 0x6898], [0x8B49, 0x52B5], [0x8C6C,
  0x81B6], [0x8D64, 0x9C72], [0x8D6C, 0x5C3E], [0x8F14, 0x9176], [0x8F15, 0x63F8], [0x8F33, 0x8F33], [0x8FB2, 0x5834], [0x9031, 0x520B], [0x904A,
  0x89BD], [0x9170, 0x80FA], [0x9178, 0x9176], [0x91D1, 0x945B], [0x91E3, 0x9264], [0x9264, 0x5377], [0x9264, 0x5B50], [0x92B9, 0x83CC], [0x9326,
  0x7D89], [0x932B, 0x5803], [0x945B, 0x5751], [0x945B, 0x5834], [0x945B, 0x5DE5], [0x945B, 0x696D], [0x929A, 0x5B50], [0x929A, 0x671F], [0x9577,
  0x8005], [0x9593, 0x9694], [0x9676, 0x5586], [0x9676, 0x7AB0], [0x9694, 0x9593], [0x9130, 0x8FD1], [0x8B8E, 0x5B9A], [0x8B8E, 0x6821], [0x8B8E,
  0x554F], [0x9752, 0x5E74], [0x9752, 0x6625], [0x97F3, 0x97FF], [0x98C6, 0x5347], [0x98C6, 0x8ECA], [0x98C6, 0x98A8], [0x9952, 0x5DF5], [0x9999,
  0x6E2F], [0x9B8B, 0x5F62, 0x76EE], [0x9B8B, 0x9B5A], [0x9C02, 0x9B5A], [0x9C1F, 0x9B8D], [0x9C20, 0x9B5A], [0x9D28, 0x8137], [0x9D7E, 0x9CE5],
  [0x96DE, 0x81B6], [0x9DF3, 0x9D06]
]

end Verif.Bonus
