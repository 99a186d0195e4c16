import Verif.Spec.Phrases
/-
Generated by tools/phrases.py from rule files of /repo/modules/inter.
-/
namespace Verif.Phrases
open Verif.Spec

set_option maxRecDepth 100000

/-- The rules of /repo/modules/inter/UPSIDEDOWN.txt in order. -/
def upsideDown : Phrases := [
  ([0x10412], [0x42]), ([0x131, 0x323], [0x69]), ([0x17F], [0x4A]), ([0x183], [0x67]), ([0x18E], [0x45]),
  ([0x190], [0x33]), ([0x1DD], [0x65]), ([0x250], [0x61]), ([0x254], [0x63]), ([0x25F], [0x66]),
  ([0x265], [0x68]), ([0x26F], [0x6D]), ([0x279], [0x72]), ([0x27E], [0x6A]), ([0x283], [0x6C]),
  ([0x287], [0x74]), ([0x28C], [0x76]), ([0x28D], [0x77]), ([0x28E], [0x79]), ([0x29E], [0x6B]),
  ([0x2D9], [0x2E]), ([0x38C], [0x51]), ([0x500], [0x50]), ([0x61B], [0x3B]), ([0x152D], [0x34]),
  ([0x1D0E], [0x4E]), ([0x1D1A], [0x52]), ([0x1D27], [0x56]), ([0x201E], [0x22]), ([0x203E], [0x5F]),
  ([0x203F], [0x2040]), ([0x2040], [0x203F]), ([0x2045], [0x2046]), ([0x2046], [0x2045]), ([0x21], [0xA1]),
  ([0x2132], [0x46]), ([0x2141], [0x47]), ([0x2142], [0x4C]), ([0x2144], [0x59]), ([0x214B], [0x26]),
  ([0x2183], [0x43]), ([0x22], [0x201E]), ([0x2200], [0x41]), ([0x2229], [0x55]), ([0x2234], [0x2235]),
  ([0x2235], [0x2234]), ([0x22A5], [0x54]), ([0x22CA], [0x4B]), ([0x25D6], [0x44]), ([0x26], [0x214B]),
  ([0x27], [0x2C]), ([0x28], [0x29]), ([0x29], [0x28]), ([0x2C], [0x27]), ([0x2C62], [0x37]),
  ([0x2E], [0x2D9]), ([0x33], [0x190]), ([0x34], [0x152D]), ([0x36], [0x39]), ([0x37], [0x2C62]),
  ([0x39], [0x36]), ([0x3B], [0x61B]), ([0x3C], [0x3E]), ([0x3E], [0x3C]), ([0x3F], [0xBF]),
  ([0x41], [0x2200]), ([0x42], [0x10412]), ([0x43], [0x2183]), ([0x44], [0x25D6]), ([0x45], [0x18E]),
  ([0x46], [0x2132]), ([0x47], [0x2141]), ([0x4A], [0x17F]), ([0x4B], [0x22CA]), ([0x4C], [0x2142]),
  ([0x4D], [0x57]), ([0x4E], [0x1D0E]), ([0x50], [0x500]), ([0x51], [0x38C]), ([0x52], [0x1D1A]),
  ([0x54], [0x22A5]), ([0x55], [0x2229]), ([0x56], [0x1D27]), ([0x57], [0x4D]), ([0x59], [0x2144]),
  ([0x5B], [0x5D]), ([0x5D], [0x5B]), ([0x5F], [0x203E]), ([0x61], [0x250]), ([0x62], [0x71]),
  ([0x63], [0x254]), ([0x64], [0x70]), ([0x65], [0x1DD]), ([0x66], [0x25F]), ([0x67], [0x183]),
  ([0x68], [0x265]), ([0x69], [0x131, 0x323]), ([0x6A], [0x27E]), ([0x6B], [0x29E]), ([0x6C], [0x283]),
  ([0x6D], [0x26F]), ([0x6E], [0x75]), ([0x70], [0x64]), ([0x71], [0x62]), ([0x72], [0x279]),
  ([0x74], [0x287]), ([0x75], [0x6E]), ([0x76], [0x28C]), ([0x77], [0x28D]), ([0x79], [0x28E]),
  ([0x7B], [0x7D]), ([0x7D], [0x7B]), ([0xA1], [0x21]), ([0xBF], [0x3F])]

/-- The rules of /repo/modules/inter/KANA-PHONETIC.txt in order. -/
def kana : Phrases := [
  ([0x3042], [0x61]), ([0x3044], [0x69]), ([0x3046], [0x75]), ([0x3048], [0x65]), ([0x304A], [0x6F]),
  ([0x304B], [0x6B, 0x61]), ([0x304C], [0x67, 0x61]), ([0x304D, 0x3083], [0x6B, 0x79, 0x61]), ([0x304D, 0x3085], [0x6B, 0x79, 0x75]), ([0x304D, 0x3087], [0x6B, 0x79, 0x6F]),
  ([0x304D], [0x6B, 0x69]), ([0x304E, 0x3083], [0x67, 0x79, 0x61]), ([0x304E, 0x3085], [0x67, 0x79, 0x75]), ([0x304E, 0x3087], [0x67, 0x79, 0x6F]), ([0x304E], [0x67, 0x69]),
  ([0x304F], [0x6B, 0x75]), ([0x3050], [0x67, 0x75]), ([0x3051], [0x6B, 0x65]), ([0x3052], [0x67, 0x65]), ([0x3053], [0x6B, 0x6F]),
  ([0x3054], [0x67, 0x6F]), ([0x3055], [0x73, 0x61]), ([0x3056], [0x7A, 0x61]), ([0x3057, 0x3083], [0x73, 0x68, 0x61]), ([0x3057, 0x3085], [0x73, 0x68, 0x75]),
  ([0x3057, 0x3087], [0x73, 0x68, 0x6F]), ([0x3057], [0x73, 0x68, 0x69]), ([0x3058, 0x3083], [0x6A, 0x61]), ([0x3058, 0x3085], [0x6A, 0x75]), ([0x3058, 0x3087], [0x6A, 0x6F]),
  ([0x3058], [0x6A, 0x69]), ([0x3059], [0x73, 0x75]), ([0x305A], [0x7A, 0x75]), ([0x305B], [0x73, 0x65]), ([0x305C], [0x7A, 0x65]),
  ([0x305D], [0x73, 0x6F]), ([0x305E], [0x7A, 0x6F]), ([0x305F], [0x74, 0x61]), ([0x3060], [0x64, 0x61]), ([0x3061, 0x3083], [0x63, 0x68, 0x61]),
  ([0x3061, 0x3085], [0x63, 0x68, 0x75]), ([0x3061, 0x3087], [0x63, 0x68, 0x6F]), ([0x3061], [0x63, 0x68, 0x69]), ([0x3064], [0x74, 0x73, 0x75]), ([0x3065], [0x7A, 0x75]),
  ([0x3066], [0x74, 0x65]), ([0x3067], [0x64, 0x65]), ([0x3068], [0x74, 0x6F]), ([0x3069], [0x64, 0x6F]), ([0x306A], [0x6E, 0x61]),
  ([0x306B, 0x3083], [0x6E, 0x79, 0x61]), ([0x306B, 0x3085], [0x6E, 0x79, 0x75]), ([0x306B, 0x3087], [0x6E, 0x79, 0x6F]), ([0x306B], [0x6E, 0x69]), ([0x306C], [0x6E, 0x75]),
  ([0x306D], [0x6E, 0x65]), ([0x306E], [0x6E, 0x6F]), ([0x306F], [0x68, 0x61]), ([0x3070], [0x62, 0x61]), ([0x3071], [0x70, 0x61]),
  ([0x3072, 0x3083], [0x68, 0x79, 0x61]), ([0x3072, 0x3085], [0x68, 0x79, 0x75]), ([0x3072, 0x3087], [0x68, 0x79, 0x6F]), ([0x3072], [0x68, 0x69]), ([0x3073, 0x3083], [0x62, 0x79, 0x61]),
  ([0x3073, 0x3085], [0x62, 0x79, 0x75]), ([0x3073, 0x3087], [0x62, 0x79, 0x6F]), ([0x3073], [0x62, 0x69]), ([0x3074, 0x3083], [0x70, 0x79, 0x61]), ([0x3074, 0x3085], [0x70, 0x79, 0x75]),
  ([0x3074, 0x3087], [0x70, 0x79, 0x6F]), ([0x3074], [0x70, 0x69]), ([0x3075], [0x66, 0x75]), ([0x3076], [0x62, 0x75]), ([0x3077], [0x70, 0x75]),
  ([0x3078], [0x68, 0x65]), ([0x3079], [0x62, 0x65]), ([0x307A], [0x70, 0x65]), ([0x307B], [0x68, 0x6F]), ([0x307C], [0x62, 0x6F]),
  ([0x307D], [0x70, 0x6F]), ([0x307E], [0x6D, 0x61]), ([0x307F, 0x3083], [0x6D, 0x79, 0x61]), ([0x307F, 0x3085], [0x6D, 0x79, 0x75]), ([0x307F, 0x3087], [0x6D, 0x79, 0x6F]),
  ([0x307F], [0x6D, 0x69]), ([0x3080], [0x6D, 0x75]), ([0x3081], [0x6D, 0x65]), ([0x3082], [0x6D, 0x6F]), ([0x3083], [0x61]),
  ([0x3084], [0x79, 0x61]), ([0x3085], [0x75]), ([0x3086], [0x79, 0x75]), ([0x3087], [0x6F]), ([0x3088], [0x79, 0x6F]),
  ([0x3089], [0x72, 0x61]), ([0x308A, 0x3083], [0x72, 0x79, 0x61]), ([0x308A, 0x3085], [0x72, 0x79, 0x75]), ([0x308A, 0x3087], [0x72, 0x79, 0x6F]), ([0x308A], [0x72, 0x69]),
  ([0x308B], [0x72, 0x75]), ([0x308C], [0x72, 0x65]), ([0x308D], [0x72, 0x6F]), ([0x308F], [0x77, 0x61]), ([0x3090], [0x77, 0x69]),
  ([0x3091], [0x77, 0x65]), ([0x3092], [0x77, 0x6F]), ([0x3093], [0x6E]), ([0x30A1], [0x61]), ([0x30A2], [0x61]),
  ([0x30A3], [0x69]), ([0x30A4], [0x69]), ([0x30A5], [0x75]), ([0x30A6, 0x30A3], [0x77, 0x69]), ([0x30A6, 0x30A7], [0x77, 0x65]),
  ([0x30A6, 0x30A9], [0x77, 0x6F]), ([0x30A6], [0x75]), ([0x30A7], [0x65]), ([0x30A8], [0x65]), ([0x30A9], [0x6F]),
  ([0x30AA], [0x6F]), ([0x30AB], [0x6B, 0x61]), ([0x30AC], [0x67, 0x61]), ([0x30AD, 0x30E3], [0x6B, 0x79, 0x61]), ([0x30AD, 0x30E5], [0x6B, 0x79, 0x75]),
  ([0x30AD, 0x30E7], [0x6B, 0x79, 0x6F]), ([0x30AD], [0x6B, 0x69]), ([0x30AE, 0x30E3], [0x67, 0x79, 0x61]), ([0x30AE, 0x30E5], [0x67, 0x79, 0x75]), ([0x30AE, 0x30E7], [0x67, 0x79, 0x6F]),
  ([0x30AE], [0x67, 0x69]), ([0x30AF], [0x6B, 0x75]), ([0x30B0], [0x67, 0x75]), ([0x30B1], [0x6B, 0x65]), ([0x30B2], [0x67, 0x65]),
  ([0x30B3], [0x6B, 0x6F]), ([0x30B4], [0x67, 0x6F]), ([0x30B5], [0x73, 0x61]), ([0x30B6], [0x7A, 0x61]), ([0x30B7, 0x30A7], [0x73, 0x68, 0x65]),
  ([0x30B7, 0x30E3], [0x73, 0x68, 0x61]), ([0x30B7, 0x30E5], [0x73, 0x68, 0x75]), ([0x30B7, 0x30E7], [0x73, 0x68, 0x6F]), ([0x30B7], [0x73, 0x68, 0x69]), ([0x30B8, 0x30A7], [0x6A, 0x65]),
  ([0x30B8, 0x30E3], [0x6A, 0x61]), ([0x30B8, 0x30E5], [0x6A, 0x75]), ([0x30B8, 0x30E7], [0x6A, 0x6F]), ([0x30B8], [0x6A, 0x69]), ([0x30B9], [0x73, 0x75]),
  ([0x30BA], [0x7A, 0x75]), ([0x30BB], [0x73, 0x65]), ([0x30BC], [0x7A, 0x65]), ([0x30BD], [0x73, 0x6F]), ([0x30BE], [0x7A, 0x6F]),
  ([0x30BF], [0x74, 0x61]), ([0x30C0], [0x64, 0x61]), ([0x30C1, 0x30A7], [0x63, 0x68, 0x65]), ([0x30C1, 0x30E3], [0x63, 0x68, 0x61]), ([0x30C1, 0x30E5], [0x63, 0x68, 0x75]),
  ([0x30C1, 0x30E7], [0x63, 0x68, 0x6F]), ([0x30C1], [0x63, 0x68, 0x69]), ([0x30C2], [0x6A, 0x69]), ([0x30C4, 0x30A1], [0x74, 0x73, 0x61]), ([0x30C4, 0x30A3], [0x74, 0x73, 0x69]),
  ([0x30C4, 0x30A7], [0x74, 0x73, 0x65]), ([0x30C4, 0x30A9], [0x74, 0x73, 0x6F]), ([0x30C4], [0x74, 0x73, 0x75]), ([0x30C5], [0x7A, 0x75]), ([0x30C6, 0x30A3], [0x74, 0x69]),
  ([0x30C6, 0x30E5], [0x74, 0x79, 0x75]), ([0x30C6], [0x74, 0x65]), ([0x30C7, 0x30A3], [0x64, 0x69]), ([0x30C7, 0x30E5], [0x64, 0x79, 0x75]), ([0x30C7], [0x64, 0x65]),
  ([0x30C8, 0x30A5], [0x74, 0x75]), ([0x30C8], [0x74, 0x6F]), ([0x30C9, 0x30A5], [0x64, 0x75]), ([0x30C9], [0x64, 0x6F]), ([0x30CA], [0x6E, 0x61]),
  ([0x30CB, 0x30E3], [0x6E, 0x79, 0x61]), ([0x30CB, 0x30E5], [0x6E, 0x79, 0x75]), ([0x30CB, 0x30E7], [0x6E, 0x79, 0x6F]), ([0x30CB], [0x6E, 0x69]), ([0x30CC], [0x6E, 0x75]),
  ([0x30CD], [0x6E, 0x65]), ([0x30CE], [0x6E, 0x6F]), ([0x30CF], [0x68, 0x61]), ([0x30D0], [0x62, 0x61]), ([0x30D1], [0x70, 0x61]),
  ([0x30D2, 0x30E3], [0x68, 0x79, 0x61]), ([0x30D2, 0x30E5], [0x68, 0x79, 0x75]), ([0x30D2, 0x30E7], [0x68, 0x79, 0x6F]), ([0x30D2], [0x68, 0x69]), ([0x30D3, 0x30E3], [0x62, 0x79, 0x61]),
  ([0x30D3, 0x30E5], [0x62, 0x79, 0x75]), ([0x30D3, 0x30E7], [0x62, 0x79, 0x6F]), ([0x30D3], [0x62, 0x69]), ([0x30D4, 0x30E3], [0x70, 0x79, 0x61]), ([0x30D4, 0x30E5], [0x70, 0x79, 0x75]),
  ([0x30D4, 0x30E7], [0x70, 0x79, 0x6F]), ([0x30D4], [0x70, 0x69]), ([0x30D5, 0x30A1], [0x66, 0x61]), ([0x30D5, 0x30A3], [0x66, 0x69]), ([0x30D5, 0x30A7], [0x66, 0x65]),
  ([0x30D5, 0x30A9], [0x66, 0x6F]), ([0x30D5, 0x30E5], [0x66, 0x79, 0x75]), ([0x30D5], [0x66, 0x75]), ([0x30D6], [0x62, 0x75]), ([0x30D7], [0x70, 0x75]),
  ([0x30D8], [0x68, 0x65]), ([0x30D9], [0x62, 0x65]), ([0x30DA], [0x70, 0x65]), ([0x30DB], [0x68, 0x6F]), ([0x30DC], [0x62, 0x6F]),
  ([0x30DD], [0x70, 0x6F]), ([0x30DE], [0x6D, 0x61]), ([0x30DF, 0x30E3], [0x6D, 0x79, 0x61]), ([0x30DF, 0x30E5], [0x6D, 0x79, 0x75]), ([0x30DF, 0x30E7], [0x6D, 0x79, 0x6F]),
  ([0x30DF], [0x6D, 0x69]), ([0x30E0], [0x6D, 0x75]), ([0x30E1], [0x6D, 0x65]), ([0x30E2], [0x6D, 0x6F]), ([0x30E3], [0x61]),
  ([0x30E4], [0x79, 0x61]), ([0x30E5], [0x75]), ([0x30E6], [0x79, 0x75]), ([0x30E7], [0x6F]), ([0x30E8], [0x79, 0x6F]),
  ([0x30E9], [0x72, 0x61]), ([0x30EA, 0x30E3], [0x72, 0x79, 0x61]), ([0x30EA, 0x30E5], [0x72, 0x79, 0x75]), ([0x30EA, 0x30E7], [0x72, 0x79, 0x6F]), ([0x30EA], [0x72, 0x69]),
  ([0x30EB], [0x72, 0x75]), ([0x30EC], [0x72, 0x65]), ([0x30ED], [0x72, 0x6F]), ([0x30EF], [0x77, 0x61]), ([0x30F0], [0x77, 0x69]),
  ([0x30F1], [0x77, 0x65]), ([0x30F2], [0x77, 0x6F]), ([0x30F3], [0x6E]), ([0x30F4, 0x30A1], [0x76, 0x61]), ([0x30F4, 0x30A3], [0x76, 0x69]),
  ([0x30F4, 0x30A7], [0x76, 0x65]), ([0x30F4, 0x30A9], [0x76, 0x6F]), ([0x30F4], [0x76, 0x75])]

/-- The rules of /repo/modules/inter/NL2BR.txt in order. -/
def nl2br : Phrases := [
  ([0xD, 0xA], [0x3C, 0x62, 0x72, 0x20, 0x2F, 0x3E]), ([0xA], [0x3C, 0x62, 0x72, 0x20, 0x2F, 0x3E]), ([0xD], [0x3C, 0x62, 0x72, 0x20, 0x2F, 0x3E])]

/-- The rules of /repo/modules/inter/ZHTW-WORDS.txt in order. -/
def zhtwWords : Phrases := [
  ([0x4E00, 0x500B, 0x613F], [0x4E00, 0x500B, 0x9858]), ([0x4E0D, 0x8981, 0x91C7], [0x4E0D, 0x8981, 0x63A1]), ([0x4E4B, 0x540E], [0x4E4B, 0x5F8C]), ([0x4E91, 0x6CB3], [0x96F2, 0x6CB3]), ([0x4EC0, 0x4E48], [0x4EC0, 0x9EBC]),
  ([0x4EE5, 0x540E], [0x4EE5, 0x5F8C]), ([0x4F46, 0x613F], [0x4F46, 0x9858]), ([0x5165, 0x591C], [0x5165, 0x591C]), ([0x51E0, 0x591A], [0x5E7E, 0x591A]), ([0x51E0, 0x5EA6], [0x5E7E, 0x5EA6]),
  ([0x5206, 0x949F], [0x5206, 0x9418]), ([0x53D1, 0x653E], [0x767C, 0x653E]), ([0x53D1, 0x71D2], [0x767C, 0x71D2]), ([0x53D1, 0x734E, 0x91D1], [0x767C, 0x734E, 0x91D1]), ([0x53D1, 0x73FE], [0x767C, 0x73FE]),
  ([0x53D1, 0x9001], [0x767C, 0x9001]), ([0x540E, 0x5929], [0x5F8C, 0x5929]), ([0x540E, 0x6094], [0x5F8C, 0x6094]), ([0x540E, 0x679C], [0x5F8C, 0x679C]), ([0x5411, 0x5C0E], [0x56AE, 0x5C0E]),
  ([0x5446, 0x6703], [0x5F85, 0x6703]), ([0x591A, 0x4E48], [0x591A, 0x9EBC]), ([0x591C, 0x4E4B, 0x540E], [0x591C, 0x4E4B, 0x540E]), ([0x5C6C, 0x4E8E], [0x5C6C, 0x65BC]), ([0x5F69, 0x4E91], [0x5F69, 0x96F2]),
  ([0x5F81, 0x5A5A], [0x5FB5, 0x5A5A]), ([0x5F81, 0x6C42], [0x5FB5, 0x6C42]), ([0x600E, 0x4E48], [0x600E, 0x9EBC]), ([0x613F, 0x541B], [0x9858, 0x541B]), ([0x6642, 0x949F], [0x6642, 0x9418]),
  ([0x6700, 0x540E], [0x6700, 0x5F8C]), ([0x6709, 0x68F1, 0x6709, 0x89D2], [0x6709, 0x7A1C, 0x6709, 0x89D2]), ([0x68F1, 0x89D2], [0x7A1C, 0x89D2]), ([0x6A4B, 0x6881], [0x6A4B, 0x6A11]), ([0x6A6B, 0x6881], [0x6A6B, 0x6A11]),
  ([0x6D77, 0x91CC], [0x6D77, 0x88E1]), ([0x7528, 0x4E8E], [0x7528, 0x65BC]), ([0x79D2, 0x949F], [0x79D2, 0x9418]), ([0x820D, 0x5F97], [0x6368, 0x5F97]), ([0x8868, 0x5F81], [0x8868, 0x5FB5]),
  ([0x8C61, 0x5F81], [0x8C61, 0x5FB5]), ([0x9019, 0x4E48], [0x9019, 0x9EBC]), ([0x9019, 0x91CC], [0x9019, 0x88E1]), ([0x90A3, 0x4E48], [0x90A3, 0x9EBC]), ([0x90A3, 0x91CC], [0x90A3, 0x88E1]),
  ([0x91C7, 0x6AB3, 0x6994], [0x63A1, 0x6AB3, 0x6994]), ([0x91CC, 0x9762], [0x88E1, 0x9762]), ([0x949F, 0x611B], [0x937E, 0x611B]), ([0x9632, 0x8303], [0x9632, 0x7BC4]), ([0x982D, 0x53D1], [0x982D, 0x9AEE])]

/-- The rules of /repo/modules/inter/UNIX.txt in order. -/
def unix : Phrases := [
  ([0xD, 0xA], [0xA]), ([0xA], [0xA]), ([0xD], [0xA])]

/-- The rules of /repo/modules/inter/WIN.txt in order. -/
def win : Phrases := [
  ([0xD, 0xA], [0xD, 0xA]), ([0xA], [0xD, 0xA]), ([0xD], [0xD, 0xA])]

/-- The rules of /repo/modules/inter/MAC.txt in order. -/
def mac : Phrases := [
  ([0xD, 0xA], [0xD]), ([0xA], [0xD]), ([0xD], [0xD])]

end Verif.Phrases
