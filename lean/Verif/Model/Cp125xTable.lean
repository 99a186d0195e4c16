import Verif.Spec.Charset
/-
Generated by tools/charsets.py from rule files of /repo/modules/from and /repo/modules/to.
-/
namespace Verif.Charsets
open Verif.Spec

set_option maxRecDepth 100000

/-- The rules of /repo/modules/from/_CP1254.txt: code, character.  No two lines have the same code, so their order does not matter; here they
are sorted. -/
def cp1254Reads : Chart := [
  (0x80, [0x20AC]),
  (0x82, [0x201A, 0x192, 0x201E, 0x2026, 0x2020, 0x2021, 0x2C6, 0x2030, 0x160, 0x2039, 0x152]),
  (0x91, [0x2018, 0x2019, 0x201C, 0x201D, 0x2022, 0x2013, 0x2014, 0x2DC, 0x2122, 0x161, 0x203A, 0x153]),
  (0x9F, [0x178, 0xA0, 0xA1, 0xA2, 0xA3, 0xA4, 0xA5, 0xA6, 0xA7, 0xA8, 0xA9, 0xAA]),
  (0xAB, [0xAB, 0xAC, 0xAD, 0xAE, 0xAF, 0xB0, 0xB1, 0xB2, 0xB3, 0xB4, 0xB5, 0xB6]),
  (0xB7, [0xB7, 0xB8, 0xB9, 0xBA, 0xBB, 0xBC, 0xBD, 0xBE, 0xBF, 0xC0, 0xC1, 0xC2]),
  (0xC3, [0xC3, 0xC4, 0xC5, 0xC6, 0xC7, 0xC8, 0xC9, 0xCA, 0xCB, 0xCC, 0xCD, 0xCE]),
  (0xCF, [0xCF, 0x11E, 0xD1, 0xD2, 0xD3, 0xD4, 0xD5, 0xD6, 0xD7, 0xD8, 0xD9, 0xDA]),
  (0xDB, [0xDB, 0xDC, 0x130, 0x15E, 0xDF, 0xE0, 0xE1, 0xE2, 0xE3, 0xE4, 0xE5, 0xE6]),
  (0xE7, [0xE7, 0xE8, 0xE9, 0xEA, 0xEB, 0xEC, 0xED, 0xEE, 0xEF, 0x11F, 0xF1, 0xF2]),
  (0xF3, [0xF3, 0xF4, 0xF5, 0xF6, 0xF7, 0xF8, 0xF9, 0xFA, 0xFB, 0xFC, 0x131, 0x15F]),
  (0xFF, [0xFF])]

/-- /repo/modules/from/_CP1254.txt; there is no file for writing. -/
def cp1254 : Charset where
  reads := cp1254Reads
  writes := []

/-- The rules of /repo/modules/from/_CP1255.txt: code, character.  No two lines have the same code, so their order does not matter; here they
are sorted. -/
def cp1255Reads : Chart := [
  (0x80, [0x20AC]),
  (0x82, [0x201A, 0x192, 0x201E, 0x2026, 0x2020, 0x2021, 0x2C6, 0x2030]),
  (0x8B, [0x2039]),
  (0x91, [0x2018, 0x2019, 0x201C, 0x201D, 0x2022, 0x2013, 0x2014, 0x2DC, 0x2122]),
  (0x9B, [0x203A]),
  (0xA0, [0xA0, 0xA1, 0xA2, 0xA3, 0x20AA, 0xA5, 0xA6, 0xA7, 0xA8, 0xA9, 0xD7, 0xAB]),
  (0xAC, [0xAC, 0xAD, 0xAE, 0xAF, 0xB0, 0xB1, 0xB2, 0xB3, 0xB4, 0xB5, 0xB6, 0xB7]),
  (0xB8, [0xB8, 0xB9, 0xF7, 0xBB, 0xBC, 0xBD, 0xBE, 0xBF, 0x5B0, 0x5B1, 0x5B2, 0x5B3]),
  (0xC4, [0x5B4, 0x5B5, 0x5B6, 0x5B7, 0x5B8, 0x5B9]),
  (0xCB, [0x5BB, 0x5BC, 0x5BD, 0x5BE, 0x5BF, 0x5C0, 0x5C1, 0x5C2, 0x5C3, 0x5F0, 0x5F1, 0x5F2]),
  (0xD7, [0x5F3, 0x5F4]),
  (0xE0, [0x5D0, 0x5D1, 0x5D2, 0x5D3, 0x5D4, 0x5D5, 0x5D6, 0x5D7, 0x5D8, 0x5D9, 0x5DA, 0x5DB]),
  (0xEC, [0x5DC, 0x5DD, 0x5DE, 0x5DF, 0x5E0, 0x5E1, 0x5E2, 0x5E3, 0x5E4, 0x5E5, 0x5E6, 0x5E7]),
  (0xF8, [0x5E8, 0x5E9, 0x5EA]),
  (0xFD, [0x200E, 0x200F])]

/-- /repo/modules/from/_CP1255.txt; there is no file for writing. -/
def cp1255 : Charset where
  reads := cp1255Reads
  writes := []

/-- The rules of /repo/modules/from/_CP1256.txt: code, character.  No two lines have the same code, so their order does not matter; here they
are sorted. -/
def cp1256Reads : Chart := [
  (0x80, [0x20AC, 0x67E, 0x201A, 0x192, 0x201E, 0x2026, 0x2020, 0x2021, 0x2C6, 0x2030, 0x679, 0x2039]),
  (0x8C, [0x152, 0x686, 0x698, 0x688, 0x6AF, 0x2018, 0x2019, 0x201C, 0x201D, 0x2022, 0x2013, 0x2014]),
  (0x98, [0x6A9, 0x2122, 0x691, 0x203A, 0x153, 0x200C, 0x200D, 0x6BA, 0xA0, 0x60C, 0xA2, 0xA3]),
  (0xA4, [0xA4, 0xA5, 0xA6, 0xA7, 0xA8, 0xA9, 0x6BE, 0xAB, 0xAC, 0xAD, 0xAE, 0xAF]),
  (0xB0, [0xB0, 0xB1, 0xB2, 0xB3, 0xB4, 0xB5, 0xB6, 0xB7, 0xB8, 0xB9, 0x61B, 0xBB]),
  (0xBC, [0xBC, 0xBD, 0xBE, 0x61F, 0x6C1, 0x621, 0x622, 0x623, 0x624, 0x625, 0x626, 0x627]),
  (0xC8, [0x628, 0x629, 0x62A, 0x62B, 0x62C, 0x62D, 0x62E, 0x62F, 0x630, 0x631, 0x632, 0x633]),
  (0xD4, [0x634, 0x635, 0x636, 0xD7, 0x637, 0x638, 0x639, 0x63A, 0x640, 0x641, 0x642, 0x643]),
  (0xE0, [0xE0, 0x644, 0xE2, 0x645, 0x646, 0x647, 0x648, 0xE7, 0xE8, 0xE9, 0xEA, 0xEB]),
  (0xEC, [0x649, 0x64A, 0xEE, 0xEF, 0x64B, 0x64C, 0x64D, 0x64E, 0xF4, 0x64F, 0x650, 0xF7]),
  (0xF8, [0x651, 0xF9, 0x652, 0xFB, 0xFC, 0x200E, 0x200F, 0x6D2])]

/-- /repo/modules/from/_CP1256.txt; there is no file for writing. -/
def cp1256 : Charset where
  reads := cp1256Reads
  writes := []

/-- The rules of /repo/modules/from/_CP1257.txt: code, character.  No two lines have the same code, so their order does not matter; here they
are sorted. -/
def cp1257Reads : Chart := [
  (0x80, [0x20AC]),
  (0x82, [0x201A]),
  (0x84, [0x201E, 0x2026, 0x2020, 0x2021]),
  (0x89, [0x2030]),
  (0x8B, [0x2039]),
  (0x8D, [0xA8, 0x2C7, 0xB8]),
  (0x91, [0x2018, 0x2019, 0x201C, 0x201D, 0x2022, 0x2013, 0x2014]),
  (0x99, [0x2122]),
  (0x9B, [0x203A]),
  (0x9D, [0xAF, 0x2DB]),
  (0xA0, [0xA0]),
  (0xA2, [0xA2, 0xA3, 0xA4]),
  (0xA6, [0xA6, 0xA7, 0xD8, 0xA9, 0x156, 0xAB, 0xAC, 0xAD, 0xAE, 0xC6, 0xB0, 0xB1]),
  (0xB2, [0xB2, 0xB3, 0xB4, 0xB5, 0xB6, 0xB7, 0xF8, 0xB9, 0x157, 0xBB, 0xBC, 0xBD]),
  (0xBE, [0xBE, 0xE6, 0x104, 0x12E, 0x100, 0x106, 0xC4, 0xC5, 0x118, 0x112, 0x10C, 0xC9]),
  (0xCA, [0x179, 0x116, 0x122, 0x136, 0x12A, 0x13B, 0x160, 0x143, 0x145, 0xD3, 0x14C, 0xD5]),
  (0xD6, [0xD6, 0xD7, 0x172, 0x141, 0x15A, 0x16A, 0xDC, 0x17B, 0x17D, 0xDF, 0x105, 0x12F]),
  (0xE2, [0x101, 0x107, 0xE4, 0xE5, 0x119, 0x113, 0x10D, 0xE9, 0x17A, 0x117, 0x123, 0x137]),
  (0xEE, [0x12B, 0x13C, 0x161, 0x144, 0x146, 0xF3, 0x14D, 0xF5, 0xF6, 0xF7, 0x173, 0x142]),
  (0xFA, [0x15B, 0x16B, 0xFC, 0x17C, 0x17E, 0x2D9])]

/-- /repo/modules/from/_CP1257.txt; there is no file for writing. -/
def cp1257 : Charset where
  reads := cp1257Reads
  writes := []

/-- The rules of /repo/modules/from/_CP1258.txt: code, character.  No two lines have the same code, so their order does not matter; here they
are sorted. -/
def cp1258Reads : Chart := [
  (0x80, [0x20AC]),
  (0x82, [0x201A, 0x192, 0x201E, 0x2026, 0x2020, 0x2021, 0x2C6, 0x2030]),
  (0x8B, [0x2039, 0x152]),
  (0x91, [0x2018, 0x2019, 0x201C, 0x201D, 0x2022, 0x2013, 0x2014, 0x2DC, 0x2122]),
  (0x9B, [0x203A, 0x153]),
  (0x9F, [0x178, 0xA0, 0xA1, 0xA2, 0xA3, 0xA4, 0xA5, 0xA6, 0xA7, 0xA8, 0xA9, 0xAA]),
  (0xAB, [0xAB, 0xAC, 0xAD, 0xAE, 0xAF, 0xB0, 0xB1, 0xB2, 0xB3, 0xB4, 0xB5, 0xB6]),
  (0xB7, [0xB7, 0xB8, 0xB9, 0xBA, 0xBB, 0xBC, 0xBD, 0xBE, 0xBF, 0xC0, 0xC1, 0xC2]),
  (0xC3, [0x102, 0xC4, 0xC5, 0xC6, 0xC7, 0xC8, 0xC9, 0xCA, 0xCB, 0x300, 0xCD, 0xCE]),
  (0xCF, [0xCF, 0x110, 0xD1, 0x309, 0xD3, 0xD4, 0x1A0, 0xD6, 0xD7, 0xD8, 0xD9, 0xDA]),
  (0xDB, [0xDB, 0xDC, 0x1AF, 0x303, 0xDF, 0xE0, 0xE1, 0xE2, 0x103, 0xE4, 0xE5, 0xE6]),
  (0xE7, [0xE7, 0xE8, 0xE9, 0xEA, 0xEB, 0x301, 0xED, 0xEE, 0xEF, 0x111, 0xF1, 0x323]),
  (0xF3, [0xF3, 0xF4, 0x1A1, 0xF6, 0xF7, 0xF8, 0xF9, 0xFA, 0xFB, 0xFC, 0x1B0, 0x20AB]),
  (0xFF, [0xFF])]

/-- /repo/modules/from/_CP1258.txt; there is no file for writing. -/
def cp1258 : Charset where
  reads := cp1258Reads
  writes := []

end Verif.Charsets
