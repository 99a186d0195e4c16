import Verif.Spec.Charset
/-
Generated by tools/charsets.py from rule files of /repo/modules/from and /repo/modules/to.
-/
namespace Verif.Charsets
open Verif.Spec

set_option maxRecDepth 100000

/-- The rules of /repo/modules/from/_ISO-8859-1.txt: code, character.  No two lines have the same code, so their order does not matter; here they
are sorted. -/
def iso88591Reads : Chart := [
  (0xA0, [0xA0, 0xA1, 0xA2, 0xA3, 0xA4, 0xA5, 0xA6, 0xA7, 0xA8, 0xA9, 0xAA, 0xAB]),
  (0xAC, [0xAC, 0xAD, 0xAE, 0xAF, 0xB0, 0xB1, 0xB2, 0xB3, 0xB4, 0xB5, 0xB6, 0xB7]),
  (0xB8, [0xB8, 0xB9, 0xBA, 0xBB, 0xBC, 0xBD, 0xBE, 0xBF, 0xC0, 0xC1, 0xC2, 0xC3]),
  (0xC4, [0xC4, 0xC5, 0xC6, 0xC7, 0xC8, 0xC9, 0xCA, 0xCB, 0xCC, 0xCD, 0xCE, 0xCF]),
  (0xD0, [0xD0, 0xD1, 0xD2, 0xD3, 0xD4, 0xD5, 0xD6, 0xD7, 0xD8, 0xD9, 0xDA, 0xDB]),
  (0xDC, [0xDC, 0xDD, 0xDE, 0xDF, 0xE0, 0xE1, 0xE2, 0xE3, 0xE4, 0xE5, 0xE6, 0xE7]),
  (0xE8, [0xE8, 0xE9, 0xEA, 0xEB, 0xEC, 0xED, 0xEE, 0xEF, 0xF0, 0xF1, 0xF2, 0xF3]),
  (0xF4, [0xF4, 0xF5, 0xF6, 0xF7, 0xF8, 0xF9, 0xFA, 0xFB, 0xFC, 0xFD, 0xFE, 0xFF])]

/-- The rules of /repo/modules/to/_ISO-8859-1.txt: character, code.  No two lines have the same character; sorted.  Lines `0100..`, if any, are
listed separately. -/
def iso88591Writes : Chart := [
  (0xA0, [0xA0, 0xA1, 0xA2, 0xA3, 0xA4, 0xA5, 0xA6, 0xA7, 0xA8, 0xA9, 0xAA, 0xAB]),
  (0xAC, [0xAC, 0xAD, 0xAE, 0xAF, 0xB0, 0xB1, 0xB2, 0xB3, 0xB4, 0xB5, 0xB6, 0xB7]),
  (0xB8, [0xB8, 0xB9, 0xBA, 0xBB, 0xBC, 0xBD, 0xBE, 0xBF, 0xC0, 0xC1, 0xC2, 0xC3]),
  (0xC4, [0xC4, 0xC5, 0xC6, 0xC7, 0xC8, 0xC9, 0xCA, 0xCB, 0xCC, 0xCD, 0xCE, 0xCF]),
  (0xD0, [0xD0, 0xD1, 0xD2, 0xD3, 0xD4, 0xD5, 0xD6, 0xD7, 0xD8, 0xD9, 0xDA, 0xDB]),
  (0xDC, [0xDC, 0xDD, 0xDE, 0xDF, 0xE0, 0xE1, 0xE2, 0xE3, 0xE4, 0xE5, 0xE6, 0xE7]),
  (0xE8, [0xE8, 0xE9, 0xEA, 0xEB, 0xEC, 0xED, 0xEE, 0xEF, 0xF0, 0xF1, 0xF2, 0xF3]),
  (0xF4, [0xF4, 0xF5, 0xF6, 0xF7, 0xF8, 0xF9, 0xFA, 0xFB, 0xFC, 0xFD, 0xFE, 0xFF])]

/-- /repo/modules/from/_ISO-8859-1.txt and /repo/modules/to/_ISO-8859-1.txt. -/
def iso88591 : Charset where
  reads := iso88591Reads
  writes := iso88591Writes

/-- The rules of /repo/modules/from/_CP1251.txt: code, character.  No two lines have the same code, so their order does not matter; here they
are sorted. -/
def cp1251Reads : Chart := [
  (0x80, [0x402, 0x403, 0x201A, 0x453, 0x201E, 0x2026, 0x2020, 0x2021, 0x20AC, 0x2030, 0x409, 0x2039]),
  (0x8C, [0x40A, 0x40C, 0x40B, 0x40F, 0x452, 0x2018, 0x2019, 0x201C, 0x201D, 0x2022, 0x2013, 0x2014]),
  (0x99, [0x2122, 0x459, 0x203A, 0x45A, 0x45C, 0x45B, 0x45F, 0xA0, 0x40E, 0x45E, 0x408, 0xA4]),
  (0xA5, [0x490, 0xA6, 0xA7, 0x401, 0xA9, 0x404, 0xAB, 0xAC, 0xAD, 0xAE, 0x407, 0xB0]),
  (0xB1, [0xB1, 0x406, 0x456, 0x491, 0xB5, 0xB6, 0xB7, 0x451, 0x2116, 0x454, 0xBB, 0x458]),
  (0xBD, [0x405, 0x455, 0x457, 0x410, 0x411, 0x412, 0x413, 0x414, 0x415, 0x416, 0x417, 0x418]),
  (0xC9, [0x419, 0x41A, 0x41B, 0x41C, 0x41D, 0x41E, 0x41F, 0x420, 0x421, 0x422, 0x423, 0x424]),
  (0xD5, [0x425, 0x426, 0x427, 0x428, 0x429, 0x42A, 0x42B, 0x42C, 0x42D, 0x42E, 0x42F, 0x430]),
  (0xE1, [0x431, 0x432, 0x433, 0x434, 0x435, 0x436, 0x437, 0x438, 0x439, 0x43A, 0x43B, 0x43C]),
  (0xED, [0x43D, 0x43E, 0x43F, 0x440, 0x441, 0x442, 0x443, 0x444, 0x445, 0x446, 0x447, 0x448]),
  (0xF9, [0x449, 0x44A, 0x44B, 0x44C, 0x44D, 0x44E, 0x44F])]

/-- The rules of /repo/modules/to/_CP1251.txt: character, code.  No two lines have the same character; sorted.  Lines `0100..`, if any, are
listed separately. -/
def cp1251Writes : Chart := [
  (0xA0, [0xA0]),
  (0xA4, [0xA4]),
  (0xA6, [0xA6, 0xA7]),
  (0xA9, [0xA9]),
  (0xAB, [0xAB, 0xAC, 0xAD, 0xAE]),
  (0xB0, [0xB0, 0xB1]),
  (0xB5, [0xB5, 0xB6, 0xB7]),
  (0xBB, [0xBB]),
  (0x401, [0xA8, 0x80, 0x81, 0xAA, 0xBD, 0xB2, 0xAF, 0xA3, 0x8A, 0x8C, 0x8E, 0x8D]),
  (0x40E, [0xA1, 0x8F, 0xC0, 0xC1, 0xC2, 0xC3, 0xC4, 0xC5, 0xC6, 0xC7, 0xC8, 0xC9]),
  (0x41A, [0xCA, 0xCB, 0xCC, 0xCD, 0xCE, 0xCF, 0xD0, 0xD1, 0xD2, 0xD3, 0xD4, 0xD5]),
  (0x426, [0xD6, 0xD7, 0xD8, 0xD9, 0xDA, 0xDB, 0xDC, 0xDD, 0xDE, 0xDF, 0xE0, 0xE1]),
  (0x432, [0xE2, 0xE3, 0xE4, 0xE5, 0xE6, 0xE7, 0xE8, 0xE9, 0xEA, 0xEB, 0xEC, 0xED]),
  (0x43E, [0xEE, 0xEF, 0xF0, 0xF1, 0xF2, 0xF3, 0xF4, 0xF5, 0xF6, 0xF7, 0xF8, 0xF9]),
  (0x44A, [0xFA, 0xFB, 0xFC, 0xFD, 0xFE, 0xFF]),
  (0x451, [0xB8, 0x90, 0x83, 0xBA, 0xBE, 0xB3, 0xBF, 0xBC, 0x9A, 0x9C, 0x9E, 0x9D]),
  (0x45E, [0xA2, 0x9F]),
  (0x490, [0xA5, 0xB4]),
  (0x2013, [0x96, 0x97]),
  (0x2018, [0x91, 0x92, 0x82]),
  (0x201C, [0x93, 0x94, 0x84]),
  (0x2020, [0x86, 0x87, 0x95]),
  (0x2026, [0x85]),
  (0x2030, [0x89]),
  (0x2039, [0x8B, 0x9B]),
  (0x20AC, [0x88]),
  (0x2116, [0xB9]),
  (0x2122, [0x99])]

/-- /repo/modules/from/_CP1251.txt and /repo/modules/to/_CP1251.txt. -/
def cp1251 : Charset where
  reads := cp1251Reads
  writes := cp1251Writes

/-- The rules of /repo/modules/from/_CP1252.txt: code, character.  No two lines have the same code, so their order does not matter; here they
are sorted. -/
def cp1252Reads : Chart := [
  (0x80, [0x20AC]),
  (0x82, [0x201A, 0x192, 0x201E, 0x2026, 0x2020, 0x2021, 0x2C6, 0x2030, 0x160, 0x2039, 0x152]),
  (0x8E, [0x17D]),
  (0x91, [0x2018, 0x2019, 0x201C, 0x201D, 0x2022, 0x2013, 0x2014, 0x2DC, 0x2122, 0x161, 0x203A, 0x153]),
  (0x9E, [0x17E, 0x178, 0xA0, 0xA1, 0xA2, 0xA3, 0xA4, 0xA5, 0xA6, 0xA7, 0xA8, 0xA9]),
  (0xAA, [0xAA, 0xAB, 0xAC, 0xAD, 0xAE, 0xAF, 0xB0, 0xB1, 0xB2, 0xB3, 0xB4, 0xB5]),
  (0xB6, [0xB6, 0xB7, 0xB8, 0xB9, 0xBA, 0xBB, 0xBC, 0xBD, 0xBE, 0xBF, 0xC0, 0xC1]),
  (0xC2, [0xC2, 0xC3, 0xC4, 0xC5, 0xC6, 0xC7, 0xC8, 0xC9, 0xCA, 0xCB, 0xCC, 0xCD]),
  (0xCE, [0xCE, 0xCF, 0xD0, 0xD1, 0xD2, 0xD3, 0xD4, 0xD5, 0xD6, 0xD7, 0xD8, 0xD9]),
  (0xDA, [0xDA, 0xDB, 0xDC, 0xDD, 0xDE, 0xDF, 0xE0, 0xE1, 0xE2, 0xE3, 0xE4, 0xE5]),
  (0xE6, [0xE6, 0xE7, 0xE8, 0xE9, 0xEA, 0xEB, 0xEC, 0xED, 0xEE, 0xEF, 0xF0, 0xF1]),
  (0xF2, [0xF2, 0xF3, 0xF4, 0xF5, 0xF6, 0xF7, 0xF8, 0xF9, 0xFA, 0xFB, 0xFC, 0xFD]),
  (0xFE, [0xFE, 0xFF])]

/-- The rules of /repo/modules/to/_CP1252.txt: character, code.  No two lines have the same character; sorted.  Lines `0100..`, if any, are
listed separately. -/
def cp1252Writes : Chart := [
  (0xA0, [0xA0, 0xA1, 0xA2, 0xA3, 0xA4, 0xA5, 0xA6, 0xA7, 0xA8, 0xA9, 0xAA, 0xAB]),
  (0xAC, [0xAC, 0xAD, 0xAE, 0xAF, 0xB0, 0xB1, 0xB2, 0xB3, 0xB4, 0xB5, 0xB6, 0xB7]),
  (0xB8, [0xB8, 0xB9, 0xBA, 0xBB, 0xBC, 0xBD, 0xBE, 0xBF, 0xC0, 0xC1, 0xC2, 0xC3]),
  (0xC4, [0xC4, 0xC5, 0xC6, 0xC7, 0xC8, 0xC9, 0xCA, 0xCB, 0xCC, 0xCD, 0xCE, 0xCF]),
  (0xD0, [0xD0, 0xD1, 0xD2, 0xD3, 0xD4, 0xD5, 0xD6, 0xD7, 0xD8, 0xD9, 0xDA, 0xDB]),
  (0xDC, [0xDC, 0xDD, 0xDE, 0xDF, 0xE0, 0xE1, 0xE2, 0xE3, 0xE4, 0xE5, 0xE6, 0xE7]),
  (0xE8, [0xE8, 0xE9, 0xEA, 0xEB, 0xEC, 0xED, 0xEE, 0xEF, 0xF0, 0xF1, 0xF2, 0xF3]),
  (0xF4, [0xF4, 0xF5, 0xF6, 0xF7, 0xF8, 0xF9, 0xFA, 0xFB, 0xFC, 0xFD, 0xFE, 0xFF]),
  (0x152, [0x8C, 0x9C]),
  (0x160, [0x8A, 0x9A]),
  (0x178, [0x9F]),
  (0x17D, [0x8E, 0x9E]),
  (0x192, [0x83]),
  (0x2C6, [0x88]),
  (0x2DC, [0x98]),
  (0x2013, [0x96, 0x97]),
  (0x2018, [0x91, 0x92, 0x82]),
  (0x201C, [0x93, 0x94, 0x84]),
  (0x2020, [0x86, 0x87, 0x95]),
  (0x2026, [0x85]),
  (0x2030, [0x89]),
  (0x2039, [0x8B, 0x9B]),
  (0x20AC, [0x80]),
  (0x2122, [0x99])]

/-- /repo/modules/from/_CP1252.txt and /repo/modules/to/_CP1252.txt. -/
def cp1252 : Charset where
  reads := cp1252Reads
  writes := cp1252Writes

/-- The rules of /repo/modules/from/_CP1253.txt: code, character.  No two lines have the same code, so their order does not matter; here they
are sorted. -/
def cp1253Reads : Chart := [
  (0x80, [0x20AC]),
  (0x82, [0x201A, 0x192, 0x201E, 0x2026, 0x2020, 0x2021]),
  (0x89, [0x2030]),
  (0x8B, [0x2039]),
  (0x91, [0x2018, 0x2019, 0x201C, 0x201D, 0x2022, 0x2013, 0x2014]),
  (0x99, [0x2122]),
  (0x9B, [0x203A]),
  (0xA0, [0xA0, 0x385, 0x386, 0xA3, 0xA4, 0xA5, 0xA6, 0xA7, 0xA8, 0xA9]),
  (0xAB, [0xAB, 0xAC, 0xAD, 0xAE, 0x2015, 0xB0, 0xB1, 0xB2, 0xB3, 0x384, 0xB5, 0xB6]),
  (0xB7, [0xB7, 0x388, 0x389, 0x38A, 0xBB, 0x38C, 0xBD, 0x38E, 0x38F, 0x390, 0x391, 0x392]),
  (0xC3, [0x393, 0x394, 0x395, 0x396, 0x397, 0x398, 0x399, 0x39A, 0x39B, 0x39C, 0x39D, 0x39E]),
  (0xCF, [0x39F, 0x3A0, 0x3A1]),
  (0xD3, [0x3A3, 0x3A4, 0x3A5, 0x3A6, 0x3A7, 0x3A8, 0x3A9, 0x3AA, 0x3AB, 0x3AC, 0x3AD, 0x3AE]),
  (0xDF, [0x3AF, 0x3B0, 0x3B1, 0x3B2, 0x3B3, 0x3B4, 0x3B5, 0x3B6, 0x3B7, 0x3B8, 0x3B9, 0x3BA]),
  (0xEB, [0x3BB, 0x3BC, 0x3BD, 0x3BE, 0x3BF, 0x3C0, 0x3C1, 0x3C2, 0x3C3, 0x3C4, 0x3C5, 0x3C6]),
  (0xF7, [0x3C7, 0x3C8, 0x3C9, 0x3CA, 0x3CB, 0x3CC, 0x3CD, 0x3CE])]

/-- The rules of /repo/modules/to/_CP1253.txt: character, code.  No two lines have the same character; sorted.  Lines `0100..`, if any, are
listed separately. -/
def cp1253Writes : Chart := [
  (0x192, [0x83]),
  (0x384, [0xB4, 0xA1, 0xA2]),
  (0x388, [0xB8, 0xB9, 0xBA]),
  (0x38C, [0xBC]),
  (0x38E, [0xBE, 0xBF, 0xC0, 0xC1, 0xC2, 0xC3, 0xC4, 0xC5, 0xC6, 0xC7, 0xC8, 0xC9]),
  (0x39A, [0xCA, 0xCB, 0xCC, 0xCD, 0xCE, 0xCF, 0xD0, 0xD1]),
  (0x3A3, [0xD3, 0xD4, 0xD5, 0xD6, 0xD7, 0xD8, 0xD9, 0xDA, 0xDB, 0xDC, 0xDD, 0xDE]),
  (0x3AF, [0xDF, 0xE0, 0xE1, 0xE2, 0xE3, 0xE4, 0xE5, 0xE6, 0xE7, 0xE8, 0xE9, 0xEA]),
  (0x3BB, [0xEB, 0xEC, 0xED, 0xEE, 0xEF, 0xF0, 0xF1, 0xF2, 0xF3, 0xF4, 0xF5, 0xF6]),
  (0x3C7, [0xF7, 0xF8, 0xF9, 0xFA, 0xFB, 0xFC, 0xFD, 0xFE]),
  (0x2013, [0x96, 0x97, 0xAF]),
  (0x2018, [0x91, 0x92, 0x82]),
  (0x201C, [0x93, 0x94, 0x84]),
  (0x2020, [0x86, 0x87, 0x95]),
  (0x2026, [0x85]),
  (0x2030, [0x89]),
  (0x2039, [0x8B, 0x9B]),
  (0x20AC, [0x80]),
  (0x2122, [0x99])]

/-- /repo/modules/from/_CP1253.txt and /repo/modules/to/_CP1253.txt. -/
def cp1253 : Charset where
  reads := cp1253Reads
  writes := cp1253Writes
  odd := [(0xA0, 0xA0), (0xA3, 0xA3), (0xA4, 0xA4), (0xA5, 0xA5), (0xA6, 0xA6), (0xA7, 0xA7), (0xA8, 0xA8), (0xA9, 0xA9), (0xAB, 0xAB), (0xAC, 0xAC), (0xAD, 0xAD), (0xAE, 0xAE), (0xB0, 0xB0), (0xB1, 0xB1), (0xB2, 0xB2), (0xB3, 0xB3), (0xB5, 0xB5), (0xB6, 0xB6), (0xB7, 0xB7), (0xBB, 0xBB), (0xBD, 0xBD)]

/-- The rules of /repo/modules/from/_CP874.txt: code, character.  No two lines have the same code, so their order does not matter; here they
are sorted. -/
def cp874Reads : Chart := [
  (0x80, [0x20AC]),
  (0x85, [0x2026]),
  (0x91, [0x2018, 0x2019, 0x201C, 0x201D, 0x2022, 0x2013, 0x2014]),
  (0xA0, [0xA0, 0xE01, 0xE02, 0xE03, 0xE04, 0xE05, 0xE06, 0xE07, 0xE08, 0xE09, 0xE0A, 0xE0B]),
  (0xAC, [0xE0C, 0xE0D, 0xE0E, 0xE0F, 0xE10, 0xE11, 0xE12, 0xE13, 0xE14, 0xE15, 0xE16, 0xE17]),
  (0xB8, [0xE18, 0xE19, 0xE1A, 0xE1B, 0xE1C, 0xE1D, 0xE1E, 0xE1F, 0xE20, 0xE21, 0xE22, 0xE23]),
  (0xC4, [0xE24, 0xE25, 0xE26, 0xE27, 0xE28, 0xE29, 0xE2A, 0xE2B, 0xE2C, 0xE2D, 0xE2E, 0xE2F]),
  (0xD0, [0xE30, 0xE31, 0xE32, 0xE33, 0xE34, 0xE35, 0xE36, 0xE37, 0xE38, 0xE39, 0xE3A]),
  (0xDF, [0xE3F, 0xE40, 0xE41, 0xE42, 0xE43, 0xE44, 0xE45, 0xE46, 0xE47, 0xE48, 0xE49, 0xE4A]),
  (0xEB, [0xE4B, 0xE4C, 0xE4D, 0xE4E, 0xE4F, 0xE50, 0xE51, 0xE52, 0xE53, 0xE54, 0xE55, 0xE56]),
  (0xF7, [0xE57, 0xE58, 0xE59, 0xE5A, 0xE5B])]

/-- The rules of /repo/modules/to/_CP874.txt: character, code.  No two lines have the same character; sorted.  Lines `0100..`, if any, are
listed separately. -/
def cp874Writes : Chart := [
  (0xE01, [0xA1, 0xA2, 0xA3, 0xA4, 0xA5, 0xA6, 0xA7, 0xA8, 0xA9, 0xAA, 0xAB, 0xAC]),
  (0xE0D, [0xAD, 0xAE, 0xAF, 0xB0, 0xB1, 0xB2, 0xB3, 0xB4, 0xB5, 0xB6, 0xB7, 0xB8]),
  (0xE19, [0xB9, 0xBA, 0xBB, 0xBC, 0xBD, 0xBE, 0xBF, 0xC0, 0xC1, 0xC2, 0xC3, 0xC4]),
  (0xE25, [0xC5, 0xC6, 0xC7, 0xC8, 0xC9, 0xCA, 0xCB, 0xCC, 0xCD, 0xCE, 0xCF, 0xD0]),
  (0xE31, [0xD1, 0xD2, 0xD3, 0xD4, 0xD5, 0xD6, 0xD7, 0xD8, 0xD9, 0xDA]),
  (0xE3F, [0xDF, 0xE0, 0xE1, 0xE2, 0xE3, 0xE4, 0xE5, 0xE6, 0xE7, 0xE8, 0xE9, 0xEA]),
  (0xE4B, [0xEB, 0xEC, 0xED, 0xEE, 0xEF, 0xF0, 0xF1, 0xF2, 0xF3, 0xF4, 0xF5, 0xF6]),
  (0xE57, [0xF7, 0xF8, 0xF9, 0xFA, 0xFB]),
  (0x2013, [0x96, 0x97]),
  (0x2018, [0x91, 0x92]),
  (0x201C, [0x93, 0x94]),
  (0x2022, [0x95]),
  (0x2026, [0x85]),
  (0x20AC, [0x80])]

/-- /repo/modules/from/_CP874.txt and /repo/modules/to/_CP874.txt. -/
def cp874 : Charset where
  reads := cp874Reads
  writes := cp874Writes
  odd := [(0xA0, 0xA0)]

end Verif.Charsets
