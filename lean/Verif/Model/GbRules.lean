/-
Generated by tools/gbrules.py from /repo/modules/from/_GB18030.txt.
-/
namespace Verif.Gb18030

/-- The rules of /repo/modules/from/_GB18030.txt with a callback, in the order of the file: `p* ?d` as (p, d). -/
def stars : List (List Nat × List Nat) := [
  ([0x81, 0x30], [0x81, 0x30]), ([0x81, 0x31], [0x81, 0x31]), ([0x81, 0x32], [0x81, 0x32]),
  ([0x81, 0x33], [0x81, 0x33]), ([0x81, 0x34], [0x81, 0x34]), ([0x81, 0x35], [0x81, 0x35]),
  ([0x81, 0x36], [0x81, 0x36]), ([0x81, 0x37], [0x81, 0x37]), ([0x81, 0x37, 0xA8], [0x81, 0x37, 0xA8]),
  ([0x81, 0x38], [0x81, 0x38]), ([0x81, 0x39], [0x81, 0x39]), ([0x82, 0x30], [0x82, 0x30]),
  ([0x82, 0x30, 0xA6], [0x82, 0x30, 0xA6]), ([0x82, 0x30, 0xF2], [0x82, 0x30, 0xF2]), ([0x82, 0x31], [0x82, 0x31]),
  ([0x82, 0x31, 0xD4], [0x82, 0x31, 0xD4]), ([0x82, 0x32], [0x82, 0x32]), ([0x82, 0x32, 0xAF], [0x82, 0x32, 0xAF]),
  ([0x82, 0x32, 0xC9], [0x82, 0x32, 0xC9]), ([0x82, 0x32, 0xF8], [0x82, 0x32, 0xF8]), ([0x82, 0x33], [0x82, 0x33]),
  ([0x82, 0x33, 0xA3], [0x82, 0x33, 0xA3]), ([0x82, 0x33, 0xC9], [0x82, 0x33, 0xC9]),
  ([0x82, 0x33, 0xE8], [0x82, 0x33, 0xE8]), ([0x82, 0x34], [0x82, 0x34]), ([0x82, 0x34, 0x96], [0x82, 0x34, 0x96]),
  ([0x82, 0x34, 0xA1], [0x82, 0x34, 0xA1]), ([0x82, 0x34, 0xE7], [0x82, 0x34, 0xE7]),
  ([0x82, 0x35, 0x8F], [0x82, 0x35, 0x8F]), ([0x82, 0x36], [0x82, 0x36]), ([0x83], [0x83]),
  ([0x83, 0x36], [0x83, 0x36]), ([0x83, 0x37], [0x83, 0x37]), ([0x83, 0x38], [0x83, 0x38]),
  ([0x83, 0x39], [0x83, 0x39]), ([0x84], [0x84]), ([0x84, 0x30], [0x84, 0x30]),
  ([0x84, 0x30, 0x85], [0x84, 0x30, 0x85]), ([0x84, 0x30, 0x9C], [0x84, 0x30, 0x9C]), ([0x84, 0x31], [0x84, 0x31]),
  ([0x84, 0x31, 0x85], [0x84, 0x31, 0x85]), ([0x84, 0x31, 0xA2], [0x84, 0x31, 0xA2]),
  ([0x84, 0x31, 0xA3], [0x84, 0x31, 0xA3]), ([0x84, 0x31, 0xA4], [0x84, 0x31, 0xA4]), ([0x90], [0x90]),
  ([0x91], [0x91]), ([0x92], [0x92]), ([0x93], [0x93]), ([0x94], [0x94]), ([0x95], [0x95]), ([0x96], [0x96]),
  ([0x97], [0x97]), ([0x98], [0x98]), ([0x99], [0x99]), ([0x9A], [0x9A]), ([0x9B], [0x9B]), ([0x9C], [0x9C]),
  ([0x9D], [0x9D]), ([0x9E], [0x9E]), ([0x9F], [0x9F]), ([0xA0], [0xA0]), ([0xA1], [0xA1]), ([0xA2], [0xA2]),
  ([0xA3], [0xA3]), ([0xA4], [0xA4]), ([0xA5], [0xA5]), ([0xA6], [0xA6]), ([0xA7], [0xA7]), ([0xA8], [0xA8]),
  ([0xA9], [0xA9]), ([0xAA], [0xAA]), ([0xAB], [0xAB]), ([0xAC], [0xAC]), ([0xAD], [0xAD]), ([0xAE], [0xAE]),
  ([0xAF], [0xAF]), ([0xB0], [0xB0]), ([0xB1], [0xB1]), ([0xB2], [0xB2]), ([0xB3], [0xB3]), ([0xB4], [0xB4]),
  ([0xB5], [0xB5]), ([0xB6], [0xB6]), ([0xB7], [0xB7]), ([0xB8], [0xB8]), ([0xB9], [0xB9]), ([0xBA], [0xBA]),
  ([0xBB], [0xBB]), ([0xBC], [0xBC]), ([0xBD], [0xBD]), ([0xBE], [0xBE]), ([0xBF], [0xBF]), ([0xC0], [0xC0]),
  ([0xC1], [0xC1]), ([0xC2], [0xC2]), ([0xC3], [0xC3]), ([0xC4], [0xC4]), ([0xC5], [0xC5]), ([0xC6], [0xC6]),
  ([0xC7], [0xC7]), ([0xC8], [0xC8]), ([0xC9], [0xC9]), ([0xCA], [0xCA]), ([0xCB], [0xCB]), ([0xCC], [0xCC]),
  ([0xCD], [0xCD]), ([0xCE], [0xCE]), ([0xCF], [0xCF]), ([0xD0], [0xD0]), ([0xD1], [0xD1]), ([0xD2], [0xD2]),
  ([0xD3], [0xD3]), ([0xD4], [0xD4]), ([0xD5], [0xD5]), ([0xD6], [0xD6]), ([0xD7], [0xD7]), ([0xD8], [0xD8]),
  ([0xD9], [0xD0]), ([0xDA], [0xDA]), ([0xDB], [0xDB]), ([0xDC], [0xDC]), ([0xDD], [0xDD]), ([0xDE], [0xDE]),
  ([0xDF], [0xDF]), ([0xE0], [0xE0]), ([0xE1], [0xE1]), ([0xE2], [0xE2]), ([0xE3], [0xE3])]

end Verif.Gb18030
