/-
Generated by tools/big5esc.py from /repo/modules/from/BIG5-5C.txt:2-88 and /repo/modules/to/BIG5-5C.txt:2-88.
-/
namespace Verif.Big5Esc

/-- The rows `(byte)5C5C 01(character)` of the one file, `01(character) (byte)5C5C` of the other. -/
def rows : List (Nat × Nat) :=
  [(0xA1, 0xFE4F), (0xA2, 0x515D), (0xA3, 0x3B1), (0xA4, 0x4E48), (0xA5, 0x529F), (0xA6, 0x5412), (0xA7, 0x542D), (0xA8, 0x6C94),
   (0xA9, 0x577C), (0xAA, 0x6B7F), (0xAB, 0x4FDE), (0xAC, 0x67AF), (0xAD, 0x82D2), (0xAE, 0x5A09), (0xAF, 0x73EE), (0xB0, 0x8C79),
   (0xB1, 0x5D24), (0xB2, 0x6DDA), (0xB3, 0x8A31), (0xB4, 0x5EC4), (0xB5, 0x7435), (0xB6, 0x8DDA), (0xB7, 0x6127), (0xB8, 0x7A1E),
   (0xB9, 0x923E), (0xBA, 0x669D), (0xBB, 0x84CB), (0xBC, 0x58A6), (0xBD, 0x7A40), (0xBE, 0x95B1), (0xBF, 0x749E), (0xC0, 0x9910),
   (0xC1, 0x7E37), (0xC2, 0x64FA), (0xC3, 0x9EE0), (0xC4, 0x5B40), (0xC5, 0x9ACF), (0xC6, 0x8EA1), (0xC9, 0x5C10), (0xCA, 0x4F62),
   (0xCB, 0x6C7B), (0xCC, 0x5CA4), (0xCD, 0x72D6), (0xCE, 0x57A5), (0xCF, 0x67E6), (0xD0, 0x80D0), (0xD1, 0x5A16), (0xD2, 0x6D82),
   (0xD3, 0x7F61), (0xD4, 0x5045), (0xD5, 0x60DD), (0xD6, 0x727E), (0xD7, 0x838D), (0xD8, 0x509C), (0xD9, 0x63CA), (0xDA, 0x712E),
   (0xDB, 0x833B), (0xDC, 0x9103), (0xDD, 0x5E4B), (0xDE, 0x6EDC), (0xDF, 0x7D85), (0xE0, 0x8D68), (0xE1, 0x587F), (0xE2, 0x69D9),
   (0xE3, 0x7BA4), (0xE4, 0x8E0A), (0xE5, 0x5AF9), (0xE6, 0x6F7F), (0xE7, 0x850C), (0xE8, 0x9186), (0xE9, 0x5B1E), (0xEA, 0x7366),
   (0xEB, 0x878F), (0xEC, 0x9924), (0xED, 0x71E1), (0xEE, 0x87B0), (0xEF, 0x99F9), (0xF0, 0x7912), (0xF1, 0x93AA), (0xF2, 0x7019),
   (0xF3, 0x9140), (0xF4, 0x7035), (0xF5, 0x9A31), (0xF6, 0x9145), (0xF7, 0x8D15), (0xF8, 0x9C4B), (0xF9, 0x9C6D)]

end Verif.Big5Esc
