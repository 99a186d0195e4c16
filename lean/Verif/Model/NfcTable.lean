import Verif.Spec.Unicode
/-
Generated by tools/nfctable.py from /repo/modules/inter/_NFC-MAP.txt.
-/
namespace Verif.Nfc

set_option maxRecDepth 100000

/-- The rules of /repo/modules/inter/_NFC-MAP.txt: `01s,01c 01x` as (s, c, x, k), where k is the combining class of c in
/repo/modules/inter/_NF-CCC.h (checked in Props/Nfc.lean). -/
def rules : List (Nat × Nat × Nat × Nat) := [
  (0x41, 0x300, 0xC0, 230), (0x41, 0x301, 0xC1, 230), (0x41, 0x302, 0xC2, 230), (0x41, 0x303, 0xC3, 230),
  (0x41, 0x308, 0xC4, 230), (0x41, 0x30A, 0xC5, 230), (0x43, 0x327, 0xC7, 202), (0x45, 0x300, 0xC8, 230),
  (0x45, 0x301, 0xC9, 230), (0x45, 0x302, 0xCA, 230), (0x45, 0x308, 0xCB, 230), (0x49, 0x300, 0xCC, 230),
  (0x49, 0x301, 0xCD, 230), (0x49, 0x302, 0xCE, 230), (0x49, 0x308, 0xCF, 230), (0x4E, 0x303, 0xD1, 230),
  (0x4F, 0x300, 0xD2, 230), (0x4F, 0x301, 0xD3, 230), (0x4F, 0x302, 0xD4, 230), (0x4F, 0x303, 0xD5, 230),
  (0x4F, 0x308, 0xD6, 230), (0x55, 0x300, 0xD9, 230), (0x55, 0x301, 0xDA, 230), (0x55, 0x302, 0xDB, 230),
  (0x55, 0x308, 0xDC, 230), (0x59, 0x301, 0xDD, 230), (0x61, 0x300, 0xE0, 230), (0x61, 0x301, 0xE1, 230),
  (0x61, 0x302, 0xE2, 230), (0x61, 0x303, 0xE3, 230), (0x61, 0x308, 0xE4, 230), (0x61, 0x30A, 0xE5, 230),
  (0x63, 0x327, 0xE7, 202), (0x65, 0x300, 0xE8, 230), (0x65, 0x301, 0xE9, 230), (0x65, 0x302, 0xEA, 230),
  (0x65, 0x308, 0xEB, 230), (0x69, 0x300, 0xEC, 230), (0x69, 0x301, 0xED, 230), (0x69, 0x302, 0xEE, 230),
  (0x69, 0x308, 0xEF, 230), (0x6E, 0x303, 0xF1, 230), (0x6F, 0x300, 0xF2, 230), (0x6F, 0x301, 0xF3, 230),
  (0x6F, 0x302, 0xF4, 230), (0x6F, 0x303, 0xF5, 230), (0x6F, 0x308, 0xF6, 230), (0x75, 0x300, 0xF9, 230),
  (0x75, 0x301, 0xFA, 230), (0x75, 0x302, 0xFB, 230), (0x75, 0x308, 0xFC, 230), (0x79, 0x301, 0xFD, 230),
  (0x79, 0x308, 0xFF, 230), (0x41, 0x304, 0x100, 230), (0x61, 0x304, 0x101, 230), (0x41, 0x306, 0x102, 230),
  (0x61, 0x306, 0x103, 230), (0x41, 0x328, 0x104, 202), (0x61, 0x328, 0x105, 202), (0x43, 0x301, 0x106, 230),
  (0x63, 0x301, 0x107, 230), (0x43, 0x302, 0x108, 230), (0x63, 0x302, 0x109, 230), (0x43, 0x307, 0x10A, 230),
  (0x63, 0x307, 0x10B, 230), (0x43, 0x30C, 0x10C, 230), (0x63, 0x30C, 0x10D, 230), (0x44, 0x30C, 0x10E, 230),
  (0x64, 0x30C, 0x10F, 230), (0x45, 0x304, 0x112, 230), (0x65, 0x304, 0x113, 230), (0x45, 0x306, 0x114, 230),
  (0x65, 0x306, 0x115, 230), (0x45, 0x307, 0x116, 230), (0x65, 0x307, 0x117, 230), (0x45, 0x328, 0x118, 202),
  (0x65, 0x328, 0x119, 202), (0x45, 0x30C, 0x11A, 230), (0x65, 0x30C, 0x11B, 230), (0x47, 0x302, 0x11C, 230),
  (0x67, 0x302, 0x11D, 230), (0x47, 0x306, 0x11E, 230), (0x67, 0x306, 0x11F, 230), (0x47, 0x307, 0x120, 230),
  (0x67, 0x307, 0x121, 230), (0x47, 0x327, 0x122, 202), (0x67, 0x327, 0x123, 202), (0x48, 0x302, 0x124, 230),
  (0x68, 0x302, 0x125, 230), (0x49, 0x303, 0x128, 230), (0x69, 0x303, 0x129, 230), (0x49, 0x304, 0x12A, 230),
  (0x69, 0x304, 0x12B, 230), (0x49, 0x306, 0x12C, 230), (0x69, 0x306, 0x12D, 230), (0x49, 0x328, 0x12E, 202),
  (0x69, 0x328, 0x12F, 202), (0x49, 0x307, 0x130, 230), (0x4A, 0x302, 0x134, 230), (0x6A, 0x302, 0x135, 230),
  (0x4B, 0x327, 0x136, 202), (0x6B, 0x327, 0x137, 202), (0x4C, 0x301, 0x139, 230), (0x6C, 0x301, 0x13A, 230),
  (0x4C, 0x327, 0x13B, 202), (0x6C, 0x327, 0x13C, 202), (0x4C, 0x30C, 0x13D, 230), (0x6C, 0x30C, 0x13E, 230),
  (0x4E, 0x301, 0x143, 230), (0x6E, 0x301, 0x144, 230), (0x4E, 0x327, 0x145, 202), (0x6E, 0x327, 0x146, 202),
  (0x4E, 0x30C, 0x147, 230), (0x6E, 0x30C, 0x148, 230), (0x4F, 0x304, 0x14C, 230), (0x6F, 0x304, 0x14D, 230),
  (0x4F, 0x306, 0x14E, 230), (0x6F, 0x306, 0x14F, 230), (0x4F, 0x30B, 0x150, 230), (0x6F, 0x30B, 0x151, 230),
  (0x52, 0x301, 0x154, 230), (0x72, 0x301, 0x155, 230), (0x52, 0x327, 0x156, 202), (0x72, 0x327, 0x157, 202),
  (0x52, 0x30C, 0x158, 230), (0x72, 0x30C, 0x159, 230), (0x53, 0x301, 0x15A, 230), (0x73, 0x301, 0x15B, 230),
  (0x53, 0x302, 0x15C, 230), (0x73, 0x302, 0x15D, 230), (0x53, 0x327, 0x15E, 202), (0x73, 0x327, 0x15F, 202),
  (0x53, 0x30C, 0x160, 230), (0x73, 0x30C, 0x161, 230), (0x54, 0x327, 0x162, 202), (0x74, 0x327, 0x163, 202),
  (0x54, 0x30C, 0x164, 230), (0x74, 0x30C, 0x165, 230), (0x55, 0x303, 0x168, 230), (0x75, 0x303, 0x169, 230),
  (0x55, 0x304, 0x16A, 230), (0x75, 0x304, 0x16B, 230), (0x55, 0x306, 0x16C, 230), (0x75, 0x306, 0x16D, 230),
  (0x55, 0x30A, 0x16E, 230), (0x75, 0x30A, 0x16F, 230), (0x55, 0x30B, 0x170, 230), (0x75, 0x30B, 0x171, 230),
  (0x55, 0x328, 0x172, 202), (0x75, 0x328, 0x173, 202), (0x57, 0x302, 0x174, 230), (0x77, 0x302, 0x175, 230),
  (0x59, 0x302, 0x176, 230), (0x79, 0x302, 0x177, 230), (0x59, 0x308, 0x178, 230), (0x5A, 0x301, 0x179, 230),
  (0x7A, 0x301, 0x17A, 230), (0x5A, 0x307, 0x17B, 230), (0x7A, 0x307, 0x17C, 230), (0x5A, 0x30C, 0x17D, 230),
  (0x7A, 0x30C, 0x17E, 230), (0x4F, 0x31B, 0x1A0, 216), (0x6F, 0x31B, 0x1A1, 216), (0x55, 0x31B, 0x1AF, 216),
  (0x75, 0x31B, 0x1B0, 216), (0x41, 0x30C, 0x1CD, 230), (0x61, 0x30C, 0x1CE, 230), (0x49, 0x30C, 0x1CF, 230),
  (0x69, 0x30C, 0x1D0, 230), (0x4F, 0x30C, 0x1D1, 230), (0x6F, 0x30C, 0x1D2, 230), (0x55, 0x30C, 0x1D3, 230),
  (0x75, 0x30C, 0x1D4, 230), (0xDC, 0x304, 0x1D5, 230), (0xFC, 0x304, 0x1D6, 230), (0xDC, 0x301, 0x1D7, 230),
  (0xFC, 0x301, 0x1D8, 230), (0xDC, 0x30C, 0x1D9, 230), (0xFC, 0x30C, 0x1DA, 230), (0xDC, 0x300, 0x1DB, 230),
  (0xFC, 0x300, 0x1DC, 230), (0xC4, 0x304, 0x1DE, 230), (0xE4, 0x304, 0x1DF, 230), (0x226, 0x304, 0x1E0, 230),
  (0x227, 0x304, 0x1E1, 230), (0xC6, 0x304, 0x1E2, 230), (0xE6, 0x304, 0x1E3, 230), (0x47, 0x30C, 0x1E6, 230),
  (0x67, 0x30C, 0x1E7, 230), (0x4B, 0x30C, 0x1E8, 230), (0x6B, 0x30C, 0x1E9, 230), (0x4F, 0x328, 0x1EA, 202),
  (0x6F, 0x328, 0x1EB, 202), (0x1EA, 0x304, 0x1EC, 230), (0x1EB, 0x304, 0x1ED, 230), (0x1B7, 0x30C, 0x1EE, 230),
  (0x292, 0x30C, 0x1EF, 230), (0x6A, 0x30C, 0x1F0, 230), (0x47, 0x301, 0x1F4, 230), (0x67, 0x301, 0x1F5, 230),
  (0x4E, 0x300, 0x1F8, 230), (0x6E, 0x300, 0x1F9, 230), (0xC5, 0x301, 0x1FA, 230), (0xE5, 0x301, 0x1FB, 230),
  (0xC6, 0x301, 0x1FC, 230), (0xE6, 0x301, 0x1FD, 230), (0xD8, 0x301, 0x1FE, 230), (0xF8, 0x301, 0x1FF, 230),
  (0x41, 0x30F, 0x200, 230), (0x61, 0x30F, 0x201, 230), (0x41, 0x311, 0x202, 230), (0x61, 0x311, 0x203, 230),
  (0x45, 0x30F, 0x204, 230), (0x65, 0x30F, 0x205, 230), (0x45, 0x311, 0x206, 230), (0x65, 0x311, 0x207, 230),
  (0x49, 0x30F, 0x208, 230), (0x69, 0x30F, 0x209, 230), (0x49, 0x311, 0x20A, 230), (0x69, 0x311, 0x20B, 230),
  (0x4F, 0x30F, 0x20C, 230), (0x6F, 0x30F, 0x20D, 230), (0x4F, 0x311, 0x20E, 230), (0x6F, 0x311, 0x20F, 230),
  (0x52, 0x30F, 0x210, 230), (0x72, 0x30F, 0x211, 230), (0x52, 0x311, 0x212, 230), (0x72, 0x311, 0x213, 230),
  (0x55, 0x30F, 0x214, 230), (0x75, 0x30F, 0x215, 230), (0x55, 0x311, 0x216, 230), (0x75, 0x311, 0x217, 230),
  (0x53, 0x326, 0x218, 220), (0x73, 0x326, 0x219, 220), (0x54, 0x326, 0x21A, 220), (0x74, 0x326, 0x21B, 220),
  (0x48, 0x30C, 0x21E, 230), (0x68, 0x30C, 0x21F, 230), (0x41, 0x307, 0x226, 230), (0x61, 0x307, 0x227, 230),
  (0x45, 0x327, 0x228, 202), (0x65, 0x327, 0x229, 202), (0xD6, 0x304, 0x22A, 230), (0xF6, 0x304, 0x22B, 230),
  (0xD5, 0x304, 0x22C, 230), (0xF5, 0x304, 0x22D, 230), (0x4F, 0x307, 0x22E, 230), (0x6F, 0x307, 0x22F, 230),
  (0x22E, 0x304, 0x230, 230), (0x22F, 0x304, 0x231, 230), (0x59, 0x304, 0x232, 230), (0x79, 0x304, 0x233, 230),
  (0xA8, 0x301, 0x385, 230), (0x391, 0x301, 0x386, 230), (0x395, 0x301, 0x388, 230), (0x397, 0x301, 0x389, 230),
  (0x399, 0x301, 0x38A, 230), (0x39F, 0x301, 0x38C, 230), (0x3A5, 0x301, 0x38E, 230), (0x3A9, 0x301, 0x38F, 230),
  (0x3CA, 0x301, 0x390, 230), (0x399, 0x308, 0x3AA, 230), (0x3A5, 0x308, 0x3AB, 230), (0x3B1, 0x301, 0x3AC, 230),
  (0x3B5, 0x301, 0x3AD, 230), (0x3B7, 0x301, 0x3AE, 230), (0x3B9, 0x301, 0x3AF, 230), (0x3CB, 0x301, 0x3B0, 230),
  (0x3B9, 0x308, 0x3CA, 230), (0x3C5, 0x308, 0x3CB, 230), (0x3BF, 0x301, 0x3CC, 230), (0x3C5, 0x301, 0x3CD, 230),
  (0x3C9, 0x301, 0x3CE, 230), (0x3D2, 0x301, 0x3D3, 230), (0x3D2, 0x308, 0x3D4, 230), (0x415, 0x300, 0x400, 230),
  (0x415, 0x308, 0x401, 230), (0x413, 0x301, 0x403, 230), (0x406, 0x308, 0x407, 230), (0x41A, 0x301, 0x40C, 230),
  (0x418, 0x300, 0x40D, 230), (0x423, 0x306, 0x40E, 230), (0x418, 0x306, 0x419, 230), (0x438, 0x306, 0x439, 230),
  (0x435, 0x300, 0x450, 230), (0x435, 0x308, 0x451, 230), (0x433, 0x301, 0x453, 230), (0x456, 0x308, 0x457, 230),
  (0x43A, 0x301, 0x45C, 230), (0x438, 0x300, 0x45D, 230), (0x443, 0x306, 0x45E, 230), (0x474, 0x30F, 0x476, 230),
  (0x475, 0x30F, 0x477, 230), (0x416, 0x306, 0x4C1, 230), (0x436, 0x306, 0x4C2, 230), (0x410, 0x306, 0x4D0, 230),
  (0x430, 0x306, 0x4D1, 230), (0x410, 0x308, 0x4D2, 230), (0x430, 0x308, 0x4D3, 230), (0x415, 0x306, 0x4D6, 230),
  (0x435, 0x306, 0x4D7, 230), (0x4D8, 0x308, 0x4DA, 230), (0x4D9, 0x308, 0x4DB, 230), (0x416, 0x308, 0x4DC, 230),
  (0x436, 0x308, 0x4DD, 230), (0x417, 0x308, 0x4DE, 230), (0x437, 0x308, 0x4DF, 230), (0x418, 0x304, 0x4E2, 230),
  (0x438, 0x304, 0x4E3, 230), (0x418, 0x308, 0x4E4, 230), (0x438, 0x308, 0x4E5, 230), (0x41E, 0x308, 0x4E6, 230),
  (0x43E, 0x308, 0x4E7, 230), (0x4E8, 0x308, 0x4EA, 230), (0x4E9, 0x308, 0x4EB, 230), (0x42D, 0x308, 0x4EC, 230),
  (0x44D, 0x308, 0x4ED, 230), (0x423, 0x304, 0x4EE, 230), (0x443, 0x304, 0x4EF, 230), (0x423, 0x308, 0x4F0, 230),
  (0x443, 0x308, 0x4F1, 230), (0x423, 0x30B, 0x4F2, 230), (0x443, 0x30B, 0x4F3, 230), (0x427, 0x308, 0x4F4, 230),
  (0x447, 0x308, 0x4F5, 230), (0x42B, 0x308, 0x4F8, 230), (0x44B, 0x308, 0x4F9, 230), (0x627, 0x653, 0x622, 230),
  (0x627, 0x654, 0x623, 230), (0x648, 0x654, 0x624, 230), (0x627, 0x655, 0x625, 220), (0x64A, 0x654, 0x626, 230),
  (0x6D5, 0x654, 0x6C0, 230), (0x6C1, 0x654, 0x6C2, 230), (0x6D2, 0x654, 0x6D3, 230), (0x928, 0x93C, 0x929, 7),
  (0x930, 0x93C, 0x931, 7), (0x933, 0x93C, 0x934, 7), (0x9C7, 0x9BE, 0x9CB, 0), (0x9C7, 0x9D7, 0x9CC, 0),
  (0xB47, 0xB56, 0xB48, 0), (0xB47, 0xB3E, 0xB4B, 0), (0xB47, 0xB57, 0xB4C, 0), (0xB92, 0xBD7, 0xB94, 0),
  (0xBC6, 0xBBE, 0xBCA, 0), (0xBC7, 0xBBE, 0xBCB, 0), (0xBC6, 0xBD7, 0xBCC, 0), (0xC46, 0xC56, 0xC48, 91),
  (0xCBF, 0xCD5, 0xCC0, 0), (0xCC6, 0xCD5, 0xCC7, 0), (0xCC6, 0xCD6, 0xCC8, 0), (0xCC6, 0xCC2, 0xCCA, 0),
  (0xCCA, 0xCD5, 0xCCB, 0), (0xD46, 0xD3E, 0xD4A, 0), (0xD47, 0xD3E, 0xD4B, 0), (0xD46, 0xD57, 0xD4C, 0),
  (0xDD9, 0xDCA, 0xDDA, 9), (0xDD9, 0xDCF, 0xDDC, 0), (0xDDC, 0xDCA, 0xDDD, 9), (0xDD9, 0xDDF, 0xDDE, 0),
  (0x1025, 0x102E, 0x1026, 0), (0x1B05, 0x1B35, 0x1B06, 0), (0x1B07, 0x1B35, 0x1B08, 0), (0x1B09, 0x1B35, 0x1B0A, 0),
  (0x1B0B, 0x1B35, 0x1B0C, 0), (0x1B0D, 0x1B35, 0x1B0E, 0), (0x1B11, 0x1B35, 0x1B12, 0), (0x1B3A, 0x1B35, 0x1B3B, 0),
  (0x1B3C, 0x1B35, 0x1B3D, 0), (0x1B3E, 0x1B35, 0x1B40, 0), (0x1B3F, 0x1B35, 0x1B41, 0), (0x1B42, 0x1B35, 0x1B43, 0),
  (0x41, 0x325, 0x1E00, 220), (0x61, 0x325, 0x1E01, 220), (0x42, 0x307, 0x1E02, 230), (0x62, 0x307, 0x1E03, 230),
  (0x42, 0x323, 0x1E04, 220), (0x62, 0x323, 0x1E05, 220), (0x42, 0x331, 0x1E06, 220), (0x62, 0x331, 0x1E07, 220),
  (0xC7, 0x301, 0x1E08, 230), (0xE7, 0x301, 0x1E09, 230), (0x44, 0x307, 0x1E0A, 230), (0x64, 0x307, 0x1E0B, 230),
  (0x44, 0x323, 0x1E0C, 220), (0x64, 0x323, 0x1E0D, 220), (0x44, 0x331, 0x1E0E, 220), (0x64, 0x331, 0x1E0F, 220),
  (0x44, 0x327, 0x1E10, 202), (0x64, 0x327, 0x1E11, 202), (0x44, 0x32D, 0x1E12, 220), (0x64, 0x32D, 0x1E13, 220),
  (0x112, 0x300, 0x1E14, 230), (0x113, 0x300, 0x1E15, 230), (0x112, 0x301, 0x1E16, 230), (0x113, 0x301, 0x1E17, 230),
  (0x45, 0x32D, 0x1E18, 220), (0x65, 0x32D, 0x1E19, 220), (0x45, 0x330, 0x1E1A, 220), (0x65, 0x330, 0x1E1B, 220),
  (0x228, 0x306, 0x1E1C, 230), (0x229, 0x306, 0x1E1D, 230), (0x46, 0x307, 0x1E1E, 230), (0x66, 0x307, 0x1E1F, 230),
  (0x47, 0x304, 0x1E20, 230), (0x67, 0x304, 0x1E21, 230), (0x48, 0x307, 0x1E22, 230), (0x68, 0x307, 0x1E23, 230),
  (0x48, 0x323, 0x1E24, 220), (0x68, 0x323, 0x1E25, 220), (0x48, 0x308, 0x1E26, 230), (0x68, 0x308, 0x1E27, 230),
  (0x48, 0x327, 0x1E28, 202), (0x68, 0x327, 0x1E29, 202), (0x48, 0x32E, 0x1E2A, 220), (0x68, 0x32E, 0x1E2B, 220),
  (0x49, 0x330, 0x1E2C, 220), (0x69, 0x330, 0x1E2D, 220), (0xCF, 0x301, 0x1E2E, 230), (0xEF, 0x301, 0x1E2F, 230),
  (0x4B, 0x301, 0x1E30, 230), (0x6B, 0x301, 0x1E31, 230), (0x4B, 0x323, 0x1E32, 220), (0x6B, 0x323, 0x1E33, 220),
  (0x4B, 0x331, 0x1E34, 220), (0x6B, 0x331, 0x1E35, 220), (0x4C, 0x323, 0x1E36, 220), (0x6C, 0x323, 0x1E37, 220),
  (0x1E36, 0x304, 0x1E38, 230), (0x1E37, 0x304, 0x1E39, 230), (0x4C, 0x331, 0x1E3A, 220), (0x6C, 0x331, 0x1E3B, 220),
  (0x4C, 0x32D, 0x1E3C, 220), (0x6C, 0x32D, 0x1E3D, 220), (0x4D, 0x301, 0x1E3E, 230), (0x6D, 0x301, 0x1E3F, 230),
  (0x4D, 0x307, 0x1E40, 230), (0x6D, 0x307, 0x1E41, 230), (0x4D, 0x323, 0x1E42, 220), (0x6D, 0x323, 0x1E43, 220),
  (0x4E, 0x307, 0x1E44, 230), (0x6E, 0x307, 0x1E45, 230), (0x4E, 0x323, 0x1E46, 220), (0x6E, 0x323, 0x1E47, 220),
  (0x4E, 0x331, 0x1E48, 220), (0x6E, 0x331, 0x1E49, 220), (0x4E, 0x32D, 0x1E4A, 220), (0x6E, 0x32D, 0x1E4B, 220),
  (0xD5, 0x301, 0x1E4C, 230), (0xF5, 0x301, 0x1E4D, 230), (0xD5, 0x308, 0x1E4E, 230), (0xF5, 0x308, 0x1E4F, 230),
  (0x14C, 0x300, 0x1E50, 230), (0x14D, 0x300, 0x1E51, 230), (0x14C, 0x301, 0x1E52, 230), (0x14D, 0x301, 0x1E53, 230),
  (0x50, 0x301, 0x1E54, 230), (0x70, 0x301, 0x1E55, 230), (0x50, 0x307, 0x1E56, 230), (0x70, 0x307, 0x1E57, 230),
  (0x52, 0x307, 0x1E58, 230), (0x72, 0x307, 0x1E59, 230), (0x52, 0x323, 0x1E5A, 220), (0x72, 0x323, 0x1E5B, 220),
  (0x1E5A, 0x304, 0x1E5C, 230), (0x1E5B, 0x304, 0x1E5D, 230), (0x52, 0x331, 0x1E5E, 220), (0x72, 0x331, 0x1E5F, 220),
  (0x53, 0x307, 0x1E60, 230), (0x73, 0x307, 0x1E61, 230), (0x53, 0x323, 0x1E62, 220), (0x73, 0x323, 0x1E63, 220),
  (0x15A, 0x307, 0x1E64, 230), (0x15B, 0x307, 0x1E65, 230), (0x160, 0x307, 0x1E66, 230), (0x161, 0x307, 0x1E67, 230),
  (0x1E62, 0x307, 0x1E68, 230), (0x1E63, 0x307, 0x1E69, 230), (0x54, 0x307, 0x1E6A, 230), (0x74, 0x307, 0x1E6B, 230),
  (0x54, 0x323, 0x1E6C, 220), (0x74, 0x323, 0x1E6D, 220), (0x54, 0x331, 0x1E6E, 220), (0x74, 0x331, 0x1E6F, 220),
  (0x54, 0x32D, 0x1E70, 220), (0x74, 0x32D, 0x1E71, 220), (0x55, 0x324, 0x1E72, 220), (0x75, 0x324, 0x1E73, 220),
  (0x55, 0x330, 0x1E74, 220), (0x75, 0x330, 0x1E75, 220), (0x55, 0x32D, 0x1E76, 220), (0x75, 0x32D, 0x1E77, 220),
  (0x168, 0x301, 0x1E78, 230), (0x169, 0x301, 0x1E79, 230), (0x16A, 0x308, 0x1E7A, 230), (0x16B, 0x308, 0x1E7B, 230),
  (0x56, 0x303, 0x1E7C, 230), (0x76, 0x303, 0x1E7D, 230), (0x56, 0x323, 0x1E7E, 220), (0x76, 0x323, 0x1E7F, 220),
  (0x57, 0x300, 0x1E80, 230), (0x77, 0x300, 0x1E81, 230), (0x57, 0x301, 0x1E82, 230), (0x77, 0x301, 0x1E83, 230),
  (0x57, 0x308, 0x1E84, 230), (0x77, 0x308, 0x1E85, 230), (0x57, 0x307, 0x1E86, 230), (0x77, 0x307, 0x1E87, 230),
  (0x57, 0x323, 0x1E88, 220), (0x77, 0x323, 0x1E89, 220), (0x58, 0x307, 0x1E8A, 230), (0x78, 0x307, 0x1E8B, 230),
  (0x58, 0x308, 0x1E8C, 230), (0x78, 0x308, 0x1E8D, 230), (0x59, 0x307, 0x1E8E, 230), (0x79, 0x307, 0x1E8F, 230),
  (0x5A, 0x302, 0x1E90, 230), (0x7A, 0x302, 0x1E91, 230), (0x5A, 0x323, 0x1E92, 220), (0x7A, 0x323, 0x1E93, 220),
  (0x5A, 0x331, 0x1E94, 220), (0x7A, 0x331, 0x1E95, 220), (0x68, 0x331, 0x1E96, 220), (0x74, 0x308, 0x1E97, 230),
  (0x77, 0x30A, 0x1E98, 230), (0x79, 0x30A, 0x1E99, 230), (0x17F, 0x307, 0x1E9B, 230), (0x41, 0x323, 0x1EA0, 220),
  (0x61, 0x323, 0x1EA1, 220), (0x41, 0x309, 0x1EA2, 230), (0x61, 0x309, 0x1EA3, 230), (0xC2, 0x301, 0x1EA4, 230),
  (0xE2, 0x301, 0x1EA5, 230), (0xC2, 0x300, 0x1EA6, 230), (0xE2, 0x300, 0x1EA7, 230), (0xC2, 0x309, 0x1EA8, 230),
  (0xE2, 0x309, 0x1EA9, 230), (0xC2, 0x303, 0x1EAA, 230), (0xE2, 0x303, 0x1EAB, 230), (0x1EA0, 0x302, 0x1EAC, 230),
  (0x1EA1, 0x302, 0x1EAD, 230), (0x102, 0x301, 0x1EAE, 230), (0x103, 0x301, 0x1EAF, 230), (0x102, 0x300, 0x1EB0, 230),
  (0x103, 0x300, 0x1EB1, 230), (0x102, 0x309, 0x1EB2, 230), (0x103, 0x309, 0x1EB3, 230), (0x102, 0x303, 0x1EB4, 230),
  (0x103, 0x303, 0x1EB5, 230), (0x1EA0, 0x306, 0x1EB6, 230), (0x1EA1, 0x306, 0x1EB7, 230), (0x45, 0x323, 0x1EB8, 220),
  (0x65, 0x323, 0x1EB9, 220), (0x45, 0x309, 0x1EBA, 230), (0x65, 0x309, 0x1EBB, 230), (0x45, 0x303, 0x1EBC, 230),
  (0x65, 0x303, 0x1EBD, 230), (0xCA, 0x301, 0x1EBE, 230), (0xEA, 0x301, 0x1EBF, 230), (0xCA, 0x300, 0x1EC0, 230),
  (0xEA, 0x300, 0x1EC1, 230), (0xCA, 0x309, 0x1EC2, 230), (0xEA, 0x309, 0x1EC3, 230), (0xCA, 0x303, 0x1EC4, 230),
  (0xEA, 0x303, 0x1EC5, 230), (0x1EB8, 0x302, 0x1EC6, 230), (0x1EB9, 0x302, 0x1EC7, 230), (0x49, 0x309, 0x1EC8, 230),
  (0x69, 0x309, 0x1EC9, 230), (0x49, 0x323, 0x1ECA, 220), (0x69, 0x323, 0x1ECB, 220), (0x4F, 0x323, 0x1ECC, 220),
  (0x6F, 0x323, 0x1ECD, 220), (0x4F, 0x309, 0x1ECE, 230), (0x6F, 0x309, 0x1ECF, 230), (0xD4, 0x301, 0x1ED0, 230),
  (0xF4, 0x301, 0x1ED1, 230), (0xD4, 0x300, 0x1ED2, 230), (0xF4, 0x300, 0x1ED3, 230), (0xD4, 0x309, 0x1ED4, 230),
  (0xF4, 0x309, 0x1ED5, 230), (0xD4, 0x303, 0x1ED6, 230), (0xF4, 0x303, 0x1ED7, 230), (0x1ECC, 0x302, 0x1ED8, 230),
  (0x1ECD, 0x302, 0x1ED9, 230), (0x1A0, 0x301, 0x1EDA, 230), (0x1A1, 0x301, 0x1EDB, 230), (0x1A0, 0x300, 0x1EDC, 230),
  (0x1A1, 0x300, 0x1EDD, 230), (0x1A0, 0x309, 0x1EDE, 230), (0x1A1, 0x309, 0x1EDF, 230), (0x1A0, 0x303, 0x1EE0, 230),
  (0x1A1, 0x303, 0x1EE1, 230), (0x1A0, 0x323, 0x1EE2, 220), (0x1A1, 0x323, 0x1EE3, 220), (0x55, 0x323, 0x1EE4, 220),
  (0x75, 0x323, 0x1EE5, 220), (0x55, 0x309, 0x1EE6, 230), (0x75, 0x309, 0x1EE7, 230), (0x1AF, 0x301, 0x1EE8, 230),
  (0x1B0, 0x301, 0x1EE9, 230), (0x1AF, 0x300, 0x1EEA, 230), (0x1B0, 0x300, 0x1EEB, 230), (0x1AF, 0x309, 0x1EEC, 230),
  (0x1B0, 0x309, 0x1EED, 230), (0x1AF, 0x303, 0x1EEE, 230), (0x1B0, 0x303, 0x1EEF, 230), (0x1AF, 0x323, 0x1EF0, 220),
  (0x1B0, 0x323, 0x1EF1, 220), (0x59, 0x300, 0x1EF2, 230), (0x79, 0x300, 0x1EF3, 230), (0x59, 0x323, 0x1EF4, 220),
  (0x79, 0x323, 0x1EF5, 220), (0x59, 0x309, 0x1EF6, 230), (0x79, 0x309, 0x1EF7, 230), (0x59, 0x303, 0x1EF8, 230),
  (0x79, 0x303, 0x1EF9, 230), (0x3B1, 0x313, 0x1F00, 230), (0x3B1, 0x314, 0x1F01, 230), (0x1F00, 0x300, 0x1F02, 230),
  (0x1F01, 0x300, 0x1F03, 230), (0x1F00, 0x301, 0x1F04, 230), (0x1F01, 0x301, 0x1F05, 230), (0x1F00, 0x342, 0x1F06, 230),
  (0x1F01, 0x342, 0x1F07, 230), (0x391, 0x313, 0x1F08, 230), (0x391, 0x314, 0x1F09, 230), (0x1F08, 0x300, 0x1F0A, 230),
  (0x1F09, 0x300, 0x1F0B, 230), (0x1F08, 0x301, 0x1F0C, 230), (0x1F09, 0x301, 0x1F0D, 230), (0x1F08, 0x342, 0x1F0E, 230),
  (0x1F09, 0x342, 0x1F0F, 230), (0x3B5, 0x313, 0x1F10, 230), (0x3B5, 0x314, 0x1F11, 230), (0x1F10, 0x300, 0x1F12, 230),
  (0x1F11, 0x300, 0x1F13, 230), (0x1F10, 0x301, 0x1F14, 230), (0x1F11, 0x301, 0x1F15, 230), (0x395, 0x313, 0x1F18, 230),
  (0x395, 0x314, 0x1F19, 230), (0x1F18, 0x300, 0x1F1A, 230), (0x1F19, 0x300, 0x1F1B, 230), (0x1F18, 0x301, 0x1F1C, 230),
  (0x1F19, 0x301, 0x1F1D, 230), (0x3B7, 0x313, 0x1F20, 230), (0x3B7, 0x314, 0x1F21, 230), (0x1F20, 0x300, 0x1F22, 230),
  (0x1F21, 0x300, 0x1F23, 230), (0x1F20, 0x301, 0x1F24, 230), (0x1F21, 0x301, 0x1F25, 230), (0x1F20, 0x342, 0x1F26, 230),
  (0x1F21, 0x342, 0x1F27, 230), (0x397, 0x313, 0x1F28, 230), (0x397, 0x314, 0x1F29, 230), (0x1F28, 0x300, 0x1F2A, 230),
  (0x1F29, 0x300, 0x1F2B, 230), (0x1F28, 0x301, 0x1F2C, 230), (0x1F29, 0x301, 0x1F2D, 230), (0x1F28, 0x342, 0x1F2E, 230),
  (0x1F29, 0x342, 0x1F2F, 230), (0x3B9, 0x313, 0x1F30, 230), (0x3B9, 0x314, 0x1F31, 230), (0x1F30, 0x300, 0x1F32, 230),
  (0x1F31, 0x300, 0x1F33, 230), (0x1F30, 0x301, 0x1F34, 230), (0x1F31, 0x301, 0x1F35, 230), (0x1F30, 0x342, 0x1F36, 230),
  (0x1F31, 0x342, 0x1F37, 230), (0x399, 0x313, 0x1F38, 230), (0x399, 0x314, 0x1F39, 230), (0x1F38, 0x300, 0x1F3A, 230),
  (0x1F39, 0x300, 0x1F3B, 230), (0x1F38, 0x301, 0x1F3C, 230), (0x1F39, 0x301, 0x1F3D, 230), (0x1F38, 0x342, 0x1F3E, 230),
  (0x1F39, 0x342, 0x1F3F, 230), (0x3BF, 0x313, 0x1F40, 230), (0x3BF, 0x314, 0x1F41, 230), (0x1F40, 0x300, 0x1F42, 230),
  (0x1F41, 0x300, 0x1F43, 230), (0x1F40, 0x301, 0x1F44, 230), (0x1F41, 0x301, 0x1F45, 230), (0x39F, 0x313, 0x1F48, 230),
  (0x39F, 0x314, 0x1F49, 230), (0x1F48, 0x300, 0x1F4A, 230), (0x1F49, 0x300, 0x1F4B, 230), (0x1F48, 0x301, 0x1F4C, 230),
  (0x1F49, 0x301, 0x1F4D, 230), (0x3C5, 0x313, 0x1F50, 230), (0x3C5, 0x314, 0x1F51, 230), (0x1F50, 0x300, 0x1F52, 230),
  (0x1F51, 0x300, 0x1F53, 230), (0x1F50, 0x301, 0x1F54, 230), (0x1F51, 0x301, 0x1F55, 230), (0x1F50, 0x342, 0x1F56, 230),
  (0x1F51, 0x342, 0x1F57, 230), (0x3A5, 0x314, 0x1F59, 230), (0x1F59, 0x300, 0x1F5B, 230), (0x1F59, 0x301, 0x1F5D, 230),
  (0x1F59, 0x342, 0x1F5F, 230), (0x3C9, 0x313, 0x1F60, 230), (0x3C9, 0x314, 0x1F61, 230), (0x1F60, 0x300, 0x1F62, 230),
  (0x1F61, 0x300, 0x1F63, 230), (0x1F60, 0x301, 0x1F64, 230), (0x1F61, 0x301, 0x1F65, 230), (0x1F60, 0x342, 0x1F66, 230),
  (0x1F61, 0x342, 0x1F67, 230), (0x3A9, 0x313, 0x1F68, 230), (0x3A9, 0x314, 0x1F69, 230), (0x1F68, 0x300, 0x1F6A, 230),
  (0x1F69, 0x300, 0x1F6B, 230), (0x1F68, 0x301, 0x1F6C, 230), (0x1F69, 0x301, 0x1F6D, 230), (0x1F68, 0x342, 0x1F6E, 230),
  (0x1F69, 0x342, 0x1F6F, 230), (0x3B1, 0x300, 0x1F70, 230), (0x3B5, 0x300, 0x1F72, 230), (0x3B7, 0x300, 0x1F74, 230),
  (0x3B9, 0x300, 0x1F76, 230), (0x3BF, 0x300, 0x1F78, 230), (0x3C5, 0x300, 0x1F7A, 230), (0x3C9, 0x300, 0x1F7C, 230),
  (0x1F00, 0x345, 0x1F80, 240), (0x1F01, 0x345, 0x1F81, 240), (0x1F02, 0x345, 0x1F82, 240), (0x1F03, 0x345, 0x1F83, 240),
  (0x1F04, 0x345, 0x1F84, 240), (0x1F05, 0x345, 0x1F85, 240), (0x1F06, 0x345, 0x1F86, 240), (0x1F07, 0x345, 0x1F87, 240),
  (0x1F08, 0x345, 0x1F88, 240), (0x1F09, 0x345, 0x1F89, 240), (0x1F0A, 0x345, 0x1F8A, 240), (0x1F0B, 0x345, 0x1F8B, 240),
  (0x1F0C, 0x345, 0x1F8C, 240), (0x1F0D, 0x345, 0x1F8D, 240), (0x1F0E, 0x345, 0x1F8E, 240), (0x1F0F, 0x345, 0x1F8F, 240),
  (0x1F20, 0x345, 0x1F90, 240), (0x1F21, 0x345, 0x1F91, 240), (0x1F22, 0x345, 0x1F92, 240), (0x1F23, 0x345, 0x1F93, 240),
  (0x1F24, 0x345, 0x1F94, 240), (0x1F25, 0x345, 0x1F95, 240), (0x1F26, 0x345, 0x1F96, 240), (0x1F27, 0x345, 0x1F97, 240),
  (0x1F28, 0x345, 0x1F98, 240), (0x1F29, 0x345, 0x1F99, 240), (0x1F2A, 0x345, 0x1F9A, 240), (0x1F2B, 0x345, 0x1F9B, 240),
  (0x1F2C, 0x345, 0x1F9C, 240), (0x1F2D, 0x345, 0x1F9D, 240), (0x1F2E, 0x345, 0x1F9E, 240), (0x1F2F, 0x345, 0x1F9F, 240),
  (0x1F60, 0x345, 0x1FA0, 240), (0x1F61, 0x345, 0x1FA1, 240), (0x1F62, 0x345, 0x1FA2, 240), (0x1F63, 0x345, 0x1FA3, 240),
  (0x1F64, 0x345, 0x1FA4, 240), (0x1F65, 0x345, 0x1FA5, 240), (0x1F66, 0x345, 0x1FA6, 240), (0x1F67, 0x345, 0x1FA7, 240),
  (0x1F68, 0x345, 0x1FA8, 240), (0x1F69, 0x345, 0x1FA9, 240), (0x1F6A, 0x345, 0x1FAA, 240), (0x1F6B, 0x345, 0x1FAB, 240),
  (0x1F6C, 0x345, 0x1FAC, 240), (0x1F6D, 0x345, 0x1FAD, 240), (0x1F6E, 0x345, 0x1FAE, 240), (0x1F6F, 0x345, 0x1FAF, 240),
  (0x3B1, 0x306, 0x1FB0, 230), (0x3B1, 0x304, 0x1FB1, 230), (0x1F70, 0x345, 0x1FB2, 240), (0x3B1, 0x345, 0x1FB3, 240),
  (0x3AC, 0x345, 0x1FB4, 240), (0x3B1, 0x342, 0x1FB6, 230), (0x1FB6, 0x345, 0x1FB7, 240), (0x391, 0x306, 0x1FB8, 230),
  (0x391, 0x304, 0x1FB9, 230), (0x391, 0x300, 0x1FBA, 230), (0x391, 0x345, 0x1FBC, 240), (0xA8, 0x342, 0x1FC1, 230),
  (0x1F74, 0x345, 0x1FC2, 240), (0x3B7, 0x345, 0x1FC3, 240), (0x3AE, 0x345, 0x1FC4, 240), (0x3B7, 0x342, 0x1FC6, 230),
  (0x1FC6, 0x345, 0x1FC7, 240), (0x395, 0x300, 0x1FC8, 230), (0x397, 0x300, 0x1FCA, 230), (0x397, 0x345, 0x1FCC, 240),
  (0x1FBF, 0x300, 0x1FCD, 230), (0x1FBF, 0x301, 0x1FCE, 230), (0x1FBF, 0x342, 0x1FCF, 230), (0x3B9, 0x306, 0x1FD0, 230),
  (0x3B9, 0x304, 0x1FD1, 230), (0x3CA, 0x300, 0x1FD2, 230), (0x3B9, 0x342, 0x1FD6, 230), (0x3CA, 0x342, 0x1FD7, 230),
  (0x399, 0x306, 0x1FD8, 230), (0x399, 0x304, 0x1FD9, 230), (0x399, 0x300, 0x1FDA, 230), (0x1FFE, 0x300, 0x1FDD, 230),
  (0x1FFE, 0x301, 0x1FDE, 230), (0x1FFE, 0x342, 0x1FDF, 230), (0x3C5, 0x306, 0x1FE0, 230), (0x3C5, 0x304, 0x1FE1, 230),
  (0x3CB, 0x300, 0x1FE2, 230), (0x3C1, 0x313, 0x1FE4, 230), (0x3C1, 0x314, 0x1FE5, 230), (0x3C5, 0x342, 0x1FE6, 230),
  (0x3CB, 0x342, 0x1FE7, 230), (0x3A5, 0x306, 0x1FE8, 230), (0x3A5, 0x304, 0x1FE9, 230), (0x3A5, 0x300, 0x1FEA, 230),
  (0x3A1, 0x314, 0x1FEC, 230), (0xA8, 0x300, 0x1FED, 230), (0x1F7C, 0x345, 0x1FF2, 240), (0x3C9, 0x345, 0x1FF3, 240),
  (0x3CE, 0x345, 0x1FF4, 240), (0x3C9, 0x342, 0x1FF6, 230), (0x1FF6, 0x345, 0x1FF7, 240), (0x39F, 0x300, 0x1FF8, 230),
  (0x3A9, 0x300, 0x1FFA, 230), (0x3A9, 0x345, 0x1FFC, 240), (0x2190, 0x338, 0x219A, 1), (0x2192, 0x338, 0x219B, 1),
  (0x2194, 0x338, 0x21AE, 1), (0x21D0, 0x338, 0x21CD, 1), (0x21D4, 0x338, 0x21CE, 1), (0x21D2, 0x338, 0x21CF, 1),
  (0x2203, 0x338, 0x2204, 1), (0x2208, 0x338, 0x2209, 1), (0x220B, 0x338, 0x220C, 1), (0x2223, 0x338, 0x2224, 1),
  (0x2225, 0x338, 0x2226, 1), (0x223C, 0x338, 0x2241, 1), (0x2243, 0x338, 0x2244, 1), (0x2245, 0x338, 0x2247, 1),
  (0x2248, 0x338, 0x2249, 1), (0x3D, 0x338, 0x2260, 1), (0x2261, 0x338, 0x2262, 1), (0x224D, 0x338, 0x226D, 1),
  (0x3C, 0x338, 0x226E, 1), (0x3E, 0x338, 0x226F, 1), (0x2264, 0x338, 0x2270, 1), (0x2265, 0x338, 0x2271, 1),
  (0x2272, 0x338, 0x2274, 1), (0x2273, 0x338, 0x2275, 1), (0x2276, 0x338, 0x2278, 1), (0x2277, 0x338, 0x2279, 1),
  (0x227A, 0x338, 0x2280, 1), (0x227B, 0x338, 0x2281, 1), (0x2282, 0x338, 0x2284, 1), (0x2283, 0x338, 0x2285, 1),
  (0x2286, 0x338, 0x2288, 1), (0x2287, 0x338, 0x2289, 1), (0x22A2, 0x338, 0x22AC, 1), (0x22A8, 0x338, 0x22AD, 1),
  (0x22A9, 0x338, 0x22AE, 1), (0x22AB, 0x338, 0x22AF, 1), (0x227C, 0x338, 0x22E0, 1), (0x227D, 0x338, 0x22E1, 1),
  (0x2291, 0x338, 0x22E2, 1), (0x2292, 0x338, 0x22E3, 1), (0x22B2, 0x338, 0x22EA, 1), (0x22B3, 0x338, 0x22EB, 1),
  (0x22B4, 0x338, 0x22EC, 1), (0x22B5, 0x338, 0x22ED, 1), (0x304B, 0x3099, 0x304C, 8), (0x304D, 0x3099, 0x304E, 8),
  (0x304F, 0x3099, 0x3050, 8), (0x3051, 0x3099, 0x3052, 8), (0x3053, 0x3099, 0x3054, 8), (0x3055, 0x3099, 0x3056, 8),
  (0x3057, 0x3099, 0x3058, 8), (0x3059, 0x3099, 0x305A, 8), (0x305B, 0x3099, 0x305C, 8), (0x305D, 0x3099, 0x305E, 8),
  (0x305F, 0x3099, 0x3060, 8), (0x3061, 0x3099, 0x3062, 8), (0x3064, 0x3099, 0x3065, 8), (0x3066, 0x3099, 0x3067, 8),
  (0x3068, 0x3099, 0x3069, 8), (0x306F, 0x3099, 0x3070, 8), (0x306F, 0x309A, 0x3071, 8), (0x3072, 0x3099, 0x3073, 8),
  (0x3072, 0x309A, 0x3074, 8), (0x3075, 0x3099, 0x3076, 8), (0x3075, 0x309A, 0x3077, 8), (0x3078, 0x3099, 0x3079, 8),
  (0x3078, 0x309A, 0x307A, 8), (0x307B, 0x3099, 0x307C, 8), (0x307B, 0x309A, 0x307D, 8), (0x3046, 0x3099, 0x3094, 8),
  (0x309D, 0x3099, 0x309E, 8), (0x30AB, 0x3099, 0x30AC, 8), (0x30AD, 0x3099, 0x30AE, 8), (0x30AF, 0x3099, 0x30B0, 8),
  (0x30B1, 0x3099, 0x30B2, 8), (0x30B3, 0x3099, 0x30B4, 8), (0x30B5, 0x3099, 0x30B6, 8), (0x30B7, 0x3099, 0x30B8, 8),
  (0x30B9, 0x3099, 0x30BA, 8), (0x30BB, 0x3099, 0x30BC, 8), (0x30BD, 0x3099, 0x30BE, 8), (0x30BF, 0x3099, 0x30C0, 8),
  (0x30C1, 0x3099, 0x30C2, 8), (0x30C4, 0x3099, 0x30C5, 8), (0x30C6, 0x3099, 0x30C7, 8), (0x30C8, 0x3099, 0x30C9, 8),
  (0x30CF, 0x3099, 0x30D0, 8), (0x30CF, 0x309A, 0x30D1, 8), (0x30D2, 0x3099, 0x30D3, 8), (0x30D2, 0x309A, 0x30D4, 8),
  (0x30D5, 0x3099, 0x30D6, 8), (0x30D5, 0x309A, 0x30D7, 8), (0x30D8, 0x3099, 0x30D9, 8), (0x30D8, 0x309A, 0x30DA, 8),
  (0x30DB, 0x3099, 0x30DC, 8), (0x30DB, 0x309A, 0x30DD, 8), (0x30A6, 0x3099, 0x30F4, 8), (0x30EF, 0x3099, 0x30F7, 8),
  (0x30F0, 0x3099, 0x30F8, 8), (0x30F1, 0x3099, 0x30F9, 8), (0x30F2, 0x3099, 0x30FA, 8), (0x30FD, 0x3099, 0x30FE, 8),
  (0x11099, 0x110BA, 0x1109A, 7), (0x1109B, 0x110BA, 0x1109C, 7), (0x110A5, 0x110BA, 0x110AB, 7), (0x11131, 0x11127, 0x1112E, 0),
  (0x11132, 0x11127, 0x1112F, 0), (0x11347, 0x1133E, 0x1134B, 0), (0x11347, 0x11357, 0x1134C, 0), (0x114B9, 0x114BA, 0x114BB, 0),
  (0x114B9, 0x114B0, 0x114BC, 0), (0x114B9, 0x114BD, 0x114BE, 0), (0x115B8, 0x115AF, 0x115BA, 0), (0x115B9, 0x115AF, 0x115BB, 0),
  (0x11935, 0x11930, 0x11938, 0)]

end Verif.Nfc
