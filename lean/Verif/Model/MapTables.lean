import Verif.Spec.MapTable
/-
Generated by tools/maptables.py from rule files of /repo/modules/inter.
-/
namespace Verif.MapTable
open Verif.Spec

set_option maxRecDepth 100000

/-- The rules of /repo/modules/inter/LOWER.txt in the order of the file: `01k 01v,01v..` as (k, [v, v..]), by the upper bytes of k.
(A first line `Source: ...`, which is not a comment, is left out here: see `Aside`.) -/
def lower : Pages := [
  (0x0, [
    (0x41, [0x61]), (0x42, [0x62]), (0x43, [0x63]), (0x44, [0x64]), (0x45, [0x65]), (0x46, [0x66]),
    (0x47, [0x67]), (0x48, [0x68]), (0x49, [0x69]), (0x4A, [0x6A]), (0x4B, [0x6B]), (0x4C, [0x6C]),
    (0x4D, [0x6D]), (0x4E, [0x6E]), (0x4F, [0x6F]), (0x50, [0x70]), (0x51, [0x71]), (0x52, [0x72]),
    (0x53, [0x73]), (0x54, [0x74]), (0x55, [0x75]), (0x56, [0x76]), (0x57, [0x77]), (0x58, [0x78]),
    (0x59, [0x79]), (0x5A, [0x7A]), (0xC0, [0xE0]), (0xC1, [0xE1]), (0xC2, [0xE2]), (0xC3, [0xE3]),
    (0xC4, [0xE4]), (0xC5, [0xE5]), (0xC6, [0xE6]), (0xC7, [0xE7]), (0xC8, [0xE8]), (0xC9, [0xE9]),
    (0xCA, [0xEA]), (0xCB, [0xEB]), (0xCC, [0xEC]), (0xCD, [0xED]), (0xCE, [0xEE]), (0xCF, [0xEF]),
    (0xD0, [0xF0]), (0xD1, [0xF1]), (0xD2, [0xF2]), (0xD3, [0xF3]), (0xD4, [0xF4]), (0xD5, [0xF5]),
    (0xD6, [0xF6]), (0xD8, [0xF8]), (0xD9, [0xF9]), (0xDA, [0xFA]), (0xDB, [0xFB]), (0xDC, [0xFC]),
    (0xDD, [0xFD]), (0xDE, [0xFE])]),
  (0x1, [
    (0x100, [0x101]), (0x102, [0x103]), (0x104, [0x105]), (0x106, [0x107]), (0x108, [0x109]), (0x10A, [0x10B]),
    (0x10C, [0x10D]), (0x10E, [0x10F]), (0x110, [0x111]), (0x112, [0x113]), (0x114, [0x115]), (0x116, [0x117]),
    (0x118, [0x119]), (0x11A, [0x11B]), (0x11C, [0x11D]), (0x11E, [0x11F]), (0x120, [0x121]), (0x122, [0x123]),
    (0x124, [0x125]), (0x126, [0x127]), (0x128, [0x129]), (0x12A, [0x12B]), (0x12C, [0x12D]), (0x12E, [0x12F]),
    (0x130, [0x69]), (0x132, [0x133]), (0x134, [0x135]), (0x136, [0x137]), (0x139, [0x13A]), (0x13B, [0x13C]),
    (0x13D, [0x13E]), (0x13F, [0x140]), (0x141, [0x142]), (0x143, [0x144]), (0x145, [0x146]), (0x147, [0x148]),
    (0x14A, [0x14B]), (0x14C, [0x14D]), (0x14E, [0x14F]), (0x150, [0x151]), (0x152, [0x153]), (0x154, [0x155]),
    (0x156, [0x157]), (0x158, [0x159]), (0x15A, [0x15B]), (0x15C, [0x15D]), (0x15E, [0x15F]), (0x160, [0x161]),
    (0x162, [0x163]), (0x164, [0x165]), (0x166, [0x167]), (0x168, [0x169]), (0x16A, [0x16B]), (0x16C, [0x16D]),
    (0x16E, [0x16F]), (0x170, [0x171]), (0x172, [0x173]), (0x174, [0x175]), (0x176, [0x177]), (0x178, [0xFF]),
    (0x179, [0x17A]), (0x17B, [0x17C]), (0x17D, [0x17E]), (0x181, [0x253]), (0x182, [0x183]), (0x184, [0x185]),
    (0x186, [0x254]), (0x187, [0x188]), (0x189, [0x256]), (0x18A, [0x257]), (0x18B, [0x18C]), (0x18E, [0x1DD]),
    (0x18F, [0x259]), (0x190, [0x25B]), (0x191, [0x192]), (0x193, [0x260]), (0x194, [0x263]), (0x196, [0x269]),
    (0x197, [0x268]), (0x198, [0x199]), (0x19C, [0x26F]), (0x19D, [0x272]), (0x19F, [0x275]), (0x1A0, [0x1A1]),
    (0x1A2, [0x1A3]), (0x1A4, [0x1A5]), (0x1A6, [0x280]), (0x1A7, [0x1A8]), (0x1A9, [0x283]), (0x1AC, [0x1AD]),
    (0x1AE, [0x288]), (0x1AF, [0x1B0]), (0x1B1, [0x28A]), (0x1B2, [0x28B]), (0x1B3, [0x1B4]), (0x1B5, [0x1B6]),
    (0x1B7, [0x292]), (0x1B8, [0x1B9]), (0x1BC, [0x1BD]), (0x1C4, [0x1C6]), (0x1C5, [0x1C6]), (0x1C7, [0x1C9]),
    (0x1C8, [0x1C9]), (0x1CA, [0x1CC]), (0x1CB, [0x1CC]), (0x1CD, [0x1CE]), (0x1CF, [0x1D0]), (0x1D1, [0x1D2]),
    (0x1D3, [0x1D4]), (0x1D5, [0x1D6]), (0x1D7, [0x1D8]), (0x1D9, [0x1DA]), (0x1DB, [0x1DC]), (0x1DE, [0x1DF]),
    (0x1E0, [0x1E1]), (0x1E2, [0x1E3]), (0x1E4, [0x1E5]), (0x1E6, [0x1E7]), (0x1E8, [0x1E9]), (0x1EA, [0x1EB]),
    (0x1EC, [0x1ED]), (0x1EE, [0x1EF]), (0x1F1, [0x1F3]), (0x1F2, [0x1F3]), (0x1F4, [0x1F5]), (0x1F6, [0x195]),
    (0x1F7, [0x1BF]), (0x1F8, [0x1F9]), (0x1FA, [0x1FB]), (0x1FC, [0x1FD]), (0x1FE, [0x1FF])]),
  (0x2, [
    (0x200, [0x201]), (0x202, [0x203]), (0x204, [0x205]), (0x206, [0x207]), (0x208, [0x209]), (0x20A, [0x20B]),
    (0x20C, [0x20D]), (0x20E, [0x20F]), (0x210, [0x211]), (0x212, [0x213]), (0x214, [0x215]), (0x216, [0x217]),
    (0x218, [0x219]), (0x21A, [0x21B]), (0x21C, [0x21D]), (0x21E, [0x21F]), (0x220, [0x19E]), (0x222, [0x223]),
    (0x224, [0x225]), (0x226, [0x227]), (0x228, [0x229]), (0x22A, [0x22B]), (0x22C, [0x22D]), (0x22E, [0x22F]),
    (0x230, [0x231]), (0x232, [0x233]), (0x23A, [0x2C65]), (0x23B, [0x23C]), (0x23D, [0x19A]), (0x23E, [0x2C66]),
    (0x241, [0x242]), (0x243, [0x180]), (0x244, [0x289]), (0x245, [0x28C]), (0x246, [0x247]), (0x248, [0x249]),
    (0x24A, [0x24B]), (0x24C, [0x24D]), (0x24E, [0x24F])]),
  (0x3, [
    (0x370, [0x371]), (0x372, [0x373]), (0x376, [0x377]), (0x37F, [0x3F3]), (0x386, [0x3AC]), (0x388, [0x3AD]),
    (0x389, [0x3AE]), (0x38A, [0x3AF]), (0x38C, [0x3CC]), (0x38E, [0x3CD]), (0x38F, [0x3CE]), (0x391, [0x3B1]),
    (0x392, [0x3B2]), (0x393, [0x3B3]), (0x394, [0x3B4]), (0x395, [0x3B5]), (0x396, [0x3B6]), (0x397, [0x3B7]),
    (0x398, [0x3B8]), (0x399, [0x3B9]), (0x39A, [0x3BA]), (0x39B, [0x3BB]), (0x39C, [0x3BC]), (0x39D, [0x3BD]),
    (0x39E, [0x3BE]), (0x39F, [0x3BF]), (0x3A0, [0x3C0]), (0x3A1, [0x3C1]), (0x3A3, [0x3C3]), (0x3A4, [0x3C4]),
    (0x3A5, [0x3C5]), (0x3A6, [0x3C6]), (0x3A7, [0x3C7]), (0x3A8, [0x3C8]), (0x3A9, [0x3C9]), (0x3AA, [0x3CA]),
    (0x3AB, [0x3CB]), (0x3CF, [0x3D7]), (0x3D8, [0x3D9]), (0x3DA, [0x3DB]), (0x3DC, [0x3DD]), (0x3DE, [0x3DF]),
    (0x3E0, [0x3E1]), (0x3E2, [0x3E3]), (0x3E4, [0x3E5]), (0x3E6, [0x3E7]), (0x3E8, [0x3E9]), (0x3EA, [0x3EB]),
    (0x3EC, [0x3ED]), (0x3EE, [0x3EF]), (0x3F4, [0x3B8]), (0x3F7, [0x3F8]), (0x3F9, [0x3F2]), (0x3FA, [0x3FB]),
    (0x3FD, [0x37B]), (0x3FE, [0x37C]), (0x3FF, [0x37D])]),
  (0x4, [
    (0x400, [0x450]), (0x401, [0x451]), (0x402, [0x452]), (0x403, [0x453]), (0x404, [0x454]), (0x405, [0x455]),
    (0x406, [0x456]), (0x407, [0x457]), (0x408, [0x458]), (0x409, [0x459]), (0x40A, [0x45A]), (0x40B, [0x45B]),
    (0x40C, [0x45C]), (0x40D, [0x45D]), (0x40E, [0x45E]), (0x40F, [0x45F]), (0x410, [0x430]), (0x411, [0x431]),
    (0x412, [0x432]), (0x413, [0x433]), (0x414, [0x434]), (0x415, [0x435]), (0x416, [0x436]), (0x417, [0x437]),
    (0x418, [0x438]), (0x419, [0x439]), (0x41A, [0x43A]), (0x41B, [0x43B]), (0x41C, [0x43C]), (0x41D, [0x43D]),
    (0x41E, [0x43E]), (0x41F, [0x43F]), (0x420, [0x440]), (0x421, [0x441]), (0x422, [0x442]), (0x423, [0x443]),
    (0x424, [0x444]), (0x425, [0x445]), (0x426, [0x446]), (0x427, [0x447]), (0x428, [0x448]), (0x429, [0x449]),
    (0x42A, [0x44A]), (0x42B, [0x44B]), (0x42C, [0x44C]), (0x42D, [0x44D]), (0x42E, [0x44E]), (0x42F, [0x44F]),
    (0x460, [0x461]), (0x462, [0x463]), (0x464, [0x465]), (0x466, [0x467]), (0x468, [0x469]), (0x46A, [0x46B]),
    (0x46C, [0x46D]), (0x46E, [0x46F]), (0x470, [0x471]), (0x472, [0x473]), (0x474, [0x475]), (0x476, [0x477]),
    (0x478, [0x479]), (0x47A, [0x47B]), (0x47C, [0x47D]), (0x47E, [0x47F]), (0x480, [0x481]), (0x48A, [0x48B]),
    (0x48C, [0x48D]), (0x48E, [0x48F]), (0x490, [0x491]), (0x492, [0x493]), (0x494, [0x495]), (0x496, [0x497]),
    (0x498, [0x499]), (0x49A, [0x49B]), (0x49C, [0x49D]), (0x49E, [0x49F]), (0x4A0, [0x4A1]), (0x4A2, [0x4A3]),
    (0x4A4, [0x4A5]), (0x4A6, [0x4A7]), (0x4A8, [0x4A9]), (0x4AA, [0x4AB]), (0x4AC, [0x4AD]), (0x4AE, [0x4AF]),
    (0x4B0, [0x4B1]), (0x4B2, [0x4B3]), (0x4B4, [0x4B5]), (0x4B6, [0x4B7]), (0x4B8, [0x4B9]), (0x4BA, [0x4BB]),
    (0x4BC, [0x4BD]), (0x4BE, [0x4BF]), (0x4C0, [0x4CF]), (0x4C1, [0x4C2]), (0x4C3, [0x4C4]), (0x4C5, [0x4C6]),
    (0x4C7, [0x4C8]), (0x4C9, [0x4CA]), (0x4CB, [0x4CC]), (0x4CD, [0x4CE]), (0x4D0, [0x4D1]), (0x4D2, [0x4D3]),
    (0x4D4, [0x4D5]), (0x4D6, [0x4D7]), (0x4D8, [0x4D9]), (0x4DA, [0x4DB]), (0x4DC, [0x4DD]), (0x4DE, [0x4DF]),
    (0x4E0, [0x4E1]), (0x4E2, [0x4E3]), (0x4E4, [0x4E5]), (0x4E6, [0x4E7]), (0x4E8, [0x4E9]), (0x4EA, [0x4EB]),
    (0x4EC, [0x4ED]), (0x4EE, [0x4EF]), (0x4F0, [0x4F1]), (0x4F2, [0x4F3]), (0x4F4, [0x4F5]), (0x4F6, [0x4F7]),
    (0x4F8, [0x4F9]), (0x4FA, [0x4FB]), (0x4FC, [0x4FD]), (0x4FE, [0x4FF])]),
  (0x5, [
    (0x500, [0x501]), (0x502, [0x503]), (0x504, [0x505]), (0x506, [0x507]), (0x508, [0x509]), (0x50A, [0x50B]),
    (0x50C, [0x50D]), (0x50E, [0x50F]), (0x510, [0x511]), (0x512, [0x513]), (0x514, [0x515]), (0x516, [0x517]),
    (0x518, [0x519]), (0x51A, [0x51B]), (0x51C, [0x51D]), (0x51E, [0x51F]), (0x520, [0x521]), (0x522, [0x523]),
    (0x524, [0x525]), (0x526, [0x527]), (0x528, [0x529]), (0x52A, [0x52B]), (0x52C, [0x52D]), (0x52E, [0x52F]),
    (0x531, [0x561]), (0x532, [0x562]), (0x533, [0x563]), (0x534, [0x564]), (0x535, [0x565]), (0x536, [0x566]),
    (0x537, [0x567]), (0x538, [0x568]), (0x539, [0x569]), (0x53A, [0x56A]), (0x53B, [0x56B]), (0x53C, [0x56C]),
    (0x53D, [0x56D]), (0x53E, [0x56E]), (0x53F, [0x56F]), (0x540, [0x570]), (0x541, [0x571]), (0x542, [0x572]),
    (0x543, [0x573]), (0x544, [0x574]), (0x545, [0x575]), (0x546, [0x576]), (0x547, [0x577]), (0x548, [0x578]),
    (0x549, [0x579]), (0x54A, [0x57A]), (0x54B, [0x57B]), (0x54C, [0x57C]), (0x54D, [0x57D]), (0x54E, [0x57E]),
    (0x54F, [0x57F]), (0x550, [0x580]), (0x551, [0x581]), (0x552, [0x582]), (0x553, [0x583]), (0x554, [0x584]),
    (0x555, [0x585]), (0x556, [0x586])]),
  (0x10, [
    (0x10A0, [0x2D00]), (0x10A1, [0x2D01]), (0x10A2, [0x2D02]), (0x10A3, [0x2D03]), (0x10A4, [0x2D04]), (0x10A5, [0x2D05]),
    (0x10A6, [0x2D06]), (0x10A7, [0x2D07]), (0x10A8, [0x2D08]), (0x10A9, [0x2D09]), (0x10AA, [0x2D0A]), (0x10AB, [0x2D0B]),
    (0x10AC, [0x2D0C]), (0x10AD, [0x2D0D]), (0x10AE, [0x2D0E]), (0x10AF, [0x2D0F]), (0x10B0, [0x2D10]), (0x10B1, [0x2D11]),
    (0x10B2, [0x2D12]), (0x10B3, [0x2D13]), (0x10B4, [0x2D14]), (0x10B5, [0x2D15]), (0x10B6, [0x2D16]), (0x10B7, [0x2D17]),
    (0x10B8, [0x2D18]), (0x10B9, [0x2D19]), (0x10BA, [0x2D1A]), (0x10BB, [0x2D1B]), (0x10BC, [0x2D1C]), (0x10BD, [0x2D1D]),
    (0x10BE, [0x2D1E]), (0x10BF, [0x2D1F]), (0x10C0, [0x2D20]), (0x10C1, [0x2D21]), (0x10C2, [0x2D22]), (0x10C3, [0x2D23]),
    (0x10C4, [0x2D24]), (0x10C5, [0x2D25]), (0x10C7, [0x2D27]), (0x10CD, [0x2D2D])]),
  (0x13, [
    (0x13A0, [0xAB70]), (0x13A1, [0xAB71]), (0x13A2, [0xAB72]), (0x13A3, [0xAB73]), (0x13A4, [0xAB74]), (0x13A5, [0xAB75]),
    (0x13A6, [0xAB76]), (0x13A7, [0xAB77]), (0x13A8, [0xAB78]), (0x13A9, [0xAB79]), (0x13AA, [0xAB7A]), (0x13AB, [0xAB7B]),
    (0x13AC, [0xAB7C]), (0x13AD, [0xAB7D]), (0x13AE, [0xAB7E]), (0x13AF, [0xAB7F]), (0x13B0, [0xAB80]), (0x13B1, [0xAB81]),
    (0x13B2, [0xAB82]), (0x13B3, [0xAB83]), (0x13B4, [0xAB84]), (0x13B5, [0xAB85]), (0x13B6, [0xAB86]), (0x13B7, [0xAB87]),
    (0x13B8, [0xAB88]), (0x13B9, [0xAB89]), (0x13BA, [0xAB8A]), (0x13BB, [0xAB8B]), (0x13BC, [0xAB8C]), (0x13BD, [0xAB8D]),
    (0x13BE, [0xAB8E]), (0x13BF, [0xAB8F]), (0x13C0, [0xAB90]), (0x13C1, [0xAB91]), (0x13C2, [0xAB92]), (0x13C3, [0xAB93]),
    (0x13C4, [0xAB94]), (0x13C5, [0xAB95]), (0x13C6, [0xAB96]), (0x13C7, [0xAB97]), (0x13C8, [0xAB98]), (0x13C9, [0xAB99]),
    (0x13CA, [0xAB9A]), (0x13CB, [0xAB9B]), (0x13CC, [0xAB9C]), (0x13CD, [0xAB9D]), (0x13CE, [0xAB9E]), (0x13CF, [0xAB9F]),
    (0x13D0, [0xABA0]), (0x13D1, [0xABA1]), (0x13D2, [0xABA2]), (0x13D3, [0xABA3]), (0x13D4, [0xABA4]), (0x13D5, [0xABA5]),
    (0x13D6, [0xABA6]), (0x13D7, [0xABA7]), (0x13D8, [0xABA8]), (0x13D9, [0xABA9]), (0x13DA, [0xABAA]), (0x13DB, [0xABAB]),
    (0x13DC, [0xABAC]), (0x13DD, [0xABAD]), (0x13DE, [0xABAE]), (0x13DF, [0xABAF]), (0x13E0, [0xABB0]), (0x13E1, [0xABB1]),
    (0x13E2, [0xABB2]), (0x13E3, [0xABB3]), (0x13E4, [0xABB4]), (0x13E5, [0xABB5]), (0x13E6, [0xABB6]), (0x13E7, [0xABB7]),
    (0x13E8, [0xABB8]), (0x13E9, [0xABB9]), (0x13EA, [0xABBA]), (0x13EB, [0xABBB]), (0x13EC, [0xABBC]), (0x13ED, [0xABBD]),
    (0x13EE, [0xABBE]), (0x13EF, [0xABBF]), (0x13F0, [0x13F8]), (0x13F1, [0x13F9]), (0x13F2, [0x13FA]), (0x13F3, [0x13FB]),
    (0x13F4, [0x13FC]), (0x13F5, [0x13FD])]),
  (0x1C, [
    (0x1C90, [0x10D0]), (0x1C91, [0x10D1]), (0x1C92, [0x10D2]), (0x1C93, [0x10D3]), (0x1C94, [0x10D4]), (0x1C95, [0x10D5]),
    (0x1C96, [0x10D6]), (0x1C97, [0x10D7]), (0x1C98, [0x10D8]), (0x1C99, [0x10D9]), (0x1C9A, [0x10DA]), (0x1C9B, [0x10DB]),
    (0x1C9C, [0x10DC]), (0x1C9D, [0x10DD]), (0x1C9E, [0x10DE]), (0x1C9F, [0x10DF]), (0x1CA0, [0x10E0]), (0x1CA1, [0x10E1]),
    (0x1CA2, [0x10E2]), (0x1CA3, [0x10E3]), (0x1CA4, [0x10E4]), (0x1CA5, [0x10E5]), (0x1CA6, [0x10E6]), (0x1CA7, [0x10E7]),
    (0x1CA8, [0x10E8]), (0x1CA9, [0x10E9]), (0x1CAA, [0x10EA]), (0x1CAB, [0x10EB]), (0x1CAC, [0x10EC]), (0x1CAD, [0x10ED]),
    (0x1CAE, [0x10EE]), (0x1CAF, [0x10EF]), (0x1CB0, [0x10F0]), (0x1CB1, [0x10F1]), (0x1CB2, [0x10F2]), (0x1CB3, [0x10F3]),
    (0x1CB4, [0x10F4]), (0x1CB5, [0x10F5]), (0x1CB6, [0x10F6]), (0x1CB7, [0x10F7]), (0x1CB8, [0x10F8]), (0x1CB9, [0x10F9]),
    (0x1CBA, [0x10FA]), (0x1CBD, [0x10FD]), (0x1CBE, [0x10FE]), (0x1CBF, [0x10FF])]),
  (0x1E, [
    (0x1E00, [0x1E01]), (0x1E02, [0x1E03]), (0x1E04, [0x1E05]), (0x1E06, [0x1E07]), (0x1E08, [0x1E09]), (0x1E0A, [0x1E0B]),
    (0x1E0C, [0x1E0D]), (0x1E0E, [0x1E0F]), (0x1E10, [0x1E11]), (0x1E12, [0x1E13]), (0x1E14, [0x1E15]), (0x1E16, [0x1E17]),
    (0x1E18, [0x1E19]), (0x1E1A, [0x1E1B]), (0x1E1C, [0x1E1D]), (0x1E1E, [0x1E1F]), (0x1E20, [0x1E21]), (0x1E22, [0x1E23]),
    (0x1E24, [0x1E25]), (0x1E26, [0x1E27]), (0x1E28, [0x1E29]), (0x1E2A, [0x1E2B]), (0x1E2C, [0x1E2D]), (0x1E2E, [0x1E2F]),
    (0x1E30, [0x1E31]), (0x1E32, [0x1E33]), (0x1E34, [0x1E35]), (0x1E36, [0x1E37]), (0x1E38, [0x1E39]), (0x1E3A, [0x1E3B]),
    (0x1E3C, [0x1E3D]), (0x1E3E, [0x1E3F]), (0x1E40, [0x1E41]), (0x1E42, [0x1E43]), (0x1E44, [0x1E45]), (0x1E46, [0x1E47]),
    (0x1E48, [0x1E49]), (0x1E4A, [0x1E4B]), (0x1E4C, [0x1E4D]), (0x1E4E, [0x1E4F]), (0x1E50, [0x1E51]), (0x1E52, [0x1E53]),
    (0x1E54, [0x1E55]), (0x1E56, [0x1E57]), (0x1E58, [0x1E59]), (0x1E5A, [0x1E5B]), (0x1E5C, [0x1E5D]), (0x1E5E, [0x1E5F]),
    (0x1E60, [0x1E61]), (0x1E62, [0x1E63]), (0x1E64, [0x1E65]), (0x1E66, [0x1E67]), (0x1E68, [0x1E69]), (0x1E6A, [0x1E6B]),
    (0x1E6C, [0x1E6D]), (0x1E6E, [0x1E6F]), (0x1E70, [0x1E71]), (0x1E72, [0x1E73]), (0x1E74, [0x1E75]), (0x1E76, [0x1E77]),
    (0x1E78, [0x1E79]), (0x1E7A, [0x1E7B]), (0x1E7C, [0x1E7D]), (0x1E7E, [0x1E7F]), (0x1E80, [0x1E81]), (0x1E82, [0x1E83]),
    (0x1E84, [0x1E85]), (0x1E86, [0x1E87]), (0x1E88, [0x1E89]), (0x1E8A, [0x1E8B]), (0x1E8C, [0x1E8D]), (0x1E8E, [0x1E8F]),
    (0x1E90, [0x1E91]), (0x1E92, [0x1E93]), (0x1E94, [0x1E95]), (0x1E9E, [0xDF]), (0x1EA0, [0x1EA1]), (0x1EA2, [0x1EA3]),
    (0x1EA4, [0x1EA5]), (0x1EA6, [0x1EA7]), (0x1EA8, [0x1EA9]), (0x1EAA, [0x1EAB]), (0x1EAC, [0x1EAD]), (0x1EAE, [0x1EAF]),
    (0x1EB0, [0x1EB1]), (0x1EB2, [0x1EB3]), (0x1EB4, [0x1EB5]), (0x1EB6, [0x1EB7]), (0x1EB8, [0x1EB9]), (0x1EBA, [0x1EBB]),
    (0x1EBC, [0x1EBD]), (0x1EBE, [0x1EBF]), (0x1EC0, [0x1EC1]), (0x1EC2, [0x1EC3]), (0x1EC4, [0x1EC5]), (0x1EC6, [0x1EC7]),
    (0x1EC8, [0x1EC9]), (0x1ECA, [0x1ECB]), (0x1ECC, [0x1ECD]), (0x1ECE, [0x1ECF]), (0x1ED0, [0x1ED1]), (0x1ED2, [0x1ED3]),
    (0x1ED4, [0x1ED5]), (0x1ED6, [0x1ED7]), (0x1ED8, [0x1ED9]), (0x1EDA, [0x1EDB]), (0x1EDC, [0x1EDD]), (0x1EDE, [0x1EDF]),
    (0x1EE0, [0x1EE1]), (0x1EE2, [0x1EE3]), (0x1EE4, [0x1EE5]), (0x1EE6, [0x1EE7]), (0x1EE8, [0x1EE9]), (0x1EEA, [0x1EEB]),
    (0x1EEC, [0x1EED]), (0x1EEE, [0x1EEF]), (0x1EF0, [0x1EF1]), (0x1EF2, [0x1EF3]), (0x1EF4, [0x1EF5]), (0x1EF6, [0x1EF7]),
    (0x1EF8, [0x1EF9]), (0x1EFA, [0x1EFB]), (0x1EFC, [0x1EFD]), (0x1EFE, [0x1EFF])]),
  (0x1F, [
    (0x1F08, [0x1F00]), (0x1F09, [0x1F01]), (0x1F0A, [0x1F02]), (0x1F0B, [0x1F03]), (0x1F0C, [0x1F04]), (0x1F0D, [0x1F05]),
    (0x1F0E, [0x1F06]), (0x1F0F, [0x1F07]), (0x1F18, [0x1F10]), (0x1F19, [0x1F11]), (0x1F1A, [0x1F12]), (0x1F1B, [0x1F13]),
    (0x1F1C, [0x1F14]), (0x1F1D, [0x1F15]), (0x1F28, [0x1F20]), (0x1F29, [0x1F21]), (0x1F2A, [0x1F22]), (0x1F2B, [0x1F23]),
    (0x1F2C, [0x1F24]), (0x1F2D, [0x1F25]), (0x1F2E, [0x1F26]), (0x1F2F, [0x1F27]), (0x1F38, [0x1F30]), (0x1F39, [0x1F31]),
    (0x1F3A, [0x1F32]), (0x1F3B, [0x1F33]), (0x1F3C, [0x1F34]), (0x1F3D, [0x1F35]), (0x1F3E, [0x1F36]), (0x1F3F, [0x1F37]),
    (0x1F48, [0x1F40]), (0x1F49, [0x1F41]), (0x1F4A, [0x1F42]), (0x1F4B, [0x1F43]), (0x1F4C, [0x1F44]), (0x1F4D, [0x1F45]),
    (0x1F59, [0x1F51]), (0x1F5B, [0x1F53]), (0x1F5D, [0x1F55]), (0x1F5F, [0x1F57]), (0x1F68, [0x1F60]), (0x1F69, [0x1F61]),
    (0x1F6A, [0x1F62]), (0x1F6B, [0x1F63]), (0x1F6C, [0x1F64]), (0x1F6D, [0x1F65]), (0x1F6E, [0x1F66]), (0x1F6F, [0x1F67]),
    (0x1F88, [0x1F80]), (0x1F89, [0x1F81]), (0x1F8A, [0x1F82]), (0x1F8B, [0x1F83]), (0x1F8C, [0x1F84]), (0x1F8D, [0x1F85]),
    (0x1F8E, [0x1F86]), (0x1F8F, [0x1F87]), (0x1F98, [0x1F90]), (0x1F99, [0x1F91]), (0x1F9A, [0x1F92]), (0x1F9B, [0x1F93]),
    (0x1F9C, [0x1F94]), (0x1F9D, [0x1F95]), (0x1F9E, [0x1F96]), (0x1F9F, [0x1F97]), (0x1FA8, [0x1FA0]), (0x1FA9, [0x1FA1]),
    (0x1FAA, [0x1FA2]), (0x1FAB, [0x1FA3]), (0x1FAC, [0x1FA4]), (0x1FAD, [0x1FA5]), (0x1FAE, [0x1FA6]), (0x1FAF, [0x1FA7]),
    (0x1FB8, [0x1FB0]), (0x1FB9, [0x1FB1]), (0x1FBA, [0x1F70]), (0x1FBB, [0x1F71]), (0x1FBC, [0x1FB3]), (0x1FC8, [0x1F72]),
    (0x1FC9, [0x1F73]), (0x1FCA, [0x1F74]), (0x1FCB, [0x1F75]), (0x1FCC, [0x1FC3]), (0x1FD8, [0x1FD0]), (0x1FD9, [0x1FD1]),
    (0x1FDA, [0x1F76]), (0x1FDB, [0x1F77]), (0x1FE8, [0x1FE0]), (0x1FE9, [0x1FE1]), (0x1FEA, [0x1F7A]), (0x1FEB, [0x1F7B]),
    (0x1FEC, [0x1FE5]), (0x1FF8, [0x1F78]), (0x1FF9, [0x1F79]), (0x1FFA, [0x1F7C]), (0x1FFB, [0x1F7D]), (0x1FFC, [0x1FF3])]),
  (0x21, [
    (0x2126, [0x3C9]), (0x212A, [0x6B]), (0x212B, [0xE5]), (0x2132, [0x214E]), (0x2160, [0x2170]), (0x2161, [0x2171]),
    (0x2162, [0x2172]), (0x2163, [0x2173]), (0x2164, [0x2174]), (0x2165, [0x2175]), (0x2166, [0x2176]), (0x2167, [0x2177]),
    (0x2168, [0x2178]), (0x2169, [0x2179]), (0x216A, [0x217A]), (0x216B, [0x217B]), (0x216C, [0x217C]), (0x216D, [0x217D]),
    (0x216E, [0x217E]), (0x216F, [0x217F]), (0x2183, [0x2184])]),
  (0x24, [
    (0x24B6, [0x24D0]), (0x24B7, [0x24D1]), (0x24B8, [0x24D2]), (0x24B9, [0x24D3]), (0x24BA, [0x24D4]), (0x24BB, [0x24D5]),
    (0x24BC, [0x24D6]), (0x24BD, [0x24D7]), (0x24BE, [0x24D8]), (0x24BF, [0x24D9]), (0x24C0, [0x24DA]), (0x24C1, [0x24DB]),
    (0x24C2, [0x24DC]), (0x24C3, [0x24DD]), (0x24C4, [0x24DE]), (0x24C5, [0x24DF]), (0x24C6, [0x24E0]), (0x24C7, [0x24E1]),
    (0x24C8, [0x24E2]), (0x24C9, [0x24E3]), (0x24CA, [0x24E4]), (0x24CB, [0x24E5]), (0x24CC, [0x24E6]), (0x24CD, [0x24E7]),
    (0x24CE, [0x24E8]), (0x24CF, [0x24E9])]),
  (0x2C, [
    (0x2C00, [0x2C30]), (0x2C01, [0x2C31]), (0x2C02, [0x2C32]), (0x2C03, [0x2C33]), (0x2C04, [0x2C34]), (0x2C05, [0x2C35]),
    (0x2C06, [0x2C36]), (0x2C07, [0x2C37]), (0x2C08, [0x2C38]), (0x2C09, [0x2C39]), (0x2C0A, [0x2C3A]), (0x2C0B, [0x2C3B]),
    (0x2C0C, [0x2C3C]), (0x2C0D, [0x2C3D]), (0x2C0E, [0x2C3E]), (0x2C0F, [0x2C3F]), (0x2C10, [0x2C40]), (0x2C11, [0x2C41]),
    (0x2C12, [0x2C42]), (0x2C13, [0x2C43]), (0x2C14, [0x2C44]), (0x2C15, [0x2C45]), (0x2C16, [0x2C46]), (0x2C17, [0x2C47]),
    (0x2C18, [0x2C48]), (0x2C19, [0x2C49]), (0x2C1A, [0x2C4A]), (0x2C1B, [0x2C4B]), (0x2C1C, [0x2C4C]), (0x2C1D, [0x2C4D]),
    (0x2C1E, [0x2C4E]), (0x2C1F, [0x2C4F]), (0x2C20, [0x2C50]), (0x2C21, [0x2C51]), (0x2C22, [0x2C52]), (0x2C23, [0x2C53]),
    (0x2C24, [0x2C54]), (0x2C25, [0x2C55]), (0x2C26, [0x2C56]), (0x2C27, [0x2C57]), (0x2C28, [0x2C58]), (0x2C29, [0x2C59]),
    (0x2C2A, [0x2C5A]), (0x2C2B, [0x2C5B]), (0x2C2C, [0x2C5C]), (0x2C2D, [0x2C5D]), (0x2C2E, [0x2C5E]), (0x2C60, [0x2C61]),
    (0x2C62, [0x26B]), (0x2C63, [0x1D7D]), (0x2C64, [0x27D]), (0x2C67, [0x2C68]), (0x2C69, [0x2C6A]), (0x2C6B, [0x2C6C]),
    (0x2C6D, [0x251]), (0x2C6E, [0x271]), (0x2C6F, [0x250]), (0x2C70, [0x252]), (0x2C72, [0x2C73]), (0x2C75, [0x2C76]),
    (0x2C7E, [0x23F]), (0x2C7F, [0x240]), (0x2C80, [0x2C81]), (0x2C82, [0x2C83]), (0x2C84, [0x2C85]), (0x2C86, [0x2C87]),
    (0x2C88, [0x2C89]), (0x2C8A, [0x2C8B]), (0x2C8C, [0x2C8D]), (0x2C8E, [0x2C8F]), (0x2C90, [0x2C91]), (0x2C92, [0x2C93]),
    (0x2C94, [0x2C95]), (0x2C96, [0x2C97]), (0x2C98, [0x2C99]), (0x2C9A, [0x2C9B]), (0x2C9C, [0x2C9D]), (0x2C9E, [0x2C9F]),
    (0x2CA0, [0x2CA1]), (0x2CA2, [0x2CA3]), (0x2CA4, [0x2CA5]), (0x2CA6, [0x2CA7]), (0x2CA8, [0x2CA9]), (0x2CAA, [0x2CAB]),
    (0x2CAC, [0x2CAD]), (0x2CAE, [0x2CAF]), (0x2CB0, [0x2CB1]), (0x2CB2, [0x2CB3]), (0x2CB4, [0x2CB5]), (0x2CB6, [0x2CB7]),
    (0x2CB8, [0x2CB9]), (0x2CBA, [0x2CBB]), (0x2CBC, [0x2CBD]), (0x2CBE, [0x2CBF]), (0x2CC0, [0x2CC1]), (0x2CC2, [0x2CC3]),
    (0x2CC4, [0x2CC5]), (0x2CC6, [0x2CC7]), (0x2CC8, [0x2CC9]), (0x2CCA, [0x2CCB]), (0x2CCC, [0x2CCD]), (0x2CCE, [0x2CCF]),
    (0x2CD0, [0x2CD1]), (0x2CD2, [0x2CD3]), (0x2CD4, [0x2CD5]), (0x2CD6, [0x2CD7]), (0x2CD8, [0x2CD9]), (0x2CDA, [0x2CDB]),
    (0x2CDC, [0x2CDD]), (0x2CDE, [0x2CDF]), (0x2CE0, [0x2CE1]), (0x2CE2, [0x2CE3]), (0x2CEB, [0x2CEC]), (0x2CED, [0x2CEE]),
    (0x2CF2, [0x2CF3])]),
  (0xA6, [
    (0xA640, [0xA641]), (0xA642, [0xA643]), (0xA644, [0xA645]), (0xA646, [0xA647]), (0xA648, [0xA649]), (0xA64A, [0xA64B]),
    (0xA64C, [0xA64D]), (0xA64E, [0xA64F]), (0xA650, [0xA651]), (0xA652, [0xA653]), (0xA654, [0xA655]), (0xA656, [0xA657]),
    (0xA658, [0xA659]), (0xA65A, [0xA65B]), (0xA65C, [0xA65D]), (0xA65E, [0xA65F]), (0xA660, [0xA661]), (0xA662, [0xA663]),
    (0xA664, [0xA665]), (0xA666, [0xA667]), (0xA668, [0xA669]), (0xA66A, [0xA66B]), (0xA66C, [0xA66D]), (0xA680, [0xA681]),
    (0xA682, [0xA683]), (0xA684, [0xA685]), (0xA686, [0xA687]), (0xA688, [0xA689]), (0xA68A, [0xA68B]), (0xA68C, [0xA68D]),
    (0xA68E, [0xA68F]), (0xA690, [0xA691]), (0xA692, [0xA693]), (0xA694, [0xA695]), (0xA696, [0xA697]), (0xA698, [0xA699]),
    (0xA69A, [0xA69B])]),
  (0xA7, [
    (0xA722, [0xA723]), (0xA724, [0xA725]), (0xA726, [0xA727]), (0xA728, [0xA729]), (0xA72A, [0xA72B]), (0xA72C, [0xA72D]),
    (0xA72E, [0xA72F]), (0xA732, [0xA733]), (0xA734, [0xA735]), (0xA736, [0xA737]), (0xA738, [0xA739]), (0xA73A, [0xA73B]),
    (0xA73C, [0xA73D]), (0xA73E, [0xA73F]), (0xA740, [0xA741]), (0xA742, [0xA743]), (0xA744, [0xA745]), (0xA746, [0xA747]),
    (0xA748, [0xA749]), (0xA74A, [0xA74B]), (0xA74C, [0xA74D]), (0xA74E, [0xA74F]), (0xA750, [0xA751]), (0xA752, [0xA753]),
    (0xA754, [0xA755]), (0xA756, [0xA757]), (0xA758, [0xA759]), (0xA75A, [0xA75B]), (0xA75C, [0xA75D]), (0xA75E, [0xA75F]),
    (0xA760, [0xA761]), (0xA762, [0xA763]), (0xA764, [0xA765]), (0xA766, [0xA767]), (0xA768, [0xA769]), (0xA76A, [0xA76B]),
    (0xA76C, [0xA76D]), (0xA76E, [0xA76F]), (0xA779, [0xA77A]), (0xA77B, [0xA77C]), (0xA77D, [0x1D79]), (0xA77E, [0xA77F]),
    (0xA780, [0xA781]), (0xA782, [0xA783]), (0xA784, [0xA785]), (0xA786, [0xA787]), (0xA78B, [0xA78C]), (0xA78D, [0x265]),
    (0xA790, [0xA791]), (0xA792, [0xA793]), (0xA796, [0xA797]), (0xA798, [0xA799]), (0xA79A, [0xA79B]), (0xA79C, [0xA79D]),
    (0xA79E, [0xA79F]), (0xA7A0, [0xA7A1]), (0xA7A2, [0xA7A3]), (0xA7A4, [0xA7A5]), (0xA7A6, [0xA7A7]), (0xA7A8, [0xA7A9]),
    (0xA7AA, [0x266]), (0xA7AB, [0x25C]), (0xA7AC, [0x261]), (0xA7AD, [0x26C]), (0xA7AE, [0x26A]), (0xA7B0, [0x29E]),
    (0xA7B1, [0x287]), (0xA7B2, [0x29D]), (0xA7B3, [0xAB53]), (0xA7B4, [0xA7B5]), (0xA7B6, [0xA7B7]), (0xA7B8, [0xA7B9]),
    (0xA7BA, [0xA7BB]), (0xA7BC, [0xA7BD]), (0xA7BE, [0xA7BF]), (0xA7C2, [0xA7C3]), (0xA7C4, [0xA794]), (0xA7C5, [0x282]),
    (0xA7C6, [0x1D8E]), (0xA7C7, [0xA7C8]), (0xA7C9, [0xA7CA]), (0xA7F5, [0xA7F6])]),
  (0xFF, [
    (0xFF21, [0xFF41]), (0xFF22, [0xFF42]), (0xFF23, [0xFF43]), (0xFF24, [0xFF44]), (0xFF25, [0xFF45]), (0xFF26, [0xFF46]),
    (0xFF27, [0xFF47]), (0xFF28, [0xFF48]), (0xFF29, [0xFF49]), (0xFF2A, [0xFF4A]), (0xFF2B, [0xFF4B]), (0xFF2C, [0xFF4C]),
    (0xFF2D, [0xFF4D]), (0xFF2E, [0xFF4E]), (0xFF2F, [0xFF4F]), (0xFF30, [0xFF50]), (0xFF31, [0xFF51]), (0xFF32, [0xFF52]),
    (0xFF33, [0xFF53]), (0xFF34, [0xFF54]), (0xFF35, [0xFF55]), (0xFF36, [0xFF56]), (0xFF37, [0xFF57]), (0xFF38, [0xFF58]),
    (0xFF39, [0xFF59]), (0xFF3A, [0xFF5A])]),
  (0x104, [
    (0x10400, [0x10428]), (0x10401, [0x10429]), (0x10402, [0x1042A]), (0x10403, [0x1042B]), (0x10404, [0x1042C]), (0x10405, [0x1042D]),
    (0x10406, [0x1042E]), (0x10407, [0x1042F]), (0x10408, [0x10430]), (0x10409, [0x10431]), (0x1040A, [0x10432]), (0x1040B, [0x10433]),
    (0x1040C, [0x10434]), (0x1040D, [0x10435]), (0x1040E, [0x10436]), (0x1040F, [0x10437]), (0x10410, [0x10438]), (0x10411, [0x10439]),
    (0x10412, [0x1043A]), (0x10413, [0x1043B]), (0x10414, [0x1043C]), (0x10415, [0x1043D]), (0x10416, [0x1043E]), (0x10417, [0x1043F]),
    (0x10418, [0x10440]), (0x10419, [0x10441]), (0x1041A, [0x10442]), (0x1041B, [0x10443]), (0x1041C, [0x10444]), (0x1041D, [0x10445]),
    (0x1041E, [0x10446]), (0x1041F, [0x10447]), (0x10420, [0x10448]), (0x10421, [0x10449]), (0x10422, [0x1044A]), (0x10423, [0x1044B]),
    (0x10424, [0x1044C]), (0x10425, [0x1044D]), (0x10426, [0x1044E]), (0x10427, [0x1044F]), (0x104B0, [0x104D8]), (0x104B1, [0x104D9]),
    (0x104B2, [0x104DA]), (0x104B3, [0x104DB]), (0x104B4, [0x104DC]), (0x104B5, [0x104DD]), (0x104B6, [0x104DE]), (0x104B7, [0x104DF]),
    (0x104B8, [0x104E0]), (0x104B9, [0x104E1]), (0x104BA, [0x104E2]), (0x104BB, [0x104E3]), (0x104BC, [0x104E4]), (0x104BD, [0x104E5]),
    (0x104BE, [0x104E6]), (0x104BF, [0x104E7]), (0x104C0, [0x104E8]), (0x104C1, [0x104E9]), (0x104C2, [0x104EA]), (0x104C3, [0x104EB]),
    (0x104C4, [0x104EC]), (0x104C5, [0x104ED]), (0x104C6, [0x104EE]), (0x104C7, [0x104EF]), (0x104C8, [0x104F0]), (0x104C9, [0x104F1]),
    (0x104CA, [0x104F2]), (0x104CB, [0x104F3]), (0x104CC, [0x104F4]), (0x104CD, [0x104F5]), (0x104CE, [0x104F6]), (0x104CF, [0x104F7]),
    (0x104D0, [0x104F8]), (0x104D1, [0x104F9]), (0x104D2, [0x104FA]), (0x104D3, [0x104FB])]),
  (0x10C, [
    (0x10C80, [0x10CC0]), (0x10C81, [0x10CC1]), (0x10C82, [0x10CC2]), (0x10C83, [0x10CC3]), (0x10C84, [0x10CC4]), (0x10C85, [0x10CC5]),
    (0x10C86, [0x10CC6]), (0x10C87, [0x10CC7]), (0x10C88, [0x10CC8]), (0x10C89, [0x10CC9]), (0x10C8A, [0x10CCA]), (0x10C8B, [0x10CCB]),
    (0x10C8C, [0x10CCC]), (0x10C8D, [0x10CCD]), (0x10C8E, [0x10CCE]), (0x10C8F, [0x10CCF]), (0x10C90, [0x10CD0]), (0x10C91, [0x10CD1]),
    (0x10C92, [0x10CD2]), (0x10C93, [0x10CD3]), (0x10C94, [0x10CD4]), (0x10C95, [0x10CD5]), (0x10C96, [0x10CD6]), (0x10C97, [0x10CD7]),
    (0x10C98, [0x10CD8]), (0x10C99, [0x10CD9]), (0x10C9A, [0x10CDA]), (0x10C9B, [0x10CDB]), (0x10C9C, [0x10CDC]), (0x10C9D, [0x10CDD]),
    (0x10C9E, [0x10CDE]), (0x10C9F, [0x10CDF]), (0x10CA0, [0x10CE0]), (0x10CA1, [0x10CE1]), (0x10CA2, [0x10CE2]), (0x10CA3, [0x10CE3]),
    (0x10CA4, [0x10CE4]), (0x10CA5, [0x10CE5]), (0x10CA6, [0x10CE6]), (0x10CA7, [0x10CE7]), (0x10CA8, [0x10CE8]), (0x10CA9, [0x10CE9]),
    (0x10CAA, [0x10CEA]), (0x10CAB, [0x10CEB]), (0x10CAC, [0x10CEC]), (0x10CAD, [0x10CED]), (0x10CAE, [0x10CEE]), (0x10CAF, [0x10CEF]),
    (0x10CB0, [0x10CF0]), (0x10CB1, [0x10CF1]), (0x10CB2, [0x10CF2])]),
  (0x118, [
    (0x118A0, [0x118C0]), (0x118A1, [0x118C1]), (0x118A2, [0x118C2]), (0x118A3, [0x118C3]), (0x118A4, [0x118C4]), (0x118A5, [0x118C5]),
    (0x118A6, [0x118C6]), (0x118A7, [0x118C7]), (0x118A8, [0x118C8]), (0x118A9, [0x118C9]), (0x118AA, [0x118CA]), (0x118AB, [0x118CB]),
    (0x118AC, [0x118CC]), (0x118AD, [0x118CD]), (0x118AE, [0x118CE]), (0x118AF, [0x118CF]), (0x118B0, [0x118D0]), (0x118B1, [0x118D1]),
    (0x118B2, [0x118D2]), (0x118B3, [0x118D3]), (0x118B4, [0x118D4]), (0x118B5, [0x118D5]), (0x118B6, [0x118D6]), (0x118B7, [0x118D7]),
    (0x118B8, [0x118D8]), (0x118B9, [0x118D9]), (0x118BA, [0x118DA]), (0x118BB, [0x118DB]), (0x118BC, [0x118DC]), (0x118BD, [0x118DD]),
    (0x118BE, [0x118DE]), (0x118BF, [0x118DF])]),
  (0x16E, [
    (0x16E40, [0x16E60]), (0x16E41, [0x16E61]), (0x16E42, [0x16E62]), (0x16E43, [0x16E63]), (0x16E44, [0x16E64]), (0x16E45, [0x16E65]),
    (0x16E46, [0x16E66]), (0x16E47, [0x16E67]), (0x16E48, [0x16E68]), (0x16E49, [0x16E69]), (0x16E4A, [0x16E6A]), (0x16E4B, [0x16E6B]),
    (0x16E4C, [0x16E6C]), (0x16E4D, [0x16E6D]), (0x16E4E, [0x16E6E]), (0x16E4F, [0x16E6F]), (0x16E50, [0x16E70]), (0x16E51, [0x16E71]),
    (0x16E52, [0x16E72]), (0x16E53, [0x16E73]), (0x16E54, [0x16E74]), (0x16E55, [0x16E75]), (0x16E56, [0x16E76]), (0x16E57, [0x16E77]),
    (0x16E58, [0x16E78]), (0x16E59, [0x16E79]), (0x16E5A, [0x16E7A]), (0x16E5B, [0x16E7B]), (0x16E5C, [0x16E7C]), (0x16E5D, [0x16E7D]),
    (0x16E5E, [0x16E7E]), (0x16E5F, [0x16E7F])]),
  (0x1E9, [
    (0x1E900, [0x1E922]), (0x1E901, [0x1E923]), (0x1E902, [0x1E924]), (0x1E903, [0x1E925]), (0x1E904, [0x1E926]), (0x1E905, [0x1E927]),
    (0x1E906, [0x1E928]), (0x1E907, [0x1E929]), (0x1E908, [0x1E92A]), (0x1E909, [0x1E92B]), (0x1E90A, [0x1E92C]), (0x1E90B, [0x1E92D]),
    (0x1E90C, [0x1E92E]), (0x1E90D, [0x1E92F]), (0x1E90E, [0x1E930]), (0x1E90F, [0x1E931]), (0x1E910, [0x1E932]), (0x1E911, [0x1E933]),
    (0x1E912, [0x1E934]), (0x1E913, [0x1E935]), (0x1E914, [0x1E936]), (0x1E915, [0x1E937]), (0x1E916, [0x1E938]), (0x1E917, [0x1E939]),
    (0x1E918, [0x1E93A]), (0x1E919, [0x1E93B]), (0x1E91A, [0x1E93C]), (0x1E91B, [0x1E93D]), (0x1E91C, [0x1E93E]), (0x1E91D, [0x1E93F]),
    (0x1E91E, [0x1E940]), (0x1E91F, [0x1E941]), (0x1E920, [0x1E942]), (0x1E921, [0x1E943])]),
  (0x1, [
    (0x130, [0x69, 0x307])]),
  (0x1F, [
    (0x1F88, [0x1F80]), (0x1F89, [0x1F81]), (0x1F8A, [0x1F82]), (0x1F8B, [0x1F83]), (0x1F8C, [0x1F84]), (0x1F8D, [0x1F85]),
    (0x1F8E, [0x1F86]), (0x1F8F, [0x1F87]), (0x1F98, [0x1F90]), (0x1F99, [0x1F91]), (0x1F9A, [0x1F92]), (0x1F9B, [0x1F93]),
    (0x1F9C, [0x1F94]), (0x1F9D, [0x1F95]), (0x1F9E, [0x1F96]), (0x1F9F, [0x1F97]), (0x1FA8, [0x1FA0]), (0x1FA9, [0x1FA1]),
    (0x1FAA, [0x1FA2]), (0x1FAB, [0x1FA3]), (0x1FAC, [0x1FA4]), (0x1FAD, [0x1FA5]), (0x1FAE, [0x1FA6]), (0x1FAF, [0x1FA7]),
    (0x1FBC, [0x1FB3]), (0x1FCC, [0x1FC3]), (0x1FFC, [0x1FF3])])]

/-- The lengths of its pieces in ascending order. -/
def lowerCuts : List Nat := [1393]

/-- The rules of /repo/modules/inter/UPPER.txt in the order of the file: `01k 01v,01v..` as (k, [v, v..]), by the upper bytes of k.
(A first line `Source: ...`, which is not a comment, is left out here: see `Aside`.) -/
def upper : Pages := [
  (0x0, [
    (0x61, [0x41]), (0x62, [0x42]), (0x63, [0x43]), (0x64, [0x44]), (0x65, [0x45]), (0x66, [0x46]),
    (0x67, [0x47]), (0x68, [0x48]), (0x69, [0x49]), (0x6A, [0x4A]), (0x6B, [0x4B]), (0x6C, [0x4C]),
    (0x6D, [0x4D]), (0x6E, [0x4E]), (0x6F, [0x4F]), (0x70, [0x50]), (0x71, [0x51]), (0x72, [0x52]),
    (0x73, [0x53]), (0x74, [0x54]), (0x75, [0x55]), (0x76, [0x56]), (0x77, [0x57]), (0x78, [0x58]),
    (0x79, [0x59]), (0x7A, [0x5A]), (0xB5, [0x39C]), (0xE0, [0xC0]), (0xE1, [0xC1]), (0xE2, [0xC2]),
    (0xE3, [0xC3]), (0xE4, [0xC4]), (0xE5, [0xC5]), (0xE6, [0xC6]), (0xE7, [0xC7]), (0xE8, [0xC8]),
    (0xE9, [0xC9]), (0xEA, [0xCA]), (0xEB, [0xCB]), (0xEC, [0xCC]), (0xED, [0xCD]), (0xEE, [0xCE]),
    (0xEF, [0xCF]), (0xF0, [0xD0]), (0xF1, [0xD1]), (0xF2, [0xD2]), (0xF3, [0xD3]), (0xF4, [0xD4]),
    (0xF5, [0xD5]), (0xF6, [0xD6]), (0xF8, [0xD8]), (0xF9, [0xD9]), (0xFA, [0xDA]), (0xFB, [0xDB]),
    (0xFC, [0xDC]), (0xFD, [0xDD]), (0xFE, [0xDE]), (0xFF, [0x178])]),
  (0x1, [
    (0x101, [0x100]), (0x103, [0x102]), (0x105, [0x104]), (0x107, [0x106]), (0x109, [0x108]), (0x10B, [0x10A]),
    (0x10D, [0x10C]), (0x10F, [0x10E]), (0x111, [0x110]), (0x113, [0x112]), (0x115, [0x114]), (0x117, [0x116]),
    (0x119, [0x118]), (0x11B, [0x11A]), (0x11D, [0x11C]), (0x11F, [0x11E]), (0x121, [0x120]), (0x123, [0x122]),
    (0x125, [0x124]), (0x127, [0x126]), (0x129, [0x128]), (0x12B, [0x12A]), (0x12D, [0x12C]), (0x12F, [0x12E]),
    (0x131, [0x49]), (0x133, [0x132]), (0x135, [0x134]), (0x137, [0x136]), (0x13A, [0x139]), (0x13C, [0x13B]),
    (0x13E, [0x13D]), (0x140, [0x13F]), (0x142, [0x141]), (0x144, [0x143]), (0x146, [0x145]), (0x148, [0x147]),
    (0x14B, [0x14A]), (0x14D, [0x14C]), (0x14F, [0x14E]), (0x151, [0x150]), (0x153, [0x152]), (0x155, [0x154]),
    (0x157, [0x156]), (0x159, [0x158]), (0x15B, [0x15A]), (0x15D, [0x15C]), (0x15F, [0x15E]), (0x161, [0x160]),
    (0x163, [0x162]), (0x165, [0x164]), (0x167, [0x166]), (0x169, [0x168]), (0x16B, [0x16A]), (0x16D, [0x16C]),
    (0x16F, [0x16E]), (0x171, [0x170]), (0x173, [0x172]), (0x175, [0x174]), (0x177, [0x176]), (0x17A, [0x179]),
    (0x17C, [0x17B]), (0x17E, [0x17D]), (0x17F, [0x53]), (0x180, [0x243]), (0x183, [0x182]), (0x185, [0x184]),
    (0x188, [0x187]), (0x18C, [0x18B]), (0x192, [0x191]), (0x195, [0x1F6]), (0x199, [0x198]), (0x19A, [0x23D]),
    (0x19E, [0x220]), (0x1A1, [0x1A0]), (0x1A3, [0x1A2]), (0x1A5, [0x1A4]), (0x1A8, [0x1A7]), (0x1AD, [0x1AC]),
    (0x1B0, [0x1AF]), (0x1B4, [0x1B3]), (0x1B6, [0x1B5]), (0x1B9, [0x1B8]), (0x1BD, [0x1BC]), (0x1BF, [0x1F7]),
    (0x1C5, [0x1C4]), (0x1C6, [0x1C4]), (0x1C8, [0x1C7]), (0x1C9, [0x1C7]), (0x1CB, [0x1CA]), (0x1CC, [0x1CA]),
    (0x1CE, [0x1CD]), (0x1D0, [0x1CF]), (0x1D2, [0x1D1]), (0x1D4, [0x1D3]), (0x1D6, [0x1D5]), (0x1D8, [0x1D7]),
    (0x1DA, [0x1D9]), (0x1DC, [0x1DB]), (0x1DD, [0x18E]), (0x1DF, [0x1DE]), (0x1E1, [0x1E0]), (0x1E3, [0x1E2]),
    (0x1E5, [0x1E4]), (0x1E7, [0x1E6]), (0x1E9, [0x1E8]), (0x1EB, [0x1EA]), (0x1ED, [0x1EC]), (0x1EF, [0x1EE]),
    (0x1F2, [0x1F1]), (0x1F3, [0x1F1]), (0x1F5, [0x1F4]), (0x1F9, [0x1F8]), (0x1FB, [0x1FA]), (0x1FD, [0x1FC]),
    (0x1FF, [0x1FE])]),
  (0x2, [
    (0x201, [0x200]), (0x203, [0x202]), (0x205, [0x204]), (0x207, [0x206]), (0x209, [0x208]), (0x20B, [0x20A]),
    (0x20D, [0x20C]), (0x20F, [0x20E]), (0x211, [0x210]), (0x213, [0x212]), (0x215, [0x214]), (0x217, [0x216]),
    (0x219, [0x218]), (0x21B, [0x21A]), (0x21D, [0x21C]), (0x21F, [0x21E]), (0x223, [0x222]), (0x225, [0x224]),
    (0x227, [0x226]), (0x229, [0x228]), (0x22B, [0x22A]), (0x22D, [0x22C]), (0x22F, [0x22E]), (0x231, [0x230]),
    (0x233, [0x232]), (0x23C, [0x23B]), (0x23F, [0x2C7E]), (0x240, [0x2C7F]), (0x242, [0x241]), (0x247, [0x246]),
    (0x249, [0x248]), (0x24B, [0x24A]), (0x24D, [0x24C]), (0x24F, [0x24E]), (0x250, [0x2C6F]), (0x251, [0x2C6D]),
    (0x252, [0x2C70]), (0x253, [0x181]), (0x254, [0x186]), (0x256, [0x189]), (0x257, [0x18A]), (0x259, [0x18F]),
    (0x25B, [0x190]), (0x25C, [0xA7AB]), (0x260, [0x193]), (0x261, [0xA7AC]), (0x263, [0x194]), (0x265, [0xA78D]),
    (0x266, [0xA7AA]), (0x268, [0x197]), (0x269, [0x196]), (0x26A, [0xA7AE]), (0x26B, [0x2C62]), (0x26C, [0xA7AD]),
    (0x26F, [0x19C]), (0x271, [0x2C6E]), (0x272, [0x19D]), (0x275, [0x19F]), (0x27D, [0x2C64]), (0x280, [0x1A6]),
    (0x282, [0xA7C5]), (0x283, [0x1A9]), (0x287, [0xA7B1]), (0x288, [0x1AE]), (0x289, [0x244]), (0x28A, [0x1B1]),
    (0x28B, [0x1B2]), (0x28C, [0x245]), (0x292, [0x1B7]), (0x29D, [0xA7B2]), (0x29E, [0xA7B0])]),
  (0x3, [
    (0x345, [0x399]), (0x371, [0x370]), (0x373, [0x372]), (0x377, [0x376]), (0x37B, [0x3FD]), (0x37C, [0x3FE]),
    (0x37D, [0x3FF]), (0x3AC, [0x386]), (0x3AD, [0x388]), (0x3AE, [0x389]), (0x3AF, [0x38A]), (0x3B1, [0x391]),
    (0x3B2, [0x392]), (0x3B3, [0x393]), (0x3B4, [0x394]), (0x3B5, [0x395]), (0x3B6, [0x396]), (0x3B7, [0x397]),
    (0x3B8, [0x398]), (0x3B9, [0x399]), (0x3BA, [0x39A]), (0x3BB, [0x39B]), (0x3BC, [0x39C]), (0x3BD, [0x39D]),
    (0x3BE, [0x39E]), (0x3BF, [0x39F]), (0x3C0, [0x3A0]), (0x3C1, [0x3A1]), (0x3C2, [0x3A3]), (0x3C3, [0x3A3]),
    (0x3C4, [0x3A4]), (0x3C5, [0x3A5]), (0x3C6, [0x3A6]), (0x3C7, [0x3A7]), (0x3C8, [0x3A8]), (0x3C9, [0x3A9]),
    (0x3CA, [0x3AA]), (0x3CB, [0x3AB]), (0x3CC, [0x38C]), (0x3CD, [0x38E]), (0x3CE, [0x38F]), (0x3D0, [0x392]),
    (0x3D1, [0x398]), (0x3D5, [0x3A6]), (0x3D6, [0x3A0]), (0x3D7, [0x3CF]), (0x3D9, [0x3D8]), (0x3DB, [0x3DA]),
    (0x3DD, [0x3DC]), (0x3DF, [0x3DE]), (0x3E1, [0x3E0]), (0x3E3, [0x3E2]), (0x3E5, [0x3E4]), (0x3E7, [0x3E6]),
    (0x3E9, [0x3E8]), (0x3EB, [0x3EA]), (0x3ED, [0x3EC]), (0x3EF, [0x3EE]), (0x3F0, [0x39A]), (0x3F1, [0x3A1]),
    (0x3F2, [0x3F9]), (0x3F3, [0x37F]), (0x3F5, [0x395]), (0x3F8, [0x3F7]), (0x3FB, [0x3FA])]),
  (0x4, [
    (0x430, [0x410]), (0x431, [0x411]), (0x432, [0x412]), (0x433, [0x413]), (0x434, [0x414]), (0x435, [0x415]),
    (0x436, [0x416]), (0x437, [0x417]), (0x438, [0x418]), (0x439, [0x419]), (0x43A, [0x41A]), (0x43B, [0x41B]),
    (0x43C, [0x41C]), (0x43D, [0x41D]), (0x43E, [0x41E]), (0x43F, [0x41F]), (0x440, [0x420]), (0x441, [0x421]),
    (0x442, [0x422]), (0x443, [0x423]), (0x444, [0x424]), (0x445, [0x425]), (0x446, [0x426]), (0x447, [0x427]),
    (0x448, [0x428]), (0x449, [0x429]), (0x44A, [0x42A]), (0x44B, [0x42B]), (0x44C, [0x42C]), (0x44D, [0x42D]),
    (0x44E, [0x42E]), (0x44F, [0x42F]), (0x450, [0x400]), (0x451, [0x401]), (0x452, [0x402]), (0x453, [0x403]),
    (0x454, [0x404]), (0x455, [0x405]), (0x456, [0x406]), (0x457, [0x407]), (0x458, [0x408]), (0x459, [0x409]),
    (0x45A, [0x40A]), (0x45B, [0x40B]), (0x45C, [0x40C]), (0x45D, [0x40D]), (0x45E, [0x40E]), (0x45F, [0x40F]),
    (0x461, [0x460]), (0x463, [0x462]), (0x465, [0x464]), (0x467, [0x466]), (0x469, [0x468]), (0x46B, [0x46A]),
    (0x46D, [0x46C]), (0x46F, [0x46E]), (0x471, [0x470]), (0x473, [0x472]), (0x475, [0x474]), (0x477, [0x476]),
    (0x479, [0x478]), (0x47B, [0x47A]), (0x47D, [0x47C]), (0x47F, [0x47E]), (0x481, [0x480]), (0x48B, [0x48A]),
    (0x48D, [0x48C]), (0x48F, [0x48E]), (0x491, [0x490]), (0x493, [0x492]), (0x495, [0x494]), (0x497, [0x496]),
    (0x499, [0x498]), (0x49B, [0x49A]), (0x49D, [0x49C]), (0x49F, [0x49E]), (0x4A1, [0x4A0]), (0x4A3, [0x4A2]),
    (0x4A5, [0x4A4]), (0x4A7, [0x4A6]), (0x4A9, [0x4A8]), (0x4AB, [0x4AA]), (0x4AD, [0x4AC]), (0x4AF, [0x4AE]),
    (0x4B1, [0x4B0]), (0x4B3, [0x4B2]), (0x4B5, [0x4B4]), (0x4B7, [0x4B6]), (0x4B9, [0x4B8]), (0x4BB, [0x4BA]),
    (0x4BD, [0x4BC]), (0x4BF, [0x4BE]), (0x4C2, [0x4C1]), (0x4C4, [0x4C3]), (0x4C6, [0x4C5]), (0x4C8, [0x4C7]),
    (0x4CA, [0x4C9]), (0x4CC, [0x4CB]), (0x4CE, [0x4CD]), (0x4CF, [0x4C0]), (0x4D1, [0x4D0]), (0x4D3, [0x4D2]),
    (0x4D5, [0x4D4]), (0x4D7, [0x4D6]), (0x4D9, [0x4D8]), (0x4DB, [0x4DA]), (0x4DD, [0x4DC]), (0x4DF, [0x4DE]),
    (0x4E1, [0x4E0]), (0x4E3, [0x4E2]), (0x4E5, [0x4E4]), (0x4E7, [0x4E6]), (0x4E9, [0x4E8]), (0x4EB, [0x4EA]),
    (0x4ED, [0x4EC]), (0x4EF, [0x4EE]), (0x4F1, [0x4F0]), (0x4F3, [0x4F2]), (0x4F5, [0x4F4]), (0x4F7, [0x4F6]),
    (0x4F9, [0x4F8]), (0x4FB, [0x4FA]), (0x4FD, [0x4FC]), (0x4FF, [0x4FE])]),
  (0x5, [
    (0x501, [0x500]), (0x503, [0x502]), (0x505, [0x504]), (0x507, [0x506]), (0x509, [0x508]), (0x50B, [0x50A]),
    (0x50D, [0x50C]), (0x50F, [0x50E]), (0x511, [0x510]), (0x513, [0x512]), (0x515, [0x514]), (0x517, [0x516]),
    (0x519, [0x518]), (0x51B, [0x51A]), (0x51D, [0x51C]), (0x51F, [0x51E]), (0x521, [0x520]), (0x523, [0x522]),
    (0x525, [0x524]), (0x527, [0x526]), (0x529, [0x528]), (0x52B, [0x52A]), (0x52D, [0x52C]), (0x52F, [0x52E]),
    (0x561, [0x531]), (0x562, [0x532]), (0x563, [0x533]), (0x564, [0x534]), (0x565, [0x535]), (0x566, [0x536]),
    (0x567, [0x537]), (0x568, [0x538]), (0x569, [0x539]), (0x56A, [0x53A]), (0x56B, [0x53B]), (0x56C, [0x53C]),
    (0x56D, [0x53D]), (0x56E, [0x53E]), (0x56F, [0x53F]), (0x570, [0x540]), (0x571, [0x541]), (0x572, [0x542]),
    (0x573, [0x543]), (0x574, [0x544]), (0x575, [0x545]), (0x576, [0x546]), (0x577, [0x547]), (0x578, [0x548]),
    (0x579, [0x549]), (0x57A, [0x54A]), (0x57B, [0x54B]), (0x57C, [0x54C]), (0x57D, [0x54D]), (0x57E, [0x54E]),
    (0x57F, [0x54F]), (0x580, [0x550]), (0x581, [0x551]), (0x582, [0x552]), (0x583, [0x553]), (0x584, [0x554]),
    (0x585, [0x555]), (0x586, [0x556])]),
  (0x10, [
    (0x10D0, [0x1C90]), (0x10D1, [0x1C91]), (0x10D2, [0x1C92]), (0x10D3, [0x1C93]), (0x10D4, [0x1C94]), (0x10D5, [0x1C95]),
    (0x10D6, [0x1C96]), (0x10D7, [0x1C97]), (0x10D8, [0x1C98]), (0x10D9, [0x1C99]), (0x10DA, [0x1C9A]), (0x10DB, [0x1C9B]),
    (0x10DC, [0x1C9C]), (0x10DD, [0x1C9D]), (0x10DE, [0x1C9E]), (0x10DF, [0x1C9F]), (0x10E0, [0x1CA0]), (0x10E1, [0x1CA1]),
    (0x10E2, [0x1CA2]), (0x10E3, [0x1CA3]), (0x10E4, [0x1CA4]), (0x10E5, [0x1CA5]), (0x10E6, [0x1CA6]), (0x10E7, [0x1CA7]),
    (0x10E8, [0x1CA8]), (0x10E9, [0x1CA9]), (0x10EA, [0x1CAA]), (0x10EB, [0x1CAB]), (0x10EC, [0x1CAC]), (0x10ED, [0x1CAD]),
    (0x10EE, [0x1CAE]), (0x10EF, [0x1CAF]), (0x10F0, [0x1CB0]), (0x10F1, [0x1CB1]), (0x10F2, [0x1CB2]), (0x10F3, [0x1CB3]),
    (0x10F4, [0x1CB4]), (0x10F5, [0x1CB5]), (0x10F6, [0x1CB6]), (0x10F7, [0x1CB7]), (0x10F8, [0x1CB8]), (0x10F9, [0x1CB9]),
    (0x10FA, [0x1CBA]), (0x10FD, [0x1CBD]), (0x10FE, [0x1CBE]), (0x10FF, [0x1CBF])]),
  (0x13, [
    (0x13F8, [0x13F0]), (0x13F9, [0x13F1]), (0x13FA, [0x13F2]), (0x13FB, [0x13F3]), (0x13FC, [0x13F4]), (0x13FD, [0x13F5])]),
  (0x1C, [
    (0x1C80, [0x412]), (0x1C81, [0x414]), (0x1C82, [0x41E]), (0x1C83, [0x421]), (0x1C84, [0x422]), (0x1C85, [0x422]),
    (0x1C86, [0x42A]), (0x1C87, [0x462]), (0x1C88, [0xA64A])]),
  (0x1D, [
    (0x1D79, [0xA77D]), (0x1D7D, [0x2C63]), (0x1D8E, [0xA7C6])]),
  (0x1E, [
    (0x1E01, [0x1E00]), (0x1E03, [0x1E02]), (0x1E05, [0x1E04]), (0x1E07, [0x1E06]), (0x1E09, [0x1E08]), (0x1E0B, [0x1E0A]),
    (0x1E0D, [0x1E0C]), (0x1E0F, [0x1E0E]), (0x1E11, [0x1E10]), (0x1E13, [0x1E12]), (0x1E15, [0x1E14]), (0x1E17, [0x1E16]),
    (0x1E19, [0x1E18]), (0x1E1B, [0x1E1A]), (0x1E1D, [0x1E1C]), (0x1E1F, [0x1E1E]), (0x1E21, [0x1E20]), (0x1E23, [0x1E22]),
    (0x1E25, [0x1E24]), (0x1E27, [0x1E26]), (0x1E29, [0x1E28]), (0x1E2B, [0x1E2A]), (0x1E2D, [0x1E2C]), (0x1E2F, [0x1E2E]),
    (0x1E31, [0x1E30]), (0x1E33, [0x1E32]), (0x1E35, [0x1E34]), (0x1E37, [0x1E36]), (0x1E39, [0x1E38]), (0x1E3B, [0x1E3A]),
    (0x1E3D, [0x1E3C]), (0x1E3F, [0x1E3E]), (0x1E41, [0x1E40]), (0x1E43, [0x1E42]), (0x1E45, [0x1E44]), (0x1E47, [0x1E46]),
    (0x1E49, [0x1E48]), (0x1E4B, [0x1E4A]), (0x1E4D, [0x1E4C]), (0x1E4F, [0x1E4E]), (0x1E51, [0x1E50]), (0x1E53, [0x1E52]),
    (0x1E55, [0x1E54]), (0x1E57, [0x1E56]), (0x1E59, [0x1E58]), (0x1E5B, [0x1E5A]), (0x1E5D, [0x1E5C]), (0x1E5F, [0x1E5E]),
    (0x1E61, [0x1E60]), (0x1E63, [0x1E62]), (0x1E65, [0x1E64]), (0x1E67, [0x1E66]), (0x1E69, [0x1E68]), (0x1E6B, [0x1E6A]),
    (0x1E6D, [0x1E6C]), (0x1E6F, [0x1E6E]), (0x1E71, [0x1E70]), (0x1E73, [0x1E72]), (0x1E75, [0x1E74]), (0x1E77, [0x1E76]),
    (0x1E79, [0x1E78]), (0x1E7B, [0x1E7A]), (0x1E7D, [0x1E7C]), (0x1E7F, [0x1E7E]), (0x1E81, [0x1E80]), (0x1E83, [0x1E82]),
    (0x1E85, [0x1E84]), (0x1E87, [0x1E86]), (0x1E89, [0x1E88]), (0x1E8B, [0x1E8A]), (0x1E8D, [0x1E8C]), (0x1E8F, [0x1E8E]),
    (0x1E91, [0x1E90]), (0x1E93, [0x1E92]), (0x1E95, [0x1E94]), (0x1E9B, [0x1E60]), (0x1EA1, [0x1EA0]), (0x1EA3, [0x1EA2]),
    (0x1EA5, [0x1EA4]), (0x1EA7, [0x1EA6]), (0x1EA9, [0x1EA8]), (0x1EAB, [0x1EAA]), (0x1EAD, [0x1EAC]), (0x1EAF, [0x1EAE]),
    (0x1EB1, [0x1EB0]), (0x1EB3, [0x1EB2]), (0x1EB5, [0x1EB4]), (0x1EB7, [0x1EB6]), (0x1EB9, [0x1EB8]), (0x1EBB, [0x1EBA]),
    (0x1EBD, [0x1EBC]), (0x1EBF, [0x1EBE]), (0x1EC1, [0x1EC0]), (0x1EC3, [0x1EC2]), (0x1EC5, [0x1EC4]), (0x1EC7, [0x1EC6]),
    (0x1EC9, [0x1EC8]), (0x1ECB, [0x1ECA]), (0x1ECD, [0x1ECC]), (0x1ECF, [0x1ECE]), (0x1ED1, [0x1ED0]), (0x1ED3, [0x1ED2]),
    (0x1ED5, [0x1ED4]), (0x1ED7, [0x1ED6]), (0x1ED9, [0x1ED8]), (0x1EDB, [0x1EDA]), (0x1EDD, [0x1EDC]), (0x1EDF, [0x1EDE]),
    (0x1EE1, [0x1EE0]), (0x1EE3, [0x1EE2]), (0x1EE5, [0x1EE4]), (0x1EE7, [0x1EE6]), (0x1EE9, [0x1EE8]), (0x1EEB, [0x1EEA]),
    (0x1EED, [0x1EEC]), (0x1EEF, [0x1EEE]), (0x1EF1, [0x1EF0]), (0x1EF3, [0x1EF2]), (0x1EF5, [0x1EF4]), (0x1EF7, [0x1EF6]),
    (0x1EF9, [0x1EF8]), (0x1EFB, [0x1EFA]), (0x1EFD, [0x1EFC]), (0x1EFF, [0x1EFE])]),
  (0x1F, [
    (0x1F00, [0x1F08]), (0x1F01, [0x1F09]), (0x1F02, [0x1F0A]), (0x1F03, [0x1F0B]), (0x1F04, [0x1F0C]), (0x1F05, [0x1F0D]),
    (0x1F06, [0x1F0E]), (0x1F07, [0x1F0F]), (0x1F10, [0x1F18]), (0x1F11, [0x1F19]), (0x1F12, [0x1F1A]), (0x1F13, [0x1F1B]),
    (0x1F14, [0x1F1C]), (0x1F15, [0x1F1D]), (0x1F20, [0x1F28]), (0x1F21, [0x1F29]), (0x1F22, [0x1F2A]), (0x1F23, [0x1F2B]),
    (0x1F24, [0x1F2C]), (0x1F25, [0x1F2D]), (0x1F26, [0x1F2E]), (0x1F27, [0x1F2F]), (0x1F30, [0x1F38]), (0x1F31, [0x1F39]),
    (0x1F32, [0x1F3A]), (0x1F33, [0x1F3B]), (0x1F34, [0x1F3C]), (0x1F35, [0x1F3D]), (0x1F36, [0x1F3E]), (0x1F37, [0x1F3F]),
    (0x1F40, [0x1F48]), (0x1F41, [0x1F49]), (0x1F42, [0x1F4A]), (0x1F43, [0x1F4B]), (0x1F44, [0x1F4C]), (0x1F45, [0x1F4D]),
    (0x1F51, [0x1F59]), (0x1F53, [0x1F5B]), (0x1F55, [0x1F5D]), (0x1F57, [0x1F5F]), (0x1F60, [0x1F68]), (0x1F61, [0x1F69]),
    (0x1F62, [0x1F6A]), (0x1F63, [0x1F6B]), (0x1F64, [0x1F6C]), (0x1F65, [0x1F6D]), (0x1F66, [0x1F6E]), (0x1F67, [0x1F6F]),
    (0x1F70, [0x1FBA]), (0x1F71, [0x1FBB]), (0x1F72, [0x1FC8]), (0x1F73, [0x1FC9]), (0x1F74, [0x1FCA]), (0x1F75, [0x1FCB]),
    (0x1F76, [0x1FDA]), (0x1F77, [0x1FDB]), (0x1F78, [0x1FF8]), (0x1F79, [0x1FF9]), (0x1F7A, [0x1FEA]), (0x1F7B, [0x1FEB]),
    (0x1F7C, [0x1FFA]), (0x1F7D, [0x1FFB]), (0x1F80, [0x1F88]), (0x1F81, [0x1F89]), (0x1F82, [0x1F8A]), (0x1F83, [0x1F8B]),
    (0x1F84, [0x1F8C]), (0x1F85, [0x1F8D]), (0x1F86, [0x1F8E]), (0x1F87, [0x1F8F]), (0x1F90, [0x1F98]), (0x1F91, [0x1F99]),
    (0x1F92, [0x1F9A]), (0x1F93, [0x1F9B]), (0x1F94, [0x1F9C]), (0x1F95, [0x1F9D]), (0x1F96, [0x1F9E]), (0x1F97, [0x1F9F]),
    (0x1FA0, [0x1FA8]), (0x1FA1, [0x1FA9]), (0x1FA2, [0x1FAA]), (0x1FA3, [0x1FAB]), (0x1FA4, [0x1FAC]), (0x1FA5, [0x1FAD]),
    (0x1FA6, [0x1FAE]), (0x1FA7, [0x1FAF]), (0x1FB0, [0x1FB8]), (0x1FB1, [0x1FB9]), (0x1FB3, [0x1FBC]), (0x1FBE, [0x399]),
    (0x1FC3, [0x1FCC]), (0x1FD0, [0x1FD8]), (0x1FD1, [0x1FD9]), (0x1FE0, [0x1FE8]), (0x1FE1, [0x1FE9]), (0x1FE5, [0x1FEC]),
    (0x1FF3, [0x1FFC])]),
  (0x21, [
    (0x214E, [0x2132]), (0x2170, [0x2160]), (0x2171, [0x2161]), (0x2172, [0x2162]), (0x2173, [0x2163]), (0x2174, [0x2164]),
    (0x2175, [0x2165]), (0x2176, [0x2166]), (0x2177, [0x2167]), (0x2178, [0x2168]), (0x2179, [0x2169]), (0x217A, [0x216A]),
    (0x217B, [0x216B]), (0x217C, [0x216C]), (0x217D, [0x216D]), (0x217E, [0x216E]), (0x217F, [0x216F]), (0x2184, [0x2183])]),
  (0x24, [
    (0x24D0, [0x24B6]), (0x24D1, [0x24B7]), (0x24D2, [0x24B8]), (0x24D3, [0x24B9]), (0x24D4, [0x24BA]), (0x24D5, [0x24BB]),
    (0x24D6, [0x24BC]), (0x24D7, [0x24BD]), (0x24D8, [0x24BE]), (0x24D9, [0x24BF]), (0x24DA, [0x24C0]), (0x24DB, [0x24C1]),
    (0x24DC, [0x24C2]), (0x24DD, [0x24C3]), (0x24DE, [0x24C4]), (0x24DF, [0x24C5]), (0x24E0, [0x24C6]), (0x24E1, [0x24C7]),
    (0x24E2, [0x24C8]), (0x24E3, [0x24C9]), (0x24E4, [0x24CA]), (0x24E5, [0x24CB]), (0x24E6, [0x24CC]), (0x24E7, [0x24CD]),
    (0x24E8, [0x24CE]), (0x24E9, [0x24CF])]),
  (0x2C, [
    (0x2C30, [0x2C00]), (0x2C31, [0x2C01]), (0x2C32, [0x2C02]), (0x2C33, [0x2C03]), (0x2C34, [0x2C04]), (0x2C35, [0x2C05]),
    (0x2C36, [0x2C06]), (0x2C37, [0x2C07]), (0x2C38, [0x2C08]), (0x2C39, [0x2C09]), (0x2C3A, [0x2C0A]), (0x2C3B, [0x2C0B]),
    (0x2C3C, [0x2C0C]), (0x2C3D, [0x2C0D]), (0x2C3E, [0x2C0E]), (0x2C3F, [0x2C0F]), (0x2C40, [0x2C10]), (0x2C41, [0x2C11]),
    (0x2C42, [0x2C12]), (0x2C43, [0x2C13]), (0x2C44, [0x2C14]), (0x2C45, [0x2C15]), (0x2C46, [0x2C16]), (0x2C47, [0x2C17]),
    (0x2C48, [0x2C18]), (0x2C49, [0x2C19]), (0x2C4A, [0x2C1A]), (0x2C4B, [0x2C1B]), (0x2C4C, [0x2C1C]), (0x2C4D, [0x2C1D]),
    (0x2C4E, [0x2C1E]), (0x2C4F, [0x2C1F]), (0x2C50, [0x2C20]), (0x2C51, [0x2C21]), (0x2C52, [0x2C22]), (0x2C53, [0x2C23]),
    (0x2C54, [0x2C24]), (0x2C55, [0x2C25]), (0x2C56, [0x2C26]), (0x2C57, [0x2C27]), (0x2C58, [0x2C28]), (0x2C59, [0x2C29]),
    (0x2C5A, [0x2C2A]), (0x2C5B, [0x2C2B]), (0x2C5C, [0x2C2C]), (0x2C5D, [0x2C2D]), (0x2C5E, [0x2C2E]), (0x2C61, [0x2C60]),
    (0x2C65, [0x23A]), (0x2C66, [0x23E]), (0x2C68, [0x2C67]), (0x2C6A, [0x2C69]), (0x2C6C, [0x2C6B]), (0x2C73, [0x2C72]),
    (0x2C76, [0x2C75]), (0x2C81, [0x2C80]), (0x2C83, [0x2C82]), (0x2C85, [0x2C84]), (0x2C87, [0x2C86]), (0x2C89, [0x2C88]),
    (0x2C8B, [0x2C8A]), (0x2C8D, [0x2C8C]), (0x2C8F, [0x2C8E]), (0x2C91, [0x2C90]), (0x2C93, [0x2C92]), (0x2C95, [0x2C94]),
    (0x2C97, [0x2C96]), (0x2C99, [0x2C98]), (0x2C9B, [0x2C9A]), (0x2C9D, [0x2C9C]), (0x2C9F, [0x2C9E]), (0x2CA1, [0x2CA0]),
    (0x2CA3, [0x2CA2]), (0x2CA5, [0x2CA4]), (0x2CA7, [0x2CA6]), (0x2CA9, [0x2CA8]), (0x2CAB, [0x2CAA]), (0x2CAD, [0x2CAC]),
    (0x2CAF, [0x2CAE]), (0x2CB1, [0x2CB0]), (0x2CB3, [0x2CB2]), (0x2CB5, [0x2CB4]), (0x2CB7, [0x2CB6]), (0x2CB9, [0x2CB8]),
    (0x2CBB, [0x2CBA]), (0x2CBD, [0x2CBC]), (0x2CBF, [0x2CBE]), (0x2CC1, [0x2CC0]), (0x2CC3, [0x2CC2]), (0x2CC5, [0x2CC4]),
    (0x2CC7, [0x2CC6]), (0x2CC9, [0x2CC8]), (0x2CCB, [0x2CCA]), (0x2CCD, [0x2CCC]), (0x2CCF, [0x2CCE]), (0x2CD1, [0x2CD0]),
    (0x2CD3, [0x2CD2]), (0x2CD5, [0x2CD4]), (0x2CD7, [0x2CD6]), (0x2CD9, [0x2CD8]), (0x2CDB, [0x2CDA]), (0x2CDD, [0x2CDC]),
    (0x2CDF, [0x2CDE]), (0x2CE1, [0x2CE0]), (0x2CE3, [0x2CE2]), (0x2CEC, [0x2CEB]), (0x2CEE, [0x2CED]), (0x2CF3, [0x2CF2])]),
  (0x2D, [
    (0x2D00, [0x10A0]), (0x2D01, [0x10A1]), (0x2D02, [0x10A2]), (0x2D03, [0x10A3]), (0x2D04, [0x10A4]), (0x2D05, [0x10A5]),
    (0x2D06, [0x10A6]), (0x2D07, [0x10A7]), (0x2D08, [0x10A8]), (0x2D09, [0x10A9]), (0x2D0A, [0x10AA]), (0x2D0B, [0x10AB]),
    (0x2D0C, [0x10AC]), (0x2D0D, [0x10AD]), (0x2D0E, [0x10AE]), (0x2D0F, [0x10AF]), (0x2D10, [0x10B0]), (0x2D11, [0x10B1]),
    (0x2D12, [0x10B2]), (0x2D13, [0x10B3]), (0x2D14, [0x10B4]), (0x2D15, [0x10B5]), (0x2D16, [0x10B6]), (0x2D17, [0x10B7]),
    (0x2D18, [0x10B8]), (0x2D19, [0x10B9]), (0x2D1A, [0x10BA]), (0x2D1B, [0x10BB]), (0x2D1C, [0x10BC]), (0x2D1D, [0x10BD]),
    (0x2D1E, [0x10BE]), (0x2D1F, [0x10BF]), (0x2D20, [0x10C0]), (0x2D21, [0x10C1]), (0x2D22, [0x10C2]), (0x2D23, [0x10C3]),
    (0x2D24, [0x10C4]), (0x2D25, [0x10C5]), (0x2D27, [0x10C7]), (0x2D2D, [0x10CD])]),
  (0xA6, [
    (0xA641, [0xA640]), (0xA643, [0xA642]), (0xA645, [0xA644]), (0xA647, [0xA646]), (0xA649, [0xA648]), (0xA64B, [0xA64A]),
    (0xA64D, [0xA64C]), (0xA64F, [0xA64E]), (0xA651, [0xA650]), (0xA653, [0xA652]), (0xA655, [0xA654]), (0xA657, [0xA656]),
    (0xA659, [0xA658]), (0xA65B, [0xA65A]), (0xA65D, [0xA65C]), (0xA65F, [0xA65E]), (0xA661, [0xA660]), (0xA663, [0xA662]),
    (0xA665, [0xA664]), (0xA667, [0xA666]), (0xA669, [0xA668]), (0xA66B, [0xA66A]), (0xA66D, [0xA66C]), (0xA681, [0xA680]),
    (0xA683, [0xA682]), (0xA685, [0xA684]), (0xA687, [0xA686]), (0xA689, [0xA688]), (0xA68B, [0xA68A]), (0xA68D, [0xA68C]),
    (0xA68F, [0xA68E]), (0xA691, [0xA690]), (0xA693, [0xA692]), (0xA695, [0xA694]), (0xA697, [0xA696]), (0xA699, [0xA698]),
    (0xA69B, [0xA69A])]),
  (0xA7, [
    (0xA723, [0xA722]), (0xA725, [0xA724]), (0xA727, [0xA726]), (0xA729, [0xA728]), (0xA72B, [0xA72A]), (0xA72D, [0xA72C]),
    (0xA72F, [0xA72E]), (0xA733, [0xA732]), (0xA735, [0xA734]), (0xA737, [0xA736]), (0xA739, [0xA738]), (0xA73B, [0xA73A]),
    (0xA73D, [0xA73C]), (0xA73F, [0xA73E]), (0xA741, [0xA740]), (0xA743, [0xA742]), (0xA745, [0xA744]), (0xA747, [0xA746]),
    (0xA749, [0xA748]), (0xA74B, [0xA74A]), (0xA74D, [0xA74C]), (0xA74F, [0xA74E]), (0xA751, [0xA750]), (0xA753, [0xA752]),
    (0xA755, [0xA754]), (0xA757, [0xA756]), (0xA759, [0xA758]), (0xA75B, [0xA75A]), (0xA75D, [0xA75C]), (0xA75F, [0xA75E]),
    (0xA761, [0xA760]), (0xA763, [0xA762]), (0xA765, [0xA764]), (0xA767, [0xA766]), (0xA769, [0xA768]), (0xA76B, [0xA76A]),
    (0xA76D, [0xA76C]), (0xA76F, [0xA76E]), (0xA77A, [0xA779]), (0xA77C, [0xA77B]), (0xA77F, [0xA77E]), (0xA781, [0xA780]),
    (0xA783, [0xA782]), (0xA785, [0xA784]), (0xA787, [0xA786]), (0xA78C, [0xA78B]), (0xA791, [0xA790]), (0xA793, [0xA792]),
    (0xA794, [0xA7C4]), (0xA797, [0xA796]), (0xA799, [0xA798]), (0xA79B, [0xA79A]), (0xA79D, [0xA79C]), (0xA79F, [0xA79E]),
    (0xA7A1, [0xA7A0]), (0xA7A3, [0xA7A2]), (0xA7A5, [0xA7A4]), (0xA7A7, [0xA7A6]), (0xA7A9, [0xA7A8]), (0xA7B5, [0xA7B4]),
    (0xA7B7, [0xA7B6]), (0xA7B9, [0xA7B8]), (0xA7BB, [0xA7BA]), (0xA7BD, [0xA7BC]), (0xA7BF, [0xA7BE]), (0xA7C3, [0xA7C2]),
    (0xA7C8, [0xA7C7]), (0xA7CA, [0xA7C9]), (0xA7F6, [0xA7F5])]),
  (0xAB, [
    (0xAB53, [0xA7B3]), (0xAB70, [0x13A0]), (0xAB71, [0x13A1]), (0xAB72, [0x13A2]), (0xAB73, [0x13A3]), (0xAB74, [0x13A4]),
    (0xAB75, [0x13A5]), (0xAB76, [0x13A6]), (0xAB77, [0x13A7]), (0xAB78, [0x13A8]), (0xAB79, [0x13A9]), (0xAB7A, [0x13AA]),
    (0xAB7B, [0x13AB]), (0xAB7C, [0x13AC]), (0xAB7D, [0x13AD]), (0xAB7E, [0x13AE]), (0xAB7F, [0x13AF]), (0xAB80, [0x13B0]),
    (0xAB81, [0x13B1]), (0xAB82, [0x13B2]), (0xAB83, [0x13B3]), (0xAB84, [0x13B4]), (0xAB85, [0x13B5]), (0xAB86, [0x13B6]),
    (0xAB87, [0x13B7]), (0xAB88, [0x13B8]), (0xAB89, [0x13B9]), (0xAB8A, [0x13BA]), (0xAB8B, [0x13BB]), (0xAB8C, [0x13BC]),
    (0xAB8D, [0x13BD]), (0xAB8E, [0x13BE]), (0xAB8F, [0x13BF]), (0xAB90, [0x13C0]), (0xAB91, [0x13C1]), (0xAB92, [0x13C2]),
    (0xAB93, [0x13C3]), (0xAB94, [0x13C4]), (0xAB95, [0x13C5]), (0xAB96, [0x13C6]), (0xAB97, [0x13C7]), (0xAB98, [0x13C8]),
    (0xAB99, [0x13C9]), (0xAB9A, [0x13CA]), (0xAB9B, [0x13CB]), (0xAB9C, [0x13CC]), (0xAB9D, [0x13CD]), (0xAB9E, [0x13CE]),
    (0xAB9F, [0x13CF]), (0xABA0, [0x13D0]), (0xABA1, [0x13D1]), (0xABA2, [0x13D2]), (0xABA3, [0x13D3]), (0xABA4, [0x13D4]),
    (0xABA5, [0x13D5]), (0xABA6, [0x13D6]), (0xABA7, [0x13D7]), (0xABA8, [0x13D8]), (0xABA9, [0x13D9]), (0xABAA, [0x13DA]),
    (0xABAB, [0x13DB]), (0xABAC, [0x13DC]), (0xABAD, [0x13DD]), (0xABAE, [0x13DE]), (0xABAF, [0x13DF]), (0xABB0, [0x13E0]),
    (0xABB1, [0x13E1]), (0xABB2, [0x13E2]), (0xABB3, [0x13E3]), (0xABB4, [0x13E4]), (0xABB5, [0x13E5]), (0xABB6, [0x13E6]),
    (0xABB7, [0x13E7]), (0xABB8, [0x13E8]), (0xABB9, [0x13E9]), (0xABBA, [0x13EA]), (0xABBB, [0x13EB]), (0xABBC, [0x13EC]),
    (0xABBD, [0x13ED]), (0xABBE, [0x13EE]), (0xABBF, [0x13EF])]),
  (0xFF, [
    (0xFF41, [0xFF21]), (0xFF42, [0xFF22]), (0xFF43, [0xFF23]), (0xFF44, [0xFF24]), (0xFF45, [0xFF25]), (0xFF46, [0xFF26]),
    (0xFF47, [0xFF27]), (0xFF48, [0xFF28]), (0xFF49, [0xFF29]), (0xFF4A, [0xFF2A]), (0xFF4B, [0xFF2B]), (0xFF4C, [0xFF2C]),
    (0xFF4D, [0xFF2D]), (0xFF4E, [0xFF2E]), (0xFF4F, [0xFF2F]), (0xFF50, [0xFF30]), (0xFF51, [0xFF31]), (0xFF52, [0xFF32]),
    (0xFF53, [0xFF33]), (0xFF54, [0xFF34]), (0xFF55, [0xFF35]), (0xFF56, [0xFF36]), (0xFF57, [0xFF37]), (0xFF58, [0xFF38]),
    (0xFF59, [0xFF39]), (0xFF5A, [0xFF3A])]),
  (0x104, [
    (0x10428, [0x10400]), (0x10429, [0x10401]), (0x1042A, [0x10402]), (0x1042B, [0x10403]), (0x1042C, [0x10404]), (0x1042D, [0x10405]),
    (0x1042E, [0x10406]), (0x1042F, [0x10407]), (0x10430, [0x10408]), (0x10431, [0x10409]), (0x10432, [0x1040A]), (0x10433, [0x1040B]),
    (0x10434, [0x1040C]), (0x10435, [0x1040D]), (0x10436, [0x1040E]), (0x10437, [0x1040F]), (0x10438, [0x10410]), (0x10439, [0x10411]),
    (0x1043A, [0x10412]), (0x1043B, [0x10413]), (0x1043C, [0x10414]), (0x1043D, [0x10415]), (0x1043E, [0x10416]), (0x1043F, [0x10417]),
    (0x10440, [0x10418]), (0x10441, [0x10419]), (0x10442, [0x1041A]), (0x10443, [0x1041B]), (0x10444, [0x1041C]), (0x10445, [0x1041D]),
    (0x10446, [0x1041E]), (0x10447, [0x1041F]), (0x10448, [0x10420]), (0x10449, [0x10421]), (0x1044A, [0x10422]), (0x1044B, [0x10423]),
    (0x1044C, [0x10424]), (0x1044D, [0x10425]), (0x1044E, [0x10426]), (0x1044F, [0x10427]), (0x104D8, [0x104B0]), (0x104D9, [0x104B1]),
    (0x104DA, [0x104B2]), (0x104DB, [0x104B3]), (0x104DC, [0x104B4]), (0x104DD, [0x104B5]), (0x104DE, [0x104B6]), (0x104DF, [0x104B7]),
    (0x104E0, [0x104B8]), (0x104E1, [0x104B9]), (0x104E2, [0x104BA]), (0x104E3, [0x104BB]), (0x104E4, [0x104BC]), (0x104E5, [0x104BD]),
    (0x104E6, [0x104BE]), (0x104E7, [0x104BF]), (0x104E8, [0x104C0]), (0x104E9, [0x104C1]), (0x104EA, [0x104C2]), (0x104EB, [0x104C3]),
    (0x104EC, [0x104C4]), (0x104ED, [0x104C5]), (0x104EE, [0x104C6]), (0x104EF, [0x104C7]), (0x104F0, [0x104C8]), (0x104F1, [0x104C9]),
    (0x104F2, [0x104CA]), (0x104F3, [0x104CB]), (0x104F4, [0x104CC]), (0x104F5, [0x104CD]), (0x104F6, [0x104CE]), (0x104F7, [0x104CF]),
    (0x104F8, [0x104D0]), (0x104F9, [0x104D1]), (0x104FA, [0x104D2]), (0x104FB, [0x104D3])]),
  (0x10C, [
    (0x10CC0, [0x10C80]), (0x10CC1, [0x10C81]), (0x10CC2, [0x10C82]), (0x10CC3, [0x10C83]), (0x10CC4, [0x10C84]), (0x10CC5, [0x10C85]),
    (0x10CC6, [0x10C86]), (0x10CC7, [0x10C87]), (0x10CC8, [0x10C88]), (0x10CC9, [0x10C89]), (0x10CCA, [0x10C8A]), (0x10CCB, [0x10C8B]),
    (0x10CCC, [0x10C8C]), (0x10CCD, [0x10C8D]), (0x10CCE, [0x10C8E]), (0x10CCF, [0x10C8F]), (0x10CD0, [0x10C90]), (0x10CD1, [0x10C91]),
    (0x10CD2, [0x10C92]), (0x10CD3, [0x10C93]), (0x10CD4, [0x10C94]), (0x10CD5, [0x10C95]), (0x10CD6, [0x10C96]), (0x10CD7, [0x10C97]),
    (0x10CD8, [0x10C98]), (0x10CD9, [0x10C99]), (0x10CDA, [0x10C9A]), (0x10CDB, [0x10C9B]), (0x10CDC, [0x10C9C]), (0x10CDD, [0x10C9D]),
    (0x10CDE, [0x10C9E]), (0x10CDF, [0x10C9F]), (0x10CE0, [0x10CA0]), (0x10CE1, [0x10CA1]), (0x10CE2, [0x10CA2]), (0x10CE3, [0x10CA3]),
    (0x10CE4, [0x10CA4]), (0x10CE5, [0x10CA5]), (0x10CE6, [0x10CA6]), (0x10CE7, [0x10CA7]), (0x10CE8, [0x10CA8]), (0x10CE9, [0x10CA9]),
    (0x10CEA, [0x10CAA]), (0x10CEB, [0x10CAB]), (0x10CEC, [0x10CAC]), (0x10CED, [0x10CAD]), (0x10CEE, [0x10CAE]), (0x10CEF, [0x10CAF]),
    (0x10CF0, [0x10CB0]), (0x10CF1, [0x10CB1]), (0x10CF2, [0x10CB2])]),
  (0x118, [
    (0x118C0, [0x118A0]), (0x118C1, [0x118A1]), (0x118C2, [0x118A2]), (0x118C3, [0x118A3]), (0x118C4, [0x118A4]), (0x118C5, [0x118A5]),
    (0x118C6, [0x118A6]), (0x118C7, [0x118A7]), (0x118C8, [0x118A8]), (0x118C9, [0x118A9]), (0x118CA, [0x118AA]), (0x118CB, [0x118AB]),
    (0x118CC, [0x118AC]), (0x118CD, [0x118AD]), (0x118CE, [0x118AE]), (0x118CF, [0x118AF]), (0x118D0, [0x118B0]), (0x118D1, [0x118B1]),
    (0x118D2, [0x118B2]), (0x118D3, [0x118B3]), (0x118D4, [0x118B4]), (0x118D5, [0x118B5]), (0x118D6, [0x118B6]), (0x118D7, [0x118B7]),
    (0x118D8, [0x118B8]), (0x118D9, [0x118B9]), (0x118DA, [0x118BA]), (0x118DB, [0x118BB]), (0x118DC, [0x118BC]), (0x118DD, [0x118BD]),
    (0x118DE, [0x118BE]), (0x118DF, [0x118BF])]),
  (0x16E, [
    (0x16E60, [0x16E40]), (0x16E61, [0x16E41]), (0x16E62, [0x16E42]), (0x16E63, [0x16E43]), (0x16E64, [0x16E44]), (0x16E65, [0x16E45]),
    (0x16E66, [0x16E46]), (0x16E67, [0x16E47]), (0x16E68, [0x16E48]), (0x16E69, [0x16E49]), (0x16E6A, [0x16E4A]), (0x16E6B, [0x16E4B]),
    (0x16E6C, [0x16E4C]), (0x16E6D, [0x16E4D]), (0x16E6E, [0x16E4E]), (0x16E6F, [0x16E4F]), (0x16E70, [0x16E50]), (0x16E71, [0x16E51]),
    (0x16E72, [0x16E52]), (0x16E73, [0x16E53]), (0x16E74, [0x16E54]), (0x16E75, [0x16E55]), (0x16E76, [0x16E56]), (0x16E77, [0x16E57]),
    (0x16E78, [0x16E58]), (0x16E79, [0x16E59]), (0x16E7A, [0x16E5A]), (0x16E7B, [0x16E5B]), (0x16E7C, [0x16E5C]), (0x16E7D, [0x16E5D]),
    (0x16E7E, [0x16E5E]), (0x16E7F, [0x16E5F])]),
  (0x1E9, [
    (0x1E922, [0x1E900]), (0x1E923, [0x1E901]), (0x1E924, [0x1E902]), (0x1E925, [0x1E903]), (0x1E926, [0x1E904]), (0x1E927, [0x1E905]),
    (0x1E928, [0x1E906]), (0x1E929, [0x1E907]), (0x1E92A, [0x1E908]), (0x1E92B, [0x1E909]), (0x1E92C, [0x1E90A]), (0x1E92D, [0x1E90B]),
    (0x1E92E, [0x1E90C]), (0x1E92F, [0x1E90D]), (0x1E930, [0x1E90E]), (0x1E931, [0x1E90F]), (0x1E932, [0x1E910]), (0x1E933, [0x1E911]),
    (0x1E934, [0x1E912]), (0x1E935, [0x1E913]), (0x1E936, [0x1E914]), (0x1E937, [0x1E915]), (0x1E938, [0x1E916]), (0x1E939, [0x1E917]),
    (0x1E93A, [0x1E918]), (0x1E93B, [0x1E919]), (0x1E93C, [0x1E91A]), (0x1E93D, [0x1E91B]), (0x1E93E, [0x1E91C]), (0x1E93F, [0x1E91D]),
    (0x1E940, [0x1E91E]), (0x1E941, [0x1E91F]), (0x1E942, [0x1E920]), (0x1E943, [0x1E921])]),
  (0x0, [
    (0xDF, [0x53, 0x53])]),
  (0xFB, [
    (0xFB00, [0x46, 0x46]), (0xFB01, [0x46, 0x49]), (0xFB02, [0x46, 0x4C]), (0xFB03, [0x46, 0x46, 0x49]), (0xFB04, [0x46, 0x46, 0x4C]), (0xFB05, [0x53, 0x54]),
    (0xFB06, [0x53, 0x54])]),
  (0x5, [
    (0x587, [0x535, 0x552])]),
  (0xFB, [
    (0xFB13, [0x544, 0x546]), (0xFB14, [0x544, 0x535]), (0xFB15, [0x544, 0x53B]), (0xFB16, [0x54E, 0x546]), (0xFB17, [0x544, 0x53D])]),
  (0x1, [
    (0x149, [0x2BC, 0x4E])]),
  (0x3, [
    (0x390, [0x399, 0x308, 0x301]), (0x3B0, [0x3A5, 0x308, 0x301])]),
  (0x1, [
    (0x1F0, [0x4A, 0x30C])]),
  (0x1E, [
    (0x1E96, [0x48, 0x331]), (0x1E97, [0x54, 0x308]), (0x1E98, [0x57, 0x30A]), (0x1E99, [0x59, 0x30A]), (0x1E9A, [0x41, 0x2BE])]),
  (0x1F, [
    (0x1F50, [0x3A5, 0x313]), (0x1F52, [0x3A5, 0x313, 0x300]), (0x1F54, [0x3A5, 0x313, 0x301]), (0x1F56, [0x3A5, 0x313, 0x342]), (0x1FB6, [0x391, 0x342]), (0x1FC6, [0x397, 0x342]),
    (0x1FD2, [0x399, 0x308, 0x300]), (0x1FD3, [0x399, 0x308, 0x301]), (0x1FD6, [0x399, 0x342]), (0x1FD7, [0x399, 0x308, 0x342]), (0x1FE2, [0x3A5, 0x308, 0x300]), (0x1FE3, [0x3A5, 0x308, 0x301]),
    (0x1FE4, [0x3A1, 0x313]), (0x1FE6, [0x3A5, 0x342]), (0x1FE7, [0x3A5, 0x308, 0x342]), (0x1FF6, [0x3A9, 0x342]), (0x1F80, [0x1F08, 0x399]), (0x1F81, [0x1F09, 0x399]),
    (0x1F82, [0x1F0A, 0x399]), (0x1F83, [0x1F0B, 0x399]), (0x1F84, [0x1F0C, 0x399]), (0x1F85, [0x1F0D, 0x399]), (0x1F86, [0x1F0E, 0x399]), (0x1F87, [0x1F0F, 0x399]),
    (0x1F88, [0x1F08, 0x399]), (0x1F89, [0x1F09, 0x399]), (0x1F8A, [0x1F0A, 0x399]), (0x1F8B, [0x1F0B, 0x399]), (0x1F8C, [0x1F0C, 0x399]), (0x1F8D, [0x1F0D, 0x399]),
    (0x1F8E, [0x1F0E, 0x399]), (0x1F8F, [0x1F0F, 0x399]), (0x1F90, [0x1F28, 0x399]), (0x1F91, [0x1F29, 0x399]), (0x1F92, [0x1F2A, 0x399]), (0x1F93, [0x1F2B, 0x399]),
    (0x1F94, [0x1F2C, 0x399]), (0x1F95, [0x1F2D, 0x399]), (0x1F96, [0x1F2E, 0x399]), (0x1F97, [0x1F2F, 0x399]), (0x1F98, [0x1F28, 0x399]), (0x1F99, [0x1F29, 0x399]),
    (0x1F9A, [0x1F2A, 0x399]), (0x1F9B, [0x1F2B, 0x399]), (0x1F9C, [0x1F2C, 0x399]), (0x1F9D, [0x1F2D, 0x399]), (0x1F9E, [0x1F2E, 0x399]), (0x1F9F, [0x1F2F, 0x399]),
    (0x1FA0, [0x1F68, 0x399]), (0x1FA1, [0x1F69, 0x399]), (0x1FA2, [0x1F6A, 0x399]), (0x1FA3, [0x1F6B, 0x399]), (0x1FA4, [0x1F6C, 0x399]), (0x1FA5, [0x1F6D, 0x399]),
    (0x1FA6, [0x1F6E, 0x399]), (0x1FA7, [0x1F6F, 0x399]), (0x1FA8, [0x1F68, 0x399]), (0x1FA9, [0x1F69, 0x399]), (0x1FAA, [0x1F6A, 0x399]), (0x1FAB, [0x1F6B, 0x399]),
    (0x1FAC, [0x1F6C, 0x399]), (0x1FAD, [0x1F6D, 0x399]), (0x1FAE, [0x1F6E, 0x399]), (0x1FAF, [0x1F6F, 0x399]), (0x1FB3, [0x391, 0x399]), (0x1FBC, [0x391, 0x399]),
    (0x1FC3, [0x397, 0x399]), (0x1FCC, [0x397, 0x399]), (0x1FF3, [0x3A9, 0x399]), (0x1FFC, [0x3A9, 0x399]), (0x1FB2, [0x1FBA, 0x399]), (0x1FB4, [0x386, 0x399]),
    (0x1FC2, [0x1FCA, 0x399]), (0x1FC4, [0x389, 0x399]), (0x1FF2, [0x1FFA, 0x399]), (0x1FF4, [0x38F, 0x399]), (0x1FB7, [0x391, 0x342, 0x399]), (0x1FC7, [0x397, 0x342, 0x399]),
    (0x1FF7, [0x3A9, 0x342, 0x399])])]

/-- The lengths of its pieces in ascending order. -/
def upperCuts : List Nat := [1410, 8, 6, 3, 22, 54, 6]

/-- The rules of /repo/modules/inter/CASEFOLD.txt in the order of the file: `01k 01v,01v..` as (k, [v, v..]), by the upper bytes of k.
(A first line `Source: ...`, which is not a comment, is left out here: see `Aside`.) -/
def casefold : Pages := [
  (0x0, [
    (0x41, [0x61]), (0x42, [0x62]), (0x43, [0x63]), (0x44, [0x64]), (0x45, [0x65]), (0x46, [0x66]),
    (0x47, [0x67]), (0x48, [0x68]), (0x49, [0x69]), (0x49, [0x131]), (0x4A, [0x6A]), (0x4B, [0x6B]),
    (0x4C, [0x6C]), (0x4D, [0x6D]), (0x4E, [0x6E]), (0x4F, [0x6F]), (0x50, [0x70]), (0x51, [0x71]),
    (0x52, [0x72]), (0x53, [0x73]), (0x54, [0x74]), (0x55, [0x75]), (0x56, [0x76]), (0x57, [0x77]),
    (0x58, [0x78]), (0x59, [0x79]), (0x5A, [0x7A]), (0xB5, [0x3BC]), (0xC0, [0xE0]), (0xC1, [0xE1]),
    (0xC2, [0xE2]), (0xC3, [0xE3]), (0xC4, [0xE4]), (0xC5, [0xE5]), (0xC6, [0xE6]), (0xC7, [0xE7]),
    (0xC8, [0xE8]), (0xC9, [0xE9]), (0xCA, [0xEA]), (0xCB, [0xEB]), (0xCC, [0xEC]), (0xCD, [0xED]),
    (0xCE, [0xEE]), (0xCF, [0xEF]), (0xD0, [0xF0]), (0xD1, [0xF1]), (0xD2, [0xF2]), (0xD3, [0xF3]),
    (0xD4, [0xF4]), (0xD5, [0xF5]), (0xD6, [0xF6]), (0xD8, [0xF8]), (0xD9, [0xF9]), (0xDA, [0xFA]),
    (0xDB, [0xFB]), (0xDC, [0xFC]), (0xDD, [0xFD]), (0xDE, [0xFE]), (0xDF, [0x73, 0x73])]),
  (0x1, [
    (0x100, [0x101]), (0x102, [0x103]), (0x104, [0x105]), (0x106, [0x107]), (0x108, [0x109]), (0x10A, [0x10B]),
    (0x10C, [0x10D]), (0x10E, [0x10F]), (0x110, [0x111]), (0x112, [0x113]), (0x114, [0x115]), (0x116, [0x117]),
    (0x118, [0x119]), (0x11A, [0x11B]), (0x11C, [0x11D]), (0x11E, [0x11F]), (0x120, [0x121]), (0x122, [0x123]),
    (0x124, [0x125]), (0x126, [0x127]), (0x128, [0x129]), (0x12A, [0x12B]), (0x12C, [0x12D]), (0x12E, [0x12F]),
    (0x130, [0x69, 0x307]), (0x130, [0x69]), (0x132, [0x133]), (0x134, [0x135]), (0x136, [0x137]), (0x139, [0x13A]),
    (0x13B, [0x13C]), (0x13D, [0x13E]), (0x13F, [0x140]), (0x141, [0x142]), (0x143, [0x144]), (0x145, [0x146]),
    (0x147, [0x148]), (0x149, [0x2BC, 0x6E]), (0x14A, [0x14B]), (0x14C, [0x14D]), (0x14E, [0x14F]), (0x150, [0x151]),
    (0x152, [0x153]), (0x154, [0x155]), (0x156, [0x157]), (0x158, [0x159]), (0x15A, [0x15B]), (0x15C, [0x15D]),
    (0x15E, [0x15F]), (0x160, [0x161]), (0x162, [0x163]), (0x164, [0x165]), (0x166, [0x167]), (0x168, [0x169]),
    (0x16A, [0x16B]), (0x16C, [0x16D]), (0x16E, [0x16F]), (0x170, [0x171]), (0x172, [0x173]), (0x174, [0x175]),
    (0x176, [0x177]), (0x178, [0xFF]), (0x179, [0x17A]), (0x17B, [0x17C]), (0x17D, [0x17E]), (0x17F, [0x73]),
    (0x181, [0x253]), (0x182, [0x183]), (0x184, [0x185]), (0x186, [0x254]), (0x187, [0x188]), (0x189, [0x256]),
    (0x18A, [0x257]), (0x18B, [0x18C]), (0x18E, [0x1DD]), (0x18F, [0x259]), (0x190, [0x25B]), (0x191, [0x192]),
    (0x193, [0x260]), (0x194, [0x263]), (0x196, [0x269]), (0x197, [0x268]), (0x198, [0x199]), (0x19C, [0x26F]),
    (0x19D, [0x272]), (0x19F, [0x275]), (0x1A0, [0x1A1]), (0x1A2, [0x1A3]), (0x1A4, [0x1A5]), (0x1A6, [0x280]),
    (0x1A7, [0x1A8]), (0x1A9, [0x283]), (0x1AC, [0x1AD]), (0x1AE, [0x288]), (0x1AF, [0x1B0]), (0x1B1, [0x28A]),
    (0x1B2, [0x28B]), (0x1B3, [0x1B4]), (0x1B5, [0x1B6]), (0x1B7, [0x292]), (0x1B8, [0x1B9]), (0x1BC, [0x1BD]),
    (0x1C4, [0x1C6]), (0x1C5, [0x1C6]), (0x1C7, [0x1C9]), (0x1C8, [0x1C9]), (0x1CA, [0x1CC]), (0x1CB, [0x1CC]),
    (0x1CD, [0x1CE]), (0x1CF, [0x1D0]), (0x1D1, [0x1D2]), (0x1D3, [0x1D4]), (0x1D5, [0x1D6]), (0x1D7, [0x1D8]),
    (0x1D9, [0x1DA]), (0x1DB, [0x1DC]), (0x1DE, [0x1DF]), (0x1E0, [0x1E1]), (0x1E2, [0x1E3]), (0x1E4, [0x1E5]),
    (0x1E6, [0x1E7]), (0x1E8, [0x1E9]), (0x1EA, [0x1EB]), (0x1EC, [0x1ED]), (0x1EE, [0x1EF]), (0x1F0, [0x6A, 0x30C]),
    (0x1F1, [0x1F3]), (0x1F2, [0x1F3]), (0x1F4, [0x1F5]), (0x1F6, [0x195]), (0x1F7, [0x1BF]), (0x1F8, [0x1F9]),
    (0x1FA, [0x1FB]), (0x1FC, [0x1FD]), (0x1FE, [0x1FF])]),
  (0x2, [
    (0x200, [0x201]), (0x202, [0x203]), (0x204, [0x205]), (0x206, [0x207]), (0x208, [0x209]), (0x20A, [0x20B]),
    (0x20C, [0x20D]), (0x20E, [0x20F]), (0x210, [0x211]), (0x212, [0x213]), (0x214, [0x215]), (0x216, [0x217]),
    (0x218, [0x219]), (0x21A, [0x21B]), (0x21C, [0x21D]), (0x21E, [0x21F]), (0x220, [0x19E]), (0x222, [0x223]),
    (0x224, [0x225]), (0x226, [0x227]), (0x228, [0x229]), (0x22A, [0x22B]), (0x22C, [0x22D]), (0x22E, [0x22F]),
    (0x230, [0x231]), (0x232, [0x233]), (0x23A, [0x2C65]), (0x23B, [0x23C]), (0x23D, [0x19A]), (0x23E, [0x2C66]),
    (0x241, [0x242]), (0x243, [0x180]), (0x244, [0x289]), (0x245, [0x28C]), (0x246, [0x247]), (0x248, [0x249]),
    (0x24A, [0x24B]), (0x24C, [0x24D]), (0x24E, [0x24F])]),
  (0x3, [
    (0x345, [0x3B9]), (0x370, [0x371]), (0x372, [0x373]), (0x376, [0x377]), (0x37F, [0x3F3]), (0x386, [0x3AC]),
    (0x388, [0x3AD]), (0x389, [0x3AE]), (0x38A, [0x3AF]), (0x38C, [0x3CC]), (0x38E, [0x3CD]), (0x38F, [0x3CE]),
    (0x390, [0x3B9, 0x308, 0x301]), (0x391, [0x3B1]), (0x392, [0x3B2]), (0x393, [0x3B3]), (0x394, [0x3B4]), (0x395, [0x3B5]),
    (0x396, [0x3B6]), (0x397, [0x3B7]), (0x398, [0x3B8]), (0x399, [0x3B9]), (0x39A, [0x3BA]), (0x39B, [0x3BB]),
    (0x39C, [0x3BC]), (0x39D, [0x3BD]), (0x39E, [0x3BE]), (0x39F, [0x3BF]), (0x3A0, [0x3C0]), (0x3A1, [0x3C1]),
    (0x3A3, [0x3C3]), (0x3A4, [0x3C4]), (0x3A5, [0x3C5]), (0x3A6, [0x3C6]), (0x3A7, [0x3C7]), (0x3A8, [0x3C8]),
    (0x3A9, [0x3C9]), (0x3AA, [0x3CA]), (0x3AB, [0x3CB]), (0x3B0, [0x3C5, 0x308, 0x301]), (0x3C2, [0x3C3]), (0x3CF, [0x3D7]),
    (0x3D0, [0x3B2]), (0x3D1, [0x3B8]), (0x3D5, [0x3C6]), (0x3D6, [0x3C0]), (0x3D8, [0x3D9]), (0x3DA, [0x3DB]),
    (0x3DC, [0x3DD]), (0x3DE, [0x3DF]), (0x3E0, [0x3E1]), (0x3E2, [0x3E3]), (0x3E4, [0x3E5]), (0x3E6, [0x3E7]),
    (0x3E8, [0x3E9]), (0x3EA, [0x3EB]), (0x3EC, [0x3ED]), (0x3EE, [0x3EF]), (0x3F0, [0x3BA]), (0x3F1, [0x3C1]),
    (0x3F4, [0x3B8]), (0x3F5, [0x3B5]), (0x3F7, [0x3F8]), (0x3F9, [0x3F2]), (0x3FA, [0x3FB]), (0x3FD, [0x37B]),
    (0x3FE, [0x37C]), (0x3FF, [0x37D])]),
  (0x4, [
    (0x400, [0x450]), (0x401, [0x451]), (0x402, [0x452]), (0x403, [0x453]), (0x404, [0x454]), (0x405, [0x455]),
    (0x406, [0x456]), (0x407, [0x457]), (0x408, [0x458]), (0x409, [0x459]), (0x40A, [0x45A]), (0x40B, [0x45B]),
    (0x40C, [0x45C]), (0x40D, [0x45D]), (0x40E, [0x45E]), (0x40F, [0x45F]), (0x410, [0x430]), (0x411, [0x431]),
    (0x412, [0x432]), (0x413, [0x433]), (0x414, [0x434]), (0x415, [0x435]), (0x416, [0x436]), (0x417, [0x437]),
    (0x418, [0x438]), (0x419, [0x439]), (0x41A, [0x43A]), (0x41B, [0x43B]), (0x41C, [0x43C]), (0x41D, [0x43D]),
    (0x41E, [0x43E]), (0x41F, [0x43F]), (0x420, [0x440]), (0x421, [0x441]), (0x422, [0x442]), (0x423, [0x443]),
    (0x424, [0x444]), (0x425, [0x445]), (0x426, [0x446]), (0x427, [0x447]), (0x428, [0x448]), (0x429, [0x449]),
    (0x42A, [0x44A]), (0x42B, [0x44B]), (0x42C, [0x44C]), (0x42D, [0x44D]), (0x42E, [0x44E]), (0x42F, [0x44F]),
    (0x460, [0x461]), (0x462, [0x463]), (0x464, [0x465]), (0x466, [0x467]), (0x468, [0x469]), (0x46A, [0x46B]),
    (0x46C, [0x46D]), (0x46E, [0x46F]), (0x470, [0x471]), (0x472, [0x473]), (0x474, [0x475]), (0x476, [0x477]),
    (0x478, [0x479]), (0x47A, [0x47B]), (0x47C, [0x47D]), (0x47E, [0x47F]), (0x480, [0x481]), (0x48A, [0x48B]),
    (0x48C, [0x48D]), (0x48E, [0x48F]), (0x490, [0x491]), (0x492, [0x493]), (0x494, [0x495]), (0x496, [0x497]),
    (0x498, [0x499]), (0x49A, [0x49B]), (0x49C, [0x49D]), (0x49E, [0x49F]), (0x4A0, [0x4A1]), (0x4A2, [0x4A3]),
    (0x4A4, [0x4A5]), (0x4A6, [0x4A7]), (0x4A8, [0x4A9]), (0x4AA, [0x4AB]), (0x4AC, [0x4AD]), (0x4AE, [0x4AF]),
    (0x4B0, [0x4B1]), (0x4B2, [0x4B3]), (0x4B4, [0x4B5]), (0x4B6, [0x4B7]), (0x4B8, [0x4B9]), (0x4BA, [0x4BB]),
    (0x4BC, [0x4BD]), (0x4BE, [0x4BF]), (0x4C0, [0x4CF]), (0x4C1, [0x4C2]), (0x4C3, [0x4C4]), (0x4C5, [0x4C6]),
    (0x4C7, [0x4C8]), (0x4C9, [0x4CA]), (0x4CB, [0x4CC]), (0x4CD, [0x4CE]), (0x4D0, [0x4D1]), (0x4D2, [0x4D3]),
    (0x4D4, [0x4D5]), (0x4D6, [0x4D7]), (0x4D8, [0x4D9]), (0x4DA, [0x4DB]), (0x4DC, [0x4DD]), (0x4DE, [0x4DF]),
    (0x4E0, [0x4E1]), (0x4E2, [0x4E3]), (0x4E4, [0x4E5]), (0x4E6, [0x4E7]), (0x4E8, [0x4E9]), (0x4EA, [0x4EB]),
    (0x4EC, [0x4ED]), (0x4EE, [0x4EF]), (0x4F0, [0x4F1]), (0x4F2, [0x4F3]), (0x4F4, [0x4F5]), (0x4F6, [0x4F7]),
    (0x4F8, [0x4F9]), (0x4FA, [0x4FB]), (0x4FC, [0x4FD]), (0x4FE, [0x4FF])]),
  (0x5, [
    (0x500, [0x501]), (0x502, [0x503]), (0x504, [0x505]), (0x506, [0x507]), (0x508, [0x509]), (0x50A, [0x50B]),
    (0x50C, [0x50D]), (0x50E, [0x50F]), (0x510, [0x511]), (0x512, [0x513]), (0x514, [0x515]), (0x516, [0x517]),
    (0x518, [0x519]), (0x51A, [0x51B]), (0x51C, [0x51D]), (0x51E, [0x51F]), (0x520, [0x521]), (0x522, [0x523]),
    (0x524, [0x525]), (0x526, [0x527]), (0x528, [0x529]), (0x52A, [0x52B]), (0x52C, [0x52D]), (0x52E, [0x52F]),
    (0x531, [0x561]), (0x532, [0x562]), (0x533, [0x563]), (0x534, [0x564]), (0x535, [0x565]), (0x536, [0x566]),
    (0x537, [0x567]), (0x538, [0x568]), (0x539, [0x569]), (0x53A, [0x56A]), (0x53B, [0x56B]), (0x53C, [0x56C]),
    (0x53D, [0x56D]), (0x53E, [0x56E]), (0x53F, [0x56F]), (0x540, [0x570]), (0x541, [0x571]), (0x542, [0x572]),
    (0x543, [0x573]), (0x544, [0x574]), (0x545, [0x575]), (0x546, [0x576]), (0x547, [0x577]), (0x548, [0x578]),
    (0x549, [0x579]), (0x54A, [0x57A]), (0x54B, [0x57B]), (0x54C, [0x57C]), (0x54D, [0x57D]), (0x54E, [0x57E]),
    (0x54F, [0x57F]), (0x550, [0x580]), (0x551, [0x581]), (0x552, [0x582]), (0x553, [0x583]), (0x554, [0x584]),
    (0x555, [0x585]), (0x556, [0x586]), (0x587, [0x565, 0x582])]),
  (0x10, [
    (0x10A0, [0x2D00]), (0x10A1, [0x2D01]), (0x10A2, [0x2D02]), (0x10A3, [0x2D03]), (0x10A4, [0x2D04]), (0x10A5, [0x2D05]),
    (0x10A6, [0x2D06]), (0x10A7, [0x2D07]), (0x10A8, [0x2D08]), (0x10A9, [0x2D09]), (0x10AA, [0x2D0A]), (0x10AB, [0x2D0B]),
    (0x10AC, [0x2D0C]), (0x10AD, [0x2D0D]), (0x10AE, [0x2D0E]), (0x10AF, [0x2D0F]), (0x10B0, [0x2D10]), (0x10B1, [0x2D11]),
    (0x10B2, [0x2D12]), (0x10B3, [0x2D13]), (0x10B4, [0x2D14]), (0x10B5, [0x2D15]), (0x10B6, [0x2D16]), (0x10B7, [0x2D17]),
    (0x10B8, [0x2D18]), (0x10B9, [0x2D19]), (0x10BA, [0x2D1A]), (0x10BB, [0x2D1B]), (0x10BC, [0x2D1C]), (0x10BD, [0x2D1D]),
    (0x10BE, [0x2D1E]), (0x10BF, [0x2D1F]), (0x10C0, [0x2D20]), (0x10C1, [0x2D21]), (0x10C2, [0x2D22]), (0x10C3, [0x2D23]),
    (0x10C4, [0x2D24]), (0x10C5, [0x2D25]), (0x10C7, [0x2D27]), (0x10CD, [0x2D2D])]),
  (0x13, [
    (0x13F8, [0x13F0]), (0x13F9, [0x13F1]), (0x13FA, [0x13F2]), (0x13FB, [0x13F3]), (0x13FC, [0x13F4]), (0x13FD, [0x13F5])]),
  (0x1C, [
    (0x1C80, [0x432]), (0x1C81, [0x434]), (0x1C82, [0x43E]), (0x1C83, [0x441]), (0x1C84, [0x442]), (0x1C85, [0x442]),
    (0x1C86, [0x44A]), (0x1C87, [0x463]), (0x1C88, [0xA64B]), (0x1C90, [0x10D0]), (0x1C91, [0x10D1]), (0x1C92, [0x10D2]),
    (0x1C93, [0x10D3]), (0x1C94, [0x10D4]), (0x1C95, [0x10D5]), (0x1C96, [0x10D6]), (0x1C97, [0x10D7]), (0x1C98, [0x10D8]),
    (0x1C99, [0x10D9]), (0x1C9A, [0x10DA]), (0x1C9B, [0x10DB]), (0x1C9C, [0x10DC]), (0x1C9D, [0x10DD]), (0x1C9E, [0x10DE]),
    (0x1C9F, [0x10DF]), (0x1CA0, [0x10E0]), (0x1CA1, [0x10E1]), (0x1CA2, [0x10E2]), (0x1CA3, [0x10E3]), (0x1CA4, [0x10E4]),
    (0x1CA5, [0x10E5]), (0x1CA6, [0x10E6]), (0x1CA7, [0x10E7]), (0x1CA8, [0x10E8]), (0x1CA9, [0x10E9]), (0x1CAA, [0x10EA]),
    (0x1CAB, [0x10EB]), (0x1CAC, [0x10EC]), (0x1CAD, [0x10ED]), (0x1CAE, [0x10EE]), (0x1CAF, [0x10EF]), (0x1CB0, [0x10F0]),
    (0x1CB1, [0x10F1]), (0x1CB2, [0x10F2]), (0x1CB3, [0x10F3]), (0x1CB4, [0x10F4]), (0x1CB5, [0x10F5]), (0x1CB6, [0x10F6]),
    (0x1CB7, [0x10F7]), (0x1CB8, [0x10F8]), (0x1CB9, [0x10F9]), (0x1CBA, [0x10FA]), (0x1CBD, [0x10FD]), (0x1CBE, [0x10FE]),
    (0x1CBF, [0x10FF])]),
  (0x1E, [
    (0x1E00, [0x1E01]), (0x1E02, [0x1E03]), (0x1E04, [0x1E05]), (0x1E06, [0x1E07]), (0x1E08, [0x1E09]), (0x1E0A, [0x1E0B]),
    (0x1E0C, [0x1E0D]), (0x1E0E, [0x1E0F]), (0x1E10, [0x1E11]), (0x1E12, [0x1E13]), (0x1E14, [0x1E15]), (0x1E16, [0x1E17]),
    (0x1E18, [0x1E19]), (0x1E1A, [0x1E1B]), (0x1E1C, [0x1E1D]), (0x1E1E, [0x1E1F]), (0x1E20, [0x1E21]), (0x1E22, [0x1E23]),
    (0x1E24, [0x1E25]), (0x1E26, [0x1E27]), (0x1E28, [0x1E29]), (0x1E2A, [0x1E2B]), (0x1E2C, [0x1E2D]), (0x1E2E, [0x1E2F]),
    (0x1E30, [0x1E31]), (0x1E32, [0x1E33]), (0x1E34, [0x1E35]), (0x1E36, [0x1E37]), (0x1E38, [0x1E39]), (0x1E3A, [0x1E3B]),
    (0x1E3C, [0x1E3D]), (0x1E3E, [0x1E3F]), (0x1E40, [0x1E41]), (0x1E42, [0x1E43]), (0x1E44, [0x1E45]), (0x1E46, [0x1E47]),
    (0x1E48, [0x1E49]), (0x1E4A, [0x1E4B]), (0x1E4C, [0x1E4D]), (0x1E4E, [0x1E4F]), (0x1E50, [0x1E51]), (0x1E52, [0x1E53]),
    (0x1E54, [0x1E55]), (0x1E56, [0x1E57]), (0x1E58, [0x1E59]), (0x1E5A, [0x1E5B]), (0x1E5C, [0x1E5D]), (0x1E5E, [0x1E5F]),
    (0x1E60, [0x1E61]), (0x1E62, [0x1E63]), (0x1E64, [0x1E65]), (0x1E66, [0x1E67]), (0x1E68, [0x1E69]), (0x1E6A, [0x1E6B]),
    (0x1E6C, [0x1E6D]), (0x1E6E, [0x1E6F]), (0x1E70, [0x1E71]), (0x1E72, [0x1E73]), (0x1E74, [0x1E75]), (0x1E76, [0x1E77]),
    (0x1E78, [0x1E79]), (0x1E7A, [0x1E7B]), (0x1E7C, [0x1E7D]), (0x1E7E, [0x1E7F]), (0x1E80, [0x1E81]), (0x1E82, [0x1E83]),
    (0x1E84, [0x1E85]), (0x1E86, [0x1E87]), (0x1E88, [0x1E89]), (0x1E8A, [0x1E8B]), (0x1E8C, [0x1E8D]), (0x1E8E, [0x1E8F]),
    (0x1E90, [0x1E91]), (0x1E92, [0x1E93]), (0x1E94, [0x1E95]), (0x1E96, [0x68, 0x331]), (0x1E97, [0x74, 0x308]), (0x1E98, [0x77, 0x30A]),
    (0x1E99, [0x79, 0x30A]), (0x1E9A, [0x61, 0x2BE]), (0x1E9B, [0x1E61]), (0x1E9E, [0x73, 0x73]), (0x1E9E, [0xDF]), (0x1EA0, [0x1EA1]),
    (0x1EA2, [0x1EA3]), (0x1EA4, [0x1EA5]), (0x1EA6, [0x1EA7]), (0x1EA8, [0x1EA9]), (0x1EAA, [0x1EAB]), (0x1EAC, [0x1EAD]),
    (0x1EAE, [0x1EAF]), (0x1EB0, [0x1EB1]), (0x1EB2, [0x1EB3]), (0x1EB4, [0x1EB5]), (0x1EB6, [0x1EB7]), (0x1EB8, [0x1EB9]),
    (0x1EBA, [0x1EBB]), (0x1EBC, [0x1EBD]), (0x1EBE, [0x1EBF]), (0x1EC0, [0x1EC1]), (0x1EC2, [0x1EC3]), (0x1EC4, [0x1EC5]),
    (0x1EC6, [0x1EC7]), (0x1EC8, [0x1EC9]), (0x1ECA, [0x1ECB]), (0x1ECC, [0x1ECD]), (0x1ECE, [0x1ECF]), (0x1ED0, [0x1ED1]),
    (0x1ED2, [0x1ED3]), (0x1ED4, [0x1ED5]), (0x1ED6, [0x1ED7]), (0x1ED8, [0x1ED9]), (0x1EDA, [0x1EDB]), (0x1EDC, [0x1EDD]),
    (0x1EDE, [0x1EDF]), (0x1EE0, [0x1EE1]), (0x1EE2, [0x1EE3]), (0x1EE4, [0x1EE5]), (0x1EE6, [0x1EE7]), (0x1EE8, [0x1EE9]),
    (0x1EEA, [0x1EEB]), (0x1EEC, [0x1EED]), (0x1EEE, [0x1EEF]), (0x1EF0, [0x1EF1]), (0x1EF2, [0x1EF3]), (0x1EF4, [0x1EF5]),
    (0x1EF6, [0x1EF7]), (0x1EF8, [0x1EF9]), (0x1EFA, [0x1EFB]), (0x1EFC, [0x1EFD]), (0x1EFE, [0x1EFF])]),
  (0x1F, [
    (0x1F08, [0x1F00]), (0x1F09, [0x1F01]), (0x1F0A, [0x1F02]), (0x1F0B, [0x1F03]), (0x1F0C, [0x1F04]), (0x1F0D, [0x1F05]),
    (0x1F0E, [0x1F06]), (0x1F0F, [0x1F07]), (0x1F18, [0x1F10]), (0x1F19, [0x1F11]), (0x1F1A, [0x1F12]), (0x1F1B, [0x1F13]),
    (0x1F1C, [0x1F14]), (0x1F1D, [0x1F15]), (0x1F28, [0x1F20]), (0x1F29, [0x1F21]), (0x1F2A, [0x1F22]), (0x1F2B, [0x1F23]),
    (0x1F2C, [0x1F24]), (0x1F2D, [0x1F25]), (0x1F2E, [0x1F26]), (0x1F2F, [0x1F27]), (0x1F38, [0x1F30]), (0x1F39, [0x1F31]),
    (0x1F3A, [0x1F32]), (0x1F3B, [0x1F33]), (0x1F3C, [0x1F34]), (0x1F3D, [0x1F35]), (0x1F3E, [0x1F36]), (0x1F3F, [0x1F37]),
    (0x1F48, [0x1F40]), (0x1F49, [0x1F41]), (0x1F4A, [0x1F42]), (0x1F4B, [0x1F43]), (0x1F4C, [0x1F44]), (0x1F4D, [0x1F45]),
    (0x1F50, [0x3C5, 0x313]), (0x1F52, [0x3C5, 0x313, 0x300]), (0x1F54, [0x3C5, 0x313, 0x301]), (0x1F56, [0x3C5, 0x313, 0x342]), (0x1F59, [0x1F51]), (0x1F5B, [0x1F53]),
    (0x1F5D, [0x1F55]), (0x1F5F, [0x1F57]), (0x1F68, [0x1F60]), (0x1F69, [0x1F61]), (0x1F6A, [0x1F62]), (0x1F6B, [0x1F63]),
    (0x1F6C, [0x1F64]), (0x1F6D, [0x1F65]), (0x1F6E, [0x1F66]), (0x1F6F, [0x1F67]), (0x1F80, [0x1F00, 0x3B9]), (0x1F81, [0x1F01, 0x3B9]),
    (0x1F82, [0x1F02, 0x3B9]), (0x1F83, [0x1F03, 0x3B9]), (0x1F84, [0x1F04, 0x3B9]), (0x1F85, [0x1F05, 0x3B9]), (0x1F86, [0x1F06, 0x3B9]), (0x1F87, [0x1F07, 0x3B9]),
    (0x1F88, [0x1F00, 0x3B9]), (0x1F88, [0x1F80]), (0x1F89, [0x1F01, 0x3B9]), (0x1F89, [0x1F81]), (0x1F8A, [0x1F02, 0x3B9]), (0x1F8A, [0x1F82]),
    (0x1F8B, [0x1F03, 0x3B9]), (0x1F8B, [0x1F83]), (0x1F8C, [0x1F04, 0x3B9]), (0x1F8C, [0x1F84]), (0x1F8D, [0x1F05, 0x3B9]), (0x1F8D, [0x1F85]),
    (0x1F8E, [0x1F06, 0x3B9]), (0x1F8E, [0x1F86]), (0x1F8F, [0x1F07, 0x3B9]), (0x1F8F, [0x1F87]), (0x1F90, [0x1F20, 0x3B9]), (0x1F91, [0x1F21, 0x3B9]),
    (0x1F92, [0x1F22, 0x3B9]), (0x1F93, [0x1F23, 0x3B9]), (0x1F94, [0x1F24, 0x3B9]), (0x1F95, [0x1F25, 0x3B9]), (0x1F96, [0x1F26, 0x3B9]), (0x1F97, [0x1F27, 0x3B9]),
    (0x1F98, [0x1F20, 0x3B9]), (0x1F98, [0x1F90]), (0x1F99, [0x1F21, 0x3B9]), (0x1F99, [0x1F91]), (0x1F9A, [0x1F22, 0x3B9]), (0x1F9A, [0x1F92]),
    (0x1F9B, [0x1F23, 0x3B9]), (0x1F9B, [0x1F93]), (0x1F9C, [0x1F24, 0x3B9]), (0x1F9C, [0x1F94]), (0x1F9D, [0x1F25, 0x3B9]), (0x1F9D, [0x1F95]),
    (0x1F9E, [0x1F26, 0x3B9]), (0x1F9E, [0x1F96]), (0x1F9F, [0x1F27, 0x3B9]), (0x1F9F, [0x1F97]), (0x1FA0, [0x1F60, 0x3B9]), (0x1FA1, [0x1F61, 0x3B9]),
    (0x1FA2, [0x1F62, 0x3B9]), (0x1FA3, [0x1F63, 0x3B9]), (0x1FA4, [0x1F64, 0x3B9]), (0x1FA5, [0x1F65, 0x3B9]), (0x1FA6, [0x1F66, 0x3B9]), (0x1FA7, [0x1F67, 0x3B9]),
    (0x1FA8, [0x1F60, 0x3B9]), (0x1FA8, [0x1FA0]), (0x1FA9, [0x1F61, 0x3B9]), (0x1FA9, [0x1FA1]), (0x1FAA, [0x1F62, 0x3B9]), (0x1FAA, [0x1FA2]),
    (0x1FAB, [0x1F63, 0x3B9]), (0x1FAB, [0x1FA3]), (0x1FAC, [0x1F64, 0x3B9]), (0x1FAC, [0x1FA4]), (0x1FAD, [0x1F65, 0x3B9]), (0x1FAD, [0x1FA5]),
    (0x1FAE, [0x1F66, 0x3B9]), (0x1FAE, [0x1FA6]), (0x1FAF, [0x1F67, 0x3B9]), (0x1FAF, [0x1FA7]), (0x1FB2, [0x1F70, 0x3B9]), (0x1FB3, [0x3B1, 0x3B9]),
    (0x1FB4, [0x3AC, 0x3B9]), (0x1FB6, [0x3B1, 0x342]), (0x1FB7, [0x3B1, 0x342, 0x3B9]), (0x1FB8, [0x1FB0]), (0x1FB9, [0x1FB1]), (0x1FBA, [0x1F70]),
    (0x1FBB, [0x1F71]), (0x1FBC, [0x3B1, 0x3B9]), (0x1FBC, [0x1FB3]), (0x1FBE, [0x3B9]), (0x1FC2, [0x1F74, 0x3B9]), (0x1FC3, [0x3B7, 0x3B9]),
    (0x1FC4, [0x3AE, 0x3B9]), (0x1FC6, [0x3B7, 0x342]), (0x1FC7, [0x3B7, 0x342, 0x3B9]), (0x1FC8, [0x1F72]), (0x1FC9, [0x1F73]), (0x1FCA, [0x1F74]),
    (0x1FCB, [0x1F75]), (0x1FCC, [0x3B7, 0x3B9]), (0x1FCC, [0x1FC3]), (0x1FD2, [0x3B9, 0x308, 0x300]), (0x1FD3, [0x3B9, 0x308, 0x301]), (0x1FD6, [0x3B9, 0x342]),
    (0x1FD7, [0x3B9, 0x308, 0x342]), (0x1FD8, [0x1FD0]), (0x1FD9, [0x1FD1]), (0x1FDA, [0x1F76]), (0x1FDB, [0x1F77]), (0x1FE2, [0x3C5, 0x308, 0x300]),
    (0x1FE3, [0x3C5, 0x308, 0x301]), (0x1FE4, [0x3C1, 0x313]), (0x1FE6, [0x3C5, 0x342]), (0x1FE7, [0x3C5, 0x308, 0x342]), (0x1FE8, [0x1FE0]), (0x1FE9, [0x1FE1]),
    (0x1FEA, [0x1F7A]), (0x1FEB, [0x1F7B]), (0x1FEC, [0x1FE5]), (0x1FF2, [0x1F7C, 0x3B9]), (0x1FF3, [0x3C9, 0x3B9]), (0x1FF4, [0x3CE, 0x3B9]),
    (0x1FF6, [0x3C9, 0x342]), (0x1FF7, [0x3C9, 0x342, 0x3B9]), (0x1FF8, [0x1F78]), (0x1FF9, [0x1F79]), (0x1FFA, [0x1F7C]), (0x1FFB, [0x1F7D]),
    (0x1FFC, [0x3C9, 0x3B9]), (0x1FFC, [0x1FF3])]),
  (0x21, [
    (0x2126, [0x3C9]), (0x212A, [0x6B]), (0x212B, [0xE5]), (0x2132, [0x214E]), (0x2160, [0x2170]), (0x2161, [0x2171]),
    (0x2162, [0x2172]), (0x2163, [0x2173]), (0x2164, [0x2174]), (0x2165, [0x2175]), (0x2166, [0x2176]), (0x2167, [0x2177]),
    (0x2168, [0x2178]), (0x2169, [0x2179]), (0x216A, [0x217A]), (0x216B, [0x217B]), (0x216C, [0x217C]), (0x216D, [0x217D]),
    (0x216E, [0x217E]), (0x216F, [0x217F]), (0x2183, [0x2184])]),
  (0x24, [
    (0x24B6, [0x24D0]), (0x24B7, [0x24D1]), (0x24B8, [0x24D2]), (0x24B9, [0x24D3]), (0x24BA, [0x24D4]), (0x24BB, [0x24D5]),
    (0x24BC, [0x24D6]), (0x24BD, [0x24D7]), (0x24BE, [0x24D8]), (0x24BF, [0x24D9]), (0x24C0, [0x24DA]), (0x24C1, [0x24DB]),
    (0x24C2, [0x24DC]), (0x24C3, [0x24DD]), (0x24C4, [0x24DE]), (0x24C5, [0x24DF]), (0x24C6, [0x24E0]), (0x24C7, [0x24E1]),
    (0x24C8, [0x24E2]), (0x24C9, [0x24E3]), (0x24CA, [0x24E4]), (0x24CB, [0x24E5]), (0x24CC, [0x24E6]), (0x24CD, [0x24E7]),
    (0x24CE, [0x24E8]), (0x24CF, [0x24E9])]),
  (0x2C, [
    (0x2C00, [0x2C30]), (0x2C01, [0x2C31]), (0x2C02, [0x2C32]), (0x2C03, [0x2C33]), (0x2C04, [0x2C34]), (0x2C05, [0x2C35]),
    (0x2C06, [0x2C36]), (0x2C07, [0x2C37]), (0x2C08, [0x2C38]), (0x2C09, [0x2C39]), (0x2C0A, [0x2C3A]), (0x2C0B, [0x2C3B]),
    (0x2C0C, [0x2C3C]), (0x2C0D, [0x2C3D]), (0x2C0E, [0x2C3E]), (0x2C0F, [0x2C3F]), (0x2C10, [0x2C40]), (0x2C11, [0x2C41]),
    (0x2C12, [0x2C42]), (0x2C13, [0x2C43]), (0x2C14, [0x2C44]), (0x2C15, [0x2C45]), (0x2C16, [0x2C46]), (0x2C17, [0x2C47]),
    (0x2C18, [0x2C48]), (0x2C19, [0x2C49]), (0x2C1A, [0x2C4A]), (0x2C1B, [0x2C4B]), (0x2C1C, [0x2C4C]), (0x2C1D, [0x2C4D]),
    (0x2C1E, [0x2C4E]), (0x2C1F, [0x2C4F]), (0x2C20, [0x2C50]), (0x2C21, [0x2C51]), (0x2C22, [0x2C52]), (0x2C23, [0x2C53]),
    (0x2C24, [0x2C54]), (0x2C25, [0x2C55]), (0x2C26, [0x2C56]), (0x2C27, [0x2C57]), (0x2C28, [0x2C58]), (0x2C29, [0x2C59]),
    (0x2C2A, [0x2C5A]), (0x2C2B, [0x2C5B]), (0x2C2C, [0x2C5C]), (0x2C2D, [0x2C5D]), (0x2C2E, [0x2C5E]), (0x2C60, [0x2C61]),
    (0x2C62, [0x26B]), (0x2C63, [0x1D7D]), (0x2C64, [0x27D]), (0x2C67, [0x2C68]), (0x2C69, [0x2C6A]), (0x2C6B, [0x2C6C]),
    (0x2C6D, [0x251]), (0x2C6E, [0x271]), (0x2C6F, [0x250]), (0x2C70, [0x252]), (0x2C72, [0x2C73]), (0x2C75, [0x2C76]),
    (0x2C7E, [0x23F]), (0x2C7F, [0x240]), (0x2C80, [0x2C81]), (0x2C82, [0x2C83]), (0x2C84, [0x2C85]), (0x2C86, [0x2C87]),
    (0x2C88, [0x2C89]), (0x2C8A, [0x2C8B]), (0x2C8C, [0x2C8D]), (0x2C8E, [0x2C8F]), (0x2C90, [0x2C91]), (0x2C92, [0x2C93]),
    (0x2C94, [0x2C95]), (0x2C96, [0x2C97]), (0x2C98, [0x2C99]), (0x2C9A, [0x2C9B]), (0x2C9C, [0x2C9D]), (0x2C9E, [0x2C9F]),
    (0x2CA0, [0x2CA1]), (0x2CA2, [0x2CA3]), (0x2CA4, [0x2CA5]), (0x2CA6, [0x2CA7]), (0x2CA8, [0x2CA9]), (0x2CAA, [0x2CAB]),
    (0x2CAC, [0x2CAD]), (0x2CAE, [0x2CAF]), (0x2CB0, [0x2CB1]), (0x2CB2, [0x2CB3]), (0x2CB4, [0x2CB5]), (0x2CB6, [0x2CB7]),
    (0x2CB8, [0x2CB9]), (0x2CBA, [0x2CBB]), (0x2CBC, [0x2CBD]), (0x2CBE, [0x2CBF]), (0x2CC0, [0x2CC1]), (0x2CC2, [0x2CC3]),
    (0x2CC4, [0x2CC5]), (0x2CC6, [0x2CC7]), (0x2CC8, [0x2CC9]), (0x2CCA, [0x2CCB]), (0x2CCC, [0x2CCD]), (0x2CCE, [0x2CCF]),
    (0x2CD0, [0x2CD1]), (0x2CD2, [0x2CD3]), (0x2CD4, [0x2CD5]), (0x2CD6, [0x2CD7]), (0x2CD8, [0x2CD9]), (0x2CDA, [0x2CDB]),
    (0x2CDC, [0x2CDD]), (0x2CDE, [0x2CDF]), (0x2CE0, [0x2CE1]), (0x2CE2, [0x2CE3]), (0x2CEB, [0x2CEC]), (0x2CED, [0x2CEE]),
    (0x2CF2, [0x2CF3])]),
  (0xA6, [
    (0xA640, [0xA641]), (0xA642, [0xA643]), (0xA644, [0xA645]), (0xA646, [0xA647]), (0xA648, [0xA649]), (0xA64A, [0xA64B]),
    (0xA64C, [0xA64D]), (0xA64E, [0xA64F]), (0xA650, [0xA651]), (0xA652, [0xA653]), (0xA654, [0xA655]), (0xA656, [0xA657]),
    (0xA658, [0xA659]), (0xA65A, [0xA65B]), (0xA65C, [0xA65D]), (0xA65E, [0xA65F]), (0xA660, [0xA661]), (0xA662, [0xA663]),
    (0xA664, [0xA665]), (0xA666, [0xA667]), (0xA668, [0xA669]), (0xA66A, [0xA66B]), (0xA66C, [0xA66D]), (0xA680, [0xA681]),
    (0xA682, [0xA683]), (0xA684, [0xA685]), (0xA686, [0xA687]), (0xA688, [0xA689]), (0xA68A, [0xA68B]), (0xA68C, [0xA68D]),
    (0xA68E, [0xA68F]), (0xA690, [0xA691]), (0xA692, [0xA693]), (0xA694, [0xA695]), (0xA696, [0xA697]), (0xA698, [0xA699]),
    (0xA69A, [0xA69B])]),
  (0xA7, [
    (0xA722, [0xA723]), (0xA724, [0xA725]), (0xA726, [0xA727]), (0xA728, [0xA729]), (0xA72A, [0xA72B]), (0xA72C, [0xA72D]),
    (0xA72E, [0xA72F]), (0xA732, [0xA733]), (0xA734, [0xA735]), (0xA736, [0xA737]), (0xA738, [0xA739]), (0xA73A, [0xA73B]),
    (0xA73C, [0xA73D]), (0xA73E, [0xA73F]), (0xA740, [0xA741]), (0xA742, [0xA743]), (0xA744, [0xA745]), (0xA746, [0xA747]),
    (0xA748, [0xA749]), (0xA74A, [0xA74B]), (0xA74C, [0xA74D]), (0xA74E, [0xA74F]), (0xA750, [0xA751]), (0xA752, [0xA753]),
    (0xA754, [0xA755]), (0xA756, [0xA757]), (0xA758, [0xA759]), (0xA75A, [0xA75B]), (0xA75C, [0xA75D]), (0xA75E, [0xA75F]),
    (0xA760, [0xA761]), (0xA762, [0xA763]), (0xA764, [0xA765]), (0xA766, [0xA767]), (0xA768, [0xA769]), (0xA76A, [0xA76B]),
    (0xA76C, [0xA76D]), (0xA76E, [0xA76F]), (0xA779, [0xA77A]), (0xA77B, [0xA77C]), (0xA77D, [0x1D79]), (0xA77E, [0xA77F]),
    (0xA780, [0xA781]), (0xA782, [0xA783]), (0xA784, [0xA785]), (0xA786, [0xA787]), (0xA78B, [0xA78C]), (0xA78D, [0x265]),
    (0xA790, [0xA791]), (0xA792, [0xA793]), (0xA796, [0xA797]), (0xA798, [0xA799]), (0xA79A, [0xA79B]), (0xA79C, [0xA79D]),
    (0xA79E, [0xA79F]), (0xA7A0, [0xA7A1]), (0xA7A2, [0xA7A3]), (0xA7A4, [0xA7A5]), (0xA7A6, [0xA7A7]), (0xA7A8, [0xA7A9]),
    (0xA7AA, [0x266]), (0xA7AB, [0x25C]), (0xA7AC, [0x261]), (0xA7AD, [0x26C]), (0xA7AE, [0x26A]), (0xA7B0, [0x29E]),
    (0xA7B1, [0x287]), (0xA7B2, [0x29D]), (0xA7B3, [0xAB53]), (0xA7B4, [0xA7B5]), (0xA7B6, [0xA7B7]), (0xA7B8, [0xA7B9]),
    (0xA7BA, [0xA7BB]), (0xA7BC, [0xA7BD]), (0xA7BE, [0xA7BF]), (0xA7C2, [0xA7C3]), (0xA7C4, [0xA794]), (0xA7C5, [0x282]),
    (0xA7C6, [0x1D8E]), (0xA7C7, [0xA7C8]), (0xA7C9, [0xA7CA]), (0xA7F5, [0xA7F6])]),
  (0xAB, [
    (0xAB70, [0x13A0]), (0xAB71, [0x13A1]), (0xAB72, [0x13A2]), (0xAB73, [0x13A3]), (0xAB74, [0x13A4]), (0xAB75, [0x13A5]),
    (0xAB76, [0x13A6]), (0xAB77, [0x13A7]), (0xAB78, [0x13A8]), (0xAB79, [0x13A9]), (0xAB7A, [0x13AA]), (0xAB7B, [0x13AB]),
    (0xAB7C, [0x13AC]), (0xAB7D, [0x13AD]), (0xAB7E, [0x13AE]), (0xAB7F, [0x13AF]), (0xAB80, [0x13B0]), (0xAB81, [0x13B1]),
    (0xAB82, [0x13B2]), (0xAB83, [0x13B3]), (0xAB84, [0x13B4]), (0xAB85, [0x13B5]), (0xAB86, [0x13B6]), (0xAB87, [0x13B7]),
    (0xAB88, [0x13B8]), (0xAB89, [0x13B9]), (0xAB8A, [0x13BA]), (0xAB8B, [0x13BB]), (0xAB8C, [0x13BC]), (0xAB8D, [0x13BD]),
    (0xAB8E, [0x13BE]), (0xAB8F, [0x13BF]), (0xAB90, [0x13C0]), (0xAB91, [0x13C1]), (0xAB92, [0x13C2]), (0xAB93, [0x13C3]),
    (0xAB94, [0x13C4]), (0xAB95, [0x13C5]), (0xAB96, [0x13C6]), (0xAB97, [0x13C7]), (0xAB98, [0x13C8]), (0xAB99, [0x13C9]),
    (0xAB9A, [0x13CA]), (0xAB9B, [0x13CB]), (0xAB9C, [0x13CC]), (0xAB9D, [0x13CD]), (0xAB9E, [0x13CE]), (0xAB9F, [0x13CF]),
    (0xABA0, [0x13D0]), (0xABA1, [0x13D1]), (0xABA2, [0x13D2]), (0xABA3, [0x13D3]), (0xABA4, [0x13D4]), (0xABA5, [0x13D5]),
    (0xABA6, [0x13D6]), (0xABA7, [0x13D7]), (0xABA8, [0x13D8]), (0xABA9, [0x13D9]), (0xABAA, [0x13DA]), (0xABAB, [0x13DB]),
    (0xABAC, [0x13DC]), (0xABAD, [0x13DD]), (0xABAE, [0x13DE]), (0xABAF, [0x13DF]), (0xABB0, [0x13E0]), (0xABB1, [0x13E1]),
    (0xABB2, [0x13E2]), (0xABB3, [0x13E3]), (0xABB4, [0x13E4]), (0xABB5, [0x13E5]), (0xABB6, [0x13E6]), (0xABB7, [0x13E7]),
    (0xABB8, [0x13E8]), (0xABB9, [0x13E9]), (0xABBA, [0x13EA]), (0xABBB, [0x13EB]), (0xABBC, [0x13EC]), (0xABBD, [0x13ED]),
    (0xABBE, [0x13EE]), (0xABBF, [0x13EF])]),
  (0xFB, [
    (0xFB00, [0x66, 0x66]), (0xFB01, [0x66, 0x69]), (0xFB02, [0x66, 0x6C]), (0xFB03, [0x66, 0x66, 0x69]), (0xFB04, [0x66, 0x66, 0x6C]), (0xFB05, [0x73, 0x74]),
    (0xFB06, [0x73, 0x74]), (0xFB13, [0x574, 0x576]), (0xFB14, [0x574, 0x565]), (0xFB15, [0x574, 0x56B]), (0xFB16, [0x57E, 0x576]), (0xFB17, [0x574, 0x56D])]),
  (0xFF, [
    (0xFF21, [0xFF41]), (0xFF22, [0xFF42]), (0xFF23, [0xFF43]), (0xFF24, [0xFF44]), (0xFF25, [0xFF45]), (0xFF26, [0xFF46]),
    (0xFF27, [0xFF47]), (0xFF28, [0xFF48]), (0xFF29, [0xFF49]), (0xFF2A, [0xFF4A]), (0xFF2B, [0xFF4B]), (0xFF2C, [0xFF4C]),
    (0xFF2D, [0xFF4D]), (0xFF2E, [0xFF4E]), (0xFF2F, [0xFF4F]), (0xFF30, [0xFF50]), (0xFF31, [0xFF51]), (0xFF32, [0xFF52]),
    (0xFF33, [0xFF53]), (0xFF34, [0xFF54]), (0xFF35, [0xFF55]), (0xFF36, [0xFF56]), (0xFF37, [0xFF57]), (0xFF38, [0xFF58]),
    (0xFF39, [0xFF59]), (0xFF3A, [0xFF5A])]),
  (0x104, [
    (0x10400, [0x10428]), (0x10401, [0x10429]), (0x10402, [0x1042A]), (0x10403, [0x1042B]), (0x10404, [0x1042C]), (0x10405, [0x1042D]),
    (0x10406, [0x1042E]), (0x10407, [0x1042F]), (0x10408, [0x10430]), (0x10409, [0x10431]), (0x1040A, [0x10432]), (0x1040B, [0x10433]),
    (0x1040C, [0x10434]), (0x1040D, [0x10435]), (0x1040E, [0x10436]), (0x1040F, [0x10437]), (0x10410, [0x10438]), (0x10411, [0x10439]),
    (0x10412, [0x1043A]), (0x10413, [0x1043B]), (0x10414, [0x1043C]), (0x10415, [0x1043D]), (0x10416, [0x1043E]), (0x10417, [0x1043F]),
    (0x10418, [0x10440]), (0x10419, [0x10441]), (0x1041A, [0x10442]), (0x1041B, [0x10443]), (0x1041C, [0x10444]), (0x1041D, [0x10445]),
    (0x1041E, [0x10446]), (0x1041F, [0x10447]), (0x10420, [0x10448]), (0x10421, [0x10449]), (0x10422, [0x1044A]), (0x10423, [0x1044B]),
    (0x10424, [0x1044C]), (0x10425, [0x1044D]), (0x10426, [0x1044E]), (0x10427, [0x1044F]), (0x104B0, [0x104D8]), (0x104B1, [0x104D9]),
    (0x104B2, [0x104DA]), (0x104B3, [0x104DB]), (0x104B4, [0x104DC]), (0x104B5, [0x104DD]), (0x104B6, [0x104DE]), (0x104B7, [0x104DF]),
    (0x104B8, [0x104E0]), (0x104B9, [0x104E1]), (0x104BA, [0x104E2]), (0x104BB, [0x104E3]), (0x104BC, [0x104E4]), (0x104BD, [0x104E5]),
    (0x104BE, [0x104E6]), (0x104BF, [0x104E7]), (0x104C0, [0x104E8]), (0x104C1, [0x104E9]), (0x104C2, [0x104EA]), (0x104C3, [0x104EB]),
    (0x104C4, [0x104EC]), (0x104C5, [0x104ED]), (0x104C6, [0x104EE]), (0x104C7, [0x104EF]), (0x104C8, [0x104F0]), (0x104C9, [0x104F1]),
    (0x104CA, [0x104F2]), (0x104CB, [0x104F3]), (0x104CC, [0x104F4]), (0x104CD, [0x104F5]), (0x104CE, [0x104F6]), (0x104CF, [0x104F7]),
    (0x104D0, [0x104F8]), (0x104D1, [0x104F9]), (0x104D2, [0x104FA]), (0x104D3, [0x104FB])]),
  (0x10C, [
    (0x10C80, [0x10CC0]), (0x10C81, [0x10CC1]), (0x10C82, [0x10CC2]), (0x10C83, [0x10CC3]), (0x10C84, [0x10CC4]), (0x10C85, [0x10CC5]),
    (0x10C86, [0x10CC6]), (0x10C87, [0x10CC7]), (0x10C88, [0x10CC8]), (0x10C89, [0x10CC9]), (0x10C8A, [0x10CCA]), (0x10C8B, [0x10CCB]),
    (0x10C8C, [0x10CCC]), (0x10C8D, [0x10CCD]), (0x10C8E, [0x10CCE]), (0x10C8F, [0x10CCF]), (0x10C90, [0x10CD0]), (0x10C91, [0x10CD1]),
    (0x10C92, [0x10CD2]), (0x10C93, [0x10CD3]), (0x10C94, [0x10CD4]), (0x10C95, [0x10CD5]), (0x10C96, [0x10CD6]), (0x10C97, [0x10CD7]),
    (0x10C98, [0x10CD8]), (0x10C99, [0x10CD9]), (0x10C9A, [0x10CDA]), (0x10C9B, [0x10CDB]), (0x10C9C, [0x10CDC]), (0x10C9D, [0x10CDD]),
    (0x10C9E, [0x10CDE]), (0x10C9F, [0x10CDF]), (0x10CA0, [0x10CE0]), (0x10CA1, [0x10CE1]), (0x10CA2, [0x10CE2]), (0x10CA3, [0x10CE3]),
    (0x10CA4, [0x10CE4]), (0x10CA5, [0x10CE5]), (0x10CA6, [0x10CE6]), (0x10CA7, [0x10CE7]), (0x10CA8, [0x10CE8]), (0x10CA9, [0x10CE9]),
    (0x10CAA, [0x10CEA]), (0x10CAB, [0x10CEB]), (0x10CAC, [0x10CEC]), (0x10CAD, [0x10CED]), (0x10CAE, [0x10CEE]), (0x10CAF, [0x10CEF]),
    (0x10CB0, [0x10CF0]), (0x10CB1, [0x10CF1]), (0x10CB2, [0x10CF2])]),
  (0x118, [
    (0x118A0, [0x118C0]), (0x118A1, [0x118C1]), (0x118A2, [0x118C2]), (0x118A3, [0x118C3]), (0x118A4, [0x118C4]), (0x118A5, [0x118C5]),
    (0x118A6, [0x118C6]), (0x118A7, [0x118C7]), (0x118A8, [0x118C8]), (0x118A9, [0x118C9]), (0x118AA, [0x118CA]), (0x118AB, [0x118CB]),
    (0x118AC, [0x118CC]), (0x118AD, [0x118CD]), (0x118AE, [0x118CE]), (0x118AF, [0x118CF]), (0x118B0, [0x118D0]), (0x118B1, [0x118D1]),
    (0x118B2, [0x118D2]), (0x118B3, [0x118D3]), (0x118B4, [0x118D4]), (0x118B5, [0x118D5]), (0x118B6, [0x118D6]), (0x118B7, [0x118D7]),
    (0x118B8, [0x118D8]), (0x118B9, [0x118D9]), (0x118BA, [0x118DA]), (0x118BB, [0x118DB]), (0x118BC, [0x118DC]), (0x118BD, [0x118DD]),
    (0x118BE, [0x118DE]), (0x118BF, [0x118DF])]),
  (0x16E, [
    (0x16E40, [0x16E60]), (0x16E41, [0x16E61]), (0x16E42, [0x16E62]), (0x16E43, [0x16E63]), (0x16E44, [0x16E64]), (0x16E45, [0x16E65]),
    (0x16E46, [0x16E66]), (0x16E47, [0x16E67]), (0x16E48, [0x16E68]), (0x16E49, [0x16E69]), (0x16E4A, [0x16E6A]), (0x16E4B, [0x16E6B]),
    (0x16E4C, [0x16E6C]), (0x16E4D, [0x16E6D]), (0x16E4E, [0x16E6E]), (0x16E4F, [0x16E6F]), (0x16E50, [0x16E70]), (0x16E51, [0x16E71]),
    (0x16E52, [0x16E72]), (0x16E53, [0x16E73]), (0x16E54, [0x16E74]), (0x16E55, [0x16E75]), (0x16E56, [0x16E76]), (0x16E57, [0x16E77]),
    (0x16E58, [0x16E78]), (0x16E59, [0x16E79]), (0x16E5A, [0x16E7A]), (0x16E5B, [0x16E7B]), (0x16E5C, [0x16E7C]), (0x16E5D, [0x16E7D]),
    (0x16E5E, [0x16E7E]), (0x16E5F, [0x16E7F])]),
  (0x1E9, [
    (0x1E900, [0x1E922]), (0x1E901, [0x1E923]), (0x1E902, [0x1E924]), (0x1E903, [0x1E925]), (0x1E904, [0x1E926]), (0x1E905, [0x1E927]),
    (0x1E906, [0x1E928]), (0x1E907, [0x1E929]), (0x1E908, [0x1E92A]), (0x1E909, [0x1E92B]), (0x1E90A, [0x1E92C]), (0x1E90B, [0x1E92D]),
    (0x1E90C, [0x1E92E]), (0x1E90D, [0x1E92F]), (0x1E90E, [0x1E930]), (0x1E90F, [0x1E931]), (0x1E910, [0x1E932]), (0x1E911, [0x1E933]),
    (0x1E912, [0x1E934]), (0x1E913, [0x1E935]), (0x1E914, [0x1E936]), (0x1E915, [0x1E937]), (0x1E916, [0x1E938]), (0x1E917, [0x1E939]),
    (0x1E918, [0x1E93A]), (0x1E919, [0x1E93B]), (0x1E91A, [0x1E93C]), (0x1E91B, [0x1E93D]), (0x1E91C, [0x1E93E]), (0x1E91D, [0x1E93F]),
    (0x1E91E, [0x1E940]), (0x1E91F, [0x1E941]), (0x1E920, [0x1E942]), (0x1E921, [0x1E943])])]

/-- The lengths of its pieces in ascending order. -/
def casefoldCuts : List Nat := [9, 75, 587, 110, 2, 2, 2, 2, 2, 2, 2, 10, 2, 2, 2, 2, 2, 2, 2, 10, 2, 2, 2, 2, 2, 2, 2, 11, 12, 29]

/-- The rules of /repo/modules/inter/FULL.txt in the order of the file: `01k 01v,01v..` as (k, [v, v..]), by the upper bytes of k.
(A first line `Source: ...`, which is not a comment, is left out here: see `Aside`.) -/
def full : Pages := [
  (0x0, [
    (0x20, [0x3000]), (0x21, [0xFF01]), (0x22, [0xFF02]), (0x23, [0xFF03]), (0x24, [0xFF04]), (0x25, [0xFF05]),
    (0x26, [0xFF06]), (0x27, [0xFF07]), (0x28, [0xFF08]), (0x29, [0xFF09]), (0x2A, [0xFF0A]), (0x2B, [0xFF0B]),
    (0x2C, [0xFF0C]), (0x2D, [0xFF0D]), (0x2E, [0xFF0E]), (0x2F, [0xFF0F]), (0x30, [0xFF10]), (0x31, [0xFF11]),
    (0x32, [0xFF12]), (0x33, [0xFF13]), (0x34, [0xFF14]), (0x35, [0xFF15]), (0x36, [0xFF16]), (0x37, [0xFF17]),
    (0x38, [0xFF18]), (0x39, [0xFF19]), (0x3A, [0xFF1A]), (0x3B, [0xFF1B]), (0x3C, [0xFF1C]), (0x3D, [0xFF1D]),
    (0x3E, [0xFF1E]), (0x3F, [0xFF1F]), (0x40, [0xFF20]), (0x41, [0xFF21]), (0x42, [0xFF22]), (0x43, [0xFF23]),
    (0x44, [0xFF24]), (0x45, [0xFF25]), (0x46, [0xFF26]), (0x47, [0xFF27]), (0x48, [0xFF28]), (0x49, [0xFF29]),
    (0x4A, [0xFF2A]), (0x4B, [0xFF2B]), (0x4C, [0xFF2C]), (0x4D, [0xFF2D]), (0x4E, [0xFF2E]), (0x4F, [0xFF2F]),
    (0x50, [0xFF30]), (0x51, [0xFF31]), (0x52, [0xFF32]), (0x53, [0xFF33]), (0x54, [0xFF34]), (0x55, [0xFF35]),
    (0x56, [0xFF36]), (0x57, [0xFF37]), (0x58, [0xFF38]), (0x59, [0xFF39]), (0x5A, [0xFF3A]), (0x5B, [0xFF3B]),
    (0x5C, [0xFF3C]), (0x5D, [0xFF3D]), (0x5E, [0xFF3E]), (0x5F, [0xFF3F]), (0x60, [0xFF40]), (0x61, [0xFF41]),
    (0x62, [0xFF42]), (0x63, [0xFF43]), (0x64, [0xFF44]), (0x65, [0xFF45]), (0x66, [0xFF46]), (0x67, [0xFF47]),
    (0x68, [0xFF48]), (0x69, [0xFF49]), (0x6A, [0xFF4A]), (0x6B, [0xFF4B]), (0x6C, [0xFF4C]), (0x6D, [0xFF4D]),
    (0x6E, [0xFF4E]), (0x6F, [0xFF4F]), (0x70, [0xFF50]), (0x71, [0xFF51]), (0x72, [0xFF52]), (0x73, [0xFF53]),
    (0x74, [0xFF54]), (0x75, [0xFF55]), (0x76, [0xFF56]), (0x77, [0xFF57]), (0x78, [0xFF58]), (0x79, [0xFF59]),
    (0x7A, [0xFF5A]), (0x7B, [0xFF5B]), (0x7C, [0xFF5C]), (0x7D, [0xFF5D]), (0x7E, [0xFF5E])]),
  (0xFF, [
    (0xFF61, [0x3002]), (0xFF62, [0x300C]), (0xFF63, [0x300D]), (0xFF64, [0x3001]), (0xFF65, [0x30FB]), (0xFF66, [0x30F2]),
    (0xFF67, [0x30A1]), (0xFF68, [0x30A3]), (0xFF69, [0x30A5]), (0xFF6A, [0x30A7]), (0xFF6B, [0x30A9]), (0xFF6C, [0x30E3]),
    (0xFF6D, [0x30E5]), (0xFF6E, [0x30E7]), (0xFF6F, [0x30C3]), (0xFF70, [0x30FC]), (0xFF71, [0x30A2]), (0xFF72, [0x30A4]),
    (0xFF73, [0x30A6]), (0xFF74, [0x30A8]), (0xFF75, [0x30AA]), (0xFF76, [0x30AB]), (0xFF77, [0x30AD]), (0xFF78, [0x30AF]),
    (0xFF79, [0x30B1]), (0xFF7A, [0x30B3]), (0xFF7B, [0x30B5]), (0xFF7C, [0x30B7]), (0xFF7D, [0x30B9]), (0xFF7E, [0x30BB]),
    (0xFF7F, [0x30BD]), (0xFF80, [0x30BF]), (0xFF81, [0x30C1]), (0xFF82, [0x30C4]), (0xFF83, [0x30C6]), (0xFF84, [0x30C8]),
    (0xFF85, [0x30CA]), (0xFF86, [0x30CB]), (0xFF87, [0x30CC]), (0xFF88, [0x30CD]), (0xFF89, [0x30CE]), (0xFF8A, [0x30CF]),
    (0xFF8B, [0x30D2]), (0xFF8C, [0x30D5]), (0xFF8D, [0x30D8]), (0xFF8E, [0x30DB]), (0xFF8F, [0x30DE]), (0xFF90, [0x30DF]),
    (0xFF91, [0x30E0]), (0xFF92, [0x30E1]), (0xFF93, [0x30E2]), (0xFF94, [0x30E4]), (0xFF95, [0x30E6]), (0xFF96, [0x30E8]),
    (0xFF97, [0x30E9]), (0xFF98, [0x30EA]), (0xFF99, [0x30EB]), (0xFF9A, [0x30EC]), (0xFF9B, [0x30ED]), (0xFF9C, [0x30EF]),
    (0xFF9D, [0x30F3]), (0xFF9E, [0x309B]), (0xFF9F, [0x309C]), (0xFFA0, [0x3164]), (0xFFA1, [0x3131]), (0xFFA2, [0x3132]),
    (0xFFA3, [0x3133]), (0xFFA4, [0x3134]), (0xFFA5, [0x3135]), (0xFFA6, [0x3136]), (0xFFA7, [0x3137]), (0xFFA8, [0x3138]),
    (0xFFA9, [0x3139]), (0xFFAA, [0x313A]), (0xFFAB, [0x313B]), (0xFFAC, [0x313C]), (0xFFAD, [0x313D]), (0xFFAE, [0x313E]),
    (0xFFAF, [0x313F]), (0xFFB0, [0x3140]), (0xFFB1, [0x3141]), (0xFFB2, [0x3142]), (0xFFB3, [0x3143]), (0xFFB4, [0x3144]),
    (0xFFB5, [0x3145]), (0xFFB6, [0x3146]), (0xFFB7, [0x3147]), (0xFFB8, [0x3148]), (0xFFB9, [0x3149]), (0xFFBA, [0x314A]),
    (0xFFBB, [0x314B]), (0xFFBC, [0x314C]), (0xFFBD, [0x314D]), (0xFFBE, [0x314E]), (0xFFC2, [0x314F]), (0xFFC3, [0x3150]),
    (0xFFC4, [0x3151]), (0xFFC5, [0x3152]), (0xFFC6, [0x3153]), (0xFFC7, [0x3154]), (0xFFCA, [0x3155]), (0xFFCB, [0x3156]),
    (0xFFCC, [0x3157]), (0xFFCD, [0x3158]), (0xFFCE, [0x3159]), (0xFFCF, [0x315A]), (0xFFD2, [0x315B]), (0xFFD3, [0x315C]),
    (0xFFD4, [0x315D]), (0xFFD5, [0x315E]), (0xFFD6, [0x315F]), (0xFFD7, [0x3160]), (0xFFDA, [0x3161]), (0xFFDB, [0x3162]),
    (0xFFDC, [0x3163])]),
  (0x29, [
    (0x2985, [0xFF5F]), (0x2986, [0xFF60])]),
  (0x0, [
    (0xA2, [0xFFE0]), (0xA3, [0xFFE1]), (0xAC, [0xFFE2]), (0xAF, [0xFFE3]), (0xA6, [0xFFE4]), (0xA5, [0xFFE5])]),
  (0x20, [
    (0x20A9, [0xFFE6])]),
  (0xFF, [
    (0xFFE8, [0x2502]), (0xFFE9, [0x2190]), (0xFFEA, [0x2191]), (0xFFEB, [0x2192]), (0xFFEC, [0x2193]), (0xFFED, [0x25A0]),
    (0xFFEE, [0x25CB])])]

/-- The lengths of its pieces in ascending order. -/
def fullCuts : List Nat := [210, 2, 4, 1]

/-- The rules of /repo/modules/inter/HALF.txt in the order of the file: `01k 01v,01v..` as (k, [v, v..]), by the upper bytes of k.
(A first line `Source: ...`, which is not a comment, is left out here: see `Aside`.) -/
def half : Pages := [
  (0x30, [
    (0x3000, [0x20])]),
  (0xFF, [
    (0xFF01, [0x21]), (0xFF02, [0x22]), (0xFF03, [0x23]), (0xFF04, [0x24]), (0xFF05, [0x25]), (0xFF06, [0x26]),
    (0xFF07, [0x27]), (0xFF08, [0x28]), (0xFF09, [0x29]), (0xFF0A, [0x2A]), (0xFF0B, [0x2B]), (0xFF0C, [0x2C]),
    (0xFF0D, [0x2D]), (0xFF0E, [0x2E]), (0xFF0F, [0x2F]), (0xFF10, [0x30]), (0xFF11, [0x31]), (0xFF12, [0x32]),
    (0xFF13, [0x33]), (0xFF14, [0x34]), (0xFF15, [0x35]), (0xFF16, [0x36]), (0xFF17, [0x37]), (0xFF18, [0x38]),
    (0xFF19, [0x39]), (0xFF1A, [0x3A]), (0xFF1B, [0x3B]), (0xFF1C, [0x3C]), (0xFF1D, [0x3D]), (0xFF1E, [0x3E]),
    (0xFF1F, [0x3F]), (0xFF20, [0x40]), (0xFF21, [0x41]), (0xFF22, [0x42]), (0xFF23, [0x43]), (0xFF24, [0x44]),
    (0xFF25, [0x45]), (0xFF26, [0x46]), (0xFF27, [0x47]), (0xFF28, [0x48]), (0xFF29, [0x49]), (0xFF2A, [0x4A]),
    (0xFF2B, [0x4B]), (0xFF2C, [0x4C]), (0xFF2D, [0x4D]), (0xFF2E, [0x4E]), (0xFF2F, [0x4F]), (0xFF30, [0x50]),
    (0xFF31, [0x51]), (0xFF32, [0x52]), (0xFF33, [0x53]), (0xFF34, [0x54]), (0xFF35, [0x55]), (0xFF36, [0x56]),
    (0xFF37, [0x57]), (0xFF38, [0x58]), (0xFF39, [0x59]), (0xFF3A, [0x5A]), (0xFF3B, [0x5B]), (0xFF3C, [0x5C]),
    (0xFF3D, [0x5D]), (0xFF3E, [0x5E]), (0xFF3F, [0x5F]), (0xFF40, [0x60]), (0xFF41, [0x61]), (0xFF42, [0x62]),
    (0xFF43, [0x63]), (0xFF44, [0x64]), (0xFF45, [0x65]), (0xFF46, [0x66]), (0xFF47, [0x67]), (0xFF48, [0x68]),
    (0xFF49, [0x69]), (0xFF4A, [0x6A]), (0xFF4B, [0x6B]), (0xFF4C, [0x6C]), (0xFF4D, [0x6D]), (0xFF4E, [0x6E]),
    (0xFF4F, [0x6F]), (0xFF50, [0x70]), (0xFF51, [0x71]), (0xFF52, [0x72]), (0xFF53, [0x73]), (0xFF54, [0x74]),
    (0xFF55, [0x75]), (0xFF56, [0x76]), (0xFF57, [0x77]), (0xFF58, [0x78]), (0xFF59, [0x79]), (0xFF5A, [0x7A]),
    (0xFF5B, [0x7B]), (0xFF5C, [0x7C]), (0xFF5D, [0x7D]), (0xFF5E, [0x7E])]),
  (0x30, [
    (0x3002, [0xFF61]), (0x300C, [0xFF62]), (0x300D, [0xFF63]), (0x3001, [0xFF64]), (0x30FB, [0xFF65]), (0x30F2, [0xFF66]),
    (0x30A1, [0xFF67]), (0x30A3, [0xFF68]), (0x30A5, [0xFF69]), (0x30A7, [0xFF6A]), (0x30A9, [0xFF6B]), (0x30E3, [0xFF6C]),
    (0x30E5, [0xFF6D]), (0x30E7, [0xFF6E]), (0x30C3, [0xFF6F]), (0x30FC, [0xFF70]), (0x30A2, [0xFF71]), (0x30A4, [0xFF72]),
    (0x30A6, [0xFF73]), (0x30A8, [0xFF74]), (0x30AA, [0xFF75]), (0x30AB, [0xFF76]), (0x30AD, [0xFF77]), (0x30AF, [0xFF78]),
    (0x30B1, [0xFF79]), (0x30B3, [0xFF7A]), (0x30B5, [0xFF7B]), (0x30B7, [0xFF7C]), (0x30B9, [0xFF7D]), (0x30BB, [0xFF7E]),
    (0x30BD, [0xFF7F]), (0x30BF, [0xFF80]), (0x30C1, [0xFF81]), (0x30C4, [0xFF82]), (0x30C6, [0xFF83]), (0x30C8, [0xFF84]),
    (0x30CA, [0xFF85]), (0x30CB, [0xFF86]), (0x30CC, [0xFF87]), (0x30CD, [0xFF88]), (0x30CE, [0xFF89]), (0x30CF, [0xFF8A]),
    (0x30D2, [0xFF8B]), (0x30D5, [0xFF8C]), (0x30D8, [0xFF8D]), (0x30DB, [0xFF8E]), (0x30DE, [0xFF8F]), (0x30DF, [0xFF90]),
    (0x30E0, [0xFF91]), (0x30E1, [0xFF92]), (0x30E2, [0xFF93]), (0x30E4, [0xFF94]), (0x30E6, [0xFF95]), (0x30E8, [0xFF96]),
    (0x30E9, [0xFF97]), (0x30EA, [0xFF98]), (0x30EB, [0xFF99]), (0x30EC, [0xFF9A]), (0x30ED, [0xFF9B]), (0x30EF, [0xFF9C]),
    (0x30F3, [0xFF9D]), (0x309B, [0xFF9E]), (0x309C, [0xFF9F])]),
  (0x31, [
    (0x3164, [0xFFA0]), (0x3131, [0xFFA1]), (0x3132, [0xFFA2]), (0x3133, [0xFFA3]), (0x3134, [0xFFA4]), (0x3135, [0xFFA5]),
    (0x3136, [0xFFA6]), (0x3137, [0xFFA7]), (0x3138, [0xFFA8]), (0x3139, [0xFFA9]), (0x313A, [0xFFAA]), (0x313B, [0xFFAB]),
    (0x313C, [0xFFAC]), (0x313D, [0xFFAD]), (0x313E, [0xFFAE]), (0x313F, [0xFFAF]), (0x3140, [0xFFB0]), (0x3141, [0xFFB1]),
    (0x3142, [0xFFB2]), (0x3143, [0xFFB3]), (0x3144, [0xFFB4]), (0x3145, [0xFFB5]), (0x3146, [0xFFB6]), (0x3147, [0xFFB7]),
    (0x3148, [0xFFB8]), (0x3149, [0xFFB9]), (0x314A, [0xFFBA]), (0x314B, [0xFFBB]), (0x314C, [0xFFBC]), (0x314D, [0xFFBD]),
    (0x314E, [0xFFBE]), (0x314F, [0xFFC2]), (0x3150, [0xFFC3]), (0x3151, [0xFFC4]), (0x3152, [0xFFC5]), (0x3153, [0xFFC6]),
    (0x3154, [0xFFC7]), (0x3155, [0xFFCA]), (0x3156, [0xFFCB]), (0x3157, [0xFFCC]), (0x3158, [0xFFCD]), (0x3159, [0xFFCE]),
    (0x315A, [0xFFCF]), (0x315B, [0xFFD2]), (0x315C, [0xFFD3]), (0x315D, [0xFFD4]), (0x315E, [0xFFD5]), (0x315F, [0xFFD6]),
    (0x3160, [0xFFD7]), (0x3161, [0xFFDA]), (0x3162, [0xFFDB]), (0x3163, [0xFFDC])]),
  (0xFF, [
    (0xFF5F, [0x2985]), (0xFF60, [0x2986]), (0xFFE0, [0xA2]), (0xFFE1, [0xA3]), (0xFFE2, [0xAC]), (0xFFE3, [0xAF]),
    (0xFFE4, [0xA6]), (0xFFE5, [0xA5]), (0xFFE6, [0x20A9])]),
  (0x25, [
    (0x2502, [0xFFE8])]),
  (0x21, [
    (0x2190, [0xFFE9]), (0x2191, [0xFFEA]), (0x2192, [0xFFEB]), (0x2193, [0xFFEC])]),
  (0x25, [
    (0x25A0, [0xFFED]), (0x25CB, [0xFFEE])])]

/-- The lengths of its pieces in ascending order. -/
def halfCuts : List Nat := [95, 3, 2, 1, 8, 2, 45, 3, 60, 1]

/-- The rules of /repo/modules/inter/ASCIIFOLD.txt in the order of the file: `01k 01v,01v..` as (k, [v, v..]), by the upper bytes of k.
(A first line `Source: ...`, which is not a comment, is left out here: see `Aside`.) -/
def asciifold : Pages := [
  (0x0, [
    (0xAB, [0x22]), (0xB2, [0x32]), (0xB3, [0x33]), (0xB9, [0x31]), (0xBB, [0x22]), (0xC0, [0x41]),
    (0xC1, [0x41]), (0xC2, [0x41]), (0xC3, [0x41]), (0xC4, [0x41]), (0xC5, [0x41]), (0xC6, [0x41, 0x45]),
    (0xC7, [0x43]), (0xC8, [0x45]), (0xC9, [0x45]), (0xCA, [0x45]), (0xCB, [0x45]), (0xCC, [0x49]),
    (0xCD, [0x49]), (0xCE, [0x49]), (0xCF, [0x49]), (0xD0, [0x44]), (0xD1, [0x4E]), (0xD2, [0x4F]),
    (0xD3, [0x4F]), (0xD4, [0x4F]), (0xD5, [0x4F]), (0xD6, [0x4F]), (0xD8, [0x4F]), (0xD9, [0x55]),
    (0xDA, [0x55]), (0xDB, [0x55]), (0xDC, [0x55]), (0xDD, [0x59]), (0xDE, [0x54, 0x48]), (0xDF, [0x73, 0x73]),
    (0xE0, [0x61]), (0xE1, [0x61]), (0xE2, [0x61]), (0xE3, [0x61]), (0xE4, [0x61]), (0xE5, [0x61]),
    (0xE6, [0x61, 0x65]), (0xE7, [0x63]), (0xE8, [0x65]), (0xE9, [0x65]), (0xEA, [0x65]), (0xEB, [0x65]),
    (0xEC, [0x69]), (0xED, [0x69]), (0xEE, [0x69]), (0xEF, [0x69]), (0xF0, [0x64]), (0xF1, [0x6E]),
    (0xF2, [0x6F]), (0xF3, [0x6F]), (0xF4, [0x6F]), (0xF5, [0x6F]), (0xF6, [0x6F]), (0xF8, [0x6F]),
    (0xF9, [0x75]), (0xFA, [0x75]), (0xFB, [0x75]), (0xFC, [0x75]), (0xFD, [0x79]), (0xFE, [0x74, 0x68]),
    (0xFF, [0x79])]),
  (0x1, [
    (0x100, [0x41]), (0x101, [0x61]), (0x102, [0x41]), (0x103, [0x61]), (0x104, [0x41]), (0x105, [0x61]),
    (0x106, [0x43]), (0x107, [0x63]), (0x108, [0x43]), (0x109, [0x63]), (0x10A, [0x43]), (0x10B, [0x63]),
    (0x10C, [0x43]), (0x10D, [0x63]), (0x10E, [0x44]), (0x10F, [0x64]), (0x110, [0x44]), (0x111, [0x64]),
    (0x112, [0x45]), (0x113, [0x65]), (0x114, [0x45]), (0x115, [0x65]), (0x116, [0x45]), (0x117, [0x65]),
    (0x118, [0x45]), (0x119, [0x65]), (0x11A, [0x45]), (0x11B, [0x65]), (0x11C, [0x47]), (0x11D, [0x67]),
    (0x11E, [0x47]), (0x11F, [0x67]), (0x120, [0x47]), (0x121, [0x67]), (0x122, [0x47]), (0x123, [0x67]),
    (0x124, [0x48]), (0x125, [0x68]), (0x126, [0x48]), (0x127, [0x68]), (0x128, [0x49]), (0x129, [0x69]),
    (0x12A, [0x49]), (0x12B, [0x69]), (0x12C, [0x49]), (0x12D, [0x69]), (0x12E, [0x49]), (0x12F, [0x69]),
    (0x130, [0x49]), (0x131, [0x69]), (0x132, [0x49, 0x4A]), (0x133, [0x69, 0x6A]), (0x134, [0x4A]), (0x135, [0x6A]),
    (0x136, [0x4B]), (0x137, [0x6B]), (0x138, [0x71]), (0x139, [0x4C]), (0x13A, [0x6C]), (0x13B, [0x4C]),
    (0x13C, [0x6C]), (0x13D, [0x4C]), (0x13E, [0x6C]), (0x13F, [0x4C]), (0x140, [0x6C]), (0x141, [0x4C]),
    (0x142, [0x6C]), (0x143, [0x4E]), (0x144, [0x6E]), (0x145, [0x4E]), (0x146, [0x6E]), (0x147, [0x4E]),
    (0x148, [0x6E]), (0x149, [0x6E]), (0x14A, [0x4E]), (0x14B, [0x6E]), (0x14C, [0x4F]), (0x14D, [0x6F]),
    (0x14E, [0x4F]), (0x14F, [0x6F]), (0x150, [0x4F]), (0x151, [0x6F]), (0x152, [0x4F, 0x45]), (0x153, [0x6F, 0x65]),
    (0x154, [0x52]), (0x155, [0x72]), (0x156, [0x52]), (0x157, [0x72]), (0x158, [0x52]), (0x159, [0x72]),
    (0x15A, [0x53]), (0x15B, [0x73]), (0x15C, [0x53]), (0x15D, [0x73]), (0x15E, [0x53]), (0x15F, [0x73]),
    (0x160, [0x53]), (0x161, [0x73]), (0x162, [0x54]), (0x163, [0x74]), (0x164, [0x54]), (0x165, [0x74]),
    (0x166, [0x54]), (0x167, [0x74]), (0x168, [0x55]), (0x169, [0x75]), (0x16A, [0x55]), (0x16B, [0x75]),
    (0x16C, [0x55]), (0x16D, [0x75]), (0x16E, [0x55]), (0x16F, [0x75]), (0x170, [0x55]), (0x171, [0x75]),
    (0x172, [0x55]), (0x173, [0x75]), (0x174, [0x57]), (0x175, [0x77]), (0x176, [0x59]), (0x177, [0x79]),
    (0x178, [0x59]), (0x179, [0x5A]), (0x17A, [0x7A]), (0x17B, [0x5A]), (0x17C, [0x7A]), (0x17D, [0x5A]),
    (0x17E, [0x7A]), (0x17F, [0x73]), (0x180, [0x62]), (0x181, [0x42]), (0x182, [0x42]), (0x183, [0x62]),
    (0x186, [0x4F]), (0x187, [0x43]), (0x188, [0x63]), (0x189, [0x44]), (0x18A, [0x44]), (0x18B, [0x44]),
    (0x18C, [0x64]), (0x18E, [0x45]), (0x18F, [0x41]), (0x190, [0x45]), (0x191, [0x46]), (0x192, [0x66]),
    (0x193, [0x47]), (0x195, [0x68, 0x76]), (0x196, [0x49]), (0x197, [0x49]), (0x198, [0x4B]), (0x199, [0x6B]),
    (0x19A, [0x6C]), (0x19C, [0x4D]), (0x19D, [0x4E]), (0x19E, [0x6E]), (0x19F, [0x4F]), (0x1A0, [0x4F]),
    (0x1A1, [0x6F]), (0x1A4, [0x50]), (0x1A5, [0x70]), (0x1AB, [0x74]), (0x1AC, [0x54]), (0x1AD, [0x74]),
    (0x1AE, [0x54]), (0x1AF, [0x55]), (0x1B0, [0x75]), (0x1B2, [0x56]), (0x1B3, [0x59]), (0x1B4, [0x79]),
    (0x1B5, [0x5A]), (0x1B6, [0x7A]), (0x1BF, [0x77]), (0x1C4, [0x44, 0x5A]), (0x1C5, [0x44, 0x7A]), (0x1C6, [0x64, 0x7A]),
    (0x1C7, [0x4C, 0x4A]), (0x1C8, [0x4C, 0x6A]), (0x1C9, [0x6C, 0x6A]), (0x1CA, [0x4E, 0x4A]), (0x1CB, [0x4E, 0x6A]), (0x1CC, [0x6E, 0x6A]),
    (0x1CD, [0x41]), (0x1CE, [0x61]), (0x1CF, [0x49]), (0x1D0, [0x69]), (0x1D1, [0x4F]), (0x1D2, [0x6F]),
    (0x1D3, [0x55]), (0x1D4, [0x75]), (0x1D5, [0x55]), (0x1D6, [0x75]), (0x1D7, [0x55]), (0x1D8, [0x75]),
    (0x1D9, [0x55]), (0x1DA, [0x75]), (0x1DB, [0x55]), (0x1DC, [0x75]), (0x1DD, [0x65]), (0x1DE, [0x41]),
    (0x1DF, [0x61]), (0x1E0, [0x41]), (0x1E1, [0x61]), (0x1E2, [0x41, 0x45]), (0x1E3, [0x61, 0x65]), (0x1E4, [0x47]),
    (0x1E5, [0x47]), (0x1E6, [0x47]), (0x1E7, [0x47]), (0x1E8, [0x4B]), (0x1E9, [0x6B]), (0x1EA, [0x4F]),
    (0x1EB, [0x6F]), (0x1EC, [0x4F]), (0x1ED, [0x6F]), (0x1F0, [0x6A]), (0x1F1, [0x44, 0x5A]), (0x1F2, [0x44, 0x7A]),
    (0x1F3, [0x64, 0x7A]), (0x1F4, [0x47]), (0x1F5, [0x67]), (0x1F6, [0x48, 0x56]), (0x1F7, [0x57]), (0x1F8, [0x4E]),
    (0x1F9, [0x6E]), (0x1FA, [0x41]), (0x1FB, [0x61]), (0x1FC, [0x41, 0x45]), (0x1FD, [0x61, 0x65]), (0x1FE, [0x4F]),
    (0x1FF, [0x6F])]),
  (0x2, [
    (0x200, [0x41]), (0x201, [0x61]), (0x202, [0x41]), (0x203, [0x61]), (0x204, [0x45]), (0x205, [0x65]),
    (0x206, [0x45]), (0x207, [0x65]), (0x208, [0x49]), (0x209, [0x69]), (0x20A, [0x49]), (0x20B, [0x69]),
    (0x20C, [0x4F]), (0x20D, [0x6F]), (0x20E, [0x4F]), (0x20F, [0x6F]), (0x210, [0x52]), (0x211, [0x72]),
    (0x212, [0x52]), (0x213, [0x72]), (0x214, [0x55]), (0x215, [0x75]), (0x216, [0x55]), (0x217, [0x75]),
    (0x218, [0x53]), (0x219, [0x73]), (0x21A, [0x54]), (0x21B, [0x74]), (0x21C, [0x5A]), (0x21D, [0x7A]),
    (0x21E, [0x48]), (0x21F, [0x68]), (0x220, [0x4E]), (0x221, [0x64]), (0x222, [0x4F, 0x55]), (0x223, [0x6F, 0x75]),
    (0x224, [0x5A]), (0x225, [0x7A]), (0x226, [0x41]), (0x227, [0x61]), (0x228, [0x45]), (0x229, [0x65]),
    (0x22A, [0x4F]), (0x22B, [0x6F]), (0x22C, [0x4F]), (0x22D, [0x6F]), (0x22E, [0x4F]), (0x22F, [0x6F]),
    (0x230, [0x4F]), (0x231, [0x6F]), (0x232, [0x59]), (0x233, [0x79]), (0x234, [0x6C]), (0x235, [0x6E]),
    (0x236, [0x74]), (0x237, [0x6A]), (0x238, [0x64, 0x62]), (0x239, [0x71, 0x70]), (0x23A, [0x41]), (0x23B, [0x43]),
    (0x23C, [0x63]), (0x23D, [0x4C]), (0x23E, [0x54]), (0x23F, [0x73]), (0x240, [0x7A]), (0x243, [0x42]),
    (0x244, [0x55]), (0x245, [0x56]), (0x246, [0x45]), (0x247, [0x65]), (0x248, [0x4A]), (0x249, [0x6A]),
    (0x24A, [0x51]), (0x24B, [0x71]), (0x24C, [0x52]), (0x24D, [0x72]), (0x24E, [0x59]), (0x24F, [0x79]),
    (0x250, [0x61]), (0x253, [0x62]), (0x254, [0x6F]), (0x255, [0x63]), (0x256, [0x64]), (0x257, [0x64]),
    (0x258, [0x65]), (0x259, [0x61]), (0x25A, [0x61]), (0x25B, [0x65]), (0x25C, [0x65]), (0x25D, [0x65]),
    (0x25E, [0x65]), (0x25F, [0x6A]), (0x260, [0x67]), (0x261, [0x67]), (0x262, [0x47]), (0x265, [0x68]),
    (0x266, [0x68]), (0x268, [0x69]), (0x26A, [0x49]), (0x26B, [0x6C]), (0x26C, [0x6C]), (0x26D, [0x6C]),
    (0x26F, [0x6D]), (0x270, [0x6D]), (0x271, [0x6D]), (0x272, [0x6E]), (0x273, [0x6E]), (0x274, [0x4E]),
    (0x275, [0x6F]), (0x276, [0x4F, 0x45]), (0x27C, [0x72]), (0x27D, [0x72]), (0x27E, [0x72]), (0x27F, [0x72]),
    (0x280, [0x52]), (0x281, [0x52]), (0x282, [0x73]), (0x284, [0x6A]), (0x287, [0x74]), (0x288, [0x74]),
    (0x289, [0x75]), (0x28B, [0x76]), (0x28C, [0x76]), (0x28D, [0x77]), (0x28E, [0x79]), (0x28F, [0x59]),
    (0x290, [0x7A]), (0x291, [0x7A]), (0x297, [0x43]), (0x299, [0x42]), (0x29A, [0x65]), (0x29B, [0x47]),
    (0x29C, [0x48]), (0x29D, [0x6A]), (0x29E, [0x6B]), (0x29F, [0x4C]), (0x2A0, [0x71]), (0x2A3, [0x64, 0x7A]),
    (0x2A5, [0x64, 0x7A]), (0x2A6, [0x74, 0x73]), (0x2A8, [0x74, 0x63]), (0x2AA, [0x6C, 0x73]), (0x2AB, [0x6C, 0x7A]), (0x2AE, [0x68]),
    (0x2AF, [0x68])]),
  (0x1D, [
    (0x1D00, [0x41]), (0x1D01, [0x41, 0x45]), (0x1D02, [0x61, 0x65]), (0x1D03, [0x42]), (0x1D04, [0x43]), (0x1D05, [0x44]),
    (0x1D06, [0x44]), (0x1D07, [0x45]), (0x1D08, [0x65]), (0x1D09, [0x69]), (0x1D0A, [0x4A]), (0x1D0B, [0x4B]),
    (0x1D0C, [0x4C]), (0x1D0D, [0x4D]), (0x1D0E, [0x4E]), (0x1D0F, [0x4F]), (0x1D10, [0x4F]), (0x1D14, [0x6F, 0x65]),
    (0x1D15, [0x4F, 0x55]), (0x1D16, [0x6F]), (0x1D17, [0x6F]), (0x1D18, [0x50]), (0x1D19, [0x52]), (0x1D1A, [0x52]),
    (0x1D1B, [0x54]), (0x1D1C, [0x55]), (0x1D20, [0x56]), (0x1D21, [0x57]), (0x1D22, [0x5A]), (0x1D62, [0x69]),
    (0x1D63, [0x72]), (0x1D64, [0x75]), (0x1D65, [0x76]), (0x1D6B, [0x75, 0x65]), (0x1D6C, [0x62]), (0x1D6D, [0x64]),
    (0x1D6E, [0x66]), (0x1D6F, [0x6D]), (0x1D70, [0x6E]), (0x1D71, [0x70]), (0x1D72, [0x72]), (0x1D73, [0x72]),
    (0x1D74, [0x73]), (0x1D75, [0x74]), (0x1D76, [0x7A]), (0x1D77, [0x67]), (0x1D79, [0x67]), (0x1D7A, [0x74, 0x68]),
    (0x1D7B, [0x49]), (0x1D7C, [0x69]), (0x1D7D, [0x70]), (0x1D7E, [0x55]), (0x1D80, [0x62]), (0x1D81, [0x64]),
    (0x1D82, [0x66]), (0x1D83, [0x67]), (0x1D84, [0x6B]), (0x1D85, [0x6C]), (0x1D86, [0x6D]), (0x1D87, [0x6E]),
    (0x1D88, [0x70]), (0x1D89, [0x72]), (0x1D8A, [0x73]), (0x1D8C, [0x76]), (0x1D8D, [0x78]), (0x1D8E, [0x7A]),
    (0x1D8F, [0x61]), (0x1D91, [0x64]), (0x1D92, [0x65]), (0x1D93, [0x65]), (0x1D94, [0x65]), (0x1D95, [0x61]),
    (0x1D96, [0x69]), (0x1D97, [0x6F]), (0x1D99, [0x75])]),
  (0x1E, [
    (0x1E00, [0x41]), (0x1E01, [0x61]), (0x1E02, [0x42]), (0x1E03, [0x62]), (0x1E04, [0x42]), (0x1E05, [0x62]),
    (0x1E06, [0x42]), (0x1E07, [0x62]), (0x1E08, [0x43]), (0x1E09, [0x63]), (0x1E0A, [0x44]), (0x1E0B, [0x64]),
    (0x1E0C, [0x44]), (0x1E0D, [0x64]), (0x1E0E, [0x44]), (0x1E0F, [0x64]), (0x1E10, [0x44]), (0x1E11, [0x64]),
    (0x1E12, [0x44]), (0x1E13, [0x64]), (0x1E14, [0x45]), (0x1E15, [0x65]), (0x1E16, [0x45]), (0x1E17, [0x65]),
    (0x1E18, [0x45]), (0x1E19, [0x65]), (0x1E1A, [0x45]), (0x1E1B, [0x65]), (0x1E1C, [0x45]), (0x1E1D, [0x65]),
    (0x1E1E, [0x46]), (0x1E1F, [0x66]), (0x1E20, [0x47]), (0x1E21, [0x67]), (0x1E22, [0x48]), (0x1E23, [0x68]),
    (0x1E24, [0x48]), (0x1E25, [0x68]), (0x1E26, [0x48]), (0x1E27, [0x68]), (0x1E28, [0x48]), (0x1E29, [0x68]),
    (0x1E2A, [0x48]), (0x1E2B, [0x68]), (0x1E2C, [0x49]), (0x1E2D, [0x69]), (0x1E2E, [0x49]), (0x1E2F, [0x69]),
    (0x1E30, [0x4B]), (0x1E31, [0x6B]), (0x1E32, [0x4B]), (0x1E33, [0x6B]), (0x1E34, [0x4B]), (0x1E35, [0x6B]),
    (0x1E36, [0x4C]), (0x1E37, [0x6C]), (0x1E38, [0x4C]), (0x1E39, [0x6C]), (0x1E3A, [0x4C]), (0x1E3B, [0x6C]),
    (0x1E3C, [0x4C]), (0x1E3D, [0x6C]), (0x1E3E, [0x4D]), (0x1E3F, [0x6D]), (0x1E40, [0x4D]), (0x1E41, [0x6D]),
    (0x1E42, [0x4D]), (0x1E43, [0x6D]), (0x1E44, [0x4E]), (0x1E45, [0x6E]), (0x1E46, [0x4E]), (0x1E47, [0x6E]),
    (0x1E48, [0x4E]), (0x1E49, [0x6E]), (0x1E4A, [0x4E]), (0x1E4B, [0x6E]), (0x1E4C, [0x4F]), (0x1E4D, [0x6F]),
    (0x1E4E, [0x4F]), (0x1E4F, [0x6F]), (0x1E50, [0x4F]), (0x1E51, [0x6F]), (0x1E52, [0x4F]), (0x1E53, [0x6F]),
    (0x1E54, [0x50]), (0x1E55, [0x70]), (0x1E56, [0x50]), (0x1E57, [0x70]), (0x1E58, [0x52]), (0x1E59, [0x72]),
    (0x1E5A, [0x52]), (0x1E5B, [0x72]), (0x1E5C, [0x52]), (0x1E5D, [0x72]), (0x1E5E, [0x52]), (0x1E5F, [0x72]),
    (0x1E60, [0x53]), (0x1E61, [0x73]), (0x1E62, [0x53]), (0x1E63, [0x73]), (0x1E64, [0x53]), (0x1E65, [0x73]),
    (0x1E66, [0x53]), (0x1E67, [0x73]), (0x1E68, [0x53]), (0x1E69, [0x73]), (0x1E6A, [0x54]), (0x1E6B, [0x74]),
    (0x1E6C, [0x54]), (0x1E6D, [0x74]), (0x1E6E, [0x54]), (0x1E6F, [0x74]), (0x1E70, [0x54]), (0x1E71, [0x74]),
    (0x1E72, [0x55]), (0x1E73, [0x75]), (0x1E74, [0x55]), (0x1E75, [0x75]), (0x1E76, [0x55]), (0x1E77, [0x75]),
    (0x1E78, [0x55]), (0x1E79, [0x75]), (0x1E7A, [0x55]), (0x1E7B, [0x75]), (0x1E7C, [0x56]), (0x1E7D, [0x76]),
    (0x1E7E, [0x56]), (0x1E7F, [0x76]), (0x1E80, [0x57]), (0x1E81, [0x77]), (0x1E82, [0x57]), (0x1E83, [0x77]),
    (0x1E84, [0x57]), (0x1E85, [0x77]), (0x1E86, [0x57]), (0x1E87, [0x77]), (0x1E88, [0x57]), (0x1E89, [0x77]),
    (0x1E8A, [0x58]), (0x1E8B, [0x78]), (0x1E8C, [0x58]), (0x1E8D, [0x78]), (0x1E8E, [0x59]), (0x1E8F, [0x79]),
    (0x1E90, [0x5A]), (0x1E91, [0x7A]), (0x1E92, [0x5A]), (0x1E93, [0x7A]), (0x1E94, [0x5A]), (0x1E95, [0x7A]),
    (0x1E96, [0x68]), (0x1E97, [0x74]), (0x1E98, [0x77]), (0x1E99, [0x79]), (0x1E9A, [0x61]), (0x1E9B, [0x66]),
    (0x1E9C, [0x73]), (0x1E9D, [0x73]), (0x1E9E, [0x53, 0x53]), (0x1EA0, [0x41]), (0x1EA1, [0x61]), (0x1EA2, [0x41]),
    (0x1EA3, [0x61]), (0x1EA4, [0x41]), (0x1EA5, [0x61]), (0x1EA6, [0x41]), (0x1EA7, [0x61]), (0x1EA8, [0x41]),
    (0x1EA9, [0x61]), (0x1EAA, [0x41]), (0x1EAB, [0x61]), (0x1EAC, [0x41]), (0x1EAD, [0x61]), (0x1EAE, [0x41]),
    (0x1EAF, [0x61]), (0x1EB0, [0x41]), (0x1EB1, [0x61]), (0x1EB2, [0x41]), (0x1EB3, [0x61]), (0x1EB4, [0x41]),
    (0x1EB5, [0x61]), (0x1EB6, [0x41]), (0x1EB7, [0x61]), (0x1EB8, [0x45]), (0x1EB9, [0x65]), (0x1EBA, [0x45]),
    (0x1EBB, [0x65]), (0x1EBC, [0x45]), (0x1EBD, [0x65]), (0x1EBE, [0x45]), (0x1EBF, [0x65]), (0x1EC0, [0x45]),
    (0x1EC1, [0x65]), (0x1EC2, [0x45]), (0x1EC3, [0x65]), (0x1EC4, [0x45]), (0x1EC5, [0x65]), (0x1EC6, [0x45]),
    (0x1EC7, [0x65]), (0x1EC8, [0x49]), (0x1EC9, [0x69]), (0x1ECA, [0x49]), (0x1ECB, [0x69]), (0x1ECC, [0x4F]),
    (0x1ECD, [0x6F]), (0x1ECE, [0x4F]), (0x1ECF, [0x6F]), (0x1ED0, [0x4F]), (0x1ED1, [0x6F]), (0x1ED2, [0x4F]),
    (0x1ED3, [0x6F]), (0x1ED4, [0x4F]), (0x1ED5, [0x6F]), (0x1ED6, [0x4F]), (0x1ED7, [0x6F]), (0x1ED8, [0x4F]),
    (0x1ED9, [0x6F]), (0x1EDA, [0x4F]), (0x1EDB, [0x6F]), (0x1EDC, [0x4F]), (0x1EDD, [0x6F]), (0x1EDE, [0x4F]),
    (0x1EDF, [0x6F]), (0x1EE0, [0x4F]), (0x1EE1, [0x6F]), (0x1EE2, [0x4F]), (0x1EE3, [0x6F]), (0x1EE4, [0x55]),
    (0x1EE5, [0x75]), (0x1EE6, [0x55]), (0x1EE7, [0x75]), (0x1EE8, [0x55]), (0x1EE9, [0x75]), (0x1EEA, [0x55]),
    (0x1EEB, [0x75]), (0x1EEC, [0x55]), (0x1EED, [0x75]), (0x1EEE, [0x55]), (0x1EEF, [0x75]), (0x1EF0, [0x55]),
    (0x1EF1, [0x75]), (0x1EF2, [0x59]), (0x1EF3, [0x79]), (0x1EF4, [0x59]), (0x1EF5, [0x79]), (0x1EF6, [0x59]),
    (0x1EF7, [0x79]), (0x1EF8, [0x59]), (0x1EF9, [0x79]), (0x1EFA, [0x4C, 0x4C]), (0x1EFB, [0x6C, 0x6C]), (0x1EFC, [0x56]),
    (0x1EFE, [0x59]), (0x1EFF, [0x79])]),
  (0x20, [
    (0x2010, [0x2D]), (0x2011, [0x2D]), (0x2012, [0x2D]), (0x2013, [0x2D]), (0x2014, [0x2D]), (0x2018, [0x27]),
    (0x2019, [0x27]), (0x201A, [0x27]), (0x201B, [0x27]), (0x201C, [0x22]), (0x201D, [0x22]), (0x201E, [0x22]),
    (0x2032, [0x27]), (0x2033, [0x22]), (0x2035, [0x27]), (0x2036, [0x22]), (0x2038, [0x5E]), (0x2039, [0x27]),
    (0x203A, [0x27]), (0x203C, [0x21, 0x21]), (0x2044, [0x2F]), (0x2045, [0x5B]), (0x2046, [0x5D]), (0x2047, [0x3F, 0x3F]),
    (0x2048, [0x3F, 0x21]), (0x2049, [0x21, 0x3F]), (0x204E, [0x2A]), (0x204F, [0x3B]), (0x2052, [0x25]), (0x2053, [0x7E]),
    (0x2070, [0x30]), (0x2071, [0x69]), (0x2074, [0x34]), (0x2075, [0x35]), (0x2076, [0x36]), (0x2077, [0x37]),
    (0x2078, [0x38]), (0x2079, [0x39]), (0x207A, [0x2B]), (0x207B, [0x2D]), (0x207C, [0x3D]), (0x207D, [0x28]),
    (0x207E, [0x29]), (0x207F, [0x6E]), (0x2080, [0x30]), (0x2081, [0x31]), (0x2082, [0x32]), (0x2083, [0x33]),
    (0x2084, [0x34]), (0x2085, [0x35]), (0x2086, [0x36]), (0x2087, [0x37]), (0x2088, [0x38]), (0x2089, [0x39]),
    (0x208A, [0x2B]), (0x208B, [0x2D]), (0x208C, [0x3D]), (0x208D, [0x28]), (0x208E, [0x29]), (0x2090, [0x61]),
    (0x2091, [0x65]), (0x2092, [0x6F]), (0x2093, [0x78]), (0x2094, [0x61])]),
  (0x21, [
    (0x2184, [0x63])]),
  (0x24, [
    (0x2460, [0x31]), (0x2461, [0x32]), (0x2462, [0x33]), (0x2463, [0x34]), (0x2464, [0x35]), (0x2465, [0x36]),
    (0x2466, [0x37]), (0x2467, [0x38]), (0x2468, [0x39]), (0x2469, [0x31, 0x30]), (0x246A, [0x31, 0x31]), (0x246B, [0x31, 0x32]),
    (0x246C, [0x31, 0x33]), (0x246D, [0x31, 0x34]), (0x246E, [0x31, 0x35]), (0x246F, [0x31, 0x36]), (0x2470, [0x31, 0x37]), (0x2471, [0x31, 0x38]),
    (0x2472, [0x31, 0x39]), (0x2473, [0x32, 0x30]), (0x2474, [0x28, 0x31, 0x29]), (0x2475, [0x28, 0x32, 0x29]), (0x2476, [0x28, 0x33, 0x29]), (0x2477, [0x28, 0x34, 0x29]),
    (0x2478, [0x28, 0x35, 0x29]), (0x2479, [0x28, 0x36, 0x29]), (0x247A, [0x28, 0x37, 0x29]), (0x247B, [0x28, 0x38, 0x29]), (0x247C, [0x28, 0x39, 0x29]), (0x247D, [0x28, 0x31, 0x30, 0x29]),
    (0x247E, [0x28, 0x31, 0x31, 0x29]), (0x247F, [0x28, 0x31, 0x32, 0x29]), (0x2480, [0x28, 0x31, 0x33, 0x29]), (0x2481, [0x28, 0x31, 0x34, 0x29]), (0x2482, [0x28, 0x31, 0x35, 0x29]), (0x2483, [0x28, 0x31, 0x36, 0x29]),
    (0x2484, [0x28, 0x31, 0x37, 0x29]), (0x2485, [0x28, 0x31, 0x38, 0x29]), (0x2486, [0x28, 0x31, 0x39, 0x29]), (0x2487, [0x28, 0x32, 0x30, 0x29]), (0x2488, [0x31, 0x2E]), (0x2489, [0x32, 0x2E]),
    (0x248A, [0x33, 0x2E]), (0x248B, [0x34, 0x2E]), (0x248C, [0x35, 0x2E]), (0x248D, [0x36, 0x2E]), (0x248E, [0x37, 0x2E]), (0x248F, [0x38, 0x2E]),
    (0x2490, [0x39, 0x2E]), (0x2491, [0x31, 0x30, 0x2E]), (0x2492, [0x31, 0x31, 0x2E]), (0x2493, [0x31, 0x32, 0x2E]), (0x2494, [0x31, 0x33, 0x2E]), (0x2495, [0x31, 0x34, 0x2E]),
    (0x2496, [0x31, 0x35, 0x2E]), (0x2497, [0x31, 0x36, 0x2E]), (0x2498, [0x31, 0x37, 0x2E]), (0x2499, [0x31, 0x38, 0x2E]), (0x249A, [0x31, 0x39, 0x2E]), (0x249B, [0x32, 0x30, 0x2E]),
    (0x249C, [0x28, 0x61, 0x29]), (0x249D, [0x28, 0x62, 0x29]), (0x249E, [0x28, 0x63, 0x29]), (0x249F, [0x28, 0x64, 0x29]), (0x24A0, [0x28, 0x65, 0x29]), (0x24A1, [0x28, 0x66, 0x29]),
    (0x24A2, [0x28, 0x67, 0x29]), (0x24A3, [0x28, 0x68, 0x29]), (0x24A4, [0x28, 0x69, 0x29]), (0x24A5, [0x28, 0x6A, 0x29]), (0x24A6, [0x28, 0x6B, 0x29]), (0x24A7, [0x28, 0x6C, 0x29]),
    (0x24A8, [0x28, 0x6D, 0x29]), (0x24A9, [0x28, 0x6E, 0x29]), (0x24AA, [0x28, 0x6F, 0x29]), (0x24AB, [0x28, 0x70, 0x29]), (0x24AC, [0x28, 0x71, 0x29]), (0x24AD, [0x28, 0x72, 0x29]),
    (0x24AE, [0x28, 0x73, 0x29]), (0x24AF, [0x28, 0x74, 0x29]), (0x24B0, [0x28, 0x75, 0x29]), (0x24B1, [0x28, 0x76, 0x29]), (0x24B2, [0x28, 0x77, 0x29]), (0x24B3, [0x28, 0x78, 0x29]),
    (0x24B4, [0x28, 0x79, 0x29]), (0x24B5, [0x28, 0x7A, 0x29]), (0x24B6, [0x41]), (0x24B7, [0x42]), (0x24B8, [0x43]), (0x24B9, [0x44]),
    (0x24BA, [0x45]), (0x24BB, [0x46]), (0x24BC, [0x47]), (0x24BD, [0x48]), (0x24BE, [0x49]), (0x24BF, [0x4A]),
    (0x24C0, [0x4B]), (0x24C1, [0x4C]), (0x24C2, [0x4D]), (0x24C3, [0x4E]), (0x24C4, [0x4F]), (0x24C5, [0x50]),
    (0x24C6, [0x51]), (0x24C7, [0x52]), (0x24C8, [0x53]), (0x24C9, [0x54]), (0x24CA, [0x55]), (0x24CB, [0x56]),
    (0x24CC, [0x57]), (0x24CD, [0x58]), (0x24CE, [0x59]), (0x24CF, [0x5A]), (0x24D0, [0x61]), (0x24D1, [0x62]),
    (0x24D2, [0x63]), (0x24D3, [0x64]), (0x24D4, [0x65]), (0x24D5, [0x66]), (0x24D6, [0x67]), (0x24D7, [0x68]),
    (0x24D8, [0x69]), (0x24D9, [0x6A]), (0x24DA, [0x6B]), (0x24DB, [0x6C]), (0x24DC, [0x6D]), (0x24DD, [0x6E]),
    (0x24DE, [0x6F]), (0x24DF, [0x70]), (0x24E0, [0x71]), (0x24E1, [0x72]), (0x24E2, [0x73]), (0x24E3, [0x74]),
    (0x24E4, [0x75]), (0x24E5, [0x76]), (0x24E6, [0x77]), (0x24E7, [0x78]), (0x24E8, [0x79]), (0x24E9, [0x7A]),
    (0x24EA, [0x30]), (0x24EB, [0x31, 0x31]), (0x24EC, [0x31, 0x32]), (0x24ED, [0x31, 0x33]), (0x24EE, [0x31, 0x34]), (0x24EF, [0x31, 0x35]),
    (0x24F0, [0x31, 0x36]), (0x24F1, [0x31, 0x37]), (0x24F2, [0x31, 0x38]), (0x24F3, [0x31, 0x39]), (0x24F4, [0x32, 0x30]), (0x24F5, [0x31]),
    (0x24F6, [0x32]), (0x24F7, [0x33]), (0x24F8, [0x34]), (0x24F9, [0x35]), (0x24FA, [0x36]), (0x24FB, [0x37]),
    (0x24FC, [0x38]), (0x24FD, [0x39]), (0x24FE, [0x31, 0x30]), (0x24FF, [0x30])]),
  (0x27, [
    (0x275B, [0x27]), (0x275C, [0x27]), (0x275D, [0x22]), (0x275E, [0x22]), (0x2768, [0x28]), (0x2769, [0x29]),
    (0x276A, [0x28]), (0x276B, [0x29]), (0x276C, [0x3C]), (0x276D, [0x3E]), (0x276E, [0x22]), (0x276F, [0x22]),
    (0x2770, [0x3C]), (0x2771, [0x3E]), (0x2772, [0x5B]), (0x2773, [0x5D]), (0x2774, [0x7B]), (0x2775, [0x7D]),
    (0x2776, [0x31]), (0x2777, [0x32]), (0x2778, [0x33]), (0x2779, [0x34]), (0x277A, [0x35]), (0x277B, [0x36]),
    (0x277C, [0x37]), (0x277D, [0x38]), (0x277E, [0x39]), (0x277F, [0x31, 0x30]), (0x2780, [0x31]), (0x2781, [0x32]),
    (0x2782, [0x33]), (0x2783, [0x34]), (0x2784, [0x35]), (0x2785, [0x36]), (0x2786, [0x37]), (0x2787, [0x38]),
    (0x2788, [0x39]), (0x2789, [0x31, 0x30]), (0x278A, [0x31]), (0x278B, [0x32]), (0x278C, [0x33]), (0x278D, [0x34]),
    (0x278E, [0x35]), (0x278F, [0x36]), (0x2790, [0x37]), (0x2791, [0x38]), (0x2792, [0x39]), (0x2793, [0x31, 0x30])]),
  (0x2C, [
    (0x2C60, [0x4C]), (0x2C61, [0x6C]), (0x2C62, [0x4C]), (0x2C63, [0x50]), (0x2C64, [0x52]), (0x2C65, [0x61]),
    (0x2C66, [0x74]), (0x2C67, [0x48]), (0x2C68, [0x68]), (0x2C69, [0x4B]), (0x2C6A, [0x6B]), (0x2C6B, [0x5A]),
    (0x2C6C, [0x7A]), (0x2C6E, [0x4D]), (0x2C6F, [0x61]), (0x2C71, [0x76]), (0x2C72, [0x57]), (0x2C73, [0x77]),
    (0x2C74, [0x76]), (0x2C75, [0x48]), (0x2C76, [0x68]), (0x2C78, [0x65]), (0x2C7A, [0x6F]), (0x2C7B, [0x45]),
    (0x2C7C, [0x6A])]),
  (0x2E, [
    (0x2E28, [0x28, 0x28]), (0x2E29, [0x29, 0x29])]),
  (0xA7, [
    (0xA728, [0x54, 0x5A]), (0xA729, [0x74, 0x7A]), (0xA730, [0x46]), (0xA731, [0x53]), (0xA732, [0x41, 0x41]), (0xA733, [0x61, 0x61]),
    (0xA734, [0x41, 0x4F]), (0xA735, [0x61, 0x6F]), (0xA736, [0x41, 0x55]), (0xA737, [0x61, 0x75]), (0xA738, [0x41, 0x56]), (0xA739, [0x61, 0x76]),
    (0xA73A, [0x41, 0x56]), (0xA73B, [0x61, 0x76]), (0xA73C, [0x41, 0x59]), (0xA73D, [0x61, 0x79]), (0xA73E, [0x63]), (0xA73F, [0x63]),
    (0xA740, [0x4B]), (0xA741, [0x6B]), (0xA742, [0x4B]), (0xA743, [0x6B]), (0xA744, [0x4B]), (0xA745, [0x6B]),
    (0xA746, [0x4C]), (0xA747, [0x6C]), (0xA748, [0x4C]), (0xA749, [0x6C]), (0xA74A, [0x4F]), (0xA74B, [0x6F]),
    (0xA74C, [0x4F]), (0xA74D, [0x6F]), (0xA74E, [0x4F, 0x4F]), (0xA74F, [0x6F, 0x6F]), (0xA750, [0x50]), (0xA751, [0x70]),
    (0xA752, [0x50]), (0xA753, [0x70]), (0xA754, [0x50]), (0xA755, [0x70]), (0xA756, [0x51]), (0xA757, [0x71]),
    (0xA758, [0x51]), (0xA759, [0x71]), (0xA75A, [0x52]), (0xA75B, [0x72]), (0xA75E, [0x56]), (0xA75F, [0x76]),
    (0xA760, [0x56, 0x59]), (0xA761, [0x76, 0x79]), (0xA762, [0x5A]), (0xA763, [0x7A]), (0xA766, [0x54, 0x48]), (0xA767, [0x74, 0x68]),
    (0xA768, [0x56]), (0xA779, [0x44]), (0xA77A, [0x64]), (0xA77B, [0x46]), (0xA77C, [0x66]), (0xA77D, [0x47]),
    (0xA77E, [0x47]), (0xA77F, [0x67]), (0xA780, [0x4C]), (0xA781, [0x6C]), (0xA782, [0x52]), (0xA783, [0x72]),
    (0xA784, [0x73]), (0xA785, [0x53]), (0xA786, [0x54]), (0xA7FB, [0x46]), (0xA7FC, [0x70]), (0xA7FD, [0x4D]),
    (0xA7FE, [0x49]), (0xA7FF, [0x4D])]),
  (0xFB, [
    (0xFB00, [0x66, 0x66]), (0xFB01, [0x66, 0x69]), (0xFB02, [0x66, 0x6C]), (0xFB03, [0x66, 0x66, 0x69]), (0xFB04, [0x66, 0x66, 0x6C]), (0xFB06, [0x73, 0x74])]),
  (0xFF, [
    (0xFF01, [0x21]), (0xFF02, [0x22]), (0xFF03, [0x23]), (0xFF04, [0x24]), (0xFF05, [0x25]), (0xFF06, [0x26]),
    (0xFF07, [0x27]), (0xFF08, [0x28]), (0xFF09, [0x29]), (0xFF0A, [0x2A]), (0xFF0B, [0x2B]), (0xFF0C, [0x2C]),
    (0xFF0D, [0x2D]), (0xFF0E, [0x2E]), (0xFF0F, [0x2F]), (0xFF10, [0x30]), (0xFF11, [0x31]), (0xFF12, [0x32]),
    (0xFF13, [0x33]), (0xFF14, [0x34]), (0xFF15, [0x35]), (0xFF16, [0x36]), (0xFF17, [0x37]), (0xFF18, [0x38]),
    (0xFF19, [0x39]), (0xFF1A, [0x3A]), (0xFF1B, [0x3B]), (0xFF1C, [0x3C]), (0xFF1D, [0x3D]), (0xFF1E, [0x3E]),
    (0xFF1F, [0x3F]), (0xFF20, [0x40]), (0xFF21, [0x41]), (0xFF22, [0x42]), (0xFF23, [0x43]), (0xFF24, [0x44]),
    (0xFF25, [0x45]), (0xFF26, [0x46]), (0xFF27, [0x47]), (0xFF28, [0x48]), (0xFF29, [0x49]), (0xFF2A, [0x4A]),
    (0xFF2B, [0x4B]), (0xFF2C, [0x4C]), (0xFF2D, [0x4D]), (0xFF2E, [0x4E]), (0xFF2F, [0x4F]), (0xFF30, [0x50]),
    (0xFF31, [0x51]), (0xFF32, [0x52]), (0xFF33, [0x53]), (0xFF34, [0x54]), (0xFF35, [0x55]), (0xFF36, [0x56]),
    (0xFF37, [0x57]), (0xFF38, [0x58]), (0xFF39, [0x59]), (0xFF3A, [0x5A]), (0xFF3B, [0x5B]), (0xFF3C, [0x5C]),
    (0xFF3D, [0x5D]), (0xFF3E, [0x5E]), (0xFF3F, [0x5F]), (0xFF41, [0x61]), (0xFF42, [0x62]), (0xFF43, [0x63]),
    (0xFF44, [0x64]), (0xFF45, [0x65]), (0xFF46, [0x66]), (0xFF47, [0x67]), (0xFF48, [0x68]), (0xFF49, [0x69]),
    (0xFF4A, [0x6A]), (0xFF4B, [0x6B]), (0xFF4C, [0x6C]), (0xFF4D, [0x6D]), (0xFF4E, [0x6E]), (0xFF4F, [0x6F]),
    (0xFF50, [0x70]), (0xFF51, [0x71]), (0xFF52, [0x72]), (0xFF53, [0x73]), (0xFF54, [0x74]), (0xFF55, [0x75]),
    (0xFF56, [0x76]), (0xFF57, [0x77]), (0xFF58, [0x78]), (0xFF59, [0x79]), (0xFF5A, [0x7A]), (0xFF5B, [0x7B]),
    (0xFF5D, [0x7D]), (0xFF5E, [0x7E])]),
  (0x1D4, [
    (0x1D400, [0x41]), (0x1D401, [0x42]), (0x1D402, [0x43]), (0x1D403, [0x44]), (0x1D404, [0x45]), (0x1D405, [0x46]),
    (0x1D406, [0x47]), (0x1D407, [0x48]), (0x1D408, [0x49]), (0x1D409, [0x4A]), (0x1D40A, [0x4B]), (0x1D40B, [0x4C]),
    (0x1D40C, [0x4D]), (0x1D40D, [0x4E]), (0x1D40E, [0x4F]), (0x1D40F, [0x50]), (0x1D410, [0x51]), (0x1D411, [0x52]),
    (0x1D412, [0x53]), (0x1D413, [0x54]), (0x1D414, [0x55]), (0x1D415, [0x56]), (0x1D416, [0x57]), (0x1D417, [0x58]),
    (0x1D418, [0x59]), (0x1D419, [0x5A]), (0x1D41A, [0x61]), (0x1D41B, [0x62]), (0x1D41C, [0x63]), (0x1D41D, [0x64]),
    (0x1D41E, [0x65]), (0x1D41F, [0x66]), (0x1D420, [0x67]), (0x1D421, [0x68]), (0x1D422, [0x69]), (0x1D423, [0x6A]),
    (0x1D424, [0x6B]), (0x1D425, [0x6C]), (0x1D426, [0x6D]), (0x1D427, [0x6E]), (0x1D428, [0x6F]), (0x1D429, [0x70]),
    (0x1D42A, [0x71]), (0x1D42B, [0x72]), (0x1D42C, [0x73]), (0x1D42D, [0x74]), (0x1D42E, [0x75]), (0x1D42F, [0x76]),
    (0x1D430, [0x77]), (0x1D431, [0x78]), (0x1D432, [0x79]), (0x1D433, [0x7A]), (0x1D468, [0x41]), (0x1D469, [0x42]),
    (0x1D46A, [0x43]), (0x1D46B, [0x44]), (0x1D46C, [0x45]), (0x1D46D, [0x46]), (0x1D46E, [0x47]), (0x1D46F, [0x48]),
    (0x1D470, [0x49]), (0x1D471, [0x4A]), (0x1D472, [0x4B]), (0x1D473, [0x4C]), (0x1D474, [0x4D]), (0x1D475, [0x4E]),
    (0x1D476, [0x4F]), (0x1D477, [0x50]), (0x1D478, [0x51]), (0x1D479, [0x52]), (0x1D47A, [0x53]), (0x1D47B, [0x54]),
    (0x1D47C, [0x55]), (0x1D47D, [0x56]), (0x1D47E, [0x57]), (0x1D47F, [0x58]), (0x1D480, [0x59]), (0x1D481, [0x5A]),
    (0x1D482, [0x61]), (0x1D483, [0x62]), (0x1D484, [0x63]), (0x1D485, [0x64]), (0x1D486, [0x65]), (0x1D487, [0x66]),
    (0x1D488, [0x67]), (0x1D489, [0x68]), (0x1D48A, [0x69]), (0x1D48B, [0x6A]), (0x1D48C, [0x6B]), (0x1D48D, [0x6C]),
    (0x1D48E, [0x6D]), (0x1D48F, [0x6E]), (0x1D490, [0x6F]), (0x1D491, [0x70]), (0x1D492, [0x71]), (0x1D493, [0x72]),
    (0x1D494, [0x73]), (0x1D495, [0x74]), (0x1D496, [0x75]), (0x1D497, [0x76]), (0x1D498, [0x77]), (0x1D499, [0x78]),
    (0x1D49A, [0x79]), (0x1D49B, [0x7A]), (0x1D4D0, [0x41]), (0x1D4D1, [0x42]), (0x1D4D2, [0x43]), (0x1D4D3, [0x44]),
    (0x1D4D4, [0x45]), (0x1D4D5, [0x46]), (0x1D4D6, [0x47]), (0x1D4D7, [0x48]), (0x1D4D8, [0x49]), (0x1D4D9, [0x4A]),
    (0x1D4DA, [0x4B]), (0x1D4DB, [0x4C]), (0x1D4DC, [0x4D]), (0x1D4DD, [0x4E]), (0x1D4DE, [0x4F]), (0x1D4DF, [0x50]),
    (0x1D4E0, [0x51]), (0x1D4E1, [0x52]), (0x1D4E2, [0x53]), (0x1D4E3, [0x54]), (0x1D4E4, [0x55]), (0x1D4E5, [0x56]),
    (0x1D4E6, [0x57]), (0x1D4E7, [0x58]), (0x1D4E8, [0x59]), (0x1D4E9, [0x5A]), (0x1D4EA, [0x61]), (0x1D4EB, [0x62]),
    (0x1D4EC, [0x63]), (0x1D4ED, [0x64]), (0x1D4EE, [0x65]), (0x1D4EF, [0x66]), (0x1D4F0, [0x67]), (0x1D4F1, [0x68]),
    (0x1D4F2, [0x69]), (0x1D4F3, [0x6A]), (0x1D4F4, [0x6B]), (0x1D4F5, [0x6C]), (0x1D4F6, [0x6D]), (0x1D4F7, [0x6E]),
    (0x1D4F8, [0x6F]), (0x1D4F9, [0x70]), (0x1D4FA, [0x71]), (0x1D4FB, [0x72]), (0x1D4FC, [0x73]), (0x1D4FD, [0x74]),
    (0x1D4FE, [0x75]), (0x1D4FF, [0x76])]),
  (0x1D5, [
    (0x1D500, [0x77]), (0x1D501, [0x78]), (0x1D502, [0x79]), (0x1D503, [0x7A]), (0x1D56C, [0x41]), (0x1D56D, [0x42]),
    (0x1D56E, [0x43]), (0x1D56F, [0x44]), (0x1D570, [0x45]), (0x1D571, [0x46]), (0x1D572, [0x47]), (0x1D573, [0x48]),
    (0x1D574, [0x49]), (0x1D575, [0x4A]), (0x1D576, [0x4B]), (0x1D577, [0x4C]), (0x1D578, [0x4D]), (0x1D579, [0x4E]),
    (0x1D57A, [0x4F]), (0x1D57B, [0x50]), (0x1D57C, [0x51]), (0x1D57D, [0x52]), (0x1D57E, [0x53]), (0x1D57F, [0x54]),
    (0x1D580, [0x55]), (0x1D581, [0x56]), (0x1D582, [0x57]), (0x1D583, [0x58]), (0x1D584, [0x59]), (0x1D585, [0x5A]),
    (0x1D586, [0x61]), (0x1D587, [0x62]), (0x1D588, [0x63]), (0x1D589, [0x64]), (0x1D58A, [0x65]), (0x1D58B, [0x66]),
    (0x1D58C, [0x67]), (0x1D58D, [0x68]), (0x1D58E, [0x69]), (0x1D58F, [0x6A]), (0x1D590, [0x6B]), (0x1D591, [0x6C]),
    (0x1D592, [0x6D]), (0x1D593, [0x6E]), (0x1D594, [0x6F]), (0x1D595, [0x70]), (0x1D596, [0x71]), (0x1D597, [0x72]),
    (0x1D598, [0x73]), (0x1D599, [0x74]), (0x1D59A, [0x75]), (0x1D59B, [0x76]), (0x1D59C, [0x77]), (0x1D59D, [0x78]),
    (0x1D59E, [0x79]), (0x1D59F, [0x7A]), (0x1D5D4, [0x41]), (0x1D5D5, [0x42]), (0x1D5D6, [0x43]), (0x1D5D7, [0x44]),
    (0x1D5D8, [0x45]), (0x1D5D9, [0x46]), (0x1D5DA, [0x47]), (0x1D5DB, [0x48]), (0x1D5DC, [0x49]), (0x1D5DD, [0x4A]),
    (0x1D5DE, [0x4B]), (0x1D5DF, [0x4C]), (0x1D5E0, [0x4D]), (0x1D5E1, [0x4E]), (0x1D5E2, [0x4F]), (0x1D5E3, [0x50]),
    (0x1D5E4, [0x51]), (0x1D5E5, [0x52]), (0x1D5E6, [0x53]), (0x1D5E7, [0x54]), (0x1D5E8, [0x55]), (0x1D5E9, [0x56]),
    (0x1D5EA, [0x57]), (0x1D5EB, [0x58]), (0x1D5EC, [0x59]), (0x1D5ED, [0x5A]), (0x1D5EE, [0x61]), (0x1D5EF, [0x62]),
    (0x1D5F0, [0x63]), (0x1D5F1, [0x64]), (0x1D5F2, [0x65]), (0x1D5F3, [0x66]), (0x1D5F4, [0x67]), (0x1D5F5, [0x68]),
    (0x1D5F6, [0x69]), (0x1D5F7, [0x6A]), (0x1D5F8, [0x6B]), (0x1D5F9, [0x6C]), (0x1D5FA, [0x6D]), (0x1D5FB, [0x6E]),
    (0x1D5FC, [0x6F]), (0x1D5FD, [0x70]), (0x1D5FE, [0x71]), (0x1D5FF, [0x72])]),
  (0x1D6, [
    (0x1D600, [0x73]), (0x1D601, [0x74]), (0x1D602, [0x75]), (0x1D603, [0x76]), (0x1D604, [0x77]), (0x1D605, [0x78]),
    (0x1D606, [0x79]), (0x1D607, [0x7A]), (0x1D63C, [0x41]), (0x1D63D, [0x42]), (0x1D63E, [0x43]), (0x1D63F, [0x44]),
    (0x1D640, [0x45]), (0x1D641, [0x46]), (0x1D642, [0x47]), (0x1D643, [0x48]), (0x1D644, [0x49]), (0x1D645, [0x4A]),
    (0x1D646, [0x4B]), (0x1D647, [0x4C]), (0x1D648, [0x4D]), (0x1D649, [0x4E]), (0x1D64A, [0x4F]), (0x1D64B, [0x50]),
    (0x1D64C, [0x51]), (0x1D64D, [0x52]), (0x1D64E, [0x53]), (0x1D64F, [0x54]), (0x1D650, [0x55]), (0x1D651, [0x56]),
    (0x1D652, [0x57]), (0x1D653, [0x58]), (0x1D654, [0x59]), (0x1D655, [0x5A]), (0x1D656, [0x61]), (0x1D657, [0x62]),
    (0x1D658, [0x63]), (0x1D659, [0x64]), (0x1D65A, [0x65]), (0x1D65B, [0x66]), (0x1D65C, [0x67]), (0x1D65D, [0x68]),
    (0x1D65E, [0x69]), (0x1D65F, [0x6A]), (0x1D660, [0x6B]), (0x1D661, [0x6C]), (0x1D662, [0x6D]), (0x1D663, [0x6E]),
    (0x1D664, [0x6F]), (0x1D665, [0x70]), (0x1D666, [0x71]), (0x1D667, [0x72]), (0x1D668, [0x73]), (0x1D669, [0x74]),
    (0x1D66A, [0x75]), (0x1D66B, [0x76]), (0x1D66C, [0x77]), (0x1D66D, [0x78]), (0x1D66E, [0x79]), (0x1D66F, [0x7A])]),
  (0x1D7, [
    (0x1D7CE, [0x30]), (0x1D7CF, [0x31]), (0x1D7D0, [0x32]), (0x1D7D1, [0x33]), (0x1D7D2, [0x34]), (0x1D7D3, [0x35]),
    (0x1D7D4, [0x36]), (0x1D7D5, [0x37]), (0x1D7D6, [0x38]), (0x1D7D7, [0x39]), (0x1D7EC, [0x30]), (0x1D7ED, [0x31]),
    (0x1D7EE, [0x32]), (0x1D7EF, [0x33]), (0x1D7F0, [0x34]), (0x1D7F1, [0x35]), (0x1D7F2, [0x36]), (0x1D7F3, [0x37]),
    (0x1D7F4, [0x38]), (0x1D7F5, [0x39])])]

/-- The lengths of its pieces in ascending order. -/
def asciifoldCuts : List Nat := []

/-- The rules of /repo/modules/inter/KANJI.txt in the order of the file: `01k 01v,01v..` as (k, [v, v..]), by the upper bytes of k.
(A first line `Source: ...`, which is not a comment, is left out here: see `Aside`.) -/
def kanji : Pages := [
  (0x200, [
    (0x20003, [0x4E14]), (0x2000B, [0x4E08]), (0x20019, [0x9E97]), (0x2001A, [0x4E0D]), (0x20024, [0x4E26]), (0x20066, [0x4E2D]),
    (0x200DE, [0x793C])]),
  (0x201, [
    (0x20107, [0x916A]), (0x20121, [0x4E94]), (0x20187, [0x5965]), (0x2018C, [0x5EB8]), (0x201DA, [0x7532]), (0x201FE, [0x4F11])]),
  (0x202, [
    (0x20223, [0x8001]), (0x20255, [0x4F7F]), (0x20293, [0x508D]), (0x20296, [0x4F8B]), (0x202B1, [0x5019]), (0x202B3, [0x4FBF]),
    (0x202D2, [0x547D])]),
  (0x203, [
    (0x2033C, [0x5104]), (0x2035F, [0x53EF]), (0x203D7, [0x50DA])]),
  (0x204, [
    (0x2047D, [0x5145]), (0x20486, [0x5150])]),
  (0x205, [
    (0x20545, [0x518D]), (0x20549, [0x7A74]), (0x2054B, [0x518A]), (0x2054D, [0x5B98]), (0x2056A, [0x9F0F]), (0x205A0, [0x53E4])]),
  (0x206, [
    (0x20615, [0x7199]), (0x20624, [0x51B7]), (0x20632, [0x5927]), (0x20636, [0x5426]), (0x20675, [0x53E3]), (0x20678, [0x7518]),
    (0x20692, [0x6B6F]), (0x206EC, [0x5211])]),
  (0x207, [
    (0x20707, [0x523B]), (0x20728, [0x52BE]), (0x20738, [0x5264]), (0x2073A, [0x5217]), (0x207AB, [0x523B])]),
  (0x208, [
    (0x20832, [0x529B]), (0x208C1, [0x52B4]), (0x208D9, [0x65EC]), (0x208DE, [0x8ECD]), (0x208E9, [0x7D04])]),
  (0x209, [
    (0x20971, [0x6708]), (0x20984, [0x5349]), (0x209B6, [0x9769]), (0x209DE, [0x5146]), (0x209E9, [0x6094])]),
  (0x20A, [
    (0x20A0D, [0x537F]), (0x20A1E, [0x537F]), (0x20A30, [0x5973]), (0x20A6F, [0x5B58]), (0x20AA5, [0x539F]), (0x20AEA, [0x516D])]),
  (0x20B, [
    (0x20B3B, [0x5949]), (0x20B56, [0x6562]), (0x20BA2, [0x53F3]), (0x20BA6, [0x53EC]), (0x20BAF, [0x53F0]), (0x20BB7, [0x5409]),
    (0x20BC1, [0x8DB3]), (0x20BD2, [0x5316])]),
  (0x20C, [
    (0x20C69, [0x541B]), (0x20CC5, [0x554F])]),
  (0x20D, [
    (0x20D2E, [0x5674]), (0x20D40, [0x5E2B]), (0x20D41, [0x8B90]), (0x20DD5, [0x5439])]),
  (0x20E, [
    (0x20E59, [0x55AB])]),
  (0x20F, [
    (0x20F15, [0x5504]), (0x20F85, [0x8981]), (0x20F96, [0x5668]), (0x20FCA, [0x55AB])]),
  (0x210, [
    (0x21052, [0x55AB])]),
  (0x211, [
    (0x2113C, [0x8669]), (0x21157, [0x8669]), (0x211A1, [0x8D77]), (0x211E1, [0x76EE])]),
  (0x212, [
    (0x21215, [0x570F]), (0x2122D, [0x7344]), (0x21248, [0x5728]), (0x2125D, [0x57FA]), (0x2125F, [0x58EE]), (0x212BA, [0x6D0B])]),
  (0x213, [
    (0x213B2, [0x53F0])]),
  (0x214, [
    (0x214A1, [0x9F16])]),
  (0x215, [
    (0x21501, [0x5841]), (0x21584, [0x5916]), (0x21589, [0x5375]), (0x21596, [0x537F]), (0x215E0, [0x5185])]),
  (0x216, [
    (0x2162B, [0x7A4F]), (0x2165C, [0x596A]), (0x2168C, [0x7D50]), (0x216B6, [0x5984])]),
  (0x217, [
    (0x21769, [0x5996])]),
  (0x218, [
    (0x2187F, [0x5AE1])]),
  (0x219, [
    (0x2193E, [0x5B6B]), (0x2193F, [0x5B54]), (0x21946, [0x597D]), (0x2195B, [0x6B8A]), (0x2195C, [0x5B57]), (0x219CB, [0x8CA7]),
    (0x219EA, [0x5B85]), (0x219F1, [0x5BB3])]),
  (0x21A, [
    (0x21A1A, [0x51A4]), (0x21A1C, [0x5BC2]), (0x21A20, [0x7A4F]), (0x21A48, [0x82D7])]),
  (0x21B, [
    (0x21B2A, [0x8010]), (0x21B5D, [0x7C73]), (0x21B74, [0x9699]), (0x21B90, [0x5C0F])]),
  (0x21C, [
    (0x21C29, [0x826F]), (0x21C2C, [0x8EAB]), (0x21C46, [0x5C5E]), (0x21C52, [0x6BBF]), (0x21C5D, [0x7280]), (0x21CA0, [0x7834])]),
  (0x21D, [
    (0x21D41, [0x5371]), (0x21D7C, [0x70AD]), (0x21D93, [0x5CB3])]),
  (0x21F, [
    (0x21FE7, [0x707D])]),
  (0x220, [
    (0x2200E, [0x6CB3]), (0x22012, [0x5DF1]), (0x2201A, [0x5DE5]), (0x2203D, [0x8D77]), (0x22053, [0x8C55]), (0x2205B, [0x6BBA]),
    (0x22087, [0x5E1D]), (0x22091, [0x62ED]), (0x220C1, [0x7D66])]),
  (0x221, [
    (0x22116, [0x7570]), (0x221EF, [0x5E9C])]),
  (0x222, [
    (0x2220E, [0x5E83]), (0x22256, [0x9E7F]), (0x22259, [0x5EB6]), (0x222BB, [0x907C]), (0x222DB, [0x9F3B])]),
  (0x223, [
    (0x22313, [0x5ED3]), (0x22342, [0x9F3B]), (0x22357, [0x8A00]), (0x2235C, [0x5C0A]), (0x22381, [0x6B66]), (0x22387, [0x707D]),
    (0x223BA, [0x5F26])]),
  (0x224, [
    (0x22405, [0x5F31]), (0x22472, [0x5F5D]), (0x22495, [0x8AF8]), (0x2249B, [0x5909]), (0x224C9, [0x8FD4]), (0x224F6, [0x901A])]),
  (0x225, [
    (0x22500, [0x4FB5]), (0x2257E, [0x907F]), (0x225CD, [0x5FD7])]),
  (0x226, [
    (0x22617, [0x81E3]), (0x22649, [0x60A9]), (0x2264A, [0x6063]), (0x22662, [0x6050]), (0x22683, [0x52A3]), (0x22687, [0x72C2]),
    (0x22689, [0x6068]), (0x22690, [0x60A0]), (0x226B0, [0x60A9]), (0x226C2, [0x60BC]), (0x226C7, [0x8B90])]),
  (0x227, [
    (0x2273A, [0x54C0]), (0x22772, [0x6101])]),
  (0x228, [
    (0x22836, [0x60A3]), (0x22846, [0x61C7]), (0x2287D, [0x60DC]), (0x228A7, [0x8B90]), (0x228F6, [0x601C])]),
  (0x229, [
    (0x229A1, [0x611F]), (0x229A9, [0x6210]), (0x229D0, [0x6226])]),
  (0x22A, [
    (0x22A37, [0x6240]), (0x22A4C, [0x80A9]), (0x22ABB, [0x627F]), (0x22AE6, [0x62CD]), (0x22AFD, [0x6291]), (0x22AFE, [0x6307])]),
  (0x22B, [
    (0x22B0C, [0x629C]), (0x22B34, [0x6442]), (0x22B38, [0x62EC]), (0x22B40, [0x65CB]), (0x22B43, [0x77ED])]),
  (0x22C, [
    (0x22C07, [0x6328]), (0x22C73, [0x63EE]), (0x22C8E, [0x642C]), (0x22CBB, [0x64AE]), (0x22CC0, [0x6469])]),
  (0x22D, [
    (0x22D03, [0x62E0]), (0x22D23, [0x5897]), (0x22D44, [0x63AA])]),
  (0x22E, [
    (0x22E6C, [0x64C1]), (0x22EF3, [0x6276])]),
  (0x22F, [
    (0x22F1C, [0x8D66]), (0x22F8D, [0x6556]), (0x22F99, [0x63DA]), (0x22FE0, [0x9F16])]),
  (0x230, [
    (0x230A2, [0x65AD]), (0x230BA, [0x65B0])]),
  (0x231, [
    (0x23101, [0x53D7]), (0x23103, [0x65D7]), (0x23133, [0x821E]), (0x23140, [0x65E8]), (0x2315C, [0x7686]), (0x2316F, [0x663C]),
    (0x2317C, [0x65E9]), (0x2319C, [0x6627])]),
  (0x232, [
    (0x23206, [0x664B]), (0x2320D, [0x7573]), (0x232A3, [0x8204])]),
  (0x233, [
    (0x2335D, [0x821F]), (0x2339C, [0x5B55]), (0x233C2, [0x6BBA]), (0x233D0, [0x6753]), (0x233DD, [0x6795]), (0x233F9, [0x707D]),
    (0x233FD, [0x679A])]),
  (0x234, [
    (0x23431, [0x67D4]), (0x23436, [0x62D0]), (0x23437, [0x62D0]), (0x2346D, [0x67F5]), (0x2346F, [0x6843]), (0x23471, [0x67D3])]),
  (0x235, [
    (0x23580, [0x6897]), (0x235F3, [0x6A39])]),
  (0x236, [
    (0x23694, [0x8204]), (0x23698, [0x72A0])]),
  (0x237, [
    (0x23726, [0x5C0E])]),
  (0x238, [
    (0x238B8, [0x6B3E]), (0x238D3, [0x6B20])]),
  (0x239, [
    (0x23948, [0x4F1A]), (0x2394D, [0x8FD1]), (0x23957, [0x5C11]), (0x239B8, [0x6B7B]), (0x239E9, [0x7D42])]),
  (0x23A, [
    (0x23A46, [0x51A5]), (0x23A47, [0x8150]), (0x23A85, [0x6BB4]), (0x23A86, [0x6BBA]), (0x23A96, [0x6BBA]), (0x23AA9, [0x6BBA]),
    (0x23AED, [0x6BCE]), (0x23AF9, [0x7447])]),
  (0x23C, [
    (0x23C75, [0x6C38]), (0x23C94, [0x6CE3]), (0x23CB4, [0x6CB8]), (0x23CDA, [0x6CA1]), (0x23CE5, [0x6E21])]),
  (0x23D, [
    (0x23D11, [0x6D41]), (0x23D29, [0x6D5C]), (0x23D32, [0x6D74]), (0x23D34, [0x6D77]), (0x23D5E, [0x6EB6]), (0x23D7D, [0x6C83]),
    (0x23D83, [0x6F6E])]),
  (0x23E, [
    (0x23E15, [0x6C34]), (0x23EAF, [0x6E7F])]),
  (0x23F, [
    (0x23F1C, [0x6DF9]), (0x23F45, [0x6D3B]), (0x23FD1, [0x6E2F])]),
  (0x240, [
    (0x24084, [0x6E2C])]),
  (0x241, [
    (0x2414C, [0x6FC3]), (0x2418C, [0x708E]), (0x2418D, [0x8D64]), (0x2418E, [0x707D]), (0x241B2, [0x707D]), (0x241E1, [0x7384]),
    (0x241F4, [0x7199])]),
  (0x242, [
    (0x2422E, [0x707D]), (0x24263, [0x707D]), (0x242EE, [0x7199]), (0x242F0, [0x52A9])]),
  (0x243, [
    (0x243B9, [0x7199]), (0x243C1, [0x7199])]),
  (0x244, [
    (0x24424, [0x7199]), (0x2442B, [0x7968])]),
  (0x245, [
    (0x24522, [0x6414]), (0x2457A, [0x75BE]), (0x245B2, [0x67AF])]),
  (0x246, [
    (0x24608, [0x7259]), (0x24634, [0x7267]), (0x24657, [0x65B9]), (0x24668, [0x675F]), (0x2468C, [0x7280])]),
  (0x247, [
    (0x24751, [0x72AF]), (0x247D7, [0x733F])]),
  (0x248, [
    (0x24815, [0x755C]), (0x2489A, [0x7363]), (0x2489C, [0x72EC]), (0x248F5, [0x7396])]),
  (0x249, [
    (0x249A6, [0x73ED])]),
  (0x24A, [
    (0x24A14, [0x74B0]), (0x24AE9, [0x73B2])]),
  (0x24B, [
    (0x24B2E, [0x74F6]), (0x24BD3, [0x751F]), (0x24BD4, [0x4EBA])]),
  (0x24C, [
    (0x24C06, [0x7528]), (0x24C1E, [0x5351]), (0x24C34, [0x5A01]), (0x24C35, [0x754F]), (0x24C36, [0x7533]), (0x24C71, [0x8F09])]),
  (0x24D, [
    (0x24DD0, [0x76F2])]),
  (0x24E, [
    (0x24EF2, [0x7642])]),
  (0x24F, [
    (0x24F2A, [0x767B]), (0x24F32, [0x767A]), (0x24F35, [0x767A]), (0x24F37, [0x767B]), (0x24F50, [0x8FEB])]),
  (0x250, [
    (0x25022, [0x9F16]), (0x25039, [0x8DBC]), (0x25044, [0x76C2]), (0x25070, [0x76DF]), (0x250AF, [0x83F9]), (0x250E9, [0x773C]),
    (0x250F3, [0x76F1])]),
  (0x251, [
    (0x25122, [0x76F8]), (0x2516D, [0x8996]), (0x25171, [0x7701])]),
  (0x252, [
    (0x252CD, [0x7761])]),
  (0x253, [
    (0x2537F, [0x76FE]), (0x253BF, [0x77E5]), (0x253F5, [0x7624])]),
  (0x254, [
    (0x254CB, [0x7814]), (0x254D3, [0x7891])]),
  (0x255, [
    (0x25553, [0x6F20])]),
  (0x256, [
    (0x25614, [0x707D]), (0x25616, [0x982D]), (0x2564A, [0x796D]), (0x2564D, [0x795E]), (0x256DC, [0x7956])]),
  (0x257, [
    (0x25757, [0x8291]), (0x25762, [0x5229]), (0x25777, [0x8015])]),
  (0x258, [
    (0x25877, [0x7A4F]), (0x25893, [0x6388])]),
  (0x259, [
    (0x2592F, [0x7A76]), (0x25963, [0x57A3]), (0x2598E, [0x8CD3]), (0x259CA, [0x5800]), (0x259E8, [0x8CD3])]),
  (0x25A, [
    (0x25A73, [0x5F85])]),
  (0x25B, [
    (0x25B16, [0x76AE]), (0x25B30, [0x518A]), (0x25B8F, [0x5178]), (0x25BD2, [0x683D])]),
  (0x25D, [
    (0x25D8E, [0x83F9]), (0x25DDF, [0x83F9])]),
  (0x25E, [
    (0x25E6A, [0x7CDD]), (0x25ED5, [0x7CDD])]),
  (0x25F, [
    (0x25F3E, [0x7CDD]), (0x25F86, [0x7CFE]), (0x25F91, [0x7D14]), (0x25FBA, [0x7E26]), (0x25FD3, [0x7D00]), (0x25FF3, [0x7D30])]),
  (0x260, [
    (0x26007, [0x7D4C]), (0x26065, [0x9EF9]), (0x260B2, [0x9EF9]), (0x260B3, [0x7DCA]), (0x260B5, [0x7E26]), (0x260C5, [0x7D61]),
    (0x260F0, [0x7E04])]),
  (0x261, [
    (0x26132, [0x7E2E]), (0x26167, [0x9EF9]), (0x261DA, [0x5F5D]), (0x261FB, [0x7DE9])]),
  (0x262, [
    (0x26247, [0x74F6]), (0x262B0, [0x7F65]), (0x262C0, [0x7F65]), (0x262E7, [0x7F72])]),
  (0x263, [
    (0x26304, [0x7F65]), (0x26310, [0x7F79]), (0x26334, [0x7F85]), (0x26336, [0x7F65]), (0x2633E, [0x7F65]), (0x26343, [0x7F65]),
    (0x26346, [0x7F65]), (0x2635B, [0x7F95]), (0x263F2, [0x7FBD])]),
  (0x264, [
    (0x264A1, [0x7FFA]), (0x264A2, [0x7FFA]), (0x264B1, [0x8003]), (0x264D4, [0x9700])]),
  (0x266, [
    (0x26675, [0x8155]), (0x26676, [0x80A1]), (0x266C1, [0x8133])]),
  (0x267, [
    (0x26709, [0x813E]), (0x26721, [0x7099]), (0x26769, [0x80C3]), (0x2676B, [0x8170]), (0x2676D, [0x985E]), (0x267A7, [0x7624]),
    (0x267DD, [0x810A]), (0x267E6, [0x819C])]),
  (0x268, [
    (0x2681D, [0x7624]), (0x268EE, [0x5B64]), (0x268FA, [0x767D])]),
  (0x269, [
    (0x26900, [0x81ED]), (0x26903, [0x7687]), (0x26906, [0x96F2]), (0x26913, [0x9F3B]), (0x26933, [0x81F3]), (0x2693F, [0x5C4B]),
    (0x26946, [0x63E1]), (0x269B6, [0x58CC])]),
  (0x26A, [
    (0x26A31, [0x6D25]), (0x26A85, [0x8247])]),
  (0x26B, [
    (0x26B0A, [0x8291]), (0x26B3C, [0x85BE]), (0x26B8F, [0x6B21]), (0x26BD3, [0x83F9]), (0x26BED, [0x831D]), (0x26BF1, [0x831D]),
    (0x26BF8, [0x8291])]),
  (0x26C, [
    (0x26CCE, [0x83F9])]),
  (0x26D, [
    (0x26D54, [0x83F9]), (0x26D9C, [0x831D])]),
  (0x26E, [
    (0x26E06, [0x8291]), (0x26E2D, [0x8323]), (0x26E4A, [0x8323])]),
  (0x26F, [
    (0x26F2C, [0x83F9]), (0x26F94, [0x65E7]), (0x26FB1, [0x6284]), (0x26FB7, [0x84FC]), (0x26FD8, [0x83F9])]),
  (0x270, [
    (0x27009, [0x85FB]), (0x2703D, [0x83F9]), (0x27055, [0x84F1]), (0x27090, [0x7A4D]), (0x2709A, [0x83F9]), (0x270B2, [0x83CA]),
    (0x270C8, [0x83CA]), (0x270D3, [0x83CA])]),
  (0x271, [
    (0x27117, [0x83F9])]),
  (0x272, [
    (0x27205, [0x8669]), (0x2722C, [0x8679]), (0x27265, [0x5317])]),
  (0x273, [
    (0x27332, [0x8718]), (0x27337, [0x8786])]),
  (0x274, [
    (0x27409, [0x8718]), (0x274CC, [0x86CD])]),
  (0x275, [
    (0x275CE, [0x83F9]), (0x275D8, [0x83F9])]),
  (0x276, [
    (0x27602, [0x885D]), (0x27669, [0x88C2]), (0x2768C, [0x88C5]), (0x2769D, [0x88C1]), (0x276E2, [0x9EF9])]),
  (0x277, [
    (0x27749, [0x9EF9]), (0x277F6, [0x8987])]),
  (0x278, [
    (0x278AE, [0x4695]), (0x278B1, [0x6027])]),
  (0x279, [
    (0x27966, [0x8A0F]), (0x27973, [0x8A69]), (0x2797E, [0x8B58]), (0x279BD, [0x8A3A]), (0x279E1, [0x8A1F]), (0x279FF, [0x6559])]),
  (0x27A, [
    (0x27A2D, [0x76E3])]),
  (0x27B, [
    (0x27B04, [0x8B1D]), (0x27B33, [0x8A33]), (0x27B58, [0x8B5C])]),
  (0x27C, [
    (0x27C5A, [0x8C5C]), (0x27C80, [0x8C5C]), (0x27CA8, [0x8C5C])]),
  (0x27D, [
    (0x27D69, [0x8CAC]), (0x27D6A, [0x8CCA]), (0x27D85, [0x8CC4]), (0x27D99, [0x80CC]), (0x27DB4, [0x8CED]), (0x27DB6, [0x8CA9]),
    (0x27DBB, [0x8CBF]), (0x27DBD, [0x8CDC]), (0x27DD5, [0x8CC7])]),
  (0x27E, [
    (0x27E03, [0x907A]), (0x27E0A, [0x8CFC]), (0x27E11, [0x8D08]), (0x27E1A, [0x8CC2]), (0x27E2F, [0x907A]), (0x27E3D, [0x907A]),
    (0x27E52, [0x8CB7]), (0x27EAB, [0x8D77])]),
  (0x27F, [
    (0x27FDB, [0x8E2A])]),
  (0x281, [
    (0x28175, [0x8E0F]), (0x281B2, [0x7A4F]), (0x281F3, [0x8E74])]),
  (0x282, [
    (0x2823B, [0x81EA]), (0x28246, [0x8106]), (0x28247, [0x707D]), (0x28289, [0x8106]), (0x282FB, [0x55AB])]),
  (0x283, [
    (0x28307, [0x8EF8])]),
  (0x284, [
    (0x2840C, [0x8F9B]), (0x2844D, [0x8ECC]), (0x28453, [0x8D77]), (0x28454, [0x8D77]), (0x28456, [0x8D77]), (0x28466, [0x5F90]),
    (0x28477, [0x8FC5]), (0x284A6, [0x8FCE]), (0x284B2, [0x8FF7]), (0x284C6, [0x9000]), (0x284CC, [0x707D]), (0x284DC, [0x9038]),
    (0x284F5, [0x9001])]),
  (0x285, [
    (0x2852A, [0x904B]), (0x2859D, [0x9706]), (0x285A5, [0x906E]), (0x285BD, [0x907A]), (0x285D2, [0x9706]), (0x285D4, [0x907A]),
    (0x285D5, [0x9075]), (0x285E0, [0x9706]), (0x285ED, [0x907A]), (0x285EE, [0x907A]), (0x285F9, [0x7B1B])]),
  (0x286, [
    (0x28611, [0x9023]), (0x28624, [0x907A]), (0x2868F, [0x90B8]), (0x286E6, [0x90E1]), (0x286F7, [0x90FD])]),
  (0x287, [
    (0x2872E, [0x537F]), (0x28765, [0x90CE]), (0x28784, [0x90F5])]),
  (0x288, [
    (0x28820, [0x9192]), (0x2882A, [0x9154]), (0x28880, [0x9175]), (0x288BD, [0x9178])]),
  (0x289, [
    (0x2894F, [0x91DC])]),
  (0x28C, [
    (0x28CFE, [0x7950])]),
  (0x28D, [
    (0x28D77, [0x95B6]), (0x28D9D, [0x587E])]),
  (0x28E, [
    (0x28E0F, [0x961C]), (0x28E18, [0x962E]), (0x28E1D, [0x6C0F]), (0x28E4E, [0x9650]), (0x28EB5, [0x968A]), (0x28EF6, [0x9699])]),
  (0x28F, [
    (0x28F80, [0x96B7])]),
  (0x290, [
    (0x2900C, [0x96E2]), (0x29015, [0x8B90]), (0x29021, [0x96E3]), (0x290EC, [0x9670])]),
  (0x291, [
    (0x2912B, [0x9706]), (0x29145, [0x6EC2]), (0x29186, [0x9706])]),
  (0x292, [
    (0x2927C, [0x7D33]), (0x292A6, [0x72E9]), (0x292BF, [0x8204])]),
  (0x293, [
    (0x29346, [0x8204])]),
  (0x294, [
    (0x2940A, [0x97F2]), (0x29486, [0x9802]), (0x2949B, [0x621A]), (0x294B5, [0x9803]), (0x294CB, [0x983C])]),
  (0x295, [
    (0x29516, [0x985E]), (0x2951A, [0x7FC1]), (0x29530, [0x9855]), (0x29553, [0x9810]), (0x295CB, [0x5E06])]),
  (0x296, [
    (0x29681, [0x98DF]), (0x2968E, [0x98E2]), (0x296B7, [0x7C92]), (0x296CA, [0x98FD])]),
  (0x298, [
    (0x29810, [0x9996])]),
  (0x299, [
    (0x299BC, [0x99F1]), (0x299D1, [0x299B3]), (0x299EA, [0x299B3])]),
  (0x29A, [
    (0x29A23, [0x80AA]), (0x29A43, [0x5E79])]),
  (0x29C, [
    (0x29C6C, [0x6DCB])]),
  (0x29D, [
    (0x29D4B, [0x9B5A])]),
  (0x29F, [
    (0x29FC7, [0x96C7])]),
  (0x2A4, [
    (0x2A4F3, [0x8718])]),
  (0x2A5, [
    (0x2A505, [0x54E1]), (0x2A52B, [0x9F16]), (0x2A535, [0x9F16])]),
  (0x2B5, [
    (0x2B592, [0x97E0])]),
  (0x2F8, [
    (0x2F800, [0x9E97]), (0x2F801, [0x4E38]), (0x2F802, [0x4E41]), (0x2F805, [0x4FAE]), (0x2F807, [0x4F75]), (0x2F809, [0x5099]),
    (0x2F80A, [0x50E7]), (0x2F80B, [0x50CF]), (0x2F80C, [0x4FCA]), (0x2F80E, [0x514D]), (0x2F80F, [0x514E]), (0x2F811, [0x5177]),
    (0x2F814, [0x5185]), (0x2F815, [0x518D]), (0x2F816, [0x518A]), (0x2F817, [0x5197]), (0x2F818, [0x51A4]), (0x2F819, [0x6C37]),
    (0x2F81A, [0x51AC]), (0x2F81B, [0x6CC1]), (0x2F81D, [0x51F5]), (0x2F81E, [0x5203]), (0x2F820, [0x523B]), (0x2F822, [0x5272]),
    (0x2F825, [0x52C7]), (0x2F826, [0x52C9]), (0x2F827, [0x52E4]), (0x2F828, [0x52FA]), (0x2F829, [0x5305]), (0x2F82A, [0x5306]),
    (0x2F82B, [0x5317]), (0x2F82C, [0x5349]), (0x2F82D, [0x5351]), (0x2F82E, [0x535A]), (0x2F82F, [0x5373]), (0x2F830, [0x5373]),
    (0x2F831, [0x537F]), (0x2F832, [0x537F]), (0x2F833, [0x537F]), (0x2F835, [0x7070]), (0x2F836, [0x53CA]), (0x2F837, [0x53DF]),
    (0x2F839, [0x53EB]), (0x2F83A, [0x53F1]), (0x2F83D, [0x5438]), (0x2F83E, [0x5448]), (0x2F83F, [0x5468]), (0x2F840, [0x54A2]),
    (0x2F842, [0x5510]), (0x2F843, [0x5553]), (0x2F844, [0x5563]), (0x2F845, [0x5584]), (0x2F846, [0x5584]), (0x2F847, [0x5599]),
    (0x2F848, [0x55AB]), (0x2F84B, [0x56F3]), (0x2F84C, [0x5606]), (0x2F84F, [0x5674]), (0x2F850, [0x5207]), (0x2F851, [0x58EE]),
    (0x2F852, [0x57CE]), (0x2F853, [0x57F4]), (0x2F855, [0x578B]), (0x2F857, [0x5831]), (0x2F85A, [0x58F2]), (0x2F85B, [0x58FA]),
    (0x2F85D, [0x591A]), (0x2F85E, [0x5922]), (0x2F85F, [0x5962]), (0x2F862, [0x59EB]), (0x2F863, [0x5A2F]), (0x2F866, [0x5A66]),
    (0x2F867, [0x5AC2]), (0x2F86A, [0x61F6]), (0x2F86B, [0x61F6]), (0x2F86D, [0x51A4]), (0x2F86F, [0x5BE7]), (0x2F870, [0x5B9D]),
    (0x2F872, [0x5BFF]), (0x2F873, [0x5C06]), (0x2F874, [0x5F53]), (0x2F875, [0x5C22]), (0x2F877, [0x5C60]), (0x2F878, [0x5C6E]),
    (0x2F881, [0x5DE1]), (0x2F882, [0x5DE3]), (0x2F884, [0x5DFD]), (0x2F886, [0x5E3D]), (0x2F88D, [0x5EB6]), (0x2F88E, [0x5ECA]),
    (0x2F890, [0x5EFE]), (0x2F893, [0x8201]), (0x2F898, [0x5F5D]), (0x2F899, [0x5F62]), (0x2F89A, [0x5F6B]), (0x2F89D, [0x5FCD]),
    (0x2F89E, [0x5FD7]), (0x2F8A1, [0x614C]), (0x2F8A3, [0x6094]), (0x2F8A5, [0x60C7]), (0x2F8A6, [0x6148]), (0x2F8A7, [0x614C]),
    (0x2F8A8, [0x614E]), (0x2F8A9, [0x614C]), (0x2F8AB, [0x618E]), (0x2F8AC, [0x61B2]), (0x2F8AD, [0x61A4]), (0x2F8B0, [0x61F2]),
    (0x2F8B1, [0x61F6]), (0x2F8B2, [0x6210]), (0x2F8B3, [0x621B]), (0x2F8B5, [0x62B1]), (0x2F8B6, [0x629C]), (0x2F8B7, [0x6350]),
    (0x2F8B8, [0x629C]), (0x2F8B9, [0x633D]), (0x2F8BB, [0x6368]), (0x2F8BC, [0x6383]), (0x2F8C1, [0x63A9]), (0x2F8C3, [0x6469]),
    (0x2F8C6, [0x6284]), (0x2F8C8, [0x654F]), (0x2F8C9, [0x656C]), (0x2F8CB, [0x65E2]), (0x2F8CC, [0x66F8]), (0x2F8CD, [0x664B]),
    (0x2F8CF, [0x6691]), (0x2F8D2, [0x5192]), (0x2F8D3, [0x5195]), (0x2F8D4, [0x6700]), (0x2F8D5, [0x666E]), (0x2F8D6, [0x80AD]),
    (0x2F8D8, [0x6717]), (0x2F8D9, [0x671B]), (0x2F8DB, [0x675E]), (0x2F8DC, [0x6753]), (0x2F8DF, [0x62D0]), (0x2F8E0, [0x6785]),
    (0x2F8E1, [0x6851]), (0x2F8E2, [0x6885]), (0x2F8E3, [0x67F5]), (0x2F8EA, [0x6982]), (0x2F8ED, [0x6ADB]), (0x2F8EF, [0x6B21]),
    (0x2F8F1, [0x6B54]), (0x2F8F3, [0x6B73]), (0x2F8F5, [0x6BBA]), (0x2F8F6, [0x6BBB]), (0x2F8FA, [0x6C4E]), (0x2F8FC, [0x6CBF])]),
  (0x2F9, [
    (0x2F900, [0x6D3E]), (0x2F901, [0x6D77]), (0x2F902, [0x6D41]), (0x2F903, [0x6D69]), (0x2F904, [0x6D78]), (0x2F905, [0x6D85]),
    (0x2F908, [0x6E2F]), (0x2F909, [0x6E6E]), (0x2F90B, [0x6ECB]), (0x2F90E, [0x6DF9]), (0x2F90F, [0x6F6E]), (0x2F912, [0x6FC6]),
    (0x2F914, [0x701E]), (0x2F915, [0x701B]), (0x2F918, [0x707D]), (0x2F91A, [0x70AD]), (0x2F91C, [0x935B]), (0x2F91D, [0x707D]),
    (0x2F920, [0x7228]), (0x2F921, [0x7235]), (0x2F922, [0x9598]), (0x2F923, [0x7259]), (0x2F924, [0x7280]), (0x2F928, [0x737A]),
    (0x2F929, [0x738B]), (0x2F92B, [0x73A5]), (0x2F92E, [0x7447]), (0x2F92F, [0x745C]), (0x2F930, [0x7471]), (0x2F931, [0x7485]),
    (0x2F932, [0x74CA]), (0x2F934, [0x8564]), (0x2F935, [0x7533]), (0x2F936, [0x753E]), (0x2F938, [0x7570]), (0x2F93A, [0x7610]),
    (0x2F93D, [0x76C2]), (0x2F940, [0x76F4]), (0x2F941, [0x76F1]), (0x2F945, [0x771F]), (0x2F946, [0x771F]), (0x2F947, [0x771F]),
    (0x2F948, [0x774A]), (0x2F949, [0x4039]), (0x2F94A, [0x778B]), (0x2F94C, [0x77F3]), (0x2F94E, [0x784E]), (0x2F94F, [0x788C]),
    (0x2F953, [0x7956]), (0x2F956, [0x798F]), (0x2F959, [0x7A40]), (0x2F95B, [0x7A4F]), (0x2F962, [0x7BC6]), (0x2F963, [0x7BC9]),
    (0x2F966, [0x7CD2]), (0x2F969, [0x7CDD]), (0x2F96A, [0x7D00]), (0x2F96B, [0x7CFE]), (0x2F96C, [0x7D63]), (0x2F96E, [0x7DC7]),
    (0x2F96F, [0x7DCF]), (0x2F970, [0x7E45]), (0x2F973, [0x74F6]), (0x2F976, [0x7F7A]), (0x2F977, [0x7F65]), (0x2F978, [0x7F95]),
    (0x2F979, [0x7FFA]), (0x2F97A, [0x8005]), (0x2F97D, [0x8060]), (0x2F97F, [0x8061]), (0x2F981, [0x98EA]), (0x2F982, [0x80B2]),
    (0x2F983, [0x8106]), (0x2F985, [0x813E]), (0x2F987, [0x7624]), (0x2F98A, [0x5B55]), (0x2F98B, [0x8201]), (0x2F98C, [0x8204]),
    (0x2F98D, [0x8F9E]), (0x2F98F, [0x8291]), (0x2F990, [0x828B]), (0x2F991, [0x829D]), (0x2F992, [0x52B4]), (0x2F993, [0x82B1]),
    (0x2F994, [0x82B3]), (0x2F995, [0x82BD]), (0x2F996, [0x82E6]), (0x2F997, [0x85BE]), (0x2F998, [0x82E5]), (0x2F999, [0x831D]),
    (0x2F99A, [0x6804]), (0x2F99B, [0x7BC0]), (0x2F99C, [0x8323]), (0x2F99D, [0x83BD]), (0x2F99F, [0x8457]), (0x2F9A0, [0x8353]),
    (0x2F9A1, [0x83CA]), (0x2F9A2, [0x83CC]), (0x2F9A3, [0x83DC]), (0x2F9A7, [0x852C]), (0x2F9A8, [0x84F1]), (0x2F9A9, [0x84F3]),
    (0x2F9AC, [0x8564]), (0x2F9AD, [0x83F9]), (0x2F9AF, [0x4561]), (0x2F9B0, [0x6284]), (0x2F9B3, [0x8650]), (0x2F9B4, [0x865C]),
    (0x2F9B6, [0x8669]), (0x2F9B7, [0x86A9]), (0x2F9B8, [0x8688]), (0x2F9B9, [0x870E]), (0x2F9BC, [0x8776]), (0x2F9BD, [0x870D]),
    (0x2F9BE, [0x8786]), (0x2F9BF, [0x8688]), (0x2F9C1, [0x8801]), (0x2F9C2, [0x8786]), (0x2F9C3, [0x8860]), (0x2F9C4, [0x8863]),
    (0x2F9C7, [0x88DE]), (0x2F9CB, [0x4695]), (0x2F9CC, [0x8A0F]), (0x2F9CF, [0x8AA0]), (0x2F9D0, [0x8AED]), (0x2F9D1, [0x5909]),
    (0x2F9D2, [0x8C55]), (0x2F9D3, [0x8C5C]), (0x2F9D4, [0x8CAB]), (0x2F9D5, [0x8CC1]), (0x2F9D6, [0x8D1B]), (0x2F9D7, [0x8D77]),
    (0x2F9DA, [0x8DCB]), (0x2F9DB, [0x8DBC]), (0x2F9DC, [0x8DF0]), (0x2F9DD, [0x8ECD]), (0x2F9DE, [0x8ED4]), (0x2F9DF, [0x8F38]),
    (0x2F9E0, [0x9706]), (0x2F9E1, [0x907A]), (0x2F9E3, [0x90F1]), (0x2F9E5, [0x537F]), (0x2F9E6, [0x911B]), (0x2F9E7, [0x9238]),
    (0x2F9E8, [0x92D7]), (0x2F9E9, [0x92D8]), (0x2F9EA, [0x927C]), (0x2F9EB, [0x93F9]), (0x2F9EC, [0x9415]), (0x2F9EE, [0x958B]),
    (0x2F9F0, [0x6BBA]), (0x2F9F1, [0x95B6]), (0x2F9F2, [0x912C]), (0x2F9F4, [0x5DB2]), (0x2F9F5, [0x9723]), (0x2F9F6, [0x6EC2]),
    (0x2F9FA, [0x97E0]), (0x2F9FB, [0x97F2]), (0x2F9FE, [0x9867]), (0x2F9FF, [0x9867])]),
  (0x2FA, [
    (0x2FA00, [0x9829]), (0x2FA02, [0x98E2]), (0x2FA07, [0x99FE]), (0x2FA08, [0x9AAD]), (0x2FA0A, [0x9B12]), (0x2FA0D, [0x4CCE]),
    (0x2FA15, [0x9EBB]), (0x2FA17, [0x9EF9]), (0x2FA18, [0x9EFD]), (0x2FA19, [0x8718]), (0x2FA1A, [0x9F0F]), (0x2FA1B, [0x9F16]),
    (0x2FA1C, [0x9F3B])]),
  (0x34, [
    (0x3405, [0x4E94]), (0x3430, [0x4FE1]), (0x3433, [0x5140]), (0x3442, [0x5023]), (0x3444, [0x4FAE]), (0x3474, [0x4FB5]),
    (0x3477, [0x614B]), (0x347A, [0x4FCA]), (0x349A, [0x7A4F]), (0x349E, [0x4FCA]), (0x34A8, [0x4ED9]), (0x34B2, [0x8CA1]),
    (0x34B3, [0x4E21]), (0x34B6, [0x516C]), (0x34CA, [0x6D1E]), (0x34D5, [0x6EC5]), (0x34DB, [0x529F]), (0x34DC, [0x5E7C]),
    (0x34DD, [0x5211])]),
  (0x35, [
    (0x3503, [0x7D76]), (0x351C, [0x52C3]), (0x353A, [0x4E16]), (0x3555, [0x5E7B]), (0x3556, [0x7D20]), (0x355A, [0x722A]),
    (0x355B, [0x53CB]), (0x355C, [0x53F2]), (0x355E, [0x5237]), (0x3560, [0x53CC]), (0x3565, [0x4EE5]), (0x3581, [0x541D]),
    (0x35A0, [0x90A3]), (0x35BE, [0x54A2]), (0x35CB, [0x5589]), (0x35FD, [0x97FF])]),
  (0x36, [
    (0x3605, [0x5563]), (0x362B, [0x5883]), (0x362F, [0x5834]), (0x367C, [0x5841]), (0x36A2, [0x5974]), (0x36DB, [0x5A20]),
    (0x36EE, [0x5AC2]), (0x36F0, [0x5A5A])]),
  (0x37, [
    (0x3711, [0x5A46]), (0x373D, [0x5B50]), (0x3740, [0x597D]), (0x3749, [0x5BA3]), (0x374A, [0x5B88]), (0x374D, [0x5199]),
    (0x3756, [0x5B9C]), (0x375B, [0x5BBF]), (0x3761, [0x6700]), (0x3762, [0x5B87]), (0x3767, [0x7A4F]), (0x3777, [0x5C0B]),
    (0x3791, [0x5C3E]), (0x37A1, [0x5C55]), (0x37C1, [0x5CB8])]),
  (0x38, [
    (0x3800, [0x5CF6]), (0x382D, [0x5C55]), (0x3836, [0x5E06]), (0x3873, [0x5E95]), (0x387F, [0x65A5]), (0x3898, [0x5EC9]),
    (0x38B4, [0x897F]), (0x38BD, [0x990C]), (0x38CB, [0x4E39]), (0x38EB, [0x52D5]), (0x38F2, [0x5FAE]), (0x38FC, [0x5FCD])]),
  (0x39, [
    (0x3900, [0x5FD8]), (0x3902, [0x6025]), (0x3903, [0x59A8]), (0x3905, [0x611B]), (0x3919, [0x6069]), (0x391F, [0x6050]),
    (0x392A, [0x6028]), (0x393A, [0x614C]), (0x3967, [0x9806]), (0x396B, [0x60C7]), (0x39BF, [0x6238]), (0x39FC, [0x4FF5])]),
  (0x3A, [
    (0x3A23, [0x64C1]), (0x3A2F, [0x62E1]), (0x3A3F, [0x62E0]), (0x3A40, [0x62E0]), (0x3A57, [0x643A]), (0x3A66, [0x643A]),
    (0x3A70, [0x6284]), (0x3A85, [0x66F4]), (0x3AC1, [0x65AD]), (0x3AC5, [0x65D7]), (0x3AD1, [0x65E8]), (0x3AE7, [0x66B4]),
    (0x3AEA, [0x6625]), (0x3AFA, [0x6614])]),
  (0x3B, [
    (0x3B0C, [0x666F]), (0x3B1C, [0x664B]), (0x3B25, [0x66B4]), (0x3B27, [0x66B4]), (0x3B31, [0x66FF]), (0x3B4A, [0x6790]),
    (0x3B4B, [0x68D2]), (0x3B4D, [0x67D2]), (0x3B8E, [0x676F]), (0x3BA3, [0x6982]), (0x3BDF, [0x9E93]), (0x3BE6, [0x68CB])]),
  (0x3C, [
    (0x3C4F, [0x6B63]), (0x3C55, [0x5E30]), (0x3C7F, [0x6BBB]), (0x3CBE, [0x96E8]), (0x3CC2, [0x6CBF]), (0x3CC5, [0x6D41]),
    (0x3CD2, [0x6CD5])]),
  (0x3D, [
    (0x3D05, [0x6D88]), (0x3D06, [0x6D78]), (0x3D09, [0x6E08]), (0x3D71, [0x6F02]), (0x3DAB, [0x71CE]), (0x3DB3, [0x71FC]),
    (0x3DD6, [0x7167]), (0x3DD9, [0x714E]), (0x3DE9, [0x7199]), (0x3DF1, [0x718A]), (0x3DFB, [0x7121])]),
  (0x3E, [
    (0x3E18, [0x4E07]), (0x3E60, [0x8C5A]), (0x3E9A, [0x737A])]),
  (0x3F, [
    (0x3F56, [0x7559]), (0x3F57, [0x755D]), (0x3F5E, [0x7559]), (0x3F6C, [0x8F3B])]),
  (0x40, [
    (0x4006, [0x5C3D]), (0x400B, [0x5869]), (0x405E, [0x7701]), (0x4093, [0x898F]), (0x4096, [0x77F3]), (0x40CD, [0x589C]),
    (0x40FA, [0x78E8])]),
  (0x41, [
    (0x4100, [0x798D]), (0x4115, [0x793E]), (0x4122, [0x6589]), (0x412B, [0x8291]), (0x412C, [0x79FB]), (0x412D, [0x5E74]),
    (0x4192, [0x7A76]), (0x41A9, [0x51A5])]),
  (0x42, [
    (0x427C, [0x6599]), (0x428F, [0x7CDD]), (0x42B7, [0x7DC7]), (0x42C4, [0x7DB2]), (0x42DE, [0x7DB2]), (0x42E0, [0x88DC]),
    (0x42F2, [0x7E04]), (0x42F9, [0x5E45])]),
  (0x43, [
    (0x4307, [0x7D22]), (0x4309, [0x7DB1]), (0x4313, [0x7E41]), (0x4348, [0x74F6]), (0x4369, [0x990A]), (0x43B9, [0x805E]),
    (0x43CB, [0x7C9B]), (0x43D4, [0x8098]), (0x43D5, [0x98EA]), (0x43FB, [0x80FD])]),
  (0x44, [
    (0x4452, [0x5230]), (0x4453, [0x53F0]), (0x4483, [0x9020]), (0x44AD, [0x7B49]), (0x44B1, [0x84B8]), (0x44B6, [0x5929]),
    (0x44C1, [0x7B49]), (0x44CA, [0x8323]), (0x44E6, [0x5178])]),
  (0x45, [
    (0x450D, [0x7BE4]), (0x452B, [0x852C]), (0x4568, [0x85E4]), (0x456E, [0x83CA]), (0x458B, [0x8650]), (0x458F, [0x51E6]),
    (0x45AE, [0x8801]), (0x45D7, [0x8688]), (0x45F9, [0x8786])]),
  (0x46, [
    (0x4607, [0x868A]), (0x4619, [0x885B]), (0x461A, [0x5352]), (0x461C, [0x5DFE]), (0x462E, [0x55AA]), (0x4631, [0x88D5]),
    (0x469E, [0x6B79]), (0x469F, [0x6B79]), (0x46B1, [0x4FE1]), (0x46D0, [0x8A5E]), (0x46D2, [0x5F01]), (0x46E1, [0x8A71]),
    (0x46E6, [0x8A1F]), (0x46E7, [0x8B0E])]),
  (0x47, [
    (0x4718, [0x8B66]), (0x4768, [0x8CE2]), (0x477E, [0x8CE6]), (0x477F, [0x8CB4]), (0x47AC, [0x900F]), (0x47E6, [0x8DCB])]),
  (0x48, [
    (0x482E, [0x9A30]), (0x4832, [0x8046]), (0x4836, [0x5C04]), (0x4839, [0x9AB8]), (0x4856, [0x8EFD]), (0x4889, [0x8FB2]),
    (0x489C, [0x5E30]), (0x489F, [0x7531]), (0x48A0, [0x9001]), (0x48A4, [0x8FF0]), (0x48A6, [0x5E25]), (0x48AB, [0x968F]),
    (0x48B7, [0x90A3]), (0x48CC, [0x90B8])]),
  (0x49, [
    (0x491C, [0x920D]), (0x4931, [0x8A93]), (0x4945, [0x7434]), (0x4946, [0x7434]), (0x495A, [0x521D]), (0x4999, [0x5BFA]),
    (0x499F, [0x7A4F]), (0x49B7, [0x7A4F]), (0x49CD, [0x9699]), (0x49D5, [0x57DF]), (0x49D9, [0x9675]), (0x49E6, [0x912C])]),
  (0x4A, [
    (0x4A07, [0x53CC]), (0x4A13, [0x96F7]), (0x4A29, [0x970A]), (0x4A2E, [0x96EA]), (0x4A36, [0x9723]), (0x4A7F, [0x9F16]),
    (0x4AA0, [0x97F2]), (0x4AA1, [0x97F2]), (0x4AA2, [0x97F2]), (0x4AF7, [0x984E])]),
  (0x4B, [
    (0x4B4B, [0x98FD]), (0x4B6B, [0x7A3D]), (0x4B6C, [0x7A3D]), (0x4B7E, [0x99C4]), (0x4B83, [0x99C6]), (0x4BBE, [0x299B3]),
    (0x4BCE, [0x9AAD]), (0x4BD0, [0x9AB8]), (0x4BDD, [0x9AC4])]),
  (0x4C, [
    (0x4C1F, [0x9B42]), (0x4C28, [0x9B45]), (0x4CFD, [0x9DB4])]),
  (0x4D, [
    (0x4D21, [0x9E97]), (0x4D79, [0x8718])]),
  (0x4E, [
    (0x4E04, [0x4E0A]), (0x4E05, [0x4E0B]), (0x4E13, [0x5C02]), (0x4E17, [0x4E16]), (0x4E1A, [0x696D]), (0x4E1C, [0x6771]),
    (0x4E1D, [0x7CF8]), (0x4E20, [0x5180]), (0x4E24, [0x4E21]), (0x4E25, [0x53B3]), (0x4E27, [0x55AA]), (0x4E2A, [0x500B]),
    (0x4E30, [0x8C4A]), (0x4E34, [0x81E8]), (0x4E3A, [0x70BA]), (0x4E3D, [0x9E97]), (0x4E3E, [0x6319]), (0x4E46, [0x4E45]),
    (0x4E49, [0x7FA9]), (0x4E50, [0x697D]), (0x4E55, [0x864E]), (0x4E58, [0x4E57]), (0x4E60, [0x7FD2]), (0x4E61, [0x90F7]),
    (0x4E66, [0x66F8]), (0x4E68, [0x59CB]), (0x4E70, [0x8CB7]), (0x4E79, [0x4E7E]), (0x4E7F, [0x6CBB]), (0x4E81, [0x4E7E]),
    (0x4E82, [0x4E71]), (0x4E8A, [0x4E8B]), (0x4E97, [0x6B73]), (0x4E9A, [0x4E9C]), (0x4E9D, [0x6589]), (0x4E9E, [0x4E9C]),
    (0x4EA7, [0x7523]), (0x4EA9, [0x755D]), (0x4EAF, [0x4EAB]), (0x4EB0, [0x4EAC]), (0x4EB1, [0x591C]), (0x4EB2, [0x89AA]),
    (0x4EBE, [0x4EA1]), (0x4EBF, [0x5104]), (0x4EC5, [0x50C5]), (0x4ECC, [0x6C37]), (0x4ECE, [0x5F93]), (0x4ED3, [0x5009]),
    (0x4EEA, [0x5100]), (0x4EF7, [0x4FA1]), (0x4EFE, [0x4F4E]), (0x4EFF, [0x5023])]),
  (0x4F, [
    (0x4F17, [0x8846]), (0x4F18, [0x512A]), (0x4F1E, [0x5098]), (0x4F1F, [0x5049]), (0x4F20, [0x4F1D]), (0x4F24, [0x50B7]),
    (0x4F26, [0x502B]), (0x4F29, [0x4FE1]), (0x4F2A, [0x507D]), (0x4F2E, [0x52AA]), (0x4F40, [0x4F3C]), (0x4F4B, [0x662D]),
    (0x4F5B, [0x4ECF]), (0x4F82, [0x8A17]), (0x4F86, [0x6765]), (0x4F8C, [0x9670]), (0x4FA3, [0x4FB6]), (0x4FA6, [0x5075]),
    (0x4FA7, [0x5074]), (0x4FBD, [0x7537]), (0x4FD6, [0x500D]), (0x4FDE, [0x516A]), (0x4FED, [0x5039]), (0x4FFB, [0x5099])]),
  (0x50, [
    (0x5002, [0x4F75]), (0x503A, [0x50B5]), (0x503C, [0x5024]), (0x503E, [0x50BE]), (0x5040, [0x82F1]), (0x5041, [0x79F0]),
    (0x5047, [0x4EEE]), (0x5069, [0x8CA0]), (0x5079, [0x5099]), (0x507F, [0x511F]), (0x50B3, [0x4F1D]), (0x50DE, [0x507D]),
    (0x50F2, [0x4ED9]), (0x50F9, [0x4FA1])]),
  (0x51, [
    (0x5101, [0x4FCA]), (0x5109, [0x5039]), (0x512B, [0x8C6A]), (0x513F, [0x5150]), (0x5152, [0x5150]), (0x5154, [0x514E]),
    (0x5166, [0x4EA1]), (0x5167, [0x5185]), (0x5169, [0x4E21]), (0x5170, [0x862D]), (0x5173, [0x95A2]), (0x5174, [0x8208]),
    (0x517B, [0x990A]), (0x517D, [0x7363]), (0x517E, [0x5180]), (0x517F, [0x82B8]), (0x5183, [0x5E3D]), (0x5188, [0x5CA1]),
    (0x518C, [0x518A]), (0x5190, [0x5192]), (0x519B, [0x8ECD]), (0x519C, [0x8FB2]), (0x519D, [0x5B9C]), (0x51A1, [0x8499]),
    (0x51A2, [0x585A]), (0x51A3, [0x6700]), (0x51A8, [0x5BCC]), (0x51A9, [0x5199]), (0x51AB, [0x6C37]), (0x51B0, [0x6C37]),
    (0x51B1, [0x51B4]), (0x51B2, [0x6C96]), (0x51B3, [0x6C7A]), (0x51B5, [0x6CC1]), (0x51BB, [0x51CD]), (0x51C9, [0x6DBC]),
    (0x51CF, [0x6E1B]), (0x51D6, [0x6E96]), (0x51DE, [0x7199]), (0x51E8, [0x98A8]), (0x51FB, [0x6483]), (0x51FC, [0x5E7D])]),
  (0x52, [
    (0x5202, [0x5200]), (0x5204, [0x5203]), (0x5218, [0x5289]), (0x5219, [0x5247]), (0x521A, [0x525B]), (0x521B, [0x5275]),
    (0x522B, [0x5225]), (0x5242, [0x5264]), (0x524E, [0x5239]), (0x5251, [0x5263]), (0x5265, [0x525D]), (0x5267, [0x5287]),
    (0x5269, [0x5270]), (0x527F, [0x52E6]), (0x528B, [0x52E6]), (0x528D, [0x5263]), (0x5291, [0x5264]), (0x529D, [0x52E7]),
    (0x52A1, [0x52D9]), (0x52A2, [0x52B1]), (0x52A8, [0x52D5]), (0x52B3, [0x52B4]), (0x52BF, [0x52E2]), (0x52C4, [0x654F]),
    (0x52C8, [0x52C7]), (0x52CB, [0x52F2]), (0x52D0, [0x731B]), (0x52DB, [0x52F2]), (0x52DE, [0x52B4]), (0x52E3, [0x7E3E]),
    (0x52F3, [0x52F2]), (0x52F5, [0x52B1]), (0x52F8, [0x52E7])]),
  (0x53, [
    (0x5307, [0x5306]), (0x531E, [0x5320]), (0x5338, [0x653E]), (0x5340, [0x533A]), (0x5346, [0x5352]), (0x534B, [0x4E16]),
    (0x534E, [0x83EF]), (0x534F, [0x5354]), (0x5355, [0x5358]), (0x5356, [0x58F2]), (0x5365, [0x897F]), (0x536B, [0x885B]),
    (0x5377, [0x5DFB]), (0x537B, [0x5374]), (0x537D, [0x5373]), (0x5380, [0x819D]), (0x5385, [0x5E81]), (0x538B, [0x5727]),
    (0x539B, [0x5E81]), (0x53AF, [0x6B74]), (0x53B5, [0x6E90]), (0x53BA, [0x53BB]), (0x53BF, [0x770C]), (0x53C1, [0x53C2]),
    (0x53C3, [0x53C2]), (0x53D3, [0x4E8B]), (0x53D8, [0x5909]), (0x53DC, [0x53DF]), (0x53E0, [0x7573]), (0x53F6, [0x8449]),
    (0x53F9, [0x5606])]),
  (0x54, [
    (0x5413, [0x5687]), (0x542C, [0x8074]), (0x542F, [0x5553]), (0x5433, [0x5449]), (0x5434, [0x5449]), (0x543F, [0x544A]),
    (0x544C, [0x53EB]), (0x5457, [0x5504]), (0x5458, [0x54E1]), (0x5463, [0x8B00]), (0x548A, [0x548C]), (0x548F, [0x8A60]),
    (0x5492, [0x546A]), (0x54CD, [0x97FF])]),
  (0x55, [
    (0x5524, [0x559A]), (0x5554, [0x5553]), (0x555F, [0x5553]), (0x5568, [0x60C5]), (0x557A, [0x5510]), (0x55AE, [0x5358]),
    (0x55B7, [0x5674]), (0x55BB, [0x55A9])]),
  (0x56, [
    (0x562B, [0x7136]), (0x5644, [0x55AB]), (0x564F, [0x5438]), (0x5650, [0x5668]), (0x5656, [0x541F]), (0x56B4, [0x53B3]),
    (0x56D1, [0x5631]), (0x56D8, [0x56DE]), (0x56D9, [0x56E0]), (0x56E2, [0x56E3]), (0x56ED, [0x5712]), (0x56F4, [0x56F2]),
    (0x56F8, [0x65E5]), (0x56FC, [0x80CE]), (0x56FE, [0x56F3])]),
  (0x57, [
    (0x5706, [0x5186]), (0x5708, [0x570F]), (0x570B, [0x56FD]), (0x570D, [0x56F2]), (0x5713, [0x5186]), (0x5716, [0x56F3]),
    (0x5718, [0x56E3]), (0x5721, [0x571F]), (0x5723, [0x8056]), (0x5735, [0x58CC]), (0x573A, [0x5834]), (0x574F, [0x58CA]),
    (0x5753, [0x578B]), (0x5754, [0x5730]), (0x5757, [0x584A]), (0x575A, [0x5805]), (0x575B, [0x58C7]), (0x575F, [0x58B3]),
    (0x5760, [0x589C]), (0x577F, [0x9644]), (0x5792, [0x5841]), (0x5796, [0x5806]), (0x57A6, [0x58BE]), (0x57BE, [0x5CB8]),
    (0x57C0, [0x5782]), (0x57C5, [0x9632]), (0x57DC, [0x91CE]), (0x57F0, [0x91C7]), (0x57FD, [0x6383])]),
  (0x58, [
    (0x5826, [0x968E]), (0x5850, [0x5851]), (0x5866, [0x9663]), (0x586B, [0x5861]), (0x5872, [0x5834]), (0x5896, [0x5854]),
    (0x589E, [0x5897]), (0x58AE, [0x5815]), (0x58B0, [0x58C7]), (0x58D0, [0x74BD]), (0x58D3, [0x5727]), (0x58D8, [0x5841]),
    (0x58DC, [0x58C7]), (0x58DE, [0x58CA]), (0x58E4, [0x58CC]), (0x58EF, [0x58EE]), (0x58F3, [0x6BBB]), (0x58F6, [0x58FA]),
    (0x58F7, [0x58FA]), (0x58F9, [0x58F1]), (0x58FB, [0x5A7F]), (0x58FD, [0x5BFF])]),
  (0x59, [
    (0x5900, [0x5BFF]), (0x5904, [0x51E6]), (0x5905, [0x964D]), (0x5907, [0x5099]), (0x591B, [0x591A]), (0x591D, [0x6674]),
    (0x5923, [0x5922]), (0x5934, [0x982D]), (0x5936, [0x6BD4]), (0x5938, [0x8A87]), (0x593A, [0x596A]), (0x594B, [0x596E]),
    (0x594C, [0x70B9]), (0x5953, [0x5962]), (0x5956, [0x5968]), (0x5967, [0x5965]), (0x596C, [0x5968]), (0x5986, [0x7CA7]),
    (0x5987, [0x5A66]), (0x5992, [0x59AC]), (0x599D, [0x7CA7]), (0x59CA, [0x59C9]), (0x59D9, [0x598A]), (0x59EC, [0x59EB]),
    (0x59F8, [0x598D])]),
  (0x5A, [
    (0x5A1B, [0x5A2F]), (0x5A24, [0x7CA7]), (0x5A31, [0x5A2F]), (0x5A63, [0x59FB]), (0x5A87, [0x89AA]), (0x5A8D, [0x5A66])]),
  (0x5B, [
    (0x5B3E, [0x61F6]), (0x5B43, [0x5B22]), (0x5B59, [0x5B6B]), (0x5B60, [0x55E3]), (0x5B61, [0x80CE]), (0x5B78, [0x5B66]),
    (0x5B81, [0x5BE7]), (0x5B82, [0x5197]), (0x5B8D, [0x8089]), (0x5B9E, [0x5B9F]), (0x5BA1, [0x5BE9]), (0x5BAA, [0x61B2]),
    (0x5BB2, [0x5B9F]), (0x5BBB, [0x5BC6]), (0x5BBD, [0x5BDB]), (0x5BBE, [0x8CD3]), (0x5BC3, [0x51A4]), (0x5BCF, [0x9662]),
    (0x5BD1, [0x5BDD]), (0x5BDC, [0x5BE7]), (0x5BE2, [0x5BDD]), (0x5BE6, [0x5B9F]), (0x5BEB, [0x5199]), (0x5BEC, [0x5BDB]),
    (0x5BF3, [0x5B9D]), (0x5BF6, [0x5B9D]), (0x5BF9, [0x5BFE]), (0x5BFB, [0x5C0B]), (0x5BFC, [0x5C0E])]),
  (0x5C, [
    (0x5C07, [0x5C06]), (0x5C08, [0x5C02]), (0x5C0D, [0x5BFE]), (0x5C19, [0x5C1A]), (0x5C1E, [0x71CE]), (0x5C28, [0x7ADC]),
    (0x5C42, [0x5C64]), (0x5C46, [0x5C4A]), (0x5C6C, [0x5C5E]), (0x5C81, [0x6B73]), (0x5C9A, [0x5D50]), (0x5C9B, [0x5CF6]),
    (0x5CAD, [0x5DBA]), (0x5CEF, [0x5CF0]), (0x5CFD, [0x5CE1])]),
  (0x5D, [
    (0x5D08, [0x5D07]), (0x5D18, [0x5D19]), (0x5D57, [0x6B73]), (0x5D5C, [0x5D0E]), (0x5D8B, [0x5CF6]), (0x5D8C, [0x5CF6]),
    (0x5DBD, [0x5CB3]), (0x5DC2, [0x5DB2]), (0x5DE2, [0x5DE3]), (0x5DFA, [0x5DFD])]),
  (0x5E, [
    (0x5E01, [0x5E63]), (0x5E05, [0x5E25]), (0x5E08, [0x5E2B]), (0x5E0B, [0x7D19]), (0x5E10, [0x5E33]), (0x5E12, [0x888B]),
    (0x5E26, [0x5E2F]), (0x5E36, [0x5E2F]), (0x5E64, [0x5E63]), (0x5E76, [0x4E26]), (0x5E77, [0x4E26]), (0x5E7F, [0x5E83]),
    (0x5E84, [0x8358]), (0x5E86, [0x6176]), (0x5E92, [0x8358]), (0x5E93, [0x5EAB]), (0x5E94, [0x5FDC]), (0x5E9F, [0x5EC3]),
    (0x5EBB, [0x5EB6]), (0x5EE2, [0x5EC3]), (0x5EE3, [0x5E83]), (0x5EF0, [0x5E81]), (0x5EF3, [0x5E81]), (0x5EF5, [0x5DE1])]),
  (0x5F, [
    (0x5F00, [0x958B]), (0x5F02, [0x7570]), (0x5F03, [0x68C4]), (0x5F0D, [0x5F10]), (0x5F20, [0x5F35]), (0x5F39, [0x5F3E]),
    (0x5F3A, [0x5F37]), (0x5F48, [0x5F3E]), (0x5F4A, [0x5F37]), (0x5F4C, [0x5F25]), (0x5F52, [0x5E30]), (0x5F55, [0x9332]),
    (0x5F5B, [0x5F5D]), (0x5F5C, [0x5F5D]), (0x5F5E, [0x5F5D]), (0x5F65, [0x5F66]), (0x5F7B, [0x5FB9]), (0x5F83, [0x5F80]),
    (0x5F91, [0x5F84]), (0x5F9E, [0x5F93]), (0x5FB5, [0x5FB4]), (0x5FB7, [0x5FB3]), (0x5FC6, [0x61B6]), (0x5FC8, [0x4EC1]),
    (0x5FCE, [0x4EC1]), (0x5FE2, [0x609F]), (0x5FE7, [0x6182])]),
  (0x60, [
    (0x6000, [0x61D0]), (0x6001, [0x614B]), (0x6018, [0x56FA]), (0x6023, [0x5C24]), (0x6031, [0x5306]), (0x603B, [0x7DCF]),
    (0x6046, [0x6052]), (0x6056, [0x601D]), (0x6060, [0x602A]), (0x6061, [0x541D]), (0x6071, [0x60A6]), (0x6073, [0x61C7]),
    (0x6076, [0x60AA]), (0x607C, [0x60A9]), (0x6085, [0x60A6]), (0x608B, [0x541D]), (0x6091, [0x6016]), (0x60A4, [0x5306]),
    (0x60AC, [0x61F8]), (0x60B3, [0x5FB3]), (0x60CA, [0x9A5A]), (0x60E0, [0x6075]), (0x60E1, [0x60AA]), (0x60E3, [0x7DCF]),
    (0x60E9, [0x61F2]), (0x60EA, [0x5FB3]), (0x60EF, [0x6163]), (0x60F1, [0x60A9])]),
  (0x61, [
    (0x6124, [0x61A4]), (0x612C, [0x8A34]), (0x6133, [0x60E7]), (0x6138, [0x6574]), (0x613B, [0x905C]), (0x613C, [0x614E]),
    (0x613D, [0x535A]), (0x6158, [0x60E8]), (0x6187, [0x61A9]), (0x6190, [0x601C]), (0x6198, [0x559C]), (0x6199, [0x559C]),
    (0x61C3, [0x52E4]), (0x61C9, [0x5FDC]), (0x61D2, [0x61F6]), (0x61F7, [0x61D0]), (0x61FC, [0x60E7])]),
  (0x62, [
    (0x6200, [0x604B]), (0x620F, [0x622F]), (0x6218, [0x6226]), (0x621D, [0x8CCA]), (0x621E, [0x621B]), (0x6220, [0x57F4]),
    (0x6230, [0x6226]), (0x6232, [0x622F]), (0x6236, [0x6238]), (0x6237, [0x6238]), (0x623E, [0x623B]), (0x6251, [0x64B2]),
    (0x6267, [0x57F7]), (0x6269, [0x62E1]), (0x626B, [0x6383]), (0x626C, [0x63DA]), (0x627B, [0x640D]), (0x6285, [0x62D8]),
    (0x62A4, [0x8B77]), (0x62A5, [0x5831]), (0x62B8, [0x631F]), (0x62BB, [0x4F38]), (0x62C2, [0x6255]), (0x62D4, [0x629C]),
    (0x62DC, [0x62DD]), (0x62DF, [0x64EC]), (0x62E5, [0x64C1]), (0x62E9, [0x629E])]),
  (0x63, [
    (0x6302, [0x639B]), (0x6304, [0x62E1]), (0x630D, [0x6821]), (0x6314, [0x65C5]), (0x6315, [0x6442]), (0x631A, [0x646F]),
    (0x6325, [0x63EE]), (0x6335, [0x5F04]), (0x633E, [0x631F]), (0x6344, [0x6551]), (0x635F, [0x640D]), (0x6362, [0x63DB]),
    (0x6374, [0x7DCF]), (0x638B, [0x62B5]), (0x63BB, [0x6414]), (0x63D2, [0x633F]), (0x63ED, [0x63B2]), (0x63F7, [0x633F]),
    (0x63F9, [0x80CC])]),
  (0x64, [
    (0x6403, [0x7DCF]), (0x6416, [0x63FA]), (0x641C, [0x635C]), (0x643C, [0x62F3]), (0x6444, [0x6442]), (0x6477, [0x6284]),
    (0x64C7, [0x629E]), (0x64CA, [0x6483]), (0x64D1, [0x63A5]), (0x64D4, [0x62C5]), (0x64DA, [0x62E0]), (0x64E7, [0x6319]),
    (0x64F4, [0x62E1]), (0x64FF, [0x6458])]),
  (0x65, [
    (0x651C, [0x643A]), (0x651D, [0x6442]), (0x6536, [0x53CE]), (0x6537, [0x8003]), (0x653D, [0x9812]), (0x6548, [0x52B9]),
    (0x654C, [0x6575]), (0x654D, [0x53D9]), (0x654E, [0x6559]), (0x6555, [0x52C5]), (0x6558, [0x53D9]), (0x6578, [0x6570]),
    (0x6588, [0x5B66]), (0x658B, [0x658E]), (0x658D, [0x899A]), (0x65A9, [0x65AC]), (0x65B7, [0x65AD]), (0x65C9, [0x6577]),
    (0x65E0, [0x7121]), (0x65E3, [0x65E2]), (0x65F3, [0x7684]), (0x65F6, [0x6642]), (0x65FE, [0x6625])]),
  (0x66, [
    (0x6602, [0x663B]), (0x6618, [0x8A2A]), (0x6619, [0x66C7]), (0x661A, [0x614E]), (0x661C, [0x967D]), (0x663E, [0x9855]),
    (0x6649, [0x664B]), (0x6653, [0x6681]), (0x6655, [0x6688]), (0x665A, [0x6669]), (0x665D, [0x663C]), (0x667B, [0x6697]),
    (0x6682, [0x66AB]), (0x668E, [0x6620]), (0x6692, [0x6674]), (0x669C, [0x666E]), (0x66A7, [0x66D6]), (0x66C6, [0x66A6]),
    (0x66C9, [0x6681]), (0x66D0, [0x661F]), (0x66FA, [0x66F9]), (0x66FE, [0x66FD])]),
  (0x67, [
    (0x6703, [0x4F1A]), (0x6712, [0x80AD]), (0x6716, [0x6717]), (0x671E, [0x671F]), (0x6722, [0x671B]), (0x672F, [0x8853]),
    (0x6740, [0x6BBA]), (0x6742, [0x96D1]), (0x6743, [0x6A29]), (0x6780, [0x677E]), (0x6781, [0x6975]), (0x6784, [0x69CB]),
    (0x67B4, [0x62D0]), (0x67E5, [0x67FB]), (0x67F0, [0x5948]), (0x67F9, [0x67FF]), (0x67FA, [0x62D0])]),
  (0x68, [
    (0x6801, [0x67F3]), (0x6805, [0x67F5]), (0x6807, [0x6A19]), (0x6808, [0x685F]), (0x6809, [0x6ADB]), (0x680B, [0x68DF]),
    (0x680F, [0x6B04]), (0x6811, [0x6A39]), (0x6814, [0x5951]), (0x6837, [0x69D8]), (0x6852, [0x6851]), (0x6865, [0x6A4B]),
    (0x6866, [0x67A0]), (0x686E, [0x676F]), (0x687A, [0x67F3]), (0x6896, [0x8C9D]), (0x689D, [0x6761]), (0x68A6, [0x5922]),
    (0x68C0, [0x691C]), (0x68C3, [0x68A8]), (0x68CA, [0x68CB]), (0x68E7, [0x685F])]),
  (0x69, [
    (0x6973, [0x6885]), (0x6996, [0x7A40]), (0x69A1, [0x7D20]), (0x69A2, [0x67B6]), (0x69A6, [0x5E79]), (0x69A8, [0x643E]),
    (0x69AE, [0x6804]), (0x69D7, [0x6A4B]), (0x69EA, [0x6982])]),
  (0x6A, [
    (0x6A02, [0x697D]), (0x6A13, [0x697C]), (0x6A1E, [0x67A2]), (0x6A23, [0x69D8]), (0x6A31, [0x685C]), (0x6A3A, [0x67A0]),
    (0x6A45, [0x6A21]), (0x6A6B, [0x6A2A]), (0x6AA2, [0x691C]), (0x6AB4, [0x67A0]), (0x6AFB, [0x685C])]),
  (0x6B, [
    (0x6B0A, [0x6A29]), (0x6B22, [0x6B53]), (0x6B35, [0x6B3E]), (0x6B50, [0x6B27]), (0x6B61, [0x6B53]), (0x6B65, [0x6B69]),
    (0x6B68, [0x6B69]), (0x6B6B, [0x8DDD]), (0x6B6C, [0x524D]), (0x6B72, [0x6B73]), (0x6B77, [0x6B74]), (0x6B78, [0x5E30]),
    (0x6B7A, [0x6B79]), (0x6B98, [0x6B8B]), (0x6BBC, [0x6BBB]), (0x6BC1, [0x6BC0]), (0x6BC6, [0x6BB4]), (0x6BC9, [0x533B]),
    (0x6BCF, [0x6BCE])]),
  (0x6C, [
    (0x6C14, [0x6C17]), (0x6C1B, [0x96F0]), (0x6C23, [0x6C17]), (0x6C49, [0x6F22]), (0x6C59, [0x6C5A]), (0x6C61, [0x6C5A]),
    (0x6C64, [0x6E6F]), (0x6C78, [0x6EC2]), (0x6C92, [0x6CA1]), (0x6C97, [0x6DFB]), (0x6C9F, [0x6E9D]), (0x6CA6, [0x6DEA]),
    (0x6CDB, [0x6C4E]), (0x6CEA, [0x6D99]), (0x6CF2, [0x6E08]), (0x6CF7, [0x6EDD]), (0x6CFD, [0x6CA2])]),
  (0x6D, [
    (0x6D01, [0x6F54]), (0x6D02, [0x6DB2]), (0x6D13, [0x6F2C]), (0x6D24, [0x6CC9]), (0x6D2F, [0x6F54]), (0x6D4A, [0x6FC1]),
    (0x6D4B, [0x6E2C]), (0x6D4E, [0x6E08]), (0x6D53, [0x6FC3]), (0x6D82, [0x5857]), (0x6D89, [0x6E09]), (0x6DA1, [0x6E26]),
    (0x6DA6, [0x6F64]), (0x6DA9, [0x6E0B]), (0x6DDA, [0x6D99]), (0x6DE8, [0x6D44]), (0x6DF5, [0x6E15]), (0x6DF8, [0x6E05]),
    (0x6DFA, [0x6D45])]),
  (0x6E, [
    (0x6E01, [0x6E15]), (0x6E0A, [0x6E15]), (0x6E0D, [0x6F2C]), (0x6E10, [0x6F38]), (0x6E14, [0x6F01]), (0x6E34, [0x6E07]),
    (0x6E7C, [0x6D85]), (0x6E83, [0x6F70]), (0x6E89, [0x6F11]), (0x6EAA, [0x6E13]), (0x6EAB, [0x6E29]), (0x6EAF, [0x9061]),
    (0x6EBC, [0x6E7F]), (0x6EDB, [0x6DEB]), (0x6EE1, [0x6E80]), (0x6EE5, [0x6FEB]), (0x6EE8, [0x6D5C]), (0x6EEF, [0x6EDE]),
    (0x6EF3, [0x6EF4]), (0x6EFF, [0x6E80])]),
  (0x6F, [
    (0x6F5B, [0x6F5C]), (0x6F80, [0x6E0B]), (0x6F81, [0x6E0B]), (0x6F82, [0x6F84]), (0x6F91, [0x6E9C]), (0x6FA4, [0x6CA2]),
    (0x6FD1, [0x702C]), (0x6FD5, [0x6E7F]), (0x6FDF, [0x6E08]), (0x6FE8, [0x6ECB]), (0x6FF1, [0x6D5C]), (0x6FF3, [0x6F5C]),
    (0x6FF5, [0x6D5C])]),
  (0x70, [
    (0x7013, [0x6F84]), (0x7027, [0x6EDD]), (0x7028, [0x702C]), (0x7063, [0x6E7E]), (0x706D, [0x6EC5]), (0x706E, [0x5149]),
    (0x7075, [0x970A]), (0x707E, [0x707D]), (0x7096, [0x71C9]), (0x7097, [0x5149]), (0x70A4, [0x7167]), (0x70D6, [0x707D]),
    (0x70DF, [0x7159]), (0x70E6, [0x7169]), (0x70E7, [0x713C]), (0x70EC, [0x71FC]), (0x70ED, [0x71B1]), (0x70EE, [0x70C8])]),
  (0x71, [
    (0x7108, [0x7199]), (0x7145, [0x935B]), (0x7151, [0x716E]), (0x7155, [0x7199]), (0x7161, [0x71FC]), (0x7188, [0x7199]),
    (0x71C8, [0x706F]), (0x71D2, [0x713C]), (0x71DF, [0x55B6])]),
  (0x72, [
    (0x7210, [0x7089]), (0x722D, [0x4E89]), (0x7231, [0x611B]), (0x7232, [0x70BA]), (0x7240, [0x5E8A]), (0x7250, [0x9598]),
    (0x727A, [0x72A0]), (0x7286, [0x7279]), (0x7287, [0x5954]), (0x72A7, [0x72A0]), (0x72B9, [0x7336]), (0x72C0, [0x72B6]),
    (0x72F1, [0x7344]), (0x72F9, [0x72ED])]),
  (0x73, [
    (0x730E, [0x731F]), (0x730F, [0x8C5C]), (0x7328, [0x733F]), (0x734E, [0x5968]), (0x7368, [0x72EC]), (0x736D, [0x737A]),
    (0x7375, [0x731F]), (0x7378, [0x7363]), (0x737B, [0x732E]), (0x7385, [0x5999]), (0x73AF, [0x74B0]), (0x73B0, [0x73FE]),
    (0x73B3, [0x7447]), (0x73BA, [0x74BD]), (0x73E1, [0x7434]), (0x73E4, [0x5B9D])]),
  (0x74, [
    (0x7439, [0x7434]), (0x743C, [0x74CA]), (0x74A2, [0x7460]), (0x74C8, [0x7483]), (0x74E1, [0x57F7]), (0x74E3, [0x5F01]),
    (0x74EB, [0x76C6])]),
  (0x75, [
    (0x7501, [0x74F6]), (0x7506, [0x74F7]), (0x751B, [0x751C]), (0x7522, [0x7523]), (0x7524, [0x8564]), (0x7535, [0x96FB]),
    (0x7542, [0x755D]), (0x7544, [0x7559]), (0x7546, [0x755D]), (0x754D, [0x754C]), (0x7563, [0x7B54]), (0x756B, [0x753B]),
    (0x756E, [0x755D]), (0x7575, [0x753B]), (0x7576, [0x5F53]), (0x758A, [0x7573]), (0x758F, [0x758E]), (0x7597, [0x7642]),
    (0x75A1, [0x760D]), (0x75F3, [0x75F2])]),
  (0x76, [
    (0x7609, [0x6108]), (0x7626, [0x75E9]), (0x762C, [0x8139]), (0x7645, [0x7624]), (0x764F, [0x761D]), (0x7652, [0x6108]),
    (0x7661, [0x75F4]), (0x767C, [0x767A]), (0x76B7, [0x9F13]), (0x76BC, [0x9F13]), (0x76CB, [0x9262]), (0x76D0, [0x5869]),
    (0x76D1, [0x76E3]), (0x76D6, [0x84CB]), (0x76D8, [0x76E4]), (0x76DC, [0x76D7]), (0x76E1, [0x5C3D])]),
  (0x77, [
    (0x770E, [0x793A]), (0x7718, [0x614E]), (0x771E, [0x771F]), (0x773E, [0x8846]), (0x7742, [0x7709]), (0x77A4, [0x77AC]),
    (0x77B9, [0x66D6]), (0x77D6, [0x4695]), (0x77E6, [0x4FAF]), (0x77EB, [0x77EF])]),
  (0x78, [
    (0x7840, [0x790E]), (0x784F, [0x7814]), (0x786E, [0x78BA]), (0x788E, [0x7815]), (0x78BB, [0x78BA]), (0x78C2, [0x786B])]),
  (0x79, [
    (0x7920, [0x78C1]), (0x7955, [0x79D8]), (0x796F, [0x798E]), (0x7978, [0x798D]), (0x79AA, [0x7985]), (0x79AE, [0x793C]),
    (0x79BB, [0x96E2]), (0x79CA, [0x5E74]), (0x79CC, [0x79CB]), (0x79CD, [0x7A2E]), (0x79CF, [0x8017]), (0x79EF, [0x7A4D])]),
  (0x7A, [
    (0x7A2B, [0x798F]), (0x7A31, [0x79F0]), (0x7A33, [0x7A4F]), (0x7A38, [0x84C4]), (0x7A3B, [0x7A32]), (0x7A3E, [0x7A3F]),
    (0x7A57, [0x7A42]), (0x7A5C, [0x7A2E]), (0x7A69, [0x7A4F]), (0x7A77, [0x7AAE]), (0x7A97, [0x7A93]), (0x7AB4, [0x5861]),
    (0x7ABB, [0x7A93]), (0x7AC2, [0x5BEE]), (0x7AC6, [0x7AAE]), (0x7ACA, [0x7A83]), (0x7AD2, [0x5947]), (0x7ADD, [0x4E26]),
    (0x7ADE, [0x7AF6]), (0x7AF8, [0x7AF6])]),
  (0x7B, [
    (0x7B03, [0x7BE4]), (0x7B14, [0x7B46]), (0x7B27, [0x518A]), (0x7B3A, [0x7B8B]), (0x7B3C, [0x7C60]), (0x7B5E, [0x7B56]),
    (0x7B66, [0x7BA1]), (0x7B6D, [0x7B97]), (0x7B6F, [0x7BB8]), (0x7B80, [0x7C21]), (0x7B93, [0x7C59]), (0x7BED, [0x7C60])]),
  (0x7C, [
    (0x7C7B, [0x985E]), (0x7CAE, [0x7CE7]), (0x7CB9, [0x7C8B]), (0x7CC1, [0x7CDD]), (0x7CC2, [0x7CDD]), (0x7CDB, [0x7CD6]),
    (0x7CE3, [0x7CDD]), (0x7CFA, [0x7CFE])]),
  (0x7D, [
    (0x7D27, [0x7DCA]), (0x7D28, [0x7E1B]), (0x7D43, [0x5F26]), (0x7D55, [0x7D76]), (0x7D64, [0x7DDA]), (0x7D72, [0x7CF8]),
    (0x7D82, [0x7D71]), (0x7D93, [0x7D4C]), (0x7D95, [0x7E54]), (0x7D98, [0x7E2B]), (0x7DA0, [0x7DD1]), (0x7DA4, [0x7D39]),
    (0x7DAB, [0x7DDA]), (0x7DD0, [0x7E41]), (0x7DD6, [0x7DD2]), (0x7DDC, [0x7DBF]), (0x7DDF, [0x91CD]), (0x7DE3, [0x7E01])]),
  (0x7E, [
    (0x7E02, [0x7DCF]), (0x7E23, [0x770C]), (0x7E31, [0x7E26]), (0x7E3D, [0x7DCF]), (0x7E56, [0x5098]), (0x7E59, [0x7FFB]),
    (0x7E69, [0x7E04]), (0x7E6A, [0x7D75]), (0x7E7C, [0x7D99]), (0x7E8C, [0x7D9A]), (0x7E8E, [0x7E4A]), (0x7E96, [0x7E4A]),
    (0x7EA0, [0x7CFE]), (0x7EA2, [0x7D05]), (0x7EA6, [0x7D04]), (0x7EA7, [0x7D1A]), (0x7EAA, [0x7D00]), (0x7EAC, [0x7DEF]),
    (0x7EAF, [0x7D14]), (0x7EB2, [0x7DB1]), (0x7EB3, [0x7D0D]), (0x7EB5, [0x7E26]), (0x7EB7, [0x7D1B]), (0x7EB8, [0x7D19]),
    (0x7EB9, [0x7D0B]), (0x7EBA, [0x7D21]), (0x7EBD, [0x7D10]), (0x7EBF, [0x7DDA]), (0x7EC0, [0x7D3A]), (0x7EC3, [0x7DF4]),
    (0x7EC4, [0x7D44]), (0x7EC5, [0x7D33]), (0x7EC6, [0x7D30]), (0x7EC7, [0x7E54]), (0x7EC8, [0x7D42]), (0x7ECD, [0x7D39]),
    (0x7ECF, [0x7D4C]), (0x7ED3, [0x7D50]), (0x7ED8, [0x7D75]), (0x7ED9, [0x7D66]), (0x7EDC, [0x7D61]), (0x7EDD, [0x7D76]),
    (0x7EDE, [0x7D5E]), (0x7EDF, [0x7D71]), (0x7EE2, [0x7D79]), (0x7EE6, [0x7E27]), (0x7EE7, [0x7D99]), (0x7EE9, [0x7E3E]),
    (0x7EEA, [0x7DD2]), (0x7EED, [0x7D9A]), (0x7EF3, [0x7E04]), (0x7EF4, [0x7DAD]), (0x7EF5, [0x7DBF]), (0x7EFD, [0x7DBB]),
    (0x7EFF, [0x7DD1])]),
  (0x7F, [
    (0x7F01, [0x7DC7]), (0x7F13, [0x7DE9]), (0x7F14, [0x7DE0]), (0x7F16, [0x7DE8]), (0x7F18, [0x7E01]), (0x7F19, [0x7E09]),
    (0x7F1A, [0x7E1B]), (0x7F1D, [0x7E2B]), (0x7F29, [0x7E2E]), (0x7F2B, [0x7E45]), (0x7F2E, [0x7E55]), (0x7F32, [0x7E70]),
    (0x7F37, [0x5378]), (0x7F3A, [0x6B20]), (0x7F3D, [0x9262]), (0x7F3E, [0x74F6]), (0x7F51, [0x7DB2]), (0x7F57, [0x7F85]),
    (0x7F5A, [0x7F70]), (0x7F62, [0x7F77]), (0x7F78, [0x7F70]), (0x7F82, [0x7F65]), (0x7F91, [0x8A98]), (0x7F99, [0x7F8E]),
    (0x7FA1, [0x7FA8]), (0x7FA3, [0x7FA4]), (0x7FCD, [0x62AB]), (0x7FD8, [0x7FF9]), (0x7FF1, [0x7FFA]), (0x7FF6, [0x7FFA])]),
  (0x80, [
    (0x8011, [0x7AEF]), (0x802F, [0x7A6B]), (0x803B, [0x6065]), (0x8040, [0x8077]), (0x804C, [0x8077]), (0x805F, [0x5A7F]),
    (0x8066, [0x8061]), (0x806A, [0x8061]), (0x8070, [0x8061]), (0x8072, [0x58F0]), (0x807D, [0x8074]), (0x8083, [0x7C9B]),
    (0x8085, [0x7C9B]), (0x808E, [0x80AF]), (0x80A0, [0x8178]), (0x80A4, [0x819A]), (0x80BB, [0x80AF]), (0x80BE, [0x814E]),
    (0x80BF, [0x816B]), (0x80C0, [0x8139]), (0x80C1, [0x8107]), (0x80DC, [0x52DD]), (0x80F7, [0x80F8])]),
  (0x81, [
    (0x8103, [0x8106]), (0x810F, [0x81D3]), (0x8111, [0x8133]), (0x812B, [0x8131]), (0x8166, [0x8133]), (0x8173, [0x811A]),
    (0x817E, [0x9A30]), (0x8193, [0x8178]), (0x81AC, [0x8106]), (0x81B8, [0x9AC4]), (0x81BD, [0x80C6]), (0x81DF, [0x81D3]),
    (0x81F0, [0x81ED]), (0x81FA, [0x53F0])]),
  (0x82, [
    (0x8203, [0x8204]), (0x8207, [0x4E0E]), (0x8209, [0x6319]), (0x820A, [0x65E7]), (0x820D, [0x820E]), (0x8216, [0x8217]),
    (0x8218, [0x9928]), (0x8221, [0x8239]), (0x8229, [0x8239]), (0x8230, [0x8266]), (0x8241, [0x9020]), (0x824A, [0x8236]),
    (0x8273, [0x8276]), (0x8277, [0x8276]), (0x827A, [0x82B8]), (0x8282, [0x7BC0]), (0x8288, [0x7F8A]), (0x828C, [0x828B]),
    (0x8294, [0x5349]), (0x82D0, [0x7B2C]), (0x82F6, [0x85BE])]),
  (0x83, [
    (0x831F, [0x7B46]), (0x8327, [0x7E6D]), (0x8345, [0x7B54]), (0x8350, [0x85A6]), (0x8363, [0x6804]), (0x836F, [0x85AC]),
    (0x838A, [0x8358]), (0x8396, [0x830E]), (0x83AD, [0x7BC0]), (0x83B2, [0x84EE]), (0x83B7, [0x7372]), (0x83B9, [0x7469]),
    (0x83BE, [0x83BD]), (0x83C4, [0x6771]), (0x83CF, [0x8377]), (0x83EB, [0x84F3])]),
  (0x84, [
    (0x841D, [0x863F]), (0x8424, [0x86CD]), (0x8425, [0x55B6]), (0x842C, [0x4E07]), (0x8445, [0x83F9]), (0x8462, [0x84CB]),
    (0x846F, [0x85AC]), (0x8483, [0x7BC6]), (0x84DD, [0x85CD])]),
  (0x85, [
    (0x853A, [0x85FA]), (0x8545, [0x6F2B]), (0x85B0, [0x85AB]), (0x85BB, [0x85FB]), (0x85CF, [0x8535]), (0x85DD, [0x82B8]),
    (0x85E5, [0x85AC])]),
  (0x86, [
    (0x8606, [0x82A6]), (0x860D, [0x85AB]), (0x861C, [0x83CA]), (0x8640, [0x97F2]), (0x864F, [0x865C]), (0x8651, [0x616E]),
    (0x8655, [0x51E6]), (0x865B, [0x865A]), (0x865D, [0x864E]), (0x865F, [0x53F7]), (0x8689, [0x868A]), (0x86D3, [0x8786])]),
  (0x87, [
    (0x8728, [0x8776]), (0x8735, [0x870E]), (0x876B, [0x870D]), (0x878E, [0x878D]), (0x87A1, [0x868A]), (0x87A2, [0x86CD]),
    (0x87C1, [0x868A]), (0x87F2, [0x866B])]),
  (0x88, [
    (0x8829, [0x870D]), (0x8836, [0x8695]), (0x883B, [0x86EE]), (0x8854, [0x8858]), (0x885E, [0x885B]), (0x8864, [0x8863]),
    (0x8865, [0x88DC]), (0x88AD, [0x8972]), (0x88DD, [0x88C5]), (0x88E1, [0x88CF]), (0x88F5, [0x88F4])]),
  (0x89, [
    (0x8943, [0x8912]), (0x894D, [0x96D1]), (0x8988, [0x6838]), (0x8997, [0x4F3A]), (0x899C, [0x773A]), (0x89BA, [0x899A]),
    (0x89BD, [0x89A7]), (0x89C0, [0x89B3]), (0x89C1, [0x898B]), (0x89C2, [0x89B3]), (0x89C4, [0x898F]), (0x89C6, [0x8996]),
    (0x89C8, [0x89A7]), (0x89C9, [0x899A]), (0x89E7, [0x89E3]), (0x89F8, [0x89E6])]),
  (0x8A, [
    (0x8A2B, [0x4FE1]), (0x8A76, [0x916C]), (0x8A78, [0x8B0E]), (0x8A7A, [0x9298]), (0x8A8A, [0x8B04]), (0x8AAA, [0x8AAC]),
    (0x8AE9, [0x8B5C])]),
  (0x8B, [
    (0x8B20, [0x8B21]), (0x8B3F, [0x5632]), (0x8B49, [0x8A3C]), (0x8B4D, [0x5FDC]), (0x8B6F, [0x8A33]), (0x8B71, [0x5584]),
    (0x8B7D, [0x8A89]), (0x8B80, [0x8AAD]), (0x8B8A, [0x5909]), (0x8B8E, [0x8B90]), (0x8B93, [0x8B72]), (0x8BA0, [0x8A00]),
    (0x8BA1, [0x8A08]), (0x8BA2, [0x8A02]), (0x8BA3, [0x8A03]), (0x8BA4, [0x8A8D]), (0x8BA8, [0x8A0E]), (0x8BA9, [0x8B72]),
    (0x8BAC, [0x8A17]), (0x8BAD, [0x8A13]), (0x8BAE, [0x8B70]), (0x8BB0, [0x8A18]), (0x8BB2, [0x8B1B]), (0x8BB8, [0x8A31]),
    (0x8BBA, [0x8AD6]), (0x8BBC, [0x8A1F]), (0x8BBE, [0x8A2D]), (0x8BBF, [0x8A2A]), (0x8BC1, [0x8A3C]), (0x8BC4, [0x8A55]),
    (0x8BC6, [0x8B58]), (0x8BC8, [0x8A50]), (0x8BC9, [0x8A34]), (0x8BCA, [0x8A3A]), (0x8BCD, [0x8A5E]), (0x8BCF, [0x8A54]),
    (0x8BD1, [0x8A33]), (0x8BD5, [0x8A66]), (0x8BD7, [0x8A69]), (0x8BD8, [0x8A70]), (0x8BDA, [0x8AA0]), (0x8BDD, [0x8A71]),
    (0x8BDE, [0x8A95]), (0x8BE0, [0x8A6E]), (0x8BE3, [0x8A63]), (0x8BE5, [0x8A72]), (0x8BE6, [0x8A73]), (0x8BED, [0x8A9E]),
    (0x8BEF, [0x8AA4]), (0x8BF1, [0x8A98]), (0x8BF4, [0x8AAC]), (0x8BF7, [0x8ACB]), (0x8BF8, [0x8AF8]), (0x8BFA, [0x8AFE]),
    (0x8BFB, [0x8AAD]), (0x8BFE, [0x8AB2])]),
  (0x8C, [
    (0x8C01, [0x8AB0]), (0x8C03, [0x8ABF]), (0x8C08, [0x8AC7]), (0x8C0B, [0x8B00]), (0x8C10, [0x8AE7]), (0x8C12, [0x8B01]),
    (0x8C15, [0x8AED]), (0x8C18, [0x8AEE]), (0x8C1B, [0x8AE6]), (0x8C1C, [0x8B0E]), (0x8C22, [0x8B1D]), (0x8C23, [0x8B21]),
    (0x8C26, [0x8B19]), (0x8C28, [0x8B39]), (0x8C31, [0x8B5C]), (0x8C50, [0x8C4A]), (0x8C53, [0x8276]), (0x8C54, [0x8276]),
    (0x8C63, [0x8C5C]), (0x8C6B, [0x4E88]), (0x8C6C, [0x732A]), (0x8C93, [0x732B]), (0x8C9F, [0x54E1]), (0x8CA3, [0x8CB8]),
    (0x8CAD, [0x8CEA]), (0x8CAE, [0x5F10]), (0x8CB3, [0x5F10]), (0x8CE3, [0x58F2]), (0x8CF4, [0x983C])]),
  (0x8D, [
    (0x8D01, [0x6557]), (0x8D0A, [0x8CDB]), (0x8D11, [0x8D1B]), (0x8D12, [0x8CE2]), (0x8D1D, [0x8C9D]), (0x8D1E, [0x8C9E]),
    (0x8D1F, [0x8CA0]), (0x8D21, [0x8CA2]), (0x8D22, [0x8CA1]), (0x8D23, [0x8CAC]), (0x8D24, [0x8CE2]), (0x8D25, [0x6557]),
    (0x8D27, [0x8CA8]), (0x8D28, [0x8CEA]), (0x8D29, [0x8CA9]), (0x8D2A, [0x8CAA]), (0x8D2B, [0x8CA7]), (0x8D2D, [0x8CFC]),
    (0x8D2E, [0x8CAF]), (0x8D2F, [0x8CAB]), (0x8D30, [0x5F10]), (0x8D32, [0x8CC1]), (0x8D34, [0x8CBC]), (0x8D35, [0x8CB4]),
    (0x8D37, [0x8CB8]), (0x8D38, [0x8CBF]), (0x8D39, [0x8CBB]), (0x8D3A, [0x8CC0]), (0x8D3C, [0x8CCA]), (0x8D3F, [0x8CC4]),
    (0x8D41, [0x8CC3]), (0x8D42, [0x8CC2]), (0x8D44, [0x8CC7]), (0x8D4B, [0x8CE6]), (0x8D4C, [0x8CED]), (0x8D4F, [0x8CDE]),
    (0x8D50, [0x8CDC]), (0x8D54, [0x8CE0]), (0x8D56, [0x983C]), (0x8D5E, [0x8CDB]), (0x8D60, [0x8D08]), (0x8D63, [0x8D1B]),
    (0x8DAB, [0x8D85]), (0x8DC3, [0x8E8D])]),
  (0x8E, [
    (0x8E08, [0x758E]), (0x8E10, [0x8DF5]), (0x8E28, [0x8E2A]), (0x8E34, [0x8E0A]), (0x8E64, [0x8E2A]), (0x8EB0, [0x4F53]),
    (0x8EC4, [0x8077]), (0x8EC6, [0x4F53]), (0x8EF0, [0x8F29])]),
  (0x8F, [
    (0x8F15, [0x8EFD]), (0x8F2D, [0x8EDF]), (0x8F49, [0x8EE2]), (0x8F66, [0x8ECA]), (0x8F68, [0x8ECC]), (0x8F69, [0x8ED2]),
    (0x8F6B, [0x8ED4]), (0x8F6C, [0x8EE2]), (0x8F6E, [0x8F2A]), (0x8F6F, [0x8EDF]), (0x8F74, [0x8EF8]), (0x8F7B, [0x8EFD]),
    (0x8F7D, [0x8F09]), (0x8F83, [0x8F03]), (0x8F88, [0x8F29]), (0x8F89, [0x8F1D]), (0x8F90, [0x8F3B]), (0x8F93, [0x8F38]),
    (0x8F96, [0x8F44]), (0x8F9D, [0x8F9E]), (0x8FA2, [0x8FA3]), (0x8FA4, [0x8F9E]), (0x8FA8, [0x5F01]), (0x8FA9, [0x5F01]),
    (0x8FAC, [0x6591]), (0x8FAD, [0x8F9E]), (0x8FAF, [0x5F01]), (0x8FB9, [0x8FBA]), (0x8FBD, [0x907C]), (0x8FBE, [0x9054]),
    (0x8FC1, [0x9077]), (0x8FC7, [0x904E]), (0x8FCA, [0x8FCE]), (0x8FD0, [0x904B]), (0x8FD8, [0x9084]), (0x8FDB, [0x9032]),
    (0x8FDC, [0x9060]), (0x8FDD, [0x9055]), (0x8FDE, [0x9023]), (0x8FDF, [0x9045]), (0x8FE0, [0x5EFA]), (0x8FEC, [0x5F80]),
    (0x8FEF, [0x9003]), (0x8FF9, [0x8DE1])]),
  (0x90, [
    (0x9002, [0x9069]), (0x9009, [0x9078]), (0x900A, [0x905C]), (0x9012, [0x9013]), (0x9029, [0x5954]), (0x903A, [0x9060]),
    (0x9040, [0x968F]), (0x9049, [0x5075]), (0x9057, [0x907A]), (0x905E, [0x9013]), (0x9072, [0x9045]), (0x9089, [0x8FBA]),
    (0x908A, [0x8FBA]), (0x90A8, [0x6751]), (0x90AE, [0x90F5]), (0x90BB, [0x96A3]), (0x90C4, [0x9699]), (0x90DE, [0x90CE])]),
  (0x91, [
    (0x9109, [0x90F7]), (0x910A, [0x90F7]), (0x9115, [0x90F7]), (0x9130, [0x96A3]), (0x9167, [0x916C]), (0x917F, [0x91B8]),
    (0x9189, [0x9154]), (0x91AB, [0x533B]), (0x91BB, [0x916C]), (0x91C0, [0x91B8]), (0x91CA, [0x91C8]), (0x91CB, [0x91C8]),
    (0x91E1, [0x91DC])]),
  (0x92, [
    (0x9206, [0x925B]), (0x921B, [0x934B]), (0x921F, [0x91E3]), (0x9292, [0x9203]), (0x929C, [0x8858]), (0x92B3, [0x92ED]),
    (0x92EA, [0x8217])]),
  (0x93, [
    (0x9304, [0x9332]), (0x9322, [0x92AD]), (0x934A, [0x932C]), (0x939A, [0x9318]), (0x939C, [0x76E4]), (0x93A0, [0x92FC]),
    (0x93AD, [0x93AE]), (0x93BB, [0x9396])]),
  (0x94, [
    (0x941F, [0x9415]), (0x9435, [0x9244]), (0x9444, [0x92F3]), (0x945B, [0x9271]), (0x9473, [0x9375]), (0x9488, [0x91DD]),
    (0x9493, [0x91E3]), (0x9498, [0x9203]), (0x949D, [0x920D]), (0x94A2, [0x92FC]), (0x94B1, [0x92AD]), (0x94B5, [0x9262]),
    (0x94B9, [0x9238]), (0x94C1, [0x9244]), (0x94C3, [0x9234]), (0x94C5, [0x925B]), (0x94CF, [0x9276]), (0x94DC, [0x9285]),
    (0x94E3, [0x9291]), (0x94ED, [0x9298]), (0x94F3, [0x9283]), (0x94F6, [0x9280]), (0x94F8, [0x92F3]), (0x94FA, [0x8217])]),
  (0x95, [
    (0x9501, [0x9396]), (0x9505, [0x934B]), (0x9510, [0x92ED]), (0x9519, [0x932F]), (0x9522, [0x932E]), (0x9524, [0x9318]),
    (0x9526, [0x9326]), (0x952D, [0x9320]), (0x952E, [0x9375]), (0x953B, [0x935B]), (0x9547, [0x93AE]), (0x955C, [0x93E1]),
    (0x956A, [0x93F9]), (0x9578, [0x9577]), (0x957F, [0x9577]), (0x9587, [0x9589]), (0x959E, [0x95A2]), (0x95B1, [0x95B2]),
    (0x95B7, [0x6BBA]), (0x95D7, [0x95A2]), (0x95DC, [0x95A2]), (0x95E8, [0x9580]), (0x95ED, [0x9589]), (0x95EE, [0x554F]),
    (0x95F2, [0x9591]), (0x95F4, [0x9593]), (0x95F8, [0x9598]), (0x95FB, [0x805E])]),
  (0x96, [
    (0x9600, [0x95A5]), (0x9601, [0x95A3]), (0x9605, [0x95B2]), (0x960A, [0x95B6]), (0x961F, [0x968A]), (0x9633, [0x967D]),
    (0x9634, [0x9670]), (0x9635, [0x9663]), (0x9636, [0x968E]), (0x9645, [0x969B]), (0x9646, [0x9678]), (0x9648, [0x9673]),
    (0x9669, [0x967A]), (0x9677, [0x9665]), (0x967F, [0x72ED]), (0x9684, [0x5824]), (0x9690, [0x96A0]), (0x969F, [0x9699]),
    (0x96A8, [0x968F]), (0x96AA, [0x967A]), (0x96B1, [0x96A0]), (0x96B6, [0x96B7]), (0x96B8, [0x96B7]), (0x96BA, [0x9DB4]),
    (0x96BE, [0x96E3]), (0x96D9, [0x53CC]), (0x96DC, [0x96D1]), (0x96DE, [0x9D8F]), (0x96DF, [0x5DB2]), (0x96E0, [0x8B90]),
    (0x96E7, [0x96C6]), (0x96FA, [0x9727]), (0x96FE, [0x9727])]),
  (0x97, [
    (0x9717, [0x96F6]), (0x971A, [0x9727]), (0x971B, [0x970A]), (0x9736, [0x6EC2]), (0x9738, [0x8987]), (0x9748, [0x970A]),
    (0x9751, [0x9752]), (0x975C, [0x9759]), (0x9775, [0x7D10]), (0x9795, [0x786C]), (0x97BE, [0x9774]), (0x97DB, [0x97B4]),
    (0x97E9, [0x97D3]), (0x97F5, [0x97FB])]),
  (0x98, [
    (0x980B, [0x9867]), (0x981F, [0x984D]), (0x984F, [0x9854]), (0x986F, [0x9855]), (0x9876, [0x9802]), (0x9877, [0x9803]),
    (0x9879, [0x9805]), (0x987A, [0x9806]), (0x987B, [0x9808]), (0x987D, [0x9811]), (0x987E, [0x9867]), (0x987F, [0x9813]),
    (0x9881, [0x9812]), (0x9884, [0x9810]), (0x9886, [0x9818]), (0x988A, [0x9830]), (0x9891, [0x983B]), (0x9898, [0x984C]),
    (0x989A, [0x984E]), (0x989C, [0x9854]), (0x989D, [0x984D]), (0x98B1, [0x53F0]), (0x98CE, [0x98A8]), (0x98DC, [0x7FFB]),
    (0x98DE, [0x98DB]), (0x98EC, [0x990A]), (0x98EE, [0x98F2]), (0x98F0, [0x98EF])]),
  (0x99, [
    (0x9901, [0x98EA]), (0x991D, [0x98FE]), (0x9920, [0x9905]), (0x9939, [0x7CD6]), (0x9951, [0x98E2]), (0x9963, [0x98DF]),
    (0x9965, [0x98E2]), (0x996A, [0x98EA]), (0x996D, [0x98EF]), (0x996E, [0x98F2]), (0x9970, [0x98FE]), (0x9971, [0x98FD]),
    (0x9972, [0x98FC]), (0x9975, [0x990C]), (0x997C, [0x9905]), (0x997F, [0x9913]), (0x9986, [0x9928]), (0x99B1, [0x99C4]),
    (0x99C8, [0x99C6]), (0x99E1, [0x7F75]), (0x99E6, [0x9A30])]),
  (0x9A, [
    (0x9A10, [0x9A13]), (0x9A37, [0x9A12]), (0x9A45, [0x99C6]), (0x9A57, [0x9A13]), (0x9A5B, [0x99C5]), (0x9A6C, [0x99AC]),
    (0x9A6E, [0x99C4]), (0x9A71, [0x99C6]), (0x9A79, [0x99D2]), (0x9A7B, [0x99D0]), (0x9A7F, [0x99C5]), (0x9A82, [0x7F75]),
    (0x9A86, [0x99F1]), (0x9A8C, [0x9A13]), (0x9A91, [0x9A0E]), (0x9A9A, [0x9A12]), (0x9AD3, [0x9AC4]), (0x9AD4, [0x4F53]),
    (0x9AD9, [0x9AD8]), (0x9AE3, [0x5023]), (0x9AEE, [0x9AEA])]),
  (0x9B, [
    (0x9B25, [0x95D8]), (0x9B2A, [0x95D8]), (0x9B2D, [0x95D8])]),
  (0x9C, [
    (0x9C7C, [0x9B5A]), (0x9C9C, [0x9BAE]), (0x9CB8, [0x9BE8]), (0x9CDE, [0x9C57])]),
  (0x9D, [
    (0x9DC4, [0x9D8F])]),
  (0x9E, [
    (0x9E16, [0x9DB4]), (0x9E1F, [0x9CE5]), (0x9E21, [0x9D8F]), (0x9E23, [0x9CF4]), (0x9E64, [0x9DB4]), (0x9E7D, [0x5869]),
    (0x9E90, [0x9E9F]), (0x9EA2, [0x7F9A]), (0x9EA5, [0x9EA6]), (0x9EAA, [0x9EBA]), (0x9EAB, [0x9EBA]), (0x9EB5, [0x9EBA]),
    (0x9EC3, [0x9EC4]), (0x9ED1, [0x9ED2]), (0x9ED8, [0x9ED9]), (0x9EDE, [0x70B9]), (0x9EE8, [0x515A]), (0x9EFE, [0x9EFD])]),
  (0x9F, [
    (0x9F05, [0x8718]), (0x9F14, [0x9F13]), (0x9F45, [0x55C5]), (0x9F4A, [0x6589]), (0x9F4B, [0x658E]), (0x9F4F, [0x97F2]),
    (0x9F50, [0x6589]), (0x9F51, [0x97F2]), (0x9F52, [0x6B6F]), (0x9F61, [0x9F62]), (0x9F7F, [0x6B6F]), (0x9F84, [0x9F62]),
    (0x9F8D, [0x7ADC]), (0x9F99, [0x7ADC]), (0x9F9C, [0x4E80]), (0x9F9F, [0x4E80])]),
  (0xF9, [
    (0xF901, [0x66F4]), (0xF902, [0x8ECA]), (0xF904, [0x6ED1]), (0xF905, [0x4E32]), (0xF906, [0x53E5]), (0xF907, [0x4E80]),
    (0xF908, [0x4E80]), (0xF909, [0x5951]), (0xF90A, [0x91D1]), (0xF90B, [0x5587]), (0xF90C, [0x5948]), (0xF90D, [0x61F6]),
    (0xF90F, [0x7F85]), (0xF910, [0x863F]), (0xF911, [0x87BA]), (0xF914, [0x697D]), (0xF915, [0x6D1B]), (0xF919, [0x916A]),
    (0xF91A, [0x99F1]), (0xF91B, [0x4E71]), (0xF91C, [0x5375]), (0xF91D, [0x6B04]), (0xF91F, [0x862D]), (0xF921, [0x5D50]),
    (0xF922, [0x6FEB]), (0xF923, [0x85CD]), (0xF928, [0x5ECA]), (0xF929, [0x6717]), (0xF92A, [0x6D6A]), (0xF92B, [0x72FC]),
    (0xF92C, [0x90CE]), (0xF92D, [0x6765]), (0xF92E, [0x51B7]), (0xF92F, [0x52B4]), (0xF932, [0x7089]), (0xF934, [0x8001]),
    (0xF935, [0x82A6]), (0xF936, [0x865C]), (0xF937, [0x8DEF]), (0xF93B, [0x788C]), (0xF93D, [0x7DD1]), (0xF93F, [0x9332]),
    (0xF940, [0x9E7F]), (0xF941, [0x8AD6]), (0xF943, [0x5F04]), (0xF944, [0x7C60]), (0xF948, [0x8CC2]), (0xF949, [0x96F7]),
    (0xF94A, [0x5841]), (0xF94C, [0x697C]), (0xF94D, [0x6D99]), (0xF94F, [0x7D2F]), (0xF956, [0x7A1C]), (0xF958, [0x83F1]),
    (0xF959, [0x9675]), (0xF95A, [0x8AAD]), (0xF95C, [0x697D]), (0xF95D, [0x8AFE]), (0xF95E, [0x4E39]), (0xF95F, [0x5BE7]),
    (0xF960, [0x6012]), (0xF961, [0x7387]), (0xF962, [0x7570]), (0xF963, [0x5317]), (0xF965, [0x4FBF]), (0xF966, [0x5FA9]),
    (0xF967, [0x4E0D]), (0xF968, [0x6CCC]), (0xF969, [0x6570]), (0xF96A, [0x7D22]), (0xF96B, [0x53C2]), (0xF96D, [0x7701]),
    (0xF96E, [0x8449]), (0xF96F, [0x8AAC]), (0xF970, [0x6BBA]), (0xF972, [0x6C88]), (0xF973, [0x62FE]), (0xF974, [0x82E5]),
    (0xF977, [0x4EAE]), (0xF978, [0x4E21]), (0xF979, [0x6DBC]), (0xF97B, [0x7CE7]), (0xF97C, [0x826F]), (0xF97E, [0x91CF]),
    (0xF97F, [0x52B1]), (0xF980, [0x5442]), (0xF981, [0x5973]), (0xF983, [0x65C5]), (0xF988, [0x9E97]), (0xF98A, [0x529B]),
    (0xF98B, [0x66A6]), (0xF98C, [0x6B74]), (0xF98E, [0x5E74]), (0xF98F, [0x601C]), (0xF990, [0x604B]), (0xF995, [0x5E74]),
    (0xF996, [0x7DF4]), (0xF999, [0x84EE]), (0xF99A, [0x9023]), (0xF99B, [0x932C]), (0xF99C, [0x5217]), (0xF99D, [0x52A3]),
    (0xF99E, [0x54BD]), (0xF99F, [0x70C8]), (0xF9A0, [0x88C2]), (0xF9A1, [0x8AAC]), (0xF9A2, [0x5EC9]), (0xF9A3, [0x5FF5]),
    (0xF9A4, [0x637B]), (0xF9A7, [0x731F]), (0xF9A8, [0x4EE4]), (0xF9A9, [0x56F9]), (0xF9AA, [0x5BE7]), (0xF9AB, [0x5DBA]),
    (0xF9AC, [0x601C]), (0xF9AD, [0x73B2]), (0xF9AE, [0x7469]), (0xF9AF, [0x7F9A]), (0xF9B0, [0x8046]), (0xF9B1, [0x9234]),
    (0xF9B2, [0x96F6]), (0xF9B3, [0x970A]), (0xF9B4, [0x9818]), (0xF9B5, [0x4F8B]), (0xF9B6, [0x793C]), (0xF9B7, [0x91B4]),
    (0xF9B8, [0x96B7]), (0xF9B9, [0x60AA]), (0xF9BA, [0x4E86]), (0xF9BB, [0x50DA]), (0xF9BC, [0x5BEE]), (0xF9BD, [0x5C3F]),
    (0xF9BE, [0x6599]), (0xF9BF, [0x697D]), (0xF9C0, [0x71CE]), (0xF9C1, [0x7642]), (0xF9C2, [0x84FC]), (0xF9C3, [0x907C]),
    (0xF9C4, [0x7ADC]), (0xF9C5, [0x6688]), (0xF9C6, [0x962E]), (0xF9C7, [0x5289]), (0xF9C9, [0x67F3]), (0xF9CA, [0x6D41]),
    (0xF9CB, [0x6E9C]), (0xF9CC, [0x7409]), (0xF9CD, [0x7559]), (0xF9CE, [0x786B]), (0xF9CF, [0x7D10]), (0xF9D0, [0x985E]),
    (0xF9D1, [0x516D]), (0xF9D2, [0x622E]), (0xF9D3, [0x9678]), (0xF9D4, [0x502B]), (0xF9D5, [0x5D19]), (0xF9D6, [0x6DEA]),
    (0xF9D7, [0x8F2A]), (0xF9D8, [0x5F8B]), (0xF9D9, [0x6144]), (0xF9DA, [0x6817]), (0xF9DB, [0x7387]), (0xF9DC, [0x9686]),
    (0xF9DD, [0x5229]), (0xF9DE, [0x540F]), (0xF9DF, [0x5C65]), (0xF9E0, [0x6613]), (0xF9E1, [0x674E]), (0xF9E2, [0x68A8]),
    (0xF9E3, [0x6CE5]), (0xF9E4, [0x7406]), (0xF9E5, [0x75E2]), (0xF9E6, [0x7F79]), (0xF9E7, [0x88CF]), (0xF9E8, [0x88CF]),
    (0xF9E9, [0x91CC]), (0xF9EA, [0x96E2]), (0xF9EB, [0x533F]), (0xF9EC, [0x6EBA]), (0xF9ED, [0x541D]), (0xF9EE, [0x71D0]),
    (0xF9EF, [0x7498]), (0xF9F0, [0x85FA]), (0xF9F1, [0x96A3]), (0xF9F2, [0x9C57]), (0xF9F3, [0x9E9F]), (0xF9F4, [0x6797]),
    (0xF9F5, [0x6DCB]), (0xF9F6, [0x81E8]), (0xF9F7, [0x7ACB]), (0xF9F8, [0x7B20]), (0xF9F9, [0x7C92]), (0xF9FA, [0x72B6]),
    (0xF9FB, [0x7099]), (0xF9FC, [0x8B58]), (0xF9FD, [0x4EC0]), (0xF9FE, [0x8336]), (0xF9FF, [0x523A])]),
  (0xFA, [
    (0xFA00, [0x5207]), (0xFA01, [0x5EA6]), (0xFA02, [0x62D3]), (0xFA03, [0x7CD6]), (0xFA04, [0x5B85]), (0xFA05, [0x6D1E]),
    (0xFA06, [0x66B4]), (0xFA07, [0x8F3B]), (0xFA08, [0x884C]), (0xFA09, [0x964D]), (0xFA0A, [0x898B]), (0xFA0B, [0x5ED3]),
    (0xFA0C, [0x5140]), (0xFA10, [0x585A]), (0xFA11, [0x5D0E]), (0xFA12, [0x6674]), (0xFA15, [0x7199]), (0xFA16, [0x732A]),
    (0xFA17, [0x76CA]), (0xFA18, [0x793C]), (0xFA19, [0x795E]), (0xFA1A, [0x7965]), (0xFA1B, [0x798F]), (0xFA1C, [0x9756]),
    (0xFA1D, [0x7CBE]), (0xFA1E, [0x7FBD]), (0xFA22, [0x8AF8]), (0xFA25, [0x9038]), (0xFA26, [0x90FD]), (0xFA2A, [0x98EF]),
    (0xFA2B, [0x98FC]), (0xFA2C, [0x9928]), (0xFA2D, [0x9DB4]), (0xFA2E, [0x90CE]), (0xFA2F, [0x96B7]), (0xFA30, [0x4FAE]),
    (0xFA31, [0x50E7]), (0xFA32, [0x514D]), (0xFA33, [0x52C9]), (0xFA34, [0x52E4]), (0xFA35, [0x5351]), (0xFA36, [0x559D]),
    (0xFA37, [0x5606]), (0xFA38, [0x5668]), (0xFA39, [0x5840]), (0xFA3A, [0x58A8]), (0xFA3B, [0x5C64]), (0xFA3C, [0x5C6E]),
    (0xFA3D, [0x6094]), (0xFA3E, [0x6168]), (0xFA3F, [0x618E]), (0xFA40, [0x61F2]), (0xFA41, [0x654F]), (0xFA42, [0x65E2]),
    (0xFA43, [0x6691]), (0xFA44, [0x6885]), (0xFA45, [0x6D77]), (0xFA46, [0x6E1A]), (0xFA47, [0x6F22]), (0xFA48, [0x716E]),
    (0xFA4A, [0x7422]), (0xFA4B, [0x7891]), (0xFA4C, [0x793E]), (0xFA4D, [0x7949]), (0xFA4E, [0x7948]), (0xFA4F, [0x7950]),
    (0xFA50, [0x7956]), (0xFA51, [0x795D]), (0xFA52, [0x798D]), (0xFA53, [0x798E]), (0xFA54, [0x7A40]), (0xFA55, [0x7A81]),
    (0xFA56, [0x7BC0]), (0xFA57, [0x7DF4]), (0xFA58, [0x7E09]), (0xFA59, [0x7E41]), (0xFA5A, [0x7F72]), (0xFA5B, [0x8005]),
    (0xFA5C, [0x81ED]), (0xFA5D, [0x8279]), (0xFA5E, [0x8279]), (0xFA5F, [0x8457]), (0xFA60, [0x8910]), (0xFA61, [0x8996]),
    (0xFA62, [0x8B01]), (0xFA63, [0x8B39]), (0xFA64, [0x8CD3]), (0xFA65, [0x8D08]), (0xFA66, [0x8FB6]), (0xFA67, [0x9038]),
    (0xFA68, [0x96E3]), (0xFA69, [0x97FF]), (0xFA6A, [0x983B]), (0xFA6B, [0x6075]), (0xFA6C, [0x7199]), (0xFA6D, [0x9928]),
    (0xFA70, [0x4E26]), (0xFA71, [0x6CC1]), (0xFA72, [0x5168]), (0xFA74, [0x5145]), (0xFA75, [0x5180]), (0xFA76, [0x52C7]),
    (0xFA77, [0x52FA]), (0xFA78, [0x559D]), (0xFA7A, [0x5599]), (0xFA7C, [0x585A]), (0xFA7D, [0x58B3]), (0xFA7E, [0x5944]),
    (0xFA7F, [0x5954]), (0xFA80, [0x5A62]), (0xFA84, [0x5F69]), (0xFA85, [0x5FAD]), (0xFA86, [0x60D8]), (0xFA87, [0x614E]),
    (0xFA88, [0x6108]), (0xFA89, [0x618E]), (0xFA8B, [0x61F2]), (0xFA8C, [0x6234]), (0xFA8D, [0x63C4]), (0xFA8E, [0x635C]),
    (0xFA90, [0x6556]), (0xFA91, [0x6674]), (0xFA92, [0x6717]), (0xFA93, [0x671B]), (0xFA94, [0x6756]), (0xFA95, [0x6B79]),
    (0xFA96, [0x6BBA]), (0xFA97, [0x6D41]), (0xFA98, [0x6DEB]), (0xFA99, [0x6ECB]), (0xFA9A, [0x6F22]), (0xFA9B, [0x701E]),
    (0xFA9C, [0x716E]), (0xFA9D, [0x77A7]), (0xFA9E, [0x7235]), (0xFA9F, [0x72AF]), (0xFAA0, [0x732A]), (0xFAA1, [0x7471]),
    (0xFAA2, [0x74F7]), (0xFAA3, [0x753B]), (0xFAA4, [0x761D]), (0xFAA5, [0x761F]), (0xFAA6, [0x76CA]), (0xFAA7, [0x76DB]),
    (0xFAA8, [0x76F4]), (0xFAA9, [0x774A]), (0xFAAA, [0x7740]), (0xFAAD, [0x7BC0]), (0xFAAE, [0x985E]), (0xFAAF, [0x7D5B]),
    (0xFAB0, [0x7DF4]), (0xFAB1, [0x74F6]), (0xFAB2, [0x8005]), (0xFAB3, [0x8352]), (0xFAB4, [0x83EF]), (0xFAB6, [0x8941]),
    (0xFAB7, [0x8986]), (0xFAB8, [0x8996]), (0xFAB9, [0x8ABF]), (0xFABA, [0x8AF8]), (0xFABB, [0x8ACB]), (0xFABC, [0x8B01]),
    (0xFABD, [0x8AFE]), (0xFABE, [0x8AED]), (0xFABF, [0x8B39]), (0xFAC0, [0x5909]), (0xFAC1, [0x8D08]), (0xFAC2, [0x8F38]),
    (0xFAC3, [0x9045]), (0xFAC5, [0x9276]), (0xFAC6, [0x967C]), (0xFAC7, [0x96E3]), (0xFAC8, [0x9756]), (0xFAC9, [0x97B4]),
    (0xFACA, [0x97FF]), (0xFACB, [0x9867]), (0xFACC, [0x983B]), (0xFACD, [0x9B12]), (0xFACE, [0x4E80]), (0xFAD4, [0x4039]),
    (0xFAD8, [0x9F43])])]

/-- The lengths of its pieces in ascending order. -/
def kanjiCuts : List Nat := [912]

/-- The rules of /repo/modules/inter/HANJA.txt in the order of the file: `01k 01v,01v..` as (k, [v, v..]), by the upper bytes of k.
(A first line `Source: ...`, which is not a comment, is left out here: see `Aside`.) -/
def hanja : Pages := [
  (0x211, [
    (0x211A1, [0x8D77])]),
  (0x220, [
    (0x2203D, [0x8D77])]),
  (0x224, [
    (0x22495, [0x8AF8])]),
  (0x24B, [
    (0x24B2E, [0x7501])]),
  (0x254, [
    (0x254CB, [0x784F])]),
  (0x262, [
    (0x26247, [0x7501])]),
  (0x279, [
    (0x279FF, [0x654E])]),
  (0x27D, [
    (0x27DB4, [0x8CED])]),
  (0x27E, [
    (0x27EAB, [0x8D77])]),
  (0x284, [
    (0x28453, [0x8D77]), (0x28454, [0x8D77]), (0x28456, [0x8D77])]),
  (0x286, [
    (0x286F7, [0x90FD])]),
  (0x287, [
    (0x28765, [0x90DE])]),
  (0x2F8, [
    (0x2F807, [0x5002]), (0x2F819, [0x6C37]), (0x2F82F, [0x537D]), (0x2F830, [0x537D]), (0x2F835, [0x7070]), (0x2F877, [0x5C60]),
    (0x2F88E, [0x5ECA]), (0x2F8CB, [0x65E3]), (0x2F8D8, [0x6717]), (0x2F8EA, [0x69EA])]),
  (0x2F9, [
    (0x2F940, [0x76F4]), (0x2F945, [0x771E]), (0x2F946, [0x771E]), (0x2F947, [0x771E]), (0x2F973, [0x7501]), (0x2F97A, [0x8005]),
    (0x2F9D7, [0x8D77])]),
  (0x35, [
    (0x3503, [0x7D76])]),
  (0x39, [
    (0x39BF, [0x6236])]),
  (0x3A, [
    (0x3A57, [0x643A]), (0x3A66, [0x643A])]),
  (0x3B, [
    (0x3BA3, [0x69EA])]),
  (0x43, [
    (0x4348, [0x7501])]),
  (0x4E, [
    (0x4E30, [0x8C4A]), (0x4E3A, [0x7232]), (0x4E3E, [0x64E7]), (0x4E61, [0x9115]), (0x4EA7, [0x7523]), (0x4ECC, [0x6C37])]),
  (0x4F, [
    (0x4F17, [0x8846]), (0x4F2A, [0x50DE]), (0x4F75, [0x5002]), (0x4FDE, [0x516A])]),
  (0x50, [
    (0x503C, [0x5024]), (0x507D, [0x50DE])]),
  (0x51, [
    (0x51AB, [0x6C37]), (0x51B0, [0x6C37])]),
  (0x53, [
    (0x5373, [0x537D]), (0x537B, [0x5374])]),
  (0x54, [
    (0x5434, [0x5433]), (0x5449, [0x5433])]),
  (0x55, [
    (0x5568, [0x60C5]), (0x55BB, [0x55A9])]),
  (0x59, [
    (0x591D, [0x6674]), (0x598D, [0x59F8]), (0x5992, [0x59AC])]),
  (0x5C, [
    (0x5C1A, [0x5C19])]),
  (0x5E, [
    (0x5E26, [0x5E36]), (0x5E2F, [0x5E36])]),
  (0x5F, [
    (0x5F37, [0x5F3A]), (0x5F4A, [0x5F3A]), (0x5F55, [0x9304]), (0x5F65, [0x5F66])]),
  (0x60, [
    (0x6046, [0x6052])]),
  (0x62, [
    (0x6237, [0x6236]), (0x6238, [0x6236])]),
  (0x63, [
    (0x6319, [0x64E7])]),
  (0x65, [
    (0x651C, [0x643A]), (0x6559, [0x654E]), (0x65E2, [0x65E3])]),
  (0x66, [
    (0x6602, [0x663B]), (0x6692, [0x6674]), (0x66F9, [0x66FA])]),
  (0x67, [
    (0x6716, [0x6717])]),
  (0x69, [
    (0x6982, [0x69EA])]),
  (0x6C, [
    (0x6C59, [0x6C5A]), (0x6C61, [0x6C5A])]),
  (0x6D, [
    (0x6DBC, [0x51C9])]),
  (0x6E, [
    (0x6E05, [0x6DF8]), (0x6E89, [0x6F11])]),
  (0x70, [
    (0x70BA, [0x7232])]),
  (0x74, [
    (0x74F6, [0x7501])]),
  (0x75, [
    (0x751C, [0x751B]), (0x7522, [0x7523]), (0x753B, [0x7575]), (0x756B, [0x7575])]),
  (0x76, [
    (0x7609, [0x6108]), (0x7652, [0x6108])]),
  (0x77, [
    (0x771F, [0x771E]), (0x773E, [0x8846])]),
  (0x78, [
    (0x7814, [0x784F])]),
  (0x7D, [
    (0x7D55, [0x7D76]), (0x7DD2, [0x7DD6])]),
  (0x7E, [
    (0x7E59, [0x98DC]), (0x7EDD, [0x7D76]), (0x7EEA, [0x7DD6])]),
  (0x7F, [
    (0x7F3E, [0x7501]), (0x7FFB, [0x98DC])]),
  (0x81, [
    (0x8173, [0x811A])]),
  (0x82, [
    (0x8209, [0x64E7])]),
  (0x88, [
    (0x88F4, [0x88F5])]),
  (0x8B, [
    (0x8BF7, [0x8ACB]), (0x8BF8, [0x8AF8])]),
  (0x8C, [
    (0x8C50, [0x8C4A]), (0x8C6C, [0x732A])]),
  (0x8D, [
    (0x8D4C, [0x8CED])]),
  (0x90, [
    (0x90BB, [0x96A3]), (0x90CE, [0x90DE]), (0x90F7, [0x9115])]),
  (0x91, [
    (0x9109, [0x9115]), (0x910A, [0x9115]), (0x9130, [0x96A3])]),
  (0x93, [
    (0x9332, [0x9304]), (0x93AE, [0x93AD])]),
  (0x95, [
    (0x9547, [0x93AD]), (0x95D8, [0x9B2A])]),
  (0x96, [
    (0x96DE, [0x9DC4])]),
  (0x97, [
    (0x9752, [0x9751]), (0x9759, [0x975C])]),
  (0x98, [
    (0x984F, [0x9854]), (0x989C, [0x9854])]),
  (0x99, [
    (0x9905, [0x9920]), (0x997C, [0x9920])]),
  (0x9B, [
    (0x9B25, [0x9B2A]), (0x9B2D, [0x9B2A])]),
  (0x9D, [
    (0x9D8F, [0x9DC4])]),
  (0x9E, [
    (0x9E21, [0x9DC4]), (0x9EC4, [0x9EC3])]),
  (0xF9, [
    (0xF928, [0x5ECA]), (0xF929, [0x6717]), (0xF92C, [0x90DE]), (0xF93F, [0x9304]), (0xF979, [0x51C9]), (0xF9F1, [0x96A3])]),
  (0xFA, [
    (0xFA12, [0x6674]), (0xFA16, [0x732A]), (0xFA1D, [0x7CBE]), (0xFA22, [0x8AF8]), (0xFA26, [0x90FD]), (0xFA2E, [0x90DE]),
    (0xFA3E, [0x6168]), (0xFA42, [0x65E3]), (0xFA5B, [0x8005]), (0xFA88, [0x6108]), (0xFA91, [0x6674]), (0xFA92, [0x6717]),
    (0xFAA0, [0x732A]), (0xFAA3, [0x7575]), (0xFAA8, [0x76F4]), (0xFAAA, [0x7740]), (0xFAB1, [0x7501]), (0xFAB2, [0x8005]),
    (0xFABA, [0x8AF8]), (0xFABB, [0x8ACB])])]

/-- The lengths of its pieces in ascending order. -/
def hanjaCuts : List Nat := [31]

/-- The rules of /repo/modules/inter/SUB.txt in the order of the file: `01k 01v,01v..` as (k, [v, v..]), by the upper bytes of k.
(A first line `Source: ...`, which is not a comment, is left out here: see `Aside`.) -/
def sub : Pages := [
  (0x3, [
    (0x3B2, [0x1D66]), (0x3B3, [0x1D67]), (0x3C1, [0x1D68]), (0x3C6, [0x1D69]), (0x3C7, [0x1D6A])]),
  (0x22, [
    (0x2212, [0x208B])]),
  (0x0, [
    (0x28, [0x208D]), (0x29, [0x208E]), (0x2B, [0x208A]), (0x30, [0x2080]), (0x31, [0x2081]), (0x32, [0x2082]),
    (0x33, [0x2083]), (0x34, [0x2084]), (0x35, [0x2085]), (0x36, [0x2086]), (0x37, [0x2087]), (0x38, [0x2088]),
    (0x39, [0x2089]), (0x3D, [0x208C]), (0x61, [0x2090]), (0x65, [0x2091]), (0x68, [0x2095]), (0x69, [0x1D62]),
    (0x6A, [0x2C7C]), (0x6B, [0x2096]), (0x6C, [0x2097]), (0x6D, [0x2098]), (0x6E, [0x2099]), (0x6F, [0x2092]),
    (0x70, [0x209A]), (0x72, [0x1D63]), (0x73, [0x209B]), (0x74, [0x209C]), (0x75, [0x1D64]), (0x76, [0x1D65]),
    (0x78, [0x2093])])]

/-- The lengths of its pieces in ascending order. -/
def subCuts : List Nat := [6]

/-- The rules of /repo/modules/inter/SUPER.txt in the order of the file: `01k 01v,01v..` as (k, [v, v..]), by the upper bytes of k.
(A first line `Source: ...`, which is not a comment, is left out here: see `Aside`.) -/
def super : Pages := [
  (0x1, [
    (0x126, [0xA7F8]), (0x14B, [0x1D51]), (0x153, [0xA7F9]), (0x18E, [0x1D32])]),
  (0x2, [
    (0x251, [0x1D45]), (0x254, [0x1D53]), (0x25B, [0x1D4B]), (0x266, [0x2B1]), (0x275, [0x1DB1]), (0x292, [0x1DBE])]),
  (0x3, [
    (0x3B2, [0x1D5D]), (0x3B3, [0x1D5E]), (0x3B4, [0x1D5F]), (0x3B8, [0x1DBF]), (0x3C6, [0x1D60]), (0x3C7, [0x1D61])]),
  (0x4, [
    (0x43D, [0x1D78]), (0x44A, [0xA69C]), (0x44C, [0xA69D])]),
  (0x10, [
    (0x10DC, [0x10FC])]),
  (0x22, [
    (0x2212, [0x207B])]),
  (0x0, [
    (0x28, [0x207D]), (0x29, [0x207E]), (0x2B, [0x207A])]),
  (0x2D, [
    (0x2D61, [0x2D6F])]),
  (0x0, [
    (0x30, [0x2070]), (0x31, [0xB9]), (0x32, [0xB2]), (0x33, [0xB3]), (0x34, [0x2074]), (0x35, [0x2075]),
    (0x36, [0x2076]), (0x37, [0x2077]), (0x38, [0x2078]), (0x39, [0x2079]), (0x3D, [0x207C]), (0x41, [0x1D2C]),
    (0x42, [0x1D2E]), (0x44, [0x1D30]), (0x45, [0x1D31]), (0x47, [0x1D33]), (0x48, [0x1D34]), (0x49, [0x1D35]),
    (0x4A, [0x1D36]), (0x4B, [0x1D37]), (0x4C, [0x1D38]), (0x4D, [0x1D39]), (0x4E, [0x1D3A]), (0x4F, [0x1D3C]),
    (0x50, [0x1D3E]), (0x52, [0x1D3F]), (0x54, [0x1D40]), (0x55, [0x1D41]), (0x56, [0x2C7D]), (0x57, [0x1D42]),
    (0x61, [0x1D43]), (0x61, [0xAA]), (0x62, [0x1D47]), (0x63, [0x1D9C]), (0x64, [0x1D48]), (0x65, [0x1D49]),
    (0x66, [0x1DA0]), (0x67, [0x1D4D]), (0x68, [0x2B0]), (0x69, [0x2071]), (0x6A, [0x2B2]), (0x6B, [0x1D4F]),
    (0x6C, [0x2E1]), (0x6D, [0x1D50]), (0x6E, [0x207F]), (0x6F, [0x1D52]), (0x6F, [0xBA]), (0x70, [0x1D56]),
    (0x72, [0x2B3]), (0x73, [0x2E2]), (0x74, [0x1D57]), (0x75, [0x1D58]), (0x76, [0x1D5B]), (0x77, [0x2B7]),
    (0x78, [0x2E3]), (0x79, [0x2B8]), (0x7A, [0x1DBB])]),
  (0xA7, [
    (0xA76F, [0xA770])]),
  (0x0, [
    (0xC6, [0x1D2D]), (0xF0, [0x1D9E])])]

/-- The lengths of its pieces in ascending order. -/
def superCuts : List Nat := [21, 4, 31, 15, 12]

end Verif.MapTable
