import Verif.Spec.MapTable
/-
Generated by tools/maptables.py from rule files of /repo/modules/inter.
-/
namespace Verif.MapTable
open Verif.Spec

set_option maxRecDepth 100000

/-- The rules of /repo/modules/inter/ZHCN.txt in the order of the file: `01k 01v,01v..` as (k, [v, v..]), by the upper bytes of k.
(A first line `Source: ...`, which is not a comment, is left out here: see `Aside`.) -/
def zhcn : Pages := [
  (0x200, [
    (0x20003, [0x4E14]), (0x2000B, [0x4E08]), (0x20019, [0x4E3D]), (0x2001A, [0x4E0D]), (0x20024, [0x5E76]), (0x20029, [0x6C40]),
    (0x2002C, [0x3401]), (0x20066, [0x4E2D]), (0x200A0, [0x91C6]), (0x200DE, [0x793C]), (0x200F8, [0x4E84])]),
  (0x201, [
    (0x20107, [0x916A]), (0x20108, [0x4E83]), (0x20121, [0x4E94]), (0x20162, [0x4EB3]), (0x20169, [0x5B70]), (0x20187, [0x5965]),
    (0x2018C, [0x5EB8]), (0x201B0, [0x4EC9]), (0x201BB, [0x4FD3]), (0x201DA, [0x7532]), (0x201FE, [0x4F11])]),
  (0x202, [
    (0x20201, [0x4EDB]), (0x20206, [0x5020]), (0x20208, [0x4F4C]), (0x2020E, [0x4F88]), (0x20213, [0x4FE9]), (0x20223, [0x8001]),
    (0x20229, [0x5082]), (0x20255, [0x4F7F]), (0x20256, [0x4F94]), (0x2026B, [0x4FC7]), (0x2026E, [0x5026]), (0x20293, [0x508D]),
    (0x20296, [0x4F8B]), (0x202A8, [0x50CE]), (0x202A9, [0x50DD]), (0x202AB, [0x4F9A]), (0x202B1, [0x5019]), (0x202B3, [0x4FBF]),
    (0x202B6, [0x5AB5]), (0x202BE, [0x777D]), (0x202D2, [0x547D]), (0x202DB, [0x8129]), (0x202E3, [0x501A]), (0x202F1, [0x50C1]),
    (0x202FC, [0x4FE3]), (0x202FD, [0x3493]), (0x202FF, [0x4FB3])]),
  (0x203, [
    (0x20320, [0x509C]), (0x2033C, [0x4EBF]), (0x2035F, [0x53EF]), (0x2036C, [0x502C]), (0x2036E, [0x5015]), (0x20377, [0x50F0]),
    (0x2037B, [0x4FE6]), (0x203A1, [0x506D]), (0x203B2, [0x5046]), (0x203BC, [0x50C4]), (0x203D7, [0x50DA]), (0x203EA, [0x34A0]),
    (0x203EC, [0x4FDC])]),
  (0x204, [
    (0x2041A, [0x4FEA]), (0x2041B, [0x5107]), (0x20427, [0x511A]), (0x20431, [0x501D]), (0x20433, [0x5122]), (0x2043F, [0x85A8]),
    (0x20472, [0x4F65]), (0x20479, [0x277E3]), (0x2047D, [0x5145]), (0x20486, [0x513F]), (0x204B0, [0x5B32]), (0x204B1, [0x50FB]),
    (0x204DB, [0x4EBC])]),
  (0x205, [
    (0x20540, [0x7F54]), (0x20545, [0x518D]), (0x20549, [0x7A74]), (0x2054B, [0x518C]), (0x2054D, [0x5B98]), (0x2056A, [0x9F0F]),
    (0x20575, [0x4EA2]), (0x205A0, [0x53E4]), (0x205B8, [0x51D4]), (0x205E7, [0x51D8])]),
  (0x206, [
    (0x20615, [0x7199]), (0x20621, [0x51DB]), (0x20624, [0x51B7]), (0x20632, [0x5927]), (0x20636, [0x5426]), (0x20652, [0x8D57]),
    (0x20675, [0x53E3]), (0x20678, [0x7518]), (0x20692, [0x9F7F]), (0x206B3, [0x520C]), (0x206C9, [0x34DE]), (0x206CE, [0x206B8]),
    (0x206D2, [0x5233]), (0x206EC, [0x5211]), (0x206EE, [0x5276])]),
  (0x207, [
    (0x20707, [0x523B]), (0x20713, [0x5254]), (0x2071F, [0x5248]), (0x20728, [0x52BE]), (0x20738, [0x5242]), (0x2073A, [0x5217]),
    (0x2073E, [0x5282]), (0x20765, [0x5232]), (0x20788, [0x28A39]), (0x20790, [0x5249]), (0x207AB, [0x523B]), (0x207FD, [0x5280])]),
  (0x208, [
    (0x20800, [0x350D]), (0x20803, [0x3510]), (0x20832, [0x529B]), (0x2086B, [0x52DA]), (0x20892, [0x3521]), (0x208A4, [0x61A0]),
    (0x208A5, [0x3517]), (0x208BF, [0x3523]), (0x208C1, [0x52B3]), (0x208C3, [0x52E5]), (0x208D9, [0x65EC]), (0x208DE, [0x519B]),
    (0x208E9, [0x7EA6]), (0x208F5, [0x5310])]),
  (0x209, [
    (0x20904, [0x208EE]), (0x20905, [0x3529]), (0x2092C, [0x531A]), (0x20966, [0x3534]), (0x20971, [0x6708]), (0x20983, [0x5345]),
    (0x20984, [0x5349]), (0x20987, [0x4EA5]), (0x20993, [0x4E15]), (0x209A3, [0x209AB]), (0x209B6, [0x9769]), (0x209DE, [0x5146]),
    (0x209E8, [0x548E]), (0x209E9, [0x6094]), (0x209EA, [0x5363])]),
  (0x20A, [
    (0x20A0D, [0x537F]), (0x20A10, [0x536C]), (0x20A1C, [0x537C]), (0x20A1E, [0x537F]), (0x20A2E, [0x4EC4]), (0x20A30, [0x5973]),
    (0x20A57, [0x20A66]), (0x20A5F, [0x8FB0]), (0x20A6F, [0x5B58]), (0x20A9E, [0x539D]), (0x20AA5, [0x539F]), (0x20AAA, [0x539C]),
    (0x20AEA, [0x516D])]),
  (0x20B, [
    (0x20B25, [0x20B22]), (0x20B3B, [0x5949]), (0x20B56, [0x6562]), (0x20B5E, [0x53D2]), (0x20B6E, [0x20B57]), (0x20BA2, [0x53F3]),
    (0x20BA6, [0x53EC]), (0x20BAF, [0x53F0]), (0x20BB7, [0x5409]), (0x20BC1, [0x8DB3]), (0x20BCD, [0x5465]), (0x20BD2, [0x5316]),
    (0x20BDE, [0x5467])]),
  (0x20C, [
    (0x20C5C, [0x5597]), (0x20C69, [0x541B]), (0x20C6F, [0x5750]), (0x20C8B, [0x89DC]), (0x20C8E, [0x5420]), (0x20CC1, [0x35A5]),
    (0x20CC5, [0x95EE]), (0x20CF7, [0x547F])]),
  (0x20D, [
    (0x20D01, [0x5474]), (0x20D1F, [0x54A9]), (0x20D2A, [0x5530]), (0x20D2E, [0x55B7]), (0x20D2F, [0x55A2]), (0x20D34, [0x20BD7]),
    (0x20D40, [0x5E08]), (0x20D41, [0x96E0]), (0x20D42, [0x5549]), (0x20D43, [0x5548]), (0x20D52, [0x5550]), (0x20D70, [0x54D3]),
    (0x20D72, [0x54FF]), (0x20D75, [0x5535]), (0x20DBA, [0x54FD]), (0x20DC3, [0x55D6]), (0x20DD5, [0x5439]), (0x20DF8, [0x5581])]),
  (0x20E, [
    (0x20E59, [0x55AB]), (0x20E5E, [0x557D]), (0x20ED4, [0x5671]), (0x20EDB, [0x55FE]), (0x20EE9, [0x8A82]), (0x20EEF, [0x54F3]),
    (0x20EF6, [0x55FC])]),
  (0x20F, [
    (0x20F15, [0x5457]), (0x20F62, [0x35D8]), (0x20F6C, [0x5462]), (0x20F7A, [0x569A]), (0x20F7F, [0x5471]), (0x20F85, [0x8981]),
    (0x20F96, [0x5668]), (0x20FC8, [0x557E]), (0x20FCA, [0x55AB]), (0x20FCC, [0x55C2]), (0x20FCD, [0x5538])]),
  (0x210, [
    (0x21012, [0x5610]), (0x21048, [0x2117C]), (0x21050, [0x55CC]), (0x21052, [0x55AB]), (0x21090, [0x56CB]), (0x21092, [0x4720]),
    (0x21096, [0x5667]), (0x210A2, [0x5604])]),
  (0x211, [
    (0x2113A, [0x560C]), (0x2113C, [0x8669]), (0x21157, [0x8669]), (0x2115B, [0x56B5]), (0x21170, [0x5608]), (0x2117F, [0x563E]),
    (0x211A1, [0x8D77]), (0x211BE, [0x518F]), (0x211C3, [0x9091]), (0x211CA, [0x5703]), (0x211E1, [0x76EE]), (0x211EA, [0x7A96])]),
  (0x212, [
    (0x21215, [0x5708]), (0x2122D, [0x72F1]), (0x21233, [0x21222]), (0x21239, [0x56FF]), (0x21243, [0x575C]), (0x21248, [0x5728]),
    (0x2125B, [0x572A]), (0x2125D, [0x57FA]), (0x2125F, [0x58EE]), (0x2126C, [0x577B]), (0x2128A, [0x2124F]), (0x212AE, [0x8881]),
    (0x212BA, [0x6D0B]), (0x212DD, [0x5791]), (0x212F2, [0x5750])]),
  (0x213, [
    (0x21331, [0x58BA]), (0x21367, [0x212EF]), (0x21369, [0x577C]), (0x213A9, [0x57C2]), (0x213B0, [0x5880]), (0x213B1, [0x5794]),
    (0x213B2, [0x81FA]), (0x213B9, [0x57D0]), (0x213C3, [0x366A])]),
  (0x214, [
    (0x21447, [0x582E]), (0x2144A, [0x57F5]), (0x2144F, [0x58D4]), (0x2145F, [0x7A9D]), (0x21462, [0x581E]), (0x2148B, [0x58BD]),
    (0x214A1, [0x9F16]), (0x214A3, [0x5890]), (0x214B0, [0x58AC])]),
  (0x215, [
    (0x21501, [0x5792]), (0x2151B, [0x58EC]), (0x21578, [0x5914]), (0x2157F, [0x5914]), (0x21582, [0x5914]), (0x21584, [0x5916]),
    (0x21589, [0x5375]), (0x2158A, [0x5919]), (0x21596, [0x537F]), (0x2159F, [0x87AD]), (0x215B7, [0x5924]), (0x215CC, [0x90FA]),
    (0x215D5, [0x4EA6]), (0x215DA, [0x95F9]), (0x215DD, [0x5937]), (0x215E0, [0x5185]), (0x215E8, [0x5943])]),
  (0x216, [
    (0x21605, [0x3696]), (0x21608, [0x54ED]), (0x21609, [0x3695]), (0x2161F, [0x2160D]), (0x2162B, [0x7A33]), (0x21637, [0x5957]),
    (0x2165C, [0x593A]), (0x2168C, [0x7ED3]), (0x21690, [0x596D]), (0x216A7, [0x59A3]), (0x216AE, [0x597A]), (0x216AF, [0x5AEE]),
    (0x216B6, [0x5984]), (0x216BA, [0x597F]), (0x216BC, [0x59FC]), (0x216BE, [0x59DD]), (0x216D0, [0x598E]), (0x216DD, [0x36D1]),
    (0x216E2, [0x5A69])]),
  (0x217, [
    (0x21704, [0x5A9F]), (0x21709, [0x5AA3]), (0x2171D, [0x59DB]), (0x21729, [0x59DE]), (0x21734, [0x59A0]), (0x21736, [0x59E1]),
    (0x2174A, [0x5A0E]), (0x21761, [0x3737]), (0x21769, [0x5996]), (0x21791, [0x5A38]), (0x217A1, [0x36CD]), (0x217A2, [0x5A14]),
    (0x217A4, [0x5AE5]), (0x217A8, [0x5A00]), (0x217E6, [0x5A1C]), (0x217F1, [0x59F0]), (0x217FD, [0x36D7])]),
  (0x218, [
    (0x21808, [0x5B4B]), (0x21810, [0x5A75]), (0x21814, [0x5A8A]), (0x2181B, [0x597B]), (0x2181C, [0x5AEB]), (0x2181D, [0x5AE2]),
    (0x2184D, [0x5AD9]), (0x2184F, [0x5A0B]), (0x21853, [0x5B03]), (0x21855, [0x3727]), (0x21879, [0x5AF3]), (0x2187F, [0x5AE1]),
    (0x21883, [0x5AFA]), (0x21889, [0x5B2C]), (0x21893, [0x5A32]), (0x2189A, [0x5ADA]), (0x218B2, [0x5AE7]), (0x218B4, [0x5AFD]),
    (0x218C3, [0x5AA6]), (0x218C6, [0x59A9]), (0x218CC, [0x5AF8]), (0x218EB, [0x5AFC]), (0x218F0, [0x5AF1]), (0x218F1, [0x5B1B]),
    (0x218F8, [0x5B48])]),
  (0x219, [
    (0x21900, [0x5998]), (0x2191A, [0x5AD6]), (0x21925, [0x5135]), (0x2192F, [0x5AD8]), (0x21931, [0x372E]), (0x21932, [0x3724]),
    (0x2193E, [0x5B59]), (0x2193F, [0x5B54]), (0x21946, [0x597D]), (0x21947, [0x5B5B]), (0x2195B, [0x6B8A]), (0x2195C, [0x5B57]),
    (0x21966, [0x5B74]), (0x2197D, [0x5B77]), (0x2198C, [0x5B7B]), (0x21997, [0x5B7A]), (0x2199E, [0x36D1]), (0x219CA, [0x219CD]),
    (0x219CB, [0x8D2B]), (0x219EA, [0x5B85]), (0x219EB, [0x5B84]), (0x219EE, [0x3754]), (0x219F1, [0x5BB3])]),
  (0x21A, [
    (0x21A09, [0x6BEB]), (0x21A1A, [0x51A4]), (0x21A1C, [0x5BC2]), (0x21A20, [0x7A33]), (0x21A48, [0x82D7]), (0x21A7A, [0x5BE3]),
    (0x21A98, [0x3765])]),
  (0x21B, [
    (0x21B2A, [0x8010]), (0x21B3D, [0x527D]), (0x21B5D, [0x7C73]), (0x21B5E, [0x5C16]), (0x21B74, [0x9699]), (0x21B90, [0x5C0F]),
    (0x21BC1, [0x5C2A]), (0x21BC2, [0x5C2A])]),
  (0x21C, [
    (0x21C10, [0x271E0]), (0x21C29, [0x826F]), (0x21C2C, [0x8EAB]), (0x21C38, [0x5C50]), (0x21C46, [0x5C5E]), (0x21C52, [0x6BBF]),
    (0x21C5D, [0x7280]), (0x21C91, [0x5C4E]), (0x21C96, [0x26CCA]), (0x21CA0, [0x7834]), (0x21CA9, [0x5C41]), (0x21CEC, [0x5E90])]),
  (0x21D, [
    (0x21D41, [0x5371]), (0x21D7C, [0x70AD]), (0x21D8F, [0x5D1B]), (0x21D93, [0x5CB3])]),
  (0x21E, [
    (0x21E20, [0x57E0]), (0x21E35, [0x5CE5]), (0x21EA1, [0x76C8])]),
  (0x21F, [
    (0x21F14, [0x5D06]), (0x21F9C, [0x970D]), (0x21FC1, [0x5DCD]), (0x21FE7, [0x707E]), (0x21FF7, [0x9095])]),
  (0x220, [
    (0x2200E, [0x6CB3]), (0x22012, [0x5DF1]), (0x2201A, [0x5DE5]), (0x2203D, [0x8D77]), (0x22053, [0x8C55]), (0x2205B, [0x6740]),
    (0x22074, [0x7E6B]), (0x22087, [0x5E1D]), (0x22091, [0x62ED]), (0x220B4, [0x5E1C]), (0x220C1, [0x7ED9]), (0x220EA, [0x5E52]),
    (0x220F7, [0x725F])]),
  (0x221, [
    (0x22116, [0x5F02]), (0x2216D, [0x8970]), (0x221D7, [0x53A6]), (0x221EB, [0x8982]), (0x221EF, [0x5E9C])]),
  (0x222, [
    (0x2220E, [0x5E7F]), (0x22256, [0x9E7F]), (0x22259, [0x5EB6]), (0x222BB, [0x8FBD]), (0x222DB, [0x9F3B]), (0x222DC, [0x87B7])]),
  (0x223, [
    (0x22313, [0x5ED3]), (0x22338, [0x5F08]), (0x22342, [0x9F3B]), (0x22345, [0x5942]), (0x2234E, [0x8BF0]), (0x22357, [0x8A00]),
    (0x2235C, [0x5C0A]), (0x2236E, [0x5DEB]), (0x22376, [0x631B]), (0x22381, [0x6B66]), (0x22387, [0x707E]), (0x223AE, [0x6C10]),
    (0x223BA, [0x5F26]), (0x223D8, [0x7FBF]), (0x223F1, [0x5F2D])]),
  (0x224, [
    (0x22405, [0x5F31]), (0x22413, [0x9535]), (0x22437, [0x5F36]), (0x22472, [0x5F5D]), (0x22480, [0x20631]), (0x22495, [0x8BF8]),
    (0x2249B, [0x53D8]), (0x224A5, [0x4E29]), (0x224C9, [0x8FD4]), (0x224CA, [0x5F99]), (0x224D8, [0x4F5F]), (0x224DD, [0x4F7B]),
    (0x224E0, [0x4F81]), (0x224EC, [0x4FD9]), (0x224ED, [0x9021]), (0x224F6, [0x901A])]),
  (0x225, [
    (0x22500, [0x4FB5]), (0x2250B, [0x502F]), (0x2250D, [0x4F7E]), (0x2251A, [0x5FAC]), (0x22547, [0x50B1]), (0x22555, [0x50AA]),
    (0x2257E, [0x907F]), (0x225B9, [0x6084]), (0x225CC, [0x6015]), (0x225CD, [0x5FD7])]),
  (0x226, [
    (0x22617, [0x81E3]), (0x22625, [0x6043]), (0x2263B, [0x6089]), (0x22649, [0x607C]), (0x2264A, [0x6063]), (0x22656, [0x606C]),
    (0x22662, [0x6050]), (0x22683, [0x52A3]), (0x22687, [0x72C2]), (0x22689, [0x6068]), (0x22690, [0x60A0]), (0x226B0, [0x607C]),
    (0x226C2, [0x60BC]), (0x226C7, [0x96E0]), (0x226E7, [0x60DF])]),
  (0x227, [
    (0x22725, [0x52FC]), (0x2272A, [0x60F9]), (0x2273A, [0x54C0]), (0x22743, [0x36F3]), (0x22754, [0x607B]), (0x22772, [0x6101])]),
  (0x228, [
    (0x22832, [0x3931]), (0x22836, [0x60A3]), (0x22846, [0x6073]), (0x22865, [0x60AF]), (0x2287D, [0x60DC]), (0x228A7, [0x96E0]),
    (0x228F6, [0x601C])]),
  (0x229, [
    (0x22903, [0x615D]), (0x2292D, [0x61CD]), (0x2297E, [0x34A9]), (0x229A1, [0x611F]), (0x229A9, [0x6210]), (0x229D0, [0x6218]),
    (0x229E3, [0x5BC1]), (0x229F5, [0x622A]), (0x229F7, [0x63B4]), (0x229FE, [0x70BD])]),
  (0x22A, [
    (0x22A37, [0x6240]), (0x22A4C, [0x80A9]), (0x22A66, [0x4E2E]), (0x22A84, [0x637D]), (0x22AB4, [0x62DA]), (0x22ABB, [0x627F]),
    (0x22ABF, [0x8F9C]), (0x22AE6, [0x62CD]), (0x22AFD, [0x6291]), (0x22AFE, [0x6307])]),
  (0x22B, [
    (0x22B0C, [0x62D4]), (0x22B34, [0x6444]), (0x22B38, [0x62EC]), (0x22B40, [0x65CB]), (0x22B43, [0x77ED]), (0x22B4D, [0x63E3]),
    (0x22BC7, [0x63D6]), (0x22BEA, [0x62C6])]),
  (0x22C, [
    (0x22C07, [0x6328]), (0x22C4A, [0x63A0]), (0x22C73, [0x6325]), (0x22C8E, [0x642C]), (0x22C95, [0x63C6]), (0x22C9C, [0x69AB]),
    (0x22CB8, [0x63B3]), (0x22CBB, [0x64AE]), (0x22CC0, [0x6469])]),
  (0x22D, [
    (0x22D03, [0x636E]), (0x22D23, [0x589E]), (0x22D3F, [0x6389]), (0x22D44, [0x63AA]), (0x22DFC, [0x6413])]),
  (0x22E, [
    (0x22E05, [0x6500]), (0x22E06, [0x6479]), (0x22E24, [0x3A6C]), (0x22E6C, [0x62E5]), (0x22EF3, [0x6276]), (0x22EF9, [0x3A7A])]),
  (0x22F, [
    (0x22F15, [0x3A86]), (0x22F1C, [0x8D66]), (0x22F85, [0x21368]), (0x22F86, [0x63E9]), (0x22F8D, [0x6556]), (0x22F99, [0x626C]),
    (0x22FB0, [0x5FBD]), (0x22FBF, [0x9218]), (0x22FE0, [0x9F16])]),
  (0x230, [
    (0x2301A, [0x5914]), (0x2308A, [0x71A8]), (0x23095, [0x65AF]), (0x230A2, [0x65AD]), (0x230A6, [0x525E]), (0x230BA, [0x65B0]),
    (0x230E6, [0x52FF])]),
  (0x231, [
    (0x23101, [0x53D7]), (0x23103, [0x65D7]), (0x23128, [0x7947]), (0x23133, [0x821E]), (0x23140, [0x65E8]), (0x2314A, [0x660C]),
    (0x2314E, [0x6664]), (0x2315C, [0x7686]), (0x23162, [0x666C]), (0x2316F, [0x663C]), (0x2317C, [0x65E9]), (0x23197, [0x3B01]),
    (0x2319C, [0x6627])]),
  (0x232, [
    (0x23206, [0x664B]), (0x2320D, [0x53E0]), (0x2325A, [0x3B15]), (0x232A3, [0x8204])]),
  (0x233, [
    (0x2331F, [0x3B21]), (0x23351, [0x50C8]), (0x2335D, [0x821F]), (0x2339C, [0x5B55]), (0x233C2, [0x6740]), (0x233D0, [0x6753]),
    (0x233DD, [0x6795]), (0x233F9, [0x707E]), (0x233FD, [0x679A])]),
  (0x234, [
    (0x2340C, [0x68B3]), (0x23415, [0x6871]), (0x23431, [0x67D4]), (0x23436, [0x62D0]), (0x23437, [0x62D0]), (0x2346D, [0x6805]),
    (0x2346F, [0x6843]), (0x23471, [0x67D3]), (0x2348F, [0x6912]), (0x234C0, [0x699B])]),
  (0x235, [
    (0x23580, [0x6897]), (0x235F3, [0x6811])]),
  (0x236, [
    (0x2361C, [0x7B1E]), (0x23694, [0x8204]), (0x23698, [0x727A]), (0x236A6, [0x5F36]), (0x236D8, [0x69AD])]),
  (0x237, [
    (0x2370E, [0x8437]), (0x23723, [0x9202]), (0x23725, [0x6A84]), (0x23726, [0x5BFC]), (0x237B5, [0x845A]), (0x237F4, [0x95E9])]),
  (0x238, [
    (0x23881, [0x3567]), (0x23898, [0x547B]), (0x2389C, [0x5466]), (0x238B8, [0x6B3E]), (0x238D3, [0x6B20]), (0x238FD, [0x94A6])]),
  (0x239, [
    (0x2391A, [0x91C2]), (0x23948, [0x4F1A]), (0x23949, [0x54AB]), (0x2394D, [0x8FD1]), (0x23957, [0x5C11]), (0x2397B, [0x8E1C]),
    (0x2399E, [0x5914]), (0x239A1, [0x8E87]), (0x239A2, [0x8E83]), (0x239B8, [0x6B7B]), (0x239C0, [0x5F18]), (0x239E9, [0x7EC8])]),
  (0x23A, [
    (0x23A0F, [0x6B81]), (0x23A3B, [0x85A7]), (0x23A44, [0x6E98]), (0x23A46, [0x51A5]), (0x23A47, [0x8150]), (0x23A52, [0x50AE]),
    (0x23A85, [0x6BB4]), (0x23A86, [0x6740]), (0x23A96, [0x6740]), (0x23AA9, [0x6740]), (0x23ACC, [0x3745]), (0x23AED, [0x6BCF]),
    (0x23AF9, [0x73B3])]),
  (0x23B, [
    (0x23B23, [0x9B0D])]),
  (0x23C, [
    (0x23C2B, [0x3CB1]), (0x23C5C, [0x6C24]), (0x23C6E, [0x6C22]), (0x23C75, [0x6C38]), (0x23C83, [0x6C8C]), (0x23C94, [0x6CE3]),
    (0x23C97, [0x6E4B]), (0x23C98, [0x6F55]), (0x23CA0, [0x6C50]), (0x23CB4, [0x6CB8]), (0x23CDA, [0x6CA1]), (0x23CE5, [0x6E21])]),
  (0x23D, [
    (0x23D11, [0x6D41]), (0x23D26, [0x6CD3]), (0x23D29, [0x6D5C]), (0x23D32, [0x6D74]), (0x23D34, [0x6D77]), (0x23D5E, [0x6EB6]),
    (0x23D7D, [0x6C83]), (0x23D7F, [0x6D8E]), (0x23D81, [0x6DC5]), (0x23D83, [0x6F6E]), (0x23DDD, [0x6D47]), (0x23DEA, [0x6C6A])]),
  (0x23E, [
    (0x23E15, [0x6C34]), (0x23E6B, [0x6D51]), (0x23E8C, [0x6E3A]), (0x23EAF, [0x6E7F])]),
  (0x23F, [
    (0x23F1C, [0x6DF9]), (0x23F45, [0x6D3B]), (0x23F48, [0x6FE1]), (0x23F5E, [0x53AC]), (0x23F67, [0x5BD6]), (0x23F85, [0x6E54]),
    (0x23FD1, [0x6E2F])]),
  (0x240, [
    (0x2404A, [0x6DA3]), (0x2404C, [0x6FB3]), (0x24084, [0x6D4B])]),
  (0x241, [
    (0x24109, [0x6D4F]), (0x2414C, [0x6D53]), (0x2414D, [0x6F15]), (0x2418C, [0x708E]), (0x2418D, [0x8D64]), (0x2418E, [0x707E]),
    (0x24190, [0x7078]), (0x241B2, [0x707E]), (0x241BD, [0x7077]), (0x241E1, [0x7384]), (0x241F4, [0x7199])]),
  (0x242, [
    (0x2422E, [0x707E]), (0x24263, [0x707E]), (0x242B7, [0x7119]), (0x242B9, [0x3DBF]), (0x242BA, [0x70FC]), (0x242C0, [0x3DE6]),
    (0x242CF, [0x71A1]), (0x242EE, [0x7199]), (0x242F0, [0x52A9])]),
  (0x243, [
    (0x243B9, [0x7199]), (0x243C1, [0x7199]), (0x243D0, [0x70C2])]),
  (0x244, [
    (0x24424, [0x7199]), (0x2442B, [0x7968]), (0x2447E, [0x71E7]), (0x244C8, [0x70C1])]),
  (0x245, [
    (0x24522, [0x6414]), (0x2452A, [0x470C]), (0x24553, [0x7237]), (0x24555, [0x7238]), (0x2457A, [0x75BE]), (0x245B2, [0x67AF]),
    (0x245CA, [0x7252]), (0x245CB, [0x724C]), (0x245F1, [0x7256])]),
  (0x246, [
    (0x24604, [0x724D]), (0x24608, [0x7259]), (0x24625, [0x725D]), (0x24634, [0x7267]), (0x24657, [0x65B9]), (0x24668, [0x675F]),
    (0x2468C, [0x7280]), (0x246B4, [0x7261])]),
  (0x247, [
    (0x24733, [0x72EE]), (0x2473D, [0x8C7D]), (0x24751, [0x72AF]), (0x2477D, [0x8C84]), (0x2477F, [0x52BB]), (0x247C4, [0x8154]),
    (0x247CB, [0x72E1]), (0x247D4, [0x6005]), (0x247D7, [0x733F]), (0x247E7, [0x8478])]),
  (0x248, [
    (0x24815, [0x755C]), (0x2483E, [0x8C99]), (0x24846, [0x8C75]), (0x2486C, [0x8C77]), (0x2489A, [0x517D]), (0x2489C, [0x72EC]),
    (0x248CA, [0x72B7]), (0x248F5, [0x7396])]),
  (0x249, [
    (0x24908, [0x745A]), (0x24939, [0x3EF7]), (0x2497F, [0x8751]), (0x249A6, [0x73ED]), (0x249B3, [0x73F2]), (0x249F0, [0x7435]),
    (0x249F2, [0x7436])]),
  (0x24A, [
    (0x24A14, [0x73AF]), (0x24A40, [0x73CA]), (0x24AE9, [0x73B2])]),
  (0x24B, [
    (0x24B17, [0x74E0]), (0x24B21, [0x74E2]), (0x24B2E, [0x74F6]), (0x24B53, [0x26228]), (0x24B5B, [0x5808]), (0x24B79, [0x76CE]),
    (0x24B9B, [0x58BC]), (0x24BC1, [0x20BD1]), (0x24BD3, [0x751F]), (0x24BD4, [0x4EBA]), (0x24BDB, [0x7B19]), (0x24BF3, [0x7526]),
    (0x24BF7, [0x845F])]),
  (0x24C, [
    (0x24C06, [0x7528]), (0x24C1E, [0x5351]), (0x24C34, [0x5A01]), (0x24C35, [0x754F]), (0x24C36, [0x7533]), (0x24C65, [0x755B]),
    (0x24C71, [0x8F7D]), (0x24C95, [0x57E8]), (0x24C99, [0x755A]), (0x24C9C, [0x6BD5]), (0x24CAC, [0x3F6D])]),
  (0x24D, [
    (0x24D05, [0x271C4]), (0x24DC2, [0x75F1]), (0x24DD0, [0x76F2]), (0x24DE0, [0x7600]), (0x24DFD, [0x3FA1])]),
  (0x24E, [
    (0x24E06, [0x75FF]), (0x24E0B, [0x75A5]), (0x24E1F, [0x75D4]), (0x24E8A, [0x5636]), (0x24EE8, [0x75EA]), (0x24EF2, [0x7597])]),
  (0x24F, [
    (0x24F29, [0x7678]), (0x24F2A, [0x767B]), (0x24F32, [0x767C]), (0x24F35, [0x767C]), (0x24F37, [0x767B]), (0x24F50, [0x8FEB])]),
  (0x250, [
    (0x25022, [0x9F16]), (0x2502B, [0x3FF5]), (0x25039, [0x8DBC]), (0x25044, [0x76C2]), (0x25049, [0x76E5]), (0x2506A, [0x5B5F]),
    (0x25070, [0x76DF]), (0x2507A, [0x9193]), (0x25083, [0x3536]), (0x250AF, [0x83F9]), (0x250E9, [0x773C]), (0x250F3, [0x76F1])]),
  (0x251, [
    (0x2510C, [0x775F]), (0x25122, [0x76F8]), (0x25131, [0x401F]), (0x2516D, [0x89C6]), (0x25171, [0x7701]), (0x251E1, [0x776A])]),
  (0x252, [
    (0x25205, [0x9766]), (0x25219, [0x4033]), (0x25228, [0x7771]), (0x25281, [0x252B4]), (0x252BC, [0x77A0]), (0x252CD, [0x7761])]),
  (0x253, [
    (0x25312, [0x77BD]), (0x2531D, [0x779F]), (0x2533A, [0x77C5]), (0x2536F, [0x954C]), (0x2537F, [0x76FE]), (0x25384, [0x67AA]),
    (0x253BF, [0x77E5]), (0x253F5, [0x7624])]),
  (0x254, [
    (0x25417, [0x782D]), (0x2543A, [0x7825]), (0x2544A, [0x78BE]), (0x25470, [0x40AF]), (0x254CB, [0x7814]), (0x254CF, [0x57ED]),
    (0x254D3, [0x7891])]),
  (0x255, [
    (0x25510, [0x78D5]), (0x25553, [0x6F20]), (0x2555A, [0x8366]), (0x25566, [0x78D9]), (0x25571, [0x787C]), (0x25574, [0x783E]),
    (0x255F7, [0x8F97])]),
  (0x256, [
    (0x25614, [0x707E]), (0x25616, [0x5934]), (0x25621, [0x7947]), (0x2564A, [0x796D]), (0x2564D, [0x795E]), (0x256C5, [0x4102]),
    (0x256DC, [0x7956])]),
  (0x257, [
    (0x25731, [0x795F]), (0x25750, [0x79C9]), (0x25755, [0x4152]), (0x25757, [0x8291]), (0x25762, [0x5229]), (0x25777, [0x8015]),
    (0x257AB, [0x9ECD])]),
  (0x258, [
    (0x2583C, [0x79E6]), (0x25877, [0x7A33]), (0x25893, [0x6388])]),
  (0x259, [
    (0x2592F, [0x7A76]), (0x2593E, [0x7A8D]), (0x2593F, [0x7AA3]), (0x25949, [0x5CAB]), (0x25963, [0x57A3]), (0x2598E, [0x5BBE]),
    (0x2599C, [0x580B]), (0x259BD, [0x5BD4]), (0x259CA, [0x5800]), (0x259E2, [0x7E19]), (0x259E8, [0x5BBE])]),
  (0x25A, [
    (0x25A12, [0x7A9C]), (0x25A50, [0x7AA6]), (0x25A60, [0x7AD9]), (0x25A73, [0x5F85]), (0x25AE1, [0x7AFD])]),
  (0x25B, [
    (0x25B16, [0x76AE]), (0x25B30, [0x518C]), (0x25B8F, [0x5178]), (0x25BD2, [0x683D])]),
  (0x25C, [
    (0x25CE6, [0x7B0B])]),
  (0x25D, [
    (0x25D8E, [0x83F9]), (0x25D9E, [0x5B42]), (0x25DDF, [0x83F9])]),
  (0x25E, [
    (0x25E4E, [0x7C84]), (0x25E6A, [0x7CC1]), (0x25E9E, [0x7CA5]), (0x25EC6, [0x7C9F]), (0x25ED5, [0x7CC1]), (0x25EE6, [0x429B])]),
  (0x25F, [
    (0x25F3E, [0x7CC1]), (0x25F86, [0x7EA0]), (0x25F91, [0x7EAF]), (0x25FA0, [0x7EAB]), (0x25FA1, [0x7EDA]), (0x25FA8, [0x7EA5]),
    (0x25FBA, [0x7EB5]), (0x25FC9, [0x889C]), (0x25FCC, [0x888E]), (0x25FD1, [0x7EB6]), (0x25FD3, [0x7EAA]), (0x25FF3, [0x7EC6])]),
  (0x260, [
    (0x26007, [0x7ECF]), (0x26012, [0x5194]), (0x2601F, [0x7EB1]), (0x26065, [0x9EF9]), (0x260B2, [0x9EF9]), (0x260B3, [0x7D27]),
    (0x260B5, [0x7EB5]), (0x260B6, [0x7EEE]), (0x260C5, [0x7EDC]), (0x260E7, [0x78A7]), (0x260F0, [0x7EF3])]),
  (0x261, [
    (0x26132, [0x7F29]), (0x2614D, [0x7F27]), (0x26167, [0x9EF9]), (0x26196, [0x7F2D]), (0x261AB, [0x7ED1]), (0x261C4, [0x5121]),
    (0x261DA, [0x5F5D]), (0x261FB, [0x7F13]), (0x261FD, [0x4331])]),
  (0x262, [
    (0x26223, [0x4342]), (0x26247, [0x74F6]), (0x26248, [0x434B]), (0x26262, [0x4345]), (0x2628B, [0x4352]), (0x2628E, [0x4352]),
    (0x2628F, [0x4352]), (0x262B0, [0x7F82]), (0x262C0, [0x7F82]), (0x262DA, [0x7F69]), (0x262E1, [0x4352]), (0x262E7, [0x7F72])]),
  (0x263, [
    (0x26304, [0x7F82]), (0x26310, [0x7F79]), (0x26334, [0x7F57]), (0x26336, [0x7F82]), (0x2633E, [0x7F82]), (0x2633F, [0x917E]),
    (0x26343, [0x7F82]), (0x26346, [0x7F82]), (0x2635B, [0x7F95]), (0x2638B, [0x8C78]), (0x263A4, [0x97A3]), (0x263C1, [0x7FB2]),
    (0x263E0, [0x7F94]), (0x263F2, [0x7FBD])]),
  (0x264, [
    (0x2641C, [0x7FE0]), (0x2642C, [0x7FD5]), (0x2644A, [0x65CC]), (0x26474, [0x879A]), (0x26476, [0x4393]), (0x2648B, [0x7FF0]),
    (0x2648E, [0x439A]), (0x2649F, [0x4385]), (0x264A1, [0x7FF1]), (0x264A2, [0x7FF1]), (0x264B1, [0x8003]), (0x264BF, [0x8006]),
    (0x264D4, [0x9700]), (0x264D9, [0x264DD]), (0x264DA, [0x264DD])]),
  (0x265, [
    (0x26515, [0x582B]), (0x2657C, [0x804A]), (0x265A8, [0x43C0]), (0x265F7, [0x8071])]),
  (0x266, [
    (0x2661F, [0x8087]), (0x2663B, [0x8093]), (0x2665B, [0x80AB]), (0x26669, [0x80B4]), (0x2666D, [0x75BC]), (0x26675, [0x8155]),
    (0x26676, [0x80A1]), (0x266A7, [0x43DB]), (0x266C1, [0x8111])]),
  (0x267, [
    (0x26709, [0x813E]), (0x26721, [0x7099]), (0x26736, [0x8180]), (0x26769, [0x80C3]), (0x2676B, [0x8170]), (0x2676D, [0x7C7B]),
    (0x267A4, [0x56DF]), (0x267A7, [0x7624]), (0x267AC, [0x8171]), (0x267DD, [0x810A]), (0x267E6, [0x819C]), (0x267EF, [0x808B]),
    (0x267F3, [0x91B5])]),
  (0x268, [
    (0x2680D, [0x35C1]), (0x2681D, [0x7624]), (0x268A7, [0x4445]), (0x268DE, [0x9890]), (0x268EE, [0x5B64]), (0x268FA, [0x767D])]),
  (0x269, [
    (0x26900, [0x81ED]), (0x26903, [0x7687]), (0x26906, [0x4E91]), (0x2690C, [0x66A8]), (0x26913, [0x9F3B]), (0x26933, [0x81F3]),
    (0x2693F, [0x5C4B]), (0x26946, [0x63E1]), (0x26947, [0x81FB]), (0x26951, [0x530A]), (0x26959, [0x66F3]), (0x2695D, [0x8200]),
    (0x26967, [0x8D2C]), (0x2699A, [0x5BC5]), (0x269B6, [0x58E4]), (0x269CA, [0x542E])]),
  (0x26A, [
    (0x26A22, [0x446D]), (0x26A31, [0x6D25]), (0x26A85, [0x8247]), (0x26ADC, [0x8D69])]),
  (0x26B, [
    (0x26B0A, [0x8291]), (0x26B21, [0x8403]), (0x26B3C, [0x85BE]), (0x26B42, [0x83C5]), (0x26B44, [0x4502]), (0x26B82, [0x84CD]),
    (0x26B8F, [0x6B21]), (0x26BBF, [0x844B]), (0x26BD2, [0x44A2]), (0x26BD3, [0x83F9]), (0x26BED, [0x831D]), (0x26BF1, [0x831D]),
    (0x26BF8, [0x8291])]),
  (0x26C, [
    (0x26C52, [0x82DC]), (0x26C54, [0x84D6]), (0x26C64, [0x83AB]), (0x26C67, [0x209AA]), (0x26CAD, [0x847A]), (0x26CC3, [0x4511]),
    (0x26CCB, [0x44D2]), (0x26CCD, [0x26C44]), (0x26CCE, [0x83F9]), (0x26CDD, [0x859A]), (0x26CE4, [0x85E8]), (0x26CF2, [0x845D]),
    (0x26CF3, [0x84C1])]),
  (0x26D, [
    (0x26D03, [0x26D6B]), (0x26D2B, [0x8492]), (0x26D2D, [0x85D0]), (0x26D54, [0x83F9]), (0x26D87, [0x7E19]), (0x26D88, [0x451C]),
    (0x26D96, [0x863D]), (0x26D9C, [0x831D]), (0x26DAC, [0x8470]), (0x26DDB, [0x50B0]), (0x26DF2, [0x84B5]), (0x26DFF, [0x26D75])]),
  (0x26E, [
    (0x26E00, [0x85C4]), (0x26E06, [0x8291]), (0x26E0B, [0x850A]), (0x26E0E, [0x83B3]), (0x26E2D, [0x8323]), (0x26E2F, [0x8398]),
    (0x26E32, [0x85D5]), (0x26E33, [0x84D0]), (0x26E4A, [0x8323]), (0x26E86, [0x450C]), (0x26E88, [0x836A]), (0x26E8B, [0x4545]),
    (0x26E92, [0x84E9]), (0x26E94, [0x449D]), (0x26E95, [0x862C]), (0x26E9D, [0x85B4]), (0x26EAB, [0x455E]), (0x26EB3, [0x858F]),
    (0x26EC2, [0x859E]), (0x26EC3, [0x8411]), (0x26EE5, [0x83F2]), (0x26EE6, [0x8404])]),
  (0x26F, [
    (0x26F0D, [0x839E]), (0x26F2B, [0x26E35]), (0x26F2C, [0x83F9]), (0x26F30, [0x85D2]), (0x26F48, [0x83B8]), (0x26F5D, [0x84CF]),
    (0x26F60, [0x851C]), (0x26F67, [0x83A0]), (0x26F69, [0x63C9]), (0x26F77, [0x844F]), (0x26F94, [0x65E7]), (0x26FAA, [0x5914]),
    (0x26FAF, [0x83C9]), (0x26FB1, [0x6284]), (0x26FB4, [0x8629]), (0x26FB7, [0x84FC]), (0x26FC8, [0x8625]), (0x26FD0, [0x4559]),
    (0x26FD8, [0x83F9]), (0x26FE0, [0x84AE]), (0x26FE1, [0x85C8]), (0x26FE6, [0x862E])]),
  (0x270, [
    (0x27004, [0x26FC4]), (0x27009, [0x85FB]), (0x2701B, [0x85E3]), (0x27026, [0x84FE]), (0x2703D, [0x83F9]), (0x2703E, [0x855B]),
    (0x2704E, [0x5914]), (0x27055, [0x84F1]), (0x27084, [0x840F]), (0x27087, [0x8368]), (0x2708A, [0x85A4]), (0x27090, [0x79EF]),
    (0x27092, [0x4574]), (0x27096, [0x4537]), (0x27099, [0x856E]), (0x2709A, [0x83F9]), (0x270B0, [0x8369]), (0x270B1, [0x8568]),
    (0x270B2, [0x83CA]), (0x270B3, [0x8547]), (0x270C8, [0x83CA]), (0x270CD, [0x5914]), (0x270D3, [0x83CA]), (0x270D7, [0x452F]),
    (0x270DA, [0x453A]), (0x270DC, [0x85D1]), (0x270EC, [0x4569]), (0x270F0, [0x5914]), (0x270FA, [0x26F2A])]),
  (0x271, [
    (0x27116, [0x8508]), (0x27117, [0x83F9]), (0x27137, [0x8649]), (0x27141, [0x8591]), (0x27149, [0x85ED]), (0x2714F, [0x85DC]),
    (0x2715B, [0x85CB]), (0x2715C, [0x85FD]), (0x2715D, [0x84F8]), (0x27161, [0x4578]), (0x27172, [0x26CE9]), (0x27173, [0x457B]),
    (0x2717C, [0x4586]), (0x27188, [0x85D9]), (0x2718A, [0x864C]), (0x27191, [0x85FF]), (0x271A4, [0x458A]), (0x271A6, [0x271AB]),
    (0x271BD, [0x4591]), (0x271C1, [0x864D]), (0x271C3, [0x8668]), (0x271C7, [0x8658]), (0x271D0, [0x866A]), (0x271D1, [0x8663])]),
  (0x272, [
    (0x27205, [0x8669]), (0x2720B, [0x83DF]), (0x27216, [0x27211]), (0x2721C, [0x299B6]), (0x2721F, [0x460C]), (0x27220, [0x86A4]),
    (0x27227, [0x867D]), (0x2722C, [0x8679]), (0x27265, [0x5317]), (0x27275, [0x8685]), (0x27286, [0x86B9]), (0x2728D, [0x8697]),
    (0x27296, [0x87D9]), (0x2729B, [0x86BC]), (0x272A1, [0x86E9]), (0x272A2, [0x86BB]), (0x272A4, [0x8734]), (0x272A7, [0x86E4]),
    (0x272AE, [0x86EC]), (0x272B0, [0x86DC]), (0x272D9, [0x87CC])]),
  (0x273, [
    (0x27312, [0x872E]), (0x27332, [0x8718]), (0x27337, [0x8786]), (0x2733F, [0x8742]), (0x27353, [0x87C0]), (0x27357, [0x881A]),
    (0x27358, [0x86B4]), (0x2735B, [0x86F9]), (0x27362, [0x27398]), (0x27367, [0x878A]), (0x27368, [0x45AD]), (0x27371, [0x87B2]),
    (0x2737D, [0x8798]), (0x2737F, [0x8713]), (0x27380, [0x8725]), (0x27381, [0x86A7]), (0x27382, [0x867E]), (0x27397, [0x874C]),
    (0x273A9, [0x8674]), (0x273C5, [0x87AB]), (0x273CD, [0x86F3]), (0x273CF, [0x86C6]), (0x273D3, [0x45DC]), (0x273D5, [0x8794]),
    (0x273E9, [0x879D]), (0x273F8, [0x87AA])]),
  (0x274, [
    (0x27400, [0x8830]), (0x27404, [0x87B8]), (0x27407, [0x87B1]), (0x27409, [0x8718]), (0x2740A, [0x45C5]), (0x27414, [0x45D1]),
    (0x2741A, [0x87C5]), (0x2741B, [0x876E]), (0x2742E, [0x87B9]), (0x27431, [0x45E5]), (0x27433, [0x87B0]), (0x27436, [0x45E9]),
    (0x27446, [0x8769]), (0x2744E, [0x273B9]), (0x27463, [0x86F2]), (0x27468, [0x86EA]), (0x27494, [0x86F7]), (0x274A6, [0x86F0]),
    (0x274AA, [0x8752]), (0x274BC, [0x87FF]), (0x274BD, [0x2749C]), (0x274BE, [0x87F7]), (0x274C9, [0x86F4]), (0x274CC, [0x8424]),
    (0x274CE, [0x8795]), (0x274D2, [0x8693]), (0x274DB, [0x87E5]), (0x274F1, [0x8758]), (0x274F3, [0x86ED])]),
  (0x275, [
    (0x27508, [0x8832]), (0x27518, [0x8809]), (0x2752B, [0x8733]), (0x27549, [0x8787]), (0x2754E, [0x87B6]), (0x27550, [0x87AC]),
    (0x27563, [0x27572]), (0x27566, [0x2755B]), (0x27573, [0x8803]), (0x2757E, [0x8818]), (0x27580, [0x883F]), (0x2758B, [0x87EB]),
    (0x27599, [0x86AC]), (0x2759A, [0x8709]), (0x275AD, [0x8841]), (0x275AF, [0x8843]), (0x275C0, [0x4613]), (0x275CE, [0x83F9]),
    (0x275D7, [0x8844]), (0x275D8, [0x83F9]), (0x275D9, [0x884B]), (0x275E1, [0x884E]), (0x275F3, [0x8852])]),
  (0x276, [
    (0x27602, [0x885D]), (0x27623, [0x88BE]), (0x27624, [0x88A7]), (0x2762D, [0x887E]), (0x27637, [0x8878]), (0x2764A, [0x88C0]),
    (0x27652, [0x27667]), (0x2765F, [0x88A3]), (0x27665, [0x8971]), (0x27669, [0x88C2]), (0x2766A, [0x8922]), (0x2766B, [0x27667]),
    (0x27688, [0x8900]), (0x2768C, [0x88C5]), (0x2768D, [0x88D8]), (0x2769B, [0x88FB]), (0x2769C, [0x892B]), (0x2769D, [0x88C1]),
    (0x276AE, [0x27723]), (0x276BA, [0x8937]), (0x276BC, [0x4636]), (0x276D6, [0x886A]), (0x276DD, [0x4655]), (0x276E0, [0x88D3]),
    (0x276E1, [0x8942]), (0x276E2, [0x9EF9]), (0x276EA, [0x27705])]),
  (0x277, [
    (0x2770B, [0x464E]), (0x27725, [0x4638]), (0x27737, [0x893D]), (0x27744, [0x8966]), (0x27749, [0x9EF9]), (0x2774D, [0x4643]),
    (0x27750, [0x8905]), (0x27756, [0x465F]), (0x27775, [0x890B]), (0x2777A, [0x88A4]), (0x27796, [0x890D]), (0x277A8, [0x4654]),
    (0x277AB, [0x88CB]), (0x277B0, [0x4658]), (0x277B2, [0x896B]), (0x277B7, [0x8931]), (0x277B8, [0x895A]), (0x277CA, [0x896E]),
    (0x277CE, [0x8969]), (0x277D0, [0x897A]), (0x277D2, [0x895B]), (0x277D4, [0x893F]), (0x277D9, [0x888A]), (0x277F6, [0x9738])]),
  (0x278, [
    (0x2780A, [0x34BB]), (0x27811, [0x8992]), (0x2781F, [0x27820]), (0x27828, [0x899B]), (0x27861, [0x468B]), (0x2786C, [0x4681]),
    (0x27877, [0x899E]), (0x27879, [0x4683]), (0x27886, [0x468E]), (0x2788F, [0x2784B]), (0x2789A, [0x89D0]), (0x2789E, [0x2784C]),
    (0x278A2, [0x77C5]), (0x278A3, [0x2789C]), (0x278A8, [0x27884]), (0x278AB, [0x278A6]), (0x278AE, [0x77D6]), (0x278B1, [0x6027]),
    (0x278B8, [0x4697]), (0x278C2, [0x89E4]), (0x278F0, [0x4699])]),
  (0x279, [
    (0x27907, [0x46A2]), (0x2790C, [0x89F0]), (0x27914, [0x46A8]), (0x27918, [0x46A3]), (0x27926, [0x46A9]), (0x2792B, [0x46A6]),
    (0x27931, [0x89EA]), (0x27955, [0x87D5]), (0x27966, [0x8A0F]), (0x27970, [0x46AE]), (0x27973, [0x8BD7]), (0x27976, [0x8BF3]),
    (0x27977, [0x8BAB]), (0x2797A, [0x8A07]), (0x2797D, [0x8AC5]), (0x2797E, [0x8BC6]), (0x27992, [0x8BCB]), (0x27998, [0x8AB7]),
    (0x279AB, [0x8BD2]), (0x279BD, [0x8BCA]), (0x279BE, [0x8BC0]), (0x279C1, [0x46C4]), (0x279CF, [0x558F]), (0x279E1, [0x8BBC]),
    (0x279E7, [0x8A48]), (0x279F0, [0x46D7]), (0x279F2, [0x8A44]), (0x279FF, [0x6559])]),
  (0x27A, [
    (0x27A09, [0x27AE2]), (0x27A0F, [0x8C0A]), (0x27A1B, [0x8A6A]), (0x27A1D, [0x8BC7]), (0x27A1E, [0x8B11]), (0x27A23, [0x8BB7]),
    (0x27A28, [0x8C27]), (0x27A2C, [0x8AC0]), (0x27A2D, [0x76D1]), (0x27A3D, [0x8A42]), (0x27A40, [0x8B3B]), (0x27A42, [0x8C24]),
    (0x27A50, [0x8AD5]), (0x27A5B, [0x8BE2]), (0x27A60, [0x8BBD]), (0x27A63, [0x4700]), (0x27A6A, [0x8B25]), (0x27A6D, [0x470F]),
    (0x27A73, [0x279FB]), (0x27A7B, [0x8BF9]), (0x27A7D, [0x8C06]), (0x27A9B, [0x46E9]), (0x27A9F, [0x8ABB]), (0x27AAE, [0x8B23]),
    (0x27AB3, [0x8AF0]), (0x27AD4, [0x279FA]), (0x27AE0, [0x8AC6]), (0x27AE7, [0x8C19]), (0x27AEA, [0x8C11]), (0x27AF8, [0x8A56])]),
  (0x27B, [
    (0x27B03, [0x8B45]), (0x27B04, [0x8C22]), (0x27B0C, [0x8AF4]), (0x27B0D, [0x8C2A]), (0x27B13, [0x8B3A]), (0x27B21, [0x8AC8]),
    (0x27B2D, [0x8AE3]), (0x27B2F, [0x8B07]), (0x27B33, [0x8BD1]), (0x27B51, [0x27B2E]), (0x27B58, [0x8C31]), (0x27B64, [0x8B08]),
    (0x27B74, [0x8B5E]), (0x27B7E, [0x470B]), (0x27B87, [0x4715]), (0x27B8A, [0x27B93]), (0x27B90, [0x8B94]), (0x27B9B, [0x8B27]),
    (0x27BA3, [0x8AA9]), (0x27BA9, [0x8A5F]), (0x27BAE, [0x9621]), (0x27BAF, [0x8C39]), (0x27BB0, [0x8C3D]), (0x27BB7, [0x8C3B]),
    (0x27BCB, [0x8C3A]), (0x27BD0, [0x4731]), (0x27BDB, [0x58F4]), (0x27BE0, [0x5245]), (0x27BE1, [0x8C4C]), (0x27BED, [0x8C4B]),
    (0x27BFF, [0x9F19])]),
  (0x27C, [
    (0x27C42, [0x8C72]), (0x27C4D, [0x474B]), (0x27C4F, [0x8C59]), (0x27C51, [0x8C60]), (0x27C5A, [0x8C5C]), (0x27C5B, [0x4752]),
    (0x27C5F, [0x8C64]), (0x27C71, [0x8C65]), (0x27C74, [0x733D]), (0x27C7F, [0x27D04]), (0x27C80, [0x8C5C]), (0x27C8C, [0x474A]),
    (0x27C8F, [0x8C69]), (0x27C90, [0x8C70]), (0x27C94, [0x27C9D]), (0x27C95, [0x474F]), (0x27C9E, [0x27C9D]), (0x27CA8, [0x8C5C]),
    (0x27CB1, [0x3E67]), (0x27CB2, [0x72D0]), (0x27CC5, [0x3E6C]), (0x27CC7, [0x8C89]), (0x27CD4, [0x8C86]), (0x27CE0, [0x8C8F]),
    (0x27CE1, [0x3E6C]), (0x27CED, [0x876F]), (0x27CF2, [0x8C92])]),
  (0x27D, [
    (0x27D39, [0x8D33]), (0x27D44, [0x8694]), (0x27D45, [0x8686]), (0x27D47, [0x8CBE]), (0x27D4E, [0x8D3E]), (0x27D69, [0x8D23]),
    (0x27D6A, [0x8D3C]), (0x27D6E, [0x8D36]), (0x27D85, [0x8D3F]), (0x27D99, [0x80CC]), (0x27D9B, [0x8D49]), (0x27D9E, [0x8720]),
    (0x27DA1, [0x5B93]), (0x27DB3, [0x476A]), (0x27DB4, [0x8D4C]), (0x27DB6, [0x8D29]), (0x27DBB, [0x8D38]), (0x27DBD, [0x8D50]),
    (0x27DC9, [0x8CDD]), (0x27DD5, [0x8D44]), (0x27DE0, [0x8D19]), (0x27DE4, [0x8D5C]), (0x27DFC, [0x8D06])]),
  (0x27E, [
    (0x27E03, [0x9057]), (0x27E06, [0x8D58]), (0x27E0A, [0x8D2D]), (0x27E11, [0x8D60]), (0x27E16, [0x8D5A]), (0x27E18, [0x8D09]),
    (0x27E1A, [0x8D42]), (0x27E2F, [0x9057]), (0x27E37, [0x8D15]), (0x27E3D, [0x9057]), (0x27E52, [0x4E70]), (0x27E5E, [0x8D67]),
    (0x27E79, [0x70BD]), (0x27E87, [0x8D73]), (0x27E9E, [0x4798]), (0x27EAB, [0x8D77]), (0x27EC0, [0x47A3]), (0x27ECE, [0x8D86]),
    (0x27EDB, [0x8D79]), (0x27EE7, [0x47A3]), (0x27EEF, [0x8D7D]), (0x27EFB, [0x8D97])]),
  (0x27F, [
    (0x27F0F, [0x27EBB]), (0x27F18, [0x479A]), (0x27F1A, [0x47D2]), (0x27F32, [0x27ED3]), (0x27F52, [0x4817]), (0x27F62, [0x640F]),
    (0x27F70, [0x47C2]), (0x27F78, [0x27F1E]), (0x27F8B, [0x47C3]), (0x27F92, [0x8D80]), (0x27F9F, [0x8DAF]), (0x27FA2, [0x47CC]),
    (0x27FA8, [0x22598]), (0x27FAB, [0x47CD]), (0x27FB4, [0x27F64]), (0x27FC1, [0x5216]), (0x27FC4, [0x8E11]), (0x27FD6, [0x8DEB]),
    (0x27FDB, [0x8E2A]), (0x27FF6, [0x8DCE]), (0x27FFA, [0x8D89])]),
  (0x280, [
    (0x28013, [0x8DD1]), (0x2801F, [0x8E31]), (0x28040, [0x8DFE]), (0x28048, [0x8FD2]), (0x2807B, [0x8E40]), (0x280A7, [0x8E82]),
    (0x280AB, [0x8DC5]), (0x280DD, [0x8DFF]), (0x280DF, [0x8E52]), (0x280E1, [0x8DFD])]),
  (0x281, [
    (0x28103, [0x8E85]), (0x28119, [0x8DFC]), (0x2814C, [0x542A]), (0x28154, [0x28155]), (0x2815D, [0x4806]), (0x28162, [0x8E73]),
    (0x28175, [0x8E0F]), (0x28176, [0x8E81]), (0x2818D, [0x8E90]), (0x281AE, [0x8E16]), (0x281AF, [0x8E7C]), (0x281B2, [0x7A33]),
    (0x281CB, [0x8E50]), (0x281DA, [0x8E6A]), (0x281E5, [0x8E47]), (0x281E8, [0x8EA0]), (0x281F0, [0x482A]), (0x281F1, [0x8E41]),
    (0x281F3, [0x8E74])]),
  (0x282, [
    (0x2822C, [0x8EAF]), (0x28235, [0x8DDB]), (0x2823B, [0x81EA]), (0x28246, [0x8106]), (0x28247, [0x707E]), (0x28257, [0x8EC9]),
    (0x28289, [0x8106]), (0x282A0, [0x8ED3]), (0x282AF, [0x8ED8]), (0x282B5, [0x8EE5]), (0x282B6, [0x8EF5]), (0x282BA, [0x8EE9]),
    (0x282BE, [0x8F8B]), (0x282CF, [0x8F78]), (0x282D4, [0x4870]), (0x282E9, [0x8F39]), (0x282FB, [0x55AB]), (0x282FC, [0x65A1])]),
  (0x283, [
    (0x28302, [0x8EE0]), (0x28307, [0x8F74]), (0x28323, [0x8EDC]), (0x2832E, [0x8EE7]), (0x2832F, [0x8F0D]), (0x2834B, [0x8F20]),
    (0x2834C, [0x28332]), (0x2836A, [0x283C8]), (0x2836C, [0x8F43]), (0x2836F, [0x485E]), (0x28373, [0x8F7A]), (0x2837B, [0x8F87]),
    (0x28385, [0x8F2C]), (0x2838A, [0x8F8A]), (0x28395, [0x8F57]), (0x283A6, [0x8F47]), (0x283A8, [0x8F52]), (0x283A9, [0x8F04]),
    (0x283AA, [0x8F00]), (0x283AF, [0x4868]), (0x283B2, [0x8F82]), (0x283CA, [0x8F5E]), (0x283CF, [0x8F9A]), (0x283D1, [0x8F7E]),
    (0x283D4, [0x8F98]), (0x283D9, [0x8F58]), (0x283E3, [0x8F99]), (0x283F2, [0x283D2]), (0x283FE, [0x487E])]),
  (0x284, [
    (0x2840C, [0x8F9B]), (0x2842B, [0x8B6C]), (0x2844D, [0x8F68]), (0x28450, [0x8FC4]), (0x28453, [0x8D77]), (0x28454, [0x8D77]),
    (0x28456, [0x8D77]), (0x2845E, [0x8FCD]), (0x28466, [0x5F90]), (0x28477, [0x8FC5]), (0x2848E, [0x9044]), (0x284A6, [0x8FCE]),
    (0x284B2, [0x8FF7]), (0x284C6, [0x9000]), (0x284CC, [0x707E]), (0x284D8, [0x900C]), (0x284DC, [0x9038]), (0x284E7, [0x9065]),
    (0x284EC, [0x905D]), (0x284F5, [0x9001])]),
  (0x285, [
    (0x2851C, [0x8FFE]), (0x28524, [0x906B]), (0x2852A, [0x8FD0]), (0x2855D, [0x900B]), (0x28589, [0x9074]), (0x2858A, [0x47C4]),
    (0x2859D, [0x9706]), (0x285A5, [0x906E]), (0x285BD, [0x9057]), (0x285C0, [0x902A]), (0x285D2, [0x9706]), (0x285D4, [0x9057]),
    (0x285D5, [0x9075]), (0x285DD, [0x9079]), (0x285E0, [0x9706]), (0x285ED, [0x9057]), (0x285EE, [0x9057]), (0x285EF, [0x9068]),
    (0x285F9, [0x7B1B])]),
  (0x286, [
    (0x28611, [0x8FDE]), (0x28624, [0x9057]), (0x2862B, [0x9035]), (0x28636, [0x9026]), (0x28637, [0x9088]), (0x28645, [0x908D]),
    (0x28655, [0x902D]), (0x2865A, [0x8FC8]), (0x2865C, [0x48B1]), (0x28666, [0x28654]), (0x2867C, [0x90E2]), (0x28682, [0x909F]),
    (0x2868A, [0x90A9]), (0x2868F, [0x90B8]), (0x28692, [0x28679]), (0x28693, [0x912A]), (0x286A0, [0x90AF]), (0x286A8, [0x90C8]),
    (0x286AC, [0x90B1]), (0x286C4, [0x90B9]), (0x286CE, [0x286CB]), (0x286D9, [0x48C2]), (0x286E6, [0x90E1]), (0x286EB, [0x9ECE]),
    (0x286F3, [0x48E0]), (0x286F7, [0x90FD]), (0x286F8, [0x9120])]),
  (0x287, [
    (0x28724, [0x28737]), (0x28725, [0x90E6]), (0x28726, [0x90E0]), (0x2872E, [0x537F]), (0x28739, [0x90D6]), (0x28741, [0x90C7]),
    (0x2875D, [0x2874C]), (0x28760, [0x2874B]), (0x28765, [0x90CE]), (0x2876C, [0x9126]), (0x2876E, [0x9139]), (0x28776, [0x9111]),
    (0x28782, [0x9144]), (0x28784, [0x90AE]), (0x28785, [0x90FF]), (0x28787, [0x90EF]), (0x28789, [0x9104]), (0x2878F, [0x90F8]),
    (0x28792, [0x48E2]), (0x28796, [0x9143]), (0x287A1, [0x90D0]), (0x287AF, [0x9138]), (0x287B3, [0x5293]), (0x287B5, [0x912E]),
    (0x287BC, [0x9124]), (0x287C0, [0x9ECE]), (0x287C5, [0x287C4]), (0x287CC, [0x9129]), (0x287CE, [0x9145]), (0x287D5, [0x9111]),
    (0x287EC, [0x28778]), (0x287F4, [0x9173]), (0x287F7, [0x9185]), (0x287FB, [0x9171])]),
  (0x288, [
    (0x28801, [0x9156]), (0x28802, [0x9190]), (0x2880F, [0x918D]), (0x28812, [0x48F2]), (0x28813, [0x48EA]), (0x28814, [0x4909]),
    (0x28815, [0x919F]), (0x28817, [0x91A0]), (0x28820, [0x9192]), (0x28827, [0x48F5]), (0x2882A, [0x9189]), (0x28845, [0x919A]),
    (0x28855, [0x288A1]), (0x28860, [0x9191]), (0x28869, [0x91B1]), (0x28880, [0x9175]), (0x2889A, [0x919D]), (0x288A4, [0x2888B]),
    (0x288A5, [0x490D]), (0x288A9, [0x89DE]), (0x288AC, [0x9174]), (0x288AD, [0x9165]), (0x288B0, [0x48FD]), (0x288BD, [0x9178]),
    (0x288BE, [0x91B9]), (0x288CB, [0x918B]), (0x288E0, [0x91B3]), (0x288F2, [0x4918]), (0x288F7, [0x2888C])]),
  (0x289, [
    (0x28907, [0x9199]), (0x28909, [0x91B2]), (0x2890C, [0x91B0]), (0x2890D, [0x91BD]), (0x28913, [0x7737]), (0x2894A, [0x91F3]),
    (0x2894C, [0x9279]), (0x2894D, [0x928E]), (0x2894F, [0x91DC]), (0x28969, [0x94A4]), (0x28979, [0x924B]), (0x2897B, [0x920C]),
    (0x2899F, [0x950B]), (0x289AD, [0x94F9]), (0x289B0, [0x93D0]), (0x289B2, [0x9263]), (0x289E6, [0x9303]), (0x289E9, [0x940B]),
    (0x289EB, [0x525A]), (0x289EC, [0x28966]), (0x289F2, [0x9371]), (0x289F4, [0x933D])]),
  (0x28A, [
    (0x28A37, [0x934E]), (0x28A3B, [0x93FA]), (0x28A89, [0x9357]), (0x28A8D, [0x492C]), (0x28A8E, [0x942D]), (0x28A90, [0x94AD]),
    (0x28A93, [0x9363]), (0x28ACF, [0x92DD]), (0x28AD0, [0x928D]), (0x28AD8, [0x9537]), (0x28AFC, [0x93CA]), (0x28AFD, [0x94E7])]),
  (0x28B, [
    (0x28B10, [0x9562]), (0x28B5B, [0x9574]), (0x28B5C, [0x9558]), (0x28B5D, [0x94E9]), (0x28B5E, [0x93CD]), (0x28B7C, [0x9563]),
    (0x28B93, [0x9564]), (0x28B94, [0x932A]), (0x28BAB, [0x944B]), (0x28BDF, [0x956C]), (0x28BE0, [0x28B92]), (0x28BE1, [0x9448]),
    (0x28BE3, [0x494F])]),
  (0x28C, [
    (0x28C0C, [0x9367]), (0x28C1F, [0x496F]), (0x28C24, [0x94C4]), (0x28CB4, [0x8D0E]), (0x28CF5, [0x959B]), (0x28CFE, [0x7950])]),
  (0x28D, [
    (0x28D01, [0x9610]), (0x28D14, [0x95E2]), (0x28D41, [0x960E]), (0x28D77, [0x960A]), (0x28D9D, [0x587E]), (0x28DF7, [0x95FD])]),
  (0x28E, [
    (0x28E0F, [0x961C]), (0x28E18, [0x962E]), (0x28E1D, [0x6C0F]), (0x28E42, [0x5799]), (0x28E4A, [0x965C]), (0x28E4E, [0x9650]),
    (0x28E5F, [0x964B]), (0x28E76, [0x96AE]), (0x28E77, [0x96AE]), (0x28EA8, [0x9102]), (0x28EB5, [0x961F]), (0x28ED5, [0x96AE]),
    (0x28EF6, [0x9699])]),
  (0x28F, [
    (0x28F11, [0x579E]), (0x28F4D, [0x8C44]), (0x28F58, [0x96AE]), (0x28F80, [0x96B6]), (0x28FA5, [0x9E49]), (0x28FF3, [0x9E70])]),
  (0x290, [
    (0x2900C, [0x79BB]), (0x29015, [0x96E0]), (0x29018, [0x9E5E]), (0x29021, [0x96BE]), (0x29042, [0x2168A]), (0x29050, [0x9E6D]),
    (0x290EC, [0x9634])]),
  (0x291, [
    (0x2911B, [0x4A2F]), (0x2911F, [0x7691]), (0x2912B, [0x9706]), (0x29145, [0x6EC2]), (0x29147, [0x8500]), (0x2915F, [0x96F9]),
    (0x29186, [0x9706]), (0x291ED, [0x21326])]),
  (0x292, [
    (0x29242, [0x9765]), (0x2926A, [0x7E19]), (0x2927C, [0x7EC5]), (0x29293, [0x9299]), (0x292A6, [0x72E9]), (0x292B3, [0x5DE9]),
    (0x292BF, [0x8204]), (0x292CE, [0x5014]), (0x292F0, [0x7EA3])]),
  (0x293, [
    (0x2933B, [0x97AD]), (0x29346, [0x8204]), (0x29359, [0x8F56]), (0x2937F, [0x4A87])]),
  (0x294, [
    (0x2940A, [0x9F51]), (0x2942D, [0x8C02]), (0x2944B, [0x9875]), (0x2947C, [0x9887]), (0x29486, [0x9876]), (0x29491, [0x7736]),
    (0x2949B, [0x621A]), (0x294B5, [0x9877]), (0x294CB, [0x8D56]), (0x294EB, [0x89E0])]),
  (0x295, [
    (0x29516, [0x7C7B]), (0x2951A, [0x7FC1]), (0x2951C, [0x9882]), (0x29530, [0x663E]), (0x2953A, [0x9885]), (0x29553, [0x9884]),
    (0x29554, [0x4AF0]), (0x2958E, [0x85A8]), (0x29593, [0x98A6]), (0x295B6, [0x4AFC]), (0x295CB, [0x5E06]), (0x295D7, [0x98D3])]),
  (0x296, [
    (0x2964E, [0x50A9]), (0x29681, [0x98DF]), (0x2968A, [0x9968]), (0x2968E, [0x9965]), (0x2968F, [0x98E7]), (0x296B7, [0x7C92]),
    (0x296CA, [0x9971]), (0x296DD, [0x9179])]),
  (0x297, [
    (0x2970B, [0x9977]), (0x29719, [0x9976]), (0x2972F, [0x998A]), (0x29759, [0x55DC]), (0x297B9, [0x990D]), (0x297BC, [0x29780])]),
  (0x298, [
    (0x29810, [0x9996]), (0x2982E, [0x5914]), (0x29839, [0x5278]), (0x29851, [0x99A5]), (0x29888, [0x99C2]), (0x298BE, [0x4B8B]),
    (0x298CA, [0x4B85]), (0x298CE, [0x99C2]), (0x298E1, [0x4B80])]),
  (0x299, [
    (0x2991D, [0x9A9B]), (0x299A6, [0x9AD2]), (0x299B3, [0x299EA]), (0x299BC, [0x9A86]), (0x299D1, [0x299EA]), (0x299D9, [0x9AA0]),
    (0x299E2, [0x9A8B])]),
  (0x29A, [
    (0x29A23, [0x80AA]), (0x29A3A, [0x80AE]), (0x29A43, [0x5E79]), (0x29A8B, [0x87AF]), (0x29AA0, [0x81BA]), (0x29AEB, [0x9674])]),
  (0x29B, [
    (0x29B30, [0x29B1B])]),
  (0x29C, [
    (0x29C6C, [0x6DCB])]),
  (0x29D, [
    (0x29D40, [0x4C31]), (0x29D4B, [0x9C7C]), (0x29D6A, [0x9C40]), (0x29DD5, [0x4C76]), (0x29DF1, [0x9C40])]),
  (0x29E, [
    (0x29EB4, [0x9CD7]), (0x29EBA, [0x9C40]), (0x29EDB, [0x4C8B])]),
  (0x29F, [
    (0x29F06, [0x9CA4]), (0x29F1C, [0x27410]), (0x29F1E, [0x9CA4]), (0x29F59, [0x9C40]), (0x29F97, [0x9CED]), (0x29FC7, [0x96C7])]),
  (0x2A0, [
    (0x2A057, [0x9E2D]), (0x2A069, [0x96C9]), (0x2A0A1, [0x9E4F])]),
  (0x2A1, [
    (0x2A1AA, [0x9DC7]), (0x2A1B4, [0x4CEB]), (0x2A1BE, [0x9E51])]),
  (0x2A2, [
    (0x2A280, [0x490E]), (0x2A291, [0x9E89]), (0x2A2A8, [0x9E82]), (0x2A2E7, [0x9E9D])]),
  (0x2A3, [
    (0x2A301, [0x8292]), (0x2A311, [0x71AC]), (0x2A369, [0x9992]), (0x2A396, [0x7CDC])]),
  (0x2A4, [
    (0x2A424, [0x9C7F]), (0x2A45B, [0x9EF4]), (0x2A471, [0x526D]), (0x2A4A0, [0x9EEF]), (0x2A4DC, [0x86BE]), (0x2A4ED, [0x45A6]),
    (0x2A4F3, [0x8718]), (0x2A4F6, [0x9F07])]),
  (0x2A5, [
    (0x2A505, [0x5458]), (0x2A52B, [0x9F16]), (0x2A535, [0x9F16]), (0x2A5A6, [0x6D95]), (0x2A5C7, [0x8110]), (0x2A5C9, [0x7CA2])]),
  (0x2A6, [
    (0x2A600, [0x2A68F]), (0x2A60F, [0x8E00])]),
  (0x2B5, [
    (0x2B592, [0x97E0]), (0x2B5AF, [0x982B])]),
  (0x2B6, [
    (0x2B6DA, [0x9CFD])]),
  (0x2F8, [
    (0x2F800, [0x4E3D]), (0x2F801, [0x4E38]), (0x2F802, [0x4E41]), (0x2F803, [0x20122]), (0x2F804, [0x4F60]), (0x2F805, [0x4FAE]),
    (0x2F806, [0x4FBB]), (0x2F807, [0x4F75]), (0x2F808, [0x54B1]), (0x2F809, [0x5907]), (0x2F80A, [0x50E7]), (0x2F80B, [0x50CF]),
    (0x2F80C, [0x4FCA]), (0x2F80D, [0x2063A]), (0x2F80E, [0x514D]), (0x2F80F, [0x5154]), (0x2F810, [0x5164]), (0x2F811, [0x5177]),
    (0x2F812, [0x2051C]), (0x2F813, [0x34B9]), (0x2F814, [0x5185]), (0x2F815, [0x518D]), (0x2F816, [0x518C]), (0x2F817, [0x5197]),
    (0x2F818, [0x51A4]), (0x2F819, [0x51B0]), (0x2F81A, [0x51AC]), (0x2F81B, [0x51B5]), (0x2F81C, [0x291DF]), (0x2F81D, [0x51F5]),
    (0x2F81E, [0x5203]), (0x2F81F, [0x34DF]), (0x2F820, [0x523B]), (0x2F821, [0x5246]), (0x2F822, [0x5272]), (0x2F823, [0x5277]),
    (0x2F824, [0x3515]), (0x2F825, [0x52C7]), (0x2F826, [0x52C9]), (0x2F827, [0x52E4]), (0x2F828, [0x52FA]), (0x2F829, [0x5305]),
    (0x2F82A, [0x5306]), (0x2F82B, [0x5317]), (0x2F82C, [0x5349]), (0x2F82D, [0x5351]), (0x2F82E, [0x535A]), (0x2F82F, [0x5373]),
    (0x2F830, [0x5373]), (0x2F831, [0x537F]), (0x2F832, [0x537F]), (0x2F833, [0x537F]), (0x2F834, [0x20A2C]), (0x2F835, [0x7070]),
    (0x2F836, [0x53CA]), (0x2F837, [0x53DF]), (0x2F838, [0x20B63]), (0x2F839, [0x53EB]), (0x2F83A, [0x53F1]), (0x2F83B, [0x5406]),
    (0x2F83C, [0x54EF]), (0x2F83D, [0x5438]), (0x2F83E, [0x5448]), (0x2F83F, [0x5468]), (0x2F840, [0x54A2]), (0x2F841, [0x54F6]),
    (0x2F842, [0x5510]), (0x2F843, [0x542F]), (0x2F844, [0x5563]), (0x2F845, [0x5584]), (0x2F846, [0x5584]), (0x2F847, [0x5599]),
    (0x2F848, [0x55AB]), (0x2F849, [0x55B3]), (0x2F84A, [0x55C2]), (0x2F84B, [0x56FE]), (0x2F84C, [0x53F9]), (0x2F84D, [0x5717]),
    (0x2F84E, [0x5651]), (0x2F84F, [0x55B7]), (0x2F850, [0x5207]), (0x2F851, [0x58EE]), (0x2F852, [0x57CE]), (0x2F853, [0x57F4]),
    (0x2F854, [0x580D]), (0x2F855, [0x578B]), (0x2F856, [0x5832]), (0x2F857, [0x62A5]), (0x2F858, [0x58AC]), (0x2F859, [0x214E4]),
    (0x2F85A, [0x5356]), (0x2F85B, [0x58F6]), (0x2F85C, [0x5906]), (0x2F85D, [0x591A]), (0x2F85E, [0x68A6]), (0x2F85F, [0x5962]),
    (0x2F860, [0x216A8]), (0x2F861, [0x216EA]), (0x2F862, [0x59EC]), (0x2F863, [0x5A31]), (0x2F864, [0x5A27]), (0x2F865, [0x59D8]),
    (0x2F866, [0x5987]), (0x2F867, [0x5AC2]), (0x2F868, [0x36FC]), (0x2F869, [0x5A06]), (0x2F86A, [0x61D2]), (0x2F86B, [0x61D2]),
    (0x2F86C, [0x219C8]), (0x2F86D, [0x51A4]), (0x2F86E, [0x5BD8]), (0x2F86F, [0x5B81]), (0x2F870, [0x5B9D]), (0x2F871, [0x21B18]),
    (0x2F872, [0x5BFF]), (0x2F873, [0x5C06]), (0x2F874, [0x5F53]), (0x2F875, [0x5C22]), (0x2F876, [0x3781]), (0x2F877, [0x5C60]),
    (0x2F878, [0x5C6E]), (0x2F879, [0x5CC0]), (0x2F87A, [0x5C8D]), (0x2F87B, [0x21DE4]), (0x2F87C, [0x5D43]), (0x2F87D, [0x21DE6]),
    (0x2F87E, [0x5D6E]), (0x2F87F, [0x5D6B]), (0x2F880, [0x5D7C]), (0x2F881, [0x5DE1]), (0x2F882, [0x5DE2]), (0x2F883, [0x382F]),
    (0x2F884, [0x5DFD]), (0x2F885, [0x5E28]), (0x2F886, [0x5E3D]), (0x2F887, [0x5E69]), (0x2F888, [0x3862]), (0x2F889, [0x22183]),
    (0x2F88A, [0x387C]), (0x2F88B, [0x5EB0]), (0x2F88C, [0x5EB3]), (0x2F88D, [0x5EB6]), (0x2F88E, [0x5ECA]), (0x2F88F, [0x2A392]),
    (0x2F890, [0x5EFE]), (0x2F891, [0x22331]), (0x2F892, [0x22331]), (0x2F893, [0x8201]), (0x2F894, [0x5F22]), (0x2F895, [0x5F22]),
    (0x2F896, [0x38C7]), (0x2F897, [0x232B8]), (0x2F898, [0x5F5D]), (0x2F899, [0x5F62]), (0x2F89A, [0x5F6B]), (0x2F89B, [0x38E3]),
    (0x2F89C, [0x5F9A]), (0x2F89D, [0x5FCD]), (0x2F89E, [0x5FD7]), (0x2F89F, [0x5FF9]), (0x2F8A0, [0x6081]), (0x2F8A1, [0x614C]),
    (0x2F8A2, [0x391C]), (0x2F8A3, [0x6094]), (0x2F8A4, [0x226D4]), (0x2F8A5, [0x60C7]), (0x2F8A6, [0x6148]), (0x2F8A7, [0x614C]),
    (0x2F8A8, [0x614E]), (0x2F8A9, [0x614C]), (0x2F8AA, [0x617A]), (0x2F8AB, [0x618E]), (0x2F8AC, [0x5BAA]), (0x2F8AD, [0x6124]),
    (0x2F8AE, [0x61AF]), (0x2F8AF, [0x61DE]), (0x2F8B0, [0x60E9]), (0x2F8B1, [0x61D2]), (0x2F8B2, [0x6210]), (0x2F8B3, [0x621B]),
    (0x2F8B4, [0x625D]), (0x2F8B5, [0x62B1]), (0x2F8B6, [0x62D4]), (0x2F8B7, [0x6350]), (0x2F8B8, [0x62D4]), (0x2F8B9, [0x633D]),
    (0x2F8BA, [0x62FC]), (0x2F8BB, [0x6368]), (0x2F8BC, [0x626B]), (0x2F8BD, [0x63E4]), (0x2F8BE, [0x22BF1]), (0x2F8BF, [0x6422]),
    (0x2F8C0, [0x63C5]), (0x2F8C1, [0x63A9]), (0x2F8C2, [0x3A2E]), (0x2F8C3, [0x6469]), (0x2F8C4, [0x5F36]), (0x2F8C5, [0x649D]),
    (0x2F8C6, [0x6284]), (0x2F8C7, [0x3A6C]), (0x2F8C8, [0x654F]), (0x2F8C9, [0x656C]), (0x2F8CA, [0x2300A]), (0x2F8CB, [0x65E2]),
    (0x2F8CC, [0x4E66]), (0x2F8CD, [0x664B]), (0x2F8CE, [0x6690]), (0x2F8CF, [0x6691]), (0x2F8D0, [0x3B08]), (0x2F8D1, [0x3AE4]),
    (0x2F8D2, [0x5192]), (0x2F8D3, [0x5195]), (0x2F8D4, [0x6700]), (0x2F8D5, [0x666E]), (0x2F8D6, [0x80AD]), (0x2F8D7, [0x43D9]),
    (0x2F8D8, [0x6717]), (0x2F8D9, [0x671B]), (0x2F8DA, [0x6721]), (0x2F8DB, [0x675E]), (0x2F8DC, [0x6753]), (0x2F8DD, [0x233C3]),
    (0x2F8DE, [0x3B49]), (0x2F8DF, [0x62D0]), (0x2F8E0, [0x6785]), (0x2F8E1, [0x6851]), (0x2F8E2, [0x6885]), (0x2F8E3, [0x6805]),
    (0x2F8E4, [0x688E]), (0x2F8E5, [0x681F]), (0x2F8E6, [0x6914]), (0x2F8E7, [0x3B9D]), (0x2F8E8, [0x6942]), (0x2F8E9, [0x69A3]),
    (0x2F8EA, [0x6982]), (0x2F8EB, [0x6AA8]), (0x2F8EC, [0x236A3]), (0x2F8ED, [0x6809]), (0x2F8EE, [0x3C18]), (0x2F8EF, [0x6B21]),
    (0x2F8F0, [0x238A7]), (0x2F8F1, [0x6B54]), (0x2F8F2, [0x3C4E]), (0x2F8F3, [0x5C81]), (0x2F8F4, [0x6B9F]), (0x2F8F5, [0x6740]),
    (0x2F8F6, [0x58F3]), (0x2F8F7, [0x23A8D]), (0x2F8F8, [0x21D0B]), (0x2F8F9, [0x23AFA]), (0x2F8FA, [0x6C4E]), (0x2F8FB, [0x23CBC]),
    (0x2F8FC, [0x6CBF]), (0x2F8FD, [0x6CCD]), (0x2F8FE, [0x6C67]), (0x2F8FF, [0x6D16])]),
  (0x2F9, [
    (0x2F900, [0x6D3E]), (0x2F901, [0x6D77]), (0x2F902, [0x6D41]), (0x2F903, [0x6D69]), (0x2F904, [0x6D78]), (0x2F905, [0x6D85]),
    (0x2F906, [0x23D1E]), (0x2F907, [0x6D34]), (0x2F908, [0x6E2F]), (0x2F909, [0x6E6E]), (0x2F90A, [0x3D33]), (0x2F90B, [0x6ECB]),
    (0x2F90C, [0x6EC7]), (0x2F90D, [0x23ED1]), (0x2F90E, [0x6DF9]), (0x2F90F, [0x6F6E]), (0x2F910, [0x53AC]), (0x2F911, [0x23F8E]),
    (0x2F912, [0x6FC6]), (0x2F913, [0x7039]), (0x2F914, [0x701E]), (0x2F915, [0x701B]), (0x2F916, [0x3D96]), (0x2F917, [0x704A]),
    (0x2F918, [0x707E]), (0x2F919, [0x7077]), (0x2F91A, [0x70AD]), (0x2F91B, [0x20525]), (0x2F91C, [0x7145]), (0x2F91D, [0x707E]),
    (0x2F91E, [0x719C]), (0x2F91F, [0x243AB]), (0x2F920, [0x7228]), (0x2F921, [0x7235]), (0x2F922, [0x95F8]), (0x2F923, [0x7259]),
    (0x2F924, [0x7280]), (0x2F925, [0x7295]), (0x2F926, [0x24735]), (0x2F927, [0x24814]), (0x2F928, [0x736D]), (0x2F929, [0x738B]),
    (0x2F92A, [0x3EAC]), (0x2F92B, [0x73A5]), (0x2F92C, [0x3EB8]), (0x2F92D, [0x3EB8]), (0x2F92E, [0x73B3]), (0x2F92F, [0x745C]),
    (0x2F930, [0x7471]), (0x2F931, [0x7485]), (0x2F932, [0x743C]), (0x2F933, [0x3F1B]), (0x2F934, [0x8564]), (0x2F935, [0x7533]),
    (0x2F936, [0x753E]), (0x2F937, [0x24C92]), (0x2F938, [0x5F02]), (0x2F939, [0x2219F]), (0x2F93A, [0x7610]), (0x2F93B, [0x24FA1]),
    (0x2F93C, [0x24FB8]), (0x2F93D, [0x76C2]), (0x2F93E, [0x3FFC]), (0x2F93F, [0x4008]), (0x2F940, [0x76F4]), (0x2F941, [0x76F1]),
    (0x2F942, [0x250F2]), (0x2F943, [0x25119]), (0x2F944, [0x25133]), (0x2F945, [0x771F]), (0x2F946, [0x771F]), (0x2F947, [0x771F]),
    (0x2F948, [0x774A]), (0x2F949, [0x4039]), (0x2F94A, [0x778B]), (0x2F94B, [0x4046]), (0x2F94C, [0x77F3]), (0x2F94D, [0x2541D]),
    (0x2F94E, [0x784E]), (0x2F94F, [0x788C]), (0x2F950, [0x78CC]), (0x2F951, [0x40E3]), (0x2F952, [0x25626]), (0x2F953, [0x7956]),
    (0x2F954, [0x2569A]), (0x2F955, [0x4102]), (0x2F956, [0x798F]), (0x2F957, [0x79EB]), (0x2F958, [0x412F]), (0x2F959, [0x8C37]),
    (0x2F95A, [0x7A4A]), (0x2F95B, [0x7A33]), (0x2F95C, [0x2597C]), (0x2F95D, [0x25AA7]), (0x2F95E, [0x25AA7]), (0x2F95F, [0x7AEE]),
    (0x2F960, [0x4202]), (0x2F961, [0x25BAB]), (0x2F962, [0x7BC6]), (0x2F963, [0x7BC9]), (0x2F964, [0x4227]), (0x2F965, [0x25C80]),
    (0x2F966, [0x7CD2]), (0x2F967, [0x42A0]), (0x2F968, [0x7CE8]), (0x2F969, [0x7CC1]), (0x2F96A, [0x7EAA]), (0x2F96B, [0x7EA0]),
    (0x2F96C, [0x7D63]), (0x2F96D, [0x4645]), (0x2F96E, [0x7F01]), (0x2F96F, [0x603B]), (0x2F970, [0x7F2B]), (0x2F971, [0x4331]),
    (0x2F972, [0x26228]), (0x2F973, [0x74F6]), (0x2F974, [0x4359]), (0x2F975, [0x262D9]), (0x2F976, [0x7F7A]), (0x2F977, [0x7F82]),
    (0x2F978, [0x7F95]), (0x2F979, [0x7FF1]), (0x2F97A, [0x8005]), (0x2F97B, [0x264DD]), (0x2F97C, [0x26523]), (0x2F97D, [0x8060]),
    (0x2F97E, [0x43C0]), (0x2F97F, [0x806A]), (0x2F980, [0x2335F]), (0x2F981, [0x996A]), (0x2F982, [0x80B2]), (0x2F983, [0x8106]),
    (0x2F984, [0x440B]), (0x2F985, [0x813E]), (0x2F986, [0x5AB5]), (0x2F987, [0x7624]), (0x2F988, [0x267B5]), (0x2F989, [0x23393]),
    (0x2F98A, [0x5B55]), (0x2F98B, [0x8201]), (0x2F98C, [0x8204]), (0x2F98D, [0x8F9E]), (0x2F98E, [0x446B]), (0x2F98F, [0x8291]),
    (0x2F990, [0x828B]), (0x2F991, [0x829D]), (0x2F992, [0x52B3]), (0x2F993, [0x82B1]), (0x2F994, [0x82B3]), (0x2F995, [0x82BD]),
    (0x2F996, [0x82E6]), (0x2F997, [0x85BE]), (0x2F998, [0x82E5]), (0x2F999, [0x831D]), (0x2F99A, [0x8363]), (0x2F99B, [0x8282]),
    (0x2F99C, [0x8323]), (0x2F99D, [0x83BD]), (0x2F99E, [0x83E7]), (0x2F99F, [0x7740]), (0x2F9A0, [0x8353]), (0x2F9A1, [0x83CA]),
    (0x2F9A2, [0x83CC]), (0x2F9A3, [0x83DC]), (0x2F9A4, [0x26C36]), (0x2F9A5, [0x26D6B]), (0x2F9A6, [0x26CD5]), (0x2F9A7, [0x852C]),
    (0x2F9A8, [0x84F1]), (0x2F9A9, [0x84F3]), (0x2F9AA, [0x8516]), (0x2F9AB, [0x273CA]), (0x2F9AC, [0x8564]), (0x2F9AD, [0x83F9]),
    (0x2F9AE, [0x8542]), (0x2F9AF, [0x4561]), (0x2F9B0, [0x6284]), (0x2F9B1, [0x270D2]), (0x2F9B2, [0x5914]), (0x2F9B3, [0x8650]),
    (0x2F9B4, [0x864F]), (0x2F9B5, [0x4E8F]), (0x2F9B6, [0x8669]), (0x2F9B7, [0x86A9]), (0x2F9B8, [0x8688]), (0x2F9B9, [0x870E]),
    (0x2F9BA, [0x86E2]), (0x2F9BB, [0x8779]), (0x2F9BC, [0x8776]), (0x2F9BD, [0x870D]), (0x2F9BE, [0x8786]), (0x2F9BF, [0x8688]),
    (0x2F9C0, [0x87E1]), (0x2F9C1, [0x8801]), (0x2F9C2, [0x8786]), (0x2F9C3, [0x8860]), (0x2F9C4, [0x8863]), (0x2F9C5, [0x27667]),
    (0x2F9C6, [0x88D7]), (0x2F9C7, [0x88DE]), (0x2F9C8, [0x4635]), (0x2F9C9, [0x88FA]), (0x2F9CA, [0x34BB]), (0x2F9CB, [0x77D6]),
    (0x2F9CC, [0x8A0F]), (0x2F9CD, [0x46BE]), (0x2F9CE, [0x46C7]), (0x2F9CF, [0x8BDA]), (0x2F9D0, [0x8C15]), (0x2F9D1, [0x53D8]),
    (0x2F9D2, [0x8C55]), (0x2F9D3, [0x8C5C]), (0x2F9D4, [0x8D2F]), (0x2F9D5, [0x8D32]), (0x2F9D6, [0x8D63]), (0x2F9D7, [0x8D77]),
    (0x2F9D8, [0x27F2F]), (0x2F9D9, [0x20804]), (0x2F9DA, [0x8DCB]), (0x2F9DB, [0x8DBC]), (0x2F9DC, [0x8DF0]), (0x2F9DD, [0x519B]),
    (0x2F9DE, [0x8F6B]), (0x2F9DF, [0x8F93]), (0x2F9E0, [0x9706]), (0x2F9E1, [0x9057]), (0x2F9E2, [0x9094]), (0x2F9E3, [0x90F1]),
    (0x2F9E4, [0x9111]), (0x2F9E5, [0x537F]), (0x2F9E6, [0x911B]), (0x2F9E7, [0x94B9]), (0x2F9E8, [0x92D7]), (0x2F9E9, [0x92D8]),
    (0x2F9EA, [0x927C]), (0x2F9EB, [0x956A]), (0x2F9EC, [0x9415]), (0x2F9ED, [0x28BFA]), (0x2F9EE, [0x5F00]), (0x2F9EF, [0x959B]),
    (0x2F9F0, [0x6740]), (0x2F9F1, [0x960A]), (0x2F9F2, [0x912C]), (0x2F9F3, [0x96C3]), (0x2F9F4, [0x5DB2]), (0x2F9F5, [0x9723]),
    (0x2F9F6, [0x6EC2]), (0x2F9F7, [0x2921A]), (0x2F9F8, [0x4A6E]), (0x2F9F9, [0x4A76]), (0x2F9FA, [0x97E0]), (0x2F9FB, [0x9F51]),
    (0x2F9FC, [0x4AB2]), (0x2F9FD, [0x29496]), (0x2F9FE, [0x987E]), (0x2F9FF, [0x987E])]),
  (0x2FA, [
    (0x2FA00, [0x9829]), (0x2FA01, [0x4AFC]), (0x2FA02, [0x9965]), (0x2FA03, [0x7C84]), (0x2FA04, [0x9929]), (0x2FA05, [0x99A7]),
    (0x2FA06, [0x99C2]), (0x2FA07, [0x99FE]), (0x2FA08, [0x9AAD]), (0x2FA09, [0x29B1B]), (0x2FA0A, [0x9B12]), (0x2FA0B, [0x9C40]),
    (0x2FA0C, [0x9CFD]), (0x2FA0D, [0x4CCE]), (0x2FA0E, [0x4CED]), (0x2FA0F, [0x9D67]), (0x2FA10, [0x2A0CE]), (0x2FA12, [0x2A105]),
    (0x2FA13, [0x2A20E]), (0x2FA14, [0x9E89]), (0x2FA15, [0x9EBB]), (0x2FA16, [0x4D56]), (0x2FA17, [0x9EF9]), (0x2FA18, [0x9EFE]),
    (0x2FA19, [0x8718]), (0x2FA1A, [0x9F0F]), (0x2FA1B, [0x9F16]), (0x2FA1C, [0x9F3B]), (0x2FA1D, [0x2A68F])]),
  (0x34, [
    (0x3405, [0x4E94]), (0x3421, [0x61E6]), (0x3430, [0x4FE1]), (0x3433, [0x5140]), (0x3439, [0x4EE1]), (0x3442, [0x4EFF]),
    (0x3444, [0x4FAE]), (0x3447, [0x3473]), (0x345E, [0x5AB5]), (0x3464, [0x5A8C]), (0x346E, [0x2B748]), (0x3474, [0x4FB5]),
    (0x3477, [0x6001]), (0x347A, [0x4FCA]), (0x347D, [0x508F]), (0x3497, [0x5113]), (0x349A, [0x7A33]), (0x349E, [0x4FCA]),
    (0x34A4, [0x6151]), (0x34A8, [0x4ED9]), (0x34B2, [0x8D22]), (0x34B3, [0x4E24]), (0x34B6, [0x516C]), (0x34C2, [0x5BC7]),
    (0x34CA, [0x6D1E]), (0x34D5, [0x706D]), (0x34DB, [0x529F]), (0x34DC, [0x5E7C]), (0x34DD, [0x5211]), (0x34F6, [0x9532])]),
  (0x35, [
    (0x3503, [0x7EDD]), (0x3509, [0x529A]), (0x3518, [0x9EDC]), (0x351C, [0x52C3]), (0x352D, [0x5319]), (0x353A, [0x4E16]),
    (0x353D, [0x5363]), (0x3547, [0x782C]), (0x3548, [0x5EA1]), (0x3551, [0x53A8]), (0x3555, [0x5E7B]), (0x3556, [0x7D20]),
    (0x355A, [0x722A]), (0x355B, [0x53CB]), (0x355C, [0x53F2]), (0x355E, [0x5237]), (0x3560, [0x53CC]), (0x3564, [0x53F4]),
    (0x3565, [0x4EE5]), (0x357A, [0x547A]), (0x357C, [0x54C5]), (0x3581, [0x541D]), (0x3584, [0x558C]), (0x3595, [0x3596]),
    (0x359E, [0x558E]), (0x35A0, [0x90A3]), (0x35B6, [0x8AF2]), (0x35BE, [0x54A2]), (0x35C6, [0x55DD]), (0x35CB, [0x5589]),
    (0x35D0, [0x55D1]), (0x35D6, [0x5556]), (0x35E4, [0x5601]), (0x35FD, [0x54CD])]),
  (0x36, [
    (0x3605, [0x5563]), (0x360E, [0x361A]), (0x3611, [0x56C7]), (0x3613, [0x56D2]), (0x3615, [0x5682]), (0x3625, [0x56EE]),
    (0x362B, [0x5883]), (0x362F, [0x573A]), (0x3631, [0x574D]), (0x3634, [0x5750]), (0x3637, [0x827E]), (0x363B, [0x5794]),
    (0x363F, [0x573C]), (0x3641, [0x5776]), (0x365A, [0x57B6]), (0x3662, [0x5881]), (0x3672, [0x58C5]), (0x367C, [0x5792]),
    (0x3689, [0x5903]), (0x368C, [0x5925]), (0x368F, [0x5930]), (0x3690, [0x5957]), (0x36A2, [0x5974]), (0x36A3, [0x59E3]),
    (0x36A9, [0x59CC]), (0x36B3, [0x59BF]), (0x36B6, [0x59D2]), (0x36D4, [0x59A6]), (0x36D5, [0x59F6]), (0x36DB, [0x5A20]),
    (0x36E4, [0x5B4B]), (0x36E9, [0x59AF]), (0x36EE, [0x5AC2]), (0x36F0, [0x5A5A]), (0x36FD, [0x59D7])]),
  (0x37, [
    (0x370F, [0x5998]), (0x3711, [0x5A46]), (0x371C, [0x5AEF]), (0x3735, [0x349F]), (0x373B, [0x5A08]), (0x373D, [0x5B50]),
    (0x373E, [0x5B69]), (0x373F, [0x3428]), (0x3740, [0x597D]), (0x3748, [0x5B6A]), (0x3749, [0x5BA3]), (0x374A, [0x5B88]),
    (0x374B, [0x5BE5]), (0x374C, [0x759A]), (0x374D, [0x5199]), (0x3756, [0x5B9C]), (0x3759, [0x5BC5]), (0x375B, [0x5BBF]),
    (0x3761, [0x6700]), (0x3762, [0x5B87]), (0x3766, [0x5BEF]), (0x3767, [0x7A33]), (0x376F, [0x4FA8]), (0x3774, [0x5213]),
    (0x3777, [0x5BFB]), (0x3791, [0x5C3E]), (0x3795, [0x5C51]), (0x37A1, [0x5C55]), (0x37A2, [0x4E4B]), (0x37AF, [0x5C7A]),
    (0x37B6, [0x5CB7]), (0x37B9, [0x5CA2]), (0x37C1, [0x5CB8]), (0x37D2, [0x5CEE]), (0x37D4, [0x37CF]), (0x37E5, [0x5D7E]),
    (0x37E7, [0x5D3F]), (0x37E9, [0x5CB7]), (0x37ED, [0x5CB7]), (0x37FA, [0x5D5D]), (0x37FC, [0x3802])]),
  (0x38, [
    (0x3800, [0x5C9B]), (0x3801, [0x5D7E]), (0x3804, [0x5D8D]), (0x3810, [0x5CE4]), (0x3812, [0x37FD]), (0x3817, [0x5DB4]),
    (0x381C, [0x5DB7]), (0x381D, [0x5DD1]), (0x382D, [0x5C55]), (0x3836, [0x5E06]), (0x3838, [0x886D]), (0x3860, [0x5E27]),
    (0x3873, [0x5E95]), (0x387F, [0x65A5]), (0x3882, [0x3888]), (0x3898, [0x5EC9]), (0x38AA, [0x5F19]), (0x38AE, [0x5F1B]),
    (0x38B4, [0x897F]), (0x38BD, [0x9975]), (0x38CB, [0x4E39]), (0x38E6, [0x9036]), (0x38EB, [0x52A8]), (0x38F1, [0x47C4]),
    (0x38F2, [0x5FAE]), (0x38FC, [0x5FCD])]),
  (0x39, [
    (0x3900, [0x5FD8]), (0x3901, [0x5FDD]), (0x3902, [0x6025]), (0x3903, [0x59A8]), (0x3905, [0x7231]), (0x3907, [0x61CA]),
    (0x3913, [0x7B28]), (0x3919, [0x6069]), (0x391B, [0x6041]), (0x391F, [0x6050]), (0x3924, [0x395A]), (0x3929, [0x606A]),
    (0x392A, [0x6028]), (0x392C, [0x605A]), (0x3930, [0x600D]), (0x393A, [0x614C]), (0x3943, [0x95F7]), (0x394B, [0x506F]),
    (0x395E, [0x9083]), (0x3964, [0x77DC]), (0x3966, [0x60EC]), (0x3967, [0x987A]), (0x396B, [0x60C7]), (0x396E, [0x3918]),
    (0x3971, [0x60B1]), (0x3975, [0x6141]), (0x398D, [0x6115]), (0x3994, [0x6079]), (0x3996, [0x61D1]), (0x399E, [0x61E4]),
    (0x39A0, [0x603C]), (0x39A4, [0x61FF]), (0x39A7, [0x61AF]), (0x39AF, [0x6216]), (0x39B8, [0x621F]), (0x39BE, [0x624A]),
    (0x39BF, [0x6237]), (0x39CF, [0x6386]), (0x39D6, [0x627C]), (0x39E8, [0x624F]), (0x39F1, [0x62FF]), (0x39FC, [0x4FF5]),
    (0x39FF, [0x6450])]),
  (0x3A, [
    (0x3A08, [0x6324]), (0x3A14, [0x64BC]), (0x3A15, [0x650D]), (0x3A17, [0x6377]), (0x3A23, [0x62E5]), (0x3A24, [0x39DF]),
    (0x3A26, [0x39D0]), (0x3A2F, [0x6269]), (0x3A3F, [0x636E]), (0x3A40, [0x636E]), (0x3A41, [0x69B7]), (0x3A4E, [0x64EB]),
    (0x3A55, [0x62CE]), (0x3A57, [0x643A]), (0x3A65, [0x6515]), (0x3A66, [0x643A]), (0x3A70, [0x6284]), (0x3A73, [0x39D0]),
    (0x3A75, [0x64DC]), (0x3A7B, [0x6530]), (0x3A85, [0x66F4]), (0x3A89, [0x6546]), (0x3A9D, [0x62E3]), (0x3A9F, [0x6566]),
    (0x3AA3, [0x6572]), (0x3AC1, [0x65AD]), (0x3AC4, [0x65C1]), (0x3AC5, [0x65D7]), (0x3ACB, [0x65C3]), (0x3AD1, [0x65E8]),
    (0x3AD4, [0x826E]), (0x3ADE, [0x3AE6]), (0x3AE7, [0x66B4]), (0x3AEA, [0x6625]), (0x3AF3, [0x6668]), (0x3AFA, [0x6614])]),
  (0x3B, [
    (0x3B0C, [0x666F]), (0x3B0D, [0x66DD]), (0x3B19, [0x6690]), (0x3B1C, [0x664B]), (0x3B20, [0x6652]), (0x3B25, [0x66B4]),
    (0x3B27, [0x66B4]), (0x3B29, [0x66B3]), (0x3B31, [0x66FF]), (0x3B4A, [0x6790]), (0x3B4B, [0x68D2]), (0x3B4D, [0x67D2]),
    (0x3B4E, [0x68E1]), (0x3B71, [0x5323]), (0x3B7B, [0x68E0]), (0x3B84, [0x699C]), (0x3B86, [0x6AF1]), (0x3B8B, [0x682F]),
    (0x3B8C, [0x68C9]), (0x3B8E, [0x676F]), (0x3BA3, [0x6982]), (0x3BAE, [0x6854]), (0x3BB3, [0x681A]), (0x3BB5, [0x6834]),
    (0x3BC7, [0x6890]), (0x3BC8, [0x6A15]), (0x3BCD, [0x6868]), (0x3BD0, [0x692D]), (0x3BD3, [0x69BB]), (0x3BD6, [0x3B59]),
    (0x3BDF, [0x9E93]), (0x3BE3, [0x68FB]), (0x3BE6, [0x68CB]), (0x3BEA, [0x68C2])]),
  (0x3C, [
    (0x3C02, [0x68EF]), (0x3C05, [0x6A00]), (0x3C09, [0x699B]), (0x3C0F, [0x7BD9]), (0x3C10, [0x692D]), (0x3C16, [0x6984]),
    (0x3C19, [0x6A60]), (0x3C1E, [0x55E4]), (0x3C4F, [0x6B63]), (0x3C55, [0x5F52]), (0x3C58, [0x9B47]), (0x3C68, [0x6B93]),
    (0x3C7F, [0x58F3]), (0x3C87, [0x549A]), (0x3C88, [0x97F6]), (0x3C9C, [0x6BEF]), (0x3CAD, [0x6BEF]), (0x3CB2, [0x6C0E]),
    (0x3CB6, [0x6C2F]), (0x3CB7, [0x6C2E]), (0x3CBE, [0x96E8]), (0x3CC2, [0x6CBF]), (0x3CC3, [0x6DEC]), (0x3CC5, [0x6D41]),
    (0x3CC8, [0x6C9B]), (0x3CD1, [0x6EA2]), (0x3CD2, [0x6CD5]), (0x3CD9, [0x6D93]), (0x3CE0, [0x6FBE]), (0x3CED, [0x6D8E])]),
  (0x3D, [
    (0x3D05, [0x6D88]), (0x3D06, [0x6D78]), (0x3D09, [0x6D4E]), (0x3D15, [0x6F57]), (0x3D1E, [0x6ED4]), (0x3D34, [0x6E5B]),
    (0x3D3E, [0x6E24]), (0x3D4E, [0x6DA7]), (0x3D55, [0x6FA1]), (0x3D71, [0x6F02]), (0x3D78, [0x7039]), (0x3DA4, [0x7092]),
    (0x3DA8, [0x708B]), (0x3DAA, [0x708B]), (0x3DAB, [0x71CE]), (0x3DB3, [0x70EC]), (0x3DBB, [0x70FD]), (0x3DC7, [0x6062]),
    (0x3DCA, [0x711A]), (0x3DD3, [0x719C]), (0x3DD4, [0x7130]), (0x3DD6, [0x7167]), (0x3DD9, [0x714E]), (0x3DE9, [0x7199]),
    (0x3DF1, [0x718A]), (0x3DFB, [0x65E0])]),
  (0x3E, [
    (0x3E00, [0x70B1]), (0x3E01, [0x71AF]), (0x3E02, [0x71E7]), (0x3E09, [0x71EE]), (0x3E15, [0x652B]), (0x3E18, [0x4E07]),
    (0x3E27, [0x9F88]), (0x3E3E, [0x7263]), (0x3E60, [0x8C5A]), (0x3E64, [0x602F]), (0x3E83, [0x72D7]), (0x3E85, [0x7334]),
    (0x3E9A, [0x736D]), (0x3EAB, [0x738C]), (0x3EAE, [0x7397]), (0x3EB2, [0x94AE]), (0x3EB3, [0x73AB]), (0x3ECE, [0x745F]),
    (0x3ED7, [0x7432]), (0x3EDD, [0x3ECB]), (0x3EEE, [0x74A8])]),
  (0x3F, [
    (0x3F04, [0x7391]), (0x3F4D, [0x5769]), (0x3F52, [0x7525]), (0x3F56, [0x7559]), (0x3F57, [0x4EA9]), (0x3F5C, [0x7579]),
    (0x3F5E, [0x7559]), (0x3F6C, [0x8F90]), (0x3F6F, [0x7566]), (0x3F78, [0x760E]), (0x3F84, [0x8B9F]), (0x3F8A, [0x7620]),
    (0x3F8C, [0x7663]), (0x3FC2, [0x7665]), (0x3FCB, [0x7619]), (0x3FE2, [0x8000]), (0x3FF7, [0x7CD9])]),
  (0x40, [
    (0x4006, [0x5C3D]), (0x400B, [0x76D0]), (0x400E, [0x7704]), (0x4036, [0x4041]), (0x4049, [0x4048]), (0x4056, [0x779C]),
    (0x405E, [0x7701]), (0x4066, [0x89D1]), (0x4079, [0x7765]), (0x4093, [0x89C4]), (0x4096, [0x77F3]), (0x409D, [0x77FA]),
    (0x40A1, [0x7825]), (0x40A5, [0x7888]), (0x40B2, [0x781D]), (0x40BB, [0x9503]), (0x40CD, [0x5760]), (0x40D8, [0x787B]),
    (0x40E0, [0x78B9]), (0x40E9, [0x7847]), (0x40FA, [0x78E8])]),
  (0x41, [
    (0x4100, [0x7978]), (0x410C, [0x918A]), (0x4112, [0x7A14]), (0x4115, [0x793E]), (0x4122, [0x9F50]), (0x412B, [0x8291]),
    (0x412C, [0x79FB]), (0x412D, [0x5E74]), (0x413A, [0x7A0A]), (0x413D, [0x7C7C]), (0x4147, [0x7C9F]), (0x4149, [0x7A0F]),
    (0x415F, [0x7A47]), (0x4160, [0x7A0A]), (0x4192, [0x7A76]), (0x4197, [0x7A88]), (0x41A0, [0x5BA6]), (0x41A9, [0x51A5]),
    (0x41B2, [0x3769]), (0x41BB, [0x7A8D]), (0x41F2, [0x7B74])]),
  (0x42, [
    (0x4230, [0x68A2]), (0x427C, [0x6599]), (0x427D, [0x7C84]), (0x428B, [0x7CDA]), (0x428F, [0x7CC1]), (0x42B6, [0x7EBC]),
    (0x42B7, [0x7F01]), (0x42C1, [0x7EE0]), (0x42C4, [0x7F51]), (0x42DC, [0x7DAE]), (0x42DE, [0x7F51]), (0x42E0, [0x8865]),
    (0x42E7, [0x7D47]), (0x42EF, [0x7DAE]), (0x42F2, [0x7EF3]), (0x42F3, [0x8919]), (0x42F8, [0x4649]), (0x42F9, [0x5E45])]),
  (0x43, [
    (0x4301, [0x4645]), (0x4304, [0x7EE0]), (0x4307, [0x7D22]), (0x4309, [0x7EB2]), (0x430A, [0x7E47]), (0x4313, [0x7E41]),
    (0x4315, [0x7E3B]), (0x431B, [0x7E47]), (0x432B, [0x7F06]), (0x4334, [0x4331]), (0x4337, [0x7D2C]), (0x4339, [0x7D45]),
    (0x433D, [0x7DB5]), (0x4348, [0x74F6]), (0x435E, [0x7F6D]), (0x4369, [0x517B]), (0x436D, [0x7242]), (0x4379, [0x7FB6]),
    (0x43A3, [0x801C]), (0x43B1, [0x43AC]), (0x43B9, [0x95FB]), (0x43BE, [0x7754]), (0x43CA, [0x804B]), (0x43CB, [0x8083]),
    (0x43D2, [0x80D6]), (0x43D4, [0x8098]), (0x43D5, [0x996A]), (0x43DD, [0x819E]), (0x43EF, [0x75E3]), (0x43F8, [0x4433]),
    (0x43FB, [0x80FD])]),
  (0x44, [
    (0x440C, [0x8146]), (0x4417, [0x809A]), (0x4421, [0x8110]), (0x4452, [0x5230]), (0x4453, [0x81FA]), (0x4455, [0x9F20]),
    (0x445B, [0x8210]), (0x445E, [0x821C]), (0x4480, [0x4467]), (0x4482, [0x6868]), (0x4483, [0x9020]), (0x4497, [0x829E]),
    (0x44A3, [0x82D2]), (0x44A9, [0x8402]), (0x44AC, [0x83AB]), (0x44AD, [0x7B49]), (0x44B1, [0x84B8]), (0x44B6, [0x5929]),
    (0x44C1, [0x7B49]), (0x44C5, [0x82B9]), (0x44CA, [0x8323]), (0x44D6, [0x85ED]), (0x44D7, [0x8525]), (0x44E6, [0x5178]),
    (0x44F6, [0x85FE]), (0x44F7, [0x8347]), (0x44F9, [0x9950]), (0x44FA, [0x863C]), (0x44FF, [0x83E1])]),
  (0x45, [
    (0x4509, [0x849C]), (0x450B, [0x838E]), (0x450D, [0x7B03]), (0x4512, [0x84D3]), (0x4525, [0x8427]), (0x452B, [0x852C]),
    (0x4535, [0x844C]), (0x4543, [0x836B]), (0x454F, [0x83AA]), (0x4551, [0x8470]), (0x4556, [0x836A]), (0x455A, [0x8489]),
    (0x455D, [0x8542]), (0x4560, [0x855F]), (0x4564, [0x8572]), (0x4568, [0x85E4]), (0x456B, [0x5914]), (0x456E, [0x83CA]),
    (0x456F, [0x85B8]), (0x4580, [0x8648]), (0x4582, [0x864A]), (0x458B, [0x8650]), (0x458D, [0x8654]), (0x458F, [0x5904]),
    (0x45A0, [0x8788]), (0x45A3, [0x86A4]), (0x45A4, [0x873F]), (0x45AB, [0x868C]), (0x45AE, [0x8801]), (0x45B8, [0x86FE]),
    (0x45B9, [0x86D8]), (0x45BD, [0x870A]), (0x45BF, [0x870A]), (0x45CB, [0x86D1]), (0x45CF, [0x878B]), (0x45D7, [0x8688]),
    (0x45EA, [0x87C5]), (0x45EB, [0x87C6]), (0x45F6, [0x8721]), (0x45F9, [0x8786]), (0x45FE, [0x86AC])]),
  (0x46, [
    (0x4601, [0x883D]), (0x4603, [0x87D4]), (0x4607, [0x868A]), (0x460A, [0x881B]), (0x460B, [0x4602]), (0x4610, [0x8844]),
    (0x4614, [0x5580]), (0x4619, [0x536B]), (0x461A, [0x5352]), (0x461C, [0x5DFE]), (0x4629, [0x88A8]), (0x462B, [0x88BD]),
    (0x462E, [0x4E27]), (0x4631, [0x88D5]), (0x463F, [0x88A6]), (0x4640, [0x7EF7]), (0x4653, [0x896C]), (0x4656, [0x7EF7]),
    (0x4657, [0x8905]), (0x465D, [0x4EB5]), (0x4661, [0x464C]), (0x466A, [0x897B]), (0x466D, [0x8930]), (0x4670, [0x8935]),
    (0x4673, [0x719B]), (0x467A, [0x899D]), (0x4695, [0x77D6]), (0x469E, [0x6B79]), (0x469F, [0x6B79]), (0x46B0, [0x8B4C]),
    (0x46B1, [0x4FE1]), (0x46B2, [0x8BAA]), (0x46B9, [0x8B4C]), (0x46C2, [0x8A83]), (0x46CC, [0x46EC]), (0x46D0, [0x8BCD]),
    (0x46D1, [0x8C27]), (0x46D2, [0x8FA9]), (0x46D5, [0x8C00]), (0x46D6, [0x8A4D]), (0x46D8, [0x46BE]), (0x46DB, [0x8A6F]),
    (0x46DC, [0x8BAF]), (0x46DF, [0x550A]), (0x46E1, [0x8BDD]), (0x46E6, [0x8BBC]), (0x46E7, [0x8C1C]), (0x46EE, [0x5003]),
    (0x46FA, [0x8BEB]), (0x46FC, [0x8B6D])]),
  (0x47, [
    (0x4701, [0x8B11]), (0x4703, [0x5860]), (0x4704, [0x8B18]), (0x4718, [0x8B66]), (0x471B, [0x8C17]), (0x471F, [0x8C36]),
    (0x4729, [0x8B8C]), (0x4735, [0x8C49]), (0x473B, [0x8C49]), (0x473F, [0x7AD6]), (0x4742, [0x7AD6]), (0x4747, [0x8C57]),
    (0x4748, [0x8C5F]), (0x4757, [0x8C85]), (0x4758, [0x6BC5]), (0x4760, [0x7342]), (0x4768, [0x8D24]), (0x476F, [0x8CA4]),
    (0x4774, [0x9F4E]), (0x477C, [0x478D]), (0x477E, [0x8D4B]), (0x477F, [0x8D35]), (0x478B, [0x56AB]), (0x47AC, [0x900F]),
    (0x47B0, [0x47C4]), (0x47BC, [0x7A9C]), (0x47C6, [0x8DF8]), (0x47CE, [0x8DB1]), (0x47D6, [0x8DBE]), (0x47DA, [0x8E11]),
    (0x47E6, [0x8DCB])]),
  (0x48, [
    (0x4801, [0x8DFB]), (0x4802, [0x695A]), (0x480A, [0x5255]), (0x480E, [0x9F8C]), (0x4825, [0x8E69]), (0x482E, [0x817E]),
    (0x4830, [0x8E21]), (0x4832, [0x8046]), (0x4836, [0x5C04]), (0x4839, [0x9AB8]), (0x4840, [0x5103]), (0x4845, [0x8F34]),
    (0x4847, [0x8ECF]), (0x484B, [0x8EDD]), (0x484C, [0x9783]), (0x4856, [0x8F7B]), (0x4858, [0x4852]), (0x4859, [0x8F2C]),
    (0x4865, [0x4846]), (0x4879, [0x8F7E]), (0x487C, [0x8EE8]), (0x4884, [0x67B2]), (0x4889, [0x519C]), (0x489C, [0x5F52]),
    (0x489F, [0x7531]), (0x48A0, [0x9001]), (0x48A4, [0x8FF0]), (0x48A6, [0x5E05]), (0x48AA, [0x6A47]), (0x48AB, [0x968F]),
    (0x48AF, [0x9074]), (0x48B5, [0x90E7]), (0x48B7, [0x90A3]), (0x48BE, [0x59FA]), (0x48CC, [0x90B8]), (0x48DE, [0x9102]),
    (0x48E8, [0x9187]), (0x48F4, [0x9157])]),
  (0x49, [
    (0x491C, [0x949D]), (0x491E, [0x9217]), (0x491F, [0x9202]), (0x4920, [0x9224]), (0x4928, [0x91FD]), (0x4931, [0x8A93]),
    (0x4939, [0x953C]), (0x4945, [0x7434]), (0x4946, [0x7434]), (0x4947, [0x4982]), (0x494A, [0x9516]), (0x4950, [0x936A]),
    (0x4951, [0x933D]), (0x4955, [0x9405]), (0x4956, [0x94BF]), (0x495A, [0x521D]), (0x4962, [0x93E7]), (0x4976, [0x9549]),
    (0x4977, [0x94E1]), (0x497A, [0x91FE]), (0x497D, [0x93FA]), (0x4983, [0x942F]), (0x4985, [0x9425]), (0x4986, [0x9481]),
    (0x4987, [0x9AFB]), (0x4995, [0x959B]), (0x4999, [0x5BFA]), (0x499B, [0x49B6]), (0x499C, [0x90DA]), (0x499E, [0x95F0]),
    (0x499F, [0x7A33]), (0x49A7, [0x960B]), (0x49A8, [0x9611]), (0x49B7, [0x7A33]), (0x49CD, [0x9699]), (0x49D5, [0x57DF]),
    (0x49D9, [0x9675]), (0x49DC, [0x5858]), (0x49E0, [0x911F]), (0x49E1, [0x5889]), (0x49E3, [0x967B]), (0x49E6, [0x912C]),
    (0x49F8, [0x9E2A]), (0x49FB, [0x9E3D]), (0x49FC, [0x9E44]), (0x49FF, [0x9E4A])]),
  (0x4A, [
    (0x4A03, [0x9DC3]), (0x4A05, [0x9E69]), (0x4A06, [0x9DE9]), (0x4A07, [0x53CC]), (0x4A09, [0x9E66]), (0x4A0E, [0x9710]),
    (0x4A13, [0x96F7]), (0x4A14, [0x96F9]), (0x4A16, [0x9701]), (0x4A19, [0x972A]), (0x4A20, [0x972D]), (0x4A26, [0x96F1]),
    (0x4A29, [0x7075]), (0x4A2A, [0x973E]), (0x4A2B, [0x9721]), (0x4A2D, [0x9704]), (0x4A2E, [0x96EA]), (0x4A36, [0x9723]),
    (0x4A37, [0x9730]), (0x4A51, [0x9783]), (0x4A5A, [0x4A58]), (0x4A66, [0x9797]), (0x4A75, [0x97D7]), (0x4A78, [0x7E19]),
    (0x4A7F, [0x9F16]), (0x4A84, [0x714C]), (0x4AA0, [0x9F51]), (0x4AA1, [0x9F51]), (0x4AA2, [0x9F51]), (0x4ACD, [0x982B]),
    (0x4AD9, [0x98A1]), (0x4ADD, [0x99A5]), (0x4AEB, [0x9AC5]), (0x4AF1, [0x98A5]), (0x4AF7, [0x989A])]),
  (0x4B, [
    (0x4B03, [0x98D2]), (0x4B17, [0x98CF]), (0x4B19, [0x98BB]), (0x4B1A, [0x98BF]), (0x4B1D, [0x4B16]), (0x4B24, [0x9961]),
    (0x4B25, [0x9950]), (0x4B2A, [0x998E]), (0x4B2E, [0x9974]), (0x4B33, [0x7C84]), (0x4B3B, [0x996F]), (0x4B4B, [0x9971]),
    (0x4B4C, [0x992C]), (0x4B5B, [0x994F]), (0x4B66, [0x998E]), (0x4B6B, [0x7A3D]), (0x4B6C, [0x7A3D]), (0x4B76, [0x9A90]),
    (0x4B7C, [0x9A90]), (0x4B7E, [0x9A6E]), (0x4B81, [0x9A88]), (0x4B83, [0x9A71]), (0x4B86, [0x99D3]), (0x4B87, [0x9A48]),
    (0x4B88, [0x9A70]), (0x4B90, [0x99C9]), (0x4B9B, [0x9A78]), (0x4BB2, [0x9A1C]), (0x4BBC, [0x9A4E]), (0x4BBE, [0x299EA]),
    (0x4BBF, [0x9A9E]), (0x4BC1, [0x9AA1]), (0x4BCE, [0x9AAD]), (0x4BD0, [0x9AB8]), (0x4BD7, [0x9AC0]), (0x4BDD, [0x9AD3]),
    (0x4BEF, [0x9AFF]), (0x4BF3, [0x9B06]), (0x4BFA, [0x9AFA])]),
  (0x4C, [
    (0x4C05, [0x9B1A]), (0x4C0B, [0x9B18]), (0x4C11, [0x9B1A]), (0x4C14, [0x4C09]), (0x4C19, [0x9218]), (0x4C1B, [0x9B32]),
    (0x4C1C, [0x9B32]), (0x4C1F, [0x9B42]), (0x4C23, [0x9B4D]), (0x4C28, [0x9B45]), (0x4C2D, [0x4C30]), (0x4C3A, [0x9B6A]),
    (0x4C3F, [0x9B80]), (0x4C44, [0x9B6A]), (0x4C46, [0x9C66]), (0x4C48, [0x9BA8]), (0x4C54, [0x9BC8]), (0x4C56, [0x9C21]),
    (0x4C58, [0x9BEC]), (0x4C5F, [0x871B]), (0x4C70, [0x9C96]), (0x4C77, [0x4CA3]), (0x4C7D, [0x9CB3]), (0x4C84, [0x9CD8]),
    (0x4C8D, [0x9C27]), (0x4C9F, [0x9BA3]), (0x4CA0, [0x9C06]), (0x4CA1, [0x9C0C]), (0x4CA2, [0x9C27]), (0x4CA5, [0x9E20]),
    (0x4CA8, [0x9E3F]), (0x4CAB, [0x9E20]), (0x4CB4, [0x9E29]), (0x4CB5, [0x96C0]), (0x4CB7, [0x67AD]), (0x4CCA, [0x4CC1]),
    (0x4CCC, [0x9E43]), (0x4CD2, [0x9E22]), (0x4CD8, [0x9E45]), (0x4CDC, [0x9D4C]), (0x4CE8, [0x51F0]), (0x4CF6, [0x9E02]),
    (0x4CF8, [0x2FA11]), (0x4CFC, [0x9E25]), (0x4CFD, [0x9E64])]),
  (0x4D, [
    (0x4D09, [0x9E6E]), (0x4D0A, [0x9E03]), (0x4D0B, [0x9E6E]), (0x4D0C, [0x9E0F]), (0x4D0E, [0x9E13]), (0x4D12, [0x9E30]),
    (0x4D13, [0x9CFE]), (0x4D14, [0x9D41]), (0x4D15, [0x9D37]), (0x4D16, [0x9D84]), (0x4D17, [0x9DAA]), (0x4D18, [0x9DC9]),
    (0x4D21, [0x4E3D]), (0x4D25, [0x9E9A]), (0x4D44, [0x9EB7]), (0x4D46, [0x4D3F]), (0x4D5B, [0x4D56]), (0x4D5E, [0x9EE5]),
    (0x4D79, [0x8718]), (0x4D7A, [0x5722]), (0x4D87, [0x9F2C]), (0x4D9A, [0x9F8B]), (0x4DAE, [0x9F91])]),
  (0x4E, [
    (0x4E04, [0x4E0A]), (0x4E05, [0x4E0B]), (0x4E0C, [0x5176]), (0x4E17, [0x4E16]), (0x4E1F, [0x4E22]), (0x4E20, [0x5180]),
    (0x4E21, [0x4E24]), (0x4E23, [0x9149]), (0x4E26, [0x5E76]), (0x4E3C, [0x4E95]), (0x4E46, [0x4E45]), (0x4E55, [0x864E]),
    (0x4E57, [0x4E58]), (0x4E68, [0x59CB]), (0x4E79, [0x4E7E]), (0x4E7F, [0x6CBB]), (0x4E80, [0x9F9F]), (0x4E81, [0x4E7E]),
    (0x4E82, [0x4E71]), (0x4E8A, [0x4E8B]), (0x4E93, [0x5176]), (0x4E97, [0x5C81]), (0x4E9C, [0x4E9A]), (0x4E9D, [0x9F50]),
    (0x4E9E, [0x4E9A]), (0x4EAF, [0x4EAB]), (0x4EB0, [0x4EAC]), (0x4EB1, [0x591C]), (0x4EBE, [0x4EA1]), (0x4ECC, [0x51B0]),
    (0x4ECF, [0x4F5B]), (0x4EE6, [0x4EEF]), (0x4EED, [0x4EDE]), (0x4EEE, [0x5047]), (0x4EFE, [0x4F4E])]),
  (0x4F, [
    (0x4F02, [0x6C9B]), (0x4F03, [0x59A4]), (0x4F16, [0x5E11]), (0x4F1C, [0x5005]), (0x4F1D, [0x4F20]), (0x4F29, [0x4FE1]),
    (0x4F2E, [0x52AA]), (0x4F35, [0x4F90]), (0x4F40, [0x4F3C]), (0x4F44, [0x9163]), (0x4F47, [0x4F2B]), (0x4F4B, [0x662D]),
    (0x4F72, [0x9169]), (0x4F82, [0x8BAC]), (0x4F86, [0x6765]), (0x4F8C, [0x9634]), (0x4F96, [0x4ED1]), (0x4FA1, [0x4EF7]),
    (0x4FAB, [0x4F5E]), (0x4FB6, [0x4FA3]), (0x4FBD, [0x7537]), (0x4FC1, [0x4FE3]), (0x4FD6, [0x500D]), (0x4FE0, [0x4FA0]),
    (0x4FFB, [0x5907])]),
  (0x50, [
    (0x5000, [0x4F25]), (0x5002, [0x4F75]), (0x5006, [0x4FE9]), (0x5009, [0x4ED3]), (0x500B, [0x4E2A]), (0x5010, [0x500F]),
    (0x5011, [0x4EEC]), (0x5023, [0x4EFF]), (0x5024, [0x503C]), (0x502B, [0x4F26]), (0x5036, [0x4FF1]), (0x5039, [0x4FED]),
    (0x5040, [0x82F1]), (0x5041, [0x79F0]), (0x5045, [0x50EE]), (0x5049, [0x4F1F]), (0x5058, [0x4F83]), (0x5062, [0x50FD]),
    (0x5069, [0x8D1F]), (0x506A, [0x903C]), (0x5074, [0x4FA7]), (0x5075, [0x4FA6]), (0x5079, [0x5907]), (0x507A, [0x54B1]),
    (0x507D, [0x4F2A]), (0x5093, [0x717D]), (0x5096, [0x4F27]), (0x5098, [0x4F1E]), (0x5099, [0x5907]), (0x50AF, [0x506C]),
    (0x50B3, [0x4F20]), (0x50B4, [0x4F1B]), (0x50B5, [0x503A]), (0x50B7, [0x4F24]), (0x50BE, [0x503E]), (0x50C2, [0x507B]),
    (0x50C5, [0x4EC5]), (0x50C9, [0x4F65]), (0x50D1, [0x4FA8]), (0x50DE, [0x4F2A]), (0x50E5, [0x4FA5]), (0x50E8, [0x507E]),
    (0x50E9, [0x50F4]), (0x50EB, [0x5641]), (0x50F2, [0x4ED9]), (0x50F7, [0x505E]), (0x50F9, [0x4EF7])]),
  (0x51, [
    (0x5100, [0x4EEA]), (0x5101, [0x4FCA]), (0x5102, [0x4FAC]), (0x5104, [0x4EBF]), (0x5108, [0x4FA9]), (0x5109, [0x4FED]),
    (0x510C, [0x4FA5]), (0x510D, [0x50BB]), (0x5110, [0x50A7]), (0x5114, [0x4FE6]), (0x5115, [0x4FAA]), (0x5118, [0x4FAD]),
    (0x511F, [0x507F]), (0x512A, [0x4F18]), (0x512B, [0x8C6A]), (0x5132, [0x50A8]), (0x5137, [0x4FEA]), (0x513A, [0x50A9]),
    (0x513B, [0x50A5]), (0x513C, [0x4FE8]), (0x513D, [0x50AB]), (0x5142, [0x7C2A]), (0x514A, [0x5151]), (0x514C, [0x5151]),
    (0x514E, [0x5154]), (0x5150, [0x513F]), (0x5152, [0x513F]), (0x5157, [0x5156]), (0x5166, [0x4EA1]), (0x5167, [0x5185]),
    (0x5169, [0x4E24]), (0x516A, [0x4FDE]), (0x517E, [0x5180]), (0x517F, [0x827A]), (0x5183, [0x5E3D]), (0x5184, [0x5189]),
    (0x5186, [0x5706]), (0x518A, [0x518C]), (0x5190, [0x5192]), (0x519D, [0x5B9C]), (0x51A1, [0x8499]), (0x51A3, [0x6700]),
    (0x51A6, [0x5BC7]), (0x51A8, [0x5BCC]), (0x51A9, [0x5199]), (0x51AA, [0x5196]), (0x51AB, [0x51B0]), (0x51B1, [0x51B4]),
    (0x51BA, [0x6CEF]), (0x51BE, [0x6D3D]), (0x51CD, [0x51BB]), (0x51DC, [0x51DB]), (0x51DE, [0x7199]), (0x51E3, [0x51E2]),
    (0x51E6, [0x5904]), (0x51E8, [0x98CE]), (0x51F1, [0x51EF]), (0x51FC, [0x5E7D])]),
  (0x52, [
    (0x5202, [0x5200]), (0x5204, [0x5203]), (0x5209, [0x520F]), (0x5225, [0x522B]), (0x5226, [0x52AB]), (0x5227, [0x52AB]),
    (0x522A, [0x5220]), (0x5234, [0x5241]), (0x523C, [0x52AB]), (0x5244, [0x522D]), (0x5247, [0x5219]), (0x524E, [0x5239]),
    (0x5257, [0x522C]), (0x525B, [0x521A]), (0x525D, [0x5265]), (0x5263, [0x5251]), (0x5264, [0x5242]), (0x526E, [0x5250]),
    (0x5270, [0x5269]), (0x5274, [0x5240]), (0x5275, [0x521B]), (0x527A, [0x5253]), (0x5283, [0x5212]), (0x5287, [0x5267]),
    (0x5289, [0x5218]), (0x528A, [0x523D]), (0x528B, [0x527F]), (0x528C, [0x523F]), (0x528D, [0x5251]), (0x5291, [0x5242]),
    (0x52A2, [0x52B1]), (0x52B4, [0x52B3]), (0x52B9, [0x6548]), (0x52C1, [0x52B2]), (0x52C4, [0x654F]), (0x52C5, [0x6555]),
    (0x52C8, [0x52C7]), (0x52D0, [0x731B]), (0x52D5, [0x52A8]), (0x52D9, [0x52A1]), (0x52DB, [0x52CB]), (0x52DD, [0x80DC]),
    (0x52DE, [0x52B3]), (0x52E2, [0x52BF]), (0x52E3, [0x7EE9]), (0x52E6, [0x527F]), (0x52E7, [0x529D]), (0x52E9, [0x52DA]),
    (0x52F2, [0x52CB]), (0x52F3, [0x52CB]), (0x52F5, [0x52B1]), (0x52F8, [0x529D]), (0x52FB, [0x5300])]),
  (0x53, [
    (0x5304, [0x4E10]), (0x5307, [0x5306]), (0x531E, [0x5320]), (0x531F, [0x7095]), (0x5325, [0x7B32]), (0x5329, [0x5321]),
    (0x532D, [0x5326]), (0x532F, [0x6C47]), (0x5331, [0x532E]), (0x5338, [0x653E]), (0x5340, [0x533A]), (0x5346, [0x5352]),
    (0x534B, [0x4E16]), (0x5354, [0x534F]), (0x5358, [0x5355]), (0x5365, [0x897F]), (0x536D, [0x909B]), (0x537B, [0x5374]),
    (0x537D, [0x5373]), (0x5380, [0x819D]), (0x5397, [0x9511]), (0x5399, [0x538D]), (0x539B, [0x5385]), (0x53A0, [0x5395]),
    (0x53AD, [0x538C]), (0x53AF, [0x6B77]), (0x53B2, [0x5389]), (0x53B3, [0x4E25]), (0x53B4, [0x53A3]), (0x53B5, [0x6E90]),
    (0x53BA, [0x53BB]), (0x53C1, [0x53C2]), (0x53C3, [0x53C2]), (0x53CE, [0x6536]), (0x53CF, [0x592C]), (0x53D3, [0x4E8B]),
    (0x53DC, [0x53DF]), (0x53E2, [0x4E1B])]),
  (0x54, [
    (0x5407, [0x5527]), (0x5422, [0x5423]), (0x5433, [0x5434]), (0x543D, [0x543C]), (0x543F, [0x544A]), (0x5445, [0x543B]),
    (0x5449, [0x5434]), (0x544C, [0x53EB]), (0x5451, [0x541E]), (0x545D, [0x5443]), (0x5463, [0x8C0B]), (0x546A, [0x5492]),
    (0x548A, [0x548C]), (0x549E, [0x54EF]), (0x54AE, [0x5685]), (0x54B2, [0x7B11]), (0x54B6, [0x8210]), (0x54BC, [0x5459]),
    (0x54CC, [0x5471]), (0x54E1, [0x5458]), (0x54F0, [0x5520])]),
  (0x55, [
    (0x5503, [0x5502]), (0x5504, [0x5457]), (0x5516, [0x54D1]), (0x5519, [0x5600]), (0x554F, [0x95EE]), (0x5552, [0x553F]),
    (0x5553, [0x542F]), (0x5554, [0x542F]), (0x5557, [0x5556]), (0x5559, [0x5470]), (0x555E, [0x54D1]), (0x555F, [0x542F]),
    (0x5562, [0x5521]), (0x5568, [0x60C5]), (0x557A, [0x5510]), (0x5585, [0x5537]), (0x559A, [0x5524]), (0x559E, [0x5527]),
    (0x55A8, [0x54F4]), (0x55A9, [0x55BB]), (0x55AA, [0x4E27]), (0x55AC, [0x4E54]), (0x55AE, [0x5355]), (0x55B2, [0x54DF]),
    (0x55B6, [0x8425]), (0x55C6, [0x545B]), (0x55C7, [0x556C]), (0x55CA, [0x551D]), (0x55CD, [0x55FD]), (0x55CE, [0x5417]),
    (0x55DA, [0x545C]), (0x55E9, [0x5522]), (0x55F6, [0x54D4]), (0x55F8, [0x55F7])]),
  (0x56, [
    (0x5606, [0x53F9]), (0x560A, [0x5540]), (0x560D, [0x55BD]), (0x5614, [0x5455]), (0x5616, [0x5567]), (0x5617, [0x5C1D]),
    (0x561C, [0x551B]), (0x5620, [0x560E]), (0x5628, [0x5578]), (0x5629, [0x54D7]), (0x562B, [0x7136]), (0x562E, [0x5520]),
    (0x562F, [0x5578]), (0x5630, [0x53FD]), (0x5635, [0x54D3]), (0x5637, [0x55E5]), (0x5638, [0x5452]), (0x5644, [0x55AB]),
    (0x564D, [0x56BC]), (0x564F, [0x5438]), (0x5650, [0x5668]), (0x5653, [0x5618]), (0x5656, [0x541F]), (0x565D, [0x549D]),
    (0x5660, [0x54D2]), (0x5661, [0x8C35]), (0x5665, [0x54DD]), (0x5666, [0x54D5]), (0x566F, [0x55F3]), (0x5672, [0x54D9]),
    (0x5674, [0x55B7]), (0x5678, [0x5428]), (0x567E, [0x5591]), (0x5680, [0x549B]), (0x5687, [0x5413]), (0x5689, [0x5484]),
    (0x5695, [0x565C]), (0x5696, [0x5612]), (0x5699, [0x556E]), (0x569E, [0x5586]), (0x56A0, [0x6D4F]), (0x56A2, [0x56CA]),
    (0x56A6, [0x5456]), (0x56A8, [0x5499]), (0x56AD, [0x567D]), (0x56B3, [0x55BE]), (0x56B4, [0x4E25]), (0x56B6, [0x5624]),
    (0x56BB, [0x56A3]), (0x56C0, [0x556D]), (0x56C1, [0x55EB]), (0x56C2, [0x56A3]), (0x56C5, [0x5181]), (0x56C8, [0x5453]),
    (0x56C9, [0x5570]), (0x56CC, [0x82CF]), (0x56CF, [0x8270]), (0x56D1, [0x5631]), (0x56D8, [0x56DE]), (0x56D9, [0x56E0]),
    (0x56E3, [0x56E2]), (0x56F2, [0x56F4]), (0x56F3, [0x56FE]), (0x56F8, [0x65E5]), (0x56FC, [0x80CE])]),
  (0x57, [
    (0x5707, [0x56F5]), (0x570B, [0x56FD]), (0x570D, [0x56F4]), (0x570F, [0x5708]), (0x5712, [0x56ED]), (0x5713, [0x5706]),
    (0x5716, [0x56FE]), (0x5718, [0x56E2]), (0x5721, [0x571F]), (0x5727, [0x538B]), (0x572B, [0x58BA]), (0x5735, [0x58E4]),
    (0x5744, [0x57BC]), (0x574B, [0x574C]), (0x5753, [0x578B]), (0x5754, [0x5730]), (0x5763, [0x58C6]), (0x5778, [0x57A2]),
    (0x577F, [0x9644]), (0x5796, [0x5806]), (0x579C, [0x579B]), (0x57BA, [0x90DB]), (0x57BE, [0x5CB8]), (0x57C0, [0x5782]),
    (0x57C1, [0x5C91]), (0x57C5, [0x9632]), (0x57C8, [0x5CFB]), (0x57D3, [0x57D2]), (0x57DC, [0x91CE]), (0x57E1, [0x57AD]),
    (0x57F0, [0x91C7]), (0x57F7, [0x6267]), (0x57FD, [0x626B])]),
  (0x58, [
    (0x5805, [0x575A]), (0x580A, [0x57A9]), (0x5818, [0x5856]), (0x581D, [0x57DA]), (0x5822, [0x5821]), (0x5826, [0x9636]),
    (0x582F, [0x5C27]), (0x5831, [0x62A5]), (0x5834, [0x573A]), (0x5841, [0x5792]), (0x584A, [0x5757]), (0x584B, [0x8314]),
    (0x584F, [0x57B2]), (0x5850, [0x5851]), (0x5852, [0x57D8]), (0x5857, [0x6D82]), (0x585A, [0x51A2]), (0x5861, [0x586B]),
    (0x5862, [0x575E]), (0x5864, [0x57D9]), (0x5866, [0x9635]), (0x5869, [0x76D0]), (0x5872, [0x573A]), (0x5875, [0x5C18]),
    (0x5879, [0x5811]), (0x587C, [0x7816]), (0x588A, [0x57AB]), (0x5895, [0x5830]), (0x5896, [0x5854]), (0x5897, [0x589E]),
    (0x589C, [0x5760]), (0x58A2, [0x577A]), (0x58A5, [0x7583]), (0x58AA, [0x58A9]), (0x58AB, [0x6A3D]), (0x58AE, [0x5815]),
    (0x58B0, [0x575B]), (0x58B3, [0x575F]), (0x58BB, [0x5899]), (0x58BE, [0x57A6]), (0x58C3, [0x7586]), (0x58C7, [0x575B]),
    (0x58CA, [0x574F]), (0x58CC, [0x58E4]), (0x58CD, [0x5811]), (0x58D0, [0x73BA]), (0x58D3, [0x538B]), (0x58D8, [0x5792]),
    (0x58D9, [0x5739]), (0x58DA, [0x5786]), (0x58DC, [0x575B]), (0x58DE, [0x574F]), (0x58DF, [0x5784]), (0x58E0, [0x5784]),
    (0x58E2, [0x575C]), (0x58E9, [0x575D]), (0x58EF, [0x58EE]), (0x58F1, [0x58F9]), (0x58F2, [0x5356]), (0x58F7, [0x58F6]),
    (0x58F8, [0x58FC]), (0x58FA, [0x58F6]), (0x58FB, [0x5A7F]), (0x58FD, [0x5BFF])]),
  (0x59, [
    (0x5900, [0x5BFF]), (0x5905, [0x964D]), (0x5909, [0x53D8]), (0x5918, [0x536F]), (0x591B, [0x591A]), (0x591D, [0x6674]),
    (0x5920, [0x591F]), (0x5922, [0x68A6]), (0x5923, [0x68A6]), (0x5936, [0x6BD4]), (0x593E, [0x5939]), (0x594C, [0x70B9]),
    (0x5950, [0x5942]), (0x5953, [0x5962]), (0x595C, [0x6590]), (0x595E, [0x594E]), (0x5967, [0x5965]), (0x5968, [0x5956]),
    (0x5969, [0x5941]), (0x596A, [0x593A]), (0x596C, [0x5956]), (0x596E, [0x594B]), (0x597C, [0x59F9]), (0x599B, [0x5AB8]),
    (0x599D, [0x5986]), (0x59AC, [0x5992]), (0x59B4, [0x5A49]), (0x59C9, [0x59CA]), (0x59CD, [0x59D7]), (0x59D9, [0x598A]),
    (0x59E2, [0x5A1F]), (0x59E7, [0x5978]), (0x59EB, [0x59EC]), (0x59F8, [0x598D])]),
  (0x5A, [
    (0x5A02, [0x5985]), (0x5A12, [0x59C6]), (0x5A1B, [0x5A31]), (0x5A24, [0x5986]), (0x5A26, [0x5AD4]), (0x5A2F, [0x5A31]),
    (0x5A3F, [0x5A40]), (0x5A41, [0x5A04]), (0x5A4F, [0x5A29]), (0x5A59, [0x5A67]), (0x5A5E, [0x60BB]), (0x5A63, [0x59FB]),
    (0x5A66, [0x5987]), (0x5A6D, [0x5A05]), (0x5A87, [0x4EB2]), (0x5A8D, [0x5987]), (0x5AA7, [0x5A32]), (0x5AAF, [0x59AB]),
    (0x5ABD, [0x5988]), (0x5AD7, [0x59AA]), (0x5AED, [0x5AEE]), (0x5AF0, [0x5AE9]), (0x5AF5, [0x59A9]), (0x5AF7, [0x5AA0]),
    (0x5AFB, [0x5A34]), (0x5AFF, [0x5A73])]),
  (0x5B, [
    (0x5B00, [0x59AB]), (0x5B08, [0x5A06]), (0x5B0A, [0x5B3F]), (0x5B0B, [0x5A75]), (0x5B0C, [0x5A07]), (0x5B19, [0x5AF1]),
    (0x5B21, [0x5AD2]), (0x5B24, [0x5B37]), (0x5B2A, [0x5AD4]), (0x5B30, [0x5A74]), (0x5B38, [0x5A76]), (0x5B3A, [0x5ADF]),
    (0x5B3E, [0x61D2]), (0x5B43, [0x5B22]), (0x5B46, [0x5A74]), (0x5B49, [0x5A58]), (0x5B4C, [0x5A08]), (0x5B60, [0x55E3]),
    (0x5B61, [0x80CE]), (0x5B6B, [0x5B59]), (0x5B78, [0x5B66]), (0x5B7E, [0x5A74]), (0x5B7F, [0x5B6A]), (0x5B82, [0x5197]),
    (0x5B86, [0x7A79]), (0x5B8D, [0x8089]), (0x5B9F, [0x5B9E]), (0x5BB2, [0x5B9E]), (0x5BBB, [0x5BC6]), (0x5BBC, [0x5BC7]),
    (0x5BC3, [0x51A4]), (0x5BCE, [0x7A89]), (0x5BCF, [0x9662]), (0x5BD1, [0x5BDD]), (0x5BDB, [0x5BBD]), (0x5BDC, [0x5B81]),
    (0x5BE2, [0x5BDD]), (0x5BE6, [0x5B9E]), (0x5BE7, [0x5B81]), (0x5BE9, [0x5BA1]), (0x5BEB, [0x5199]), (0x5BEC, [0x5BBD]),
    (0x5BF3, [0x5B9D]), (0x5BF5, [0x5BA0]), (0x5BF6, [0x5B9D]), (0x5BFE, [0x5BF9])]),
  (0x5C, [
    (0x5C02, [0x4E13]), (0x5C05, [0x524B]), (0x5C07, [0x5C06]), (0x5C08, [0x4E13]), (0x5C0B, [0x5BFB]), (0x5C0D, [0x5BF9]),
    (0x5C0E, [0x5BFC]), (0x5C19, [0x5C1A]), (0x5C1E, [0x71CE]), (0x5C23, [0x5C2A]), (0x5C28, [0x9F99]), (0x5C29, [0x5C2A]),
    (0x5C2B, [0x5C2A]), (0x5C2D, [0x5C27]), (0x5C37, [0x5C34]), (0x5C46, [0x5C4A]), (0x5C5B, [0x5C4F]), (0x5C5C, [0x5C49]),
    (0x5C62, [0x5C61]), (0x5C64, [0x5C42]), (0x5C68, [0x5C66]), (0x5C6C, [0x5C5E]), (0x5C6D, [0x5C53]), (0x5C8B, [0x5C8C]),
    (0x5CA1, [0x5188]), (0x5CB4, [0x5C96]), (0x5CDD, [0x5CD2]), (0x5CEF, [0x5CF0]), (0x5CF2, [0x5CDB]), (0x5CF4, [0x5C98]),
    (0x5CF6, [0x5C9B]), (0x5CFD, [0x5CE1])]),
  (0x5D, [
    (0x5D08, [0x5D07]), (0x5D0D, [0x5D03]), (0x5D17, [0x5C97]), (0x5D18, [0x5D19]), (0x5D22, [0x5CE5]), (0x5D27, [0x5D69]),
    (0x5D2C, [0x5CBD]), (0x5D50, [0x5C9A]), (0x5D57, [0x5C81]), (0x5D5C, [0x5D0E]), (0x5D73, [0x5D6F]), (0x5D81, [0x5D5D]),
    (0x5D84, [0x5D2D]), (0x5D87, [0x5C96]), (0x5D8B, [0x5C9B]), (0x5D8C, [0x5C9B]), (0x5D94, [0x5D5A]), (0x5D97, [0x5D02]),
    (0x5DA0, [0x5CE4]), (0x5DA2, [0x5CE3]), (0x5DA7, [0x5CC4]), (0x5DA8, [0x5CC3]), (0x5DB8, [0x5D58]), (0x5DBA, [0x5CAD]),
    (0x5DBC, [0x5C7F]), (0x5DC2, [0x5DB2]), (0x5DCB, [0x5CBF]), (0x5DD2, [0x5CE6]), (0x5DD3, [0x5DC5]), (0x5DD4, [0x5DC5]),
    (0x5DE0, [0x5759]), (0x5DE3, [0x5DE2]), (0x5DF0, [0x5DEF]), (0x5DFA, [0x5DFD]), (0x5DFB, [0x5377])]),
  (0x5E, [
    (0x5E00, [0x531D]), (0x5E0A, [0x5E15]), (0x5E0B, [0x7EB8]), (0x5E12, [0x888B]), (0x5E25, [0x5E05]), (0x5E2B, [0x5E08]),
    (0x5E2C, [0x88D9]), (0x5E2F, [0x5E26]), (0x5E30, [0x5F52]), (0x5E33, [0x5E10]), (0x5E36, [0x5E26]), (0x5E40, [0x5E27]),
    (0x5E43, [0x5E0F]), (0x5E47, [0x5E2E]), (0x5E48, [0x5C4F]), (0x5E51, [0x5FBD]), (0x5E57, [0x5E3C]), (0x5E58, [0x5E3B]),
    (0x5E5F, [0x5E1C]), (0x5E63, [0x5E01]), (0x5E64, [0x5E01]), (0x5E6B, [0x5E2E]), (0x5E6C, [0x5E31]), (0x5E77, [0x5E76]),
    (0x5E81, [0x5385]), (0x5E83, [0x5E7F]), (0x5E92, [0x5E84]), (0x5EA2, [0x5394]), (0x5EAB, [0x5E93]), (0x5EBB, [0x5EB6]),
    (0x5EBD, [0x5BD3]), (0x5EBF, [0x5E99]), (0x5EC1, [0x5395]), (0x5EC2, [0x53A2]), (0x5EC3, [0x5E9F]), (0x5EC8, [0x53A6]),
    (0x5ECE, [0x5EBC]), (0x5EDA, [0x53A8]), (0x5EDF, [0x5E99]), (0x5EE0, [0x5382]), (0x5EE1, [0x5E91]), (0x5EE2, [0x5E9F]),
    (0x5EE3, [0x5E7F]), (0x5EEC, [0x5E90]), (0x5EF0, [0x5385]), (0x5EF3, [0x5385]), (0x5EF5, [0x5DE1])]),
  (0x5F, [
    (0x5F01, [0x8FA9]), (0x5F09, [0x5958]), (0x5F0D, [0x8D30]), (0x5F10, [0x8D30]), (0x5F12, [0x5F11]), (0x5F33, [0x5F2A]),
    (0x5F35, [0x5F20]), (0x5F37, [0x5F3A]), (0x5F3E, [0x5F39]), (0x5F48, [0x5F39]), (0x5F4A, [0x5F3A]), (0x5F4C, [0x5F25]),
    (0x5F4E, [0x5F2F]), (0x5F5B, [0x5F5D]), (0x5F5C, [0x5F5D]), (0x5F5E, [0x5F5D]), (0x5F65, [0x5F66]), (0x5F83, [0x5F80]),
    (0x5F8F, [0x965F]), (0x5F91, [0x5F84]), (0x5F93, [0x4ECE]), (0x5F9E, [0x4ECE]), (0x5FA0, [0x5F95]), (0x5FB3, [0x5FB7]),
    (0x5FB4, [0x5FB5]), (0x5FB9, [0x5F7B]), (0x5FC8, [0x4EC1]), (0x5FCE, [0x4EC1]), (0x5FDC, [0x5E94]), (0x5FE2, [0x609F]),
    (0x5FF0, [0x60B4]), (0x5FFC, [0x6177])]),
  (0x60, [
    (0x6018, [0x56FA]), (0x6023, [0x5C24]), (0x602D, [0x4F56]), (0x6031, [0x5306]), (0x6033, [0x604D]), (0x6046, [0x6052]),
    (0x6056, [0x601D]), (0x605F, [0x5FF7]), (0x6060, [0x602A]), (0x6061, [0x541D]), (0x6065, [0x803B]), (0x6071, [0x60A6]),
    (0x6075, [0x60E0]), (0x6085, [0x60A6]), (0x608B, [0x541D]), (0x6090, [0x60D5]), (0x6091, [0x6016]), (0x60A4, [0x5306]),
    (0x60A9, [0x607C]), (0x60AA, [0x6076]), (0x60B3, [0x5FB7]), (0x60B5, [0x6005]), (0x60B6, [0x95F7]), (0x60D6, [0x60D5]),
    (0x60E1, [0x6076]), (0x60E3, [0x603B]), (0x60EA, [0x5FB7]), (0x60F1, [0x607C]), (0x60F2, [0x607D]), (0x60F7, [0x8822]),
    (0x60FB, [0x607B])]),
  (0x61, [
    (0x6105, [0x8AFD]), (0x6111, [0x6080]), (0x6119, [0x606A]), (0x611B, [0x7231]), (0x611C, [0x60EC]), (0x6128, [0x60AB]),
    (0x612C, [0x8BC9]), (0x612F, [0x609A]), (0x6133, [0x60E7]), (0x6134, [0x6006]), (0x6137, [0x607A]), (0x6138, [0x6574]),
    (0x6139, [0x6080]), (0x613B, [0x900A]), (0x613C, [0x614E]), (0x613D, [0x535A]), (0x613E, [0x5FFE]), (0x6142, [0x607F]),
    (0x614B, [0x6001]), (0x614D, [0x6120]), (0x6158, [0x60E8]), (0x6159, [0x60ED]), (0x615A, [0x60ED]), (0x615F, [0x6078]),
    (0x6163, [0x60EF]), (0x6164, [0x60AB]), (0x616A, [0x6004]), (0x616B, [0x6002]), (0x616E, [0x8651]), (0x6173, [0x60AD]),
    (0x6176, [0x5E86]), (0x617C, [0x617D]), (0x6182, [0x5FE7]), (0x6185, [0x6078]), (0x6187, [0x61A9]), (0x618A, [0x60EB]),
    (0x6190, [0x601C]), (0x6191, [0x51ED]), (0x6192, [0x6126]), (0x6196, [0x616D]), (0x6198, [0x559C]), (0x6199, [0x559C]),
    (0x619A, [0x60EE]), (0x61A4, [0x6124]), (0x61AB, [0x60AF]), (0x61AE, [0x6003]), (0x61B2, [0x5BAA]), (0x61B6, [0x5FC6]),
    (0x61C3, [0x52E4]), (0x61C7, [0x6073]), (0x61C9, [0x5E94]), (0x61CC, [0x603F]), (0x61D0, [0x6000]), (0x61D5, [0x6079]),
    (0x61DC, [0x61F5]), (0x61DF, [0x603C]), (0x61E3, [0x61D1]), (0x61E8, [0x6079]), (0x61F2, [0x60E9]), (0x61F4, [0x5FCF]),
    (0x61F6, [0x61D2]), (0x61F7, [0x6000]), (0x61F8, [0x60AC]), (0x61FA, [0x5FCF]), (0x61FC, [0x60E7]), (0x61FE, [0x6151])]),
  (0x62, [
    (0x6200, [0x604B]), (0x6207, [0x6206]), (0x6214, [0x620B]), (0x621D, [0x8D3C]), (0x621E, [0x621B]), (0x6220, [0x57F4]),
    (0x6226, [0x6218]), (0x6227, [0x6217]), (0x6229, [0x622C]), (0x622F, [0x620F]), (0x6230, [0x6218]), (0x6232, [0x620F]),
    (0x6236, [0x6237]), (0x6238, [0x6237]), (0x623B, [0x623E]), (0x6255, [0x62C2]), (0x625E, [0x634D]), (0x6272, [0x64D2]),
    (0x627B, [0x635F]), (0x6283, [0x62DA]), (0x6285, [0x62D8]), (0x628D, [0x62EF]), (0x629C, [0x62D4]), (0x629D, [0x62D7]),
    (0x629E, [0x62E9]), (0x62B8, [0x631F]), (0x62BB, [0x4F38]), (0x62CB, [0x629B]), (0x62CF, [0x62FF]), (0x62DD, [0x62DC]),
    (0x62E0, [0x636E]), (0x62E1, [0x6269])]),
  (0x63, [
    (0x6304, [0x6269]), (0x6305, [0x6306]), (0x630D, [0x6821]), (0x6314, [0x65C5]), (0x6315, [0x6444]), (0x6319, [0x4E3E]),
    (0x6331, [0x6332]), (0x6335, [0x5F04]), (0x633E, [0x631F]), (0x633F, [0x63D2]), (0x6340, [0x6367]), (0x6341, [0x6405]),
    (0x6344, [0x6551]), (0x635C, [0x641C]), (0x636B, [0x626A]), (0x6374, [0x603B]), (0x6375, [0x649A]), (0x637F, [0x6816]),
    (0x6383, [0x626B]), (0x6384, [0x62A1]), (0x638B, [0x62B5]), (0x6397, [0x631C]), (0x6399, [0x6323]), (0x639B, [0x6302]),
    (0x63B2, [0x63ED]), (0x63BB, [0x6414]), (0x63C0, [0x62E3]), (0x63C8, [0x63AC]), (0x63DA, [0x626C]), (0x63DB, [0x6362]),
    (0x63EE, [0x6325]), (0x63F7, [0x63D2]), (0x63F9, [0x80CC]), (0x63FA, [0x6416])]),
  (0x64, [
    (0x6403, [0x603B]), (0x640D, [0x635F]), (0x6417, [0x6363]), (0x642F, [0x638F]), (0x6436, [0x62A2]), (0x643C, [0x62F3]),
    (0x643E, [0x69A8]), (0x6442, [0x6444]), (0x644F, [0x8202]), (0x6451, [0x63B4]), (0x645C, [0x63BC]), (0x645F, [0x6402]),
    (0x6464, [0x62A2]), (0x646F, [0x631A]), (0x6473, [0x62A0]), (0x6476, [0x629F]), (0x6477, [0x6284]), (0x647B, [0x63BA]),
    (0x647E, [0x5F36]), (0x6483, [0x51FB]), (0x6486, [0x6487]), (0x6488, [0x635E]), (0x648F, [0x6326]), (0x6490, [0x6491]),
    (0x6493, [0x6320]), (0x649F, [0x6322]), (0x64A3, [0x63B8]), (0x64A5, [0x62E8]), (0x64A6, [0x626F]), (0x64AB, [0x629A]),
    (0x64B2, [0x6251]), (0x64B3, [0x63FF]), (0x64B9, [0x6405]), (0x64BB, [0x631E]), (0x64BE, [0x631D]), (0x64BF, [0x6361]),
    (0x64C1, [0x62E5]), (0x64C4, [0x63B3]), (0x64C6, [0x64AF]), (0x64C7, [0x62E9]), (0x64CA, [0x51FB]), (0x64CB, [0x6321]),
    (0x64D1, [0x63A5]), (0x64D3, [0x39DF]), (0x64D4, [0x62C5]), (0x64DA, [0x636E]), (0x64E0, [0x6324]), (0x64E1, [0x62AC]),
    (0x64E5, [0x63FD]), (0x64E7, [0x4E3E]), (0x64EC, [0x62DF]), (0x64EF, [0x6448]), (0x64F0, [0x62E7]), (0x64F1, [0x6401]),
    (0x64F2, [0x63B7]), (0x64F4, [0x6269]), (0x64F7, [0x64B7]), (0x64F9, [0x644A]), (0x64FA, [0x6446]), (0x64FB, [0x64DE]),
    (0x64FC, [0x64B8]), (0x64FE, [0x6270]), (0x64FF, [0x6458])]),
  (0x65, [
    (0x6502, [0x64C2]), (0x6504, [0x6445]), (0x6506, [0x64B5]), (0x6508, [0x6343]), (0x650F, [0x62E2]), (0x6514, [0x62E6]),
    (0x6516, [0x6484]), (0x6519, [0x6400]), (0x651B, [0x64BA]), (0x651C, [0x643A]), (0x651D, [0x6444]), (0x651F, [0x6343]),
    (0x6522, [0x6512]), (0x6523, [0x631B]), (0x6524, [0x644A]), (0x6528, [0x6432]), (0x6529, [0x6321]), (0x652A, [0x6405]),
    (0x652C, [0x63FD]), (0x6532, [0x6567]), (0x6537, [0x8003]), (0x653D, [0x9881]), (0x6542, [0x53E9]), (0x654D, [0x53D9]),
    (0x654E, [0x6559]), (0x6557, [0x8D25]), (0x6558, [0x53D9]), (0x6573, [0x6571]), (0x6575, [0x654C]), (0x6578, [0x6570]),
    (0x6582, [0x655B]), (0x6583, [0x6BD9]), (0x6588, [0x5B66]), (0x6589, [0x9F50]), (0x658D, [0x89C9]), (0x658E, [0x658B]),
    (0x6595, [0x6593]), (0x65AC, [0x65A9]), (0x65B5, [0x65B2]), (0x65B7, [0x65AD]), (0x65B8, [0x529A]), (0x65C9, [0x6577]),
    (0x65D1, [0x65D6]), (0x65E3, [0x65E2]), (0x65EE, [0x65ED]), (0x65F3, [0x7684]), (0x65FD, [0x66BE]), (0x65FE, [0x6625])]),
  (0x66, [
    (0x6618, [0x8BBF]), (0x661A, [0x614E]), (0x661C, [0x9633]), (0x661E, [0x70B3]), (0x662C, [0x660F]), (0x663B, [0x6602]),
    (0x6642, [0x65F6]), (0x6644, [0x6643]), (0x6648, [0x768E]), (0x6649, [0x664B]), (0x6658, [0x65F1]), (0x665D, [0x663C]),
    (0x6665, [0x7696]), (0x6669, [0x665A]), (0x6673, [0x6670]), (0x667B, [0x6697]), (0x6681, [0x6653]), (0x6685, [0x6645]),
    (0x6688, [0x6655]), (0x668E, [0x6620]), (0x6692, [0x6674]), (0x6698, [0x65F8]), (0x669C, [0x666E]), (0x66A0, [0x7693]),
    (0x66A2, [0x7545]), (0x66A6, [0x66C6]), (0x66AB, [0x6682]), (0x66C1, [0x66A8]), (0x66C4, [0x6654]), (0x66C5, [0x6654]),
    (0x66C7, [0x6619]), (0x66C9, [0x6653]), (0x66CD, [0x66A4]), (0x66D0, [0x661F]), (0x66D6, [0x66A7]), (0x66E0, [0x65F7]),
    (0x66E8, [0x663D]), (0x66EC, [0x6652]), (0x66F5, [0x66F3]), (0x66F8, [0x4E66]), (0x66FA, [0x66F9]), (0x66FD, [0x66FE])]),
  (0x67, [
    (0x6703, [0x4F1A]), (0x6712, [0x80AD]), (0x6716, [0x6717]), (0x671E, [0x671F]), (0x6722, [0x671B]), (0x6727, [0x80E7]),
    (0x6736, [0x6735]), (0x6771, [0x4E1C]), (0x6780, [0x677E]), (0x6788, [0x6787]), (0x678F, [0x6960]), (0x67A0, [0x6866]),
    (0x67B4, [0x62D0]), (0x67F0, [0x5948]), (0x67F5, [0x6805]), (0x67F9, [0x67FF]), (0x67FA, [0x62D0]), (0x67FB, [0x67E5]),
    (0x67FE, [0x67E9])]),
  (0x68, [
    (0x6801, [0x67F3]), (0x6804, [0x8363]), (0x6814, [0x5951]), (0x6822, [0x67CF]), (0x6852, [0x6851]), (0x6859, [0x6745]),
    (0x685C, [0x6A31]), (0x685F, [0x6808]), (0x686E, [0x676F]), (0x686F, [0x6979]), (0x687A, [0x67F3]), (0x6894, [0x6800]),
    (0x6896, [0x8D1D]), (0x6898, [0x67A7]), (0x689D, [0x6761]), (0x689F, [0x67AD]), (0x68A5, [0x9B06]), (0x68B9, [0x69DF]),
    (0x68C3, [0x68A8]), (0x68C4, [0x5F03]), (0x68CA, [0x68CB]), (0x68D6, [0x67A8]), (0x68D7, [0x67A3]), (0x68DE, [0x68B1]),
    (0x68DF, [0x680B]), (0x68E5, [0x6A0A]), (0x68E7, [0x6808]), (0x68EC, [0x684A]), (0x68F2, [0x6816]), (0x68F7, [0x85AE])]),
  (0x69, [
    (0x6918, [0x695A]), (0x691C, [0x68C0]), (0x6936, [0x68D5]), (0x694A, [0x6768]), (0x6953, [0x67AB]), (0x6955, [0x692D]),
    (0x6961, [0x6986]), (0x6965, [0x6966]), (0x6968, [0x6862]), (0x696D, [0x4E1A]), (0x6973, [0x6885]), (0x6975, [0x6781]),
    (0x697D, [0x4E50]), (0x698D, [0x6954]), (0x6998, [0x77E9]), (0x69A1, [0x7D20]), (0x69A2, [0x67B6]), (0x69A6, [0x5E79]),
    (0x69AE, [0x8363]), (0x69B2, [0x6985]), (0x69BF, [0x6864]), (0x69C7, [0x69D9]), (0x69CB, [0x6784]), (0x69CD, [0x67AA]),
    (0x69D7, [0x6865]), (0x69D8, [0x6837]), (0x69DE, [0x680A]), (0x69E7, [0x6920]), (0x69E8, [0x6901]), (0x69EA, [0x6982]),
    (0x69F3, [0x6868])]),
  (0x6A, [
    (0x6A01, [0x6869]), (0x6A02, [0x4E50]), (0x6A05, [0x679E]), (0x6A13, [0x697C]), (0x6A19, [0x6807]), (0x6A1E, [0x67A2]),
    (0x6A22, [0x8311]), (0x6A23, [0x6837]), (0x6A29, [0x6743]), (0x6A39, [0x6811]), (0x6A3A, [0x6866]), (0x6A45, [0x6A21]),
    (0x6A48, [0x6861]), (0x6A4A, [0x69B4]), (0x6A4B, [0x6865]), (0x6A5F, [0x673A]), (0x6A62, [0x692D]), (0x6A64, [0x854A]),
    (0x6A66, [0x5E62]), (0x6A6B, [0x6A2A]), (0x6A70, [0x69D4]), (0x6A81, [0x6AA9]), (0x6A89, [0x67FD]), (0x6A92, [0x67AB]),
    (0x6A94, [0x6863]), (0x6A9A, [0x695A]), (0x6A9C, [0x6867]), (0x6A9D, [0x696B]), (0x6A9F, [0x69DA]), (0x6AA2, [0x68C0]),
    (0x6AA3, [0x6A2F]), (0x6AAF, [0x67B1]), (0x6AB3, [0x69DF]), (0x6AB4, [0x6866]), (0x6AB8, [0x67E0]), (0x6ABB, [0x69DB]),
    (0x6AC3, [0x67DC]), (0x6AD3, [0x6A79]), (0x6ADA, [0x6988]), (0x6ADB, [0x6809]), (0x6ADD, [0x691F]), (0x6ADE, [0x6A7C]),
    (0x6ADF, [0x680E]), (0x6AE5, [0x6A71]), (0x6AE7, [0x69E0]), (0x6AE8, [0x680C]), (0x6AEA, [0x67A5]), (0x6AEC, [0x6987]),
    (0x6AF3, [0x680A]), (0x6AF5, [0x6A35]), (0x6AF8, [0x6989]), (0x6AFA, [0x68C2]), (0x6AFB, [0x6A31])]),
  (0x6B, [
    (0x6B04, [0x680F]), (0x6B05, [0x6989]), (0x6B0A, [0x6743]), (0x6B0F, [0x6924]), (0x6B12, [0x683E]), (0x6B16, [0x6984]),
    (0x6B1B, [0x6777]), (0x6B1E, [0x68C2]), (0x6B2C, [0x54B3]), (0x6B35, [0x6B3E]), (0x6B38, [0x8BF6]), (0x6B3D, [0x94A6]),
    (0x6B42, [0x5598]), (0x6B4D, [0x545C]), (0x6B50, [0x6B27]), (0x6B53, [0x6B22]), (0x6B57, [0x5578]), (0x6B5B, [0x655B]),
    (0x6B5F, [0x6B24]), (0x6B60, [0x555C]), (0x6B61, [0x6B22]), (0x6B68, [0x6B65]), (0x6B69, [0x6B65]), (0x6B6B, [0x8DDD]),
    (0x6B6C, [0x524D]), (0x6B6F, [0x9F7F]), (0x6B71, [0x8E35]), (0x6B72, [0x5C81]), (0x6B73, [0x5C81]), (0x6B74, [0x6B77]),
    (0x6B78, [0x5F52]), (0x6B7A, [0x6B79]), (0x6B7E, [0x520E]), (0x6B7F, [0x6B81]), (0x6B98, [0x6B8B]), (0x6B9E, [0x6B92]),
    (0x6BA4, [0x6B87]), (0x6BAB, [0x6B9A]), (0x6BAE, [0x6B93]), (0x6BAF, [0x6BA1]), (0x6BB1, [0x6B7C]), (0x6BB2, [0x6B7C]),
    (0x6BBA, [0x6740]), (0x6BBB, [0x58F3]), (0x6BBC, [0x58F3]), (0x6BBD, [0x6DC6]), (0x6BC0, [0x6BC1]), (0x6BC6, [0x6BB4]),
    (0x6BC9, [0x533B]), (0x6BCE, [0x6BCF]), (0x6BD1, [0x59D0]), (0x6BD8, [0x6BD7]), (0x6BFF, [0x6BF5])]),
  (0x6C, [
    (0x6C02, [0x7266]), (0x6C08, [0x6BE1]), (0x6C0A, [0x6BE1]), (0x6C0C, [0x6C07]), (0x6C17, [0x6C14]), (0x6C23, [0x6C14]),
    (0x6C2B, [0x6C22]), (0x6C2C, [0x6C29]), (0x6C31, [0x6C27]), (0x6C33, [0x6C32]), (0x6C37, [0x51B0]), (0x6C3B, [0x6CD0]),
    (0x6C53, [0x6CC5]), (0x6C59, [0x6C61]), (0x6C5A, [0x6C61]), (0x6C73, [0x6C74]), (0x6C78, [0x6EC2]), (0x6C7A, [0x51B3]),
    (0x6C92, [0x6CA1]), (0x6C96, [0x51B2]), (0x6C97, [0x6DFB]), (0x6CA2, [0x6CFD]), (0x6CB2, [0x6CB1]), (0x6CC1, [0x51B5]),
    (0x6CF2, [0x6D4E])]),
  (0x6D, [
    (0x6D02, [0x6DB2]), (0x6D13, [0x6E0D]), (0x6D1F, [0x6D95]), (0x6D24, [0x6CC9]), (0x6D2F, [0x6D01]), (0x6D36, [0x6C79]),
    (0x6D44, [0x6DE8]), (0x6D64, [0x6C6F]), (0x6D79, [0x6D43]), (0x6D87, [0x6CFE]), (0x6D99, [0x6CEA]), (0x6DB1, [0x6DA8]),
    (0x6DBC, [0x51C9]), (0x6DC8, [0x6C68]), (0x6DDA, [0x6CEA]), (0x6DDB, [0x6D59]), (0x6DDC, [0x51AF]), (0x6DEA, [0x6CA6]),
    (0x6DF5, [0x6E0A]), (0x6DF6, [0x6D9E]), (0x6DF8, [0x6E05]), (0x6DFA, [0x6D45])]),
  (0x6E, [
    (0x6E01, [0x6E0A]), (0x6E07, [0x6E34]), (0x6E08, [0x6D4E]), (0x6E09, [0x6D89]), (0x6E0B, [0x6DA9]), (0x6E13, [0x6EAA]),
    (0x6E15, [0x6E0A]), (0x6E19, [0x6DA3]), (0x6E1B, [0x51CF]), (0x6E22, [0x6CA8]), (0x6E26, [0x6DA1]), (0x6E2B, [0x6CC4]),
    (0x6E2C, [0x6D4B]), (0x6E3E, [0x6D51]), (0x6E57, [0x8451]), (0x6E5E, [0x6D48]), (0x6E6F, [0x6C64]), (0x6E7B, [0x6DF3]),
    (0x6E7C, [0x6D85]), (0x6E7D, [0x6DC4]), (0x6E80, [0x6EE1]), (0x6E88, [0x6CA9]), (0x6E96, [0x51D6]), (0x6E9D, [0x6C9F]),
    (0x6EA4, [0x51AF]), (0x6EAB, [0x6E29]), (0x6EAE, [0x6D49]), (0x6EB3, [0x6DA2]), (0x6EB8, [0x6CDD]), (0x6EBC, [0x6E7F]),
    (0x6EC4, [0x6CA7]), (0x6EC5, [0x706D]), (0x6ECC, [0x6DA4]), (0x6ECE, [0x8365]), (0x6ED9, [0x6C47]), (0x6EDB, [0x6DEB]),
    (0x6EDD, [0x6CF7]), (0x6EE8, [0x6D5C]), (0x6EEC, [0x6CAA]), (0x6EEF, [0x6EDE]), (0x6EF2, [0x6E17]), (0x6EF3, [0x6EF4]),
    (0x6EF8, [0x6D52]), (0x6EFB, [0x6D50]), (0x6EFE, [0x6EDA]), (0x6EFF, [0x6EE1])]),
  (0x6F, [
    (0x6F01, [0x6E14]), (0x6F0A, [0x6E87]), (0x6F11, [0x6E89]), (0x6F19, [0x6E4D]), (0x6F1A, [0x6CA4]), (0x6F22, [0x6C49]),
    (0x6F23, [0x6D9F]), (0x6F2C, [0x6E0D]), (0x6F32, [0x6DA8]), (0x6F35, [0x6E86]), (0x6F38, [0x6E10]), (0x6F3F, [0x6D46]),
    (0x6F41, [0x988D]), (0x6F44, [0x6F31]), (0x6F45, [0x704C]), (0x6F51, [0x6CFC]), (0x6F54, [0x6D01]), (0x6F59, [0x6CA9]),
    (0x6F5B, [0x6F5C]), (0x6F64, [0x6DA6]), (0x6F6C, [0x6EE9]), (0x6F6F, [0x6D54]), (0x6F70, [0x6E83]), (0x6F77, [0x6ED7]),
    (0x6F79, [0x6F7A]), (0x6F7F, [0x6DA0]), (0x6F80, [0x6DA9]), (0x6F81, [0x6DA9]), (0x6F82, [0x6F84]), (0x6F86, [0x6D47]),
    (0x6F87, [0x6D9D]), (0x6F91, [0x6E9C]), (0x6F97, [0x6DA7]), (0x6FA0, [0x6E11]), (0x6FA3, [0x6D63]), (0x6FA4, [0x6CFD]),
    (0x6FA6, [0x6EEA]), (0x6FAB, [0x85D5]), (0x6FAE, [0x6D4D]), (0x6FB0, [0x6F4B]), (0x6FB1, [0x6DC0]), (0x6FC1, [0x6D4A]),
    (0x6FC3, [0x6D53]), (0x6FD5, [0x6E7F]), (0x6FD8, [0x6CDE]), (0x6FDC, [0x6D55]), (0x6FDF, [0x6D4E]), (0x6FE4, [0x6D9B]),
    (0x6FE8, [0x6ECB]), (0x6FEB, [0x6EE5]), (0x6FF0, [0x6F4D]), (0x6FF1, [0x6D5C]), (0x6FF3, [0x6F5C]), (0x6FF5, [0x6D5C]),
    (0x6FF6, [0x9614]), (0x6FFA, [0x6E85]), (0x6FFC, [0x6CFA]), (0x6FFE, [0x6EE4])]),
  (0x70, [
    (0x7001, [0x6F3E]), (0x7006, [0x6E0E]), (0x7009, [0x6CFB]), (0x700F, [0x6D4F]), (0x7013, [0x6F84]), (0x7015, [0x6FD2]),
    (0x7018, [0x6CF8]), (0x701D, [0x6CA5]), (0x701F, [0x6F47]), (0x7026, [0x6F74]), (0x7027, [0x6CF7]), (0x7028, [0x6FD1]),
    (0x702C, [0x6FD1]), (0x7032, [0x6F4B]), (0x703E, [0x6F9C]), (0x7043, [0x6CA3]), (0x7044, [0x6EE0]), (0x7051, [0x6D12]),
    (0x7055, [0x6F13]), (0x7058, [0x6EE9]), (0x705D, [0x704F]), (0x7061, [0x6F9C]), (0x7063, [0x6E7E]), (0x7064, [0x6EE6]),
    (0x7067, [0x6EDF]), (0x706E, [0x5149]), (0x7074, [0x70D8]), (0x707D, [0x707E]), (0x708D, [0x53DB]), (0x7097, [0x5149]),
    (0x70A4, [0x7167]), (0x70B2, [0x70B1]), (0x70BA, [0x4E3A]), (0x70CF, [0x4E4C]), (0x70D6, [0x707E]), (0x70EE, [0x70C8]),
    (0x70F1, [0x70AF]), (0x70F4, [0x70C3])]),
  (0x71, [
    (0x7103, [0x8D6B]), (0x7108, [0x7199]), (0x710F, [0x4E9F]), (0x7121, [0x65E0]), (0x712E, [0x7098]), (0x7134, [0x715C]),
    (0x713C, [0x70E7]), (0x7149, [0x70BC]), (0x7151, [0x716E]), (0x7152, [0x709C]), (0x7155, [0x7199]), (0x7159, [0x70DF]),
    (0x715A, [0x715B]), (0x7161, [0x70EC]), (0x7162, [0x8315]), (0x7165, [0x7115]), (0x7169, [0x70E6]), (0x716C, [0x7080]),
    (0x717C, [0x7092]), (0x7188, [0x7199]), (0x7192, [0x8367]), (0x7197, [0x709D]), (0x71B1, [0x70ED]), (0x71BE, [0x70BD]),
    (0x71C1, [0x70E8]), (0x71C8, [0x706F]), (0x71C9, [0x7096]), (0x71CC, [0x711A]), (0x71D2, [0x70E7]), (0x71D4, [0x711A]),
    (0x71D9, [0x70EB]), (0x71DC, [0x7116]), (0x71DF, [0x8425]), (0x71E6, [0x707F]), (0x71ED, [0x70DB]), (0x71F4, [0x70E9]),
    (0x71FC, [0x70EC]), (0x71FD, [0x7118]), (0x71FE, [0x7118]), (0x71FF, [0x8000])]),
  (0x72, [
    (0x720D, [0x70C1]), (0x7210, [0x7089]), (0x7213, [0x7130]), (0x7215, [0x71EE]), (0x721B, [0x70C2]), (0x7224, [0x70C2]),
    (0x7225, [0x70DB]), (0x722D, [0x4E89]), (0x7232, [0x4E3A]), (0x723A, [0x7237]), (0x723C, [0x4FCE]), (0x723E, [0x5C14]),
    (0x7240, [0x5E8A]), (0x7250, [0x95F8]), (0x7258, [0x724D]), (0x727D, [0x7275]), (0x7282, [0x7281]), (0x7286, [0x7279]),
    (0x7287, [0x5954]), (0x7296, [0x8366]), (0x729B, [0x7266]), (0x72A0, [0x727A]), (0x72A2, [0x728A]), (0x72A7, [0x727A]),
    (0x72B2, [0x8C7A]), (0x72B3, [0x8C79]), (0x72C0, [0x72B6]), (0x72CC, [0x7329]), (0x72E2, [0x8C89]), (0x72E5, [0x5F87]),
    (0x72F9, [0x72ED]), (0x72FD, [0x72C8])]),
  (0x73, [
    (0x7302, [0x608D]), (0x730F, [0x8C5C]), (0x7312, [0x538C]), (0x7319, [0x72F0]), (0x731F, [0x730E]), (0x7328, [0x733F]),
    (0x7336, [0x72B9]), (0x733B, [0x72F2]), (0x7341, [0x72B8]), (0x7343, [0x5446]), (0x7344, [0x72F1]), (0x7345, [0x72EE]),
    (0x734E, [0x5956]), (0x7356, [0x8C6E]), (0x7363, [0x517D]), (0x7367, [0x72F7]), (0x7368, [0x72EC]), (0x736A, [0x72EF]),
    (0x736B, [0x7303]), (0x7370, [0x72DE]), (0x7372, [0x83B7]), (0x7375, [0x730E]), (0x7377, [0x72B7]), (0x7378, [0x517D]),
    (0x737A, [0x736D]), (0x737B, [0x732E]), (0x737C, [0x7315]), (0x7380, [0x7321]), (0x7385, [0x5999]), (0x73A8, [0x73CF]),
    (0x73AA, [0x7433]), (0x73E1, [0x7434]), (0x73E4, [0x5B9D]), (0x73FE, [0x73B0])]),
  (0x74, [
    (0x7416, [0x76CF]), (0x7439, [0x7434]), (0x743F, [0x73F2]), (0x7447, [0x73B3]), (0x744B, [0x73AE]), (0x7458, [0x740A]),
    (0x7463, [0x7410]), (0x7464, [0x7476]), (0x7469, [0x83B9]), (0x746A, [0x739B]), (0x746C, [0x65D2]), (0x7472, [0x73B1]),
    (0x7474, [0x73CF]), (0x7484, [0x749F]), (0x7489, [0x740F]), (0x749D, [0x7470]), (0x74A1, [0x740E]), (0x74A2, [0x7460]),
    (0x74A3, [0x7391]), (0x74A6, [0x7477]), (0x74B0, [0x73AF]), (0x74BD, [0x73BA]), (0x74C8, [0x7483]), (0x74CA, [0x743C]),
    (0x74CF, [0x73D1]), (0x74D4, [0x748E]), (0x74DA, [0x74D2]), (0x74E1, [0x6267]), (0x74EB, [0x76C6])]),
  (0x75, [
    (0x7501, [0x74F6]), (0x7506, [0x74F7]), (0x750C, [0x74EF]), (0x7515, [0x74EE]), (0x751B, [0x751C]), (0x751E, [0x5C1D]),
    (0x7522, [0x4EA7]), (0x7523, [0x4EA7]), (0x7524, [0x8564]), (0x7542, [0x4EA9]), (0x7544, [0x7559]), (0x7546, [0x4EA9]),
    (0x754D, [0x754C]), (0x755D, [0x4EA9]), (0x7562, [0x6BD5]), (0x7563, [0x7B54]), (0x756B, [0x753B]), (0x756C, [0x7572]),
    (0x756D, [0x7572]), (0x756E, [0x4EA9]), (0x7570, [0x5F02]), (0x7573, [0x53E0]), (0x7575, [0x753B]), (0x7576, [0x5F53]),
    (0x757B, [0x584D]), (0x7587, [0x7574]), (0x758A, [0x53E0]), (0x758E, [0x758F]), (0x7598, [0x809B]), (0x75A9, [0x7601]),
    (0x75D9, [0x75C9]), (0x75E9, [0x7626]), (0x75F3, [0x75F2]), (0x75F5, [0x60B8]), (0x75FE, [0x75B4])]),
  (0x76, [
    (0x7609, [0x6108]), (0x760B, [0x75AF]), (0x760D, [0x75A1]), (0x7613, [0x75EA]), (0x761E, [0x7617]), (0x7621, [0x75AE]),
    (0x7627, [0x759F]), (0x762C, [0x80C0]), (0x762E, [0x7606]), (0x7631, [0x5AD5]), (0x763A, [0x7618]), (0x763B, [0x7618]),
    (0x7642, [0x7597]), (0x7645, [0x7624]), (0x7646, [0x75E8]), (0x7647, [0x75EB]), (0x7649, [0x7605]), (0x764F, [0x761D]),
    (0x7651, [0x8113]), (0x7652, [0x6108]), (0x7658, [0x75A0]), (0x765F, [0x762A]), (0x7661, [0x75F4]), (0x7662, [0x75D2]),
    (0x7664, [0x7596]), (0x7667, [0x75AC]), (0x7669, [0x765E]), (0x766C, [0x7663]), (0x766D, [0x763F]), (0x766E, [0x763E]),
    (0x7670, [0x75C8]), (0x7671, [0x762B]), (0x7672, [0x766B]), (0x767A, [0x767C]), (0x7690, [0x768B]), (0x769A, [0x7691]),
    (0x76A1, [0x769E]), (0x76B7, [0x9F13]), (0x76B8, [0x76B2]), (0x76B9, [0x76B2]), (0x76BA, [0x76B1]), (0x76BC, [0x9F13]),
    (0x76C7, [0x76CD]), (0x76CB, [0x94B5]), (0x76DC, [0x76D7]), (0x76DE, [0x76CF]), (0x76E1, [0x5C3D]), (0x76E3, [0x76D1]),
    (0x76E4, [0x76D8]), (0x76E7, [0x5362]), (0x76FB, [0x76FC])]),
  (0x77, [
    (0x770C, [0x53BF]), (0x770E, [0x793A]), (0x7718, [0x614E]), (0x771E, [0x771F]), (0x7725, [0x7726]), (0x773E, [0x4F17]),
    (0x7742, [0x7709]), (0x774F, [0x56F0]), (0x775C, [0x7741]), (0x775E, [0x7750]), (0x7764, [0x7765]), (0x7798, [0x770D]),
    (0x779E, [0x7792]), (0x77A4, [0x77AC]), (0x77B9, [0x66A7]), (0x77BC, [0x7751]), (0x77C1, [0x7785]), (0x77D9, [0x77B0]),
    (0x77DA, [0x77A9]), (0x77DE, [0x8C32]), (0x77DF, [0x69CA]), (0x77E6, [0x4FAF]), (0x77EF, [0x77EB]), (0x77F4, [0x7887])]),
  (0x78, [
    (0x7815, [0x788E]), (0x7836, [0x73C0]), (0x7842, [0x94E8]), (0x784B, [0x788D]), (0x784F, [0x7814]), (0x7864, [0x7856]),
    (0x7868, [0x7817]), (0x786F, [0x781A]), (0x78A9, [0x7855]), (0x78AA, [0x7827]), (0x78AD, [0x7800]), (0x78AF, [0x7459]),
    (0x78B1, [0x7877]), (0x78B8, [0x781C]), (0x78BA, [0x786E]), (0x78BB, [0x786E]), (0x78BC, [0x7801]), (0x78C2, [0x786B]),
    (0x78CE, [0x8C3F]), (0x78D1, [0x7859]), (0x78DA, [0x7816]), (0x78E3, [0x789C]), (0x78E5, [0x78CA]), (0x78E7, [0x789B]),
    (0x78EF, [0x77F6]), (0x78F0, [0x58A1]), (0x78F8, [0x7887]), (0x78FD, [0x7857])]),
  (0x79, [
    (0x7904, [0x785A]), (0x790E, [0x7840]), (0x7910, [0x89F7]), (0x7919, [0x788D]), (0x7920, [0x78C1]), (0x7926, [0x77FF]),
    (0x792A, [0x783A]), (0x792B, [0x783E]), (0x792C, [0x77FE]), (0x7931, [0x783B]), (0x797F, [0x7984]), (0x798D, [0x7978]),
    (0x798E, [0x796F]), (0x7995, [0x794E]), (0x79A5, [0x797A]), (0x79A6, [0x5FA1]), (0x79A9, [0x7940]), (0x79AA, [0x7985]),
    (0x79AE, [0x793C]), (0x79B0, [0x7962]), (0x79B1, [0x7977]), (0x79B8, [0x8E42]), (0x79C8, [0x7C7C]), (0x79CA, [0x5E74]),
    (0x79CC, [0x79CB]), (0x79CF, [0x8017]), (0x79D0, [0x8018]), (0x79D7, [0x996B]), (0x79D8, [0x7955]), (0x79F6, [0x7CA2])]),
  (0x7A, [
    (0x7A09, [0x7CB3]), (0x7A2B, [0x798F]), (0x7A2D, [0x79F8]), (0x7A2E, [0x79CD]), (0x7A31, [0x79F0]), (0x7A32, [0x7A3B]),
    (0x7A38, [0x84C4]), (0x7A3E, [0x7A3F]), (0x7A40, [0x8C37]), (0x7A42, [0x7A57]), (0x7A4C, [0x7A23]), (0x7A4D, [0x79EF]),
    (0x7A4E, [0x9896]), (0x7A4F, [0x7A33]), (0x7A5C, [0x79CD]), (0x7A61, [0x7A51]), (0x7A62, [0x79FD]), (0x7A63, [0x7A70]),
    (0x7A64, [0x7CEF]), (0x7A69, [0x7A33]), (0x7A6D, [0x7A06]), (0x7A6F, [0x7A51]), (0x7A82, [0x7262]), (0x7A93, [0x7A97]),
    (0x7AA9, [0x7A9D]), (0x7AAA, [0x6D3C]), (0x7AAE, [0x7A77]), (0x7AB4, [0x586B]), (0x7AB5, [0x7A8E]), (0x7AB6, [0x7AAD]),
    (0x7ABA, [0x7AA5]), (0x7ABB, [0x7A97]), (0x7AC2, [0x5BEE]), (0x7AC3, [0x7076]), (0x7AC4, [0x7A9C]), (0x7AC5, [0x7A8D]),
    (0x7AC6, [0x7A77]), (0x7AC7, [0x7AA6]), (0x7AC8, [0x7076]), (0x7ACA, [0x7A83]), (0x7AD2, [0x5947]), (0x7ADA, [0x4F2B]),
    (0x7ADC, [0x9F99]), (0x7ADD, [0x5E76]), (0x7AE2, [0x4FDF]), (0x7AEA, [0x7AD6]), (0x7AF6, [0x7ADE]), (0x7AF8, [0x7ADE]),
    (0x7AFC, [0x7BF7]), (0x7AFE, [0x7BEA])]),
  (0x7B, [
    (0x7B27, [0x518C]), (0x7B42, [0x7BEA]), (0x7B46, [0x7B14]), (0x7B4D, [0x7B0B]), (0x7B5E, [0x7B56]), (0x7B66, [0x7BA1]),
    (0x7B67, [0x7B15]), (0x7B6D, [0x7B97]), (0x7B6F, [0x7BB8]), (0x7B7A, [0x7B50]), (0x7B8B, [0x7B3A]), (0x7BC0, [0x8282]),
    (0x7BCB, [0x7BA7]), (0x7BE4, [0x7B03]), (0x7BE9, [0x7B5B]), (0x7BED, [0x7B3C]), (0x7BF2, [0x5F57]), (0x7BF3, [0x7B5A])]),
  (0x7C, [
    (0x7C00, [0x7BA6]), (0x7C02, [0x5E3C]), (0x7C0D, [0x7BD3]), (0x7C12, [0x7BE1]), (0x7C18, [0x7BAB]), (0x7C1E, [0x7BAA]),
    (0x7C21, [0x7B80]), (0x7C23, [0x7BD1]), (0x7C2B, [0x7BAB]), (0x7C39, [0x7B5C]), (0x7C3D, [0x7B7E]), (0x7C3E, [0x5E18]),
    (0x7C43, [0x7BEE]), (0x7C44, [0x7BD1]), (0x7C4C, [0x7B79]), (0x7C58, [0x7C50]), (0x7C59, [0x7B93]), (0x7C5B, [0x7BEF]),
    (0x7C5C, [0x7BA8]), (0x7C5F, [0x7C41]), (0x7C60, [0x7B3C]), (0x7C64, [0x7C56]), (0x7C69, [0x7B3E]), (0x7C6A, [0x7C16]),
    (0x7C6C, [0x7BF1]), (0x7C6D, [0x7C1B]), (0x7C6E, [0x7BA9]), (0x7C8B, [0x7CB9]), (0x7C93, [0x6CD4]), (0x7C9B, [0x8083]),
    (0x7CA7, [0x5986]), (0x7CC2, [0x7CC1]), (0x7CC9, [0x7CBD]), (0x7CCD, [0x7CA2]), (0x7CDB, [0x7CD6]), (0x7CDD, [0x7CC1]),
    (0x7CDE, [0x7CAA]), (0x7CE3, [0x7CC1]), (0x7CE7, [0x7CAE]), (0x7CF2, [0x7C9D]), (0x7CF4, [0x7C74]), (0x7CF6, [0x7C9C]),
    (0x7CF9, [0x7E9F]), (0x7CFA, [0x7EA0]), (0x7CFE, [0x7EA0])]),
  (0x7D, [
    (0x7D00, [0x7EAA]), (0x7D02, [0x7EA3]), (0x7D04, [0x7EA6]), (0x7D05, [0x7EA2]), (0x7D06, [0x7EA1]), (0x7D07, [0x7EA5]),
    (0x7D08, [0x7EA8]), (0x7D09, [0x7EAB]), (0x7D0B, [0x7EB9]), (0x7D0D, [0x7EB3]), (0x7D10, [0x7EBD]), (0x7D13, [0x7EBE]),
    (0x7D14, [0x7EAF]), (0x7D15, [0x7EB0]), (0x7D16, [0x7EBC]), (0x7D17, [0x7EB1]), (0x7D18, [0x7EAE]), (0x7D19, [0x7EB8]),
    (0x7D1A, [0x7EA7]), (0x7D1B, [0x7EB7]), (0x7D1C, [0x7EAD]), (0x7D1D, [0x7EB4]), (0x7D21, [0x7EBA]), (0x7D28, [0x7F1A]),
    (0x7D30, [0x7EC6]), (0x7D31, [0x7EC2]), (0x7D32, [0x7EC1]), (0x7D33, [0x7EC5]), (0x7D39, [0x7ECD]), (0x7D3A, [0x7EC0]),
    (0x7D3C, [0x7ECB]), (0x7D3F, [0x7ED0]), (0x7D40, [0x7ECC]), (0x7D42, [0x7EC8]), (0x7D43, [0x5F26]), (0x7D44, [0x7EC4]),
    (0x7D46, [0x7ECA]), (0x7D4B, [0x7EA9]), (0x7D4C, [0x7ECF]), (0x7D4E, [0x7ED7]), (0x7D50, [0x7ED3]), (0x7D55, [0x7EDD]),
    (0x7D56, [0x7EA9]), (0x7D5D, [0x7ED4]), (0x7D5E, [0x7EDE]), (0x7D61, [0x7EDC]), (0x7D62, [0x7EDA]), (0x7D64, [0x7EBF]),
    (0x7D66, [0x7ED9]), (0x7D68, [0x7ED2]), (0x7D70, [0x7ED6]), (0x7D71, [0x7EDF]), (0x7D72, [0x4E1D]), (0x7D73, [0x7EDB]),
    (0x7D75, [0x7ED8]), (0x7D76, [0x7EDD]), (0x7D79, [0x7EE2]), (0x7D81, [0x7ED1]), (0x7D82, [0x7EDF]), (0x7D83, [0x7EE1]),
    (0x7D86, [0x7EE0]), (0x7D88, [0x7EE8]), (0x7D89, [0x7EE3]), (0x7D8C, [0x7EE4]), (0x7D8D, [0x7ECB]), (0x7D8F, [0x7EE5]),
    (0x7D93, [0x7ECF]), (0x7D95, [0x7EC7]), (0x7D98, [0x7F1D]), (0x7D99, [0x7EE7]), (0x7D9A, [0x7EED]), (0x7D9C, [0x7EFC]),
    (0x7DA0, [0x7EFF]), (0x7DA2, [0x7EF8]), (0x7DA3, [0x7EFB]), (0x7DA4, [0x7ECD]), (0x7DAB, [0x7EBF]), (0x7DAC, [0x7EF6]),
    (0x7DAD, [0x7EF4]), (0x7DB0, [0x7EFE]), (0x7DB1, [0x7EB2]), (0x7DB2, [0x7F51]), (0x7DB3, [0x7EF7]), (0x7DB8, [0x7EB6]),
    (0x7DB9, [0x7EFA]), (0x7DBA, [0x7EEE]), (0x7DBB, [0x7EFD]), (0x7DBD, [0x7EF0]), (0x7DBE, [0x7EEB]), (0x7DBF, [0x7EF5]),
    (0x7DC4, [0x7EF2]), (0x7DC7, [0x7F01]), (0x7DCA, [0x7D27]), (0x7DCB, [0x7EEF]), (0x7DCF, [0x603B]), (0x7DD0, [0x7E41]),
    (0x7DD1, [0x7EFF]), (0x7DD2, [0x7EEA]), (0x7DD6, [0x7EEA]), (0x7DD7, [0x7F03]), (0x7DD8, [0x7F04]), (0x7DD9, [0x7F02]),
    (0x7DDA, [0x7EBF]), (0x7DDC, [0x7EF5]), (0x7DDD, [0x7F09]), (0x7DDE, [0x7F0E]), (0x7DDF, [0x91CD]), (0x7DE0, [0x7F14]),
    (0x7DE1, [0x7F17]), (0x7DE3, [0x7F18]), (0x7DE6, [0x7F0C]), (0x7DE8, [0x7F16]), (0x7DE9, [0x7F13]), (0x7DEC, [0x7F05]),
    (0x7DEF, [0x7EAC]), (0x7DF1, [0x7F11]), (0x7DF2, [0x7F08]), (0x7DF4, [0x7EC3]), (0x7DF9, [0x7F07]), (0x7DFC, [0x7F0A]),
    (0x7DFE, [0x7F20])]),
  (0x7E, [
    (0x7E01, [0x7F18]), (0x7E02, [0x603B]), (0x7E04, [0x7EF3]), (0x7E08, [0x8426]), (0x7E09, [0x7F19]), (0x7E0A, [0x7F22]),
    (0x7E0B, [0x7F12]), (0x7E10, [0x7EC9]), (0x7E11, [0x7F23]), (0x7E15, [0x7F0A]), (0x7E17, [0x7F1E]), (0x7E1B, [0x7F1A]),
    (0x7E1D, [0x7F1C]), (0x7E1E, [0x7F1F]), (0x7E1F, [0x7F1B]), (0x7E23, [0x53BF]), (0x7E26, [0x7EB5]), (0x7E27, [0x7EE6]),
    (0x7E2B, [0x7F1D]), (0x7E2D, [0x7F21]), (0x7E2E, [0x7F29]), (0x7E31, [0x7EB5]), (0x7E32, [0x7F27]), (0x7E35, [0x7F26]),
    (0x7E36, [0x7D77]), (0x7E37, [0x7F15]), (0x7E39, [0x7F25]), (0x7E3D, [0x603B]), (0x7E3E, [0x7EE9]), (0x7E43, [0x7EF7]),
    (0x7E45, [0x7F2B]), (0x7E46, [0x7F2A]), (0x7E52, [0x7F2F]), (0x7E54, [0x7EC7]), (0x7E55, [0x7F2E]), (0x7E56, [0x4F1E]),
    (0x7E59, [0x7FFB]), (0x7E5A, [0x7F2D]), (0x7E5B, [0x7EF0]), (0x7E5E, [0x7ED5]), (0x7E69, [0x7EF3]), (0x7E6A, [0x7ED8]),
    (0x7E6D, [0x8327]), (0x7E6E, [0x7F30]), (0x7E6F, [0x7F33]), (0x7E70, [0x7F32]), (0x7E73, [0x7F34]), (0x7E79, [0x7ECE]),
    (0x7E7C, [0x7EE7]), (0x7E7D, [0x7F24]), (0x7E7E, [0x7F31]), (0x7E88, [0x7F2C]), (0x7E89, [0x7F35]), (0x7E8A, [0x7EA9]),
    (0x7E8C, [0x7EED]), (0x7E8D, [0x7D6B]), (0x7E8E, [0x7E4A]), (0x7E8F, [0x7F20]), (0x7E92, [0x7F20]), (0x7E93, [0x7F28]),
    (0x7E96, [0x7E4A]), (0x7E98, [0x7F35]), (0x7E9C, [0x7F06])]),
  (0x7F, [
    (0x7F37, [0x5378]), (0x7F3D, [0x94B5]), (0x7F3E, [0x74F6]), (0x7F47, [0x6A3D]), (0x7F4C, [0x7F42]), (0x7F4E, [0x7F48]),
    (0x7F53, [0x7F54]), (0x7F65, [0x7F82]), (0x7F66, [0x7F58]), (0x7F70, [0x7F5A]), (0x7F75, [0x9A82]), (0x7F77, [0x7F62]),
    (0x7F78, [0x7F5A]), (0x7F83, [0x5196]), (0x7F85, [0x7F57]), (0x7F86, [0x7F74]), (0x7F88, [0x7F81]), (0x7F91, [0x8BF1]),
    (0x7F97, [0x7F8C]), (0x7F99, [0x7F8E]), (0x7FA3, [0x7FA4]), (0x7FA5, [0x7F9F]), (0x7FA8, [0x7FA1]), (0x7FA9, [0x4E49]),
    (0x7FAE, [0x7FB9]), (0x7FB4, [0x7FB6]), (0x7FC4, [0x7FC5]), (0x7FC6, [0x7FE0]), (0x7FCD, [0x62AB]), (0x7FD2, [0x4E60]),
    (0x7FEC, [0x7FDA]), (0x7FF6, [0x7FF1]), (0x7FF9, [0x7FD8]), (0x7FFA, [0x7FF1])]),
  (0x80, [
    (0x8011, [0x7AEF]), (0x8021, [0x9504]), (0x802C, [0x8027]), (0x802E, [0x8022]), (0x802F, [0x7A6B]), (0x8040, [0x804C]),
    (0x8056, [0x5723]), (0x805E, [0x95FB]), (0x805F, [0x5A7F]), (0x8061, [0x806A]), (0x8066, [0x806A]), (0x8068, [0x8054]),
    (0x806B, [0x8054]), (0x806E, [0x8054]), (0x806F, [0x8054]), (0x8070, [0x806A]), (0x8072, [0x58F0]), (0x8073, [0x8038]),
    (0x8074, [0x542C]), (0x8075, [0x8069]), (0x8076, [0x8042]), (0x8077, [0x804C]), (0x8079, [0x804D]), (0x807D, [0x542C]),
    (0x807E, [0x804B]), (0x8085, [0x8083]), (0x8088, [0x8087]), (0x808E, [0x80AF]), (0x80AC, [0x75A3]), (0x80B8, [0x80B9]),
    (0x80BB, [0x80AF]), (0x80DF, [0x62C7]), (0x80F7, [0x80F8])]),
  (0x81, [
    (0x8103, [0x8106]), (0x8104, [0x8122]), (0x8107, [0x80C1]), (0x811B, [0x80EB]), (0x8123, [0x5507]), (0x812B, [0x8131]),
    (0x8133, [0x8111]), (0x8134, [0x75DE]), (0x8139, [0x80C0]), (0x814E, [0x80BE]), (0x8156, [0x80E8]), (0x8161, [0x8136]),
    (0x8166, [0x8111]), (0x816B, [0x80BF]), (0x8173, [0x811A]), (0x8178, [0x80A0]), (0x8181, [0x80B7]), (0x8183, [0x817D]),
    (0x8193, [0x80A0]), (0x8195, [0x8158]), (0x819A, [0x80A4]), (0x81A0, [0x80F6]), (0x81A9, [0x817B]), (0x81AC, [0x8106]),
    (0x81B8, [0x9AD3]), (0x81BD, [0x80C6]), (0x81BE, [0x810D]), (0x81BF, [0x8113]), (0x81C8, [0x814A]), (0x81C9, [0x8138]),
    (0x81CD, [0x8110]), (0x81CF, [0x8191]), (0x81D3, [0x810F]), (0x81D5, [0x8198]), (0x81D8, [0x814A]), (0x81DA, [0x80EA]),
    (0x81DF, [0x810F]), (0x81E0, [0x8114]), (0x81E2, [0x81DC]), (0x81E5, [0x5367]), (0x81E8, [0x4E34]), (0x81F0, [0x81ED])]),
  (0x82, [
    (0x8203, [0x8204]), (0x8207, [0x4E0E]), (0x8208, [0x5174]), (0x8209, [0x4E3E]), (0x820A, [0x65E7]), (0x820B, [0x8845]),
    (0x820E, [0x820D]), (0x8216, [0x94FA]), (0x8217, [0x94FA]), (0x8218, [0x9986]), (0x8221, [0x8239]), (0x8229, [0x8239]),
    (0x8241, [0x9020]), (0x824A, [0x8236]), (0x8259, [0x8231]), (0x8265, [0x696B]), (0x8266, [0x8230]), (0x826B, [0x823B]),
    (0x8271, [0x8270]), (0x8276, [0x8273]), (0x8277, [0x8273]), (0x8288, [0x7F8A]), (0x828C, [0x828B]), (0x8294, [0x5349]),
    (0x82BB, [0x520D]), (0x82D0, [0x7B2C]), (0x82E9, [0x8469]), (0x82F6, [0x85BE])]),
  (0x83, [
    (0x8306, [0x8305]), (0x8318, [0x8354]), (0x831F, [0x7B14]), (0x8330, [0x8438]), (0x8332, [0x5179]), (0x8345, [0x7B54]),
    (0x8358, [0x5E84]), (0x838A, [0x5E84]), (0x838F, [0x838E]), (0x8391, [0x84EC]), (0x8396, [0x830E]), (0x83A2, [0x835A]),
    (0x83A7, [0x82CB]), (0x83AD, [0x8282]), (0x83BE, [0x83BD]), (0x83C4, [0x4E1C]), (0x83CF, [0x8377]), (0x83EB, [0x84F3]),
    (0x83ED, [0x82D4]), (0x83EF, [0x534E]), (0x83F7, [0x5E1A])]),
  (0x84, [
    (0x840A, [0x83B1]), (0x8415, [0x8360]), (0x8420, [0x840C]), (0x842C, [0x4E07]), (0x8432, [0x8431]), (0x8435, [0x83B4]),
    (0x8441, [0x59DC]), (0x8442, [0x83AC]), (0x8445, [0x83F9]), (0x8449, [0x53F6]), (0x8452, [0x836D]), (0x8455, [0x839A]),
    (0x8457, [0x7740]), (0x8462, [0x76D6]), (0x8464, [0x836E]), (0x8466, [0x82C7]), (0x846A, [0x84DF]), (0x846F, [0x836F]),
    (0x8477, [0x8364]), (0x8483, [0x7BC6]), (0x8493, [0x83BC]), (0x8494, [0x83B3]), (0x84AD, [0x520D]), (0x84B7, [0x8553]),
    (0x84BC, [0x82CD]), (0x84C0, [0x836A]), (0x84CB, [0x76D6]), (0x84D5, [0x8325]), (0x84EE, [0x83B2]), (0x84EF, [0x82C1]),
    (0x84F4, [0x83BC]), (0x84FD, [0x835C])]),
  (0x85, [
    (0x8509, [0x84D8]), (0x8512, [0x8364]), (0x8515, [0x8482]), (0x851E, [0x848C]), (0x8523, [0x848B]), (0x8524, [0x85CC]),
    (0x8526, [0x8311]), (0x852D, [0x836B]), (0x8533, [0x84A8]), (0x8535, [0x85CF]), (0x853F, [0x848D]), (0x8541, [0x8368]),
    (0x8545, [0x6F2B]), (0x8546, [0x8487]), (0x854B, [0x854A]), (0x854E, [0x835E]), (0x8552, [0x836C]), (0x8555, [0x83B8]),
    (0x8558, [0x835B]), (0x855A, [0x843C]), (0x8562, [0x8489]), (0x8569, [0x8361]), (0x856A, [0x829C]), (0x856B, [0x8463]),
    (0x856D, [0x8427]), (0x8577, [0x84E3]), (0x8580, [0x8570]), (0x8588, [0x835F]), (0x858A, [0x84DF]), (0x858C, [0x8297]),
    (0x8594, [0x8537]), (0x8598, [0x8359]), (0x85A6, [0x8350]), (0x85A9, [0x8428]), (0x85AB, [0x85B0]), (0x85AC, [0x836F]),
    (0x85BA, [0x8360]), (0x85BB, [0x85FB]), (0x85BC, [0x852F]), (0x85CD, [0x84DD]), (0x85CE, [0x8369]), (0x85DD, [0x827A]),
    (0x85E1, [0x837B]), (0x85E5, [0x836F]), (0x85EA, [0x85AE]), (0x85F4, [0x8574]), (0x85F6, [0x82C8]), (0x85F8, [0x854F]),
    (0x85F9, [0x853C]), (0x85FA, [0x853A])]),
  (0x86, [
    (0x8600, [0x841A]), (0x8602, [0x854A]), (0x8604, [0x8572]), (0x8606, [0x82A6]), (0x8607, [0x82CF]), (0x860A, [0x8574]),
    (0x860B, [0x82F9]), (0x860D, [0x85B0]), (0x8613, [0x82CF]), (0x861A, [0x85D3]), (0x861B, [0x842E]), (0x861C, [0x83CA]),
    (0x861D, [0x8539]), (0x861E, [0x8539]), (0x8622, [0x830F]), (0x862D, [0x5170]), (0x8632, [0x8502]), (0x8637, [0x5914]),
    (0x863F, [0x841D]), (0x8640, [0x9F51]), (0x8641, [0x5914]), (0x8646, [0x8502]), (0x8655, [0x5904]), (0x865B, [0x865A]),
    (0x865C, [0x864F]), (0x865D, [0x864E]), (0x865F, [0x53F7]), (0x8666, [0x8665]), (0x8667, [0x4E8F]), (0x866F, [0x866C]),
    (0x8689, [0x868A]), (0x8698, [0x86D4]), (0x86A6, [0x86BA]), (0x86C1, [0x866D]), (0x86CD, [0x8424]), (0x86D3, [0x8786]),
    (0x86E5, [0x86DE]), (0x86FA, [0x86F1])]),
  (0x87, [
    (0x8706, [0x86AC]), (0x870B, [0x8782]), (0x8716, [0x86D4]), (0x871D, [0x871E]), (0x8726, [0x8727]), (0x8728, [0x8776]),
    (0x8735, [0x870E]), (0x8739, [0x868B]), (0x873A, [0x9713]), (0x8744, [0x86E7]), (0x8750, [0x7441]), (0x8755, [0x8680]),
    (0x875F, [0x732C]), (0x8766, [0x867E]), (0x876B, [0x870D]), (0x8777, [0x86B8]), (0x8778, [0x8717]), (0x877F, [0x8747]),
    (0x8784, [0x86F3]), (0x878E, [0x878D]), (0x879E, [0x8682]), (0x87A1, [0x868A]), (0x87A2, [0x8424]), (0x87BB, [0x877C]),
    (0x87BE, [0x8693]), (0x87C1, [0x868A]), (0x87C4, [0x86F0]), (0x87C7, [0x87C6]), (0x87C8, [0x8748]), (0x87CE, [0x87A8]),
    (0x87D6, [0x87F4]), (0x87DA, [0x87DB]), (0x87DD, [0x87B6]), (0x87DF, [0x87E7]), (0x87E3, [0x866E]), (0x87E9, [0x87E8]),
    (0x87EC, [0x8749]), (0x87EF, [0x86F2]), (0x87F0, [0x87CF]), (0x87F6, [0x86CF]), (0x87F8, [0x8821]), (0x87FB, [0x8681])]),
  (0x88, [
    (0x8805, [0x8747]), (0x8806, [0x867F]), (0x880F, [0x87F9]), (0x8810, [0x86F4]), (0x8811, [0x877E]), (0x8814, [0x869D]),
    (0x881F, [0x8721]), (0x8823, [0x86CE]), (0x8828, [0x87CF]), (0x8829, [0x870D]), (0x8831, [0x86CA]), (0x8836, [0x8695]),
    (0x883B, [0x86EE]), (0x8842, [0x8844]), (0x8846, [0x4F17]), (0x8849, [0x5580]), (0x8853, [0x672F]), (0x8858, [0x8854]),
    (0x885B, [0x536B]), (0x885E, [0x536B]), (0x8864, [0x8863]), (0x887B, [0x88A1]), (0x889E, [0x886E]), (0x88A0, [0x889F]),
    (0x88B2, [0x88B3]), (0x88B5, [0x887D]), (0x88BF, [0x8902]), (0x88CA, [0x8885]), (0x88CC, [0x88B7]), (0x88CF, [0x88E1]),
    (0x88D6, [0x8897]), (0x88DC, [0x8865]), (0x88DD, [0x88C5]), (0x88E0, [0x88D9]), (0x88ED, [0x892B]), (0x88F5, [0x88F4])]),
  (0x89, [
    (0x8901, [0x88F9]), (0x8903, [0x88C9]), (0x890C, [0x88E9]), (0x8911, [0x8924]), (0x8932, [0x88E4]), (0x8933, [0x88E2]),
    (0x8938, [0x891B]), (0x893B, [0x4EB5]), (0x8943, [0x8912]), (0x8947, [0x88E5]), (0x894D, [0x6742]), (0x894F, [0x889A]),
    (0x8956, [0x8884]), (0x895D, [0x88E3]), (0x8960, [0x88C6]), (0x8962, [0x8892]), (0x8964, [0x8934]), (0x896A, [0x889C]),
    (0x896F, [0x886C]), (0x8972, [0x88AD]), (0x8974, [0x5E71]), (0x8987, [0x9738]), (0x8988, [0x6838]), (0x898A, [0x7F81]),
    (0x898B, [0x89C1]), (0x898E, [0x89C3]), (0x898F, [0x89C4]), (0x8993, [0x89C5]), (0x8996, [0x89C6]), (0x8997, [0x4F3A]),
    (0x8998, [0x89C7]), (0x899A, [0x89C9]), (0x899C, [0x773A]), (0x89A1, [0x89CB]), (0x89A6, [0x89CE]), (0x89A7, [0x89C8]),
    (0x89AA, [0x4EB2]), (0x89AC, [0x89CA]), (0x89AF, [0x89CF]), (0x89B2, [0x89D0]), (0x89B3, [0x89C2]), (0x89B7, [0x89D1]),
    (0x89BA, [0x89C9]), (0x89BB, [0x89D1]), (0x89BC, [0x89B6]), (0x89BD, [0x89C8]), (0x89BF, [0x89CC]), (0x89C0, [0x89C2]),
    (0x89E7, [0x89E3]), (0x89F4, [0x89DE]), (0x89F5, [0x89E5]), (0x89F8, [0x89E6]), (0x89FF, [0x89FD])]),
  (0x8A, [
    (0x8A02, [0x8BA2]), (0x8A03, [0x8BA3]), (0x8A05, [0x8A04]), (0x8A08, [0x8BA1]), (0x8A0A, [0x8BAF]), (0x8A0C, [0x8BA7]),
    (0x8A0E, [0x8BA8]), (0x8A10, [0x8BA6]), (0x8A13, [0x8BAD]), (0x8A15, [0x8BAA]), (0x8A16, [0x8BAB]), (0x8A17, [0x8BAC]),
    (0x8A18, [0x8BB0]), (0x8A1B, [0x8BB9]), (0x8A1D, [0x8BB6]), (0x8A1F, [0x8BBC]), (0x8A22, [0x4723]), (0x8A23, [0x8BC0]),
    (0x8A25, [0x8BB7]), (0x8A29, [0x8BBB]), (0x8A2A, [0x8BBF]), (0x8A2B, [0x4FE1]), (0x8A2D, [0x8BBE]), (0x8A31, [0x8BB8]),
    (0x8A33, [0x8BD1]), (0x8A34, [0x8BC9]), (0x8A36, [0x8BC3]), (0x8A3A, [0x8BCA]), (0x8A3C, [0x8BC1]), (0x8A3D, [0x8BDF]),
    (0x8A41, [0x8BC2]), (0x8A46, [0x8BCB]), (0x8A4E, [0x8BB5]), (0x8A50, [0x8BC8]), (0x8A52, [0x8BD2]), (0x8A54, [0x8BCF]),
    (0x8A55, [0x8BC4]), (0x8A57, [0x8BC7]), (0x8A58, [0x8BCE]), (0x8A5B, [0x8BC5]), (0x8A5E, [0x8BCD]), (0x8A60, [0x548F]),
    (0x8A61, [0x8BE9]), (0x8A62, [0x8BE2]), (0x8A63, [0x8BE3]), (0x8A64, [0x8C0E]), (0x8A66, [0x8BD5]), (0x8A69, [0x8BD7]),
    (0x8A6B, [0x8BE7]), (0x8A6C, [0x8BDF]), (0x8A6D, [0x8BE1]), (0x8A6E, [0x8BE0]), (0x8A70, [0x8BD8]), (0x8A71, [0x8BDD]),
    (0x8A72, [0x8BE5]), (0x8A73, [0x8BE6]), (0x8A76, [0x916C]), (0x8A78, [0x8C1C]), (0x8A7A, [0x94ED]), (0x8A7B, [0x54AF]),
    (0x8A7C, [0x8BD9]), (0x8A7E, [0x8BBB]), (0x8A7F, [0x8BD6]), (0x8A84, [0x8BD4]), (0x8A85, [0x8BDB]), (0x8A86, [0x8BD3]),
    (0x8A87, [0x5938]), (0x8A88, [0x8BEC]), (0x8A8D, [0x8BA4]), (0x8A90, [0x54E6]), (0x8A91, [0x8BF3]), (0x8A92, [0x8BF6]),
    (0x8A95, [0x8BDE]), (0x8A98, [0x8BF1]), (0x8A9A, [0x8BEE]), (0x8A9E, [0x8BED]), (0x8AA0, [0x8BDA]), (0x8AA1, [0x8BEB]),
    (0x8AA3, [0x8BEC]), (0x8AA4, [0x8BEF]), (0x8AA5, [0x8BF0]), (0x8AA6, [0x8BF5]), (0x8AA8, [0x8BF2]), (0x8AAA, [0x8BF4]),
    (0x8AAC, [0x8BF4]), (0x8AAD, [0x8BFB]), (0x8AB0, [0x8C01]), (0x8AB2, [0x8BFE]), (0x8AB3, [0x8BCE]), (0x8AB6, [0x8C07]),
    (0x8AB9, [0x8BFD]), (0x8ABC, [0x8C0A]), (0x8ABE, [0x8A14]), (0x8ABF, [0x8C03]), (0x8AC2, [0x8C04]), (0x8AC4, [0x8C06]),
    (0x8AC7, [0x8C08]), (0x8AC9, [0x8BFF]), (0x8ACB, [0x8BF7]), (0x8ACD, [0x8BE4]), (0x8ACF, [0x8BF9]), (0x8AD1, [0x8BFC]),
    (0x8AD2, [0x8C05]), (0x8AD6, [0x8BBA]), (0x8AD7, [0x8C02]), (0x8ADB, [0x8C00]), (0x8ADC, [0x8C0D]), (0x8ADD, [0x8C1E]),
    (0x8ADE, [0x8C1D]), (0x8AE2, [0x8BE8]), (0x8AE4, [0x8C14]), (0x8AE6, [0x8C1B]), (0x8AE7, [0x8C10]), (0x8AE9, [0x8C31]),
    (0x8AEB, [0x8C0F]), (0x8AED, [0x8C15]), (0x8AEE, [0x8C18]), (0x8AF1, [0x8BB3]), (0x8AF3, [0x8C19]), (0x8AF6, [0x8C0C]),
    (0x8AF7, [0x8BBD]), (0x8AF8, [0x8BF8]), (0x8AFA, [0x8C1A]), (0x8AFC, [0x8C16]), (0x8AFE, [0x8BFA])]),
  (0x8B, [
    (0x8B00, [0x8C0B]), (0x8B01, [0x8C12]), (0x8B02, [0x8C13]), (0x8B04, [0x8A8A]), (0x8B05, [0x8BCC]), (0x8B09, [0x8BE1]),
    (0x8B0A, [0x8C0E]), (0x8B0E, [0x8C1C]), (0x8B10, [0x8C27]), (0x8B14, [0x8C11]), (0x8B16, [0x8C21]), (0x8B17, [0x8C24]),
    (0x8B19, [0x8C26]), (0x8B1A, [0x8C25]), (0x8B1B, [0x8BB2]), (0x8B1D, [0x8C22]), (0x8B1F, [0x6146]), (0x8B20, [0x8C23]),
    (0x8B21, [0x8C23]), (0x8B28, [0x8C1F]), (0x8B2B, [0x8C2A]), (0x8B2C, [0x8C2C]), (0x8B2D, [0x8C2B]), (0x8B2E, [0x5567]),
    (0x8B33, [0x8BB4]), (0x8B38, [0x8B37]), (0x8B39, [0x8C28]), (0x8B3E, [0x8C29]), (0x8B3F, [0x5632]), (0x8B49, [0x8BC1]),
    (0x8B4B, [0x8C30]), (0x8B4D, [0x5E94]), (0x8B4E, [0x8C32]), (0x8B4F, [0x8BA5]), (0x8B52, [0x64AD]), (0x8B53, [0x8B7F]),
    (0x8B56, [0x8C2E]), (0x8B58, [0x8BC6]), (0x8B59, [0x8C2F]), (0x8B5A, [0x8C2D]), (0x8B5C, [0x8C31]), (0x8B61, [0x8C20]),
    (0x8B68, [0x54DD]), (0x8B6B, [0x8C35]), (0x8B6F, [0x8BD1]), (0x8B70, [0x8BAE]), (0x8B71, [0x5584]), (0x8B72, [0x8BA9]),
    (0x8B74, [0x8C34]), (0x8B77, [0x62A4]), (0x8B7D, [0x8A89]), (0x8B7E, [0x8C2B]), (0x8B80, [0x8BFB]), (0x8B83, [0x8B9A]),
    (0x8B85, [0x8C09]), (0x8B87, [0x8C04]), (0x8B8A, [0x53D8]), (0x8B8B, [0x8A5F]), (0x8B8D, [0x8C14]), (0x8B8E, [0x96E0]),
    (0x8B90, [0x96E0]), (0x8B92, [0x8C17]), (0x8B93, [0x8BA9]), (0x8B95, [0x8C30]), (0x8B96, [0x8C36]), (0x8B9B, [0x5453]),
    (0x8B9C, [0x8C20]), (0x8B9E, [0x8C33]), (0x8BA0, [0x8A00])]),
  (0x8C, [
    (0x8C48, [0x5C82]), (0x8C4A, [0x793C]), (0x8C4E, [0x7AD6]), (0x8C50, [0x4E30]), (0x8C53, [0x8273]), (0x8C54, [0x8273]),
    (0x8C63, [0x8C5C]), (0x8C68, [0x72F6]), (0x8C6C, [0x732A]), (0x8C76, [0x8C6E]), (0x8C7B, [0x72B4]), (0x8C7C, [0x8C94]),
    (0x8C81, [0x72D6]), (0x8C8E, [0x730A]), (0x8C93, [0x732B]), (0x8C9D, [0x8D1D]), (0x8C9E, [0x8D1E]), (0x8C9F, [0x5458]),
    (0x8CA0, [0x8D1F]), (0x8CA1, [0x8D22]), (0x8CA2, [0x8D21]), (0x8CA3, [0x8D37]), (0x8CA7, [0x8D2B]), (0x8CA8, [0x8D27]),
    (0x8CA9, [0x8D29]), (0x8CAA, [0x8D2A]), (0x8CAB, [0x8D2F]), (0x8CAC, [0x8D23]), (0x8CAD, [0x8D28]), (0x8CAE, [0x8D30]),
    (0x8CAF, [0x8D2E]), (0x8CB0, [0x8D33]), (0x8CB3, [0x8D30]), (0x8CB4, [0x8D35]), (0x8CB6, [0x8D2C]), (0x8CB7, [0x4E70]),
    (0x8CB8, [0x8D37]), (0x8CBA, [0x8D36]), (0x8CBB, [0x8D39]), (0x8CBC, [0x8D34]), (0x8CBD, [0x8D3B]), (0x8CBF, [0x8D38]),
    (0x8CC0, [0x8D3A]), (0x8CC1, [0x8D32]), (0x8CC2, [0x8D42]), (0x8CC3, [0x8D41]), (0x8CC4, [0x8D3F]), (0x8CC5, [0x8D45]),
    (0x8CC7, [0x8D44]), (0x8CC8, [0x8D3E]), (0x8CCA, [0x8D3C]), (0x8CCD, [0x8D43]), (0x8CCE, [0x8D31]), (0x8CD1, [0x8D48]),
    (0x8CD2, [0x8D4A]), (0x8CD3, [0x5BBE]), (0x8CD6, [0x8D4A]), (0x8CD9, [0x8D52]), (0x8CDA, [0x8D49]), (0x8CDB, [0x8D5E]),
    (0x8CDC, [0x8D50]), (0x8CDE, [0x8D4F]), (0x8CE0, [0x8D54]), (0x8CE1, [0x8D53]), (0x8CE2, [0x8D24]), (0x8CE3, [0x5356]),
    (0x8CE4, [0x8D31]), (0x8CE6, [0x8D4B]), (0x8CE7, [0x8D55]), (0x8CE8, [0x8CE9]), (0x8CEA, [0x8D28]), (0x8CEB, [0x8D4D]),
    (0x8CEC, [0x8D26]), (0x8CED, [0x8D4C]), (0x8CF4, [0x8D56]), (0x8CF5, [0x8D57]), (0x8CFA, [0x8D5A]), (0x8CFB, [0x8D59]),
    (0x8CFC, [0x8D2D]), (0x8CFD, [0x8D5B]), (0x8CFE, [0x8D5C])]),
  (0x8D, [
    (0x8D01, [0x8D25]), (0x8D04, [0x8D3D]), (0x8D05, [0x8D58]), (0x8D08, [0x8D60]), (0x8D0A, [0x8D5E]), (0x8D0B, [0x8D5D]),
    (0x8D0D, [0x8D61]), (0x8D0F, [0x8D62]), (0x8D10, [0x8D46]), (0x8D11, [0x8D63]), (0x8D12, [0x8D24]), (0x8D13, [0x8D43]),
    (0x8D16, [0x8D4E]), (0x8D17, [0x8D5D]), (0x8D1B, [0x8D63]), (0x8D1C, [0x8D43]), (0x8D6C, [0x8D6A]), (0x8D95, [0x8D76]),
    (0x8D99, [0x8D75]), (0x8DA8, [0x8D8B]), (0x8DAB, [0x8D85]), (0x8DB2, [0x8DB1]), (0x8DE1, [0x8FF9]), (0x8DE5, [0x8DFA]),
    (0x8DF4, [0x8E29])]),
  (0x8E, [
    (0x8E08, [0x758F]), (0x8E10, [0x8DF5]), (0x8E28, [0x8E2A]), (0x8E32, [0x9041]), (0x8E34, [0x8E0A]), (0x8E36, [0x8E1F]),
    (0x8E46, [0x817F]), (0x8E4C, [0x8DC4]), (0x8E4F, [0x8E44]), (0x8E55, [0x8DF8]), (0x8E5D, [0x5C63]), (0x8E5E, [0x8DEC]),
    (0x8E63, [0x8E52]), (0x8E64, [0x8E2A]), (0x8E6E, [0x8DF9]), (0x8E77, [0x8E76]), (0x8E7A, [0x8DF7]), (0x8E89, [0x8DB8]),
    (0x8E8A, [0x8E0C]), (0x8E8B, [0x8DFB]), (0x8E8D, [0x8DC3]), (0x8E91, [0x8E2F]), (0x8E93, [0x8E2C]), (0x8E9A, [0x8DF9]),
    (0x8E9B, [0x8B86]), (0x8EA1, [0x8E51]), (0x8EA5, [0x8E7F]), (0x8EA6, [0x8E9C]), (0x8EA7, [0x5C63]), (0x8EAA, [0x8E8F]),
    (0x8EAD, [0x803D]), (0x8EB0, [0x4F53]), (0x8EB1, [0x8EB2]), (0x8EB7, [0x77EE]), (0x8EC0, [0x8EAF]), (0x8EC1, [0x507B]),
    (0x8EC4, [0x804C]), (0x8EC6, [0x4F53]), (0x8ECA, [0x8F66]), (0x8ECB, [0x8F67]), (0x8ECC, [0x8F68]), (0x8ECD, [0x519B]),
    (0x8ED2, [0x8F69]), (0x8ED4, [0x8F6B]), (0x8EDA, [0x8ED1]), (0x8EDB, [0x8F6D]), (0x8EDF, [0x8F6F]), (0x8EE2, [0x8F6C]),
    (0x8EE4, [0x8F77]), (0x8EEB, [0x8F78]), (0x8EF0, [0x8F88]), (0x8EF2, [0x8F71]), (0x8EF6, [0x8F6D]), (0x8EF8, [0x8F74]),
    (0x8EFA, [0x8F7A]), (0x8EFB, [0x8F72]), (0x8EFC, [0x8F76]), (0x8EFD, [0x8F7B]), (0x8EFE, [0x8F7C])]),
  (0x8F, [
    (0x8F03, [0x8F83]), (0x8F05, [0x8F82]), (0x8F09, [0x8F7D]), (0x8F0A, [0x8F7E]), (0x8F0F, [0x8F36]), (0x8F12, [0x8F84]),
    (0x8F14, [0x8F85]), (0x8F15, [0x8F7B]), (0x8F19, [0x8F84]), (0x8F1B, [0x8F86]), (0x8F1C, [0x8F8E]), (0x8F1D, [0x8F89]),
    (0x8F1E, [0x8F8B]), (0x8F1F, [0x8F8D]), (0x8F25, [0x8F8A]), (0x8F26, [0x8F87]), (0x8F28, [0x9327]), (0x8F29, [0x8F88]),
    (0x8F2A, [0x8F6E]), (0x8F2D, [0x8F6F]), (0x8F2F, [0x8F91]), (0x8F33, [0x8F8F]), (0x8F38, [0x8F93]), (0x8F3A, [0x8F8E]),
    (0x8F3B, [0x8F90]), (0x8F3E, [0x8F97]), (0x8F3F, [0x8206]), (0x8F40, [0x8F3C]), (0x8F42, [0x6BC2]), (0x8F44, [0x8F96]),
    (0x8F45, [0x8F95]), (0x8F46, [0x8F98]), (0x8F49, [0x8F6C]), (0x8F4D, [0x8F99]), (0x8F4E, [0x8F7F]), (0x8F54, [0x8F9A]),
    (0x8F5F, [0x8F70]), (0x8F61, [0x8F94]), (0x8F62, [0x8F79]), (0x8F64, [0x8F73]), (0x8F9D, [0x8F9E]), (0x8FA2, [0x8FA3]),
    (0x8FA4, [0x8F9E]), (0x8FA5, [0x859B]), (0x8FA6, [0x529E]), (0x8FAC, [0x6591]), (0x8FAD, [0x8F9E]), (0x8FAE, [0x8FAB]),
    (0x8FAF, [0x8FA9]), (0x8FB2, [0x519C]), (0x8FBA, [0x8FB9]), (0x8FCA, [0x8FCE]), (0x8FE0, [0x5EFA]), (0x8FEC, [0x5F80]),
    (0x8FEF, [0x9003])]),
  (0x90, [
    (0x9008, [0x8FE5]), (0x900E, [0x9052]), (0x9013, [0x9012]), (0x9019, [0x8FD9]), (0x9023, [0x8FDE]), (0x9024, [0x5A11]),
    (0x9029, [0x5954]), (0x902C, [0x8FF8]), (0x9032, [0x8FDB]), (0x9037, [0x9016]), (0x903A, [0x8FDC]), (0x9040, [0x968F]),
    (0x9045, [0x8FDF]), (0x9049, [0x4FA6]), (0x904B, [0x8FD0]), (0x904C, [0x8FD5]), (0x904E, [0x8FC7]), (0x9054, [0x8FBE]),
    (0x9055, [0x8FDD]), (0x9059, [0x9065]), (0x905C, [0x900A]), (0x905E, [0x9012]), (0x9060, [0x8FDC]), (0x9061, [0x6EAF]),
    (0x9069, [0x9002]), (0x9072, [0x8FDF]), (0x9077, [0x8FC1]), (0x9078, [0x9009]), (0x907A, [0x9057]), (0x907C, [0x8FBD]),
    (0x9081, [0x8FC8]), (0x9084, [0x8FD8]), (0x9087, [0x8FE9]), (0x9089, [0x8FB9]), (0x908A, [0x8FB9]), (0x908F, [0x903B]),
    (0x9090, [0x9026]), (0x90A8, [0x6751]), (0x90C4, [0x9699]), (0x90DE, [0x90CE]), (0x90DF, [0x90CF]), (0x90F0, [0x966C]),
    (0x90F5, [0x90AE]), (0x90F7, [0x4E61]), (0x90FB, [0x9121])]),
  (0x91, [
    (0x9106, [0x90D3]), (0x9109, [0x4E61]), (0x910A, [0x4E61]), (0x9112, [0x90B9]), (0x9114, [0x90AC]), (0x9115, [0x4E61]),
    (0x9116, [0x90E7]), (0x9127, [0x9093]), (0x912D, [0x90D1]), (0x9130, [0x90BB]), (0x9132, [0x90F8]), (0x9134, [0x90BA]),
    (0x9136, [0x90D0]), (0x913A, [0x909D]), (0x9147, [0x913C]), (0x9148, [0x90E6]), (0x9154, [0x9189]), (0x9159, [0x659F]),
    (0x9167, [0x916C]), (0x917C, [0x91A2]), (0x918E, [0x9E79]), (0x9196, [0x915D]), (0x919E, [0x915D]), (0x91A4, [0x9171]),
    (0x91AB, [0x533B]), (0x91AC, [0x9171]), (0x91B8, [0x917F]), (0x91BB, [0x916C]), (0x91BF, [0x91BE]), (0x91C0, [0x917F]),
    (0x91C1, [0x8845]), (0x91C3, [0x917E]), (0x91C4, [0x91BE]), (0x91C5, [0x917D]), (0x91C8, [0x91CA]), (0x91CB, [0x91CA]),
    (0x91D2, [0x9485]), (0x91D3, [0x9486]), (0x91D4, [0x9487]), (0x91D5, [0x948C]), (0x91D7, [0x948A]), (0x91D8, [0x9489]),
    (0x91D9, [0x948B]), (0x91DD, [0x9488]), (0x91E1, [0x91DC]), (0x91E3, [0x9493]), (0x91E4, [0x9490]), (0x91E7, [0x948F]),
    (0x91E9, [0x9492]), (0x91EF, [0x94D3]), (0x91F2, [0x923B]), (0x91F5, [0x9497]), (0x91F7, [0x948D]), (0x91F9, [0x9495]),
    (0x91FA, [0x948E])]),
  (0x92, [
    (0x9200, [0x94AF]), (0x9201, [0x94AB]), (0x9203, [0x9498]), (0x9204, [0x94AD]), (0x9206, [0x94C5]), (0x9207, [0x65A7]),
    (0x9208, [0x949A]), (0x9209, [0x94A0]), (0x920D, [0x949D]), (0x920E, [0x94A9]), (0x9210, [0x94A4]), (0x9213, [0x928B]),
    (0x9214, [0x949E]), (0x9215, [0x94AE]), (0x921B, [0x9505]), (0x921E, [0x94A7]), (0x921F, [0x9493]), (0x9223, [0x9499]),
    (0x9225, [0x94AC]), (0x9226, [0x949B]), (0x9227, [0x94AA]), (0x922E, [0x94CC]), (0x9230, [0x94C8]), (0x9233, [0x94B6]),
    (0x9234, [0x94C3]), (0x9237, [0x94B4]), (0x9238, [0x94B9]), (0x9239, [0x94CD]), (0x923A, [0x94B0]), (0x923D, [0x94B8]),
    (0x923E, [0x94C0]), (0x923F, [0x94BF]), (0x9240, [0x94BE]), (0x9244, [0x94C1]), (0x9248, [0x94CA]), (0x9249, [0x94C9]),
    (0x924D, [0x94CB]), (0x9251, [0x94C2]), (0x9255, [0x94B7]), (0x9257, [0x94B3]), (0x925A, [0x94C6]), (0x925B, [0x94C5]),
    (0x925C, [0x952B]), (0x925E, [0x94BA]), (0x925F, [0x94CD]), (0x9262, [0x94B5]), (0x9264, [0x94A9]), (0x9266, [0x94B2]),
    (0x926C, [0x94BC]), (0x926D, [0x94BD]), (0x9271, [0x945B]), (0x9276, [0x94CF]), (0x9278, [0x94F0]), (0x927A, [0x94D2]),
    (0x927B, [0x94EC]), (0x927F, [0x94EA]), (0x9280, [0x94F6]), (0x9281, [0x94A7]), (0x9283, [0x94F3]), (0x9285, [0x94DC]),
    (0x9291, [0x94E3]), (0x9292, [0x9498]), (0x9293, [0x94E8]), (0x9296, [0x94E2]), (0x9298, [0x94ED]), (0x929A, [0x94EB]),
    (0x929C, [0x8854]), (0x929E, [0x94A7]), (0x92A0, [0x94D1]), (0x92A3, [0x94F7]), (0x92A5, [0x94F1]), (0x92A6, [0x94DF]),
    (0x92A8, [0x94F5]), (0x92A9, [0x94E5]), (0x92AA, [0x94D5]), (0x92AB, [0x94EF]), (0x92AC, [0x94D0]), (0x92AD, [0x94B1]),
    (0x92B1, [0x94DE]), (0x92B3, [0x9510]), (0x92B5, [0x94FF]), (0x92B7, [0x9500]), (0x92B9, [0x9508]), (0x92BB, [0x9511]),
    (0x92BC, [0x9509]), (0x92C1, [0x94DD]), (0x92C3, [0x9512]), (0x92C4, [0x933D]), (0x92C5, [0x950C]), (0x92C7, [0x94A1]),
    (0x92CC, [0x94E4]), (0x92CF, [0x94D7]), (0x92D1, [0x954C]), (0x92D2, [0x950B]), (0x92D6, [0x9401]), (0x92DF, [0x9513]),
    (0x92E4, [0x9504]), (0x92E5, [0x9503]), (0x92E6, [0x9514]), (0x92E8, [0x9507]), (0x92E9, [0x94D3]), (0x92EA, [0x94FA]),
    (0x92ED, [0x9510]), (0x92EF, [0x9506]), (0x92F0, [0x9502]), (0x92F1, [0x94FD]), (0x92F3, [0x94F8]), (0x92F8, [0x952F]),
    (0x92FC, [0x94A2])]),
  (0x93, [
    (0x9301, [0x951E]), (0x9304, [0x5F55]), (0x9305, [0x92EB]), (0x9306, [0x9516]), (0x9307, [0x952B]), (0x9308, [0x9529]),
    (0x930F, [0x94D4]), (0x9310, [0x9525]), (0x9312, [0x9515]), (0x9315, [0x951F]), (0x9318, [0x9524]), (0x9319, [0x9531]),
    (0x931A, [0x94EE]), (0x931B, [0x951B]), (0x9320, [0x952D]), (0x9322, [0x94B1]), (0x9326, [0x9526]), (0x9328, [0x951A]),
    (0x932B, [0x9521]), (0x932C, [0x934A]), (0x932E, [0x9522]), (0x932F, [0x9519]), (0x9330, [0x9265]), (0x9332, [0x5F55]),
    (0x9333, [0x9530]), (0x9338, [0x94FC]), (0x9340, [0x951D]), (0x9341, [0x9528]), (0x9346, [0x9494]), (0x9347, [0x9534]),
    (0x9348, [0x9260]), (0x934B, [0x9505]), (0x934D, [0x9540]), (0x9353, [0x93F6]), (0x9354, [0x9537]), (0x9358, [0x94E1]),
    (0x935A, [0x9496]), (0x935B, [0x7145]), (0x935F, [0x924E]), (0x9360, [0x953D]), (0x9362, [0x9351]), (0x9364, [0x9538]),
    (0x9365, [0x9532]), (0x9369, [0x9518]), (0x936B, [0x9539]), (0x936C, [0x9539]), (0x9370, [0x953E]), (0x9375, [0x952E]),
    (0x9376, [0x9536]), (0x937A, [0x9517]), (0x937F, [0x9531]), (0x9382, [0x9541]), (0x9384, [0x953F]), (0x9387, [0x9545]),
    (0x938A, [0x9551]), (0x9392, [0x8028]), (0x9396, [0x9501]), (0x9398, [0x9549]), (0x9399, [0x69CA]), (0x939A, [0x9524]),
    (0x939C, [0x76D8]), (0x93A0, [0x94A2]), (0x93A1, [0x9543]), (0x93A2, [0x94A8]), (0x93A3, [0x84E5]), (0x93A6, [0x954F]),
    (0x93A7, [0x94E0]), (0x93A9, [0x94E9]), (0x93AA, [0x953C]), (0x93AC, [0x9550]), (0x93AD, [0x9547]), (0x93AE, [0x9547]),
    (0x93B0, [0x9552]), (0x93B3, [0x954D]), (0x93B5, [0x9553]), (0x93B8, [0x954C]), (0x93BB, [0x9501]), (0x93BF, [0x954E]),
    (0x93C0, [0x942A]), (0x93C3, [0x955E]), (0x93C8, [0x94FE]), (0x93C9, [0x953C]), (0x93D1, [0x955D]), (0x93D7, [0x94FF]),
    (0x93D8, [0x9535]), (0x93DC, [0x9557]), (0x93DD, [0x9558]), (0x93DE, [0x955B]), (0x93DF, [0x94F2]), (0x93E0, [0x950B]),
    (0x93E1, [0x955C]), (0x93E2, [0x9556]), (0x93E4, [0x9542]), (0x93E8, [0x933E]), (0x93E9, [0x933E]), (0x93EC, [0x7F45]),
    (0x93F0, [0x955A]), (0x93F3, [0x94EE]), (0x93F5, [0x94E7]), (0x93F7, [0x9564]), (0x93F9, [0x956A]), (0x93FF, [0x9397])]),
  (0x94, [
    (0x9403, [0x94D9]), (0x9406, [0x9429]), (0x9410, [0x9563]), (0x9412, [0x94F9]), (0x9413, [0x9566]), (0x9419, [0x956B]),
    (0x941A, [0x94D4]), (0x941D, [0x9562]), (0x941E, [0x8028]), (0x941F, [0x9415]), (0x9420, [0x9568]), (0x9426, [0x950E]),
    (0x9427, [0x950F]), (0x9428, [0x9544]), (0x942B, [0x954C]), (0x942E, [0x9570]), (0x9432, [0x956F]), (0x9433, [0x956D]),
    (0x9435, [0x94C1]), (0x9436, [0x956E]), (0x9438, [0x94CE]), (0x943A, [0x94DB]), (0x943F, [0x9571]), (0x9443, [0x94EB]),
    (0x9444, [0x94F8]), (0x9449, [0x94BE]), (0x944A, [0x956C]), (0x944C, [0x9554]), (0x9452, [0x9274]), (0x9454, [0x9572]),
    (0x9455, [0x9527]), (0x945A, [0x94BB]), (0x945E, [0x9574]), (0x9460, [0x94C4]), (0x9463, [0x9573]), (0x9465, [0x9565]),
    (0x946D, [0x9567]), (0x9470, [0x94A5]), (0x9472, [0x9576]), (0x9473, [0x952E]), (0x9475, [0x7F50]), (0x9477, [0x954A]),
    (0x9479, [0x9569]), (0x947C, [0x9523]), (0x947D, [0x94BB]), (0x947E, [0x92AE]), (0x947F, [0x51FF]), (0x9482, [0x954B])]),
  (0x95, [
    (0x953B, [0x7145]), (0x9577, [0x957F]), (0x9578, [0x957F]), (0x9580, [0x95E8]), (0x9582, [0x95E9]), (0x9583, [0x95EA]),
    (0x9586, [0x960E]), (0x9587, [0x95ED]), (0x9589, [0x95ED]), (0x958B, [0x5F00]), (0x958F, [0x95F0]), (0x9591, [0x95F2]),
    (0x9593, [0x95F4]), (0x9594, [0x95F5]), (0x9598, [0x95F8]), (0x9599, [0x95F9]), (0x959E, [0x5173]), (0x95A1, [0x9602]),
    (0x95A2, [0x5173]), (0x95A3, [0x9601]), (0x95A5, [0x9600]), (0x95A8, [0x95FA]), (0x95A9, [0x95FD]), (0x95AB, [0x9603]),
    (0x95AC, [0x9606]), (0x95AD, [0x95FE]), (0x95B1, [0x9605]), (0x95B2, [0x9605]), (0x95B6, [0x960A]), (0x95B7, [0x6740]),
    (0x95B9, [0x9609]), (0x95BB, [0x960E]), (0x95BC, [0x960F]), (0x95BD, [0x960D]), (0x95BE, [0x9608]), (0x95BF, [0x960C]),
    (0x95C3, [0x9612]), (0x95C8, [0x95F1]), (0x95CA, [0x9614]), (0x95CB, [0x9615]), (0x95CC, [0x9611]), (0x95D0, [0x9617]),
    (0x95D3, [0x95FF]), (0x95D4, [0x9616]), (0x95D5, [0x9619]), (0x95D6, [0x95EF]), (0x95D7, [0x5173]), (0x95D8, [0x6597]),
    (0x95DC, [0x5173]), (0x95DE, [0x961A]), (0x95E1, [0x9610]), (0x95E5, [0x95FC])]),
  (0x96, [
    (0x9623, [0x5C79]), (0x9627, [0x9661]), (0x9641, [0x9640]), (0x964F, [0x968B]), (0x9652, [0x579D]), (0x9654, [0x5793]),
    (0x9657, [0x5CED]), (0x9658, [0x9649]), (0x965D, [0x9655]), (0x9663, [0x9635]), (0x9665, [0x9677]), (0x9670, [0x9634]),
    (0x9673, [0x9648]), (0x9678, [0x9646]), (0x967A, [0x9669]), (0x967D, [0x9633]), (0x967F, [0x72ED]), (0x9684, [0x5824]),
    (0x9689, [0x9667]), (0x968A, [0x961F]), (0x968E, [0x9636]), (0x9695, [0x9668]), (0x969B, [0x9645]), (0x969F, [0x9699]),
    (0x96A0, [0x9690]), (0x96A3, [0x90BB]), (0x96A8, [0x968F]), (0x96AA, [0x9669]), (0x96B1, [0x9690]), (0x96B4, [0x9647]),
    (0x96B7, [0x96B6]), (0x96B8, [0x96B6]), (0x96BA, [0x9E64]), (0x96CB, [0x96BD]), (0x96D1, [0x6742]), (0x96D6, [0x867D]),
    (0x96D9, [0x53CC]), (0x96DB, [0x96CF]), (0x96DC, [0x6742]), (0x96DD, [0x96CD]), (0x96DE, [0x9E21]), (0x96DF, [0x5DB2]),
    (0x96E2, [0x79BB]), (0x96E3, [0x96BE]), (0x96E7, [0x96C6]), (0x96F0, [0x6C1B]), (0x96F2, [0x4E91]), (0x96FA, [0x96FE]),
    (0x96FB, [0x7535])]),
  (0x97, [
    (0x970A, [0x7075]), (0x9711, [0x6CBE]), (0x9717, [0x96F6]), (0x971A, [0x96FE]), (0x971B, [0x7075]), (0x9722, [0x9721]),
    (0x9727, [0x96FE]), (0x9736, [0x6EC2]), (0x973D, [0x9701]), (0x9742, [0x96F3]), (0x9744, [0x972D]), (0x9746, [0x53C7]),
    (0x9748, [0x7075]), (0x9749, [0x53C6]), (0x9751, [0x9752]), (0x975A, [0x9753]), (0x975C, [0x9759]), (0x9768, [0x9765]),
    (0x9775, [0x7EBD]), (0x977D, [0x7ECA]), (0x978C, [0x978D]), (0x978F, [0x5DE9]), (0x9795, [0x786C]), (0x97A9, [0x9798]),
    (0x97B5, [0x978B]), (0x97BD, [0x9792]), (0x97BE, [0x9774]), (0x97C1, [0x7F30]), (0x97C3, [0x9791]), (0x97C8, [0x889C]),
    (0x97C9, [0x97AF]), (0x97CB, [0x97E6]), (0x97CC, [0x97E7]), (0x97CD, [0x97E8]), (0x97D3, [0x97E9]), (0x97D9, [0x97EA]),
    (0x97DB, [0x97B4]), (0x97DC, [0x97EC]), (0x97DE, [0x97EB]), (0x97E4, [0x889C]), (0x97EE, [0x97ED]), (0x97F2, [0x9F51]),
    (0x97F9, [0x953D]), (0x97FB, [0x97F5]), (0x97FF, [0x54CD])]),
  (0x98, [
    (0x9801, [0x9875]), (0x9802, [0x9876]), (0x9803, [0x9877]), (0x9805, [0x9879]), (0x9806, [0x987A]), (0x9807, [0x9878]),
    (0x9808, [0x987B]), (0x980A, [0x987C]), (0x980B, [0x987E]), (0x980C, [0x9882]), (0x980E, [0x9880]), (0x980F, [0x9883]),
    (0x9810, [0x9884]), (0x9811, [0x987D]), (0x9812, [0x9881]), (0x9813, [0x987F]), (0x9817, [0x9887]), (0x9818, [0x9886]),
    (0x981A, [0x9888]), (0x981C, [0x988C]), (0x981F, [0x989D]), (0x9821, [0x9889]), (0x9824, [0x9890]), (0x9826, [0x988F]),
    (0x982D, [0x5934]), (0x9830, [0x988A]), (0x9832, [0x988B]), (0x9833, [0x8D6A]), (0x9834, [0x9896]), (0x9837, [0x9894]),
    (0x9838, [0x9888]), (0x9839, [0x9893]), (0x983B, [0x9891]), (0x983C, [0x8D56]), (0x983D, [0x9893]), (0x983F, [0x9AED]),
    (0x9846, [0x9897]), (0x9847, [0x60B4]), (0x984C, [0x9898]), (0x984D, [0x989D]), (0x984E, [0x989A]), (0x984F, [0x989C]),
    (0x9850, [0x8BE8]), (0x9852, [0x9899]), (0x9853, [0x989B]), (0x9854, [0x989C]), (0x9855, [0x663E]), (0x9859, [0x98A1]),
    (0x985A, [0x98A0]), (0x985B, [0x98A0]), (0x985E, [0x7C7B]), (0x9862, [0x989F]), (0x9865, [0x98A2]), (0x9866, [0x6194]),
    (0x9867, [0x987E]), (0x986B, [0x98A4]), (0x986C, [0x98A5]), (0x986F, [0x663E]), (0x9870, [0x98A6]), (0x9871, [0x9885]),
    (0x9873, [0x989E]), (0x9874, [0x98A7]), (0x98A8, [0x98CE]), (0x98AF, [0x98D2]), (0x98B6, [0x98D3]), (0x98B8, [0x98D4]),
    (0x98BA, [0x98CF]), (0x98BC, [0x98D5]), (0x98C0, [0x98D7]), (0x98C4, [0x98D8]), (0x98C6, [0x98D9]), (0x98C7, [0x98D9]),
    (0x98C8, [0x98D9]), (0x98DB, [0x98DE]), (0x98DC, [0x7FFB]), (0x98E2, [0x9965]), (0x98E5, [0x9966]), (0x98E9, [0x9968]),
    (0x98EA, [0x996A]), (0x98EB, [0x996B]), (0x98EC, [0x517B]), (0x98ED, [0x996C]), (0x98EE, [0x996E]), (0x98EF, [0x996D]),
    (0x98F0, [0x996D]), (0x98F2, [0x996E]), (0x98F4, [0x9974]), (0x98FC, [0x9972]), (0x98FD, [0x9971]), (0x98FE, [0x9970]),
    (0x98FF, [0x9973])]),
  (0x99, [
    (0x9901, [0x996A]), (0x9903, [0x997A]), (0x9904, [0x9978]), (0x9905, [0x997C]), (0x9908, [0x7CA2]), (0x9909, [0x9977]),
    (0x990A, [0x517B]), (0x990C, [0x9975]), (0x990E, [0x9979]), (0x990F, [0x997B]), (0x9911, [0x997D]), (0x9912, [0x9981]),
    (0x9913, [0x997F]), (0x9916, [0x997E]), (0x991A, [0x80B4]), (0x991B, [0x9984]), (0x991C, [0x9983]), (0x991D, [0x9970]),
    (0x991E, [0x996F]), (0x9920, [0x997C]), (0x9921, [0x9985]), (0x9928, [0x9986]), (0x992B, [0x9984]), (0x9931, [0x7CC7]),
    (0x9933, [0x9967]), (0x9936, [0x9989]), (0x9937, [0x9987]), (0x9939, [0x7CD6]), (0x993A, [0x998E]), (0x993B, [0x7CD5]),
    (0x993C, [0x9969]), (0x993E, [0x998F]), (0x993F, [0x998A]), (0x9943, [0x998D]), (0x9945, [0x9992]), (0x9948, [0x9990]),
    (0x9949, [0x9991]), (0x994A, [0x9993]), (0x994B, [0x9988]), (0x994C, [0x9994]), (0x9951, [0x9965]), (0x9952, [0x9976]),
    (0x9957, [0x98E8]), (0x995C, [0x990D]), (0x995E, [0x998B]), (0x995F, [0x9995]), (0x9963, [0x98DF]), (0x99AC, [0x9A6C]),
    (0x99AD, [0x9A6D]), (0x99AE, [0x51AF]), (0x99B1, [0x9A6E]), (0x99B3, [0x9A70]), (0x99B4, [0x9A6F]), (0x99C1, [0x9A73]),
    (0x99C4, [0x9A6E]), (0x99C5, [0x9A7F]), (0x99C6, [0x9A71]), (0x99C8, [0x9A71]), (0x99D0, [0x9A7B]), (0x99D1, [0x9A7D]),
    (0x99D2, [0x9A79]), (0x99D4, [0x9A75]), (0x99D5, [0x9A7E]), (0x99D8, [0x9A80]), (0x99D9, [0x9A78]), (0x99DB, [0x9A76]),
    (0x99DD, [0x9A7C]), (0x99DE, [0x9A7C]), (0x99DF, [0x9A77]), (0x99E1, [0x9A82]), (0x99E2, [0x9A88]), (0x99E6, [0x817E]),
    (0x99ED, [0x9A87]), (0x99EE, [0x9A73]), (0x99F1, [0x9A86]), (0x99F4, [0x9A87]), (0x99F8, [0x9A8E]), (0x99FF, [0x9A8F])]),
  (0x9A, [
    (0x9A01, [0x9A8B]), (0x9A02, [0x9A8D]), (0x9A05, [0x9A93]), (0x9A08, [0x9A88]), (0x9A0C, [0x9B03]), (0x9A0D, [0x9A92]),
    (0x9A0E, [0x9A91]), (0x9A0F, [0x9A90]), (0x9A10, [0x9A8C]), (0x9A12, [0x9A9A]), (0x9A13, [0x9A8C]), (0x9A16, [0x9A9B]),
    (0x9A17, [0x9A97]), (0x9A19, [0x9A97]), (0x9A23, [0x9B03]), (0x9A2B, [0x9A9E]), (0x9A2D, [0x9A98]), (0x9A2E, [0x9A9D]),
    (0x9A30, [0x817E]), (0x9A36, [0x9A7A]), (0x9A37, [0x9A9A]), (0x9A38, [0x9A9F]), (0x9A3E, [0x9AA1]), (0x9A40, [0x84E6]),
    (0x9A41, [0x9A9C]), (0x9A42, [0x9A96]), (0x9A43, [0x9AA0]), (0x9A44, [0x9AA2]), (0x9A45, [0x9A71]), (0x9A4A, [0x9A85]),
    (0x9A4D, [0x9A81]), (0x9A55, [0x9A84]), (0x9A57, [0x9A8C]), (0x9A58, [0x9AA1]), (0x9A5A, [0x60CA]), (0x9A5B, [0x9A7F]),
    (0x9A5F, [0x9AA4]), (0x9A62, [0x9A74]), (0x9A64, [0x9AA7]), (0x9A65, [0x9AA5]), (0x9A6A, [0x9A8A]), (0x9A94, [0x9B03]),
    (0x9AAF, [0x80AE]), (0x9AC4, [0x9AD3]), (0x9ACF, [0x9AC5]), (0x9AD4, [0x4F53]), (0x9AD5, [0x9ACC]), (0x9AD6, [0x9ACB]),
    (0x9AD9, [0x9AD8]), (0x9AE0, [0x9AE1]), (0x9AE3, [0x4EFF]), (0x9AEA, [0x9AEE])]),
  (0x9B, [
    (0x9B00, [0x5243]), (0x9B02, [0x9B13]), (0x9B04, [0x5243]), (0x9B22, [0x9B13]), (0x9B25, [0x6597]), (0x9B27, [0x95F9]),
    (0x9B29, [0x960B]), (0x9B2A, [0x6597]), (0x9B2D, [0x6597]), (0x9B2E, [0x9604]), (0x9B31, [0x90C1]), (0x9B4E, [0x9B49]),
    (0x9B58, [0x9B47]), (0x9B5A, [0x9C7C]), (0x9B5B, [0x9C7D]), (0x9B68, [0x9C80]), (0x9B6F, [0x9C81]), (0x9B72, [0x9C88]),
    (0x9B74, [0x9C82]), (0x9B77, [0x9C7F]), (0x9B81, [0x9C85]), (0x9B83, [0x9C86]), (0x9B89, [0x9CB7]), (0x9B8D, [0x9C8F]),
    (0x9B8E, [0x9C87]), (0x9B90, [0x9C90]), (0x9B91, [0x9C8D]), (0x9B92, [0x9C8B]), (0x9B93, [0x9C8A]), (0x9B9A, [0x9C92]),
    (0x9B9D, [0x9C9E]), (0x9BA6, [0x9C96]), (0x9BAA, [0x9C94]), (0x9BAB, [0x9C9B]), (0x9BAD, [0x9C91]), (0x9BAE, [0x9C9C]),
    (0x9BBA, [0x9C9D]), (0x9BC0, [0x9CA7]), (0x9BC1, [0x9CA0]), (0x9BC7, [0x9CA9]), (0x9BC9, [0x9CA4]), (0x9BCA, [0x9CA8]),
    (0x9BCB, [0x9CA8]), (0x9BD4, [0x9CBB]), (0x9BD6, [0x9CAD]), (0x9BD7, [0x9C9E]), (0x9BDB, [0x9CB7]), (0x9BE1, [0x9CB1]),
    (0x9BE2, [0x9CB5]), (0x9BE4, [0x9CB2]), (0x9BE7, [0x9CB3]), (0x9BE8, [0x9CB8]), (0x9BEA, [0x9CAE]), (0x9BEB, [0x9CB0]),
    (0x9BF0, [0x9CB6]), (0x9BF5, [0x9CB9]), (0x9BF9, [0x9B8F]), (0x9BFD, [0x9CAB]), (0x9BFF, [0x9CCA])]),
  (0x9C, [
    (0x9C00, [0x9CA9]), (0x9C02, [0x9C97]), (0x9C08, [0x9CBD]), (0x9C09, [0x9CC7]), (0x9C0D, [0x9CC5]), (0x9C10, [0x9CC4]),
    (0x9C12, [0x9CC6]), (0x9C13, [0x9CC3]), (0x9C15, [0x867E]), (0x9C1B, [0x9CC1]), (0x9C1C, [0x9CD2]), (0x9C1F, [0x9CD1]),
    (0x9C23, [0x9CA5]), (0x9C25, [0x9CCF]), (0x9C28, [0x9CCE]), (0x9C2D, [0x9CCD]), (0x9C2E, [0x9CC1]), (0x9C31, [0x9CA2]),
    (0x9C32, [0x9CCC]), (0x9C33, [0x9CD3]), (0x9C35, [0x9CD8]), (0x9C37, [0x9CA6]), (0x9C39, [0x9CA3]), (0x9C3A, [0x9CB9]),
    (0x9C3B, [0x9CD7]), (0x9C3C, [0x9CDB]), (0x9C3E, [0x9CD4]), (0x9C45, [0x9CD9]), (0x9C48, [0x9CD5]), (0x9C49, [0x9CD6]),
    (0x9C51, [0x9CC7]), (0x9C52, [0x9CDF]), (0x9C54, [0x9CDD]), (0x9C56, [0x9CDC]), (0x9C57, [0x9CDE]), (0x9C58, [0x9C9F]),
    (0x9C5F, [0x9C8E]), (0x9C60, [0x9C99]), (0x9C62, [0x9CB9]), (0x9C63, [0x9CE3]), (0x9C65, [0x9CDC]), (0x9C67, [0x9CE2]),
    (0x9C68, [0x9CBF]), (0x9C6D, [0x9C9A]), (0x9C6E, [0x9B63]), (0x9C6F, [0x9CE0]), (0x9C76, [0x9C9E]), (0x9C77, [0x9CC4]),
    (0x9C78, [0x9C88]), (0x9C7A, [0x9CA1]), (0x9CE5, [0x9E1F]), (0x9CE7, [0x51EB]), (0x9CE9, [0x9E20]), (0x9CEB, [0x96C1]),
    (0x9CEC, [0x51EB]), (0x9CF3, [0x51E4]), (0x9CF4, [0x9E23]), (0x9CF6, [0x9E22])]),
  (0x9D, [
    (0x9D06, [0x9E29]), (0x9D07, [0x9E28]), (0x9D08, [0x96C1]), (0x9D09, [0x9E26]), (0x9D12, [0x9E30]), (0x9D15, [0x9E35]),
    (0x9D1B, [0x9E33]), (0x9D1D, [0x9E32]), (0x9D1E, [0x9E2E]), (0x9D1F, [0x9E31]), (0x9D23, [0x9E2A]), (0x9D26, [0x9E2F]),
    (0x9D28, [0x9E2D]), (0x9D2C, [0x83BA]), (0x9D2F, [0x9E38]), (0x9D30, [0x9E39]), (0x9D34, [0x9E3B]), (0x9D39, [0x7FD4]),
    (0x9D3B, [0x9E3F]), (0x9D3F, [0x9E3D]), (0x9D42, [0x9E3A]), (0x9D43, [0x9E3C]), (0x9D44, [0x9E31]), (0x9D49, [0x9E3E]),
    (0x9D50, [0x9E40]), (0x9D51, [0x9E43]), (0x9D52, [0x9E46]), (0x9D53, [0x9E41]), (0x9D5C, [0x9E48]), (0x9D5D, [0x9E45]),
    (0x9D5E, [0x9E45]), (0x9D60, [0x9E44]), (0x9D61, [0x9E49]), (0x9D6A, [0x9E4C]), (0x9D6C, [0x9E4F]), (0x9D6E, [0x9E50]),
    (0x9D72, [0x9E4A]), (0x9D7E, [0x9E4D]), (0x9D87, [0x9E2B]), (0x9D89, [0x9E51]), (0x9D8A, [0x9E52]), (0x9D8F, [0x9E21]),
    (0x9D93, [0x9E4B]), (0x9D96, [0x9E59]), (0x9D98, [0x9E55]), (0x9D9A, [0x9E57]), (0x9DA1, [0x9E56]), (0x9DA5, [0x9E5B]),
    (0x9DA9, [0x9E5C]), (0x9DAC, [0x9E27]), (0x9DAF, [0x83BA]), (0x9DB4, [0x9E64]), (0x9DB5, [0x96CF]), (0x9DBA, [0x9E61]),
    (0x9DBB, [0x9E58]), (0x9DBC, [0x9E63]), (0x9DC0, [0x9E5A]), (0x9DC2, [0x9E5E]), (0x9DC4, [0x9E21]), (0x9DC6, [0x9DCF]),
    (0x9DD3, [0x9E67]), (0x9DD6, [0x9E65]), (0x9DD7, [0x9E25]), (0x9DD9, [0x9E37]), (0x9DDA, [0x9E68]), (0x9DE5, [0x9E36]),
    (0x9DE6, [0x9E6A]), (0x9DEF, [0x9E69]), (0x9DF2, [0x9E6B]), (0x9DF3, [0x9E47]), (0x9DF8, [0x9E6C]), (0x9DF9, [0x9E70]),
    (0x9DFA, [0x9E6D])]),
  (0x9E, [
    (0x9E07, [0x9E6F]), (0x9E15, [0x9E2C]), (0x9E16, [0x9E64]), (0x9E1A, [0x9E66]), (0x9E1B, [0x9E73]), (0x9E1D, [0x9E42]),
    (0x9E1E, [0x9E3E]), (0x9E75, [0x5364]), (0x9E78, [0x7877]), (0x9E7A, [0x9E7E]), (0x9E7C, [0x7877]), (0x9E7D, [0x76D0]),
    (0x9E81, [0x9EA4]), (0x9E84, [0x9EA4]), (0x9E90, [0x9E9F]), (0x9E97, [0x4E3D]), (0x9EA2, [0x7F9A]), (0x9EA5, [0x9EA6]),
    (0x9EA9, [0x9EB8]), (0x9EAA, [0x9EB5]), (0x9EAB, [0x9EB5]), (0x9EB1, [0x9EB8]), (0x9EBA, [0x9EB5]), (0x9EBD, [0x9EBC]),
    (0x9EC3, [0x9EC4]), (0x9ECC, [0x9EC9]), (0x9ED2, [0x9ED1]), (0x9ED9, [0x9ED8]), (0x9EDE, [0x70B9]), (0x9EE8, [0x515A]),
    (0x9EF1, [0x9EDB]), (0x9EF6, [0x9EE1]), (0x9EF7, [0x9EE9]), (0x9EFD, [0x9EFE]), (0x9EFF, [0x9F0B])]),
  (0x9F, [
    (0x9F05, [0x8718]), (0x9F08, [0x9CD6]), (0x9F09, [0x9F0D]), (0x9F11, [0x9F0E]), (0x9F14, [0x9F13]), (0x9F15, [0x549A]),
    (0x9F21, [0x9F20]), (0x9F26, [0x8C82]), (0x9F45, [0x55C5]), (0x9F47, [0x9F44]), (0x9F4A, [0x9F50]), (0x9F4B, [0x658B]),
    (0x9F4F, [0x9F51]), (0x9F52, [0x9F7F]), (0x9F54, [0x9F80]), (0x9F59, [0x9F85]), (0x9F5C, [0x9F87]), (0x9F5F, [0x9F83]),
    (0x9F60, [0x9F86]), (0x9F61, [0x9F84]), (0x9F62, [0x9F84]), (0x9F66, [0x9F88]), (0x9F6A, [0x9F8A]), (0x9F6C, [0x9F89]),
    (0x9F72, [0x9F8B]), (0x9F76, [0x816D]), (0x9F77, [0x9F8C]), (0x9F8D, [0x9F99]), (0x9F8E, [0x5390]), (0x9F90, [0x5E9E]),
    (0x9F94, [0x9F9A]), (0x9F95, [0x9F9B]), (0x9F9C, [0x9F9F])]),
  (0xF9, [
    (0xF900, [0x5C82]), (0xF901, [0x66F4]), (0xF902, [0x8F66]), (0xF903, [0x8D3E]), (0xF904, [0x6ED1]), (0xF905, [0x4E32]),
    (0xF906, [0x53E5]), (0xF907, [0x9F9F]), (0xF908, [0x9F9F]), (0xF909, [0x5951]), (0xF90A, [0x91D1]), (0xF90B, [0x5587]),
    (0xF90C, [0x5948]), (0xF90D, [0x61D2]), (0xF90E, [0x765E]), (0xF90F, [0x7F57]), (0xF910, [0x841D]), (0xF911, [0x87BA]),
    (0xF912, [0x88F8]), (0xF913, [0x903B]), (0xF914, [0x4E50]), (0xF915, [0x6D1B]), (0xF916, [0x70D9]), (0xF917, [0x73DE]),
    (0xF918, [0x843D]), (0xF919, [0x916A]), (0xF91A, [0x9A86]), (0xF91B, [0x4E71]), (0xF91C, [0x5375]), (0xF91D, [0x680F]),
    (0xF91E, [0x70C2]), (0xF91F, [0x5170]), (0xF920, [0x9E3E]), (0xF921, [0x5C9A]), (0xF922, [0x6EE5]), (0xF923, [0x84DD]),
    (0xF924, [0x8934]), (0xF925, [0x62C9]), (0xF926, [0x814A]), (0xF927, [0x8721]), (0xF928, [0x5ECA]), (0xF929, [0x6717]),
    (0xF92A, [0x6D6A]), (0xF92B, [0x72FC]), (0xF92C, [0x90CE]), (0xF92D, [0x6765]), (0xF92E, [0x51B7]), (0xF92F, [0x52B3]),
    (0xF930, [0x63B3]), (0xF931, [0x6A79]), (0xF932, [0x7089]), (0xF933, [0x5362]), (0xF934, [0x8001]), (0xF935, [0x82A6]),
    (0xF936, [0x864F]), (0xF937, [0x8DEF]), (0xF938, [0x9732]), (0xF939, [0x9C81]), (0xF93A, [0x9E6D]), (0xF93B, [0x788C]),
    (0xF93C, [0x7984]), (0xF93D, [0x7EFF]), (0xF93E, [0x83C9]), (0xF93F, [0x5F55]), (0xF940, [0x9E7F]), (0xF941, [0x8BBA]),
    (0xF942, [0x5784]), (0xF943, [0x5F04]), (0xF944, [0x7B3C]), (0xF945, [0x804B]), (0xF946, [0x7262]), (0xF947, [0x78CA]),
    (0xF948, [0x8D42]), (0xF949, [0x96F7]), (0xF94A, [0x5792]), (0xF94B, [0x5C61]), (0xF94C, [0x697C]), (0xF94D, [0x6CEA]),
    (0xF94E, [0x6F0F]), (0xF94F, [0x7D2F]), (0xF950, [0x7F15]), (0xF951, [0x964B]), (0xF952, [0x52D2]), (0xF953, [0x808B]),
    (0xF954, [0x51DB]), (0xF955, [0x51CC]), (0xF956, [0x7A1C]), (0xF957, [0x7EEB]), (0xF958, [0x83F1]), (0xF959, [0x9675]),
    (0xF95A, [0x8BFB]), (0xF95B, [0x62FF]), (0xF95C, [0x4E50]), (0xF95D, [0x8BFA]), (0xF95E, [0x4E39]), (0xF95F, [0x5B81]),
    (0xF960, [0x6012]), (0xF961, [0x7387]), (0xF962, [0x5F02]), (0xF963, [0x5317]), (0xF964, [0x78FB]), (0xF965, [0x4FBF]),
    (0xF966, [0x5FA9]), (0xF967, [0x4E0D]), (0xF968, [0x6CCC]), (0xF969, [0x6570]), (0xF96A, [0x7D22]), (0xF96B, [0x53C2]),
    (0xF96C, [0x585E]), (0xF96D, [0x7701]), (0xF96E, [0x53F6]), (0xF96F, [0x8BF4]), (0xF970, [0x6740]), (0xF971, [0x8FB0]),
    (0xF972, [0x6C88]), (0xF973, [0x62FE]), (0xF974, [0x82E5]), (0xF975, [0x63A0]), (0xF976, [0x7565]), (0xF977, [0x4EAE]),
    (0xF978, [0x4E24]), (0xF979, [0x51C9]), (0xF97A, [0x6881]), (0xF97B, [0x7CAE]), (0xF97C, [0x826F]), (0xF97D, [0x8C05]),
    (0xF97E, [0x91CF]), (0xF97F, [0x52B1]), (0xF980, [0x5442]), (0xF981, [0x5973]), (0xF982, [0x5E90]), (0xF983, [0x65C5]),
    (0xF984, [0x6EE4]), (0xF985, [0x783A]), (0xF986, [0x95FE]), (0xF987, [0x9A8A]), (0xF988, [0x4E3D]), (0xF989, [0x9ECE]),
    (0xF98A, [0x529B]), (0xF98B, [0x66C6]), (0xF98C, [0x6B77]), (0xF98D, [0x8F79]), (0xF98E, [0x5E74]), (0xF98F, [0x601C]),
    (0xF990, [0x604B]), (0xF991, [0x649A]), (0xF992, [0x6D9F]), (0xF993, [0x70BC]), (0xF994, [0x740F]), (0xF995, [0x5E74]),
    (0xF996, [0x7EC3]), (0xF997, [0x8054]), (0xF998, [0x8F87]), (0xF999, [0x83B2]), (0xF99A, [0x8FDE]), (0xF99B, [0x934A]),
    (0xF99C, [0x5217]), (0xF99D, [0x52A3]), (0xF99E, [0x54BD]), (0xF99F, [0x70C8]), (0xF9A0, [0x88C2]), (0xF9A1, [0x8BF4]),
    (0xF9A2, [0x5EC9]), (0xF9A3, [0x5FF5]), (0xF9A4, [0x637B]), (0xF9A5, [0x6B93]), (0xF9A6, [0x5E18]), (0xF9A7, [0x730E]),
    (0xF9A8, [0x4EE4]), (0xF9A9, [0x56F9]), (0xF9AA, [0x5B81]), (0xF9AB, [0x5CAD]), (0xF9AC, [0x601C]), (0xF9AD, [0x73B2]),
    (0xF9AE, [0x83B9]), (0xF9AF, [0x7F9A]), (0xF9B0, [0x8046]), (0xF9B1, [0x94C3]), (0xF9B2, [0x96F6]), (0xF9B3, [0x7075]),
    (0xF9B4, [0x9886]), (0xF9B5, [0x4F8B]), (0xF9B6, [0x793C]), (0xF9B7, [0x91B4]), (0xF9B8, [0x96B6]), (0xF9B9, [0x6076]),
    (0xF9BA, [0x4E86]), (0xF9BB, [0x50DA]), (0xF9BC, [0x5BEE]), (0xF9BD, [0x5C3F]), (0xF9BE, [0x6599]), (0xF9BF, [0x4E50]),
    (0xF9C0, [0x71CE]), (0xF9C1, [0x7597]), (0xF9C2, [0x84FC]), (0xF9C3, [0x8FBD]), (0xF9C4, [0x9F99]), (0xF9C5, [0x6655]),
    (0xF9C6, [0x962E]), (0xF9C7, [0x5218]), (0xF9C8, [0x677B]), (0xF9C9, [0x67F3]), (0xF9CA, [0x6D41]), (0xF9CB, [0x6E9C]),
    (0xF9CC, [0x7409]), (0xF9CD, [0x7559]), (0xF9CE, [0x786B]), (0xF9CF, [0x7EBD]), (0xF9D0, [0x7C7B]), (0xF9D1, [0x516D]),
    (0xF9D2, [0x622E]), (0xF9D3, [0x9646]), (0xF9D4, [0x4F26]), (0xF9D5, [0x5D19]), (0xF9D6, [0x6CA6]), (0xF9D7, [0x8F6E]),
    (0xF9D8, [0x5F8B]), (0xF9D9, [0x6144]), (0xF9DA, [0x6817]), (0xF9DB, [0x7387]), (0xF9DC, [0x9686]), (0xF9DD, [0x5229]),
    (0xF9DE, [0x540F]), (0xF9DF, [0x5C65]), (0xF9E0, [0x6613]), (0xF9E1, [0x674E]), (0xF9E2, [0x68A8]), (0xF9E3, [0x6CE5]),
    (0xF9E4, [0x7406]), (0xF9E5, [0x75E2]), (0xF9E6, [0x7F79]), (0xF9E7, [0x88E1]), (0xF9E8, [0x88E1]), (0xF9E9, [0x91CC]),
    (0xF9EA, [0x79BB]), (0xF9EB, [0x533F]), (0xF9EC, [0x6EBA]), (0xF9ED, [0x541D]), (0xF9EE, [0x71D0]), (0xF9EF, [0x7498]),
    (0xF9F0, [0x853A]), (0xF9F1, [0x90BB]), (0xF9F2, [0x9CDE]), (0xF9F3, [0x9E9F]), (0xF9F4, [0x6797]), (0xF9F5, [0x6DCB]),
    (0xF9F6, [0x4E34]), (0xF9F7, [0x7ACB]), (0xF9F8, [0x7B20]), (0xF9F9, [0x7C92]), (0xF9FA, [0x72B6]), (0xF9FB, [0x7099]),
    (0xF9FC, [0x8BC6]), (0xF9FD, [0x4EC0]), (0xF9FE, [0x8336]), (0xF9FF, [0x523A])]),
  (0xFA, [
    (0xFA00, [0x5207]), (0xFA01, [0x5EA6]), (0xFA02, [0x62D3]), (0xFA03, [0x7CD6]), (0xFA04, [0x5B85]), (0xFA05, [0x6D1E]),
    (0xFA06, [0x66B4]), (0xFA07, [0x8F90]), (0xFA08, [0x884C]), (0xFA09, [0x964D]), (0xFA0A, [0x89C1]), (0xFA0B, [0x5ED3]),
    (0xFA0C, [0x5140]), (0xFA0D, [0x55C0]), (0xFA10, [0x51A2]), (0xFA11, [0x5D0E]), (0xFA12, [0x6674]), (0xFA15, [0x7199]),
    (0xFA16, [0x732A]), (0xFA17, [0x76CA]), (0xFA18, [0x793C]), (0xFA19, [0x795E]), (0xFA1A, [0x7965]), (0xFA1B, [0x798F]),
    (0xFA1C, [0x9756]), (0xFA1D, [0x7CBE]), (0xFA1E, [0x7FBD]), (0xFA20, [0x8612]), (0xFA22, [0x8BF8]), (0xFA25, [0x9038]),
    (0xFA26, [0x90FD]), (0xFA2A, [0x996D]), (0xFA2B, [0x9972]), (0xFA2C, [0x9986]), (0xFA2D, [0x9E64]), (0xFA2E, [0x90CE]),
    (0xFA2F, [0x96B6]), (0xFA30, [0x4FAE]), (0xFA31, [0x50E7]), (0xFA32, [0x514D]), (0xFA33, [0x52C9]), (0xFA34, [0x52E4]),
    (0xFA35, [0x5351]), (0xFA36, [0x559D]), (0xFA37, [0x53F9]), (0xFA38, [0x5668]), (0xFA3A, [0x58A8]), (0xFA3B, [0x5C42]),
    (0xFA3C, [0x5C6E]), (0xFA3D, [0x6094]), (0xFA3E, [0x6168]), (0xFA3F, [0x618E]), (0xFA40, [0x60E9]), (0xFA41, [0x654F]),
    (0xFA42, [0x65E2]), (0xFA43, [0x6691]), (0xFA44, [0x6885]), (0xFA45, [0x6D77]), (0xFA46, [0x6E1A]), (0xFA47, [0x6C49]),
    (0xFA48, [0x716E]), (0xFA49, [0x722B]), (0xFA4A, [0x7422]), (0xFA4B, [0x7891]), (0xFA4C, [0x793E]), (0xFA4D, [0x7949]),
    (0xFA4E, [0x7948]), (0xFA4F, [0x7950]), (0xFA50, [0x7956]), (0xFA51, [0x795D]), (0xFA52, [0x7978]), (0xFA53, [0x796F]),
    (0xFA54, [0x8C37]), (0xFA55, [0x7A81]), (0xFA56, [0x8282]), (0xFA57, [0x7EC3]), (0xFA58, [0x7F19]), (0xFA59, [0x7E41]),
    (0xFA5A, [0x7F72]), (0xFA5B, [0x8005]), (0xFA5C, [0x81ED]), (0xFA5D, [0x8279]), (0xFA5E, [0x8279]), (0xFA5F, [0x7740]),
    (0xFA60, [0x8910]), (0xFA61, [0x89C6]), (0xFA62, [0x8C12]), (0xFA63, [0x8C28]), (0xFA64, [0x5BBE]), (0xFA65, [0x8D60]),
    (0xFA66, [0x8FB6]), (0xFA67, [0x9038]), (0xFA68, [0x96BE]), (0xFA69, [0x54CD]), (0xFA6A, [0x9891]), (0xFA6B, [0x60E0]),
    (0xFA6C, [0x7199]), (0xFA6D, [0x9986]), (0xFA70, [0x5E76]), (0xFA71, [0x51B5]), (0xFA72, [0x5168]), (0xFA73, [0x4F80]),
    (0xFA74, [0x5145]), (0xFA75, [0x5180]), (0xFA76, [0x52C7]), (0xFA77, [0x52FA]), (0xFA78, [0x559D]), (0xFA79, [0x5555]),
    (0xFA7A, [0x5599]), (0xFA7B, [0x55E2]), (0xFA7C, [0x51A2]), (0xFA7D, [0x575F]), (0xFA7E, [0x5944]), (0xFA7F, [0x5954]),
    (0xFA80, [0x5A62]), (0xFA81, [0x5B28]), (0xFA82, [0x5ED2]), (0xFA83, [0x5ED9]), (0xFA84, [0x5F69]), (0xFA85, [0x5FAD]),
    (0xFA86, [0x60D8]), (0xFA87, [0x614E]), (0xFA88, [0x6108]), (0xFA89, [0x618E]), (0xFA8A, [0x6160]), (0xFA8B, [0x60E9]),
    (0xFA8C, [0x6234]), (0xFA8D, [0x63C4]), (0xFA8E, [0x641C]), (0xFA8F, [0x6452]), (0xFA90, [0x6556]), (0xFA91, [0x6674]),
    (0xFA92, [0x6717]), (0xFA93, [0x671B]), (0xFA94, [0x6756]), (0xFA95, [0x6B79]), (0xFA96, [0x6740]), (0xFA97, [0x6D41]),
    (0xFA98, [0x6DEB]), (0xFA99, [0x6ECB]), (0xFA9A, [0x6C49]), (0xFA9B, [0x701E]), (0xFA9C, [0x716E]), (0xFA9D, [0x77A7]),
    (0xFA9E, [0x7235]), (0xFA9F, [0x72AF]), (0xFAA0, [0x732A]), (0xFAA1, [0x7471]), (0xFAA2, [0x74F7]), (0xFAA3, [0x753B]),
    (0xFAA4, [0x761D]), (0xFAA5, [0x761F]), (0xFAA6, [0x76CA]), (0xFAA7, [0x76DB]), (0xFAA8, [0x76F4]), (0xFAA9, [0x774A]),
    (0xFAAA, [0x7740]), (0xFAAB, [0x78CC]), (0xFAAC, [0x7AB1]), (0xFAAD, [0x8282]), (0xFAAE, [0x7C7B]), (0xFAAF, [0x7D5B]),
    (0xFAB0, [0x7EC3]), (0xFAB1, [0x74F6]), (0xFAB2, [0x8005]), (0xFAB3, [0x8352]), (0xFAB4, [0x534E]), (0xFAB5, [0x8779]),
    (0xFAB6, [0x8941]), (0xFAB8, [0x89C6]), (0xFAB9, [0x8C03]), (0xFABA, [0x8BF8]), (0xFABB, [0x8BF7]), (0xFABC, [0x8C12]),
    (0xFABD, [0x8BFA]), (0xFABE, [0x8C15]), (0xFABF, [0x8C28]), (0xFAC0, [0x53D8]), (0xFAC1, [0x8D60]), (0xFAC2, [0x8F93]),
    (0xFAC3, [0x8FDF]), (0xFAC4, [0x9199]), (0xFAC5, [0x94CF]), (0xFAC6, [0x967C]), (0xFAC7, [0x96BE]), (0xFAC8, [0x9756]),
    (0xFAC9, [0x97B4]), (0xFACA, [0x54CD]), (0xFACB, [0x987E]), (0xFACC, [0x9891]), (0xFACD, [0x9B12]), (0xFACE, [0x9F9F]),
    (0xFACF, [0x2284A]), (0xFAD0, [0x22844]), (0xFAD1, [0x233D5]), (0xFAD2, [0x3B9D]), (0xFAD3, [0x4018]), (0xFAD4, [0x4039]),
    (0xFAD5, [0x25249]), (0xFAD6, [0x25CD0]), (0xFAD7, [0x27ED3]), (0xFAD8, [0x9F43]), (0xFAD9, [0x5390])])]

/-- The lengths of its pieces in ascending order. -/
def zhcnCuts : List Nat := [2458]

/-- The rules of /repo/modules/inter/ZHTW.txt in the order of the file: `01k 01v,01v..` as (k, [v, v..]), by the upper bytes of k.
(A first line `Source: ...`, which is not a comment, is left out here: see `Aside`.) -/
def zhtw : Pages := [
  (0x200, [
    (0x20003, [0x4E14]), (0x2000B, [0x4E08]), (0x20019, [0x9E97]), (0x2001A, [0x4E0D]), (0x20024, [0x4E26]), (0x20029, [0x6C40]),
    (0x2002C, [0x3401]), (0x20066, [0x4E2D]), (0x200A0, [0x91C6]), (0x200DE, [0x79AE]), (0x200F8, [0x4E84])]),
  (0x201, [
    (0x20107, [0x916A]), (0x20108, [0x4E83]), (0x20121, [0x4E94]), (0x20162, [0x4EB3]), (0x20169, [0x5B70]), (0x20187, [0x5967]),
    (0x2018C, [0x5EB8]), (0x201B0, [0x4EC9]), (0x201BB, [0x4FD3]), (0x201DA, [0x7532]), (0x201FE, [0x4F11])]),
  (0x202, [
    (0x20201, [0x4EDB]), (0x20206, [0x5020]), (0x20208, [0x4F4C]), (0x2020E, [0x4F88]), (0x20213, [0x5006]), (0x20223, [0x8001]),
    (0x20229, [0x5082]), (0x20255, [0x4F7F]), (0x20256, [0x4F94]), (0x2026B, [0x4FC7]), (0x2026E, [0x5026]), (0x20293, [0x508D]),
    (0x20296, [0x4F8B]), (0x202A8, [0x50CE]), (0x202A9, [0x50DD]), (0x202AB, [0x4F9A]), (0x202B1, [0x5019]), (0x202B3, [0x4FBF]),
    (0x202B6, [0x5AB5]), (0x202BE, [0x777D]), (0x202D2, [0x547D]), (0x202DB, [0x8129]), (0x202E3, [0x501A]), (0x202F1, [0x50C1]),
    (0x202FC, [0x4FC1]), (0x202FD, [0x3493]), (0x202FF, [0x4FB3])]),
  (0x203, [
    (0x20320, [0x509C]), (0x2033C, [0x5104]), (0x2035F, [0x53EF]), (0x2036C, [0x502C]), (0x2036E, [0x5015]), (0x20377, [0x50F0]),
    (0x2037B, [0x5114]), (0x203A1, [0x506D]), (0x203B2, [0x5046]), (0x203BC, [0x50C4]), (0x203D7, [0x50DA]), (0x203EA, [0x34A0]),
    (0x203EC, [0x4FDC])]),
  (0x204, [
    (0x2041A, [0x5137]), (0x2041B, [0x5107]), (0x20427, [0x511A]), (0x20431, [0x501D]), (0x20433, [0x5122]), (0x2043F, [0x85A8]),
    (0x20472, [0x50C9]), (0x20479, [0x277E3]), (0x2047D, [0x5145]), (0x20486, [0x5152]), (0x204B0, [0x5B32]), (0x204B1, [0x50FB]),
    (0x204DB, [0x4EBC])]),
  (0x205, [
    (0x20540, [0x7F54]), (0x20545, [0x518D]), (0x20549, [0x7A74]), (0x2054B, [0x518A]), (0x2054D, [0x5B98]), (0x2056A, [0x9F0F]),
    (0x20575, [0x4EA2]), (0x205A0, [0x53E4]), (0x205B8, [0x51D4]), (0x205E7, [0x51D8])]),
  (0x206, [
    (0x20615, [0x7199]), (0x20621, [0x51DC]), (0x20624, [0x51B7]), (0x20632, [0x5927]), (0x20636, [0x5426]), (0x20652, [0x8CF5]),
    (0x20675, [0x53E3]), (0x20678, [0x7518]), (0x20692, [0x9F52]), (0x206B3, [0x520C]), (0x206B8, [0x206CE]), (0x206C9, [0x34DE]),
    (0x206D2, [0x5233]), (0x206EC, [0x5211]), (0x206EE, [0x5276])]),
  (0x207, [
    (0x20707, [0x523B]), (0x20713, [0x5254]), (0x2071F, [0x5248]), (0x20728, [0x52BE]), (0x20738, [0x5291]), (0x2073A, [0x5217]),
    (0x2073E, [0x5282]), (0x20765, [0x5232]), (0x20788, [0x28A39]), (0x20790, [0x5249]), (0x207AB, [0x523B]), (0x207FD, [0x5280])]),
  (0x208, [
    (0x20800, [0x350D]), (0x20803, [0x3510]), (0x20832, [0x529B]), (0x2086B, [0x52E9]), (0x20892, [0x3521]), (0x208A4, [0x61A0]),
    (0x208A5, [0x3517]), (0x208BF, [0x3523]), (0x208C1, [0x52DE]), (0x208C3, [0x52E5]), (0x208D9, [0x65EC]), (0x208DE, [0x8ECD]),
    (0x208E9, [0x7D04]), (0x208EE, [0x20904]), (0x208F5, [0x5310])]),
  (0x209, [
    (0x20905, [0x3529]), (0x2092C, [0x531A]), (0x20966, [0x3534]), (0x20971, [0x6708]), (0x20983, [0x5345]), (0x20984, [0x5349]),
    (0x20987, [0x4EA5]), (0x20993, [0x4E15]), (0x209A3, [0x209AB]), (0x209B6, [0x9769]), (0x209DE, [0x5146]), (0x209E8, [0x548E]),
    (0x209E9, [0x6094]), (0x209EA, [0x5363])]),
  (0x20A, [
    (0x20A0D, [0x537F]), (0x20A10, [0x536C]), (0x20A1C, [0x537C]), (0x20A1E, [0x537F]), (0x20A2E, [0x4EC4]), (0x20A30, [0x5973]),
    (0x20A57, [0x20A66]), (0x20A5F, [0x8FB0]), (0x20A6F, [0x5B58]), (0x20A9E, [0x539D]), (0x20AA5, [0x539F]), (0x20AAA, [0x539C]),
    (0x20AEA, [0x516D])]),
  (0x20B, [
    (0x20B25, [0x20B22]), (0x20B3B, [0x5949]), (0x20B56, [0x6562]), (0x20B5E, [0x53D2]), (0x20B6E, [0x20B57]), (0x20BA2, [0x53F3]),
    (0x20BA6, [0x53EC]), (0x20BAF, [0x53F0]), (0x20BB7, [0x5409]), (0x20BC1, [0x8DB3]), (0x20BCD, [0x5465]), (0x20BD1, [0x24BC1]),
    (0x20BD2, [0x5316]), (0x20BDE, [0x5467])]),
  (0x20C, [
    (0x20C5C, [0x5597]), (0x20C69, [0x541B]), (0x20C6F, [0x5750]), (0x20C8B, [0x89DC]), (0x20C8E, [0x5420]), (0x20CC1, [0x35A5]),
    (0x20CC5, [0x554F]), (0x20CF7, [0x547F])]),
  (0x20D, [
    (0x20D01, [0x5474]), (0x20D1F, [0x54A9]), (0x20D2A, [0x5530]), (0x20D2E, [0x5674]), (0x20D2F, [0x55A2]), (0x20D34, [0x20BD7]),
    (0x20D40, [0x5E2B]), (0x20D41, [0x8B8E]), (0x20D42, [0x5549]), (0x20D43, [0x5548]), (0x20D52, [0x5550]), (0x20D70, [0x5635]),
    (0x20D72, [0x54FF]), (0x20D75, [0x5535]), (0x20DBA, [0x54FD]), (0x20DC3, [0x55D6]), (0x20DD5, [0x5439]), (0x20DF8, [0x5581])]),
  (0x20E, [
    (0x20E59, [0x55AB]), (0x20E5E, [0x557D]), (0x20ED4, [0x5671]), (0x20EDB, [0x55FE]), (0x20EE9, [0x8A82]), (0x20EEF, [0x54F3]),
    (0x20EF6, [0x55FC])]),
  (0x20F, [
    (0x20F15, [0x5504]), (0x20F62, [0x35D8]), (0x20F6C, [0x5462]), (0x20F7A, [0x569A]), (0x20F7F, [0x5471]), (0x20F85, [0x8981]),
    (0x20F96, [0x5668]), (0x20FC8, [0x557E]), (0x20FCA, [0x55AB]), (0x20FCC, [0x55C2]), (0x20FCD, [0x5538])]),
  (0x210, [
    (0x21012, [0x5610]), (0x21048, [0x2117C]), (0x21050, [0x55CC]), (0x21052, [0x55AB]), (0x21090, [0x56CB]), (0x21092, [0x4720]),
    (0x21096, [0x5667]), (0x210A2, [0x5604])]),
  (0x211, [
    (0x2113A, [0x560C]), (0x2113C, [0x8669]), (0x21157, [0x8669]), (0x2115B, [0x56B5]), (0x21170, [0x5608]), (0x2117F, [0x563E]),
    (0x211A1, [0x8D77]), (0x211BE, [0x518F]), (0x211C3, [0x9091]), (0x211CA, [0x5703]), (0x211E1, [0x76EE]), (0x211EA, [0x7A96])]),
  (0x212, [
    (0x21215, [0x5708]), (0x2122D, [0x7344]), (0x21233, [0x21222]), (0x21239, [0x56FF]), (0x21243, [0x58E2]), (0x21248, [0x5728]),
    (0x2125B, [0x572A]), (0x2125D, [0x57FA]), (0x2125F, [0x58EF]), (0x2126C, [0x577B]), (0x2128A, [0x2124F]), (0x212AE, [0x8881]),
    (0x212BA, [0x6D0B]), (0x212DD, [0x5791]), (0x212EF, [0x21367]), (0x212F2, [0x5750])]),
  (0x213, [
    (0x21331, [0x58BA]), (0x21369, [0x577C]), (0x213A9, [0x57C2]), (0x213B0, [0x5880]), (0x213B1, [0x5794]), (0x213B2, [0x81FA]),
    (0x213B9, [0x57D0]), (0x213C3, [0x366A])]),
  (0x214, [
    (0x21447, [0x582E]), (0x2144A, [0x57F5]), (0x2144F, [0x58D4]), (0x2145F, [0x7AA9]), (0x21462, [0x581E]), (0x2148B, [0x58BD]),
    (0x214A1, [0x9F16]), (0x214A3, [0x5890]), (0x214B0, [0x58AC])]),
  (0x215, [
    (0x21501, [0x58D8]), (0x2151B, [0x58EC]), (0x21578, [0x5914]), (0x2157F, [0x5914]), (0x21582, [0x5914]), (0x21584, [0x5916]),
    (0x21589, [0x5375]), (0x2158A, [0x5919]), (0x21596, [0x537F]), (0x2159F, [0x87AD]), (0x215B7, [0x5924]), (0x215CC, [0x90FA]),
    (0x215D5, [0x4EA6]), (0x215DA, [0x9B27]), (0x215DD, [0x5937]), (0x215E0, [0x5167]), (0x215E8, [0x5943])]),
  (0x216, [
    (0x21605, [0x3696]), (0x21608, [0x54ED]), (0x21609, [0x3695]), (0x2161F, [0x2160D]), (0x2162B, [0x7A69]), (0x21637, [0x5957]),
    (0x2165C, [0x596A]), (0x2168C, [0x7D50]), (0x21690, [0x596D]), (0x216A7, [0x59A3]), (0x216AE, [0x597A]), (0x216AF, [0x5AEE]),
    (0x216B6, [0x5984]), (0x216BA, [0x597F]), (0x216BC, [0x59FC]), (0x216BE, [0x59DD]), (0x216D0, [0x598E]), (0x216DD, [0x36D1]),
    (0x216E2, [0x5A69])]),
  (0x217, [
    (0x21704, [0x5A9F]), (0x21709, [0x5AA3]), (0x2171D, [0x59DB]), (0x21729, [0x59DE]), (0x21734, [0x59A0]), (0x21736, [0x59E1]),
    (0x2174A, [0x5A0E]), (0x21761, [0x3737]), (0x21769, [0x5996]), (0x21791, [0x5A38]), (0x217A1, [0x36CD]), (0x217A2, [0x5A14]),
    (0x217A4, [0x5AE5]), (0x217A8, [0x5A00]), (0x217E6, [0x5A1C]), (0x217F1, [0x59F0]), (0x217FD, [0x36D7])]),
  (0x218, [
    (0x21808, [0x5B4B]), (0x21810, [0x5B0B]), (0x21814, [0x5A8A]), (0x2181B, [0x597B]), (0x2181C, [0x5AEB]), (0x2181D, [0x5AE2]),
    (0x2184D, [0x5AD9]), (0x2184F, [0x5A0B]), (0x21853, [0x5B03]), (0x21855, [0x3727]), (0x21879, [0x5AF3]), (0x2187F, [0x5AE1]),
    (0x21883, [0x5AFA]), (0x21889, [0x5B2C]), (0x21893, [0x5AA7]), (0x2189A, [0x5ADA]), (0x218B2, [0x5AE7]), (0x218B4, [0x5AFD]),
    (0x218C3, [0x5AA6]), (0x218C6, [0x5AF5]), (0x218CC, [0x5AF8]), (0x218EB, [0x5AFC]), (0x218F0, [0x5B19]), (0x218F1, [0x5B1B]),
    (0x218F8, [0x5B48])]),
  (0x219, [
    (0x21900, [0x5998]), (0x2191A, [0x5AD6]), (0x21925, [0x5135]), (0x2192F, [0x5AD8]), (0x21931, [0x372E]), (0x21932, [0x3724]),
    (0x2193E, [0x5B6B]), (0x2193F, [0x5B54]), (0x21946, [0x597D]), (0x21947, [0x5B5B]), (0x2195B, [0x6B8A]), (0x2195C, [0x5B57]),
    (0x21966, [0x5B74]), (0x2197D, [0x5B77]), (0x2198C, [0x5B7B]), (0x21997, [0x5B7A]), (0x2199E, [0x36D1]), (0x219CA, [0x219CD]),
    (0x219CB, [0x8CA7]), (0x219EA, [0x5B85]), (0x219EB, [0x5B84]), (0x219EE, [0x3754]), (0x219F1, [0x5BB3])]),
  (0x21A, [
    (0x21A09, [0x6BEB]), (0x21A1A, [0x51A4]), (0x21A1C, [0x5BC2]), (0x21A20, [0x7A69]), (0x21A48, [0x82D7]), (0x21A7A, [0x5BE3]),
    (0x21A98, [0x3765])]),
  (0x21B, [
    (0x21B2A, [0x8010]), (0x21B3D, [0x527D]), (0x21B5D, [0x7C73]), (0x21B5E, [0x5C16]), (0x21B74, [0x9699]), (0x21B90, [0x5C0F]),
    (0x21BC1, [0x5C2A]), (0x21BC2, [0x5C2A])]),
  (0x21C, [
    (0x21C10, [0x271E0]), (0x21C29, [0x826F]), (0x21C2C, [0x8EAB]), (0x21C38, [0x5C50]), (0x21C46, [0x5C6C]), (0x21C52, [0x6BBF]),
    (0x21C5D, [0x7280]), (0x21C91, [0x5C4E]), (0x21C96, [0x26CCA]), (0x21CA0, [0x7834]), (0x21CA9, [0x5C41]), (0x21CEC, [0x5EEC])]),
  (0x21D, [
    (0x21D41, [0x5371]), (0x21D7C, [0x70AD]), (0x21D8F, [0x5D1B]), (0x21D93, [0x5CB3])]),
  (0x21E, [
    (0x21E20, [0x57E0]), (0x21E35, [0x5D22]), (0x21EA1, [0x76C8])]),
  (0x21F, [
    (0x21F14, [0x5D06]), (0x21F9C, [0x970D]), (0x21FC1, [0x5DCD]), (0x21FE7, [0x707D]), (0x21FF7, [0x9095])]),
  (0x220, [
    (0x2200E, [0x6CB3]), (0x22012, [0x5DF1]), (0x2201A, [0x5DE5]), (0x2203D, [0x8D77]), (0x22053, [0x8C55]), (0x2205B, [0x6BBA]),
    (0x22074, [0x7E6B]), (0x22087, [0x5E1D]), (0x22091, [0x62ED]), (0x220B4, [0x5E5F]), (0x220C1, [0x7D66]), (0x220EA, [0x5E52]),
    (0x220F7, [0x725F])]),
  (0x221, [
    (0x22116, [0x7570]), (0x2216D, [0x8970]), (0x221D7, [0x5EC8]), (0x221EB, [0x8982]), (0x221EF, [0x5E9C])]),
  (0x222, [
    (0x2220E, [0x5EE3]), (0x22256, [0x9E7F]), (0x22259, [0x5EB6]), (0x222BB, [0x907C]), (0x222DB, [0x9F3B]), (0x222DC, [0x87B7])]),
  (0x223, [
    (0x22313, [0x5ED3]), (0x22338, [0x5F08]), (0x22342, [0x9F3B]), (0x22345, [0x5950]), (0x2234E, [0x8AA5]), (0x22357, [0x8A00]),
    (0x2235C, [0x5C0A]), (0x2236E, [0x5DEB]), (0x22376, [0x6523]), (0x22381, [0x6B66]), (0x22387, [0x707D]), (0x223AE, [0x6C10]),
    (0x223BA, [0x5F26]), (0x223D8, [0x7FBF]), (0x223F1, [0x5F2D])]),
  (0x224, [
    (0x22405, [0x5F31]), (0x22413, [0x93D8]), (0x22437, [0x5F36]), (0x22472, [0x5F5D]), (0x22480, [0x20631]), (0x22495, [0x8AF8]),
    (0x2249B, [0x8B8A]), (0x224A5, [0x4E29]), (0x224C9, [0x8FD4]), (0x224CA, [0x5F99]), (0x224D8, [0x4F5F]), (0x224DD, [0x4F7B]),
    (0x224E0, [0x4F81]), (0x224EC, [0x4FD9]), (0x224ED, [0x9021]), (0x224F6, [0x901A])]),
  (0x225, [
    (0x22500, [0x4FB5]), (0x2250B, [0x502F]), (0x2250D, [0x4F7E]), (0x2251A, [0x5FAC]), (0x22547, [0x50B1]), (0x22555, [0x50AA]),
    (0x2257E, [0x907F]), (0x225B9, [0x6084]), (0x225CC, [0x6015]), (0x225CD, [0x5FD7])]),
  (0x226, [
    (0x22617, [0x81E3]), (0x22625, [0x6043]), (0x2263B, [0x6089]), (0x22649, [0x60F1]), (0x2264A, [0x6063]), (0x22656, [0x606C]),
    (0x22662, [0x6050]), (0x22683, [0x52A3]), (0x22687, [0x72C2]), (0x22689, [0x6068]), (0x22690, [0x60A0]), (0x226B0, [0x60F1]),
    (0x226C2, [0x60BC]), (0x226C7, [0x8B8E]), (0x226E7, [0x60DF])]),
  (0x227, [
    (0x22725, [0x52FC]), (0x2272A, [0x60F9]), (0x2273A, [0x54C0]), (0x22743, [0x36F3]), (0x22754, [0x60FB]), (0x22772, [0x6101])]),
  (0x228, [
    (0x22832, [0x3931]), (0x22836, [0x60A3]), (0x22846, [0x61C7]), (0x22865, [0x61AB]), (0x2287D, [0x60DC]), (0x228A7, [0x8B8E]),
    (0x228F6, [0x6190])]),
  (0x229, [
    (0x22903, [0x615D]), (0x2292D, [0x61CD]), (0x2297E, [0x34A9]), (0x229A1, [0x611F]), (0x229A9, [0x6210]), (0x229D0, [0x6230]),
    (0x229E3, [0x5BC1]), (0x229F5, [0x622A]), (0x229F7, [0x6451]), (0x229FE, [0x71BE])]),
  (0x22A, [
    (0x22A37, [0x6240]), (0x22A4C, [0x80A9]), (0x22A66, [0x4E2E]), (0x22A84, [0x637D]), (0x22AB4, [0x62DA]), (0x22ABB, [0x627F]),
    (0x22ABF, [0x8F9C]), (0x22AE6, [0x62CD]), (0x22AFD, [0x6291]), (0x22AFE, [0x6307])]),
  (0x22B, [
    (0x22B0C, [0x62D4]), (0x22B34, [0x651D]), (0x22B38, [0x62EC]), (0x22B40, [0x65CB]), (0x22B43, [0x77ED]), (0x22B4D, [0x63E3]),
    (0x22BC7, [0x63D6]), (0x22BEA, [0x62C6])]),
  (0x22C, [
    (0x22C07, [0x6328]), (0x22C4A, [0x63A0]), (0x22C73, [0x63EE]), (0x22C8E, [0x642C]), (0x22C95, [0x63C6]), (0x22C9C, [0x69AB]),
    (0x22CB8, [0x64C4]), (0x22CBB, [0x64AE]), (0x22CC0, [0x6469])]),
  (0x22D, [
    (0x22D03, [0x64DA]), (0x22D23, [0x589E]), (0x22D3F, [0x6389]), (0x22D44, [0x63AA]), (0x22DFC, [0x6413])]),
  (0x22E, [
    (0x22E05, [0x6500]), (0x22E06, [0x6479]), (0x22E24, [0x3A6C]), (0x22E6C, [0x64C1]), (0x22EF3, [0x6276]), (0x22EF9, [0x3A7A])]),
  (0x22F, [
    (0x22F15, [0x3A86]), (0x22F1C, [0x8D66]), (0x22F85, [0x21368]), (0x22F86, [0x63E9]), (0x22F8D, [0x6556]), (0x22F99, [0x63DA]),
    (0x22FB0, [0x5FBD]), (0x22FBF, [0x4C19]), (0x22FE0, [0x9F16])]),
  (0x230, [
    (0x2301A, [0x5914]), (0x2308A, [0x71A8]), (0x23095, [0x65AF]), (0x230A2, [0x65B7]), (0x230A6, [0x525E]), (0x230BA, [0x65B0]),
    (0x230E6, [0x52FF])]),
  (0x231, [
    (0x23101, [0x53D7]), (0x23103, [0x65D7]), (0x23128, [0x7947]), (0x23133, [0x821E]), (0x23140, [0x65E8]), (0x2314A, [0x660C]),
    (0x2314E, [0x6664]), (0x2315C, [0x7686]), (0x23162, [0x666C]), (0x2316F, [0x665D]), (0x2317C, [0x65E9]), (0x23197, [0x3B01]),
    (0x2319C, [0x6627])]),
  (0x232, [
    (0x23206, [0x6649]), (0x2320D, [0x758A]), (0x2325A, [0x3B15]), (0x232A3, [0x8204])]),
  (0x233, [
    (0x2331F, [0x3B21]), (0x23351, [0x50C8]), (0x2335D, [0x821F]), (0x2339C, [0x5B55]), (0x233C2, [0x6BBA]), (0x233D0, [0x6753]),
    (0x233DD, [0x6795]), (0x233F9, [0x707D]), (0x233FD, [0x679A])]),
  (0x234, [
    (0x2340C, [0x68B3]), (0x23415, [0x6871]), (0x23431, [0x67D4]), (0x23436, [0x62D0]), (0x23437, [0x62D0]), (0x2346D, [0x67F5]),
    (0x2346F, [0x6843]), (0x23471, [0x67D3]), (0x2348F, [0x6912]), (0x234C0, [0x699B])]),
  (0x235, [
    (0x23580, [0x6897]), (0x235F3, [0x6A39])]),
  (0x236, [
    (0x2361C, [0x7B1E]), (0x23694, [0x8204]), (0x23698, [0x72A7]), (0x236A6, [0x5F36]), (0x236D8, [0x69AD])]),
  (0x237, [
    (0x2370E, [0x8437]), (0x23723, [0x9202]), (0x23725, [0x6A84]), (0x23726, [0x5C0E]), (0x237B5, [0x845A]), (0x237F4, [0x9582])]),
  (0x238, [
    (0x23881, [0x3567]), (0x23898, [0x547B]), (0x2389C, [0x5466]), (0x238B8, [0x6B3E]), (0x238D3, [0x6B20]), (0x238FD, [0x6B3D])]),
  (0x239, [
    (0x2391A, [0x91C2]), (0x23948, [0x6703]), (0x23949, [0x54AB]), (0x2394D, [0x8FD1]), (0x23957, [0x5C11]), (0x2397B, [0x8E1C]),
    (0x2399E, [0x5914]), (0x239A1, [0x8E87]), (0x239A2, [0x8E83]), (0x239B8, [0x6B7B]), (0x239C0, [0x5F18]), (0x239E9, [0x7D42])]),
  (0x23A, [
    (0x23A0F, [0x6B7F]), (0x23A3B, [0x85A7]), (0x23A44, [0x6E98]), (0x23A46, [0x51A5]), (0x23A47, [0x8150]), (0x23A52, [0x50AE]),
    (0x23A85, [0x6BC6]), (0x23A86, [0x6BBA]), (0x23A96, [0x6BBA]), (0x23AA9, [0x6BBA]), (0x23ACC, [0x3745]), (0x23AED, [0x6BCF]),
    (0x23AF9, [0x73B3])]),
  (0x23B, [
    (0x23B23, [0x9B0D])]),
  (0x23C, [
    (0x23C2B, [0x3CB1]), (0x23C5C, [0x6C24]), (0x23C6E, [0x6C2B]), (0x23C75, [0x6C38]), (0x23C83, [0x6C8C]), (0x23C94, [0x6CE3]),
    (0x23C97, [0x6E4B]), (0x23C98, [0x6F55]), (0x23CA0, [0x6C50]), (0x23CB4, [0x6CB8]), (0x23CDA, [0x6C92]), (0x23CE5, [0x6E21])]),
  (0x23D, [
    (0x23D11, [0x6D41]), (0x23D26, [0x6CD3]), (0x23D29, [0x6FF1]), (0x23D32, [0x6D74]), (0x23D34, [0x6D77]), (0x23D5E, [0x6EB6]),
    (0x23D7D, [0x6C83]), (0x23D7F, [0x6D8E]), (0x23D81, [0x6DC5]), (0x23D83, [0x6F6E]), (0x23DDD, [0x6F86]), (0x23DEA, [0x6C6A])]),
  (0x23E, [
    (0x23E15, [0x6C34]), (0x23E6B, [0x6E3E]), (0x23E8C, [0x6E3A]), (0x23EAF, [0x6FD5])]),
  (0x23F, [
    (0x23F1C, [0x6DF9]), (0x23F45, [0x6D3B]), (0x23F48, [0x6FE1]), (0x23F5E, [0x53AC]), (0x23F67, [0x5BD6]), (0x23F85, [0x6E54]),
    (0x23FD1, [0x6E2F])]),
  (0x240, [
    (0x2404A, [0x6E19]), (0x2404C, [0x6FB3]), (0x24084, [0x6E2C])]),
  (0x241, [
    (0x24109, [0x700F]), (0x2414C, [0x6FC3]), (0x2414D, [0x6F15]), (0x2418C, [0x708E]), (0x2418D, [0x8D64]), (0x2418E, [0x707D]),
    (0x24190, [0x7078]), (0x241B2, [0x707D]), (0x241BD, [0x7077]), (0x241E1, [0x7384]), (0x241F4, [0x7199])]),
  (0x242, [
    (0x2422E, [0x707D]), (0x24263, [0x707D]), (0x242B7, [0x7119]), (0x242B9, [0x3DBF]), (0x242BA, [0x70FC]), (0x242C0, [0x3DE6]),
    (0x242CF, [0x71A1]), (0x242EE, [0x7199]), (0x242F0, [0x52A9])]),
  (0x243, [
    (0x243B9, [0x7199]), (0x243C1, [0x7199]), (0x243D0, [0x721B])]),
  (0x244, [
    (0x24424, [0x7199]), (0x2442B, [0x7968]), (0x2447E, [0x71E7]), (0x244C8, [0x720D])]),
  (0x245, [
    (0x24522, [0x6414]), (0x2452A, [0x470C]), (0x24553, [0x723A]), (0x24555, [0x7238]), (0x2457A, [0x75BE]), (0x245B2, [0x67AF]),
    (0x245CA, [0x7252]), (0x245CB, [0x724C]), (0x245F1, [0x7256])]),
  (0x246, [
    (0x24604, [0x7258]), (0x24608, [0x7259]), (0x24625, [0x725D]), (0x24634, [0x7267]), (0x24657, [0x65B9]), (0x24668, [0x675F]),
    (0x2468C, [0x7280]), (0x246B4, [0x7261])]),
  (0x247, [
    (0x24733, [0x7345]), (0x2473D, [0x8C7D]), (0x24751, [0x72AF]), (0x2477D, [0x8C84]), (0x2477F, [0x52BB]), (0x247C4, [0x8154]),
    (0x247CB, [0x72E1]), (0x247D4, [0x60B5]), (0x247D7, [0x733F]), (0x247E7, [0x8478])]),
  (0x248, [
    (0x24815, [0x755C]), (0x2483E, [0x8C99]), (0x24846, [0x8C75]), (0x2486C, [0x8C77]), (0x2489A, [0x7378]), (0x2489C, [0x7368]),
    (0x248CA, [0x7377]), (0x248F5, [0x7396])]),
  (0x249, [
    (0x24908, [0x745A]), (0x24939, [0x3EF7]), (0x2497F, [0x8751]), (0x249A6, [0x73ED]), (0x249B3, [0x743F]), (0x249F0, [0x7435]),
    (0x249F2, [0x7436])]),
  (0x24A, [
    (0x24A14, [0x74B0]), (0x24A40, [0x73CA]), (0x24AE9, [0x73B2])]),
  (0x24B, [
    (0x24B17, [0x74E0]), (0x24B21, [0x74E2]), (0x24B2E, [0x74F6]), (0x24B53, [0x26228]), (0x24B5B, [0x5808]), (0x24B79, [0x76CE]),
    (0x24B9B, [0x58BC]), (0x24BD3, [0x751F]), (0x24BD4, [0x4EBA]), (0x24BDB, [0x7B19]), (0x24BF3, [0x7526]), (0x24BF7, [0x845F])]),
  (0x24C, [
    (0x24C06, [0x7528]), (0x24C1E, [0x5351]), (0x24C34, [0x5A01]), (0x24C35, [0x754F]), (0x24C36, [0x7533]), (0x24C65, [0x755B]),
    (0x24C71, [0x8F09]), (0x24C95, [0x57E8]), (0x24C99, [0x755A]), (0x24C9C, [0x7562]), (0x24CAC, [0x3F6D])]),
  (0x24D, [
    (0x24DC2, [0x75F1]), (0x24DD0, [0x76F2]), (0x24DE0, [0x7600]), (0x24DFD, [0x3FA1])]),
  (0x24E, [
    (0x24E06, [0x75FF]), (0x24E0B, [0x75A5]), (0x24E1F, [0x75D4]), (0x24E8A, [0x5636]), (0x24EE8, [0x7613]), (0x24EF2, [0x7642])]),
  (0x24F, [
    (0x24F29, [0x7678]), (0x24F2A, [0x767B]), (0x24F32, [0x767C]), (0x24F35, [0x767C]), (0x24F37, [0x767B]), (0x24F50, [0x8FEB])]),
  (0x250, [
    (0x25022, [0x9F16]), (0x2502B, [0x3FF5]), (0x25039, [0x8DBC]), (0x25044, [0x76C2]), (0x25049, [0x76E5]), (0x2506A, [0x5B5F]),
    (0x25070, [0x76DF]), (0x2507A, [0x9193]), (0x25083, [0x3536]), (0x250AF, [0x83F9]), (0x250E9, [0x773C]), (0x250F3, [0x76F1])]),
  (0x251, [
    (0x2510C, [0x775F]), (0x25122, [0x76F8]), (0x25131, [0x401F]), (0x2516D, [0x8996]), (0x25171, [0x7701]), (0x251E1, [0x776A])]),
  (0x252, [
    (0x25205, [0x9766]), (0x25219, [0x4033]), (0x25228, [0x7771]), (0x25281, [0x252B4]), (0x252BC, [0x77A0]), (0x252CD, [0x7761])]),
  (0x253, [
    (0x25312, [0x77BD]), (0x2531D, [0x779F]), (0x2533A, [0x77C5]), (0x2536F, [0x942B]), (0x2537F, [0x76FE]), (0x25384, [0x69CD]),
    (0x253BF, [0x77E5]), (0x253F5, [0x7624])]),
  (0x254, [
    (0x25417, [0x782D]), (0x2543A, [0x7825]), (0x2544A, [0x78BE]), (0x25470, [0x40AF]), (0x254CB, [0x7814]), (0x254CF, [0x57ED]),
    (0x254D3, [0x7891])]),
  (0x255, [
    (0x25510, [0x78D5]), (0x25553, [0x6F20]), (0x2555A, [0x7296]), (0x25566, [0x78D9]), (0x25571, [0x787C]), (0x25574, [0x792B]),
    (0x255F7, [0x8F3E])]),
  (0x256, [
    (0x25614, [0x707D]), (0x25616, [0x982D]), (0x25621, [0x7947]), (0x2564A, [0x796D]), (0x2564D, [0x795E]), (0x256C5, [0x4102]),
    (0x256DC, [0x7956])]),
  (0x257, [
    (0x25731, [0x795F]), (0x25750, [0x79C9]), (0x25755, [0x4152]), (0x25757, [0x8291]), (0x25762, [0x5229]), (0x25777, [0x8015]),
    (0x257AB, [0x9ECD])]),
  (0x258, [
    (0x2583C, [0x79E6]), (0x25877, [0x7A69]), (0x25893, [0x6388])]),
  (0x259, [
    (0x2592F, [0x7A76]), (0x2593E, [0x7AC5]), (0x2593F, [0x7AA3]), (0x25949, [0x5CAB]), (0x25963, [0x57A3]), (0x2598E, [0x8CD3]),
    (0x2599C, [0x580B]), (0x259BD, [0x5BD4]), (0x259CA, [0x5800]), (0x259E2, [0x4A78]), (0x259E8, [0x8CD3])]),
  (0x25A, [
    (0x25A12, [0x7AC4]), (0x25A50, [0x7AC7]), (0x25A60, [0x7AD9]), (0x25A73, [0x5F85]), (0x25AE1, [0x7AFD])]),
  (0x25B, [
    (0x25B16, [0x76AE]), (0x25B30, [0x518A]), (0x25B8F, [0x5178]), (0x25BD2, [0x683D])]),
  (0x25C, [
    (0x25CE6, [0x7B4D])]),
  (0x25D, [
    (0x25D8E, [0x83F9]), (0x25D9E, [0x5B42]), (0x25DDF, [0x83F9])]),
  (0x25E, [
    (0x25E4E, [0x7C84]), (0x25E6A, [0x7CDD]), (0x25E9E, [0x7CA5]), (0x25EC6, [0x7C9F]), (0x25ED5, [0x7CDD]), (0x25EE6, [0x429B])]),
  (0x25F, [
    (0x25F3E, [0x7CDD]), (0x25F86, [0x7CFE]), (0x25F91, [0x7D14]), (0x25FA0, [0x7D09]), (0x25FA1, [0x7D62]), (0x25FA8, [0x7D07]),
    (0x25FBA, [0x7E31]), (0x25FC9, [0x896A]), (0x25FCC, [0x888E]), (0x25FD1, [0x7DB8]), (0x25FD3, [0x7D00]), (0x25FF3, [0x7D30])]),
  (0x260, [
    (0x26007, [0x7D93]), (0x26012, [0x5194]), (0x2601F, [0x7D17]), (0x26065, [0x9EF9]), (0x260B2, [0x9EF9]), (0x260B3, [0x7DCA]),
    (0x260B5, [0x7E31]), (0x260B6, [0x7DBA]), (0x260C5, [0x7D61]), (0x260E7, [0x78A7]), (0x260F0, [0x7E69])]),
  (0x261, [
    (0x26132, [0x7E2E]), (0x2614D, [0x7E32]), (0x26167, [0x9EF9]), (0x26196, [0x7E5A]), (0x261AB, [0x7D81]), (0x261C4, [0x5121]),
    (0x261DA, [0x5F5D]), (0x261FB, [0x7DE9]), (0x261FD, [0x4331])]),
  (0x262, [
    (0x26223, [0x4342]), (0x26247, [0x74F6]), (0x26248, [0x434B]), (0x26262, [0x4345]), (0x2628B, [0x4352]), (0x2628E, [0x4352]),
    (0x2628F, [0x4352]), (0x262B0, [0x7F65]), (0x262C0, [0x7F65]), (0x262DA, [0x7F69]), (0x262E1, [0x4352]), (0x262E7, [0x7F72])]),
  (0x263, [
    (0x26304, [0x7F65]), (0x26310, [0x7F79]), (0x26334, [0x7F85]), (0x26336, [0x7F65]), (0x2633E, [0x7F65]), (0x2633F, [0x91C3]),
    (0x26343, [0x7F65]), (0x26346, [0x7F65]), (0x2635B, [0x7F95]), (0x2638B, [0x8C78]), (0x263A4, [0x97A3]), (0x263C1, [0x7FB2]),
    (0x263E0, [0x7F94]), (0x263F2, [0x7FBD])]),
  (0x264, [
    (0x2641C, [0x7FE0]), (0x2642C, [0x7FD5]), (0x2644A, [0x65CC]), (0x26474, [0x879A]), (0x26476, [0x4393]), (0x2648B, [0x7FF0]),
    (0x2648E, [0x439A]), (0x2649F, [0x4385]), (0x264A1, [0x7FF1]), (0x264A2, [0x7FF1]), (0x264B1, [0x8003]), (0x264BF, [0x8006]),
    (0x264D4, [0x9700]), (0x264D9, [0x264DD]), (0x264DA, [0x264DD])]),
  (0x265, [
    (0x26515, [0x582B]), (0x2657C, [0x804A]), (0x265A8, [0x43C0]), (0x265F7, [0x8071])]),
  (0x266, [
    (0x2661F, [0x8087]), (0x2663B, [0x8093]), (0x2665B, [0x80AB]), (0x26669, [0x991A]), (0x2666D, [0x75BC]), (0x26675, [0x8155]),
    (0x26676, [0x80A1]), (0x266A7, [0x43DB]), (0x266C1, [0x8166])]),
  (0x267, [
    (0x26709, [0x813E]), (0x26721, [0x7099]), (0x26736, [0x8180]), (0x26769, [0x80C3]), (0x2676B, [0x8170]), (0x2676D, [0x985E]),
    (0x267A4, [0x56DF]), (0x267A7, [0x7624]), (0x267AC, [0x8171]), (0x267DD, [0x810A]), (0x267E6, [0x819C]), (0x267EF, [0x808B]),
    (0x267F3, [0x91B5])]),
  (0x268, [
    (0x2680D, [0x35C1]), (0x2681D, [0x7624]), (0x268A7, [0x4445]), (0x268DE, [0x9824]), (0x268EE, [0x5B64]), (0x268FA, [0x767D])]),
  (0x269, [
    (0x26900, [0x81ED]), (0x26903, [0x7687]), (0x26906, [0x96F2]), (0x2690C, [0x66A8]), (0x26913, [0x9F3B]), (0x26933, [0x81F3]),
    (0x2693F, [0x5C4B]), (0x26946, [0x63E1]), (0x26947, [0x81FB]), (0x26951, [0x530A]), (0x26959, [0x66F3]), (0x2695D, [0x8200]),
    (0x26967, [0x8CB6]), (0x2699A, [0x5BC5]), (0x269B6, [0x58E4]), (0x269CA, [0x542E])]),
  (0x26A, [
    (0x26A22, [0x446D]), (0x26A31, [0x6D25]), (0x26A85, [0x8247]), (0x26ADC, [0x8D69])]),
  (0x26B, [
    (0x26B0A, [0x8291]), (0x26B21, [0x8403]), (0x26B3C, [0x85BE]), (0x26B42, [0x83C5]), (0x26B44, [0x4502]), (0x26B82, [0x84CD]),
    (0x26B8F, [0x6B21]), (0x26BBF, [0x844B]), (0x26BD2, [0x44A2]), (0x26BD3, [0x83F9]), (0x26BED, [0x831D]), (0x26BF1, [0x831D]),
    (0x26BF8, [0x8291])]),
  (0x26C, [
    (0x26C52, [0x82DC]), (0x26C54, [0x84D6]), (0x26C64, [0x83AB]), (0x26C67, [0x209AA]), (0x26CAD, [0x847A]), (0x26CC3, [0x4511]),
    (0x26CCB, [0x44D2]), (0x26CCD, [0x26C44]), (0x26CCE, [0x83F9]), (0x26CDD, [0x859A]), (0x26CE4, [0x85E8]), (0x26CF2, [0x845D]),
    (0x26CF3, [0x84C1])]),
  (0x26D, [
    (0x26D03, [0x26D6B]), (0x26D2B, [0x8492]), (0x26D2D, [0x85D0]), (0x26D54, [0x83F9]), (0x26D87, [0x4A78]), (0x26D88, [0x451C]),
    (0x26D96, [0x863D]), (0x26D9C, [0x831D]), (0x26DAC, [0x8470]), (0x26DDB, [0x50B0]), (0x26DF2, [0x84B5]), (0x26DFF, [0x26D75])]),
  (0x26E, [
    (0x26E00, [0x85C4]), (0x26E06, [0x8291]), (0x26E0B, [0x850A]), (0x26E0E, [0x8494]), (0x26E2D, [0x8323]), (0x26E2F, [0x8398]),
    (0x26E32, [0x85D5]), (0x26E33, [0x84D0]), (0x26E35, [0x26F2B]), (0x26E4A, [0x8323]), (0x26E86, [0x450C]), (0x26E88, [0x84C0]),
    (0x26E8B, [0x4545]), (0x26E92, [0x84E9]), (0x26E94, [0x449D]), (0x26E95, [0x862C]), (0x26E9D, [0x85B4]), (0x26EAB, [0x455E]),
    (0x26EB3, [0x858F]), (0x26EC2, [0x859E]), (0x26EC3, [0x8411]), (0x26EE5, [0x83F2]), (0x26EE6, [0x8404])]),
  (0x26F, [
    (0x26F0D, [0x839E]), (0x26F2A, [0x270FA]), (0x26F2C, [0x83F9]), (0x26F30, [0x85D2]), (0x26F48, [0x8555]), (0x26F5D, [0x84CF]),
    (0x26F60, [0x851C]), (0x26F67, [0x83A0]), (0x26F69, [0x63C9]), (0x26F77, [0x844F]), (0x26F94, [0x820A]), (0x26FAA, [0x5914]),
    (0x26FAF, [0x83C9]), (0x26FB1, [0x6284]), (0x26FB4, [0x8629]), (0x26FB7, [0x84FC]), (0x26FC8, [0x8625]), (0x26FD0, [0x4559]),
    (0x26FD8, [0x83F9]), (0x26FE0, [0x84AE]), (0x26FE1, [0x85C8]), (0x26FE6, [0x862E])]),
  (0x270, [
    (0x27004, [0x26FC4]), (0x27009, [0x85FB]), (0x2701B, [0x85E3]), (0x27026, [0x84FE]), (0x2703D, [0x83F9]), (0x2703E, [0x855B]),
    (0x2704E, [0x5914]), (0x27055, [0x84F1]), (0x27084, [0x840F]), (0x27087, [0x8541]), (0x2708A, [0x85A4]), (0x27090, [0x7A4D]),
    (0x27092, [0x4574]), (0x27096, [0x4537]), (0x27099, [0x856E]), (0x2709A, [0x83F9]), (0x270B0, [0x85CE]), (0x270B1, [0x8568]),
    (0x270B2, [0x83CA]), (0x270B3, [0x8547]), (0x270C8, [0x83CA]), (0x270CD, [0x5914]), (0x270D3, [0x83CA]), (0x270D7, [0x452F]),
    (0x270DA, [0x453A]), (0x270DC, [0x85D1]), (0x270EC, [0x4569]), (0x270F0, [0x5914])]),
  (0x271, [
    (0x27116, [0x8508]), (0x27117, [0x83F9]), (0x27137, [0x8649]), (0x27141, [0x8591]), (0x27149, [0x85ED]), (0x2714F, [0x85DC]),
    (0x2715B, [0x85CB]), (0x2715C, [0x85FD]), (0x2715D, [0x84F8]), (0x27161, [0x4578]), (0x27172, [0x26CE9]), (0x27173, [0x457B]),
    (0x2717C, [0x4586]), (0x27188, [0x85D9]), (0x2718A, [0x864C]), (0x27191, [0x85FF]), (0x271A4, [0x458A]), (0x271A6, [0x271AB]),
    (0x271BD, [0x4591]), (0x271C1, [0x864D]), (0x271C3, [0x8668]), (0x271C4, [0x24D05]), (0x271C7, [0x8658]), (0x271D0, [0x866A]),
    (0x271D1, [0x8663])]),
  (0x272, [
    (0x27205, [0x8669]), (0x2720B, [0x83DF]), (0x27216, [0x27211]), (0x2721C, [0x299B6]), (0x2721F, [0x460C]), (0x27220, [0x86A4]),
    (0x27227, [0x96D6]), (0x2722C, [0x8679]), (0x27265, [0x5317]), (0x27275, [0x8685]), (0x27286, [0x86B9]), (0x2728D, [0x8697]),
    (0x27296, [0x87D9]), (0x2729B, [0x86BC]), (0x272A1, [0x86E9]), (0x272A2, [0x86BB]), (0x272A4, [0x8734]), (0x272A7, [0x86E4]),
    (0x272AE, [0x86EC]), (0x272B0, [0x86DC]), (0x272D9, [0x87CC])]),
  (0x273, [
    (0x27312, [0x872E]), (0x27332, [0x8718]), (0x27337, [0x86D3]), (0x2733F, [0x8742]), (0x27353, [0x87C0]), (0x27357, [0x881A]),
    (0x27358, [0x86B4]), (0x2735B, [0x86F9]), (0x27362, [0x27398]), (0x27367, [0x878A]), (0x27368, [0x45AD]), (0x27371, [0x87B2]),
    (0x2737D, [0x8798]), (0x2737F, [0x8713]), (0x27380, [0x8725]), (0x27381, [0x86A7]), (0x27382, [0x8766]), (0x27397, [0x874C]),
    (0x273A9, [0x8674]), (0x273C5, [0x87AB]), (0x273CD, [0x8784]), (0x273CF, [0x86C6]), (0x273D3, [0x45DC]), (0x273D5, [0x8794]),
    (0x273E9, [0x879D]), (0x273F8, [0x87AA])]),
  (0x274, [
    (0x27400, [0x8830]), (0x27404, [0x87B8]), (0x27407, [0x87B1]), (0x27409, [0x8718]), (0x2740A, [0x45C5]), (0x27414, [0x45D1]),
    (0x2741A, [0x87C5]), (0x2741B, [0x876E]), (0x2742E, [0x87B9]), (0x27431, [0x45E5]), (0x27433, [0x87B0]), (0x27436, [0x45E9]),
    (0x27446, [0x8769]), (0x2744E, [0x273B9]), (0x27463, [0x87EF]), (0x27468, [0x86EA]), (0x27494, [0x86F7]), (0x274A6, [0x87C4]),
    (0x274AA, [0x8752]), (0x274BC, [0x87FF]), (0x274BD, [0x2749C]), (0x274BE, [0x87F7]), (0x274C9, [0x8810]), (0x274CC, [0x87A2]),
    (0x274CE, [0x8795]), (0x274D2, [0x8693]), (0x274DB, [0x87E5]), (0x274F1, [0x8758]), (0x274F3, [0x86ED])]),
  (0x275, [
    (0x27508, [0x8832]), (0x27518, [0x8809]), (0x2752B, [0x8733]), (0x27549, [0x8787]), (0x2754E, [0x87B6]), (0x27550, [0x87AC]),
    (0x2755B, [0x27566]), (0x27563, [0x27572]), (0x27573, [0x8803]), (0x2757E, [0x8818]), (0x27580, [0x883F]), (0x2758B, [0x87EB]),
    (0x27599, [0x8706]), (0x2759A, [0x8709]), (0x275AD, [0x8841]), (0x275AF, [0x8843]), (0x275C0, [0x4613]), (0x275CE, [0x83F9]),
    (0x275D7, [0x8844]), (0x275D8, [0x83F9]), (0x275D9, [0x884B]), (0x275E1, [0x884E]), (0x275F3, [0x8852])]),
  (0x276, [
    (0x27602, [0x885D]), (0x27623, [0x88BE]), (0x27624, [0x88A7]), (0x2762D, [0x887E]), (0x27637, [0x8878]), (0x2764A, [0x88C0]),
    (0x27652, [0x27667]), (0x2765F, [0x88A3]), (0x27665, [0x8971]), (0x27669, [0x88C2]), (0x2766A, [0x8922]), (0x2766B, [0x27667]),
    (0x27688, [0x8900]), (0x2768C, [0x88DD]), (0x2768D, [0x88D8]), (0x2769B, [0x88FB]), (0x2769C, [0x892B]), (0x2769D, [0x88C1]),
    (0x276AE, [0x27723]), (0x276BA, [0x8937]), (0x276BC, [0x4636]), (0x276D6, [0x886A]), (0x276DD, [0x4655]), (0x276E0, [0x88D3]),
    (0x276E1, [0x8942]), (0x276E2, [0x9EF9]), (0x276EA, [0x27705])]),
  (0x277, [
    (0x2770B, [0x464E]), (0x27725, [0x4638]), (0x27737, [0x893D]), (0x27744, [0x8966]), (0x27749, [0x9EF9]), (0x2774D, [0x4643]),
    (0x27750, [0x8905]), (0x27756, [0x465F]), (0x27775, [0x890B]), (0x2777A, [0x88A4]), (0x27796, [0x890D]), (0x277A8, [0x4654]),
    (0x277AB, [0x88CB]), (0x277B0, [0x4658]), (0x277B2, [0x896B]), (0x277B7, [0x8931]), (0x277B8, [0x895A]), (0x277CA, [0x896E]),
    (0x277CE, [0x8969]), (0x277D0, [0x897A]), (0x277D2, [0x895B]), (0x277D4, [0x893F]), (0x277D9, [0x888A]), (0x277F6, [0x9738])]),
  (0x278, [
    (0x2780A, [0x34BB]), (0x27811, [0x8992]), (0x27820, [0x2781F]), (0x27828, [0x899B]), (0x2784B, [0x2788F]), (0x2784C, [0x2789E]),
    (0x27861, [0x468B]), (0x2786C, [0x4681]), (0x27877, [0x899E]), (0x27879, [0x4683]), (0x27886, [0x468E]), (0x2789A, [0x89B2]),
    (0x278A2, [0x77C5]), (0x278A3, [0x2789C]), (0x278A8, [0x27884]), (0x278AB, [0x278A6]), (0x278AE, [0x4695]), (0x278B1, [0x6027]),
    (0x278B8, [0x4697]), (0x278C2, [0x89E4]), (0x278F0, [0x4699])]),
  (0x279, [
    (0x27907, [0x46A2]), (0x2790C, [0x89F0]), (0x27914, [0x46A8]), (0x27918, [0x46A3]), (0x27926, [0x46A9]), (0x2792B, [0x46A6]),
    (0x27931, [0x89EA]), (0x27955, [0x87D5]), (0x27966, [0x8A0F]), (0x27970, [0x46AE]), (0x27973, [0x8A69]), (0x27976, [0x8A91]),
    (0x27977, [0x8A16]), (0x2797A, [0x8A07]), (0x2797D, [0x8AC5]), (0x2797E, [0x8B58]), (0x27992, [0x8A46]), (0x27998, [0x8AB7]),
    (0x279AB, [0x8A52]), (0x279BD, [0x8A3A]), (0x279BE, [0x8A23]), (0x279C1, [0x46C4]), (0x279CF, [0x558F]), (0x279E1, [0x8A1F]),
    (0x279E7, [0x8A48]), (0x279F0, [0x46D7]), (0x279F2, [0x8A44]), (0x279FF, [0x6559])]),
  (0x27A, [
    (0x27A09, [0x27AE2]), (0x27A0F, [0x8ABC]), (0x27A1B, [0x8A6A]), (0x27A1D, [0x8A57]), (0x27A1E, [0x8B11]), (0x27A23, [0x8A25]),
    (0x27A28, [0x8B10]), (0x27A2C, [0x8AC0]), (0x27A2D, [0x76E3]), (0x27A3D, [0x8A42]), (0x27A40, [0x8B3B]), (0x27A42, [0x8B17]),
    (0x27A50, [0x8AD5]), (0x27A5B, [0x8A62]), (0x27A60, [0x8AF7]), (0x27A63, [0x4700]), (0x27A6A, [0x8B25]), (0x27A6D, [0x470F]),
    (0x27A73, [0x279FB]), (0x27A7B, [0x8ACF]), (0x27A7D, [0x8AC4]), (0x27A9B, [0x46E9]), (0x27A9F, [0x8ABB]), (0x27AAE, [0x8B23]),
    (0x27AB3, [0x8AF0]), (0x27AD4, [0x279FA]), (0x27AE0, [0x8AC6]), (0x27AE7, [0x8AF3]), (0x27AEA, [0x8B14]), (0x27AF8, [0x8A56])]),
  (0x27B, [
    (0x27B03, [0x8B45]), (0x27B04, [0x8B1D]), (0x27B0C, [0x8AF4]), (0x27B0D, [0x8B2B]), (0x27B13, [0x8B3A]), (0x27B21, [0x8AC8]),
    (0x27B2D, [0x8AE3]), (0x27B2F, [0x8B07]), (0x27B33, [0x8B6F]), (0x27B51, [0x27B2E]), (0x27B58, [0x8B5C]), (0x27B64, [0x8B08]),
    (0x27B74, [0x8B5E]), (0x27B7E, [0x470B]), (0x27B87, [0x4715]), (0x27B8A, [0x27B93]), (0x27B90, [0x8B94]), (0x27B9B, [0x8B27]),
    (0x27BA3, [0x8AA9]), (0x27BA9, [0x8B8B]), (0x27BAE, [0x9621]), (0x27BAF, [0x8C39]), (0x27BB0, [0x8C3D]), (0x27BB7, [0x8C3B]),
    (0x27BCB, [0x8C3A]), (0x27BD0, [0x4731]), (0x27BDB, [0x58F4]), (0x27BE0, [0x5245]), (0x27BE1, [0x8C4C]), (0x27BED, [0x8C4B]),
    (0x27BFF, [0x9F19])]),
  (0x27C, [
    (0x27C42, [0x8C72]), (0x27C4D, [0x474B]), (0x27C4F, [0x8C59]), (0x27C51, [0x8C60]), (0x27C5A, [0x8C5C]), (0x27C5B, [0x4752]),
    (0x27C5F, [0x8C64]), (0x27C71, [0x8C65]), (0x27C74, [0x733D]), (0x27C7F, [0x27D04]), (0x27C80, [0x8C5C]), (0x27C8C, [0x474A]),
    (0x27C8F, [0x8C69]), (0x27C90, [0x8C70]), (0x27C94, [0x27C9D]), (0x27C95, [0x474F]), (0x27C9E, [0x27C9D]), (0x27CA8, [0x8C5C]),
    (0x27CB1, [0x3E67]), (0x27CB2, [0x72D0]), (0x27CC5, [0x3E6C]), (0x27CC7, [0x8C89]), (0x27CD4, [0x8C86]), (0x27CE0, [0x8C8F]),
    (0x27CE1, [0x3E6C]), (0x27CED, [0x876F]), (0x27CF2, [0x8C92])]),
  (0x27D, [
    (0x27D39, [0x8CB0]), (0x27D44, [0x8694]), (0x27D45, [0x8686]), (0x27D47, [0x8CBE]), (0x27D4E, [0x8CC8]), (0x27D69, [0x8CAC]),
    (0x27D6A, [0x8CCA]), (0x27D6E, [0x8CBA]), (0x27D85, [0x8CC4]), (0x27D99, [0x80CC]), (0x27D9B, [0x8CDA]), (0x27D9E, [0x8720]),
    (0x27DA1, [0x5B93]), (0x27DB3, [0x476A]), (0x27DB4, [0x8CED]), (0x27DB6, [0x8CA9]), (0x27DBB, [0x8CBF]), (0x27DBD, [0x8CDC]),
    (0x27DC9, [0x8CDD]), (0x27DD5, [0x8CC7]), (0x27DE0, [0x8D19]), (0x27DE4, [0x8CFE]), (0x27DFC, [0x8D06])]),
  (0x27E, [
    (0x27E03, [0x907A]), (0x27E06, [0x8D05]), (0x27E0A, [0x8CFC]), (0x27E11, [0x8D08]), (0x27E16, [0x8CFA]), (0x27E18, [0x8D09]),
    (0x27E1A, [0x8CC2]), (0x27E2F, [0x907A]), (0x27E37, [0x8D15]), (0x27E3D, [0x907A]), (0x27E52, [0x8CB7]), (0x27E5E, [0x8D67]),
    (0x27E79, [0x71BE]), (0x27E87, [0x8D73]), (0x27E9E, [0x4798]), (0x27EAB, [0x8D77]), (0x27EBB, [0x27F0F]), (0x27EC0, [0x47A3]),
    (0x27ECE, [0x8D86]), (0x27ED3, [0x27F32]), (0x27EDB, [0x8D79]), (0x27EE7, [0x47A3]), (0x27EEF, [0x8D7D]), (0x27EFB, [0x8D97])]),
  (0x27F, [
    (0x27F18, [0x479A]), (0x27F1A, [0x47D2]), (0x27F1E, [0x27F78]), (0x27F52, [0x4817]), (0x27F62, [0x640F]), (0x27F70, [0x47C2]),
    (0x27F8B, [0x47C3]), (0x27F92, [0x8D80]), (0x27F9F, [0x8DAF]), (0x27FA2, [0x47CC]), (0x27FA8, [0x22598]), (0x27FAB, [0x47CD]),
    (0x27FB4, [0x27F64]), (0x27FC1, [0x5216]), (0x27FC4, [0x8E11]), (0x27FD6, [0x8DEB]), (0x27FDB, [0x8E64]), (0x27FF6, [0x8DCE]),
    (0x27FFA, [0x8D89])]),
  (0x280, [
    (0x28013, [0x8DD1]), (0x2801F, [0x8E31]), (0x28040, [0x8DFE]), (0x28048, [0x8FD2]), (0x2807B, [0x8E40]), (0x280A7, [0x8E82]),
    (0x280AB, [0x8DC5]), (0x280DD, [0x8DFF]), (0x280DF, [0x8E63]), (0x280E1, [0x8DFD])]),
  (0x281, [
    (0x28103, [0x8E85]), (0x28119, [0x8DFC]), (0x2814C, [0x542A]), (0x28155, [0x28154]), (0x2815D, [0x4806]), (0x28162, [0x8E73]),
    (0x28175, [0x8E0F]), (0x28176, [0x8E81]), (0x2818D, [0x8E90]), (0x281AE, [0x8E16]), (0x281AF, [0x8E7C]), (0x281B2, [0x7A69]),
    (0x281CB, [0x8E50]), (0x281DA, [0x8E6A]), (0x281E5, [0x8E47]), (0x281E8, [0x8EA0]), (0x281F0, [0x482A]), (0x281F1, [0x8E41]),
    (0x281F3, [0x8E74])]),
  (0x282, [
    (0x2822C, [0x8EC0]), (0x28235, [0x8DDB]), (0x2823B, [0x81EA]), (0x28246, [0x8106]), (0x28247, [0x707D]), (0x28257, [0x8EC9]),
    (0x28289, [0x8106]), (0x282A0, [0x8ED3]), (0x282AF, [0x8ED8]), (0x282B5, [0x8EE5]), (0x282B6, [0x8EF5]), (0x282BA, [0x8EE9]),
    (0x282BE, [0x8F1E]), (0x282CF, [0x8EEB]), (0x282D4, [0x4870]), (0x282E9, [0x8F39]), (0x282FB, [0x55AB]), (0x282FC, [0x65A1])]),
  (0x283, [
    (0x28302, [0x8EE0]), (0x28307, [0x8EF8]), (0x28323, [0x8EDC]), (0x2832E, [0x8EE7]), (0x2832F, [0x8F0D]), (0x28332, [0x2834C]),
    (0x2834B, [0x8F20]), (0x2836A, [0x283C8]), (0x2836C, [0x8F43]), (0x2836F, [0x485E]), (0x28373, [0x8EFA]), (0x2837B, [0x8F26]),
    (0x28385, [0x8F2C]), (0x2838A, [0x8F25]), (0x28395, [0x8F57]), (0x283A6, [0x8F47]), (0x283A8, [0x8F52]), (0x283A9, [0x8F04]),
    (0x283AA, [0x8F00]), (0x283AF, [0x4868]), (0x283B2, [0x8F05]), (0x283CA, [0x8F5E]), (0x283CF, [0x8F54]), (0x283D1, [0x8F0A]),
    (0x283D4, [0x8F46]), (0x283D9, [0x8F58]), (0x283E3, [0x8F4D]), (0x283F2, [0x283D2]), (0x283FE, [0x487E])]),
  (0x284, [
    (0x2840C, [0x8F9B]), (0x2842B, [0x8B6C]), (0x2844D, [0x8ECC]), (0x28450, [0x8FC4]), (0x28453, [0x8D77]), (0x28454, [0x8D77]),
    (0x28456, [0x8D77]), (0x2845E, [0x8FCD]), (0x28466, [0x5F90]), (0x28477, [0x8FC5]), (0x2848E, [0x9044]), (0x284A6, [0x8FCE]),
    (0x284B2, [0x8FF7]), (0x284C6, [0x9000]), (0x284CC, [0x707D]), (0x284D8, [0x900C]), (0x284DC, [0x9038]), (0x284E7, [0x9059]),
    (0x284EC, [0x905D]), (0x284F5, [0x9001])]),
  (0x285, [
    (0x2851C, [0x8FFE]), (0x28524, [0x906B]), (0x2852A, [0x904B]), (0x2855D, [0x900B]), (0x28589, [0x9074]), (0x2858A, [0x47C4]),
    (0x2859D, [0x9706]), (0x285A5, [0x906E]), (0x285BD, [0x907A]), (0x285C0, [0x902A]), (0x285D2, [0x9706]), (0x285D4, [0x907A]),
    (0x285D5, [0x9075]), (0x285DD, [0x9079]), (0x285E0, [0x9706]), (0x285ED, [0x907A]), (0x285EE, [0x907A]), (0x285EF, [0x9068]),
    (0x285F9, [0x7B1B])]),
  (0x286, [
    (0x28611, [0x9023]), (0x28624, [0x907A]), (0x2862B, [0x9035]), (0x28636, [0x9090]), (0x28637, [0x9088]), (0x28645, [0x908D]),
    (0x28655, [0x902D]), (0x2865A, [0x9081]), (0x2865C, [0x48B1]), (0x28666, [0x28654]), (0x2867C, [0x90E2]), (0x28682, [0x909F]),
    (0x2868A, [0x90A9]), (0x2868F, [0x90B8]), (0x28692, [0x28679]), (0x28693, [0x912A]), (0x286A0, [0x90AF]), (0x286A8, [0x90C8]),
    (0x286AC, [0x90B1]), (0x286C4, [0x9112]), (0x286CE, [0x286CB]), (0x286D9, [0x48C2]), (0x286E6, [0x90E1]), (0x286EB, [0x9ECE]),
    (0x286F3, [0x48E0]), (0x286F7, [0x90FD]), (0x286F8, [0x9120])]),
  (0x287, [
    (0x28724, [0x28737]), (0x28725, [0x9148]), (0x28726, [0x90E0]), (0x2872E, [0x537F]), (0x28739, [0x90D6]), (0x28741, [0x90C7]),
    (0x2875D, [0x2874C]), (0x28760, [0x2874B]), (0x28765, [0x90CE]), (0x2876C, [0x9126]), (0x2876E, [0x9139]), (0x28776, [0x9111]),
    (0x28782, [0x9144]), (0x28784, [0x90F5]), (0x28785, [0x90FF]), (0x28787, [0x90EF]), (0x28789, [0x9104]), (0x2878F, [0x9132]),
    (0x28792, [0x48E2]), (0x28796, [0x9143]), (0x287A1, [0x9136]), (0x287AF, [0x9138]), (0x287B3, [0x5293]), (0x287B5, [0x912E]),
    (0x287BC, [0x9124]), (0x287C0, [0x9ECE]), (0x287C5, [0x287C4]), (0x287CC, [0x9129]), (0x287CE, [0x9145]), (0x287D5, [0x9111]),
    (0x287EC, [0x28778]), (0x287F4, [0x9173]), (0x287F7, [0x9185]), (0x287FB, [0x91AC])]),
  (0x288, [
    (0x28801, [0x9156]), (0x28802, [0x9190]), (0x2880F, [0x918D]), (0x28812, [0x48F2]), (0x28813, [0x48EA]), (0x28814, [0x4909]),
    (0x28815, [0x919F]), (0x28817, [0x91A0]), (0x28820, [0x9192]), (0x28827, [0x48F5]), (0x2882A, [0x9189]), (0x28845, [0x919A]),
    (0x28855, [0x288A1]), (0x28860, [0x9191]), (0x28869, [0x91B1]), (0x28880, [0x9175]), (0x2889A, [0x919D]), (0x288A4, [0x2888B]),
    (0x288A5, [0x490D]), (0x288A9, [0x89F4]), (0x288AC, [0x9174]), (0x288AD, [0x9165]), (0x288B0, [0x48FD]), (0x288BD, [0x9178]),
    (0x288BE, [0x91B9]), (0x288CB, [0x918B]), (0x288E0, [0x91B3]), (0x288F2, [0x4918]), (0x288F7, [0x2888C])]),
  (0x289, [
    (0x28907, [0x9199]), (0x28909, [0x91B2]), (0x2890C, [0x91B0]), (0x2890D, [0x91BD]), (0x28913, [0x7737]), (0x2894A, [0x91F3]),
    (0x2894C, [0x9279]), (0x2894D, [0x928E]), (0x2894F, [0x91DC]), (0x28969, [0x9210]), (0x28979, [0x924B]), (0x2897B, [0x920C]),
    (0x2899F, [0x92D2]), (0x289AD, [0x9412]), (0x289B0, [0x93D0]), (0x289B2, [0x9263]), (0x289E6, [0x9303]), (0x289E9, [0x940B]),
    (0x289EB, [0x525A]), (0x289EC, [0x28966]), (0x289F2, [0x9371]), (0x289F4, [0x92C4])]),
  (0x28A, [
    (0x28A37, [0x934E]), (0x28A3B, [0x93FA]), (0x28A89, [0x9357]), (0x28A8D, [0x492C]), (0x28A8E, [0x942D]), (0x28A90, [0x9204]),
    (0x28A93, [0x9363]), (0x28ACF, [0x92DD]), (0x28AD0, [0x928D]), (0x28AD8, [0x9354]), (0x28AFC, [0x93CA]), (0x28AFD, [0x93F5])]),
  (0x28B, [
    (0x28B10, [0x941D]), (0x28B5B, [0x945E]), (0x28B5C, [0x93DD]), (0x28B5D, [0x93A9]), (0x28B5E, [0x93CD]), (0x28B7C, [0x9410]),
    (0x28B93, [0x93F7]), (0x28B94, [0x932A]), (0x28BAB, [0x944B]), (0x28BDF, [0x944A]), (0x28BE0, [0x28B92]), (0x28BE1, [0x9448]),
    (0x28BE3, [0x494F])]),
  (0x28C, [
    (0x28C0C, [0x9367]), (0x28C1F, [0x496F]), (0x28C24, [0x9460]), (0x28CB4, [0x8D0E]), (0x28CF5, [0x959B]), (0x28CFE, [0x7950])]),
  (0x28D, [
    (0x28D01, [0x95E1]), (0x28D14, [0x95E2]), (0x28D41, [0x95BB]), (0x28D77, [0x95B6]), (0x28D9D, [0x587E]), (0x28DF7, [0x95A9])]),
  (0x28E, [
    (0x28E0F, [0x961C]), (0x28E18, [0x962E]), (0x28E1D, [0x6C0F]), (0x28E42, [0x5799]), (0x28E4A, [0x965C]), (0x28E4E, [0x9650]),
    (0x28E5F, [0x964B]), (0x28E76, [0x96AE]), (0x28E77, [0x96AE]), (0x28EA8, [0x9102]), (0x28EB5, [0x968A]), (0x28ED5, [0x96AE]),
    (0x28EF6, [0x9699])]),
  (0x28F, [
    (0x28F11, [0x579E]), (0x28F4D, [0x8C44]), (0x28F58, [0x96AE]), (0x28F80, [0x96B8]), (0x28FA5, [0x9D61]), (0x28FF3, [0x9DF9])]),
  (0x290, [
    (0x2900C, [0x96E2]), (0x29015, [0x8B8E]), (0x29018, [0x9DC2]), (0x29021, [0x96E3]), (0x29042, [0x2168A]), (0x29050, [0x9DFA]),
    (0x290EC, [0x9670])]),
  (0x291, [
    (0x2911B, [0x4A2F]), (0x2911F, [0x769A]), (0x2912B, [0x9706]), (0x29145, [0x6EC2]), (0x29147, [0x8500]), (0x2915F, [0x96F9]),
    (0x29186, [0x9706]), (0x291ED, [0x21326])]),
  (0x292, [
    (0x29242, [0x9768]), (0x2926A, [0x4A78]), (0x2927C, [0x7D33]), (0x29293, [0x9299]), (0x292A6, [0x72E9]), (0x292B3, [0x978F]),
    (0x292BF, [0x8204]), (0x292CE, [0x5014]), (0x292F0, [0x7D02])]),
  (0x293, [
    (0x2933B, [0x97AD]), (0x29346, [0x8204]), (0x29359, [0x8F56]), (0x2937F, [0x4A87])]),
  (0x294, [
    (0x2940A, [0x9F4F]), (0x2942D, [0x8AD7]), (0x2944B, [0x9801]), (0x2947C, [0x9817]), (0x29486, [0x9802]), (0x29491, [0x7736]),
    (0x2949B, [0x621A]), (0x294B5, [0x9803]), (0x294CB, [0x8CF4]), (0x294EB, [0x89E0])]),
  (0x295, [
    (0x29516, [0x985E]), (0x2951A, [0x7FC1]), (0x2951C, [0x980C]), (0x29530, [0x986F]), (0x2953A, [0x9871]), (0x29553, [0x9810]),
    (0x29554, [0x4AF0]), (0x2958E, [0x85A8]), (0x29593, [0x9870]), (0x295B6, [0x4AFC]), (0x295CB, [0x5E06]), (0x295D7, [0x98B6])]),
  (0x296, [
    (0x2964E, [0x513A]), (0x29681, [0x98DF]), (0x2968A, [0x98E9]), (0x2968E, [0x9951]), (0x2968F, [0x98E7]), (0x296B7, [0x7C92]),
    (0x296CA, [0x98FD]), (0x296DD, [0x9179])]),
  (0x297, [
    (0x2970B, [0x9909]), (0x29719, [0x9952]), (0x2972F, [0x993F]), (0x29759, [0x55DC]), (0x297B9, [0x995C]), (0x297BC, [0x29780])]),
  (0x298, [
    (0x29810, [0x9996]), (0x2982E, [0x5914]), (0x29839, [0x5278]), (0x29851, [0x99A5]), (0x29888, [0x99C2]), (0x298BE, [0x4B8B]),
    (0x298CA, [0x4B85]), (0x298CE, [0x99C2]), (0x298E1, [0x4B80])]),
  (0x299, [
    (0x2991D, [0x9A16]), (0x299A6, [0x9AD2]), (0x299B3, [0x4BBE]), (0x299BC, [0x99F1]), (0x299D1, [0x4BBE]), (0x299D9, [0x9A43]),
    (0x299E2, [0x9A01]), (0x299EA, [0x4BBE])]),
  (0x29A, [
    (0x29A23, [0x80AA]), (0x29A3A, [0x9AAF]), (0x29A43, [0x5E79]), (0x29A8B, [0x87AF]), (0x29AA0, [0x81BA]), (0x29AEB, [0x9674])]),
  (0x29B, [
    (0x29B30, [0x29B1B])]),
  (0x29C, [
    (0x29C6C, [0x6DCB])]),
  (0x29D, [
    (0x29D40, [0x4C31]), (0x29D4B, [0x9B5A]), (0x29D6A, [0x9C40]), (0x29DD5, [0x4C76]), (0x29DF1, [0x9C40])]),
  (0x29E, [
    (0x29EB4, [0x9C3B]), (0x29EBA, [0x9C40]), (0x29EDB, [0x4C8B])]),
  (0x29F, [
    (0x29F06, [0x9BC9]), (0x29F1C, [0x27410]), (0x29F1E, [0x9BC9]), (0x29F59, [0x9C40]), (0x29F97, [0x9CED]), (0x29FC7, [0x96C7])]),
  (0x2A0, [
    (0x2A057, [0x9D28]), (0x2A069, [0x96C9]), (0x2A0A1, [0x9D6C])]),
  (0x2A1, [
    (0x2A1AA, [0x9DC7]), (0x2A1B4, [0x4CEB]), (0x2A1BE, [0x9D89])]),
  (0x2A2, [
    (0x2A280, [0x490E]), (0x2A291, [0x9E89]), (0x2A2A8, [0x9E82]), (0x2A2E7, [0x9E9D])]),
  (0x2A3, [
    (0x2A301, [0x8292]), (0x2A311, [0x71AC]), (0x2A369, [0x9945]), (0x2A396, [0x7CDC])]),
  (0x2A4, [
    (0x2A424, [0x9B77]), (0x2A45B, [0x9EF4]), (0x2A471, [0x526D]), (0x2A4A0, [0x9EEF]), (0x2A4DC, [0x86BE]), (0x2A4ED, [0x45A6]),
    (0x2A4F3, [0x8718]), (0x2A4F6, [0x9F07])]),
  (0x2A5, [
    (0x2A505, [0x54E1]), (0x2A52B, [0x9F16]), (0x2A535, [0x9F16]), (0x2A5A6, [0x6D95]), (0x2A5C7, [0x81CD]), (0x2A5C9, [0x7CA2])]),
  (0x2A6, [
    (0x2A60F, [0x8E00]), (0x2A68F, [0x2A600])]),
  (0x2B5, [
    (0x2B592, [0x97E0]), (0x2B5AF, [0x982B])]),
  (0x2B6, [
    (0x2B6DA, [0x9CFD])]),
  (0x2B7, [
    (0x2B748, [0x346E])]),
  (0x2F8, [
    (0x2F800, [0x9E97]), (0x2F801, [0x4E38]), (0x2F802, [0x4E41]), (0x2F803, [0x20122]), (0x2F804, [0x4F60]), (0x2F805, [0x4FAE]),
    (0x2F806, [0x4FBB]), (0x2F807, [0x4F75]), (0x2F808, [0x54B1]), (0x2F809, [0x5099]), (0x2F80A, [0x50E7]), (0x2F80B, [0x50CF]),
    (0x2F80C, [0x4FCA]), (0x2F80D, [0x2063A]), (0x2F80E, [0x514D]), (0x2F80F, [0x5154]), (0x2F810, [0x5164]), (0x2F811, [0x5177]),
    (0x2F812, [0x2051C]), (0x2F813, [0x34B9]), (0x2F814, [0x5167]), (0x2F815, [0x518D]), (0x2F816, [0x518A]), (0x2F817, [0x5197]),
    (0x2F818, [0x51A4]), (0x2F819, [0x51B0]), (0x2F81A, [0x51AC]), (0x2F81B, [0x6CC1]), (0x2F81C, [0x291DF]), (0x2F81D, [0x51F5]),
    (0x2F81E, [0x5203]), (0x2F81F, [0x34DF]), (0x2F820, [0x523B]), (0x2F821, [0x5246]), (0x2F822, [0x5272]), (0x2F823, [0x5277]),
    (0x2F824, [0x3515]), (0x2F825, [0x52C7]), (0x2F826, [0x52C9]), (0x2F827, [0x52E4]), (0x2F828, [0x52FA]), (0x2F829, [0x5305]),
    (0x2F82A, [0x5306]), (0x2F82B, [0x5317]), (0x2F82C, [0x5349]), (0x2F82D, [0x5351]), (0x2F82E, [0x535A]), (0x2F82F, [0x5373]),
    (0x2F830, [0x5373]), (0x2F831, [0x537F]), (0x2F832, [0x537F]), (0x2F833, [0x537F]), (0x2F834, [0x20A2C]), (0x2F835, [0x7070]),
    (0x2F836, [0x53CA]), (0x2F837, [0x53DF]), (0x2F838, [0x20B63]), (0x2F839, [0x53EB]), (0x2F83A, [0x53F1]), (0x2F83B, [0x5406]),
    (0x2F83C, [0x54EF]), (0x2F83D, [0x5438]), (0x2F83E, [0x5448]), (0x2F83F, [0x5468]), (0x2F840, [0x54A2]), (0x2F841, [0x54F6]),
    (0x2F842, [0x5510]), (0x2F843, [0x555F]), (0x2F844, [0x5563]), (0x2F845, [0x5584]), (0x2F846, [0x5584]), (0x2F847, [0x5599]),
    (0x2F848, [0x55AB]), (0x2F849, [0x55B3]), (0x2F84A, [0x55C2]), (0x2F84B, [0x5716]), (0x2F84C, [0x5606]), (0x2F84D, [0x5717]),
    (0x2F84E, [0x5651]), (0x2F84F, [0x5674]), (0x2F850, [0x5207]), (0x2F851, [0x58EF]), (0x2F852, [0x57CE]), (0x2F853, [0x57F4]),
    (0x2F854, [0x580D]), (0x2F855, [0x578B]), (0x2F856, [0x5832]), (0x2F857, [0x5831]), (0x2F858, [0x58AC]), (0x2F859, [0x214E4]),
    (0x2F85A, [0x8CE3]), (0x2F85B, [0x58FA]), (0x2F85C, [0x5906]), (0x2F85D, [0x591A]), (0x2F85E, [0x5922]), (0x2F85F, [0x5962]),
    (0x2F860, [0x216A8]), (0x2F861, [0x216EA]), (0x2F862, [0x59EC]), (0x2F863, [0x5A1B]), (0x2F864, [0x5A27]), (0x2F865, [0x59D8]),
    (0x2F866, [0x5A66]), (0x2F867, [0x5AC2]), (0x2F868, [0x36FC]), (0x2F869, [0x5B08]), (0x2F86A, [0x61F6]), (0x2F86B, [0x61F6]),
    (0x2F86C, [0x219C8]), (0x2F86D, [0x51A4]), (0x2F86E, [0x5BD8]), (0x2F86F, [0x5BE7]), (0x2F870, [0x5BF6]), (0x2F871, [0x21B18]),
    (0x2F872, [0x58FD]), (0x2F873, [0x5C07]), (0x2F874, [0x7576]), (0x2F875, [0x5C22]), (0x2F876, [0x3781]), (0x2F877, [0x5C60]),
    (0x2F878, [0x5C6E]), (0x2F879, [0x5CC0]), (0x2F87A, [0x5C8D]), (0x2F87B, [0x21DE4]), (0x2F87C, [0x5D43]), (0x2F87D, [0x21DE6]),
    (0x2F87E, [0x5D6E]), (0x2F87F, [0x5D6B]), (0x2F880, [0x5D7C]), (0x2F881, [0x5DE1]), (0x2F882, [0x5DE2]), (0x2F883, [0x382F]),
    (0x2F884, [0x5DFD]), (0x2F885, [0x5E28]), (0x2F886, [0x5E3D]), (0x2F887, [0x5E69]), (0x2F888, [0x3862]), (0x2F889, [0x22183]),
    (0x2F88A, [0x387C]), (0x2F88B, [0x5EB0]), (0x2F88C, [0x5EB3]), (0x2F88D, [0x5EB6]), (0x2F88E, [0x5ECA]), (0x2F88F, [0x2A392]),
    (0x2F890, [0x5EFE]), (0x2F891, [0x22331]), (0x2F892, [0x22331]), (0x2F893, [0x8201]), (0x2F894, [0x5F22]), (0x2F895, [0x5F22]),
    (0x2F896, [0x38C7]), (0x2F897, [0x232B8]), (0x2F898, [0x5F5D]), (0x2F899, [0x5F62]), (0x2F89A, [0x5F6B]), (0x2F89B, [0x38E3]),
    (0x2F89C, [0x5F9A]), (0x2F89D, [0x5FCD]), (0x2F89E, [0x5FD7]), (0x2F89F, [0x5FF9]), (0x2F8A0, [0x6081]), (0x2F8A1, [0x614C]),
    (0x2F8A2, [0x391C]), (0x2F8A3, [0x6094]), (0x2F8A4, [0x226D4]), (0x2F8A5, [0x60C7]), (0x2F8A6, [0x6148]), (0x2F8A7, [0x614C]),
    (0x2F8A8, [0x614E]), (0x2F8A9, [0x614C]), (0x2F8AA, [0x617A]), (0x2F8AB, [0x618E]), (0x2F8AC, [0x61B2]), (0x2F8AD, [0x61A4]),
    (0x2F8AE, [0x61AF]), (0x2F8AF, [0x61DE]), (0x2F8B0, [0x61F2]), (0x2F8B1, [0x61F6]), (0x2F8B2, [0x6210]), (0x2F8B3, [0x621B]),
    (0x2F8B4, [0x625D]), (0x2F8B5, [0x62B1]), (0x2F8B6, [0x62D4]), (0x2F8B7, [0x6350]), (0x2F8B8, [0x62D4]), (0x2F8B9, [0x633D]),
    (0x2F8BA, [0x62FC]), (0x2F8BB, [0x6368]), (0x2F8BC, [0x6383]), (0x2F8BD, [0x63E4]), (0x2F8BE, [0x22BF1]), (0x2F8BF, [0x6422]),
    (0x2F8C0, [0x63C5]), (0x2F8C1, [0x63A9]), (0x2F8C2, [0x3A2E]), (0x2F8C3, [0x6469]), (0x2F8C4, [0x5F36]), (0x2F8C5, [0x649D]),
    (0x2F8C6, [0x6284]), (0x2F8C7, [0x3A6C]), (0x2F8C8, [0x654F]), (0x2F8C9, [0x656C]), (0x2F8CA, [0x2300A]), (0x2F8CB, [0x65E2]),
    (0x2F8CC, [0x66F8]), (0x2F8CD, [0x6649]), (0x2F8CE, [0x6690]), (0x2F8CF, [0x6691]), (0x2F8D0, [0x3B08]), (0x2F8D1, [0x3AE4]),
    (0x2F8D2, [0x5192]), (0x2F8D3, [0x5195]), (0x2F8D4, [0x6700]), (0x2F8D5, [0x666E]), (0x2F8D6, [0x6712]), (0x2F8D7, [0x43D9]),
    (0x2F8D8, [0x6717]), (0x2F8D9, [0x671B]), (0x2F8DA, [0x6721]), (0x2F8DB, [0x675E]), (0x2F8DC, [0x6753]), (0x2F8DD, [0x233C3]),
    (0x2F8DE, [0x3B49]), (0x2F8DF, [0x62D0]), (0x2F8E0, [0x6785]), (0x2F8E1, [0x6851]), (0x2F8E2, [0x6885]), (0x2F8E3, [0x67F5]),
    (0x2F8E4, [0x688E]), (0x2F8E5, [0x681F]), (0x2F8E6, [0x6914]), (0x2F8E7, [0x3B9D]), (0x2F8E8, [0x6942]), (0x2F8E9, [0x69A3]),
    (0x2F8EA, [0x6982]), (0x2F8EB, [0x6AA8]), (0x2F8EC, [0x236A3]), (0x2F8ED, [0x6ADB]), (0x2F8EE, [0x3C18]), (0x2F8EF, [0x6B21]),
    (0x2F8F0, [0x238A7]), (0x2F8F1, [0x6B54]), (0x2F8F2, [0x3C4E]), (0x2F8F3, [0x6B72]), (0x2F8F4, [0x6B9F]), (0x2F8F5, [0x6BBA]),
    (0x2F8F6, [0x6BBC]), (0x2F8F7, [0x23A8D]), (0x2F8F8, [0x21D0B]), (0x2F8F9, [0x23AFA]), (0x2F8FA, [0x6C4E]), (0x2F8FB, [0x23CBC]),
    (0x2F8FC, [0x6CBF]), (0x2F8FD, [0x6CCD]), (0x2F8FE, [0x6C67]), (0x2F8FF, [0x6D16])]),
  (0x2F9, [
    (0x2F900, [0x6D3E]), (0x2F901, [0x6D77]), (0x2F902, [0x6D41]), (0x2F903, [0x6D69]), (0x2F904, [0x6D78]), (0x2F905, [0x6D85]),
    (0x2F906, [0x23D1E]), (0x2F907, [0x6D34]), (0x2F908, [0x6E2F]), (0x2F909, [0x6E6E]), (0x2F90A, [0x3D33]), (0x2F90B, [0x6ECB]),
    (0x2F90C, [0x6EC7]), (0x2F90D, [0x23ED1]), (0x2F90E, [0x6DF9]), (0x2F90F, [0x6F6E]), (0x2F910, [0x53AC]), (0x2F911, [0x23F8E]),
    (0x2F912, [0x6FC6]), (0x2F913, [0x7039]), (0x2F914, [0x701E]), (0x2F915, [0x701B]), (0x2F916, [0x3D96]), (0x2F917, [0x704A]),
    (0x2F918, [0x707D]), (0x2F919, [0x7077]), (0x2F91A, [0x70AD]), (0x2F91B, [0x20525]), (0x2F91C, [0x935B]), (0x2F91D, [0x707D]),
    (0x2F91E, [0x719C]), (0x2F91F, [0x243AB]), (0x2F920, [0x7228]), (0x2F921, [0x7235]), (0x2F922, [0x9598]), (0x2F923, [0x7259]),
    (0x2F924, [0x7280]), (0x2F925, [0x7295]), (0x2F926, [0x24735]), (0x2F927, [0x24814]), (0x2F928, [0x737A]), (0x2F929, [0x738B]),
    (0x2F92A, [0x3EAC]), (0x2F92B, [0x73A5]), (0x2F92C, [0x3EB8]), (0x2F92D, [0x3EB8]), (0x2F92E, [0x73B3]), (0x2F92F, [0x745C]),
    (0x2F930, [0x7471]), (0x2F931, [0x7485]), (0x2F932, [0x74CA]), (0x2F933, [0x3F1B]), (0x2F934, [0x8564]), (0x2F935, [0x7533]),
    (0x2F936, [0x753E]), (0x2F937, [0x24C92]), (0x2F938, [0x7570]), (0x2F939, [0x2219F]), (0x2F93A, [0x7610]), (0x2F93B, [0x24FA1]),
    (0x2F93C, [0x24FB8]), (0x2F93D, [0x76C2]), (0x2F93E, [0x3FFC]), (0x2F93F, [0x4008]), (0x2F940, [0x76F4]), (0x2F941, [0x76F1]),
    (0x2F942, [0x250F2]), (0x2F943, [0x25119]), (0x2F944, [0x25133]), (0x2F945, [0x771F]), (0x2F946, [0x771F]), (0x2F947, [0x771F]),
    (0x2F948, [0x774A]), (0x2F949, [0x4039]), (0x2F94A, [0x778B]), (0x2F94B, [0x4046]), (0x2F94C, [0x77F3]), (0x2F94D, [0x2541D]),
    (0x2F94E, [0x784E]), (0x2F94F, [0x788C]), (0x2F950, [0x78CC]), (0x2F951, [0x40E3]), (0x2F952, [0x25626]), (0x2F953, [0x7956]),
    (0x2F954, [0x2569A]), (0x2F955, [0x4102]), (0x2F956, [0x798F]), (0x2F957, [0x79EB]), (0x2F958, [0x412F]), (0x2F959, [0x7A40]),
    (0x2F95A, [0x7A4A]), (0x2F95B, [0x7A69]), (0x2F95C, [0x2597C]), (0x2F95D, [0x25AA7]), (0x2F95E, [0x25AA7]), (0x2F95F, [0x7AEE]),
    (0x2F960, [0x4202]), (0x2F961, [0x25BAB]), (0x2F962, [0x7BC6]), (0x2F963, [0x7BC9]), (0x2F964, [0x4227]), (0x2F965, [0x25C80]),
    (0x2F966, [0x7CD2]), (0x2F967, [0x42A0]), (0x2F968, [0x7CE8]), (0x2F969, [0x7CDD]), (0x2F96A, [0x7D00]), (0x2F96B, [0x7CFE]),
    (0x2F96C, [0x7D63]), (0x2F96D, [0x4645]), (0x2F96E, [0x7DC7]), (0x2F96F, [0x7E3D]), (0x2F970, [0x7E45]), (0x2F971, [0x4331]),
    (0x2F972, [0x26228]), (0x2F973, [0x74F6]), (0x2F974, [0x4359]), (0x2F975, [0x262D9]), (0x2F976, [0x7F7A]), (0x2F977, [0x7F65]),
    (0x2F978, [0x7F95]), (0x2F979, [0x7FF1]), (0x2F97A, [0x8005]), (0x2F97B, [0x264DD]), (0x2F97C, [0x26523]), (0x2F97D, [0x8060]),
    (0x2F97E, [0x43C0]), (0x2F97F, [0x8070]), (0x2F980, [0x2335F]), (0x2F981, [0x98EA]), (0x2F982, [0x80B2]), (0x2F983, [0x8106]),
    (0x2F984, [0x440B]), (0x2F985, [0x813E]), (0x2F986, [0x5AB5]), (0x2F987, [0x7624]), (0x2F988, [0x267B5]), (0x2F989, [0x23393]),
    (0x2F98A, [0x5B55]), (0x2F98B, [0x8201]), (0x2F98C, [0x8204]), (0x2F98D, [0x8FAD]), (0x2F98E, [0x446B]), (0x2F98F, [0x8291]),
    (0x2F990, [0x828B]), (0x2F991, [0x829D]), (0x2F992, [0x52DE]), (0x2F993, [0x82B1]), (0x2F994, [0x82B3]), (0x2F995, [0x82BD]),
    (0x2F996, [0x82E6]), (0x2F997, [0x85BE]), (0x2F998, [0x82E5]), (0x2F999, [0x831D]), (0x2F99A, [0x69AE]), (0x2F99B, [0x7BC0]),
    (0x2F99C, [0x8323]), (0x2F99D, [0x83BD]), (0x2F99E, [0x83E7]), (0x2F99F, [0x8457]), (0x2F9A0, [0x8353]), (0x2F9A1, [0x83CA]),
    (0x2F9A2, [0x83CC]), (0x2F9A3, [0x83DC]), (0x2F9A4, [0x26C36]), (0x2F9A5, [0x26D6B]), (0x2F9A6, [0x26CD5]), (0x2F9A7, [0x852C]),
    (0x2F9A8, [0x84F1]), (0x2F9A9, [0x84F3]), (0x2F9AA, [0x8516]), (0x2F9AB, [0x273CA]), (0x2F9AC, [0x8564]), (0x2F9AD, [0x83F9]),
    (0x2F9AE, [0x8542]), (0x2F9AF, [0x4561]), (0x2F9B0, [0x6284]), (0x2F9B1, [0x270D2]), (0x2F9B2, [0x5914]), (0x2F9B3, [0x8650]),
    (0x2F9B4, [0x865C]), (0x2F9B5, [0x8667]), (0x2F9B6, [0x8669]), (0x2F9B7, [0x86A9]), (0x2F9B8, [0x8688]), (0x2F9B9, [0x870E]),
    (0x2F9BA, [0x86E2]), (0x2F9BB, [0x8779]), (0x2F9BC, [0x8776]), (0x2F9BD, [0x870D]), (0x2F9BE, [0x86D3]), (0x2F9BF, [0x8688]),
    (0x2F9C0, [0x87E1]), (0x2F9C1, [0x8801]), (0x2F9C2, [0x86D3]), (0x2F9C3, [0x8860]), (0x2F9C4, [0x8863]), (0x2F9C5, [0x27667]),
    (0x2F9C6, [0x88D7]), (0x2F9C7, [0x88DE]), (0x2F9C8, [0x4635]), (0x2F9C9, [0x88FA]), (0x2F9CA, [0x34BB]), (0x2F9CB, [0x4695]),
    (0x2F9CC, [0x8A0F]), (0x2F9CD, [0x46BE]), (0x2F9CE, [0x46C7]), (0x2F9CF, [0x8AA0]), (0x2F9D0, [0x8AED]), (0x2F9D1, [0x8B8A]),
    (0x2F9D2, [0x8C55]), (0x2F9D3, [0x8C5C]), (0x2F9D4, [0x8CAB]), (0x2F9D5, [0x8CC1]), (0x2F9D6, [0x8D1B]), (0x2F9D7, [0x8D77]),
    (0x2F9D8, [0x27F2F]), (0x2F9D9, [0x20804]), (0x2F9DA, [0x8DCB]), (0x2F9DB, [0x8DBC]), (0x2F9DC, [0x8DF0]), (0x2F9DD, [0x8ECD]),
    (0x2F9DE, [0x8ED4]), (0x2F9DF, [0x8F38]), (0x2F9E0, [0x9706]), (0x2F9E1, [0x907A]), (0x2F9E2, [0x9094]), (0x2F9E3, [0x90F1]),
    (0x2F9E4, [0x9111]), (0x2F9E5, [0x537F]), (0x2F9E6, [0x911B]), (0x2F9E7, [0x9238]), (0x2F9E8, [0x92D7]), (0x2F9E9, [0x92D8]),
    (0x2F9EA, [0x927C]), (0x2F9EB, [0x93F9]), (0x2F9EC, [0x9415]), (0x2F9ED, [0x28BFA]), (0x2F9EE, [0x958B]), (0x2F9EF, [0x959B]),
    (0x2F9F0, [0x6BBA]), (0x2F9F1, [0x95B6]), (0x2F9F2, [0x912C]), (0x2F9F3, [0x96C3]), (0x2F9F4, [0x5DB2]), (0x2F9F5, [0x9723]),
    (0x2F9F6, [0x6EC2]), (0x2F9F7, [0x2921A]), (0x2F9F8, [0x4A6E]), (0x2F9F9, [0x4A76]), (0x2F9FA, [0x97E0]), (0x2F9FB, [0x9F4F]),
    (0x2F9FC, [0x4AB2]), (0x2F9FD, [0x29496]), (0x2F9FE, [0x9867]), (0x2F9FF, [0x9867])]),
  (0x2FA, [
    (0x2FA00, [0x9829]), (0x2FA01, [0x4AFC]), (0x2FA02, [0x9951]), (0x2FA03, [0x7C84]), (0x2FA04, [0x9929]), (0x2FA05, [0x99A7]),
    (0x2FA06, [0x99C2]), (0x2FA07, [0x99FE]), (0x2FA08, [0x9AAD]), (0x2FA09, [0x29B1B]), (0x2FA0A, [0x9B12]), (0x2FA0B, [0x9C40]),
    (0x2FA0C, [0x9CFD]), (0x2FA0D, [0x4CCE]), (0x2FA0E, [0x4CED]), (0x2FA0F, [0x9D67]), (0x2FA10, [0x2A0CE]), (0x2FA12, [0x2A105]),
    (0x2FA13, [0x2A20E]), (0x2FA14, [0x9E89]), (0x2FA15, [0x9EBB]), (0x2FA16, [0x4D56]), (0x2FA17, [0x9EF9]), (0x2FA18, [0x9EFD]),
    (0x2FA19, [0x8718]), (0x2FA1A, [0x9F0F]), (0x2FA1B, [0x9F16]), (0x2FA1C, [0x9F3B]), (0x2FA1D, [0x2A600])]),
  (0x34, [
    (0x3405, [0x4E94]), (0x3421, [0x61E6]), (0x3430, [0x4FE1]), (0x3433, [0x5140]), (0x3439, [0x4EE1]), (0x3442, [0x4EFF]),
    (0x3444, [0x4FAE]), (0x3447, [0x3473]), (0x345E, [0x5AB5]), (0x3464, [0x5A8C]), (0x3474, [0x4FB5]), (0x3477, [0x614B]),
    (0x347A, [0x4FCA]), (0x347D, [0x508F]), (0x3497, [0x5113]), (0x349A, [0x7A69]), (0x349E, [0x4FCA]), (0x34A4, [0x61FE]),
    (0x34A8, [0x4ED9]), (0x34B2, [0x8CA1]), (0x34B3, [0x5169]), (0x34B6, [0x516C]), (0x34C2, [0x5BC7]), (0x34CA, [0x6D1E]),
    (0x34D5, [0x6EC5]), (0x34DB, [0x529F]), (0x34DC, [0x5E7C]), (0x34DD, [0x5211]), (0x34F6, [0x9365])]),
  (0x35, [
    (0x3503, [0x7D55]), (0x3509, [0x65B8]), (0x3518, [0x9EDC]), (0x351C, [0x52C3]), (0x352D, [0x5319]), (0x353A, [0x4E16]),
    (0x353D, [0x5363]), (0x3547, [0x782C]), (0x3548, [0x5EA1]), (0x3551, [0x5EDA]), (0x3555, [0x5E7B]), (0x3556, [0x7D20]),
    (0x355A, [0x722A]), (0x355B, [0x53CB]), (0x355C, [0x53F2]), (0x355E, [0x5237]), (0x3560, [0x96D9]), (0x3565, [0x4EE5]),
    (0x357A, [0x547A]), (0x357C, [0x54C5]), (0x3581, [0x541D]), (0x3584, [0x558C]), (0x3595, [0x3596]), (0x359E, [0x558E]),
    (0x35A0, [0x90A3]), (0x35B6, [0x8AF2]), (0x35BE, [0x54A2]), (0x35C6, [0x55DD]), (0x35CB, [0x5589]), (0x35D0, [0x55D1]),
    (0x35D6, [0x5556]), (0x35E4, [0x5601]), (0x35FD, [0x97FF])]),
  (0x36, [
    (0x3605, [0x5563]), (0x360E, [0x361A]), (0x3611, [0x56C7]), (0x3615, [0x5682]), (0x3625, [0x56EE]), (0x362B, [0x5883]),
    (0x362F, [0x5834]), (0x3631, [0x574D]), (0x3634, [0x5750]), (0x3637, [0x827E]), (0x363B, [0x5794]), (0x3641, [0x5776]),
    (0x365A, [0x57B6]), (0x3662, [0x5881]), (0x3672, [0x58C5]), (0x367C, [0x58D8]), (0x3689, [0x5903]), (0x368C, [0x5925]),
    (0x368F, [0x5930]), (0x3690, [0x5957]), (0x36A2, [0x5974]), (0x36A3, [0x59E3]), (0x36A9, [0x59CC]), (0x36B3, [0x59BF]),
    (0x36B6, [0x59D2]), (0x36D4, [0x59A6]), (0x36D5, [0x59F6]), (0x36DB, [0x5A20]), (0x36E4, [0x5B4B]), (0x36E9, [0x59AF]),
    (0x36EE, [0x5AC2]), (0x36F0, [0x5A5A]), (0x36FD, [0x59CD])]),
  (0x37, [
    (0x370F, [0x5998]), (0x3711, [0x5A46]), (0x3735, [0x349F]), (0x373B, [0x5B4C]), (0x373D, [0x5B50]), (0x373E, [0x5B69]),
    (0x373F, [0x3428]), (0x3740, [0x597D]), (0x3748, [0x5B7F]), (0x3749, [0x5BA3]), (0x374A, [0x5B88]), (0x374B, [0x5BE5]),
    (0x374C, [0x759A]), (0x374D, [0x5BEB]), (0x3756, [0x5B9C]), (0x3759, [0x5BC5]), (0x375B, [0x5BBF]), (0x3761, [0x6700]),
    (0x3762, [0x5B87]), (0x3766, [0x5BEF]), (0x3767, [0x7A69]), (0x376F, [0x50D1]), (0x3774, [0x5213]), (0x3777, [0x5C0B]),
    (0x3791, [0x5C3E]), (0x3795, [0x5C51]), (0x37A1, [0x5C55]), (0x37A2, [0x4E4B]), (0x37AF, [0x5C7A]), (0x37B6, [0x5CB7]),
    (0x37B9, [0x5CA2]), (0x37C1, [0x5CB8]), (0x37D2, [0x5CEE]), (0x37D4, [0x37CF]), (0x37E5, [0x5D7E]), (0x37E7, [0x5D3F]),
    (0x37E9, [0x5CB7]), (0x37ED, [0x5CB7]), (0x37FA, [0x5D81]), (0x37FC, [0x3802])]),
  (0x38, [
    (0x3800, [0x5CF6]), (0x3801, [0x5D7E]), (0x3804, [0x5D8D]), (0x3810, [0x5DA0]), (0x3812, [0x37FD]), (0x3817, [0x5DB4]),
    (0x381C, [0x5DB7]), (0x381D, [0x5DD1]), (0x382D, [0x5C55]), (0x3836, [0x5E06]), (0x3838, [0x886D]), (0x3860, [0x5E40]),
    (0x3873, [0x5E95]), (0x387F, [0x65A5]), (0x3882, [0x3888]), (0x3898, [0x5EC9]), (0x38AE, [0x5F1B]), (0x38B4, [0x897F]),
    (0x38BD, [0x990C]), (0x38CB, [0x4E39]), (0x38E6, [0x9036]), (0x38EB, [0x52D5]), (0x38F1, [0x47C4]), (0x38F2, [0x5FAE]),
    (0x38FC, [0x5FCD])]),
  (0x39, [
    (0x3900, [0x5FD8]), (0x3901, [0x5FDD]), (0x3902, [0x6025]), (0x3903, [0x59A8]), (0x3905, [0x611B]), (0x3907, [0x61CA]),
    (0x3913, [0x7B28]), (0x3918, [0x396E]), (0x3919, [0x6069]), (0x391B, [0x6041]), (0x391F, [0x6050]), (0x3924, [0x395A]),
    (0x3929, [0x606A]), (0x392A, [0x6028]), (0x392C, [0x605A]), (0x3930, [0x600D]), (0x393A, [0x614C]), (0x3943, [0x60B6]),
    (0x394B, [0x506F]), (0x395E, [0x9083]), (0x3964, [0x77DC]), (0x3966, [0x611C]), (0x3967, [0x9806]), (0x396B, [0x60C7]),
    (0x3971, [0x60B1]), (0x3975, [0x6141]), (0x398D, [0x6115]), (0x3994, [0x61E8]), (0x3996, [0x61E3]), (0x399E, [0x61E4]),
    (0x39A0, [0x61DF]), (0x39A4, [0x61FF]), (0x39A7, [0x61AF]), (0x39AF, [0x6216]), (0x39B8, [0x621F]), (0x39BE, [0x624A]),
    (0x39BF, [0x6236]), (0x39CF, [0x6386]), (0x39D0, [0x3A73]), (0x39D6, [0x627C]), (0x39DF, [0x64D3]), (0x39E8, [0x624F]),
    (0x39F1, [0x62FF]), (0x39FC, [0x4FF5]), (0x39FF, [0x6450])]),
  (0x3A, [
    (0x3A08, [0x64E0]), (0x3A14, [0x64BC]), (0x3A15, [0x650D]), (0x3A17, [0x6377]), (0x3A23, [0x64C1]), (0x3A24, [0x64D3]),
    (0x3A26, [0x3A73]), (0x3A2F, [0x64F4]), (0x3A3F, [0x64DA]), (0x3A40, [0x64DA]), (0x3A41, [0x69B7]), (0x3A4E, [0x64EB]),
    (0x3A55, [0x62CE]), (0x3A57, [0x651C]), (0x3A65, [0x6515]), (0x3A66, [0x651C]), (0x3A70, [0x6284]), (0x3A85, [0x66F4]),
    (0x3A89, [0x6546]), (0x3A9D, [0x63C0]), (0x3A9F, [0x6566]), (0x3AA3, [0x6572]), (0x3AC1, [0x65B7]), (0x3AC4, [0x65C1]),
    (0x3AC5, [0x65D7]), (0x3ACB, [0x65C3]), (0x3AD1, [0x65E8]), (0x3AD4, [0x826E]), (0x3ADE, [0x3AE6]), (0x3AE7, [0x66B4]),
    (0x3AEA, [0x6625]), (0x3AF3, [0x6668]), (0x3AFA, [0x6614])]),
  (0x3B, [
    (0x3B0C, [0x666F]), (0x3B0D, [0x66DD]), (0x3B19, [0x6690]), (0x3B1C, [0x6649]), (0x3B20, [0x66EC]), (0x3B25, [0x66B4]),
    (0x3B27, [0x66B4]), (0x3B31, [0x66FF]), (0x3B4A, [0x6790]), (0x3B4B, [0x68D2]), (0x3B4D, [0x67D2]), (0x3B4E, [0x68E1]),
    (0x3B71, [0x5323]), (0x3B7B, [0x68E0]), (0x3B84, [0x699C]), (0x3B86, [0x6AF1]), (0x3B8B, [0x682F]), (0x3B8C, [0x68C9]),
    (0x3B8E, [0x676F]), (0x3BA3, [0x6982]), (0x3BAE, [0x6854]), (0x3BB3, [0x681A]), (0x3BB5, [0x6834]), (0x3BC7, [0x6890]),
    (0x3BC8, [0x6A15]), (0x3BCD, [0x69F3]), (0x3BD0, [0x6A62]), (0x3BD3, [0x69BB]), (0x3BD6, [0x3B59]), (0x3BDF, [0x9E93]),
    (0x3BE3, [0x68FB]), (0x3BE6, [0x68CB]), (0x3BEA, [0x6B1E])]),
  (0x3C, [
    (0x3C02, [0x68EF]), (0x3C05, [0x6A00]), (0x3C09, [0x699B]), (0x3C0F, [0x7BD9]), (0x3C10, [0x6A62]), (0x3C16, [0x6B16]),
    (0x3C19, [0x6A60]), (0x3C1E, [0x55E4]), (0x3C4F, [0x6B63]), (0x3C55, [0x6B78]), (0x3C58, [0x9B58]), (0x3C68, [0x6BAE]),
    (0x3C7F, [0x6BBC]), (0x3C87, [0x549A]), (0x3C88, [0x97F6]), (0x3C9C, [0x6BEF]), (0x3CAD, [0x6BEF]), (0x3CB2, [0x6C0E]),
    (0x3CB6, [0x6C2F]), (0x3CB7, [0x6C2E]), (0x3CBE, [0x96E8]), (0x3CC2, [0x6CBF]), (0x3CC3, [0x6DEC]), (0x3CC5, [0x6D41]),
    (0x3CC8, [0x6C9B]), (0x3CD1, [0x6EA2]), (0x3CD2, [0x6CD5]), (0x3CD9, [0x6D93]), (0x3CE0, [0x6FBE]), (0x3CED, [0x6D8E])]),
  (0x3D, [
    (0x3D05, [0x6D88]), (0x3D06, [0x6D78]), (0x3D09, [0x6FDF]), (0x3D15, [0x6F57]), (0x3D1E, [0x6ED4]), (0x3D34, [0x6E5B]),
    (0x3D3E, [0x6E24]), (0x3D4E, [0x6F97]), (0x3D55, [0x6FA1]), (0x3D71, [0x6F02]), (0x3D78, [0x7039]), (0x3DA4, [0x7092]),
    (0x3DA8, [0x708B]), (0x3DAA, [0x708B]), (0x3DAB, [0x71CE]), (0x3DB3, [0x71FC]), (0x3DBB, [0x70FD]), (0x3DC7, [0x6062]),
    (0x3DCA, [0x711A]), (0x3DD3, [0x719C]), (0x3DD4, [0x7130]), (0x3DD6, [0x7167]), (0x3DD9, [0x714E]), (0x3DE9, [0x7199]),
    (0x3DF1, [0x718A]), (0x3DFB, [0x7121])]),
  (0x3E, [
    (0x3E00, [0x70B1]), (0x3E01, [0x71AF]), (0x3E02, [0x71E7]), (0x3E09, [0x71EE]), (0x3E15, [0x652B]), (0x3E18, [0x842C]),
    (0x3E27, [0x9F66]), (0x3E3E, [0x7263]), (0x3E60, [0x8C5A]), (0x3E64, [0x602F]), (0x3E83, [0x72D7]), (0x3E85, [0x7334]),
    (0x3E9A, [0x737A]), (0x3EAB, [0x738C]), (0x3EAE, [0x7397]), (0x3EB2, [0x9215]), (0x3EB3, [0x73AB]), (0x3ECB, [0x3EDD]),
    (0x3ECE, [0x745F]), (0x3ED7, [0x7432]), (0x3EEE, [0x74A8])]),
  (0x3F, [
    (0x3F04, [0x74A3]), (0x3F4D, [0x5769]), (0x3F52, [0x7525]), (0x3F56, [0x7559]), (0x3F57, [0x755D]), (0x3F5C, [0x7579]),
    (0x3F5E, [0x7559]), (0x3F6C, [0x8F3B]), (0x3F6F, [0x7566]), (0x3F78, [0x760E]), (0x3F84, [0x8B9F]), (0x3F8A, [0x7620]),
    (0x3F8C, [0x766C]), (0x3FC2, [0x7665]), (0x3FCB, [0x7619]), (0x3FE2, [0x8000]), (0x3FF7, [0x7CD9])]),
  (0x40, [
    (0x4006, [0x76E1]), (0x400B, [0x9E7D]), (0x400E, [0x7704]), (0x4036, [0x4041]), (0x4048, [0x4049]), (0x4056, [0x779C]),
    (0x405E, [0x7701]), (0x4066, [0x89B7]), (0x4079, [0x7765]), (0x4093, [0x898F]), (0x4096, [0x77F3]), (0x409D, [0x77FA]),
    (0x40A1, [0x7825]), (0x40A5, [0x7888]), (0x40B2, [0x781D]), (0x40BB, [0x92E5]), (0x40CD, [0x589C]), (0x40D8, [0x787B]),
    (0x40E0, [0x78B9]), (0x40FA, [0x78E8])]),
  (0x41, [
    (0x4100, [0x798D]), (0x410C, [0x918A]), (0x4112, [0x7A14]), (0x4115, [0x793E]), (0x4122, [0x9F4A]), (0x412B, [0x8291]),
    (0x412C, [0x79FB]), (0x412D, [0x5E74]), (0x413A, [0x7A0A]), (0x413D, [0x79C8]), (0x4147, [0x7C9F]), (0x4149, [0x7A0F]),
    (0x415F, [0x7A47]), (0x4160, [0x7A0A]), (0x4192, [0x7A76]), (0x4197, [0x7A88]), (0x41A0, [0x5BA6]), (0x41A9, [0x51A5]),
    (0x41B2, [0x3769]), (0x41BB, [0x7AC5]), (0x41F2, [0x7B74])]),
  (0x42, [
    (0x4230, [0x68A2]), (0x427C, [0x6599]), (0x427D, [0x7C84]), (0x428B, [0x7CDA]), (0x428F, [0x7CDD]), (0x42B6, [0x7D16]),
    (0x42B7, [0x7DC7]), (0x42C1, [0x7D86]), (0x42C4, [0x7DB2]), (0x42DC, [0x7DAE]), (0x42DE, [0x7DB2]), (0x42E0, [0x88DC]),
    (0x42E7, [0x7D47]), (0x42EF, [0x7DAE]), (0x42F2, [0x7E69]), (0x42F3, [0x8919]), (0x42F8, [0x4649]), (0x42F9, [0x5E45])]),
  (0x43, [
    (0x4301, [0x4645]), (0x4304, [0x7D86]), (0x4307, [0x7D22]), (0x4309, [0x7DB1]), (0x430A, [0x7E47]), (0x4313, [0x7E41]),
    (0x4315, [0x7E3B]), (0x431B, [0x7E47]), (0x432B, [0x7E9C]), (0x4334, [0x4331]), (0x4337, [0x7D2C]), (0x4339, [0x7D45]),
    (0x433D, [0x7DB5]), (0x4348, [0x74F6]), (0x435E, [0x7F6D]), (0x4369, [0x990A]), (0x436D, [0x7242]), (0x4379, [0x7FB6]),
    (0x43A3, [0x801C]), (0x43AC, [0x43B1]), (0x43B9, [0x805E]), (0x43BE, [0x7754]), (0x43CA, [0x807E]), (0x43CB, [0x8085]),
    (0x43D2, [0x80D6]), (0x43D4, [0x8098]), (0x43D5, [0x98EA]), (0x43DD, [0x819E]), (0x43EF, [0x75E3]), (0x43F8, [0x4433]),
    (0x43FB, [0x80FD])]),
  (0x44, [
    (0x440C, [0x8146]), (0x4417, [0x809A]), (0x4421, [0x81CD]), (0x4452, [0x5230]), (0x4453, [0x81FA]), (0x4455, [0x9F20]),
    (0x445B, [0x8210]), (0x445E, [0x821C]), (0x4467, [0x4480]), (0x4482, [0x69F3]), (0x4483, [0x9020]), (0x4497, [0x829E]),
    (0x44A3, [0x82D2]), (0x44AC, [0x83AB]), (0x44AD, [0x7B49]), (0x44B1, [0x84B8]), (0x44B6, [0x5929]), (0x44C1, [0x7B49]),
    (0x44C5, [0x82B9]), (0x44CA, [0x8323]), (0x44D6, [0x85ED]), (0x44D7, [0x8525]), (0x44E6, [0x5178]), (0x44F6, [0x85FE]),
    (0x44F7, [0x8347]), (0x44F9, [0x9950]), (0x44FA, [0x863C]), (0x44FF, [0x83E1])]),
  (0x45, [
    (0x4509, [0x849C]), (0x450B, [0x838E]), (0x450D, [0x7BE4]), (0x4512, [0x84D3]), (0x4525, [0x856D]), (0x452B, [0x852C]),
    (0x4535, [0x844C]), (0x4543, [0x852D]), (0x454F, [0x83AA]), (0x4551, [0x8470]), (0x4556, [0x84C0]), (0x455A, [0x8562]),
    (0x455D, [0x8542]), (0x4560, [0x855F]), (0x4564, [0x8604]), (0x4568, [0x85E4]), (0x456B, [0x5914]), (0x456E, [0x83CA]),
    (0x456F, [0x85B8]), (0x4580, [0x8648]), (0x4582, [0x864A]), (0x458B, [0x8650]), (0x458D, [0x8654]), (0x458F, [0x8655]),
    (0x45A0, [0x8788]), (0x45A3, [0x86A4]), (0x45A4, [0x873F]), (0x45AB, [0x868C]), (0x45AE, [0x8801]), (0x45B8, [0x86FE]),
    (0x45B9, [0x86D8]), (0x45BD, [0x870A]), (0x45BF, [0x870A]), (0x45CB, [0x86D1]), (0x45CF, [0x878B]), (0x45D7, [0x8688]),
    (0x45EA, [0x87C5]), (0x45EB, [0x87C6]), (0x45F6, [0x881F]), (0x45F9, [0x86D3]), (0x45FE, [0x8706])]),
  (0x46, [
    (0x4601, [0x883D]), (0x4602, [0x460B]), (0x4603, [0x87D4]), (0x4607, [0x868A]), (0x460A, [0x881B]), (0x4610, [0x8844]),
    (0x4614, [0x5580]), (0x4619, [0x885B]), (0x461A, [0x5352]), (0x461C, [0x5DFE]), (0x4629, [0x88A8]), (0x462B, [0x88BD]),
    (0x462E, [0x55AA]), (0x4631, [0x88D5]), (0x4640, [0x7E43]), (0x464C, [0x4661]), (0x4653, [0x896C]), (0x4656, [0x7E43]),
    (0x4657, [0x8905]), (0x465D, [0x893B]), (0x466A, [0x897B]), (0x466D, [0x8930]), (0x4670, [0x8935]), (0x4673, [0x719B]),
    (0x467A, [0x899D]), (0x469E, [0x6B79]), (0x469F, [0x6B79]), (0x46B0, [0x8B4C]), (0x46B1, [0x4FE1]), (0x46B2, [0x8A15]),
    (0x46B9, [0x8B4C]), (0x46C2, [0x8A83]), (0x46CC, [0x46EC]), (0x46D0, [0x8A5E]), (0x46D1, [0x8B10]), (0x46D2, [0x8FAF]),
    (0x46D5, [0x8ADB]), (0x46D6, [0x8A4D]), (0x46D8, [0x46BE]), (0x46DC, [0x8A0A]), (0x46DF, [0x550A]), (0x46E1, [0x8A71]),
    (0x46E6, [0x8A1F]), (0x46E7, [0x8B0E]), (0x46FA, [0x8AA1]), (0x46FC, [0x8B6D])]),
  (0x47, [
    (0x4701, [0x8B11]), (0x4703, [0x5860]), (0x4704, [0x8B18]), (0x4718, [0x8B66]), (0x471B, [0x8B92]), (0x471F, [0x8B96]),
    (0x4723, [0x8A22]), (0x4729, [0x8B8C]), (0x4735, [0x8C49]), (0x473B, [0x8C49]), (0x473F, [0x8C4E]), (0x4742, [0x8C4E]),
    (0x4747, [0x8C57]), (0x4748, [0x8C5F]), (0x4757, [0x8C85]), (0x4758, [0x6BC5]), (0x4760, [0x7342]), (0x4768, [0x8CE2]),
    (0x476F, [0x8CA4]), (0x4774, [0x9F4E]), (0x477E, [0x8CE6]), (0x477F, [0x8CB4]), (0x478B, [0x56AB]), (0x478D, [0x477C]),
    (0x47AC, [0x900F]), (0x47B0, [0x47C4]), (0x47BC, [0x7AC4]), (0x47C6, [0x8E55]), (0x47CE, [0x8DB2]), (0x47D6, [0x8DBE]),
    (0x47DA, [0x8E11]), (0x47E6, [0x8DCB])]),
  (0x48, [
    (0x4801, [0x8E8B]), (0x4802, [0x695A]), (0x480A, [0x5255]), (0x480E, [0x9F77]), (0x4825, [0x8E69]), (0x482E, [0x9A30]),
    (0x4830, [0x8E21]), (0x4832, [0x8046]), (0x4836, [0x5C04]), (0x4839, [0x9AB8]), (0x4840, [0x5103]), (0x4845, [0x8F34]),
    (0x4847, [0x8ECF]), (0x484B, [0x8EDD]), (0x484C, [0x9783]), (0x4856, [0x8F15]), (0x4858, [0x4852]), (0x4859, [0x8F2C]),
    (0x4865, [0x4846]), (0x4879, [0x8F0A]), (0x487C, [0x8EE8]), (0x4884, [0x67B2]), (0x4889, [0x8FB2]), (0x489C, [0x6B78]),
    (0x489F, [0x7531]), (0x48A0, [0x9001]), (0x48A4, [0x8FF0]), (0x48A6, [0x5E25]), (0x48AA, [0x6A47]), (0x48AB, [0x96A8]),
    (0x48AF, [0x9074]), (0x48B5, [0x9116]), (0x48B7, [0x90A3]), (0x48BE, [0x59FA]), (0x48CC, [0x90B8]), (0x48DE, [0x9102]),
    (0x48E8, [0x9187]), (0x48F4, [0x9157])]),
  (0x49, [
    (0x491C, [0x920D]), (0x491E, [0x9217]), (0x491F, [0x9202]), (0x4920, [0x9224]), (0x4928, [0x91FD]), (0x4931, [0x8A93]),
    (0x4939, [0x93AA]), (0x4945, [0x7434]), (0x4946, [0x7434]), (0x494A, [0x9306]), (0x4950, [0x936A]), (0x4951, [0x92C4]),
    (0x4955, [0x9405]), (0x4956, [0x923F]), (0x495A, [0x521D]), (0x4962, [0x93E7]), (0x4976, [0x9398]), (0x4977, [0x9358]),
    (0x497A, [0x91FE]), (0x497D, [0x93FA]), (0x4982, [0x4947]), (0x4983, [0x942F]), (0x4985, [0x9425]), (0x4986, [0x9481]),
    (0x4987, [0x9AFB]), (0x4995, [0x959B]), (0x4999, [0x5BFA]), (0x499C, [0x90DA]), (0x499E, [0x958F]), (0x499F, [0x7A69]),
    (0x49A7, [0x9B29]), (0x49A8, [0x95CC]), (0x49B6, [0x499B]), (0x49B7, [0x7A69]), (0x49CD, [0x9699]), (0x49D5, [0x57DF]),
    (0x49D9, [0x9675]), (0x49DC, [0x5858]), (0x49E0, [0x911F]), (0x49E1, [0x5889]), (0x49E3, [0x967B]), (0x49E6, [0x912C]),
    (0x49F8, [0x9D23]), (0x49FB, [0x9D3F]), (0x49FC, [0x9D60]), (0x49FF, [0x9D72])]),
  (0x4A, [
    (0x4A03, [0x9DC3]), (0x4A05, [0x9DEF]), (0x4A06, [0x9DE9]), (0x4A07, [0x96D9]), (0x4A09, [0x9E1A]), (0x4A0E, [0x9710]),
    (0x4A13, [0x96F7]), (0x4A14, [0x96F9]), (0x4A16, [0x973D]), (0x4A19, [0x972A]), (0x4A20, [0x9744]), (0x4A26, [0x96F1]),
    (0x4A29, [0x9748]), (0x4A2A, [0x973E]), (0x4A2B, [0x9722]), (0x4A2D, [0x9704]), (0x4A2E, [0x96EA]), (0x4A36, [0x9723]),
    (0x4A37, [0x9730]), (0x4A51, [0x9783]), (0x4A5A, [0x4A58]), (0x4A66, [0x9797]), (0x4A75, [0x97D7]), (0x4A7F, [0x9F16]),
    (0x4A84, [0x714C]), (0x4AA0, [0x9F4F]), (0x4AA1, [0x9F4F]), (0x4AA2, [0x9F4F]), (0x4ACD, [0x982B]), (0x4AD9, [0x9859]),
    (0x4ADD, [0x99A5]), (0x4AEB, [0x9ACF]), (0x4AF1, [0x986C]), (0x4AF7, [0x984E])]),
  (0x4B, [
    (0x4B03, [0x98AF]), (0x4B17, [0x98BA]), (0x4B19, [0x98BB]), (0x4B1A, [0x98BF]), (0x4B1D, [0x4B16]), (0x4B24, [0x9961]),
    (0x4B25, [0x9950]), (0x4B2A, [0x993A]), (0x4B2E, [0x98F4]), (0x4B33, [0x7C84]), (0x4B3B, [0x991E]), (0x4B4B, [0x98FD]),
    (0x4B4C, [0x992C]), (0x4B5B, [0x994F]), (0x4B66, [0x993A]), (0x4B6B, [0x7A3D]), (0x4B6C, [0x7A3D]), (0x4B76, [0x9A0F]),
    (0x4B7C, [0x9A0F]), (0x4B7E, [0x99B1]), (0x4B81, [0x99E2]), (0x4B83, [0x9A45]), (0x4B86, [0x99D3]), (0x4B87, [0x9A48]),
    (0x4B88, [0x99B3]), (0x4B90, [0x99C9]), (0x4B9B, [0x99D9]), (0x4BB2, [0x9A1C]), (0x4BBC, [0x9A4E]), (0x4BBF, [0x9A2B]),
    (0x4BC1, [0x9A3E]), (0x4BCE, [0x9AAD]), (0x4BD0, [0x9AB8]), (0x4BD7, [0x9AC0]), (0x4BDD, [0x9AD3]), (0x4BEF, [0x9AFF]),
    (0x4BF3, [0x9B06]), (0x4BFA, [0x9AFA])]),
  (0x4C, [
    (0x4C05, [0x9B1A]), (0x4C0B, [0x9B18]), (0x4C11, [0x9B1A]), (0x4C14, [0x4C09]), (0x4C1B, [0x9B32]), (0x4C1C, [0x9B32]),
    (0x4C1F, [0x9B42]), (0x4C23, [0x9B4D]), (0x4C28, [0x9B45]), (0x4C2D, [0x4C30]), (0x4C3A, [0x9B6A]), (0x4C3F, [0x9B80]),
    (0x4C44, [0x9B6A]), (0x4C46, [0x9C66]), (0x4C48, [0x9BA8]), (0x4C54, [0x9BC8]), (0x4C56, [0x9C21]), (0x4C58, [0x9BEC]),
    (0x4C5F, [0x871B]), (0x4C70, [0x9BA6]), (0x4C7D, [0x9BE7]), (0x4C84, [0x9C35]), (0x4C9F, [0x9BA3]), (0x4CA0, [0x9C06]),
    (0x4CA1, [0x9C0C]), (0x4CA2, [0x4C8D]), (0x4CA3, [0x4C77]), (0x4CA5, [0x9CE9]), (0x4CA8, [0x9D3B]), (0x4CAB, [0x9CE9]),
    (0x4CB4, [0x9D06]), (0x4CB5, [0x96C0]), (0x4CB7, [0x689F]), (0x4CCA, [0x4CC1]), (0x4CCC, [0x9D51]), (0x4CD2, [0x9CF6]),
    (0x4CD8, [0x9D5D]), (0x4CDC, [0x9D4C]), (0x4CE8, [0x51F0]), (0x4CF6, [0x9E02]), (0x4CF8, [0x2FA11]), (0x4CFC, [0x9DD7]),
    (0x4CFD, [0x9DB4])]),
  (0x4D, [
    (0x4D0A, [0x9E03]), (0x4D0B, [0x4D09]), (0x4D0C, [0x9E0F]), (0x4D0E, [0x9E13]), (0x4D12, [0x9D12]), (0x4D13, [0x9CFE]),
    (0x4D14, [0x9D41]), (0x4D15, [0x9D37]), (0x4D16, [0x9D84]), (0x4D17, [0x9DAA]), (0x4D18, [0x9DC9]), (0x4D21, [0x9E97]),
    (0x4D25, [0x9E9A]), (0x4D3F, [0x4D46]), (0x4D44, [0x9EB7]), (0x4D5B, [0x4D56]), (0x4D5E, [0x9EE5]), (0x4D79, [0x8718]),
    (0x4D7A, [0x5722]), (0x4D87, [0x9F2C]), (0x4D9A, [0x9F72]), (0x4DAE, [0x9F91])]),
  (0x4E, [
    (0x4E04, [0x4E0A]), (0x4E05, [0x4E0B]), (0x4E07, [0x842C]), (0x4E0C, [0x5176]), (0x4E0E, [0x8207]), (0x4E13, [0x5C08]),
    (0x4E17, [0x4E16]), (0x4E1A, [0x696D]), (0x4E1B, [0x53E2]), (0x4E1C, [0x6771]), (0x4E1D, [0x7D72]), (0x4E20, [0x5180]),
    (0x4E21, [0x5169]), (0x4E22, [0x4E1F]), (0x4E23, [0x9149]), (0x4E24, [0x5169]), (0x4E25, [0x56B4]), (0x4E27, [0x55AA]),
    (0x4E2A, [0x500B]), (0x4E30, [0x8C50]), (0x4E34, [0x81E8]), (0x4E3A, [0x70BA]), (0x4E3C, [0x4E95]), (0x4E3D, [0x9E97]),
    (0x4E3E, [0x8209]), (0x4E46, [0x4E45]), (0x4E49, [0x7FA9]), (0x4E4C, [0x70CF]), (0x4E50, [0x6A02]), (0x4E54, [0x55AC]),
    (0x4E55, [0x864E]), (0x4E57, [0x4E58]), (0x4E60, [0x7FD2]), (0x4E61, [0x9109]), (0x4E66, [0x66F8]), (0x4E68, [0x59CB]),
    (0x4E70, [0x8CB7]), (0x4E71, [0x4E82]), (0x4E79, [0x4E7E]), (0x4E7F, [0x6CBB]), (0x4E80, [0x9F9C]), (0x4E81, [0x4E7E]),
    (0x4E89, [0x722D]), (0x4E8A, [0x4E8B]), (0x4E8F, [0x8667]), (0x4E93, [0x5176]), (0x4E97, [0x6B72]), (0x4E9A, [0x4E9E]),
    (0x4E9C, [0x4E9E]), (0x4E9D, [0x9F4A]), (0x4EA7, [0x7522]), (0x4EA9, [0x755D]), (0x4EAF, [0x4EAB]), (0x4EB0, [0x4EAC]),
    (0x4EB1, [0x591C]), (0x4EB2, [0x89AA]), (0x4EB5, [0x893B]), (0x4EBE, [0x4EA1]), (0x4EBF, [0x5104]), (0x4EC5, [0x50C5]),
    (0x4ECC, [0x51B0]), (0x4ECE, [0x5F9E]), (0x4ECF, [0x4F5B]), (0x4ED1, [0x4F96]), (0x4ED3, [0x5009]), (0x4EE6, [0x4EEF]),
    (0x4EEA, [0x5100]), (0x4EEC, [0x5011]), (0x4EED, [0x4EDE]), (0x4EEE, [0x5047]), (0x4EF7, [0x50F9]), (0x4EFE, [0x4F4E])]),
  (0x4F, [
    (0x4F02, [0x6C9B]), (0x4F03, [0x59A4]), (0x4F16, [0x5E11]), (0x4F17, [0x773E]), (0x4F18, [0x512A]), (0x4F1A, [0x6703]),
    (0x4F1B, [0x50B4]), (0x4F1C, [0x5005]), (0x4F1D, [0x50B3]), (0x4F1E, [0x5098]), (0x4F1F, [0x5049]), (0x4F20, [0x50B3]),
    (0x4F24, [0x50B7]), (0x4F25, [0x5000]), (0x4F26, [0x502B]), (0x4F27, [0x5096]), (0x4F29, [0x4FE1]), (0x4F2A, [0x507D]),
    (0x4F2B, [0x4F47]), (0x4F2E, [0x52AA]), (0x4F35, [0x4F90]), (0x4F40, [0x4F3C]), (0x4F44, [0x9163]), (0x4F4B, [0x662D]),
    (0x4F53, [0x9AD4]), (0x4F65, [0x50C9]), (0x4F72, [0x9169]), (0x4F82, [0x8A17]), (0x4F8C, [0x9670]), (0x4FA0, [0x4FE0]),
    (0x4FA1, [0x50F9]), (0x4FA3, [0x4FB6]), (0x4FA5, [0x50E5]), (0x4FA6, [0x5075]), (0x4FA7, [0x5074]), (0x4FA8, [0x50D1]),
    (0x4FA9, [0x5108]), (0x4FAA, [0x5115]), (0x4FAB, [0x4F5E]), (0x4FAC, [0x5102]), (0x4FAD, [0x5118]), (0x4FBD, [0x7537]),
    (0x4FD6, [0x500D]), (0x4FE3, [0x4FC1]), (0x4FE6, [0x5114]), (0x4FE8, [0x513C]), (0x4FE9, [0x5006]), (0x4FEA, [0x5137]),
    (0x4FED, [0x5109]), (0x4FFB, [0x5099])]),
  (0x50, [
    (0x5002, [0x4F75]), (0x5003, [0x46EE]), (0x5010, [0x500F]), (0x5023, [0x4EFF]), (0x5024, [0x503C]), (0x5036, [0x4FF1]),
    (0x5039, [0x5109]), (0x503A, [0x50B5]), (0x503E, [0x50BE]), (0x5040, [0x82F1]), (0x5041, [0x7A31]), (0x5045, [0x50EE]),
    (0x5058, [0x4F83]), (0x5062, [0x50FD]), (0x5069, [0x8CA0]), (0x506A, [0x903C]), (0x506C, [0x50AF]), (0x5079, [0x5099]),
    (0x507A, [0x54B1]), (0x507B, [0x50C2]), (0x507E, [0x50E8]), (0x507F, [0x511F]), (0x5093, [0x717D]), (0x50A5, [0x513B]),
    (0x50A7, [0x5110]), (0x50A8, [0x5132]), (0x50A9, [0x513A]), (0x50AB, [0x513D]), (0x50DE, [0x507D]), (0x50EB, [0x5641]),
    (0x50F2, [0x4ED9]), (0x50F4, [0x50E9]), (0x50F7, [0x505E])]),
  (0x51, [
    (0x5101, [0x4FCA]), (0x510C, [0x50E5]), (0x510D, [0x50BB]), (0x512B, [0x8C6A]), (0x513F, [0x5152]), (0x5142, [0x7C2A]),
    (0x514A, [0x514C]), (0x514E, [0x5154]), (0x5150, [0x5152]), (0x5151, [0x514C]), (0x5156, [0x5157]), (0x515A, [0x9EE8]),
    (0x5166, [0x4EA1]), (0x516A, [0x4FDE]), (0x5170, [0x862D]), (0x5173, [0x95DC]), (0x5174, [0x8208]), (0x5179, [0x8332]),
    (0x517B, [0x990A]), (0x517D, [0x7378]), (0x517E, [0x5180]), (0x517F, [0x85DD]), (0x5181, [0x56C5]), (0x5183, [0x5E3D]),
    (0x5184, [0x5189]), (0x5185, [0x5167]), (0x5186, [0x5713]), (0x5188, [0x5CA1]), (0x518C, [0x518A]), (0x5190, [0x5192]),
    (0x5196, [0x51AA]), (0x5199, [0x5BEB]), (0x519B, [0x8ECD]), (0x519C, [0x8FB2]), (0x519D, [0x5B9C]), (0x51A1, [0x8499]),
    (0x51A2, [0x585A]), (0x51A3, [0x6700]), (0x51A6, [0x5BC7]), (0x51A8, [0x5BCC]), (0x51A9, [0x5BEB]), (0x51AB, [0x51B0]),
    (0x51AF, [0x99AE]), (0x51B1, [0x51B4]), (0x51B2, [0x6C96]), (0x51B3, [0x6C7A]), (0x51B5, [0x6CC1]), (0x51BA, [0x6CEF]),
    (0x51BB, [0x51CD]), (0x51BE, [0x6D3D]), (0x51C9, [0x6DBC]), (0x51CF, [0x6E1B]), (0x51D6, [0x6E96]), (0x51DB, [0x51DC]),
    (0x51DE, [0x7199]), (0x51E3, [0x51E2]), (0x51E4, [0x9CF3]), (0x51E6, [0x8655]), (0x51E8, [0x98A8]), (0x51EB, [0x9CE7]),
    (0x51ED, [0x6191]), (0x51EF, [0x51F1]), (0x51FB, [0x64CA]), (0x51FC, [0x5E7D]), (0x51FF, [0x947F])]),
  (0x52, [
    (0x5202, [0x5200]), (0x5204, [0x5203]), (0x520D, [0x82BB]), (0x520F, [0x5209]), (0x5212, [0x5283]), (0x5218, [0x5289]),
    (0x5219, [0x5247]), (0x521A, [0x525B]), (0x521B, [0x5275]), (0x5220, [0x522A]), (0x5226, [0x52AB]), (0x5227, [0x52AB]),
    (0x522B, [0x5225]), (0x522C, [0x5257]), (0x522D, [0x5244]), (0x5234, [0x5241]), (0x5239, [0x524E]), (0x523C, [0x52AB]),
    (0x523D, [0x528A]), (0x523F, [0x528C]), (0x5240, [0x5274]), (0x5242, [0x5291]), (0x5250, [0x526E]), (0x5251, [0x528D]),
    (0x5253, [0x527A]), (0x5263, [0x528D]), (0x5264, [0x5291]), (0x5265, [0x525D]), (0x5267, [0x5287]), (0x5270, [0x5269]),
    (0x527F, [0x52E6]), (0x528B, [0x52E6]), (0x529A, [0x65B8]), (0x529D, [0x52F8]), (0x529E, [0x8FA6]), (0x52A1, [0x52D9]),
    (0x52A2, [0x52F5]), (0x52A8, [0x52D5]), (0x52B1, [0x52F5]), (0x52B2, [0x52C1]), (0x52B3, [0x52DE]), (0x52B4, [0x52DE]),
    (0x52B9, [0x6548]), (0x52BF, [0x52E2]), (0x52C4, [0x654F]), (0x52C5, [0x6555]), (0x52C8, [0x52C7]), (0x52CB, [0x52DB]),
    (0x52D0, [0x731B]), (0x52DA, [0x52E9]), (0x52E3, [0x7E3E]), (0x52E7, [0x52F8]), (0x52F2, [0x52DB]), (0x52F3, [0x52DB])]),
  (0x53, [
    (0x5300, [0x52FB]), (0x5304, [0x4E10]), (0x5307, [0x5306]), (0x531E, [0x5320]), (0x531F, [0x7095]), (0x5325, [0x7B32]),
    (0x5326, [0x532D]), (0x5329, [0x5321]), (0x532E, [0x5331]), (0x5338, [0x653E]), (0x533A, [0x5340]), (0x533B, [0x91AB]),
    (0x5346, [0x5352]), (0x534B, [0x4E16]), (0x534E, [0x83EF]), (0x534F, [0x5354]), (0x5355, [0x55AE]), (0x5356, [0x8CE3]),
    (0x5358, [0x55AE]), (0x5362, [0x76E7]), (0x5364, [0x9E75]), (0x5365, [0x897F]), (0x5367, [0x81E5]), (0x536B, [0x885B]),
    (0x536D, [0x909B]), (0x5374, [0x537B]), (0x537D, [0x5373]), (0x5380, [0x819D]), (0x5382, [0x5EE0]), (0x5385, [0x5EF3]),
    (0x5389, [0x53B2]), (0x538B, [0x58D3]), (0x538C, [0x53AD]), (0x538D, [0x5399]), (0x5390, [0x9F8E]), (0x5394, [0x5EA2]),
    (0x5395, [0x5EC1]), (0x5397, [0x92BB]), (0x539B, [0x5EF3]), (0x53A0, [0x5EC1]), (0x53A2, [0x5EC2]), (0x53A3, [0x53B4]),
    (0x53A6, [0x5EC8]), (0x53A8, [0x5EDA]), (0x53AF, [0x6B77]), (0x53B3, [0x56B4]), (0x53B5, [0x6E90]), (0x53BA, [0x53BB]),
    (0x53BF, [0x7E23]), (0x53C1, [0x53C3]), (0x53C2, [0x53C3]), (0x53C6, [0x9749]), (0x53C7, [0x9746]), (0x53CC, [0x96D9]),
    (0x53CE, [0x6536]), (0x53CF, [0x592C]), (0x53D3, [0x4E8B]), (0x53D8, [0x8B8A]), (0x53D9, [0x6558]), (0x53DC, [0x53DF]),
    (0x53E0, [0x758A]), (0x53F4, [0x3564]), (0x53F6, [0x8449]), (0x53F7, [0x865F]), (0x53F9, [0x5606]), (0x53FD, [0x5630])]),
  (0x54, [
    (0x5407, [0x5527]), (0x5413, [0x5687]), (0x5417, [0x55CE]), (0x5422, [0x5423]), (0x5428, [0x5678]), (0x542C, [0x807D]),
    (0x542F, [0x555F]), (0x5434, [0x5433]), (0x543D, [0x543C]), (0x543F, [0x544A]), (0x5445, [0x543B]), (0x5449, [0x5433]),
    (0x544C, [0x53EB]), (0x5451, [0x541E]), (0x5452, [0x5638]), (0x5453, [0x56C8]), (0x5455, [0x5614]), (0x5456, [0x56A6]),
    (0x5457, [0x5504]), (0x5458, [0x54E1]), (0x5459, [0x54BC]), (0x545B, [0x55C6]), (0x545C, [0x55DA]), (0x545D, [0x5443]),
    (0x5463, [0x8B00]), (0x546A, [0x5492]), (0x548A, [0x548C]), (0x548F, [0x8A60]), (0x5499, [0x56A8]), (0x549B, [0x5680]),
    (0x549D, [0x565D]), (0x549E, [0x54EF]), (0x54AE, [0x5685]), (0x54B2, [0x7B11]), (0x54B6, [0x8210]), (0x54CC, [0x5471]),
    (0x54CD, [0x97FF]), (0x54D1, [0x555E]), (0x54D2, [0x5660]), (0x54D3, [0x5635]), (0x54D4, [0x55F6]), (0x54D5, [0x5666]),
    (0x54D7, [0x5629]), (0x54D9, [0x5672]), (0x54DD, [0x5665]), (0x54DF, [0x55B2]), (0x54F0, [0x562E]), (0x54F4, [0x55A8])]),
  (0x55, [
    (0x5502, [0x5503]), (0x5516, [0x555E]), (0x5519, [0x5600]), (0x551B, [0x561C]), (0x551D, [0x55CA]), (0x5520, [0x562E]),
    (0x5521, [0x5562]), (0x5522, [0x55E9]), (0x5524, [0x559A]), (0x553F, [0x5552]), (0x5553, [0x555F]), (0x5554, [0x555F]),
    (0x5557, [0x5556]), (0x5559, [0x5470]), (0x5567, [0x5616]), (0x5568, [0x60C5]), (0x556C, [0x55C7]), (0x556D, [0x56C0]),
    (0x556E, [0x5699]), (0x5570, [0x56C9]), (0x5578, [0x562F]), (0x557A, [0x5510]), (0x5585, [0x5537]), (0x559E, [0x5527]),
    (0x55A9, [0x55BB]), (0x55B6, [0x71DF]), (0x55B7, [0x5674]), (0x55BD, [0x560D]), (0x55BE, [0x56B3]), (0x55CD, [0x55FD]),
    (0x55EB, [0x56C1]), (0x55F3, [0x566F]), (0x55F8, [0x55F7])]),
  (0x56, [
    (0x560A, [0x5540]), (0x5618, [0x5653]), (0x5620, [0x560E]), (0x5624, [0x56B6]), (0x5628, [0x562F]), (0x562B, [0x7136]),
    (0x5631, [0x56D1]), (0x5637, [0x55E5]), (0x5644, [0x55AB]), (0x564D, [0x56BC]), (0x564F, [0x5438]), (0x5650, [0x5668]),
    (0x5656, [0x541F]), (0x565C, [0x5695]), (0x5661, [0x8B6B]), (0x567D, [0x56AD]), (0x567E, [0x5591]), (0x5689, [0x5484]),
    (0x5696, [0x5612]), (0x569E, [0x5586]), (0x56A0, [0x700F]), (0x56A2, [0x56CA]), (0x56A3, [0x56C2]), (0x56BB, [0x56C2]),
    (0x56CC, [0x8607]), (0x56CF, [0x8271]), (0x56D2, [0x3613]), (0x56D8, [0x56DE]), (0x56D9, [0x56E0]), (0x56E2, [0x5718]),
    (0x56E3, [0x5718]), (0x56ED, [0x5712]), (0x56F2, [0x570D]), (0x56F3, [0x5716]), (0x56F4, [0x570D]), (0x56F5, [0x5707]),
    (0x56F8, [0x65E5]), (0x56FC, [0x80CE]), (0x56FD, [0x570B]), (0x56FE, [0x5716])]),
  (0x57, [
    (0x5706, [0x5713]), (0x570F, [0x5708]), (0x5721, [0x571F]), (0x5723, [0x8056]), (0x5727, [0x58D3]), (0x572B, [0x58BA]),
    (0x5735, [0x58E4]), (0x5739, [0x58D9]), (0x573A, [0x5834]), (0x573C, [0x363F]), (0x5744, [0x57BC]), (0x574B, [0x574C]),
    (0x574F, [0x58DE]), (0x5753, [0x578B]), (0x5754, [0x5730]), (0x5757, [0x584A]), (0x5759, [0x5DE0]), (0x575A, [0x5805]),
    (0x575B, [0x58C7]), (0x575C, [0x58E2]), (0x575D, [0x58E9]), (0x575E, [0x5862]), (0x575F, [0x58B3]), (0x5760, [0x589C]),
    (0x5763, [0x58C6]), (0x5778, [0x57A2]), (0x577A, [0x58A2]), (0x577F, [0x9644]), (0x5784, [0x58DF]), (0x5786, [0x58DA]),
    (0x5792, [0x58D8]), (0x5796, [0x5806]), (0x579C, [0x579B]), (0x57A6, [0x58BE]), (0x57A9, [0x580A]), (0x57AB, [0x588A]),
    (0x57AD, [0x57E1]), (0x57B2, [0x584F]), (0x57BE, [0x5CB8]), (0x57C0, [0x5782]), (0x57C1, [0x5C91]), (0x57C5, [0x9632]),
    (0x57C8, [0x5CFB]), (0x57D3, [0x57D2]), (0x57D8, [0x5852]), (0x57D9, [0x5864]), (0x57DA, [0x581D]), (0x57DC, [0x91CE]),
    (0x57F0, [0x91C7]), (0x57FD, [0x6383])]),
  (0x58, [
    (0x5811, [0x5879]), (0x5815, [0x58AE]), (0x5818, [0x5856]), (0x5822, [0x5821]), (0x5826, [0x968E]), (0x5841, [0x58D8]),
    (0x5850, [0x5851]), (0x5861, [0x586B]), (0x5866, [0x9663]), (0x5869, [0x9E7D]), (0x5872, [0x5834]), (0x587C, [0x78DA]),
    (0x5895, [0x5830]), (0x5896, [0x5854]), (0x5897, [0x589E]), (0x5899, [0x58BB]), (0x58AA, [0x58A9]), (0x58AB, [0x6A3D]),
    (0x58B0, [0x58C7]), (0x58C3, [0x7586]), (0x58CA, [0x58DE]), (0x58CC, [0x58E4]), (0x58CD, [0x5879]), (0x58D0, [0x74BD]),
    (0x58DC, [0x58C7]), (0x58E0, [0x58DF]), (0x58EE, [0x58EF]), (0x58F0, [0x8072]), (0x58F1, [0x58F9]), (0x58F2, [0x8CE3]),
    (0x58F3, [0x6BBC]), (0x58F6, [0x58FA]), (0x58F7, [0x58FA]), (0x58F8, [0x58FC]), (0x58FB, [0x5A7F])]),
  (0x59, [
    (0x5900, [0x58FD]), (0x5904, [0x8655]), (0x5905, [0x964D]), (0x5907, [0x5099]), (0x5909, [0x8B8A]), (0x5918, [0x536F]),
    (0x591B, [0x591A]), (0x591D, [0x6674]), (0x591F, [0x5920]), (0x5923, [0x5922]), (0x5934, [0x982D]), (0x5936, [0x6BD4]),
    (0x5938, [0x8A87]), (0x5939, [0x593E]), (0x593A, [0x596A]), (0x5941, [0x5969]), (0x5942, [0x5950]), (0x594B, [0x596E]),
    (0x594C, [0x9EDE]), (0x5953, [0x5962]), (0x5956, [0x734E]), (0x595C, [0x6590]), (0x595E, [0x594E]), (0x5965, [0x5967]),
    (0x5968, [0x734E]), (0x596C, [0x734E]), (0x5986, [0x599D]), (0x5987, [0x5A66]), (0x5988, [0x5ABD]), (0x599B, [0x5AB8]),
    (0x59A9, [0x5AF5]), (0x59AA, [0x5AD7]), (0x59AB, [0x5AAF]), (0x59AC, [0x5992]), (0x59B4, [0x5A49]), (0x59C9, [0x59CA]),
    (0x59D7, [0x59CD]), (0x59D9, [0x598A]), (0x59E2, [0x5A1F]), (0x59E7, [0x5978]), (0x59EB, [0x59EC]), (0x59F8, [0x598D]),
    (0x59F9, [0x597C])]),
  (0x5A, [
    (0x5A02, [0x5985]), (0x5A04, [0x5A41]), (0x5A05, [0x5A6D]), (0x5A06, [0x5B08]), (0x5A07, [0x5B0C]), (0x5A08, [0x5B4C]),
    (0x5A12, [0x59C6]), (0x5A24, [0x599D]), (0x5A26, [0x5B2A]), (0x5A2F, [0x5A1B]), (0x5A31, [0x5A1B]), (0x5A32, [0x5AA7]),
    (0x5A34, [0x5AFB]), (0x5A3F, [0x5A40]), (0x5A4F, [0x5A29]), (0x5A59, [0x5A67]), (0x5A5E, [0x60BB]), (0x5A63, [0x59FB]),
    (0x5A73, [0x5AFF]), (0x5A74, [0x5B30]), (0x5A75, [0x5B0B]), (0x5A76, [0x5B38]), (0x5A87, [0x89AA]), (0x5A8D, [0x5A66]),
    (0x5AA0, [0x5AF7]), (0x5AD2, [0x5B21]), (0x5AD4, [0x5B2A]), (0x5AED, [0x5AEE]), (0x5AEF, [0x371C]), (0x5AF0, [0x5AE9]),
    (0x5AF1, [0x5B19])]),
  (0x5B, [
    (0x5B00, [0x5AAF]), (0x5B0A, [0x5B3F]), (0x5B22, [0x5B43]), (0x5B37, [0x5B24]), (0x5B3A, [0x5ADF]), (0x5B3E, [0x61F6]),
    (0x5B46, [0x5B30]), (0x5B49, [0x5A58]), (0x5B59, [0x5B6B]), (0x5B60, [0x55E3]), (0x5B61, [0x80CE]), (0x5B66, [0x5B78]),
    (0x5B6A, [0x5B7F]), (0x5B7E, [0x5B30]), (0x5B81, [0x5BE7]), (0x5B82, [0x5197]), (0x5B86, [0x7A79]), (0x5B8D, [0x8089]),
    (0x5B9D, [0x5BF6]), (0x5B9E, [0x5BE6]), (0x5B9F, [0x5BE6]), (0x5BA0, [0x5BF5]), (0x5BA1, [0x5BE9]), (0x5BAA, [0x61B2]),
    (0x5BB2, [0x5BE6]), (0x5BBB, [0x5BC6]), (0x5BBC, [0x5BC7]), (0x5BBD, [0x5BEC]), (0x5BBE, [0x8CD3]), (0x5BC3, [0x51A4]),
    (0x5BCF, [0x9662]), (0x5BD1, [0x5BE2]), (0x5BDB, [0x5BEC]), (0x5BDC, [0x5BE7]), (0x5BDD, [0x5BE2]), (0x5BF3, [0x5BF6]),
    (0x5BF9, [0x5C0D]), (0x5BFB, [0x5C0B]), (0x5BFC, [0x5C0E]), (0x5BFE, [0x5C0D]), (0x5BFF, [0x58FD])]),
  (0x5C, [
    (0x5C02, [0x5C08]), (0x5C05, [0x524B]), (0x5C06, [0x5C07]), (0x5C14, [0x723E]), (0x5C18, [0x5875]), (0x5C19, [0x5C1A]),
    (0x5C1D, [0x5617]), (0x5C1E, [0x71CE]), (0x5C23, [0x5C2A]), (0x5C27, [0x582F]), (0x5C28, [0x9F8D]), (0x5C29, [0x5C2A]),
    (0x5C2B, [0x5C2A]), (0x5C2D, [0x582F]), (0x5C34, [0x5C37]), (0x5C3D, [0x76E1]), (0x5C42, [0x5C64]), (0x5C49, [0x5C5C]),
    (0x5C4A, [0x5C46]), (0x5C53, [0x5C6D]), (0x5C5B, [0x5C4F]), (0x5C5E, [0x5C6C]), (0x5C61, [0x5C62]), (0x5C66, [0x5C68]),
    (0x5C7F, [0x5DBC]), (0x5C81, [0x6B72]), (0x5C82, [0x8C48]), (0x5C8B, [0x5C8C]), (0x5C96, [0x5D87]), (0x5C97, [0x5D17]),
    (0x5C98, [0x5CF4]), (0x5C9A, [0x5D50]), (0x5C9B, [0x5CF6]), (0x5CAD, [0x5DBA]), (0x5CB4, [0x5D87]), (0x5CBD, [0x5D2C]),
    (0x5CBF, [0x5DCB]), (0x5CC3, [0x5DA8]), (0x5CC4, [0x5DA7]), (0x5CDD, [0x5CD2]), (0x5CE1, [0x5CFD]), (0x5CE3, [0x5DA2]),
    (0x5CE4, [0x5DA0]), (0x5CE5, [0x5D22]), (0x5CE6, [0x5DD2]), (0x5CEF, [0x5CF0]), (0x5CF2, [0x5CDB])]),
  (0x5D, [
    (0x5D02, [0x5D97]), (0x5D03, [0x5D0D]), (0x5D08, [0x5D07]), (0x5D18, [0x5D19]), (0x5D27, [0x5D69]), (0x5D2D, [0x5D84]),
    (0x5D57, [0x6B72]), (0x5D58, [0x5DB8]), (0x5D5A, [0x5D94]), (0x5D5C, [0x5D0E]), (0x5D5D, [0x5D81]), (0x5D73, [0x5D6F]),
    (0x5D8B, [0x5CF6]), (0x5D8C, [0x5CF6]), (0x5DC2, [0x5DB2]), (0x5DC5, [0x5DD4]), (0x5DD3, [0x5DD4]), (0x5DE3, [0x5DE2]),
    (0x5DE9, [0x978F]), (0x5DEF, [0x5DF0]), (0x5DFA, [0x5DFD]), (0x5DFB, [0x5377])]),
  (0x5E, [
    (0x5E00, [0x531D]), (0x5E01, [0x5E63]), (0x5E05, [0x5E25]), (0x5E08, [0x5E2B]), (0x5E0A, [0x5E15]), (0x5E0B, [0x7D19]),
    (0x5E0F, [0x5E43]), (0x5E10, [0x5E33]), (0x5E12, [0x888B]), (0x5E18, [0x7C3E]), (0x5E1C, [0x5E5F]), (0x5E26, [0x5E36]),
    (0x5E27, [0x5E40]), (0x5E2C, [0x88D9]), (0x5E2E, [0x5E6B]), (0x5E2F, [0x5E36]), (0x5E30, [0x6B78]), (0x5E31, [0x5E6C]),
    (0x5E3B, [0x5E58]), (0x5E3C, [0x5E57]), (0x5E47, [0x5E6B]), (0x5E48, [0x5C4F]), (0x5E51, [0x5FBD]), (0x5E64, [0x5E63]),
    (0x5E71, [0x8974]), (0x5E76, [0x4E26]), (0x5E77, [0x4E26]), (0x5E7F, [0x5EE3]), (0x5E81, [0x5EF3]), (0x5E83, [0x5EE3]),
    (0x5E84, [0x838A]), (0x5E86, [0x6176]), (0x5E90, [0x5EEC]), (0x5E91, [0x5EE1]), (0x5E92, [0x838A]), (0x5E93, [0x5EAB]),
    (0x5E94, [0x61C9]), (0x5E99, [0x5EDF]), (0x5E9E, [0x9F90]), (0x5E9F, [0x5EE2]), (0x5EBB, [0x5EB6]), (0x5EBC, [0x5ECE]),
    (0x5EBD, [0x5BD3]), (0x5EBF, [0x5EDF]), (0x5EC3, [0x5EE2]), (0x5EF0, [0x5EF3]), (0x5EF5, [0x5DE1]), (0x5EFB, [0x56DE])]),
  (0x5F, [
    (0x5F00, [0x958B]), (0x5F01, [0x8FAF]), (0x5F02, [0x7570]), (0x5F03, [0x68C4]), (0x5F09, [0x5958]), (0x5F0D, [0x8CB3]),
    (0x5F10, [0x8CB3]), (0x5F11, [0x5F12]), (0x5F19, [0x38AA]), (0x5F20, [0x5F35]), (0x5F25, [0x5F4C]), (0x5F2A, [0x5F33]),
    (0x5F2F, [0x5F4E]), (0x5F39, [0x5F48]), (0x5F3A, [0x5F37]), (0x5F3E, [0x5F48]), (0x5F4A, [0x5F37]), (0x5F52, [0x6B78]),
    (0x5F53, [0x7576]), (0x5F55, [0x9304]), (0x5F5B, [0x5F5D]), (0x5F5C, [0x5F5D]), (0x5F5E, [0x5F5D]), (0x5F66, [0x5F65]),
    (0x5F7B, [0x5FB9]), (0x5F83, [0x5F80]), (0x5F84, [0x5F91]), (0x5F8F, [0x965F]), (0x5F93, [0x5F9E]), (0x5F95, [0x5FA0]),
    (0x5FB3, [0x5FB7]), (0x5FB4, [0x5FB5]), (0x5FC6, [0x61B6]), (0x5FC8, [0x4EC1]), (0x5FCE, [0x4EC1]), (0x5FCF, [0x61FA]),
    (0x5FDC, [0x61C9]), (0x5FE2, [0x609F]), (0x5FE7, [0x6182]), (0x5FF0, [0x60B4]), (0x5FF7, [0x605F]), (0x5FFC, [0x6177]),
    (0x5FFE, [0x613E])]),
  (0x60, [
    (0x6000, [0x61F7]), (0x6001, [0x614B]), (0x6002, [0x616B]), (0x6003, [0x61AE]), (0x6004, [0x616A]), (0x6005, [0x60B5]),
    (0x6006, [0x6134]), (0x6018, [0x56FA]), (0x601C, [0x6190]), (0x6023, [0x5C24]), (0x602D, [0x4F56]), (0x6031, [0x5306]),
    (0x6033, [0x604D]), (0x603B, [0x7E3D]), (0x603C, [0x61DF]), (0x603F, [0x61CC]), (0x604B, [0x6200]), (0x6052, [0x6046]),
    (0x6056, [0x601D]), (0x6060, [0x602A]), (0x6061, [0x541D]), (0x6071, [0x6085]), (0x6073, [0x61C7]), (0x6075, [0x60E0]),
    (0x6076, [0x60E1]), (0x6078, [0x615F]), (0x6079, [0x61E8]), (0x607A, [0x6137]), (0x607B, [0x60FB]), (0x607C, [0x60F1]),
    (0x607D, [0x60F2]), (0x608B, [0x541D]), (0x6090, [0x60D5]), (0x6091, [0x6016]), (0x60A4, [0x5306]), (0x60A6, [0x6085]),
    (0x60A9, [0x60F1]), (0x60AA, [0x60E1]), (0x60AB, [0x6128]), (0x60AC, [0x61F8]), (0x60AD, [0x6173]), (0x60AF, [0x61AB]),
    (0x60B3, [0x5FB7]), (0x60CA, [0x9A5A]), (0x60D6, [0x60D5]), (0x60E3, [0x7E3D]), (0x60E7, [0x61FC]), (0x60E8, [0x6158]),
    (0x60E9, [0x61F2]), (0x60EA, [0x5FB7]), (0x60EB, [0x618A]), (0x60EC, [0x611C]), (0x60ED, [0x615A]), (0x60EE, [0x619A]),
    (0x60EF, [0x6163]), (0x60F7, [0x8822])]),
  (0x61, [
    (0x6111, [0x6080]), (0x6119, [0x606A]), (0x6120, [0x614D]), (0x6124, [0x61A4]), (0x6126, [0x6192]), (0x612C, [0x8A34]),
    (0x612F, [0x609A]), (0x6133, [0x61FC]), (0x6138, [0x6574]), (0x6139, [0x6080]), (0x613B, [0x905C]), (0x613C, [0x614E]),
    (0x613D, [0x535A]), (0x6142, [0x607F]), (0x6151, [0x61FE]), (0x6159, [0x615A]), (0x6164, [0x6128]), (0x616D, [0x6196]),
    (0x617D, [0x617C]), (0x6185, [0x615F]), (0x6187, [0x61A9]), (0x6198, [0x559C]), (0x6199, [0x559C]), (0x61C3, [0x52E4]),
    (0x61D0, [0x61F7]), (0x61D1, [0x61E3]), (0x61D2, [0x61F6]), (0x61D5, [0x61E8]), (0x61DC, [0x61F5]), (0x61F4, [0x61FA])]),
  (0x62, [
    (0x6206, [0x6207]), (0x620B, [0x6214]), (0x620F, [0x6232]), (0x6217, [0x6227]), (0x6218, [0x6230]), (0x621D, [0x8CCA]),
    (0x621E, [0x621B]), (0x6220, [0x57F4]), (0x6226, [0x6230]), (0x622C, [0x6229]), (0x622F, [0x6232]), (0x6237, [0x6236]),
    (0x6238, [0x6236]), (0x623B, [0x623E]), (0x6251, [0x64B2]), (0x6255, [0x62C2]), (0x625E, [0x634D]), (0x6267, [0x57F7]),
    (0x6269, [0x64F4]), (0x626A, [0x636B]), (0x626B, [0x6383]), (0x626C, [0x63DA]), (0x6270, [0x64FE]), (0x6272, [0x64D2]),
    (0x627B, [0x640D]), (0x6283, [0x62DA]), (0x6285, [0x62D8]), (0x628D, [0x62EF]), (0x629A, [0x64AB]), (0x629B, [0x62CB]),
    (0x629C, [0x62D4]), (0x629D, [0x62D7]), (0x629E, [0x64C7]), (0x629F, [0x6476]), (0x62A0, [0x6473]), (0x62A1, [0x6384]),
    (0x62A2, [0x6436]), (0x62A4, [0x8B77]), (0x62A5, [0x5831]), (0x62B8, [0x633E]), (0x62BB, [0x4F38]), (0x62C5, [0x64D4]),
    (0x62CF, [0x62FF]), (0x62DD, [0x62DC]), (0x62DF, [0x64EC]), (0x62E0, [0x64DA]), (0x62E1, [0x64F4]), (0x62E2, [0x650F]),
    (0x62E3, [0x63C0]), (0x62E5, [0x64C1]), (0x62E6, [0x6514]), (0x62E7, [0x64F0]), (0x62E8, [0x64A5]), (0x62E9, [0x64C7])]),
  (0x63, [
    (0x6302, [0x639B]), (0x6304, [0x64F4]), (0x6306, [0x6305]), (0x630D, [0x6821]), (0x6314, [0x65C5]), (0x6315, [0x651D]),
    (0x6319, [0x8209]), (0x631A, [0x646F]), (0x631B, [0x6523]), (0x631C, [0x6397]), (0x631D, [0x64BE]), (0x631E, [0x64BB]),
    (0x631F, [0x633E]), (0x6320, [0x6493]), (0x6321, [0x64CB]), (0x6322, [0x649F]), (0x6323, [0x6399]), (0x6324, [0x64E0]),
    (0x6325, [0x63EE]), (0x6326, [0x648F]), (0x6331, [0x6332]), (0x6335, [0x5F04]), (0x633F, [0x63D2]), (0x6340, [0x6367]),
    (0x6341, [0x652A]), (0x6344, [0x6551]), (0x635C, [0x641C]), (0x635E, [0x6488]), (0x635F, [0x640D]), (0x6361, [0x64BF]),
    (0x6362, [0x63DB]), (0x6363, [0x6417]), (0x6374, [0x7E3D]), (0x6375, [0x649A]), (0x637F, [0x68F2]), (0x638B, [0x62B5]),
    (0x63B2, [0x63ED]), (0x63B3, [0x64C4]), (0x63B4, [0x6451]), (0x63B7, [0x64F2]), (0x63B8, [0x64A3]), (0x63BA, [0x647B]),
    (0x63BB, [0x6414]), (0x63BC, [0x645C]), (0x63C8, [0x63AC]), (0x63F7, [0x63D2]), (0x63F9, [0x80CC]), (0x63FA, [0x6416]),
    (0x63FD, [0x652C]), (0x63FF, [0x64B3])]),
  (0x64, [
    (0x6400, [0x6519]), (0x6401, [0x64F1]), (0x6402, [0x645F]), (0x6403, [0x7E3D]), (0x6405, [0x652A]), (0x642F, [0x638F]),
    (0x6432, [0x6528]), (0x643A, [0x651C]), (0x643C, [0x62F3]), (0x643E, [0x69A8]), (0x6442, [0x651D]), (0x6444, [0x651D]),
    (0x6445, [0x6504]), (0x6446, [0x64FA]), (0x6448, [0x64EF]), (0x644A, [0x6524]), (0x644F, [0x8202]), (0x6464, [0x6436]),
    (0x6477, [0x6284]), (0x647E, [0x5F36]), (0x6483, [0x64CA]), (0x6484, [0x6516]), (0x6486, [0x6487]), (0x6491, [0x6490]),
    (0x64A6, [0x626F]), (0x64AF, [0x64C6]), (0x64B5, [0x6506]), (0x64B7, [0x64F7]), (0x64B8, [0x64FC]), (0x64B9, [0x652A]),
    (0x64BA, [0x651B]), (0x64D1, [0x63A5]), (0x64DC, [0x3A75]), (0x64DE, [0x64FB]), (0x64E1, [0x62AC]), (0x64E5, [0x652C]),
    (0x64E7, [0x8209]), (0x64F9, [0x6524]), (0x64FF, [0x6458])]),
  (0x65, [
    (0x6502, [0x64C2]), (0x6508, [0x6343]), (0x6512, [0x6522]), (0x651F, [0x6343]), (0x6529, [0x64CB]), (0x6530, [0x3A7B]),
    (0x6532, [0x6567]), (0x6537, [0x8003]), (0x653D, [0x9812]), (0x6542, [0x53E9]), (0x654C, [0x6575]), (0x654D, [0x6558]),
    (0x654E, [0x6559]), (0x655B, [0x6582]), (0x6570, [0x6578]), (0x6571, [0x6573]), (0x6588, [0x5B78]), (0x6589, [0x9F4A]),
    (0x658B, [0x9F4B]), (0x658D, [0x89BA]), (0x658E, [0x9F4B]), (0x6593, [0x6595]), (0x65A9, [0x65AC]), (0x65AD, [0x65B7]),
    (0x65B5, [0x65B2]), (0x65C9, [0x6577]), (0x65D1, [0x65D6]), (0x65E0, [0x7121]), (0x65E3, [0x65E2]), (0x65E7, [0x820A]),
    (0x65EE, [0x65ED]), (0x65F3, [0x7684]), (0x65F6, [0x6642]), (0x65F7, [0x66E0]), (0x65F8, [0x6698]), (0x65FD, [0x66BE]),
    (0x65FE, [0x6625])]),
  (0x66, [
    (0x6618, [0x8A2A]), (0x6619, [0x66C7]), (0x661A, [0x614E]), (0x661C, [0x967D]), (0x661E, [0x70B3]), (0x662C, [0x660F]),
    (0x663B, [0x6602]), (0x663C, [0x665D]), (0x663D, [0x66E8]), (0x663E, [0x986F]), (0x6644, [0x6643]), (0x6648, [0x768E]),
    (0x664B, [0x6649]), (0x6652, [0x66EC]), (0x6653, [0x66C9]), (0x6654, [0x66C4]), (0x6655, [0x6688]), (0x6658, [0x65F1]),
    (0x6665, [0x7696]), (0x6669, [0x665A]), (0x6673, [0x6670]), (0x667B, [0x6697]), (0x6681, [0x66C9]), (0x6682, [0x66AB]),
    (0x6685, [0x6645]), (0x668E, [0x6620]), (0x6692, [0x6674]), (0x669C, [0x666E]), (0x66A0, [0x7693]), (0x66A4, [0x66CD]),
    (0x66A6, [0x66C6]), (0x66A7, [0x66D6]), (0x66B3, [0x3B29]), (0x66C1, [0x66A8]), (0x66C5, [0x66C4]), (0x66D0, [0x661F]),
    (0x66F5, [0x66F3]), (0x66FA, [0x66F9]), (0x66FD, [0x66FE])]),
  (0x67, [
    (0x6716, [0x6717]), (0x671E, [0x671F]), (0x6722, [0x671B]), (0x672F, [0x8853]), (0x6736, [0x6735]), (0x673A, [0x6A5F]),
    (0x6740, [0x6BBA]), (0x6742, [0x96DC]), (0x6743, [0x6B0A]), (0x6761, [0x689D]), (0x6765, [0x4F86]), (0x6768, [0x694A]),
    (0x6780, [0x677E]), (0x6781, [0x6975]), (0x6784, [0x69CB]), (0x6788, [0x6787]), (0x678F, [0x6960]), (0x679E, [0x6A05]),
    (0x67A0, [0x6A3A]), (0x67A2, [0x6A1E]), (0x67A3, [0x68D7]), (0x67A5, [0x6AEA]), (0x67A7, [0x6898]), (0x67A8, [0x68D6]),
    (0x67AA, [0x69CD]), (0x67AB, [0x6953]), (0x67AD, [0x689F]), (0x67B1, [0x6AAF]), (0x67B4, [0x62D0]), (0x67DC, [0x6AC3]),
    (0x67E0, [0x6AB8]), (0x67F0, [0x5948]), (0x67F9, [0x67FF]), (0x67FA, [0x62D0]), (0x67FB, [0x67E5]), (0x67FD, [0x6A89]),
    (0x67FE, [0x67E9])]),
  (0x68, [
    (0x6800, [0x6894]), (0x6801, [0x67F3]), (0x6804, [0x69AE]), (0x6805, [0x67F5]), (0x6807, [0x6A19]), (0x6808, [0x68E7]),
    (0x6809, [0x6ADB]), (0x680A, [0x6AF3]), (0x680B, [0x68DF]), (0x680C, [0x6AE8]), (0x680E, [0x6ADF]), (0x680F, [0x6B04]),
    (0x6811, [0x6A39]), (0x6814, [0x5951]), (0x6816, [0x68F2]), (0x6822, [0x67CF]), (0x6837, [0x6A23]), (0x683E, [0x6B12]),
    (0x684A, [0x68EC]), (0x6852, [0x6851]), (0x6859, [0x6745]), (0x685C, [0x6AFB]), (0x685F, [0x68E7]), (0x6861, [0x6A48]),
    (0x6862, [0x6968]), (0x6863, [0x6A94]), (0x6864, [0x69BF]), (0x6865, [0x6A4B]), (0x6866, [0x6A3A]), (0x6867, [0x6A9C]),
    (0x6868, [0x69F3]), (0x6869, [0x6A01]), (0x686E, [0x676F]), (0x686F, [0x6979]), (0x687A, [0x67F3]), (0x6896, [0x8C9D]),
    (0x68A5, [0x9B06]), (0x68A6, [0x5922]), (0x68B9, [0x6AB3]), (0x68C0, [0x6AA2]), (0x68C2, [0x6B1E]), (0x68C3, [0x68A8]),
    (0x68CA, [0x68CB]), (0x68DE, [0x68B1]), (0x68E5, [0x6A0A]), (0x68F7, [0x85EA])]),
  (0x69, [
    (0x6901, [0x69E8]), (0x6918, [0x695A]), (0x691C, [0x6AA2]), (0x691F, [0x6ADD]), (0x6920, [0x69E7]), (0x6924, [0x6B0F]),
    (0x692D, [0x6A62]), (0x6936, [0x68D5]), (0x6955, [0x6A62]), (0x6961, [0x6986]), (0x6966, [0x6965]), (0x6973, [0x6885]),
    (0x697C, [0x6A13]), (0x697D, [0x6A02]), (0x6984, [0x6B16]), (0x6985, [0x69B2]), (0x6987, [0x6AEC]), (0x6988, [0x6ADA]),
    (0x6989, [0x6AF8]), (0x698D, [0x6954]), (0x6998, [0x77E9]), (0x69A1, [0x7D20]), (0x69A2, [0x67B6]), (0x69A6, [0x5E79]),
    (0x69C7, [0x69D9]), (0x69D7, [0x6A4B]), (0x69D8, [0x6A23]), (0x69DA, [0x6A9F]), (0x69DB, [0x6ABB]), (0x69DE, [0x6AF3]),
    (0x69DF, [0x6AB3]), (0x69E0, [0x6AE7]), (0x69EA, [0x6982])]),
  (0x6A, [
    (0x6A22, [0x8526]), (0x6A29, [0x6B0A]), (0x6A2A, [0x6A6B]), (0x6A2F, [0x6AA3]), (0x6A31, [0x6AFB]), (0x6A45, [0x6A21]),
    (0x6A4A, [0x69B4]), (0x6A64, [0x854A]), (0x6A66, [0x5E62]), (0x6A70, [0x69D4]), (0x6A71, [0x6AE5]), (0x6A79, [0x6AD3]),
    (0x6A7C, [0x6ADE]), (0x6A92, [0x6953]), (0x6A9A, [0x695A]), (0x6A9D, [0x696B]), (0x6AA9, [0x6A81]), (0x6AB4, [0x6A3A]),
    (0x6AF5, [0x6A35]), (0x6AFA, [0x6B1E])]),
  (0x6B, [
    (0x6B05, [0x6AF8]), (0x6B1B, [0x6777]), (0x6B22, [0x6B61]), (0x6B24, [0x6B5F]), (0x6B27, [0x6B50]), (0x6B2C, [0x54B3]),
    (0x6B35, [0x6B3E]), (0x6B38, [0x8A92]), (0x6B42, [0x5598]), (0x6B4D, [0x55DA]), (0x6B53, [0x6B61]), (0x6B57, [0x562F]),
    (0x6B5B, [0x6582]), (0x6B60, [0x555C]), (0x6B68, [0x6B65]), (0x6B69, [0x6B65]), (0x6B6B, [0x8DDD]), (0x6B6C, [0x524D]),
    (0x6B6F, [0x9F52]), (0x6B71, [0x8E35]), (0x6B73, [0x6B72]), (0x6B74, [0x6B77]), (0x6B7A, [0x6B79]), (0x6B7C, [0x6BB2]),
    (0x6B7E, [0x520E]), (0x6B81, [0x6B7F]), (0x6B87, [0x6BA4]), (0x6B8B, [0x6B98]), (0x6B92, [0x6B9E]), (0x6B93, [0x6BAE]),
    (0x6B9A, [0x6BAB]), (0x6BA1, [0x6BAF]), (0x6BB1, [0x6BB2]), (0x6BB4, [0x6BC6]), (0x6BBB, [0x6BBC]), (0x6BBD, [0x6DC6]),
    (0x6BC1, [0x6BC0]), (0x6BC2, [0x8F42]), (0x6BC9, [0x91AB]), (0x6BCE, [0x6BCF]), (0x6BD1, [0x59D0]), (0x6BD5, [0x7562]),
    (0x6BD8, [0x6BD7]), (0x6BD9, [0x6583]), (0x6BE1, [0x6C08]), (0x6BF5, [0x6BFF])]),
  (0x6C, [
    (0x6C02, [0x729B]), (0x6C07, [0x6C0C]), (0x6C0A, [0x6C08]), (0x6C14, [0x6C23]), (0x6C17, [0x6C23]), (0x6C22, [0x6C2B]),
    (0x6C29, [0x6C2C]), (0x6C31, [0x6C27]), (0x6C32, [0x6C33]), (0x6C37, [0x51B0]), (0x6C3B, [0x6CD0]), (0x6C47, [0x532F]),
    (0x6C49, [0x6F22]), (0x6C53, [0x6CC5]), (0x6C59, [0x6C61]), (0x6C5A, [0x6C61]), (0x6C64, [0x6E6F]), (0x6C6F, [0x6D64]),
    (0x6C73, [0x6C74]), (0x6C78, [0x6EC2]), (0x6C79, [0x6D36]), (0x6C97, [0x6DFB]), (0x6C9F, [0x6E9D]), (0x6CA1, [0x6C92]),
    (0x6CA2, [0x6FA4]), (0x6CA3, [0x7043]), (0x6CA4, [0x6F1A]), (0x6CA5, [0x701D]), (0x6CA6, [0x6DEA]), (0x6CA7, [0x6EC4]),
    (0x6CA8, [0x6E22]), (0x6CA9, [0x6E88]), (0x6CAA, [0x6EEC]), (0x6CB2, [0x6CB1]), (0x6CDE, [0x6FD8]), (0x6CEA, [0x6DDA]),
    (0x6CF2, [0x6FDF]), (0x6CF7, [0x7027]), (0x6CF8, [0x7018]), (0x6CFA, [0x6FFC]), (0x6CFB, [0x7009]), (0x6CFC, [0x6F51]),
    (0x6CFD, [0x6FA4]), (0x6CFE, [0x6D87])]),
  (0x6D, [
    (0x6D01, [0x6F54]), (0x6D02, [0x6DB2]), (0x6D12, [0x7051]), (0x6D13, [0x6F2C]), (0x6D1F, [0x6D95]), (0x6D24, [0x6CC9]),
    (0x6D2F, [0x6F54]), (0x6D3C, [0x7AAA]), (0x6D43, [0x6D79]), (0x6D44, [0x6DE8]), (0x6D45, [0x6DFA]), (0x6D46, [0x6F3F]),
    (0x6D47, [0x6F86]), (0x6D48, [0x6E5E]), (0x6D49, [0x6EAE]), (0x6D4A, [0x6FC1]), (0x6D4B, [0x6E2C]), (0x6D4D, [0x6FAE]),
    (0x6D4E, [0x6FDF]), (0x6D4F, [0x700F]), (0x6D50, [0x6EFB]), (0x6D51, [0x6E3E]), (0x6D52, [0x6EF8]), (0x6D53, [0x6FC3]),
    (0x6D54, [0x6F6F]), (0x6D55, [0x6FDC]), (0x6D5C, [0x6FF1]), (0x6D82, [0x5857]), (0x6D99, [0x6DDA]), (0x6D9B, [0x6FE4]),
    (0x6D9D, [0x6F87]), (0x6D9E, [0x6DF6]), (0x6D9F, [0x6F23]), (0x6DA0, [0x6F7F]), (0x6DA1, [0x6E26]), (0x6DA2, [0x6EB3]),
    (0x6DA3, [0x6E19]), (0x6DA4, [0x6ECC]), (0x6DA6, [0x6F64]), (0x6DA7, [0x6F97]), (0x6DA8, [0x6F32]), (0x6DA9, [0x6F80]),
    (0x6DB1, [0x6F32]), (0x6DC0, [0x6FB1]), (0x6DC8, [0x6C68]), (0x6DDB, [0x6D59]), (0x6DDC, [0x99AE]), (0x6DF8, [0x6E05])]),
  (0x6E, [
    (0x6E01, [0x6DF5]), (0x6E07, [0x6E34]), (0x6E08, [0x6FDF]), (0x6E09, [0x6D89]), (0x6E0A, [0x6DF5]), (0x6E0B, [0x6F80]),
    (0x6E0D, [0x6F2C]), (0x6E0E, [0x7006]), (0x6E10, [0x6F38]), (0x6E11, [0x6FA0]), (0x6E13, [0x6EAA]), (0x6E14, [0x6F01]),
    (0x6E15, [0x6DF5]), (0x6E17, [0x6EF2]), (0x6E29, [0x6EAB]), (0x6E2B, [0x6CC4]), (0x6E57, [0x8451]), (0x6E7B, [0x6DF3]),
    (0x6E7C, [0x6D85]), (0x6E7D, [0x6DC4]), (0x6E7E, [0x7063]), (0x6E7F, [0x6FD5]), (0x6E80, [0x6EFF]), (0x6E83, [0x6F70]),
    (0x6E85, [0x6FFA]), (0x6E86, [0x6F35]), (0x6E87, [0x6F0A]), (0x6EA4, [0x99AE]), (0x6EB8, [0x6CDD]), (0x6EBC, [0x6FD5]),
    (0x6ED7, [0x6F77]), (0x6ED9, [0x532F]), (0x6EDA, [0x6EFE]), (0x6EDB, [0x6DEB]), (0x6EDD, [0x7027]), (0x6EDE, [0x6EEF]),
    (0x6EDF, [0x7067]), (0x6EE0, [0x7044]), (0x6EE1, [0x6EFF]), (0x6EE4, [0x6FFE]), (0x6EE5, [0x6FEB]), (0x6EE6, [0x7064]),
    (0x6EE8, [0x6FF1]), (0x6EE9, [0x7058]), (0x6EEA, [0x6FA6]), (0x6EF3, [0x6EF4])]),
  (0x6F, [
    (0x6F11, [0x6E89]), (0x6F19, [0x6E4D]), (0x6F44, [0x6F31]), (0x6F45, [0x704C]), (0x6F47, [0x701F]), (0x6F4B, [0x7032]),
    (0x6F4D, [0x6FF0]), (0x6F59, [0x6E88]), (0x6F5C, [0x6F5B]), (0x6F6C, [0x7058]), (0x6F74, [0x7026]), (0x6F79, [0x6F7A]),
    (0x6F81, [0x6F80]), (0x6F82, [0x6F84]), (0x6F91, [0x6E9C]), (0x6F9C, [0x703E]), (0x6FA3, [0x6D63]), (0x6FAB, [0x85D5]),
    (0x6FB0, [0x7032]), (0x6FD1, [0x7028]), (0x6FD2, [0x7015]), (0x6FE8, [0x6ECB]), (0x6FF3, [0x6F5B]), (0x6FF5, [0x6FF1]),
    (0x6FF6, [0x95CA])]),
  (0x70, [
    (0x7001, [0x6F3E]), (0x7013, [0x6F84]), (0x702C, [0x7028]), (0x704F, [0x705D]), (0x7055, [0x6F13]), (0x7061, [0x703E]),
    (0x706D, [0x6EC5]), (0x706E, [0x5149]), (0x706F, [0x71C8]), (0x7074, [0x70D8]), (0x7075, [0x9748]), (0x707E, [0x707D]),
    (0x707F, [0x71E6]), (0x7080, [0x716C]), (0x7089, [0x7210]), (0x708D, [0x53DB]), (0x7096, [0x71C9]), (0x7097, [0x5149]),
    (0x7098, [0x712E]), (0x709C, [0x7152]), (0x709D, [0x7197]), (0x70A4, [0x7167]), (0x70B2, [0x70B1]), (0x70B9, [0x9EDE]),
    (0x70BC, [0x7149]), (0x70BD, [0x71BE]), (0x70C1, [0x720D]), (0x70C2, [0x721B]), (0x70C3, [0x70F4]), (0x70D6, [0x707D]),
    (0x70DB, [0x71ED]), (0x70DF, [0x7159]), (0x70E6, [0x7169]), (0x70E7, [0x71D2]), (0x70E8, [0x71C1]), (0x70E9, [0x71F4]),
    (0x70EB, [0x71D9]), (0x70EC, [0x71FC]), (0x70ED, [0x71B1]), (0x70EE, [0x70C8]), (0x70F1, [0x70AF])]),
  (0x71, [
    (0x7103, [0x8D6B]), (0x7108, [0x7199]), (0x710F, [0x4E9F]), (0x7115, [0x7165]), (0x7116, [0x71DC]), (0x7118, [0x71FE]),
    (0x7134, [0x715C]), (0x713C, [0x71D2]), (0x7145, [0x935B]), (0x7151, [0x716E]), (0x7155, [0x7199]), (0x715B, [0x715A]),
    (0x7161, [0x71FC]), (0x717C, [0x7092]), (0x7188, [0x7199]), (0x71CC, [0x711A]), (0x71D4, [0x711A]), (0x71FD, [0x71FE]),
    (0x71FF, [0x8000])]),
  (0x72, [
    (0x7213, [0x7130]), (0x7215, [0x71EE]), (0x7224, [0x721B]), (0x7225, [0x71ED]), (0x7231, [0x611B]), (0x7232, [0x70BA]),
    (0x7237, [0x723A]), (0x723C, [0x4FCE]), (0x7240, [0x5E8A]), (0x724D, [0x7258]), (0x7250, [0x9598]), (0x7266, [0x729B]),
    (0x7275, [0x727D]), (0x727A, [0x72A7]), (0x7282, [0x7281]), (0x7286, [0x7279]), (0x7287, [0x5954]), (0x728A, [0x72A2]),
    (0x72A0, [0x72A7]), (0x72B2, [0x8C7A]), (0x72B3, [0x8C79]), (0x72B4, [0x8C7B]), (0x72B6, [0x72C0]), (0x72B7, [0x7377]),
    (0x72B8, [0x7341]), (0x72B9, [0x7336]), (0x72C8, [0x72FD]), (0x72CC, [0x7329]), (0x72D6, [0x8C81]), (0x72DE, [0x7370]),
    (0x72E2, [0x8C89]), (0x72E5, [0x5F87]), (0x72EC, [0x7368]), (0x72ED, [0x72F9]), (0x72EE, [0x7345]), (0x72EF, [0x736A]),
    (0x72F0, [0x7319]), (0x72F1, [0x7344]), (0x72F2, [0x733B]), (0x72F6, [0x8C68])]),
  (0x73, [
    (0x7302, [0x608D]), (0x7303, [0x736B]), (0x730E, [0x7375]), (0x730F, [0x8C5C]), (0x7312, [0x53AD]), (0x7315, [0x737C]),
    (0x731F, [0x7375]), (0x7321, [0x7380]), (0x7328, [0x733F]), (0x732A, [0x8C6C]), (0x732B, [0x8C93]), (0x732C, [0x875F]),
    (0x732E, [0x737B]), (0x7343, [0x5446]), (0x7356, [0x8C76]), (0x7363, [0x7378]), (0x7367, [0x72F7]), (0x736D, [0x737A]),
    (0x7385, [0x5999]), (0x7391, [0x74A3]), (0x739B, [0x746A]), (0x73AA, [0x7433]), (0x73AE, [0x744B]), (0x73AF, [0x74B0]),
    (0x73B0, [0x73FE]), (0x73B1, [0x7472]), (0x73BA, [0x74BD]), (0x73CF, [0x73A8]), (0x73D1, [0x74CF]), (0x73E1, [0x7434]),
    (0x73E4, [0x5BF6]), (0x73F2, [0x743F])]),
  (0x74, [
    (0x740E, [0x74A1]), (0x740F, [0x7489]), (0x7410, [0x7463]), (0x7416, [0x76DE]), (0x7439, [0x7434]), (0x743C, [0x74CA]),
    (0x7447, [0x73B3]), (0x7458, [0x740A]), (0x746C, [0x65D2]), (0x7474, [0x73A8]), (0x7476, [0x7464]), (0x7477, [0x74A6]),
    (0x7484, [0x749F]), (0x748E, [0x74D4]), (0x749D, [0x7470]), (0x74A2, [0x7460]), (0x74C8, [0x7483]), (0x74D2, [0x74DA]),
    (0x74E1, [0x57F7]), (0x74EB, [0x76C6]), (0x74EE, [0x7515]), (0x74EF, [0x750C])]),
  (0x75, [
    (0x7501, [0x74F6]), (0x7506, [0x74F7]), (0x751B, [0x751C]), (0x751E, [0x5617]), (0x7523, [0x7522]), (0x7524, [0x8564]),
    (0x7535, [0x96FB]), (0x753B, [0x756B]), (0x7542, [0x755D]), (0x7544, [0x7559]), (0x7545, [0x66A2]), (0x7546, [0x755D]),
    (0x754D, [0x754C]), (0x7563, [0x7B54]), (0x756D, [0x756C]), (0x756E, [0x755D]), (0x7572, [0x756C]), (0x7573, [0x758A]),
    (0x7574, [0x7587]), (0x7575, [0x756B]), (0x757B, [0x584D]), (0x7583, [0x58A5]), (0x758E, [0x758F]), (0x7596, [0x7664]),
    (0x7597, [0x7642]), (0x7598, [0x809B]), (0x759F, [0x7627]), (0x75A0, [0x7658]), (0x75A1, [0x760D]), (0x75A9, [0x7601]),
    (0x75AC, [0x7667]), (0x75AE, [0x7621]), (0x75AF, [0x760B]), (0x75B4, [0x75FE]), (0x75C8, [0x7670]), (0x75C9, [0x75D9]),
    (0x75D2, [0x7662]), (0x75E8, [0x7646]), (0x75E9, [0x7626]), (0x75EA, [0x7613]), (0x75EB, [0x7647]), (0x75F3, [0x75F2]),
    (0x75F4, [0x7661]), (0x75F5, [0x60B8])]),
  (0x76, [
    (0x7605, [0x7649]), (0x7606, [0x762E]), (0x7609, [0x6108]), (0x7617, [0x761E]), (0x7618, [0x763A]), (0x762A, [0x765F]),
    (0x762B, [0x7671]), (0x762C, [0x8139]), (0x7631, [0x5AD5]), (0x763B, [0x763A]), (0x763E, [0x766E]), (0x763F, [0x766D]),
    (0x7645, [0x7624]), (0x764F, [0x761D]), (0x7651, [0x81BF]), (0x7652, [0x6108]), (0x765E, [0x7669]), (0x7663, [0x766C]),
    (0x766B, [0x7672]), (0x767A, [0x767C]), (0x7690, [0x768B]), (0x7691, [0x769A]), (0x76A1, [0x769E]), (0x76B1, [0x76BA]),
    (0x76B2, [0x76B8]), (0x76B7, [0x9F13]), (0x76B9, [0x76B8]), (0x76BC, [0x9F13]), (0x76C7, [0x76CD]), (0x76CB, [0x7F3D]),
    (0x76CF, [0x76DE]), (0x76D0, [0x9E7D]), (0x76D1, [0x76E3]), (0x76D6, [0x84CB]), (0x76D7, [0x76DC]), (0x76D8, [0x76E4]),
    (0x76FB, [0x76FC])]),
  (0x77, [
    (0x770C, [0x7E23]), (0x770D, [0x7798]), (0x770E, [0x793A]), (0x7718, [0x614E]), (0x771E, [0x771F]), (0x7726, [0x7725]),
    (0x7740, [0x8457]), (0x7741, [0x775C]), (0x7742, [0x7709]), (0x7750, [0x775E]), (0x7751, [0x77BC]), (0x7764, [0x7765]),
    (0x7792, [0x779E]), (0x77A4, [0x77AC]), (0x77A9, [0x77DA]), (0x77B9, [0x66D6]), (0x77C1, [0x7785]), (0x77D6, [0x4695]),
    (0x77D9, [0x77B0]), (0x77DE, [0x8B4E]), (0x77DF, [0x69CA]), (0x77E6, [0x4FAF]), (0x77EB, [0x77EF]), (0x77F4, [0x7887]),
    (0x77F6, [0x78EF]), (0x77FE, [0x792C]), (0x77FF, [0x7926])]),
  (0x78, [
    (0x7800, [0x78AD]), (0x7801, [0x78BC]), (0x7815, [0x788E]), (0x7816, [0x78DA]), (0x7817, [0x7868]), (0x781A, [0x786F]),
    (0x781C, [0x78B8]), (0x7836, [0x73C0]), (0x783A, [0x792A]), (0x783B, [0x7931]), (0x783E, [0x792B]), (0x7840, [0x790E]),
    (0x7842, [0x9293]), (0x7847, [0x40E9]), (0x784B, [0x7919]), (0x784F, [0x7814]), (0x7855, [0x78A9]), (0x7856, [0x7864]),
    (0x7857, [0x78FD]), (0x7859, [0x78D1]), (0x785A, [0x7904]), (0x786E, [0x78BA]), (0x7877, [0x9E7C]), (0x788D, [0x7919]),
    (0x789B, [0x78E7]), (0x789C, [0x78E3]), (0x78AA, [0x7827]), (0x78AF, [0x7459]), (0x78B1, [0x9E7C]), (0x78BB, [0x78BA]),
    (0x78C2, [0x786B]), (0x78CE, [0x8C3F]), (0x78E5, [0x78CA]), (0x78F0, [0x58A1]), (0x78F8, [0x7887])]),
  (0x79, [
    (0x7910, [0x89F7]), (0x7920, [0x78C1]), (0x793C, [0x79AE]), (0x794E, [0x7995]), (0x7962, [0x79B0]), (0x796F, [0x798E]),
    (0x7977, [0x79B1]), (0x7978, [0x798D]), (0x7984, [0x797F]), (0x7985, [0x79AA]), (0x79A5, [0x797A]), (0x79A9, [0x7940]),
    (0x79B8, [0x8E42]), (0x79BB, [0x96E2]), (0x79CA, [0x5E74]), (0x79CC, [0x79CB]), (0x79CD, [0x7A2E]), (0x79CF, [0x8017]),
    (0x79D0, [0x8018]), (0x79D7, [0x98EB]), (0x79D8, [0x7955]), (0x79EF, [0x7A4D]), (0x79F0, [0x7A31]), (0x79F6, [0x7CA2]),
    (0x79FD, [0x7A62])]),
  (0x7A, [
    (0x7A06, [0x7A6D]), (0x7A09, [0x7CB3]), (0x7A23, [0x7A4C]), (0x7A2B, [0x798F]), (0x7A2D, [0x79F8]), (0x7A32, [0x7A3B]),
    (0x7A33, [0x7A69]), (0x7A38, [0x84C4]), (0x7A3E, [0x7A3F]), (0x7A42, [0x7A57]), (0x7A4F, [0x7A69]), (0x7A51, [0x7A61]),
    (0x7A5C, [0x7A2E]), (0x7A63, [0x7A70]), (0x7A64, [0x7CEF]), (0x7A6F, [0x7A61]), (0x7A77, [0x7AAE]), (0x7A82, [0x7262]),
    (0x7A83, [0x7ACA]), (0x7A89, [0x5BCE]), (0x7A8D, [0x7AC5]), (0x7A8E, [0x7AB5]), (0x7A93, [0x7A97]), (0x7A9C, [0x7AC4]),
    (0x7A9D, [0x7AA9]), (0x7AA5, [0x7ABA]), (0x7AA6, [0x7AC7]), (0x7AAD, [0x7AB6]), (0x7AB4, [0x586B]), (0x7ABB, [0x7A97]),
    (0x7AC2, [0x5BEE]), (0x7AC3, [0x7076]), (0x7AC6, [0x7AAE]), (0x7AC8, [0x7076]), (0x7AD2, [0x5947]), (0x7AD6, [0x8C4E]),
    (0x7ADA, [0x4F47]), (0x7ADC, [0x9F8D]), (0x7ADD, [0x4E26]), (0x7ADE, [0x7AF6]), (0x7AE2, [0x4FDF]), (0x7AEA, [0x8C4E]),
    (0x7AF8, [0x7AF6]), (0x7AFC, [0x7BF7]), (0x7AFE, [0x7BEA])]),
  (0x7B, [
    (0x7B03, [0x7BE4]), (0x7B0B, [0x7B4D]), (0x7B14, [0x7B46]), (0x7B15, [0x7B67]), (0x7B27, [0x518A]), (0x7B3A, [0x7B8B]),
    (0x7B3C, [0x7C60]), (0x7B3E, [0x7C69]), (0x7B42, [0x7BEA]), (0x7B5A, [0x7BF3]), (0x7B5B, [0x7BE9]), (0x7B5C, [0x7C39]),
    (0x7B5E, [0x7B56]), (0x7B66, [0x7BA1]), (0x7B6D, [0x7B97]), (0x7B6F, [0x7BB8]), (0x7B79, [0x7C4C]), (0x7B7A, [0x7B50]),
    (0x7B7E, [0x7C3D]), (0x7B80, [0x7C21]), (0x7B93, [0x7C59]), (0x7BA6, [0x7C00]), (0x7BA7, [0x7BCB]), (0x7BA8, [0x7C5C]),
    (0x7BA9, [0x7C6E]), (0x7BAA, [0x7C1E]), (0x7BAB, [0x7C2B]), (0x7BD1, [0x7C23]), (0x7BD3, [0x7C0D]), (0x7BED, [0x7C60]),
    (0x7BEE, [0x7C43]), (0x7BEF, [0x7C5B]), (0x7BF1, [0x7C6C]), (0x7BF2, [0x5F57])]),
  (0x7C, [
    (0x7C02, [0x5E57]), (0x7C12, [0x7BE1]), (0x7C16, [0x7C6A]), (0x7C18, [0x7C2B]), (0x7C41, [0x7C5F]), (0x7C44, [0x7C23]),
    (0x7C56, [0x7C64]), (0x7C58, [0x7C50]), (0x7C6D, [0x7C1B]), (0x7C74, [0x7CF4]), (0x7C7B, [0x985E]), (0x7C7C, [0x79C8]),
    (0x7C8B, [0x7CB9]), (0x7C93, [0x6CD4]), (0x7C9B, [0x8085]), (0x7C9C, [0x7CF6]), (0x7C9D, [0x7CF2]), (0x7CA7, [0x599D]),
    (0x7CAA, [0x7CDE]), (0x7CAE, [0x7CE7]), (0x7CC1, [0x7CDD]), (0x7CC2, [0x7CDD]), (0x7CC7, [0x9931]), (0x7CC9, [0x7CBD]),
    (0x7CCD, [0x7CA2]), (0x7CDB, [0x7CD6]), (0x7CE3, [0x7CDD]), (0x7CFA, [0x7CFE])]),
  (0x7D, [
    (0x7D27, [0x7DCA]), (0x7D28, [0x7E1B]), (0x7D43, [0x5F26]), (0x7D4B, [0x7E8A]), (0x7D4C, [0x7D93]), (0x7D56, [0x7E8A]),
    (0x7D64, [0x7DDA]), (0x7D6B, [0x7E8D]), (0x7D75, [0x7E6A]), (0x7D76, [0x7D55]), (0x7D77, [0x7E36]), (0x7D82, [0x7D71]),
    (0x7D8D, [0x7D3C]), (0x7D95, [0x7E54]), (0x7D98, [0x7E2B]), (0x7D99, [0x7E7C]), (0x7D9A, [0x7E8C]), (0x7DA4, [0x7D39]),
    (0x7DAB, [0x7DDA]), (0x7DB3, [0x7E43]), (0x7DCF, [0x7E3D]), (0x7DD0, [0x7E41]), (0x7DD1, [0x7DA0]), (0x7DD6, [0x7DD2]),
    (0x7DDC, [0x7DBF]), (0x7DDF, [0x91CD]), (0x7DFC, [0x7E15]), (0x7DFE, [0x7E8F])]),
  (0x7E, [
    (0x7E01, [0x7DE3]), (0x7E02, [0x7E3D]), (0x7E04, [0x7E69]), (0x7E19, [0x4A78]), (0x7E26, [0x7E31]), (0x7E4A, [0x7E96]),
    (0x7E56, [0x5098]), (0x7E59, [0x7FFB]), (0x7E5B, [0x7DBD]), (0x7E6E, [0x97C1]), (0x7E89, [0x7E98]), (0x7E8E, [0x7E96]),
    (0x7E92, [0x7E8F]), (0x7E9F, [0x7CF9]), (0x7EA0, [0x7CFE]), (0x7EA1, [0x7D06]), (0x7EA2, [0x7D05]), (0x7EA3, [0x7D02]),
    (0x7EA5, [0x7D07]), (0x7EA6, [0x7D04]), (0x7EA7, [0x7D1A]), (0x7EA8, [0x7D08]), (0x7EA9, [0x7E8A]), (0x7EAA, [0x7D00]),
    (0x7EAB, [0x7D09]), (0x7EAC, [0x7DEF]), (0x7EAD, [0x7D1C]), (0x7EAE, [0x7D18]), (0x7EAF, [0x7D14]), (0x7EB0, [0x7D15]),
    (0x7EB1, [0x7D17]), (0x7EB2, [0x7DB1]), (0x7EB3, [0x7D0D]), (0x7EB4, [0x7D1D]), (0x7EB5, [0x7E31]), (0x7EB6, [0x7DB8]),
    (0x7EB7, [0x7D1B]), (0x7EB8, [0x7D19]), (0x7EB9, [0x7D0B]), (0x7EBA, [0x7D21]), (0x7EBC, [0x7D16]), (0x7EBD, [0x7D10]),
    (0x7EBE, [0x7D13]), (0x7EBF, [0x7DDA]), (0x7EC0, [0x7D3A]), (0x7EC1, [0x7D32]), (0x7EC2, [0x7D31]), (0x7EC3, [0x7DF4]),
    (0x7EC4, [0x7D44]), (0x7EC5, [0x7D33]), (0x7EC6, [0x7D30]), (0x7EC7, [0x7E54]), (0x7EC8, [0x7D42]), (0x7EC9, [0x7E10]),
    (0x7ECA, [0x7D46]), (0x7ECB, [0x7D3C]), (0x7ECC, [0x7D40]), (0x7ECD, [0x7D39]), (0x7ECE, [0x7E79]), (0x7ECF, [0x7D93]),
    (0x7ED0, [0x7D3F]), (0x7ED1, [0x7D81]), (0x7ED2, [0x7D68]), (0x7ED3, [0x7D50]), (0x7ED4, [0x7D5D]), (0x7ED5, [0x7E5E]),
    (0x7ED6, [0x7D70]), (0x7ED7, [0x7D4E]), (0x7ED8, [0x7E6A]), (0x7ED9, [0x7D66]), (0x7EDA, [0x7D62]), (0x7EDB, [0x7D73]),
    (0x7EDC, [0x7D61]), (0x7EDD, [0x7D55]), (0x7EDE, [0x7D5E]), (0x7EDF, [0x7D71]), (0x7EE0, [0x7D86]), (0x7EE1, [0x7D83]),
    (0x7EE2, [0x7D79]), (0x7EE3, [0x7D89]), (0x7EE4, [0x7D8C]), (0x7EE5, [0x7D8F]), (0x7EE6, [0x7E27]), (0x7EE7, [0x7E7C]),
    (0x7EE8, [0x7D88]), (0x7EE9, [0x7E3E]), (0x7EEA, [0x7DD2]), (0x7EEB, [0x7DBE]), (0x7EED, [0x7E8C]), (0x7EEE, [0x7DBA]),
    (0x7EEF, [0x7DCB]), (0x7EF0, [0x7DBD]), (0x7EF2, [0x7DC4]), (0x7EF3, [0x7E69]), (0x7EF4, [0x7DAD]), (0x7EF5, [0x7DBF]),
    (0x7EF6, [0x7DAC]), (0x7EF7, [0x7E43]), (0x7EF8, [0x7DA2]), (0x7EFA, [0x7DB9]), (0x7EFB, [0x7DA3]), (0x7EFC, [0x7D9C]),
    (0x7EFD, [0x7DBB]), (0x7EFE, [0x7DB0]), (0x7EFF, [0x7DA0])]),
  (0x7F, [
    (0x7F01, [0x7DC7]), (0x7F02, [0x7DD9]), (0x7F03, [0x7DD7]), (0x7F04, [0x7DD8]), (0x7F05, [0x7DEC]), (0x7F06, [0x7E9C]),
    (0x7F07, [0x7DF9]), (0x7F08, [0x7DF2]), (0x7F09, [0x7DDD]), (0x7F0A, [0x7E15]), (0x7F0C, [0x7DE6]), (0x7F0E, [0x7DDE]),
    (0x7F11, [0x7DF1]), (0x7F12, [0x7E0B]), (0x7F13, [0x7DE9]), (0x7F14, [0x7DE0]), (0x7F15, [0x7E37]), (0x7F16, [0x7DE8]),
    (0x7F17, [0x7DE1]), (0x7F18, [0x7DE3]), (0x7F19, [0x7E09]), (0x7F1A, [0x7E1B]), (0x7F1B, [0x7E1F]), (0x7F1C, [0x7E1D]),
    (0x7F1D, [0x7E2B]), (0x7F1E, [0x7E17]), (0x7F1F, [0x7E1E]), (0x7F20, [0x7E8F]), (0x7F21, [0x7E2D]), (0x7F22, [0x7E0A]),
    (0x7F23, [0x7E11]), (0x7F24, [0x7E7D]), (0x7F25, [0x7E39]), (0x7F26, [0x7E35]), (0x7F27, [0x7E32]), (0x7F28, [0x7E93]),
    (0x7F29, [0x7E2E]), (0x7F2A, [0x7E46]), (0x7F2B, [0x7E45]), (0x7F2C, [0x7E88]), (0x7F2D, [0x7E5A]), (0x7F2E, [0x7E55]),
    (0x7F2F, [0x7E52]), (0x7F30, [0x97C1]), (0x7F31, [0x7E7E]), (0x7F32, [0x7E70]), (0x7F33, [0x7E6F]), (0x7F34, [0x7E73]),
    (0x7F35, [0x7E98]), (0x7F37, [0x5378]), (0x7F3E, [0x74F6]), (0x7F42, [0x7F4C]), (0x7F47, [0x6A3D]), (0x7F4E, [0x7F48]),
    (0x7F51, [0x7DB2]), (0x7F53, [0x7F54]), (0x7F57, [0x7F85]), (0x7F58, [0x7F66]), (0x7F5A, [0x7F70]), (0x7F62, [0x7F77]),
    (0x7F74, [0x7F86]), (0x7F78, [0x7F70]), (0x7F81, [0x7F88]), (0x7F82, [0x7F65]), (0x7F83, [0x51AA]), (0x7F91, [0x8A98]),
    (0x7F97, [0x7F8C]), (0x7F99, [0x7F8E]), (0x7F9F, [0x7FA5]), (0x7FA1, [0x7FA8]), (0x7FA3, [0x7FA4]), (0x7FAE, [0x7FB9]),
    (0x7FB4, [0x7FB6]), (0x7FC4, [0x7FC5]), (0x7FC6, [0x7FE0]), (0x7FCD, [0x62AB]), (0x7FD8, [0x7FF9]), (0x7FDA, [0x7FEC]),
    (0x7FF6, [0x7FF1]), (0x7FFA, [0x7FF1])]),
  (0x80, [
    (0x8011, [0x7AEF]), (0x8021, [0x92E4]), (0x8022, [0x802E]), (0x8027, [0x802C]), (0x802F, [0x7A6B]), (0x8038, [0x8073]),
    (0x803B, [0x6065]), (0x8040, [0x8077]), (0x8042, [0x8076]), (0x804B, [0x807E]), (0x804C, [0x8077]), (0x804D, [0x8079]),
    (0x8054, [0x806F]), (0x805F, [0x5A7F]), (0x8061, [0x8070]), (0x8066, [0x8070]), (0x8068, [0x806F]), (0x8069, [0x8075]),
    (0x806A, [0x8070]), (0x806B, [0x806F]), (0x806E, [0x806F]), (0x8074, [0x807D]), (0x8083, [0x8085]), (0x8088, [0x8087]),
    (0x808E, [0x80AF]), (0x80A0, [0x8178]), (0x80A4, [0x819A]), (0x80AC, [0x75A3]), (0x80AD, [0x6712]), (0x80AE, [0x9AAF]),
    (0x80B4, [0x991A]), (0x80B7, [0x8181]), (0x80B9, [0x80B8]), (0x80BB, [0x80AF]), (0x80BE, [0x814E]), (0x80BF, [0x816B]),
    (0x80C0, [0x8139]), (0x80C1, [0x8107]), (0x80C6, [0x81BD]), (0x80DC, [0x52DD]), (0x80DF, [0x62C7]), (0x80E7, [0x6727]),
    (0x80E8, [0x8156]), (0x80EA, [0x81DA]), (0x80EB, [0x811B]), (0x80F6, [0x81A0]), (0x80F7, [0x80F8])]),
  (0x81, [
    (0x8103, [0x8106]), (0x8104, [0x8122]), (0x810D, [0x81BE]), (0x810F, [0x81DF]), (0x8110, [0x81CD]), (0x8111, [0x8166]),
    (0x8113, [0x81BF]), (0x8114, [0x81E0]), (0x811A, [0x8173]), (0x8123, [0x5507]), (0x8131, [0x812B]), (0x8133, [0x8166]),
    (0x8134, [0x75DE]), (0x8136, [0x8161]), (0x8138, [0x81C9]), (0x814A, [0x81D8]), (0x8158, [0x8195]), (0x816D, [0x9F76]),
    (0x817B, [0x81A9]), (0x817D, [0x8183]), (0x817E, [0x9A30]), (0x8191, [0x81CF]), (0x8193, [0x8178]), (0x81AC, [0x8106]),
    (0x81B8, [0x9AD3]), (0x81C8, [0x81D8]), (0x81D3, [0x81DF]), (0x81D5, [0x8198]), (0x81DC, [0x81E2]), (0x81F0, [0x81ED])]),
  (0x82, [
    (0x8203, [0x8204]), (0x8206, [0x8F3F]), (0x820B, [0x91C1]), (0x820E, [0x820D]), (0x8217, [0x8216]), (0x8218, [0x9928]),
    (0x8221, [0x8239]), (0x8229, [0x8239]), (0x8230, [0x8266]), (0x8231, [0x8259]), (0x823B, [0x826B]), (0x8241, [0x9020]),
    (0x824A, [0x8236]), (0x8265, [0x696B]), (0x8270, [0x8271]), (0x8273, [0x8277]), (0x8276, [0x8277]), (0x827A, [0x85DD]),
    (0x8282, [0x7BC0]), (0x8288, [0x7F8A]), (0x828C, [0x828B]), (0x8294, [0x5349]), (0x8297, [0x858C]), (0x829C, [0x856A]),
    (0x82A6, [0x8606]), (0x82C1, [0x84EF]), (0x82C7, [0x8466]), (0x82C8, [0x85F6]), (0x82CB, [0x83A7]), (0x82CD, [0x84BC]),
    (0x82CF, [0x8607]), (0x82D0, [0x7B2C]), (0x82E9, [0x8469]), (0x82F6, [0x85BE]), (0x82F9, [0x860B])]),
  (0x83, [
    (0x8306, [0x8305]), (0x830E, [0x8396]), (0x830F, [0x8622]), (0x8311, [0x8526]), (0x8314, [0x584B]), (0x8315, [0x7162]),
    (0x8318, [0x8354]), (0x831F, [0x7B46]), (0x8327, [0x7E6D]), (0x8330, [0x8438]), (0x8345, [0x7B54]), (0x8350, [0x85A6]),
    (0x8358, [0x838A]), (0x8359, [0x8598]), (0x835A, [0x83A2]), (0x835B, [0x8558]), (0x835C, [0x84FD]), (0x835E, [0x854E]),
    (0x835F, [0x8588]), (0x8360, [0x85BA]), (0x8361, [0x8569]), (0x8363, [0x69AE]), (0x8364, [0x8477]), (0x8365, [0x6ECE]),
    (0x8366, [0x7296]), (0x8367, [0x7192]), (0x8368, [0x8541]), (0x8369, [0x85CE]), (0x836A, [0x84C0]), (0x836B, [0x852D]),
    (0x836C, [0x8552]), (0x836D, [0x8452]), (0x836E, [0x8464]), (0x836F, [0x85E5]), (0x838F, [0x838E]), (0x8391, [0x84EC]),
    (0x83AC, [0x8442]), (0x83AD, [0x7BC0]), (0x83B1, [0x840A]), (0x83B2, [0x84EE]), (0x83B3, [0x8494]), (0x83B4, [0x8435]),
    (0x83B7, [0x7372]), (0x83B8, [0x8555]), (0x83B9, [0x7469]), (0x83BA, [0x9DAF]), (0x83BC, [0x84F4]), (0x83BE, [0x83BD]),
    (0x83C4, [0x6771]), (0x83CF, [0x8377]), (0x83EB, [0x84F3]), (0x83ED, [0x82D4]), (0x83F7, [0x5E1A])]),
  (0x84, [
    (0x8402, [0x44A9]), (0x8415, [0x85BA]), (0x841A, [0x8600]), (0x841D, [0x863F]), (0x8420, [0x840C]), (0x8424, [0x87A2]),
    (0x8425, [0x71DF]), (0x8426, [0x7E08]), (0x8427, [0x856D]), (0x8428, [0x85A9]), (0x842E, [0x861B]), (0x8432, [0x8431]),
    (0x8441, [0x59DC]), (0x8445, [0x83F9]), (0x8455, [0x839A]), (0x8462, [0x84CB]), (0x846A, [0x858A]), (0x846F, [0x85E5]),
    (0x8483, [0x7BC6]), (0x8487, [0x8546]), (0x8489, [0x8562]), (0x848B, [0x8523]), (0x848C, [0x851E]), (0x8493, [0x84F4]),
    (0x84AD, [0x82BB]), (0x84B7, [0x8553]), (0x84D5, [0x8325]), (0x84D8, [0x8509]), (0x84DD, [0x85CD]), (0x84DF, [0x858A]),
    (0x84E3, [0x8577]), (0x84E5, [0x93A3]), (0x84E6, [0x9A40])]),
  (0x85, [
    (0x8512, [0x8477]), (0x8515, [0x8482]), (0x8533, [0x84A8]), (0x8535, [0x85CF]), (0x8537, [0x8594]), (0x8539, [0x861E]),
    (0x853A, [0x85FA]), (0x853C, [0x85F9]), (0x853F, [0x848D]), (0x8545, [0x6F2B]), (0x854B, [0x854A]), (0x854F, [0x85F8]),
    (0x855A, [0x843C]), (0x856B, [0x8463]), (0x8570, [0x8580]), (0x8572, [0x8604]), (0x8574, [0x860A]), (0x85AB, [0x85B0]),
    (0x85AC, [0x85E5]), (0x85AE, [0x85EA]), (0x85BB, [0x85FB]), (0x85BC, [0x852F]), (0x85CC, [0x8524]), (0x85D3, [0x861A]),
    (0x85E1, [0x837B]), (0x85F4, [0x860A])]),
  (0x86, [
    (0x8602, [0x854A]), (0x860D, [0x85B0]), (0x8612, [0xFA20]), (0x8613, [0x8607]), (0x861C, [0x83CA]), (0x861D, [0x861E]),
    (0x8632, [0x8502]), (0x8637, [0x5914]), (0x8640, [0x9F4F]), (0x8641, [0x5914]), (0x8646, [0x8502]), (0x864F, [0x865C]),
    (0x8651, [0x616E]), (0x865A, [0x865B]), (0x865D, [0x864E]), (0x8666, [0x8665]), (0x866C, [0x866F]), (0x866D, [0x86C1]),
    (0x866E, [0x87E3]), (0x867D, [0x96D6]), (0x867E, [0x8766]), (0x867F, [0x8806]), (0x8680, [0x8755]), (0x8681, [0x87FB]),
    (0x8682, [0x879E]), (0x8689, [0x868A]), (0x8695, [0x8836]), (0x8698, [0x86D4]), (0x869D, [0x8814]), (0x86A6, [0x86BA]),
    (0x86AC, [0x8706]), (0x86CA, [0x8831]), (0x86CD, [0x87A2]), (0x86CE, [0x8823]), (0x86CF, [0x87F6]), (0x86E5, [0x86DE]),
    (0x86E7, [0x8744]), (0x86EE, [0x883B]), (0x86F0, [0x87C4]), (0x86F1, [0x86FA]), (0x86F2, [0x87EF]), (0x86F3, [0x8784]),
    (0x86F4, [0x8810])]),
  (0x87, [
    (0x870B, [0x8782]), (0x8716, [0x86D4]), (0x8717, [0x8778]), (0x871D, [0x871E]), (0x8721, [0x881F]), (0x8726, [0x8727]),
    (0x8728, [0x8776]), (0x8735, [0x870E]), (0x8739, [0x868B]), (0x873A, [0x9713]), (0x8747, [0x8805]), (0x8748, [0x87C8]),
    (0x8749, [0x87EC]), (0x8750, [0x7441]), (0x876B, [0x870D]), (0x8777, [0x86B8]), (0x877C, [0x87BB]), (0x877E, [0x8811]),
    (0x877F, [0x8805]), (0x8786, [0x86D3]), (0x878E, [0x878D]), (0x87A1, [0x868A]), (0x87A8, [0x87CE]), (0x87BE, [0x8693]),
    (0x87C1, [0x868A]), (0x87C7, [0x87C6]), (0x87CF, [0x8828]), (0x87D6, [0x87F4]), (0x87DA, [0x87DB]), (0x87DD, [0x87B6]),
    (0x87DF, [0x87E7]), (0x87E9, [0x87E8]), (0x87F0, [0x8828]), (0x87F8, [0x8821])]),
  (0x88, [
    (0x880F, [0x87F9]), (0x8829, [0x870D]), (0x8842, [0x8844]), (0x8845, [0x91C1]), (0x8846, [0x773E]), (0x8849, [0x5580]),
    (0x8854, [0x929C]), (0x8858, [0x929C]), (0x885E, [0x885B]), (0x8864, [0x8863]), (0x8865, [0x88DC]), (0x886C, [0x896F]),
    (0x886E, [0x889E]), (0x887B, [0x88A1]), (0x8884, [0x8956]), (0x8885, [0x88CA]), (0x889A, [0x894F]), (0x889C, [0x896A]),
    (0x88A0, [0x889F]), (0x88A6, [0x463F]), (0x88AD, [0x8972]), (0x88B3, [0x88B2]), (0x88B5, [0x887D]), (0x88B7, [0x88CC]),
    (0x88BF, [0x8902]), (0x88C5, [0x88DD]), (0x88C6, [0x8960]), (0x88CF, [0x88E1]), (0x88D6, [0x8897]), (0x88E0, [0x88D9]),
    (0x88E2, [0x8933]), (0x88E3, [0x895D]), (0x88E4, [0x8932]), (0x88E5, [0x8947]), (0x88E9, [0x890C]), (0x88ED, [0x892B]),
    (0x88F5, [0x88F4])]),
  (0x89, [
    (0x8901, [0x88F9]), (0x8903, [0x88C9]), (0x891B, [0x8938]), (0x8924, [0x8911]), (0x8934, [0x8964]), (0x8943, [0x8912]),
    (0x894D, [0x96DC]), (0x8962, [0x8892]), (0x8987, [0x9738]), (0x898A, [0x7F88]), (0x8997, [0x4F3A]), (0x899A, [0x89BA]),
    (0x899C, [0x773A]), (0x89A7, [0x89BD]), (0x89B3, [0x89C0]), (0x89BB, [0x89B7]), (0x89BC, [0x89B6]), (0x89C1, [0x898B]),
    (0x89C2, [0x89C0]), (0x89C3, [0x898E]), (0x89C4, [0x898F]), (0x89C5, [0x8993]), (0x89C6, [0x8996]), (0x89C7, [0x8998]),
    (0x89C8, [0x89BD]), (0x89C9, [0x89BA]), (0x89CA, [0x89AC]), (0x89CB, [0x89A1]), (0x89CC, [0x89BF]), (0x89CE, [0x89A6]),
    (0x89CF, [0x89AF]), (0x89D0, [0x89B2]), (0x89D1, [0x89B7]), (0x89DE, [0x89F4]), (0x89E6, [0x89F8]), (0x89E7, [0x89E3]),
    (0x89F5, [0x89E5]), (0x89FD, [0x89FF])]),
  (0x8A, [
    (0x8A05, [0x8A04]), (0x8A14, [0x8ABE]), (0x8A2B, [0x4FE1]), (0x8A33, [0x8B6F]), (0x8A3C, [0x8B49]), (0x8A3D, [0x8A6C]),
    (0x8A5F, [0x8B8B]), (0x8A64, [0x8B0A]), (0x8A6F, [0x46DB]), (0x8A76, [0x916C]), (0x8A78, [0x8B0E]), (0x8A7A, [0x9298]),
    (0x8A7B, [0x54AF]), (0x8A7E, [0x8A29]), (0x8A88, [0x8AA3]), (0x8A89, [0x8B7D]), (0x8A8A, [0x8B04]), (0x8A90, [0x54E6]),
    (0x8AAC, [0x8AAA]), (0x8AAD, [0x8B80]), (0x8AB3, [0x8A58]), (0x8AE9, [0x8B5C]), (0x8AFD, [0x6105])]),
  (0x8B, [
    (0x8B09, [0x8A6D]), (0x8B1F, [0x6146]), (0x8B21, [0x8B20]), (0x8B2D, [0x8B7E]), (0x8B2E, [0x5616]), (0x8B38, [0x8B37]),
    (0x8B3F, [0x5632]), (0x8B4B, [0x8B95]), (0x8B4D, [0x61C9]), (0x8B52, [0x64AD]), (0x8B53, [0x8B7F]), (0x8B61, [0x8B9C]),
    (0x8B68, [0x5665]), (0x8B71, [0x5584]), (0x8B72, [0x8B93]), (0x8B83, [0x8B9A]), (0x8B87, [0x8AC2]), (0x8B8D, [0x8AE4]),
    (0x8B90, [0x8B8E]), (0x8B9B, [0x56C8]), (0x8BA0, [0x8A00]), (0x8BA1, [0x8A08]), (0x8BA2, [0x8A02]), (0x8BA3, [0x8A03]),
    (0x8BA4, [0x8A8D]), (0x8BA5, [0x8B4F]), (0x8BA6, [0x8A10]), (0x8BA7, [0x8A0C]), (0x8BA8, [0x8A0E]), (0x8BA9, [0x8B93]),
    (0x8BAA, [0x8A15]), (0x8BAB, [0x8A16]), (0x8BAC, [0x8A17]), (0x8BAD, [0x8A13]), (0x8BAE, [0x8B70]), (0x8BAF, [0x8A0A]),
    (0x8BB0, [0x8A18]), (0x8BB2, [0x8B1B]), (0x8BB3, [0x8AF1]), (0x8BB4, [0x8B33]), (0x8BB5, [0x8A4E]), (0x8BB6, [0x8A1D]),
    (0x8BB7, [0x8A25]), (0x8BB8, [0x8A31]), (0x8BB9, [0x8A1B]), (0x8BBA, [0x8AD6]), (0x8BBB, [0x8A29]), (0x8BBC, [0x8A1F]),
    (0x8BBD, [0x8AF7]), (0x8BBE, [0x8A2D]), (0x8BBF, [0x8A2A]), (0x8BC0, [0x8A23]), (0x8BC1, [0x8B49]), (0x8BC2, [0x8A41]),
    (0x8BC3, [0x8A36]), (0x8BC4, [0x8A55]), (0x8BC5, [0x8A5B]), (0x8BC6, [0x8B58]), (0x8BC7, [0x8A57]), (0x8BC8, [0x8A50]),
    (0x8BC9, [0x8A34]), (0x8BCA, [0x8A3A]), (0x8BCB, [0x8A46]), (0x8BCC, [0x8B05]), (0x8BCD, [0x8A5E]), (0x8BCE, [0x8A58]),
    (0x8BCF, [0x8A54]), (0x8BD1, [0x8B6F]), (0x8BD2, [0x8A52]), (0x8BD3, [0x8A86]), (0x8BD4, [0x8A84]), (0x8BD5, [0x8A66]),
    (0x8BD6, [0x8A7F]), (0x8BD7, [0x8A69]), (0x8BD8, [0x8A70]), (0x8BD9, [0x8A7C]), (0x8BDA, [0x8AA0]), (0x8BDB, [0x8A85]),
    (0x8BDD, [0x8A71]), (0x8BDE, [0x8A95]), (0x8BDF, [0x8A6C]), (0x8BE0, [0x8A6E]), (0x8BE1, [0x8A6D]), (0x8BE2, [0x8A62]),
    (0x8BE3, [0x8A63]), (0x8BE4, [0x8ACD]), (0x8BE5, [0x8A72]), (0x8BE6, [0x8A73]), (0x8BE7, [0x8A6B]), (0x8BE8, [0x8AE2]),
    (0x8BE9, [0x8A61]), (0x8BEB, [0x8AA1]), (0x8BEC, [0x8AA3]), (0x8BED, [0x8A9E]), (0x8BEE, [0x8A9A]), (0x8BEF, [0x8AA4]),
    (0x8BF0, [0x8AA5]), (0x8BF1, [0x8A98]), (0x8BF2, [0x8AA8]), (0x8BF3, [0x8A91]), (0x8BF4, [0x8AAA]), (0x8BF5, [0x8AA6]),
    (0x8BF6, [0x8A92]), (0x8BF7, [0x8ACB]), (0x8BF8, [0x8AF8]), (0x8BF9, [0x8ACF]), (0x8BFA, [0x8AFE]), (0x8BFB, [0x8B80]),
    (0x8BFC, [0x8AD1]), (0x8BFD, [0x8AB9]), (0x8BFE, [0x8AB2]), (0x8BFF, [0x8AC9])]),
  (0x8C, [
    (0x8C00, [0x8ADB]), (0x8C01, [0x8AB0]), (0x8C02, [0x8AD7]), (0x8C03, [0x8ABF]), (0x8C04, [0x8AC2]), (0x8C05, [0x8AD2]),
    (0x8C06, [0x8AC4]), (0x8C07, [0x8AB6]), (0x8C08, [0x8AC7]), (0x8C09, [0x8B85]), (0x8C0A, [0x8ABC]), (0x8C0B, [0x8B00]),
    (0x8C0C, [0x8AF6]), (0x8C0D, [0x8ADC]), (0x8C0E, [0x8B0A]), (0x8C0F, [0x8AEB]), (0x8C10, [0x8AE7]), (0x8C11, [0x8B14]),
    (0x8C12, [0x8B01]), (0x8C13, [0x8B02]), (0x8C14, [0x8AE4]), (0x8C15, [0x8AED]), (0x8C16, [0x8AFC]), (0x8C17, [0x8B92]),
    (0x8C18, [0x8AEE]), (0x8C19, [0x8AF3]), (0x8C1A, [0x8AFA]), (0x8C1B, [0x8AE6]), (0x8C1C, [0x8B0E]), (0x8C1D, [0x8ADE]),
    (0x8C1E, [0x8ADD]), (0x8C1F, [0x8B28]), (0x8C20, [0x8B9C]), (0x8C21, [0x8B16]), (0x8C22, [0x8B1D]), (0x8C23, [0x8B20]),
    (0x8C24, [0x8B17]), (0x8C25, [0x8B1A]), (0x8C26, [0x8B19]), (0x8C27, [0x8B10]), (0x8C28, [0x8B39]), (0x8C29, [0x8B3E]),
    (0x8C2A, [0x8B2B]), (0x8C2B, [0x8B7E]), (0x8C2C, [0x8B2C]), (0x8C2D, [0x8B5A]), (0x8C2E, [0x8B56]), (0x8C2F, [0x8B59]),
    (0x8C30, [0x8B95]), (0x8C31, [0x8B5C]), (0x8C32, [0x8B4E]), (0x8C33, [0x8B9E]), (0x8C34, [0x8B74]), (0x8C35, [0x8B6B]),
    (0x8C36, [0x8B96]), (0x8C4A, [0x79AE]), (0x8C53, [0x8277]), (0x8C54, [0x8277]), (0x8C63, [0x8C5C]), (0x8C6E, [0x8C76]),
    (0x8C7C, [0x8C94]), (0x8C8E, [0x730A]), (0x8C9F, [0x54E1]), (0x8CA3, [0x8CB8]), (0x8CAD, [0x8CEA]), (0x8CAE, [0x8CB3]),
    (0x8CCD, [0x8D13]), (0x8CCE, [0x8CE4]), (0x8CD6, [0x8CD2]), (0x8CDB, [0x8D0A]), (0x8CE9, [0x8CE8])]),
  (0x8D, [
    (0x8D01, [0x6557]), (0x8D0B, [0x8D17]), (0x8D11, [0x8D1B]), (0x8D12, [0x8CE2]), (0x8D1C, [0x8D13]), (0x8D1D, [0x8C9D]),
    (0x8D1E, [0x8C9E]), (0x8D1F, [0x8CA0]), (0x8D21, [0x8CA2]), (0x8D22, [0x8CA1]), (0x8D23, [0x8CAC]), (0x8D24, [0x8CE2]),
    (0x8D25, [0x6557]), (0x8D26, [0x8CEC]), (0x8D27, [0x8CA8]), (0x8D28, [0x8CEA]), (0x8D29, [0x8CA9]), (0x8D2A, [0x8CAA]),
    (0x8D2B, [0x8CA7]), (0x8D2C, [0x8CB6]), (0x8D2D, [0x8CFC]), (0x8D2E, [0x8CAF]), (0x8D2F, [0x8CAB]), (0x8D30, [0x8CB3]),
    (0x8D31, [0x8CE4]), (0x8D32, [0x8CC1]), (0x8D33, [0x8CB0]), (0x8D34, [0x8CBC]), (0x8D35, [0x8CB4]), (0x8D36, [0x8CBA]),
    (0x8D37, [0x8CB8]), (0x8D38, [0x8CBF]), (0x8D39, [0x8CBB]), (0x8D3A, [0x8CC0]), (0x8D3B, [0x8CBD]), (0x8D3C, [0x8CCA]),
    (0x8D3D, [0x8D04]), (0x8D3E, [0x8CC8]), (0x8D3F, [0x8CC4]), (0x8D41, [0x8CC3]), (0x8D42, [0x8CC2]), (0x8D43, [0x8D13]),
    (0x8D44, [0x8CC7]), (0x8D45, [0x8CC5]), (0x8D46, [0x8D10]), (0x8D48, [0x8CD1]), (0x8D49, [0x8CDA]), (0x8D4A, [0x8CD2]),
    (0x8D4B, [0x8CE6]), (0x8D4C, [0x8CED]), (0x8D4D, [0x8CEB]), (0x8D4E, [0x8D16]), (0x8D4F, [0x8CDE]), (0x8D50, [0x8CDC]),
    (0x8D52, [0x8CD9]), (0x8D53, [0x8CE1]), (0x8D54, [0x8CE0]), (0x8D55, [0x8CE7]), (0x8D56, [0x8CF4]), (0x8D57, [0x8CF5]),
    (0x8D58, [0x8D05]), (0x8D59, [0x8CFB]), (0x8D5A, [0x8CFA]), (0x8D5B, [0x8CFD]), (0x8D5C, [0x8CFE]), (0x8D5D, [0x8D17]),
    (0x8D5E, [0x8D0A]), (0x8D60, [0x8D08]), (0x8D61, [0x8D0D]), (0x8D62, [0x8D0F]), (0x8D63, [0x8D1B]), (0x8D6A, [0x8D6C]),
    (0x8D75, [0x8D99]), (0x8D76, [0x8D95]), (0x8D8B, [0x8DA8]), (0x8DAB, [0x8D85]), (0x8DB1, [0x8DB2]), (0x8DB8, [0x8E89]),
    (0x8DC3, [0x8E8D]), (0x8DC4, [0x8E4C]), (0x8DE5, [0x8DFA]), (0x8DEC, [0x8E5E]), (0x8DF4, [0x8E29]), (0x8DF5, [0x8E10]),
    (0x8DF7, [0x8E7A]), (0x8DF8, [0x8E55]), (0x8DF9, [0x8E9A]), (0x8DFB, [0x8E8B])]),
  (0x8E, [
    (0x8E08, [0x758F]), (0x8E0A, [0x8E34]), (0x8E0C, [0x8E8A]), (0x8E28, [0x8E64]), (0x8E2A, [0x8E64]), (0x8E2C, [0x8E93]),
    (0x8E2F, [0x8E91]), (0x8E32, [0x9041]), (0x8E36, [0x8E1F]), (0x8E46, [0x817F]), (0x8E4F, [0x8E44]), (0x8E51, [0x8EA1]),
    (0x8E52, [0x8E63]), (0x8E5D, [0x5C63]), (0x8E6E, [0x8E9A]), (0x8E77, [0x8E76]), (0x8E7F, [0x8EA5]), (0x8E8F, [0x8EAA]),
    (0x8E9B, [0x8B86]), (0x8E9C, [0x8EA6]), (0x8EA7, [0x5C63]), (0x8EAD, [0x803D]), (0x8EAF, [0x8EC0]), (0x8EB0, [0x9AD4]),
    (0x8EB1, [0x8EB2]), (0x8EB7, [0x77EE]), (0x8EC1, [0x50C2]), (0x8EC4, [0x8077]), (0x8EC6, [0x9AD4]), (0x8EDA, [0x8ED1]),
    (0x8EE2, [0x8F49]), (0x8EF0, [0x8F29]), (0x8EF6, [0x8EDB]), (0x8EFD, [0x8F15])]),
  (0x8F, [
    (0x8F0F, [0x8F36]), (0x8F19, [0x8F12]), (0x8F28, [0x9327]), (0x8F2D, [0x8EDF]), (0x8F3A, [0x8F1C]), (0x8F3C, [0x8F40]),
    (0x8F66, [0x8ECA]), (0x8F67, [0x8ECB]), (0x8F68, [0x8ECC]), (0x8F69, [0x8ED2]), (0x8F6B, [0x8ED4]), (0x8F6C, [0x8F49]),
    (0x8F6D, [0x8EDB]), (0x8F6E, [0x8F2A]), (0x8F6F, [0x8EDF]), (0x8F70, [0x8F5F]), (0x8F71, [0x8EF2]), (0x8F72, [0x8EFB]),
    (0x8F73, [0x8F64]), (0x8F74, [0x8EF8]), (0x8F76, [0x8EFC]), (0x8F77, [0x8EE4]), (0x8F78, [0x8EEB]), (0x8F79, [0x8F62]),
    (0x8F7A, [0x8EFA]), (0x8F7B, [0x8F15]), (0x8F7C, [0x8EFE]), (0x8F7D, [0x8F09]), (0x8F7E, [0x8F0A]), (0x8F7F, [0x8F4E]),
    (0x8F82, [0x8F05]), (0x8F83, [0x8F03]), (0x8F84, [0x8F12]), (0x8F85, [0x8F14]), (0x8F86, [0x8F1B]), (0x8F87, [0x8F26]),
    (0x8F88, [0x8F29]), (0x8F89, [0x8F1D]), (0x8F8A, [0x8F25]), (0x8F8B, [0x8F1E]), (0x8F8D, [0x8F1F]), (0x8F8E, [0x8F1C]),
    (0x8F8F, [0x8F33]), (0x8F90, [0x8F3B]), (0x8F91, [0x8F2F]), (0x8F93, [0x8F38]), (0x8F94, [0x8F61]), (0x8F95, [0x8F45]),
    (0x8F96, [0x8F44]), (0x8F97, [0x8F3E]), (0x8F98, [0x8F46]), (0x8F99, [0x8F4D]), (0x8F9A, [0x8F54]), (0x8F9D, [0x8FAD]),
    (0x8F9E, [0x8FAD]), (0x8FA2, [0x8FA3]), (0x8FA4, [0x8FAD]), (0x8FA5, [0x859B]), (0x8FA9, [0x8FAF]), (0x8FAB, [0x8FAE]),
    (0x8FAC, [0x6591]), (0x8FB9, [0x908A]), (0x8FBA, [0x908A]), (0x8FBD, [0x907C]), (0x8FBE, [0x9054]), (0x8FC1, [0x9077]),
    (0x8FC7, [0x904E]), (0x8FC8, [0x9081]), (0x8FCA, [0x8FCE]), (0x8FD0, [0x904B]), (0x8FD8, [0x9084]), (0x8FD9, [0x9019]),
    (0x8FDB, [0x9032]), (0x8FDC, [0x9060]), (0x8FDD, [0x9055]), (0x8FDE, [0x9023]), (0x8FDF, [0x9072]), (0x8FE0, [0x5EFA]),
    (0x8FE9, [0x9087]), (0x8FEC, [0x5F80]), (0x8FEF, [0x9003]), (0x8FF9, [0x8DE1])]),
  (0x90, [
    (0x9002, [0x9069]), (0x9008, [0x8FE5]), (0x9009, [0x9078]), (0x900A, [0x905C]), (0x900E, [0x9052]), (0x9012, [0x905E]),
    (0x9013, [0x905E]), (0x9024, [0x5A11]), (0x9026, [0x9090]), (0x9029, [0x5954]), (0x902C, [0x8FF8]), (0x9037, [0x9016]),
    (0x903A, [0x9060]), (0x903B, [0x908F]), (0x9040, [0x96A8]), (0x9045, [0x9072]), (0x9049, [0x5075]), (0x904C, [0x8FD5]),
    (0x9057, [0x907A]), (0x9061, [0x6EAF]), (0x9065, [0x9059]), (0x9089, [0x908A]), (0x9093, [0x9127]), (0x909D, [0x913A]),
    (0x90A8, [0x6751]), (0x90AC, [0x9114]), (0x90AE, [0x90F5]), (0x90B9, [0x9112]), (0x90BA, [0x9134]), (0x90BB, [0x9130]),
    (0x90C4, [0x9699]), (0x90CF, [0x90DF]), (0x90D0, [0x9136]), (0x90D1, [0x912D]), (0x90D3, [0x9106]), (0x90DB, [0x57BA]),
    (0x90DE, [0x90CE]), (0x90E6, [0x9148]), (0x90E7, [0x9116]), (0x90F0, [0x966C]), (0x90F7, [0x9109]), (0x90F8, [0x9132]),
    (0x90FB, [0x9121])]),
  (0x91, [
    (0x910A, [0x9109]), (0x9115, [0x9109]), (0x913C, [0x9147]), (0x9154, [0x9189]), (0x9159, [0x659F]), (0x915D, [0x919E]),
    (0x9167, [0x916C]), (0x9171, [0x91AC]), (0x917C, [0x91A2]), (0x917D, [0x91C5]), (0x917E, [0x91C3]), (0x917F, [0x91C0]),
    (0x918E, [0x9E79]), (0x9196, [0x919E]), (0x91A4, [0x91AC]), (0x91B8, [0x91C0]), (0x91BB, [0x916C]), (0x91BF, [0x91BE]),
    (0x91C4, [0x91BE]), (0x91C8, [0x91CB]), (0x91CA, [0x91CB]), (0x91E1, [0x91DC]), (0x91EF, [0x92E9]), (0x91F2, [0x923B])]),
  (0x92, [
    (0x9206, [0x925B]), (0x9207, [0x65A7]), (0x920E, [0x9264]), (0x9213, [0x928B]), (0x9218, [0x4C19]), (0x921B, [0x934B]),
    (0x921F, [0x91E3]), (0x9244, [0x9435]), (0x925C, [0x9307]), (0x925F, [0x9239]), (0x9262, [0x7F3D]), (0x9271, [0x945B]),
    (0x9274, [0x9452]), (0x9281, [0x921E]), (0x9292, [0x9203]), (0x929E, [0x921E]), (0x92AD, [0x9322]), (0x92AE, [0x947E]),
    (0x92B5, [0x93D7]), (0x92D1, [0x942B]), (0x92D6, [0x9401]), (0x92EA, [0x8216]), (0x92EB, [0x9305]), (0x92ED, [0x92B3]),
    (0x92F3, [0x9444])]),
  (0x93, [
    (0x9318, [0x939A]), (0x932C, [0x934A]), (0x9330, [0x9265]), (0x9332, [0x9304]), (0x933D, [0x92C4]), (0x933E, [0x93E8]),
    (0x9348, [0x9260]), (0x9353, [0x93F6]), (0x935F, [0x924E]), (0x9362, [0x9351]), (0x936B, [0x936C]), (0x937F, [0x9319]),
    (0x9392, [0x8028]), (0x9399, [0x69CA]), (0x939C, [0x76E4]), (0x93A0, [0x92FC]), (0x93AD, [0x93AE]), (0x93B8, [0x942B]),
    (0x93BB, [0x9396]), (0x93C0, [0x942A]), (0x93C9, [0x93AA]), (0x93E0, [0x92D2]), (0x93E9, [0x93E8]), (0x93EC, [0x7F45]),
    (0x93F3, [0x931A]), (0x93FF, [0x9397])]),
  (0x94, [
    (0x9406, [0x9429]), (0x941A, [0x930F]), (0x941E, [0x8028]), (0x941F, [0x9415]), (0x9443, [0x929A]), (0x9449, [0x9240]),
    (0x945A, [0x947D]), (0x9473, [0x9375]), (0x9475, [0x7F50]), (0x9485, [0x91D2]), (0x9486, [0x91D3]), (0x9487, [0x91D4]),
    (0x9488, [0x91DD]), (0x9489, [0x91D8]), (0x948A, [0x91D7]), (0x948B, [0x91D9]), (0x948C, [0x91D5]), (0x948D, [0x91F7]),
    (0x948E, [0x91FA]), (0x948F, [0x91E7]), (0x9490, [0x91E4]), (0x9492, [0x91E9]), (0x9493, [0x91E3]), (0x9494, [0x9346]),
    (0x9495, [0x91F9]), (0x9496, [0x935A]), (0x9497, [0x91F5]), (0x9498, [0x9203]), (0x9499, [0x9223]), (0x949A, [0x9208]),
    (0x949B, [0x9226]), (0x949D, [0x920D]), (0x949E, [0x9214]), (0x94A0, [0x9209]), (0x94A1, [0x92C7]), (0x94A2, [0x92FC]),
    (0x94A4, [0x9210]), (0x94A5, [0x9470]), (0x94A6, [0x6B3D]), (0x94A7, [0x921E]), (0x94A8, [0x93A2]), (0x94A9, [0x9264]),
    (0x94AA, [0x9227]), (0x94AB, [0x9201]), (0x94AC, [0x9225]), (0x94AD, [0x9204]), (0x94AE, [0x9215]), (0x94AF, [0x9200]),
    (0x94B0, [0x923A]), (0x94B1, [0x9322]), (0x94B2, [0x9266]), (0x94B3, [0x9257]), (0x94B4, [0x9237]), (0x94B5, [0x7F3D]),
    (0x94B6, [0x9233]), (0x94B7, [0x9255]), (0x94B8, [0x923D]), (0x94B9, [0x9238]), (0x94BA, [0x925E]), (0x94BB, [0x947D]),
    (0x94BC, [0x926C]), (0x94BD, [0x926D]), (0x94BE, [0x9240]), (0x94BF, [0x923F]), (0x94C0, [0x923E]), (0x94C1, [0x9435]),
    (0x94C2, [0x9251]), (0x94C3, [0x9234]), (0x94C4, [0x9460]), (0x94C5, [0x925B]), (0x94C6, [0x925A]), (0x94C8, [0x9230]),
    (0x94C9, [0x9249]), (0x94CA, [0x9248]), (0x94CB, [0x924D]), (0x94CC, [0x922E]), (0x94CD, [0x9239]), (0x94CE, [0x9438]),
    (0x94CF, [0x9276]), (0x94D0, [0x92AC]), (0x94D1, [0x92A0]), (0x94D2, [0x927A]), (0x94D3, [0x92E9]), (0x94D4, [0x930F]),
    (0x94D5, [0x92AA]), (0x94D7, [0x92CF]), (0x94D9, [0x9403]), (0x94DB, [0x943A]), (0x94DC, [0x9285]), (0x94DD, [0x92C1]),
    (0x94DE, [0x92B1]), (0x94DF, [0x92A6]), (0x94E0, [0x93A7]), (0x94E1, [0x9358]), (0x94E2, [0x9296]), (0x94E3, [0x9291]),
    (0x94E4, [0x92CC]), (0x94E5, [0x92A9]), (0x94E7, [0x93F5]), (0x94E8, [0x9293]), (0x94E9, [0x93A9]), (0x94EA, [0x927F]),
    (0x94EB, [0x929A]), (0x94EC, [0x927B]), (0x94ED, [0x9298]), (0x94EE, [0x931A]), (0x94EF, [0x92AB]), (0x94F0, [0x9278]),
    (0x94F1, [0x92A5]), (0x94F2, [0x93DF]), (0x94F3, [0x9283]), (0x94F5, [0x92A8]), (0x94F6, [0x9280]), (0x94F7, [0x92A3]),
    (0x94F8, [0x9444]), (0x94F9, [0x9412]), (0x94FA, [0x8216]), (0x94FC, [0x9338]), (0x94FD, [0x92F1]), (0x94FE, [0x93C8]),
    (0x94FF, [0x93D7])]),
  (0x95, [
    (0x9500, [0x92B7]), (0x9501, [0x9396]), (0x9502, [0x92F0]), (0x9503, [0x92E5]), (0x9504, [0x92E4]), (0x9505, [0x934B]),
    (0x9506, [0x92EF]), (0x9507, [0x92E8]), (0x9508, [0x92B9]), (0x9509, [0x92BC]), (0x950B, [0x92D2]), (0x950C, [0x92C5]),
    (0x950E, [0x9426]), (0x950F, [0x9427]), (0x9510, [0x92B3]), (0x9511, [0x92BB]), (0x9512, [0x92C3]), (0x9513, [0x92DF]),
    (0x9514, [0x92E6]), (0x9515, [0x9312]), (0x9516, [0x9306]), (0x9517, [0x937A]), (0x9518, [0x9369]), (0x9519, [0x932F]),
    (0x951A, [0x9328]), (0x951B, [0x931B]), (0x951D, [0x9340]), (0x951E, [0x9301]), (0x951F, [0x9315]), (0x9521, [0x932B]),
    (0x9522, [0x932E]), (0x9523, [0x947C]), (0x9524, [0x939A]), (0x9525, [0x9310]), (0x9526, [0x9326]), (0x9527, [0x9455]),
    (0x9528, [0x9341]), (0x9529, [0x9308]), (0x952B, [0x9307]), (0x952D, [0x9320]), (0x952E, [0x9375]), (0x952F, [0x92F8]),
    (0x9530, [0x9333]), (0x9531, [0x9319]), (0x9532, [0x9365]), (0x9534, [0x9347]), (0x9535, [0x93D8]), (0x9536, [0x9376]),
    (0x9537, [0x9354]), (0x9538, [0x9364]), (0x9539, [0x936C]), (0x953B, [0x935B]), (0x953C, [0x93AA]), (0x953D, [0x9360]),
    (0x953E, [0x9370]), (0x953F, [0x9384]), (0x9540, [0x934D]), (0x9541, [0x9382]), (0x9542, [0x93E4]), (0x9543, [0x93A1]),
    (0x9544, [0x9428]), (0x9545, [0x9387]), (0x9547, [0x93AE]), (0x9549, [0x9398]), (0x954A, [0x9477]), (0x954B, [0x9482]),
    (0x954C, [0x942B]), (0x954D, [0x93B3]), (0x954E, [0x93BF]), (0x954F, [0x93A6]), (0x9550, [0x93AC]), (0x9551, [0x938A]),
    (0x9552, [0x93B0]), (0x9553, [0x93B5]), (0x9554, [0x944C]), (0x9556, [0x93E2]), (0x9557, [0x93DC]), (0x9558, [0x93DD]),
    (0x955A, [0x93F0]), (0x955B, [0x93DE]), (0x955C, [0x93E1]), (0x955D, [0x93D1]), (0x955E, [0x93C3]), (0x9562, [0x941D]),
    (0x9563, [0x9410]), (0x9564, [0x93F7]), (0x9565, [0x9465]), (0x9566, [0x9413]), (0x9567, [0x946D]), (0x9568, [0x9420]),
    (0x9569, [0x9479]), (0x956A, [0x93F9]), (0x956B, [0x9419]), (0x956C, [0x944A]), (0x956D, [0x9433]), (0x956E, [0x9436]),
    (0x956F, [0x9432]), (0x9570, [0x942E]), (0x9571, [0x943F]), (0x9572, [0x9454]), (0x9573, [0x9463]), (0x9574, [0x945E]),
    (0x9576, [0x9472]), (0x9578, [0x9577]), (0x957F, [0x9577]), (0x9586, [0x95BB]), (0x9587, [0x9589]), (0x9599, [0x9B27]),
    (0x959E, [0x95DC]), (0x95A2, [0x95DC]), (0x95B2, [0x95B1]), (0x95B7, [0x6BBA]), (0x95D7, [0x95DC]), (0x95D8, [0x9B25]),
    (0x95E8, [0x9580]), (0x95E9, [0x9582]), (0x95EA, [0x9583]), (0x95ED, [0x9589]), (0x95EE, [0x554F]), (0x95EF, [0x95D6]),
    (0x95F0, [0x958F]), (0x95F1, [0x95C8]), (0x95F2, [0x9591]), (0x95F4, [0x9593]), (0x95F5, [0x9594]), (0x95F7, [0x60B6]),
    (0x95F8, [0x9598]), (0x95F9, [0x9B27]), (0x95FA, [0x95A8]), (0x95FB, [0x805E]), (0x95FC, [0x95E5]), (0x95FD, [0x95A9]),
    (0x95FE, [0x95AD]), (0x95FF, [0x95D3])]),
  (0x96, [
    (0x9600, [0x95A5]), (0x9601, [0x95A3]), (0x9602, [0x95A1]), (0x9603, [0x95AB]), (0x9604, [0x9B2E]), (0x9605, [0x95B1]),
    (0x9606, [0x95AC]), (0x9608, [0x95BE]), (0x9609, [0x95B9]), (0x960A, [0x95B6]), (0x960B, [0x9B29]), (0x960C, [0x95BF]),
    (0x960D, [0x95BD]), (0x960E, [0x95BB]), (0x960F, [0x95BC]), (0x9610, [0x95E1]), (0x9611, [0x95CC]), (0x9612, [0x95C3]),
    (0x9614, [0x95CA]), (0x9615, [0x95CB]), (0x9616, [0x95D4]), (0x9617, [0x95D0]), (0x9619, [0x95D5]), (0x961A, [0x95DE]),
    (0x961F, [0x968A]), (0x9623, [0x5C79]), (0x9627, [0x9661]), (0x9633, [0x967D]), (0x9634, [0x9670]), (0x9635, [0x9663]),
    (0x9636, [0x968E]), (0x9641, [0x9640]), (0x9645, [0x969B]), (0x9646, [0x9678]), (0x9647, [0x96B4]), (0x9648, [0x9673]),
    (0x9649, [0x9658]), (0x964F, [0x968B]), (0x9652, [0x579D]), (0x9654, [0x5793]), (0x9655, [0x965D]), (0x9657, [0x5CED]),
    (0x9665, [0x9677]), (0x9667, [0x9689]), (0x9668, [0x9695]), (0x9669, [0x96AA]), (0x967A, [0x96AA]), (0x967F, [0x72F9]),
    (0x9684, [0x5824]), (0x968F, [0x96A8]), (0x9690, [0x96B1]), (0x969F, [0x9699]), (0x96A0, [0x96B1]), (0x96A3, [0x9130]),
    (0x96B6, [0x96B8]), (0x96B7, [0x96B8]), (0x96BA, [0x9DB4]), (0x96BD, [0x96CB]), (0x96BE, [0x96E3]), (0x96CF, [0x96DB]),
    (0x96D1, [0x96DC]), (0x96DD, [0x96CD]), (0x96DF, [0x5DB2]), (0x96E0, [0x8B8E]), (0x96E7, [0x96C6]), (0x96F0, [0x6C1B]),
    (0x96F3, [0x9742]), (0x96FA, [0x9727]), (0x96FE, [0x9727])]),
  (0x97, [
    (0x9701, [0x973D]), (0x970A, [0x9748]), (0x9711, [0x6CBE]), (0x9717, [0x96F6]), (0x971A, [0x9727]), (0x971B, [0x9748]),
    (0x9721, [0x9722]), (0x972D, [0x9744]), (0x9736, [0x6EC2]), (0x9751, [0x9752]), (0x9753, [0x975A]), (0x9759, [0x975C]),
    (0x9765, [0x9768]), (0x9775, [0x7D10]), (0x977D, [0x7D46]), (0x978C, [0x978D]), (0x9791, [0x97C3]), (0x9792, [0x97BD]),
    (0x9795, [0x786C]), (0x97A9, [0x9798]), (0x97AF, [0x97C9]), (0x97B5, [0x978B]), (0x97BE, [0x9774]), (0x97C8, [0x896A]),
    (0x97DB, [0x97B4]), (0x97E4, [0x896A]), (0x97E6, [0x97CB]), (0x97E7, [0x97CC]), (0x97E8, [0x97CD]), (0x97E9, [0x97D3]),
    (0x97EA, [0x97D9]), (0x97EB, [0x97DE]), (0x97EC, [0x97DC]), (0x97EE, [0x97ED]), (0x97F2, [0x9F4F]), (0x97F5, [0x97FB]),
    (0x97F9, [0x9360])]),
  (0x98, [
    (0x980B, [0x9867]), (0x981A, [0x9838]), (0x981F, [0x984D]), (0x9833, [0x8D6C]), (0x9834, [0x7A4E]), (0x983C, [0x8CF4]),
    (0x983D, [0x9839]), (0x983F, [0x9AED]), (0x9847, [0x60B4]), (0x9850, [0x8AE2]), (0x9854, [0x984F]), (0x9855, [0x986F]),
    (0x985A, [0x985B]), (0x9866, [0x6194]), (0x9875, [0x9801]), (0x9876, [0x9802]), (0x9877, [0x9803]), (0x9878, [0x9807]),
    (0x9879, [0x9805]), (0x987A, [0x9806]), (0x987B, [0x9808]), (0x987C, [0x980A]), (0x987D, [0x9811]), (0x987E, [0x9867]),
    (0x987F, [0x9813]), (0x9880, [0x980E]), (0x9881, [0x9812]), (0x9882, [0x980C]), (0x9883, [0x980F]), (0x9884, [0x9810]),
    (0x9885, [0x9871]), (0x9886, [0x9818]), (0x9887, [0x9817]), (0x9888, [0x9838]), (0x9889, [0x9821]), (0x988A, [0x9830]),
    (0x988B, [0x9832]), (0x988C, [0x981C]), (0x988D, [0x6F41]), (0x988F, [0x9826]), (0x9890, [0x9824]), (0x9891, [0x983B]),
    (0x9893, [0x9839]), (0x9894, [0x9837]), (0x9896, [0x7A4E]), (0x9897, [0x9846]), (0x9898, [0x984C]), (0x9899, [0x9852]),
    (0x989A, [0x984E]), (0x989B, [0x9853]), (0x989C, [0x984F]), (0x989D, [0x984D]), (0x989E, [0x9873]), (0x989F, [0x9862]),
    (0x98A0, [0x985B]), (0x98A1, [0x9859]), (0x98A2, [0x9865]), (0x98A4, [0x986B]), (0x98A5, [0x986C]), (0x98A6, [0x9870]),
    (0x98A7, [0x9874]), (0x98C7, [0x98C6]), (0x98C8, [0x98C6]), (0x98CE, [0x98A8]), (0x98CF, [0x98BA]), (0x98D2, [0x98AF]),
    (0x98D3, [0x98B6]), (0x98D4, [0x98B8]), (0x98D5, [0x98BC]), (0x98D7, [0x98C0]), (0x98D8, [0x98C4]), (0x98D9, [0x98C6]),
    (0x98DC, [0x7FFB]), (0x98DE, [0x98DB]), (0x98E2, [0x9951]), (0x98E8, [0x9957]), (0x98EC, [0x990A]), (0x98EE, [0x98F2]),
    (0x98F0, [0x98EF])]),
  (0x99, [
    (0x9901, [0x98EA]), (0x9908, [0x7CA2]), (0x990D, [0x995C]), (0x991D, [0x98FE]), (0x9920, [0x9905]), (0x992B, [0x991B]),
    (0x9939, [0x7CD6]), (0x993B, [0x7CD5]), (0x9963, [0x98DF]), (0x9965, [0x9951]), (0x9966, [0x98E5]), (0x9967, [0x9933]),
    (0x9968, [0x98E9]), (0x9969, [0x993C]), (0x996A, [0x98EA]), (0x996B, [0x98EB]), (0x996C, [0x98ED]), (0x996D, [0x98EF]),
    (0x996E, [0x98F2]), (0x996F, [0x991E]), (0x9970, [0x98FE]), (0x9971, [0x98FD]), (0x9972, [0x98FC]), (0x9973, [0x98FF]),
    (0x9974, [0x98F4]), (0x9975, [0x990C]), (0x9976, [0x9952]), (0x9977, [0x9909]), (0x9978, [0x9904]), (0x9979, [0x990E]),
    (0x997A, [0x9903]), (0x997B, [0x990F]), (0x997C, [0x9905]), (0x997D, [0x9911]), (0x997E, [0x9916]), (0x997F, [0x9913]),
    (0x9981, [0x9912]), (0x9983, [0x991C]), (0x9984, [0x991B]), (0x9985, [0x9921]), (0x9986, [0x9928]), (0x9987, [0x9937]),
    (0x9988, [0x994B]), (0x9989, [0x9936]), (0x998A, [0x993F]), (0x998B, [0x995E]), (0x998D, [0x9943]), (0x998E, [0x993A]),
    (0x998F, [0x993E]), (0x9990, [0x9948]), (0x9991, [0x9949]), (0x9992, [0x9945]), (0x9993, [0x994A]), (0x9994, [0x994C]),
    (0x9995, [0x995F]), (0x99C4, [0x99B1]), (0x99C5, [0x9A5B]), (0x99C6, [0x9A45]), (0x99C8, [0x9A45]), (0x99DE, [0x99DD]),
    (0x99E1, [0x7F75]), (0x99E6, [0x9A30]), (0x99EE, [0x99C1]), (0x99F4, [0x99ED])]),
  (0x9A, [
    (0x9A08, [0x99E2]), (0x9A0C, [0x9B03]), (0x9A10, [0x9A57]), (0x9A12, [0x9A37]), (0x9A13, [0x9A57]), (0x9A17, [0x9A19]),
    (0x9A23, [0x9B03]), (0x9A58, [0x9A3E]), (0x9A6C, [0x99AC]), (0x9A6D, [0x99AD]), (0x9A6E, [0x99B1]), (0x9A6F, [0x99B4]),
    (0x9A70, [0x99B3]), (0x9A71, [0x9A45]), (0x9A73, [0x99C1]), (0x9A74, [0x9A62]), (0x9A75, [0x99D4]), (0x9A76, [0x99DB]),
    (0x9A77, [0x99DF]), (0x9A78, [0x99D9]), (0x9A79, [0x99D2]), (0x9A7A, [0x9A36]), (0x9A7B, [0x99D0]), (0x9A7C, [0x99DD]),
    (0x9A7D, [0x99D1]), (0x9A7E, [0x99D5]), (0x9A7F, [0x9A5B]), (0x9A80, [0x99D8]), (0x9A81, [0x9A4D]), (0x9A82, [0x7F75]),
    (0x9A84, [0x9A55]), (0x9A85, [0x9A4A]), (0x9A86, [0x99F1]), (0x9A87, [0x99ED]), (0x9A88, [0x99E2]), (0x9A8A, [0x9A6A]),
    (0x9A8B, [0x9A01]), (0x9A8C, [0x9A57]), (0x9A8D, [0x9A02]), (0x9A8E, [0x99F8]), (0x9A8F, [0x99FF]), (0x9A90, [0x9A0F]),
    (0x9A91, [0x9A0E]), (0x9A92, [0x9A0D]), (0x9A93, [0x9A05]), (0x9A94, [0x9B03]), (0x9A96, [0x9A42]), (0x9A97, [0x9A19]),
    (0x9A98, [0x9A2D]), (0x9A9A, [0x9A37]), (0x9A9B, [0x9A16]), (0x9A9C, [0x9A41]), (0x9A9D, [0x9A2E]), (0x9A9E, [0x9A2B]),
    (0x9A9F, [0x9A38]), (0x9AA0, [0x9A43]), (0x9AA1, [0x9A3E]), (0x9AA2, [0x9A44]), (0x9AA4, [0x9A5F]), (0x9AA5, [0x9A65]),
    (0x9AA7, [0x9A64]), (0x9AC4, [0x9AD3]), (0x9AC5, [0x9ACF]), (0x9ACB, [0x9AD6]), (0x9ACC, [0x9AD5]), (0x9AD9, [0x9AD8]),
    (0x9AE0, [0x9AE1]), (0x9AE3, [0x4EFF]), (0x9AEA, [0x9AEE])]),
  (0x9B, [
    (0x9B00, [0x5243]), (0x9B02, [0x9B22]), (0x9B04, [0x5243]), (0x9B13, [0x9B22]), (0x9B2A, [0x9B25]), (0x9B2D, [0x9B25]),
    (0x9B47, [0x9B58]), (0x9B49, [0x9B4E]), (0x9B63, [0x9C6E]), (0x9B72, [0x9C78]), (0x9B89, [0x9BDB]), (0x9B8F, [0x9BF9]),
    (0x9B9D, [0x9BD7]), (0x9BCB, [0x9BCA]), (0x9BF5, [0x9C62])]),
  (0x9C, [
    (0x9C00, [0x9BC7]), (0x9C10, [0x9C77]), (0x9C15, [0x8766]), (0x9C1B, [0x9C2E]), (0x9C27, [0x4C8D]), (0x9C3A, [0x9C62]),
    (0x9C51, [0x9C09]), (0x9C65, [0x9C56]), (0x9C76, [0x9BD7]), (0x9C7C, [0x9B5A]), (0x9C7D, [0x9B5B]), (0x9C7F, [0x9B77]),
    (0x9C80, [0x9B68]), (0x9C81, [0x9B6F]), (0x9C82, [0x9B74]), (0x9C85, [0x9B81]), (0x9C86, [0x9B83]), (0x9C87, [0x9B8E]),
    (0x9C88, [0x9C78]), (0x9C8A, [0x9B93]), (0x9C8B, [0x9B92]), (0x9C8D, [0x9B91]), (0x9C8E, [0x9C5F]), (0x9C8F, [0x9B8D]),
    (0x9C90, [0x9B90]), (0x9C91, [0x9BAD]), (0x9C92, [0x9B9A]), (0x9C94, [0x9BAA]), (0x9C96, [0x9BA6]), (0x9C97, [0x9C02]),
    (0x9C99, [0x9C60]), (0x9C9A, [0x9C6D]), (0x9C9B, [0x9BAB]), (0x9C9C, [0x9BAE]), (0x9C9D, [0x9BBA]), (0x9C9E, [0x9BD7]),
    (0x9C9F, [0x9C58]), (0x9CA0, [0x9BC1]), (0x9CA1, [0x9C7A]), (0x9CA2, [0x9C31]), (0x9CA3, [0x9C39]), (0x9CA4, [0x9BC9]),
    (0x9CA5, [0x9C23]), (0x9CA6, [0x9C37]), (0x9CA7, [0x9BC0]), (0x9CA8, [0x9BCA]), (0x9CA9, [0x9BC7]), (0x9CAB, [0x9BFD]),
    (0x9CAD, [0x9BD6]), (0x9CAE, [0x9BEA]), (0x9CB0, [0x9BEB]), (0x9CB1, [0x9BE1]), (0x9CB2, [0x9BE4]), (0x9CB3, [0x9BE7]),
    (0x9CB5, [0x9BE2]), (0x9CB6, [0x9BF0]), (0x9CB7, [0x9BDB]), (0x9CB8, [0x9BE8]), (0x9CB9, [0x9C62]), (0x9CBB, [0x9BD4]),
    (0x9CBD, [0x9C08]), (0x9CBF, [0x9C68]), (0x9CC1, [0x9C2E]), (0x9CC3, [0x9C13]), (0x9CC4, [0x9C77]), (0x9CC5, [0x9C0D]),
    (0x9CC6, [0x9C12]), (0x9CC7, [0x9C09]), (0x9CCA, [0x9BFF]), (0x9CCC, [0x9C32]), (0x9CCD, [0x9C2D]), (0x9CCE, [0x9C28]),
    (0x9CCF, [0x9C25]), (0x9CD1, [0x9C1F]), (0x9CD2, [0x9C1C]), (0x9CD3, [0x9C33]), (0x9CD4, [0x9C3E]), (0x9CD5, [0x9C48]),
    (0x9CD6, [0x9C49]), (0x9CD7, [0x9C3B]), (0x9CD8, [0x9C35]), (0x9CD9, [0x9C45]), (0x9CDB, [0x9C3C]), (0x9CDC, [0x9C56]),
    (0x9CDD, [0x9C54]), (0x9CDE, [0x9C57]), (0x9CDF, [0x9C52]), (0x9CE0, [0x9C6F]), (0x9CE2, [0x9C67]), (0x9CE3, [0x9C63]),
    (0x9CEB, [0x96C1]), (0x9CEC, [0x9CE7])]),
  (0x9D, [
    (0x9D08, [0x96C1]), (0x9D2C, [0x9DAF]), (0x9D39, [0x7FD4]), (0x9D44, [0x9D1F]), (0x9D49, [0x9E1E]), (0x9D5E, [0x9D5D]),
    (0x9D8F, [0x96DE]), (0x9DB5, [0x96DB]), (0x9DC4, [0x96DE]), (0x9DC6, [0x9DCF])]),
  (0x9E, [
    (0x9E16, [0x9DB4]), (0x9E1F, [0x9CE5]), (0x9E20, [0x9CE9]), (0x9E21, [0x96DE]), (0x9E22, [0x9CF6]), (0x9E23, [0x9CF4]),
    (0x9E25, [0x9DD7]), (0x9E26, [0x9D09]), (0x9E27, [0x9DAC]), (0x9E28, [0x9D07]), (0x9E29, [0x9D06]), (0x9E2A, [0x9D23]),
    (0x9E2B, [0x9D87]), (0x9E2C, [0x9E15]), (0x9E2D, [0x9D28]), (0x9E2E, [0x9D1E]), (0x9E2F, [0x9D26]), (0x9E30, [0x9D12]),
    (0x9E31, [0x9D1F]), (0x9E32, [0x9D1D]), (0x9E33, [0x9D1B]), (0x9E35, [0x9D15]), (0x9E36, [0x9DE5]), (0x9E37, [0x9DD9]),
    (0x9E38, [0x9D2F]), (0x9E39, [0x9D30]), (0x9E3A, [0x9D42]), (0x9E3B, [0x9D34]), (0x9E3C, [0x9D43]), (0x9E3D, [0x9D3F]),
    (0x9E3E, [0x9E1E]), (0x9E3F, [0x9D3B]), (0x9E40, [0x9D50]), (0x9E41, [0x9D53]), (0x9E42, [0x9E1D]), (0x9E43, [0x9D51]),
    (0x9E44, [0x9D60]), (0x9E45, [0x9D5D]), (0x9E46, [0x9D52]), (0x9E47, [0x9DF3]), (0x9E48, [0x9D5C]), (0x9E49, [0x9D61]),
    (0x9E4A, [0x9D72]), (0x9E4B, [0x9D93]), (0x9E4C, [0x9D6A]), (0x9E4D, [0x9D7E]), (0x9E4F, [0x9D6C]), (0x9E50, [0x9D6E]),
    (0x9E51, [0x9D89]), (0x9E52, [0x9D8A]), (0x9E55, [0x9D98]), (0x9E56, [0x9DA1]), (0x9E57, [0x9D9A]), (0x9E58, [0x9DBB]),
    (0x9E59, [0x9D96]), (0x9E5A, [0x9DC0]), (0x9E5B, [0x9DA5]), (0x9E5C, [0x9DA9]), (0x9E5E, [0x9DC2]), (0x9E61, [0x9DBA]),
    (0x9E63, [0x9DBC]), (0x9E64, [0x9DB4]), (0x9E65, [0x9DD6]), (0x9E66, [0x9E1A]), (0x9E67, [0x9DD3]), (0x9E68, [0x9DDA]),
    (0x9E69, [0x9DEF]), (0x9E6A, [0x9DE6]), (0x9E6B, [0x9DF2]), (0x9E6C, [0x9DF8]), (0x9E6D, [0x9DFA]), (0x9E6E, [0x4D09]),
    (0x9E6F, [0x9E07]), (0x9E70, [0x9DF9]), (0x9E73, [0x9E1B]), (0x9E78, [0x9E7C]), (0x9E7E, [0x9E7A]), (0x9E81, [0x9EA4]),
    (0x9E84, [0x9EA4]), (0x9E90, [0x9E9F]), (0x9EA2, [0x7F9A]), (0x9EA6, [0x9EA5]), (0x9EAA, [0x9EB5]), (0x9EAB, [0x9EB5]),
    (0x9EB1, [0x9EA9]), (0x9EB8, [0x9EA9]), (0x9EBA, [0x9EB5]), (0x9EBD, [0x9EBC]), (0x9EC4, [0x9EC3]), (0x9EC9, [0x9ECC]),
    (0x9ED2, [0x9ED1]), (0x9ED9, [0x9ED8]), (0x9EE1, [0x9EF6]), (0x9EE9, [0x9EF7]), (0x9EF1, [0x9EDB]), (0x9EFE, [0x9EFD])]),
  (0x9F, [
    (0x9F05, [0x8718]), (0x9F08, [0x9C49]), (0x9F0B, [0x9EFF]), (0x9F0D, [0x9F09]), (0x9F11, [0x9F0E]), (0x9F14, [0x9F13]),
    (0x9F15, [0x549A]), (0x9F21, [0x9F20]), (0x9F26, [0x8C82]), (0x9F44, [0x9F47]), (0x9F45, [0x55C5]), (0x9F50, [0x9F4A]),
    (0x9F51, [0x9F4F]), (0x9F62, [0x9F61]), (0x9F7F, [0x9F52]), (0x9F80, [0x9F54]), (0x9F83, [0x9F5F]), (0x9F84, [0x9F61]),
    (0x9F85, [0x9F59]), (0x9F86, [0x9F60]), (0x9F87, [0x9F5C]), (0x9F88, [0x9F66]), (0x9F89, [0x9F6C]), (0x9F8A, [0x9F6A]),
    (0x9F8B, [0x9F72]), (0x9F8C, [0x9F77]), (0x9F99, [0x9F8D]), (0x9F9A, [0x9F94]), (0x9F9B, [0x9F95]), (0x9F9F, [0x9F9C])]),
  (0xF9, [
    (0xF900, [0x8C48]), (0xF901, [0x66F4]), (0xF902, [0x8ECA]), (0xF903, [0x8CC8]), (0xF904, [0x6ED1]), (0xF905, [0x4E32]),
    (0xF906, [0x53E5]), (0xF907, [0x9F9C]), (0xF908, [0x9F9C]), (0xF909, [0x5951]), (0xF90A, [0x91D1]), (0xF90B, [0x5587]),
    (0xF90C, [0x5948]), (0xF90D, [0x61F6]), (0xF90E, [0x7669]), (0xF90F, [0x7F85]), (0xF910, [0x863F]), (0xF911, [0x87BA]),
    (0xF912, [0x88F8]), (0xF913, [0x908F]), (0xF914, [0x6A02]), (0xF915, [0x6D1B]), (0xF916, [0x70D9]), (0xF917, [0x73DE]),
    (0xF918, [0x843D]), (0xF919, [0x916A]), (0xF91A, [0x99F1]), (0xF91B, [0x4E82]), (0xF91C, [0x5375]), (0xF91D, [0x6B04]),
    (0xF91E, [0x721B]), (0xF91F, [0x862D]), (0xF920, [0x9E1E]), (0xF921, [0x5D50]), (0xF922, [0x6FEB]), (0xF923, [0x85CD]),
    (0xF924, [0x8964]), (0xF925, [0x62C9]), (0xF926, [0x81D8]), (0xF927, [0x881F]), (0xF928, [0x5ECA]), (0xF929, [0x6717]),
    (0xF92A, [0x6D6A]), (0xF92B, [0x72FC]), (0xF92C, [0x90CE]), (0xF92D, [0x4F86]), (0xF92E, [0x51B7]), (0xF92F, [0x52DE]),
    (0xF930, [0x64C4]), (0xF931, [0x6AD3]), (0xF932, [0x7210]), (0xF933, [0x76E7]), (0xF934, [0x8001]), (0xF935, [0x8606]),
    (0xF936, [0x865C]), (0xF937, [0x8DEF]), (0xF938, [0x9732]), (0xF939, [0x9B6F]), (0xF93A, [0x9DFA]), (0xF93B, [0x788C]),
    (0xF93C, [0x797F]), (0xF93D, [0x7DA0]), (0xF93E, [0x83C9]), (0xF93F, [0x9304]), (0xF940, [0x9E7F]), (0xF941, [0x8AD6]),
    (0xF942, [0x58DF]), (0xF943, [0x5F04]), (0xF944, [0x7C60]), (0xF945, [0x807E]), (0xF946, [0x7262]), (0xF947, [0x78CA]),
    (0xF948, [0x8CC2]), (0xF949, [0x96F7]), (0xF94A, [0x58D8]), (0xF94B, [0x5C62]), (0xF94C, [0x6A13]), (0xF94D, [0x6DDA]),
    (0xF94E, [0x6F0F]), (0xF94F, [0x7D2F]), (0xF950, [0x7E37]), (0xF951, [0x964B]), (0xF952, [0x52D2]), (0xF953, [0x808B]),
    (0xF954, [0x51DC]), (0xF955, [0x51CC]), (0xF956, [0x7A1C]), (0xF957, [0x7DBE]), (0xF958, [0x83F1]), (0xF959, [0x9675]),
    (0xF95A, [0x8B80]), (0xF95B, [0x62FF]), (0xF95C, [0x6A02]), (0xF95D, [0x8AFE]), (0xF95E, [0x4E39]), (0xF95F, [0x5BE7]),
    (0xF960, [0x6012]), (0xF961, [0x7387]), (0xF962, [0x7570]), (0xF963, [0x5317]), (0xF964, [0x78FB]), (0xF965, [0x4FBF]),
    (0xF966, [0x5FA9]), (0xF967, [0x4E0D]), (0xF968, [0x6CCC]), (0xF969, [0x6578]), (0xF96A, [0x7D22]), (0xF96B, [0x53C3]),
    (0xF96C, [0x585E]), (0xF96D, [0x7701]), (0xF96E, [0x8449]), (0xF96F, [0x8AAA]), (0xF970, [0x6BBA]), (0xF971, [0x8FB0]),
    (0xF972, [0x6C88]), (0xF973, [0x62FE]), (0xF974, [0x82E5]), (0xF975, [0x63A0]), (0xF976, [0x7565]), (0xF977, [0x4EAE]),
    (0xF978, [0x5169]), (0xF979, [0x6DBC]), (0xF97A, [0x6881]), (0xF97B, [0x7CE7]), (0xF97C, [0x826F]), (0xF97D, [0x8AD2]),
    (0xF97E, [0x91CF]), (0xF97F, [0x52F5]), (0xF980, [0x5442]), (0xF981, [0x5973]), (0xF982, [0x5EEC]), (0xF983, [0x65C5]),
    (0xF984, [0x6FFE]), (0xF985, [0x792A]), (0xF986, [0x95AD]), (0xF987, [0x9A6A]), (0xF988, [0x9E97]), (0xF989, [0x9ECE]),
    (0xF98A, [0x529B]), (0xF98B, [0x66C6]), (0xF98C, [0x6B77]), (0xF98D, [0x8F62]), (0xF98E, [0x5E74]), (0xF98F, [0x6190]),
    (0xF990, [0x6200]), (0xF991, [0x649A]), (0xF992, [0x6F23]), (0xF993, [0x7149]), (0xF994, [0x7489]), (0xF995, [0x5E74]),
    (0xF996, [0x7DF4]), (0xF997, [0x806F]), (0xF998, [0x8F26]), (0xF999, [0x84EE]), (0xF99A, [0x9023]), (0xF99B, [0x934A]),
    (0xF99C, [0x5217]), (0xF99D, [0x52A3]), (0xF99E, [0x54BD]), (0xF99F, [0x70C8]), (0xF9A0, [0x88C2]), (0xF9A1, [0x8AAA]),
    (0xF9A2, [0x5EC9]), (0xF9A3, [0x5FF5]), (0xF9A4, [0x637B]), (0xF9A5, [0x6BAE]), (0xF9A6, [0x7C3E]), (0xF9A7, [0x7375]),
    (0xF9A8, [0x4EE4]), (0xF9A9, [0x56F9]), (0xF9AA, [0x5BE7]), (0xF9AB, [0x5DBA]), (0xF9AC, [0x6190]), (0xF9AD, [0x73B2]),
    (0xF9AE, [0x7469]), (0xF9AF, [0x7F9A]), (0xF9B0, [0x8046]), (0xF9B1, [0x9234]), (0xF9B2, [0x96F6]), (0xF9B3, [0x9748]),
    (0xF9B4, [0x9818]), (0xF9B5, [0x4F8B]), (0xF9B6, [0x79AE]), (0xF9B7, [0x91B4]), (0xF9B8, [0x96B8]), (0xF9B9, [0x60E1]),
    (0xF9BA, [0x4E86]), (0xF9BB, [0x50DA]), (0xF9BC, [0x5BEE]), (0xF9BD, [0x5C3F]), (0xF9BE, [0x6599]), (0xF9BF, [0x6A02]),
    (0xF9C0, [0x71CE]), (0xF9C1, [0x7642]), (0xF9C2, [0x84FC]), (0xF9C3, [0x907C]), (0xF9C4, [0x9F8D]), (0xF9C5, [0x6688]),
    (0xF9C6, [0x962E]), (0xF9C7, [0x5289]), (0xF9C8, [0x677B]), (0xF9C9, [0x67F3]), (0xF9CA, [0x6D41]), (0xF9CB, [0x6E9C]),
    (0xF9CC, [0x7409]), (0xF9CD, [0x7559]), (0xF9CE, [0x786B]), (0xF9CF, [0x7D10]), (0xF9D0, [0x985E]), (0xF9D1, [0x516D]),
    (0xF9D2, [0x622E]), (0xF9D3, [0x9678]), (0xF9D4, [0x502B]), (0xF9D5, [0x5D19]), (0xF9D6, [0x6DEA]), (0xF9D7, [0x8F2A]),
    (0xF9D8, [0x5F8B]), (0xF9D9, [0x6144]), (0xF9DA, [0x6817]), (0xF9DB, [0x7387]), (0xF9DC, [0x9686]), (0xF9DD, [0x5229]),
    (0xF9DE, [0x540F]), (0xF9DF, [0x5C65]), (0xF9E0, [0x6613]), (0xF9E1, [0x674E]), (0xF9E2, [0x68A8]), (0xF9E3, [0x6CE5]),
    (0xF9E4, [0x7406]), (0xF9E5, [0x75E2]), (0xF9E6, [0x7F79]), (0xF9E7, [0x88E1]), (0xF9E8, [0x88E1]), (0xF9E9, [0x91CC]),
    (0xF9EA, [0x96E2]), (0xF9EB, [0x533F]), (0xF9EC, [0x6EBA]), (0xF9ED, [0x541D]), (0xF9EE, [0x71D0]), (0xF9EF, [0x7498]),
    (0xF9F0, [0x85FA]), (0xF9F1, [0x9130]), (0xF9F2, [0x9C57]), (0xF9F3, [0x9E9F]), (0xF9F4, [0x6797]), (0xF9F5, [0x6DCB]),
    (0xF9F6, [0x81E8]), (0xF9F7, [0x7ACB]), (0xF9F8, [0x7B20]), (0xF9F9, [0x7C92]), (0xF9FA, [0x72C0]), (0xF9FB, [0x7099]),
    (0xF9FC, [0x8B58]), (0xF9FD, [0x4EC0]), (0xF9FE, [0x8336]), (0xF9FF, [0x523A])]),
  (0xFA, [
    (0xFA00, [0x5207]), (0xFA01, [0x5EA6]), (0xFA02, [0x62D3]), (0xFA03, [0x7CD6]), (0xFA04, [0x5B85]), (0xFA05, [0x6D1E]),
    (0xFA06, [0x66B4]), (0xFA07, [0x8F3B]), (0xFA08, [0x884C]), (0xFA09, [0x964D]), (0xFA0A, [0x898B]), (0xFA0B, [0x5ED3]),
    (0xFA0C, [0x5140]), (0xFA0D, [0x55C0]), (0xFA10, [0x585A]), (0xFA11, [0x5D0E]), (0xFA12, [0x6674]), (0xFA15, [0x7199]),
    (0xFA16, [0x8C6C]), (0xFA17, [0x76CA]), (0xFA18, [0x79AE]), (0xFA19, [0x795E]), (0xFA1A, [0x7965]), (0xFA1B, [0x798F]),
    (0xFA1C, [0x9756]), (0xFA1D, [0x7CBE]), (0xFA1E, [0x7FBD]), (0xFA22, [0x8AF8]), (0xFA25, [0x9038]), (0xFA26, [0x90FD]),
    (0xFA2A, [0x98EF]), (0xFA2B, [0x98FC]), (0xFA2C, [0x9928]), (0xFA2D, [0x9DB4]), (0xFA2E, [0x90CE]), (0xFA2F, [0x96B8]),
    (0xFA30, [0x4FAE]), (0xFA31, [0x50E7]), (0xFA32, [0x514D]), (0xFA33, [0x52C9]), (0xFA34, [0x52E4]), (0xFA35, [0x5351]),
    (0xFA36, [0x559D]), (0xFA37, [0x5606]), (0xFA38, [0x5668]), (0xFA3A, [0x58A8]), (0xFA3B, [0x5C64]), (0xFA3C, [0x5C6E]),
    (0xFA3D, [0x6094]), (0xFA3E, [0x6168]), (0xFA3F, [0x618E]), (0xFA40, [0x61F2]), (0xFA41, [0x654F]), (0xFA42, [0x65E2]),
    (0xFA43, [0x6691]), (0xFA44, [0x6885]), (0xFA45, [0x6D77]), (0xFA46, [0x6E1A]), (0xFA47, [0x6F22]), (0xFA48, [0x716E]),
    (0xFA49, [0x722B]), (0xFA4A, [0x7422]), (0xFA4B, [0x7891]), (0xFA4C, [0x793E]), (0xFA4D, [0x7949]), (0xFA4E, [0x7948]),
    (0xFA4F, [0x7950]), (0xFA50, [0x7956]), (0xFA51, [0x795D]), (0xFA52, [0x798D]), (0xFA53, [0x798E]), (0xFA54, [0x7A40]),
    (0xFA55, [0x7A81]), (0xFA56, [0x7BC0]), (0xFA57, [0x7DF4]), (0xFA58, [0x7E09]), (0xFA59, [0x7E41]), (0xFA5A, [0x7F72]),
    (0xFA5B, [0x8005]), (0xFA5C, [0x81ED]), (0xFA5D, [0x8279]), (0xFA5E, [0x8279]), (0xFA5F, [0x8457]), (0xFA60, [0x8910]),
    (0xFA61, [0x8996]), (0xFA62, [0x8B01]), (0xFA63, [0x8B39]), (0xFA64, [0x8CD3]), (0xFA65, [0x8D08]), (0xFA66, [0x8FB6]),
    (0xFA67, [0x9038]), (0xFA68, [0x96E3]), (0xFA69, [0x97FF]), (0xFA6A, [0x983B]), (0xFA6B, [0x60E0]), (0xFA6C, [0x7199]),
    (0xFA6D, [0x9928]), (0xFA70, [0x4E26]), (0xFA71, [0x6CC1]), (0xFA72, [0x5168]), (0xFA73, [0x4F80]), (0xFA74, [0x5145]),
    (0xFA75, [0x5180]), (0xFA76, [0x52C7]), (0xFA77, [0x52FA]), (0xFA78, [0x559D]), (0xFA79, [0x5555]), (0xFA7A, [0x5599]),
    (0xFA7B, [0x55E2]), (0xFA7C, [0x585A]), (0xFA7D, [0x58B3]), (0xFA7E, [0x5944]), (0xFA7F, [0x5954]), (0xFA80, [0x5A62]),
    (0xFA81, [0x5B28]), (0xFA82, [0x5ED2]), (0xFA83, [0x5ED9]), (0xFA84, [0x5F69]), (0xFA85, [0x5FAD]), (0xFA86, [0x60D8]),
    (0xFA87, [0x614E]), (0xFA88, [0x6108]), (0xFA89, [0x618E]), (0xFA8A, [0x6160]), (0xFA8B, [0x61F2]), (0xFA8C, [0x6234]),
    (0xFA8D, [0x63C4]), (0xFA8E, [0x641C]), (0xFA8F, [0x6452]), (0xFA90, [0x6556]), (0xFA91, [0x6674]), (0xFA92, [0x6717]),
    (0xFA93, [0x671B]), (0xFA94, [0x6756]), (0xFA95, [0x6B79]), (0xFA96, [0x6BBA]), (0xFA97, [0x6D41]), (0xFA98, [0x6DEB]),
    (0xFA99, [0x6ECB]), (0xFA9A, [0x6F22]), (0xFA9B, [0x701E]), (0xFA9C, [0x716E]), (0xFA9D, [0x77A7]), (0xFA9E, [0x7235]),
    (0xFA9F, [0x72AF]), (0xFAA0, [0x8C6C]), (0xFAA1, [0x7471]), (0xFAA2, [0x74F7]), (0xFAA3, [0x756B]), (0xFAA4, [0x761D]),
    (0xFAA5, [0x761F]), (0xFAA6, [0x76CA]), (0xFAA7, [0x76DB]), (0xFAA8, [0x76F4]), (0xFAA9, [0x774A]), (0xFAAA, [0x8457]),
    (0xFAAB, [0x78CC]), (0xFAAC, [0x7AB1]), (0xFAAD, [0x7BC0]), (0xFAAE, [0x985E]), (0xFAAF, [0x7D5B]), (0xFAB0, [0x7DF4]),
    (0xFAB1, [0x74F6]), (0xFAB2, [0x8005]), (0xFAB3, [0x8352]), (0xFAB4, [0x83EF]), (0xFAB5, [0x8779]), (0xFAB6, [0x8941]),
    (0xFAB7, [0x8986]), (0xFAB8, [0x8996]), (0xFAB9, [0x8ABF]), (0xFABA, [0x8AF8]), (0xFABB, [0x8ACB]), (0xFABC, [0x8B01]),
    (0xFABD, [0x8AFE]), (0xFABE, [0x8AED]), (0xFABF, [0x8B39]), (0xFAC0, [0x8B8A]), (0xFAC1, [0x8D08]), (0xFAC2, [0x8F38]),
    (0xFAC3, [0x9072]), (0xFAC4, [0x9199]), (0xFAC5, [0x9276]), (0xFAC6, [0x967C]), (0xFAC7, [0x96E3]), (0xFAC8, [0x9756]),
    (0xFAC9, [0x97B4]), (0xFACA, [0x97FF]), (0xFACB, [0x9867]), (0xFACC, [0x983B]), (0xFACD, [0x9B12]), (0xFACE, [0x9F9C]),
    (0xFACF, [0x2284A]), (0xFAD0, [0x22844]), (0xFAD1, [0x233D5]), (0xFAD2, [0x3B9D]), (0xFAD3, [0x4018]), (0xFAD4, [0x4039]),
    (0xFAD5, [0x25249]), (0xFAD6, [0x25CD0]), (0xFAD7, [0x27F32]), (0xFAD8, [0x9F43]), (0xFAD9, [0x9F8E])])]

/-- The lengths of its pieces in ascending order. -/
def zhtwCuts : List Nat := [2460]

end Verif.MapTable
