import Verif.Spec.Charset
/-
Generated by tools/cccii.py from the rule files CCCII.txt of /repo/modules/from and /repo/modules/to.
-/
namespace Verif.Cccii
open Verif.Spec

set_option maxRecDepth 100000

/-- The 24-bit digits of a number, the first not 0, in front of `l`. -/
def digits24 : Nat → Nat → List Nat → List Nat
  | 0, _, l => l
  | k + 1, n, l => bif Nat.beq n 0 then l else digits24 k (n / 0x1000000) (n % 0x1000000 :: l)

/-- Runs of up to 64 numbers below 0x1000000, written as the digits of one number. -/
def wide24 (t : List (Nat × Nat)) : Chart := t.map fun r => (r.1, digits24 64 r.2 [])

/-- Part of `reads`. -/
def reads0 : Chart := wide24 [
  (0x212221, 0x00221E_00002B_00002D_0000B1_0000D7_0022C5_0000F7_002215_00003D_002260_002261_002248),
  (0x21222D, 0x00223C_00221D_00003C_00003E_00226E_00226F_002264_002265_00226A_00226B_002202_00222B),
  (0x212239, 0x000394_002206_002207_0025A1_002220_0022A4_002225_002245_00225E_002234_002203_002200),
  (0x212245, 0x00222A_002229_002282_002283_0021D2_0021D4_00220B_002208_002209_002211_0033D2_0033D1),
  (0x212251, 0x000065_0003C0_00221A_000021_00007C_00007C_003008_003009),
  (0x212321, 0x000021_000022_000023_000024_000025_000026_000027_000028_000029_00002A_00002B_00002C),
  (0x21232D, 0x00002D_00002E_00002F_000030_000031_000032_000033_000034_000035_000036_000037_000038),
  (0x212339, 0x000039_00003A_00003B_00003C_00003D_00003E_00003F_000040_000041_000042_000043_000044),
  (0x212345, 0x000045_000046_000047_000048_000049_00004A_00004B_00004C_00004D_00004E_00004F_000050),
  (0x212351, 0x000051_000052_000053_000054_000055_000056_000057_000058_000059_00005A_00005B_00005C),
  (0x21235D, 0x00005D),
  (0x21235F, 0x00005F_000027_000061_000062_000063_000064_000065_000066_000067_000068_000069_00006A),
  (0x21236B, 0x00006B_00006C_00006D_00006E_00006F_000070_000071_000072_000073_000074_000075_000076),
  (0x212377, 0x000077_000078_000079_00007A_00007B_00007C_00007D_00007E),
  (0x212A46, 0x003013),
  (0x212B21, 0x00FE35_00FE36_00FE41_00FE42_00300C_00300D_00FE33_00005F_00FE43_00FE44_00300E_00300F),
  (0x212B2D, 0x00FE34_00FE4F_00FE39_00FE3A_003014_003015_003002_0030FB_003001_0022EE_0022EF_00002C),
  (0x212B39, 0x00003B_00003A_00003F_00007C_000021_00FE32_00FE31_002018_002019_00201C_00201D),
  (0x212B48, 0x003008_003009_00300A_00300B_003010_003011_003016_003017_000024_000024_0000A2_0020A1),
  (0x212B54, 0x0000A3_0000A5),
  (0x212B59, 0x00002F_000023_000025),
  (0x212B5D, 0x000040_0000B6_0000AE_0000A9),
  (0x212B62, 0x000026_0000A7_002020_002021_00002A),
  (0x212B70, 0x0030FD_0030FE_00309D_00309E),
  (0x212B75, 0x003012),
  (0x212C22, 0x004E00_004E28_004E36_004E3F_004E59_004E85),
  (0x212C29, 0x004E8C_004EA0_004EBA_00513F_005165_00516B_005182_005196_0051AB_0051E0_0051F5_005200),
  (0x212C35, 0x00529B_0052F9_005315_00531A_005338_005341_00535C_005369_005382_0053B6_0053C8),
  (0x212C41, 0x0053E3_0056D7_00571F_0058EB_005902_00590A_005915_005927_005973_005B50_005B80_005BF8),
  (0x212C4D, 0x005C0F_005C22_005C38_005C6E_005C71_005DDB_005DE5_005DF1_005DFE_005E72_005E7A_005E7F),
  (0x212C59, 0x005EF4_005EFE_005F0B_005F13_005F50_005F61_005F73),
  (0x212C61, 0x005FC3_006208_006236_00624B_00652F_006534_006587_006597_0065A4_0065B9_0065E0_0065E5),
  (0x212C6D, 0x0066F0_006708_006728_006B20_006B62_006B79_006BB3_006BCB_006BD4_006BDB_006C0F_006C14),
  (0x212C79, 0x006C34_00706B_00722A_007236_00723B_00723F),
  (0x212D21, 0x007247_007259_00725B_0072AC),
  (0x212D26, 0x007384_007389_0074DC_0074E6_007518_00751F_007528_007530_00758B_007592_007676_00767D),
  (0x212D32, 0x0076AE_0076BF_0076EE_0077DB_0077E2_0077F3_00793A_0079B8_0079BE_007A74_007ACB),
  (0x212D3E, 0x007AF9_007C73_007CF8_007F36_007F51_007F8A_007FBD_008001_00800C_008012_008033_00807F),
  (0x212D4A, 0x008089_0081E3_0081EA_0081F3_0081FC_00820C_00821B_00821F_00826E_008272_008278_00864D),
  (0x212D56, 0x00866B_008840_00884C_008863_00897E),
  (0x212D5C, 0x00898B_0089D2_008A00_008C37_008C46_008C55_008C78_008C9D_008D64_008D70_008DB3_008EAB),
  (0x212D68, 0x008ECA_008F9B_008FB0_008FB5_009091_009149_0091C6_0091CC),
  (0x212D71, 0x0091D1_009577_009580_00961C_0096B6_0096B9_0096E8_009752_00975E),
  (0x212D7B, 0x009762_009769_0097CB_0097ED),
  (0x212E21, 0x0097F3_009801_0098A8_0098DB_0098DF_009996_009999),
  (0x212E29, 0x0099AC_009AA8_009AD8_009ADF_009B25_009B2F_009B32_009B3C),
  (0x212E32, 0x009B5A_009CE5_009E75_009E7F_009EA5_009EBB),
  (0x212E39, 0x009EC3_009ECD_009ED1_009EF9),
  (0x212E3E, 0x009EFD_009F0E_009F13_009F20),
  (0x212E43, 0x009F3B_009F4A),
  (0x212E46, 0x009F52),
  (0x212E48, 0x009F8D_009F9C),
  (0x212E4B, 0x009FA0),
  (0x212E50, 0x007532_004E59_004E19_004E01_00620A_005DF1_005E9A_008F9B_0058EC_007678),
  (0x212E60, 0x005B50_004E11_005BC5_00536F_008FB0_005DF3_005348_00672A_007533_009149_00620C_004EA5),
  (0x212E71, 0x002160_002161_002162_002163_002164_002165_002166_002167_002168_002169_00216A_00216B),
  (0x212F21, 0x003021_003022_003023_003024_003025_003026_003027_003028_003029_003038_003039_00303A),
  (0x212F30, 0x003007_004E00_004E8C_004E09_0056DB_004E94_00516D_004E03_00516B_004E5D_005341_00767E),
  (0x212F3C, 0x005343_004E07),
  (0x212F40, 0x0096F6_0058F9_008CB3_0053C1_008086_004F0D_009678_0067D2_00634C_007396_0062FE_004F70),
  (0x212F4C, 0x004EDF_00842C_005104),
  (0x212F50, 0x0002CA_0002C7_0002CB_0002D9_003105_003106_003107_003108_003109_00310A_00310B_00310C),
  (0x212F5C, 0x00310D_00310E_00310F_003110_003111_003112_003113_003114_003115_003116_003117_003118),
  (0x212F68, 0x003119_00311A_00311B_00311C_00311D_00311E_00311F_003120_003121_003122_003123_003124),
  (0x212F74, 0x003125_003126_003127_003128_003129),
  (0x212F7A, 0x0000FC),
  (0x213021, 0x004E00_004E01_004E03_004E09_004E0B_004E0A_004E08_004E11_004E10_004E0D_004E14_004E19),
  (0x21302D, 0x004E16_004E15_004E18_004E1F_004E1E_004E26_004E2B_004E2D_004E32_0051E1_004E38_004E39),
  (0x213039, 0x004E3B_004E43_004E45_004E48_004E4B_005C39_004E4F_004E4E_004E4D_004E52_004E53_004E56),
  (0x213045, 0x004E58_004E59_004E5D_004E5F_004E5E_004E69_004E73_004E7E_004E82_004E86_004E88_004E8B),
  (0x213051, 0x004E8C_004E8E_004E95_004E94_004E92_004E91_004E99_004E9E_004E9B_004E9F_004EA1_004EA6),
  (0x21305D, 0x004EA5_004EA4_004EA8_004EAB_004EAC_004EAD_004EAE_004EBA_004ECA_004EC1_004EC0_004EC3),
  (0x213069, 0x004EC4_004EC6_004ECD_004EC7_004ECB_004EE4_004ED8_004ED5_004ED6_004EDE_004EE3_004ED4),
  (0x213075, 0x004ED7_004ED9_004EE5_004EFF_004F09_004F19_004F0D_004EFB_004F0A_004F15),
  (0x213121, 0x004F11_004F10_004F0F_004EF2_004F01_004EF3_004EF6_004EF0_004EFD_004F4F_004F4D_004F34),
  (0x21312D, 0x004F47_004F57_004F3A_004F5E_004F59_004F5B_004F55_004F30_004F50_004F51_004F3D_004F48),
  (0x213139, 0x004F46_004F38_004F43_004F54_004F3C_004F63_004F5C_004F60_004F2F_004F4E_004F5D_004F36),
  (0x213145, 0x004F9D_004F6F_004F75_004F8D_004F73_004F7F_004F9B_004F86_004F6C_004F8B_004F96_004F70),
  (0x213151, 0x004F83_004F7B_004F88_004F69_004F8F_004F7E_004FE1_004FD1_004FB5_004FAF_004FBF_004FDE),
  (0x21315D, 0x004FE0_004FCF_004FB6_004FDA_004FDD_004FC3_004FD8_004FDF_004FCA_004FAE_004FD0_004FC4),
  (0x213169, 0x004FC2_004FCE_004FD7_005009_005023_00500D_004FEF_005026_00500C_005025_005011_004FF8),
  (0x213175, 0x005028_005014_005016_005029_005006_00501F_005012_00503C_00501A_004FFA),
  (0x213221, 0x005018_004FF1_005021_00500B_005019_005000_004FEE_004FF3_00502D_005003_004FFE_00502A),
  (0x21322D, 0x00502B_00505C_00504F_005065_005047_00505A_005049_005043_005074_005076_00504E_005075),
  (0x213239, 0x00504C_005055_00500F_005077_00508D_0050A2_005085_005099_005091_005080_005096_005098),
  (0x213245, 0x0050AD_0050B3_0050B5_0050B2_0050C5_0050BE_0050AC_0050B7_0050AF_0050E7_0050EE_0050F1),
  (0x213251, 0x0050E5_0050D6_0050ED_0050DA_0050D5_00507D_0050CF_0050D1_005100_005104_0050FB_0050F5),
  (0x21325D, 0x0050F9_005102_0050BB_005108_005109_005110_005118_005112_005114_00512A_00511F_005121),
  (0x213269, 0x005132_005137_00513C_005140_005143_005141_005145_005144_005146_005149_005147_005148),
  (0x213275, 0x00514C_00514B_00514D_005155_005154_005152_005157_00515C_005162_005165),
  (0x213321, 0x005167_005168_005169_00516B_00516D_00516E_00516C_005171_005175_005176_005177_005178),
  (0x21332D, 0x00517C_005180_005189_00518A_00518D_005192_005191_005195_006700_005197_0051A0_0051A2),
  (0x213339, 0x0051A5_0051A4_0051AC_0051B0_0051B6_0051B7_0051BD_0051CD_0051CC_0051CB_0051C6_0051DC),
  (0x213345, 0x0051DD_0051E0_0051F0_0051F1_0051F3_0051F6_0051FA_0051F9_0051F8_0051FD_005200_005201),
  (0x213351, 0x005203_005207_005206_005208_00520A_005211_005217_005212_00520E_005224_005225_00522A),
  (0x21335D, 0x005228_005229_005238_00523B_005237_005230_00523A_005236_00522E_005241_00524E_005243),
  (0x213369, 0x00524D_00524C_00524B_00524A_005247_00525C_005256_00525B_005254_00525D_00526A_00526F),
  (0x213375, 0x005272_005274_005269_005275_005277_00527D_00527F_005283_005288_005287),
  (0x213421, 0x00528D_005289_005291_00529B_00529F_0052A0_0052A3_0052AB_0052A9_0052AC_0052AA_0052BE),
  (0x21342D, 0x0052C7_0052C3_0052C1_0052C9_0052D8_0052D2_0052D9_0052D5_0052DE_0052DB_0052DD_0052E2),
  (0x213439, 0x0052E4_0052DF_0052E6_0052F5_0052F8_0052FB_0052FE_0052FF_005305_005306_005308_00530D),
  (0x213445, 0x005310_00530F_005315_005316_005317_005319_0053F5_00531D_005321_005320_005323_00532A),
  (0x213451, 0x00532F_005331_005339_00533E_005340_00533F_005341_005343_005345_005348_005347_00534A),
  (0x21345D, 0x005349_004EDF_005352_005354_005353_005351_005357_00535A_00535C_00535E_005361_005360),
  (0x213469, 0x005366_00536F_00536E_005370_005371_005373_005375_005377_005378_005379_00537B_00537F),
  (0x213475, 0x005384_00539A_00539D_00539F_0053A5_0053AD_0053B2_0053BB_0053C3_0053C8),
  (0x213521, 0x0053C9_0053CB_0053CA_0053CD_0053D6_0053D4_0053D7_0053DB_0053DF_0066FC_0053E2_0053E3),
  (0x21352D, 0x0053F8_0053E4_0053EE_0053EF_0053E9_0053F3_0053FC_0053E8_0053E6_0053EC_0053EB_0053F0),
  (0x213539, 0x0053E5_0053F1_0053ED_0053EA_0053F2_005401_00540B_005409_005410_00540F_00540C_00540A),
  (0x213545, 0x00540D_005404_005403_005412_005411_005406_005408_00540E_00542D_00541D_00541E_00541B),
  (0x213551, 0x00544E_00543E_005427_005440_005431_005446_00543C_005443_005426_005420_005436_005433),
  (0x21355D, 0x005435_00542E_00544A_005448_00543B_005438_005439_005442_00542B_00541F_005429_005473),
  (0x213569, 0x005462_005475_005495_005478_005496_005477_00547B_005480_005492_005484_00547C_005468),
  (0x213575, 0x005486_00548B_00548C_005490_00547D_005476_005471_00549A_00548E_0054A9),
  (0x213621, 0x0054AA_0054A8_0054AC_0054C0_0054B3_0054A6_0054AB_0054C7_0054C9_0054C4_0054C2_0054B8),
  (0x21362D, 0x0054C1_0054BD_0054CE_0054B1_0054BB_0054AF_0054C8_005501_0054FC_005510_0054EA_005514),
  (0x213639, 0x0054FA_0054E5_0054EE_0054F2_0054E8_0054E1_0054E9_0054ED_005506_005509_0054E6_005556),
  (0x213645, 0x005533_005546_005537_00554F_00555E_005566_00556A_00554A_005544_00555C_005531_005543),
  (0x213651, 0x00552C_005561_00553E_005563_005555_00552F_00552E_005564_005538_0055A7_005580_00557B),
  (0x21365D, 0x00557C_005527_005594_005587_00559C_00558B_0055AA_0055B3_00558A_005583_0055B1_0055AE),
  (0x213669, 0x005582_00559F_00559D_005598_00559A_00557E_0055AC_005589_0055B2_0055BB_0055E8_0055DF),
  (0x213675, 0x0055D1_0055DC_0055E6_0055C7_0055D3_0055CE_0055E3_0055EF_0055E4_0055C5),
  (0x213721, 0x0055DA_0055C6_0055E1_005600_00561B_0055FE_005616_0055F7_005608_00561F_0055FD_005606),
  (0x21372D, 0x005609_005614_00560E_005617_00560D_00562E_00562F_00564E_005636_005632_00563B_005639),
  (0x213739, 0x005657_005629_005653_00563F_005634_0055E5_005659_005630_00566B_005664_005669_005678),
  (0x213745, 0x005674_005679_005665_00566A_005668_005671_00566F_005662_00566C_005680_00568E_005685),
  (0x213751, 0x005687_005690_00568F_005695_0056AE_0056A8_0056B0_0056A5_0056B7_0056B4_0056B6_0056C0),
  (0x21375D, 0x0056C1_0056C2_0056BC_0056CA_0056C9_0056C8_0056CC_0056D1_0056DB_0056DA_0056E0_0056DE),
  (0x213769, 0x0056E4_0056F0_0056EA_0056FA_005703_005708_00570B_00570D_005712_005713_005718_005716),
  (0x213775, 0x00571F_00572C_00572D_00572F_005730_005728_005733_005751_00574A_00574F),
  (0x213821, 0x005740_005747_00574D_00573E_00574E_005750_005783_00576A_005769_005777_005761_005764),
  (0x21382D, 0x005766_005782_00577C_0057A0_00578B_0057A3_0057AE_0057A2_0057D4_0057C2_0057CE_0057CB),
  (0x213839, 0x0057C3_0057F9_0057F7_0057FA_0057DF_00580A_005805_005802_005806_0057E4_0057E0_005831),
  (0x213845, 0x00582F_005835_00582A_005830_005824_005834_005821_00585E_005857_005858_005851_00586B),
  (0x213851, 0x00584C_00585A_00586D_005854_005862_00584A_005883_00587E_005875_00588A_005879_005885),
  (0x21385D, 0x005893_00589E_005880_0058B3_00589C_0058AE_00589F_0058C7_0058C5_0058C1_0058BE_0058D5),
  (0x213869, 0x0058D3_0058D1_0058D9_0058D8_0058DF_0058DE_0058E2_0058E4_0058E9_0058EB_0058EC_0058EF),
  (0x213875, 0x0058F9_0058FA_0058FD_00590F_005914_005915_005916_005919_00591A_00591C),
  (0x213921, 0x005920_005924_005925_005922_005927_00592A_00592B_005929_00592D_00592E_005931_005937),
  (0x21392D, 0x005938_00593E_005954_005949_005948_005947_005944_005955_005951_00594E_00594F_005950),
  (0x213939, 0x005957_005958_00595A_005960_005962_005967_005969_00596A_00596E_005973_005974_005976),
  (0x213945, 0x005984_005983_005978_00597D_005979_005982_005981_0059A8_005992_00598D_0059A4_0059A3),
  (0x213951, 0x005993_00599E_00599D_005999_0059A5_00598A_005996_0059BE_0059BB_0059AE_0059D1_0059B9),
  (0x21395D, 0x0059C6_0059D0_0059CD_0059AF_0059D2_0059D3_0059CA_0059B3_0059CB_0059D4_0059E3_0059DC),
  (0x213969, 0x0059FF_0059D8_005A03_0059E8_0059E5_0059EA_005A01_0059FB_0059E6_0059DA_005A11_005A18),
  (0x213975, 0x005A23_005A1C_005A13_0059EC_005A20_005A1F_005A1B_005A0C_005A29_005A25),
  (0x213A21, 0x005A46_005A49_005A6A_005A36_005A4A_005A40_005A66_005A41_005A3C_005A62_005A5A_005A77),
  (0x213A2D, 0x005A9A_005A92_005A7F_005ABC_005A9B_005ACC_005AC1_005AC9_005ABE_005ABD_005AB2_005AC2),
  (0x213A39, 0x005AB3_005AE1_005AD7_005AD6_005AE3_005AE9_005AD8_005AE6_005AFB_005B09_005B0B_005B0C),
  (0x213A45, 0x005AF5_005B34_005B1D_005B2A_005B24_005B30_005B38_005B40_005B50_005B51_005B53_005B54),
  (0x213A51, 0x005B55_005B57_005B58_005B5D_005B5C_005B5A_005B5F_005B63_005B64_005B69_005B6B_005B70),
  (0x213A5D, 0x005B73_005B71_005B75_005B78_005B7A_005B7D_005B7F_005B83_005B87_005B88_005B89_005B85),
  (0x213A69, 0x005B8C_005B8B_005B8F_005B97_005B9A_005B9C_005B98_005B99_005B9B_005BA5_005BA3_005BA6),
  (0x213A75, 0x005BA4_005BA2_005BB0_005BB8_005BB6_005BB5_005BB4_005BAE_005BB9_005BB3),
  (0x213B21, 0x005BC6_005BC7_005BC5_005BC4_005BC2_005BBF_005BCC_005BD2_005BD0_005BD3_005BE1_005BE5),
  (0x213B2D, 0x005BE8_005BE2_005BE4_005BDE_005BE6_005BE7_005BDF_005BEE_005BEC_005BE9_005BEB_005BF5),
  (0x213B39, 0x005BF6_005BF8_005BFA_005C01_005C04_005C09_005C08_005C07_005C0A_005C0B_005C0D_005C0E),
  (0x213B45, 0x005C0F_005C11_005C16_005C1A_005C24_005C2C_005C31_005C37_005C38_005C3A_005C3C_005C40),
  (0x213B51, 0x005C41_005C3F_005C3E_005C46_005C45_005C48_005C4E_005C4B_005C4D_005C55_005C51_005C50),
  (0x213B5D, 0x005C4F_005C60_005C5C_005C62_005C64_005C65_005C6C_005C6F_005C71_005C79_005C90_005C8C),
  (0x213B69, 0x005C91_005C94_005CB7_005CB8_005CA9_005CA1_005CAB_005CB3_005CB1_005CD9_005D01_005CFD),
  (0x213B75, 0x005CED_005CFB_005CE8_005CF0_005CF6_005CEA_005D07_005D06_005D1B_005D16),
  (0x213C21, 0x005D0E_005D11_005D22_005D29_005D14_005D19_005D4C_005D50_005D69_005D84_005D87_005D9D),
  (0x213C2D, 0x005DBC_005DBD_005DBA_005DCD_005DD2_005DD4_005DD6_005DDD_005DDE_005DE2_005DE5_005DE8),
  (0x213C39, 0x005DE7_005DE6_005DEB_005DEE_005DF1_005DF2_005DF3_005DF4_005DF7_005DFD_005DFE_005E02),
  (0x213C45, 0x005E03_005E06_005E0C_005E18_005E1A_005E16_005E15_005E1B_005E11_005E1D_005E25_005E2D),
  (0x213C51, 0x005E2B_005E33_005E36_005E38_005E37_005E45_005E3D_005E40_005E4C_005E5B_005E54_005E57),
  (0x213C5D, 0x005E55_005E63_005E62_005E5F_005E6B_005E72_005E73_005E76_005E74_005E78_005E79_005E7B),
  (0x213C69, 0x005E7C_005E7D_005E7E_005E8F_005E87_005E8A_005E9A_005E97_005E96_005E9C_005E95_005EA0),
  (0x213C75, 0x005EA6_005EAB_005EA7_005EAD_005EB7_005EB8_005EB6_005EB5_005EC2_005EC1),
  (0x213D21, 0x005EBE_005ECA_005EC9_005EC8_005ED3_005ED6_005EE2_005EDA_005EDD_005EE3_005EDF_005EE0),
  (0x213D2D, 0x009F90_005EEC_005EF3_005EF7_005EF8_005EF6_005EFA_005EFF_005F01_005F04_005F08_005F0A),
  (0x213D39, 0x005F0F_005F12_005F13_005F15_005F14_005F18_005F17_005F1B_005F1F_005F26_005F27_005F29),
  (0x213D45, 0x005F2D_005F31_005F35_005F37_005F3C_005F46_005F48_005F4C_005F4E_005F57_005F59_005F5E),
  (0x213D51, 0x005F62_005F64_005F65_005F6C_005F69_005F6B_005F6D_005F70_005F71_005F77_005F79_005F80),
  (0x213D5D, 0x005F81_005F7F_005F7C_005F85_005F88_005F8B_005F8A_005F87_005F8C_005F92_005F91_005F90),
  (0x213D69, 0x005F98_005F97_005F99_005F9E_005FA1_005FA8_005FA9_005FA7_005FAA_005FAC_005FAE_005FB9),
  (0x213D75, 0x005FB7_005FB5_005FBD_005FC3_005FC5_005FD9_005FD8_005FCC_005FD6_005FD7),
  (0x213E21, 0x005FCD_005FEB_005FE0_005FF1_005FFD_005FDD_005FF5_005FFF_006014_006035_00602A_00602F),
  (0x213E2D, 0x006016_00601D_00600F_006021_006020_006028_006025_006027_00600E_006015_006012_006059),
  (0x213E39, 0x006063_006068_006043_006065_006050_00606D_006062_006046_00604D_00606B_006069_00606C),
  (0x213E45, 0x00606F_00606A_006064_006070_006055_00608C_006085_00607F_00609F_00609A_006096_006084),
  (0x213E51, 0x00608D_0060A3_006089_006094_0060A0_0060A8_0060B4_0060E6_0060CB_0060BD_0060C5_0060B6),
  (0x213E5D, 0x0060D1_0060B5_0060BB_0060E0_0060E1_0060DC_0060D8_0060D5_0060BC_0060B2_0060C6_0060B8),
  (0x213E69, 0x0060DA_0060DF_00610F_00611C_0060F3_00611F_0060F0_0060FB_0060FA_00611A_006115_0060F9),
  (0x213E75, 0x006123_0060F4_00611B_00610E_006100_006101_0060F6_006109_006108_0060F1),
  (0x213F21, 0x006148_006168_006144_00614E_00613F_00614C_00614D_00614B_00613E_006127_006134_006147),
  (0x213F2D, 0x006177_006176_006167_006170_00615A_00615D_006182_00617C_006162_00616E_006155_006158),
  (0x213F39, 0x006163_00615F_00616B_00617E_0061A7_0061B2_006191_00618E_0061AB_0061A4_0061AC_00619A),
  (0x213F45, 0x0061A9_006194_00618A_0061B6_0061CD_0061C9_006190_0061BE_0061C2_0061C7_0061C8_0061CA),
  (0x213F51, 0x0061E3_0061E6_0061F2_0061F7_0061F6_0061F8_0061F5_0061FA_0061FE_0061FF_0061FC_006200),
  (0x213F5D, 0x006208_00620A_00620E_00620D_00620C_006210_006212_006211_006216_006215_00621B_00621A),
  (0x213F69, 0x00621F_006221_006222_00622A_00622E_006230_006232_006234_006233_006236_00623F_00623E),
  (0x213F75, 0x006240_006241_006247_006248_006249_00624B_00624D_00624E_006253_006254),
  (0x214021, 0x006252_00625B_006263_006258_006296_006297_006292_006276_006289_00627F_006279_006280),
  (0x21402D, 0x00628A_00626D_00627C_00627E_00626F_006284_006295_006291_006298_00626E_006273_006293),
  (0x214039, 0x0062C9_0062C4_0062CC_0062A8_0062DC_0062BF_0062C2_0062B9_0062D2_0062D3_0062DB_0062AB),
  (0x214045, 0x0062CB_0062D4_0062BD_0062BC_0062D0_0062C8_0062D9_0062DA_0062AC_0062C7_0062B1_0062D6),
  (0x214051, 0x0062D8_0062CD_0062B5_0062CE_0062D7_0062C6_006309_006316_0062FC_0062F3_006308_0062ED),
  (0x21405D, 0x006301_0062EE_0062EF_0062F7_006307_0062F1_0062FD_006311_0062EC_0062F4_0062FF_0062FE),
  (0x214069, 0x006342_00632A_006355_00633E_00632F_00634E_00634F_006350_006349_006346_00632B_006328),
  (0x214075, 0x00633A_0063A5_006369_0063A0_006396_0063A7_006372_006377_006383_00636B),
  (0x214121, 0x006367_006398_00639B_0063AA_006371_0063A9_00638C_006389_0063A2_006399_0063A1_006388),
  (0x21412D, 0x0063AC_00633D_006392_0063A3_006376_00638F_0063A8_00637B_006368_006384_006380_0063C6),
  (0x214139, 0x0063C9_0063CD_0063E1_0063C0_0063E9_0063D0_0063DA_0063D6_0063ED_0063EE_0063CF_0063E3),
  (0x214145, 0x0063F4_0063DB_0063D2_0063EA_00641E_00642A_00643E_006413_00640F_006414_00640D_00642D),
  (0x214151, 0x00643D_006416_006417_00641C_006436_00642C_006458_006469_006454_006452_00646F_006478),
  (0x21415D, 0x006479_00647A_00645F_006451_006467_00649E_0064A4_006487_006488_0064A5_0064B0_006493),
  (0x214169, 0x006495_006492_0064A9_006490_0064AE_0064B2_0064AD_00649A_0064AB_0064AC_0064C5_0064C1),
  (0x214175, 0x0064D8_0064CA_0064BB_0064C2_0064BC_0064CB_0064CD_0064DA_0064C4_0064C7),
  (0x214221, 0x0064CE_0064D4_0064D2_0064BF_0064E0_0064F0_0064E6_0064EC_0064F1_0064F4_0064F2_006506),
  (0x21422D, 0x006500_0064FE_0064FB_0064FA_00650F_006518_006514_006519_00651D_00651C_006523_006524),
  (0x214239, 0x00652B_00652A_00652C_00652F_006536_006539_00653B_00653E_00653F_006545_006548_006559),
  (0x214245, 0x006556_006551_006557_00655D_006558_00654F_006566_006562_006563_00655E_00555F_00656C),
  (0x214251, 0x006572_006575_006577_006578_006574_006582_006583_006587_006591_006590_006597_006599),
  (0x21425D, 0x00659C_00659F_0065A1_0065A4_0065A5_0065A7_0065AC_0065AF_0065B0_0065B7_0065B9_0065BC),
  (0x214269, 0x0065BD_0065C1_0065C5_0065CE_0065CB_0065CC_0065CF_0065D7_0065D6_0065E2_0065E5_0065E6),
  (0x214275, 0x0065E9_0065EC_0065ED_0065E8_0065F1_0065FA_006606_006614_00660C_006600),
  (0x214321, 0x00660E_006613_006602_00660F_006625_006627_00662F_00662D_006620_00661F_006628_00664F),
  (0x21432D, 0x006642_006652_006649_006643_00664C_00665D_006664_006668_006666_00665A_00666F_00666E),
  (0x214339, 0x006674_006691_006670_006676_00667A_006697_006687_006689_006688_006696_0066A2_0066AB),
  (0x214345, 0x0066B4_0066AE_0066A8_0066C9_0066C6_0066B9_0066D6_0066D9_0066E0_0066DD_0066E6_0066F0),
  (0x214351, 0x0066F2_0066F3_0066F4_0066F7_0066F8_0066F9_0052D7_0066FE_0066FF_006703_006708_006709),
  (0x21435D, 0x00670D_00670B_006717_006715_006714_00671B_00671D_00671F_006726_006727_006728_00672E),
  (0x214369, 0x00672C_00672B_00672A_00672D_00673D_006734_006731_006735_00675E_006751_00674E_00675C),
  (0x214375, 0x006750_006756_00675F_00674F_006749_006770_00676D_00678B_006795_006789),
  (0x214421, 0x006787_006777_00679D_006797_00676F_006771_006773_00679C_006775_00679A_006790_00677F),
  (0x21442D, 0x00677E_0067D3_0067F1_0067FF_0067D4_0067C4_0067AF_0067D0_0067D1_0067EF_0067E9_0067B6),
  (0x214439, 0x0067EC_0067E5_0067B4_0067DA_0067F5_0067DE_0067B8_0067CF_0067F3_006848_006821_006838),
  (0x214445, 0x006853_006846_006842_006854_006817_00683D_006851_006829_006850_006839_00684C_0067F4),
  (0x214451, 0x006843_006840_00682A_006845_00683C_006813_006881_006893_0068AF_006876_0068B0_0068A7),
  (0x21445D, 0x006897_0068B5_0068B3_0068A2_00687F_0068B1_00689D_0068AD_006886_006885_0068A8_00689F),
  (0x214469, 0x006894_006883_0068D5_0068FA_0068C4_0068F2_0068D2_0068E3_0068DF_0068CB_0068EE_00690D),
  (0x214475, 0x006905_0068E7_0068E0_0068F5_0068CD_0068D7_0068D8_006912_0068F9_0068DA),
  (0x214521, 0x00690E_0068C9_006954_006930_006977_006975_00695A_006960_00696B_00694A_006968_00695E),
  (0x21452D, 0x00696D_006979_006953_006986_0069A8_006995_00699C_006994_0069C1_0069B7_0069AE_00699B),
  (0x214539, 0x0069CB_0069D3_0069BB_0069AB_0069CC_0069AD_0069D0_0069CD_0069B4_006A1F_0069E8_006A23),
  (0x214545, 0x006982_006A01_006A19_0069FD_006A1E_006A13_006A21_0069F3_006A0A_006A02_006A05_006A3D),
  (0x214551, 0x006A58_006A59_006A62_006A44_006A39_006A6B_006A3A_006A38_006A47_006A61_006A4B_006A35),
  (0x21455D, 0x006A5F_006A80_006A94_006A84_006AA2_006A9C_006AB8_006AB3_006AC3_006ABB_006AC2_006AAC),
  (0x214569, 0x006AE5_006ADA_006ADD_006ADB_006AD3_006B04_006AFB_006B0A_006B16_006B20_006B21_006B23),
  (0x214575, 0x006B32_006B3E_006B3A_006B3D_006B47_006B49_006B4C_006B50_006B59_006B5F),
  (0x214621, 0x006B61_006B62_006B63_006B64_006B65_006B67_006B66_006B6A_006B72_006B77_006B78_006B79),
  (0x21462D, 0x006B7B_006B7F_006B83_006B86_006B8A_006B89_006B98_006B96_006BA4_006BAE_006BAF_006BB2),
  (0x214639, 0x006BB5_006BB7_006BBA_006BBC_006BC0_006BBF_006BC5_006BC6_006BCB_006BCD_006BCF_006BD2),
  (0x214645, 0x006BD3_006BD4_006BD7_006BDB_006BEB_006BEF_006BFD_006C0F_006C11_006C10_006C13_006C16),
  (0x214651, 0x006C1B_006C1F_006C27_006C26_006C23_006C28_006C24_006C2B_006C2E_006C33_006C2F_006C34),
  (0x21465D, 0x006C38_006C41_006C3E_006C40_006C42_006C5E_006C57_006C5F_006C59_006C60_006C55_006C50),
  (0x214669, 0x006C5D_006C9B_006C81_006C85_006C7A_006C6A_006C8C_006C90_006C72_006C70_006C68_006C96),
  (0x214675, 0x006C88_006C89_006C99_006C7E_006C7D_006C92_006C83_006CB1_006CE8_006CF3),
  (0x214721, 0x006CE3_006CF0_006CB8_006CD3_006CAB_006CE5_006CBD_006CB3_006CC4_006CD5_006CE2_006CBC),
  (0x21472D, 0x006CAE_006CB9_006CF1_006CC1_006CBE_006CC5_006CD7_006CBB_006CDB_006CE1_006CBF_006CCA),
  (0x214739, 0x006CCC_006CC9_006D41_006D0B_006D32_006D25_006D31_006D2A_006D0C_006D1E_006D17_006D3B),
  (0x214745, 0x006D1B_006D36_006D3D_006D3E_006D6A_006D95_006D78_006D66_006D59_006D87_006D88_006D6C),
  (0x214751, 0x006D93_006D89_006D6E_006D74_006D5A_006D69_006D77_006DD9_006DDA_006DF3_006DBC_006DE4),
  (0x21475D, 0x006DB2_006DE1_006DD2_006DAE_006E05_006DC7_006DCB_006DC5_006DDE_006DAF_006DB5_006DFA),
  (0x214769, 0x006DF9_006DCC_006DF7_006DB8_006DD1_006DF1_006DE8_006DEB_006DD8_006DFB_006DEE_006DF5),
  (0x214775, 0x006D8E_006DC6_006DEA_006DC4_006E54_006E21_006E38_006E32_006E67_006E20),
  (0x214821, 0x006E5B_006E1A_006E56_006E2F_006E6E_006E58_006E23_006E24_006E1B_006E25_006E4A_006E3A),
  (0x21482D, 0x006E6F_006E2D_006E34_006E2C_006E26_006E4D_006E3E_006E43_006E19_006E1D_006ED3_006EB6),
  (0x214839, 0x006EC2_006F13_006EAF_006EA2_006E9D_006EBA_006EA5_006E98_006E90_006EC5_006EC7_006EBC),
  (0x214845, 0x006EAB_006ED1_006ECB_006EC4_006ED4_006EAA_006E96_006E9C_006F33_006EF4_006EEC_006EFE),
  (0x214851, 0x006F29_006F14_006F3E_006F2C_006F32_006F0F_006F22_006EFF_006F23_006F38_006F15_006F31),
  (0x21485D, 0x006F02_006F06_006EEF_006F2B_006F2F_006F20_006F3F_006EF2_006F01_006E89_006ECC_006F2A),
  (0x214869, 0x006F7C_006F88_006F84_006F51_006F64_006F97_006F54_006F7A_006F86_006F8E_006F6D_006F5B),
  (0x214875, 0x006F6E_006F78_006F66_006F70_006F58_006FC2_006FB1_006FC3_006FA7_006FA1),
  (0x214921, 0x006FA4_006FC1_006FB9_006FC0_006FB3_006FDF_006FD8_006FF1_006FE0_006FEF_006FEB_006FE1),
  (0x21492D, 0x006FE4_006F80_006FEC_006FDB_00700B_007009_007006_006FFA_007011_006FFE_00700F_00701B),
  (0x214939, 0x00701A_007028_00701D_007015_00701F_007030_00703E_00704C_007051_007058_007063_007064),
  (0x214945, 0x00706B_007070_007076_00707C_007078_00707D_007095_00708E_007092_007099_00708A_0070AB),
  (0x214951, 0x0070BA_0070AC_0070B3_0070AF_0070AD_0070AE_0070B8_0070CA_0070E4_0070D8_0070C8_0070D9),
  (0x21495D, 0x0070CF_0070F9_007109_00710A_0070FD_007119_00716E_00711A_007136_007121_007130_007126),
  (0x214969, 0x00714E_007149_007159_007164_007169_00715C_00716C_007166_007167_00715E_007165_00714C),
  (0x214975, 0x00717D_007194_007199_00718A_007184_00719F_0071A8_0071AC_0071B1_0071D9),
  (0x214A21, 0x0071BE_0071C9_0071D0_0071C8_0071DC_0071D2_0071B9_0071D5_0071CE_0071C3_0071C4_0071EE),
  (0x214A2D, 0x0071E7_0071DF_0071E5_0071ED_0071E6_0071EC_0071F4_0071FB_007206_00720D_007210_00721B),
  (0x214A39, 0x007228_00722A_00722D_00722C_007230_007235_007236_007238_007239_00723A_00723B_00723D),
  (0x214A45, 0x00723E_007246_007247_007248_00724C_007252_007256_007258_007259_00725B_00725F_00725D),
  (0x214A51, 0x007262_007261_007260_007267_007269_00726F_007272_007274_007279_00727D_007281_007280),
  (0x214A5D, 0x007284_007296_007292_00729B_0072A2_0072A7_0072AC_0072AF_0072C4_0072C2_0072D9_0072C0),
  (0x214A69, 0x0072CE_0072D7_0072D0_0072E1_0072E9_0072E0_0072FC_0072F9_0072F8_0072FD_0072F7_00731C),
  (0x214A75, 0x00731B_007313_007316_007319_007336_007337_007329_007325_007334_007344),
  (0x214B21, 0x00733F_00733E_007345_007350_00734E_007357_007368_007370_007372_007377_007378_007375),
  (0x214B2D, 0x00737A_00737B_007380_007384_007387_007389_00738B_007396_00739F_0073A8_0073A9_0073AB),
  (0x214B39, 0x0073BB_0073CA_0073B7_0073C0_0073B3_0073B2_0073CD_0073ED_0073EE_0073E0_007405_007409),
  (0x214B45, 0x007403_00740A_0073FE_007406_00740D_00743A_007435_007436_007434_00742A_007433_007422),
  (0x214B51, 0x007425_00746F_007455_00745F_00745A_007441_00743F_00745B_00745E_00745C_007459_007483),
  (0x214B5D, 0x007469_00746A_007463_007464_007470_00748B_00749C_0074A3_0074A7_0074A9_0074B0_0074A6),
  (0x214B69, 0x0074BD_0074CA_0074CF_0074DC_0074E0_0074E2_0074E3_0074E6_0074F6_0074F7_007504_00750C),
  (0x214B75, 0x007515_007518_00751A_00751C_00751F_007522_007526_007525_007528_007529),
  (0x214C21, 0x00752C_00752B_00752D_007530_007532_007531_007533_007537_007538_00753D_00754F_00754C),
  (0x214C2D, 0x00755D_00755C_007554_00755A_007559_007566_007562_007570_007565_00756B_00756A_007578),
  (0x214C39, 0x007576_007586_007587_00758A_00758B_00758F_007591_00759D_007599_00759A_0075A4_0075AB),
  (0x214C45, 0x0075A5_0075C7_0075C5_0075B3_0075B2_0075BD_0075BE_0075BC_0075B9_0075D5_0075D4_0075B5),
  (0x214C51, 0x0075CA_0075DB_0075E3_0075D8_0075DE_0075D9_0075E2_007601_007600_0075F0_0075F2_0075F1),
  (0x214C5D, 0x0075F4_0075FF_0075FA_00760D_007627_007613_00760B_007609_007620_007629_00761F_007624),
  (0x214C69, 0x007626_007621_007634_007638_007646_007642_00764C_007656_007658_007652_007662_007665),
  (0x214C75, 0x007669_00766E_00766C_007671_007672_007678_00767C_00767B_00767D_00767E),
  (0x214D21, 0x007682_007684_007687_007686_007688_00768E_007696_007693_00769A_0076AE_0076B0_0076B4),
  (0x214D2D, 0x0076BA_0076BF_0076C2_0076C3_0076C8_0076C6_0076CA_0076CD_0076CE_0076D4_0076D2_0076DC),
  (0x214D39, 0x0076DB_0076DE_0076DF_0076E1_0076E3_0076E4_0076E7_0076E5_0076EA_0076EE_0076EF_0076F2),
  (0x214D45, 0x0076F4_007709_0076F9_0076F8_007701_00770B_0076FC_0076FE_007729_007720_00771F_007728),
  (0x214D51, 0x007737_00773C_007736_007738_00773A_00773E_00774F_00776B_00775B_00776A_007766_007779),
  (0x214D5D, 0x00775E_007763_00775C_00776C_007768_007765_00777D_007771_00777F_007784_007761_007787),
  (0x214D69, 0x00778E_00778C_007791_00779F_00779E_0077A0_0077A5_0077B3_0077AA_0077B0_0077AD_0077AC),
  (0x214D75, 0x0077A7_0077BD_0077BF_0077BB_0077C7_0077D3_0077D7_0077DA_0077DB_0077DC),
  (0x214E21, 0x0077E2_0077E3_0077E5_0077E9_0077ED_0077EE_0077EF_0077F3_0077FD_007802_00780D_00780C),
  (0x214E2D, 0x0065AB_007830_00781D_007834_007838_007837_007827_00782D_007825_00786B_007814_007843),
  (0x214E39, 0x00786C_00785D_00786F_0078B0_007897_00788E_007898_007889_007891_00787C_00788C_0078A7),
  (0x214E45, 0x0078A9_00789F_0078B3_0078CB_0078BA_0078C1_0078C5_0078BC_0078D5_0078BE_0078CA_0078D0),
  (0x214E51, 0x0078E8_0078EC_0078DA_0078F7_0078F4_0078FA_007901_0078EF_00790E_007919_007926_00792C),
  (0x214E5D, 0x00792A_00792B_00793A_007940_00793E_007941_007945_007949_007948_007947_007955_007960),
  (0x214E69, 0x007950_007956_00795E_00795D_00795F_00795A_007957_007965_007968_00796D_00797A_007981),
  (0x214E75, 0x00797F_00798F_00798D_00798E_0079A6_0079A7_0079AA_0079AE_0079B1_0079B9),
  (0x214F21, 0x0079BD_00842C_0079BE_0079C0_0079C1_0079BF_0079C9_0079D1_0079CB_0079D2_0079E4_0079E6),
  (0x214F2D, 0x0079E3_0079DF_0079E7_0079E9_0079FB_007A05_007A0D_007A08_007A0B_007A00_007A1F_007A1C),
  (0x214F39, 0x007A20_007A1A_007A14_007A31_007A2E_007A3F_007A3C_007A40_007A3D_007A37_007A3B_007A4D),
  (0x214F45, 0x007A4E_007A4C_007A46_007A57_007A61_007A62_007A6B_007A69_007A74_007A76_007A79_007A7A),
  (0x214F51, 0x007A7F_007A81_007A84_007A88_007A92_007A95_007A98_007A96_007A97_007A9F_007AA0_007AAA),
  (0x214F5D, 0x007AA9_007AAF_007AAE_007ABA_007AC5_007AC4_007AC7_007ACA_007ACB_007AD9_007AE5_007AE3),
  (0x214F69, 0x007AED_007AEF_007AF6_007AF9_007AFA_007AFF_007AFD_007B06_007B11_007B20_007B2C_007B28),
  (0x214F75, 0x007B1B_007B1E_007B19_007B26_007B46_007B49_007B50_007B56_007B52_007B4B),
  (0x215021, 0x007B4D_007B4F_007B54_007B60_007B77_007B75_007BA1_007B94_007B95_007B9D_007B8B_007B97),
  (0x21502D, 0x007B8F_007BC7_007BAD_007BC4_007BB1_007BB4_007BC0_007BC6_007BC1_007C11_007BD9_007BDB),
  (0x215039, 0x007BE4_007BC9_007BE1_007BE9_007C07_007C0D_007BFE_007BF7_007C21_007C2B_007C2A_007C27),
  (0x215045, 0x007C1E_007C23_007C3F_007C3E_007C38_007C37_007C3D_007C43_007C4C_007C4D_007C50_007C60),
  (0x215051, 0x007C5F_007C64_007C6C_007C6E_007C72_007C73_007C89_007C92_007C97_007C9F_007CA5_007CB5),
  (0x21505D, 0x007CB1_007CB3_007CBD_007CB9_007CBE_007CCA_007CD6_007CD5_007CE0_007CDC_007CDF_007CDE),
  (0x215069, 0x007CE2_007CD9_007CE7_007CEF_007CF8_007CFB_007CFE_007D00_007D02_007D05_007D09_007D04),
  (0x215075, 0x007D07_007D21_007D0B_007D0A_007D20_007D1C_007D22_007D15_007D14_007D10),
  (0x215121, 0x007D17_007D0D_007D1A_007D19_007D1B_007D46_007D43_007D3C_007D2E_007D39_007D44_007D30),
  (0x21512D, 0x007D33_007D2F_007D40_007D42_007D71_007D5E_007D68_007D50_007D2B_007D62_007D55_007D61),
  (0x215139, 0x007D66_007D6E_007D72_007D93_007D91_007D79_007D8F_007D81_007D9C_007DBB_007DB0_007DCA),
  (0x215145, 0x007DBE_007DB4_007DBA_007DB2_007DB1_007DBD_007DB5_007DA0_007DA2_007DAD_007DBF_007DB8),
  (0x215151, 0x007DC7_007DE0_007DEF_007DF4_007DD2_007DD8_007DEC_007DDD_007DE9_007DE3_007DE8_007DDA),
  (0x21515D, 0x007D9E_007DDE_007E11_007E0A_007E08_007E1B_007DFB_007E23_007E2E_007E3E_007E46_007E37),
  (0x215169, 0x007E32_007E43_007E41_007E2B_007E3D_007E31_007E45_007E55_007E54_007E61_007E5E_007E5A),
  (0x215175, 0x007E6B_007E69_007E6D_007E79_007E6A_008FAE_007E7D_007E82_007E7C_007E8F),
  (0x215221, 0x007E8C_007E93_007E96_007E9C_007F36_007F38_007F3A_007F3D_007F44_007F48_007F50_007F55),
  (0x21522D, 0x007F54_007F5F_007F72_007F6E_007F69_007F6A_007F70_007F75_007F77_007F79_007F85_007F88),
  (0x215239, 0x007F8A_007F8C_007F8E_007F94_007F9E_007F9A_005584_007FA8_007FA4_007FA9_007FAF_007FB2),
  (0x215245, 0x007FB6_007FB8_007FB9_007FBD_007FBF_007FC5_007FC1_007FCC_007FD2_007FCE_007FD4_007FD5),
  (0x215251, 0x007FE0_007FE1_007FDF_007FE9_007FF0_007FF3_007FFC_007FF9_007FFB_007FF1_008000_008001),
  (0x21525D, 0x008003_008006_008005_00800C_008010_00800D_008012_008015_008018_008019_008017_00801C),
  (0x215269, 0x008033_008036_00803F_00803D_00804A_008046_008056_008058_00805E_00805A_008071_008072),
  (0x215275, 0x008073_008070_00806F_008077_008076_00807E_00807D_00807F_008086_008084),
  (0x215321, 0x008085_008087_008089_00808B_00808C_008093_00809D_008098_00809B_00809A_008096_0080B2),
  (0x21532D, 0x0080AA_0080BA_0080A5_0080A2_0080AB_0080B1_0080AF_0080A1_0080A9_0080B4_0080D6_0080CC),
  (0x215339, 0x0080E5_0080DA_0080E1_0080C3_0080DB_0080C4_0080CE_0080DE_0080E4_0080F0_008102_008105),
  (0x215345, 0x0080F1_0080F4_0080ED_0080FD_008106_0080F3_0080F8_00810A_008108_00812B_00812F_008116),
  (0x215351, 0x008123_008129_008155_008154_00814B_008151_008150_00814E_008139_008146_00813E_008171),
  (0x21535D, 0x008170_008178_008165_00816E_008173_00816B_008179_00817A_008166_008180_00818F_00817F),
  (0x215369, 0x00818A_008188_00819D_0081A0_00819B_00819A_00819C_0081B3_0081A9_0081A8_0081C6_0081BA),
  (0x215375, 0x0081C3_0081C0_0081C2_0081BF_0081BD_0081C9_0081BE_0081CD_0081CF_0081D8),
  (0x215421, 0x0081DA_0081DF_0081E3_0081E5_0081E8_0081EA_0081EC_0081ED_0081F3_0081F4_0081FA_0081FB),
  (0x21542D, 0x0081FC_0081FE_008200_008202_008205_008207_008208_008209_00820A_00820C_00820D_008210),
  (0x215439, 0x008212_008214_00821B_00821C_00821E_00821F_008222_00822A_00822B_00822C_008228_008237),
  (0x215445, 0x008235_008239_008236_008247_008258_008259_008266_00826E_00826F_008271_008272_00827E),
  (0x215451, 0x008292_00828B_00828D_0082B3_00829D_008299_0082BD_0082AD_0082AC_0082A5_00829F_0082BB),
  (0x21545D, 0x0082B1_0082B9_008303_0082E7_008305_008309_0082E3_0082DB_0082E6_008304_0082E5_008302),
  (0x215469, 0x0082DC_0082D7_0082F1_008301_0082D3_0082D4_0082D1_0082DE_0082DF_00832B_008352_00834A),
  (0x215475, 0x008338_008354_008350_008349_008335_008334_008336_008331_008340_008317),
  (0x215521, 0x008332_00834F_008339_00838E_008398_00839E_008378_0083A2_008396_0083A7_0083AB_008392),
  (0x21552D, 0x00838A_008393_0083A0_008389_008377_00837C_00837B_00840D_0083E0_0083E9_0083F8_008403),
  (0x215539, 0x0083C5_0083C1_00840B_0083EF_0083F0_0083F1_0083BD_0083F4_00840A_00840C_0083CC_0083DC),
  (0x215545, 0x0083CA_0083F2_00840E_008404_00843D_008482_008431_008475_008466_008457_008449_00846C),
  (0x215551, 0x00846B_00845B_008477_00843C_008435_008461_008463_008469_008438_0084B2_00849E_0084BF),
  (0x21555D, 0x0084C6_0084C4_0084C9_00849C_0084CB_0084B8_0084C0_008499_0084D3_008490_0084BC_00853D),
  (0x215569, 0x0084FF_008517_00851A_0084EE_00852C_00852D_008513_008511_008523_008521_008514_0084EC),
  (0x215575, 0x008525_008569_00854A_008559_008548_008568_008543_00856A_008549_008584),
  (0x215621, 0x0085AA_00856D_00859B_008591_00857E_008594_00859C_008587_0085CD_0085A9_0085CF_0085AF),
  (0x21562D, 0x0085D0_0085C9_0085B0_0085E9_0085DD_0085EA_0085E4_0085D5_0085E5_0085FB_0085F9_008611),
  (0x215639, 0x0085FA_008606_00860B_008607_00860A_00862D_008617_00861A_008638_00863F_00864E_008650),
  (0x215645, 0x008654_005F6A_008655_00865C_00865B_00865F_00865E_008667_00866B_008671_008679_0086A9),
  (0x215651, 0x0086AA_00868A_008693_0086A4_00868C_0086A3_0086C0_0086C7_0086B5_0086CB_0086B6_0086C4),
  (0x21565D, 0x0086C6_0086B1_0086AF_0086DF_0086D9_0086ED_0086D4_0086DB_0086E4_0086FB_0086F9_008707),
  (0x215669, 0x008703_008708_008700_0086FE_008713_008702_00871C_00873F_00873B_008722_008725_008734),
  (0x215675, 0x008718_008755_008760_008776_008774_008766_008778_008768_00874C_008757),
  (0x215721, 0x008759_008783_008782_0087A2_00879E_00878D_00879F_0087D1_0087C0_0087AB_0087B3_0087BB),
  (0x21572D, 0x0087C8_0087D2_0087BA_0087C6_0087CB_0087EF_0087F2_0087EC_0087FB_008805_00880D_0087F9),
  (0x215739, 0x008814_008815_008822_008823_008821_00881F_008831_008839_008836_00883B_008840_00884C),
  (0x215745, 0x00884D_008853_008857_008859_00885B_00885D_008861_008862_008863_00521D_008868_00886B),
  (0x215751, 0x008882_008881_008870_008877_008888_0088AB_008892_008896_00888D_00888B_00889E_0088C1),
  (0x21575D, 0x0088C2_0088B1_0088DF_0088D9_0088D8_0088DC_0088E1_0088D4_0088DD_0088D5_008902_0088F3),
  (0x215769, 0x0088F8_0088F9_0088F4_0088FD_0088E8_00891A_008910_008907_008913_008912_008932_00892A),
  (0x215775, 0x008925_00892B_00893B_008936_008938_008944_00895F_008960_008956_008964),
  (0x215821, 0x00896A_00896F_008972_00897F_008981_008983_008986_00898B_00898F_008993_008996_0089AA),
  (0x21582D, 0x0089A6_0089AC_0089B2_0089BA_0089BD_0089C0_0089D2_0089E3_0089F4_0089F8_008A00_008A08),
  (0x215839, 0x008A02_008A03_008A10_008A18_008A0E_008A0C_008A15_008A0A_008A16_008A17_008A13_008A2A),
  (0x215845, 0x008A23_008A1D_008A25_008A31_008A2D_008A1B_008A1F_008A3B_008A60_008A55_008A5E_008A3C),
  (0x215851, 0x008A41_008A54_008A5B_008A50_008A46_008A34_008A3A_008A6B_008A72_008A73_008A66_008A69),
  (0x21585D, 0x008A70_008A63_008A7C_008AA0_008A87_008A85_008A6D_008A79_008A62_008A71_008A6E_008A6C),
  (0x215869, 0x008AAA_008AA6_008AA1_008A9E_008A8C_008A93_008AA3_008A8D_008AA4_008AA8_008AA5_008A98),
  (0x215875, 0x008A91_008ABC_008AC4_008AD2_008AC7_008ACB_008AF8_008AB2_008ABF_008AC9),
  (0x215921, 0x008AC2_008AB0_008A95_008AD6_008AE6_008AFA_008AEB_008AF1_008AE7_008ADC_008B00_008B01),
  (0x21592D, 0x008B02_008AFE_008AF7_008AED_008B17_008B19_008B0E_008B1B_008B0A_008B20_008B04_008B1D),
  (0x215939, 0x008B39_008B2C_008B28_008B58_008B5C_008B4E_008B49_008B5A_008B41_008B4F_008B70_008B6C),
  (0x215945, 0x008B66_008B6F_008B74_008B77_008B7D_008B80_008B8A_008B93_008B96_008B92_008B9A_008C37),
  (0x215951, 0x008C41_008C3F_008C46_008C48_008C49_008C4C_008C4E_008C50_008C54_008C5A_008C61_008C62),
  (0x21595D, 0x008C6A_008C6B_008C6C_008C7A_008C79_008C82_008C8A_008C89_008C8D_008C8C_008C93_008C9D),
  (0x215969, 0x008C9E_008CA0_008CA2_008CA1_008CAC_008CAB_008CA8_008CAA_008CA7_008CA9_008CAF_008CB3),
  (0x215975, 0x008CBB_008CC1_008CC0_008CB4_008CBC_008CB7_008CB6_008CBD_008CB8_008CBF),
  (0x215A21, 0x008CC5_008CC7_008CCA_008CC8_008CC4_008CB2_008CC3_008CC2_008CD3_008CD1_008CD2_008CE0),
  (0x215A2D, 0x008CE6_008CEC_008CE3_008CE2_008CE4_008CDE_008CDC_008CEA_008CED_008CF4_008CFD_008CFA),
  (0x215A39, 0x008D05_008CFC_008D08_008D0B_008D0A_008D0F_008D0D_008D13_008D16_008D1B_008D64_008D67),
  (0x215A45, 0x008D66_008D6B_008D6D_008D70_008D74_008D73_008D77_008D85_008D8A_008D81_008D99_008D95),
  (0x215A51, 0x008DA3_008D9F_008DA8_008DB3_008DB4_008DBE_008DCE_008DDD_008DDB_008DCB_008DDA_008DC6),
  (0x215A5D, 0x008DD1_008DCC_008DE1_008DDF_008DE8_008DF3_008DFA_008DEA_008DEF_008DFC_008E2B_008E10),
  (0x215A69, 0x008E22_008E1D_008E0F_008E29_008E1F_008E44_008E31_008E42_008E34_008E39_008E35_008E49),
  (0x215A75, 0x008E4B_008E48_008E4A_008E63_008E59_008E66_008E64_008E72_008E6C_008E7A),
  (0x215B21, 0x008E76_008E7C_008E82_008E81_008E87_008E89_008E85_008E8A_008E8D_008E91_008EA1_008EAA),
  (0x215B2D, 0x008EAB_008EAC_008EB2_008EBA_008EC0_008ECA_008ECB_008ECD_008ECC_008ED2_008ED4_008EDF),
  (0x215B39, 0x008EDB_008EFB_008EF8_008EFC_008F03_008EFE_008F09_008F0A_008F14_008F12_008F15_008F13),
  (0x215B45, 0x008F26_008F1B_008F1F_008F1D_008F29_008F2A_008F1C_008F3B_008F2F_008F38_008F44_008F3E),
  (0x215B51, 0x008F45_008F42_008F3F_008F4D_008F49_008F54_008F4E_008F5F_008F61_008F9B_008F9C_008F9F),
  (0x215B5D, 0x008FA3_008FA8_008FA6_008FAD_008FAF_008FB0_008FB1_008FB2_008FC2_008FC6_008FC5_008FC4),
  (0x215B69, 0x005DE1_008FCE_008FD1_008FD4_008FF0_008FE6_008FE2_008FEA_008FE5_008FED_008FEB_009001),
  (0x215B75, 0x009006_008FF7_009000_008FFA_008FF4_009003_008FFD_009005_009019_009023),
  (0x215C21, 0x00901F_009017_00901D_009010_009015_00900D_00901E_00901A_009020_00900F_009022_009016),
  (0x215C2D, 0x00901B_009014_00902E_009035_009031_009038_009032_00904B_00904A_009053_009042_009050),
  (0x215C39, 0x009054_009055_00903C_009047_00904F_00904E_00904D_009051_009041_00903E_009058_009060),
  (0x215C45, 0x00905C_009063_009059_00905E_009069_00906E_009068_00906D_009075_009074_009078_009072),
  (0x215C51, 0x009077_00907C_00907A_00907F_00907D_009081_009084_009082_009080_009087_00908A_009090),
  (0x215C5D, 0x00908F_009091_009095_0090A3_0090A2_0090AA_0090A6_0090B5_0090B1_0090B8_0090CE_0090CA),
  (0x215C69, 0x0090C1_0090E1_0090E8_0090ED_0090F5_0090FD_009102_009109_009112_009119_00912D_009130),
  (0x215C75, 0x009127_009131_009139_009149_00914B_00914A_009152_00914D_00914C_009157),
  (0x215D21, 0x009163_009165_00916C_009169_00916A_009175_009178_009177_009187_009189_00918B_009183),
  (0x215D2D, 0x009192_0091A3_00919E_00919C_0091AB_0091AC_0091BA_0091C0_0091C1_0091C7_0091C9_0091CB),
  (0x215D39, 0x0091CC_0091CD_0091CE_0091CF_0091D0_0091D1_0091DD_0091D8_0091D7_0091DC_0091F5_0091E6),
  (0x215D45, 0x0091E3_0091E7_009223_00920D_009215_009209_009214_00921E_009210_009257_009237_009238),
  (0x215D51, 0x00923D_00923E_009240_00924B_00925B_009264_009251_009234_009278_009280_0092AC_009285),
  (0x215D5D, 0x009298_009296_00927B_009293_00929C_0092C5_0092BB_0092B3_0092EA_0092B7_0092C1_0092E4),
  (0x215D69, 0x0092BC_0092D2_009320_009336_0092F8_009333_00932F_009322_0092FC_00932B_00931A_009304),
  (0x215D75, 0x009310_009326_00934D_009382_009375_009365_00934A_00934B_009328_009370),
  (0x215E21, 0x00937E_009318_00936C_00935B_00938A_009394_0093AE_009396_0093A2_0093B3_0093E1_0093D1),
  (0x215E2D, 0x0093D6_0093C3_0093DF_0093D7_0093C8_0093E2_0093DC_0093E4_0093DD_0093CD_0093D8_009418),
  (0x215E39, 0x009403_00942E_0093FD_009433_009435_00943A_009438_009432_009452_009451_009444_009463),
  (0x215E45, 0x009460_009472_009470_00947E_00947C_00947D_00947F_009577_009580_009582_009583_009589),
  (0x215E51, 0x009594_00958F_00958B_009591_009593_009592_009598_0095A1_0095A8_0095A9_0095A3_0095A5),
  (0x215E5D, 0x0095A4_0095B1_0095AD_0095BB_0095CA_0095CB_0095CC_0095C8_0095C6_0095D4_0095D6_0095D0),
  (0x215E69, 0x0095DC_0095E1_0095E2_00961C_009621_009632_009631_00962E_00962A_009640_00963F_00963B),
  (0x215E75, 0x009644_009650_00964C_00964B_00964D_009662_009663_00965B_009661_00965D),
  (0x215F21, 0x009664_00966A_009673_009678_009675_009672_009676_009677_009674_009670_00968A_00968E),
  (0x215F2D, 0x00968B_00967D_009685_009686_00968D_009698_009694_009699_009695_00969C_00969B_0096A7),
  (0x215F39, 0x0096A8_0096AA_0096B1_0096B4_0096B8_0096BB_0096C0_0096C7_0096C6_0096C4_0096C1_0096C5),
  (0x215F45, 0x0096CD_0096CB_0096C9_0096CC_0096D5_0096D6_0096DC_0096DE_0096DB_0096D9_0096E2_0096E3),
  (0x215F51, 0x0096E8_0096EA_0096EF_0096F2_0096FB_0096F7_0096F9_0096F6_009700_009707_009704_009709),
  (0x215F5D, 0x009706_009711_00970E_009716_00970F_00970D_009713_00971C_00971E_00972A_009727_009738),
  (0x215F69, 0x009739_009732_00973D_00973E_009744_009742_009748_009752_009756_00975B_00975C_00975E),
  (0x215F75, 0x009760_009761_009762_009766_009768_009769_009776_009774_00977C_009785),
  (0x216021, 0x00978D_00978B_00978F_009798_0097A0_0097A3_0097A6_0097AD_0097C3_0097C1_0097C6_0097CB),
  (0x21602D, 0x0097CC_0097D3_0097DC_0097ED_0097F3_007AE0_007ADF_0097F6_0097FB_0097FF_009801_009802),
  (0x216039, 0x009803_009805_009806_009808_009810_00980A_009811_009813_009812_00980C_009817_009818),
  (0x216045, 0x009821_00982D_009830_009838_00983B_009839_009837_009824_009846_00984F_00984D_00984C),
  (0x216051, 0x00984E_009853_00985E_00985B_009858_009867_00986B_00986F_009871_009870_0098A8_0098AF),
  (0x21605D, 0x0098B1_0098B3_0098B6_0098BA_0098BC_0098C4_0098DB_0098DF_0098E2_0098E7_0098E9_0098ED),
  (0x216069, 0x0098EA_0098F2_0098EF_0098FC_0098F4_0098FD_0098FE_009903_00990A_00990C_009909_009910),
  (0x216075, 0x009912_009918_009913_009905_009928_00991E_00991B_009921_009935_00993E),
  (0x216121, 0x00993F_00993D_009945_009952_009951_00995C_00995E_009996_009999_0099A5_0099A8_0099AC),
  (0x21612D, 0x0099AE_0099AD_0099B3_0099B1_0099B4_0099C1_0099D0_0099DD_0099D5_0099DF_0099DB_0099D2),
  (0x216139, 0x0099D9_0099D1_0099ED_0099F1_009A01_0099FF_0099E2_009A0E_009A19_009A16_009A2B_009A30),
  (0x216145, 0x009A37_009A43_009A45_009A40_009A3E_009A55_009A5A_009A5B_009A57_009A5F_009A62_009A65),
  (0x216151, 0x009A6A_009AA8_009AAF_009AB0_009AB7_009AB8_009ABC_009ACF_009AD3_009AD4_009AD2_009AD8),
  (0x21615D, 0x009AEF_009AE6_009AEE_009AFB_009AED_009B03_009B06_009B0D_009B1A_009B22_009B25_009B27),
  (0x216169, 0x009B28_009B31_009B32_009B3C_009B41_009B42_009B45_009B44_009B4F_009B54_009B58_009B5A),
  (0x216175, 0x009B77_009B6F_009B91_009BAB_009BAE_009BAA_009BCA_009BC9_009BE8_009BE7),
  (0x216221, 0x009C13_009C0D_009BFD_009C2D_009C25_009C31_009C3E_009C3B_009C54_009C57_009C56_009C49),
  (0x21622D, 0x009C77_009C78_009CE5_009CE9_009CF6_009CF4_009CF3_009D06_009D09_009D15_009D23_009D28),
  (0x216239, 0x009D26_009D1B_009D12_009D3B_009D3F_009D61_009D51_009D60_009D5D_009D89_009D72_009D6A),
  (0x216245, 0x009D6C_009DB4_009DAF_009DC2_009DD3_009DD7_009DE5_009DF9_009DFA_009E1A_009E1E_009E79),
  (0x216251, 0x009E7D_009E7C_009E7F_009E82_009E8B_009E97_009E92_009E93_009E9D_009E9F_009EA5_009EA9),
  (0x21625D, 0x009EB4_009EB5_009EBB_009EBC_009EBE_009EC3_009ECD_009ECE_009ECF_009ED1_0058A8_009ED8),
  (0x216269, 0x009ED4_009EDE_009EDC_009EDB_009EDD_009EE0_009EE8_009EEF_009EF4_009EF7_009F07_009F0E),
  (0x216275, 0x009F13_009F15_009F19_009F20_009F2C_009F34_009F3B_009F3E_009F4A_009F4B),
  (0x216321, 0x009F52_009F5F_009F63_009F61_009F66_009F5C_009F6C_009F6A_009F77_009F72_009F8D_009F94),
  (0x21632D, 0x009F9C),
  (0x216330, 0x008288),
  (0x216421, 0x004E07_004E0C_004E0E_004E0F_005187_003401_004E20_020046_004E28_004E29_004E2A_004E2E),
  (0x21642D, 0x004E30_004E31_004E33_004E35_004E36_004E3C_004E3F_003405_004E47_004E42_00738D_0200A4),
  (0x216439, 0x004E51_0200A3_0200A2_004E5C),
  (0x21643E, 0x004E63_006C39_00340C_004E71),
  (0x216443, 0x004E7F_004E84_004E83_004E85_003428_004E8D_004E8F_004E93_004E98_0051B5_0209E5_004E9D),
  (0x216450, 0x004EA0_004EA2_004EB3),
  (0x216454, 0x02016C_004EB6),
  (0x216458, 0x004EB9_004EBB_004EBC_0201A4),
  (0x21645D, 0x004EC2_004EC9_004ECF_004ECC_004EC8_004ECE_004EE8),
  (0x216465, 0x0201B4_004EDC_004EDD_004EE9_004EDA_004EE6_004EE1_004EE2_0201A9_004EDB_003431_004F29),
  (0x216472, 0x004F08_004F0E_004F05_004F03_004F04_004F2C_00343E_004F1D),
  (0x21647B, 0x004F13_004F22_0201BD_003440),
  (0x216521, 0x004EF4),
  (0x216523, 0x004EEF),
  (0x216525, 0x004F28),
  (0x216527, 0x004EF5_004F07_004EF8_004F00_004EF7_004F0B_004EEE_004F17_004F02_004F2D_004F56_004F3B),
  (0x216533, 0x004F40_0201F1_004F45_004F58_004F62_004F42_004F64_004F49_004F44_004F33_004F4A_004F53),
  (0x21653F, 0x004F3E_004F66_004F4B_004F39_004F37_004F67_004F3F_003446),
  (0x216548, 0x004F52_004F35),
  (0x21654B, 0x004F41_0201FC_004F68_004F5A_004F5F_0201E9_004F31_003443_004F61_0201D7_004FAB_004F82),
  (0x216557, 0x004F7C_004F85_004F8E_004F98_004F92_004F7D_004F77_004F87_004F99_004F80_004F74_004F76),
  (0x216563, 0x00344C_004FA2_004F84_004F91_004F95_004F9F_004F89_004F8A_004F6A_004F4C_004F97_004F94),
  (0x21656F, 0x004F72_004F79_004F9A_004F81_004F78_004F6B_004F6D_004F9C_004F90_020208_004F9E_004F6E),
  (0x21657B, 0x004F7A_004FCD_020244),
  (0x216621, 0x004FD2_004FE4),
  (0x216625, 0x004FB0_004FB7_004FC5_004FCC_004FC9_004FE5_004FBE_004FE7),
  (0x21662E, 0x00345C_004FB4_004FB2_004FD6_004FD3_004FDC_004FB1_004FD4_004FCB_004FC1_004FBA_004FC0),
  (0x21663B, 0x004FDB_004FEC_003457_004FC6_004FD9_004FC7_004FBB_004FB3_004FB9),
  (0x216646, 0x00501E_02026A_00503F_005005),
  (0x21664B, 0x005027_005007_005013_005022),
  (0x216650, 0x005035_005033_004FF5_00501B_005030_00501D_004FF9_00502F_005008_004FF4_02027C_005037),
  (0x21665C, 0x005034),
  (0x21665E, 0x00502E_003465_005031_004FF6_00501C_00500E_02029E),
  (0x216666, 0x00502C),
  (0x216669, 0x005010),
  (0x21666C, 0x020270_005038),
  (0x21666F, 0x005017_004FF7),
  (0x216673, 0x004FF0_005020_020263_005004_004FFD_00346B_00503D_02026B_005063_0202E4),
  (0x21667E, 0x0202C4),
  (0x216721, 0x005064_00506F_005050_0202C0_005070_005046_0202A8_00504B_005053_00506A_005060_005056),
  (0x21672D, 0x005066_00505E),
  (0x216731, 0x00506D_005044_00507C_00504D_005052_00506E_00346E_00505D_005048_005054_005058_005072),
  (0x21673E, 0x005040),
  (0x216740, 0x005073_005041_0202AC),
  (0x216744, 0x005069_005045_005015_005062_00507A_005051_00506C_00505F_00504A_00506B_005094),
  (0x216750, 0x00509E),
  (0x216752, 0x00509B_00509A_005093_00508F),
  (0x216757, 0x0050A3),
  (0x21675A, 0x00508C_005083_005088_00508B_020316_0202FA),
  (0x216761, 0x005086_00508E),
  (0x216764, 0x005095_005087),
  (0x216767, 0x0050A6_005068_005081_005092_003473_00509C_005082_0050BD_0050B9_003480_0050C7),
  (0x216773, 0x0050C6),
  (0x216775, 0x0050C9_0050CC_0050AE_02034F_0050BF_0050C4_0050CA_0050B4_0050B6_02037D),
  (0x216821, 0x0050B8_0050C2_02033C_0050C8),
  (0x216826, 0x020381_0050B0),
  (0x216829, 0x0050AA_0050C1_00347E_0050BA),
  (0x21682E, 0x0050CD_0050B1_0050D2_0050D0_0050D4),
  (0x216834, 0x0050EF_0050E6_0050D7_0050DC_0050EA_0050E9_0050F4_0050CE_0050DD_0050E3_0050E1_020389),
  (0x216841, 0x0050F3_0050E8_0050EB_0050F0_0050DB_0050D9),
  (0x216849, 0x0203AE_0203B3_02038D_0050E4_0050D3),
  (0x216850, 0x0050E2_003484_0050E0_020379_020394_0050EC_0050DF_003486_0050FF_005103_003493_00510E),
  (0x21685C, 0x0050F8_00510A),
  (0x21685F, 0x005105),
  (0x216861, 0x0050FC_0050F6_0050F7),
  (0x216865, 0x005106_005107_00510F_0050FE_00510B_0050FD),
  (0x21686C, 0x0203B7_005101_00510C_00511C_00512B_005115_005113_00511E_005117_0203F1_005111_0203EE),
  (0x216878, 0x00511A_009797_00511B),
  (0x21687C, 0x02041F),
  (0x21687E, 0x005126),
  (0x216922, 0x005127),
  (0x216924, 0x005125),
  (0x216928, 0x005122_005124_02040D_005129),
  (0x21692D, 0x020408_005120_00512D_005131_00349F),
  (0x216937, 0x005130),
  (0x216939, 0x0034A0),
  (0x21693B, 0x005134_020440_02043F_005135_0034A1_005133_0034A7_0034A4_02043D_00513A_020458_005138),
  (0x216947, 0x005139_00513B_00513D_0034A9),
  (0x21694C, 0x00513F_020479_02047D_0034AC),
  (0x216951, 0x005159_00515B_00515A),
  (0x216955, 0x00515D_00515E),
  (0x216958, 0x00515F_005161_0204AB_0204BA_005163_004ECE),
  (0x21695F, 0x0034B3),
  (0x216963, 0x0034B8_02052F),
  (0x216967, 0x005182),
  (0x216969, 0x005184),
  (0x21696B, 0x020546_00518B_00356F_00518F),
  (0x216970, 0x005194_005193_0034BB_0034BC),
  (0x216975, 0x005196_005198_00519E),
  (0x21697A, 0x00519F_0051A1_0051A3),
  (0x21697E, 0x0034C3),
  (0x216A22, 0x0051AA_0051AB),
  (0x216A26, 0x0051B1_0051B3),
  (0x216A29, 0x0051B2),
  (0x216A2B, 0x0205B2),
  (0x216A2D, 0x0051B8_0051B4),
  (0x216A30, 0x0051B9_0205BA),
  (0x216A33, 0x0051B5_0205B7_0051BC),
  (0x216A37, 0x0051BE),
  (0x216A39, 0x0205D0),
  (0x216A3B, 0x0205C9_0205CA_0205D4_0205D5_0051C3_0051C9),
  (0x216A43, 0x0051CA_0051C4_0205D9_0051C7),
  (0x216A49, 0x0051C5_0051C8_0051C2_0051CE),
  (0x216A4E, 0x0051D1_0051D0_0205E8),
  (0x216A52, 0x0051CF),
  (0x216A54, 0x0051D3),
  (0x216A56, 0x0051D5_0051D2_0051D4),
  (0x216A5A, 0x0051D7_0034D6),
  (0x216A5E, 0x0051D8),
  (0x216A60, 0x02060E_020615),
  (0x216A63, 0x0051D9),
  (0x216A66, 0x0051DF_02061D_0051E2_02062D_0051E5_020631),
  (0x216A6E, 0x0051ED_020646),
  (0x216A73, 0x005160),
  (0x216A77, 0x0051F4_0051F5_0051F7_0051FE_005202),
  (0x216A7D, 0x0034DA_0206AF),
  (0x216B21, 0x00520C_00520B_005209_005213_005214_005216_005210_00520F_0034DE_00521C_005221_005227),
  (0x216B2D, 0x0034E0_0206CE),
  (0x216B31, 0x0206FC),
  (0x216B33, 0x005231),
  (0x216B36, 0x005235_005232_0034E4_005233),
  (0x216B3C, 0x0034E2_0034E8_005244_005245_005248_020710_020716_005249_020723_02071C_005261_005260),
  (0x216B48, 0x005259_020735_005257_00525A_005252_00525E_020732_02073E_00525F_020736),
  (0x216B53, 0x005255_005253_00526B),
  (0x216B57, 0x0034F6),
  (0x216B59, 0x00526D_02075D_00526E_00526C_020779_005268_005273_0034F9),
  (0x216B62, 0x020788_0034FA_005276_0034F7),
  (0x216B68, 0x0034FC_00527A_005279_005278_00527E_0034FD_00527B_009CED_0207C3_0207CD_005280_0207C9),
  (0x216B74, 0x005282_005281_003503_00528B_0207EB_00528C_00528A_00350C_005290_020808_005292),
  (0x216C21, 0x005293_00350D),
  (0x216C24, 0x00350B_02080D_020817_005296_003512_005298_005297_00529A_005299_02082F_0052A6_0052A4),
  (0x216C30, 0x003517_0052AD_020847_0052AE_0052B9_003519_0052B5_0052BB_0052BC),
  (0x216C3A, 0x0052BA_0052C5_0052CA_0052CD_0052CC_0052CE_0052D0_0052D1_020874),
  (0x216C45, 0x0052D3_0052D4),
  (0x216C48, 0x0052D6),
  (0x216C4B, 0x003521_0052E3_0052E0_0052E1_0052E5_0055E7_0052ED_0052EC_0052E9_0208A4_0052EB_0052E8),
  (0x216C57, 0x0052EF_0052F0_0052EE_0052F1_0052F3_0052F4_003523_0052F7),
  (0x216C60, 0x0208CA_0052F9_0052FA_02F828_0052FC),
  (0x216C67, 0x0052FD_005304_005307_005303_005306_007073_005309_00530A_00530B_0208D8_00530C_00752E),
  (0x216C73, 0x003528_003529),
  (0x216C76, 0x005312_005311_0208FC_005313_0208FE_006706_020904_02090F),
  (0x216D23, 0x00531A_00531C_00531F_005325_00352F),
  (0x216D2A, 0x005327_02093C),
  (0x216D2D, 0x00532B_00532D_00532C_020954_020950_003534_005330_005333_005334_005335_005336_005337),
  (0x216D39, 0x003536_005338_003537_00533B_00533C_00533D_003538),
  (0x216D41, 0x00534C_00534D),
  (0x216D45, 0x005359),
  (0x216D47, 0x0209AB_0209AC),
  (0x216D4B, 0x00535D_005363),
  (0x216D4E, 0x0209E7_0209DE_0209EA),
  (0x216D52, 0x005369_00536C_00536D_020A16_020A12_005372_00537A),
  (0x216D5A, 0x005376_003541_00537C_005380_005382_00538A_003547_003546_020A40_00538F_00538E_003548),
  (0x216D66, 0x005393_005394),
  (0x216D69, 0x020A4F_003549_020A57_005397_005399_00354A_005396_020A58_005398_00539E),
  (0x216D74, 0x008652),
  (0x216D76, 0x00539C_020A67_00354B_00354E_0053A4_0053AB_0053AA),
  (0x216D7E, 0x020A99),
  (0x216E22, 0x020A9A_0053AC_003552),
  (0x216E26, 0x020AAE_0053B1_020ABB_003553_0053B4),
  (0x216E2C, 0x0053B5_0053B6_0053B9_0053B7_020AD7),
  (0x216E32, 0x0053BD_0053C1),
  (0x216E36, 0x020B05_0053C5_003559_00355A_0053CC_0053CE),
  (0x216E3D, 0x020B22_0053D0_0053D2_020B2A),
  (0x216E45, 0x00355E_0053D5),
  (0x216E48, 0x0053DA_00355F_0053D9),
  (0x216E4D, 0x020B57_020B65_020B70_020B74_0053E0_003562_0053E1_0058E1_0053F6),
  (0x216E57, 0x0053FB_00535F_0053F4_003563_005402),
  (0x216E5D, 0x003567_003566_005413_005407_005414_020BBE_00593B_005405_005400),
  (0x216E67, 0x020BC0),
  (0x216E6A, 0x020BC6_00542F_00544C_005445),
  (0x216E6F, 0x00541A_005432_005434_005437_003576_00541C_020BD7_005421_005425_005430_005454_020BCD),
  (0x216E7B, 0x003573_005441_00543D_005418),
  (0x216F21, 0x00544F_00356D_00543A_00542A_020BD1_005422_005423_00542C_005424_00356E_00548F_003578),
  (0x216F2D, 0x00545D_00545F_00549C_020C47_005487_020C22_00546F_00545E_005488_005461_00547F_005481),
  (0x216F39, 0x005482_00546D_005491_005460_005498_020C09_00547E_00547A_005465_005494_00546B_00546C),
  (0x216F46, 0x00546A_005489),
  (0x216F49, 0x00548D_005463_005474_00548A_005479_003577_005483_005467_020C2D_005466_005464_0054B9),
  (0x216F55, 0x0054A4_020C97_020C65_0054A1_0054A0_0054AD_0054BA_0054CF_020C7C_0054BE_003588_0054A5),
  (0x216F61, 0x00549F_0054CA_0054A7_0054B5_02F840_0054A2_005472_005470_0054BC_0054B7_0054DE_0054D6),
  (0x216F6D, 0x0054AE_0054B0_0054B6_0054C5_0054BF_0054CD_020C8E_0054C6_0054B2_003583_005526),
  (0x216F79, 0x0054F4),
  (0x216F7B, 0x00551A_0054E2_005507_0054F1),
  (0x217022, 0x005513_005517_0054FD_0054E7),
  (0x217027, 0x0054F3),
  (0x217029, 0x003591_0054E4_00550A_020CDD_0054FF_005518_020CAE_005504_0054FB_0054EF),
  (0x217034, 0x005508_0054EB_0054F5),
  (0x217038, 0x0054F6_0054F7_0054F9_0054F8),
  (0x21703D, 0x0054E0_00550E_020CE8),
  (0x217041, 0x020CEA_003594_005515_005523_005519_00550F_005511_005503_00550B_005505_005575_005534),
  (0x21704D, 0x005573_00554C_005576_00554D_00555A_0035A3_00553C_005547_005550_0035A1_005539_005548),
  (0x217059, 0x00552D_005551_00555B_005568_00552A_0035AA_0035A4_005562_005536),
  (0x217063, 0x00556B_005549),
  (0x217066, 0x020D4D_005552_005530_00553B_005540_005535),
  (0x21706D, 0x020D69_020D2B),
  (0x217070, 0x005545),
  (0x217074, 0x0035A5_005571),
  (0x217077, 0x00554E_005557_00553F_005532_005541_0035A7_005565_00552B),
  (0x217121, 0x00550C_020E0D_005591_020DB7_005577_0055A8_0055AD_0055A5_0035D1_005605_0055AB_0035C7),
  (0x21712D, 0x005593_00557F_005586_020DCE_0055A1),
  (0x217134, 0x005588_005596_0055B4_0035BD_020DCB_0035C5_005595_0055AF_005597_005585_00557A),
  (0x217140, 0x00558C_0035C1_0035CA),
  (0x217144, 0x005581_00558E_0035B8_0055B5_020E0F_00558F_020E04_005559_0035C9_0055A3),
  (0x21714F, 0x0055A2_0055A4_005592_005599_0055B0_020DE8_00557D_0055F4_020E97_0055CC_0055D0_0055DB),
  (0x21715B, 0x0055CD_0055DE_0055D9_0055C3_0055C9_0055C0_0055CA_0055DD_0035D8_0055D4_0055C4),
  (0x217167, 0x0055E7_0055CB_0055E9),
  (0x21716B, 0x0055BF),
  (0x21716D, 0x0055D7_00558D_0055CF_0055D2_0055E2_0055C2_0035DB),
  (0x217177, 0x0055D6_0055C1_0055F2_0055C8_020F00_020EE4_0035E7_005627),
  (0x217222, 0x020EDC),
  (0x217224, 0x0055FB_005612),
  (0x217227, 0x0055F8_00560F_020F17_020F03_0055F9),
  (0x21722D, 0x0035E6_00561E_020F33_005615_00560C_020F08_0035E8_00561C_005610_005601_0035E4_005613),
  (0x217239, 0x0055F6_005611),
  (0x21723C, 0x005602_0055FC_00560A_0055FA_005604_0035E2_00561D_005651_0055FF),
  (0x217246, 0x00561A_005642_00564C_005647),
  (0x21724B, 0x00564B_005648_00564A_00565A_005644_020FBD_005656_005640),
  (0x217254, 0x005631_005635),
  (0x217257, 0x005649_005641_00563E),
  (0x21725B, 0x005646_005658_005620_005654_00563C_00562A_00563D_005633),
  (0x217264, 0x00562C_005643_020F76_005638_00563A_00564D_0035F1_00562B_00564F_005677_005670_00565F),
  (0x217270, 0x00567C),
  (0x217272, 0x005660_020FD1_0035FF_005663),
  (0x217277, 0x005667_005676_020FFA_005666_005673_00566D_00565E_005672),
  (0x217321, 0x02100E_003609_005661),
  (0x217325, 0x005693_00567E_021048_00568C_005692),
  (0x21732B, 0x00567F_005681_00568D_021064_00567D_005688_005683_0056BA_003608_005686_005684_005691),
  (0x217337, 0x00568A),
  (0x21733A, 0x00569D_0210BB_005696_005682_00569E_005698_021096_00569C_00569A_02109F_005697_005699),
  (0x217346, 0x021095_00569B_021092_0056AB),
  (0x21734B, 0x0056AD_0056A6_0056AA_0056AC_0056A7_021106_0056A9_003614_0056B2),
  (0x217356, 0x003613),
  (0x217359, 0x0056B1_0056B3_0056C3_003616_021135_0056BE_0056B5_0056C5_0056CB_0056CF_0056D0_0056D2),
  (0x217365, 0x003619),
  (0x217367, 0x0056CD_0056D3_02117B_0056D4_0056D7_00361D_0056DD_0211AB_0056E1_0056DF_0056E5_0056ED),
  (0x217373, 0x0056E9_0056E6_0056EB_0056EE_0056E7_0056F8_0056FB),
  (0x21737D, 0x0056FC_0056F7),
  (0x217421, 0x0056F9_0056FE),
  (0x217424, 0x0056FF_005700_005701_005705_005704_005702_003623_0211E5_00570A_005709_005707_005710),
  (0x217430, 0x00570C_005715_005714_003624),
  (0x217435, 0x00571A_00571B_00571C_021233_00571D_00571E_005721_005720_02123C_005722_005723_021243),
  (0x217441, 0x005724_00572E_005729),
  (0x217447, 0x005736_005738_005732_02124F_005731_00572A),
  (0x21744F, 0x005734_021241_02124C_003629_00575B_005756_005753_005757),
  (0x217458, 0x02127F_005758_021290_003628_005754),
  (0x21745E, 0x005748_00362A_005744_00575F_005741_005749_005752_005745_00573B_005742_00574B_00574C),
  (0x21746A, 0x00573F_005762_021294_0212A8_005779_00577E_005768_02129E_005787_021289_005772_00578A),
  (0x217476, 0x003632_00576D_02129C_005774_005767_00576F_00577A_005763_005765),
  (0x217521, 0x0212A0),
  (0x217523, 0x0212B0),
  (0x217525, 0x00576B_005770),
  (0x217528, 0x005771_005780_00576E_005781_0212B3_005776_005789_005778_00577F_005775_00577B_005788),
  (0x217534, 0x00577D_005773_00576C),
  (0x217538, 0x00579F_005790_005793_0212DF),
  (0x21753E, 0x00363E_00579E_0057B5_00578F_005832_00579A_0212E5_005794_0057AB_0057A4_005799_00578C),
  (0x21754A, 0x0212F9_005797_005792_005791_00579D_0212C2_00579B_0212D5),
  (0x217553, 0x00578E_0057A7_005796_00578D_0057A1_005798_0212C4_0057A5_005795_0057B6_0057CC_0057BF),
  (0x21755F, 0x0057B8_0057C7_0057D0),
  (0x217565, 0x02130A),
  (0x217568, 0x0212EF_0057D1_005809_0057BB_0057BE_0057CD_00363F_0057B7_0057D7_0057DB_0212FF_0057D5),
  (0x217574, 0x0057CA_00965E_0057BD_0057D2_0057BA_0057C8),
  (0x21757B, 0x0057B9),
  (0x21757D, 0x003641_0057C6),
  (0x217622, 0x0057C4_0057BC),
  (0x217625, 0x0057E2_0057FF_0070FE_0057EE_0057E3_0057FB_005803_0057F6_0057E6_0057DE_021326_0057E5),
  (0x217631, 0x0057ED_0057F2_005800_0057FE_0057EC_005807_00364B_0057E1_00580E),
  (0x21763B, 0x00580F_0057DC_0057F4_005810_0057FC_00580D),
  (0x217643, 0x0057EF_00364D_0057EB_005808_005814_005801_005812_0057F1),
  (0x21764C, 0x0057E7_0057FD_0057F8),
  (0x217650, 0x00580C_005813_0057F0),
  (0x217654, 0x0057E9),
  (0x217656, 0x00580B),
  (0x217658, 0x0057F3_005804_0057CF_0057DD_0057E8),
  (0x21765E, 0x00580D_005847_005817_005829),
  (0x217663, 0x021368),
  (0x217665, 0x005825_00583C_00581B_003654_005819_005833_0058FB_00581E_00583F_005836_02139C),
  (0x217671, 0x005827),
  (0x217673, 0x02136B_005823),
  (0x217676, 0x005828_00581A_00582E_00583A_00581D_02139E_005826_005844),
  (0x217721, 0x005848),
  (0x217723, 0x005818_00581F_005839_0057F5_02136A_005838_00582D_005845_005820_005822_00582B_021386),
  (0x21772F, 0x00582C_00584E_0213EC_003659_00585D_005871_005859),
  (0x217737, 0x00584B),
  (0x217739, 0x0213DE),
  (0x21773B, 0x005850),
  (0x21773D, 0x005865),
  (0x21773F, 0x005868_00586C),
  (0x217742, 0x005852),
  (0x217744, 0x00585C_005864),
  (0x217747, 0x005853_00584F_00583D),
  (0x21774D, 0x00584D_005856_005860),
  (0x217751, 0x02136E),
  (0x217753, 0x005849_005855_00589A_005887_005891_005892),
  (0x21775A, 0x00588E),
  (0x21775C, 0x005889_00587A),
  (0x21775F, 0x005840_00589B_00587C_005882_005888),
  (0x217765, 0x005890_003660_00587B_005898_005884_005886_00587D),
  (0x21776D, 0x005874_005894_00587F_005881_005877_00588F),
  (0x217774, 0x00588B_005872),
  (0x217778, 0x003661),
  (0x21777A, 0x0058A5_0058A9_0058AA_021454_0058A1),
  (0x217821, 0x0058AB_02142D_02144D_0058B1_00589D_0058B5_021436_0058B0_00366A_0058B4_0058AD_003669),
  (0x21782D, 0x021439_0058A0),
  (0x217830, 0x0058A3_0058AF_0058A6),
  (0x217834, 0x00366E),
  (0x217836, 0x0058B2_0058AC),
  (0x217839, 0x003676_0058C8),
  (0x21783C, 0x003672),
  (0x217840, 0x0058C2_0058BC_0058C3_0058BB_0058C4),
  (0x217846, 0x0058CB),
  (0x217848, 0x003671_0058BF_0058BD_0058C6_0058BA),
  (0x21784F, 0x0058D4_0058D6_0058CF_0058D0_003677_0058D2),
  (0x217856, 0x0058CE),
  (0x21785A, 0x0058E0_0058DB_0058DC_0058DD_0058DA_0214E7),
  (0x217863, 0x021504_0058E7_0058E8),
  (0x217868, 0x0058F2_0058F4_003683),
  (0x21786C, 0x0058FC_0058FF),
  (0x21786F, 0x005901_005902_005903_005905_005906_00590A_009EA6_00590B_00590C_00590D_021570_005910),
  (0x21787B, 0x005912_008641_005917_021593),
  (0x217922, 0x00591F_00368A_005921_00368B),
  (0x217927, 0x0090FA_00592C_005928_005932_00592F_005930),
  (0x21792F, 0x0215E3_00593C_003692_00593F_005940_0215E5_0215E6_003694),
  (0x217938, 0x00594D_003698_003695),
  (0x21793C, 0x003696_005945_0215F7_005943_021610_02160D),
  (0x217943, 0x005953),
  (0x217945, 0x00594A_02162B_00369C_02163D_02164B_00595D_00595C_00595E_005963),
  (0x21794F, 0x005961_021657_00369F_0036A0_00596B_00596C_00596D_021678),
  (0x217958, 0x02168A),
  (0x21795C, 0x005970_005971_005972_0216B1_0036A4_00597F_005985_00597B_00597E_00597C_0216AE_00598F),
  (0x217968, 0x00598C_0059A7_0216C4_005998_005991_00599C),
  (0x21796F, 0x00599A_00599F_0059A0_0216D3_005989),
  (0x217975, 0x0216C7_0216C8_0059A6_0059C2),
  (0x21797B, 0x0059A1_005997_0059A2_00598E),
  (0x217A21, 0x005990_0059B6_0059C9_0059C5_0059B5_0059AC_0059D6_0059CF),
  (0x217A2A, 0x0059BA_0059C3_0059B8_0059BF),
  (0x217A2F, 0x0059AD_0059CC_0059CE_0216F0_0036BB),
  (0x217A35, 0x0059B2_0036B2_0059D5_0216DD_0059C8_0059B7_0059C0_0059BC_0059B4_0059C1_0036C4_0059F2),
  (0x217A42, 0x0059DF_0059F9_00598D_0036C3_0059EB_0036C5_0036CA_0059F7),
  (0x217A4B, 0x005A02),
  (0x217A4D, 0x0059F4),
  (0x217A4F, 0x0059EE_0059F1_005A00_0059DE_0059DB),
  (0x217A56, 0x0059FD_0059F0_0059E0_0059F5_0059E9_0059F3_0059D9_0059F6_0059DD_0059FA_0059FC_0059E4),
  (0x217A62, 0x0036C2_0059E1),
  (0x217A67, 0x005A2E_0036D0_005A0E_005A19_005A14_005A0F_005A15_005A2A_005A21_005A1D_0036CD_005A0B),
  (0x217A73, 0x005A28_005A0A_005A16_005A24),
  (0x217A78, 0x005A09_005A47_005A2D_005A17_005A2B_005A33_005A12),
  (0x217B21, 0x02172E_0036D7_005A27),
  (0x217B25, 0x02176B_005A58),
  (0x217B28, 0x005A44_021775_005A5B_005A43_005A60_0036E9),
  (0x217B2F, 0x005A52_005A5D_005A67_005A5C),
  (0x217B34, 0x005A4D_005A3E_005A39_005A71_005A3B_005A48_005A38_005A5E_005A6D_005A35_005A55_005A8E),
  (0x217B41, 0x005A2C_005A3A),
  (0x217B44, 0x005A70_0036EB_005A72_005A4C_005A50_005A65_005A5F_0036E5_005A69_005A59),
  (0x217B4F, 0x005A53_005A3D_005A37_005A64_005A4F_005A51_005A4E_005A42_005A57_005A63_021786),
  (0x217B5B, 0x0036E2_005A6C_005A68_005AA3_005A87_0036FA_0036F3_005AA5_005A97),
  (0x217B65, 0x005A8A_005AA8_02179C_005A84_005ACF_005A7A),
  (0x217B6C, 0x005A8B_005A81_005A89_0217BB_005A79_005A9F_003701),
  (0x217B74, 0x005A7B_005AA0_005AA9_005A94_005A86_0217BE_005A85),
  (0x217B7C, 0x005A7D_005A78),
  (0x217C21, 0x005AA6_005A8C_005AAB_005AA7_005A9E_005AA2_005A9C_005A7C_005A96_005A8F_005A91_0036EF),
  (0x217C2E, 0x0036FC_005A9D_005A93_005AAC),
  (0x217C33, 0x0036F9_005AAE_005A95_005AAF_003711),
  (0x217C39, 0x005AC8_003705_005AC6_02180E_021800_005AB5_005AEF_0217EC_005AC4_005ACB_005ACA_005AC3),
  (0x217C45, 0x005AB7_005AC0_005AB4),
  (0x217C49, 0x005AD1_005A90_003707),
  (0x217C4D, 0x005AC7),
  (0x217C4F, 0x005AB8_005ABA_003710_005AAA_005AB6_00370E_005AB9_005ABF_005AB0_005ABB_005AD3_021804),
  (0x217C5B, 0x005AB1),
  (0x217C5D, 0x021805_005AD9_005AEC_005ADC_005B1A_005AE7_005AE2_005AEE_021817_003716),
  (0x217C69, 0x005AE4_021824),
  (0x217C6C, 0x005ADF_005AE5_005AE0_005AD5_005ADB_005AF0_005AEA_02183D_02181A_005AED),
  (0x217C7B, 0x005ADA_005AEB_003718_005AF3),
  (0x217D21, 0x021845_005AF8_02186C_005B02),
  (0x217D26, 0x005AFF_003724_005AF7_021880_005AFD_005B08_005AF9_005AFC_005B0D),
  (0x217D30, 0x005B07_005B05_005AFA_021883_021857_003723_005B0E_005AF6_005B03_00371D_005B06_005B0F),
  (0x217D3C, 0x005B28_005B17_005B16_021896_005B19_005B20_005B1E_02189E_005B15_0218BF_021898_005B1B),
  (0x217D48, 0x005B21_005B10_005B12_005B31),
  (0x217D4D, 0x0218D9_0218DA_0218DD_005B25_005B27_005B2C_005B26_00372E_005B2F_005B2E_005B2D),
  (0x217D59, 0x005B32),
  (0x217D5B, 0x005B3B_005B3A),
  (0x217D5E, 0x005B3C_003730_003732_021906_005B3E_005B3F_0218EC_005B3D_021902_005B39_005B43_003737),
  (0x217D6A, 0x021915_005B44_005B46_005B42_005B45_02191C),
  (0x217D71, 0x005B49_005B48_005B47_005B4C_005B4A_005B4B_00373A_005B4D_005B4E_005B4F_021937_005B56),
  (0x217D7D, 0x00373D_006588),
  (0x217E21, 0x005B5B_021958_005B62_005B65_005B67_005B68_005C58_005B6C_003743_005B6E),
  (0x217E2C, 0x003745_005B74_021984_005B77_005B7B_005B7C_005B80_005B81_005B84_005B82_00374E_005B86),
  (0x217E38, 0x0219C3_00374C_005B8D_005B8E_0219CD_005B92_005B94_005B96_005B95_0219D8),
  (0x217E43, 0x005B93),
  (0x217E45, 0x003754),
  (0x217E49, 0x005BAC_0219EF_0219EE_005BA8_0219EC),
  (0x217E4F, 0x003757_021A02_005BAD_005BA7_005BB2),
  (0x217E55, 0x005BB7_005BBE_021A22),
  (0x217E59, 0x005BC1),
  (0x217E5B, 0x003761),
  (0x217E5F, 0x021A30_005BC9_005BEA_005BCD_003763_005BCB_005BC5_005BCE_005BCA_005BD4_021A4B_005BC3),
  (0x217E6B, 0x005BCF_005BD1),
  (0x217E6E, 0x005BD6_003764_021A61_021A6F_003765_005BD8_005BD9_005BD7_003769_008CD4),
  (0x217E79, 0x005BE0_005BE3_00376C),
  (0x217E7D, 0x00376E),
  (0x222224, 0x005BF0_005BEF_021ACD),
  (0x222228, 0x005BF2_005BF1_003770_005BF4_021AF2_021AEC_005BF7_003771_021B0D_003772_005BFD_005C00),
  (0x222234, 0x003775_005C57_005C03_005C05_005C0C),
  (0x22223A, 0x021B33_005C10_005C15_005C14_005C12_005C17_005C1B),
  (0x222242, 0x003779_005C20_005C1F),
  (0x222246, 0x005C22_00377C_005C25),
  (0x22224B, 0x005C2A_005C28_005C29_00377F),
  (0x222251, 0x003781),
  (0x222253, 0x005C2F),
  (0x222256, 0x003784_021BF4),
  (0x222259, 0x005C30),
  (0x22225B, 0x005C32_005C33),
  (0x22225E, 0x021C16_005C36),
  (0x222262, 0x00378B_005C3B_003790_005C44_021C46_005C49_005C4A_021C4B_005C47_00378F_021C3F_021C5D),
  (0x22226E, 0x003796_005C4C_003794_003792_003793_005C56_005C52_021C65_021C63_005C5A),
  (0x222279, 0x005C59),
  (0x22227B, 0x005C5D_005C5F_005C5E),
  (0x222321, 0x00379A),
  (0x222323, 0x005C63_00379C_00379E),
  (0x222327, 0x00379F_0037A0_005C67_021CD5_005C68_005C6A_005C69),
  (0x22232F, 0x005C6B_005C6D_005C6E),
  (0x222333, 0x005C70),
  (0x222336, 0x005C75_005C74_0037A5_005C73_0037A6_005C77_005C7A_005C78_009096_005C7B_005C7C_005C7E),
  (0x222342, 0x005C80_005C81),
  (0x222346, 0x005C8F),
  (0x222348, 0x005C8A_005C88),
  (0x22234B, 0x005C8D_021D6F_0037C0_005C8B_021D7A_005C93_005C85_005C95_005C92),
  (0x222355, 0x005CA6_005CAE_005CA0),
  (0x22235A, 0x005CAA),
  (0x22235C, 0x005CA2_005CAF),
  (0x222360, 0x005CB5_005CA7_005CB9),
  (0x222365, 0x005CA5_005CA8_005CAC_021D9B_005C9F_005C9D_005CA3_005CB6_005CC1_005CBA_005CAD_005CD5),
  (0x222371, 0x005CD0_005CE6),
  (0x222375, 0x005CD6_021DD1_005CCE_005CD3_02F87A_005CD8),
  (0x22237D, 0x005CCC_005CE2),
  (0x222421, 0x005CDB_005CDF),
  (0x222424, 0x005CF8_005CDA_005CE0),
  (0x222428, 0x005CD2_005CDD_005CD7_005CCB_021DB6_005CC9_021DAB_005CC6_005CC7_005CDC_0037C5_005CFE),
  (0x222434, 0x005D00_005CF5_0037CB),
  (0x222439, 0x005CEE_005CEC_005CFF_005CEB),
  (0x222440, 0x021DE8_005CF4_0037CE_021DE5_005CE9_005CEF_005CF1_0037CF_005CF9_005D1E_005D12),
  (0x22244C, 0x005D28),
  (0x22244E, 0x005D1D_005D0B_005D1A),
  (0x222452, 0x005D0C_005D20_005D21),
  (0x222457, 0x005D27_005D0D_0037DE_005D26_005D17_005D10_005D2E_005D13),
  (0x222461, 0x021E24),
  (0x222464, 0x005D25_021E23_005D2F_005D1F_005D18_005D24_005D49_005D3A_005D37_005D43),
  (0x22246F, 0x021E86),
  (0x222471, 0x005D36_005D3E_005D41_005D4B_005D40_005D57_005D34),
  (0x222479, 0x005D38_005D54),
  (0x22247C, 0x021EA2_005D31_005D51),
  (0x222521, 0x005D35),
  (0x222523, 0x021E6C_0037EA_005D3F_005D52_005D3D_005D4E_021EA0_005D67),
  (0x22252C, 0x005D59_005D47_0037EC_005D32),
  (0x222531, 0x005D42_005D33_005D4F_005D74_005D6A_005D63_005D71_005D70_005D6F_005D6B_005D64_005D6E),
  (0x22253D, 0x005D5F),
  (0x22253F, 0x005D75_02F87F_005D66_021EC0),
  (0x222544, 0x005D4A_005D65_021EC5_005D72_005D68_005D6C_005D62),
  (0x22254D, 0x005D82_005D7C_0037FC_005D79_005D8E_005D86_0037FD_005D7F_005D7D_005D8A_005D8D_005D7A),
  (0x222559, 0x021EEA_005D81_005D89_021EDF_021EF9_005D88_021F00_005D7E_005D8B_005D78_005D77_021EDD),
  (0x222566, 0x005D92_005D9F_005D99_005D97_005DA2),
  (0x22256C, 0x005D9E),
  (0x22256F, 0x005D9C_005DA5_005D8F_005D9A_005DA1_021F0A_005D93_021F2A_005DA0_005D95_005DA3_005DB4),
  (0x22257B, 0x005D94_005D96),
  (0x22257E, 0x005DAC),
  (0x222623, 0x005DB3_005DA9_003811_005DA7_005DB1_005DAA),
  (0x22262A, 0x005DB0_005DB2_005DAD_005DA8_005DB4_005DAE_005DB6_021F75_005DB8_005DB9_005DBF_005DBB),
  (0x222636, 0x005DB7_005DBE),
  (0x222639, 0x005DC0_021F8B),
  (0x22263D, 0x005DC4_005DC3),
  (0x222640, 0x003820),
  (0x222643, 0x005DC6_005DC7_005DCA_005DC9_005DCB_021FCE_005DCF_003827_005DD1_005DD9),
  (0x22264E, 0x005DD8),
  (0x222650, 0x005DDB_021FE8_005DDC_005DDF),
  (0x222655, 0x005DE0_005DE4),
  (0x222658, 0x00382D_005DF0),
  (0x22265C, 0x005DF5),
  (0x22265E, 0x005DF6_005DF9),
  (0x222662, 0x005E00_005E04_0051E7_003832_003835_003834_005E0D_005E0A_005E0E_003837),
  (0x22266D, 0x005E0B_005E09_003839_005E13),
  (0x222672, 0x005E14_005E17_00383F_00383E_005E19_005E12_005E1F),
  (0x22267A, 0x005E23_005E21_003846_0220A5_005E1E),
  (0x222721, 0x003844_005E22_005E24_005E28_005E2E_003847_005E2A_005E29),
  (0x22272A, 0x0220B9),
  (0x22272C, 0x005E39_005E35_003849),
  (0x222730, 0x005E3A_00384B_005E34_0220EC_003854_005E44_005E43_005E46_003853_005E42_003852_005E4F),
  (0x22273C, 0x003858_005E50_022110_005E4E),
  (0x222741, 0x00385B),
  (0x222743, 0x003859_005E4B_003857_005E4D_005E58_005E48),
  (0x22274A, 0x005E56_005E59),
  (0x22274D, 0x005E51_005E53_005E52_00385C),
  (0x222753, 0x005E69_005E65_005E5C_005E5D_005E5E_005E61_005E60_005E66_005E67_005E6F_005E68),
  (0x22275F, 0x005E6C_005E6A_003865),
  (0x222763, 0x005E6E_005E6D_005E70_02216E_02216F_022175),
  (0x22276A, 0x003868_02217C_022189_005E75),
  (0x22276F, 0x005E7A_0221B6_0221B7_0221C7),
  (0x222775, 0x005E7F_005E83_005E80_005E82),
  (0x22277A, 0x005E84_0221DE_00386F),
  (0x22277E, 0x005E8B),
  (0x222821, 0x005E89_005E8C_003872),
  (0x222825, 0x005E88_005E8D_0221F7_003879_005E99_005E98),
  (0x22282C, 0x005EA1),
  (0x22282E, 0x02222A_005EA4_003880_02220D_005E9B_005EA2_005EA3_005EA5_005EAF_005EAE_005EAA_005EAC),
  (0x22283A, 0x022228),
  (0x22283D, 0x005EB0),
  (0x222840, 0x005EB1_005EB4_005EB9_005EB2_00388C_003889_003888),
  (0x222848, 0x00388B_005EBA),
  (0x22284B, 0x005EB3_005EC4_005EBD_022288_02228C),
  (0x222851, 0x005ECC_02227F_005EC5_005EC7_005ECB_005EC6_005ECD_005ED8_005EDC_005ED2_005ED1_005ED5),
  (0x22285D, 0x005ED7),
  (0x22285F, 0x005ED4_005ED9_005ECE),
  (0x222865, 0x0222B0),
  (0x222867, 0x005EDB_005EE1_005EDE_005EE9),
  (0x22286C, 0x003899_005EE7_00389A_0222C7),
  (0x222871, 0x005EE8_005EE5),
  (0x222879, 0x0222F8),
  (0x22287B, 0x00389D_005EED_005EEE_005EEF),
  (0x222921, 0x005EF1_005EF2_005EF4_00389F),
  (0x222927, 0x005EF9_005EFC_005EFB_022325),
  (0x22292E, 0x005EFE_005F02),
  (0x222931, 0x005F03_022333_005F06_02233B_005F07_02234F_02235A),
  (0x22293A, 0x005F0B_005F0C_005F0D),
  (0x22293E, 0x005F0E_02237F_0038A5),
  (0x222943, 0x02239B_022399_005F19_005F1C_005F1D_005F1E_0223CB_005F28_005F22_005F23_005F24_005F2E),
  (0x22294F, 0x0223D7),
  (0x222951, 0x005F33_005F30_005F32_005F34_005F36_005F3B_0038BC_005F38_0038BE),
  (0x22295B, 0x005F3F_005F40),
  (0x22295E, 0x005F43_005F44_005F4A_005F4B_005F4D),
  (0x222964, 0x0038C6_022446_022448_005F4F_005F50_005F54_005F56),
  (0x22296C, 0x005F58),
  (0x22296E, 0x005F5C_022471_005F60_005F61_005F63_00809C_005F67_02249E_005F6F_0224B0_005F72_005F73),
  (0x22297A, 0x0038D4),
  (0x22297C, 0x005F74),
  (0x222A21, 0x005F76_005F78_005F82_0038D9_005F7D_005F7E_005F89_0224E1_005F86_0038DA_005F94_0224DC),
  (0x222A2F, 0x005F8E_0224F3_0224F1_0224EC),
  (0x222A34, 0x02251B),
  (0x222A36, 0x005FA0_0038E4_005F9B_005F9C_022504_005F9F_0038E5_005F9A_005FAB),
  (0x222A40, 0x005FA6_02251F_0038EB),
  (0x222A44, 0x0038EF),
  (0x222A46, 0x005FAF_005FAD_005FB6),
  (0x222A4A, 0x005FB2),
  (0x222A4E, 0x005FBA),
  (0x222A50, 0x005FBC_02258A_005FBF),
  (0x222A54, 0x005FC0),
  (0x222A57, 0x005FC9_0225AB),
  (0x222A5A, 0x0038FB_005FD3_0225B3),
  (0x222A5F, 0x005FD1_005FDA_005FD2_005FD5_005FD0_0038FF_005FDB_005FD4_005FCE_005FED_003903_005FFC),
  (0x222A6B, 0x005FDE_005FF6_005FE8_005FE3_0225E0_0225E7_0225F5_005FEE_005FF8_0225D7_005FE7_006000),
  (0x222A77, 0x005FF2_005FE1_0225E8),
  (0x222A7B, 0x005FE4_005FFA_005FF3_005FF4),
  (0x222B21, 0x005FFB_005FE6),
  (0x222B24, 0x005FEA_003904_006030_003916_00602D_006011_006026),
  (0x222B2C, 0x006029_00602B_006007_006032_006019_006008_006037_006034_00391D),
  (0x222B36, 0x00600A_00600C_00601B_00601A),
  (0x222B3B, 0x00601E_006017_006033),
  (0x222B3F, 0x00602C_003915_006009_02262C_006022_006023_00600D_006010_00390F),
  (0x222B49, 0x006031_006024_006039_02260B_00601F_00601C_00602E_006013_02261B_006074_006054_003925),
  (0x222B55, 0x00391E_006072_00605D_00605C_006052_006047_00392C_00605A_006075_006049_006053_006045),
  (0x222B61, 0x003928_00604E_00391C_003920_00604A_022668_006060_006067_006057_02263D_02266B_00605B),
  (0x222B6D, 0x02263F_006048_00604C_006040_006041_006077_006051_006042_02265D_00605F),
  (0x222B78, 0x00606E_022645_006061),
  (0x222B7D, 0x0060A2_006080),
  (0x222C21, 0x003939_006082),
  (0x222C24, 0x00608A_003932_006088_006098),
  (0x222C2B, 0x006092_00609D_006081_00607E_00609E_006083_00609B_006097_00608E_0060A7_0060A1),
  (0x222C37, 0x006090_006087_006086_006095_00392E),
  (0x222C3D, 0x0060C9_0060C7_0060CA_00394B_0060B9_0060B0_0060BA),
  (0x222C45, 0x0060CC_0060BE_0060D3_0060D4_003946_0226C6),
  (0x222C4D, 0x003944_0060CE_02270C),
  (0x222C51, 0x0060CF_0060C1_0060D9_0060B3_00393F_0060DD_0060E7_0060C3_0060C8_02270F_003948_00394F),
  (0x222C5D, 0x0060C4_0060E8_003952_0060B1_0060D2_0060E3_0060C2_0226C3_0060BF_0060E2_0060E5),
  (0x222C69, 0x0060DB_0060B7_0060C0),
  (0x222C6E, 0x0060E9),
  (0x222C70, 0x006114_00396B),
  (0x222C73, 0x006103_006118_006119_003962_00395E_02273D_006117_006111_0060F7_0060FD_00610D),
  (0x222D21, 0x003966_003960_00611D_02278D_00395B_006116_02272E_006105_0060F5_00610A_006107_006110),
  (0x222D2D, 0x00611E_0060FF_006113_003965_00395C_006112_006122_0060F2_006104),
  (0x222D37, 0x006125_022767_00610B_00395F_0060F8_022746),
  (0x222D3F, 0x006121),
  (0x222D41, 0x0060FC),
  (0x222D43, 0x006106_0226DB_0060FE_006142_003977_006149_003976_00614A_00612C_006135),
  (0x222D4E, 0x00612B_00613D_006129_006150_006128_006138_00613B_006145_0053AF_006136_006130_00612A),
  (0x222D5A, 0x006132_006141_0227B4_00613A_006137_00396F_00612E_006146_006140),
  (0x222D64, 0x00396E_003974_00615E_006175_006174_006180),
  (0x222D6B, 0x006183),
  (0x222D6D, 0x006166_006179),
  (0x222D70, 0x006171_006169_003981_006159_00616A),
  (0x222D76, 0x006152_006173_006157_006164),
  (0x222D7B, 0x006153_00616C_006172_006178),
  (0x222E21, 0x00617D_006161_00618B_006186),
  (0x222E26, 0x00617A_006156_006188_006154_00615B_00618F_00616F_006165_006187_00615C_006181_022842),
  (0x222E32, 0x00619D_0061A6),
  (0x222E35, 0x006195_0061B0_0061B3_022880_0061AA_022881_006193),
  (0x222E3D, 0x0061A2_006199_00619F_0061A8_00619B_00619C_0061AF_02285F_006196_006197_0061AD_003996),
  (0x222E49, 0x022835),
  (0x222E4B, 0x022838_006192_00398A_003992),
  (0x222E50, 0x0061A3_0061A1_0061AE_00398C_02283D_00618D_00618C),
  (0x222E58, 0x0061B5),
  (0x222E5A, 0x0061CB_0061C3_0061CC_0061C6_0061B9_0061C5_0061B4_0228B2_0061BD_0061C1_0061BC_0228C1),
  (0x222E66, 0x0061D3_0228B4_0061BA_0061BF_0061B8_0061C0_0061D8_0228D1),
  (0x222E6F, 0x0061EC_0061E1_0061E0_0061E7),
  (0x222E74, 0x0061E2_0061E4_0061DB_0061E5_0061D5_0061E8),
  (0x222E7C, 0x0061DE_0061DC_0061DF),
  (0x222F21, 0x0039A0_00399F_0228E4_00399B_0228D8_0061D6_0061E9_0061ED_0061F3),
  (0x222F2C, 0x0061EE_0061EA_0061F1),
  (0x222F30, 0x022902_0061F0),
  (0x222F33, 0x0061EB_022927_0039A3_0061F9_0061FB_02295E_0061FD_022958_022960_02296B_006201_0039AC),
  (0x222F3F, 0x0039AB_006203_006204_006205_006207_006209),
  (0x222F47, 0x006214_02299A_0039B0_02299F_006218),
  (0x222F4F, 0x006219),
  (0x222F51, 0x0229C0_00621C),
  (0x222F54, 0x00621E_0039B8_006223_0229D4_009168),
  (0x222F5B, 0x006225),
  (0x222F5D, 0x006224),
  (0x222F60, 0x006228_006229_0039BA_00622B_0229E4_0229E9_006227_00622D_0039BC_0097EF_0229F4),
  (0x222F6D, 0x006235_006239_00623A_00623D_0039C0_0039BF_022A2A_0039C1_006243_006242_006246_006245),
  (0x222F79, 0x00624A_006250_006251_00625E_00625C_022A75),
  (0x223022, 0x006261),
  (0x223024, 0x006264),
  (0x223026, 0x006268_006259_006260),
  (0x22302A, 0x006267_00625A_006262_006266),
  (0x22302F, 0x006283_0039CA_006286_00628E_00628F),
  (0x223035, 0x00627D_0039CE_006294_006287_022A88_00628C_006290_022A87_006278_006271_0062B8_006281),
  (0x223041, 0x0062A3_006288_006282_006299_0039CC_006285_00627B),
  (0x223049, 0x00627A_006272_00629D_022A98_006274_022AD4_0062D5_0062AD_0039D2_0039D9_0062B3_0062B2),
  (0x223055, 0x0062BE_0062A6_0062D1_0062B4),
  (0x22305A, 0x0062C1_0062AA),
  (0x22305E, 0x0062AF_0062C5_0062BB_0062E4_0062A9),
  (0x223064, 0x0062C0_0062A7_0062B0),
  (0x223068, 0x0039D8_0062B6_0062C3_0062DE_0062CA),
  (0x22306E, 0x0062CF_0039D3_0062AE_006314_00630D_006313_0062EB_006317_022AE8_006302_0062EA_0062FA),
  (0x22307A, 0x0039EC_006315_00630B_0062F2_006303),
  (0x223121, 0x022B18_006312_0062F9),
  (0x223125, 0x0062F5_00630E_006304_022AF5_00630F_022B22_0039E2_0039D7_022AF0_0062F8_006305_0039E6),
  (0x223131, 0x00630C_006360_0062F0_006310_022B16),
  (0x223137, 0x0062F6),
  (0x223139, 0x006332_006331_022B35_006356_022B55_006329_00632D_006352_006347_006345_022B36_006343),
  (0x223145, 0x006335),
  (0x223147, 0x006353_006364_006336_006344_006359_022B34_00632C_022B6A_0039F5_00634D_00635A_022B5F),
  (0x223153, 0x006338_006339_00634C),
  (0x223157, 0x006330_006357_00634A_00633C_006358_00634B),
  (0x22315E, 0x006334_006354_006341_022BC2_006340_022B2F_006348_003A07_00638A),
  (0x223168, 0x00637D_022B81_0063B6_006382_00636C_00638B_00639F_00637E_006365_0063BD_00639E_00637F),
  (0x223174, 0x006385_022B82_00636E_022BA8_003A02_006381_00639D_006397_003A0B_0063AB_022B9D),
  (0x223221, 0x006394_006395_003A06_00636F_006387_00637A_00638E_006379_00638C_006386_0039F9_00638D),
  (0x22322F, 0x006375_0063AF),
  (0x223232, 0x0039FA_022BB9_0063BA_0063A4_00633B_0063B1_0063B0_0063AE_00637C_006390_0039FE_0063AD),
  (0x22323E, 0x00639C_006373_00636A_00636D_006366_0063DE_0063E5_0063D9_0063E8_0063D3_02F8BE_0063CE),
  (0x22324A, 0x0063E2_0063EC_00649D_022BED_0063C2_0063BD_0063C3),
  (0x223252, 0x0063F5_006461_0063F3_022C48_0063CA_0063E7_0063E6),
  (0x22325B, 0x0063E0_0063D5_0063F6_0063F2_0063F8_003A16_006423_003A0A_0063C7),
  (0x223265, 0x003A0E_0063C5_0063F1_0063CC_0063CB_0063F9_0063E4_003A17_0063EF_0063BF_0063C8_0063BE),
  (0x223271, 0x0063F0_0063EB_0063DD),
  (0x223275, 0x0063D8_0063D1_003A10_022C07_0063C4_0063DC_0063D7_003A11),
  (0x22327E, 0x006412),
  (0x223321, 0x006427_006410_003A29_006434_006433_006408_006449_006432_00641B_00643C_006420_006424),
  (0x22332D, 0x006438_006406_006426_006431_00640C_00641F_006439_006443),
  (0x223336, 0x006415_006418_00640E),
  (0x22333A, 0x022C62_006422_006419_006421_006437),
  (0x223340, 0x003A2A_022C8B_006428_003A1B_006430_006441_022CC2_003A20_006435_003A1C_003A21_006411),
  (0x22334C, 0x006409),
  (0x22334E, 0x00642F_006429_022C4D_00640A_00641A_006440_006425_00641D_003A28_003A25),
  (0x223359, 0x006407_00642B_00643B_022CA1_00643F_00640B),
  (0x223360, 0x00646C_00644D_022CB7_022CBC),
  (0x223365, 0x00646D_00645D_006481_00645B_003A39_00644F_00647E_00646B_00647C_00646E_006476_006459),
  (0x223371, 0x006472_006470),
  (0x223374, 0x003A3D_022CEA_006474),
  (0x223378, 0x00647D),
  (0x22337A, 0x006497_006473_003A37_006455_006475),
  (0x223421, 0x006466_0064A6_00644E_006464_00645A_006471_006482_00645E_006463_006462_022CB8_00647B),
  (0x22342D, 0x006456_00645C),
  (0x223430, 0x006453_00643A_022CDA_006460_00644B_006450_006477_022D5E_022D28_006489_0064B4_003A43),
  (0x22343C, 0x00649D),
  (0x22343F, 0x006499_00649B_00649C_00648F),
  (0x223444, 0x00648B_00648A_022D32_003A4C_022D54_006468_022D46_00648E_022D7C_006496_0064A2),
  (0x223451, 0x0064B1_006485),
  (0x223454, 0x006490),
  (0x223456, 0x022D67_0064A3_00648C),
  (0x22345A, 0x0064A0_0064B6_0064C6_003A44_022D31_0064A1_003A50_006498_00649F_0064D9_0064A8_0064A7),
  (0x223466, 0x0064B3_003A59_022D8A_003A58_0064D7_022D8D_0064D3_022D89_022D8B),
  (0x223470, 0x003A4B),
  (0x223472, 0x0064C0_0064C3_0064BE_0064D0_0064C9),
  (0x223478, 0x0064DB_0064D6_0064CF_022D60_0064D5_0064BD_022DA1),
  (0x223521, 0x022D91_022D99),
  (0x223525, 0x0064F3_022D92_003A5D),
  (0x22352A, 0x0064EF_0064E3_0064E9_0064E1_0064E5_003A5C_0064EA_0064EB),
  (0x223533, 0x0064E2_003A5B_022DDE_0064ED_022DCE_0064E4_0064E7),
  (0x22353B, 0x022DD6_0064E8_0064FF),
  (0x22353F, 0x003A60),
  (0x223541, 0x006501_0064F7_0064F9_022DFE_006502_006504_003A69_003A62),
  (0x22354A, 0x0064FC_0064FD_0064F8_022E23_00650D_006508_006510_022E24_00650B_006509),
  (0x223555, 0x00650E_00650C_006511_006513_00651A_022E4F_006516_022E98_022E4D_006515_022E72_022E77),
  (0x223561, 0x00651B_003A74_003A71_003A73_00651F_006520_006521_006526_006527_022E8F_00651E),
  (0x22356D, 0x006522_003A77_006529_003A75_003A76_006525_022EA1_022EA4_00652D_022EAF_00652E_006530),
  (0x223579, 0x022EB5_006531),
  (0x22357C, 0x006541_003A7C_003A7B),
  (0x223623, 0x006565_006532),
  (0x223626, 0x006533),
  (0x223628, 0x006534_006537),
  (0x22362B, 0x003A7F_006538_022EF9_003A82),
  (0x223630, 0x00653D_006544_006543_006541_006542_006540_006549_006547),
  (0x22363A, 0x022F1B_006553_022F49_003A8C_006554_006555_006550_003A8B),
  (0x223643, 0x006552_006560_006567_006564_006561_022F60_003A92_003A8F_00655C_022F96),
  (0x22364F, 0x00656D_003AA1_022FAB_006573_022FCD_00657A),
  (0x223656, 0x006579_022FCC_022FE3_022FE2_00657F_023006),
  (0x22365D, 0x006581_006580_003AAB),
  (0x223661, 0x006584_023024_023027_006585_023037),
  (0x22366C, 0x00658B),
  (0x22366E, 0x00658C),
  (0x223670, 0x006592_006595_003AB5_00659A_023073_00659B_02307C_00659D_023081_00659E_0065A0_023089),
  (0x22367C, 0x0065A2_003ABA_0065A3),
  (0x223721, 0x003ABB_0065A8_0065A6),
  (0x223726, 0x02309E_0065AE_0065B3_0065B2_0065B6_0230CD_0065B8_003AC3_0230D8_0065BF_0065BE_0065C6),
  (0x223732, 0x0065C3_0065C4_0065C2_0065C9),
  (0x223737, 0x0065CA_0065C7_0230F3_0065CD_0065D0_0065D2_0065D3),
  (0x22373F, 0x003ACF),
  (0x223741, 0x023119_0065DA_023120_0065DB_0065DC_0065DE_0065DD_0065DF_0065E0_0065E1),
  (0x22374D, 0x023134_0065E4_0065EA),
  (0x223751, 0x0065EE_0065EF_003AD0_0065F4_0065F0_0065F3_0065F5),
  (0x223759, 0x006608_006609_0065FB_0065FC_006617_00660A_0065FD),
  (0x223761, 0x003AD8),
  (0x223763, 0x00660D_006603),
  (0x223766, 0x006612_003ADA_006607_00660B_006611_006615_006610_006604_006631_006636_006639_006601),
  (0x223772, 0x006621_023182),
  (0x223775, 0x00662C_006629_006635_006632_00662E_006630_003AE9_00661E_00663A),
  (0x223822, 0x00661C),
  (0x223824, 0x006622_00662A_02317F_006633_00662B),
  (0x22382A, 0x00661D_006634_006624_003ADF_006650),
  (0x223831, 0x006645_00665F_00664A_006644),
  (0x223837, 0x006641),
  (0x223839, 0x0231A6_003AEC),
  (0x22383D, 0x006665_00665C_006661_003AF1_003AF2),
  (0x223843, 0x006662_006663),
  (0x223848, 0x00665B_006659_006667),
  (0x22384C, 0x00665E_006657),
  (0x22384F, 0x006675_00667E_00666C),
  (0x223853, 0x00667C),
  (0x223855, 0x006671),
  (0x223857, 0x003AF6),
  (0x22385A, 0x006678_00668F),
  (0x22385E, 0x00667D),
  (0x223860, 0x006673_00667B_006679_00666B_023208),
  (0x223866, 0x00666D_003AFD_006677_003AFF_006672_006680),
  (0x22386E, 0x006686),
  (0x223870, 0x006684_00668C_006693_006699),
  (0x223875, 0x00668B_006690),
  (0x223879, 0x006694_00668A_006692_006698_00668D_00668E),
  (0x223922, 0x023236_003B0A_007A25_003B0B),
  (0x223929, 0x02325E_0066A0),
  (0x22392E, 0x003B10_0066A6_005C21_0066A5_00669D_00669F),
  (0x223936, 0x0066A4_003B0E_0066A1),
  (0x22393A, 0x0066B2),
  (0x22393E, 0x0066B3),
  (0x223940, 0x0066B5_0066AA_023293_0066AC_0066B7_003B13),
  (0x223947, 0x0066B1),
  (0x22394B, 0x0066AF),
  (0x22394E, 0x0066C8_0066BE_0066BD_0066C3_0066CA),
  (0x223954, 0x0066C0_0066C7_0066CB),
  (0x223958, 0x0066B8),
  (0x22395A, 0x0066BB),
  (0x22395C, 0x0066C4_0066BA),
  (0x22395F, 0x003B17_0066CF_0232D8),
  (0x223966, 0x0066D0_0066D1_0066CE_0066D3_0066D2_0066CD_0232EB),
  (0x22396E, 0x0066D8_0066DC_003B24_0066DA_0066DB_0066E2),
  (0x223975, 0x0066DF_0066E1),
  (0x223978, 0x0066E8_02330A_0066E4_0066E3_0066E9_0066EB_0066EC),
  (0x223A21, 0x023316_0066ED_0066EE_0066F6),
  (0x223A26, 0x006701),
  (0x223A28, 0x006705),
  (0x223A2D, 0x006711_0080AD_00670C_00670F_006710),
  (0x223A33, 0x006712_006713_006716_00671A),
  (0x223A38, 0x006719_006718_00671E),
  (0x223A3E, 0x004413_006720),
  (0x223A42, 0x006722),
  (0x223A47, 0x006723_003B3F),
  (0x223A4C, 0x00673E_006738_00673F_00673B_00673A_006739),
  (0x223A53, 0x00673C),
  (0x223A55, 0x006732_0233C2_006733_006757_006767_006746_006745_006747_00674D_006762_006760_00675D),
  (0x223A61, 0x006755),
  (0x223A63, 0x003B41_006758_006752_00674C_006759_006748),
  (0x223A6A, 0x003B42_006763_006761_00674B_006753_00675A_006766_00674A),
  (0x223A74, 0x006780_006793_023400_0233F9_00677C_00677D_00679F_0233E8_006785_00676C_00678E),
  (0x223B21, 0x00677B_006792_006776_0233D5_006791_006799),
  (0x223B28, 0x0067A4),
  (0x223B2A, 0x0233FE),
  (0x223B2C, 0x0233DF_003B48_00678F_0233EC_006772_006798_00676A_0067A3_02341A),
  (0x223B36, 0x00676B_003B4A_0067C9_0067AC_006782_0067A0_006781_006778_006784_0067A1_006774_006796),
  (0x223B42, 0x0233F4_00678A_0067F9_006779_00677A_006794_00678D_00678C),
  (0x223B4B, 0x0067C1_0067FC_0067D2_006810),
  (0x223B50, 0x0067C6_0067C8_0067D5_003B52_0067CC_0067EB_0067F0_003B51_0067C5_0067DC_0067BF_0067FE),
  (0x223B5C, 0x0067BB),
  (0x223B5F, 0x0067B0_006803_0067F8),
  (0x223B63, 0x0067D8_0067B7_02341E_0067C0),
  (0x223B68, 0x0067ED),
  (0x223B6A, 0x0067D6),
  (0x223B6C, 0x003B55_006802_0067E6_0067E4_0067D9_0067DB_0067B5_02342C_0067DF_0067F7_0067CD_0067B3),
  (0x223B78, 0x006806_0067AE_0067F6_023424_0067EE_0067B1_0067B2),
  (0x223C21, 0x0067B9_00680D_0067C2_0067E3_023464_0067CA_023429_0067CE_0067E2_0067F2_0067C3_0067EA),
  (0x223C2D, 0x0067DD),
  (0x223C2F, 0x0067E7_006849_00683E_006837_00681A_006828_00681F_006814_00684B_00681E_00682E),
  (0x223C3B, 0x006833_006815_02341D_00681C_006816_006831_006832_006835_00683B_00684E),
  (0x223C46, 0x006822_00682B_00682D_00682F_00684D_023466_003B59),
  (0x223C4E, 0x006827_006844_00685B),
  (0x223C53, 0x00683A),
  (0x223C55, 0x00685D_00685E_006818_006834_006812_00681D_006819_006855_006823_006856_006830_00684A),
  (0x223C61, 0x006841_003B58_003B5B_006820_00685A_0068A1_023494_00686B_00686C_0234C0_006879_0068A5),
  (0x223C6D, 0x006888_0068B2_006956_0068AB_00689B_00687E_006887_0068B6_0068AE_006882_0068AA),
  (0x223C79, 0x006880_006890_006884_0068BD_023499_0068A6),
  (0x223D21, 0x006872_00689C),
  (0x223D24, 0x006895_00686D_00686E_003B6C),
  (0x223D2A, 0x006857_003B68_003B7A_006871_0068A9_006896_006898_0068AC_00688B_0068A0_00686F_006899),
  (0x223D38, 0x006889_0068A3_0068A4_006874_006875_00687D_006902_006877_00688F),
  (0x223D42, 0x0068B8_00687B_00688E_0068B9),
  (0x223D47, 0x006891_006892),
  (0x223D4A, 0x00687C_0068B4_00688C_003B69_006870_023483_00692C_006917_006900_00690C_0234E5_006901),
  (0x223D56, 0x00690B_003B84_0068D3_006904_0068DB_00690A_006909_006929),
  (0x223D60, 0x0068DC),
  (0x223D62, 0x0068EC_00692A_0068EA_00681F_007439_0068C8),
  (0x223D6A, 0x006910_0068F8_0068F7_003B93_0068D6_0068EB_00690F),
  (0x223D72, 0x00696E_0068F1_0068CA_0068E4),
  (0x223D77, 0x0068FE_0068FD_0068FC_0068F6_0068F3_006913_023526_003B7B),
  (0x223E21, 0x006907_0068F4_00691A_006919_003B7F_0068DD_006947_006903),
  (0x223E2A, 0x0068DE_00691B_023504_0068FB_0068CE_0068E9),
  (0x223E32, 0x003B7C_0068E1_003B70),
  (0x223E36, 0x0068E6_0068D1_0068D0_006908_0068C5_006906),
  (0x223E3D, 0x0068D9_0068E8_0068F0_0068C3),
  (0x223E44, 0x006911_006970_0068D4_0068EF),
  (0x223E49, 0x0068C6_006915_0068C7_006914_0234CC),
  (0x223E4F, 0x0234D7),
  (0x223E51, 0x006966),
  (0x223E53, 0x006974_00695F_006938_00694C),
  (0x223E58, 0x006962_00693E_006976_00697A_006959_006958_006951_006957_00693F_006971_006935_006943),
  (0x223E64, 0x006945_00695D_006932_003B92_00694B_00696E_006963_006948),
  (0x223E6D, 0x006973_006939_00693B_00696A),
  (0x223E72, 0x006942_006937_003B95_00694F),
  (0x223E78, 0x003B96_006972_00696C_00694E_003B99_006980_006933),
  (0x223F21, 0x006952_006950),
  (0x223F24, 0x0069B5_00695B_006949_02355A_006967_023575_00692F_006936),
  (0x223F2E, 0x003B9A_003B90_006965),
  (0x223F32, 0x00693D_006931),
  (0x223F35, 0x006978_00697F_00697B),
  (0x223F3A, 0x006934_006969_006940_006944_00696F_00693C_003B9D_006964_003BB4_003BBC_00698A_0069A0),
  (0x223F46, 0x0069B1_0069C0_0069C9_003BB6),
  (0x223F4B, 0x0069B6),
  (0x223F4D, 0x0069B3_0069CF_00699A_0069CE_0069CA),
  (0x223F53, 0x00698F_006993_0069A2_0235DD_0069A1_006990_00698D_006991_006996_0069AA_0069C5_0069AC),
  (0x223F5F, 0x0069B0_0069BC_0069A7_0069C2_0235BE_003BA6_00699E_0069C8),
  (0x223F68, 0x0069D9_0069A6_00698E_006997),
  (0x223F6D, 0x0069D6_006999_003BAE_0069B8_0235BB_0069E1),
  (0x223F74, 0x0069AF_0069A5_0069B2_0069BE_0069D1_0235FC_0069F6_003BA8_003BAF),
  (0x223F7E, 0x0069D5),
  (0x224023, 0x003BBF_003BB1_0069C6_0235EA_0069BF_0235B1_0235CF_0069C4_0069BD),
  (0x22402D, 0x0069A3_0069A4_0235CD),
  (0x224031, 0x006998_003BA9),
  (0x224034, 0x0069D4_003BB0),
  (0x224037, 0x0069B9_0069C3_003BB2),
  (0x22403D, 0x006A12_006A11_006A08_006A06_006A00_023628_003BC6_0069F4_006A1C_0069E6_006A1A_0069FA),
  (0x224049, 0x003BE0_006A0E_006A0B_0069E5_0069E9_006A0D_006A04_0069FC_0069FB_003BC4),
  (0x224054, 0x006A17_0069E4_0069E7_0069EB_003BCF_006A15),
  (0x22405B, 0x0069F1_0069F8_0069F7_006A2B_0069FF_006A20_023626),
  (0x224063, 0x0236EE_0069ED_0069EC_0069E2_006A1B_006A2D),
  (0x22406A, 0x023657_003BE5_003BC2_006A09_006A18_02365F_0069FE_0069F5_006A1D_003BC9),
  (0x224075, 0x006A0C_006A0F_02364D_003BCD_023618_02363B_006A27_0069EE),
  (0x22407E, 0x023624),
  (0x224121, 0x006A26),
  (0x224123, 0x0069F0_0069F2),
  (0x224126, 0x006A07_006A16_006A14_006A63_006A66_006A34),
  (0x22412D, 0x023698_006A54_02368D_02368F_006A60_003BC5_006A40),
  (0x224135, 0x006A4F_006A49_006A67_006A6F_006A43_006A33_006A32_006A5A_003BE2_006A3C_006A28_006A48),
  (0x224141, 0x006A50_006A52_006A72_006A5D_006A3E_006A77_006A5B),
  (0x224149, 0x003BD5_006A5E_006A5C),
  (0x22414E, 0x006A6D_006A51_006A55_006A56_0236DF_006A36_0236C0_006A4D_006A7A_006A4C_006A3F_006A3B),
  (0x22415B, 0x0236C2),
  (0x22415D, 0x006A57),
  (0x22415F, 0x006A53),
  (0x224161, 0x006A4E),
  (0x224163, 0x0236C6_023656_006A41_003BDA_006A6A_0236D1_0236DC_006A6E),
  (0x22416C, 0x0069F9_006A64_003BD3_003BE1_02368E_003BD4),
  (0x224173, 0x006A8D_006A81_006AA8),
  (0x224177, 0x006AA5_006AA4_006A96_023706_006A86),
  (0x22417D, 0x006A97_006A7D),
  (0x224221, 0x006A95_006A7F_006A89_006A91_006AA6_006A9F_006A8B_003BEC_006A9A_006A92_006AA3_006A83),
  (0x22422D, 0x0236FA_003BF1_003BF2_006A68),
  (0x224234, 0x006A99_006A9D_006A7E_006A9B_006A82_003BED_02372F),
  (0x22423D, 0x006AA7_0236F9_006A88_003BEB_006A85_006AA0_006AA1),
  (0x224245, 0x006A8C_003BF6_006A90),
  (0x224249, 0x006A9E_006A87_006A8E_006A93_006AC5_006AB9_006AC1),
  (0x224251, 0x006AAB),
  (0x224253, 0x006ABE_006ABA_006AC8),
  (0x224257, 0x006AAE_006AAF_006ABD_02376B_006AC0_003BFA_006ABF_023753_006AC7_006AB6),
  (0x224262, 0x003BFB_003BF8_006ACA_02376F_003BF4),
  (0x224268, 0x006AB4),
  (0x22426A, 0x006ABC),
  (0x22426C, 0x006AE1),
  (0x22426E, 0x023755_006AC6_006AB0_006AB5_02375C_006AC4),
  (0x224275, 0x006AE7),
  (0x224277, 0x006AE0_006ACE_006AE6_0237BC),
  (0x22427C, 0x023790_006AD8_006AED),
  (0x224321, 0x023799_006AD5_003C07_006ADC_006ACC_006AD4_006AEB_006AD1_006AD0),
  (0x22432B, 0x0237A9_006AB7_006AD9),
  (0x22432F, 0x006AE2),
  (0x224331, 0x006B08_006ACB_006ADF_006ACD_006ADE_003BFF_006AEC_003C0D_006AF3_006AE7_006AF0_006AEE),
  (0x22433E, 0x006AF4_006AEB_006AEA_0237CC_006AF2_003C0B_006AF1_006AE8_0237DF_006AF9_006AF5_003C0E),
  (0x22434A, 0x003C0F),
  (0x22434C, 0x003C12),
  (0x22434E, 0x006AFD),
  (0x224350, 0x006AFA_0237F5_006B01_006B02),
  (0x224355, 0x0237FC_006AFC_006AFE_006B03_006AF8_006B00_006B07_006B14_023829_006B0B_006B0D_006B09),
  (0x224361, 0x006B0E_003C18_006B12_006B10_006B15_006B0F_006B11_006B13),
  (0x22436B, 0x006B1B_006B18_006B19_006B17),
  (0x224370, 0x006B1A_006B1D_006B1E_003C1D_006B25_023891_006B26_003C24_003C23_003C28_006B2A_02389C),
  (0x22437C, 0x006B28_006B2E_006B2C),
  (0x224421, 0x006B2F_0238B0_006B2D_006B30_006B31_0238C4_003C2E_006B36_003C30_006B35_006B38_006B37),
  (0x22442D, 0x006B3B_003C32_003C33_0238CC_006B3C_006B39),
  (0x224435, 0x006B3F_003C36_006B46_006B41_006B45_006B40_006B42_006B43_003C3E_006B48_006B4A_0238F2),
  (0x224441, 0x006B4D_0238F3_006B4B_003C42_006B4F_006B4E_006B51_003C43),
  (0x22444A, 0x006B57_006B56_006B54_023922_006B55_003C47_006B5D_006B5C_006B5B_006B5E_006B60),
  (0x224456, 0x023939_003C4D),
  (0x22445A, 0x006B68_006B6B_006B6D_006B6C_003C56_006B6E_023979_006B71_006B70),
  (0x224465, 0x0239A2_003C59),
  (0x224468, 0x0239BC_003C5C_0239D1_006B7E_006B80_003C5E_003C60_003C5F_0239E1_006B82_0239E9_006B84),
  (0x224474, 0x008082_0239F3_006B88_006B91_006B90_006B8D_023A0D_006B95_023A1B_006B94_003C64),
  (0x224521, 0x003C65_003C66_006B97),
  (0x224525, 0x006B99_003C6A_003C6B_006B9C_006B9B),
  (0x22452B, 0x003C6D_023A36_023A38_023A45_006B9E_006B9F_003C6F_006BA0_006BA5_003C74_006BA3_006BA2),
  (0x224537, 0x023A4E_006BAA_006BAB_006BA8_006BAD_003C78_006BB0_003C7B_006BB3_003C7D_003C7E_003C7F),
  (0x224543, 0x023A8C_006BB9_023A95_003C83_006BBD_0055C0_023AA0_023AAF_006BC3_006BC4_006996),
  (0x224553, 0x006BC7_006BC8_003C89_023AD0_006BC9_006BCA_006BCC_006BD0_006BD6_006BD8_003C8B_023B08),
  (0x224560, 0x006BDA_023B25_006BDC_006BDD_003C8D_006BDF_003C8E_023B38),
  (0x224569, 0x023B4F_006BE1_006BE9_006BE3_006BE2_006BE6_006BE7_006BEA_006BE8_003C9A_023B86_003C94),
  (0x224577, 0x006BED_006BEC_023B7F_003C96_003C98_003C97),
  (0x22457E, 0x006BF0),
  (0x224622, 0x023B9D_023B89),
  (0x224626, 0x006BF2_006BF4),
  (0x224629, 0x006BF5_006BF6_006BF1_006BF3_023BA7),
  (0x224630, 0x003CA0_006BFB_023BB2_006BF8_006BF7),
  (0x224636, 0x006BFC_006BFA_006BF9_003CA5),
  (0x22463B, 0x006BFE),
  (0x22463F, 0x023BD9_006C02_006C00_006BFF_023BE8_006C06_023BFF_006C03),
  (0x224648, 0x006C04_023BFC_006C05_003CAA_006C08_023BFB_006C09_006C0B_003CAF_006C0C_006C0D_003CB2),
  (0x224655, 0x003CB3_023C50_023C53_006C14_006C15_006C18_006C19_006C1A_006C1C_006C1D_006C1E_006C20),
  (0x224661, 0x023C5F_006C21_006C25_006C2A_023C63_006C2D_006C30_006C2C_023C62),
  (0x22466B, 0x006C31),
  (0x22466D, 0x003CB6_006C37_006C36_006C3B_006C45_006C49_023C7D_006C3F_006C43_003CBA_006C3C_006C46),
  (0x224679, 0x006C3D_006C52_006C62_006C4A_003CBD),
  (0x224721, 0x006C53_006C4F),
  (0x224724, 0x006C5C),
  (0x224726, 0x006C5B_006C4D),
  (0x224729, 0x006C56_006C4E_006C4B_006C54_006C63_006C4C_006CAA_006C78_006C74_006C86_006C76_023CA7),
  (0x224735, 0x006C7F),
  (0x224737, 0x006C6B_006C6C_006C67_006CA2_006C84),
  (0x22473D, 0x006D30_006C94_023CA9_006C8F_006C91_006C65),
  (0x224744, 0x006C8D),
  (0x224746, 0x006C8B_006C6F_003CC1_006C9D_006C69_006C9A_006C6D_006C93_006C8A_006C98_006C79_006C87),
  (0x224752, 0x006C6E_006C9C_003CC4),
  (0x224756, 0x006C95_023CA5_006C66_006C8E_006C82_023CA4_006CA0_006C73_006C97),
  (0x224761, 0x006CEC_006CEB_006CEE_006CC0_006CD0_006CEF_006CAC_006CB6_006CDF_023CDF_006CD4_006CE7),
  (0x22476E, 0x006CAD_006CD9_006CAF_006CB0_006CF5_006CC7_006CCD),
  (0x224776, 0x006CB7_006CEA_006CF9),
  (0x22477A, 0x006CBA_007553_003CCF_006CC2),
  (0x224822, 0x006CCF_006CE4_006CD8_006CB2_006CC6_006CC3_006CCE_006CE9_006CC8_006CED_006CDC_006CF2),
  (0x22482E, 0x006CD6_006CE0_006CD1_006CDD_006CD2_006CB4),
  (0x224837, 0x006D1D),
  (0x224839, 0x006D02),
  (0x22483B, 0x006D28_006D34_006D42_006D23_006D14_006D01_006CFF),
  (0x224843, 0x006D1F_006D39_006D3C_006D2D_006D05_006D01_006D13_006D12_003CE3_006D03_006D26_006D27),
  (0x22484F, 0x006D0F_006D0A_006D3F),
  (0x224854, 0x006D38),
  (0x224856, 0x006D40_006D29_006D4A_006D2C_006D07_006D04_006CDA_023CF8),
  (0x22485F, 0x006D20_006D2E_006D35_006D3A),
  (0x224864, 0x006D19_023D0A_006D08_006D0E_006D1A_006D22_006D2B_006D11_006D00_006D24_006D09_006D33),
  (0x224870, 0x006D10_006D2F_023D1D_006D63_006D64_023D47_006D76_006DA5_003CFF_006D7A),
  (0x22487B, 0x006D97_006D8C_006D92_006D58),
  (0x224921, 0x003CEE_006D06_006D62_023D50_006D6D_006D6F_006D8D_006D61_006D91_006D7E_003CF3_006D81),
  (0x22492E, 0x006D8A),
  (0x224931, 0x006D71),
  (0x224933, 0x006D5D_006D79_006DEF),
  (0x224937, 0x023D60_006D86_006D7F_006D80_006D85_006D65_006D84_006D5E_006D83_006D67),
  (0x224942, 0x006D7B_006D94_006D56_006D7D_006D60_023D1E_006D98_006D75),
  (0x22494B, 0x006D7C_006D70_006D90_006D72_006D96_006D5C_006D5F_006D82),
  (0x224955, 0x023D66_003CEC_006D5B_006DC0_006DAB_006DB4_006DB3_006DAA_006DC1_023D89_023DD4_006DEC),
  (0x224961, 0x006E06_006E15_006E74_003D06_023D8F_023DAF_006DBA_006DC8_006DCE_006DAC_006DB7_006DE2),
  (0x22496D, 0x006DD5_006DE9_023D77_003CFB_006DF6),
  (0x224973, 0x023DAC),
  (0x224975, 0x023DC9_006DD4_006DB0_006E00_006E0F_023D90_006DBF_023DB6),
  (0x22497E, 0x023D7C),
  (0x224A21, 0x006E02_006DC2_006DB1_006DCF_006DC9),
  (0x224A27, 0x006DD0_006DE0_006DCD_006DDF_006DD6_006DF2_006DD3_006DFD),
  (0x224A30, 0x006DBE_006E01_006DFC_003CF6_006DD7_006DDD_006DDC_006DE5),
  (0x224A39, 0x006DDB_006DB6_023D5B_006DB9_006DA4_003CF7_006DF4_006DCA_006DE3_006DFF),
  (0x224A44, 0x006E12_006DBD_006DF0_006DFE_006DBB_023D82_006DE6_006E7B_006E1F_006E78_006E46_006E47),
  (0x224A50, 0x006E27),
  (0x224A53, 0x006E59_006E64_006E49_006E65_006E88_006E3C),
  (0x224A5A, 0x003D1A_003D1C_006E55_023E32_006E77_006E99_006E8A_006E57_006E4B_006E33_006E45),
  (0x224A66, 0x006E62_006E3D_006E41),
  (0x224A6A, 0x006E51_006E44_023E50_006E63_006E2B_023E11_006E50_006E73),
  (0x224A73, 0x003D1F_006E4F_006E79),
  (0x224A77, 0x006E4E_006E1C_006E8D_006E40_023E2D_003D10_006E3B_006E52),
  (0x224B21, 0x006E61_006E28_006E68_006E5C_006E66_006E31),
  (0x224B28, 0x006E5E),
  (0x224B2A, 0x006E60),
  (0x224B2C, 0x006E84),
  (0x224B2E, 0x006E2E_006E03_006E36_006E5D_006E72_006E30_006E53_006E86_006E39_006E71_006E69_006E6B),
  (0x224B3A, 0x006E6C_006E8B_006E7C_006E5F_006E76),
  (0x224B40, 0x006E2A_006E4C_006E22_006ECE),
  (0x224B45, 0x006E9B_006E9F),
  (0x224B48, 0x006EC8_006ED8_006E8F_006EC0),
  (0x224B4D, 0x006E93_006E94_006EA0),
  (0x224B51, 0x006EB1_006EB8),
  (0x224B54, 0x003D3B_006ED2_006EC6_006EA8_023E6C_006E92_006EA7),
  (0x224B5E, 0x006E8E_023E96_006ED9_006EBD_006EE3_006EC1_006E9E),
  (0x224B66, 0x023EB0_006EA1_006EBF_006EBB_006EC9_006EAD_006EB3_006EB7_006EB0_006ECD_006EB9_023E9E),
  (0x224B72, 0x006E9A_023E60_003D36_006EA4_006EA6_023EBF_006E91_006ECF_006ED0_006E70_006ECA_006ED5),
  (0x224C21, 0x006EC3),
  (0x224C23, 0x006EAE_006EB4_006EBE_006EB2_023E64_006EA3_006EB5),
  (0x224C2B, 0x003D29_003D32_006E5A_006EF8),
  (0x224C30, 0x006F37_006EF0_006EFB_006F2E_006EFD_006F09),
  (0x224C37, 0x006EF1_006F03_006F25_006F4C_006EF5_006F3B_006F63_006F12_006F26_006F3D_006F1A_006EF6),
  (0x224C43, 0x006F19_006F00_023EFA),
  (0x224C47, 0x006F39),
  (0x224C49, 0x003D3F_006EFC_006F24),
  (0x224C4F, 0x023F0A_006F3A_006F18_006F27),
  (0x224C56, 0x023EE7_006F1F_006F4E_006EED_006F0A_023EDE_003D46_006F0D_006F36),
  (0x224C60, 0x006EF9_006EEE_006F41_006EF7_006F95_006F2D),
  (0x224C67, 0x006F34_023ED0_006F40_006F48_006F49),
  (0x224C6D, 0x006F30_006F3C),
  (0x224C71, 0x006F1E_006F21_006F9A),
  (0x224C75, 0x006F17_006EFA_006EEB_006F08_006F0E_006F4A_006F35),
  (0x224C7D, 0x006F05_006F28),
  (0x224D21, 0x006F7D_006F6B_006F7E_006F9D_02401F_006F67_006F87_023FAA_006F61),
  (0x224D2B, 0x006F6F_006F4F_003D4D_006F96_006F5A_006F60_006F5C_006F53_006F56_023F5F_006F90_006FC6),
  (0x224D37, 0x006F8D_003D59_006F92_006F89),
  (0x224D3C, 0x006F8C_006F62_006F75_006F79_006F98),
  (0x224D43, 0x003D50_006F0B_023F9C_003D4B),
  (0x224D49, 0x006F7F_023F74_006F6C_006F8F_006F8B_006F69_006F81),
  (0x224D51, 0x006FCD),
  (0x224D53, 0x023FB4_006F82),
  (0x224D58, 0x006E88_006F77_006F55_006F6A_006F52),
  (0x224D5E, 0x006F7B_006F72_023FB7_006F50_006F57_006F5F_006F94_006F74),
  (0x224D67, 0x023FA0_006F5D_006F93_006FC5_024011),
  (0x224D6D, 0x006FBB_006FAC_006FBA_006FD3),
  (0x224D73, 0x006FB6_006F9F_003D5D_006FAD_003D60_006FBE_006FA6_006FCF_023FF8_006FC6_006FBC_003D68),
  (0x224E21, 0x006FAA_006FA3_023FE6_006FCB_006FBF_006FC7_003D66),
  (0x224E29, 0x006FBD_006FA2),
  (0x224E2C, 0x006FCE_006FC9_006F5E_006FC8_006FA0_006FC4_006FCA_006FAB_003D67_006FB4_023FD0_006FAF),
  (0x224E38, 0x006FB2_006F9E),
  (0x224E3B, 0x007004_006FA8_023FD2_006FA9_003D5E_006FA5_006FB0_006FAE_006FD9_006FDA_006FF4_006FF7),
  (0x224E49, 0x006FE2_024020_024029_006FDC_006FEA_006FF2_006FE3_006FD4),
  (0x224E52, 0x006FF6_024050_006FD5_024047_006FE9_006FF8_006FE8_006FE7_006FE6),
  (0x224E5C, 0x003D6F_006FDE_006FEE_006FE5),
  (0x224E62, 0x006FF0_024024),
  (0x224E65, 0x007001_007005_00700C_007007),
  (0x224E6A, 0x00700D_007008_007014_007010_024090_02405E_003D7E_007000_007026_006FFF),
  (0x224E75, 0x007003),
  (0x224E78, 0x003D7D),
  (0x224E7A, 0x00700E_003D81_024070_007002_00700A),
  (0x224F21, 0x003D80_006FFC_007019_007020_007017_007027_003D86_007024_007025_003D84_00701E_0240CC),
  (0x224F2E, 0x00702B_00702E_007016_00702D_00701C),
  (0x224F34, 0x003D87_007021),
  (0x224F37, 0x007022_007003_007018_007023),
  (0x224F3D, 0x003D85),
  (0x224F40, 0x02412B_00703C_00703D_00702F_007035_007036_003D8F_003D8C_00703B_0240F7_007040_007037),
  (0x224F4C, 0x0240F4_007033_007031),
  (0x224F50, 0x00704D_007034),
  (0x224F53, 0x007039_00703A_003D8D_00703F_007042_003D91_007038_02411C),
  (0x224F5C, 0x00704B_007043_02410E_00704A),
  (0x224F61, 0x007044_007048),
  (0x224F65, 0x007045),
  (0x224F67, 0x007047_024108_007049_003D95_007055_007056_007053_003D9A_007046_024136_007052),
  (0x224F73, 0x00705C_003D9B),
  (0x224F76, 0x00705B_024159_007059_00705A_00705F_00705E_007061_00705D_003D9F),
  (0x225021, 0x009E02_024161_007060),
  (0x225025, 0x007066_00704E_007065_007068_007067),
  (0x22502E, 0x02417F_007069_00706A_00706F_007071_024188_003DA1_00706E),
  (0x225037, 0x00707E_007075_007074),
  (0x22503B, 0x00707A_007077_024184_00707F_003DA3_007093_007089_007086),
  (0x225044, 0x00708F_0241A6_007094_0241B5_007096_007084_007081_007091_0241B0_007085_00709A_003DA9),
  (0x225051, 0x003DA7_0241A5),
  (0x225054, 0x0241AC_007087_007088_007098_007083_00708C),
  (0x22505B, 0x0241E5_0070B7),
  (0x22505E, 0x0070A8_0241CA_0241CB_0070A5_0070A1_0070A3_0070A4_00709F),
  (0x225067, 0x0070A0_007551_0070B4_0070B6_0070AA_0070B1_0070B2_0070B0_0070A7_0079CC_0070B5_0070BF),
  (0x225073, 0x0070A9_0070C4_0070D7_0070E2),
  (0x225078, 0x0070EA),
  (0x22507A, 0x0070CE_0070E5_0070DC_0070D3),
  (0x225121, 0x0070D6_0070DD_0070E1),
  (0x225125, 0x0070DE_0070E3_0070EE_0070E0_0070D5),
  (0x22512B, 0x0070D4_0070DF),
  (0x22512E, 0x0070D1),
  (0x225130, 0x003DB4_007F39_024223_024210_003DB7_0070CD_0241FA_0070C5_0070CB_0070CC_0070D0_0070C7),
  (0x22513C, 0x0070DA_0070C6_02423C_0070FA),
  (0x225141, 0x00710D_0070F7),
  (0x225144, 0x007104_007117_024226),
  (0x225148, 0x0070F3),
  (0x22514A, 0x007110),
  (0x22514C, 0x007103),
  (0x22514E, 0x003DBF_0070F2_0070F4_0070FC_0070FF),
  (0x225154, 0x007106_007111_007112_0070F5_0070F1_00710B_0070F0_003DBC_00710C),
  (0x22515E, 0x0070F8_007105_0070F6_024249),
  (0x225163, 0x024225_0070FB_007102_007113_0070EF_007100_003DC0_00712A),
  (0x22516C, 0x00711E_007134_007120_00713F_007132_024273_024283),
  (0x225174, 0x007131_00712D),
  (0x22517A, 0x007149_024279),
  (0x22517E, 0x003DC5),
  (0x225221, 0x00711F_003DC3),
  (0x225226, 0x0242A9_007139_007135_00711B),
  (0x22522B, 0x003DC4_00713B),
  (0x22522E, 0x00711C_00713A),
  (0x225232, 0x00713D_00712C_02428E_00712F),
  (0x225237, 0x00712B_024290_003DC7_024294_007129_007148_007133),
  (0x22523F, 0x007137),
  (0x225242, 0x003DCD_00712E_024276),
  (0x225246, 0x0242FE),
  (0x225248, 0x007177),
  (0x22524A, 0x00714A_00716A_00716B_007154_007162_007163_007161_007146_007152_02423F_00714F_00715D),
  (0x225256, 0x007141_007160_007158_007175_007173_007157_007143_00715A_007176_003DD6_00714B),
  (0x225262, 0x007147_007170_0242D8_007168_007171_00715F_0242FA_007150),
  (0x22526B, 0x007153),
  (0x22526D, 0x007156),
  (0x22526F, 0x024300_007144),
  (0x225272, 0x0242E6_003DCF_003DD3_007145_007172),
  (0x225278, 0x007178),
  (0x22527B, 0x007187_00717B),
  (0x22527E, 0x007191),
  (0x225321, 0x003DE2_003DE3_007192_007183),
  (0x225326, 0x007179),
  (0x225328, 0x02432B_007186_024342_007180_007189_024317_02431A_02430D_024348_003DE8_007185_007196),
  (0x225334, 0x007182_00718F_00717C),
  (0x225339, 0x007198_003DDF),
  (0x22533C, 0x007197_024364_0071B5_0071A9_024396_00719D_0071A5_0071AD_0071D8),
  (0x225346, 0x00719E_0071B2),
  (0x225349, 0x003DEE_00719B_02437D_0071B0),
  (0x22534E, 0x0071AF),
  (0x225351, 0x0071A4_0071A0_0071A6),
  (0x225355, 0x00719A_0071A1_0071B3),
  (0x225359, 0x0071B4_0071A3),
  (0x22535C, 0x024334_003DED_0071A2_0071AA),
  (0x225361, 0x00719C),
  (0x225363, 0x0071A7_024352),
  (0x225367, 0x0071D1_003DFD_0071C7_0071B7_0243AD_0071DA_0071CA),
  (0x22536F, 0x0071CF_0071D6_0071BD_0071BA_0243C8),
  (0x225375, 0x0071C2),
  (0x225377, 0x0071C5_0243CC),
  (0x22537A, 0x0071BF_0243D7_0071B8_0071D3_003DF3),
  (0x225421, 0x0071DD_0071C0_0071BC_0071C1),
  (0x225426, 0x0071D4_0243EB_0071C6_0071CB_0071DE),
  (0x22542D, 0x0071BB_0243FB_0071F1_024450),
  (0x225432, 0x0071EB_0243F6),
  (0x225436, 0x0071E8_024404),
  (0x22543A, 0x0071F5_0071EF),
  (0x22543D, 0x0071F3_0071F6_0071E1_02440C_0071E4_0071AE_024410_024403_0071E9_0071E2_0071E0_003DFF),
  (0x225449, 0x024436_0071FA_00720C),
  (0x22544D, 0x007203),
  (0x22544F, 0x0071FC_007201_0071FE_0071FD_007200_0071F8_0071FF_0071F9_024434_0269A8_024427_02442F),
  (0x22545B, 0x00720E_005911),
  (0x22545E, 0x00720A_007205_007217_007207),
  (0x225463, 0x003E05),
  (0x225465, 0x007202_007215_007216_007214_007213_003E0C_00720F_003DF8_02447A_007218_024488_007211),
  (0x225471, 0x00720B_02448F),
  (0x225474, 0x007219),
  (0x225479, 0x00721A),
  (0x22547B, 0x003E0E_00721E_00721F_00721C),
  (0x225521, 0x00721D),
  (0x225523, 0x0244D6_007222_003E0F_003E10_007223),
  (0x225529, 0x007225_007226_007229),
  (0x22552E, 0x003E13_003E12),
  (0x225533, 0x024502_024504),
  (0x225536, 0x00722F),
  (0x225538, 0x00722E_024505),
  (0x22553B, 0x024514_024528),
  (0x22553E, 0x003E19_003E1A_00723C_00723F_007240_007241_007242_024577),
  (0x225547, 0x007244),
  (0x225549, 0x007249),
  (0x22554C, 0x00724B_007251),
  (0x22554F, 0x007250_00724F_00724F_007253_007255_003E24_02460C_00725A_00725E_007264_007263_007265),
  (0x22555B, 0x007268_003E2C_00726A_007266_003E30_00726D_007273_003E31_00726E_007278),
  (0x225566, 0x007276),
  (0x225568, 0x007277_003E38_003E40_00727E_00727B_00727C_003E3D),
  (0x225570, 0x003E39_00727F_007282_02465B_007289_007288_003E41_007283_007286),
  (0x22557A, 0x003E43_007285_00728B_007287_024671),
  (0x225622, 0x00728D_003E42_00728E_00728C_007291_003E47_00728F_007297_0246A9),
  (0x22562C, 0x003E4F),
  (0x22562E, 0x003E44_003E4A_007294_003E4B),
  (0x225633, 0x007293_003E4D_003E4C_007298),
  (0x225638, 0x00729F),
  (0x22563A, 0x00729A_003E4E_007299),
  (0x22563E, 0x00729D_003E54_0072A1_003E57_0072A5_0072A6_0072A4),
  (0x225646, 0x0072A3),
  (0x225648, 0x0072A8_0072A9_003E5B_0072AA_0072AB_0072AE_0072B0_0072B4_0072B2_0072C6_0072B5_0072BF),
  (0x225654, 0x0072BA_003E60_0072BC_0072BD_0072C3_0072B9_003E5C_0072C1_0072C5_003E5E_003E65_0072BB),
  (0x225660, 0x0072D6),
  (0x225662, 0x003E64_0072CB_0072D2_0072DC_0072D8_0072C9_0072D3_024763_0072DA_0072CA_0072CC_0072CF),
  (0x22566E, 0x0072DB_0072CD_0072D5_0072D1_02478F_0072E8_0072E4_0072DF_0072EB_0072EA_0072E6_0072E5),
  (0x22567A, 0x0072E7_0072E3_0072E2_007300_0072FA),
  (0x225721, 0x0247AC_0247BF_0247B0_0072F4_0072FE),
  (0x225727, 0x00730D_003E76_007302_003E71_02479B_0072FB_007301_0072F3_0072F6_02479E_00731D_007314),
  (0x225733, 0x00730E_003E7D_00730B_007317_00730C_007311_0247CD_007312_007307_00731A_007306_007318),
  (0x22573F, 0x00730A_007308_0072FF_00731E_003E91_0247F2_0247DF_007331_007330_00732A_007338_007322),
  (0x22574B, 0x00732E_007332_00732C_007327_00732B),
  (0x225751, 0x0247E9_00732F_0247E4_007323_007328_007324),
  (0x225758, 0x007335),
  (0x22575A, 0x007347_007348_007349_00733C_007341_00733B_007342_007343_00733A_00732D_003E87_007340),
  (0x225766, 0x007346_00734A_00734D_003E92_007351_007352_00734C_00734F),
  (0x22576F, 0x007355_007361_00735C_00735E),
  (0x225774, 0x00735D_00735F_007356_024873_024882_007360_003E97_007358_007365),
  (0x22577E, 0x007362),
  (0x225821, 0x00734B_02489B_007366),
  (0x225825, 0x007367_003E9C_007369),
  (0x225829, 0x00736C_00736A_00736B_007371_00736E_007373_00736F_00737D_007370_0248BA_007376_0248B9),
  (0x225835, 0x007379_00737C_0248CE_00737E_00737F_007383_007381_007382_007385_007386_007388_00738A),
  (0x225841, 0x00738C_00738E_00738F),
  (0x225845, 0x003EA8_007395_007392_007397_007398),
  (0x22584C, 0x007393_007394_0073A4_0248FF_0034AC_00739E_0073A6_0073AD),
  (0x225855, 0x0073A1),
  (0x225858, 0x024909_0073AC),
  (0x22585B, 0x0073A3),
  (0x22585D, 0x0073A5_00739D_0248FB_024907),
  (0x225862, 0x0073A2_0073A0_00739C_0073EB_0073B9_0073B6_0073CF_0073C9_0073C2_0073D0_0073B5_0073B4),
  (0x22586E, 0x003EBD_0073BF_0073C8_0073C7_0073C3),
  (0x225874, 0x0073BE_0073C5_0073C6_003EB9_0073B8_0073CE),
  (0x22587B, 0x0073BD_02492E_0073CC_02493E),
  (0x225921, 0x0073D3_024943_0073DC_0073DD_0073D2_0073E2_0073EA_0073E5_003EBF_0073D9_0073EF_024938),
  (0x22592D, 0x0073D5_02493F_0073D4_0073DB_0073EC_0073D6_02493A_0073DA_0073BC_0073E7_0073E4_0073E3),
  (0x22593A, 0x0073DE_0073D8_0073E6_003EC7_0073E8_0073E9_007402),
  (0x225942, 0x007413_024964_024960_0073F6),
  (0x225947, 0x0073FA),
  (0x22594A, 0x0073F8_02496D),
  (0x22594D, 0x024957),
  (0x225950, 0x024968_0073FC_0073FF_007404_0073F5_003EC9_00740C_007408),
  (0x225959, 0x007401_0073FD),
  (0x22595C, 0x007407_0073F4_007412_007400_00740B_02496B_007423_00743C_007417_003ED9_00742E_00742F),
  (0x225968, 0x02498C_007414_00742C_007437_007430),
  (0x22596E, 0x00742B),
  (0x225970, 0x0073F7_00741A),
  (0x225973, 0x007419_007427_0249AB),
  (0x225978, 0x007416_024990_007426_00741C),
  (0x22597D, 0x003ED2_00741D),
  (0x225A21, 0x007428),
  (0x225A23, 0x007429_003ED7_003EDB_007421_007431_007420_024999_00741B_007424_007432_00742D_02498F),
  (0x225A2F, 0x00741F_007415_003ECA_00743B_0249DB_0249DF_003EE2_007444),
  (0x225A38, 0x00744F_0249DE),
  (0x225A3B, 0x007448),
  (0x225A3D, 0x0249E3_007449_007443_007447_0249C5_003EDD_007458_00744E_007442_0249C7_00744B_003EE1),
  (0x225A49, 0x00746C_00744A),
  (0x225A4D, 0x00744C_007445_007452_007446_00743E),
  (0x225A53, 0x0249B9),
  (0x225A55, 0x007457_007451_00744D_0249D1),
  (0x225A5A, 0x00745D_007454_007456_007440_003EDE_0249D2_00746D_007462_007473),
  (0x225A64, 0x007467),
  (0x225A67, 0x024A04_007474_00746E_007471_007468_007471_007475),
  (0x225A70, 0x0249F3_024A13_007465_0249F8),
  (0x225A75, 0x00746B),
  (0x225A77, 0x007466_007460_007472_007484_007487_00748C_024A2D_007488),
  (0x225B21, 0x007489_00747C_024A15_003EEC_024A39_024A27_007482_00747E_024A22_00748A),
  (0x225B2C, 0x00747F_007486),
  (0x225B30, 0x00747A),
  (0x225B32, 0x00747B_024A34_024A41_007479_024A32_024A3E_007480),
  (0x225B3B, 0x003EE7_007481_024A26_00747D_007485_007497_003EFB_024A53_007498),
  (0x225B45, 0x00749A_007492_007495_00749B_024A59),
  (0x225B4B, 0x024A58),
  (0x225B4D, 0x0074A4),
  (0x225B4F, 0x003EF7_003EF8),
  (0x225B52, 0x024A7C_007499_00749F_00749D_00748D_00749E),
  (0x225B59, 0x0074A0),
  (0x225B5B, 0x007491_024A5D_0074A1_0074AC),
  (0x225B60, 0x0074B2_0074B1_024A8D_024A71),
  (0x225B66, 0x0074B4_0074AB_0074AD_0074AA_007490),
  (0x225B6C, 0x0074A5),
  (0x225B6E, 0x0074A8_024A76_00748F),
  (0x225B73, 0x0074AF_024A97_0074BE_0074B8_024AA4_0074B6_0074B9_0074C0_024A98_0074BB_024A5A_024A99),
  (0x225C21, 0x024A8C_024A6D),
  (0x225C25, 0x0074BF_0074C1_024AA0_0074B5_0074BA_0074C4_0074C9_0074C7_0074C3_024ABD_024ABC_0074C8),
  (0x225C31, 0x0074C5_0074CC),
  (0x225C34, 0x0074CE_003F07_024AC2_024AC9_0074D6_0074D5_0074D4_0074D3_0074D7_0074D8_024ADF_024AD5),
  (0x225C40, 0x0074DA_0074DB_024AE6_024AE0_0074DD),
  (0x225C46, 0x0074DF_0074DE_003F0C_003F0E),
  (0x225C4B, 0x003F14_024B13_024B10_024B0F_024B16_0074E4_003F16_0074E7_003F17_0074E9_0074EC_003F1A),
  (0x225C57, 0x0074ED_0074F1_024B30_0074F0_0074EA_0074EE_0074F3_0074F5_003F1D_003F1F_0074F4_003F24),
  (0x225C63, 0x0074F8_003F21_0074F9_0074FB_0074FF_024B62_003F2E_003F2C_003F2F_003F2D_0074FD_007500),
  (0x225C6F, 0x0074FE_003F30_007505_003F32_003F35_003F31_003F34_003F33_007503_007502_003F36_003F38),
  (0x225C7B, 0x007509),
  (0x225C7D, 0x007507_007506),
  (0x225D21, 0x007508_00750B_024B8A_003F3E_00750E_003F3D_00750A_00750D_003F3B_003F3F_007510_007511),
  (0x225D2D, 0x00750F_003F44),
  (0x225D30, 0x024B8E_003F43_007512_007513_007514_003F49_007516_003F48_003F40_007517),
  (0x225D3C, 0x00751E_00751D),
  (0x225D3F, 0x024BCC_003F51_024BD9_007521),
  (0x225D44, 0x007524_003F53_024BF7_00752A_00752E_00752F_007536_007539_003F55_00753A_024C15_00753F),
  (0x225D51, 0x007540_00753E_003F58),
  (0x225D55, 0x00754A_007550_00754E_007547_00754B_007548),
  (0x225D5D, 0x007555),
  (0x225D5F, 0x00755F_00755B_007561_007564_024C68_024C86_0051A8_007567_007563_024C8F_00756F_00756E),
  (0x225D6B, 0x00756C_024C7D_007579_00757A),
  (0x225D70, 0x006983_007577_024C91_003F65),
  (0x225D75, 0x007571_024CAC),
  (0x225D78, 0x00757C_00757D_003F68_003F66_00757E),
  (0x225D7E, 0x00757F),
  (0x225E21, 0x024CC9_007581),
  (0x225E24, 0x024CCA_007583_007584_024CD6_024CE4_007588_00758C_00758E_007590_007592_007594_007593),
  (0x225E30, 0x003F71_007595_00759E_003F73_00759B_007598_024D31_0075A2_0075A6_003F7B_0075A8_0075A3),
  (0x225E3D, 0x0075AA_0075BA_024D38_0075A7_024D3D_003F79_0075B0_0075C3_0075C6_0075BF_0075B4_0075B6),
  (0x225E49, 0x003F81_0075C2_0075B8_003F87_0075BB_0075C1_003F7E_0075B1_0075C4_0075C0_003F88),
  (0x225E55, 0x0075B7_0075CE_0075D2_0075CD_0075D3_003F8A_003F90_0075CF_0075CB_0075CC_0075D0_0075D1),
  (0x225E61, 0x024D83_003F91_0075E7_003F95_003F9B_0075E1_0075E6_0075DA_003F9E_003F9C_0075DD),
  (0x225E6D, 0x0075DF_003F96_024DAD_003F93_0075E4_0075E0_0075D7_0075E5_003FA6_0075EF),
  (0x225E78, 0x00760F_024DC7_007602_007604_0075FE_003FA2_007603),
  (0x225F21, 0x0075F9_0075FC_0075F6_0075ED_0075FD_0075F8_0075F5_0075FB_007616_003FAB_024E1D_007608),
  (0x225F2D, 0x007615_00760C_00760F_00760E_007611_024E12),
  (0x225F34, 0x003FAF_007614_024E01_024E11),
  (0x225F39, 0x007607_003FAD_007610_00760A),
  (0x225F3E, 0x007625_00761A_00761B_024E2A_003FBA_024E35_024E31),
  (0x225F46, 0x003FBB_007619_00761E_007628_003FB7_024E2B_00761D_024E46_00761C_007623_007622_00762F),
  (0x225F52, 0x00762C_00763A_00762D_007636_007637_00763D_007640_003FC4_007631_003FC3_007633_024E5D),
  (0x225F5E, 0x00763B_007630_00763C),
  (0x225F62, 0x007635),
  (0x225F64, 0x007639_007632_003FC8_007648_00764E_007647_007643_00764A_024E8A_003FCA_00764D_007649),
  (0x225F70, 0x003FC9),
  (0x225F72, 0x024EA5_007644_007641_007654_024EBA_00765B_007655_007648_00765C_007657_003FCE_007651),
  (0x225F7E, 0x00764F),
  (0x226021, 0x00765A_007664_024EBB_007659_007650_007660_003FD3_007661_024ED8),
  (0x22602B, 0x00765F_024EF1_024EF5_024EF2),
  (0x226031, 0x003FD5_007667),
  (0x226034, 0x003FD7_00766A),
  (0x226037, 0x00766D_00766F_003FD9_007670_024F19_003FDB_007673_003FDC_007675_007676_007677_007679),
  (0x226044, 0x024F39_00767F_007681_007683_007680),
  (0x22604A, 0x00768B),
  (0x22604C, 0x024F59_00768A_00768F_007690_003FE0),
  (0x226052, 0x007695_007694_007692_00656B_024F82),
  (0x226058, 0x007698_007699),
  (0x22605C, 0x003FE3_00769C_003FE5_00769D_00769E_00769B_003FE6_0076A0_0076A2_0076A4_0076A5_0076A6),
  (0x226068, 0x0076AB_024FB4_0076AA_0076AC_02F93C_0076AD_0076AF_003FEA_003FEC_0076B5_0076B7_025001),
  (0x226074, 0x0076B8_025004_0076BB_0076BD_025043_0076C4),
  (0x22607B, 0x0076C5),
  (0x22607D, 0x004000_003FFE),
  (0x226121, 0x025051_003FFF_0076CB_025055_0076C9_0076CC_0076D3_025063_004002_025066_004001_0076D6),
  (0x22612E, 0x0076DA_004003_025074),
  (0x226132, 0x025081_02507A_0076DD),
  (0x226138, 0x0076E0_025093_004007_0076E6_0076E9_0250AE_004009_0076E8_0076EC_0250B8_0250A5),
  (0x226144, 0x0076ED_0250D4_0076F3_0076F0_0076F1_0076F5_004012_007704_004016_025117_00401D_007708),
  (0x226150, 0x007707_025109_02510E_0076F7_00770A_02512E_007702_02512F_0076FA_0076FB_007705_00401B),
  (0x22615D, 0x00773F_00772B_00771D_00770E_00771C_00771B_007724_007710_007727_02514A_004020_007713),
  (0x226169, 0x00770F_004021_007719_007722_00771A_004022_007721_007715_007711_007723_004023_007740),
  (0x226175, 0x007739_00772F_007731_00772D),
  (0x22617A, 0x007732_007730),
  (0x22617D, 0x025184_00772E),
  (0x226221, 0x007726_007725),
  (0x226224, 0x007733_007735_007734_004029),
  (0x226229, 0x00402C_00402A_00773D_007746_007747),
  (0x22622F, 0x004039_007744_007745_00774D_00774A),
  (0x226235, 0x007743_00774B_00774E_00403A_007759_00775F_0251D3_007755_007760_007752_004048_004043),
  (0x226242, 0x007758),
  (0x226244, 0x007756_00775A_004046_0251DB_007757_007764),
  (0x22624C, 0x0251D6_007769_00776D_007762_007754_00777B_007780),
  (0x226254, 0x007776),
  (0x226256, 0x00776F),
  (0x22625A, 0x007783_004042),
  (0x22625D, 0x00777E_025227_007785_00777A_00776E_007782_00778A_00778F),
  (0x226266, 0x00778B_025241_004057_025246_00778D_007788_00405D_02523C),
  (0x22626F, 0x007795_00779A_0077A1_007798_007796_00779C_0077A2_007799_007797),
  (0x226279, 0x0252C6_0077B5_0077B2),
  (0x22627D, 0x0077B7_0077AF),
  (0x226321, 0x0077A4_0077AB_0077B6_0077B1_0077B4),
  (0x226327, 0x0077BA_0252DA_0077BE_0077C2_0077B9_0077BC_0077C0_0077C9_0077C5),
  (0x226331, 0x0077C6_0077C4_0077CA_025322_0077CD_00407E_0077CF_0077CE_0077D0_0077D1_0077D4_0077D5),
  (0x22633D, 0x0077D9_0077D8_004084_004087_02535F_0077DD_025367_02536B_0077DE_0077DF_0077E0_025379),
  (0x226349, 0x02537D_025386_02538A_02538C_00408C_00408E_0077E7_0077E8),
  (0x226352, 0x0077E6_00408F_004091_0077EC_0253D9_0253E0_004095_0077F0_0077F1_0077F2_0077F4_02541B),
  (0x22635F, 0x025425_0077FC),
  (0x226362, 0x0077F7),
  (0x226364, 0x0077F9_02541D_0077FE_0077F8_0077FB_0077FA_025423),
  (0x22636C, 0x00780A),
  (0x22636E, 0x02542F_00409B_007809_007806_007804_007819_007811_025435_007808_02542A_007812_007805),
  (0x22637A, 0x00780E_025438_007810_007803),
  (0x226422, 0x007813),
  (0x226424, 0x00781B_00780F_00782C_007823_00782B_007821_007829),
  (0x22642C, 0x00781E_007822_02546E_025462),
  (0x226431, 0x007835_007833_00782E_00782F_007820),
  (0x226437, 0x0040A6_00783D_007824_007832_00781F_007836_007831_007851),
  (0x226441, 0x00784B_025489_007849_00784D_0040AE_00784E_0040AC_007848_007853_007854_007845_007852),
  (0x22644E, 0x007850_007858_007826_007842_007847_02548C_007846_0040AB_00784C_007860_0254B4_007866),
  (0x22645A, 0x007868_00786D_007869_007861),
  (0x226460, 0x007864_00785C_007865_0254C4_007876_00785E_00786A_00786E_007862_007886),
  (0x22646B, 0x00789A_00787F_007887_0040C0_007883_007894_0040C1_007890_007881_00787B),
  (0x226476, 0x00788F),
  (0x226478, 0x00788A_007879_007884_0254CA_007895_0078B1_007899),
  (0x226522, 0x0040C2_00788D_0254E5_0040BF_0040B9),
  (0x226528, 0x0254E7_007893_00785F_007888_007892_007896),
  (0x22652F, 0x0078B2_0040CD_0078A1_0078B6_0040C9_0078A5),
  (0x226536, 0x0078AA),
  (0x226538, 0x00789D_0078B7_0040CE_0078A4),
  (0x22653D, 0x025516_0078B4_0078AC_0078AD_0078A3),
  (0x226543, 0x00789E_0078A8_0078A2_0040CB_00787E_0078AB),
  (0x22654A, 0x0078AF_0078CF_025536_0078CD_0078BB_0078C4_0040D4_0078DC_0040D3_0040D2_02553D_0078CC),
  (0x226556, 0x0078C9_0078D2_0078D1_0040D5_0078D8),
  (0x22655C, 0x0078CE_0078D3_0078C8_0078C7_0078D4_0078E4_02555E),
  (0x226564, 0x025566_0040E0_0040DA_0078D6_0078DF_0078ED_0078E7_0078DD_025562_02555F_0078DB_0078E1),
  (0x226570, 0x0078E9_0078E2_0078E5_0078E0_0078EA_0078DE_0078EE_0078E3),
  (0x226579, 0x0078F2),
  (0x22657B, 0x0078F0_025581_0078F3_007905),
  (0x226621, 0x0078F9_0078FD_025576_025565_0078F5_0078FF_0078FE_0040E3_0078FB),
  (0x22662B, 0x007904_0078F6_0040E7_007912_0040E4_007915_00790A_00790C_0255A2_007913_007911_00790B),
  (0x226637, 0x00790F_007910_007909_007917),
  (0x22663D, 0x00791B_0255B2_00791D_00791A_0255AA_007921_00791E_007910_00791C_007922),
  (0x226648, 0x0040F4_007925),
  (0x22664B, 0x007923_007924_007927_007928_0255C1_007929_0040F7),
  (0x226653, 0x00792F_007932_007931_007933_00792E_0255C4_007930),
  (0x22665B, 0x0255D9_007935_007934_0040F8_007937_007936),
  (0x226663, 0x007939_00793C_00793D_02560B_007942_00793F),
  (0x22666A, 0x00794A_00794D),
  (0x22666E, 0x0040FE_00794B_02561E_007944),
  (0x226674, 0x00794D_007946_025645_007958_02562F_00795B_00795C_00794F_007953_007953_025635),
  (0x226721, 0x007951_025643_007954),
  (0x226725, 0x025655_025656_00796C_007961_007964_007967),
  (0x22672C, 0x007969_00796B_00796A_007971_007972_007973_00410A_007974),
  (0x226735, 0x007966),
  (0x226737, 0x007970_007980_00797D_00410F),
  (0x22673C, 0x025691_00410D_00797C_025695),
  (0x226741, 0x02569A_004110_007982_007979),
  (0x226746, 0x007986),
  (0x226748, 0x025697_007989_007998_00798A),
  (0x22674D, 0x007999_007995_00798B_007996_007987_0256B5_0256A9_007994_007993_007997_007988),
  (0x22675A, 0x007990),
  (0x22675C, 0x00799A_00799C_00799F_0079A1_00799B_0079A3_0079A2_0256CD_00799D),
  (0x226766, 0x007992_0256C5_0079A0_00411A),
  (0x22676D, 0x0079A4_0079A9),
  (0x226770, 0x0079AB_0079A8),
  (0x226773, 0x02570B_0079AC_0079B0),
  (0x226777, 0x0079B2),
  (0x226779, 0x025725_0079B3_0079B4_0079B7_025733),
  (0x226821, 0x0079B6_0079B8_0079BA_0079BB_0079BC_025748),
  (0x226828, 0x0079C6_0079C4_0079C8_00412A_0079C5_0079D4_0079D5_0079CD_02576C_0079CF_0079D6),
  (0x226834, 0x025779_0079CE_025775),
  (0x226838, 0x0079D8),
  (0x22683B, 0x004136_0079DC_0079EC_0079EB_0079E0_004137_0079DB_0079E1_0079E8_0079DD_0079ED_0079EA),
  (0x226847, 0x0079FA_0079F8_0079F7_004140_004144),
  (0x22684D, 0x0079F3_0079F4_007A02_007A0A),
  (0x226853, 0x0079FF_007A09_0257C7_0257B5),
  (0x226859, 0x007A07_00414C),
  (0x22685C, 0x007A03_007A04_0257B4),
  (0x226861, 0x007A0C),
  (0x226863, 0x007A15_007A24_007A21_00415D_0257E2),
  (0x226869, 0x007A22_007A0F_007A11_007A18_007A13_004158_007A19),
  (0x226871, 0x007A1E_00415B_007A1B_00415C_004157_007A17),
  (0x226878, 0x007A10),
  (0x22687A, 0x007A28_007A4A_007A27_007A26_007A2D),
  (0x226921, 0x007A30_007A2C_004165),
  (0x226925, 0x004162_025804),
  (0x226928, 0x004163_007A2F),
  (0x22692B, 0x00416D_007A3E_007A34_004175_007A38_007A3A_004172_007A39_007A41_025843_004173),
  (0x226937, 0x025872_007A45_007A48),
  (0x22693C, 0x007A49_007A4B_007A47_007A44_007A5C_007A58_007A54_025894_025891_004180_007A5A_007A5B),
  (0x226948, 0x007A56_004184),
  (0x22694C, 0x004183_007A5F_004185_007A60_0258B6_007A67_007A64_007A6A_007A68),
  (0x226956, 0x007A6C_007A6E_007A6F_0258EF_004189_0258EB_007A6D),
  (0x22695E, 0x00418D_007A70_009F9D_007A73_00418F_007A72),
  (0x226966, 0x007A75_007A77_007A7B_007A78_007A7D_007A80_007A82_007A7E_007A89_02594D_007A85_004198),
  (0x226972, 0x02594A),
  (0x226974, 0x007A8B_007A86_007A87_007A8C_007A8A_007A8F_007A94_007A90_007A9A_00419E_0068A5),
  (0x226A21, 0x007A93_007A91),
  (0x226A25, 0x02597B_0041A2),
  (0x226A28, 0x007AA3_007AA2_007AA1_007A9E_007AA7_0259B1_007AA8_007AAB),
  (0x226A31, 0x007AAC),
  (0x226A33, 0x007AB4_007AB0_007AB1_007AB3_0259EE),
  (0x226A39, 0x007AB7_007ABD_0041AF_007AB6_007AB8_007AB5_007ABB_0041B7_007ABE_007AC0_007ABF_007AC2),
  (0x226A45, 0x007AC1_025A23_025A2A_007AC8_007ACD_0041C4_007ACF_0041C6),
  (0x226A4F, 0x007AD1),
  (0x226A51, 0x007AD3_007AD4),
  (0x226A54, 0x007AD5_007ADA_007ADD_025A6A_0041C9_007AD8_007AE1),
  (0x226A5D, 0x007AE4_007AE6_007AE2_0041CF_007AEA_0041CE),
  (0x226A64, 0x0041D0),
  (0x226A66, 0x007AEB_025A8B_007AEE_025AA1),
  (0x226A6B, 0x007AF0),
  (0x226A6E, 0x025AAE_007AF1),
  (0x226A71, 0x007AF2_007AF3),
  (0x226A74, 0x0041D3_0041D4_007AF5),
  (0x226A79, 0x007AFB_025AE5_007B01_007AFE),
  (0x226A7E, 0x025AE8),
  (0x226B21, 0x025AE9_007B10_025AFE_007B0B_007B04_007B0E_007B39_0041D8_007B07_007B0D_007B09_007B14),
  (0x226B2D, 0x007B0F_007B08_007B13_025AF1_007B12_025B0A_007B0A_0041D7_007B35_007B25_007B22_007B30),
  (0x226B39, 0x007B38_007B34_007B3B_025B24),
  (0x226B3E, 0x025B21_007B24_007B33_025B14_007B2A_007B1A_007B18_007B21_007B32_007B31_007B23_007B2E),
  (0x226B4A, 0x007B2B_007B37_007B2D_007B1F_007B2F_0041DF),
  (0x226B52, 0x007B4A_007B59_007B04_007B47_007B40_025B2F_0041ED_007B58_007B51_007B6C_0041EF_0041EB),
  (0x226B5E, 0x007B44_007B5D_007B48_007B45_007B4C_007B4E_007B55_007B3F_0041E8_0041EC_007B66_007B5E),
  (0x226B6B, 0x0041FE_007B64_025B53_007B69),
  (0x226B70, 0x007B6D),
  (0x226B73, 0x007B6A_007B62_007B6E_007B74),
  (0x226B78, 0x0041FD_007B72_007B78_007B6F_007B67),
  (0x226B7E, 0x007B65),
  (0x226C21, 0x025B56_004200),
  (0x226C24, 0x007B76_007B63_007B71_007B70_007B68_007B73_007B5F_007B61_025BB5_007B9C_007BA4_007B8A),
  (0x226C30, 0x007B81_007B88_025B92_007B92_007B91_007B90_025BB0_004205_007BA3_007BB8_007B8D_007B96),
  (0x226C3C, 0x007B9B_007B8C_007B82),
  (0x226C41, 0x007B85_007B87_007B8E_007B98),
  (0x226C46, 0x007B86),
  (0x226C48, 0x007B99),
  (0x226C4D, 0x007B84_025BC0_004206_007B9A_025B98_007BB2_007BCA_025BDB_007BB7_004214),
  (0x226C58, 0x007BCB_007BB8_007BCF_004224_007BD0_00420E_00420F),
  (0x226C60, 0x007BBE_025C14_007BAC_007BC5_007BB5_025BD5_004210_004213_004215_025BE8_00421B_004226),
  (0x226C6C, 0x007BCE_00421A_007BA0_007BCC_007BAF_007BCD_004217_007BB9_025C1E_007BE3),
  (0x226C77, 0x007BD6_025C4A_025C28_007BDE_025C20_00423F),
  (0x226D21, 0x025C67_007BDD_007BE2_007BE5_007BDC_007BDA_004230_025C5D_007BE8_007BD5_025C1A_00422A),
  (0x226D2D, 0x00422F_007BF9_007BD4_025C61),
  (0x226D32, 0x007BDF_007BE6_007BE0_007BD8_025C2D_007BEA),
  (0x226D39, 0x004235_004231_007C06_00423C),
  (0x226D3E, 0x007BF0_007BF1),
  (0x226D41, 0x007C0F),
  (0x226D43, 0x007C05_025C7C_007BF2_007C0B_007C00),
  (0x226D49, 0x007C10_007BFF_007C0C_007BFB_007C0A_007C0E_007BF4_007BFA_00423E_007BE7),
  (0x226D54, 0x007BF3_007C02),
  (0x226D58, 0x007BF8_00423B_007C09_007C03_007BFC_007C01_025C80_007C1C_025CDE_007C26_007C28_007C20),
  (0x226D65, 0x025D0A_007C1F_025CFD_007C2F_007C2D),
  (0x226D6B, 0x007C1D_007C19_025CCA_025CCE_025CE7_00424E),
  (0x226D73, 0x007C1A_007C24_007C30_025CE0_00424D_007C22),
  (0x226D7A, 0x007C32_004251),
  (0x226D7D, 0x007C25_007BFD),
  (0x226E21, 0x007C29_00424B_025CC7_007C3A_004261_007C36_007C35),
  (0x226E2A, 0x007C40_007C33_025D43_007C3C_025D2B),
  (0x226E30, 0x007C39),
  (0x226E33, 0x007C2C_007C3B_007C34_025D29_025D24_025D27),
  (0x226E3A, 0x007C45_007C42_004263_025D34_004260_025D28_00425B_007C47_007C4F_007C46),
  (0x226E45, 0x007C44_007C4E_007C4A_007C48_007C49_007C4B_025D7B_007C53_00426B),
  (0x226E4F, 0x007C54_007C51_004267),
  (0x226E53, 0x025D68_007C5D_007C57_007C5C_007C5A_007C5B_007C59_025DCF_007C5E_007C67_004274_007C63),
  (0x226E5F, 0x004272_025DD7_007C68_007C65),
  (0x226E64, 0x004273),
  (0x226E67, 0x004276_007C69_007C6A),
  (0x226E6B, 0x007C6D_025E00_025E0E_007C6B_007C6F_007C70_004277_007C66_025E21_007C71_007C75_007C74),
  (0x226E78, 0x00427A_007C7E_007C78_007C7F_007C79_007C7D_007C7C),
  (0x226F21, 0x007C81_007C7A),
  (0x226F24, 0x007C87_025E39_007C88),
  (0x226F28, 0x007C8E_007C91_007C83),
  (0x226F2C, 0x007C8D_007C85),
  (0x226F2F, 0x007C84),
  (0x226F32, 0x007C96_025E46_007C94_007C93_004280_025E51),
  (0x226F3A, 0x007C99_007C98_007CA3_00427E_007C9C_007C9A_007C95),
  (0x226F42, 0x007CA7_007CA2),
  (0x226F45, 0x007C9E_007CA9_007CA0_007CA8_007CA1_007CAC),
  (0x226F4C, 0x007CA6_004286_007CAE_004289_007CAF_007CB4),
  (0x226F53, 0x025E93_007CB2_007CB0_025EA7_025EA6_007CBB_007CBF_025EB1_025E9D),
  (0x226F5E, 0x007CBA_007CBC),
  (0x226F61, 0x007CCB_007CCD),
  (0x226F64, 0x007CC2_025EC7_007CCE_007CC6_007CC8_007CC5),
  (0x226F6B, 0x007CC3_004293_007CCC_007CC7_007CC9_007CD1_007CD2_007CD4_025EE9_007CD3_007CD7_025EE6),
  (0x226F77, 0x007CE1_00429E_025F0C_00429C_007CE8_004299),
  (0x226F7E, 0x007CDB),
  (0x227021, 0x00429D_007CDD_0042A7_007CE6_0042A4_007CEA_025F36_007CED_007CEC_025F46),
  (0x22702C, 0x025F4B_0042AE_007CF0_025F4F_007CF2_025F5F_025F58_025F57_007CF1_007CF4_025F6C_007CF5),
  (0x227038, 0x0042B3_007CF6_025F7F_025F7D),
  (0x22703D, 0x007CF7),
  (0x22703F, 0x007CFA_007CFD_007CFC_007D06),
  (0x227044, 0x007D03_007D08),
  (0x227047, 0x007D01),
  (0x227049, 0x007D0F_007D13_007D16_025F9D_025F9B_007D11_007D0C_007D18_007D1E_007D1D_0042C2_0042C0),
  (0x227055, 0x007D1F_007D12_0042C9_007D38_007D35_007D3D),
  (0x22705C, 0x025FC9_025FC6_0042CA_007D34_0042D1_007D3A_007D32_007D4A),
  (0x227065, 0x007D31_0042CE_007D2C_007D45_007D3B_007D3F_025FCB_007D29_007D47),
  (0x22706F, 0x007D41_007D28_007D3E_0042DB_007D63_007D58_007D6F_025FFD),
  (0x227078, 0x007D52_0042DA_007D5C_007D59_007D53_007D64_007D5A),
  (0x227121, 0x007D54_007D70_007D60_007D5D),
  (0x227126, 0x007D56),
  (0x227128, 0x007D4F_007D67),
  (0x22712B, 0x007D6A_007D6B_007D6D_007D6C_007D51_007D73_026005_007D5F_007D69_007D4E_025FEF_007D84),
  (0x227137, 0x007D8B_02602C_007D88),
  (0x22713B, 0x007D85_026033_007D8E_007D95),
  (0x227140, 0x0042E4),
  (0x227142, 0x007D7F),
  (0x227144, 0x007D86_0042E2_007D80_007D8A_007D8D_026016),
  (0x22714B, 0x007D9B_007D78_007D83_026035_007D7D_007D92_007D7C),
  (0x227153, 0x0042E3_007D7B_007D90),
  (0x227157, 0x007D89_007D7A_007D96_007D5B_007D8C_007D98_007DA9_0042E8_0042ED_007DC2_007DA3_007DAE),
  (0x227163, 0x007DA7_007DA1_007DB7_007DC0_007DCB_007DC1_007DAA_007DCE_007DC9_007DC8_007DA8_007DC5),
  (0x22716F, 0x007DA6_007D9D_007DAB_007DA4_0042F0_007DC4_007DC6_0042EA_0042EB_007DAC_007DB3_007DCC),
  (0x22717B, 0x007DAF),
  (0x22717D, 0x007DB9_007DBC),
  (0x227221, 0x026064_007D9F_007DC3_026055_007DCD_007E07_007DE7),
  (0x227229, 0x007DE1_007DD9_007DE4_026098_02608C_0042FD_007DF8_007E03_007DD7_0042F7_007DFE_007DDB),
  (0x227235, 0x026097_007DF9_0042F5_0042FF_007DF7_007DEA_007DE2_007DF2_007E00_007DE6_007DFA_007DFD),
  (0x227241, 0x007DED_007DD3_007DFF_007DDF_007DEE_007DDC_007DF1_007DF6_007DE5_007DF0_007DF5_007DEB),
  (0x22724E, 0x026084_007E0D_007E17_007E1E_007E21_007E0B_007E16_007E12_007E22_0260D6),
  (0x227259, 0x007E24_0260EA_007E20_007E13_007E1D_007E09_007E1F_007E14),
  (0x227262, 0x007E1C_004308_0260D9_007E15_007E1A),
  (0x227268, 0x004306_007E10_007E0F_007E27_0260C7_007E3B_007E3C_007E0C_007E42_007E34_007E2D_007E2F),
  (0x227274, 0x02615E_007E36_007E33_007E3A_026111_007E39_007E48_026102_02610D_007E44_007E2A),
  (0x227321, 0x007E35_00430E_007E38_02612C_007E40_007E3F_007E29_007E47_0042FC_009848_007E30_007E57),
  (0x22732D, 0x007E52_007E5C_007E51_007E60_007E58_007E63_007E50_007E67_007E4F_026170_007E56),
  (0x227339, 0x007E53_007E5F_02613F_007E62),
  (0x22733E, 0x007E64_007E59_004316_007E4E_02613C_026180_007E75_007E76_007E78_007E74_007E68_007E6E),
  (0x22734A, 0x007E6C_004320_00431C),
  (0x22734E, 0x007E70_02619B_007E77_007E6F_007E73_007E72_02617D_00431E_0261B2_004327_007E7B_007E7E),
  (0x22735A, 0x004325_007E81_007E80_007E8A_007E87),
  (0x227360, 0x007E88_007E8B),
  (0x227363, 0x0261CE_007E86_007E8D_004328_00432A_007E85),
  (0x22736A, 0x007E91_007E95_0261E7_007E94_0261EB_004334_007E9B_007E9A_007E97_007E99_007E98),
  (0x227377, 0x004343_004347_004344_007F3E_007F40_007F3F),
  (0x22737E, 0x00434C),
  (0x227421, 0x026238_007F41),
  (0x227424, 0x026246_007F43),
  (0x227427, 0x007F46_007F45_007F47),
  (0x22742B, 0x007F4B),
  (0x22742D, 0x007F4A_007F4C_007F4D_02625F_007F4E_007F4F_026262_00434E_007F51_02626C_004350_026279),
  (0x227439, 0x007F58_026282_004352_026283_007F5C_007F60_007F61_004353_007F5E),
  (0x227443, 0x007F5D_026294_007F5B_026293_007F63),
  (0x22744D, 0x00435A_007F64_0262BE_007F65_007F66_004359_007F6D_007F6B_007F67_007F6C_007F68_00435B),
  (0x227459, 0x0262C7_00435D_00435C),
  (0x22745D, 0x007F6F_007F71),
  (0x227460, 0x007F73),
  (0x227463, 0x007F76_004361),
  (0x227467, 0x007F7B_007F7C_007F7A_007F7F_007F7E_007F7D_026314),
  (0x22746F, 0x007F82_004364_007F83_007F86_02632C_007F87),
  (0x227476, 0x004366_007F89_02633E_007F8D_007F91_026355_007F99_007F93_007F96),
  (0x227521, 0x007F92),
  (0x227523, 0x007F97_007F95_004368_007F9C_00436A_007F9B_007F9D_007FA1_007FA0_007FA2),
  (0x22752E, 0x00436E_007FA6_007FA3_007FA5),
  (0x227533, 0x007FA7_004376_004374_004372_0263AB_007FAC),
  (0x22753A, 0x0263AC_007FB0_007FAD_004378_0263A6_007FB1_007FB4_00437B_007FB5_004373_0263CA_007FB3),
  (0x227546, 0x0263D1_007FB7_007FBA_007FBB_007FBC_00437D_007FBE_0263FA_026410_007FC4_00437F_007FC3),
  (0x227552, 0x026407_007FC0),
  (0x227555, 0x026408_007FC2_007FCA_007FCB_004381_004380_026417_007FCD_026418_007FC8_004383_007FD1),
  (0x227561, 0x007FD0_007FCF_004388_007FD7_007FDD_007FDC_007FDB_007FE3_004392_007FE5_007FE2_007FE6),
  (0x22756D, 0x007FE7_02645C_007FE5_007FE8_026461_007FEC_007FEB),
  (0x227575, 0x007FED_007FEA_007FEF_004395),
  (0x22757A, 0x007FEE_026472_026476_007FF4_007FF2),
  (0x227622, 0x004396_02648E_026491_007FF7_02649C_004398_007FF8_007FFD_007FFE_004399_007FFF),
  (0x22762E, 0x008004),
  (0x227630, 0x008007_008008),
  (0x227633, 0x00800B_00800E_008011_00800F_008014),
  (0x227639, 0x008016),
  (0x22763B, 0x00801F),
  (0x22763D, 0x00801E_00801D),
  (0x227640, 0x00801B_00801A_0264EF),
  (0x227644, 0x008020_0043A4_0264F4_008021_0043A7_008024_0043A8_008025_008026_00802A_008029_008028),
  (0x227650, 0x0043AE_00802B),
  (0x227653, 0x0043AF_026514_00802C),
  (0x227657, 0x0043AD_00802E),
  (0x22765A, 0x00802F_008030_0043B1_008031_008032_008034_008035_026533),
  (0x227663, 0x008037_00803E_00803B_026548_026543_02653C_008039_02654E_008041_0043B3_026551_026553),
  (0x22766F, 0x0043B6_008043_026552_008049),
  (0x227674, 0x008045),
  (0x227676, 0x008051),
  (0x227678, 0x008050_00804F),
  (0x22767B, 0x008052),
  (0x22767E, 0x008062),
  (0x227721, 0x00805D_026595),
  (0x227724, 0x0043BC_008065),
  (0x227727, 0x00805B_008063),
  (0x22772A, 0x008064_008067_0265B2_008066_0043C1_0043C3),
  (0x227731, 0x0043C2_00806C_00806D_0265D5_0265EC_0265F2_0265EA_0265E3_008075),
  (0x22773D, 0x008078_00807B_008079_02660D),
  (0x227743, 0x026610_026612_026614_008081_00808A),
  (0x227749, 0x00808E_00808D_00808F_0043CC),
  (0x22774E, 0x00809F_008095_008094_008099_008090_026634_008092_008097_00809C_026652),
  (0x227759, 0x0080AE_0043D9_0080A8_0043D3_0043D0_0043D4_0080AC_0080A7_0080B0_0080AD_0043DA_026648),
  (0x227766, 0x0080B3),
  (0x227768, 0x0080B8_0080B5_0080A6_008109_0080D8_0043DF_0080D2_0080E2_02666B_0043D6_0080D3_0080E0),
  (0x227775, 0x006711_026694_0080C8),
  (0x227779, 0x026671_0080C6_0080DF_02667C_0080C2_0080E6),
  (0x227821, 0x0080D0_02667F_0080DC_0080E3_0080C5_0080CA_0080D9),
  (0x227829, 0x0080D5_0080DD_0043D2_0080C9_0080CF),
  (0x22782F, 0x0080CD_0080D7),
  (0x227832, 0x0080F6_0080F2_0080FA_0080FC_0080C7_0266B5_0080FE_008100_0080F5_008104_008103_008107),
  (0x227840, 0x0080F9_0080EF_0080D4),
  (0x227844, 0x0266A7_008101_0080EE),
  (0x227848, 0x0080FB_00811D),
  (0x22784B, 0x008118_008119_00441A_0043F0_0043F3_008130_00811A_008125_008126_008124_00811B_008134),
  (0x227857, 0x0043F4),
  (0x22785B, 0x00812D_0266E5_00811F_00812C_00812E_00812A_00811E_008127_008122_008121),
  (0x227866, 0x008117_008115_0043FD_00813A_00815A),
  (0x22786C, 0x0043FC_008148_008156_0043FE_00813C_008152_004408_026715_00814A_00814F_026740_00814C),
  (0x227878, 0x008142),
  (0x22787A, 0x004406_008143_008153_008141_0043FF),
  (0x227921, 0x008147_00813D_008149_008120_00814D_008140),
  (0x227928, 0x008163),
  (0x22792A, 0x008164),
  (0x22792E, 0x006720_00816C_008175_00440F_008160_00815B_008177_004417_026762),
  (0x227938, 0x00815C_004411_004413_008169_00817C_00815D_008162),
  (0x227940, 0x008172_008161),
  (0x227943, 0x008168_006721_008144_008176_008174_008167),
  (0x22794A, 0x005E50_00816F),
  (0x22794D, 0x008182_008181),
  (0x227951, 0x00818B_008186),
  (0x227956, 0x02679A_00441C_00441D_008183_004423),
  (0x22795C, 0x02679B),
  (0x22795E, 0x00818E_008189_00815E_02679C_008187_008184_00818D_00818C_004425_004431_008194),
  (0x22796A, 0x00819F_0081A3_0267DC_008199_00819E),
  (0x227970, 0x008198),
  (0x227972, 0x004432_0267E0_0081A2_008195),
  (0x227977, 0x008197_008193),
  (0x22797A, 0x0081A7_0081B1_0081AA_0081A6_006725),
  (0x227A21, 0x00443C_026809),
  (0x227A24, 0x00441E_0081AE_0081B9_00443A_004436_02680E_0081AB),
  (0x227A2C, 0x0081B5_004437_0081B0_0081B4_0081AC),
  (0x227A32, 0x0081B2_0081B7),
  (0x227A35, 0x026804),
  (0x227A37, 0x0081BB_0081C1_0081CC_0081CA_0081C4_0081C5_0081C8),
  (0x227A3F, 0x0081C7_0081D1_0081CE_004443_0081D0_004444),
  (0x227A46, 0x0081D5_0081D7_0081D4_02688A),
  (0x227A4B, 0x0081DB_0081D9_0081D6_00444B_0081DD_00352E_00444E_00444F_0081DE),
  (0x227A55, 0x0081E1_0081E0_0081E2_0081E4),
  (0x227A5B, 0x0081E7_0081E9_0268FB_02690E_02690F_0081EF_0081EE),
  (0x227A63, 0x0081F1_026919_0081F2_0081F7_0081F8_0081F6_0081F9_02694A_02694E),
  (0x227A6D, 0x0081FD),
  (0x227A6F, 0x026958_008201_0081FF_008201_02696D_008203_008204),
  (0x227A77, 0x00820B),
  (0x227A7A, 0x004459_00445A_0269C8_008211_008215),
  (0x227B21, 0x008213_0269DF_0269E1_008216_008218_00821A_00821D),
  (0x227B29, 0x008220_026A09_008221),
  (0x227B2D, 0x004463_00822D_00822F_008227_008229_008238),
  (0x227B34, 0x00823A_008233_008234_004466_026A2E_026A22_008232),
  (0x227B3D, 0x00823C_00823F_026A34_00446C_008246_008248_008249_026A40_008244_004470_008240_008241),
  (0x227B49, 0x008242_008245_00824B_004474_004472_00824C_008251_00824F_008253_008252_00824E_008250),
  (0x227B55, 0x008255_008256_008257_00447D_00447C_026A87_00447F_004485),
  (0x227B5E, 0x00825A_00825C_00825B_004480_00825F_026A91_008265_00825E_008264_008262_008261_008263),
  (0x227B6A, 0x008269_008268_00826A_00826B_00826C_00826D_026AC8_008274_008275),
  (0x227B74, 0x00448C_008276_008277_008278_008279_026AF3_026AFD_00827C_026AFF_00827F_00827D),
  (0x227C21, 0x00827B_008280),
  (0x227C24, 0x00828E_008291_008290_00828F_008284_008285_008287_008293_008294_008283_00828A_0082A6),
  (0x227C30, 0x0082A0_0082AF_0082C0_0082C2_0082A7_00829B_0082B5_0082B8_0082AB_026B2C_0082B0_008298),
  (0x227C3C, 0x0082A4_0082BE_0044A5_00829A),
  (0x227C42, 0x0082A3_026B15_0082B7_0082AE_0082A9_0082C5_00829E_0082BC),
  (0x227C4B, 0x026B30_0082A8_0082B6_0082B4_0082BA_0082A1_0082A2_0044A2_0082AA_0082BF_0082D9_026B54),
  (0x227C57, 0x0082FE_0082F9),
  (0x227C5A, 0x0082E0_0082D0_008300_0082E8),
  (0x227C5F, 0x0082EA_0082F7_026B38_0082EF_00833A_0082E4_0082D5),
  (0x227C67, 0x008307_0082FA_0082F4_0082E2),
  (0x227C6C, 0x0082D6_0082D2_008314_026B3A_0082EC_0082EB_0082D8_0082E1_0044A6_0082F6_0082F8_0044A8),
  (0x227C78, 0x0082F5_0044A9_026B58_008310_0082F3_0082ED_026B50),
  (0x227D21, 0x00830C_0082FB_008306_0082FD_0082EE_008333_008321_00834C_008328_00832D_008344_0044BE),
  (0x227D2D, 0x008353_008351),
  (0x227D31, 0x008319_00834E_0044B0_00831F_00831B_008341_008325_00831E),
  (0x227D3A, 0x008326_008356_00831C_00833F_008342_008322_00832C_00834B_008362_00832A_008330_008308),
  (0x227D46, 0x0044BC_008327_00833C),
  (0x227D4A, 0x00834D_00833B_0044B2_008343_008345_026BB3_0044B9_026BB4_00832F_008348_008312_026BAA),
  (0x227D56, 0x008316_0044B7_00831A_0044B8),
  (0x227D5B, 0x008320_008337_008329_026B95_008347),
  (0x227D61, 0x008390_0083A8_0083A3),
  (0x227D66, 0x026BC8_0083AD_026C21_026BBC_0044CA),
  (0x227D6C, 0x00838D_008373_008397_026CB6_008386),
  (0x227D72, 0x0083B0),
  (0x227D74, 0x0083A4_026BCD_00831D_0044C9_008374),
  (0x227D7A, 0x00838F_00837A_008395_008381_008375),
  (0x227E21, 0x00837F_008399_0083A6_008372_008387_0083B9_008382_008376_008379_008394_0083A9_00837D),
  (0x227E2D, 0x00839D_00837E_00839B),
  (0x227E31, 0x00838B),
  (0x227E33, 0x0083AA_008391),
  (0x227E36, 0x008385_00839C_00839F),
  (0x227E3A, 0x008383_0044C8_00838C_0044C4_026CB7),
  (0x227E40, 0x026C2B_0083CF_0083EC_0083F9_0083ED_008421_0044DC),
  (0x227E48, 0x0083E4_0083E8_026C40_008412_0083EE),
  (0x227E4E, 0x0083E7),
  (0x227E50, 0x008417_008423_0083EA_008413_0083C0),
  (0x227E56, 0x0083FC_0083F6_0083D0_008410_0083E1),
  (0x227E5C, 0x0083E3_0083FF_0083C8),
  (0x227E60, 0x0083C6_008407_008414_0083EB_026C96_0083DD_0083C4_0044E3_026C41_0083D7_0083BF_0083E2),
  (0x227E6C, 0x0044DB_008401_0083FB_0083DA),
  (0x227E71, 0x0083D8_0083E5_026C4F_008418_0044EB_0083BE_0083F5_00841B_0083CE_0083CB_0083D3_0083D2),
  (0x227E7D, 0x0083D6_008408),
  (0x232221, 0x0044E2_0083DB_0083FD_0044EA_00841E_026C4A_008420_0083D4_0083C9_0083DF_0083AC_00841F),
  (0x23222D, 0x008402_00840F_0083FE_008411_026CAA_008416),
  (0x232235, 0x008406_00839A_0083C2_008409),
  (0x23223A, 0x026C44_0083CD_0083F3_0044DE_0083C7_0083FA_026C9D_0083D5),
  (0x232243, 0x0083D1),
  (0x232246, 0x0084F1_00844F_008453_00843F_00848E_00843B_008439_008476_008479_008456_00848D_008441),
  (0x232252, 0x008465),
  (0x232254, 0x008447_008507_026D3B_008436_0044EF_00845E),
  (0x23225B, 0x00844D_008451_0044F6_008486_00847D_008440_008430_00845A_008467),
  (0x232265, 0x026D11_008459),
  (0x232268, 0x008474_008473_008433_026D40_0044F4_008462_00843E_00845D_008437_00846D_008434_026CDD),
  (0x232274, 0x026D48_00843A_026CDA_026CC8_00847A),
  (0x23227A, 0x0044FB_008484_008478_008468_00848F),
  (0x232321, 0x026CCA),
  (0x232323, 0x026CE9_008432_008448_008444_00844B_0083D9_00845C_00847B_00842F_00846A_00842A_008429),
  (0x23232F, 0x00842B),
  (0x232332, 0x008471_026D29_0044F2_00845F_008460_00846E_0084A5_00842D_008446_008470_008452_008464),
  (0x23233E, 0x00846F_00844A_00842E_008450_0044F8_00844C_008455_00844E_00847C_008445_008458_008497),
  (0x23234A, 0x026DB6_0044FE_026DF0_0084A4_026D69_026DA9_0084A1_004502_026D6F_00849F_0084E2_0084D1),
  (0x232356, 0x0084BA_0084CE_0084B9),
  (0x23235A, 0x0084AB_0084E4_0084B4_0084BE_0084C1_0084BB),
  (0x232363, 0x0084A7_0084D2_0084AA_026D78_026D87_0084CD_00849A),
  (0x23236B, 0x0084A2_026D85_0084D5),
  (0x23236F, 0x026D90_0084B1_00849D_0084D0_026DBF),
  (0x232375, 0x008494),
  (0x232377, 0x0084B7),
  (0x232379, 0x0084C7_0084BD_026D75_0084C2),
  (0x23237E, 0x004507),
  (0x232421, 0x008495_0084AC),
  (0x232424, 0x0084B5_0084CC_026E6E_0084AF_026DC2_0084AD_0084A9_008442),
  (0x23242D, 0x0084A6_0084A0_00450C_008492),
  (0x232432, 0x0084A8_0084D6),
  (0x232435, 0x0084DA_026D67_026D86_0084B3_0084B6_008493_0084B0_008491_026DA5_008498_0084CF_0084A3),
  (0x232441, 0x0084CA_026DC8),
  (0x232444, 0x026E02_008533_008506_00850B_008522_026E4F_00850A_008529_008501_008500_00850F_0084AE),
  (0x232450, 0x00850E_008509_026E50_008534_0084ED_026E23_00850D_008510_008519_00851F_0084D8_008524),
  (0x23245C, 0x00853B_00451E_0084E9_0084EA_008544_008527_00851C_008512_008503_0084FB_0084F4),
  (0x232468, 0x004529_00852A_00850C_00452B_00852B_008508_0084F8_0084FA_026E00_0084F2_00852F_0084F3),
  (0x232475, 0x008515_026E54_0084F7_00451A),
  (0x23247A, 0x0084FC_026E1A_0084EB_0084FD_00452C),
  (0x232521, 0x00851D_008528),
  (0x232524, 0x00851E_008502_008516_0084F6_0084FE_004511_008518_00451F_00851B_008526_008507_0084E7),
  (0x232530, 0x0084E8_008531_008520),
  (0x232534, 0x0084F0_0084EF_008556_008545),
  (0x232539, 0x00854D),
  (0x23253B, 0x00453F_00856B_026EA6_026ED0),
  (0x232540, 0x00453D_026E8D_004530_00452D_00855C_004541_008541_008554),
  (0x232549, 0x00452E_004537_008558_026EF1_008553_008561_008540_00452F),
  (0x232553, 0x008565_026E96_026E92_00453A_004536),
  (0x232559, 0x004538_008546),
  (0x23255C, 0x008564_00855E_008573_008551_026E8A_00855A_008547),
  (0x232564, 0x008562_00854B),
  (0x232567, 0x008552),
  (0x232569, 0x026F16),
  (0x23256B, 0x008563_00848D_008542_00855B_00853E),
  (0x232571, 0x00854E),
  (0x232573, 0x00856E_008555),
  (0x232576, 0x00855D_00858C_00856C),
  (0x23257A, 0x008560),
  (0x23257C, 0x008567_008566_004532),
  (0x232621, 0x008583),
  (0x232624, 0x008593_008580),
  (0x232628, 0x00858F_0085A7_008595_0085A6_004547_008579),
  (0x232630, 0x00858B_0085A0_00857F_008577_008578_008598_00857B_00857C_026F37),
  (0x23263A, 0x026F2A_026F9F_00859A_0085A4_00859E_0085A1),
  (0x232641, 0x0087C7_00857A_026F88_008597_008557),
  (0x232647, 0x008596_008589_0085A8_00858E),
  (0x23264C, 0x026F2B_00858D_008586_008582_008599_00858A_0085A2_00859D_008590_008581_008585_008588),
  (0x232658, 0x00859F_004545_0085B8_0085BB),
  (0x23265D, 0x0085C1_0085C3),
  (0x232661, 0x0085BA_0085C6_0085B2_0085B4_0085CC_004553),
  (0x232668, 0x0085CE_0085B5_0085C2_0085B7_0085B9),
  (0x23266E, 0x0085B3_0085BD_0085C4),
  (0x232672, 0x0085BF_00455C_0085CB_0085BE_026FD0_00455E_0085C8_027004_026FCF),
  (0x23267C, 0x0085C5_0085B1_0085B6),
  (0x232722, 0x0085D2_0085CA_008624_0085C7_0085EB_0085D9_0085F7_004560_0085E8),
  (0x23272C, 0x0085E6),
  (0x23272E, 0x0085D4_0085DB),
  (0x232731, 0x0085ED),
  (0x232733, 0x0085EC_02705E_0085D6_0085D7_0085EF),
  (0x232739, 0x0085DA),
  (0x23273B, 0x004562_0085DE_02702B_0085F8),
  (0x232740, 0x026FDD),
  (0x232742, 0x004561_0085DF_027041_0085D8_027034_0085E3),
  (0x23274A, 0x0085D1_027026_0085DC_0085F0_0085F5_0085E2_00456A_0085FD_008622),
  (0x232754, 0x008610_004566_004572_0085FC_008602_027092_008601_0085FF_00456D_00456C_0085FE_008614),
  (0x232760, 0x008600),
  (0x232762, 0x0085EE_0270BC_004569_0085F6_004567_0270B2_008604_008603_008609_027087),
  (0x23276E, 0x008608_027090_0270C3_008605_008618_00862A_0270FD_00862B_008626_00861B_0270FF_008623),
  (0x23277A, 0x00861C),
  (0x23277C, 0x008619_0270DD_008621),
  (0x232822, 0x008627_00862E_008620_008628_008629),
  (0x232828, 0x008616_008625_00861E_00861D_0270F8_00860C),
  (0x23282F, 0x004579_008634_008633_008637_004578_00457A),
  (0x232836, 0x008632_02710E_008636_00862C_027115),
  (0x23283C, 0x008631_027136_00863C_008640_00863A_00863E_00863B_00457B_00457C),
  (0x232846, 0x00863D_008639_008643),
  (0x23284A, 0x00457E),
  (0x23284C, 0x008645_008649_008647_008646_008648_004582_027187),
  (0x232854, 0x027190_004586_00864C_00864B_027193_00864D_008653_00458C_008652_00458A_008659_008658),
  (0x232860, 0x0271A6_008656_008653_004591_00865D_004592_008661_0096D0_0271C4_008662_008663_0271E0),
  (0x23286C, 0x008665_008664_004598_008668_0271FF_008669_027205_027211_02721A_00459C_00866A_02721C),
  (0x232878, 0x00866C_008670_02721F_008672_00866F_00866E_00867B),
  (0x232921, 0x008677_00867E_008678_008675_00867A_008673_00867C_008674_008684_0086A2_008689_0086B2),
  (0x23292D, 0x00869F_008696_0086A8_008697_008695_008687_0045A1_008686_02725D_008691_00869C_00869E),
  (0x232939, 0x008698_008685_00868E_00868D_00868B_0045A2_008692_0086A6_008690_00869D),
  (0x232944, 0x008694_00869A_0086A0_0086A1_0086A7),
  (0x23294B, 0x0086BF),
  (0x23294D, 0x0086B7_0086C3_0086BB_0086BE_0086CF_0086BD_0086C1),
  (0x232955, 0x02726A_0086C2_0045A7_0086BA_0086B0_0086C5_0045A6_0086C8_0086BC_0086B9_0086AE_0086B3),
  (0x232961, 0x02725F_0086C9_0086B4_0086B8_0086CC_0045B3_0086D8_0045AD_0086E2_0086EA_0086E6_0086DD),
  (0x23296D, 0x0045AF_0086E3_0086E9_0086D3_0086EC_0086DA_0086E8_0086D5_0086E1_0045B5_0086D0_02729D),
  (0x232979, 0x0086E7_0086D1_0045B4_0086E5_0086EB_0086DE),
  (0x232A21, 0x0272EE_0086D2_0086D7_0086DC_00870B_0272D8_00874D_0086F7_0086FC_008705_00870C_008710),
  (0x232A2D, 0x0272D2_008D68_0086FA_008704_0086D6_0086F5_0086F8_008706_0272E5_00870E_008746_008709),
  (0x232A39, 0x0086F6_00870A_00870F_0045BA_0086FF_00870D),
  (0x232A40, 0x008733),
  (0x232A42, 0x00874A_008723_008737_008728_027308_00872F_00872C_008740_0045C5_00872E_00873D_008741),
  (0x232A4E, 0x00871E_008721_008719_008724_0045C3_008743),
  (0x232A55, 0x008744_00872B_00873E_008747_008729_008739_008720_027333_008730),
  (0x232A5F, 0x00871A_008732_00872D_00873C_00873A_008731_008711_008712_008742_027392_008727_008726),
  (0x232A6B, 0x00874F_008771_008763_0045D0_008756),
  (0x232A71, 0x008764_00875A_008765_00877D_008773_008772_008754_008751_008758_00875B_00877B_008762),
  (0x232A7D, 0x00875C_008752),
  (0x232B21, 0x008761_0045D1_02F9BC_00876A_008750_02736A_00874E_00875F),
  (0x232B2B, 0x027356_027358_00876F_00875D_008769_00876E_027390_027393_00874D_00877A_008753_027362),
  (0x232B37, 0x008797_00879B_00878A_0087A3_0087A0_008781_008793_02736B_0273B3_0273B0_0045DA_0087D7),
  (0x232B43, 0x00879C_0045D8_008799_0273AE_008792_008788_008796_008779_008786_008798_0273E2_0273BE),
  (0x232B4F, 0x008787_00879A_0045D7_0045DC_008785_00878B_008784_00879D_008795_0087A9_0087A5_00878C),
  (0x232B5B, 0x0273A5_008794_008789_0273F8_0087AA_0087AD_0045E7_0045E4_0087C5_0087B0_0087B7_0087BE),
  (0x232B67, 0x0087B2_0087CA_027410_0087B1_0087C1_027407),
  (0x232B6E, 0x0087C4_0087AF_0087B9_0087B6_0087AC_0087B5),
  (0x232B75, 0x0087BC_0087B4_0273FE_0087AE_027425_0087C9_0045E9_0273FF_0087C3_0087BF),
  (0x232C22, 0x027429_0087B8_0087BD),
  (0x232C26, 0x0087C2_0087CC_0045E5_0087DD_0087D9_027457_0087EE_027479_0087E7_027450_0087F3_0087F0),
  (0x232C33, 0x0087FD_0087EA_0087DA_0087DB_0087E2_027445_0087EB_0087D6_0087F4_0087E5_0087E8_0087E9),
  (0x232C3F, 0x0087F5_0087DF_0087D4),
  (0x232C43, 0x02744D_00880E_02744E_0087E1_0087E0_0087D3_0087DC_0087ED_0087D8_0087E3_008801_0087FA),
  (0x232C4F, 0x008803_00880A_0087FF_027494_0274BD_0087E6_0087F6_02748F_0087F7_027496_0087D5_00880C),
  (0x232C5B, 0x008809_00880B_008806_0087FC_0087FE_0274B8_008810_0045FF_008819_008811_008812_008818),
  (0x232C67, 0x004601_008817),
  (0x232C6A, 0x008813_008816_0045F9_004600_0274DD_0045FD),
  (0x232C72, 0x008834_00881C_008820_0274FD_004603_00881D_0274FF_00881A_00881B),
  (0x232C7C, 0x00882A_008829_008827),
  (0x232D21, 0x02751E_008826_008828_008825_00882B_004605_008830_00882F_027544_008832),
  (0x232D2C, 0x027548_027545_00882E_008833_02754F_00460B_00882D),
  (0x232D34, 0x02756A_008837_027566_02755B_008838_008835_02756F_027572_00883C_027580_00883E_00883D),
  (0x232D41, 0x008841_008842),
  (0x232D44, 0x008844_008843_008845),
  (0x232D48, 0x008848_008849_008846_008847_004613),
  (0x232D4F, 0x0275C7),
  (0x232D51, 0x00884A_00884B_00884E_0275E4_004615_008852_008850),
  (0x232D59, 0x008856_008855),
  (0x232D5C, 0x0275F4_0275F8_00885C_00885A),
  (0x232D61, 0x008860_027602_027608_008865),
  (0x232D66, 0x008866_02761A_00886A_008869_027618),
  (0x232D6C, 0x027628_00886D_00887A_004620_008887_008875_008876_027632_008874_008872_008880_00887B),
  (0x232D78, 0x008871_00887D),
  (0x232D7B, 0x008884_008879_00887F_00887E),
  (0x232E21, 0x02763B_00886F_00886E_008873_008878),
  (0x232E27, 0x0088A8_0088A2_004622_0088A4_00889C_027643_008894_02763F_0088AA_0088A3_00888F_0088A5),
  (0x232E33, 0x008891_00889A_008893_0088A1_0088A9_008898_0088A7_008890_00888C_00889F_0088A0_027653),
  (0x232E40, 0x008899_00889B_00888A_00888E_02763D_008897_004628_00462A_0088C9_0088BF_0088BA_0088D7),
  (0x232E4C, 0x0088B9_0088B8_0088B4_0088C0_0088B3_0088B2_0088BE_004629_0088BC),
  (0x232E57, 0x0088B7),
  (0x232E59, 0x0088BD_0088C4_0088DE_0088D3),
  (0x232E5E, 0x0088CB_0088DA_0088CC_0088CF_0088DB),
  (0x232E64, 0x0088CE),
  (0x232E67, 0x02768B_0088D2_0088CA_004630_004639_004638_00463C_0088F7_0088E7_0276A8_0088F1_0088FE),
  (0x232E73, 0x00463F_004636_0088F2_0088EC_0276BF_008900_004641_0088F0_0088FA_0276CD_004637_0088EE),
  (0x232F21, 0x0088FC_0088FB_0088EF_008903_0088F6_0088EA_0088E6),
  (0x232F29, 0x00463D_004633_008905),
  (0x232F2D, 0x008909_0276D4_008918_008914_008917_0276DE_00890B_004643_008906_00890C_008919),
  (0x232F39, 0x00890D_0276BB_008911_008916_00890A_008908_004648_00890F_008943_00890E_008915),
  (0x232F45, 0x00892F_004652_008930_027705_008923_00892E_008920_004650_008924_008921_008927_00892D),
  (0x232F51, 0x00891F_027700_008931_00891E_00464E_008926_008922_004655_008952_008935_027770_008940),
  (0x232F5D, 0x008941_00893D_00893A_008933_00893F_00893E_00893C_008939_004654_008954_004658),
  (0x232F69, 0x027740_008942_027723_008937_027750_004662_00894F_027743_008951_008947_008949_008948),
  (0x232F75, 0x008953_00894B_027752_02774D_00465F_00894C_008946_027749_02778A_008950),
  (0x233021, 0x00894D_02775E_008962_00895A_00895E_027785),
  (0x233028, 0x027788_00895B_008957_008961_00895C_00895D_008958),
  (0x233031, 0x008966_008967),
  (0x233034, 0x008963_008965_0277AB_00896D_008969_0277B5_00896B_00896E_00896C_008971_008970_00466B),
  (0x233040, 0x0277B6_008976_008974_00466C_008973_0277C7_008975_004670_008979_00897B_00897C_00897A),
  (0x23304C, 0x004671_00897E),
  (0x233050, 0x008982),
  (0x233052, 0x004675_008984),
  (0x233055, 0x008985),
  (0x233057, 0x0277F5_008987_008988),
  (0x23305C, 0x008989_00898A_02780A_008994_027817_008992_008991_008995_008997_027820_008998_00467B),
  (0x233069, 0x02782F),
  (0x23306B, 0x00899C_00899B_00899D_00899F_0089A1_00899E),
  (0x233072, 0x0089A2_004685_02784B_0089A4_0089A5_0089A3_02784E_0089A9_02786A_027868_027869_0089AF),
  (0x23307E, 0x00468B),
  (0x233122, 0x0089AD_027879_00468D),
  (0x233126, 0x027884_027883_0089B0_02788A_0089B8_0089B7_0089B6),
  (0x23312E, 0x0089B9_0089BC_02789E_004694_0089BF_02789C_0278A2_0278A6_004695_0089D4_0089D3),
  (0x23313A, 0x0089D6_0089D5_004697_0089DB_0089DD_0089DA_0089E7_0089DF_004699_0089E5_0089E6_0089DC),
  (0x233146, 0x00469A_0089E1_0089E0),
  (0x23314A, 0x0089E4_0089EA_0089E9_0089EB_0089E8_00469D_0089F0),
  (0x233152, 0x00469E_0089ED),
  (0x233155, 0x0089EE),
  (0x233157, 0x0089EC_0089F1_0046A1_0046A2_0046A3_0089F3_0046A6_0089F5_0046A5_0089F6_0046A9_0046A8),
  (0x233163, 0x02793C_0089F7_0046AB_0089FA_0089FC_0089FB_0089FD_0089FE_0089FF_008A06_008A07_008A04),
  (0x23316F, 0x0046AE_008A0F_008A11_008A12_008A0D_008A0B_008A20),
  (0x233177, 0x008A2E_0046B9_008A30_008A27),
  (0x23317C, 0x0046C1_008A29_008A2C),
  (0x233222, 0x0046B4_008A1E_008A2B_008A22_0046B7_008A51_008A4A_0046CE_008A4E_008A36_008A53_008A4C),
  (0x23322E, 0x008A39),
  (0x233230, 0x008A56_008A5A_0046C6_0279A6_0046CA_008A4B_008A47_008A57_008A40_008A48_008A35_008A58),
  (0x23323C, 0x008A52_0046C4_0279A7_008A44_008A3D_008A42_008A45_008A4F_008A49_02799D),
  (0x233247, 0x0279E2_008A68_008A76_008A78_008A6A_008A7D_008A80_0279D2_008A7F_008A86_0046D7),
  (0x233253, 0x008A88_008A74_0046D4_008A61_008A77_008A3E_008A82_008A67_008A7A_008A83_008A84_008A75),
  (0x23325F, 0x008A7E_008A7B_008A6F_008A65),
  (0x233265, 0x008A64),
  (0x233268, 0x008AA9_008A8F_027A11_008A8B_008AA7_008A8E_0279FA_008A96_008A99_008A9A_027A24),
  (0x233274, 0x008A92),
  (0x233276, 0x008A97_008A90_027A16_0279F9_0279FB_0046E5_008A9F_008AB4_008AB6),
  (0x233321, 0x008ABE_008AB8),
  (0x233324, 0x008AD8_008ACF_0046E9_008AC6_008AC5_008ACE_008AC3_008ABA_008AD1_008AD3_0046F3_008AB7),
  (0x233331, 0x008AAF_027A4E_008AD4_008AD5_008ABB_008ACD_008ACA_008AB9_0046EC_008ABD_008ADB),
  (0x23333D, 0x008AC0_008AD9_008AD0_008AD7),
  (0x233343, 0x008AE0_008AF3_008AE2_027A67_027A88_008AEE_008B4C),
  (0x23334B, 0x008AF2_008ADD_008AFD_008AF6_008AF4_008AF5),
  (0x233352, 0x008AFF_008ADF_008AF9_008AE3_008B03_008AE4_008AF0_008B14_0046FA),
  (0x23335C, 0x008AEF_008AFC_008AC8_027A6A_008AFB),
  (0x233362, 0x008ADE_008AE1_008B07),
  (0x233366, 0x008B1E_027AA0_008B1A_008B0D_008B18_008B0C_0046FF),
  (0x23336E, 0x027AA1_008B1C_008B13_008B08),
  (0x233373, 0x008B16),
  (0x233375, 0x008B38_008B1F_008B11_008B0B_008B06_008B05_008B22_008B0F_008B10_008B15),
  (0x233421, 0x027AF1_008B2B),
  (0x233424, 0x027AE2_008B36_008B27_008B2A_008B2E_008B3D_008B37_008B3A_008B30_008B26_008B23_008B24),
  (0x233430, 0x008B33),
  (0x233432, 0x027AE6_004709_027ADA_008B35),
  (0x233437, 0x008B31_008B3E_008B3C_008B29_004705_027AF6_008B2F_008B32_008B3B_008B25),
  (0x233442, 0x008B48_008B44_008B54_027B05_004704_008B5B_008B53_008B4A_008B46_008B40),
  (0x23344D, 0x008B56_027B0A_008B3F_004710_008B47_00470B),
  (0x233454, 0x00470F_008B52_008B57_008B55_008B51_008B59_00470C),
  (0x23345C, 0x008B69_008B60_008B67_008B4D),
  (0x233461, 0x008B61_027B2E_004715_008B5D_008B5F_008B68_008B5E_008B6B_008B65_008B64_008B6D_004712),
  (0x23346D, 0x008B63_008B76),
  (0x233470, 0x008B78_008B73_008B7A_008B45_008B7B_008B75_027B53),
  (0x233478, 0x008B85_008B81),
  (0x23347B, 0x008B7E_008B7F_008B83_008B84),
  (0x233522, 0x008B82_008B8B_008B8C_027B71_008B87_008B89_027B79_008B90_008B8E_008B86),
  (0x23352D, 0x008B95_008B94_008B91_008B98_008B99),
  (0x233533, 0x008B97_027B93_008B9B),
  (0x233537, 0x008B9C_008B9D_008B9E_008B9F),
  (0x23353C, 0x008C38_008C3A_008C39_027BAF_008C3B_008C3C_008C3D_008C3E_008C40_008C42_004731_008C43),
  (0x233548, 0x008C44_004732_008C45_008C47_008C4A_008C4B_004736_00473A_008C4F_004744_008C55_008C56),
  (0x233554, 0x008C57_008C5C_008C5D_008C5B_008C60_008C5E_008C65_008C64_0086C3_027C41_008C66_027C3F),
  (0x233560, 0x027C4F_008C67_008C69_008C68_00474B_008C6D),
  (0x233568, 0x027C6C_008C70_008C72_027C74_008C71_008C73_008C6F_008C74_00474F_008C75_027C82_008C77),
  (0x233574, 0x008C76_027C87_004752_027C8C_004753),
  (0x23357A, 0x027C9D_008C78),
  (0x23357D, 0x008C7B),
  (0x233621, 0x005F56_004758_008C7D_008C81_008C7E_027CB1_008C80_008C83_008C84_008C86_027CC5_02F9D3),
  (0x23362D, 0x008C85_008C88_027CDF_008C8E_008C8F_00475F_008C91_008C92_008C90_027CFA_00475E_008C95),
  (0x233639, 0x008C94_027D04_008C99_008C98_008C97_008C9A_027D16),
  (0x233641, 0x008C9B_008C9C_008C9F_008CA4_008CA3),
  (0x233648, 0x004767_027D46),
  (0x23364B, 0x008CAD),
  (0x23364D, 0x00476A_008CB0_027D53_008CB1_008CBA_008CB5_008CB9_008CBE),
  (0x233656, 0x008CC7_008CCD_008CCC_008CC6),
  (0x23365B, 0x004771),
  (0x23365D, 0x008CC9_008CD8_008CD5_027D8A_003562_008CCF_008CD7_008CD6_008CD0),
  (0x233667, 0x008CE8_008CE9_008CE5_008CE1_008CE7_00477C_008CDB),
  (0x23366F, 0x008CEB_008CDA),
  (0x233672, 0x008CDD_008CDF_008CD9_004777_008CEE_008CF0_008CF3_004781),
  (0x23367B, 0x008CF1_008CF5_008CF8_008CFB),
  (0x233721, 0x008CF7),
  (0x233723, 0x008CF6),
  (0x233725, 0x008D04_008CFE_008D00_027E0D_008D03_008D02_008D07_004788_008D09_027DFF_008D06_027E03),
  (0x233731, 0x027E0F_008D0C_027E16_027E21_004789_008D0E_027E22_027E18_008D11_008D10_008D12_027E29),
  (0x23373D, 0x008D14_008D18_008D15_00478B_008D19),
  (0x233743, 0x027E5E_008D69_004793),
  (0x233747, 0x008D6E_008D6C_008D6F_027E72_027E73_008D72_027E8A),
  (0x23374F, 0x027E8C_008D76_004797_008D78_004798),
  (0x233756, 0x027EAB_008D7D_027EAA_00479A),
  (0x23375B, 0x008D7B_008D7A_008D79_008D7E_008D7C_008D87_008D84),
  (0x233763, 0x008D89_027ECA_008D82),
  (0x233767, 0x00479F_008D80_008D86_027ECB_027EC0_027ED3_008D91_008D8C),
  (0x233770, 0x0047AA_008D94_0047A5_008D90),
  (0x233775, 0x008D8D_008D8E_0047A6_008D92_027EE5_027EF9),
  (0x23377C, 0x008D9A_0047B0_027EF2),
  (0x233821, 0x008D97_008D96),
  (0x233824, 0x0047AD_0047B3_027F0F_008D9E_027F10_008DA0_027F17),
  (0x23382C, 0x008DA2_008D9C_0047B4_008DA1_008D9B),
  (0x233832, 0x008DA5_008DA6_027F2A),
  (0x233836, 0x027F38_008DA7_027F28_027F3D_027F3C_027F37_0047BF),
  (0x23383E, 0x0047BD_027F59_027F4D_027F5B_027F50_027F4E_027F52_027F5C_0047BE_027F6F_027F64_0047C2),
  (0x23384A, 0x008DA9_0047C3_027F6A),
  (0x23384E, 0x027F7B_008DAC_008DAA_027F78_008DAB_008DAD_0047C7_027F8D_008DAE_027F8E_0047C9_008DAF),
  (0x23385A, 0x008DB0_027FA9_027F9A_027FA3_0047CD_0047CF_027FA8_027FAF_0047D1_027FB0_027FB1_0047D2),
  (0x233866, 0x008DB2_027FB5_0047D4_008DB6_008DB5_008DB7_027FD0_008DBD_008DBC_008DBA_008DB9_008DC2),
  (0x233872, 0x008DC1_008DBF_008DC3_0047D7_008DBB),
  (0x233878, 0x0047E4_008DD3_027FF3_008DD2_008DCD_008DC7_0047E0),
  (0x233921, 0x008DCF_008DD6_0047EB_027FF9_008DD9_008DD5_008DD0_008DD4_008DD7_008DC9_008DC5_008DC8),
  (0x23392D, 0x0047E1),
  (0x23392F, 0x008DE4_008DF0_0047F3_008DE0_008DF1_008DEC_008DEB_008DF4_008DEE_008DE9_008DE2_008DE6),
  (0x23393B, 0x008DE3_008DED_008DE7_008DF2_008E09_008E0A_008DFD_008E02),
  (0x233944, 0x008DFF_0047F7_008E05_028042_0047F4_008E01_008E03_0047FA_008E00_028049_008E04_0047F8),
  (0x233950, 0x008E06_008DFE_008E2A_008E20_008E23_008E25_008E24_008E2E_008E21_008E15),
  (0x23395C, 0x008E1E_004807_004806_008E37_008E1B_008E1C_004803_008E11_008E16_0047FE_008E26_008E27),
  (0x233968, 0x008E14_008E18_00480A),
  (0x23396C, 0x008E12_00480B_008E1A_008E41_0280AB_0280A3_008E33_00480D_008E3E),
  (0x233976, 0x008E38_008E40_008E45_008E36_008E3C),
  (0x23397C, 0x008E43_008E3F_008E3D),
  (0x233A21, 0x008E30_008E32_00481A_008E47),
  (0x233A26, 0x008E46_008E4D_0280E8_008E4E_0280D6),
  (0x233A2C, 0x00481B_004818_008E4C_008E53_008E50_0280DF_008E4F_0280DD_008E5C_008E62_008E60_008E56),
  (0x233A38, 0x008E5F_008E65_008E54_008E67_008E5B_004820_008E5A_008E5E_008E55_008E61),
  (0x233A43, 0x008E5D_008E75_008E74_008E95_008E78_008E6D),
  (0x233A4A, 0x028154_008E69_008E6A_008E6F_008E73_008E7B_008E77_008E79_008E83_008E84_008E86_008E8C),
  (0x233A56, 0x008E88_008E8B_00482B_0281AA_008E8E_0281AF_00482A_008E94_008E9A_008E92_008E93_008E97),
  (0x233A62, 0x008E90_008E98_008E9E_008E9F_008E9D_008EA0),
  (0x233A69, 0x0281E4_00482F_008EA5_008EA3_008EA4_0281EF_008EA7_008EA6_008EA9_008E99_008EA8_008EAD),
  (0x233A76, 0x004837_02824E_008EB3_00483B_008EBC_008EB8),
  (0x233A7D, 0x008EB6_008EB9),
  (0x233B21, 0x028263),
  (0x233B23, 0x02826B_028268),
  (0x233B26, 0x028272_02827B_008EC2_008EC3_028284_028283_008EC6),
  (0x233B2E, 0x008EC9_008ECF_008ED1_008ECE_008ED3_008ED5_004845_008ED8_008EDC_008EE0_00484A_008EDD),
  (0x233B3A, 0x004850_008EF4),
  (0x233B3D, 0x0282D1_008EF2_008EFA_008EEF_008EF7_008EF9_008EEE),
  (0x233B45, 0x008EEC_008EE9_008EE4_008EE5_008EF5_008EE7_008EE8_008EEA_008EF6_008EF1_008EEB_008F06),
  (0x233B51, 0x008EFF_0282EC_008F02_004857_008F01_008F00_008F04_008F0B_008F05_008F08_008F07_004853),
  (0x233B5D, 0x008F10_008F11_008F0D_004858_008F28_00485D_008F27_008F2C_028325_008F24_008F19_008F18),
  (0x233B69, 0x008F1A_008F22_008F1E_00485E_008F25_008F20_008F2B_008F23_008F16_02833D_02833E_008F21),
  (0x233B75, 0x008F17_02833A_02834F_008F36_008F2E_008F33_02834C_008F31_008F2D_004863),
  (0x233C21, 0x008F30_008F35_004860_008F32_008F37_008F39_008F34_028348_028376_008F43),
  (0x233C2C, 0x004869_008F40_004866),
  (0x233C30, 0x008F46_008F4A_004870_008F47_00486C_028393),
  (0x233C37, 0x00486F_00486E_008F48_004874_008F4F),
  (0x233C3D, 0x008F52_0283A9_008F51_004872_008F50_008F53),
  (0x233C44, 0x008F59_004876_0283BF_008F5A_008F56_008F57),
  (0x233C4B, 0x008F55_008F58_008F5C_008F5E_004877_008F5B_0283C8_0283C9_008F5D_0283D4_0283D2_008F60),
  (0x233C57, 0x008F62_0283E0_008F63_008F64_004868_00487C_0283F3_00487E_008F65),
  (0x233C61, 0x008F9D_008FA0_008FA1_004883_008FA4_008FA5_02842A_008FAA),
  (0x233C6A, 0x008FB4_02844A_008FB5_008FB7_008FBB_008FB8_008FBC_008FC1_028459_008FBE_008FBF_008FD2),
  (0x233C77, 0x008FCB),
  (0x233C79, 0x008FDC_008FCA_008FD3_028464_008FCD_008FCF),
  (0x233D21, 0x008FDA_008FD5_028465),
  (0x233D26, 0x008FF1),
  (0x233D28, 0x008FE3),
  (0x233D2A, 0x02848B_028485_008FE0_008FE8_008FEF_008FE4_008FEE_008FE9_028495),
  (0x233D34, 0x004891_008FF9_004892_008FF8),
  (0x233D39, 0x008FFC_008FFE_008FF5_008FFB_008FFF_009002_009004_009008_004894_009024),
  (0x233D44, 0x009011_00900B_00901C_004899_00900C_009021_00902D),
  (0x233D4D, 0x009033),
  (0x233D4F, 0x00489C_028510_0083E6_00902A_00902B_009029),
  (0x233D56, 0x009037_009034_00902F_009036),
  (0x233D5B, 0x009046_009043_009052),
  (0x233D5F, 0x028545_028523_009040_028542),
  (0x233D64, 0x00903F),
  (0x233D66, 0x00904C_009049_00903D_02853D_009044),
  (0x233D6C, 0x028574),
  (0x233D6F, 0x009061),
  (0x233D71, 0x009064),
  (0x233D74, 0x009062_00905D_028571),
  (0x233D78, 0x00905B),
  (0x233D7A, 0x0048A6_00906B_00906C),
  (0x233D7E, 0x02859C),
  (0x233E21, 0x009070_009066_009071_009073_00906F_009079_0285B9_009076),
  (0x233E2A, 0x00907B),
  (0x233E2C, 0x009085_0048AD),
  (0x233E30, 0x0285F4_0285F1_009086_00907E_009083),
  (0x233E36, 0x028607_009088_0048B1_00908C_00908B_00908D_00908E_028654_0048B3_009099_009097_009098),
  (0x233E43, 0x00909B_00909C_0048B4_00909A_00909F_0090A1_0090A5_0090A9_00909E_0090A7_028676_028677),
  (0x233E4F, 0x02867A_0048B5_0090A8_02868C_028679_0090A0_0286AA_0286AB_0090B4_0090AF_0090B3),
  (0x233E5B, 0x0090B6_0048B8_0090B0),
  (0x233E5F, 0x0090AD_028694_0090B2_0048BF_0090C2_0090F1),
  (0x233E66, 0x0048C1_0090BC_0090C9_0090BF_0090BD_0048BB_0090C6_0286B9_0090C5_0090D5_028699_0286DC),
  (0x233E72, 0x0090BE_0048C2_0048C0_0090C7_0090CB_0090CD_0090C8_0090C3_0090C4_0048C7_0090D9_0090E0),
  (0x233E7E, 0x0090DA),
  (0x233F21, 0x0090D6_0090DD_0090DF_0286CB_0286D6_0090E2_0090D8_0090DB),
  (0x233F2A, 0x0090DC_0048C4_0090D7_0090E4_0090EF_0090EA_0090EC),
  (0x233F32, 0x0090F0_0090F4_0090F2_0048CD_0286FE_0286EC),
  (0x233F39, 0x0048CA),
  (0x233F3C, 0x0286ED_0286EB_0090EB_0090F3_0090D4_0090E9_00912C_009108_028723_009101_0090FC_0090FE),
  (0x233F48, 0x028721_009104_0090FF),
  (0x233F4C, 0x009106_0090F9_009100_009105_009107_009103_028737_009117_009110_028734),
  (0x233F57, 0x00910F_009111_00910D_009116_02873B_009114_028740_009113_00910E_00910B_009128_009123),
  (0x233F63, 0x009118_00911C_00911F_009120_009122_02874D_02874C_00911E_00911D_0048DB_0048D8_0048DC),
  (0x233F6F, 0x028758_0048DA_009124_00911A_02874B_009125_009121_00911B_00912F_02876D_00912B_009129),
  (0x233F7B, 0x00912A_0048DD_028778),
  (0x234021, 0x009132),
  (0x234023, 0x02876B_009126_00912E_0048E1),
  (0x234028, 0x009133_009135_009137_009134_009136_0287AA),
  (0x23402F, 0x009138_0048E2_00913A_00913B_0287C4_00913E_0287CF_009140_00913F_0287CE_009141_0287DA),
  (0x23403B, 0x009143_0287D9_009144_009146_009145_009148_009147_009150_00914E_00914F_0048E7),
  (0x234048, 0x009159_00915C),
  (0x23404B, 0x0048EA_0048EB_009156_0287F4_009155_009158_009153_00915A_009161_0048F3_009160_009164),
  (0x234057, 0x0048EE_0048EF_00915F_028812_028811_009162_0048F1_02881C_009167_0048F5_00916F_00916E),
  (0x234063, 0x0048F8_02883A_00917C_00917A_0048FA_009172_009179_009176_009174_009173_009185_0048FC),
  (0x23406F, 0x009182_00918A_009186_00918C_009181),
  (0x234075, 0x009184_0048FD_009180_009195_02887B_02886D_009191_004901_009190_00918E),
  (0x234121, 0x02887D_02886B_028895_00918D_009193_004908_004905_004909_028893_0091A1_00919D_00919A),
  (0x23412D, 0x00919F_02888C_02888B_0091A2_02888A_0091A0_00490A_00919B_009199_00490C_0091A8),
  (0x234139, 0x0091A9_0091A5_0091A7_00490D_0091AA),
  (0x23413F, 0x0288A1_0091A6_0091AF_0091B1_00490E_0091B0_004910_0288C5_0091AD_0091AE_0091B7_0288DA),
  (0x23414B, 0x0091B4_0091B2_0091B5_0091B3_0091B6_0288E7_0091BB_0091B9_0288E8_0288F1_0091BC_0091BF),
  (0x234157, 0x0091BD_004918_004917_0091C2_0091C4_0091C3_0091C5_02890E_0091C6_00491A_0091D4_0091D3),
  (0x234163, 0x0091D5_0091D9_02893D_0091DA_0091E0_0091E2_0091ED_0091F7_0091EC_0091EA_0091EB),
  (0x23416F, 0x0091F2),
  (0x234171, 0x0091E8_0091F6_0091EE_0091F4_0091F0),
  (0x234177, 0x0091F1_0091E5_0091E9_0091F8_0091F3),
  (0x23417D, 0x028946),
  (0x234221, 0x0091F9_0091E4_009204_009227_009201_00922B_00920A_009225_028964_009292_00920F_009228),
  (0x23422E, 0x009207_009203_00920C_009200_009218_0091FE_009222),
  (0x234236, 0x009208_009226_00921C_00921B),
  (0x23423B, 0x009224_009221_009219_004920_009202_00921A_009217_009205_009212_009213_00920E_02895C),
  (0x234247, 0x00491D_0091FF_00922A_009216_009211_00920B_0091FD_009206_02896D_009252_009230_009249),
  (0x234253, 0x00925D_00924D_009248_009261_02897E_00923A_009270_009231),
  (0x23425C, 0x00922E_009245_009273_009233_009255_009266_009254_009265_00925E_009262_00924A_00926A),
  (0x234268, 0x009235_009263_00925F_009250_00926B_009239_009267_00926D_00926C_00924F_00923B_009272),
  (0x234274, 0x00923F_00926E),
  (0x234277, 0x009260_009246_00928F),
  (0x23427B, 0x00922F_00926F),
  (0x23427E, 0x009236),
  (0x234322, 0x009244_00924E),
  (0x234325, 0x009253_00924C_009256_00925C_028976_028966_00925A),
  (0x23432D, 0x009232_009241_009283_004929_0092A5_00927C_009282),
  (0x234335, 0x0092A8),
  (0x234337, 0x00927C_0092A4),
  (0x23433A, 0x0289A0_009287_009295_00927D_009276_00928D_0092EE_00928A_009288_00927A_0092A1_00928E),
  (0x234346, 0x0092A0_009277_009286_0092AA_00928C_009299),
  (0x23434D, 0x0092A7_009275_0092B1_0092A6),
  (0x234352, 0x00922D_0289AB_00927E_00929A),
  (0x234357, 0x009279_0092AB_0092A9_004925_009291_009281_00929B_009284_00929D_00928B_0289AA_00927F),
  (0x234363, 0x009297_0092A3),
  (0x234366, 0x0092C8),
  (0x234369, 0x00492C_0092C3_0289E4_0092F6),
  (0x23436F, 0x0092D0_0289AD_0092F1_0092DF_0289E1),
  (0x234375, 0x0092E6_0092B6_0092C0_0092B8_0092BE_0092D9_0289C5_0092C9_0092E3_0092D5),
  (0x234421, 0x0092C6_0092B4_0092EC_0092E0_0092F4_0092CD_0092CF_009325_0092DE_0092B2_0092E5_0092E7),
  (0x23442D, 0x0092C7_0092F0_0092DB_0092DC_0092D8_0092D7_0092E9_00492E_0092DD_0092E2_0092D6_0092C4),
  (0x234439, 0x0092D1_0092CA),
  (0x23443C, 0x0092C2),
  (0x23443E, 0x0092CC_0092D4_0092EF_0092E8_0092B9_0092EB_0092D3_0092F5),
  (0x234447, 0x0092B5_0092F2_0289B7_0092E1_009345_009303_009307_00931E_009344),
  (0x234451, 0x009327),
  (0x234453, 0x00931D_0092FA_028A00_009313_009308_00931F_004934_009331_009306),
  (0x23445D, 0x0092F9),
  (0x23445F, 0x00930F_00937A_009334_009302_0092F7_009324_0092FB_009312_009330),
  (0x234469, 0x009338_009323_00933C_009321_00931B_004936_0092FF),
  (0x234471, 0x009340_009301_028A23_009315_009346_009329_028A0A_00932E_00932A_009316_00933F_00933A),
  (0x23447D, 0x009339_009335),
  (0x234521, 0x0289FC_009314),
  (0x234524, 0x00930B_00932D_009305_009317_0092FE),
  (0x23452A, 0x00930D_0092CB_009309_00930E_00931C_009342_009300_009341_009319_009359),
  (0x234535, 0x00934C_009383),
  (0x234538, 0x009357_028A83_028A4E),
  (0x23453C, 0x028A4C),
  (0x23453E, 0x009366_0093AF_028A71_009379_028A3F),
  (0x234544, 0x009386_028A82_009352_00936A_00935C_028A43),
  (0x23454B, 0x009372_00934F_009347_009387_028A55_028A52_00937A_028A80_009356_009371),
  (0x234556, 0x00937C_00493B_028A59),
  (0x23455A, 0x009849_009378_009377_009349_009358_00935A_0093BE_00935D_00935F_00937B_009376_009361),
  (0x234566, 0x009355_009354_009369_009363_009348_009374_009367_028A62_009351_009364),
  (0x234571, 0x00936B_00936D_009360),
  (0x234575, 0x00934E_028A5A_00936E_009350_00938F_0093AC_009395),
  (0x23457D, 0x028AC3_00938B),
  (0x234621, 0x0093B5_00938C_009388),
  (0x234625, 0x0093B9),
  (0x234627, 0x0093A1_0093B0_0093A3_0093B7_00939B_0093B6_009398_028ACB_0093B1_009391_00938D_028A90),
  (0x234633, 0x00939D_028A9B_00939F),
  (0x234637, 0x009392_028A8B),
  (0x23463A, 0x0093B2),
  (0x23463C, 0x009389_0093A4),
  (0x23463F, 0x004942_0093BC_028AA8_0093A7_004940_0093BD),
  (0x234646, 0x00938E_0093A6_00939A),
  (0x23464A, 0x0093AA_0093B4_0093A8_00939E_009380_009397_00939C_0093BB_028A89_0093F1),
  (0x234656, 0x0093DE_0093EE_0093E3_0093D5_0093C7_0093F2_028B49_0093D4),
  (0x23465F, 0x0093E5),
  (0x234661, 0x0093CF_0093F9_0093CA_0093C4_0093E9_0093E8_0093E7),
  (0x234669, 0x0093C9_00494D_004953_0093C2),
  (0x23466E, 0x0093CB),
  (0x234670, 0x028B09_028AEC_0093DA_0093D0_0093EF_0093DB_0093C6),
  (0x234678, 0x0093CE_0093C0_0093EC_028AEB_0093CC_004948_028AF2),
  (0x234721, 0x028B0C_0093D9_009405_028AE0),
  (0x234726, 0x0093ED_0093D2),
  (0x234729, 0x0093E0),
  (0x23472C, 0x0093D3_0093A5_0093C5_0093A9_0093E6_0093C1_00940B_00941C_009413),
  (0x234738, 0x009425_028B22_0093F3_00940F_009420_0093FB_009412_00941F_028B12_00942F_009448_028B1F),
  (0x234744, 0x028B0D_00940A_009401_028B16_009415_0093FA_0093FE_004957_004959_009419_00940D_00941E),
  (0x234750, 0x009426_009427_009417_028B29_009428_009409_0093F8),
  (0x234758, 0x009414_009404),
  (0x23475B, 0x028B30_009422_009406_00941D),
  (0x234760, 0x009410_0093FF_009423_00941B),
  (0x234765, 0x009400),
  (0x234767, 0x0093F5_00942A_0093F7_009407_028B3B_0093FC_00940C_009408_00940E_0093F6_009411_009416),
  (0x234773, 0x00494F_00943F_028B56_00495D),
  (0x234778, 0x028B68_009429),
  (0x23477B, 0x009434_00943D),
  (0x23477E, 0x00943C),
  (0x234823, 0x028B70),
  (0x234826, 0x009424_0093F4_009436_009430_009439_00943B_00942C_009424_028B8F),
  (0x234830, 0x009437_028B5B_009440),
  (0x234834, 0x028BC0_00942B_00942D_009441_009431_004969_028B9C_009447_00944F_009467_00944C_009454),
  (0x234840, 0x009445_00944B_009450_028B92_009448_00944E_028BAD_00944D),
  (0x234849, 0x009449_00944A_028BA4_009446_009442),
  (0x234850, 0x028BD9_00945B_028BC8_009466_004972_004973_00945C_009464_009462),
  (0x23485A, 0x009456_00496F_009465_009455_00945E_009468_028BF2_004975_00946A),
  (0x234865, 0x004974_028BF5_028BF0_00946B_00946D_009469_00946E_00946F_009471_028BFE_009479),
  (0x234871, 0x009477_009478_009476_009475_009474),
  (0x234877, 0x028C20_00947B_028C1F_028C30_009482_009481_009480_009483),
  (0x234923, 0x00957A),
  (0x234925, 0x00957B_028C75_028C8D_00957C_028C95_00957D),
  (0x23492C, 0x028CCF),
  (0x23492E, 0x009585_009586_009588_00958C_00958D_004991_009597_009595_00958E),
  (0x234938, 0x00959F_00959B_0095A0_00959C_00959E),
  (0x23493E, 0x028D12_00499A_0095A7_0095A6_0095AC),
  (0x234944, 0x0095AB_0095AE),
  (0x234948, 0x0095BC_0095BE_0095CD_028D4C_0049A4_0095B9_0095BA_0095B6_0095BF_0095B5_0095BD_0095C7),
  (0x234954, 0x0049B1_0095C4_0095B8_0095C0_0049AF_0095C9_0095C3_0049AA),
  (0x23495D, 0x0095CE_028D66_0095B7_0095D5),
  (0x234962, 0x0095D2_0095D3_0095D1_0095C3_0095DA_0095DB),
  (0x234969, 0x0095DE_0095E0),
  (0x23496C, 0x028DB9_0095DF_0049B3_0095E5_0095E3),
  (0x234972, 0x0095E4_0049B2_028DDB_0049B5_0095E7_028DFB_00961D_0049BA_00961E_009624_009622_009620),
  (0x23497E, 0x009623),
  (0x234A21, 0x009627_00962C_028E26_009628_00962B_009633_00962F_009630_00962D_009634_009629_009626),
  (0x234A2D, 0x009639_009643_009642_00963D_009641_00963C_00963A),
  (0x234A36, 0x028E4D_009654_028E4F),
  (0x234A3A, 0x0049C5_00964F_009651),
  (0x234A3E, 0x009653_00964A_00964E_009652_009660_028E5F_00965C_009659_009658_009657_0049CB),
  (0x234A4A, 0x00965F_009656_0049CA_00965E),
  (0x234A4F, 0x028E75_00965A_00966C),
  (0x234A53, 0x00966D_0049D6),
  (0x234A56, 0x00966B),
  (0x234A58, 0x00966E_028E99_00966F_028EB1_0049E6_00967B_00967F_00967C_009681_009687_00967E_009684),
  (0x234A64, 0x028EA8_009688),
  (0x234A68, 0x0049D8_009680_009671),
  (0x234A6C, 0x009689_009682_009683_0049DC_009692),
  (0x234A72, 0x0049DE_028EE4_009693_00968F),
  (0x234A77, 0x009691_028EE7_009696_009697),
  (0x234A7C, 0x028ECC),
  (0x234A7E, 0x0096A1),
  (0x234B22, 0x00969E_028EFA_0049E2),
  (0x234B26, 0x028EF6_028EFB_028EF2_028EFC_00969F_0096A3_0096A5_028F31_0096A2_0096A4_028F0A_028F2C),
  (0x234B33, 0x028F34_028F2E_0096A9_0049EB_0096AE_0096AD_0096AC),
  (0x234B3B, 0x0096B0_0096B2_028F4D_0096B3),
  (0x234B41, 0x0096B5_028F63),
  (0x234B44, 0x0049F0_0096B6_028F78_028F7F_0096B9_0096BC_0096BA_0096BF_028F8A_0096BD_028F94_0096C3),
  (0x234B50, 0x0096C2_0049F9_0096CE_0096CA_028FA6),
  (0x234B57, 0x0096D2),
  (0x234B59, 0x0096D3),
  (0x234B5C, 0x0096D4_004A00),
  (0x234B5F, 0x02900B_004A02_004A01_0096D7_0096DA_0096DF),
  (0x234B66, 0x0096D8_0096DD_0096E1),
  (0x234B6A, 0x029030),
  (0x234B6C, 0x0096E6_0096E5),
  (0x234B6F, 0x0096E7_004A0A_0096E9_029079_004A0B_0096F1),
  (0x234B76, 0x0096F0_0096F4_0096FA_0096F8_0096F5_0290A6_0290B1_0290AE_004A12),
  (0x234C21, 0x004A11_0096FF_0290A3_0290AF_0290A2_009703_009702),
  (0x234C29, 0x009708_009705_004A18_0290C8),
  (0x234C2E, 0x00970B_009712),
  (0x234C32, 0x0290D9_0290D4),
  (0x234C35, 0x00971F_0290F5_009720_00971B_0290F8_004A23),
  (0x234C3C, 0x004A24_00971D_009719),
  (0x234C40, 0x009721_02910D_004A28_029121_029119),
  (0x234C47, 0x009723),
  (0x234C49, 0x009722_009724_009729),
  (0x234C4D, 0x00972B_009728_029140_009726_00972E_009731_00972F_02915E_009734_009733_029168_009730),
  (0x234C59, 0x029166),
  (0x234C5B, 0x029167_009736_029182_009735_02917D_00973B_02917C_00973A_00973F_00973C_029191_004A32),
  (0x234C67, 0x009740_004A34_004A33_009741_009747_009746_009743_009749_0291B5_0291C3_004A39_00974B),
  (0x234C73, 0x0291D5_009757_009758_00975A),
  (0x234C78, 0x00975D_004A3C_004A3D_00975F_004A41_009764_004A49),
  (0x234D21, 0x029225_02922D_004A4C_004A4B_009767_00976A_00976C),
  (0x234D29, 0x00976F_004A52_009770_00976B_00976D),
  (0x234D2F, 0x004A50_00976E_009777_009778_009772_004A55_009773_02927A_009783_00977A_00977E_009780),
  (0x234D3C, 0x009781_00977B_004A5B_004A5E_009784_029281_009782_00977F_00978C_02929D_00978E_029293),
  (0x234D48, 0x009787_009789_02929A_029299_009788_0292AE_004A67_004A62_004A61_004A64_009799_009793),
  (0x234D54, 0x009794),
  (0x234D56, 0x009797_004A63_0292AD_00979B_00979F_004A69_00979A_004A6A_0097A1_0292C1_0292CA_00979D),
  (0x234D62, 0x00979C_00979E_0292C3_004A65_0292CF_004A72_0097A7_0097AA_0097AC_0097A4_004A6F_0292E0),
  (0x234D6E, 0x0097A2_0292C6_0097AE_0097A8_004A75),
  (0x234D74, 0x0097AB_0292F4_029358_004A71_0097A5_004A77_0097B2_02930F_0097B4_004A79_02930D),
  (0x234E22, 0x029308_004A78_0097B3_0097B1_0097B5_0097B6_004A7A_0097B9_029328),
  (0x234E2C, 0x0097BA_0097B8_0097BB_004A7C_029326_004A82_004A7D_02932E_0097BC_0097BE_004A81_0097BF),
  (0x234E38, 0x0097C0_004A85_0097C2_0097C5_0097C4_0097C7_0097C8_004A89_004A8D_004A8A_02937F_0097C9),
  (0x234E44, 0x004A8E),
  (0x234E46, 0x0097CA_02938C_029391_004A8F_004A90_0097CE_0097CD_0097CF_0097D0_0097D2_0097D5_0097D4),
  (0x234E52, 0x0097D6_0097D8_0097D9_004A97_004A98_0097D7_0293C7_0097DD_004A99_0293CF_0097DE_0097DB),
  (0x234E5E, 0x0097E0_0097E2_0097E1_0097E3_0293E9_0097E4_0293F6_0097EE_0097F0_029405_0097F1_02940C),
  (0x234E6A, 0x004AA4_004AA5_0097F5),
  (0x234E6E, 0x004AAB),
  (0x234E70, 0x0097F8),
  (0x234E73, 0x0097FA_0097F9_0097FE_0097FD_009800_009804_009807_029454_00980F_004AB3),
  (0x234E7E, 0x00980D),
  (0x234F21, 0x029463_004AB4_00980E_029466),
  (0x234F26, 0x009816_004AC0_004AB9_009814_004ABC_004ABE_009826_00981E_00982A_009829),
  (0x234F31, 0x009823_009828_004AC6_00982B_00981B_004AC2_009820_00981F_00981C_009827_009835),
  (0x234F3D, 0x009833_0294D0_0294B3_00982E_009831),
  (0x234F43, 0x0294C0_00982F_009832),
  (0x234F49, 0x0294B0_0294B2_009847_009841_009843_009844_0294F8_004ACF),
  (0x234F52, 0x0294DE_0294EC_00984A_0294E5_004AD2_009845),
  (0x234F5A, 0x029517_004AD4),
  (0x234F5D, 0x009851_02950A_004AD7_009852_009855_00984B_009850_029500_004ACC_00983E),
  (0x234F69, 0x004ADE_00985C_009859_00985D),
  (0x234F6F, 0x009857_004ADC_004AE5_009856_004AE1),
  (0x234F75, 0x009861_009860_009862_004AEA_009863),
  (0x234F7C, 0x02954A_009864_009868),
  (0x235021, 0x009865_009866_004AF4_00986A),
  (0x235027, 0x009869_00986E_00986C_004AF6_00986D_004AF5_009872_02957E_02958A_009873_009874),
  (0x235033, 0x0098A9_0098AC_004AFB),
  (0x235037, 0x0295B6_004B02_0098AD_0098AE_004B00_0098B2_004B05_0295E1_0098B5_0098B4_004B06_0295EC),
  (0x235043, 0x004B0D_004B10_004B13_0098B9_004B11_0098B8_004B14_0098BF_0098BD_0098CA_0098BB_0098C0),
  (0x23504F, 0x0098C2_0098C1_0098BE_0098C7_0098C6_029642_0098C9_029639_0098CB_0098C5_004B1E_004B1F),
  (0x23505B, 0x0098CC_0098CD_004B21_0098DC_0098E1_0098E3_0098E4_0098E6_0098E5_0296A0_004B27_029696),
  (0x235068, 0x0098F1_004B2A),
  (0x23506C, 0x0098EB_0098F3_0098F6_004B33_0296B5_004B31_004B30),
  (0x235074, 0x004B2F_0098FF_0296B9),
  (0x235078, 0x0098F5_004B32_004B2B_0098F9_0296AC_004B35_00990B),
  (0x235121, 0x009908_009900_004B39_009907_0098FA_009906_0296B4_009902_00990E),
  (0x23512B, 0x009904_0296C3_004B3D_004B41_009916_009914_009917_009911_0296E5),
  (0x235135, 0x004B42_004B3C_009919_009915_0296E2_009924_00991F_009926_009925_009934_009923_00991C),
  (0x235141, 0x004B45_004B43_009929_0296FA_009927_0296FD_00991A),
  (0x235149, 0x02972F_004B48),
  (0x23514C, 0x004B46_004B4A),
  (0x23514F, 0x00992E_00992C_00992A),
  (0x235153, 0x009933_009942_009932_00992B_00992D_009931_009930_009939_004B51_00993B_02976D_009938),
  (0x23515F, 0x029771_00993A_009941_009936_004B53_009940_00992F_00993C_004B54_004B52),
  (0x23516A, 0x009948_00994F_009947_009949_009944_009946_009943_00994D_00994C_00994E_009950_00994A),
  (0x235176, 0x009959_004B58_00994B_0297A7_009958_009954_0297CF_0297C4_009955),
  (0x235221, 0x009956_009957_004B63_0297DD_00995A_00995B),
  (0x235228, 0x004B61_00995D),
  (0x23522B, 0x00995F_004B68_009960_009961_009997_009998_029839),
  (0x235233, 0x00999D_00999C_00999B_00999E_004B71_0099A0),
  (0x23523A, 0x0099A2_0099A3_0099A1_0099A4_0099A6_0099A7),
  (0x235241, 0x0099A9_0099AA),
  (0x235244, 0x004B74),
  (0x235246, 0x029869_0099AF),
  (0x235249, 0x0099B5_0099B0_0099B2),
  (0x23524D, 0x0099BF_0099BC_0099C3_0099B6_0099C5_0099C0_0099B9_0099BD_02987A_0099BB_0099BA_004B79),
  (0x235259, 0x0099C7_0099C2_0099DC_0099CB_0099CD_0099CF_0298A8_0099CA_0099D3_004B82_0099D4),
  (0x235265, 0x0099C9_0298A5_004B81_0099DE_0099D8_0099CC_0099C8_0099D7_004B7F_0099EE_0298D1_0099E6),
  (0x235271, 0x0099E5_0298B2_0298BE_0099EC_0298CA_0099E4),
  (0x235278, 0x0099E7_0099EB_0099F0_0099E3_0099EA),
  (0x23527E, 0x0099E9),
  (0x235322, 0x0298AE_0298AF_009A02_0099FA_0099FE_0298D8_0298DA_0099F8_0099F4_0099F7_0298E1_0099F5),
  (0x23532F, 0x0099F9_0099FB_0099FD_009A03_009A00),
  (0x235335, 0x0099F3_0099FC),
  (0x235338, 0x009A0C),
  (0x23533B, 0x029905_0298F1_009A0F_009A0B_009A09_009A0D_009A06_004B97_009A07_009A04_009A11_009A0A),
  (0x235347, 0x009A05_009A10_009A1A_009A1D_009A25_009A24_009A22_009A15_009A20_029935_009A14_009A27),
  (0x235354, 0x009A23_004B94),
  (0x235357, 0x009A1E_009A1C_009A2F_009A38_029944),
  (0x23535D, 0x029920_029947_009A1B_009A2D_009A35_009A34_029949_009A32_009A31_029945_009A2C_004BA4),
  (0x235369, 0x009A36_009A2E_009A29_009A2A_02995B_009A3F),
  (0x235370, 0x009A41_009A3A_009A39_009A3D_009A3B),
  (0x235376, 0x009A46),
  (0x235379, 0x009A42_009A44_009A50_009A4E_009A48_009A4C),
  (0x235421, 0x009A4F_009A4D_009A54_009A52),
  (0x235426, 0x009A49_009A4A_009A53_009A59_009A58),
  (0x23542C, 0x009A56_004BB8_0299BA_0299C9_0299C5_009A63_009A60_009A64_009A66_009A67),
  (0x235437, 0x004BC0_009A69_009A68_009A6B_004BC2_004BC6_004BC7_009AA9_009AAD_029A17_009AAB_004BC9),
  (0x235443, 0x009AB1_004BCA_009AB3_029A34_029A33_009AB2_009AB6_009AB9_009ABF_009ABB_004BD1_009AB4),
  (0x23544F, 0x004BCF_009ABA_004BD6_004BD9_009ABE_009ABD_004BDA_004BD5_009AC1_004BDC_009AC0_009AC2),
  (0x23545B, 0x029A72_009AC3_009AC8_009AC7_009ACA_009AC6_029A80_004BE2),
  (0x235464, 0x009ACE),
  (0x235466, 0x009AD0_029A97_004BE3_029A89_009AD1_004BE4_009AD5_009AD6),
  (0x23546F, 0x029AB2_029AC6_029AD1_009ADC),
  (0x235474, 0x009ADF_004BED_009AE0_009AE2_009AE1_009AE3_009AE8_029B06_009AE9_004BF1_009AE4),
  (0x235521, 0x009AE7_004BF0_009AF3_009AF4_009AEC),
  (0x235527, 0x009AEB_009AF2_004BF6_009AEF_029B11_029B19_004BF8_009AF6_009AF5_029B42_009AFA_009AF9),
  (0x235533, 0x009AFF_009AFE_009AFD_009B01_009AFC_009B02_004BFC_004BFD_009B00_009B08_029B6A_009B04),
  (0x23553F, 0x029B63_009B07_009B05_004C00_009B0B_029B7E_009B0A_029B7A_009B0E_009B0C_004C04_009B09),
  (0x23554B, 0x029B97_029B9D_004C08_009B11_009B10_009B12_029B9C_004C09_009B17_009B18_009B15_009B1D),
  (0x235557, 0x009B16_009B14_009B19_009B1C_029BCA_004C0E_009B1E_009B1F_009B20_009B21_029BE6_004C10),
  (0x235563, 0x029BE8_004C12_004C13_009B23_004C15_009B24_029C01_004C16_029C0E_009B29_009B2A_004C17),
  (0x23556F, 0x004C18_009B2B_029C1D_029C1E_009B2D_009B2E_029C1F_009B2F_029C22_029C2B_004C1A_004C19),
  (0x23557C, 0x009B33_009B34_029C39),
  (0x235621, 0x029C3E_009B35_009B37_009B39),
  (0x235626, 0x029C5C_009B3A_004C1D_009B3B_029C58_029C5A_004C1E_029C72_029C71_029C74_009B3D_009B3E),
  (0x235632, 0x009B3F_009B40_029C8F_009B46_009B43_004C20_029CAB_029CC1_009B48_009B4A_009B4E_009B4C),
  (0x23563E, 0x009B4D_004C27_029D36_009B4B_029CFD),
  (0x235645, 0x009B50),
  (0x235647, 0x009B51_029D16_009B52_009B53_029D13_004C2B_009B56_009B55_009B59_029D31_009B57_004C30),
  (0x235653, 0x029D3E_004C2F_004C32_009B5B_009B5D_029D4F_009B5F_029D59_009B61_009B60_009B74_029D73),
  (0x23565F, 0x009B67_009B6D_009B6E_004C3D_009B68_009B71_029D69_009B6B_009B76_009B66_029D7B_004C3B),
  (0x23566B, 0x009B69_009B64_009B6C_009B75_009B6A_004C3C_029D79_009B80_009B8C_009B85_009B84_009B87),
  (0x235677, 0x004C45_009B7A_009B7C_009B95_009B7D_009B7E_029D9B_009B8D),
  (0x235721, 0x009B83_004C41_009B81_029D81_004C47_009B7B_009B8B_004C40_009B8E_009B82_009B90_009B8F),
  (0x23572D, 0x009B88_009B93_009B97_009B8A_009B92_009B98_009B7F_004C42_029D85_009B9F_029DB6_009BA9),
  (0x235739, 0x009B9D_009BA7_004C4E_009BAD_009B9A),
  (0x23573F, 0x009BA8_009BB3_009BA4_009B9E_009B99_004C4B_009BAC_009BB0_009BA6_029DAD_009B86),
  (0x23574B, 0x029DA1_009B9B_009BA1_009BA0_009BA5),
  (0x235751, 0x009B9C_009BAF_029DAF),
  (0x235756, 0x009BC7_009BCD_009BBA_009BD2_009BB6_009BBC_009BC4_009BC6_009BBF_009BC1_009BC3),
  (0x235763, 0x004C4F_029DCF_029DE0_009BB9),
  (0x235768, 0x004C57_029DD2_004C50_009BBB_009BD3_009BBD_009BC0_009BB5_009BBE_009BB8_009BC8_029DCD),
  (0x235774, 0x009BDC_029E2D),
  (0x235777, 0x009BD7_004C63_009BDE_009BD6_004C5F_009BEB_009BDF_004C68),
  (0x235821, 0x009BE5_009BEA_009BD5_009BE0_009BF4_004C5C_009BE4_009BDD_029E04_029DF9_009BF1_009BE1),
  (0x23582D, 0x009BDB_009BDA_009BE2),
  (0x235831, 0x009BF0),
  (0x235833, 0x009BE9_009BD4_004C61_004C62_004C64_009BE6_004C65_009BEC_009BC5_004C5A_004C71_009BFF),
  (0x23583F, 0x009C0C_029E47_009C07_009C0E_009C06_009C15_009C0B_029E3E_009C0F_009BFB_009C0A_009C17),
  (0x23584B, 0x009C08_009C14_009C04_004C6C_004C6B_009BF6_009BF7_009C02_009C05_009C10_009C03_004C6D),
  (0x235858, 0x009C11_009C12),
  (0x23585C, 0x009C09_009C01_009BF8_009BFE_009BFC_004C5D_004C78_009C2B_009C1F_009C1D_009C1C),
  (0x235868, 0x029E76_009C2F_009C20_029E72_029E7A_029EB2_009C23_009C26_009C2E_009C28_004C7B_009C2C),
  (0x235874, 0x004C77_009C29),
  (0x235877, 0x009C27_009C21_009C24_029EC8_004C75_029E7E_029E80_009C46),
  (0x235921, 0x009C45_009C43_009C3F_004C81_009C32_009C44_009C3D_009C48_009C39_009C33_009C41_009C3C),
  (0x23592D, 0x009C38_004C7E_009C42_009C47_009C36_009C35_009C34_009C37_029EB0_009C40_004C83_009C52),
  (0x235939, 0x009C4A_009C4D_009C58),
  (0x23593D, 0x009C50_009C59_009C4F_009C5D_029EDB_004C8A_029EDC_009C53_009C51_009C55_009C4E_029EF4),
  (0x235949, 0x009C63_029F14_004C95_004C94_009C64_009C62_009C67_009C5E_004C90_009C66_004C99_029F17),
  (0x235955, 0x009C5F_009C60_029F08_009C6D_009C71_004C96_009C68_009C6F_029F15_009C6E_004C97),
  (0x235961, 0x029F45_009C74_009C75_009C72_009C73_004C9A_004C9B),
  (0x235969, 0x029F50_029F69_009C7A_029F6E_009C7B_029F75_009CE6_029F90_029F97_009CEA_009CE7_009CF0),
  (0x235975, 0x009CF1_004CA6_009CF2_004CA9),
  (0x23597A, 0x009CFC_009D0D_009CFF_009CFD_009CFA),
  (0x235A21, 0x009D02_009D03_009CF7_009D04),
  (0x235A26, 0x009D00_009D08_009D07_029FD8_029FB4_009CF9_009CF8),
  (0x235A2E, 0x029FE2_009D2A_009D25_009D17_009D16_009D1A_029FF5_004CBD),
  (0x235A37, 0x029FE3),
  (0x235A39, 0x009D10_004CC1),
  (0x235A3C, 0x009D21_009D20_029FE6_009D1E_004CC0_004CC6_004CC7_009D19_009D1D_029FFE),
  (0x235A47, 0x009D22_009D1F_009D18_009D13_009D14_004CD0_009D33_009D49_009D41_009D39_009D67_009D3A),
  (0x235A53, 0x009D36_004CCF_004CCD_02A026_009D44_009D32_009D2F_02A018_009D37),
  (0x235A5D, 0x004CD1),
  (0x235A5F, 0x009D2E_009D31_009D1C_009D38_009D3E_009D35_009D30),
  (0x235A67, 0x004CCE_009D42_009D40_009D43_009D3D_009D34_009D45),
  (0x235A70, 0x009D5C),
  (0x235A72, 0x004CE4_009D58_009D4B_009D53_02A06A_009D4F_009D4A_009D5B),
  (0x235A7B, 0x009D59_004CDA_02A04F_02A051),
  (0x235B21, 0x004CD5_009D55_009D57_009D54_009D5E_009D5A_009D56_009D5F_009D4C_009D52_02A05B_009D77),
  (0x235B2E, 0x009D8A_009D7A_009D81_009D91_009D84_009D8B_009D8C_009D87),
  (0x235B37, 0x009D88_009D76_009D80_004CE2_02A089_009D71_009D86_009D7D_009D78),
  (0x235B41, 0x009D6B_009D7E_009D7F),
  (0x235B46, 0x009D85_009D69_009D70_009D75_009D79_009D6E_004CE1_009D7B_02A086_009D83_009D82_009D74),
  (0x235B52, 0x009D6F_009D73_02A123_009D99_009DA3_009D9F_004CEB_009DA9_009D94_02A0C8_009DA5_009D9D),
  (0x235B5E, 0x009D92_02A0CB_009D98_004CED_009D9B_009DA0),
  (0x235B65, 0x02A0E2_009DA4_009DAA_009D97),
  (0x235B6A, 0x009DA1_009D9A_009D93_009DA7_009D9C_009DA2_009D96_009D9E_02A0C3_009DB7_009DB1_009DAE),
  (0x235B76, 0x009DB6_009DBC_009DBF_009DC0_009DC1_009DB8_009DBA_004CF5_009DCF),
  (0x235C21, 0x009DBE_009DC7_009DCC_009DCA_009DC5_009DBE_009DC3_009DBB_004CF3_009DB0_009DC4),
  (0x235C2D, 0x004CEE_009DB5_009DB3_009DA8_009DBD_009DB9_009DCD_009DAC_009DC8_009DB2_009DAD_02A131),
  (0x235C39, 0x009DDB_009DDF_02A16E),
  (0x235C3E, 0x009DD9_009DD2_02A143_009DD4_02A12D_009DD8_02A13F_009DD6_009DDE_009DDA),
  (0x235C49, 0x009DF4_009DDC_009DCB_009DD0_009DDD_009DD5_009DE9),
  (0x235C51, 0x009DD1_009DC9_004CFA_009DE3_009DE4),
  (0x235C57, 0x009DF2),
  (0x235C59, 0x009DFB_009DF7_009DF8_009DFC_009DF3_009DF6_009DEB_02A17E_009DE7_009DF0_009DE2_02A1AB),
  (0x235C65, 0x009DEF),
  (0x235C67, 0x004D05_009DE8_009DEC_009DED_009DE1_009DE6_009DEE_02A1B5_009E02_009DFE_009E07_009E01),
  (0x235C73, 0x009E03_009DFF_004D07_02A182_009E09_02A1B0_009E05_009E06_004D09_009E00),
  (0x235C7E, 0x009DFD),
  (0x235D21, 0x009E04_02A1B1_004D08_009E0B_009E10_009E0D_009E0E_009E0F_009E0C_009E12_009E11_009E13),
  (0x235D2D, 0x02A1F7_02A1F0_009E14_02A1F3_02A1F1_02A1F2_009E17_004D0F),
  (0x235D36, 0x009E15_009E18_009E19_009E1C_009E1B_009E1D_009E75_004D1A_009E76_004D1B_02A271_02A26E),
  (0x235D42, 0x009E7A_009E7B_02A278_004D1D_02A28A_009E80_009E83_009E84_004D20_009E88_009E86),
  (0x235D4E, 0x009E85_009E87),
  (0x235D51, 0x02A2A7),
  (0x235D53, 0x004D26_009E8D_009E90_009E8E),
  (0x235D58, 0x009E8C_009E96_009E95_009E94_009E91_009E9B_009E9A),
  (0x235D60, 0x02A2D0_009E99),
  (0x235D63, 0x009E98_02A2DD_009E9C_009E9E),
  (0x235D68, 0x009EA1_02A2EE_009EA0_009EA2_009EA4_02A2FF_004D2D_009EA7),
  (0x235D71, 0x009EAA_009EA8_004D33_02A318_009EAE_009EAB_009EAD),
  (0x235D79, 0x009EAF_009EB0_009EB1_004D38_004D3A_004D39),
  (0x235E22, 0x004D3D)]

/-- Part of `reads`. -/
def reads1 : Chart := wide24 [
  (0x235E24, 0x004D3E_02A360_004D3F_004D40_004D42_009EB6),
  (0x235E2B, 0x009EB7_02A395_009EC0_02A3A8_004D48_009EC1_02A3AD_009EC2),
  (0x235E35, 0x009EC6_009EC5_009EC8_009EC7),
  (0x235E3A, 0x009ECA_004D4B_02A3C2_02A3C6_004D4C_004D4E_004D4F_004D50_009ECC_02A3EE_004D52_02A3FF),
  (0x235E46, 0x004D57_004D56_02A404_02A40F_009ED0_004D5D_009ED3_004D60_009ED7_004D64_009ED6_009ED5),
  (0x235E53, 0x009EDA_004D63_009EDF_004D68_009EE3_009EE6_009EE5_009EE4_004D6C_009EE7_009EDD_009EEB),
  (0x235E5F, 0x02A471_009EEE_009EEC_004D6E_009EED),
  (0x235E65, 0x009EF1_009EF0_02A480_02A4A0_009EF3_009EF2_004D71_02A4A1_004D74_009EF5_009EF6_004D75),
  (0x235E71, 0x004D73_02A4B9_009EF8_009EF9_009EFA_009EFB_009EFC_02A4CC_02A4D0_009EFD_009EFE_009EFF),
  (0x235E7D, 0x009F02_02A4DB),
  (0x235F21, 0x004D76),
  (0x235F23, 0x009F03_02A4EC),
  (0x235F26, 0x02A4F4_009F06_02A4F7_02A4F9_009F08_009F09),
  (0x235F2D, 0x009F0A_02A4FF_009F0F_02A503_009F10_009F12_009F16_009F17_004D80_02A515_009F1A_009F1B),
  (0x235F39, 0x009F18_02A527_009F1C_009F1E_009F1D_009F1F_02A533_004D82_009F24_009F23),
  (0x235F44, 0x004D83_009F22_009F27),
  (0x235F48, 0x009F2B_009F26_004D84_009F25_009F2A_009F29_009F28),
  (0x235F50, 0x009F2D_02A54A_004D85_009F2F_009F2E_009F2E_02A55E_009F31_004D86_009F35_02A571_009F32),
  (0x235F5C, 0x009F33_009F38_009F39_009F37),
  (0x235F61, 0x009F36_02A587_009F3A_009F3D_009F3F_004D8A_009F40_004D8C_009F41_02A5A2_009F42_009F43),
  (0x235F6D, 0x009F45_02A5B5_009F46_009F47_009F48),
  (0x235F73, 0x009F49_004D92_009F4C_009F4D_02A5C9_02A5CB_009F4E_02A5CD_009F4F_009F54_02A5D9_009F55),
  (0x236021, 0x009F56_004D95_009F57_009F58_004D99_004D97_009F5B_009F60_009F5E_02A5E8_009F59_009F5A),
  (0x23602D, 0x009F5D_02A5ED_009F69_02A600_009F64_009F67_02A5FE_02A5FB_004D9B_02A5FD_009F68_02A613),
  (0x236039, 0x02A627_009F71_004D9E_009F70_02A628_02A62C_009F6E_009F6F_02A625_009F6D_009F74_004DA2),
  (0x236045, 0x009F73_009F75_009F76_02A64A_02A649_009F79_02A651_02A64D_009F7B_004DA3_009F7A_009F78),
  (0x236051, 0x004DA6_004DA5_004DA7_02A664_009F7D_009F7C_004DA8_004DA9_02A681_009F7E_009F8E_009F8F),
  (0x23605D, 0x009F91),
  (0x23605F, 0x004DAC_02A69D_009F93_009F95_02A6A0),
  (0x236065, 0x009F96_009F97_02A6B0),
  (0x236069, 0x004DB1),
  (0x23606B, 0x009FA0),
  (0x23606D, 0x009FA1_009FA2_004DB4_009FA3_009FA5_009FA4_004DB5),
  (0x236122, 0x020000_004E02_020009_020013_020014_020026_020022_020038),
  (0x23612B, 0x020041),
  (0x23612F, 0x020060_003404_004E2F),
  (0x236133, 0x02006B_02006D),
  (0x236136, 0x02007C_02007D_004E49),
  (0x23613B, 0x020084),
  (0x23613D, 0x020087_020086_004E40_004E41_020092_020090_02009F_020094_0200A5_0200A7_0200B9),
  (0x236149, 0x0200C3_0200C6_0200D1_0200CB_0200C9_0200D2_0200D6_0200E1_004E6A_003416_0209DD),
  (0x236155, 0x004E75_004E74_00341C_0200B8_0200FA),
  (0x23615B, 0x0200FD_003424_025740),
  (0x23615F, 0x020105_02010C_02010F_02010E_02010D_020111_020116_02011A_02012E_02012D_020131),
  (0x23616C, 0x004EA3_020142_020148),
  (0x236170, 0x00342C_02014C_02015A),
  (0x236175, 0x020163),
  (0x236177, 0x004EB4),
  (0x236179, 0x020181_02018B_02018E_020191_020192_020190),
  (0x236221, 0x00342F_02019A_02019F_0201A3),
  (0x236226, 0x004EE0),
  (0x236228, 0x003432_003433),
  (0x23622B, 0x0201D0_0201B6_004F14_0201CB_004F0C_004EFC_0201BB_004F18_004EF9_00343B),
  (0x236236, 0x004F06_0201BA_004F12),
  (0x23623A, 0x004EF1_0201CF_00343C_0201D8_020200_0201F2),
  (0x236241, 0x0201F3_0201E0),
  (0x236244, 0x0201F5_003441_0201E6_0201EF_004F2E),
  (0x23624A, 0x00344A_02022A_02020B_004F93_003450),
  (0x236250, 0x00344B_020215_020205_020226_020210_020229_020220_00344D_003449_02022C_020206_02020A),
  (0x23625C, 0x00344E_02020C_004FD5_02022D_020231_020239_00345E_020238_00345D),
  (0x236266, 0x00345A_004FBC_004FB8_00345B_003459_020235_02023A_020262_02024C_020236_020258),
  (0x236272, 0x020251_00345F_020292_020294),
  (0x236277, 0x02026E_0202A2_005032_020267_003463_0202A3_0202A4_004FFF),
  (0x236321, 0x0202A0_00346D),
  (0x236324, 0x020264_0202A5_005001_003467_02028F),
  (0x23632B, 0x00500A_0202A6_003466_0202B4_0202B6_005042_0202B2_0202E9_005059_005067),
  (0x236336, 0x0202AD_0202AA_0202AE_005061_0202D6_00346F),
  (0x23633D, 0x005057_0202E7_0202EC_0202DD),
  (0x236343, 0x0202D4_0202B0_0202B5_0202C5_00505B_0202AB_0202E1_005071_0202F6_020321_0050A0_005090),
  (0x23634F, 0x003475_005097_0202FD_003478_0202F2),
  (0x236356, 0x0202F0_020309_005089_005084_0202F3_0202F5_02031C_0202FB_00508A),
  (0x236360, 0x0202F7_00509D_020315_003477),
  (0x236365, 0x0202EF_02030B_003476_00509F_020301_00347B_020340_02032E_020368_020375_02032D),
  (0x236374, 0x0050C0),
  (0x23637B, 0x003481),
  (0x23637D, 0x00347C),
  (0x236421, 0x0050CB),
  (0x236423, 0x00347F_020372_003485_02039F_003488_020399_0203AD),
  (0x23642B, 0x0050D8_003482_00348E),
  (0x23642F, 0x00348D_003495_0203DB_0203C7),
  (0x236434, 0x0203B8_003491_0203D6_0050FA_0203C3_003494_003492_0203E2_020409_0203BF_0203C8_0203E8),
  (0x236440, 0x0203F0_00511D_0203EB_020406_0203ED_005116_00349B_00348A_0203FD_005119_0203E9_0203F5),
  (0x23644C, 0x00349A_00349C_020400_003499_02040F_005123_020422),
  (0x236454, 0x00512C_02040A_00349D_02040C_020421_020420_02040B_005128_020424_00512F_020435_020439),
  (0x236460, 0x020436_020432_00512E_020433_02043A),
  (0x236466, 0x02043B_020445_020444_02043E_02043C),
  (0x23646C, 0x020450_020451),
  (0x23646F, 0x0034A6_005136_02045B_0034A5),
  (0x236474, 0x020459_020461_02045E_02045F_020469_02046F_02046A_00513E_020470_020472),
  (0x236522, 0x0034AB_00514A),
  (0x236525, 0x005153_020484_02048F_02048D_020490_0034AD_020498),
  (0x23652D, 0x020499_0204A2_0204A8_0204AE_0204AD),
  (0x236533, 0x0204B2_0204B5_0204B8_0204BE_0204BF_0204C8_0204CA),
  (0x23653B, 0x0204CE),
  (0x23653E, 0x0204CF_005164),
  (0x236541, 0x0204D7_0204D9_0204DD_0204DE_0034B0_0204E3_0201D2_0204E4_0034B4_0204E6_0204E7_0204EA),
  (0x23654D, 0x0204EB_0204ED_0204EE),
  (0x236551, 0x0204F7_0204F6_0204FD_0204FF_020502_020506_02050D_02050E_02050C_020511_020515_020520),
  (0x23655D, 0x02051E_02052C_020528_020536_005183_02054A_020544_00518E_02054C_020555_020556_02055D),
  (0x236569, 0x02055F_020561_020563_020564_020565_0034BD_020566_020567_02056B_02056D),
  (0x236574, 0x0034BF_020573_02057B_02057D_02057F_020582_020586_020584_02058B_020593_0034C4),
  (0x236622, 0x0205A9_0205AB_0205AC_0034C5_0051AD_0051AE_0205B6_0034C8),
  (0x23662B, 0x0205B9_0205BD_0034CB_0051BF),
  (0x236630, 0x0034CA_0034C9),
  (0x236633, 0x0034CC_0205C6),
  (0x236636, 0x0051C1_0205CC_0205C8_0205CD),
  (0x23663B, 0x0034CE_0205CB_0034CF_0205CF_0205DA_0034D1_0034D0_0205D8_0205DD_0205E5_0034D3_0205E9),
  (0x236648, 0x0205F5_0205F3_0205F6_0205F4_0205F2),
  (0x23664E, 0x0034D4),
  (0x236650, 0x020601),
  (0x236652, 0x0205FE_0205FC_0205FD),
  (0x236656, 0x0205FB_0205FA_0205FF_020606),
  (0x23665C, 0x02060C_0051DA),
  (0x23665F, 0x02060A_02060B_020605_0051DE_020618_020616),
  (0x236666, 0x02061E_02061F_020622_020623_020625_020626_0051E0_02062A_02063A_020633_0051E6_02063B),
  (0x236672, 0x020641_020642),
  (0x236676, 0x020AEE),
  (0x236678, 0x020648_020655_020654_02065E_0034D8),
  (0x23667E, 0x020049),
  (0x236721, 0x020664_020674_020676_02067D_02067A_020681),
  (0x236728, 0x020686_020684_020685_02068A_020689_02068C),
  (0x23672F, 0x02068F_020698_02236D),
  (0x236733, 0x02069E_0221D5_02069F_0206A0_005205_0206A7_0206A5_0206A8_0206A9_0206BB_0206B1_0034DC),
  (0x23673F, 0x0206AD_0206AE_0206B2_005215_0206BD_0206B7),
  (0x236746, 0x0206BA_0206CA_0206C3_0206B9_0206BC_0206C0),
  (0x23674D, 0x0206D1_0206E5_0206D8_005226_0206D6_0206DA_0034DF_0206D9_0206D5_00521E_005222_0206E6),
  (0x236759, 0x0206D4_0206D3_0206D2_005223_005246_00522F_020708_020709_0206ED_0206F8_0034E3_0206E8),
  (0x236765, 0x0206FB_0206E9_0206EB_0206EA_0034E1_0206F6),
  (0x23676C, 0x020703_020704_0206F1_0034EA_020718_020712_020719),
  (0x236775, 0x0034E7_0034E9_020711_0034EC_02073B_020759_02075B_005258_02075A_005262),
  (0x236822, 0x02075C_020739_020734_02073F_02073D_0034EE_020744_020733_02073C_020758_02076A_020731),
  (0x23682E, 0x0034EF_020760_020773_0034F4_020769_020765_02075F_0034F3_0034ED_0034F5_02075E_020764),
  (0x23683A, 0x020762_0034F1_0034F2_020768),
  (0x23683F, 0x020780_02078A_020789_020782_0207A3_020797_02077F_020785_0034F8_020787_02078E_020783),
  (0x23684C, 0x020786_020784_0207A4_02078F_0207A7_0207AC_0207A9_0207A5_0034FC_0207AF_0207AA_0207B1),
  (0x236858, 0x0207AE),
  (0x23685A, 0x0207AD_0207BF_0207BE_00527C_0207BC_003502_0207C2_0207CB_003504_0207D5_003506_003505),
  (0x236866, 0x0034FE_003501_003507_0207D2_0207DC_003500_0207CC_0207D7_0207CE_0207D3_0207CA_0207C5),
  (0x236872, 0x005286_00350A_0207E6_0207E9_0207F0_0207E8_005285),
  (0x23687A, 0x0207EC_0207EE_0207FE_0207E7_0207FA),
  (0x236921, 0x020804_020801_020803_020802_020800_0207FC_020810_02080F_00350F_005295_02081C_02081B),
  (0x23692D, 0x02081D_020820_00350E_020822_003511_02082A_02082B_02082E),
  (0x236936, 0x00529C_020833_020835_020838_00361E_0201AE_020836_003513_020837_0052A5_020839_020841),
  (0x236942, 0x003515_0052A7_02083B_02084C_020843_0052AF_020844_02084B_0052B0_0052B7_020851_020864),
  (0x23694E, 0x0052B8_0052BD_020852_0052B6_020854_00351A_0052C6_020863_0052C0_02085F_020861_020865),
  (0x23695A, 0x020862_0052C2),
  (0x23695D, 0x020869_020876_0052CF_020878_020877_02086F_02086D_00351D_020872_020870),
  (0x236968, 0x020871_02086C_00351E_02086E_020883_003520_02087B_020886_02088C_020889_020887_020885),
  (0x236974, 0x0052DC_020888_02089A_02089B_020894_020895_020893_0208AA_020899_0208AF_0208A9),
  (0x236A21, 0x0208A2_0208A5_0208A6_0208A0_0208A3_0208AE_003522_0208A1_0052EA_0208B1_0208B3_0208B5),
  (0x236A2D, 0x0208B4_0208B0_0208B2_0052F6_0208BB_003526_003524_0208B9_0208B7_0208BE_003525_0208BA),
  (0x236A39, 0x0208C0_003527_0208C5_0208C4_0208C7_0208C9),
  (0x236A40, 0x0208CC_005301_0208D0_0208D3_0208D1_0208CF_0208D2_0208D6_0208D5_0208D7_0208E0_0208DF),
  (0x236A4C, 0x0208F0_00530E_0208EB_0208E4_0208F9_0208F1_0208F3_0208EF_0208F5_0208FA_00352A_0208FF),
  (0x236A58, 0x020900_005314_02090A_020913_020911_00352C_02091D_020917_005318_00531B_020930_02092E),
  (0x236A64, 0x005322_005324_020934_020939_02093A_020938_02093D_005328_02093E_020941_02093F_020949),
  (0x236A70, 0x02094C_003531_020952_020956_020951_020958_020959_003535_02095C_02095D_02095E_020962),
  (0x236A7C, 0x020963_020966_020968),
  (0x236B21, 0x020932_02096E_00533C_020975_020978_005342_005344_003539_02097F_02097D_0201B1_02097E),
  (0x236B2D, 0x020988_02098A_020984_00353B_02098B_020986_02098C_02098E_02098F_020990_020992_020997),
  (0x236B39, 0x020998_023965_0209A7_0209A8_0209B7_0209C0),
  (0x236B40, 0x0209D2_02001D_0209D5_0209D6_02194B_0209D9_0209DB_0209DA_0209DF_020B49_0209F0_0209EB),
  (0x236B4C, 0x0209F5_0209F4_0209FF_020A06_020A0A_020A0C_00353F_00536A),
  (0x236B55, 0x020A0E_020A0D_020A15_020A14_020A18),
  (0x236B5B, 0x020A19_020A1A_020A20_00537E_020A24_020A22_020A25_020A26_005383_020A2C),
  (0x236B66, 0x020A2D_020A32_005387_020A35_003543_003544_020A3A_003542),
  (0x236B6F, 0x020A38_020A39_020A34_020A3E_020A48_020A42_003545),
  (0x236B77, 0x020A49_020A43_020A41_020A54_020A46_020A4E_005392_020A5A),
  (0x236C21, 0x020A65_020A59_020A6D_020A6A_020A77_00354C_020A69_00354D_020A72_020A6B_020A79_0053A9),
  (0x236C2D, 0x020A86_020A7A_0053A0_020A82_0053A1_0053A7_0053A6),
  (0x236C35, 0x020A87_020A90_020A97_020A91_020A92_020A9D_0053AE_020AA7_020A9F_020AA3_003550_020AB6),
  (0x236C41, 0x020AB7_020AAD_020AAF_020ABA_020AC4_020AC3_020AC9),
  (0x236C49, 0x020ACC_020AD0_020AD6),
  (0x236C4D, 0x020AD8_0053B8_020ADB_020ADC),
  (0x236C52, 0x0053C0_020AEF),
  (0x236C55, 0x020AF6_020AF9_003557),
  (0x236C59, 0x020AFF_020B08_020B0B_020B06_020532_020B13_020B1B_020B1D_020B1C_0053CE_0053CF),
  (0x236C65, 0x020B25_020B26_020B29_020B2E_020B2C_020B33_020B3E_020B48_0053DD_020B5D_0053DE_020B4B),
  (0x236C71, 0x02F838_020B58_020B66_020B79_020B6F_020B80_020B7F_003561_020B86_020B83_020B84_020B90),
  (0x236C7D, 0x020B96_020B99),
  (0x236D21, 0x020B9C_020BA8_0053F9_020BA4_02067C_02F83A),
  (0x236D28, 0x0053FA),
  (0x236D2A, 0x003565_005416_0053FF_020BC2_020BBD),
  (0x236D30, 0x020BBC_020BAF_020BC8_020BB4_020BB5_020BC3_020BB3_020BAD_020BAB_020BB0_003568_00356B),
  (0x236D3C, 0x003574_020BF4_00356A_005419_020BF6_003569_00544D_020BEB_005428_003575_020BEA_020BF7),
  (0x236D48, 0x020BE6_003572_020BD4_003571),
  (0x236D4D, 0x020BDD_020C04_020BDB_005444_020C3C_020BD9_020BED_020BD0_020C05_020BCB_020BF1_020BF2),
  (0x236D5A, 0x003570_020BDC_00356C_020BD6_020BD8_020BD3_00357B_020C0D_020C21),
  (0x236D64, 0x005485_020C3F_020C36_020C08_020C0C_005493_020C10),
  (0x236D6C, 0x020C32_020C11_003579_020C19),
  (0x236D71, 0x020C40_020C3E_020C0A_00357D_00546E_020C18_020C1D_020C1B_020C15_020C0F_020C29_020C3B),
  (0x236D7D, 0x020C2E),
  (0x236E21, 0x020C1C_020C1A_020C0B_020C12_020C13_00357C_020C3A_020C91_020C6B_020CA9_020C54_020C62),
  (0x236E2D, 0x020C58_020C6A_003584_020C72_003580_020C73_020C8B_0054D0_0054B4_020C8C_003585_020C5C),
  (0x236E39, 0x003587_020C51_020C5B_020C68_020039_020037_0054CB_020C9A_0054A3_020C5A_020C59),
  (0x236E45, 0x020C60_003586_020C50_020C61_003582_0054C3_020C5E_020CAA_020C5F_0054DA_020C5D_020C64),
  (0x236E51, 0x020C53_020C6E_020C55_020C52_020C90_020CA3_0054CC_020C74_00550D_003595_020CF9_020CFA),
  (0x236E5D, 0x020CFB_003592_020D23_020CBB_0054F0_020CB7_020D22_020CBF),
  (0x236E66, 0x020CC3_020CC4_020CB4_003598_020CCD_020CB9_020CCA_020CCC_020D00_020CEF_005512_020CEC),
  (0x236E72, 0x00358F_020CB8_020CCB_020CF1_020CBA_003590_020CC7_020CC1_020CF4_020CF0_020D04_005502),
  (0x236E7E, 0x020CF8),
  (0x236F21, 0x020CB6_005500_003593_020CBC_020CB3_020D21_0054EC_020CF7_020CC2_020CB1_020CBE_020CC9),
  (0x236F2D, 0x020CBD_020CCE_0054FE),
  (0x236F31, 0x020D03_005558_020D39_020DA7_020D38_020D28_020D60_020D51_0035A6_0035A9_020D62_020D42),
  (0x236F3D, 0x020D3C_020D43_020DAB_020DA9),
  (0x236F42, 0x020D58),
  (0x236F44, 0x020DB1_020DB4_020D2A_020D3B_020D78_0035AB_020D35_00553A_020D79_020D6A_020D31_020DAA),
  (0x236F50, 0x0035B5_020DAC_020D2D_020D32_020D6C_0035A8_00359F_005542_00554B_020D37_020D27_020DA8),
  (0x236F5C, 0x020D70_020D2F_00555D_005529_020D36_020DB5_020D30_020D3A_020D2E_020D75_020DB0_020D6E),
  (0x236F68, 0x020D74_020D73_020D71_020DC3_020DD6_020DC1_0035CC_005645_020DC7_0035A2_020DC4_0035BF),
  (0x236F74, 0x020E34_020E2F_0035C8_020E3B_0035BA_020DE7_020DF8),
  (0x236F7C, 0x020DFB_0035B6_0035BC),
  (0x237021, 0x0035C6_020DFC_005590_020DC0),
  (0x237026, 0x0035BB),
  (0x237028, 0x020E32_020E33_020DBF_020DBE_020DC5),
  (0x23702E, 0x020E2E_020DD3_020E31_020E2D_0035C0_020DDF_020DFD_020DC6_0035C2_020DFE_020DDA_0035B7),
  (0x23703A, 0x020DCC_020DBB_020DD9_020DD0_0055A6_020E35_0035CD_020DCF_020DDE_020DD2_0035B9_020DC8),
  (0x237046, 0x020DCA_020DC2_0055A0_020DB8_00559B_020DCD_020DB9_020E6A_020E3A_020E52),
  (0x237051, 0x020E98_020E41_020E37_020E4B_020E4D_020E54_020ECE_020E5D_020ED0_0035D5_0055EA_020E39),
  (0x23705D, 0x020E64_020ECF_0035DA_020E46_020E56_020E40_020E38),
  (0x237065, 0x020E7F_020E44_020E45_0055D5_020E66_020E57_020E59_020E5B_020ECC_020E5A_020E65_020E90),
  (0x237071, 0x020E48_020E58_020E4A_020E43_0035D4_0055F1_020E60_0055E0_020E94_020E55_0055D8_020E50),
  (0x23707D, 0x020E4C_0035D9),
  (0x237121, 0x020ECD_020E47_0035D3_020E53_0035D7_020ED7_005619_020EE9_020EEB_020EDE_005603_020EE1),
  (0x23712D, 0x0035E5_020EEA_020F18_00560B_020EE8_020ED9_020EE0_020EE3_0035E3_020EDF_0035E9_020EE7),
  (0x237139, 0x020EF1_020F80_020F1A_0035EC_020F26_005622_020F5D_020EDD),
  (0x237142, 0x020077_020EEC_005607_020F2A),
  (0x237147, 0x0035ED_020F1D_020F20_020EE6_020EE5_020F1E_0035F0_0035EB_020F66_020F6A),
  (0x237152, 0x0035F5_020F8C_020F7E),
  (0x237156, 0x020F70_020FAE_020F6B_020F7B_020F79_0035F2_020F97_020F63_020F64_0035F4_020F87_020FA2),
  (0x237162, 0x020FA4_020F67),
  (0x237165, 0x020F89_020FA5_00562D_020FC5_020FA9_020F6D_0035EA_020FAB_020FAC_0035FD_020F72_020F69),
  (0x237171, 0x020F75_020FC6_0203E7_005637_020F86_0203D3_021017_020FCF_021018_00567B_020FE1_003602),
  (0x23717D, 0x020FDE_021038),
  (0x237221, 0x020FD7_020FE4_020FCE_020FE3_0035FE_021002_020FDD_020FCD_020FC9_02103A),
  (0x23722C, 0x021011_020FE8_020FD9),
  (0x237230, 0x00566E_0035FC_003601_0035FB_020FE0_020FD6_020FD0_020FDC_020FC8_020FD4_021016_020FCC),
  (0x23723C, 0x020FC7_020FFC_020FD5_020FDF_020FCB_003600_020FD8_021039_020FD3_02103C_021054_021043),
  (0x237248, 0x021046_003607_02108B_021041_021040),
  (0x23724E, 0x02103F),
  (0x237250, 0x021053_003606_021067_00568B_02104C_021049_02106A_02103D),
  (0x237259, 0x02103E_02104F_021070_02104B_02104E_02108A_021047_021098_0210C2_0210DD_021093_02109A),
  (0x237266, 0x0210AC_0210A9_00360B_00360A_0210DE_02109B_02109D_02109C_00360D_0210A3_0210A1_00360C),
  (0x237272, 0x0210A0_0210F3_02108F_021097_00569F_0210C3_0210E1_0210E9_021122_0210E6_021099_021107),
  (0x23727E, 0x003611),
  (0x237321, 0x0210F7_0210E7_003610_021113_021115_021114_021123_021112_0210F8_021118_021111_021136),
  (0x23732D, 0x021144_021141),
  (0x237330, 0x02113B_021137_0056BD),
  (0x237335, 0x021133_0056BF_0056BB_021139),
  (0x23733A, 0x021138_021159_02116D_0056C6_021158),
  (0x237340, 0x00361A_021175_021179_02117A_021185_021186_00361B_021191_021194_0211A4_0211A5_0211A3),
  (0x23734C, 0x0211A6_0056DC_0056E2_0211AE_0211B3_00361F_0211AF_0211A9_0211B1_0211C2_0056F2_0211B4),
  (0x237359, 0x0211C0_0211BD_0211C7_003620_0211C8_0211D1_0211C9_0209E7),
  (0x237362, 0x0211D2_0211D6_0211DA_0211D3_003622),
  (0x237368, 0x0211D4_0211DE_0211DC_0211DD_0211EC_0211E4_0211E6_0211EE_0211F0_0211E9_0211EB_0211E0),
  (0x237374, 0x0211F7_0211F1_0211F6),
  (0x237378, 0x0211F8_0211F3_0211FA_0211FD_021205_0211FF_021209),
  (0x237421, 0x0211FC_021206_021213_005711_021212_02120C_021210_02120A_02120F_021215_021220_02121E),
  (0x23742D, 0x02120B_021217_021227_021226_021228_021230_02122F_021231_021232_021234_021235_003625),
  (0x237439, 0x021236_02123E_02123F_003626_005725_021250_02124E_021249_005735_021277_021269_021280),
  (0x237445, 0x00362B_003627_005759_02126A_00573C_02126D),
  (0x23744C, 0x021282_021281_021278),
  (0x237451, 0x02127C_02129D_0212B1_02128D),
  (0x237456, 0x02129B_0212B5_02129F_021284),
  (0x23745B, 0x0057B4_0212C5_0212B8_0212E3),
  (0x237460, 0x0212BB_0212EB_0212BC_0057AC_0212EC_0212EA_0212D9_0212DA_0212E8),
  (0x23746A, 0x0212E7_0212E9),
  (0x23746E, 0x003640_02131D_023467),
  (0x237472, 0x0057C9_0212F1_0212F6_021312),
  (0x237477, 0x021325_02131E_021313),
  (0x23747B, 0x0212ED_0057C1),
  (0x23747E, 0x003643),
  (0x237521, 0x0212FA_021318_003642),
  (0x237525, 0x0057EA),
  (0x237527, 0x02133B_021332_003647_02132D_02134A_021361_021350_02134D_003648_00364A_021329),
  (0x237537, 0x021366_005837_00583B_021392_021394_00581C_00364E_021372_003653_021376_021388_003650),
  (0x237543, 0x02138D),
  (0x237545, 0x0213A8_0213AA_0213AB_0213A7_02137B_0213AC_00364F_005867_0213BB_005863),
  (0x237550, 0x0213E6_0213BF_00365A_00365B_0213B4_00585B_0213EB_0213D8_0213C0_0213CC),
  (0x23755B, 0x0213AE_00365D),
  (0x23755E, 0x0213B7),
  (0x237560, 0x0213B9_0213C1_005843),
  (0x237564, 0x0213BD_0213BE_00586F_0213DB_00586A_00365E_0213E9_0213EA_003665_00588C_02141D),
  (0x237570, 0x0213F0_005876),
  (0x237573, 0x02141C_0213F7_003663_003662_0213F5_005878_0213EF_0213F1_0213EE_005873),
  (0x237621, 0x0213ED),
  (0x237623, 0x02145B),
  (0x237625, 0x0058A2_02145A),
  (0x237629, 0x02145C_021459_021424_021430_021446_0058B7_021431_021425_00366B_021420_0058A7_021458),
  (0x237635, 0x003673),
  (0x237637, 0x021479_021488_021476_021461_0214A7_0058C9_003674_02146D_003670_021487_021478_0214A2),
  (0x237643, 0x021493_00367A_02149D_021491_021467_02148C_0214AF_003679_021492_0214C9),
  (0x23764F, 0x02148A_0214B1_0214CA_0214D6),
  (0x237654, 0x0214B3_0214CD_0214D2_0214D8),
  (0x237659, 0x0214D5_00367E_0058E3),
  (0x23765F, 0x003680_0214F0_0214E6),
  (0x237663, 0x0214F8_0214F3_0214F2_0214FF_0214F6_021501_021507_021509_021515_003681_003682_021517),
  (0x23766F, 0x02151B_02151C_021529_021528_021522_0058F7_02152A_021534_0058FE_021541_021545_021549),
  (0x23767B, 0x021548_021550_021552_021557),
  (0x237721, 0x003685_021560_021561_021562_003686_003687_02156A_00590E_021567_02156D),
  (0x23772C, 0x02156E_021576_021583_02158C_003689_00591D_021591_021590_020157_021594_021592_02159C),
  (0x237738, 0x0215A2_0215A3_02159E_0215A4_020A03_0215AA_0215AC_0215AD_0215AB_0215A8_0215A7_020171),
  (0x237745, 0x0215B3_0215B2_0215AF_0221A3_0215BA_0215BE_0215BD_005926_0215C1_020199_0215C6_0215C8),
  (0x237751, 0x00368D_0215CC_0215CD_0215CF_0215D1_0215DA),
  (0x237758, 0x004E54_02001B_005935_0215DE_00593D_003693_0215F0_0215F5),
  (0x237761, 0x003692_0215E7_0215F3_005946),
  (0x237766, 0x003699_003697_021603_00594B_0215F9_0215F8_02161A_005952_021619),
  (0x237770, 0x02161B_00369A_02160E_02160F_021622_021621_021630_02161D_021623),
  (0x23777A, 0x021634_02161E_021645_00369E_021638),
  (0x237822, 0x021644_00595B_00369D_00595F_021652_02165B_021651_021653_021531_005964_021658_021659),
  (0x23782E, 0x021668_021669),
  (0x237831, 0x02166A_021664_02166D_021676_005966_02166E_02166C_02167D_021685),
  (0x23783C, 0x00596F_021687_021691_021694_021F97_021697_021699_02169B_02169C_02169F_0216A0_005975),
  (0x237849, 0x0216AA_0216A7_0216AD_0036A7_005980_0036A5_0216BB_0216B9_0036A8_00597A_005977_0216B8),
  (0x237855, 0x0216B7_0036AE_005994_0216D7_0216C5_00598B_0036AB_0216D8_0036AD_0216CC_0216BD_0216EB),
  (0x237861, 0x0036A9_005995_0216D6_0036AA_0036AC_0216BE_0216E9),
  (0x23786A, 0x0216E5_0036BD_0036C1_0216E0_0036B0_0036B4_0036B8_0059C4_0059B1_0216E1_0216FF_0216F5),
  (0x237876, 0x0216F6_0216E2_0059BD_0036BC_0216FD_0036BE_0036B9_0216DE_0059B0),
  (0x237921, 0x0036BF_0216FE_0036B5_0036B1_0216DC_0216D9_021701_021700_0059C7_021702_02170B_021726),
  (0x23792D, 0x0059ED_02171A_021722_021707_005A0D_0059EF_021703),
  (0x237935, 0x02170A_02172C_021725_02170D_02172A_021727_0059FE_021728_021709_0036D9_0036E1_02175D),
  (0x237941, 0x0036D8_0036D2_02174B_021748_021749_021735_021733_02172F_0036CF_0036DE_02174D_0036DA),
  (0x23794D, 0x021731_02175B),
  (0x237950, 0x0036DD_021752_0036D1_005A1A_02175A_021743_0036CE),
  (0x237958, 0x021753),
  (0x23795A, 0x005A10_005A1E_0036D3_0036D6_021732_005A22),
  (0x237961, 0x021759_0036DC_0036E8_02179B_021798_021799_02176E),
  (0x237969, 0x005A3F_0036EC_005A56_0036ED_0036E6_005A61_0036EA_005A6E_005A4B_02179A_005A6B_0036E7),
  (0x237976, 0x02177F_021767_005A54_021766_005A45_021762),
  (0x23797D, 0x0217D5_0217D2),
  (0x237A21, 0x02179F_0217DD_005A82_02F867_005A88_0217B0_0217DC_0217CC_0217DA),
  (0x237A2B, 0x0217DB_005A98_005A83_003702_0217A3_0036F8_005AA1_0217AE_0217A2_0036FE_005A99_0036FB),
  (0x237A37, 0x0217AB_0217E3_0217AF_0217E0_005A80_0036F1_0217E4_0036F6),
  (0x237A40, 0x0036F5_0217A7_0217AA_0217A5_0217D7_0217D8_0217D0_0217E2_0217E1_003704_0217DF_003703),
  (0x237A4C, 0x0217AD_0217E5_0217D1_0217AC_0036F4_0036F7),
  (0x237A53, 0x0217C7_003706_00370B_005ACE_00370D_005AC5_00370C_0217E8_0217EB_021811_0217ED_00370A),
  (0x237A5F, 0x0217E9_003713_005AD0),
  (0x237A63, 0x005ACD_003712),
  (0x237A66, 0x0217F7_0217F4_0217EA_021812_003709_021813_021842_02184D_00371A_021849_005ADE_005ADD),
  (0x237A72, 0x003719_021825_021819_00371E_003708_021826_005AE8_003715),
  (0x237A7B, 0x02184C_02181C_021848_003720),
  (0x237B21, 0x005626_003722),
  (0x237B24, 0x02184A_003717_003721_02183F_02181E_021841_021869_021888_02189C_005AFE_021851_021865),
  (0x237B30, 0x005AF4_003728_021858_005B04_021859_021887_021852_021856_021855_005B01_003726_021885),
  (0x237B3C, 0x02187A_021854_003725_02184E_02188A_021850),
  (0x237B43, 0x021886_02184F),
  (0x237B46, 0x005B1C_0218C2_005B1F_005B18_021868_005B11_0218AE_0218C0_0218C1_0218B1_0218C8_021891),
  (0x237B52, 0x02189A_00372D_005B13_021892_021895_003729_0218B9_00372C),
  (0x237B5B, 0x0218DB_005B23_00372A_005B2B_0218CB_00372F_0218E6_0218E0_0218CF_005B33_0218C9_005B29),
  (0x237B67, 0x005B35_0218D4_0218E3),
  (0x237B6B, 0x0218F9_0218EA_0218EE_0218EF_0218ED_0218EB_003731_003735_003733_02190C_0218FD_02190B),
  (0x237B77, 0x0218FE_003734_021916_021917_003736_021912_02191B_021919),
  (0x237C21, 0x003739),
  (0x237C23, 0x021922_02192B_021936_02193A_005B52_02193D_021941_02193F_021257_005B5E_00373F),
  (0x237C2F, 0x02194D),
  (0x237C32, 0x021949_021948_005B61_021966_021967),
  (0x237C38, 0x003741_022232_021969_003742_02196D_005B6F_005B72_021973),
  (0x237C41, 0x021978_021980_02197F_021981_021976_02198D_021983_02198A_02198F_02198E_021986_021994),
  (0x237C4D, 0x021995_021993_02199C_021999),
  (0x237C52, 0x02199B_02199F_0219A8_0219A1_02199E),
  (0x237C58, 0x0219A2_0219AA_0219B1_005B7E_0219B7_003748_0219BB_00374B_0219BA_0219BC_0219C4_005B91),
  (0x237C64, 0x0219D2_005B8A_0219D5),
  (0x237C68, 0x0219D4_00374F_0219E1),
  (0x237C6C, 0x0219D7_0219E3),
  (0x237C6F, 0x0219E8_0219E5_0219E6_0219D9_005BA9_0219E9_0219F9_0219ED_003753),
  (0x237C79, 0x005BAA_0219FC_003758),
  (0x237C7D, 0x021A03_005BAF),
  (0x237D21, 0x021A05_005BA7_021A0A_005BBA_021A20_021A1F_005BB1_021A00_021A16_021A1B_021A17_00375E),
  (0x237D2D, 0x00375C_00375D),
  (0x237D30, 0x021A32_021A35),
  (0x237D35, 0x021A3B_021A23_021A29_021A31_021A37_005BC0_00375A),
  (0x237D3D, 0x021A4F_021A42_021A46),
  (0x237D41, 0x021A3D_021A43_021A47_021A5B),
  (0x237D46, 0x021A44_021A3F),
  (0x237D4A, 0x021A69_021A76_021A65_021A78_021A63_021A8C_021A85_021A7E_00376A_021A7D_021A81_021A97),
  (0x237D56, 0x021A91),
  (0x237D58, 0x021A92),
  (0x237D5A, 0x021A99_021AA0_005BED_021ABA_021AB0_00376B_021AB1_00376D_021AB2_021AB3_021AB8_021AB5),
  (0x237D66, 0x021ABD_00376F_021AC3_021ABE_021AC1_021ACB_021AC0_021AC2_021ADD_021AD4_021AE0_021ADF),
  (0x237D72, 0x021AE4_021AE5_021AF5_021AEF_021AF4_021AF9_021AF8_021B02_021B01_021AFD_021B05_021B07),
  (0x237D7E, 0x021B04),
  (0x237E21, 0x021B06_021B0B_021B09_021B0C_021B0F_021B10_021B15_021B13_021B17_021B18_021B16_021B0E),
  (0x237E2D, 0x021B19_021B1C_021B1E_021B24_021B25_021B27_021B2B_021B32_021B2F_021B35_021B38_021B42),
  (0x237E39, 0x021B47_023292),
  (0x237E3C, 0x021B50),
  (0x237E3F, 0x021B5A_021B5B_021B5E_021B62_021B63_021B5F_020224_021B65_005C1C_021B6E_021B6D_021B73),
  (0x237E4B, 0x021B77_021B78_003778_021B7E),
  (0x237E51, 0x021B7F_021B8E_021B96_021B9A_021B99_00377A_021B9E_021B9F_00377B_021BA6_021BB0_024BCF),
  (0x237E5D, 0x021BBB),
  (0x237E5F, 0x021BBF_021BC1_005C23_021BC4_021BC7_021BC8_021BCD_021BCC),
  (0x237E68, 0x021BCF_021BD0_00377D_021BD9_021BD8_021BD6_021BD1_021BD2_021BDC_00377E_021BDE_021BE1),
  (0x237E75, 0x021BE2_021BE6_021BE9_003782_021BE8_021BEC_021BF1_021BF3_003786),
  (0x242221, 0x003785_003783_021BF5_021BFE_003787_021BFF_021C00_003788_003789_021C06_021C0C_021C0B),
  (0x24222D, 0x00378A_021C0E_005C35_021C1A_021C1D_021C20_021C22_021C28_021C25_021C2B_021C32_021C2A),
  (0x242239, 0x021C37_021C3D_021C3B),
  (0x24223D, 0x021C42_021C4A_021C49_021C45_021C47_021C3E_021C41_021C73_021C61_021C50_021C4C_021C4F),
  (0x242249, 0x021C5F_021C5C_021C51_021C64_021C77_003797_021C70_005C53_005C54_021C62_021C71_021C80),
  (0x242255, 0x021C7E_003798_021C7F_021C8D_021C7C),
  (0x24225B, 0x021C7A_021C90_021C7D_021C81),
  (0x242260, 0x021C9A_021C97),
  (0x242263, 0x00379B_021CAA_021C9B_021CAC_021CBF_021CC2_021CBC_021CAE),
  (0x24226C, 0x021CAD_021CC6_021CC4_021CCF),
  (0x242271, 0x021CDE_021CDA_021CD8_021CD1_021CD4_021CE0_021CE8_021CEC_021CEE_021CED_021CF4_021CF8),
  (0x24227D, 0x021CFB_005C6E),
  (0x242321, 0x021CFE_021D05_021D06),
  (0x242325, 0x0037B7_021D08_0037A3_021D07_021D0B_021D14_021D0E_021D1E_021D20_021D2D_021D2F_021D2E),
  (0x242331, 0x021D3B_0037A4_021D40_005C7D_0037A8_0037AC_0037AD_0037AA_021D51_021D3E_021D4B_0037B5),
  (0x24233D, 0x021D56_0037B3_021D6C_021D54_021D82_005C9C),
  (0x242344, 0x0037B2_0037B1_005C84),
  (0x242348, 0x021D77_021D74_021D57_0037B0_021D5C_005C89_005C86_0037B4_021D59_005C8E_021D58_021D5B),
  (0x242354, 0x021D5A_021D55_005C87_021D73_005C99_005CA4_0037BC_021DAA_021D86_021D8C_021D85_0037BE),
  (0x242360, 0x021D8E_021D91_0037BD_021D8B_021D90_0037C3_021D98),
  (0x242368, 0x0037BB_005CB2_021D88_021DA3_021D89_021D84_021D83_005CB0_005CBB),
  (0x242372, 0x021DCE_021DCD_0037C4),
  (0x242376, 0x005CCD_021DD3_021DAD_005CD4_005CCF),
  (0x24237C, 0x021DD4_005CC8_021DAF),
  (0x242421, 0x021DB1_005CD1_005CDE_005CCA),
  (0x242426, 0x021DC2_0037C9_0037CD),
  (0x24242A, 0x021DD7_005CF7),
  (0x24242D, 0x021DDF_0037D1_021DF8_021DD6_0037C8_005CFA_0037CC_021DDE_021DD5),
  (0x242437, 0x021DFB_021DE0_021DDD_021DDC),
  (0x24243C, 0x0037D6),
  (0x24243E, 0x021DD9_021E08_0037D0_021DDB_021DE1_021DD8_021DFA_021DEC_021E0D_021DFF_0037CA_0037D3),
  (0x24244A, 0x0037C7_005CFC_021E09_005CF2_021DED_005CF3_021E0A_021E0C_021E04_021E15_021E56_021E25),
  (0x242456, 0x021E29_021E66_021E18_0037DB_005D15_021E21_021E17_021E69_021E28_021E63_021E2A_005D0A),
  (0x242462, 0x021E90_0037D9_021E1C_005D2C),
  (0x242467, 0x021E4E_021E67_021E11_021E68_021E26_021E64_005D09),
  (0x24246F, 0x021E1E_021E58_021E14_021E53_021E62_021E22_021E1F_021E20_0037D7_0037D8_021E65_005D23),
  (0x24247B, 0x021E1B_005D30_005D0F_0037E6),
  (0x242521, 0x021E6D_005D44_005D39_0037EF_021E88_021E87_005D4D_021E79_021E77_021E7C_021E93_005D45),
  (0x24252D, 0x021E6A_021E76_021E72_005D56),
  (0x242532, 0x0037E8_021E7E_021E70_021E96_021E6F_021E95_005D3C_021E94_005D1C_021E78_021E75_005D48),
  (0x24253E, 0x021E73_021EA7_021E97_005D46_005D3B_021E8A),
  (0x242545, 0x005D5B_005D55_021ED1_021EAC_005D6D_0037F1_021EB4_0037F0),
  (0x24254E, 0x0037F2_021EAD_021EAE_0037F3_021EBD_021EB7_021EB8_0037F6),
  (0x242558, 0x021ECC),
  (0x24255A, 0x005D5E_021EAB_021EAF_0037F8_021EB5_005D61_021ED8_021EE8_0037FE_005D7B_021EDA_021F03),
  (0x242566, 0x021EE4_021ED9_021EEC_021EE0_005D85_005D83_0037FB_021EE7_0037F9_005D80_021EEF_021EFA),
  (0x242572, 0x021EED_021EDE_0037FF_021EE2_021EE9_0037FA_021F09),
  (0x24257A, 0x021EF5_021EEE_021EE1_021EE3_021EF0),
  (0x242621, 0x021F16_021F13_003807_021F0C_003809_021F14_021F1C_005D90_021F2C_003808_021F0E_005D98),
  (0x24262D, 0x021F0F_021F1B_00380C_021F22),
  (0x242633, 0x00380A_021F1A_00380F_003806_00380E_021F3B_021F17_021F3A_021F3D_005D91_00380D_003805),
  (0x24263F, 0x021F46_021F3F_021F45_021F5B_003815_021F42_003814_003812_021F52_021F4A_005DAF_005DB5),
  (0x24264B, 0x021F59),
  (0x24264D, 0x021F7C_005DA6),
  (0x242650, 0x021F44_021F41_021F66_021F49_003819),
  (0x242656, 0x021F72_021F62_021FBB_021F60_021F63_021F67_00381A_003813_021F5D_00381B_021F80_021F7F),
  (0x242662, 0x021F5C_021F77_021F8C_021F89_021F87_021F88_005DC1_021F95_021F84_021F85_021F8A_021F94),
  (0x24266E, 0x021F5E_021F86_003821_021F9D_021F99_021F9C_0239AD_021FA5_021F9B_003822),
  (0x24267A, 0x021FB0_005DC8_021FB1_021FAE_005DD0),
  (0x242721, 0x021FC2_003826_003825_021FBD_021FBE_021FBC_005DD5_021FC8_021FCA_021FC9_021FC7_021FCB),
  (0x24272D, 0x021FD1_005DDA_021FDB_021FD6_021FD4_021FDC_021FD9_021FDD_021FE0_021FE1_021FE4_003828),
  (0x242739, 0x021FE2_021FE5_021FEE_021FE9_021FEA_021FED_021FF0_021FEF_021FF5_021FFC_021FFF),
  (0x242745, 0x022001_022004_02200A_02200B_02200D_02200C_022015_022017_022019_022018_02201E_02201C),
  (0x242752, 0x00382E_02202A_024022),
  (0x242756, 0x00382F_022034_022036),
  (0x24275A, 0x02203A_005DF8_02203D_003831_022042_022040_022041_022044_02204F_02204E_005DFF_022052),
  (0x242766, 0x022060_022062_022057_005E07_022056_02205D_02205E_02205F_022055_022064_022058_02206A),
  (0x242772, 0x003838_022066_022076_00383A_022069_00383C_022079_022077_02206E_02206C_022067_022071),
  (0x24277E, 0x02208D),
  (0x242821, 0x02207D_02207C_003840_022084_02207E_022080_02207B_02208F_02207F_022089_02208A_022086),
  (0x24282D, 0x00383D_022081_022083_003842_022090_003841_022092_022094_022093_02209D_022097_022098),
  (0x242839, 0x022095_003845_005E20),
  (0x24283D, 0x0220B7_005E2C_0220BC_0220C0_0220B4_0220B6_0220B1_0220B2_0220B3_003848_0220D2_0220D4),
  (0x242849, 0x0220D9_0220D0_0220CF_0220CE_0220D3_0220DB_0220D7_0220E2_0220E5_0220DC_005E3E_0220D5),
  (0x242855, 0x0220D1_0220E6_0220D8_00384A_0220CD_003850_0220F4_0220F2_0220F6_0220EF_0220F3_0220EE),
  (0x242861, 0x005E41_0220F1_022105_022100_022104_022101_0220F0_003855_0220F8_003851_022107_0220FA),
  (0x24286D, 0x00384F_005E3F_003856_0220F5_02211E_02210E_02210B_02210F_00385A_02210D_005E4A_02211C),
  (0x242879, 0x02211A_022114_02210A_022113_022112_022132),
  (0x242921, 0x022127),
  (0x242923, 0x022122_022121_022124_022133_00385F_022131_022123_02212C_00385E),
  (0x24292D, 0x022126),
  (0x242930, 0x022130_00385D_02214B_022148_02213B_022136_022137_005E69_022140_022138_02214A_02213C),
  (0x24293C, 0x022149_02213A_022135_022139_022141_022155_022152_02215D_02215C_022157_005E6F_02214E),
  (0x242948, 0x022151_003866_022160_022164_02215F),
  (0x24294E, 0x02216A_02216B_022169_022170_02216D_003867_005E71_022178_022179_02217B_02217D_003869),
  (0x24295A, 0x022180_02217E_00386A_022182_022183_022185_02218C_02218B_022196),
  (0x242965, 0x02219A_02219C_0221A2_0221A6_0221B0_0221B3_0221BA_0221B8_0221BD_0221BE_00386B_0221C8),
  (0x242971, 0x020179_0221CB_0221CC_00386E_005E81_0221D7_0221DA_0221DF_003871_0221D8_0221E7_0221E8),
  (0x24297D, 0x005E92_0221E4),
  (0x242A21, 0x0221E5_005E8E_0221E6_0221F0_003874_0221F3_0221F8_0221F4_022206_003877_00387A_0221F5),
  (0x242A2D, 0x0221F6_022202_003876_022203_005E9D_003875_00387B_022204_0221F2_003878_00387F),
  (0x242A39, 0x00387E_00387D_022213_022212_022209_00387C_022208_02220B_003882_022207_02220C_003881),
  (0x242A46, 0x003883_02222C_022219_022220_02221D_003884_005EA8_003885_02221C_02221A_022222_02221B),
  (0x242A54, 0x022221_022224_005EA9_02222F_022226_02223C_022234_022258_022235_022242_02223D_00388A),
  (0x242A60, 0x02223E_02225C_02223B_022257_022251_022236_022233_022253_022247_022243_022238_022245),
  (0x242A6C, 0x022241_02225A_02226D_0222AF_022269_022266_005EC0_022268),
  (0x242A75, 0x022262_022264_02226B_02227A_02227C_022275_00388D_022265_02225D_02225E),
  (0x242B21, 0x00388F_02225F_02225B_00388E_022287_022293_022292_022285_022284_003891_022280_022294),
  (0x242B2D, 0x022296_02229C_005EDC_022298),
  (0x242B32, 0x02229B_022297_003892_005ED9_0222AC_003894_0222A7_02229A_0222B2_0222B1_007DF3_0222B6),
  (0x242B3F, 0x0222AE_0222C2_003896_003897_0222B5_0222C6_0222C3_005EE6_00389C),
  (0x242B4B, 0x0222C5_0222C4_00389B_0222CC_0222DA_0222D4_0222D2),
  (0x242B53, 0x0222DD_0222E7_0222E3_005EEB_0222EE_0222F2_0222F1_0204CC_0222F9_0222FF_00389E),
  (0x242B5F, 0x0222FC_0222FB_022304_022308_02230D_022315_022314_005EF5_02231B_02231D_022326_022328),
  (0x242B6C, 0x02232B_023261_0262EA_02232E_022339_005F05),
  (0x242B73, 0x022346_022347_022348_022353_022351_022355_02235B_022363_02236B_022367),
  (0x242B7E, 0x022371),
  (0x242C21, 0x02237C_02237D_022383_022380_022382_022385_022386_022388_022389_02238C_02238B_02238E),
  (0x242C2D, 0x0038A6_02398F_022394_022395_022396_005F16),
  (0x242C34, 0x0223A9_0223AA_0038A8_0223B4_0223AD_0223B5_0223AB_0038A9_005F1A_0223C5_0223B7_0223BB),
  (0x242C40, 0x0223B9_0223C4_0038AC_0223C2_0223C3_0038B0_0223C6_005F21_0038AF_0223C8_0223CD_0223CE),
  (0x242C4C, 0x0223D2),
  (0x242C4E, 0x0223D9_0223ED_005F2B_0223DA_0223DD_0223DE_0223D5_0038B5_0038B3_0223DF_0223DC_0223EA),
  (0x242C5A, 0x005F2C_0223E7_0223E4_0223E6_0038BA_0223F7_0223EF_0038BB_0223EE_0223F0_005F3D_022406),
  (0x242C66, 0x022402_022403_022404_02240A_02240E_0038C1_0038C0_0038C2_022410_022419_022412_02241A),
  (0x242C72, 0x022414_0038C4_02241E_005F47_005F49_0038C5_02241F_022426_022429),
  (0x242C7C, 0x022427),
  (0x242C7E, 0x022437),
  (0x242D21, 0x022433_022432_02243E_02243F_022444_022445_022447_02244A_02244F_022453_0038C7_022457),
  (0x242D2D, 0x02245D_02245F_022460_022462_022466_022467_02246C_02246E),
  (0x242D36, 0x0038C8_005F5D),
  (0x242D39, 0x02247E_022480_022482_022486_02248D_022489_0038CC_0038CD_022493_022490_022492_022491),
  (0x242D45, 0x022494),
  (0x242D47, 0x0038CE_02249D_0224A3_005F6E_0038D1_0224A9_0038D2_0224AF_0224B2_0038D3_0224B1),
  (0x242D53, 0x0224B7_0224B9_0224BE_005F75_0224C0_0224C3_0224C6_005F7A_0224C4_0224CE_0224CB_0224C8),
  (0x242D5F, 0x0224D4_0224D9_0224D6_0224D2_0224D8_0224DF_0224E2_0224E3_0224DE_0038DF_005F8D_0038DD),
  (0x242D6B, 0x0038DC_0224D7_0038DE_0224E0_0038DB_0038E2_0038E3_0224FB_0224EE_0224F0_0224F5_0224EF),
  (0x242D77, 0x0224FF_022511_022506_005F96_022502_02252A_022501_02250B),
  (0x242E21, 0x005F9D_022505_022508_005FA2_022507_02250A_022527_022521),
  (0x242E2A, 0x022529_005FA5_022524_022525_0038EC_022520_0038EA_022522_022523_022531_0038ED_02254E),
  (0x242E37, 0x022534_022533_022539_02254D_022551_022554_02255A_02255E_022556_022553_0038F1),
  (0x242E43, 0x022563_005FB6_022558_022566_0038F0_022555_022559_022568_005FB8_02256E_02256F_02256D),
  (0x242E4F, 0x02256B_022572),
  (0x242E53, 0x02256A_0038F6_0038F5_02257A_022584_02257B_005FBB_02257D_0038F7),
  (0x242E5D, 0x02258E_022588_005FBE_022591_02258F_022597_022598_005FC1_02259E_02259D_02259F_005FC2),
  (0x242E69, 0x0225A4_0225A6_0225A7_0225A9_0225AA_005FCA_005FC7_0225AC_005FC8_0225B7_0225C4_0225BA),
  (0x242E75, 0x0038FE_0225B5_0225C7_005FCF_0225C2_0225BF_0225C0_0225B4_0225C8_003908),
  (0x242F21, 0x0225CC_005FEC_003909_0225F2_005FF9_0225DE_0225C9_005FF7_005FEF_005FFE_00390B_0225D2),
  (0x242F2D, 0x00390A_003907_0225CB_0225CE_003906_0225F4_0225F0_0225EB_0225ED_0225FA_005FE5_0225EF),
  (0x242F39, 0x0225F9_02260E_003913_003912_02260C_00600B_006036_022606_00390C_00603D_022629_022604),
  (0x242F45, 0x022609_02260A_02260F_022603_003914_00605F_02260D_00390D_006018_00390E_02261F),
  (0x242F52, 0x022647_02263A_003926_00605E_006044_003922_003921_022639_022638_02264B_006058_006066),
  (0x242F5E, 0x003927_00391A_003923_022641_02266E_00392B_02266F_022642_022648_02263C_022634_00604F),
  (0x242F6A, 0x022661),
  (0x242F6D, 0x022684_006099_00608B_022697_003938_02268C_022681_022671_02267A_003931_02267E_003934),
  (0x242F79, 0x003933_003936_003954_0226BA_00609C_0226AD),
  (0x243021, 0x022672_006093_022686_0226BB_00392F_022673_02267F),
  (0x243029, 0x02268B_022682_0226AE_003937_022691_022685_022674_0226AA_0226AB),
  (0x243034, 0x02268E_0226A8),
  (0x243037, 0x00393B),
  (0x243039, 0x00393E_0226E8_003949_022717),
  (0x24303E, 0x003953_0226DF_0226D4_0060D0_003969_003940_0226D2_003947_0226C4_0060E4),
  (0x243049, 0x0226D5_003942),
  (0x24304C, 0x0060DE_0060CD_0226DE_0060D7_00394A_00394C_0226D8_0226CD_003945_00395A_0226DC_022726),
  (0x243059, 0x003951_022723_0226E5_0226D6_02276C_0226D3),
  (0x243061, 0x0226DD_0060D6_02274D_0226E6_0226EE_003956_022736),
  (0x243069, 0x022740),
  (0x24306B, 0x02278A_022738_022749_022729_003961_00395D_022742_02275E_022744_02275F_02272B_02272A),
  (0x243077, 0x022787_02274C_022731_022748),
  (0x24307C, 0x022735_022747),
  (0x243121, 0x02273B_02272D_022741),
  (0x243125, 0x00610C_022753),
  (0x243129, 0x022773_022789),
  (0x24312D, 0x02274A_003963_022728_022757_003964_022739_022774),
  (0x243135, 0x022737_02278B),
  (0x243138, 0x003968_022795_006131_02273F_00396C_02278F_022790_00614F_0227B2_02279F_003973),
  (0x243144, 0x00396D_00612D_02279C),
  (0x243148, 0x02278E_0227A1_0227A7_00614D_0227AE_0227A0_0227BB_0227CA_0227AC_003970_0227A6_022797),
  (0x243154, 0x02279B_00612F_0227CB_022793_006143_003979_02279A_003972_0227F2),
  (0x24315F, 0x0227C5),
  (0x243161, 0x022792_0227A3_0227A5_0227F3_02282D_003987_0227E2),
  (0x243169, 0x0227F4_0227F0_003983_00617B_0227F1_0227E3_0227EB_0227ED_0227E6),
  (0x243173, 0x00398B_0227E9_006160_00397D_00397C_00397E_0227FE_003985_02282E_0227E8_003986_0227E7),
  (0x243221, 0x0227FF_0227F5_003980_003984_0227EF_02281B_0227EC_0227E4_02282C_02281D_006184_0061B1),
  (0x24322D, 0x022850_00619E_022852_02284F_022832_003995_003991),
  (0x243235, 0x022839_022847_006189_022837_00398F_003990_00398E_02283A_022845_02283C_022840_022841),
  (0x243241, 0x022853_003993_022882_0061A5_022843_022831_0061A0_022874_022875),
  (0x24324B, 0x02288C_022851_022848),
  (0x24324F, 0x02288D_022879_02286F_022893_0061BB_022895_022898_022892_0061CE_003997_0061C4_0061B7),
  (0x24325B, 0x0228B0_02289C_02289A_022897_022896_0228A9),
  (0x243263, 0x0039A2_0061CF_0228CA_0228A4_0228C9_003998_0228B9_0228D9),
  (0x24326C, 0x0228D0_0228DD),
  (0x24326F, 0x0228DA_0228D2_0061D7_0228FA),
  (0x243274, 0x0228CE_00399C_0228CF),
  (0x243278, 0x0061DD_0061DA_00399A_0228F3_0228EF_0228DE_0228D3),
  (0x243321, 0x00399D_0228E0_0228F0_022943_0228FB_022906_02290B_022907_022904_0228FF_0228D4_0039A1),
  (0x24332D, 0x0061EF_02290E_02290D),
  (0x243331, 0x022924_022918_022916_022901_022910_022944_0039A5_022931_0039A6_02F8B1_022929_022926),
  (0x24333D, 0x02292F_022927_022932_022936_022930_022937_0039AA_022950_02294F_0039A9_02294E),
  (0x243349, 0x02295A_02292B_02294C),
  (0x24334D, 0x022965_006202_02295D_022967_022973_022978_022970_02297B_02297D_022985_0039AD_022988),
  (0x243359, 0x022989_02298A_02298C_02298D_02298F_02298E_022991_022998_006213_02299B_0039B1_0229B4),
  (0x243365, 0x0229AA_0229B0_0229B1_0229B2_0229B3_0039B6_0229BC_0229B8_0039B4_0229BA_0039B5_0229BD),
  (0x243371, 0x0229BE_0229C7_0229BF_0229C6_0229C5_0229C8_0229D1),
  (0x243379, 0x0229CF_0229CC_0229D2_006220_0229D6_0203B6),
  (0x243421, 0x0229DC_0229D8_0229E0_0039B9_0229D7_0229DD_0229D5_0229DE_0229E5_0229F0_0229E7_0229F1),
  (0x24342D, 0x0229EE_0229E6_0229F3_0039BB_0229F6_0229FC_0229FD),
  (0x243435, 0x022A01_022A0F_022A16_0039BD_022A17_022A14_022A1C_022A1D_022A1B_022A1F_022A21_022A25),
  (0x243441, 0x022A28_00623B),
  (0x243448, 0x022A38_022A44),
  (0x24344C, 0x022A3A),
  (0x24344E, 0x022A48_022A46_022A4B_006244_022A4F_022A51_022A53_022A52),
  (0x243457, 0x022A55),
  (0x243459, 0x022A56_022A58),
  (0x24345E, 0x022A60),
  (0x243461, 0x022A62_00624C),
  (0x243464, 0x022A66_0039C5_0039C4_0039C3_022A6B_00624F_022A6C_022A6D_022A74_02F8B4_022A72_022A71),
  (0x243470, 0x022A81_022A82_022A79_00625D_022A73_0039C7_0039C6_022A70_006265_022A7B_022A7C_022A78),
  (0x24347C, 0x022A77_0039CD_00628B),
  (0x243521, 0x022A91_022A8B_006270_0039CB_022A95_022A8A_022A8D_00628D_022AA4_022AA3),
  (0x24352C, 0x0039C9_006277_022A8E_022AA6_022AA7_022A93_022A92_022AA5_0039E4_0062BA_0039DA_0062B7),
  (0x243538, 0x0039D4_022AB7_022AD0_022ABE_0039D6_022ABA_022ABC_022AE2_0039D5_022AD1_022ABF_022ABB),
  (0x243544, 0x022AB8_022B2A_0039E1_022AE7_022AEE_022AE6_0039EF_022B00_0062FB_0039EB_022AF3_022AF2),
  (0x243550, 0x022AEB_022AFB_022AFA_022AED_022B11_022AE9_022AEC_022AFF_0039EE_022AEF_022AF7_0039E3),
  (0x24355C, 0x0039E5_022B4E_0039E9_006306_0039EA_006300),
  (0x243563, 0x022AF4_022B2B_0039ED_022B2C_00632E_0039F8_022B42_0039F2_006333_0039F7_022B43_022B3F),
  (0x24356F, 0x022B45_022B44_022B48_022B66_022B59),
  (0x243575, 0x022B31_022B37_00635B_022B3C_006351_0039F6_022B41),
  (0x24357E, 0x0039F4),
  (0x243623, 0x0039F3),
  (0x243625, 0x003A03),
  (0x243629, 0x00639A_006378),
  (0x24362D, 0x006391_003A01_0039FC_0039FB),
  (0x243634, 0x0063B9),
  (0x243636, 0x006370_006393_0063A6),
  (0x24363A, 0x003A05),
  (0x24363D, 0x0039FD),
  (0x243644, 0x003A04),
  (0x243649, 0x022B83_022C0D_022C1C_022BFB_022C47_022BF6_022C03_022BF4_022C46_003A12_022BF9_022BF7),
  (0x243655, 0x022BF8_003A14_0063DF_003A09_022C19_022C12),
  (0x24365C, 0x022C33_003A0F_022C06_022BFD_022BF5_022BE9_022BFE_022C0A_022BEE_022C0B_022C0C_0063C1),
  (0x243668, 0x022C41_022C36_022BF0_022C43_022C13_022C11_022C0F_0063D4_022C18_022C16_022C02_022BFA),
  (0x243674, 0x022BFC_022BEB),
  (0x243677, 0x003A0C_0063E7_003A0D_022BF2_022C6E_022C68_022C64_00642E),
  (0x243721, 0x022C7E_022C74_003A1E_022C78_022C77_022C80_003A1D_022C7A),
  (0x24372A, 0x022C5F_003A1F_022C6B_003A1A_022C66_022C61_003A27_022C63),
  (0x243733, 0x003A22_003A19_003A28_022C67_022C76),
  (0x243739, 0x022C6C_003A30_022CCB_022CC7_022CC4_00644C_003A3E),
  (0x243741, 0x003A33_003A38_022CCE_022CEF_003A3A_022CCA_003A34_022CB5_006457_022CC6_022CD7),
  (0x24374F, 0x022CBE_00646A_022CD1_022CFE_022CFD_003A31_003A2E_006465_022CB6_00647F_003A2D_022CD3),
  (0x24375B, 0x022CC1_022CC8_003A3B_006480_022CB4_006486_003A3C_022CBF_003A46_022D48_003A48),
  (0x243767, 0x022D20_022D2A_022D26_022D2C_003A47_022D22_00648D),
  (0x24376F, 0x022D57_006494_022D3E_022D29),
  (0x243774, 0x022D42_022D30_022D3C_003A4D_003A49_003A4A_022D33_0064CA),
  (0x24377D, 0x022D2D_022D8A),
  (0x243821, 0x022D83_022D87_022DB4),
  (0x243825, 0x022D84_022D9B_022D8F_003A54_003A52_003A56_022DAB),
  (0x24382D, 0x022D80_022D9A),
  (0x243830, 0x022D85_022D93_022D96_022D8C_0064CC),
  (0x243837, 0x022DD4_022DE2_022DD0_022DCB_022DD7_0064DF_0064EE_003A5A_022DDE_022DD5_022DCD_022DF9),
  (0x243843, 0x003A63_003A61_003A64_022DFA_003A68_022E09_006503_003A67_022DF8_022DFB_022DF6_0064F6),
  (0x24384F, 0x022E14_022E01_006507_022E2C),
  (0x243854, 0x022E32_00650A_022E34_022E26_022E2B_022E25_003A6D_022E2D_022E27_006517_022E59_022E56),
  (0x243860, 0x022E54_022E52_022E51_022E5A_022E58_003A70_003A6F_022E86_022E6E_003A72),
  (0x24386B, 0x022E88_022E91_022E84_022E89_022E87_022E73_022E85),
  (0x243873, 0x022EA5_022E9E_022E9F_022EAB_003A78_022EB0_022EB3_022EB4_022EB7_022EB8_022EBC_022EBA),
  (0x243921, 0x022EBF_022EC0_022EBE_022EC9_022EC5_022EC3_022EC1_022EC2_022EC7_003A7D),
  (0x24392C, 0x022ECC_022ED3_022ED4_022ED8_022ED5_003A7E_022ED9_022EDC_022EDA_022EDF_022EE3_022EE0),
  (0x243938, 0x022EE4_022EE7_022EEA_022EEC_00653C_003A80_022EEE_022EF1_022EED_022F00_022EFC_022EF4),
  (0x243944, 0x022EF5_022EF7_022F01_022F03_022EFF_022F07_022EF6_022EFB_022F10_006547_003A85_003A84),
  (0x243950, 0x022F11_022F14_022F16_022F19_022F15_022F0C_022F0F_022F36_022F35),
  (0x24395A, 0x003A88_022F27_022F23_022F2D_00654A_022F30_022F31_022F1F_022F2C_022F28_003A87_022F24),
  (0x243966, 0x022F22_006546_022F32_022F42_003A8E_003A8D_022F47_003A8A_022F77_022F6B_022F4A_022F3A),
  (0x243973, 0x022F57_022F55_022F43_022F4B_022F50),
  (0x243979, 0x022F3B_022F3D_006568_022F66_006565_022F70),
  (0x243A21, 0x022F6A),
  (0x243A23, 0x003A91_00656A_022F5A_022F75_00655F_003A95_022F6D_022F78_022F5D_022F76_003A90_022F68),
  (0x243A2F, 0x022F67_003A93_022F69_003A96_022F9A_022F92_022F9B_022F90_022F9C_00656F_022F82_003A9D),
  (0x243A3B, 0x022F9D_022F86_022FA4_022F87_003A9E_022F83_022FA1_022F94),
  (0x243A45, 0x003AA2),
  (0x243A47, 0x003AA0_022FAC_022FAE_022FBC_022FAF_022FAD_022FAA_022FA9_022FBA_022FA7),
  (0x243A52, 0x022FB3_022FBD_022FB1_003AA6_022FC7_006576_022FD6_003AA5_022FCA_022FD5_022FD3_022FC8),
  (0x243A5E, 0x022FD0_022FCE_003AA8_003AA9_022FE0_022FE8_022FE4_022FDE_00657C_022FF5_022FFD_022FF4),
  (0x243A6A, 0x022FED_022FF8_02300A),
  (0x243A6E, 0x023000_023002_023009_02300F),
  (0x243A73, 0x023001_003AAC_023018_023012_023010_02301E_023021_023020_02301D_02302B),
  (0x243A7E, 0x023025),
  (0x243B21, 0x003AAD_02302F_023031_003AAE_023033_023035_023036_02303C),
  (0x243B2A, 0x023049_02304A_00658A_023052_02304F),
  (0x243B30, 0x023057_003AB1_02305F_023062_02305C),
  (0x243B36, 0x006594_023068_006596_02306B),
  (0x243B3B, 0x006598_02306D_003AB4_02306F_023070_023075_003AB6_023074_023079_023077),
  (0x243B46, 0x023084_023086_023087_003AB9_023092_023096_023097_003ABC_003ABD_023099_0065AA_02309C),
  (0x243B52, 0x003ABE_02309D_02309F_0230A5_0230A4_0230AC_0230B3_0230B0_0230B5_0230AE_003AC2_0230BB),
  (0x243B5E, 0x0230BD_0230BF_0065B4_0230C5_0230C8_0230C9_0230CE_0230D2_0230D6_0230D7_003AC4_0065BA),
  (0x243B6A, 0x0065BB),
  (0x243B6D, 0x0230DD_0065C8_0230E7_0230E6_003ACA_0230FE_0230FD_023105_0065D4_02310D_023109_003ACD),
  (0x243B79, 0x02310E_023110_023111_02310F_023113_023114),
  (0x243C21, 0x003ACE_02311C),
  (0x243C24, 0x023118_02311A),
  (0x243C27, 0x02311D_02311F_02311E_023126_023127),
  (0x243C2D, 0x02312E_02312F_023130_023131_023132_02313A_023138_02313B_0065EB_02313F_023147_023144),
  (0x243C39, 0x023149_0065F2_02314D_003AD3_02315F_02315B_003AD9_023165_023164_023161_006605_02315C),
  (0x243C45, 0x006619_02316A),
  (0x243C48, 0x023162),
  (0x243C4A, 0x0065FF_02315D_02318D_023178_003AE0),
  (0x243C50, 0x00661B_023187),
  (0x243C53, 0x023188_02318F_006626_003ADB_003ADE_003ADC_02317B_023177),
  (0x243C5C, 0x023180_02317E_02317A_006623_02318C_003ADD_023196_006648_003AE8_023199_006646_023198),
  (0x243C68, 0x00664E_02319D_023192_023195_006660),
  (0x243C6E, 0x006647_00664D),
  (0x243C71, 0x006640_023194_006651_023197_003AE5_0066FB_003AF0_0231B9_0231B2_0231B3_0231BD_0231D6),
  (0x243C7D, 0x0231CC_0231E2),
  (0x243D21, 0x003AEF_006658),
  (0x243D24, 0x0231D9_0231B5),
  (0x243D28, 0x0231EC_0231F0_023221_023205_003AF8_003AF7_0231E9),
  (0x243D30, 0x00667F_0231EB_00666A_003AFB_02320A),
  (0x243D36, 0x003AF5),
  (0x243D38, 0x0231E7_0231F2_003AF9_023220_0231E4_0231F4),
  (0x243D3F, 0x003B0C_023238_003B04_003B06_006695_003B09),
  (0x243D49, 0x003B02_023246),
  (0x243D4C, 0x023228),
  (0x243D4E, 0x023225_003B07_003B03_023251_02322F_023252_023256_00669B),
  (0x243D57, 0x02326F_003B0D_023259_02325B_023253_023255_023254_003B0F_02325A_02F8D0),
  (0x243D63, 0x02326A_023258_00669E_02325C_0066A3_00669A_0066B6),
  (0x243D6B, 0x003B1A_02327E_023281_003B14_02329D_02327F_003B12),
  (0x243D73, 0x023294),
  (0x243D75, 0x023296_0066B0_0066A9),
  (0x243D79, 0x003B1D_02329E),
  (0x243D7C, 0x02329F_0066BF_0232A0),
  (0x243E21, 0x003B18_0066C2_0232C4_0232B5_022870_0232C6_003B1E_003B1B_0232A7_0232B7_0066CC_003B22),
  (0x243E2D, 0x0232CA),
  (0x243E2F, 0x0232CB_0232CD_0066D4_0232CE_0066D5_0232C9),
  (0x243E36, 0x0232DF_02019B_0232E3_0232E2_003B23_0232F9_003B26_0232DE_025AC2_0232F6_0232F8_0066DE),
  (0x243E42, 0x003B2A_0232F2_0232F5_0232FF_003B2B_0066E7_0066E5),
  (0x243E4A, 0x023308_003B2D_02330D_003B2C),
  (0x243E4F, 0x003B2F_003B2E_0066EA_023317_0066EF_02331C_02331F_023320_0066F1),
  (0x243E59, 0x02332C_023328_023327_02333E_006704_023347_023346_006706_02334F_003B32_023352_023356),
  (0x243E65, 0x006707_020471_02335B_02335F_023363),
  (0x243E6B, 0x00670A_003B33_023365_023366_00670E_003B35_003B34_02336D_023374_00671C_023389_02337A),
  (0x243E77, 0x003B38_00440B),
  (0x243E7B, 0x023384_023385_02F8DA_02338E),
  (0x243F21, 0x003B3B_023393_003B3C_023394_023397_023395_02339B_02339F),
  (0x243F2A, 0x02339A_026856_02339C_0233A9_0233AE),
  (0x243F30, 0x0233B1_0233B2_0233B3_0233B4_0233BA_0233B8_006737_0233C0_0233CB_00675B_0233D1_003B44),
  (0x243F3C, 0x006744_0233D0_006754_0233D2_023403_0233DE_0233FA_0233DC),
  (0x243F45, 0x006788_0233D7_0233D6_0233F6_0233D4),
  (0x243F4B, 0x0233E1_006786_003B4B_0233F8_0233E0_003B4C_006783_0233DA_00679B_003B47_0233D9_0067BE),
  (0x243F57, 0x023441_0067E1_0067BA_02340E_02340B_0067E8_023413_0067BC),
  (0x243F60, 0x02342B),
  (0x243F63, 0x023425_0067FA_02340F_02342E_02342D_02342F_023412),
  (0x243F6B, 0x003B53_02340D_003B54_0067C7_0067CB_023410),
  (0x243F74, 0x02343F_02343D),
  (0x243F77, 0x006824_023443_006825),
  (0x243F7B, 0x02344B_006826_02343B_00684F),
  (0x244021, 0x003B5F),
  (0x244023, 0x003B62_003B5C_00681B_003B5D),
  (0x244028, 0x006836),
  (0x24402A, 0x023440_003B5E_023479_023478_023442_003B60_00682C_003B5A_00683F_003B61_006847_02346E),
  (0x244036, 0x023472_023482),
  (0x244039, 0x023435_023486_003B6A_003B6F_0234B8_00689E_0234BA_0068BA_00688A_0234A0),
  (0x244044, 0x0234B9_003B6D_0068B7),
  (0x244048, 0x006878_006873_003B6B_023480_00688D_003B6E_0234BB_023487_00689A_0068ED_003B7D),
  (0x244054, 0x0234C9_0234C7_0234D1_02352D_02352E_0234CA_02352F_0234C8_003B79_003B7E_0234CF_0234D5),
  (0x244060, 0x0234D4_0234DD_0234E7),
  (0x244064, 0x0234F6),
  (0x244066, 0x00691E_003B88),
  (0x244069, 0x003B87_003B80_0068CF),
  (0x24406E, 0x0068E2_023511_0234CB_0234C3_0234D2_003B82),
  (0x244075, 0x023503),
  (0x244078, 0x023501_0068FF_0068CC_0234C5_0234C6_003B81_0068E5),
  (0x244121, 0x02352B_0235A3_003B78_003B83_0234DB_02352C_023513_003B85),
  (0x24412A, 0x00692E),
  (0x24412C, 0x006925_023506_02352A_006916_006941_023589_023531_02353B_023542_02355C),
  (0x244138, 0x003B9F_006955_02354B),
  (0x24413C, 0x0235A5_02353F_006946_003B8F_003B9C_023595_023538_00695C_003B98_02357E_02353D_02358D),
  (0x244148, 0x003B97_003BB9_023532_023543_003B9B_02353A_02354E_023547),
  (0x244154, 0x00697E),
  (0x244156, 0x02354A_003B94_003B91_023539_023537_02354C),
  (0x24415D, 0x023544_0235A4),
  (0x244160, 0x023541_023545_003BAB_0235B8_0235B5_0235F9_0235AC_003BAD_0235BF_003BAA_0235C1_003BB7),
  (0x24416C, 0x0235C3_0235AD_006992_0235AB_0235D1),
  (0x244172, 0x003BBB_0235D6_0235D8_0069A9),
  (0x244177, 0x0235AE_0235AA_0235D0),
  (0x24417C, 0x0235E5_0235E9),
  (0x244223, 0x0069BA_023611_003BA7_0235BC_0235B7_003BA5_0235B0_003BAC),
  (0x24422E, 0x003B9D_0235FA_0235FB_0235B9_0069E3_023675_003BCE_02361A_023619_006A03_023664_023639),
  (0x24423A, 0x003BCA_023622_003BD9),
  (0x24423E, 0x02362A_023632_023617_023623_023674_003BC3_023676_003BC1_023625_023670_02362C_02362F),
  (0x24424A, 0x003BCC_023672),
  (0x24424D, 0x008FB3_023621_02362E_006A25_0069EF),
  (0x244253, 0x02364A_003BCB_02361E_006A24_023620_023671_006A22_023616_02361B_023631_02361F_02365A),
  (0x24425F, 0x023627_02366B),
  (0x244263, 0x02368C_006A69_006A42_023682_0236AA_02369E_0236B4),
  (0x24426B, 0x006A37_003BD8_023690),
  (0x24426F, 0x023692_003BDB_02373D_0236A2_006A6C_023687_003BD7_023684_0236BC_0236B8_006A76_0236D3),
  (0x24427B, 0x0236AF),
  (0x24427D, 0x02369D_023696),
  (0x244321, 0x003BDC_02369C_02367B_0236EB_023695_0236A0_0236D5),
  (0x24432C, 0x0236AD_0236C1),
  (0x24432F, 0x0236A1_023694_023693_023699_0236A9_006A46_003BE4_0236CA),
  (0x24433B, 0x023704),
  (0x24433D, 0x02373A_0236F5_023702_023707_006A8A_0236F7_0236F4_023739),
  (0x244347, 0x02370D),
  (0x244349, 0x003BDD_003BEE_003BF5),
  (0x24434D, 0x0236FD_003BEF_0236FB),
  (0x244351, 0x023724),
  (0x244353, 0x023787_023742_02377A),
  (0x244358, 0x023752_02374C),
  (0x24435B, 0x02375D_023750_02375A_02374B),
  (0x244360, 0x023778_02375E),
  (0x244363, 0x023748_02374F_02377E_02374D_023758_023747_006AB2_023749_023786_023745_006AAD_02374E),
  (0x24436F, 0x023741_003BF7_023751_003C02_02379D_02379C_023792_023794_003BFE_003C01_0237D1_003C08),
  (0x24437B, 0x006ACF_0237B6),
  (0x24437E, 0x006AD6),
  (0x244421, 0x023793_006AE3_006AD7_0237B7),
  (0x244426, 0x0237B0_006AD2_003C00_003C03_023797_02379F_0237B4),
  (0x244430, 0x0237AD_0237CB_0237CA_0237D0_003C11_006AF6_0237CE_003C15_0237C7_003C0C_003C0A_0237C6),
  (0x24443C, 0x0237CF_0237C8_006AE9_0237D2_0237D8_006AEF),
  (0x244444, 0x006AFF_003C14_0237F8_023814_023801_0237F7_0237F3_0237F9_0237F4_0237F2_0237FA_0237FD),
  (0x244450, 0x02380F_02380E_02381B),
  (0x244454, 0x003C17_02381F_02381C_003C18_02381A),
  (0x24445A, 0x02381D_006B08_023820),
  (0x24445E, 0x006B06_023848_023834_003C1A_02383E_023838_023849_02383C),
  (0x244467, 0x02384A_023837_003C1B_023839_02383A_023865_023855_02384B_023857),
  (0x244471, 0x02384E_02385F_023860_023867_023869_006B1C),
  (0x244478, 0x02386D_023870_023874_023876_02387A_02387D_02387E),
  (0x244521, 0x023885_023882_023887_023881_023886_003C20_003C22_02388B_023893_023895_023892_003C1F),
  (0x24452D, 0x02388A_023890_023889_02388D_02388F_003C21),
  (0x244534, 0x0238A0_0238A6_003C26_0238A3_02389E_003C25_006B29_023897_023898),
  (0x24453E, 0x0238A4_02389D_0238A1_02389B_003C27_0238A5_006B34_0238B6_003C2A_0238AC_003C2D_0238A7),
  (0x24454A, 0x0238AB_003C29_0238B1_006B2B_0238B4_0238B3_003C2B_0238AF_0238AA_003C2C_0238B2),
  (0x244557, 0x003C2F_0238CE_0238AE_006B33_0238BA_003C34_003C35),
  (0x244560, 0x0238DA),
  (0x244562, 0x0238D5_0238CD_0238C9),
  (0x244566, 0x0238C8_0238D2_0238DB_0238DF_0238DE),
  (0x24456C, 0x0238ED_0238E3_003C3B_003C3A_003C3C_003C3D_003C39_0238E9),
  (0x244575, 0x006B44),
  (0x244577, 0x0238E6_0238E2_0238E0_0238FC_0238F6_023907_023901_0238FA),
  (0x244622, 0x0238FB_0238F9_003C41_0238F7_0238F8_0238F4),
  (0x244629, 0x003C40_003C3F_006B52_02390C_023908_02390A_023914),
  (0x244631, 0x02390E_02390B_02390F_023918_02391F_003C44_003C48_003C46_023929_02392A_023928_003C4A),
  (0x24463D, 0x02392F_02392D_02392C_023930_023933_023937_023936_023935_023934_023931_003C4C_02393A),
  (0x244649, 0x02393E_023940_003C4E_023942_023943_02394A_023947_02394B_02395E_023955_023956_023959),
  (0x244655, 0x023961_023951_023963_023964_023966),
  (0x24465B, 0x02396E_023968_023970_023973_023977_02397B_02397A_02397C_023980_02397E_023983_02398C),
  (0x244667, 0x02469C_023989_023987_023990_003C57_006B75_0239A3_0239A9_0239AA_0239A6_0239A7_0239AB),
  (0x244673, 0x0239AF_0239B6_0239B5_0239B7_0239B9_0239BB_0239C6_0239C2_0239C8_0239C4_0239DB_0239CE),
  (0x244721, 0x0239CA_0239CC_0239DC_003C5B_0239CF_0239D0_0239CD_0239D6_003C5A_0239CB_006B7D_0239D9),
  (0x24472D, 0x0239DA_0239E3_0239E4_0239E6_0239E7_0239DF_0239E8),
  (0x244735, 0x0239EA_006B85_0239DE_0239E5_0239EC_0239F2_0239F8_0239F9_0239FF_0239F5_023A00),
  (0x244741, 0x023A02_0239FE_0239F1_003C61_0239FD_0239F6_0239F7_023A09_003C62_006B8E_023A07_006B8C),
  (0x24474D, 0x006B8F_023A0B_023A0A_023A06_003C63_023A0E_023A13_023A14_023A05_003C67_023A23_023A1D),
  (0x244759, 0x023A2C_023A1C_023A1E_023A22_023A24_023A1F_023A20_023A2A_023A18_023A21_023A2B_023A3F),
  (0x244765, 0x023A3B_023A32_023A33_003C6C_023A3E_023A40_003C70_003C72_023A48_006B9D),
  (0x244770, 0x003C71_023A4F_023A5A_023A59_023A54_023A51_003C73),
  (0x244778, 0x006BA6_023A55_006BA7_023A67_003C76_003C75_023A60),
  (0x244821, 0x023A5F_023A62_006BA9_023A61_023A6A_006BAC_023A6B_023A6D_023A76_023A74_023A70_023A71),
  (0x24482D, 0x023A6F),
  (0x24482F, 0x023A77),
  (0x244831, 0x003C79_003C7A_023A7A_023A7B_023A80_023A7F_003C7C_023A83_023A82_023A84_006BB6_023A87),
  (0x24483D, 0x023A89_023A88_006BB8_023A97_003C80_023A8B_003C81_006BBE_003C82_023AAA_023AAC_023AAE),
  (0x244849, 0x003C85_023AB3_0246D7_023AB6_023AC0_003C86_003C88_023AC9_023ACA_023ABB_023ABC_023ABF),
  (0x244855, 0x023ABD_023AD3_023AD2_023AD7_023AD1_023AD9_023ADC_023ADD_023ADE_023AE1_023AE5_023AE3),
  (0x244861, 0x023AE4_023AE2_023AE8_023AE7_023AEA_023AEC_006BD1_023AF1_023AF0_023AF3_023AF4_023AF5),
  (0x24486D, 0x023AF6_023AFA_023AF9_023B02),
  (0x244872, 0x023B06_023B0D_023B0E_023B0F_023B11_023B10_023B15_023B14_023B17_023B19_023B1A_023B1B),
  (0x24487E, 0x003C8C),
  (0x244921, 0x023B2A_023B2C_006BDE_023B2D_003C8F_023B2B_023B34_023B29_023B3B_006BE0_023B3D_023B3C),
  (0x24492D, 0x023B58_023B47_023B42_023B57_023B56_023B51_023B39_023B3A_023B3F_023B44_003C92),
  (0x244939, 0x023B6E_003C93_003C99_023B5D_023B61_023B63_006BE4_023B60_006BE5),
  (0x244943, 0x023B77_023B74_023B7B_023B83_023B7A_003C95_023B79_023B84_003C9E_023B8D_023BA2_023BA4),
  (0x24494F, 0x023BA0_023B8F_023B88_023B8C_023BA1_023B8A_023B8E_023B94_023B90_003C9B_003C9D_023BC3),
  (0x24495B, 0x023BAC_023BB9_023BAA_023BAB_003CA1_023BBE_023BBF_023BA8_003C9F),
  (0x244965, 0x023BB7_003CA2_023BB4_023BC7),
  (0x24496A, 0x003CA4_023BCC),
  (0x24496D, 0x003CA7_023BCB_023BC6_003CA6),
  (0x244972, 0x023BCE_003CA8_023BDC_023BCD_023BD0_023BE4_023BF5_023BED_023BE9_023BE7_006C01_023BEC),
  (0x24497E, 0x023BEA),
  (0x244A21, 0x023C03_003CAB_023BF9_003CAC_023C18_023C0A_023C0C_023C0E_023C17_003CB0_023C28_023C1C),
  (0x244A2D, 0x023C1E_006C0B_023C27_023C1B_023C21_023C29_023C1A),
  (0x244A35, 0x023C2C_023C2B),
  (0x244A38, 0x023C36_023C3A_023C37_023C3C_023C3F_023C42_006C12),
  (0x244A40, 0x023C47_023C48_023C4D_023C57_003CB4_023C61),
  (0x244A47, 0x023C64_023C6B_006C35_023C71_003CB8_006C3A_023C73_023C76_003CB9_003CBC_023C7B_023C78),
  (0x244A53, 0x023C7A_006C61),
  (0x244A56, 0x006C58_006C51_006C77_023C80_023C8A_023C82_003CC6_006C71_006C9E_003CC0_023C91_023C93),
  (0x244A62, 0x023C8F_023C95_006C7B_006C7C_006C9F_006C75_023C92_003CC9_003CCA),
  (0x244A6C, 0x023C9C_006C80),
  (0x244A6F, 0x023CBD_023CDE_006CDE_023CBC_006CE6_003CD8_023CB3_006CCB_003CD0_023CBE_003CCD),
  (0x244A7B, 0x02F8FD_023CB7_003CCC_023CC0),
  (0x244B21, 0x023CB5_023CE0_023CB6_023CD3_023CCA_006CB5_023CBF_023CB2_003CCB_003CCE),
  (0x244B2C, 0x023CE3_023CD6_006CF4_003CD6_023CE9_023CEA_023CF6_006D18_023CF0_006D37_003CDA),
  (0x244B38, 0x023CE4_023CF7_003CDB_023CF2),
  (0x244B3D, 0x023CED_023CEC_006D21_003CDC_023CE6_003CDE_003CD7_006D15_003CDD),
  (0x244B47, 0x023D16_023D67_006D68_006D8B_006D6B_023D3F_003CEF_006D0D_023D3B_003CE5_003CE6_006D73),
  (0x244B53, 0x006D57_003CE7_003CE9_023D37_023D71_003CEA_023D28),
  (0x244B5E, 0x023D55_006D16_023D2A_023D35_003CED_023D23_006D16),
  (0x244B66, 0x023D25_023D20_003CE8_023D21_023D3C_006D8F_023D22_023D1F),
  (0x244B6F, 0x003CEB),
  (0x244B71, 0x006DE7_023D86),
  (0x244B74, 0x003CFE_006DC3_023E39_023DBE_023D7A_023D83_023DCA_023DA3_023DF5_023D79_023DA5),
  (0x244C21, 0x023D9D_003D02_003CF9),
  (0x244C25, 0x023D96),
  (0x244C27, 0x023D8D_023DE0_023D7D_023D8E_023DA6_023D88_023D80_023DA4_003D00_023DA1_003CF8_023DF6),
  (0x244C33, 0x003D04_023DE1_023D9E_006DED_006E04_003D08_023DE5),
  (0x244C3B, 0x023D84_023E0A_003D01_006DAD_023D8B_023D78_003CF5_023D98),
  (0x244C44, 0x003CFC_023DDC_023E08_003D11_006E37_003D0F_003D12_006E75_006E1E_023E18),
  (0x244C50, 0x023E0D),
  (0x244C52, 0x006E3F_003D16_023E12_023E22_006E18_023E09_023DFE_023E1D_003D17_006E48_023E05_023DFF),
  (0x244C5E, 0x023E00_003D20),
  (0x244C63, 0x023E50_003D1B_003D18_023E1A_003D13_006E42_023E0B_023E19_023E03_006E35_023E0E_023E47),
  (0x244C6F, 0x023E1C),
  (0x244C71, 0x023E1B_006E6D_023E0F_006E6A_003D19_023E04_023E5A_023E07_023E20_003D14_023E14_006E7A),
  (0x244C7D, 0x023E29_023E2A),
  (0x244D21, 0x023DFD_023E45_023E10_023E17_003D1D_006E95_003D26_003D2D_023E67_023E6A_003D35_006ED6),
  (0x244D2D, 0x023E5E_023E5F_023E5D_006E9E_003D2E_023E7C_003D2B_023E72_003D37_003D33_003D38_023E61),
  (0x244D39, 0x006E8D_023E81_023E69_023EB3),
  (0x244D3E, 0x023E97),
  (0x244D40, 0x003D41_023E7D_023E06_003D25_023E80_023E75_023EAC),
  (0x244D48, 0x023E65_023E74_006ED7_023E71_003D30_023E76_003D28_003D2F_023E6F_006E97_006EA9_003D27),
  (0x244D54, 0x003D2A_003D2C_023E6E_023EA6),
  (0x244D59, 0x006EDC_023ED2_023ECE_003D3C_006EF3_003D42_023ED5_003D40_023F20_006F1B),
  (0x244D64, 0x023ED3_023EE2_023EEC_023EF1_023EDB_006F16_006F73_003D54_023EEA_006F0C_006F1C_023ED8),
  (0x244D70, 0x006F1D),
  (0x244D72, 0x023F1A_023EF9_023F08_023EFF_006F04_003D43_023EE1_023ED6_023EEB_023EF0_023F0E),
  (0x244D7E, 0x023F0D),
  (0x244E21, 0x023F16_023ECF_006F07_023ED9_023EDA_006F43_023EDC),
  (0x244E29, 0x023F1E_023EE0_023ED1_003D3D_023ED7_023EE5_003D45_006F10_023EEE_023EEF_023F62_023F72),
  (0x244E35, 0x023F87_023F67_023F5A_023F73_006F8A_023F71),
  (0x244E3D, 0x023F45_023F49_003D4E_006F71_006F85_023F55_003D51),
  (0x244E45, 0x023F5D_003D6D_006F65_023F61_003D52_023F65_023FA4_006FD0_006F76_023F9A_023F47_006F46),
  (0x244E51, 0x023F6D_023FA6_003D4A_023F6B),
  (0x244E56, 0x023F4E_023F5C_023F6E),
  (0x244E5A, 0x023F64_023F46_023F5B_023F4C_023F70_003D56_003D4C_023F6F_003D57_003D58_023F68_006F83),
  (0x244E66, 0x023FDF),
  (0x244E68, 0x023FC8_023FC9_023FDE_003D6A_003D65_023FD8_023FE2),
  (0x244E70, 0x003D62_003D61_023FCA_003D6B_006FB8_023FE5_02401D),
  (0x244E78, 0x003D64_003D6E),
  (0x244E7B, 0x024004_006FD6_023FCC_003D63),
  (0x244F21, 0x023FDD_023FE4_003D69_023FC5_023FD3_006FCC_023FCD_003D6C_023FC7_023FC6_003D5F_003D73),
  (0x244F2D, 0x024028_02402B_003D77),
  (0x244F31, 0x003D71_003D75_024035),
  (0x244F35, 0x024026_003D76_006FDD_02402A_003D74_024020_02405D_006FED_024023_003D79_006FD7_02404A),
  (0x244F41, 0x024025_003D72_024072_003D70_003D7B),
  (0x244F47, 0x02403D_003D7A_024032_00700D_024077_02407E_024082_02407D_024066_024097_024075_024079),
  (0x244F54, 0x02406D_024061_024080_024065_02407F_024073_006FFB_0240A0_0240A4_024078_024063_024062),
  (0x244F60, 0x02406C_024068_024071_024067_02406E_007013_02406A_003D7F_0240B2_024083_024081_02406F),
  (0x244F6C, 0x02406B_0240C3),
  (0x244F6F, 0x0240BE_0240BF_0240B7_0240B6_0240E3),
  (0x244F76, 0x0240C2_0240B9),
  (0x244F7B, 0x0240B3_007029_0240B5),
  (0x245022, 0x00702A_0240E8_0240FA_0240E9_007041_0240F2_0240FC_0240EE_0240F6_0240F8_024106_0240ED),
  (0x24502E, 0x003D8E_0240EF_0240EA_0240EB),
  (0x245033, 0x0240FD_007032_0240FB_024116_003D92),
  (0x245039, 0x024113_003D93_003D94_024114_024127_024112_003D98_024111_02410F_02411B_024119_024123),
  (0x245045, 0x003D97_024139_02413D_024138_007057_024137_003D96_02413A_024146),
  (0x24504F, 0x02414B_024151_024152_02414E_02414A_024150_024153_02415A_024163_024164_003D9E_024166),
  (0x24505B, 0x007062_024169_024173_003DA0_024171_024170_024172_024178_024179_02417D_024180_024181),
  (0x245067, 0x00706C_024183_02418F_02419C),
  (0x24506C, 0x003DA5),
  (0x24506E, 0x0241B4_024199_007079_024191_024192),
  (0x245074, 0x00708B_003DA6),
  (0x245077, 0x02419D),
  (0x245079, 0x0241B3_00708D_02419E_007082_007090_02419F),
  (0x245122, 0x0241BC),
  (0x245125, 0x003DAC_0241BE_003DB0_0070A2),
  (0x24512A, 0x003DAE_0241DC),
  (0x24512D, 0x0070BB),
  (0x24512F, 0x0241E8_0241DE_0241BD_0241C5_0070BE_0241C0_003DAD_003DAF_0241E0_003DB2_0241E3),
  (0x24513B, 0x0070C0_003DB3_0241F6_0070D2_024213_0241F3_0241FD_024214_02420A),
  (0x245145, 0x024211_0070DB_02421B),
  (0x245149, 0x0070C9_0241F1_003DB5_0241F0),
  (0x24514E, 0x02424D),
  (0x245150, 0x024228_02422B_003DBE_00710E_003DB9_02425D_02426C),
  (0x245158, 0x003DBA),
  (0x24515D, 0x02424E_02425F_02425E_007107_007101_02424F),
  (0x245165, 0x024227_02424C),
  (0x245168, 0x007108),
  (0x24516B, 0x007124_007125_007122_02426A_003DCB_007123_02426B_02427A_024284),
  (0x245175, 0x003DC8_003DC2),
  (0x24517A, 0x007128_007138_007127_00716D),
  (0x245221, 0x024266_003DC6),
  (0x245224, 0x00711D_024265),
  (0x245227, 0x02429A),
  (0x245229, 0x003DD5),
  (0x24522C, 0x0242B8_0242B9_0242BD_024302_00716F_007142_024303_0242B6_0242C4_003DCE_0242B7_0242C0),
  (0x245238, 0x0242C1_0242C2_003DD2_0242BB_0242EB_003DD0_0242B4_0242BA_003DD8_00714D_0242BF_024301),
  (0x245245, 0x0242ED_0242E5_00718D_02430C_003DE0_02430A_024340_02433F_003DE5_007190_00717F_024310),
  (0x245251, 0x02432D),
  (0x245253, 0x007181_003DE7),
  (0x245256, 0x02430E_024339_003DE4_024337_024313_00718C_003DE1_024314_024316_02433A_00717E),
  (0x245262, 0x02432F_003DE9_02430B_00718E_007193_00718B_024341_003DF0),
  (0x24526C, 0x024350_024355_024356_02435D_024357_003DEB_024398_003DEF_02435E_003DEC_024353_024397),
  (0x245278, 0x02435C_024359_024399),
  (0x24527C, 0x02437C),
  (0x245321, 0x0243A4),
  (0x245323, 0x0243A9_0071D7_0071CC_003DF7_0243D8_0071CD_0071DB_003DF4_0243EE_0071B6_003DF5),
  (0x24532F, 0x0243F8_0243B2_0243A3_003DF9),
  (0x245334, 0x0243A1_0243FC),
  (0x245337, 0x003DF6_0243A5_0243B3_003E00_0243F7_0071F7),
  (0x24533E, 0x02441E_024414_024425),
  (0x245344, 0x0243FE_02441F_024400_0071F2_0243FF),
  (0x24534B, 0x0071EA_003DFE),
  (0x24534E, 0x0243B1_0243F9_0071F0),
  (0x245352, 0x02442A),
  (0x245354, 0x024428_024431_02444C),
  (0x245359, 0x024432_024429_024430),
  (0x24535D, 0x024444),
  (0x24535F, 0x02442E_024433_02442B_024453_024472_024466_024461_024464_007204),
  (0x245369, 0x02447B_007208_024465_007209_024457_024469_02446A_024480_0244A2_024475),
  (0x245374, 0x02449C_024478_024477_003E0A),
  (0x245379, 0x024481_024473_003E0B_02449E_007212),
  (0x245421, 0x02449D_024494_0244A4),
  (0x245425, 0x003E0D_0244A1_0244A6_0244BB_0244BA_0244BD_0244D5_0244D4_0244BC_0244D1_0244CE_0244DA),
  (0x245431, 0x007224_0244DD_0244E4),
  (0x245435, 0x0244E6_003E11_007227_0244EC_007228_00722A_0244F2_0244F4_0244F5_0244F7_0244FB_0244F6),
  (0x245442, 0x0244FE_02450B_02450A_024509_024508_024500_02450E_02450C_02451A_024519),
  (0x24544D, 0x024523),
  (0x24544F, 0x024531_024536_024540_024546_024544_024547_02454A_02454D),
  (0x245458, 0x024551_024552_003E16_003E17_02455A),
  (0x24545E, 0x02455B),
  (0x245460, 0x02455E_02455F_024560_024569_024566_003E1B_024572_024575_02457F_02457E_02457D_024580),
  (0x24546C, 0x003E1C_024586_024587_024585_02458C),
  (0x245472, 0x024592_007245_024593_024598_024596_02459E_02459B_02459C_02459D_024597_0245A2_0245A6),
  (0x24547E, 0x0245AA),
  (0x245521, 0x0245A9),
  (0x245523, 0x0245AD_0245AC_003E1D_003E1E_00724A_0245B3_0245B7_0245B1_0245B4_0245B5_0245BA_003E1F),
  (0x24552F, 0x0245BD_003E21_0245BF_0245BC_0245C0_0245C2_0245C1_0245CD_0245CF_0245C8_0245D3_0245CE),
  (0x24553B, 0x0245D1_0245D9_0245DE_0245DB_0245DC_0245D8_0245E0_00724E_003E22_007254_0245E2_0245EB),
  (0x245547, 0x0245EA_0245E8_0245EE_0245EC_0245EF_0245ED_0245F7_0245F8_0245F6_0245F3_0245F4_0245F5),
  (0x245553, 0x0245FA_0245FC_003E23_0245FE_0245FB_024600_0245FF_024603_003E25_024605_024606_024607),
  (0x24555F, 0x003E27_02460A_024610_024611_024614_003E28_003E29_024618_003E2A_003E2F_024623_024622),
  (0x24556B, 0x024620_003E2D_00726B_02461C_024624_024632_02462B_02461E_024635_02461F_024637_024636),
  (0x245577, 0x003E2B_024621_003E2E_024626_02461D_024627_00726C_02462A),
  (0x245621, 0x02463A_007271_024639_02463E_02464F_024645_02464E_024647_024638_007270_003E32_02463D),
  (0x24562D, 0x003E33_02463B_024648_02464B),
  (0x245632, 0x003E35_024652),
  (0x245635, 0x00727A_024655_003E36_024658_024653_024656_024654_024651_003E37_003E3A_024661_02465F),
  (0x245641, 0x024660),
  (0x245643, 0x02465E_02466D_02465D_02465C_024662_003E3C_024669_003E3B_024664_024677_024689_02467D),
  (0x24564F, 0x024670_024674_024688_024673_024685_02467F_024681_024680_024675_024672_024694_0246A3),
  (0x24565B, 0x0246A1_0246A2_003E46_0246A8_02469B_02469A_0246A4),
  (0x245663, 0x0246B5_024690_024693_007290_02469D_02468F_02469E_02468E_02469F_0246AE_0246C4_0246B0),
  (0x24566F, 0x0246AB_0246C5_007295_003E49_0246BC_0246BD_0246C0_0246B3),
  (0x245678, 0x0246B1),
  (0x24567A, 0x0246AF),
  (0x24567C, 0x0246C2_0246AD_0246AA),
  (0x245721, 0x0246AC_0246DC_0246D1_0246DD_0246D2_0246D0_0246CA_0246D6_0246CB_0246DF_0246CF_0246CD),
  (0x24572D, 0x0246D9_0246CE_003E50),
  (0x245731, 0x0246DA_00729C_0246E2_0246E7_003E51_003E53_0246E5_0246E6_0246EA_0246E9_003E52_0246E3),
  (0x24573D, 0x00729E_0246ED_0246F8_0246F7_003E55_0246F2_0246F6_0246F3_0246F1_0246F5_0246F9_003E58),
  (0x245749, 0x003E59_0246FB_0246FF_024704_024705_003E5A_02470A_024709_024707_02470B_02470C_024710),
  (0x245755, 0x02470D_024711_024713_024715_024714_024718_024716_024719_0215DC_02471B_02471C_02471D),
  (0x245761, 0x024723_024721_02472B_02472E_024722_024729_0072B1_0072B3_024724_024726_024727_024738),
  (0x24576D, 0x024731_024743_024735_003E5F_024737_0072C7_0072BE_02472F_02473B_024749_02473E_02474D),
  (0x245779, 0x02473D_02474E_02473C_003E5D_024730_02473A),
  (0x245821, 0x024746_024745_024747_024744_024748_024739_02476E_02475B_003E61_003E62_02475C_024769),
  (0x24582D, 0x02475E_0072D4_024759_024780_003E66_003E68_024753_024757_003E67_024752_024756_02475A),
  (0x245839, 0x024750_024755_024767_02474F_024754_02475D_024758_003E63_02476C_02475F_024761_024774),
  (0x245845, 0x024778_02478C_003E6C_003E6E_003E6B_024781_024789_02478A_024782_02478D_02478E_003E6D),
  (0x245851, 0x02478B_024775_024771),
  (0x245855, 0x024770_02477B_024779_024777_024773_02476F_024797_02477E_0247B5_0072F5_02479C_02479F),
  (0x245861, 0x003E74_003E73_003E72_0247A1_003E75_02479A_0247BE_0247A2_02479D_0247B4_0247B3_0247B2),
  (0x24586D, 0x0247A0_0247AE_0247C0_0247CB_0247CA_0247C4_007304_003E79_0247C7_0247C3_0247CE_007309),
  (0x245879, 0x003E7F_003E7A_007305_0247D6),
  (0x24587E, 0x003E7B),
  (0x245921, 0x0247D1_0247C6_003E7C_0247C5_003E7E_00730F),
  (0x245928, 0x0247CC_0247D3),
  (0x24592B, 0x0247EA_0247FF_0247FE_0247E3_007333_0247E0_024807_003E82_0247E6_024800),
  (0x245937, 0x0247E8_0247E5_0247E7_0247DD_0247E1),
  (0x24593D, 0x003E81_0247FC_007326_0247DE_0247E2_024862_02481C_00733D_003E8C_02481D_003E8A_024820),
  (0x245949, 0x02480F_02481A_024819_024818_024835_02482B_024836_024810_02480E_024824_02481F_003E88),
  (0x245957, 0x024813_02480D_003E8B_02482D),
  (0x24595C, 0x003E89_02482A),
  (0x24595F, 0x003E8E_024847_024856_024840_024839_02483E_024841_024844_02483F_024843_02483D_007353),
  (0x24596B, 0x024850_003E93_02484F_003E8F_02485F_024842_007359_02485E_024853_024860_024852_02485D),
  (0x245977, 0x024845_024846_024855_007354_003E90_02485C_02483C_024867),
  (0x245A21, 0x02487A_02486D_003E96_024876_024880_00735A_02486A_024870_024864_02486B_024865_024872),
  (0x245A2D, 0x02486C_02488B_024863_02483A_024881),
  (0x245A33, 0x024871_00735B_003E98),
  (0x245A37, 0x02486E_003E95_02487E_024874_02487F_02488F_024890_024892_0248A3_02488D_024897_02488E),
  (0x245A43, 0x003E9B_024893_024894_024896_02488C_024898_024895_0248A7_0248AE_003E9D_003E9F),
  (0x245A4F, 0x0248A8_007374_003E9E_0248A6_0248B6_003EA0_0248BC_0248B7_0248B5_0248BB_0248B9_0248B4),
  (0x245A5B, 0x0248C3_0248A9_003EA1_0248CC_0248C5_003EA6_0248CD_003EA3_003EA4_003EA5_0248D8_0248D2),
  (0x245A67, 0x0248D3_0248D1_0248D7_0248DB_0248DF_0248E0_003EA7_0248E3_0248E4_0248E7_0248E8_003EAA),
  (0x245A73, 0x003EA9_007390_0248EC_0248ED_0248F8_003EAD_0248F0_0248F1),
  (0x245A7C, 0x0248F2_0248EE_0248EF),
  (0x245B21, 0x0248F6),
  (0x245B24, 0x003EB0_0248F9_003EB4_02490A_0248FA_0073AA_003EB5_0073A7_02490B_0248FC_003EB1_003EBB),
  (0x245B31, 0x024911_003EB7_024912_024932),
  (0x245B36, 0x024927_024926_024920_02492C_02492B_0073C4_024931_0073CB_024910_024929_003EB8_003EC2),
  (0x245B42, 0x024952_0073F9_003EC0),
  (0x245B46, 0x0073DF_0073D7_024937_003EC8_024936_003EC3_024954_024953),
  (0x245B4F, 0x003EBF_024959_02495D_003ECD_024977_007411_02496E_024970_0073FB_003ECC_003ED0_02495E),
  (0x245B5C, 0x0249AE_02497D_02497F),
  (0x245B61, 0x003ED6_003ED5_003ED3),
  (0x245B66, 0x007438),
  (0x245B6A, 0x007418_0249A4_02497E_003ED1),
  (0x245B6F, 0x02499D_02498E_024980_024981_024983_003EE0_007450),
  (0x245B79, 0x0249B1_0249B2_007453_003EDF),
  (0x245B7E, 0x0249CA),
  (0x245C21, 0x0249CD),
  (0x245C23, 0x0249D7_0249D8_0249D9_003ED4_0249E5_0249E0),
  (0x245C2A, 0x0249BC_0249EA_024A0E_0249ED_024A25_0249EE_024A0D_0249F5_0249F1),
  (0x245C36, 0x0249EB_007461),
  (0x245C3C, 0x024A18_003EF0),
  (0x245C3F, 0x024A3B),
  (0x245C41, 0x007493_024A1B_003EF2_003EEF),
  (0x245C46, 0x003EF4_024A16_003EF1_007497),
  (0x245C4C, 0x007494_024A42),
  (0x245C4F, 0x024A44_003EF5),
  (0x245C55, 0x024A69),
  (0x245C58, 0x024A68_003EF6_003EFA_003EF9),
  (0x245C5D, 0x0074AE_024A6E),
  (0x245C60, 0x024A83_024A72_003EFF_024A6C_0074B3_003EFD_003EFE_0074BC_0074C2),
  (0x245C6A, 0x024A8B_024AA1),
  (0x245C6D, 0x0074CB_024AAE_003F06_0074B7_0074C6_024AAB_024AAA_024AAD),
  (0x245C76, 0x024ABF_0074CD_0074D1_0074D0_024ACA_024ACB),
  (0x245D21, 0x0074D9),
  (0x245D23, 0x024ADE_024AD8_024AE4_024AE5_024AE3),
  (0x245D29, 0x024AE7_024AE8_024AEA_003F09_003F0A_024AEC_024AEB_003F0B_024AF1_024AF2_024AF9_024AF7),
  (0x245D35, 0x024AF6_003F0D_024AF5_024AFB_003F0F_024AFA_024B03_0074E1_024B01_024B02_003F11_024B09),
  (0x245D41, 0x003F12_003F10_024B0C_024B08_003F13_024B0D_024B15_003F15_024B18_024B1D_024B1B_024B20),
  (0x245D4D, 0x0074E5_024B25_024B26_024B27_0074E8_024B2B_024B29_003F19_003F18_024B28_024B2C_003F1B),
  (0x245D59, 0x024B2D_0074EB_024B2F_024B31),
  (0x245D5E, 0x003F20_003F1E_003F1C_024B34_024B37_024B35_024B36_024B52_003F29_024B3F_024B55_003F25),
  (0x245D6A, 0x003F23_003F26_024B44_024B3E),
  (0x245D70, 0x024B4C_003F22_003F27_024B54_024B51_003F2A_0074FA_024B4F_024B4D_003F28_024B50_024B5E),
  (0x245D7D, 0x003F2B_024B5C),
  (0x245E21, 0x024B5F_024B69_024B67_024B6B_024B71_024B68_024B74_003F37_024B6C_003F3A_024B7B_024B7C),
  (0x245E2D, 0x024B79_003F39_024B7D_024B8C_024B88_024B8D_024B8B_024B89_024B95_003F41_024B8F_024B86),
  (0x245E39, 0x003F42_024B9C_024B9A_003F46_024B9D_024B99_003F45_003F47_024BA1_024BA2_024BA8_024BA9),
  (0x245E45, 0x024BA6_024BA7_024BAA_003F4A_024BAF_024BAD_024BB1_024BB3_024BB0_003F4B_024BB8_024BBD),
  (0x245E51, 0x024BBC_024BC4_003F4D_024BC5),
  (0x245E56, 0x00751B),
  (0x245E58, 0x024BC7_003F4E_003F50_024BCD_024BD0),
  (0x245E5E, 0x024BD6_024BDA),
  (0x245E61, 0x024BDF_024BE1_024BE5_007527_024BFB_024C02_024C05_024C07),
  (0x245E6A, 0x024C0C_024C0B),
  (0x245E6D, 0x024C0E_024C0F_024C11_007534),
  (0x245E72, 0x00753B_024C1F_024C20_0200EB),
  (0x245E77, 0x024C22_007543_024C27_024C26_024C2D_024C33_007549_024C2E),
  (0x245F21, 0x024C43_024C29_024C2C_024C4B_024C44_024C46),
  (0x245F29, 0x024C47_024C2A_003F5A_024C64_024C4D_024C60_024C5F_024C4C_024C63_007558_024C53_024C5B),
  (0x245F35, 0x007560),
  (0x245F37, 0x003F5B_024C4E_007556_024C5C),
  (0x245F3C, 0x024C66_024C75_024C7A_024C77_003F5D_024C72_024C69_024C67_024C74_024C78_024C8D_003F60),
  (0x245F48, 0x024C89),
  (0x245F4A, 0x024C8A_003F5F_024C7E_024CA9_024CA8_024C9A_024C93_003F62_024C97_024C96_024C95_024C99),
  (0x245F56, 0x024C94_003F64),
  (0x245F59, 0x00757B_003F67),
  (0x245F5C, 0x024CAD_024CBB_024CBE_024CC5_024CC3_024CC1_024CC2_024CCC_024CCE_003F69_024CC8_007580),
  (0x245F68, 0x003F6A_024CDF_024CD5_024CD3_024CD8_024CE0_024CDD),
  (0x245F70, 0x003F6B_007585_003F6C_028434_024CE5_024CEA_024CEF),
  (0x245F78, 0x024CF4_024CF3_024CF5),
  (0x245F7C, 0x024CFA_024D00_024D05),
  (0x246021, 0x024D06_024D09_024D13),
  (0x246028, 0x003F70_024D21_024D1F_024D22_024D20_024D23_024D25_003F72_024D28_024D26_024D2E_024D27),
  (0x246034, 0x003F74_00759C_024D33_024D2F_024D52_024D42_024D39_024D40_024D3B_003F7A_024D4A_024D41),
  (0x246040, 0x003F77_024D4E_024D43_024D3E_024D3C_024D58_003F83_024D6C_024D68_024D5B_003F80_024D64),
  (0x24604C, 0x024D57_003F7D_024D66_024D5D_024D6D_024D5F_024D5A_024D6F_003F82),
  (0x246056, 0x024D65_024D60_003F89_024D5E_003F7F_024D70_024D6E_024D93_024D7E_003F8F_024D79_024D81),
  (0x246062, 0x003F8D_024D88_024D7A_003F8E_024D7D_024D7B_024D78_024D94_024D7C_003F8B_003F92_024D8B),
  (0x24606E, 0x024D84_003F97_024D98_003F9D_003F98_024D95_024D9D_024DC1_024DC0_024DB0_024DAE_024DAF),
  (0x24607A, 0x024D9A_024D9B_003F94_003F9F_024D9C),
  (0x246121, 0x024DB2_024DD7_024D97_024DA4_0075DC_003FA0_024D96_024DA0_003F99_024DB4_024DB3_024DB5),
  (0x24612D, 0x024DF9_003FA4_024DC4_024DE7_024DE6_024DEB_0075F3_024DC8_0075F7_003FA8_024DC3_024DC9),
  (0x246139, 0x024DCD_024DD6_024DCC_024DC6_024DF7_024DE8_0075EE_024DD9_003FA7_0075EC_003FA5_024DD8),
  (0x246145, 0x003F9A_024DE2_024DC5_003FA9_024DCA_024DD1_024DCE_024DD5_024DCF_003FA3_024DD4_024DF8),
  (0x246151, 0x024DE4_003FBF_024DFF_007612_024E16_024E08_024E09_024DFE_024E00_003FB0_024DFC_024E06),
  (0x24615D, 0x024E26_024E13_024E21_024E04_024E14_003FAA),
  (0x246164, 0x024E18_024E0C_024E15),
  (0x246168, 0x024E0A_024DFD_024E29_024E17_024E3B_024DFB),
  (0x24616F, 0x003FAE_024E5C_024E2C_003FBE_024E38_024E39_024E3D_007625_003FB8_024E48_024E2E_024E34),
  (0x24617B, 0x024E32_024E5B_024E2F_024E37),
  (0x246221, 0x003FBC_003FB6_003FB9_024E33_024E4A_024E30_003FBD_024E4F_024E4C_024E3C_024E2D_024E4B),
  (0x24622D, 0x024E4E_024E47_024E80_024E64_024E67_024E5E_024E5F_024E60_024E88_024E68_024E65_003FC7),
  (0x246239, 0x024E69_024E74_024E75_024E72),
  (0x24623E, 0x024E61_003FC2_024E66_024E93_024E63_024E86_024E62_00762E_003FC5_024E6C_003FC6),
  (0x24624A, 0x024E78_003FC1_024EAB_024E84_024E8C_024E96_024E9B_024E8B_024E95_00764B_024E94_024EB7),
  (0x246256, 0x024E97_024EC3_024E85_024E9D_024EB8_024E8E_024E83_024E87_024E90_024EA9_024EC4_00765D),
  (0x246262, 0x024EC6_024EC7_024EBC_024EBF_024EC0_024EC2_024ECC_024EC5_024EC1_007653_024EBE_003FCC),
  (0x24626E, 0x024ECD_024EE8_024EDD_024EDA_003FD2_024EE2_003FD1_024ED7_024EDC_024ED9_024EE9_024ED6),
  (0x24627A, 0x024EE6_024EF3_024EF6_024EF7),
  (0x246321, 0x024F03_024F02_007668_024F05_003FD6_024F01_024F00_003FD8_024F0D_024F0C_024F0B_024F17),
  (0x24632D, 0x024F11_024F10_024F12_024F18_024F1A_003FDA),
  (0x246334, 0x024F22_007674_024F26_024F2E_024F31_024F33_024F36),
  (0x24633C, 0x024F3A_024F3F_024F41_024F46_024F42_024F45_024F43_024F47_024F55_024F4C_024F4A_024F56),
  (0x246348, 0x007685),
  (0x24634A, 0x024F53_024F49),
  (0x24634D, 0x024F63_024F62_00768C_003FDF_024F6B_007689_024F66_024F65_024F72_024F71_02031F_024F73),
  (0x24635A, 0x024F84_024F7E_024F85_007697_024F7C_024F7F_024F79_024F7A_024F86_024F88_024F8A_003FE4),
  (0x246366, 0x024F91_024F90_024F92_024F8F_024F95_024F97_024F9D_00769F_024F9B_024FA5_024FA6_024FA2),
  (0x246372, 0x024FA3_024FA7_0076A7_003FE7_024FAD_024FAB_024FB2_024FAE_024FAC_024FB5_003FE8_024FBA),
  (0x24637E, 0x024FBF),
  (0x246421, 0x024FC3_024FC0_003FE9_024FC4_024FC5_024FC6_024FC7_024FCB_024FCC),
  (0x24642B, 0x024FD0_024FCE_003FEB_024FCF_024FD1_024FD3_024FD4_024FD5),
  (0x246434, 0x024FDA_003FEE_024FD8_003FED_003FF0_024FE0),
  (0x24643B, 0x024FE3_024FE4_024FE1_024FDF_003FEF_0076B3_024FED_003FF1_024FE8),
  (0x246446, 0x024FEA_024FE9_024FEF_024FF5_024FF3_024FFC_024FF6_024FFD_024FFB_024FF7_024FF4_024FFE),
  (0x246452, 0x025002),
  (0x246454, 0x003FF4_025003_025008_003FF3_02500F_003FF7_003FF6_02500E_025010_025013_025014_02501D),
  (0x246460, 0x02501E_025018_02501B_003FF8),
  (0x246465, 0x025016_025019_025015_025017_025022_025020_003FF9_025029_025023_02502C_02502B_02502E),
  (0x246471, 0x025031_0076BE_02502F_003FFA_025030_025035_025038_02503A_025039_0076C0_025041_025042),
  (0x24647D, 0x003FFB_025045),
  (0x246521, 0x025047_003FFC_025048_025046_02504B_02504C_003FFD_02505B_02505C_02504E_025052_025050),
  (0x24652D, 0x025060),
  (0x24652F, 0x02505F_025072_004005_0076D9_02506F_025071_02506C_02506E_004004_02507C_025079_025082),
  (0x24653B, 0x004008_0076E2_02508B_025088_025087_025092_0250A3_025099),
  (0x246544, 0x025098_0250B5_0250A6_0250AC_0250A8_0250AA_0250AF_0250A4_0250D0_0250B9),
  (0x246550, 0x0250BA_0250BE),
  (0x246553, 0x00400A_0250C2_0250CC_0250C9_0250C7_026AB9_0250D7),
  (0x24655B, 0x0250D9_0250D8_0250DF_0250E0_00400D_0250E3_0250E4_0250F0_0250EB_0250EA_0250E8_0250E7),
  (0x246567, 0x00400F_0250EE_0250FF_0250FD_004014_0250FA_0250FE_0250F4_025101_0250F9_0250F5_004013),
  (0x246573, 0x004010_025108_025126_00401E_007706),
  (0x246579, 0x0076FF_02511B_004015_007703_0076F6_004018),
  (0x246621, 0x025111_004017_025114_004019_02511D_025113_02511E_02510B_025115_00401C_00401A_02511C),
  (0x24662D, 0x007700_025112_025116_02510D_025118_025156_02513B_025134_007718_025159_02514F_025137),
  (0x246639, 0x00772A_025135_025157_02513D_025131_025151_007716_025132_02513E_007712_025154_025139),
  (0x246645, 0x025158_025141_007717_025138_004024_025144_025152_025142_00402E_02515F_00402D_00773B),
  (0x246651, 0x025187_02515E_025168_004027_025188_025185),
  (0x246658, 0x02518F_025177_025175_02516A_02516C_025166_004028_025167_025189_025160_00402B_025178),
  (0x246664, 0x02517D_025172_02517A_02519D_004036_02519A_0251C7_025196_00402F_0251A5_0251AF_004037),
  (0x246670, 0x00403F_00403C_0251C4),
  (0x246674, 0x025199_02518B_004034_004039_004038_00403E_025197_025194_0251B7_025198_0251A3),
  (0x246721, 0x00403B_007748_0251C3_0251C5_02519F_025191_00774C_007749_004035_004030_004032_004031),
  (0x24672D, 0x02518C_0251A1_02519C_02519B_0251B2_0251F2_0251DC_0251DF),
  (0x246736, 0x004047_0251FF_004045_0251D1_0251DA_023AAD_004044_0251F5_0251F3_0251D9_0251CE_0251D4),
  (0x246742, 0x025200_007753_0251CF_0251CD_0251DE_0251D8),
  (0x246749, 0x0251D5_007767_00403D_0251CC_00775D_0251FE_0251E0_0251ED_022C3F_0251EF_025203_0252AA),
  (0x246755, 0x007774_00404E_02521B_02521A_025205_025214_02521C_025237_007777_004055_025219_025202),
  (0x246761, 0x007775_00404F_007778_00404B_025229_025204_02523B_00404A_00404D_025217),
  (0x24676C, 0x025207_007773),
  (0x24676F, 0x004051_00777C_007781_004052_007772_00404C_007770_004050_025213_00715B_025206_02522B),
  (0x24677B, 0x025212_004054_02520A_025209),
  (0x246821, 0x025215_02520B_025208_004053),
  (0x246826, 0x025255_02523E_02525B_025253_004060_00405F_025251_02523D_025259_007789_025287_025256),
  (0x246832, 0x025267_02525C_025247_025245_02523F_025254),
  (0x246839, 0x02524A_02525D_00405C_025244_00405A_02524C_025240_02525E_007790_004059),
  (0x246844, 0x004058),
  (0x246846, 0x00405B_025270_025250_02525F_025258_02524E_025243_00779D_025289_02527A_004064_004068),
  (0x246852, 0x02527D_025276_025293_004062_02524B_025274_025275_007794_0077AE_004063_025278_02527F),
  (0x24685E, 0x025277_02527E_004067_004065_0252A8_0252A7_004073_025279_0252AB_0077A3_025288_025280),
  (0x24686A, 0x02527B_004069_02527C),
  (0x24686E, 0x00779B_00406C_0252AD_0252AF_0252B5_0077A6_0252B8_00406E_004070_00406D_004071_0252AE),
  (0x24687A, 0x004072_0077A8_0252BF_0252BD_0252BC),
  (0x246921, 0x0252B0_0252AC_0252C1_00406B_0252B4),
  (0x246927, 0x0252B6_00406F_004074_0252E6_0252DC_0252E2_0252E3_0252DE_004078),
  (0x246931, 0x0077B8_0252E1_0252D9_00407A_004075_0252E5_0252E4_004076_004077_0252EF_0252EA_0077C3),
  (0x24693D, 0x025300),
  (0x24693F, 0x02530D_025306_025308_0252FF_02530F_025305_025303_025301_025302_025304),
  (0x24694A, 0x025310_0077CF_02531C_0077CC_025328_02531A_02531E_00407C_02531F_025329_02531B_00407B),
  (0x246956, 0x00407D_004080_02532E_02532D_025330_02532F_00407F_025331_02533E_02533B_02533C_02533D),
  (0x246962, 0x025343_025340_004083_004081_02533A_025349_004082_02534B_025341_02534F_0077D6_025353),
  (0x24696E, 0x025354_02535A_004085_02535D_02535E_004086_025360_025363_025361_025362_025368_02536F),
  (0x24697A, 0x02536D_02536E_025371_02536C_02536A),
  (0x246A21, 0x025373_025372_025374_025375_025378_02537B_025380_02537C_02537A_004089_025385_025382),
  (0x246A2D, 0x025388_025389_025383_02538D_02538B_025391_025390_025392_00408A_025394_025393_025395),
  (0x246A39, 0x02538E_02539B_025398_025396_025399_025397_00408D_02539F_0253A0_0253A3_0253A2_0253A1),
  (0x246A45, 0x0077E1_0077E4_0253AC_0253AD_0253AF_0253AE_0253B8_0253B0_0253B1_004090_0253B3),
  (0x246A51, 0x0253C7_004092_0253B9_0253C4_0253C5_0253C8_0253C6_0077EA_0253BE_0253BA_0253D2),
  (0x246A5D, 0x0253D3_0253CE_0253D6_0253D7_0253DB_0253D8_0253DE_004094_0253DD_0253DC_0253E9_0253E5),
  (0x246A69, 0x0253EA_0253F0_0253EB_0253EF_0253F3_0253F8_025400_025401_025402_025411_025413_025415),
  (0x246A76, 0x0077F5_02541A_004097_025419_02541E_004098_007807_02543F),
  (0x246B21, 0x025444),
  (0x246B23, 0x007818_00780B_00409A_00409C_02542C_02543D_025429_025445),
  (0x246B2C, 0x025438_025432_025448),
  (0x246B30, 0x02544D_02545F_02544A_025461_02544B_025470_025459_02547E_00409F_025463_02545B_025458),
  (0x246B3C, 0x00782A_025450_02544F_02544E_025453_0040A7_0040A0_007828_025447_0040A2_0040A4_025451),
  (0x246B48, 0x025454_025452_025465),
  (0x246B4C, 0x02549E_0040AD_025480_025474_02547A_02549C_025488_025481_025491_0254A2_025473_025482),
  (0x246B58, 0x02547F_0254A7_025479_0040AC_0254A1),
  (0x246B5E, 0x0040AE_0254A3_0254A0_025477_0040A3_007844_0040A9_025499_0040AA_0254A9_02549B_00784A),
  (0x246B6A, 0x02547B_025478_02547D_0254A8_02547C_025497_007870_0254B3_0254AC_0254AA_0040B4_0254AF),
  (0x246B76, 0x0040B6),
  (0x246B78, 0x0254C6_007867),
  (0x246B7B, 0x0254B1_0254AE_0254B0_007863),
  (0x246C21, 0x0254B5_0254AD_007871_0254BC_0040B1),
  (0x246C28, 0x0040B3_0254B2_0040B0_0254AB_0254B6_0254C7_0254C3_007882),
  (0x246C31, 0x0254CC_0254EB_0254E8_0254E9_0254D0_0040B8_0040BE_00787A_00787D_0254CF),
  (0x246C3C, 0x0040BB_0254D6_0040BA_0040BD_00788B_007878_007885_0254CD),
  (0x246C45, 0x0254D1_0254CB_0254D7_0040B7_0254D2_007880_0040BC_0040C7_025509_02553B_0078A6_0078A0),
  (0x246C51, 0x0254FA_0254FC_025508_025501_02552B_0040CC_025507_025529_02550A_0040C8_025528_025502),
  (0x246C5D, 0x0078AE_0040CF_0040CA_025517_0078B5_0254FB_02552A_025500_0254FE_025504_025521_0078B8),
  (0x246C69, 0x02551E_025527_02551C_025545_025541_0078BF_0078BD_025547),
  (0x246C72, 0x025534_0078C6_02552E),
  (0x246C76, 0x02552D_025530_0078C2_0040D6_025546_025531_0040D7_0040D1_025548),
  (0x246D23, 0x0078C3_0040D9_02554E_025556),
  (0x246D28, 0x025552_0040DE_0040DD_0040DB_025561_0078E6_0040DC_025551_025553_025555_025557_02554D),
  (0x246D34, 0x02554F_025554_0078DC_02557C_025563_0078EB_025558_0040E5_0040E6_02557D_025575_0040E1),
  (0x246D40, 0x025572),
  (0x246D42, 0x007902),
  (0x246D44, 0x025570_02557E_025578_0078FC_0040E2_02557A_02557B_025579_02557F_02559A_0040EA_007914),
  (0x246D50, 0x025597_0040EE_025598_02559C_0040ED_025599_00790D_0040EC_0255A0_02378F_0255A4_0255A8),
  (0x246D5C, 0x007906_0040EB_007907_02559E_0040F0_0255AC),
  (0x246D63, 0x0255AB_007918_0040F1_0255BF_0255BB_0255BC_0255C0_0255CA_0040F3_0255D2_0040F5_0040F6),
  (0x246D6F, 0x00792D_0255D3_0255E7_0255DD_0040F9_0255DF_0255EA_0255E6_0255ED_0255EE_0255EB),
  (0x246D7B, 0x007938_0255F5_0040FB_0255FA),
  (0x246E21, 0x0255FB_0255FE_0255FF_025603_025604_007946_0040FF_0040FD_00794C),
  (0x246E2B, 0x02562D_02562B_007952_004101_02564B_004103_025649_007962_02562E_004104_025668_007963),
  (0x246E37, 0x02564E_004106_004105_025666_02566E_025679_004108),
  (0x246E40, 0x02566C_004107_025670_004109_00410C_02568A_00797E_007983_00410E_00410B),
  (0x246E4B, 0x02569A_00797B_025689_004111_02568B_00798C),
  (0x246E53, 0x0256C2_007991_022FC6),
  (0x246E57, 0x0256A6_004113_004114_004119_004118),
  (0x246E5D, 0x02059F_00411C_0256DA_0256DE_0256E5_00411D_00411B_0256D8_0256DD_0256DF_0256F7_0256F0),
  (0x246E69, 0x0256EF_0256F3),
  (0x246E6C, 0x00411F_0079AD_004120_025711_0079AF_025703_025704_025712),
  (0x246E75, 0x025719_025716_02571A_025722_004124),
  (0x246E7B, 0x0079B5_025730_025732_025734),
  (0x246F21, 0x004125_02573D_025742_006B76_023722_02574A_02574C_025751_004126_004127_025752_0079C2),
  (0x246F2D, 0x025755_004129_00412B_02575F_004128_025754_025756),
  (0x246F35, 0x025758),
  (0x246F37, 0x004131_02576D_00412E_025766_02576A_0079D3_004130_02576E_025765_025767_0079D0_00412F),
  (0x246F43, 0x004133_025778_004132_025784_025768_025769_02576B_0079DA_02577E_02577F_02578E_0079D9),
  (0x246F4F, 0x025797_02578A_02578D_02578F_025781_0079DE_0079E5_025783_0079EF_004138_0079E2_0079EE),
  (0x246F5B, 0x0257AF_0257A9),
  (0x246F5E, 0x004148_02579E_00414A_0257AA_004141_0079F6_004145_00413E_0079F2_00413C_025798_004143),
  (0x246F6A, 0x0257B0_004146_0257CB_00413F),
  (0x246F6F, 0x0079F1_0079F5_0079FC_00413B_02579B_02579C_004142_0079F9_02579A_0257A7_0257C5_0257A2),
  (0x246F7B, 0x0257B9_00414F_0257B3_0257C7),
  (0x247022, 0x0257C3_0257BB_007A06_004150_0257B2_004153_0257BC_00414B_00414D_00414E_004151),
  (0x24702F, 0x007A16_0257D3_0257DA_00415A_0257CE_0257CF_0257D2_004155_004156),
  (0x247039, 0x00415E_004159_0257D4_0257D8_007A12_0257D7_0257D5),
  (0x247041, 0x0257CD_007A1D_0257EF_0257FB_0257FA_004154_0257D6_004167_007A35),
  (0x24704B, 0x02580A_0257FD_004169_007A2B_025806_02580D_004161),
  (0x247053, 0x02583D_025809_02580B_025800_007A29_004166_025803_025805_004164_004168_007A2A_00416C),
  (0x24705F, 0x025841_00416F_004176_004174_025832_02583E_02585B_025836_025840_025833_004170_004171),
  (0x24706B, 0x02583A_025845_025837_00416E_025831_025839_025834_02583F_025859_025862_00417B_025866),
  (0x247077, 0x02585F_00417A_025871_025863_025860_025888_02586A_02586E),
  (0x247121, 0x025861_004179_00417C_02585C_025867_004178_025887_004177_0258AD_007A53_02586C_0258B2),
  (0x24712D, 0x02588E_025895_02588A_02588D_00417E_02588F_00417F_007A59_025890_02588C_0258B0_025893),
  (0x247139, 0x007A55),
  (0x24713B, 0x0258AF_004182_0258D3_0258B5_0258B4_0258BB_0258B7_0258B8_004181_0258BD_0258CC_0258C4),
  (0x247147, 0x0258B9),
  (0x247149, 0x0258D7_007A66_0258D9_0258D8_0258DE_0258DF_0258DB_0258CA_0258D6_0258DC_0258DD_007A65),
  (0x247156, 0x0258E4_0258E9_0258EC_0258FC_0258F2),
  (0x24715C, 0x0258F0_0258F8_025902_00418A_025905),
  (0x247162, 0x00418E_025909_025908_007A71_02590B_02590A_02590E_025918_025917_02591C_02591F_02591E),
  (0x24716E, 0x004191_025923_025926_025924_025929_025927_025932_025931_02592D_025928_025933_025937),
  (0x24717A, 0x025934_025935_02593E_02593B_025938),
  (0x247221, 0x007A7C_004196),
  (0x247224, 0x004194_02593F_004193_025939_02593A_025944_025953),
  (0x24722C, 0x004199_025947_025951_025954_025950_02594F_02594E_004197_02594C_02594B_02595D_025964),
  (0x247238, 0x025974_025963_025968_025965_025967_025961_025966_00419C_025971_00419A_00419B_025960),
  (0x247244, 0x00419D_00419F_025973_0041A1_007A99_025979_02598C_025981_025983_007A9B_02597D_025977),
  (0x247250, 0x025985_025986_0041A3_025990_025988_0259A2_025980_025982_02598D_02598F_02597E_02598B),
  (0x24725C, 0x025978_0041A4_02598A_02597F_025976_0259D5_0259A0_0041A6_02599B_02599E_02599D_0259A4),
  (0x247268, 0x0041A8_007AA4_02599F_02599C_0259A5_0041A7_0259A8_0259A3_0259CB_0041AA_0259BF_0259B8),
  (0x247274, 0x0259B9_0259BA_0259C7_007AB2_0259D2_007AB4_0259D9_0041AD_0259DF_0259DB_0259D8),
  (0x247321, 0x0259D0_0259D3_0259DD_0041AC_0259DE_0259D6_0259F9_0259E0_0259D4_0259E5_0259D7_0259DA),
  (0x24732D, 0x0259F2_0041B1_0041B2_0259F1_0259F8_0041B3_0041B0_0259EC_0259EF_0259FB_025A05_007AB9),
  (0x247339, 0x0259F3),
  (0x24733B, 0x0259F6_0259F5_0259ED_0259FD_007ABC_0259F7_0041B5_0041B9_0041B8_025A10_025A0E_025A1C),
  (0x247347, 0x025A0F),
  (0x24734A, 0x025A16_0041BA_025A18_0041B6_025A11_025A0D_0041BC_0041BD_025A22_025A21_025A2D),
  (0x247356, 0x0041BE_025A32_0041BF),
  (0x24735B, 0x025A34_025A33_0041C0_025A30_025A3F_007AC9_025A3E_025A40_025A42_025A3B_025A3C_025A41),
  (0x247367, 0x025A3D_0041C1_025A4A_025A4C_025A4E_025A52_025A54_0041C2_025A55_007ACC_0041C3_007ACE),
  (0x247373, 0x025A57_025A58_025A59_0041C5),
  (0x247378, 0x0041C7_025A65_025A64_025A61),
  (0x24737D, 0x0041C8_007ADC),
  (0x247421, 0x025A62_007ADB_025A66_025A75_025A72),
  (0x247427, 0x0041CB_025A7B_025A7F_025A7E_025A80_025A82_0041CC_0041CD_025A81_025A83_007AE7_007AE9),
  (0x247433, 0x025A8A_025A8F_025A93_025A8C_007AE8_025A8D_0041D1_025A95_0041D2_025A99_025A98_025A9B),
  (0x247440, 0x025A9A_007AEC_025AA7_025AAB_025AA5_025AA6_025AB1),
  (0x247448, 0x007AF4_025AAF_025ABB),
  (0x24744C, 0x025AB3_025AC3_025ABC_0041D5_025AC5_007AF7_025ACB_025AC9_025ACE_025AD9_025ADC_025ADB),
  (0x247458, 0x007B00_025ADF_025AE0_025ADD_025ADE_025AE2_007AFC),
  (0x247460, 0x0041D6_025AEC_025AF0_025AF9_025AF3_025AF5_0041D9_025AF4_007B0C_0041DD_025AF2_025B06),
  (0x24746C, 0x025AEF_0041DB_025AF8_025AFC_025AF7),
  (0x247472, 0x0041DA_007B05_0041DC_025B08_025AFD_025B09_0041E1_0041E0_025B17_025B31_025B19_025B0E),
  (0x24747E, 0x0041E4),
  (0x247521, 0x0041DE_0041E2_025B12_025B10_025B15_0041E6_007B1C_007B16_007B1D_025B25_025B0D_025B13),
  (0x24752D, 0x007B36_025B0F_007B29_025B3F_025B1D_025B1E_007B17_0041E3_007B42_025B2E_025B34),
  (0x24753B, 0x004202_025B35_025B2D_025B43_025B3B_025B2C_025B2A_0041E7_025B40_0041F0_0041EA_025B33),
  (0x247547, 0x007B41_025B71_025B37_0041E9_025B30_025B3A_007B43_025B32),
  (0x247550, 0x025B2B_025B4B_025B3C_007B57_0041EE_0041F5_0041F9_0041FA_025B5B_025BA7_025B60_025B55),
  (0x24755C, 0x025B5C_025B6F_0041FB_025B51_025B61_025B59_025B70_025B8E_025B6B_025B7B_025B67_007B6B),
  (0x247568, 0x0041FC_025B5E_025B62_0041F8_0041F7_025B54_025B6E_025B52_025B65_025B66_025B6A_025B58),
  (0x247574, 0x025B6D_025B5F),
  (0x247577, 0x025B57_0041F6_025B50_025B5D_007BA2_004203_00420C_004209),
  (0x247621, 0x00420D_007B9E_007BA5),
  (0x247625, 0x004204_025B94_025BAE_025BA4_025B9C_025B9D_025BA2_007B83_00420A_025B96_025B95_025BA5),
  (0x247631, 0x007B89_025BC6_025BC3),
  (0x247635, 0x025BFB_025BAC_004207_025B9E_025BAB_025BAA_025BAD_025BA3_00420B_025B9A_025B8F_025B9B),
  (0x247641, 0x025B91),
  (0x247643, 0x025BEE_025B97_004208_025B90_025B8D_004201_025BA8_025BAF_025BA1_025BE2_00421E_025BD6),
  (0x24764F, 0x025BDE_025BEF_025BF2),
  (0x247653, 0x025C24_004227_004218_025BF4_025C05_007BAE_025BFE_025BDD_025BFD),
  (0x24765E, 0x007C08_025BE6_007BBA_025BEA_007BBC_007BC8_025BE4_004223_007BC3_025BD1_00421D_004212),
  (0x24766A, 0x025BFF_025BEB_007BB6_025BF8_025BEC_025BFA_025BD9_025BD8_025BED_025BDA_00421F_007BBF),
  (0x247677, 0x007BC2_025BF3_025BE1_025BDC_004211_025BF6_025BD7_004220),
  (0x247721, 0x025BF7_004225_004219_004222_025BE7_007BBD_007BB0_004216_025BE5_004221_007BBB_025BDF),
  (0x24772D, 0x00421C_025BD4_025C3E_025C46_004236_025C36_00422C_025C1B_025C35_00422E_004234_025C32),
  (0x247739, 0x025C2F_025C30_025C3A_025C42_025C26_025C3C_025C4D_025C1F_025C21),
  (0x247743, 0x025C1C_004237_007BEB_025C31_025C2E_025C47_025C68),
  (0x24774C, 0x025C19_004233_025C3B_025C41_025C39_007BD7_025C29_025C2C_025C25_025C18_025C1D_00422D),
  (0x247758, 0x025C27_025C23_00422B_004232_025C22_007BEC_025C2A_007BEA_025C8C_004239_025CA1_025C9A),
  (0x247764, 0x025C84_025CA0_004240_025CAB_025CC9_025C86_004245_025C90_025C99_025C9D_025CAA_025C78),
  (0x247770, 0x025C8D_025C8A_004241_007BF6_025CA6_025C7A_025C97_025C88_025C8E_00423D_007C15_004244),
  (0x24777C, 0x025C76_025C81_025C75),
  (0x247821, 0x025C85_004243_025CC6_025C7D_025C7E),
  (0x247827, 0x025CA8_025C8F_025C91_004242_025CA2_025C9E_025CA3_025C9C_025C89_025C7F_025C96_025C79),
  (0x247834, 0x025C98_007C04_025C9F_025CFF_025CA7_004238_004246_025C87_025C7B_025C77_00423A_025C9B),
  (0x247842, 0x007BF5_004255_025CE2_025CF0_025CDD_025CDB_025CD8_025CD2_025CF7_025CE5_025D00_007C1B),
  (0x24784E, 0x004258_004259_025CCD_004250_004256_025CE1_025CD1_00424C_025CD0_004248_007C2E_025CD4),
  (0x24785A, 0x025D06_025CF2_025CDC_025CCC_025CD6_004253_025CF3_004257_025CFA_004254_025D11_025D10),
  (0x247866, 0x025CD9),
  (0x247869, 0x025CEC_025CEA_025CE3_025D20_00425A_025CD5_025CF4_00424A_025CCB_025CEE_025CDA_025CC8),
  (0x247875, 0x025CF1_004249_025CDF),
  (0x247879, 0x025CF5_025CCF_025CD7_004252),
  (0x24787E, 0x025CF8),
  (0x247921, 0x025CF9_025D12_025D31_025D30_025D3F_00425D_025D26_025D3A_025D44_025D2F_025D2C_025D2D),
  (0x24792E, 0x025D32_025D39_004262_025D2E_00425F_025D3E_025D25_025D3B_00425E_025D4F_025D49_025D2A),
  (0x24793A, 0x025D21_025D5F_025D38_025D37_025D3C_025D52_025D35_00425C_025D22_025D36_00424F_025D69),
  (0x247946, 0x025D6A_025D63_025D6C_025D72),
  (0x24794B, 0x025D70_025D71_025D67_025D60_025D6B_025D5E_004265_025D6F_007C55_025D61_025D66_025D62),
  (0x247957, 0x025D9D),
  (0x247959, 0x025D6E_025D5D_025D5C_025D64_025D98_004268_025D8F_00426C_025D94_025D91_025DBA_00426F),
  (0x247965, 0x025D86_004266_025D90_004269_025D99_025D8A_00426A_025D9A_025D8C_025D93_025DC3_025D8B),
  (0x247971, 0x025D97_025D87_025D88_025D8D_025D9C_025DA2_025DC1_004271),
  (0x24797A, 0x00426E_025DC2_025DBC_025DBE_025DB7),
  (0x247A21, 0x025DB9_025DBF_025DC6_025DB6_025DB8_025DC0_025DBB_025DC8_025DC5),
  (0x247A2B, 0x004270_025DC7_025DC4_025DC9_007C58_025DB5),
  (0x247A32, 0x025DD6_025DDB_025DDA_025DDD_025DD5_025DD8_025DDE_025DD9_025DDC_007C62_025DEE_025DD4),
  (0x247A3F, 0x025DE9_025DF0_025DEA_025DE8_025DF1_025DEB_025DEC_025DF3_025DF2_025DF9_025DFC_025DFD),
  (0x247A4B, 0x025DFE_025E03_025DFF),
  (0x247A4F, 0x025E09_025E0A_025E08_004278_025E10_025E17_025E1A_025E18_004279_025E22_025E23_025E25),
  (0x247A5B, 0x025E27_025E2A_025E2C_025E32),
  (0x247A60, 0x025E2F_007C80_007C77),
  (0x247A65, 0x005908_007C8A_025E34_025E36_007C8C_025E35),
  (0x247A6C, 0x007C86_00427B),
  (0x247A6F, 0x007C8B),
  (0x247A71, 0x025E4E_025E45_025E4D_025E48_00427D_025E42_025E4C_025E56_025E53),
  (0x247A7B, 0x025E44_025E49),
  (0x247A7E, 0x025E4A),
  (0x247B21, 0x025E43_025E4B_025E47_00427F_025E41_025E71_025E5C_025E6B_025E77_025E5A_004282_025E7B),
  (0x247B2D, 0x004284_025E69_025E63_025E5E_025E5B_007CA4_004281_025E5D_025E61_004285_025E60_004283),
  (0x247B39, 0x025E73_004287_00428A_025E78_025E75_025E89_025E9E_025E76_025E7C_004288_025E7E_025E72),
  (0x247B45, 0x025E7D_025E8A_00428F_00428E_025E9C_025EA3_025E9A_025EA1_007CB8_025E99_025EB7_007CC0),
  (0x247B51, 0x004290_025EA4_007CB7_007CB6_025ECB_00428D_025EB5_025ED5_025EDE_025ED6_025ED3_025EC2),
  (0x247B5D, 0x025EC3_025EC5_004295),
  (0x247B61, 0x004296_025EC8_0042A0_025ECC_025EC4_004299_004298_025EC1_025ED1_025EC9_025ECD_004294),
  (0x247B6D, 0x025ECA_004297_007CC4_025ED2_025EDD_025EE7),
  (0x247B74, 0x025EEE_025EED_025EFE_025EE8_02242B_007CCF_007CD0_025F05_025EF0_025EE5_025EF4),
  (0x247C21, 0x025EEF),
  (0x247C23, 0x025EE4_025EEC_00429A_025F01_025EFF),
  (0x247C29, 0x025F03_00429F_025F00),
  (0x247C2D, 0x007CDA_0042A1_025F02_025F04_025F2D_0042A8_025F2C_007CE4_0042A5_0042A6_0042A3_025F24),
  (0x247C39, 0x025F34),
  (0x247C3B, 0x025F1E_025F1C_025F29_025F27_0042A9_025F2B_025F2A_025F2E_025F21_025F41_025F1A_025F18),
  (0x247C47, 0x025F1B_025F37_025F45_025F3B_025F38_0042AA_025F48_007CEB_0042AB_007CE9_025F1D_025F39),
  (0x247C53, 0x0042AC_025F42_025F3A_0042AD_007CEE_025F50_0042AF_0042B0_025F5B_025F3C_025F59_025F65),
  (0x247C5F, 0x025F67_025F70_0042B2_025F6D_0042B1_025F74_025F73_025F78_025F76_025F79_025F77_0042B4),
  (0x247C6B, 0x025F82_025F8B_007CFF_025F85_025F87_0042B5_025F8A_025F8C_025F90_025F8F_0042B9_025F95),
  (0x247C77, 0x025F93_025FBC_025FBB_025FAF_0042BD_0042BA_025FA3),
  (0x247D21, 0x0042BE_007D0E_025FAE_0042BF),
  (0x247D26, 0x0042BC_025FA2_0042C3_025FA9_007D24_0042BB_025FA1_025FA8_025FB9_0042CC_025FC7_025FCD),
  (0x247D32, 0x0042D0_007D49_025FC3_0042CB_007D2D_007D36_0042CD_0042D4),
  (0x247D3B, 0x025FE1),
  (0x247D3D, 0x025FD5_025FD1_025FCA_007D37_025FC4_0042CF_025FCE_0042C8_007D48_025FCC_025FDE_025FF9),
  (0x247D49, 0x007D74_025FFC_025FFA_025FEC_025FE9_0042D6_026020_025FEE_0042D9_007D7E_0042D7_025FF4),
  (0x247D55, 0x007D2A_007D57_025FF5_025FE8_025FEB_026009_025FE7_025FE6_007D4D_0042D8_007D65_025FF3),
  (0x247D62, 0x02601B_026013_026018_0042DF_007D94_026044_026021_007D87_026028_026024_0042E5_026015),
  (0x247D6E, 0x026014_02601D_02601C_026012),
  (0x247D74, 0x026023_0042E6_026048_026076_026049_026059_026077_026056),
  (0x247D7D, 0x02604A_02605C),
  (0x247E21, 0x02604E_0042EC_0042F1_02604F_02605D),
  (0x247E27, 0x026050_007DB6_007DA5),
  (0x247E2B, 0x0042E9_0042EE),
  (0x247E2E, 0x007DCF_02604D_026073_026081),
  (0x247E33, 0x026099_02609B_0260A0),
  (0x247E37, 0x0260A4_0042F4_004302_02608B_0042F9_0042FB_0042F6_0260A1_0042FE_007E05_0260AB_026095),
  (0x247E43, 0x026088_026086_0042F3_004303_02608D),
  (0x247E49, 0x02608E_026085_026091_004300_026089_0260A2_0042F8),
  (0x247E52, 0x0260D7_004305_007E25_0260C5_0260D8_0260D4_0260CA_0260C4_0260E6_0260E2_0260CC_0260D0),
  (0x247E5E, 0x0260D1_0260DC_0260D2_007E0E_007E19_0260DD_0260D3_0260CB_0260F9_0260C3_0260C8_0260C9),
  (0x247E6B, 0x007E18_0260CF_0260DB_0260E1_0260FD_00430F_026110_026114_004312_026144_004311_00430C),
  (0x247E77, 0x02610C_00430D_02610F_007E2C_02611C_026112_004314_02612F),
  (0x252147, 0x009C3A),
  (0x252221, 0x004318_026115_007E49_026130),
  (0x252227, 0x026119_02610B),
  (0x25222B, 0x004310_007E4C_02614C_02613D_026146_026140_02614B_007E65_026148_00431A_026147_026166),
  (0x252237, 0x007E5D_007E5B_004319_026154_02613E_026160_026167_004317_02614A_02614D_026143_026151),
  (0x252243, 0x02614E),
  (0x252245, 0x0261A5_026186_026189_02618D_026181_02617B_004322_026184_00431F_00431D_02618B_026199),
  (0x252251, 0x026182_02617F_004321_026175_026176_02617A_026179),
  (0x252259, 0x02617E_026188_02617C_026178_007E7A_026198_004324_02619C_0261A0_0261A1_007E7F_0261A3),
  (0x252265, 0x004326_02619F_0261A6_004323_02619E_0261B8),
  (0x25226C, 0x0261D1_0261C0_0261C1_0261AB_0261C5_0261BD_0261BE_0261A8_0261BF_004329_0261C4_0261A4),
  (0x252278, 0x0261BB),
  (0x25227B, 0x00432C_0261D8_0261D7_0261DB),
  (0x252321, 0x0261D4),
  (0x252323, 0x00432D_0261C2_0261D6_0261E8_00432E_0261E9_0261D9_0261EC_0261ED_004331_004330_0261F0),
  (0x25232F, 0x004332_00432F_0261F1_0261F5_0261FA_0261F8_004333_004334_0261FC_004335_007E9D_026203),
  (0x25233B, 0x007E9E_026205_026225_026223_026224),
  (0x252342, 0x026226_026228),
  (0x252345, 0x004346_026229),
  (0x252348, 0x004349_026232_00434A_026231_026237_026230_02622F),
  (0x252350, 0x007F40_026235_026236_026234_02623B_02623A_026241_026242_00434D_026249_026248),
  (0x25235C, 0x026250),
  (0x25235E, 0x026255),
  (0x252360, 0x024541_02625E_02625D_026265_026267_02626B_026277_02628B_02628C_026281_004354),
  (0x25236C, 0x026288_0262A3_0262B3_004357_026290_0262A7_02628F_004355_004356_026291_02629C_026292),
  (0x252378, 0x0262BB_004358_0262AB_0262AF_0262B4_0262BD_0262BF),
  (0x252421, 0x0262BC_0262C8_0262C6_0262CB_0262C9_0262C5_0262E2_0262E0_0262E4_0262E3_0262E1_0262DE),
  (0x25242D, 0x00435F_0262F5_0262F0_0262F3_0262F4_0262EF_0262FF_02630A),
  (0x252436, 0x026300),
  (0x252438, 0x027DC5_026317_02631A_02631F_026312_004362_027430_026326_026320_004363_026321),
  (0x252444, 0x026322_02632D_02632E_02632A_007F84_02632B_02633A_026337_026335_026338_026336_004365),
  (0x252450, 0x026341_02633F_026342_007F8B_02634F_007F8F_02635B_026357_026358),
  (0x25245A, 0x004367_00436B_02636B_026371_00436C_02636D_026377_026366_02636A_026375_026374_02637A),
  (0x252466, 0x026384_026382_02637C_004370_02637B_02637E_026379_00436F_026387_02638E_02638C_02638A),
  (0x252472, 0x004371_007FAB_026397_026398_004375_02639E_02639A_0263A8_004377_0263A5_0263A3_0263A2),
  (0x25247E, 0x0263A4),
  (0x252521, 0x0263AD_0263B1_0263AF_0263B0),
  (0x252526, 0x0263B2_0263B5_0263B8_0263B7_0263C0),
  (0x25252C, 0x0263B9_00437A_0263C2_0263C7_0263C6_0263D4_0263C8_00437C_0263C5_026329_0263D5_0263DC),
  (0x252538, 0x0263E2_0263E5_0263E4_0263E6_021156_0263E8),
  (0x25253F, 0x0263EC_0263EE_02331E_0263F0_0263F1_0263F3_0263F9_0263FB_0263F8_0263F7_026404_02640C),
  (0x25254B, 0x026406_00437E_02640B_026405_026403_026409_02640A),
  (0x252553, 0x007FC7_007FC9_026415_004384_026421_026416_004382_004386),
  (0x25255C, 0x007FD3_004389_026433_026430_02642B_007FD6_026423_00438A_026428_004387_026439_00438D),
  (0x252568, 0x00438E_02643E_026438_00438C_02643A_026440_00438F_00438B_02643F_007FDE_02644B_02644D),
  (0x252574, 0x026448_02644A_02644C_02644E_004390_026447_026451_004391_02644F_02645E_02647B),
  (0x252621, 0x026458_026463_026460_02645B_026459_02645D_026471_02647A_004394_02647E_02647C_026479),
  (0x25262D, 0x026478_026474_026487_026485_026490_026488_02648D_004397_007FFA_02649F_02649D_0264A8),
  (0x252639, 0x0264A6_0264A7_0264B0),
  (0x25263E, 0x0264B6_0264BB_00800A_00439C_0264C8_0264CB_0264CD_0264D0_0043A0_00439F_0043A1_0264D2),
  (0x25264A, 0x0264D3_0264D4_0264D5_0264D6_0264DB_0264D9_0264E2_0264E4_008013_0264E5),
  (0x252655, 0x0043A2),
  (0x252657, 0x0264EC),
  (0x252659, 0x0264F3_0264F1_0264F0_0043A6_0264F9_0043AA_0264FC_0264FB_0264FE_0264FD_0264F8_0264FA),
  (0x252665, 0x008023_0043A9_026505_026511_026506_026502_026503_026504_026508_0043AB_02650D_02650C),
  (0x252671, 0x02650E_02650B_026513_02651E_026515_02651D_02651B_0043B0_026520_00802D_026525_02651F),
  (0x25267D, 0x026526_02652B),
  (0x252721, 0x02652C_02652D_0043B2_026536_026532_026530_02652F_026538_026539_026537_00803A_0043B4),
  (0x25272D, 0x026546_02653F_02653E_026540_00803C_02654F_026549_0043B5_008047),
  (0x252737, 0x008044_026555_008048_026559_008060_026560),
  (0x25273E, 0x00804E_0043B7),
  (0x252741, 0x026576_0043B8_026577_008057_026586_026578),
  (0x252748, 0x008055_02657D_00805C_008059_02658A_02658E_026588_02659D_026589_02658D_0043BA_0043BD),
  (0x252754, 0x0043BB_026590),
  (0x252757, 0x0265BA_0265A2_0265A7_0265A6_0265A9_0265A8_0265A4_0265A5_02658B_0265B8_0043BF_0265AC),
  (0x252765, 0x0265CD_0265BE_0265BD_0265C5),
  (0x25276A, 0x0265C2_0265C0_0265BC_0265BF_0265CE_0265D3_0043C4_0265D0_0265D1_0265D2_0043C7_0043C6),
  (0x252776, 0x0265D7_0265D6),
  (0x252779, 0x0265E5_0043C5_0265D4_0265DC),
  (0x25277E, 0x0265E2),
  (0x252821, 0x0265E1_008074_0265E9_0265EE_0265E7_0265E8_0043C8_0265F3_0265F4_0265F5_0265FB_0265F6),
  (0x25282D, 0x0265FC_00807A_0043C9_026603_026605_02660A_026611),
  (0x252836, 0x026624_026633_02662A_0043CD_026632_026629_02662F_0043CF_026635_02663A_02663C_026639),
  (0x252842, 0x0043CE_026636_026637_008091_00809E_02663E_02663D_0080A4_026668_0080B6_0043D8_026649),
  (0x25284E, 0x0043DC_026647_026659_0043D7_026644_0043D5_0080A3_02663F_02664B_0080B7_026646_026640),
  (0x25285A, 0x02665C_026642_026667_0043D1_02666E_0043E0_02668F_026674_0043E4_026676_026677_026679),
  (0x252866, 0x02667B_0043E1),
  (0x252869, 0x02666C_0043E2_02667A_0080D1_0043E3_0080CB_026675_026678_02666F_026672_0266AB),
  (0x252875, 0x0266B2_02669E_0043EA_0080FF_0266D2_0266CF_0266A3_0266AA_0266B8_0266A2),
  (0x252921, 0x0266AD_0266A4_0080F7_0043EC_0043E7_0266A5_0266A9_0266D0_0043E6_0043E8_0043E9),
  (0x25292D, 0x0043EB),
  (0x25292F, 0x0266A8_0266AE_0266DB_0043F2),
  (0x252934, 0x0043F1_0266D6_0266E3_0266D8_00811C),
  (0x25293A, 0x0266D5_0043F6_0043EF_0043F5_008128_0266DF_0266E0_0043F9_0043F7_026703_0266E2_026704),
  (0x252947, 0x0266DA_0266DE_0266E9_026702),
  (0x25294C, 0x0266F2_0266E4_0266D4_0266DC_0266F0_0266EA_0043FA),
  (0x252954, 0x026701_026710_02670D_02670A_026738_008145_004400_026716_004401_026752_02670E_02674F),
  (0x252960, 0x004405_026707_00813B),
  (0x252964, 0x026706_02670C_00440A_004403_026753_026730_02671B_02670B_02670F_004409_00440B),
  (0x252970, 0x004404_026754_004402_004407_026713_02671C_00816A),
  (0x252978, 0x026760_00815F_026771),
  (0x25297C, 0x00440D_004413_004416),
  (0x252A21, 0x02676E_02676F_026777_02675B_02676A_004419_0267D4_026766_02675F_00441B_004412_02675A),
  (0x252A2D, 0x02675C_004434_026773_026797_00440E_004415_026772_026756_026796_02676D_004414),
  (0x252A39, 0x004410_026765_026770_004418_026775_026774_0267D3_0267AB_0267A4),
  (0x252A43, 0x0267AD_004427_008185_02679F_004424_0267AE_00441F_0267B0_004426_02679E_0267A3_0267D5),
  (0x252A4F, 0x0267A5_004428_0267A2_004420_004429_0267B2_0267C3_0267BA_004430_0267A0_02679D_004422),
  (0x252A5B, 0x026799_0267A1_0267B5),
  (0x252A5F, 0x008190_0267B1_0267DB_026801_0267D8_00442E_0267DF_0081A1_00442D_026826_008192),
  (0x252A6B, 0x0267E7_00442C_0267D9_02680F),
  (0x252A70, 0x0267E5_02681E_0267F0_00442F_0267E3_004433_008196_00442B),
  (0x252A79, 0x0267E6_026839_02683A_026803_026838_026807),
  (0x252B21, 0x026808_026806_026811_0081AF_004438_026805_004439_02683B_026816_00443B_004435_026810),
  (0x252B2D, 0x02680C_026813_02680D_0081AD_026837_026846_02686B_026855_004440_026845_0081B8_026868),
  (0x252B39, 0x026867_026841_026843_0081BC_026842_00443E_02683E_004441_00443F_02686A_02683F_02684C),
  (0x252B46, 0x026847_024443_026872_02687B_026874_026888_026871_026876_02687A_026879_026875_026870),
  (0x252B52, 0x026890_0081D2_026877_026878_02687D_004442_02687C_02688B_02688E_004446_026892_02688F),
  (0x252B5E, 0x02688D_0081D6_004448_004447_0268AB_004449_0268AA_0268A8_00444A_0268A5_0268A9_0268A7),
  (0x252B6A, 0x0268AE_00444C_00444D_0268B8_0268BA_0268C0_0268C2_0268BF_0268C6_0268CB_0268CD_0268CF),
  (0x252B76, 0x0268C7_0268D1_0268D2_0268D6_0268DB_0268DC_0268DE_0268DF_0268E5),
  (0x252C21, 0x0268E2_004450_0268E4_0081E6_0268E6_0268E7_0268E8_0268ED_0268EF),
  (0x252C2B, 0x0268F4),
  (0x252C2D, 0x0081EB_0268FE_026901_026902_026907_026909_026915_026917_026918_02691A_02691C_02691F),
  (0x252C39, 0x026922_026923_026921_026927_026926_02692C_026928_02692B_026938_02693D_02693B_0081F5),
  (0x252C45, 0x026941_026942),
  (0x252C48, 0x026945_026949_02694D_02694B_02694F_026950_026951_004454_026963_026966_02696A_02696C),
  (0x252C54, 0x026970_026972_026973_026984_026985_026986_004457),
  (0x252C5C, 0x02698C),
  (0x252C5E, 0x004458_026995_026991_026997_02699C_026998),
  (0x252C65, 0x02699D_0269A3_0269A2_0269A7_02092B_0269AF_0269AB_0269A9_0269AA_0269B0_0269B2_0269BB),
  (0x252C71, 0x0269BD_0269BE_0269BF),
  (0x252C75, 0x0269C5_02053B_00820F_0269CF_0269C9),
  (0x252C7B, 0x0269D0_0269CD_0269CB_0269D2),
  (0x252D21, 0x0269D8_0269D9_0269DA_0269DB_0269E2_0269DD_0269E0_00445C_0269E9_0269EE_0269F4_008219),
  (0x252D2D, 0x0269F8_0269F9_0269FC),
  (0x252D31, 0x00445D_0269FE_0269FF_00445F_026A06_026A07_026A0D_004460_004461_004462_026A10_026A0F),
  (0x252D3D, 0x026A0E_008225_026A1C_008226_026A1D_004465_026A16_026A19_004464),
  (0x252D47, 0x026A24_026A2C_026A21_026A23_026A26_026A25_00446B_026A3C_00446A_00823D_026A2F_026A35),
  (0x252D53, 0x026A38_026A3E_00446F_008243_026A49_004471_026A5C_026A58_026A4C_004476_026A55_026A4B),
  (0x252D5F, 0x026A4D_004473_02899E_026A56_026A64_004479_00447B_026A71_026A72_026A61_026A62_026A63),
  (0x252D6B, 0x026A6F_026A67_026A6A_026A6C_026A60_026A5D_026A6D_026A5F_026A5E_00447A_026A75_026A78),
  (0x252D77, 0x026A7C_026A7A_026A74_026A76_026A89_004484_026A8B_026A8A),
  (0x252E21, 0x004486_004481_026A88_026A8D_004482_026A8E),
  (0x252E29, 0x026A94_026A9D_026A9A_026A9B_026AA7_026A97_004488_026A98_026A95_026A92),
  (0x252E34, 0x026AA3_026A96_026A99_026A9C_026AAD_026AAC_026AAB_026AAA_026AB1_008267_004489_026AB7),
  (0x252E40, 0x026AB6_026ABD_026ABF_026ABE_026AC3),
  (0x252E46, 0x026ACD_026ACE_026AD3_00448A_026AD5_026AD4_00448B_026AD9_026AD6_026AE1_026AEA_00448D),
  (0x252E52, 0x026AEB_00448E_00448F_026AF0_026AEF_004490_026AF4_004492_026AFE_004493_026AF6_026AFB),
  (0x252E5E, 0x004494_008289_026B01_026B02_026B04_008296_004496_004495_026B05_026B03),
  (0x252E69, 0x0082C4_00449E_026B35_026B1C),
  (0x252E6E, 0x026B1E_026B1A),
  (0x252E71, 0x026B1D_026B17_0082C3_026B22_0082C9_0044A1_0044A4_00449A_026B23_00449F_00449C_0044A0),
  (0x252E7D, 0x026B19_026B16),
  (0x252F21, 0x00449B_026B14_026B18_0082CA_026B68_0082F0_026B48_0044A7_026B40_026B4B_026B61_026B41),
  (0x252F2D, 0x026B39_026B49_0082DD),
  (0x252F32, 0x0044AA_0082DA_026B5F_0082FC_0082E9_0044AB_026B3B_0082F2_026B4A_026B74_026B75_026B70),
  (0x252F3E, 0x026B71_026B91_026B72_008318_026B87),
  (0x252F44, 0x026B6E_026B6F_026B8E_026B6D_008357_026B79_026B88_0044B4_026B73),
  (0x252F4E, 0x00832E_026B7A_0044BD_0044BB_026B81_026B77_026B7E_008355_0044B3_026B76_026BD2_026B7B),
  (0x252F5A, 0x008324_026B7F_00833D_026B7C_026B90_026B78_0044B5_0044C5_026BC7_0044D1_026BD5_0083AF),
  (0x252F66, 0x026BEB_008388_0044CB_0044C2_026BC5_026BD4_0044CE),
  (0x252F6E, 0x0083A3_026BC4_0044CF_026BEA_008371_0044CC_008384_026C19_0044C7_008370_026BBE_0044C6),
  (0x252F7A, 0x026BE7_008380_026BF0_026BB9_026C18),
  (0x253021, 0x026BEE_0044D0),
  (0x253024, 0x0044D3_008394_0044CD_008323_026BD6_026BB7_0044C3_026BBB_0083AE_0083A1_026BB6_026BEF),
  (0x253030, 0x026C08),
  (0x253032, 0x026BC1_0083A5_026BCF_026BD0),
  (0x253037, 0x026BE8_026BB8_026BDF_026BBD_026BDA_026BE3_026BC9_026BEC_026BF3_026BC0),
  (0x253042, 0x026BF2_026BE4_026C48_026C47_0083C3_026C2A_026C63_026C84),
  (0x25304B, 0x026C33_026C43_026C2D_026C4F_026C46),
  (0x253051, 0x008405_026C45_026C36_026C70_026C42_0044DD_0044E7_026C56_026C16_026C3D_026C38_026C6F),
  (0x25305D, 0x026C77_026C2E_026C31_026C53_026C5F_026C5E_026C4C_026C32_008400_026C75_0044E0_026C67),
  (0x253069, 0x026C60_0044ED),
  (0x25306C, 0x0083DE_0083E6_026C51_026C5D_0044DF_0044E1_0044D9_0044D8_0044E4_026C3A_026C2C_026C3F),
  (0x253078, 0x026C2F_026C30_026C3E_0044DA_0044E5_026BF1_026C69),
  (0x253121, 0x026C39),
  (0x253123, 0x026CC0),
  (0x253125, 0x026CA5_026CA4_026D0C_026D15_0084C5_026D0E_026CD4_026CE7_026CF0_026D6C_026CC6_026CC5),
  (0x253131, 0x026D51_004503_026D14_026CF7_026CFE),
  (0x253139, 0x026CD8_026D16_026D10_026D03_026CFA_008467_026CE0_0044F0_026CDB_026CE6_00847F),
  (0x253145, 0x026CD1_026D09_026CCF_026CFF_008481_026CD0_026D00_026CD9_026D0A_026CF5_026D1A_026CC3),
  (0x253152, 0x008488_026D5F),
  (0x253157, 0x0044EE),
  (0x253159, 0x00843A_026CE5_0044F5_026CE2_026D0D_026CDF_026D08_026CCB_026CEC_026CD7_008443_026CD6),
  (0x253165, 0x026D01_026D20_026D24),
  (0x253169, 0x026D2C_026CD5_026CC7_00847E_026CCC_026CCD_026CE3_026CC1_026CEB_026CFD_026D0F_026CDE),
  (0x253175, 0x026D2D_008472_008454_026CC4_026CE1_0044F3_026D50_026CF9),
  (0x25317E, 0x008432),
  (0x253221, 0x026D64_026D8A_026DDF_0084AE_026D84_026D61_026DF3_026D7F_026D8D_0044FD_026DF7_0084D4),
  (0x25322E, 0x026D8C),
  (0x253230, 0x026D9A),
  (0x253234, 0x0084D8_026DA8_026D95_026D77_00450A_026D71_026D6B_026DFD_004505_026D88_004508_004501),
  (0x253240, 0x0084DB_026D99_026D82_026D6D_026DD4_008496_0084A7_026D7C_026DE0_026DE7),
  (0x25324C, 0x0084DC_0044F1_026D68_026D91_026D7D_026D63_026DF9_026D7E_026DDB_026DF2_026D62_004506),
  (0x253258, 0x026D8B_026D8E_004504_026D74_026DD9_004509_026D80_0084C3_026D66_004500_00849B),
  (0x253264, 0x0044FC_026DF5_026DF8_0084DE_0084D7),
  (0x25326A, 0x026E84_026DFB),
  (0x25326D, 0x026E66_026E01_004510_026E2A_004514_026E2E_004513_026E30),
  (0x253276, 0x026E06_004512_026E09_026E7D_026E22_00450E_026EB9_026E0A_026E10),
  (0x253322, 0x026E80_004520_0084F5_026E13_00452A_008504_026E60),
  (0x25332A, 0x026E18_026E17),
  (0x253331, 0x026E77_00852E_026E0F_026E35_026E36),
  (0x253337, 0x005B0A_004519_026E14_026E47_004515_004527_026E0D_00450F_026E19_004521),
  (0x253342, 0x004523_026E38_004524_026E7F_026E12_026E21),
  (0x253349, 0x026E37_026E31_026E1B_026E0C_0084F9_008530_026E07_026E08),
  (0x253352, 0x004518_008575_026E5E_026E44_026E5C_026EA7_026E8C_026EDC_026E98_026EBE_026E91_026E9C),
  (0x25335E, 0x026EC4_026E9E_00453B_026EB8),
  (0x253364, 0x026F07_026EA3_026EA4_004540_004539_026E93_026EBB_00856F_026F0A_004531_00453E_026EB6),
  (0x253370, 0x026E9F_026EA9_026E90),
  (0x253374, 0x026F08),
  (0x253376, 0x026EF0_026EFD),
  (0x253379, 0x026EF3),
  (0x25337C, 0x026E3D_026EA1_026EBD),
  (0x253421, 0x00854C),
  (0x253423, 0x026EDE_00451D_026F22_004534),
  (0x253428, 0x026EC5_026E97_026E94_026E86_026E8B_004533_026EB2_026E8E_026EA8_026EB7_026EAD_026E89),
  (0x253435, 0x026EA2_026F21_026EB0_026EAC_026F0E_026F0C_026F03_008571_026EC3_026F53_00454A_026F58),
  (0x253441, 0x026F39_00454D),
  (0x253445, 0x026F7D),
  (0x253447, 0x026F6F_026F7F_026F3F_026F59_026F65_026F45_008576_026F46_0085A3_026F34_004546_026F6B),
  (0x253454, 0x026F8F_026F6C_026F44_026F75_026F54_00454B),
  (0x25345B, 0x026F57_026F32_026F52_00454E_00857D_004549_0085A5_008592),
  (0x253464, 0x026F56_026F35_026F4A_026F4B),
  (0x253469, 0x026F51_026F47_026F33_026F40_026F3C_026F31_026F43_026F4F_026F50_026FC0_004548_026F55),
  (0x253475, 0x026F41_026F6E),
  (0x253478, 0x026FA6_0085BC_004555_026FB7_0085C0_0085C6_026FB8),
  (0x253521, 0x00455B_026FB0_026FBF_026FC5_004563_026FB6_026FB2_026FB5_026FEE),
  (0x25352B, 0x026FC2_027019_004552_004559_026FB9_027015_027003_00453C_026FAE_026FD6_026FAC_026FAB),
  (0x253538, 0x026FC6_026FB1_026FB3),
  (0x25353C, 0x026FF3),
  (0x25353E, 0x026FBD_026FCE_026FC4),
  (0x253542, 0x027018_027007_027006_026FCC_026FCA),
  (0x253548, 0x004558_026FC7_027014_026FBA_02701A_026FC1_027016_00455D_004557_026FCD_026FBB_004554),
  (0x253554, 0x02700A_02702F_027021_027023_0085E1_0085F1),
  (0x25355B, 0x027035_0270A3_027036_027032_027048_02704D_027049_02703A_02702D_027025_0085F2_02704A),
  (0x253567, 0x02704E_027029_027033_027024_027027),
  (0x25356D, 0x02702C_02704B_0085E0_02703B_027020_0085E7_027028_00455F),
  (0x253576, 0x02709C_0270A8_02708B),
  (0x25357A, 0x004570),
  (0x25357C, 0x02708D_00456E_0270A1),
  (0x253621, 0x027094_0270A6_02709E_004571_02708F_027088_0270A2),
  (0x25362B, 0x02707E_027081),
  (0x25362E, 0x02709B),
  (0x253630, 0x0270A0_027082_004568_027083_027086_027085_027089_0270A9_02707F_0270AB),
  (0x25363D, 0x00860C_0270E7_0270D5_004573_004575_0270D9_0270E8_0270EF_0270D4_0270DF_00861F_0270F9),
  (0x253649, 0x0270E2),
  (0x25364B, 0x0270CF_0270DB_0270DA_0270D8),
  (0x253650, 0x0270D6_02F9B1_0270EA_027114_0270E9),
  (0x253657, 0x008615),
  (0x253659, 0x0270D1_02711C_02711A_02710D_008635_02710F_02711B_027120_027113_027124_027112_0270D0),
  (0x253666, 0x027111_027110),
  (0x253669, 0x02713B_027139_02713F_02714B_027153_027143_027140_02713A),
  (0x253672, 0x027146_02713C_02713E),
  (0x253676, 0x02713D_027138_008641_027158_02715F_00457D_02715A_027157_027170),
  (0x253722, 0x008642_027162_027172_02716E),
  (0x253727, 0x00457F_02717B_02717A_004581_02717D_004583_027189_02718F_004585_027194_027195_004587),
  (0x253733, 0x027199_027198),
  (0x253736, 0x004589_008651_0271A2_0271A1_00458E_0271A3_0271A4_0271A5_0271AF_004592_004590_0271B8),
  (0x253742, 0x0271B9),
  (0x253744, 0x004594_0271BF_004593_0271BB_0271BC_0271BA_004595_004596_0271BD_008660_0271C1_0271C5),
  (0x253750, 0x0271C8),
  (0x253752, 0x0271C9_004597_0271D3_0271CF_0271D0_0271DB_0271E6_0271DC_0271EC_0271DD_0271E3),
  (0x25375E, 0x0271E4_0271DE_0271DF),
  (0x253762, 0x0271E1_0271E7_0271F0_0271ED),
  (0x253767, 0x0271FD_0271F2),
  (0x25376A, 0x0271F7_0271F1),
  (0x25376D, 0x027201_004599_0271FC_00459B_00459A_0271FB_027208_02720C_02720D_02720E_027213_027218),
  (0x253779, 0x02721D_00866D_027226_027227_008676_00459E),
  (0x253821, 0x02722D_027229_02722F_027230_027239_02722A),
  (0x253828, 0x02723E_02724C_027245_02724B),
  (0x25382D, 0x027244_027248_02725B_027251_02723D_00869B_0086A6_027240_027246_02724D_02724E_027243),
  (0x253839, 0x02723B_02724A_027241_008699_0086A5_0086AB_02725E_027261_027262_0045A9_027267_02726C),
  (0x253845, 0x027263_0086AD_02728E_0045A8_027269),
  (0x25384B, 0x02726B_027285_027265_027284_02726F_02728D_027281_0045A4_027277_027264_027270_02726D),
  (0x253857, 0x0272BE_02729C_0272B7_0272AF_02728F_027292_0045B1_027296_02729E_027297_027295_0272A5),
  (0x253863, 0x027298),
  (0x253865, 0x027290_0086E0_02729D_0045AA_0272A0_0272A9),
  (0x25386C, 0x0272A3_0272AC_02729A),
  (0x253870, 0x0045AE_0272A6_027299_0045B2_0045B0_02729F_027294_027293_02729B_0272BD_0272B2_0272B6),
  (0x25387C, 0x0272CA),
  (0x25387E, 0x0272F2),
  (0x253921, 0x0272D1_0272D0_0272D6_00871F_0272CD_0272D4_0045B6_0045BC_0272CB_0272E8_0272CE_0272E1),
  (0x25392D, 0x0272D5_0272CF_0272F1_0086FD_0045B7_0272D3_0272DA_008714_0272C8_0272C9_0272D7_008701),
  (0x253939, 0x027301_027306),
  (0x25393C, 0x027341_0045C6_027303_02732C_008736_02730A_0045CA_00871D_00871B),
  (0x253946, 0x027310_027311_027317),
  (0x25394A, 0x027325_008738_027309_02733C_0045C0_027323_02731D_027319_027314_0045C1_027304_00876B),
  (0x253956, 0x02731A_0045C9_02730E_027327_0045C2_02730F_008744),
  (0x25395E, 0x02731C_02733E_02730C_027307_027313_008735_027316_027318_00872A_02731B_027305_0045C4),
  (0x25396A, 0x0045C7_0045BF_027322_027340),
  (0x253970, 0x008777_027366),
  (0x253973, 0x00875E_0045CB_027367_027379_02737E_02737F),
  (0x25397A, 0x027374_027369_027354_008770_027375),
  (0x253A21, 0x0045CE_027384_02735C_027388_00876D_027396_027360_027352_008767_027365_027395_0045CC),
  (0x253A2D, 0x027377_00876C_0045D3_027378_02737B_02737C_027383_02736E_008775_027355_027370_02736F),
  (0x253A39, 0x02736D_0045D4_027372_02736C_027376_027399_00878F_0273BF_0273B8_0273A1_0045D9_0087A4),
  (0x253A45, 0x0273C5),
  (0x253A47, 0x0273A2_0273BD_0273C6_0273CC_0273A8_0273C4_0273B9_0273B1_0273BA_0273C2_0273A6_0273A4),
  (0x253A53, 0x0273E5_0273A3_0273E7_0273CA_0273AB_0273B2_0273A9_0273AA_0273AC_0273B6_0273B5_008790),
  (0x253A60, 0x0273B7_0045DB_008791_0273AD),
  (0x253A65, 0x0273EB),
  (0x253A67, 0x0273BC_02741A_027417_027408_0045E0_0273F9),
  (0x253A6E, 0x027434_0087CE_0045DF_027412),
  (0x253A73, 0x027419_0045E3_02740D_027416_0273FA_0045E1_0045EE_027414_0087DE_02744C_02742C_0273FB),
  (0x253B21, 0x027413_02741E_027405_02740B_02740C_027411),
  (0x253B28, 0x0045E2),
  (0x253B2A, 0x0087CD),
  (0x253B2C, 0x0045E8_02740E_027404_027440_027432_027458_02745A_02745E_027452_0045F2_027446_027459),
  (0x253B38, 0x0087D7_027448_02745F_027454_0087E4_02745D_027467_027456_027488_027461_02745C_027468),
  (0x253B45, 0x02744A_02744B_027451_0045F1_027469_0045F0_027475_027447_02746B_0087F1_027453_0045EF),
  (0x253B51, 0x027466_027464_027482_0274C2_02749F_0045F8_0045F7_008800_027493_02749C_02749D_027498),
  (0x253B5D, 0x0045F5_027497_008802_02749A_0274A8_008808_0274A9_0274AA_02748E_00881E_027491_027499),
  (0x253B69, 0x008804_0274C1_0274C0_0045F4_0274BA_0274C9_0274D4_0274CF_0274D5_0274E8_004604_0274CB),
  (0x253B75, 0x0274D0_0274D8_0274E9_0045FC_0274D6_0274D7_0274EA_0274E7_0045FA_0274D3),
  (0x253C21, 0x008824_027502_0274FA_0274F8_0274F2),
  (0x253C27, 0x0274F1_004602_027516_0274F9_0274F4_0274F6_0274F7_027500_027505_02750F_0274FB_02750E),
  (0x253C33, 0x0274EC_027517_027520_02751F_004606_02752B_00882C_027521_027526_02752C_027528_027523),
  (0x253C3F, 0x02751D_027537_027525_027524_027534_02752A_02753C_02752E_027522_027530_027536_027527),
  (0x253C4B, 0x027533),
  (0x253C4D, 0x02754A_02754D_027555_004608_027552_00460C_027551_027546_02754C_027549_027543_027547),
  (0x253C59, 0x02754B_027559_027562_027561_027569_02755C_027568_027565_02755F_027564_02755E_027567),
  (0x253C65, 0x02756E_027574_027579_027571_027570_027575_027578),
  (0x253C6D, 0x00460D_02757C_02757A_027581_02757F_027585_027587_027586_027584_02758B_00883F_00460E),
  (0x253C79, 0x027591_027592_027595_027598_02759B_027599),
  (0x253D21, 0x020474_02759C_0275A3_0275A2_0275A7_0275AA_0275AB_0275AC_0275AE_0275B7_0275B5_004612),
  (0x253D2D, 0x0275BB_0275BF_0275BA_0275BC_004614_0275C1_0275C8_0275C6_0275CC_0275CB_0275CE_0275CF),
  (0x253D39, 0x0275D5_0275D6_0275DE_0275E1_0275E2_0275E3_00884F_0275E6_0275E9_0275E8_008851_0275EC),
  (0x253D45, 0x0275F0_02252C_004616_0275EB_0275F3),
  (0x253D4B, 0x0275F9_0275FC_004618_022585_0275FF_02258B_0225A1_00461A_008867_02760F_00461D_02760D),
  (0x253D57, 0x027613_027611_02761C_027610_027612_02760E_02761E_00461F),
  (0x253D60, 0x027622_027625_00887C_02762A_02762C_027621_027623_027627_027629_004621_008883_02762B),
  (0x253D6C, 0x027633_02762E_027647_008895_027640_008889_027644_027648_027642_004626_027645_02765B),
  (0x253D78, 0x004624_004625_0088A6_00889D_02765D_027646_027649),
  (0x253E21, 0x02764F_02764C_0088AC),
  (0x253E25, 0x027661_02765E_027662_027660_02763E_0088BB_00462C_00462D_027663_02766B_027678_027665),
  (0x253E31, 0x004623_02765F_02767A_0088BD),
  (0x253E36, 0x0088B6_027674_02766C_027676_02766F_02766D_027669_02766A),
  (0x253E3F, 0x027675_027668_02767E_027681),
  (0x253E44, 0x027685_0088D6_027688_00463B_027682_027686_02768F_02768A_0088D0_0088CD_00462F),
  (0x253E50, 0x027689_027683_0088D1_027684_027687_027680_027690),
  (0x253E58, 0x0276A1_027692_008901_0276AC_0276AA_00463E_00463A),
  (0x253E60, 0x0276B6_0276AB_0276A5_004634_0088FF_0088E9_0276C2_0276C3_0276A7_0088EB_0276AE_0276AF),
  (0x253E6C, 0x0276B7_004635_004642_0276B3_0276C4_0276BC_0276B5_0276C1_0276A9_0276A4_0276D6_0276CF),
  (0x253E78, 0x004646_0276E2_0276D0_004645_0276D1_004647_0276E1),
  (0x253F21, 0x0276D8_027733_0276BB_0276D3_0276D5_0276DF_0276DA_0276E9_004644_0276D2_0276DB_0276DD),
  (0x253F2D, 0x0276E4_0276DC_0276E3_0276E7_004651_008928),
  (0x253F34, 0x00892C_0276FB_0276FE_0276FA_027704_027714_027706_027713_027703_027702_0276FC_0276F9),
  (0x253F40, 0x027715_027701_0276F8_027707_02770B_027709_02770A_02770D_0276FD_02770C_02771A_027708),
  (0x253F4C, 0x0276FF_008929_027720_02773D_027725_027721_027730_027727_027726_02771D_004666_027731),
  (0x253F59, 0x02771E_02772C_027732_00465C_027722_02771F_027724_02773C_02776C_02774E_02774A_02774B),
  (0x253F65, 0x027758_027759_00465E_027747_02776F_027742_027744_02776A_027735_027746_004660_02776D),
  (0x253F71, 0x004659_02775C_00894A_004661_027754_02776E_00894E_02774C_004663_027748_027757_027751),
  (0x253F7D, 0x02775A_02774F),
  (0x254021, 0x027763_027755_027756_027778_004665_027780_027776_02777D_027774_027772_004664_008959),
  (0x25402D, 0x027773_02777E_027777_02778D_027796_0277A3_02779B_02779D_027794_004669_004666_004668),
  (0x254039, 0x0277A6_02778F_02779E_004667_02778E),
  (0x254040, 0x027799_027792_027797_027795_0277A7_0277A8_0277B0_0277AD_0277A9_0277AA_0277AE_0277AF),
  (0x25404C, 0x00466A_0277B7_0277BD_0277B8_0277BA_0277B9_00466D_0277C4_00466F_00466E_0277CA_0277C3),
  (0x254058, 0x0277C9_0277CE_0277CC_008978_0277D1_0277D5_0277D8_0277D9_0277DA_0277DC_0277DE_0277E2),
  (0x254064, 0x0277E1),
  (0x254066, 0x0277E6_004672),
  (0x254069, 0x0277E7_004674_0277EA_0277EC),
  (0x25406E, 0x0277F8),
  (0x254070, 0x027802_027806_027808_00898E_02780B_02780D_02780E_027810_004679_02781B_027813_027818),
  (0x25407C, 0x02781A_02780F_027812),
  (0x254121, 0x00467E_027823_00467D_00467F_00467C_027826),
  (0x254128, 0x02781E_008999_02781F_02781C_027830_027834_027836_027829_02782B_027838_02782A_004680),
  (0x254134, 0x02783D_027849_0089A0_004682_027845_027848_027847_004683_02783F_02783C_02783E_02785F),
  (0x254140, 0x02784F_02785A_02784D_027851_02785C_027855_004684_027856_027862_027861_027875),
  (0x25414C, 0x004689_02786B_004688_0089A8_004686_004687_027876_02786F_027863_027864_027866_02786C),
  (0x254158, 0x0089AB_0089AE_00468A_02787A_02787C_00468C_027886_027888_0089B1_027882_02788B_027890),
  (0x254164, 0x004692_00468F_0089B4_004693_0089B5_004691_004690_027894_027896_027892_02789B_0089BE),
  (0x254170, 0x02789D_0278A1_0278AA_0278A7_0278AC_0278AD_004696_0278AF_0278B5_0278B6_0278B9_0278CC),
  (0x25417C, 0x0278C1_0278C3_0089D9),
  (0x254221, 0x0278BE_0278BC_0089D8_0089D7_0278BD_0278CF_0278CB_0278CA_0278D6_0278D9_0278D2_0278DA),
  (0x25422D, 0x0278D1_0278DB_0278D5_0278DF_0278E6_0089E2_0278E2_0278E4_0278E1_004698_0278E3_0278EC),
  (0x254239, 0x0278EB_0278EA_0278ED_0278E9_00469B_0278F9_027900),
  (0x254241, 0x0278F8),
  (0x254243, 0x0278FC_00469F_0046A0_027903_027909_0278FA_0278F7_00469C_0278F5_02790E_02790D_027915),
  (0x25424F, 0x027913_027912_027921_027916_027910_027917_02790F_027919_027911_02791E_0089F2_02791B),
  (0x25425B, 0x02792E_027923_027928_027920_02791F_0046A7_027932_027930_027933_027935_0046AC_02793D),
  (0x254267, 0x02793B_0046AA_027949_02794B_027948_02794A_02794C_02794D_027953_0046AD_027957_027959),
  (0x254273, 0x02795B_02795C_02795F_02795E_0046AF),
  (0x254279, 0x008A05_027966_02796D_027964_027963_008A14),
  (0x254321, 0x008A09_0046B5_008A26_027991),
  (0x254326, 0x027992_008A2F_02797C_027980_0046C3_027971_0046BC_02796E_0046B3_027975_008A32_027982),
  (0x254332, 0x008A28_02799B_027978_02798E_0046BE_0046BD_027979_0046BF_027974_0046C0_0046B8_008A1C),
  (0x25433E, 0x0046BB_027990_027972_02798D_008A5D_0046CE_008A43),
  (0x254346, 0x0046C9_0279A0_0279B9_0279B8_0279AE_0046CD_0046CF_0279AF_008A4D_008A59_0279A4_02799E),
  (0x254352, 0x0046CB_008A37_0046C5_008A5C_0279A2_02799F_0279A8_0046CC_0046C8_0046C7_008A38_0279AD),
  (0x25435E, 0x0279BA_0279E9),
  (0x254361, 0x0279D5_0279C4_0279C9_008A81_0279E0_0279C5_0279DF_0279CB_0046DA_0279DD_0279D8_0279CC),
  (0x25436D, 0x008A3F_0279DC),
  (0x254370, 0x0279C8_0279CF_0279D6),
  (0x254374, 0x0279C6_0279D3_0046D9_0046D8_0279D4_027A1C_027A1F_0279FC_0046E8_008AAB_0046DF),
  (0x254421, 0x027A18_027A17_027A21_0279F7_008A9B_0279F5_027A0A_0046E0_0046DD_027A07_027A03_0046DE),
  (0x25442D, 0x0279FE_008AA2_0046E3_027A0B_0046E4_0279F8_027A04_027A25_027A00_008A9C_008A94_0046E2),
  (0x254439, 0x027A02_0279F6_0046F7_027A47_0046EA_027A45_027A3E_027A54_027A55_027A31_008ADA_008AB3),
  (0x254445, 0x008AC1_008AB1_027A46_0046EF_0046ED_027A34_008ACC_027A3F_0046F4_027A27_027A44_027A29),
  (0x254451, 0x027A35_027A5A_0046EB_0046F0_027A32_0046F1_027A38_027A2A_027A33_027A37_027A43),
  (0x25445E, 0x0046EE_0046F5_008AB5_027A39_027A30_027A5D_0046F2_027A52_027A53_027A48_008AEA_027A79),
  (0x25446A, 0x027A70_027A71_027A74_008AE8_027ADC_027A72_027A66_027A7C_027A76_027A6C_027A87_027A95),
  (0x254476, 0x027A93_0046FC_027A78_0046F9_008AE5_0046FD_027A68_027A83_027A85),
  (0x254521, 0x027A63_027AB0_027AB9_027A98_027A9C),
  (0x254527, 0x027ACA_027AA7_027AA3_0046FE_027A9E_027AC3_027AAE_027AA8_027AA6_027AB6_027AAF_027A9A),
  (0x254533, 0x027A99),
  (0x254535, 0x008B15),
  (0x254537, 0x027AAC_027AB1_027AAD_027ACF_027AA2_027A9D_027AB5_027AAB_008B09_008B12_027AD1_004702),
  (0x254543, 0x004706_027AF0_027AE1_004707_027AE5_027ADB_00470A_027AEC_027ADE_027AD7_008B34_027B0F),
  (0x25454F, 0x027AE4_027AD3_027AD5_027ADD_004708_004703_027AF9_027AD8),
  (0x254558, 0x008B50_027B0D_027B24_027AFE_027B06_00470E_027B0B_027B02_027AFF_027B07_004711_027B15),
  (0x254564, 0x00470D_027B1E_008B4B_008B43_008B42_027B0C_027B16_027B08_027B30_027B01_008B62_027B2A),
  (0x254570, 0x027B2B_008B71),
  (0x254573, 0x004717_027B31_004716_008B6A_027B2C_027B27_004713_027B28_027B29_008B6E_027B5A_008B79),
  (0x254621, 0x027B42_027B48_00471E),
  (0x254625, 0x027B45_027B4C_027B4D_027B4F_027B43_00471C_00471A_027B4A_004719_027B4E_027B55_027B47),
  (0x254631, 0x00471D_027B54_027B52_027B60_027B73_004721_027B64_027B5C_027B6A_027B5D_004720_027B65),
  (0x25463D, 0x027B63_027B5E_027B75_004722_027B7B_027B7C),
  (0x254644, 0x008B88_027B78_027B84),
  (0x254648, 0x027B8D_027B7D_02331A_027B86_027B97_027B91_027B9D),
  (0x254650, 0x027BA1_027BA0_027B9E_027B99_027BA6_027BA4),
  (0x254657, 0x027BAB_00472A_00472B_027BAC_027BAE_027BAD_027BB1_027BB3_027BB4_00472D_027BB5_027BB6),
  (0x254663, 0x00472E_027BBC_027BBA_027BBD_027BBF_027BBB_00472F_027BC3_027BC0_027BC1_027BC9_004730),
  (0x25466F, 0x027BCA_027C0E_027BCF),
  (0x254673, 0x027BCC_027BD5_027BD7_027BD8_027BD9_027BDB_027BDD_004734_027BDE_027BE0_027BE1_027BE4),
  (0x254721, 0x027BE6_027BE5_027BE8_004737_004738_027BEB_004739_027BE9_027BF4_027BF1_027BEF_027BF2),
  (0x25472D, 0x008C4D_027BF0_00473E_027BFA_027BFB_00473C_027BF7_00473D_004741_027BFF_027BFE_027C00),
  (0x254739, 0x027C07_027BFC_024CD8_004740_027C04_027C08_027C03_027C06_027C0B_027C10_027C0A_027C13),
  (0x254745, 0x027C15_027C12_008C51_027C11),
  (0x25474A, 0x027C18_004743_027C19_027C20_027C21_027C22_027C23_008C53_027C25_027C28_027C29_027C2A),
  (0x254756, 0x004745_027C2B),
  (0x25475A, 0x027C2F_027C31_027C33_027C30_027C32_027C34_004746_027C35_027C38_027C37_027C39_027C3B),
  (0x254766, 0x008C5F_027C49_027C45_027C44),
  (0x25476B, 0x027C48_027C40_027C50_027C4E_027C53_027C4A_027C52_027C61_027C58_027C59_00474C_027C5D),
  (0x254777, 0x027C60_027C63_027C5C),
  (0x25477B, 0x00474D_027C70_027C6A_00474E),
  (0x254821, 0x027C68_027C69_027C75_027C73_027C72_027C7C_027C7E_027C7D_027C7B_027C85_004751_027C83),
  (0x25482D, 0x004750_027C86_027C8A_027C88_027C8B_027C8D_027C90_027C97_027C99_027C98_027C9C_004755),
  (0x254839, 0x004754_027CA1_027CA2_004757_008C7C_027CA8_027CA6_027CA7_027CA5_027CA4_004756_00475A),
  (0x254845, 0x027CAD_027CB5_027CAF_00475B_027CBA_027CAC_027CBB_027CB9_008C7F_027CAE_027CB4_027CB0),
  (0x254851, 0x027CC9_008C87_027CC6_027CBE_027CC1_027CBF_027CC4_027CC2_027CC0_027CCE_027CCF_008C8B),
  (0x25485D, 0x027CCD_027CD0_027CCC_00475C_027CDB_027CDA_027CD9_027CE3_00475D_027CE0_027CDD_00475E),
  (0x254869, 0x027CDC_027CDE_027CEB_027CEC_027CE7_027CE8_027CEA_027CEE_027CE6_027CED_027CE9_027CF4),
  (0x254875, 0x008C96_027CF5_027CFC_027CF8_027CF9_027CF6_027CFB_027CFF_027D01_004761),
  (0x254921, 0x027D05_004766_004762_027D0A_027D02_027D07_004763_027D15_027D13_004764_027D0E_027D0C),
  (0x25492D, 0x004765_027D17_027D1A_027D1D_027D19_027D20_027D21_027D22_027D23_027D25_027D24_027D29),
  (0x254939, 0x027D2C_027D32_027D2D_008CA5_008CA6_00621D_027D34_027D48),
  (0x254942, 0x027D3A_027D43_00476E_00476C_027D4B_027D4A_027D51_027D5B_027D60_027D4C_027D5E_027D4F),
  (0x25494E, 0x00476B_00476D_027D62_004769_027D68_027D7E_008CCB_027D6D_004770_027D82_027D6A_027D7B),
  (0x25495A, 0x027D7C),
  (0x25495C, 0x027D6B_027D67_027D63_027D6C_027D71_027D65_027D86),
  (0x254964, 0x004775_027D87_027D8D_027D9D_004773_027D99_027D96_027D95_027D9C_004779_004776_00477B),
  (0x254970, 0x00477D_027DA2_027D9E_004778),
  (0x254975, 0x027D9F_027D97_027DBA_004784_027DB3),
  (0x25497B, 0x004782_004783_027DCB),
  (0x254A21, 0x027DB8_02080B_027DB2_027DCA_027DD0_027DB5_004780_008CF2_027DCD_008CF9_004785_027DCF),
  (0x254A2D, 0x027DD2_004786_027DCE_027DD1_027DE6),
  (0x254A33, 0x027DFB_008CFF_027DF1_027DE1_027DE5),
  (0x254A3B, 0x027DDF_027E08_027E00_027E0A_027E02_027DFE),
  (0x254A42, 0x027E05_027E15_027DFD_027E19_027E25_027E17_027E26_027E2A_027E2B),
  (0x254A4C, 0x027E28_027E27_027E3F_008D17_027E31_027E32_008D1A_027E3D),
  (0x254A55, 0x027E48_027E4A_027E4C_027E50_027E59_004791_027E5B_008D65_027E5D),
  (0x254A5F, 0x004792_004794_027E63_027E68_027E69_027E6D_027E6C_027E74_027E75_027E76_027E7A_004795),
  (0x254A6B, 0x027E7D_027E7E_027E85_027E8E_027E92_027E8F_027E99_004796),
  (0x254A74, 0x027E93_027E9C_027E9F_027EA8_027EB0_027EA1_00479B_027EA7_00479C_027EB2_004799),
  (0x254B21, 0x027EB3_027E9D_027EA0_027EA3_027EA2_027EA4_027EBE_027EBB_027EBF_027EBA_027EB9_00479D),
  (0x254B2D, 0x00479E_027EB7_027EB6_0047A0_027ECD_0047A1_027EBD_027EB8_008D88_008D83_0047A2_0047A4),
  (0x254B39, 0x027EC1_027ED8_027EDA_027ED7_027ED4_0047A8_027ED1_027ED2_027ED9),
  (0x254B43, 0x008D93_027EDC_008D8F_027EDD_027ED6_0047A7_0047A9_027EF4_008D98_027EF7_027EF3_0047AB),
  (0x254B4F, 0x027EF1_027EF8_027EFF_027EF5_027EFB_027F0A_027EFC),
  (0x254B57, 0x0047AC_027EF6_0047B1_027EF0_027EFA_0047AF_0047AE_008DA4_0047B5_027F13_0047B7_027F16),
  (0x254B63, 0x027F12_027F11_027F24_027F14_027F19_027F0E),
  (0x254B6A, 0x0047B6_027F21_027F20_008D9D_027F1E),
  (0x254B70, 0x027F2D_0047BB_027F32_027F45_027F46_027F2E_027F2B),
  (0x254B78, 0x027F34_027F2C_027F30_027F35_027F29_027F31_027F44),
  (0x254C21, 0x0047B9_027F2F_0047BA_027F54_027F51_0047C0_027F53_027F49_027F4C_027F4A_027F4F_027F4B),
  (0x254C2D, 0x027F56_027F63_027F66_027F65_027F74_0047C4_027F61_027F62_0047C5_027F5E),
  (0x254C38, 0x0047C6_027F69_027F5F_027F67_027F72_027F60_027F68_0047C1_027F75_027F7F_027F8A_027F87),
  (0x254C44, 0x027F7A_008DAC_027F77_027F7C_027F82_027F7E_027F7D_027F86_027F80_027F81_027F91_0047C8),
  (0x254C50, 0x027F94_0047CA_0047CB_027F90_027F8F_027FA0_027F99_027F9B_027FA1_027FA5_027FA4_027FA7),
  (0x254C5C, 0x027FA2_0047D0_027FA9_027FAE_027FB3_027FB2_027FB6_027FBD_0047D3_027FC0_027FBB_027FBE),
  (0x254C68, 0x027FC1_027FC6_0047D5_027FC5_027FCC_027FD2_027FEB_027FEE_0047D8_027FD3_008DB9_027FEF),
  (0x254C74, 0x027FD9_027FD4_0047DB_0047D9_027FE5_027FF0_0047DC_0047DD_027FDE_008DC0_027FD8),
  (0x254D21, 0x027FD6_027FD5_027FDD_027FDA),
  (0x254D26, 0x027FE9_008DD8),
  (0x254D29, 0x008DDC_027FF7_0047E8_008DCA_027FF4),
  (0x254D2F, 0x0047E5_027FFD_0047E9_0047E3_028007_027FF5_0047E7_027FFA_028014_028013_0047EA_0047EC),
  (0x254D3B, 0x027FF2_027FFC_028000_0047DF_02801F_028038_028020_008DF0_028016_028018_028015_028019),
  (0x254D47, 0x028027),
  (0x254D49, 0x02801B_02802F_02801D_02801E_028026_02802C_0047FD_02801C_028029_02801A),
  (0x254D54, 0x02802D_02802E_02802B),
  (0x254D58, 0x0047EF_0047EE_0047F0_028028_028033_028034_028045_028043_028073_0047F5_02804B_02804F),
  (0x254D64, 0x028048),
  (0x254D66, 0x008E0D_028047_02804C_02804D_02804E_028085_02804A_028044),
  (0x254D6F, 0x028051_028041_028052_02809F_028054_0047FB_008E07_0047F9_028061_02805F),
  (0x254D7A, 0x0047F6_028079_028092_004809_02809E),
  (0x254E21, 0x02809D_028076_028080_02809B_028077_02807F_028081_008E19_02808E_004808_0047FC_02807A),
  (0x254E2D, 0x004804_02809C_004805_004800_02807D_028078_0047FF_028084_008E17),
  (0x254E37, 0x028087_008E13_028083),
  (0x254E3B, 0x004813_0280B1_0280AA_004814_00480E_0280A7_0280A9_0280B0_00480F),
  (0x254E45, 0x0280A1_0280AD_0280B2_004812_0280A4_0280B7_0280BF_004811_004810_008E3B_0280A6_0280B5),
  (0x254E51, 0x0280B4_0280B8_0280AF_004819_0280E0_0280E4_028100_0280D5_02811D_0280FF_0280D9_0280E3),
  (0x254E5D, 0x0280DB_0280ED_0280F2_00481D_00481C_0280EF_0280D3_004815_0280D7_0280D8_0280E2_0280E5),
  (0x254E69, 0x0280D4_004817_0280DE_0280EC_008E57),
  (0x254E6F, 0x028112_028108_028109),
  (0x254E73, 0x028115_028107_02811B_02810B_028153_028103_028105_02810E_028118_02810C_02810F_028146),
  (0x254F21, 0x004827_028114_02815A_00481F_02814A_008E58_028130_02812F_028128_02815C_004821_004825),
  (0x254F2D, 0x02811A_004822_028145_02810D_028111_02810A_028113_008E71),
  (0x254F36, 0x008E6B_004823_028152_028158),
  (0x254F3B, 0x028180_02814B_028163_02816A_028164_028156_02814E_004824),
  (0x254F44, 0x02814F_028168_008E68_028157_02815E_004826_028151_028169_028181_02818B_028190_02818F),
  (0x254F50, 0x02818C_028199_028184_0281A7_028187_02818A_028186_028183_02818E_028188_02818D_028185),
  (0x254F5C, 0x0281A8_004829_0281A6_004828_028182_0281B1_0281B5_0281B0_0281AC_0281AE_0281AD_0281B2),
  (0x254F68, 0x0281C1_00482C_0281C8_0281C7_0281C4_0281C6_0281CE_0281C5_0281CA),
  (0x254F72, 0x008E97_0281D4_008E96_0281D8_0281DD_00482D_0281D7_0281DE_0281D6_0281E5_0281E7_0281E6),
  (0x254F7E, 0x0281E9),
  (0x255021, 0x008EA2_004830_0281FC_0281FB_0281FD_0281F1_008EA8_004831_028204_028205_028208_028215),
  (0x25502D, 0x028213_028217_028216_02821A_028227_02821B_028219_028218_028225_004834_02822B_028229),
  (0x255039, 0x028236_02822E_02822A_004833_004835_028247_004838_02823A_028239_028238_008EB4_02824B),
  (0x255045, 0x028248_028252_02825D),
  (0x255049, 0x028255_02825C_02826C_008EBE),
  (0x25504F, 0x008EBD_02826A_028262_028264_00483C_028277_00483E_028271_028278_028274_00483D_008EBF),
  (0x25505C, 0x008EC1_028279_02827D_02827E_028285_00483F_028289_004840_02828D_028293_008EC7_028294),
  (0x255068, 0x004841_02829B_02829D_02829E_02829F_004843_0282A1_0282A0_004842_0282B1_008ED0_0282A9),
  (0x255074, 0x0282B0_004849_0282B3_0282BC),
  (0x255079, 0x0282BB_008ED6_00484D_0282C0_0282B9_0282C8),
  (0x255121, 0x0282C9_0282B8_008EDE_008ED7_0282D5_008EE1_004846_004851_00484F_008EEF_0282D7_0282DE),
  (0x25512D, 0x0282DD_0282DA_0282D0_0282DB_004852_008EE6_0282D9_0282E1_008EF3_0282D8_0282E6_0282D6),
  (0x255139, 0x0282DC_0282E7_0282DF_0282FD_0282F2_0282F0_008EED_004855_0282E8_0282F7_0282FE_0282EF),
  (0x255145, 0x028301_0282EB_0282ED_004854_0282EE_0282EA_0282FA_028305_02830D_02831F_02832F_00485B),
  (0x255151, 0x028304_008F0E_00485A_028308_02830C_02830E_02831D_028318_028313_028336_02832B_028324),
  (0x25515E, 0x004864),
  (0x255160, 0x00485C_028327_028346_028329_02832C_028345),
  (0x255167, 0x028333_02832D_028334),
  (0x25516B, 0x00485F_028322_028351_028368_028347_028362_028350_02834E_02835B),
  (0x255175, 0x02835D_004861_02835E_02834A_028367_004862_028356_028374_028381_02836D),
  (0x255221, 0x02837F_028388_02836B_028370_028387_028372_02836F_004867),
  (0x25522A, 0x028379_028378_028389_00486A_028383_028380_0283A1_02838D),
  (0x255233, 0x00486D_0283A3_0283A2_008F4B_004871_028394_028390_028396_028397_00486B_0283AD_0283B1),
  (0x25523F, 0x0283A4_004873_0283A7_0283AB_0283AE_0283B9_0283B7_004875_0283C5_0283B4_0283B6_0283C6),
  (0x25524B, 0x02863C_0283B3),
  (0x25524E, 0x0283DB),
  (0x255250, 0x0283DA_0283E5_0283E2_0283E6_0283DF_0283E8_0283E9_0283F1_0283F2_0283EB_0283EA_0283F4),
  (0x25525D, 0x0283F6_00487D_0283F5_0283F9_0283FF_028401_028403_02840B_028410_028411),
  (0x255268, 0x028414_02841B_008FA2_02841F_02841E_028423_028425_028421_028420_028426_028429_028428),
  (0x255274, 0x02842F_008FAC_028431_028430_028435_028436_028439_028445_004885_004887),
  (0x255321, 0x004888_02844C_02844E_028451_008FC0_00488B_02845C_008FC9_02845D_028460_00488D_008FD0),
  (0x25532D, 0x00488E_008FD7_028463_00488C_02847F_02846B_02847C_028480_008FD6_02847D_02846D_028468),
  (0x255339, 0x008FCC_02846A_02849C_028483_028486),
  (0x25533F, 0x008FE1_02848D_008FF2_028487_02849E_02848A_004890_0284A3),
  (0x255348, 0x028482),
  (0x25534A, 0x028489_028484_0284A2_0284A1_004893_0284A8_0284AB_0284BE_0284DE_0284B1_004896_009007),
  (0x255356, 0x0284AC_004895_008FF6_0284A9_0284C2_0284C3_0284A7_0284BD_004897_0284A6_0284C1_0284B4),
  (0x255362, 0x0284BC_0284E9_0284CD_009024_0284E3_0284CA_0284E5_00489A),
  (0x25536B, 0x0284E6_00489B_0284E7_0284C7_009018_0284E8_0284F0_0284ED_02851A_00489D_00489E_009028),
  (0x255378, 0x028519_028518),
  (0x25537B, 0x02851B_028516_0284EC_028502),
  (0x255421, 0x0284FF_0284EF_0284F2_0284EE_0284F4_028555),
  (0x255428, 0x02855C_028526_028557_0048A1_02855B),
  (0x25542E, 0x028521_02852F_009048_028552_02855A_028522_028528_028529_028584_028562_028566_028579),
  (0x25543A, 0x02857A_02857F_0048A5_028583_0048A2_028567_00905A_0285B3_009067_02858C_02858B_0048A7),
  (0x255447, 0x02858D_02859B_0285AF_0285AD_0285AE_02858F_028599_0285AC_0285B0_0048A8_0285A2_02858E),
  (0x255453, 0x00906A),
  (0x255455, 0x0285E0_0285E3),
  (0x255458, 0x0285DE_0285BE_0285E1_0285B7_0285B4_0285B6_0285B5_0285DF_028604_028603_0048AE_028602),
  (0x255464, 0x0285F0_0285E8_0285EA_0285E9_0285E6_0285E5_028601_0285E7_028614_028619_02861E_02861D),
  (0x255470, 0x0048B0_028609_02861F),
  (0x255476, 0x028635_028632_028634_028633_02862F),
  (0x25547C, 0x028640_028638_02863E),
  (0x255522, 0x028652_02864F_028644_028653_0048B2_028663_028661_028668_009092_028669_009093_02866F),
  (0x25552E, 0x02866C_02866D_028670_028673),
  (0x255535, 0x028675),
  (0x255537, 0x028678_02867D_0090A4),
  (0x25553B, 0x0286A3),
  (0x25553E, 0x0048B9_028698_028693_0090B7_0090AE),
  (0x255544, 0x0286AE_028695_02869F),
  (0x255548, 0x0286B3),
  (0x25554A, 0x0286B1_0048BC_0090C0_0286B2_0286BE_0286B0_0286AF_0048BE_0286B6_0286C9_0286CA_0286C8),
  (0x255557, 0x0048BD),
  (0x25555A, 0x0286CC_0286D1_0090E3_0286E0_0286D3_0048C5_0286D4_0286E4_0048C6_0286E7_0286E2_0286D5),
  (0x255566, 0x0090E5_0286CD_0286E1_0286D2_0286E3_0286D0_0286CF_0286E5_0090D2_0286F1_02870C_0286EF),
  (0x255572, 0x0286EE_0286F3_0286F5_0286F4_02870D_0090EE_0286F6),
  (0x25557A, 0x0048CB_0048CF_0048CE_0286F8_028731),
  (0x255621, 0x028730_02870F_028719_028718_02871C_028711_028716_028710_028713_0048D0_0090FB_028714),
  (0x25562E, 0x00910C_028736_028733_02873C_0048D3_02874A_028746_028738),
  (0x255637, 0x0048D4_028735_02873F_02873A_02873D_02873E_028748_028717),
  (0x255640, 0x0048D7_028767_02874E_02874F_028762_02875C_028790_028753_028768_028751_02875B_0048D9),
  (0x25564D, 0x028764),
  (0x25564F, 0x028769),
  (0x255651, 0x028756_02876F_028774_028775_0048DF_028777_02877D_02878B_02878E),
  (0x25565B, 0x02878A_028772_028770_028771_02878C_02878F_02876C_028797_02879A_02879B),
  (0x255666, 0x0287A3_028798_028795_028799),
  (0x25566B, 0x028792_028793_0287A6_028791_0287A9_0287A8_0287AB),
  (0x255673, 0x0287B7_0287B6_0287B2_0287BF_00913D_0287C5_0287BA_0287BD_0287C2_0287C3_0287D6_0287D1),
  (0x255721, 0x0287D8),
  (0x255723, 0x0287DF_0287E0_0287E5_0048E4_0287EE_0048E6_009151),
  (0x25572B, 0x0287F6_0287F5_0048EC_0048E9_0048ED_0287F8_0287FE_0287F9_028814_0048F0_028821_02881F),
  (0x255737, 0x028816_02880B_02880C_02880D),
  (0x25573C, 0x028826_028824_00916D),
  (0x255740, 0x02882C_028827),
  (0x255743, 0x028836_00916B_009170_0048F7_028825_0048F6_0048F9_028844_028838_028839_02883F_028841),
  (0x25574F, 0x00917B_0048FB_028842_028843_0048FE_009188_028864_028861_00918F_0048FF_028853_02884F),
  (0x25575B, 0x028851_028850_028858_02884E_004903_004907_028874_028883_004906_004902_02886F_004904),
  (0x255767, 0x028876_028871_02886C_028878_028872_02886E_009194_028890_028891_0288A0_02888E_00490B),
  (0x255773, 0x028885_028886_028892_028888_009198),
  (0x255779, 0x028889_028887_0288AF_0288CD_0288B9_0288A6),
  (0x255821, 0x0288A2_0288A3_0288AE_0288A8_0288AA),
  (0x255827, 0x0288C1_0288C6_0288C3),
  (0x25582B, 0x004911_0288C2_0288C0_0288C7_0288BF_0288C8_0288C4_00490F_0288D4_004912_0288E2_0288D8),
  (0x255838, 0x0288D7_0288D9_0288DD_0288DB),
  (0x25583D, 0x004914_0288EC_004913_0288E6_0288EF_0288F5_004916_004915_0288FC_0288F8_0288F7_0288FB),
  (0x255849, 0x0091BE_028902_0288FE_028907_004919_028910_028911_028915_028918_02891A),
  (0x255854, 0x028921_028922_028929_028928_02892B_028931_028934_0218E2_028937_028939_0091DB_0091DF),
  (0x255860, 0x0091DE_028942_028943_028949_028959),
  (0x255866, 0x028955_028953),
  (0x255869, 0x00921D_009220_028963_02895E_028982_009258_02896F),
  (0x255871, 0x004921_009242_009259_004922),
  (0x255876, 0x009243_00923C_009268_009269_028967_004923_004924_0092A2_009290),
  (0x255921, 0x009289_009294_028984),
  (0x255926, 0x004927_00929F_028986),
  (0x25592A, 0x028992_00492A),
  (0x25592D, 0x0092AF),
  (0x255930, 0x0289D5_0289AE_0092CE_0289D6_0289D7),
  (0x255936, 0x0289C3_004930_0092BF_00492F_0289B6_0289DB_00492B_0092BA_0289B3_00492D),
  (0x255942, 0x0289BE),
  (0x255944, 0x0092BD_0289E9_00930A_004933),
  (0x25594C, 0x0289FF_0289EA_028A2E_0289F1),
  (0x255953, 0x00933B),
  (0x255955, 0x028A17_0289E6_009337_0289E7),
  (0x25595A, 0x028A04),
  (0x25595C, 0x028A05_0289F5_028A19_0289FE_0092FD_0289E8),
  (0x255963, 0x00930C_028A29),
  (0x255966, 0x004935_028A2C_0289F0_028A1C_009311_0289F3),
  (0x25596D, 0x028A36),
  (0x25596F, 0x028A11),
  (0x255971, 0x028A37_028A4D_028A72_028A2F_028A85_028A84_028A32_00493A_009368_004937_009381_028A30),
  (0x25597D, 0x028A39_028A67),
  (0x255A21, 0x028A65_028A34_009353_028A3A_00935E),
  (0x255A27, 0x028A44),
  (0x255A29, 0x028A69_028A57_028A33_00937D_028A6F_00493C),
  (0x255A30, 0x00936F),
  (0x255A33, 0x028A8D_009399_028A8F),
  (0x255A37, 0x004943_028AC6_00493F_028A8E_028A8C_028A87_028A8A_004944_028ACA_028AA5_028ACE),
  (0x255A44, 0x028A92_00493D_028AB7_028AA9_028AB6_0093A0_028A95),
  (0x255A4C, 0x028A97_028A88_00493E_009393_028AB9_0093B8),
  (0x255A53, 0x0093BF_028B01_004949_00494B_028AD5_028B05_028ADA),
  (0x255A5B, 0x0093EA_028AD2_00494E_004952_00494A),
  (0x255A61, 0x028AE7),
  (0x255A64, 0x028ADE_028AD6_028AD7_028AE1_0093EB_028B41_028B42_028B1C_004954_00495F_028B53_028B14),
  (0x255A70, 0x00495B_028B4E),
  (0x255A73, 0x028B1A_028B32_004958_028B17),
  (0x255A78, 0x028B5E),
  (0x255A7A, 0x028B5A_004962_004964_004960_028B65),
  (0x255B21, 0x028B6C_028B74),
  (0x255B24, 0x004961_00495E),
  (0x255B27, 0x00496E_009443_028BB7_00496A_028BBF_028B94),
  (0x255B2E, 0x028BBB_028BB9_004971_004970_004968_00945F_028BDA_009458_009461_00945D),
  (0x255B39, 0x009457_028BB8),
  (0x255B3C, 0x028BE2_028BE6_028BDE_028BE0_004977_028BE1),
  (0x255B43, 0x028C06_009473_004978_028BFC_028C1C),
  (0x255B49, 0x028C0F_009476_00947A_028C1D_028C09_028C1A_028C1E_028C29_028C2D),
  (0x255B53, 0x028C35_009484_028C38),
  (0x255B57, 0x028C3B_028C59_009579_028C64_028C5C_028C63_028C5B_028C60_028C5A_028C5D_028C61_028C65),
  (0x255B63, 0x004988_028C70_028C6B_028C6D_028C6C_028C66_028C6E_028C71_028C67_028C6F_028C7F_028C7A),
  (0x255B6F, 0x028C7B_00498A_028C78_028C7C_028C80_028C82_028C86_028C84_028C81_028C87_028C91_028C8E),
  (0x255B7B, 0x028C8A),
  (0x255B7D, 0x028C88_028C8B),
  (0x255C21, 0x028C8C_028C90_028C99_028C93),
  (0x255C26, 0x028C9C_028CA0_028C9F_028C9E_028CAA_00498B_028CAC_028CA9_028CA7_028CAB_028CAF_028CAE),
  (0x255C32, 0x028CB2_028CAD_028CB1_028CB0_028CB7_028CB3_028CB8_00957E_028CB9_028CBB_028CBF_028CC0),
  (0x255C3E, 0x028CC1_028CC2_009581_028CC9_028CCC_028CCB_009584_028CCA_028CD1_00498C),
  (0x255C49, 0x028CD4_028CD5_028CD0_00498D_028CF2_028CD8_028CDB_00498E_028CDE),
  (0x255C53, 0x028CDF_028CE0_028CD9_009590_028CDD_028CE3_028CDA_028CD7_00498F_004990_028CEF_009599),
  (0x255C5F, 0x028CF7_028CFB_00959A_028CF3_028CFD_028CFC_028CF6_004992_028CF5_028D06),
  (0x255C6A, 0x004994_028D00_004993_028CF8_028D01_028CFF_028CFA_028CF4_00959D_004995_028D25_028D23),
  (0x255C76, 0x028D19_028D11_004998_004999_004996_028D17_028D0E_028D1B_028D1A),
  (0x255D21, 0x028D15_028D0F_028D0D_028D18_028D13_028D10_028D16_028D21_004997_028D1E_0095AF_028D44),
  (0x255D2E, 0x028D2D_028D2A_00499D),
  (0x255D32, 0x028D28_00499C_028D3A_028D3C_028D3B_028D3E_028D2C_028D31_0095B0_028D45_028D30_028D29),
  (0x255D3E, 0x028D46_028D43_028D2B_028D42_0049A1_0049A2_028D4D_0049A3_0095C2_028D64_028D49_0049A5),
  (0x255D4A, 0x028D4A_028D60_028D61_0095C1_0049A0_028D4F_028D58),
  (0x255D52, 0x028D5B_028D5A_028D48_028D5E_028D4B_028D5F_028D50_0049AE_028D70_0049AC_028D6D_028D6F),
  (0x255D5E, 0x028D69_028D6C_028D6A_028D74_028D65_028D67_028D6B_0049AB_0095C5_028D76_028D7C_028D6E),
  (0x255D6A, 0x0049AD_028D88_028D83_028D82_028D85_028D8B_028D89_028D81_028D80),
  (0x255D74, 0x028D87_028D86_028D8A_028D99_028DB3_028D9E_028DB6_0095D8_028D9F_0095DD_0095D9),
  (0x255E21, 0x028DA2_028DA0_028DA8),
  (0x255E25, 0x028DBC_028DBD_028DAE_028DC1_028DB0_028DAC_028DAF_028DB1_028DC4_028DB4_028DBA_028DAD),
  (0x255E31, 0x028DB2_028DD3_028DC7_028DC3_028DCE_0049B4_0095E6_028DD2_028DC5_028DC6_028DD0_028DD8),
  (0x255E3D, 0x028DD4_028DDF_028DE5_028DE6_028DE9_028DEE_028DEC_028DF0_028DF8_028DF2_028DF7_028DFD),
  (0x255E4A, 0x0049B9_028E11_028E10_028E13_028E15_028E12_028E14_028E17_028E16_0049BB_028E19_0049BD),
  (0x255E56, 0x0049BC_028E1E_028E1A_028E20_028E1B_028E1C_028E1D_028E29_0049BE_028E2B_028E3C_028E30),
  (0x255E62, 0x028E2D_009637_0049C2_0049C3_028E31_028E3A_0049C1_028E2E_028E2F_00963E_028E3B),
  (0x255E6E, 0x0049C7_0049C6),
  (0x255E72, 0x028E42),
  (0x255E74, 0x028E41_028E4C_028E44_0049C4_028E45_028E46_028E4A_028E5B_028E5C_028E61_028E63),
  (0x255F21, 0x028E59),
  (0x255F23, 0x0049CE_0049C9_028E5D_028E60_0049CC_0049D1_0049D0),
  (0x255F2B, 0x028E9C_028E96_0049D2_028E9D_028E7B_028E7D),
  (0x255F32, 0x009679_0049D3_028E7A_0049D4_028E98_028E79_028E85_028EA7),
  (0x255F3B, 0x028EA5_00968C_028EA6),
  (0x255F3F, 0x028EBF_028EA4_028EAC_028EB8_028EA2_0049D7_028EAD_028EA3_028EA0_028EAE_028EA1_028EAB),
  (0x255F4B, 0x0049DB_028ED6_0049DA_028ED7_028ED2_028EC8_028EC7_028EC2_028ECD_0049DD_028EC1_028EC6),
  (0x255F57, 0x028EC0_028EC5_0049E1_028EF7_028F01_0049E0),
  (0x255F5F, 0x028F02_028EEF_028EF5_00969A),
  (0x255F64, 0x00969D_028EF4_028F14_028F10_0049E5_0096AB_028F0F),
  (0x255F6C, 0x028F12_028F25_028F0B_0049E4_028F0C_028F13_028F0D_028F0E_0049EA_0049E7),
  (0x255F77, 0x0096A6_028F2A_028F2B_0049E8_028F2F_028F3D),
  (0x255F7E, 0x0049EC),
  (0x256021, 0x028F40_028F3F_028F44_0049EE_028F56_028F5D_0049EF_028F68_028F66_028F67_028F6F_028F72),
  (0x25602D, 0x028F73_028F77_028F7C_028F82_028F83_0049F2_028F8C_028F89_0049F6_028F92_028F93_028F9A),
  (0x256039, 0x0049F4_0096C8_028F97_028F9B_028FA9_028FA2_028FAD_028FAC_028FA1_0049F7_028FB0_028FB1),
  (0x256045, 0x028FA4_028FB3_028FBB_028FB4_028FC7_028FC0_028FB7_028FB5_028FC2_028FC1_028FC5_028FBE),
  (0x256051, 0x028FD9_0049FD_028FD0_028FDB_028FF6_028FE1_028FED_028FE2_0049FF_028FFB_028FF0_028FEF),
  (0x25605D, 0x028FF5_028FF4_028FFF_02901C_02901F_02901E_029023_02902A_02902B_029032_029028_004A04),
  (0x256069, 0x02903C_02903F_029036_029043_029044_02904C_0096E4_004A08),
  (0x256072, 0x029057_02905F_02906F_029074_029077_0096EB),
  (0x256079, 0x02907B_02907A_029088_029083_029085_029086),
  (0x256121, 0x0096ED_029084_0096EC_004A0C_004A0D_02908D),
  (0x256128, 0x0096EE_029082_02908E_029095),
  (0x25612D, 0x0096FC_029094_029097),
  (0x256131, 0x029096_029093_0290A1_0096FD_029099_02909E_0290A7_004A0F_0290A8_0290A5_0290A4_0290AA),
  (0x25613D, 0x004A10_004A19_0290C1_0290BD_0290BC_0290BA_0290BB_0290D1_0290CB_0290BF_0290BE_004A17),
  (0x256149, 0x0290B9_0290C3_0290D0_009710_009714_0290DA_0290DC_0290D8_0290E0_009715_004A1D_0290D6),
  (0x256155, 0x004A21_004A1B_0290F4_0290D7),
  (0x25615A, 0x0290D5_0290EF_004A1C_004A1A),
  (0x25615F, 0x00970C_0290E1),
  (0x256162, 0x02910A_0290FD),
  (0x256165, 0x004A1F_009718_004A22_0290F6_0290F7_0290FC),
  (0x25616D, 0x029106_004A20),
  (0x256170, 0x004A1E_0290FA_0290F9_029116),
  (0x256175, 0x004A27_02911D_009725_0290FE_02911A_029120_02911B_029122_02913A_02911F),
  (0x256221, 0x029117_004A25_029137_029138_029126_029118_009721_02911E_029148_02913C_029144_004A2C),
  (0x25622D, 0x02913E_02913F_029142_029156_00972C_02913D_029141_02913B_029143_02914C_029174_02916A),
  (0x256239, 0x004A30_029160_029161_029163_02916F_004A31_02917F_029180_029184_02918D_029185_009737),
  (0x256245, 0x029162_029181_029193_029198_02919B_029195_02919A_029192),
  (0x25624F, 0x004A35_0291A4_0291AB_0291A6),
  (0x256254, 0x0291AD_0291AF_009745_0291AE_0291B2_0291B8_0291B6_004A38_0291BD_0291B7_0291C7_00974A),
  (0x256260, 0x0291C1_0291BF_00974D_0291CB_0291CE_004A3A_009750_0291D4_004A3B_0291D6_009755_0291DB),
  (0x25626C, 0x0291DC_0291DD_0291DF_0291E0_0291E3_004A3E_0291E9_0291EB_0291EA),
  (0x256276, 0x0291EF_004A3F_0291EE_0291F4_0291FB_0291F9_004A40_0291FC_0291FD),
  (0x256321, 0x029201),
  (0x256323, 0x029205_029209_004A43_029207_029206_029208_004A42_02920B_029217_02920E_029210_004A45),
  (0x25632F, 0x029214_004A47_02920D_004A46_02920F_029212_02921A_02921E_029219_02921C_02921B_029222),
  (0x25633B, 0x029221_029227_029224_029226_029223_004A48_02922C_004A4A_02922B_02922F_02922E_029234),
  (0x256347, 0x029233_029236_029235_029232_029237_029239_029238_02923A_02923D_02923B_02923C_004A4D),
  (0x256353, 0x029241_029244_029243_029246_029250_02924D_02924F_029252_004A4F_029255_029254_029257),
  (0x25635F, 0x029258_029259_02925C_02925D_029265_029276_029270_02926F_02926B_009779_004A56_029267),
  (0x25636B, 0x004A54_004A53),
  (0x25636E, 0x02926C_029261_02926A_004A57_029275_02928D_00977D_004A59_029278_02927D_029279_029286),
  (0x25637A, 0x02928F_029289_029287_02927E_02927C),
  (0x256421, 0x004A5C_029284_004A5A_004A5D_029283_02927F_029280_029285_029282_0292A6_029294_029291),
  (0x25642D, 0x029296_029290_0292A8_00978A_029298_004A5F_0292A7_0292A1_0292A2_029297_029292_02929F),
  (0x256439, 0x0292A4_029295_02929C_02929B_0292A3_0292B5_0292B4_0292AA_009795_0292AF_0292AB_0292AC),
  (0x256445, 0x0292B0),
  (0x256447, 0x0292B6_009796_0292BC_004A60_0292BB_0292BA),
  (0x25644E, 0x004A6C),
  (0x256450, 0x0292C4_0292DE_0292BF_004A6B_0292C9_0292C5_0292DC_0292C0_0292CC_0292D7_004A68_0292C2),
  (0x25645C, 0x0292D2_0292CD_0292DD_004A6E_0292D9_0292E1_0292FD_0292E3_0292E2_0292FC_004A73_0292E5),
  (0x256468, 0x0292EE_0292E8_0292E7_0292F9_0292FE_004A74_0292FF_029300_0292EA_0097A9_004A70_0292EC),
  (0x256474, 0x0292E4_0292F2),
  (0x256477, 0x0292DF_0292E6_0292ED_0292F0_0292EF_0292FA_029311_029321),
  (0x256521, 0x029322_029309_029313),
  (0x256525, 0x02930C_0097B7_029306_004A7B_004A76_029307),
  (0x25652C, 0x02930E_029304_029320_02931D_029305_029303_02932B_02932C_004A7E_02932A_02933E_02932F),
  (0x256538, 0x029336_029332_029327_029329_029333_029330_029340_004A80_02934F_029345_004A83_02934E),
  (0x256544, 0x029344_004A7F_029349_02934A_029343_029346_0097BD_029356_029353_029359_029364_02935B),
  (0x256550, 0x029357_004A86_02935C_029354_02935D_02936F_029365_029367_02936A_029366_004A88_029369),
  (0x25655C, 0x029377_029374),
  (0x25655F, 0x029372_029375_029379_029373_029382_004A8B_029378_004A8C_029387_02937D_02938A_029392),
  (0x25656B, 0x029395_029393_029397_029394_004A91_004A92_02939B_029399_02939C_0293A1_004A93_029398),
  (0x256577, 0x02939A_0097CF_0293A6_0293AE_0293AD_0293A8_0293A4_0293A5),
  (0x256621, 0x0097D1_0293A7_0293B1_004A94_0293AF_0293B2_0293B3_0293B7_0293B5_0293BA_0293BE_0293C9),
  (0x25662D, 0x0293B8_0293B9_0293BC_0293BD_0293BF_0293BB_004A95_0293C6_0293C8_0293CA_0097DA_004A96),
  (0x256639, 0x0293C5_0293D3_0293D7_0293D6_0293D2_004A9A_0097DF_0293DA_0293DF_0293D8_0293DE_0293D9),
  (0x256645, 0x0293E0_0293E3_0293E1_0293E5_0293E2_0293E4_004A9B_0293E6_0293E8_0293EA_004A9C_0293ED),
  (0x256651, 0x004A9D_0293F2_0097E5_0293F4_0293F5_0293F9),
  (0x256658, 0x0293FA_029401_004A9E_029403_02940A_029409_004AA1),
  (0x256660, 0x029415_004AA6_004AA7_004AA8_0097F4_029418_029419_004AA9),
  (0x256669, 0x02941B_0097F7_02941C_02941F_029426_029420_029423_029424_029421_029425_029428_02941E),
  (0x256675, 0x004AAC_02942B_029427_02942E_02942F_029430_02942D),
  (0x25667D, 0x004AAD_029434),
  (0x256721, 0x029431_004AAF_029436_029435_029437_004AAE_029438_02943C_02943B_02943E),
  (0x25672C, 0x029440_004AB0_029443_029442_029447_029448_029449_02944A_02944C_02944D_029455_02F9FC),
  (0x256739, 0x029453_029450_029452_029456_029451_029458_02946F_02945C_029462_004AB5_02946C_029467),
  (0x256745, 0x02F9FD_009809_02945D_02946E_029464_029461_00980B_02945A_02945F_0050BE_029479_02948A),
  (0x256751, 0x009819_029483_029477_029476_02947C_029478),
  (0x256758, 0x029475_029472_029473_004AB8_029460_004ABA_009815_004ABD_029470_02947A_004AB6_029487),
  (0x256764, 0x029484_029474_02947B_02947E_004AB7_004ABB),
  (0x25676B, 0x00981D_029495_029493),
  (0x25676F, 0x029490_02948F_029494_029491_02949A_029497_02949D_009822_004AC1_0294AD_004AC5_0294C2),
  (0x25677B, 0x0294D8_0294AF_0294BF_0294BE),
  (0x256821, 0x0294AE_0294B7_0294BC),
  (0x256825, 0x004AC3_0294B4_0294B8_004ACA_0294BA_004AC8_0294BB_0294B1_0294DD_0294B5_0294C4_0294D6),
  (0x256831, 0x0294BD_009836_004AC7_0294D9),
  (0x256836, 0x0294EE_0294E7_0294EB_004AD0_009842_004AD1_0294E9_0294E0_0294E6_0294E8_004ACE_0294E4),
  (0x256842, 0x0294FB_0294FC_0294E2_009840_0294DF_0294EA_004ACB),
  (0x25684A, 0x029515_004AD5_029504_029509_029506_029518_029501_029508_004AD6_004AD8_004ADA_029512),
  (0x256856, 0x029502_02950B_029503_029505_004ADB_02950C_029507_029522_004AE4_004AE6_02952E_029521),
  (0x256862, 0x02951F_02951E_029520_02951A_02951D_004AE0_029519_004AE2_029526_004AE7_004AE3_029536),
  (0x25686E, 0x029534_02953C_029546_029535_029538_004AE8_029533_00985F_029539_004AE9_029549_029554),
  (0x25687A, 0x004AEC_029550_02955C_02954C_004AEE),
  (0x256921, 0x029552_004AED_029555_029556_02954F_02954D_029564_004AF2_029560_029561_02955F_004AF3),
  (0x25692D, 0x02956A_029573_004AEF_029580_02956F_029575_029571_029579_02956D_02957F_029581_029586),
  (0x256939, 0x004AF7_029587),
  (0x25693C, 0x02958D_02958E_02958C_02958F_029592_004AF8_004AF9_0295A0_02959B_02959D_0295A7_0295A3),
  (0x256948, 0x0295A4_004AFC_0098AB_0295AD_0295B2_0295A2_004AFA_0295AC_0295A5_0295A9_0295AF_0295A6),
  (0x256954, 0x004AFD_004AFE_004B01_0295BB_0098B0_0295BA_004AFF_0295B9_0295BE_0295BC_0295B8_0295B7),
  (0x256960, 0x0295B5_0295B4_0295BF_0295D0_0295C4),
  (0x256966, 0x0295CA),
  (0x256968, 0x004B04_0295CE_02066C),
  (0x25696C, 0x0295C6_0295C8_0295D5_0295E7_0295D3_0295D8_004B0A_0295E2_004B09_0295D9_0295E3_0295E4),
  (0x256978, 0x0295DF_0295E5_004B07_004B08_0295DE_0295DA_0295D4),
  (0x256A21, 0x0295F6_004B0F_029601_0098B7_0295FE_0295FD_0295FF_0295FC_0295F3_0295F4_004B0E_004B0B),
  (0x256A2E, 0x0295F7_0295F5_004B0C_0295EB_0295ED_0295EA_0295F2_0295EF_0295E9_029613_02960D_029612),
  (0x256A3A, 0x004B12_029605_02960F_02960A_029611_029608_0295F0_02960B_004B15_029618_029619_02960C),
  (0x256A46, 0x029609_029607_02960E_004B18_02961C_02961D_02961F_029620_029626_02961E_02962D_029631),
  (0x256A52, 0x004B1C_029630_029636_02962E_02962F),
  (0x256A58, 0x029633_004B1B_029635_029632_004B1D_02963B_029644_02963C_029647_02963A_02963D_02964F),
  (0x256A64, 0x029650_029652_029651_029658_029656_029659_02965A_02965C_02965B_02965D_029660_029661),
  (0x256A70, 0x029662_029663_004B20_029677_029676_029678_02967A_02967C_02967D_0098DD_02967E_029684),
  (0x256A7C, 0x029685_029689_029692),
  (0x256B21, 0x02968C),
  (0x256B23, 0x029688_004B23),
  (0x256B26, 0x029687_029697_02969B_0296A4_004B26_004B28_02969D_0296A9_0296B0_004B34_0296AA_0296AF),
  (0x256B32, 0x0296AB_0296B6_0296B1_004B2C_0098F7_0296B2_0296AE_0296C6_0296AD_0296C7_0296C5_0098FB),
  (0x256B3E, 0x0296BE_004B3A_0296D3_0296D8_004B36_0296CF_0296CC_0296CE_004B37_0296D1_0296CB_0296DA),
  (0x256B4B, 0x0296E1_004B3E_0296E4_004B3F_0296ED_0296E3_0296E7_0296E6_0296EA_0296E0_0296DF_0296E8),
  (0x256B57, 0x0296DD_0296F5_0296F6_0296F9_0296F3),
  (0x256B5D, 0x029707_009922_004B44),
  (0x256B61, 0x02971A_029705_029701_02970D_029716_02971F_029703_0296FF_029717_004B47_029711_02970A),
  (0x256B6D, 0x029721_0296FC_029738_029722_029712_0296FB),
  (0x256B74, 0x029762_02973D_02974C_029748_029733),
  (0x256B7A, 0x004B4D_029730),
  (0x256B7D, 0x009937_004B4E),
  (0x256C21, 0x004B49_029757_029731_029737_029735_029732_02972D),
  (0x256C29, 0x02975F_029736),
  (0x256C2C, 0x029756_004B50_02975B_02975D_02976A_02975C_029765_029768_02975A_029761_029763_029760),
  (0x256C38, 0x029777_02975E_029776_004B57_004B56_02978B_02977F),
  (0x256C40, 0x029784_029791_02977D_029799_029785_029789_02979E_029786),
  (0x256C49, 0x029783_029780),
  (0x256C4C, 0x004B55),
  (0x256C4E, 0x004B5A_0297AC_0214F7_0297A9_004B59_0297A5_0297A6_009953_0297A4_0297A8_0297C0_004B60),
  (0x256C5A, 0x0297D2_0297C3_0297BF_0297C1_0297B6_0297D1_0297C8_0297C2_0297CA_004B5F_0297CC_004B5E),
  (0x256C66, 0x0297C9_0297BE_0297CD_0297C7_0297C5_004B5D_004B62_0297D4_0297D5_0297D9_004B64_0297DE),
  (0x256C72, 0x0297D3_0297DC_0297DA_004275_0297E9_0297EA_0297E4_0297E6_0297E7_0297E8_0297ED_0297EE),
  (0x256C7E, 0x0297EF),
  (0x256D21, 0x0297F3_004B67_0297F6_0297FA_0297F8_004B69_0297FD_02981A_029823_004B6D_004B6E_02982F),
  (0x256D2D, 0x029836_029837_02983D_00999A_02983B_02983E),
  (0x256D34, 0x029843_029844_029845),
  (0x256D38, 0x00999F_004B72_004B70_02984C_029852_02984E_02984D_029850_029855),
  (0x256D42, 0x029854_029853_029861_02985D_029860_029862),
  (0x256D49, 0x0255F6_029866_004B73_0099AB_029867_029868_02986F_02986B_029870_004B75_02988C_004B7A),
  (0x256D55, 0x0099BE_029885_0099B7_02988A_029877_029884_02987E_004B78_004B77_0099B8_004B7B_004B84),
  (0x256D61, 0x029894_029898_029896_029897_029899_0298AA_029895_029893_0298A1_0099DA_0099CE_02988E),
  (0x256D6D, 0x0298AB_02988D_02989B_0099D6_029892_02989A_0298B7_0298B4_004B8A_0298B3),
  (0x256D78, 0x0298BC_0298B1_0298B6),
  (0x256D7C, 0x0099E1_004B8C_0298B9),
  (0x256E21, 0x004B89_0099E8_0099EF_0298BB_0298BF_0298B8_0298B0),
  (0x256E29, 0x0298C9_0298D6_0099F6_004B8F_0298E9_004B92_0298DD_0298DE_0298EB_004B91_004B8E_0298E4),
  (0x256E35, 0x0298E3_02991E_0298F4_0298F5_0298FC_0298F0),
  (0x256E3C, 0x029912_02990F_004B9A_0298FA_029917_0298F3_004B99_0298F9),
  (0x256E45, 0x004B95_029908_029901_004B93_0298F2_004B96_029909_0298FB_0298EF_02990B_0298F6_02993A),
  (0x256E51, 0x004B98_029916_0298F8_0298EE),
  (0x256E56, 0x029919_029921_004B9D_029929_004B9F_029925_029924_004B9C_004BA0_004B9E_02992D_02992C),
  (0x256E62, 0x009A26_02991A_02991F_02991B_009A21_004BA2_029923_009A1F_029918_029939),
  (0x256E6D, 0x029926_02994C_029943_004BA6_029941_02997F_004BA8_02994A_02995C_029942_02994F_004BA5),
  (0x256E79, 0x004BA3_02994B_009A33_029951_004BA9_029948),
  (0x256F21, 0x02993D_029950_029940_029954_004BAA_02996E_004BB0_02996C_009A3C_004BB1_02996B_02996F),
  (0x256F2D, 0x004BAE_004BAB),
  (0x256F30, 0x004BAC_029970_029981_02996D_004BAD_029974_02997D_029980_02998A_004BB5_009A4B_004BB4),
  (0x256F3C, 0x029982_029987_02998C_029999_029996_02998F_029984_004BB6_029985_02999B_004BB3_02998B),
  (0x256F48, 0x0299A0),
  (0x256F4A, 0x0299A4_004BB9_004BB7_009A5C_0299A8_009A5E_004BBA_0299B9_009A5D_004BBB_0299B6),
  (0x256F57, 0x004BBD_0299CC_0299C7_0299C2_0299C4_0299C6_0299CA_0299CB_004BBE_009A61_0299D0_0299CF),
  (0x256F63, 0x0299D2_0299D4_0299D5_0299DC_0299D8_0299DA_0299E1_029A11_029A13_029A12_029A15_029A19),
  (0x256F6F, 0x009AAC_009AAE_029A14_029A1B_009AAA_029A1A_029A18_029A23),
  (0x256F78, 0x029A1D_004BC8_029A1C_029A1E_029A20_029A21_029A29),
  (0x257021, 0x029A3B_029A2D_029A2C_029A32),
  (0x257026, 0x004BCC_004BCB_029A38_029A2E_029A39_004BCE_029A36_004BCD_029A2F_029A30_004BD4_004BD3),
  (0x257032, 0x029A3F_029A43_004BD0_029A3D_004BD2_029A3E_029A4F_004BD8_029A4B_004BD7_029A52),
  (0x25703E, 0x029A49_029A4D_029A54_029A4E_029A4C_029A66_029A60_029A5D_004BDB_029A67_029A58_029A61),
  (0x25704A, 0x029A64_029A5F_029A5B_029A62_029A57_029A6E_004BDF_029A70_029A74_029A6D_004BDE_029A76),
  (0x257056, 0x029A7C_029A6F),
  (0x257059, 0x029A73_029A83_009AC9_004BE1_029A88_004BE0_029A82_029A81_009ACD_029A8A_029A8D_029A8B),
  (0x257065, 0x029A8E_029A90),
  (0x257068, 0x029A91_029A99_029A98_029A9C_029A9B_029AA0_029AA3_029AA2_029AA9_029AA1_029AA5_029AA6),
  (0x257074, 0x029AA7_029AA4_029AAE_029AAD_004BE5_029AB1_029AB4_004BE6_029AB8),
  (0x25707E, 0x009AD7),
  (0x257121, 0x029ABC_029ABE_004BE7_004BE8_029AC0_009ADA_029AC2_029AC1),
  (0x25712A, 0x009ADB),
  (0x25712C, 0x029ACD_029AD4_029AD5_029AD7_029ADD_004BEA_029AE0),
  (0x257134, 0x009ADD_004BEB_009ADE_029AEA_029AED_004BEC_029AF2_029AF3_004BEE_029AF4_029AFA_029AFF),
  (0x257140, 0x004BF2_029B00_009AE5_029B02),
  (0x257145, 0x029B10_004BF4_029B0F_029B1C_029B1D_004BF5_029B1B_029B1A_029B29_029B2B_029B1E_029B17),
  (0x257151, 0x029B2D_029B20_009AF1_029B2E_029B1F_029B14_029B16_029B38_009AF8_004BF7_029B39_029B36),
  (0x25715D, 0x029B3D_029B30),
  (0x257160, 0x009AF7_029B33_029B3A_029B31_029B37_029B35_029B3B),
  (0x257168, 0x029B51_029B53_004BF9_029B4A_029B4C_029B52_029B50_029B47),
  (0x257171, 0x029B4E_029B5D_029B4F_004C03_004BFF_029B5E_029B69_004C07_029B6B_029B77),
  (0x25717C, 0x029B61_029B68_029B5F),
  (0x257221, 0x029B62_029B67_029B60_004BFE_029B65_004C02_004C01_029B7D_029B88_004C06_029B81_029B8F),
  (0x25722D, 0x029B85_029B82_029B90_029B7F),
  (0x257232, 0x029B84),
  (0x257234, 0x009B0F_029B80_029BA0_029B98_029B9B_029B9F_004C0A_029B9A_029B99_029B96_029BAE_029B9E),
  (0x257240, 0x029BAB_004C0D_029BB5_029BB1_029BAF_029BB3_029BB6_029BB9_029BB4_029BB7_029BB0_004C0C),
  (0x25724C, 0x029BC5_029BC8_029BC4_029BCC_029BC7_029BC3_029BC6_029BCB_029BC9_029BCD_029BCF),
  (0x257258, 0x029BDD_029BDC_029BDE_029BDB_004C0F_029BF2_029BF3_029BF1_029BF0_029C00_029BFA_029BFE),
  (0x257264, 0x029C02_029C03_029C07_029C09_029C0A_029C0B_029C0C_029C0D_029C17_029C20_029C21_029C24),
  (0x257270, 0x029C2A_029C2D_004C1B_029C2F_029C36_029C32_029C34_029C33_029C42_029C46_029C44_029C47),
  (0x25727C, 0x009B38_029C4F_029C59),
  (0x257321, 0x029C54_029C53_029C57_029C5E_029C61_02937B_029C6A_029C67_029C66_029C6B_029C6C_029C6D),
  (0x25732D, 0x029C6E_029C73_029C77_029C79_029C7B_029C7C_029C89_029C82_029C84),
  (0x257337, 0x029C83_029C81_029C8B_029C8C_029C8E_029C90_029C8D_029C8A_029CB1),
  (0x257341, 0x029CA7_029CA2_029CA3_029CB4_029CB9_029CB3_029CA6_029CB7_029CB5_029CAA_029CA9_004C21),
  (0x25734D, 0x029CBB_029CC0_029CBE_029CBD),
  (0x257352, 0x029CCB_029CC7_029CC6_029CC5_004C22_029CC8_029CDD_029CD4_029CCC_029CD0_029CD2_029CCD),
  (0x25735E, 0x029CD3_029CD8_029CD9_029CE1_029CCE_029CD5_029CCF_029CE3_004C25_029CEF_029CE2_029D00),
  (0x25736A, 0x029CE5_004C29_004C24_029CE7_029CE4_029CE8_029CE6_029CF2_004C26_029D1E_029CF6_029CF5),
  (0x257376, 0x029CF8_029D03_029D09_029D0D_029D07_029D06_029D19_029D10_029D12),
  (0x257421, 0x029D1F_029D1C_029D18_029D11_029D28_029D29_029D20_029D23_029D1D_029D24_004C2C_029D21),
  (0x25742D, 0x029D2A_029D2F_029D2E_029D33_029D32_029D3A_029D3B_029D40_029D44_029D45_029D47_029D48),
  (0x257439, 0x029D4A_029D4E_029D4C_029D4F_029D4D_009B5C_029D51_009B62_029D57_004C35_029D5B_029D55),
  (0x257445, 0x029D56_004C34_029D6C_029D6B_009B70_029D6D_009B73_029D80_029D66_029D63_009B65_029D65),
  (0x257451, 0x004C3E_009B72_004C37_029D71_029D60_029D62_029D61_004C38),
  (0x25745B, 0x029D82_029DCB_029D9E_009B94_029D89_029D84_029D96_004C49_029D8E_029D8C_029D88_029D87),
  (0x257467, 0x004C43_029D85_029D95_004C4A_029DA6_029DC2_004C4D_029DA5_029DA9_029DBF_029DA2_009BA2),
  (0x257473, 0x029DB0_029DA4_029DA7_029DA3_029DCC_029DAB_029DD5_009BB7_029DD9_029DD0),
  (0x25747E, 0x029DD3),
  (0x257521, 0x009BC2_004C4C_029DF5_004C51),
  (0x257526, 0x004C52_029E01_029DD6),
  (0x25752A, 0x004C55_009BCC_029DCE_029DD7_029DF4_004C53_009BF3_029E41_029E28_029E0E_029E27_009BD9),
  (0x257536, 0x029E25_029DFC_009BED_009BFA_029E39_029DFB_029E0B_004C60),
  (0x25753F, 0x004C5E_029E07_029E06_004C5B_004C59_029DFD_029E0C_009BE3_029E22_004C66),
  (0x25754A, 0x009BEF_029E00_029E03_009BD8_029E10_029E02_029E1F_029E4E),
  (0x257553, 0x029E4A_004C76_029E48_029E4D_004C6F_029E40_004C6E_009C16_029E49_029E44_029E42_029E62),
  (0x25755F, 0x029E45_029E51_004C72_029E4F_029E65_004C79_029E71_004C7C_029E78_009C2A),
  (0x25756A, 0x029E7C_009C22_004C7A_029E73_029E84_029E9B_029E74_029E77_029EAB_009C1E_004C7D_029EAD),
  (0x257576, 0x029EAE_029EAF_004C82_004C85_004C7F_029EB1_029EB8_004C80_029ECA),
  (0x257621, 0x029EB7_029EB5_029ED6_004C86),
  (0x257626, 0x004C8F_029EDD_004C8C_004C89_029ED8_004C8E),
  (0x25762D, 0x029EE7_029EE4_009C4B_009C4C_029EDA_029F0A_004C91_029F02_029F0E_029F12),
  (0x257638, 0x029F09_029F05_029F03_029F1F_029F04_029F0B_009C65_009C61_004C92_004C93_029F0D_029F0C),
  (0x257644, 0x029F2A_029F27_029F34_009C6C_029F26_029F2D),
  (0x25764B, 0x029F33_029F28_029F41_029F40),
  (0x257650, 0x029F4C_029F3D_029F4F_029F4D_029F4E_029F55_029F5C_029F5B_029F61_029F5E_029F5D_029F6A),
  (0x25765C, 0x029F68_009C79_029F67_029F70_029F6C_029F73_029F77_004C9C_009CE8_029F94_029F92_029F95),
  (0x257668, 0x029F99_029F98_004CA5_029FA2),
  (0x25766D, 0x004CA8_004CAA),
  (0x257670, 0x009CF5_029FAC_029FA0_029F9F_029FA3_029FA1_029FA7_029F9E_004CB1_004CB3_009D0B_029FBD),
  (0x25767D, 0x029FB3_029FB6),
  (0x257721, 0x029FB5_004CAF_029FB7_029FBA_009CFE_029FCB_029FB8_029FC5_029FDB_004CAE_004CB0_029FC1),
  (0x25772D, 0x029FBC_029FC0_029FC4_004CB2_029FC2_004CB8_004CAD_029FBE_029FC9_029FC3_029FD3_009D01),
  (0x257739, 0x029FBF_004CAC_029FB9_029FD5_029FB2),
  (0x25773F, 0x029FB1_029FBB_009D05_009CFB_029FC8_029FD8_009D27_004CBB_004CB9_029FDF),
  (0x25774A, 0x004CC2_029FE4_004CBF_029FDD_004CBE_029FE0_009D0A_029FEC_004CBA),
  (0x257754, 0x004CC5),
  (0x257756, 0x004CBC_02A00A_029FE1_029FDE_004CC3_004CC9_029FE5_009D11_009D0F_009D24_02A00D_029FEA),
  (0x257763, 0x009D29_029FE7_02A024_02A01D),
  (0x257768, 0x02A025_02A01E_02A02C_02A027_004CD2_02A012),
  (0x257770, 0x02A01B_02A040_004CD3_02A014_02A01A_02A021_007FF5_004CC4_02A03A_02A02D),
  (0x25777B, 0x02A01F_02A015_02A016),
  (0x257821, 0x02A022_009D2D_02A029_009D3C_02A017_02A023_02A013_02A020),
  (0x25782A, 0x02A05A_02A058_02A055_02A054_02A05C_02A060_02A072_009D4D_02A052_004CD6),
  (0x257835, 0x02A04D_02A053_009D63_02A067_02A065_02A062_004CED_02A04A_009D50_02A059_02A05E_02A04E),
  (0x257841, 0x004CDB_02A063),
  (0x257844, 0x004CD9_009D62_009D4E_02A066_004CD4_02A050_02A06E),
  (0x25784C, 0x02A088_02A091_02A078_009D7C_02A077_004CDD_02A07D_004CDE_02A08D_02A095_004CE3_02A085),
  (0x257858, 0x02A07B_02A0AA),
  (0x25785B, 0x02A090_02A08B_02A09C_02A07F),
  (0x257860, 0x004CDF_02A09B_02A08C_02A087_02A093_02A0A0_02A07A_02A09E_02A07E_009D6D_02A080_009D66),
  (0x25786C, 0x009D68_02A0A4_02A092_02A07C_02A084_02A079_02A0D5_02A0DB_02A0D2_009D95_02A0C2_02A0ED),
  (0x257878, 0x004CE6_02A0DC_009D90_02A0B9_02A0C7_004CE9_02A0CF),
  (0x257921, 0x004CEC_02A0B6_009DA6_02A0C6_02A0E3_02A0F8_02A135_02A0BC_02A0C9_02A0C5_02A0CC_02A0D1),
  (0x25792D, 0x02A0CD_02A0C4_004CEA_02A10D_02A0C0_02A0D6_02A0F7_02A0DA_02A0CE_02A0F6_02A0DD_004CE0),
  (0x257939, 0x004CF0_02A0CA_02A0BE_02A0BD_004CE7_02A0C1_02A0BA_02A0EB_004CEF_02A0F0),
  (0x257944, 0x02A0D3_02A10B_02A12B_02A0FD_02A0FE_02A10F_02A102_02A101_02A0FA_004CF2_02A108_02A10C),
  (0x257950, 0x02A10E_02A117_02A110),
  (0x257954, 0x02A0FF_004CF4_02A10A_02A112_02A149_02A106_02A14E_02A0FC_02A129_02A11D_02A107_02A109),
  (0x257960, 0x02A105_009DCE_02A144_02A146_004CF8_004CF9),
  (0x257967, 0x02A132_004CFB_02A12F_02A12E_02A156_02A138_02A137_02A14B_02A133_02A136_02A18A_02A13B),
  (0x257973, 0x009DF5_02A13D_004CFC_02A145_02A147_02A139_004CF7_02A15D_009DE0_02A148_02A14A_02A14C),
  (0x257A21, 0x02A13E_004D01_02A1A0_004D00_02A19F_004CFE_02A189_004D03_02A174_02A17D_02A17C_02A180),
  (0x257A2D, 0x02A181_02A17F_02A171_02A14F_02A175_02A17A_02A186_02A19B_004D06_02A1A8_02A184_02A179),
  (0x257A39, 0x02A17B_02A172_004D04_004CFF_004D02_02A18B_009DF1_02A170),
  (0x257A42, 0x02A1BF_02A1C9_02A1B8_02A1B2_02A1C2_009E0A_02A1C0_02A1C1_02A1AF_02A1B4_02A1B6_009E08),
  (0x257A4E, 0x02A1B9_02A1B3_02A1B7_02A1C8_02A1C7_02A1D2_02A1D5_02A1DB_02A1D6_02A1D8_02A1D7_009E10),
  (0x257A5A, 0x02A1E1_02A1DC_02A1D3_004D0D_02A1DD_02A1D1_02A1F5_02A1EF_004D0E_02A200_02A1F4_02A1ED),
  (0x257A66, 0x02A1F9_02A217_02A20B_02A203_02A210_02A206_02A209_02A20D),
  (0x257A6F, 0x02A207_02A20C_02A21E_02A21F_02A218_02A21C_02A229_02A227_02A225_02A228_02A22A_02A22F),
  (0x257A7B, 0x0275A0_02A231_02A230_004D10),
  (0x257B21, 0x029594_02A234),
  (0x257B24, 0x02A238_02A23A),
  (0x257B27, 0x02A23B_02A23C_004D11_02A23F_02A257_02A256_02A258_02A25D_02A25C_009E77_02A262_02A263),
  (0x257B34, 0x02A26A_02A268_02A266_02A26F_02A26D_02A275_02A276_02A277_004D1C_02A27B_02A280_02A27F),
  (0x257B41, 0x02A284_02A286_02A287_004D1E_02A289_009E81_02A28D_004D1F_02A295_02A28F_02A290_02A292),
  (0x257B4D, 0x02A297_02A29C_004D24_004D23_02A2A2_009E8A_02A2B3_02A2A5_02A2AB_009E89_02A2A9_02A2A6),
  (0x257B5A, 0x02A2AD_02A2AA),
  (0x257B5D, 0x009E8F_02A2B7_02A2B5_02A2C1_02A2B9_02A2BB_02A2B4_02A2B6_02A2C2_02A2BF_02A2CC_02A2C5),
  (0x257B69, 0x02A2C4_02A2CF_02A2D1_02A2C9_02A2CA_02A2C6_02A2C7_004D27_02A2D6_02A2DA_02A2D7),
  (0x257B75, 0x004D29_02A2DC_004D2A),
  (0x257B79, 0x02A2E2_02A2E3_02A2E1_02A2EA_02A2F0_02A2EC),
  (0x257C21, 0x02A2EB_02A2EF_02A2F1),
  (0x257C25, 0x009EA3_02A2F9_02A2FA_02A300_02A2FE_02A301_004D2C_02A303_02A304_004D2E_02A302_02A309),
  (0x257C31, 0x02A30C),
  (0x257C34, 0x02A308_02A30A_004D30_02A305),
  (0x257C39, 0x02A306_004D2F_02A313_02A30D_02A307_004D31_02A310),
  (0x257C41, 0x02A320_004D32_02A31E_02A31D_02A316_004D34_02A31A_02A31F_004D35_02A327_02A322_02A328),
  (0x257C4D, 0x02A324_02A32A_02A325_02A329_02A323_02A32B_004D37_02A32E_02A335_02A336_02A330_02A33A),
  (0x257C59, 0x02A32D_02A337_009EB2_02A339),
  (0x257C5E, 0x02A331_004D36_02A342_02A345_02A340_009EB3_004D3C_02A36C_02A348_02A341_02A33D_02A33E),
  (0x257C6A, 0x02A346_02A33C_02A347_02A33F_02A344_004D3B_02A35A_02A353_02A34C_02A34E_02A34F_02A354),
  (0x257C76, 0x02A357_02A361_02A35B),
  (0x257C7A, 0x02A35F_02A35D_02A367_004D45_02A36E),
  (0x257D21, 0x02A366_02A369_02A36A_02A36D_02A363_02A364_004D41_02A376_02A374_004D43_02A373_02A372),
  (0x257D2D, 0x02A375_02A37D_02A378_02A37B_02A37A_02A379_02A37F_02A381_02A384_02A383_02A385_02A386),
  (0x257D39, 0x02A387_02A394_02A393_02A392_02A396_02A397_004D47_02A39D_02A39C_02A39E_02A39B_009E8D),
  (0x257D45, 0x02A3A1_02A3A0_02A3A4_009EBF_02A3A6_02A3A5_004D49_02A3AB_02A3AF_02A3AE_02A3B2_02A3B3),
  (0x257D51, 0x02A3B4_02A3B8_02A3B5_02A3B9_02A3B6_004D4A_02A3BA_02A3C1_02A3BB_02A3C0_02A3BE_009ECB),
  (0x257D5D, 0x02A3BC_02A3C5_02A3CB_004D4D_02A3C9_02A3C7_02A3C8_02A3CA),
  (0x257D66, 0x02A3CF_02A3CD_02A3D2_02A3D5_02A3D6_02A3D4),
  (0x257D6D, 0x02A3D3_02A3DE_02A3D9_02A3E2_02A3DF_02A3E0_02A3E4_02A3E5_02A3E6_02A3E8_02A3E9_02A3EA),
  (0x257D79, 0x02A3EB_004D51_02A3F3_02A3F2_02A3F1_004D53),
  (0x257E21, 0x02A3F4_02A3FA_02A3F8_02A3FB_02A3FE_02A3F6_02A3F7_02A400_02A402_02A403_004D55_004D54),
  (0x257E2D, 0x004D59_004D58_02A407_02A40B_004D5A_02A40E_02A40C_02A40D_004D5C_02A413_02A416_02A414),
  (0x257E39, 0x02A418_02A41A_02A41D_02A423_004D5F_02A41F_02A41E_02A428_02A429_02A430_02A426_02A424),
  (0x257E45, 0x02A427_02A425),
  (0x257E48, 0x02A42F_004D61),
  (0x257E4B, 0x02A42E_02A434_004D62_02A443_02A432_02A43B_02A43A_004D66_004D67_02A446_02A440_02A447),
  (0x257E57, 0x02A442_004D65_02A43F_02A444_02A44E_02A450_02A449_02A448_02A44A_02A44F_009EE2_02A44C),
  (0x257E63, 0x02A44B_004D69_02A453_004D6B_02A457_02A452_02A456_02A45A_004D6D_02A45D_02A45F_02A462),
  (0x257E6F, 0x004D6A_02A459_02A45C_02A455),
  (0x257E74, 0x02A46A_02A46B_02A46C_02A469_02A470_02A478_02A475_02A47C_02A46E_02A467_02A468),
  (0x262221, 0x02A476_02A46D_02A466_02A477_02A479_02A47B_004D6F_02A46F_02A48D_02A484_02A482_02A486),
  (0x26222D, 0x02A487_02A47E_02A47F),
  (0x262231, 0x02A48B_02A48A_02A494_02A48F_02A492_02A493_02A491_02A4A3_02A495_004D70_02A49F_02A49C),
  (0x26223D, 0x02A49D_02A498_02A49B_02A499_02A4A2_004D72_02A4AA_02A4A9_02A4AC_02A4AF_02A4B2_02A4AD),
  (0x262249, 0x02A4AB_02A4B4_02A4BB_02A4BC_02A4BE_02A4BA_02A4BF_02A4C0_02A4C3_02A4C4_02A4C5_02A4C9),
  (0x262255, 0x02A4CA),
  (0x262257, 0x02A4CB_02A4CF_02A4CE_009F01_02A4D4_009F00_02A4DC_02A4DA_02A4E1_004D77_009F04_02A4E7),
  (0x262263, 0x009F05_02A4F0_02A4EE_004D78),
  (0x262268, 0x02A4FC),
  (0x26226A, 0x02A506_02A505_004D7B_004D7C_009F14_02A50B),
  (0x262271, 0x02A511_004D7D),
  (0x262274, 0x004D7F_004D7E_02A519_02A516_02A518_02A517_02A514_02A51C_02A51F),
  (0x26227E, 0x004D81),
  (0x262321, 0x02A526_02A52C_02A529_02A52B_02A52A),
  (0x262327, 0x02A530_02A1DE_02A536_02A537_02A53A_02A53C_02A543_02A541_02A547),
  (0x262331, 0x02A540_02A53E_02A548_02A53F_02A542_02A546_02A54E_02A550_02A54D_02A54C_02A552_02A554),
  (0x26233D, 0x02A553_02A559_02A560_009F30_02A564_02A55D_02A566_02A569_02A568_02A56C_02A570_02A56E),
  (0x262349, 0x02A56F_02A56B_004D87_02A56D_02A574_02A579_02A577_004D88_02A582_02A584_02A580_02A581),
  (0x262355, 0x02A586_02A589_02A588_02A58A_02A58B_02A58D_02A58C_02A590_009F3C_02A591_004D8B_02A595),
  (0x262361, 0x02A59E_02A59A_02A59C_02A59B_004D8D_02A5A3_004D8E_004D8F_02A5A6_02A5A9_02A5A5_02A5AA),
  (0x26236D, 0x02A5AF_02A5B3_02A57F_02A5B6_02A5B7_02A5BC_004D90_004D91_02A5C1_02A5C2_02A5C5_02A5C6),
  (0x262379, 0x004D93),
  (0x26237B, 0x02A5C7),
  (0x26237D, 0x02A5D0_02A5CF),
  (0x262421, 0x02A5D4_02A5D6_004D94_02A5DC_02A5DD_02A5E4_004D96_004D98_02A5F4_02A5EA_02A5EC_02A5E7),
  (0x26242D, 0x02A5E6_02A5EE_02A5F5_02A5EB_02A5F9_02A5FA_02A603_02A60D_009F65_004D9A_02A609_02A5F7),
  (0x262439, 0x02A5F8_02A5FC_02A601_02A607_02A606_02A60A_02A60E_02A61C_02A623_004D9D_02A61D_009F6B),
  (0x262445, 0x02A611_004D9C_02A610_02A624_02A612_02A615_02A617_02A632_02A626_02A633_02A636_02A62A),
  (0x262451, 0x02A62D_004D9F_02A631_02A63A_02A63B_004DA0_02A63C_02A640_004DA1_02A639_02A63E_02A648),
  (0x26245D, 0x02A645_02A654_02A64F_02A64C_02A659_004DA4_02A64B_02A656_02A64E_02A65E_02A65B_02A662),
  (0x262469, 0x02A65F_02A65D),
  (0x26246C, 0x02A66D_02A668_02A663_02A666),
  (0x262471, 0x02A667_02A674_02A672_02A670_02A673_004DAA_02A67A_02A679_02A677_02A67D_02A67F_02A67E),
  (0x26247D, 0x02A682_02A683),
  (0x262521, 0x02A689_02A687_004DAB_02A68E_02A68D_02A691_02A693_02A698_009F92),
  (0x26252B, 0x02A6A2_009F98_02A6A5_004DAF_02A6AF_02A6AD_02A6AC_02A6AE_02A6BA_02A6B9_02A6B7_02A6B8),
  (0x262537, 0x02A6BB_02A6B6_02A6C0_02A6C3_02A6C2_02A6C8_004DB3_02A6CA_02A6CF),
  (0x263A21, 0x006FF9),
  (0x272B4E, 0x00300A_00300B),
  (0x272B52, 0x003008_003009),
  (0x273032, 0x005E76),
  (0x27304C, 0x005E72_004E71),
  (0x273058, 0x004E9A),
  (0x273138, 0x005E03),
  (0x27313C, 0x005360),
  (0x27314C, 0x006765),
  (0x27314F, 0x004ED1),
  (0x273157, 0x004F29),
  (0x27315D, 0x004FA0),
  (0x273169, 0x007CFB),
  (0x27316C, 0x004ED3),
  (0x273173, 0x004EEC),
  (0x273179, 0x004FE9),
  (0x273224, 0x004E2A),
  (0x273226, 0x004F25),
  (0x27322D, 0x004F26_004EC3),
  (0x273233, 0x004F1F),
  (0x273235, 0x004FA7),
  (0x273238, 0x004FA6),
  (0x27323E, 0x005BB6),
  (0x273240, 0x005907_006770),
  (0x273243, 0x004F27_004F1E),
  (0x273246, 0x004F20_00503A),
  (0x273249, 0x004EC5_00503E),
  (0x27324C, 0x004F24),
  (0x273251, 0x004FA5),
  (0x273254, 0x0201A8_004EC6_004F2A_008C61_004FA8_004EEA_004EBF),
  (0x27325D, 0x004EF7_004FAC),
  (0x273260, 0x004FA9_004FED_0050A7_005C3D_0201A7_004FE6_004F18_00507F),
  (0x273269, 0x0050A8_004FEA_004FE8),
  (0x273273, 0x0051F6),
  (0x27327A, 0x00513F_005156),
  (0x273323, 0x004E24),
  (0x27332E, 0x004E20),
  (0x273340, 0x0051BB),
  (0x273348, 0x0051EF),
  (0x27336B, 0x00514B),
  (0x27336D, 0x005219),
  (0x273370, 0x00521A),
  (0x273374, 0x004ED8),
  (0x273376, 0x005240),
  (0x273378, 0x00521B_00522C),
  (0x27337C, 0x005212),
  (0x27337E, 0x005267),
  (0x273421, 0x005251_005218_005242),
  (0x27342F, 0x0052B2),
  (0x273433, 0x0052A1_0052A8_0052B3_0052CB_0080DC_0052BF),
  (0x27343C, 0x0052B1_00529D),
  (0x273451, 0x006C47_00532E),
  (0x273455, 0x00533A),
  (0x27345F, 0x005346_00534F),
  (0x27347A, 0x00538C_005389),
  (0x27347D, 0x0053C2),
  (0x27352B, 0x004E1B),
  (0x27352F, 0x004E01),
  (0x27363E, 0x005458),
  (0x273648, 0x0095EE_0054D1),
  (0x273663, 0x004E27),
  (0x273668, 0x005355),
  (0x27366D, 0x005524),
  (0x27366F, 0x004E54),
  (0x273671, 0x0054DF),
  (0x273678, 0x00556C),
  (0x27367A, 0x005417),
  (0x273721, 0x00545C_00545B),
  (0x273727, 0x005567),
  (0x27372C, 0x0053F9),
  (0x27372E, 0x005455),
  (0x273730, 0x005C1D_0055BD_005520_005578),
  (0x27373D, 0x005480),
  (0x273740, 0x0053FD),
  (0x273744, 0x005428_0055B7_005F53_0054DD),
  (0x27374B, 0x0055F3),
  (0x27374E, 0x00549B),
  (0x273751, 0x005413),
  (0x273754, 0x00565C_005411_005499),
  (0x27375A, 0x004E25_005624_00556D_0055EB_0056A3),
  (0x273761, 0x007F57_005453),
  (0x273764, 0x005631),
  (0x27376F, 0x0056EF_0056F4_0056ED_005706_0056E2_0056FE),
  (0x27383B, 0x006267),
  (0x27383E, 0x0057A9_00575A),
  (0x273844, 0x0062A5_005C27),
  (0x27384A, 0x00573A),
  (0x27384D, 0x006D82),
  (0x273850, 0x005861),
  (0x273855, 0x00575E_005757_00362B),
  (0x273859, 0x005C18_0057AB_005811),
  (0x273860, 0x00575F_005760_005815),
  (0x273864, 0x00575B),
  (0x273866, 0x005752_0057A6),
  (0x273869, 0x00538B),
  (0x27386B, 0x005739_005792_005784_00574F_00575C_005735_00575D),
  (0x273874, 0x0058EE),
  (0x273876, 0x0058F6_005BFF),
  (0x273923, 0x004F19_0068A6),
  (0x27392E, 0x005939),
  (0x27393F, 0x005941_00593A_00594B),
  (0x273953, 0x005986),
  (0x273A27, 0x005987_005A04),
  (0x273A36, 0x005988),
  (0x273A3B, 0x0059AA),
  (0x273A41, 0x005A34),
  (0x273A43, 0x005A75_005A07_0059A9),
  (0x273A48, 0x005AD4),
  (0x273A4A, 0x005A74_005A76),
  (0x273A5B, 0x005B59),
  (0x273A5F, 0x005B5A_005B66),
  (0x273A63, 0x005B6A),
  (0x273B2C, 0x00374B),
  (0x273B2E, 0x005BDD),
  (0x273B31, 0x005B9E_005B81),
  (0x273B35, 0x005BBD_005BA1_005199_005BA0_005B9D),
  (0x273B3F, 0x004E13_005C06),
  (0x273B42, 0x005BFB_005BF9_005BFC),
  (0x273B4C, 0x005C34),
  (0x273B60, 0x005C61_005C42),
  (0x273B63, 0x005C5E),
  (0x273B6E, 0x005188),
  (0x273B74, 0x005CE1),
  (0x273B79, 0x005C9B),
  (0x273C22, 0x006606),
  (0x273C28, 0x005C9A),
  (0x273C2A, 0x005D2D_005C96),
  (0x273C2D, 0x005C7F_005CB3_005CAD),
  (0x273C31, 0x005CE6_005DC5_005CA9),
  (0x273C4F, 0x005E05),
  (0x273C51, 0x005E08_005E10_005E26),
  (0x273C58, 0x005E27),
  (0x273C5C, 0x005E3C),
  (0x273C5E, 0x005E01),
  (0x273C60, 0x005E1C_005E2E),
  (0x273C67, 0x005E72),
  (0x273C6B, 0x0051E0),
  (0x273C76, 0x005E93_005750),
  (0x273C7E, 0x005395),
  (0x273D27, 0x005E9F),
  (0x273D2A, 0x005E7F_005E99_005382_005E9E_005E90_005385),
  (0x273D33, 0x008FE0),
  (0x273D47, 0x005F20),
  (0x273D4A, 0x005225_005F39_005F25_005F2F),
  (0x273D4F, 0x006C47),
  (0x273D59, 0x022488),
  (0x273D65, 0x00540E),
  (0x273D67, 0x005F84),
  (0x273D6C, 0x004ECE),
  (0x273D6F, 0x00590D),
  (0x273D74, 0x005F7B),
  (0x273D76, 0x005F81_005E51_005FC4),
  (0x273E57, 0x005FF0),
  (0x273E5C, 0x0095F7),
  (0x273E5E, 0x006005),
  (0x273E61, 0x006076),
  (0x273E6C, 0x0060EC),
  (0x273E70, 0x00607B),
  (0x273E77, 0x007231),
  (0x273E7C, 0x0225B3),
  (0x273E7E, 0x00607C),
  (0x273F28, 0x006001_005FFE),
  (0x273F2B, 0x006006),
  (0x273F2D, 0x005FFC_005E86),
  (0x273F31, 0x0060ED),
  (0x273F33, 0x005FE7),
  (0x273F36, 0x008651),
  (0x273F38, 0x0060E8_0060EF_006078_006002_006B32),
  (0x273F3E, 0x005BAA_0051ED),
  (0x273F41, 0x0060AF_006124),
  (0x273F44, 0x0060EE_006187),
  (0x273F47, 0x0060EB_005FC6),
  (0x273F4A, 0x005E94_00601C),
  (0x273F4D, 0x00390F_006073),
  (0x273F50, 0x003907),
  (0x273F53, 0x0060E9_006000_0061D2_0060AC),
  (0x273F58, 0x005FCF_006151),
  (0x273F5B, 0x0060E7_00604B),
  (0x273F6E, 0x006218_00620F),
  (0x27406C, 0x00631F),
  (0x27407B, 0x005377),
  (0x27407D, 0x00626B_00626A),
  (0x274123, 0x006302),
  (0x274135, 0x00820D_0062A1),
  (0x27413C, 0x0062E3),
  (0x27413F, 0x00626C),
  (0x274142, 0x006325),
  (0x27414F, 0x00635F),
  (0x274153, 0x006363),
  (0x274155, 0x0062A2),
  (0x27415A, 0x005C4F_00631A),
  (0x27415F, 0x006402_0063B4),
  (0x274165, 0x00635E_0062E8),
  (0x274168, 0x006320),
  (0x27416E, 0x006251),
  (0x274171, 0x00629A),
  (0x274174, 0x0062E5),
  (0x274176, 0x0051FB_00631E),
  (0x27417A, 0x006321),
  (0x27417C, 0x00636E_0063B3_0062E9),
  (0x274222, 0x0062C5),
  (0x274224, 0x006361_006324_0062E7),
  (0x274228, 0x0062DF_006401_006269_0063B7_0064B5),
  (0x27422E, 0x006270_0064DE_006446_0062E2),
  (0x274233, 0x0062E6_006400_006444),
  (0x274237, 0x00631B_00644A),
  (0x27423A, 0x006405_0063FD),
  (0x274247, 0x008D25),
  (0x27424F, 0x00542F),
  (0x274252, 0x00654C),
  (0x274254, 0x006570),
  (0x274256, 0x00655B_006BD9),
  (0x274263, 0x0065A9),
  (0x274266, 0x0065AD),
  (0x274322, 0x0200D3),
  (0x27432D, 0x0065F6),
  (0x274332, 0x00663C),
  (0x274340, 0x006656_006655),
  (0x274343, 0x007545_006682),
  (0x274348, 0x006653_005386),
  (0x27434B, 0x0066A7),
  (0x27434D, 0x0065F7),
  (0x274355, 0x004E66),
  (0x27435A, 0x004F1A),
  (0x274365, 0x0082CE_0080E7),
  (0x274426, 0x004E1C),
  (0x274463, 0x006761),
  (0x274468, 0x0067AD_006800),
  (0x27446D, 0x005F03_006816),
  (0x274471, 0x00680B),
  (0x274476, 0x006808),
  (0x27447A, 0x0067A3),
  (0x27447C, 0x00832D),
  (0x274526, 0x006781),
  (0x27452A, 0x006768_006862),
  (0x27452D, 0x004E1A),
  (0x27452F, 0x0067AB),
  (0x274537, 0x008363),
  (0x274539, 0x006784),
  (0x274540, 0x0067AA),
  (0x274544, 0x006837),
  (0x274546, 0x006869_006807),
  (0x274549, 0x0067A2_00697C),
  (0x27454C, 0x006868),
  (0x27454E, 0x004E50_00679E),
  (0x274553, 0x00692D),
  (0x274555, 0x006811),
  (0x274557, 0x006866_006734),
  (0x27455B, 0x006865),
  (0x27455D, 0x00673A_00679F_006863),
  (0x274561, 0x0068C0_006867_0067E0_0069DF_0067DC_0069DB),
  (0x27456A, 0x006988_00691F_006809_006A79_00680F_006A31_006743_006984),
  (0x274578, 0x0094A6),
  (0x27457A, 0x006B20),
  (0x27457C, 0x006B27),
  (0x27457E, 0x006B24),
  (0x274621, 0x006B22),
  (0x274629, 0x005C81_005386_005F52),
  (0x274633, 0x006B8B),
  (0x274635, 0x006B87_006B93_006BA1_006B7C),
  (0x27463B, 0x006740_0058F3),
  (0x27463E, 0x021C52),
  (0x274640, 0x006BB4),
  (0x274655, 0x006C14),
  (0x274658, 0x006C22),
  (0x274722, 0x00592A),
  (0x27474E, 0x006CFE),
  (0x274759, 0x006CEA),
  (0x274768, 0x006D45),
  (0x274774, 0x006E0A),
  (0x274777, 0x006CA6),
  (0x27477B, 0x006C8B),
  (0x27477D, 0x006D8C_006D30),
  (0x27482D, 0x006C64),
  (0x274830, 0x006D4B_006DA1),
  (0x274833, 0x006D51),
  (0x27483D, 0x006C9F),
  (0x274841, 0x006C85_00706D),
  (0x274844, 0x006E7F),
  (0x274848, 0x006CA7),
  (0x27484B, 0x0051C6),
  (0x27484F, 0x006CAA),
  (0x274854, 0x006E0D_006DA8),
  (0x274857, 0x006C49_006EE1_006D9F_006E10),
  (0x27485E, 0x003CBA_006EDE),
  (0x274863, 0x006D46_006E17_006E14),
  (0x274867, 0x006DA4),
  (0x27486C, 0x006CFC_006DA6_006DA7_006D01),
  (0x274871, 0x006D47),
  (0x274874, 0x006C58),
  (0x274877, 0x023C7E_006E83),
  (0x27487B, 0x006DC0_006D53),
  (0x274921, 0x006CFD_006D4A),
  (0x274926, 0x006D4E_006CDE_006EE8),
  (0x27492B, 0x006EE5),
  (0x27492D, 0x006D9B_006DA9),
  (0x274930, 0x008499_006C88_006CFB_006E0E_006E85),
  (0x274936, 0x006EE4_006D4F),
  (0x27493A, 0x006FD1_006CA5_006FD2_006F47_005F25_006F9C),
  (0x274941, 0x006D12_006EE9_006E7E_006EE6),
  (0x27494A, 0x00707E),
  (0x274951, 0x004E3A),
  (0x27495D, 0x004E4C),
  (0x274966, 0x0065E0),
  (0x27496A, 0x0070BC),
  (0x27496D, 0x0070E6),
  (0x27496F, 0x007080),
  (0x274975, 0x006247),
  (0x274979, 0x00606F),
  (0x27497D, 0x0070ED_0070EB),
  (0x274A21, 0x0070BD_007096),
  (0x274A24, 0x00706F_007116_0070E7),
  (0x274A2E, 0x008425),
  (0x274A30, 0x0070DB_00707F),
  (0x274A33, 0x0070E9),
  (0x274A35, 0x02418A_0070C1_007089_0070C2),
  (0x274A42, 0x007237),
  (0x274A45, 0x005C14_005899),
  (0x274A4C, 0x00724D),
  (0x274A53, 0x005B83),
  (0x274A5A, 0x007275),
  (0x274A5E, 0x008366),
  (0x274A61, 0x00728A_00727A),
  (0x274A68, 0x0072B6),
  (0x274A70, 0x0072ED),
  (0x274A72, 0x0072C8),
  (0x274A79, 0x0072B9),
  (0x274A7E, 0x0072F1),
  (0x274B22, 0x0072EF_0072EE),
  (0x274B25, 0x005956),
  (0x274B27, 0x0072EC_0072DE_0083B7_0072B7_00517D_00730E_00736D_00732E_007321),
  (0x274B47, 0x0073B0),
  (0x274B57, 0x0073F2),
  (0x274B5C, 0x00738F_0083B9_00739B_007410),
  (0x274B64, 0x007391),
  (0x274B67, 0x0073AF_007477_0073BA_00743C_0073D1),
  (0x274B74, 0x0074EF),
  (0x274B7A, 0x004EA7),
  (0x274C2D, 0x004EA9),
  (0x274C31, 0x007544),
  (0x274C33, 0x006BD5_005F02),
  (0x274C36, 0x00753B),
  (0x274C39, 0x005F53),
  (0x274C3B, 0x007574_008FED),
  (0x274C47, 0x007592),
  (0x274C4A, 0x007605),
  (0x274C56, 0x0075C9),
  (0x274C58, 0x0075A9),
  (0x274C60, 0x0075A1_00759F_0075EA_0075AF),
  (0x274C6A, 0x0075AE),
  (0x274C6D, 0x0075E8_007597),
  (0x274C71, 0x0075A0),
  (0x274C73, 0x0075D2_0075C7_00765E_00763E_007663_00762B_00766B),
  (0x274C7B, 0x0053D1),
  (0x274D29, 0x007691),
  (0x274D2D, 0x0076B1),
  (0x274D37, 0x005408),
  (0x274D3A, 0x0076CF),
  (0x274D3C, 0x005C3D_0076D1_0076D8_005362),
  (0x274D43, 0x004E01),
  (0x274D56, 0x004F17_0056F0),
  (0x274D5D, 0x007750),
  (0x274D73, 0x004E86),
  (0x274D7A, 0x00772C),
  (0x274D7C, 0x0077A9),
  (0x274E27, 0x0077EB),
  (0x274E38, 0x006731),
  (0x274E3B, 0x00781A),
  (0x274E3E, 0x007815),
  (0x274E45, 0x007855),
  (0x274E49, 0x00786E),
  (0x274E4C, 0x007801),
  (0x274E53, 0x007816_007831),
  (0x274E58, 0x0077F6_007840_00788D_0077FF_0077FE_00783A_00783E),
  (0x274E6F, 0x0053EA),
  (0x274E77, 0x007978_00796F_005FA1),
  (0x274E7B, 0x007985_00793C_007977),
  (0x274F22, 0x004E07),
  (0x274F25, 0x0053B6),
  (0x274F36, 0x005E0C),
  (0x274F3C, 0x0079F0_0079CD),
  (0x274F40, 0x008C37),
  (0x274F44, 0x0079EF_009896_007A23),
  (0x274F49, 0x007A51_0079FD_0083B7_007A33),
  (0x274F5C, 0x006D3C_007A9D),
  (0x274F5F, 0x007A77_007AA5_007A8D_007A9C_007AA6_007A83),
  (0x274F6B, 0x007ADE),
  (0x274F70, 0x005DF4),
  (0x274F79, 0x007B14),
  (0x275021, 0x007B0B),
  (0x275023, 0x008345),
  (0x27502A, 0x0094B3_007B3A),
  (0x275030, 0x008303),
  (0x275033, 0x008282),
  (0x275038, 0x007BAC_007B03_007B51),
  (0x27503C, 0x007B5B),
  (0x27503E, 0x007BD3_007B13),
  (0x275041, 0x007B80_007BAB),
  (0x275045, 0x007BAA_007BD1),
  (0x275048, 0x005E18),
  (0x27504B, 0x007B7E_007BEE_007B79_007B08),
  (0x275050, 0x007B3C_007C41_007B7E_007BF1_007BA9_005401),
  (0x275060, 0x007C8B),
  (0x275062, 0x0080E1),
  (0x275065, 0x007C87),
  (0x275068, 0x007CAA),
  (0x27506B, 0x007CAE),
  (0x27506F, 0x007EA0_007EAA_007EA3_007EA2_007EAB_007EA6_007EA5_007EBA_007EB9),
  (0x27507A, 0x007EAD),
  (0x27507C, 0x007EB0_007EAF_007EBD),
  (0x275121, 0x007EB1_007EB3_007EA7_007EB8_007EB7_007ECA),
  (0x275128, 0x007ECB_00624E_007ECD_007EC4_007EC6_007EC5),
  (0x27512F, 0x007ECC_007EC8_007EDF_007EDE_007ED2_007ED3),
  (0x275136, 0x007EDA_007EDD_007EDC_007ED9),
  (0x27513B, 0x004E1D_007ECF),
  (0x27513E, 0x007EE2_007EE5_007ED1_007EFC_007EFD_007EFE_007D27_007EEB_007F00),
  (0x275148, 0x007F51_007EB2_007EF0_00433D_007EFF_007EF8_007EF4_007EF5_007EB6_007F01_007F14_007EAC),
  (0x275154, 0x007EC3_007EEA_007F04_007F05_007F09_007F13_007F18_007F16_007EBF_007F0D_007F0E_007F23),
  (0x275160, 0x007F22_008426_007F1A_0081F4_0053BF_007F29_007EE9_007F2A_007F15_007F27),
  (0x27516C, 0x007F1D_00603B_007EB5_007F2B_007F2E_007EC7_007EE3_007ED5_007F2D_007CFB_007EF3_008327),
  (0x275178, 0x007ECE_007ED8_008FAB_007F24),
  (0x27517D, 0x007EE7_007F20),
  (0x275221, 0x007EED_007F28_007EA4_007F06),
  (0x275233, 0x007F5A_009A82_007F62),
  (0x275237, 0x007F57_007F81),
  (0x275242, 0x004E49),
  (0x27524D, 0x004E60),
  (0x275251, 0x007FC6),
  (0x275258, 0x007FD8),
  (0x27526F, 0x005723),
  (0x275271, 0x0095FB),
  (0x275274, 0x0058F0_008038_00806A_008054_00804C_008042_00804B_00542C),
  (0x275321, 0x008083),
  (0x275344, 0x0080C1),
  (0x27534A, 0x008090),
  (0x27534D, 0x008109),
  (0x275351, 0x005507),
  (0x275358, 0x0080BE_0080C0),
  (0x27535E, 0x0080A0),
  (0x275362, 0x0080BF),
  (0x275365, 0x008111),
  (0x27536C, 0x0080F6),
  (0x27536E, 0x0080A4),
  (0x275371, 0x00817B),
  (0x275373, 0x00808A),
  (0x275375, 0x026678),
  (0x275378, 0x008113_0080C6_008138_00810D_008110_008191_00814A),
  (0x275421, 0x0080EA_00810F),
  (0x275425, 0x004E34),
  (0x27542B, 0x0053F0),
  (0x275432, 0x004E0E_005174_004E3E_0065E7),
  (0x27543D, 0x005348),
  (0x27544A, 0x008231_008230),
  (0x27544E, 0x008270),
  (0x275458, 0x005DF4),
  (0x27545C, 0x00520D),
  (0x275476, 0x00827B),
  (0x275528, 0x00835A_00830E_0082CB),
  (0x27552D, 0x005E84),
  (0x275538, 0x026B21),
  (0x27553C, 0x00534E),
  (0x275541, 0x0083B1),
  (0x275544, 0x026B01),
  (0x27554D, 0x0082C7),
  (0x27554F, 0x0053F6),
  (0x275551, 0x0080E1),
  (0x275553, 0x008364),
  (0x275555, 0x0083B4),
  (0x275557, 0x0082F3),
  (0x27555D, 0x005E2D),
  (0x275563, 0x00836A_0082CE),
  (0x275567, 0x0082CD_008298),
  (0x27556C, 0x0083B2),
  (0x27556E, 0x00836B),
  (0x275571, 0x00848B_026B01_00535C),
  (0x275575, 0x008310_008361),
  (0x27557C, 0x00829C)]

/-- Part of `reads`. -/
def reads2 : Chart := wide24 [
  (0x275622, 0x008427),
  (0x275624, 0x0059DC),
  (0x275626, 0x008537),
  (0x275629, 0x0084DD_008428_004499),
  (0x27562E, 0x00501F),
  (0x275631, 0x00827A_0085AE),
  (0x275635, 0x00836F),
  (0x275637, 0x00853C),
  (0x275639, 0x00853A_0082A6_0082F9_0082CF_008574_005170),
  (0x275640, 0x0085D3),
  (0x275642, 0x00841D),
  (0x275647, 0x005904_00864F),
  (0x27564A, 0x0053F7),
  (0x27564C, 0x004E8F),
  (0x275651, 0x006597),
  (0x275653, 0x005F15),
  (0x27565A, 0x0065E6),
  (0x27565F, 0x004E18),
  (0x275676, 0x008680),
  (0x275679, 0x0080E1_00867E),
  (0x275724, 0x008424_008682),
  (0x27572C, 0x00877C),
  (0x275732, 0x0086F2_00866B_008749_008681_008747),
  (0x27573C, 0x0086CE),
  (0x27573E, 0x008721_0086CA),
  (0x275741, 0x008695_0086EE),
  (0x275746, 0x00672E_004E8D),
  (0x275749, 0x00536B_0051B2),
  (0x275762, 0x008865_0091CC),
  (0x275765, 0x0088C5),
  (0x27576A, 0x00679C),
  (0x27576C, 0x005236),
  (0x275770, 0x00590D_008934),
  (0x275773, 0x0088E4),
  (0x275777, 0x004EB5),
  (0x275779, 0x00891B),
  (0x27577C, 0x0088C6_008884_008934),
  (0x275821, 0x00889C_00886C_0088AD),
  (0x275828, 0x0089C1_0089C4_0089C5_0089C6_004EB2_0089CE_0089CA_0089D0_0089C9_0089C8_0089C2),
  (0x275835, 0x0089DE_0089E6),
  (0x275838, 0x008BA1_008BA2_008BA3_008BA6_008BB0_008BA8_008BA7_008BAA_008BAF_008BAB_008BAC_008BAD),
  (0x275844, 0x008BBF_008BC0_008BB6_008BB7_008BB8_008BBE_008BB9_008BBC_006CE8),
  (0x27584E, 0x008BC4_008BCD_008BC1_008BC2_008BCF_008BC5_008BC8_008BCB_008BC9_008BCA_008BE7_008BE5),
  (0x27585A, 0x008BE6_008BD5_008BD7_008BD8_008BE3_008BD9_008BDA_005938_008BDB_008BE1),
  (0x275865, 0x008BE2_008BDD_008BE0_008BDF_008BF4_008BF5_008BEB_008BED),
  (0x27586F, 0x008BEC_008BA4_008BEF_008BF2_008BF0_008BF1_008BF3_008C0A_008C06_008C05_008C08_008BF7),
  (0x27587B, 0x008BF8_008BFE_008C03_008BFF),
  (0x275921, 0x008C04_008C01_008BDE_008BBA_008C1B_008C1A_008C0F_008BB3_008C10_008C0D_008C0B_008C12),
  (0x27592D, 0x008C13_008BFA_008BBD_008C15_008C24_008C26_008C1C_008BB2_008C0E_008C23_008A8A_008C22),
  (0x275939, 0x008C28_008C2C_008C1F_008BC6_008C31_008C32_008BC1_008C2D),
  (0x275942, 0x008BA5_008BAE),
  (0x275946, 0x008BD1_008C34_0062A4_008A89_008BFB_0053D8_008BA9_008C36_008C17),
  (0x275954, 0x005C82),
  (0x275957, 0x007AD6_004E30),
  (0x27595E, 0x004E88),
  (0x275966, 0x007683_00732B_008D1D_008D1E_008D1F_008D21_008D22_008D23_008D2F_008D27_008D2A_008D2B),
  (0x275972, 0x008D29),
  (0x275975, 0x008D39_008D32_008D3A_008D35_008D34_004E70_008D2C_008D3B_008D37_008D38),
  (0x275A21, 0x008D45_008D44_008D3C_008D3E_008D3F_008D40_008D41_008D42_005BBE_008D48_008D4A_008D54),
  (0x275A2D, 0x008D4B),
  (0x275A2F, 0x005356_008D24_008D31_008D4F_008D50_008D28_008D4C_008D56_008D5B_008D5A_008D58_008D2D),
  (0x275A3B, 0x008D60_008D5D_008D5E_008D62_008D61_008D43_008D4E_008D63),
  (0x275A4F, 0x008D75_008D76),
  (0x275A53, 0x008D8B),
  (0x275A5F, 0x008FF9),
  (0x275A68, 0x008DF5),
  (0x275A71, 0x008E0A),
  (0x275A78, 0x008E52),
  (0x275A7B, 0x027FDB),
  (0x275A7E, 0x008DF7),
  (0x275B23, 0x008DF6),
  (0x275B26, 0x008DB8),
  (0x275B28, 0x008E0C_008DC3_008E2F_008E51_008E8F),
  (0x275B31, 0x008EAF_008F66_008F67_00519B_008F68_008F69_008F6B_008F6F_008F6D_008F72_008F74_008F76),
  (0x275B3D, 0x008F83_008F7C_008F7D_008F7E_008F85_008F84_008F7B),
  (0x275B45, 0x008F87_008F86_008F8D_008F89_008F88_008F6E_008F8E_008F90_008F91_008F93_008F96_008F97),
  (0x275B51, 0x008F95_006BC2_008206_008F99_008F6C_008F9A_008F7F_008F70_008F94),
  (0x275B5F, 0x00529E_008F9E_008FA9),
  (0x275B64, 0x00519C),
  (0x275B6A, 0x008FCA_008FD1),
  (0x275B6D, 0x008FF0),
  (0x275B6F, 0x008FE2_008FEA),
  (0x275B73, 0x008FEB_009001),
  (0x275B77, 0x009000),
  (0x275B79, 0x0056DE),
  (0x275B7D, 0x008FD9_008FDE),
  (0x275C21, 0x00901F),
  (0x275C24, 0x009010_008FF3),
  (0x275C29, 0x009020),
  (0x275C2E, 0x009014_00902E),
  (0x275C31, 0x005468_009038_008FDB_008FD0),
  (0x275C36, 0x008FBA_009042),
  (0x275C39, 0x008FBE_008FDD),
  (0x275C3C, 0x008FC2),
  (0x275C3E, 0x008FC7_00904D),
  (0x275C43, 0x009058_008FDC_00900A),
  (0x275C47, 0x009065_009012_009002),
  (0x275C4D, 0x009075),
  (0x275C4F, 0x009009_008FDF_008FC1_008FBD_009057),
  (0x275C56, 0x008FC8_008FD8_009082),
  (0x275C5A, 0x008FE9_008FB9_009026_00903B),
  (0x275C6B, 0x005369),
  (0x275C6D, 0x0090AE),
  (0x275C70, 0x004E61_0090B9),
  (0x275C73, 0x0090D1_0090BB_009093),
  (0x275C7B, 0x006C3F),
  (0x275D2A, 0x009154),
  (0x275D2F, 0x00915D_004E11_00533B_009171),
  (0x275D34, 0x00917F_008845),
  (0x275D38, 0x0091CA),
  (0x275D3D, 0x005398),
  (0x275D3F, 0x009488_009489_00948A),
  (0x275D43, 0x009497),
  (0x275D45, 0x009493_00948F_009499_00949D_0094AE_0094A0_00949E_0094A7_0094A4),
  (0x275D4F, 0x0094B4_0094B9_0094B8_0094C0_0094BE_0094C7_0094C5_0094A9_0094C2_0094C3_0094F0_0094F6),
  (0x275D5B, 0x0094D0_0094DC_0094ED_0094E2_0094EC_0094E8_008854_00950C_009511_009510_0094FA_009500),
  (0x275D67, 0x0094DD_009504_009509_00950B_00952D_008868_00952F_009530_009519_0094B1_0094A2_009521),
  (0x275D73, 0x0094EE_005F55_009525_009526_009540_009541_00952E_009532),
  (0x275D7C, 0x009505_00951A_00953E),
  (0x275E21, 0x00949F_009524_009539_00953B_009551_009555_009547_009501_0094A8_00954D_00955C_00955D),
  (0x275E2E, 0x00955E_0094F2_0094FF_0094FE_009556_009557_009542_009558_009559_009535_00949F_0094D9),
  (0x275E3A, 0x009570_009508_00956D_0094C1_0094DB_0094CE_00956F),
  (0x275E43, 0x0094F8_009573_0094C4_009576_0094A5_0092AE_009523_0094BB_0051FF_00957F_0095E8_0095E9),
  (0x275E4F, 0x0095EA_0095ED_0095F5_0095F0_005F00_0095F2_0095F4),
  (0x275E57, 0x0095F8_009602_0095FA_0095FD_009601_009600_005408_009605_0095FE_00960E_009614_009615),
  (0x275E63, 0x009611_0095F1_00677F_009616_0095EF_009617_005173_009610_008F9F),
  (0x275E6F, 0x004E95),
  (0x275E7B, 0x009635),
  (0x275E7E, 0x009655),
  (0x275F23, 0x009648_009646),
  (0x275F2A, 0x009634_00961F_009636),
  (0x275F2E, 0x009633),
  (0x275F37, 0x009645),
  (0x275F39, 0x00968F_009669_009690_009647_0096B6_0053EA),
  (0x275F42, 0x0053B7),
  (0x275F4A, 0x00867D_006742_009E21_0096CF_0053CC_0079BB_0096BE),
  (0x275F54, 0x004E91_007535),
  (0x275F67, 0x0096FE),
  (0x275F69, 0x008F9F),
  (0x275F6B, 0x009701),
  (0x275F6D, 0x00972D_0096F3_007075),
  (0x275F79, 0x009765),
  (0x276023, 0x005DE9),
  (0x276027, 0x0079CB),
  (0x276029, 0x009791),
  (0x27602B, 0x005343_0097E6_0097E7_0097E9_0097EC_00827D),
  (0x276035, 0x0097F5_0054CD_009875_009876_009877_009879_00987A_00987B_009884_00987C_00987D_00987F),
  (0x276041, 0x009881_009882_009887_009886_009889_005934_00988A_009888_009891_009893_009894_009890),
  (0x27604D, 0x009897_00989C_00989D_009898_00989A_00989B_007C7B_0098A0_00613F_00987E_0098A4_00663E),
  (0x276059, 0x009885_0098A6_0098CE_0098D2_0053F0_00522E_0098D3_0098CF_0098D5_0098D8_0098DE),
  (0x276065, 0x009965),
  (0x276067, 0x009968_00996C_00996A_00996E_00996D_009972_009974_009971_009970_00997A_00517B_009975),
  (0x276073, 0x009977_006B7A_009981_004F59_00997F_00997C_009986_00996F_009984_009985),
  (0x27607E, 0x00998F),
  (0x276121, 0x00998A),
  (0x276123, 0x009992_009976),
  (0x276126, 0x00990D_00998B),
  (0x27612C, 0x009A6C_0051AF_009A6D_009A70_009A6E_009A6F_009A73_009A7B_009A7C_009A7E_009A77_009A76),
  (0x276138, 0x009A79_009A78_009A7D_009A87_009A86_009A8B_009A8F_009A88_009A91_009A97_009A9B_009A9E),
  (0x276144, 0x00817E_009A9A_009AA0_009A71_0084E6_009AA1_009A84_0060CA_009A7F_009A8C_009AA4_009A74),
  (0x276150, 0x009AA5_009A8A),
  (0x276153, 0x0080AE),
  (0x276158, 0x009AC5),
  (0x27615A, 0x004F53_00810F),
  (0x27615F, 0x0053D1),
  (0x276163, 0x00677E_0080E1_009808_009B13_006597_0095F9_0054C4_0090C1),
  (0x276173, 0x009B47_009C7C_009C7F_009C81_009C8D_009C9B_009C9C_009C94_009CA8_009CA4_009CB8_009CB3),
  (0x276221, 0x009CC3_009CC5_009CAB_009CCD_009CCF_009CA2_009CD4_009CD7_009CDD_009CDE_009CDC_009CD6),
  (0x27622E, 0x009C88_009E1F_009E20_009E22_009E23_0051E4_009E29_009E26_009E35_009E2A_009E2D_009E2F),
  (0x27623A, 0x009E33_009E30_009E3F_009E3D_009E49_009E43_009E44_009E45_009E51_009E4A_009E4C_009E4F),
  (0x276246, 0x009E64_0083BA_009E5E_009E67_009E25_009E36_009E70_009E6D_009E66_009E3E_0054B8_0076D0),
  (0x276252, 0x007877),
  (0x276256, 0x004E3D),
  (0x27625B, 0x009EA6_009EB8_009EB9_009762),
  (0x276260, 0x004E48),
  (0x27626A, 0x0070B9),
  (0x27626F, 0x00515A),
  (0x276271, 0x009709_009EE9),
  (0x276276, 0x0051AC),
  (0x27627B, 0x022342),
  (0x27627D, 0x009F50_00658E),
  (0x276321, 0x009F7F_009F83_0051FA_009F84_009F88_009F87_009F89_009F8A_009F8C_009F8B_009F99_009F9A),
  (0x27632D, 0x009F9F),
  (0x276649, 0x004F1C),
  (0x276749, 0x00343D),
  (0x27676B, 0x003447),
  (0x276775, 0x004F65),
  (0x27677C, 0x004F1B),
  (0x276822, 0x00507B),
  (0x276842, 0x00507E),
  (0x276871, 0x004FAA),
  (0x276944, 0x0050A9),
  (0x276946, 0x003469),
  (0x276948, 0x0050A5),
  (0x276B3E, 0x00522D),
  (0x276B5B, 0x005250),
  (0x276B5F, 0x00672D),
  (0x276B79, 0x00523F_00523D),
  (0x276C2B, 0x003509),
  (0x276D2E, 0x005326),
  (0x276D6D, 0x00538D),
  (0x276E2A, 0x0053A3),
  (0x276F69, 0x005459),
  (0x277030, 0x005457),
  (0x277060, 0x005521),
  (0x277161, 0x00551D),
  (0x277169, 0x005522),
  (0x277234, 0x00551B),
  (0x277239, 0x0054D4),
  (0x277255, 0x0054D3),
  (0x277258, 0x006076),
  (0x277261, 0x005574),
  (0x277267, 0x005452),
  (0x277272, 0x0054D2),
  (0x27727A, 0x0054D5),
  (0x27727E, 0x0054D9),
  (0x277328, 0x0054DC),
  (0x277345, 0x00556E),
  (0x27734C, 0x005456),
  (0x277353, 0x004EB8),
  (0x27735A, 0x0055BE),
  (0x277360, 0x005181),
  (0x27742E, 0x0056F5),
  (0x277629, 0x02127B),
  (0x277638, 0x0057AD),
  (0x27767A, 0x0057DA),
  (0x277737, 0x008314),
  (0x277742, 0x0057D8),
  (0x277745, 0x0057D9),
  (0x277748, 0x0057B2),
  (0x277767, 0x021289),
  (0x277843, 0x005899),
  (0x27784B, 0x005763),
  (0x27785A, 0x005785),
  (0x27785E, 0x005786),
  (0x27786C, 0x0058F8),
  (0x277954, 0x005956),
  (0x277B3C, 0x005A05),
  (0x277C24, 0x005A32),
  (0x277C36, 0x0059AB),
  (0x277D24, 0x0216F0),
  (0x277D2B, 0x005A06),
  (0x277D40, 0x005AF1),
  (0x277D48, 0x005AD2),
  (0x277D74, 0x005A08),
  (0x277D76, 0x0036E4),
  (0x277E30, 0x021967),
  (0x28232B, 0x005C66),
  (0x282441, 0x005C98),
  (0x282458, 0x005D03),
  (0x28245B, 0x005C97),
  (0x28254E, 0x021DB4),
  (0x28255A, 0x005D5D),
  (0x282560, 0x0037E5),
  (0x282569, 0x005D02_005CE3),
  (0x282577, 0x005CE4),
  (0x28257B, 0x005D5A),
  (0x282626, 0x005CC4),
  (0x28262D, 0x005CC3),
  (0x282632, 0x005D58),
  (0x282647, 0x005CBF),
  (0x282659, 0x005DEF),
  (0x282736, 0x005E0F),
  (0x282747, 0x005E3B),
  (0x28275F, 0x005E31),
  (0x282861, 0x005EBC),
  (0x282868, 0x005E91),
  (0x282951, 0x005F2A),
  (0x282970, 0x005F5F),
  (0x282978, 0x005F68),
  (0x282A36, 0x005F95),
  (0x282D34, 0x00607D),
  (0x282D5E, 0x00607A),
  (0x282D64, 0x003918),
  (0x282D74, 0x006004),
  (0x282D77, 0x0060AD),
  (0x282D79, 0x0060AB),
  (0x282E3D, 0x022652),
  (0x282E45, 0x00616D),
  (0x282E4C, 0x006126),
  (0x282E52, 0x006003),
  (0x282E55, 0x00392D),
  (0x282E5C, 0x00603F),
  (0x282E79, 0x006079),
  (0x282E7C, 0x008499),
  (0x282E7E, 0x00603C),
  (0x282F43, 0x006206),
  (0x282F47, 0x00620B),
  (0x282F66, 0x006217),
  (0x283168, 0x022A84),
  (0x283174, 0x00629F),
  (0x28317B, 0x00631C),
  (0x28322A, 0x0039CF),
  (0x283321, 0x006247),
  (0x28336F, 0x00629F),
  (0x28337B, 0x0062A0),
  (0x28342C, 0x0063BA),
  (0x28342E, 0x0063BC),
  (0x283434, 0x022AEC),
  (0x283442, 0x006326),
  (0x283457, 0x0063B8),
  (0x283462, 0x006322),
  (0x283466, 0x0063FF),
  (0x28346C, 0x0039DF),
  (0x283474, 0x008FC7),
  (0x28352A, 0x006448),
  (0x283531, 0x022B0D),
  (0x283542, 0x0064B7),
  (0x283546, 0x006445),
  (0x28355B, 0x006484),
  (0x283561, 0x0064BA),
  (0x283564, 0x0039D0),
  (0x28356D, 0x006512),
  (0x283671, 0x006593),
  (0x283851, 0x023162),
  (0x28387C, 0x0065F8),
  (0x283955, 0x006619),
  (0x28395C, 0x006654),
  (0x283978, 0x00663D),
  (0x283B22, 0x004E2B),
  (0x283B7D, 0x0053F0),
  (0x283D2D, 0x023415),
  (0x283D30, 0x0067A7),
  (0x283D67, 0x0233E2),
  (0x283D6E, 0x0067A8),
  (0x283D70, 0x006860),
  (0x283E33, 0x003B4E),
  (0x283E65, 0x00680B_003B4F),
  (0x283F30, 0x006966),
  (0x283F5C, 0x006769),
  (0x284027, 0x006864),
  (0x284055, 0x0068BF_006920),
  (0x28405E, 0x003B74),
  (0x284140, 0x006861),
  (0x284142, 0x00679F),
  (0x284158, 0x00692B),
  (0x28422B, 0x006A2F),
  (0x284257, 0x0068BC),
  (0x284333, 0x00680E),
  (0x284335, 0x006A7C),
  (0x284337, 0x006987),
  (0x284339, 0x00680A_0069E0),
  (0x284340, 0x0067A5),
  (0x284345, 0x00680C),
  (0x284350, 0x0068C2),
  (0x284359, 0x006989),
  (0x284366, 0x006924),
  (0x284368, 0x0235CB),
  (0x28452F, 0x006B92),
  (0x284536, 0x023A3C),
  (0x284539, 0x006B9A_003C6E),
  (0x28453D, 0x003C69),
  (0x284642, 0x006BF5),
  (0x28464C, 0x006BE1),
  (0x284651, 0x006C07),
  (0x284668, 0x006C29),
  (0x284934, 0x006D43),
  (0x284971, 0x006D9E),
  (0x284A62, 0x023C97),
  (0x284B28, 0x006D48),
  (0x284B42, 0x006CA8_008365),
  (0x284B6C, 0x006DA2),
  (0x284B7C, 0x006C7D),
  (0x284C23, 0x006D49),
  (0x284C2E, 0x006D52),
  (0x284C32, 0x006D50),
  (0x284C41, 0x006CA4),
  (0x284C5A, 0x006E87),
  (0x284C62, 0x00988D),
  (0x284C65, 0x006C52),
  (0x284D27, 0x006D9D),
  (0x284D2B, 0x006D54),
  (0x284D35, 0x006C84),
  (0x284D49, 0x006DA0),
  (0x284D58, 0x006CA9_006ED7_023C98),
  (0x284D64, 0x003D46),
  (0x284D78, 0x003CE0_006EEA),
  (0x284E30, 0x006E11),
  (0x284E3E, 0x006CF6),
  (0x284E41, 0x006F4B_006D4D_023E28),
  (0x284E4C, 0x006D55),
  (0x284E62, 0x006F4D),
  (0x284E66, 0x006EE2),
  (0x284F22, 0x006CFA),
  (0x284F26, 0x006CF7),
  (0x284F39, 0x006CF8),
  (0x284F5D, 0x006CA3),
  (0x284F61, 0x006EE0),
  (0x284F6B, 0x006F13),
  (0x284F7D, 0x00704F),
  (0x285029, 0x006EDF),
  (0x285150, 0x0070C3),
  (0x285233, 0x007080),
  (0x285252, 0x00709C),
  (0x285266, 0x003DBD),
  (0x285323, 0x008367),
  (0x28533C, 0x00709D),
  (0x285356, 0x0242CF),
  (0x285424, 0x0070E8),
  (0x285446, 0x0241D1),
  (0x28544F, 0x0070EC),
  (0x285467, 0x0241ED),
  (0x28575E, 0x0072B8_0072F2),
  (0x28582B, 0x007303),
  (0x28582D, 0x0072DD),
  (0x285836, 0x007315),
  (0x285A47, 0x0073AE),
  (0x285A4F, 0x00739A),
  (0x285A79, 0x0073B1),
  (0x285B21, 0x00740F),
  (0x285B5D, 0x00740E),
  (0x285B67, 0x0073F0),
  (0x285B73, 0x003EC5),
  (0x285C28, 0x007399),
  (0x285C39, 0x024980_00748E),
  (0x285C40, 0x0074D2_024A7D),
  (0x285D6B, 0x007572),
  (0x285E7A, 0x0075D6),
  (0x285F48, 0x007617),
  (0x285F5E, 0x007618),
  (0x285F6F, 0x007605),
  (0x28602B, 0x00762A),
  (0x286032, 0x0075AC),
  (0x286037, 0x00763F),
  (0x28603A, 0x0075C8),
  (0x286222, 0x007726),
  (0x28623A, 0x02510C),
  (0x286272, 0x00770D),
  (0x286274, 0x004056),
  (0x286323, 0x007786),
  (0x28632C, 0x007751),
  (0x28645A, 0x007817),
  (0x286460, 0x007856_007841),
  (0x286540, 0x007800),
  (0x286558, 0x007859),
  (0x286568, 0x00788C),
  (0x28656A, 0x00789B),
  (0x286577, 0x00789C),
  (0x286622, 0x007857),
  (0x28662B, 0x00785A),
  (0x286655, 0x00783B),
  (0x286775, 0x007962),
  (0x28686A, 0x004149),
  (0x28687E, 0x0079F8),
  (0x286938, 0x007C87),
  (0x28693E, 0x00415F),
  (0x28694F, 0x0079FE),
  (0x28695C, 0x007A5E),
  (0x286A28, 0x02593F),
  (0x286A3C, 0x007AAD),
  (0x286A3E, 0x007A8E),
  (0x286A44, 0x025923),
  (0x286B76, 0x0041F2),
  (0x286B7C, 0x007B15),
  (0x286C58, 0x007BA7),
  (0x286D2F, 0x007B7C),
  (0x286D35, 0x025B20),
  (0x286D47, 0x007BA6),
  (0x286D54, 0x007B5A),
  (0x286E30, 0x007B5C),
  (0x286E56, 0x007BA8),
  (0x286E58, 0x007BEF_007B93),
  (0x286E68, 0x007B3E_007C16),
  (0x287022, 0x007CC1),
  (0x28702E, 0x0056E2),
  (0x287030, 0x007C9D),
  (0x287035, 0x007C74),
  (0x287039, 0x007C9C),
  (0x287042, 0x007EA1),
  (0x287045, 0x007EA8),
  (0x28704A, 0x007EBE_007EBC),
  (0x287050, 0x007EAE),
  (0x287052, 0x007EB4),
  (0x287061, 0x007EC0_007EC1),
  (0x287065, 0x007EC2),
  (0x287067, 0x004337_004339),
  (0x28706A, 0x007ED0),
  (0x287124, 0x007ED4),
  (0x287130, 0x007EDB),
  (0x287134, 0x007ED7),
  (0x287139, 0x007EE8),
  (0x287144, 0x007EE0),
  (0x28714D, 0x007EE1),
  (0x287157, 0x007EE3),
  (0x28715B, 0x007EE4),
  (0x287161, 0x007EFB),
  (0x287167, 0x007EEF),
  (0x287174, 0x007EF2),
  (0x287178, 0x007EF6),
  (0x28717D, 0x007EFA),
  (0x287229, 0x007F17_007F02),
  (0x287231, 0x007F03),
  (0x287236, 0x007F07),
  (0x28723C, 0x007F08),
  (0x28723E, 0x007F0C),
  (0x287247, 0x007F11_007F0F),
  (0x287250, 0x007F1E_007F1F),
  (0x287253, 0x007F12),
  (0x28725D, 0x007F1C_007F19_007F1B),
  (0x287269, 0x007EC9),
  (0x28726B, 0x007EE6),
  (0x287271, 0x007EA4_007F21),
  (0x287275, 0x007D77),
  (0x287279, 0x007F25),
  (0x287321, 0x007F26),
  (0x28732D, 0x007F2F),
  (0x28733C, 0x007F0B),
  (0x287349, 0x007F30),
  (0x28734E, 0x007F32),
  (0x287351, 0x007F33_007F34),
  (0x287358, 0x026221_007F31),
  (0x28735D, 0x007EA9),
  (0x287360, 0x007F2C),
  (0x28736D, 0x00624D),
  (0x287374, 0x007F35),
  (0x287425, 0x0044E8),
  (0x28742E, 0x007F42),
  (0x287431, 0x00575B),
  (0x287472, 0x007F74),
  (0x287531, 0x007F9F),
  (0x287572, 0x007FDA),
  (0x287629, 0x007FD9),
  (0x287655, 0x008027),
  (0x28765C, 0x0043AC),
  (0x287739, 0x008069),
  (0x28773F, 0x00804D),
  (0x287855, 0x0080EB),
  (0x28786E, 0x0080E8),
  (0x287941, 0x008136),
  (0x287951, 0x0044BF),
  (0x287975, 0x008158),
  (0x287A56, 0x008114_0081DC),
  (0x287B66, 0x008223),
  (0x287B6D, 0x00823B),
  (0x287B76, 0x008273_008279),
  (0x287E61, 0x0082CC),
  (0x292241, 0x0082B2),
  (0x292272, 0x00835D),
  (0x29233C, 0x00836D_00836E),
  (0x29236D, 0x008325),
  (0x292375, 0x0083B3),
  (0x292433, 0x008298),
  (0x29243A, 0x0083BC),
  (0x292453, 0x009EBB),
  (0x29247D, 0x00835C),
  (0x292524, 0x00848C),
  (0x29252D, 0x008311),
  (0x29252F, 0x026C0F),
  (0x292535, 0x0082C1),
  (0x292546, 0x008368),
  (0x29254B, 0x00835B),
  (0x29254D, 0x0082B8),
  (0x29255A, 0x008487),
  (0x292564, 0x008489),
  (0x292567, 0x00836C),
  (0x292571, 0x00835E),
  (0x292574, 0x0083B8),
  (0x292577, 0x008297),
  (0x292633, 0x0084E3),
  (0x292635, 0x008359),
  (0x292651, 0x0084DF),
  (0x292657, 0x00835F_0083B6),
  (0x292661, 0x008415),
  (0x292664, 0x0082E7),
  (0x292668, 0x008369_0044D3),
  (0x292675, 0x02F997),
  (0x292731, 0x0044D6),
  (0x292752, 0x00830F),
  (0x292760, 0x00841A),
  (0x292765, 0x0082C8),
  (0x292768, 0x008572),
  (0x29282A, 0x008539),
  (0x292840, 0x0084E0),
  (0x292A2F, 0x0086F1),
  (0x292A34, 0x0086AC),
  (0x292B55, 0x0086F3),
  (0x292B6E, 0x0086F0),
  (0x292B7E, 0x008780),
  (0x292C4C, 0x00866E_008683),
  (0x292C55, 0x0086CF),
  (0x292C5D, 0x00867F),
  (0x292C61, 0x0086F4_02725E),
  (0x292C64, 0x00877E),
  (0x292D51, 0x008511),
  (0x292E61, 0x0091CC),
  (0x292E69, 0x008885),
  (0x292F2F, 0x008886),
  (0x292F36, 0x0088C8),
  (0x292F60, 0x0088E2),
  (0x292F72, 0x0088E5),
  (0x29302D, 0x0088E3),
  (0x293032, 0x007962),
  (0x29303C, 0x004653),
  (0x293042, 0x008955),
  (0x293066, 0x0089C7),
  (0x29306F, 0x0089CB),
  (0x293076, 0x0089CD),
  (0x29307D, 0x0089CF),
  (0x29312B, 0x0089D1),
  (0x293132, 0x0089CC),
  (0x293160, 0x0089EF),
  (0x29317D, 0x008BBB),
  (0x29322A, 0x008BB5_008BC3),
  (0x293230, 0x008BD0),
  (0x293237, 0x008BC7_027BAA),
  (0x29323B, 0x008BCE_008BD2),
  (0x29324F, 0x008BD6_008BD3),
  (0x293256, 0x008BE9),
  (0x29325D, 0x008BD4_008BDC),
  (0x293271, 0x008BEE),
  (0x293274, 0x008BF6),
  (0x29327E, 0x008C07),
  (0x293325, 0x008BF9),
  (0x29332C, 0x008BFC),
  (0x293336, 0x008BE4),
  (0x293338, 0x008BFD),
  (0x29333B, 0x008C00),
  (0x293340, 0x008C02),
  (0x293344, 0x008C19_008BE8),
  (0x293348, 0x008C18),
  (0x29334C, 0x008C1E),
  (0x29334E, 0x008C0C),
  (0x293357, 0x008C14),
  (0x293359, 0x008C11),
  (0x29335D, 0x008C16),
  (0x293362, 0x008C1D),
  (0x293368, 0x008C25),
  (0x293373, 0x008C21),
  (0x29337A, 0x008BCC),
  (0x29337D, 0x008C27),
  (0x293430, 0x008BB4),
  (0x293438, 0x008C29),
  (0x29344D, 0x008C2E),
  (0x293459, 0x008C2F),
  (0x293468, 0x008C35),
  (0x293470, 0x008BEA),
  (0x293478, 0x008C09),
  (0x293523, 0x008A5F_004729),
  (0x29352A, 0x0096E0),
  (0x29352D, 0x008C30),
  (0x293537, 0x008C20),
  (0x293539, 0x008C33),
  (0x293574, 0x008C6E),
  (0x29363B, 0x004759),
  (0x29364E, 0x008D33),
  (0x293651, 0x008D36),
  (0x29365F, 0x008D47),
  (0x29366A, 0x008D53_008D55_00478D),
  (0x293670, 0x008D49),
  (0x293673, 0x027E56_008D52),
  (0x29367C, 0x008D57),
  (0x29367E, 0x008D59),
  (0x293725, 0x008D3D_008D5C),
  (0x293729, 0x027E57),
  (0x29372B, 0x008D5F),
  (0x29373A, 0x008D46),
  (0x29373D, 0x008D51),
  (0x293866, 0x008DB1),
  (0x293A2E, 0x008DC4),
  (0x293A40, 0x008DF8),
  (0x293A46, 0x008E70),
  (0x293A57, 0x008DFB),
  (0x293A5A, 0x0047E2),
  (0x293A5E, 0x008DF9_008DDE_008E2C),
  (0x293A63, 0x028001),
  (0x293A6B, 0x008E7F),
  (0x293A70, 0x008E9C),
  (0x293B3E, 0x008F71_008F7A),
  (0x293B42, 0x008F75),
  (0x293B47, 0x008F77),
  (0x293B4F, 0x008F78),
  (0x293B57, 0x028408),
  (0x293B59, 0x008F82_008F80_008F81),
  (0x293B64, 0x008F8C),
  (0x293B6B, 0x008F8B),
  (0x293B6D, 0x008F8A),
  (0x293B7A, 0x008F8F),
  (0x293C2D, 0x008F92),
  (0x293C30, 0x008F98),
  (0x293C57, 0x008F79),
  (0x293C5A, 0x008F73),
  (0x293C6C, 0x008FB6),
  (0x293D22, 0x008FD5),
  (0x293D2F, 0x008FE4_008FEE),
  (0x293D37, 0x008FF8),
  (0x293D4A, 0x00902D),
  (0x293D4E, 0x008FF8),
  (0x293D5D, 0x009052),
  (0x293E37, 0x009088),
  (0x293F23, 0x0090CF),
  (0x293F4C, 0x0090D3),
  (0x293F5A, 0x0090E7),
  (0x293F5C, 0x0090AC),
  (0x293F6C, 0x00819D),
  (0x294021, 0x0090F8),
  (0x29402B, 0x0090BA_0090D0),
  (0x294031, 0x00909D),
  (0x29403E, 0x0090A6),
  (0x294040, 0x0090E6_009142),
  (0x294142, 0x009166),
  (0x29415C, 0x00917E_00917D),
  (0x294161, 0x009487_009486_00948C_00948B),
  (0x29416A, 0x00948D_00948E),
  (0x294179, 0x009492),
  (0x294221, 0x009495_009490_0094AD_0094AA_0094AB),
  (0x294228, 0x0094AC),
  (0x29422F, 0x009498),
  (0x294231, 0x0094AF),
  (0x294233, 0x00497A),
  (0x294237, 0x00949B),
  (0x29424B, 0x0094A3),
  (0x294251, 0x0094C8_0094C9),
  (0x294254, 0x0094CB_0094CA),
  (0x294258, 0x0094B0),
  (0x29425C, 0x0094CC_00949C),
  (0x29425F, 0x0094B6_0094B7_0094B2),
  (0x294264, 0x0094BA),
  (0x29426D, 0x0094CD),
  (0x29426F, 0x0094BD),
  (0x294274, 0x0094BF),
  (0x29432B, 0x0094C6),
  (0x29432E, 0x028C45_0094F3),
  (0x294331, 0x0094F1),
  (0x294335, 0x0094F5),
  (0x29433E, 0x0094CF_0094DA_0094D6),
  (0x294343, 0x0094D2),
  (0x294346, 0x0094D1),
  (0x294349, 0x0094D5),
  (0x29434F, 0x0094DE_0094DF),
  (0x294355, 0x0094EB),
  (0x294358, 0x0094EF_0094E5),
  (0x29435B, 0x0094E3),
  (0x29435D, 0x0094E6),
  (0x294362, 0x0094EA),
  (0x294364, 0x0094F7),
  (0x29436A, 0x009512),
  (0x29436C, 0x00950D),
  (0x294371, 0x0094FD_009513),
  (0x294375, 0x009514),
  (0x29437A, 0x0094FB),
  (0x29437C, 0x028C48_0094D8),
  (0x294427, 0x0094D7),
  (0x29442B, 0x009503),
  (0x29442D, 0x0094A1_009502),
  (0x294433, 0x0094D3),
  (0x294435, 0x00950A),
  (0x29443E, 0x0094E4),
  (0x294440, 0x009506_009507),
  (0x29444D, 0x00952B),
  (0x294457, 0x009529_00952C),
  (0x29445B, 0x009516),
  (0x29445F, 0x0094D4),
  (0x294466, 0x009515),
  (0x294469, 0x0094FC),
  (0x29446C, 0x00951C_00951B),
  (0x294471, 0x00951D_00951E),
  (0x294474, 0x00951F_009494_009520),
  (0x294478, 0x009522),
  (0x294531, 0x009528_009531),
  (0x29454D, 0x009534_009545),
  (0x294551, 0x009517),
  (0x29455E, 0x0094E1_009496),
  (0x294564, 0x009536),
  (0x294567, 0x009537_009518),
  (0x29456A, 0x009533),
  (0x29456F, 0x009538),
  (0x294573, 0x00953D),
  (0x29457A, 0x009550),
  (0x294621, 0x009553),
  (0x294628, 0x009552_0084E5),
  (0x29462B, 0x009548),
  (0x29462D, 0x009549),
  (0x294633, 0x028C4F),
  (0x294642, 0x0094E0),
  (0x294647, 0x00954F),
  (0x29464A, 0x00953C),
  (0x294656, 0x00955B),
  (0x29465A, 0x00955F),
  (0x294662, 0x00956A),
  (0x294666, 0x00933E),
  (0x294673, 0x009560),
  (0x29467C, 0x009546),
  (0x29472F, 0x0094E9),
  (0x294732, 0x0094F4),
  (0x294734, 0x009566),
  (0x294738, 0x004985),
  (0x29473B, 0x028C54_009568),
  (0x29473E, 0x0094F9),
  (0x29474D, 0x00956B),
  (0x294750, 0x00950E_00950F),
  (0x294758, 0x009561),
  (0x29475E, 0x009562),
  (0x294760, 0x009563),
  (0x294767, 0x0094E7),
  (0x294769, 0x009564),
  (0x294774, 0x009571),
  (0x29483E, 0x009554_009572),
  (0x29484A, 0x00956C),
  (0x29485C, 0x009565_009527_009574),
  (0x294869, 0x009567),
  (0x29486D, 0x009575),
  (0x29486F, 0x009569),
  (0x294871, 0x00954A),
  (0x29487B, 0x00954B_004986),
  (0x294930, 0x0095EC),
  (0x294936, 0x0095F3),
  (0x294942, 0x009606),
  (0x294944, 0x009603),
  (0x294948, 0x00960F_009608),
  (0x29494D, 0x009609),
  (0x29494F, 0x00960A_00960C),
  (0x294952, 0x00960D),
  (0x29495A, 0x009612),
  (0x294960, 0x009619),
  (0x294962, 0x009618_0095FF),
  (0x294969, 0x00961A_009613),
  (0x29496F, 0x0095FC),
  (0x294972, 0x00961B),
  (0x294A44, 0x009655),
  (0x294A46, 0x009649),
  (0x294C6C, 0x0053C7),
  (0x294C6E, 0x0053C6),
  (0x294C76, 0x009753),
  (0x294E43, 0x0097AF),
  (0x294E4C, 0x0097E8),
  (0x294E54, 0x0097EA),
  (0x294E5C, 0x0097EB),
  (0x294E79, 0x009878),
  (0x294E7B, 0x009883),
  (0x294F23, 0x009880),
  (0x294F2C, 0x00988F),
  (0x294F40, 0x009892),
  (0x294F45, 0x00988B),
  (0x294F4D, 0x029596),
  (0x294F60, 0x009899),
  (0x294F6B, 0x0098A1),
  (0x294F77, 0x00989F),
  (0x295021, 0x0098A2),
  (0x295029, 0x0098A5),
  (0x295030, 0x00989E_0098A7),
  (0x295039, 0x0098D0),
  (0x295048, 0x0098D4),
  (0x29504D, 0x0098D6_0098D7),
  (0x295053, 0x0098D9),
  (0x295060, 0x009964),
  (0x29506C, 0x00996B),
  (0x295075, 0x009973),
  (0x295129, 0x009979),
  (0x29512B, 0x009978),
  (0x29512F, 0x00997E),
  (0x295132, 0x00997D),
  (0x295140, 0x009983),
  (0x295153, 0x009967),
  (0x295160, 0x00998E_00998C_009989),
  (0x295166, 0x009969),
  (0x29516A, 0x009990),
  (0x29516D, 0x009991),
  (0x295170, 0x00998D),
  (0x295172, 0x009994),
  (0x295175, 0x009993),
  (0x295178, 0x009988),
  (0x295222, 0x0098E8),
  (0x295241, 0x0099A9),
  (0x295263, 0x009A75),
  (0x295269, 0x009A80),
  (0x29527A, 0x009A83),
  (0x29527E, 0x0299F4),
  (0x295324, 0x009A8D),
  (0x295329, 0x009A8E),
  (0x29533D, 0x009A90),
  (0x295340, 0x009A92),
  (0x295347, 0x009A93),
  (0x29534C, 0x009A99),
  (0x295351, 0x029A00_004BC4),
  (0x29535A, 0x009A9F),
  (0x295360, 0x009A98),
  (0x295369, 0x009A7A_009A9D),
  (0x295370, 0x009A9C),
  (0x295379, 0x009A96_009AA2),
  (0x29537E, 0x009A95),
  (0x295421, 0x009AA3_009A81),
  (0x295427, 0x009A85),
  (0x295433, 0x009AA7_009AA6),
  (0x29543A, 0x009A89),
  (0x29546C, 0x009ACC_009ACB),
  (0x29556C, 0x00960B),
  (0x295574, 0x009604),
  (0x29563C, 0x009B49),
  (0x295656, 0x009C7D),
  (0x29565D, 0x009C82),
  (0x295663, 0x009C80),
  (0x295678, 0x009C84),
  (0x29567E, 0x009C8F),
  (0x295721, 0x009C86),
  (0x295723, 0x009C85),
  (0x295729, 0x009C87),
  (0x29572B, 0x009C90),
  (0x29572E, 0x009C8A),
  (0x295731, 0x009C8B),
  (0x295739, 0x009C9E),
  (0x29573C, 0x009C91_009C92),
  (0x295742, 0x009C95),
  (0x295747, 0x009C96),
  (0x295750, 0x004C9F_009C98),
  (0x295756, 0x009CA9),
  (0x295758, 0x009C9D),
  (0x29575A, 0x009CAA),
  (0x29575C, 0x029F81),
  (0x29575F, 0x009CA0),
  (0x29576E, 0x009CA7),
  (0x29577A, 0x009CAD),
  (0x29577C, 0x009CB0),
  (0x295822, 0x009CAE_009CAF),
  (0x295825, 0x009CBA),
  (0x295827, 0x009CB2_009CB4),
  (0x29582C, 0x009CB1_009CB7),
  (0x29582F, 0x009CB5),
  (0x295831, 0x009CB6),
  (0x295834, 0x009CBB),
  (0x29583E, 0x009CCA_004CA1),
  (0x295843, 0x004CA0),
  (0x29584B, 0x009CBD),
  (0x295854, 0x009CC4),
  (0x295859, 0x009CC6),
  (0x29585C, 0x009CC7),
  (0x295864, 0x009CD1),
  (0x295866, 0x009CD2),
  (0x29586A, 0x009CCB),
  (0x29586E, 0x009CA5),
  (0x295870, 0x009CC1_009CCE),
  (0x295874, 0x004CA3),
  (0x295877, 0x004CA2),
  (0x295921, 0x009CD9),
  (0x295925, 0x009CCC),
  (0x295928, 0x009CD5_009CA3_009CD3),
  (0x29592C, 0x009CDB),
  (0x295932, 0x009CD8),
  (0x295938, 0x009CDF),
  (0x29593A, 0x009C85_009C9F),
  (0x295940, 0x009CBC),
  (0x295949, 0x009CE3),
  (0x29594F, 0x009CE2),
  (0x295955, 0x009C8E_009C99),
  (0x295958, 0x009C9A),
  (0x29595B, 0x009CBF_009CE0),
  (0x29596B, 0x009CA1),
  (0x295977, 0x009E24),
  (0x295A28, 0x009E28),
  (0x295A3F, 0x009E2E),
  (0x295A44, 0x009E32),
  (0x295A48, 0x009E31),
  (0x295A4F, 0x004D14),
  (0x295A59, 0x009E38),
  (0x295A5B, 0x004D15),
  (0x295A65, 0x009E39),
  (0x295A68, 0x009E3A),
  (0x295A6A, 0x009E3C),
  (0x295A6C, 0x009E3B),
  (0x295A70, 0x009E48),
  (0x295A75, 0x009E41),
  (0x295B2A, 0x009E46),
  (0x295B2C, 0x009E53),
  (0x295B2E, 0x009E52),
  (0x295B32, 0x004D16),
  (0x295B35, 0x009E2B),
  (0x295B42, 0x009E4D),
  (0x295B4B, 0x009E50),
  (0x295B52, 0x009E4E),
  (0x295B59, 0x009E5C),
  (0x295B5C, 0x009E5B),
  (0x295B60, 0x009E55),
  (0x295B67, 0x004D17),
  (0x295B6A, 0x009E56_009E57_009E4B),
  (0x295B70, 0x009E59),
  (0x295B77, 0x009E63),
  (0x295B79, 0x009E5A_009E62),
  (0x295B7C, 0x009E61),
  (0x295C28, 0x009E58),
  (0x295C32, 0x009E60),
  (0x295C34, 0x009E27),
  (0x295C36, 0x009E5F),
  (0x295C3E, 0x009E37),
  (0x295C45, 0x009E65),
  (0x295C47, 0x009E68),
  (0x295C49, 0x009E47),
  (0x295C52, 0x004D18),
  (0x295C57, 0x009E6B),
  (0x295C5B, 0x009E6C),
  (0x295C5F, 0x009E54),
  (0x295C65, 0x009E69),
  (0x295C68, 0x02A24A),
  (0x295C6C, 0x009E6A),
  (0x295C71, 0x009E6F),
  (0x295C74, 0x004D19),
  (0x295C7E, 0x009E34),
  (0x295D29, 0x009E71),
  (0x295D36, 0x009E2C),
  (0x295D3A, 0x009E73_009E42_005364),
  (0x295D42, 0x009E7E),
  (0x295E6A, 0x009EEA),
  (0x295E6F, 0x009EE1),
  (0x295E7A, 0x009EFE),
  (0x295E7C, 0x009F0B_009F0C),
  (0x295F2B, 0x009F0D),
  (0x295F7B, 0x009F51_009F80),
  (0x295F7E, 0x009F81),
  (0x296028, 0x009F86),
  (0x29602B, 0x009F85),
  (0x29605B, 0x005390),
  (0x296062, 0x009F9B),
  (0x2D3021, 0x005F0C_0201A4_020001),
  (0x2D3025, 0x004E05_004E04_02000B_004E12_005304_02001A_020003),
  (0x2D302D, 0x004E17_020993_005775_004E22),
  (0x2D3032, 0x007ADD),
  (0x2D3034, 0x020066_005086_0051E2),
  (0x2D3038, 0x0038CB_005B94_02010E_004E46_005E7A_0037A2),
  (0x2D3040, 0x008656_0201A6),
  (0x2D3045, 0x004E57),
  (0x2D3050, 0x0053D3_005F0D_004E90_004E3C),
  (0x2D3057, 0x004E99_004E9C),
  (0x2D305B, 0x005166_0215D5_020987_004892_020156),
  (0x2D3061, 0x004EB0),
  (0x2D3064, 0x024BD4),
  (0x2D3066, 0x005FCE),
  (0x2D3068, 0x0038D4_020A2E_008E23),
  (0x2D306C, 0x008B8E_004EF7),
  (0x2D306F, 0x004EC5),
  (0x2D3071, 0x004F57),
  (0x2D3077, 0x003565_003442),
  (0x2D307C, 0x0224E9),
  (0x2D3121, 0x0201FE),
  (0x2D3125, 0x02022E),
  (0x2D312D, 0x007ADA),
  (0x2D312F, 0x008997),
  (0x2D3131, 0x0203B3_004ECF),
  (0x2D313A, 0x0062BB),
  (0x2D313C, 0x008998_004F40),
  (0x2D313F, 0x003445_004F32),
  (0x2D3142, 0x004EFE),
  (0x2D3144, 0x005F7E),
  (0x2D3147, 0x005002),
  (0x2D314A, 0x020255),
  (0x2D314C, 0x005008),
  (0x2D314E, 0x020296_02039A),
  (0x2D3151, 0x005058_0224DD_02020E_0073EE),
  (0x2D3156, 0x02250D_008A2B),
  (0x2D3159, 0x022500_0077E6_0202B3_00516A),
  (0x2D315F, 0x004FA3),
  (0x2D3164, 0x007AE2_005101_003444),
  (0x2D316A, 0x00723C_005731_004ED1),
  (0x2D316E, 0x004FD6),
  (0x2D3170, 0x02026E),
  (0x2D3176, 0x0292CE_005E78),
  (0x2D3179, 0x020213),
  (0x2D317D, 0x0202E3),
  (0x2D3222, 0x005036),
  (0x2D3224, 0x007B87_0202B1),
  (0x2D3228, 0x005F98),
  (0x2D322A, 0x0046EE),
  (0x2D322C, 0x005804),
  (0x2D3231, 0x0053DA_004F5C),
  (0x2D3234, 0x00533D),
  (0x2D3238, 0x009049),
  (0x2D323B, 0x005010_005AAE_020293),
  (0x2D3240, 0x005079),
  (0x2D3244, 0x007E56),
  (0x2D324C, 0x004F24_00506C),
  (0x2D324F, 0x005045),
  (0x2D3251, 0x00510C),
  (0x2D3253, 0x0050E3_0203D7_003492_0050DE),
  (0x2D3258, 0x00376F),
  (0x2D325A, 0x02033C_0204B1_006BAD),
  (0x2D325F, 0x0050BB),
  (0x2D3261, 0x005039),
  (0x2D3263, 0x004FAD),
  (0x2D3265, 0x02037B),
  (0x2D3268, 0x0261C4_005132_02041A),
  (0x2D326C, 0x003433),
  (0x2D326F, 0x02047D),
  (0x2D3271, 0x0209DE_00706E_005FF7),
  (0x2D3275, 0x00514A),
  (0x2D3279, 0x00514E_020486),
  (0x2D3321, 0x0215E0_004EDD_0034B3_00634C_020AEA),
  (0x2D3327, 0x0034B6),
  (0x2D332A, 0x004E0C),
  (0x2D332C, 0x025B8F),
  (0x2D332E, 0x00517E_005184_025B30_020545_005190_029284),
  (0x2D3336, 0x005B82),
  (0x2D3338, 0x00585A_023A46),
  (0x2D333C, 0x004ECC),
  (0x2D333E, 0x020624_02061D),
  (0x2D3344, 0x020621),
  (0x2D3347, 0x004CE8),
  (0x2D334C, 0x005773_0057A4_005705_005202),
  (0x2D3352, 0x02F850),
  (0x2D3354, 0x0206C4_00681E_0206EC_02073A),
  (0x2D3359, 0x006B7E),
  (0x2D335B, 0x0206F0_005220),
  (0x2D335E, 0x025762_0052B5_0207AB_00355E_004452_0034E8),
  (0x2D3365, 0x02071C_005234_0206F4_009B00_006B6C),
  (0x2D336B, 0x005C05),
  (0x2D336D, 0x0207FB_0206E0),
  (0x2D3371, 0x020713_005265),
  (0x2D3374, 0x020826),
  (0x2D3376, 0x027C19_008CF8_006227_005257_021B3D_00528B),
  (0x2D3421, 0x005292_0093A6_020738_020832_0034DB),
  (0x2D3427, 0x022683_005226_0242F0),
  (0x2D342B, 0x004F2E_020728),
  (0x2D342E, 0x008274),
  (0x2D3433, 0x023283_0038EB_0208C1_0052F3_0208A7),
  (0x2D343C, 0x0052A2_0052E7_005300),
  (0x2D3440, 0x0230E6_0036BF),
  (0x2D3445, 0x0208F5),
  (0x2D3448, 0x020BD2_027265_00352D),
  (0x2D344C, 0x005E00_005329_00531E_003B71),
  (0x2D3451, 0x006ED9_006AC3_00758B),
  (0x2D3457, 0x0062FE_004EDF_020983),
  (0x2D345B, 0x006607),
  (0x2D345D, 0x020984),
  (0x2D345F, 0x00461A_0053F6_00352C_024C1E),
  (0x2D3464, 0x00613D_020061),
  (0x2D346A, 0x005918_0089F6),
  (0x2D346D, 0x021D41_00537D_021589_0038A7_007F37),
  (0x2D3473, 0x005374),
  (0x2D3477, 0x020A9E_020AA5),
  (0x2D347A, 0x007312_006FFF_0053BA_0053C5_0053F9),
  (0x2D3522, 0x00355B),
  (0x2D3524, 0x004EEE),
  (0x2D3527, 0x023101_00708D_005081),
  (0x2D352C, 0x020675_0037C3_0205A0),
  (0x2D3530, 0x02035F_006542_020BA2),
  (0x2D3534, 0x009955),
  (0x2D3536, 0x020BA6_008A68_020BAF_0052FE),
  (0x2D353C, 0x006B62_00355C_020BB2),
  (0x2D3540, 0x020BB7),
  (0x2D3543, 0x004EDD),
  (0x2D3547, 0x0055AB),
  (0x2D3549, 0x025969_02F83B_00530C),
  (0x2D354D, 0x00980F_006061_005451_020C69),
  (0x2D3552, 0x005514),
  (0x2D3556, 0x007343_00543D_00545D_020636_020C8E_00356F_005434),
  (0x2D355E, 0x0269CA_00543F),
  (0x2D3561, 0x005445_00564F_020DD5_008182),
  (0x2D3566, 0x005656),
  (0x2D3569, 0x020F6C_008A36),
  (0x2D356F, 0x023898),
  (0x2D3571, 0x00546A_005689_006B51_006DCD),
  (0x2D3577, 0x00548A),
  (0x2D3579, 0x0202D2_008A49_020F7F),
  (0x2D357D, 0x0209E8_020D1F),
  (0x2D3622, 0x008AEE_005699_02273A_006B2C),
  (0x2D3627, 0x023949),
  (0x2D362A, 0x0095A7_00542C),
  (0x2D362E, 0x020C38),
  (0x2D3630, 0x00507A),
  (0x2D3632, 0x008A7B),
  (0x2D3634, 0x0056D0),
  (0x2D3636, 0x00557A_0035A0),
  (0x2D3639, 0x009914),
  (0x2D363B, 0x003AF4_005586),
  (0x2D363E, 0x02A505),
  (0x2D3640, 0x021608),
  (0x2D3642, 0x006B38_008A90_005557),
  (0x2D3647, 0x005585_020CC5_005516),
  (0x2D364E, 0x006B60),
  (0x2D3659, 0x020FCD_008B99_008849),
  (0x2D365D, 0x0055C1_005407),
  (0x2D3661, 0x006199),
  (0x2D3664, 0x02F849_008B40_008AF5),
  (0x2D3668, 0x020AF9),
  (0x2D366C, 0x006B42),
  (0x2D366E, 0x020FC8),
  (0x2D3670, 0x0035CB),
  (0x2D3672, 0x008AED),
  (0x2D3675, 0x0035D0_029759),
  (0x2D367B, 0x005B60),
  (0x2D367D, 0x003C1E_009F45),
  (0x2D3721, 0x006B4D),
  (0x2D3724, 0x005519),
  (0x2D3726, 0x020EDB_008B2E_0055F8_021170),
  (0x2D372B, 0x0055CD_006B4E),
  (0x2D372F, 0x005620_00751E_008B31_0054F0_006B57_0055C4_024E8A_008B3F_008B46),
  (0x2D373B, 0x005618_009ED8),
  (0x2D3745, 0x020D2E),
  (0x2D3747, 0x008B68_008B5F_005650_020ED4),
  (0x2D3750, 0x0054AE_0054E7),
  (0x2D3753, 0x02A5B0),
  (0x2D3758, 0x0054BD),
  (0x2D375B, 0x008B7B),
  (0x2D375D, 0x008B98_0056BB_00564D_0056A2_005570_008B9B),
  (0x2D3765, 0x008086),
  (0x2D3767, 0x0056D9_0056EC_005C6F_0233D4_007A97_006018_0211CA_021215_005700_0056D7_008597_00570E),
  (0x2D3774, 0x00555A_005721),
  (0x2D3779, 0x005754_021248),
  (0x2D377C, 0x00962C_00962F_00576F),
  (0x2D3821, 0x00962F_021272),
  (0x2D3825, 0x0057F3_003634),
  (0x2D3828, 0x00576A_003F4D),
  (0x2D382C, 0x005803_00619A),
  (0x2D382F, 0x021369_00573B_005753_025963),
  (0x2D3834, 0x005778),
  (0x2D3836, 0x0213A9_0057CE_0085B6),
  (0x2D383B, 0x0074E1_02125D),
  (0x2D383E, 0x0057E1_00575A),
  (0x2D3841, 0x005796),
  (0x2D3843, 0x021E20),
  (0x2D3845, 0x005C2D_0095CD_00582A_005895_009684_005872_005822),
  (0x2D384E, 0x0049DC_005850_007AB4),
  (0x2D3852, 0x0051A2),
  (0x2D3854, 0x005896_009696),
  (0x2D3858, 0x028D9D),
  (0x2D385B, 0x0058CD),
  (0x2D385E, 0x022D23_0213B0),
  (0x2D3861, 0x0040CD),
  (0x2D3865, 0x003672),
  (0x2D386C, 0x021501_0058E0_0058CA_021243_0269B6),
  (0x2D3872, 0x004ED5_02151B_02125F_0058F1_0058F7_005900_00662F_029830),
  (0x2D387B, 0x021584_02158A),
  (0x2D387E, 0x004EB1),
  (0x2D3921, 0x00591F_0215B7_00368C_005923_020632_023873_004F15),
  (0x2D3929, 0x0239D5),
  (0x2D392B, 0x020095_0215DD_004F89),
  (0x2D392F, 0x007287_020B3B_0067F0_007AD2),
  (0x2D3935, 0x006814_00595E),
  (0x2D3938, 0x022345_021637),
  (0x2D393D, 0x005953_020187),
  (0x2D3940, 0x02165C),
  (0x2D3942, 0x020A30_0036A2_00511E_0216B6_005A54_0059E7_021946),
  (0x2D394C, 0x003903_0059AC_0059F8_004F03_0216A7),
  (0x2D3953, 0x005A24_007385_007D8F_0059D9_021769),
  (0x2D395D, 0x005A12_006BD1_0059D7_0036E9_0036B6),
  (0x2D3963, 0x0216F0_005B2D_004E68),
  (0x2D3967, 0x0036A3),
  (0x2D396E, 0x004F84_024C34_005A63),
  (0x2D3973, 0x009024_005B43),
  (0x2D3976, 0x0217E6),
  (0x2D3979, 0x0036DB_0059E2_005A31),
  (0x2D397D, 0x005A4F),
  (0x2D3A21, 0x003711),
  (0x2D3A26, 0x005A3F_005A8D),
  (0x2D3A2B, 0x0036F0),
  (0x2D3A2F, 0x0058FB_005AAA),
  (0x2D3A38, 0x0036EE_00606F_02187F),
  (0x2D3A3C, 0x02191A),
  (0x2D3A3E, 0x005AF0_02192F),
  (0x2D3A41, 0x005AFA),
  (0x2D3A43, 0x021810),
  (0x2D3A45, 0x0218C6_021894_005ACB),
  (0x2D3A49, 0x021849_005B46),
  (0x2D3A4D, 0x00373D_004ED4),
  (0x2D3A50, 0x02193F_02339C_02195C_020A6F),
  (0x2D3A56, 0x0244FD_02506A),
  (0x2D3A59, 0x0268EE_00373E_02193E_020169_02195D),
  (0x2D3A60, 0x006588_021997_005B7C_003748),
  (0x2D3A65, 0x003762_00374A),
  (0x2D3A68, 0x0219EA),
  (0x2D3A6B, 0x00958E),
  (0x2D3A6E, 0x00519D_02054D_00923E),
  (0x2D3A73, 0x003749_0041A0),
  (0x2D3A79, 0x020594),
  (0x2D3A7B, 0x0091BC_005BAB_003750_0219F1),
  (0x2D3B21, 0x005BBB),
  (0x2D3B23, 0x02699A),
  (0x2D3B25, 0x021A1C_00375B_0051A8),
  (0x2D3B2A, 0x005EBD),
  (0x2D3B2E, 0x005BD1),
  (0x2D3B31, 0x005BB2_00752F_008A67_007AC2),
  (0x2D3B39, 0x0073E4),
  (0x2D3B3B, 0x004999),
  (0x2D3B3D, 0x004836),
  (0x2D3B3F, 0x005C02_02F873_02235C),
  (0x2D3B44, 0x023726_021B90_023957_021B5E_005C19_006023_0201B7),
  (0x2D3B4C, 0x005C32),
  (0x2D3B50, 0x004FB7_021CA9_006EBA),
  (0x2D3B54, 0x005C4A_003790),
  (0x2D3B57, 0x021C91_02693F_005C38_00382D_003795_021C38_005E48_02F877_005C49),
  (0x2D3B63, 0x021C46),
  (0x2D3B66, 0x009623_0037DA_005C8B_0057C1),
  (0x2D3B6B, 0x0037B6_0057BE),
  (0x2D3B6E, 0x005D17_025949),
  (0x2D3B72, 0x008DF1_005D4C_00965C_009657_0057C8_005CE9_005CEF_005D8B),
  (0x2D3B7B, 0x005D08_021F14_021D8F_005393),
  (0x2D3C21, 0x0057FC_005D10_021E35),
  (0x2D3C26, 0x005D18_005D70),
  (0x2D3C29, 0x005D27),
  (0x2D3C2B, 0x005CB4_0096A5_021F6C_021D93_005CBA_021FC1_027596),
  (0x2D3C33, 0x005DD7_005DDB_020113_005DE3_02201A_009245),
  (0x2D3C3A, 0x020087_02236E),
  (0x2D3C3D, 0x022012),
  (0x2D3C41, 0x008856_005DFA_00461C),
  (0x2D3C45, 0x004F48_0295CB_020B39),
  (0x2D3C49, 0x0083F7),
  (0x2D3C4B, 0x005E0A),
  (0x2D3C4D, 0x004F16_022087_0048A6_005ED7_020D40),
  (0x2D3C56, 0x0042F9_005183_003860),
  (0x2D3C5C, 0x007C02),
  (0x2D3C5F, 0x006A66_0220B4_005E47),
  (0x2D3C64, 0x022199_0079CA_003694_0069A6_003555_0034DC_0051FC),
  (0x2D3C6C, 0x0057BF_008298_007240),
  (0x2D3C70, 0x00576B),
  (0x2D3C72, 0x0221EF),
  (0x2D3C7A, 0x02018C_022259_0083F4_0053A2_0053A0),
  (0x2D3D22, 0x00F928_003898_0221D7_022313),
  (0x2D3D28, 0x003551_0053AE_02220E_005EBF),
  (0x2D3D2D, 0x005396_021CEC_00539B),
  (0x2D3D34, 0x005EFE_02234D_006335_022338_021681_00683B_005F11),
  (0x2D3D3C, 0x0039C8),
  (0x2D3D3E, 0x0239C0),
  (0x2D3D40, 0x0038AE),
  (0x2D3D42, 0x0223BA),
  (0x2D3D45, 0x0223F1_022405),
  (0x2D3D48, 0x005F4A),
  (0x2D3D4A, 0x0223E8),
  (0x2D3D4C, 0x0074D5),
  (0x2D3D4E, 0x007BF2_005F5A_022471_022488_004463),
  (0x2D3D54, 0x00658C_0091C7_02A104),
  (0x2D3D5D, 0x005FB0_009AF4),
  (0x2D3D60, 0x025A73),
  (0x2D3D64, 0x0072E5),
  (0x2D3D67, 0x009015_028466),
  (0x2D3D6A, 0x003775_0224CA_005F93),
  (0x2D3D6F, 0x023E2A_003D1C),
  (0x2D3D72, 0x02251A),
  (0x2D3D75, 0x0060EA_005FB4_022FB0_005FC4),
  (0x2D3D7B, 0x003900),
  (0x2D3D7E, 0x0225CD),
  (0x2D3E21, 0x0038FC),
  (0x2D3E24, 0x008AF6),
  (0x2D3E26, 0x003901),
  (0x2D3E29, 0x004F42_00391C_006060_003E64_006091_006056),
  (0x2D3E32, 0x00392A),
  (0x2D3E34, 0x0278B1),
  (0x2D3E36, 0x0225CC_0038FD),
  (0x2D3E39, 0x02264A_022689_022625_00803B_022662_022644_003DC7_006052_006033),
  (0x2D3E43, 0x003919_022656),
  (0x2D3E46, 0x003929_00460F),
  (0x2D3E49, 0x0038FD),
  (0x2D3E4B, 0x006071_0052C8_005FE2_00612F_008A96_0225B9_007302_022836_02263B_0209E9_022690_020453),
  (0x2D3E57, 0x009847),
  (0x2D3E5A, 0x006053_005568_003943),
  (0x2D3E5E, 0x0247D4_005A5E_006075_0050EB_02287D),
  (0x2D3E64, 0x006090_0226C2),
  (0x2D3E68, 0x0075F5),
  (0x2D3E6A, 0x0226E7),
  (0x2D3E6C, 0x003966),
  (0x2D3E6E, 0x0229A1),
  (0x2D3E70, 0x022754_021A9F),
  (0x2D3E73, 0x00398D_02272A),
  (0x2D3E7A, 0x022772),
  (0x2D3E7D, 0x006086_022649),
  (0x2D3F22, 0x005605_022899_00661A),
  (0x2D3F26, 0x02F8A1_006120_003477),
  (0x2D3F2A, 0x005ABF_00734A),
  (0x2D3F2F, 0x0061F3),
  (0x2D3F31, 0x006159_022903),
  (0x2D3F34, 0x00617D_008B3E),
  (0x2D3F39, 0x00645C_006185),
  (0x2D3F3F, 0x00617F),
  (0x2D3F41, 0x022865_005FFF),
  (0x2D3F46, 0x009866),
  (0x2D3F48, 0x00610F_02292D_008B4D_0228F6_022729),
  (0x2D3F4E, 0x022846),
  (0x2D3F51, 0x003996_003421),
  (0x2D3F54, 0x0061D0),
  (0x2D3F57, 0x0061DC),
  (0x2D3F59, 0x0034A4_0039A4),
  (0x2D3F62, 0x0229A9),
  (0x2D3F65, 0x0039AF),
  (0x2D3F67, 0x00621E_02949B_0039B8_0063D5),
  (0x2D3F6C, 0x0229F5_021822_0229D0_00622F),
  (0x2D3F72, 0x0039BF),
  (0x2D3F75, 0x022A37_0078A5),
  (0x2D3F7C, 0x0063E0),
  (0x2D4022, 0x006386_022F12),
  (0x2D4027, 0x00677C_022EF3_005214_022ABB),
  (0x2D402D, 0x022BA4),
  (0x2D402F, 0x0039D6),
  (0x2D4031, 0x0064A6_006477),
  (0x2D4034, 0x022AFD_0230AB),
  (0x2D4037, 0x020500_006293_0067C6),
  (0x2D403D, 0x023B0A_003A09_006255),
  (0x2D4044, 0x007FCD),
  (0x2D4046, 0x02F8B8_003A28),
  (0x2D4049, 0x0067B4),
  (0x2D404C, 0x006283_0064E1_0080DF_006294_006261_006285_022AE6_00638B_003A55_00629D_022BEA_006848),
  (0x2D405A, 0x00643C_022B4B_022091),
  (0x2D405F, 0x00628D),
  (0x2D4061, 0x022AFE_005171_0062B4),
  (0x2D4065, 0x022B38_0063CE_0062CF),
  (0x2D406A, 0x00633C),
  (0x2D406C, 0x0062B8),
  (0x2D406F, 0x0063D1),
  (0x2D4072, 0x007D91_00632B_022C07),
  (0x2D4076, 0x0064D1),
  (0x2D4078, 0x022C4A_00814B),
  (0x2D407B, 0x0088F7),
  (0x2D407D, 0x0057FD_004990),
  (0x2D4121, 0x006340_006485_007F6B_022D44),
  (0x2D4126, 0x0063DC),
  (0x2D4128, 0x022D3F_0064A2),
  (0x2D412C, 0x025893_0063C8_008F13),
  (0x2D4130, 0x006308),
  (0x2D4132, 0x00642F),
  (0x2D4138, 0x022C95_026F69),
  (0x2D413B, 0x026946_003A9D_022F86),
  (0x2D413F, 0x022F99_022BC7_0063B2_022C73),
  (0x2D4144, 0x022B4D),
  (0x2D4147, 0x006271),
  (0x2D414C, 0x022DFC_027F62_024522_00627B_006428),
  (0x2D4152, 0x006447_0064E3_00635C_006464_022C8E_0064FF_022CC0_007529),
  (0x2D415B, 0x02694E),
  (0x2D415D, 0x022E06_006298),
  (0x2D4160, 0x0229F7),
  (0x2D4164, 0x006486),
  (0x2D4167, 0x008B54),
  (0x2D4169, 0x005EDD),
  (0x2D416C, 0x006491_022CBB_006534_008B52_006375_0062CA),
  (0x2D4174, 0x022E6C_00636D_006483),
  (0x2D4178, 0x006502_003A14_006529),
  (0x2D417C, 0x022D03_022CB8),
  (0x2D4221, 0x006AA0),
  (0x2D4223, 0x006272),
  (0x2D4225, 0x003A08),
  (0x2D4228, 0x005117),
  (0x2D422A, 0x006304),
  (0x2D422D, 0x022E05),
  (0x2D4235, 0x006315_003A57_022376_0064F9_003E15_006341_0064E5_020999_020B27),
  (0x2D4240, 0x005338),
  (0x2D4243, 0x00509A),
  (0x2D4245, 0x022F8D_006344_008D01_021681_0053D9_0052C4_003A9F_020B56),
  (0x2D424F, 0x005553),
  (0x2D4251, 0x003AA3),
  (0x2D4253, 0x0065C9),
  (0x2D4255, 0x006138),
  (0x2D4257, 0x021681),
  (0x2D4259, 0x008FAC_00595C_003AB7_00427C_00887A_009159_0282FC_0091FF_00387F_009207),
  (0x2D4264, 0x023095_0230BA_0230A2_024657_006275_006E64_003AC4_006314),
  (0x2D426D, 0x022B40_02644A),
  (0x2D4270, 0x023103_0065D1_0065E3_0056F8_020122_02317C_0208D9_0065EE_023140_006658),
  (0x2D427B, 0x007F64),
  (0x2D427D, 0x02314A),
  (0x2D4321, 0x006719_005052_00663B_00662C),
  (0x2D4326, 0x02319C_006630_004F4B_00668E_0066D0_020DC6),
  (0x2D432E, 0x0066EC_023206),
  (0x2D4332, 0x02316F_02314E),
  (0x2D4337, 0x003B0C_00669C_006692),
  (0x2D433B, 0x006662_007CBE),
  (0x2D433E, 0x00667B),
  (0x2D4342, 0x007157_006636_0232EB_003AE7_0066AF_02690C_006681_0066A6),
  (0x2D434B, 0x0077B9),
  (0x2D434D, 0x00720C_003B0D_003B22_007CB5_006D40_026959_003A85),
  (0x2D4356, 0x0066FA),
  (0x2D4359, 0x003B31_023948_020971_020087_008177),
  (0x2D435F, 0x006716),
  (0x2D4362, 0x006722_006641_00671E),
  (0x2D4366, 0x0043F5),
  (0x2D4368, 0x026B38_00694D_00672A),
  (0x2D436C, 0x005284),
  (0x2D436E, 0x006A38),
  (0x2D4370, 0x006736_02F8DB_0090A8_00674D),
  (0x2D4377, 0x024668),
  (0x2D4379, 0x006A86_005091),
  (0x2D437C, 0x00822B_0233DD),
  (0x2D4421, 0x006788_006B1B_006418_00676E_00686E_0083C4_00592D_0083D3),
  (0x2D442A, 0x0233FD_003B4A),
  (0x2D442D, 0x006780_023471),
  (0x2D4430, 0x0067F9_023431_0062A6_0245B2_0053B6),
  (0x2D4437, 0x0067FE_0069A2),
  (0x2D443A, 0x006942_023437),
  (0x2D443D, 0x02F8E3),
  (0x2D443F, 0x006907_006822_00687A_006849_00630D_0069C5_0234AF),
  (0x2D4448, 0x003BAE),
  (0x2D444A, 0x025BD2_006852),
  (0x2D444F, 0x0069D5_008308_02346F_0069A4),
  (0x2D4455, 0x008316),
  (0x2D4457, 0x006A11_00674D_02577C),
  (0x2D445D, 0x023580),
  (0x2D445F, 0x02340C_004230_006746_0068DE_0084E8),
  (0x2D4466, 0x006973),
  (0x2D4468, 0x004CB7),
  (0x2D446A, 0x0069B3_006936),
  (0x2D446E, 0x00637F_003B4B),
  (0x2D4471, 0x0245D7_0068CA_003BB1_00690D_023682_003B8D_003B7B_009846),
  (0x2D447C, 0x02348F_00684C),
  (0x2D4522, 0x003B8C_00698D_006792),
  (0x2D4527, 0x006A9A_00678F_006A9D),
  (0x2D452C, 0x0068F1),
  (0x2D452E, 0x00686F_006A92_006961_00643E),
  (0x2D4533, 0x003B84),
  (0x2D4535, 0x006ABA_003A41),
  (0x2D4538, 0x0234C0_006406_006760_003BD3_022C9C_006425_0236D8),
  (0x2D4540, 0x025384),
  (0x2D4543, 0x006901_0069D8_003BA3),
  (0x2D4547, 0x003BF9),
  (0x2D454B, 0x006A45_004482_0068E5_00697D),
  (0x2D4550, 0x0058AB),
  (0x2D4553, 0x003C10),
  (0x2D4555, 0x0235F3_006497_006AB4_006A8F_006BF3),
  (0x2D455B, 0x0069D7_006AF5),
  (0x2D4560, 0x023725_00691C_00681D),
  (0x2D4564, 0x0068B9),
  (0x2D4567, 0x004472),
  (0x2D4569, 0x006AC9),
  (0x2D456B, 0x005335),
  (0x2D456D, 0x003BED_006B17),
  (0x2D4571, 0x003C16_0238D3_026B8F_005FFB_0238D4_006B35_00501B_0238FD),
  (0x2D4621, 0x0061FD),
  (0x2D4625, 0x006B68),
  (0x2D4627, 0x022381),
  (0x2D462A, 0x0053AF_00489C_006B7A_0239B8_023A0F),
  (0x2D4631, 0x02195B),
  (0x2D4636, 0x003C68),
  (0x2D463C, 0x003C7F),
  (0x2D4640, 0x023A85),
  (0x2D4643, 0x023AED_027249),
  (0x2D4646, 0x005936_006BD8),
  (0x2D4649, 0x021A09_0042EC),
  (0x2D464C, 0x028E1D),
  (0x2D464E, 0x0223AE),
  (0x2D4651, 0x0096F0),
  (0x2D4653, 0x006C31_006C1C_007081),
  (0x2D4657, 0x023C5C_023C6E_003CB7),
  (0x2D465B, 0x003CB6_023E15_023C75_0049B9_006C5C_020029),
  (0x2D4663, 0x0043F7),
  (0x2D4665, 0x006C5A),
  (0x2D4668, 0x023CA0),
  (0x2D466A, 0x004F02),
  (0x2D466D, 0x0051B3_023DEA_023C83),
  (0x2D4673, 0x006DC8_0051B2),
  (0x2D4677, 0x023C93_0205B2),
  (0x2D467A, 0x023CDA_023D7D_006CB2_006F8D),
  (0x2D4721, 0x023C94),
  (0x2D4723, 0x023CB4_023D26_009767),
  (0x2D4727, 0x009164_02200E_006D29),
  (0x2D4730, 0x0051B5_009711_006C53),
  (0x2D4734, 0x004E7F_006C4E),
  (0x2D4737, 0x003CC2_006FFC),
  (0x2D473A, 0x006D24_023D11_0212BA_005DDE_026A31_006E33_006D72_023E1F_0034CA_006D12_023F45_006D1C),
  (0x2D4746, 0x006C79_0051BE),
  (0x2D474A, 0x02A5A6_003D06),
  (0x2D474D, 0x006DDB),
  (0x2D474F, 0x003D05_0205D4_003CD9),
  (0x2D4754, 0x023D32_0205D5_006F94_023D34_006F0E_00623E_006E7B_0051C9),
  (0x2D475D, 0x006D02),
  (0x2D475F, 0x0051C4),
  (0x2D4763, 0x029C6C_023D81),
  (0x2D4766, 0x006F04),
  (0x2D4768, 0x006D45_023F1C),
  (0x2D476B, 0x005031_006C8D),
  (0x2D476F, 0x02F914_006EDB),
  (0x2D4772, 0x006C97),
  (0x2D4774, 0x006E01_023D7F_006BBD),
  (0x2D4778, 0x006E7D_023F85_023CE5_003CFA),
  (0x2D477E, 0x02A1BA),
  (0x2D4821, 0x003D34),
  (0x2D4824, 0x023FD1_0051D0),
  (0x2D4828, 0x003D3E_0051CF_006F1A),
  (0x2D482C, 0x023E8C),
  (0x2D482F, 0x006E07_024084),
  (0x2D4832, 0x006F19_023E6B_006C43_02404A),
  (0x2D4838, 0x023D5E_006C78),
  (0x2D483B, 0x006EB8),
  (0x2D483E, 0x021CB3),
  (0x2D4840, 0x023A44_0053B5_0034D5_02F90C_006FD5_006E29),
  (0x2D4847, 0x006FE8_006FF8),
  (0x2D484E, 0x006EF3),
  (0x2D4850, 0x006EDA),
  (0x2D4853, 0x007001_006D13_006DB1),
  (0x2D485B, 0x02414D_006F44_003D71),
  (0x2D4861, 0x007045_025553),
  (0x2D486B, 0x006F82),
  (0x2D486E, 0x003D4E),
  (0x2D4870, 0x006F79_023DDD),
  (0x2D4874, 0x006F5C_023D83),
  (0x2D4877, 0x023FF3),
  (0x2D4879, 0x00700A),
  (0x2D487B, 0x02A4AE_02414C),
  (0x2D487E, 0x003D55),
  (0x2D4923, 0x023F43),
  (0x2D4925, 0x02404C_006CF2),
  (0x2D4928, 0x023D29),
  (0x2D492B, 0x007046_023F48),
  (0x2D4934, 0x007052),
  (0x2D4937, 0x024109_00701B),
  (0x2D493A, 0x00702C),
  (0x2D493C, 0x00983B),
  (0x2D493E, 0x003CFD_007061),
  (0x2D4941, 0x006C5B_006F6C),
  (0x2D4944, 0x007053_003DA1_02F835_007AC8),
  (0x2D4949, 0x024190_0241B0_00531F_02418C_00717C_026721),
  (0x2D4951, 0x007232_0082E3_00661E_0070F1_021D7C_0070B0),
  (0x2D4958, 0x00716C),
  (0x2D495A, 0x007074_0070EE),
  (0x2D4960, 0x0066B5_003DBB_0242B7_007151_0071D4_00562B),
  (0x2D4967, 0x007213),
  (0x2D4969, 0x024404_027E6F_0070DF),
  (0x2D496E, 0x007134_0242C1_0066CC_0070A4),
  (0x2D4975, 0x005093_009394),
  (0x2D4978, 0x003DF1),
  (0x2D497B, 0x02308A_02A311),
  (0x2D4A21, 0x027E79_00711E_007CA6_009419),
  (0x2D4A26, 0x00713C),
  (0x2D4A28, 0x008B8C_005C1E),
  (0x2D4A2C, 0x007215_02447E),
  (0x2D4A2F, 0x0243DF_007225),
  (0x2D4A34, 0x00718F),
  (0x2D4A36, 0x0244C8_00946A_007224),
  (0x2D4A3A, 0x00355A_004E89_00628A),
  (0x2D4A40, 0x024555),
  (0x2D4A42, 0x024553),
  (0x2D4A45, 0x005C12_0058BB_0245AD_009211_0245CB_0245CA_0245F1_024604_024608_00725C_0220F7_024625),
  (0x2D4A51, 0x007A82_0246B4_003E30_024634),
  (0x2D4A58, 0x007F9D_007286),
  (0x2D4A5B, 0x007282_02468C),
  (0x2D4A5E, 0x02555A_028893_006C02),
  (0x2D4A62, 0x023698_023D12_024751),
  (0x2D4A66, 0x022687),
  (0x2D4A69, 0x0072F9_003E83_027CB2_0247CB_0292A6),
  (0x2D4A6F, 0x00F92A),
  (0x2D4A71, 0x008C8D),
  (0x2D4A73, 0x007367),
  (0x2D4A75, 0x0052D0),
  (0x2D4A7A, 0x007989_0072CC),
  (0x2D4A7D, 0x003E85_02122D),
  (0x2D4B21, 0x007328_00736A_024733),
  (0x2D4B25, 0x005968),
  (0x2D4B27, 0x02489C),
  (0x2D4B2A, 0x0248CA_02489A),
  (0x2D4B2D, 0x003E9A),
  (0x2D4B30, 0x0241E1),
  (0x2D4B34, 0x0248F5_0073C9_007474_007FEB_003EB3),
  (0x2D4B3A, 0x024A40),
  (0x2D4B3C, 0x007836_007447_024AE9_0073CE_0249A6),
  (0x2D4B43, 0x00746F),
  (0x2D4B45, 0x006BEC_007458),
  (0x2D4B4A, 0x0073D0_0249F0_0249F2_007439),
  (0x2D4B4F, 0x0073AA),
  (0x2D4B53, 0x020B4A_0074B1_0073B9_008750_0249B3),
  (0x2D4B5B, 0x0078AF_0074C8),
  (0x2D4B60, 0x007476_00749D),
  (0x2D4B64, 0x003F04),
  (0x2D4B67, 0x024A14),
  (0x2D4B69, 0x0058D0_00749A),
  (0x2D4B6C, 0x0082FD_024B17_024B21),
  (0x2D4B71, 0x007F3E_007506),
  (0x2D4B75, 0x0074EE_020678),
  (0x2D4B78, 0x00751B_024BD3),
  (0x2D4B7B, 0x024BF3_003F52_024C06),
  (0x2D4C25, 0x0201DA_00489F_024C36_004FBD),
  (0x2D4C2B, 0x024C35_00583A_00756E_024815),
  (0x2D4C30, 0x024C99_003F5E_003F6F_024C9C_022116_007567),
  (0x2D4C37, 0x007C75),
  (0x2D4C39, 0x005679_0058C3),
  (0x2D4C3C, 0x0053E0),
  (0x2D4C3E, 0x00758E),
  (0x2D4C42, 0x00374C),
  (0x2D4C45, 0x024E0B),
  (0x2D4C47, 0x024589),
  (0x2D4C49, 0x0075B7_007649_02457A_02666D_0075A2),
  (0x2D4C4F, 0x024E1F_008A3E),
  (0x2D4C53, 0x0043EF),
  (0x2D4C55, 0x008134_0075C9),
  (0x2D4C59, 0x024DE0),
  (0x2D4C5C, 0x024DC2_007661_024E06),
  (0x2D4C60, 0x0075D2),
  (0x2D4C62, 0x024EE8),
  (0x2D4C65, 0x003F8A),
  (0x2D4C69, 0x008184),
  (0x2D4C6E, 0x024EF2),
  (0x2D4C74, 0x003FC2_00760C_024ED8_003F8C),
  (0x2D4C7A, 0x024F29),
  (0x2D4C7C, 0x024F2A_0268FA_004F70),
  (0x2D4D21, 0x007681_0065F3_026903_02315C),
  (0x2D4D26, 0x006648_006665_0066A0_02911F_025B16_004A45),
  (0x2D4D2F, 0x02F93D),
  (0x2D4D31, 0x021EA1_0074EB),
  (0x2D4D34, 0x0076C7_024B79),
  (0x2D4D38, 0x0076D7),
  (0x2D4D3A, 0x007416_025070),
  (0x2D4D3D, 0x027A2D_00939C),
  (0x2D4D40, 0x025049),
  (0x2D4D42, 0x0211E1_00404E_024DD0),
  (0x2D4D46, 0x007742),
  (0x2D4D48, 0x025122_025171),
  (0x2D4D4B, 0x0076FB_02537F),
  (0x2D4D4F, 0x02F945),
  (0x2D4D51, 0x028913_0250E9_029491),
  (0x2D4D55, 0x00899C_008846),
  (0x2D4D58, 0x004039),
  (0x2D4D5A, 0x0251E1),
  (0x2D4D5F, 0x007741),
  (0x2D4D61, 0x00775A_007764_0202BE_025228_0053E1),
  (0x2D4D67, 0x0252CD_0251C6),
  (0x2D4D6B, 0x007720_02531D_007792_0252BC_008995),
  (0x2D4D71, 0x007719_0077D9),
  (0x2D4D74, 0x0077A4),
  (0x2D4D76, 0x025312),
  (0x2D4D79, 0x008499),
  (0x2D4D7D, 0x028968_003964),
  (0x2D4E21, 0x020095),
  (0x2D4E23, 0x0253BF_006998_022B43_008EB7_00649F),
  (0x2D4E2A, 0x006C99),
  (0x2D4E2D, 0x0065AE),
  (0x2D4E2F, 0x0040B2_021CA0),
  (0x2D4E32, 0x00926E_0078AA_025417_02543A_0078C2_0254CB),
  (0x2D4E39, 0x009795),
  (0x2D4E3C, 0x0063BD_0076CC),
  (0x2D4E41, 0x0254D3_025571),
  (0x2D4E44, 0x0260E7),
  (0x2D4E48, 0x007473_0078BB_007920),
  (0x2D4E4D, 0x025510_02544A_0078E5_0040F2_0040FA),
  (0x2D4E53, 0x00587C_0071D0_0096A5_02542B),
  (0x2D4E5A, 0x00784B_00945B),
  (0x2D4E5D, 0x007805_025574_00770E_0079A9),
  (0x2D4E63, 0x00410F),
  (0x2D4E65, 0x023128_025621),
  (0x2D4E69, 0x028CFE_0256DC_02564D_0296B6_025731),
  (0x2D4E71, 0x02442B_02564A),
  (0x2D4E75, 0x007984_007A2B),
  (0x2D4E79, 0x005FA1),
  (0x2D4E7B, 0x004120_0200DE),
  (0x2D4F22, 0x003E18),
  (0x2D4F25, 0x025760_023B1C_025750),
  (0x2D4F29, 0x009F9D),
  (0x2D4F2C, 0x02583C),
  (0x2D4F37, 0x007980),
  (0x2D4F3A, 0x007A3A),
  (0x2D4F3C, 0x005041_007A5C_007A3E_005BB6),
  (0x2D4F41, 0x004E69),
  (0x2D4F44, 0x027090_009834_007526),
  (0x2D4F48, 0x007A42_007A6F_008589_00802F_02162B_020549_02592F_005B86_00787F_0041A4),
  (0x2D4F54, 0x004197),
  (0x2D4F57, 0x004FB0_0211EA_007255_0259CA),
  (0x2D4F5C, 0x007A90),
  (0x2D4F5E, 0x007AB0_007AC6),
  (0x2D4F61, 0x02593E_025A12_025A50),
  (0x2D4F66, 0x025A60),
  (0x2D4F68, 0x008E06),
  (0x2D4F6A, 0x008011_007AF8),
  (0x2D4F6E, 0x02353C_025AE1),
  (0x2D4F73, 0x0082D0_003913_0285F9_02361C_024BDB),
  (0x2D4F79, 0x00831F_0044C1),
  (0x2D4F7C, 0x007B5E),
  (0x2D4F7E, 0x0089D4),
  (0x2D5021, 0x025CE6),
  (0x2D5023, 0x007563),
  (0x2D5027, 0x007B66_008584),
  (0x2D502A, 0x025BA0_00693E_007B6D_007B5D),
  (0x2D502F, 0x007FE6_007B35),
  (0x2D5032, 0x008474),
  (0x2D5034, 0x008483),
  (0x2D5036, 0x0084D1_003C0F),
  (0x2D5039, 0x00450D),
  (0x2D503D, 0x00851F),
  (0x2D5040, 0x007AFC),
  (0x2D5042, 0x007C18_007C2E),
  (0x2D5046, 0x007C44),
  (0x2D504C, 0x005170),
  (0x2D504E, 0x025DF8_007C58),
  (0x2D5052, 0x007C56_00863A),
  (0x2D5056, 0x021B5D),
  (0x2D5058, 0x0296B7_0089D5_025EC6_025E9E),
  (0x2D505D, 0x007A02_007A09_007CC9),
  (0x2D5061, 0x004292_00992C_007CDB_00993B_025E7A_02A396),
  (0x2D506A, 0x003FF7),
  (0x2D506C, 0x007A64_0221AF_022074_007CFA_025FD3_0292F0),
  (0x2D5073, 0x025FA0_0208E9_025FA8),
  (0x2D5079, 0x0069A1),
  (0x2D507D, 0x025F91_009775),
  (0x2D5121, 0x02601F),
  (0x2D5124, 0x005E0B_00390B_00977D),
  (0x2D5128, 0x007D8D_007D25_007DA4),
  (0x2D512C, 0x025FF3_02927C_007D6B),
  (0x2D5130, 0x0239E9_007D82),
  (0x2D5133, 0x0072E8_02168C),
  (0x2D5136, 0x025FA1_003503_0260C5_0220C1),
  (0x2D513B, 0x00856C_026007_006346),
  (0x2D513F, 0x007DCC_0261AB),
  (0x2D5143, 0x007D84_0260B3),
  (0x2D5146, 0x0276B0_0260B6_0034BA_004309_006DD6),
  (0x2D514C, 0x00F93E_007D2C),
  (0x2D514F, 0x007DDC_025FD1),
  (0x2D5155, 0x007DD6_006937),
  (0x2D5158, 0x00506E_0261FB),
  (0x2D515C, 0x007D64),
  (0x2D5162, 0x007D28),
  (0x2D5165, 0x026132_0052E3),
  (0x2D5169, 0x02614D_007DB3_004313_007D98_0060E3_0260B5_007E70),
  (0x2D5171, 0x007D95_007E4D),
  (0x2D5174, 0x026196_005092_0260F0_008812),
  (0x2D5179, 0x007E62),
  (0x2D517D, 0x007D99_007DFE),
  (0x2D5221, 0x008CE1),
  (0x2D5224, 0x00432B),
  (0x2D5228, 0x009262),
  (0x2D522A, 0x0058DC_009475_004351_020540),
  (0x2D522F, 0x0262E7_0262D8_0262DA_008FA0_007F78_00508C),
  (0x2D5236, 0x026310_026334_00898A_008288_007F97_007F99_0263E0_0267E4_009EA2),
  (0x2D5240, 0x007FA1_007FA3),
  (0x2D5244, 0x0263C1_007FB4),
  (0x2D5248, 0x0263F2_0223D8_007FC4_02951A_007FCA),
  (0x2D524F, 0x009D39_02642C_02641C),
  (0x2D5253, 0x009E10),
  (0x2D5255, 0x02648B),
  (0x2D5257, 0x0263F5),
  (0x2D5259, 0x0098DC_0264A2_003FE2_020223_006537_0264BF),
  (0x2D5261, 0x021B2A),
  (0x2D5264, 0x025777_0079D0),
  (0x2D5267, 0x0079CF_0043A3),
  (0x2D526B, 0x007085_008EAD_02657C_004832),
  (0x2D5270, 0x005A09),
  (0x2D5273, 0x0265F7),
  (0x2D5276, 0x008066_00806E_008EC4),
  (0x2D527B, 0x0265DF),
  (0x2D5321, 0x007C9B_008088_005B8D_0267EF_00866E_02663B),
  (0x2D5328, 0x0043D4_007598_004417_004FCF_006BD3_029A23_026683),
  (0x2D5330, 0x0080D1_02665B_0053B7_00808E_026676_022A4C_026669_0043D2_027D99_008ADD),
  (0x2D533B, 0x029476_026769),
  (0x2D533E, 0x004F37_0056FC_00812C),
  (0x2D5344, 0x008107),
  (0x2D534B, 0x0080F7_0267DD_008847),
  (0x2D534F, 0x00917A),
  (0x2D5351, 0x020F09_0202DB_026675_0247C4),
  (0x2D5357, 0x023A47),
  (0x2D5359, 0x00762C_006B84_026709_0267AC_02676B_008193_0080DC),
  (0x2D5361, 0x00811A),
  (0x2D5365, 0x0266C1_026736),
  (0x2D5368, 0x008E46),
  (0x2D536B, 0x005380_026827_006186),
  (0x2D536F, 0x0267E6_00994D),
  (0x2D5373, 0x008090_029AA0_007670),
  (0x2D5378, 0x007651),
  (0x2D537A, 0x0077BC_009C60_02A5C7),
  (0x2D537E, 0x0081C8),
  (0x2D5421, 0x009AD7_0081E7_022617_005367),
  (0x2D5426, 0x02823B),
  (0x2D5428, 0x0081F0_026933),
  (0x2D542B, 0x0213B2_026947),
  (0x2D542F, 0x02695D_00644F),
  (0x2D5433, 0x0034B7_0064E7_026F94),
  (0x2D5437, 0x0269F6_0054B6_0042E1),
  (0x2D543B, 0x008E33_02143C_023133_02335D),
  (0x2D5440, 0x006841),
  (0x2D5445, 0x004468_008229_00824A_026A85),
  (0x2D544A, 0x004ED3),
  (0x2D544C, 0x003AD4_021C29_0056CF),
  (0x2D5450, 0x003637_02A301_00828C_0083C2),
  (0x2D5455, 0x00829D),
  (0x2D5457, 0x0082BD),
  (0x2D545B, 0x00852A_0084AD_0082B2_0044C5),
  (0x2D5461, 0x008306),
  (0x2D5466, 0x00846D_006949_006959_026C52_021A48_005040),
  (0x2D546D, 0x008626_0083ED_0083C0_0083E2),
  (0x2D5476, 0x008318_0081F6_008278),
  (0x2D5521, 0x005179),
  (0x2D5524, 0x00838F_026E2F_026F0D),
  (0x2D5529, 0x00830E),
  (0x2D552B, 0x026C64),
  (0x2D552D, 0x008358_0082FA_026F67),
  (0x2D5531, 0x0083CF_008336_0085E1_0082F9),
  (0x2D5537, 0x00852B),
  (0x2D5539, 0x026B42),
  (0x2D553C, 0x026F93),
  (0x2D553E, 0x008506_0083BE_00844A_0091D0),
  (0x2D5543, 0x026D7C),
  (0x2D5545, 0x0084FB_026EE5_00837D_026EE6),
  (0x2D554A, 0x008515_008432_006951),
  (0x2D554E, 0x007740),
  (0x2D5550, 0x00585F),
  (0x2D5553, 0x008512_00855A),
  (0x2D5557, 0x00856B_0082E9_008330_008386_008385),
  (0x2D555E, 0x007A38),
  (0x2D5560, 0x004509_0076D6),
  (0x2D5563, 0x026E88),
  (0x2D5565, 0x004512),
  (0x2D5567, 0x0082B2),
  (0x2D556C, 0x0082D3),
  (0x2D556E, 0x005ED5),
  (0x2D5570, 0x026E11),
  (0x2D5572, 0x023796_0083D4_008391),
  (0x2D5576, 0x00862F_006A64),
  (0x2D557A, 0x0270B1),
  (0x2D5622, 0x004525_008FA5_008441),
  (0x2D5626, 0x008620),
  (0x2D562C, 0x0084A3_026D2D_008024_00860D),
  (0x2D5631, 0x0057F6_0068F7_004568_006FAB_00846F_0085BB),
  (0x2D563B, 0x0085B2_008613_027127_006B17_006A97),
  (0x2D5643, 0x00865D),
  (0x2D564D, 0x00459D_02090B_02722C),
  (0x2D5651, 0x02731F_008689_004606_027220),
  (0x2D5657, 0x027249),
  (0x2D565D, 0x0273CF),
  (0x2D5661, 0x009F03_0274F3_008698_009F04_0272A7),
  (0x2D5667, 0x02735B_0086B3_02A4E7),
  (0x2D566B, 0x00880B_0045B8_02737F_00882D),
  (0x2D5670, 0x0045A4_0045CC),
  (0x2D5673, 0x027380_0272A4_009F05),
  (0x2D5678, 0x008728),
  (0x2D567A, 0x027382_008717_0274A2_027397),
  (0x2D5724, 0x0274CC),
  (0x2D5726, 0x00701C),
  (0x2D5729, 0x027353_0273C5_008797_006F0F_008748),
  (0x2D5730, 0x0087C7_008785_027463_00459D_0087FA),
  (0x2D573B, 0x0060F7_0274FD_0045CD_0045F6),
  (0x2D5740, 0x008799),
  (0x2D5742, 0x027596),
  (0x2D5749, 0x00885E_027602),
  (0x2D574C, 0x005FC2),
  (0x2D574E, 0x00495A_02A2AC),
  (0x2D5752, 0x0212AE_007E17),
  (0x2D5757, 0x008962_00890E),
  (0x2D575A, 0x005E12_00886E_02769D_027669),
  (0x2D575F, 0x003C9A_005E2C_02768D_022F4A_0088E1),
  (0x2D5765, 0x02768C),
  (0x2D5767, 0x0088BF),
  (0x2D576A, 0x008901),
  (0x2D576C, 0x0276B3),
  (0x2D5770, 0x027730_007DE5_0088D2_007D5D),
  (0x2D5776, 0x02769C_00465D),
  (0x2D5779, 0x007E37),
  (0x2D577B, 0x007D1F),
  (0x2D577E, 0x007E7F),
  (0x2D5821, 0x025FC9),
  (0x2D5824, 0x0038B4_020F85),
  (0x2D5827, 0x008984),
  (0x2D5829, 0x004093),
  (0x2D582B, 0x02516D_005A87),
  (0x2D582F, 0x02789A),
  (0x2D5831, 0x0089A7),
  (0x2D5833, 0x00752A),
  (0x2D5835, 0x0288A9_0089E6_022357),
  (0x2D583F, 0x0046B2_0046DC_027977_004F82),
  (0x2D5844, 0x006618_0279BE),
  (0x2D5847, 0x027A23),
  (0x2D584A, 0x008B4C_0279E1),
  (0x2D584D, 0x00548F),
  (0x2D584F, 0x0046D0),
  (0x2D5855, 0x027992_00612C_0279BD_027A6B),
  (0x2D585B, 0x005F0F_027973),
  (0x2D5861, 0x027962),
  (0x2D5863, 0x008B09),
  (0x2D5865, 0x027A5B_0046E1),
  (0x2D5868, 0x008A3D_0279D8),
  (0x2D586B, 0x0046FA),
  (0x2D586F, 0x008A88_008A12),
  (0x2D5873, 0x02234E_007F91_027976_027A0F_027A7D_00501E),
  (0x2D587B, 0x022495),
  (0x2D5921, 0x008B87_003AFF),
  (0x2D5925, 0x008ADF_0279D1_008ACC),
  (0x2D592B, 0x005463),
  (0x2D592D, 0x008B02),
  (0x2D592F, 0x027A60_02F9D0_027A42_0055DB_008A78),
  (0x2D5935, 0x008A64),
  (0x2D5938, 0x027B04),
  (0x2D593C, 0x02797E_008AE9_0077DE),
  (0x2D5940, 0x0287E9_005629),
  (0x2D5944, 0x02842B_004718_027B33),
  (0x2D594B, 0x02249B_008B72_00471F_00471B_008B83_021D7E),
  (0x2D5952, 0x0078CE),
  (0x2D5955, 0x004735_027BE1_007AEA_027BEE_008277_003E60_024262_003E56_00512B),
  (0x2D595F, 0x00732A_0072B2_0072B3_009F26_008C98_027CC7_0072F8_008C87),
  (0x2D5968, 0x006896),
  (0x2D596A, 0x005069),
  (0x2D596C, 0x0034B2_027D69_022FD2),
  (0x2D5971, 0x0219CB_027DB6),
  (0x2D5974, 0x005F0D),
  (0x2D5976, 0x02F9D5),
  (0x2D5978, 0x00477F),
  (0x2D597A, 0x027E52_026967),
  (0x2D597D, 0x008CA3_027DBB),
  (0x2D5A22, 0x027DD5_027D6A_027D4E_027D85),
  (0x2D5A27, 0x004EFB_027E1A_0259E8),
  (0x2D5A2B, 0x008CD6),
  (0x2D5A30, 0x008D12),
  (0x2D5A33, 0x027DBD_008CAD_027DB4_0294CB),
  (0x2D5A38, 0x027E16_027E06_027E0A_027E11_008D17_008CDB),
  (0x2D5A3F, 0x008078_008CCD),
  (0x2D5A42, 0x02F9D6_02418D_027E5E_022F1C_007103),
  (0x2D5A48, 0x008D71),
  (0x2D5A4A, 0x027E87),
  (0x2D5A4C, 0x008DAB),
  (0x2D5A4E, 0x008D82),
  (0x2D5A54, 0x020BC1_00722C_0047D6_027FF6_006B6B_028235),
  (0x2D5A5B, 0x008DDA),
  (0x2D5A5D, 0x028013),
  (0x2D5A5F, 0x008E5F),
  (0x2D5A63, 0x008DE5),
  (0x2D5A66, 0x028119),
  (0x2D5A6B, 0x028175_008DF4_008E36_008E4F_02801F),
  (0x2D5A73, 0x006B71),
  (0x2D5A77, 0x005FAF_0280DF_008E27),
  (0x2D5A7C, 0x008EA6),
  (0x2D5A7E, 0x008E7B),
  (0x2D5B21, 0x008E77_0281AF_0280A7_028176_0239A1_00867F_028103),
  (0x2D5B2A, 0x008E62),
  (0x2D5B2C, 0x007584_021C2C),
  (0x2D5B2F, 0x008EB1),
  (0x2D5B31, 0x02822C_008397),
  (0x2D5B34, 0x0208DE_02844D_0084D2_008ED4_008F2D_008EF6),
  (0x2D5B3B, 0x028307),
  (0x2D5B3D, 0x004848_004848_024C71_0283D1_004FCC_008F19_008EFD),
  (0x2D5B45, 0x02837B),
  (0x2D5B48, 0x00711C_008EF0),
  (0x2D5B4C, 0x003F6C),
  (0x2D5B4E, 0x02F9DF),
  (0x2D5B50, 0x0255F7),
  (0x2D5B54, 0x0283E3),
  (0x2D5B56, 0x0283CF),
  (0x2D5B58, 0x008F37),
  (0x2D5B5A, 0x02840C_022ABF_020233_008FA2_008FA7),
  (0x2D5B60, 0x008FA4),
  (0x2D5B62, 0x020A5F),
  (0x2D5B65, 0x008FC3),
  (0x2D5B67, 0x028477_028450_005EF5_0284A6_02394D_0224C9_0048A4_028523),
  (0x2D5B70, 0x028505_009008),
  (0x2D5B73, 0x024F50_0284F5),
  (0x2D5B76, 0x0284B2_0284C6_005EFC_005EFD_008FEF),
  (0x2D5B7E, 0x028611),
  (0x2D5C23, 0x009070_006D5F),
  (0x2D5C27, 0x022325_0224F6_008241_0047AC),
  (0x2D5C2C, 0x009037),
  (0x2D5C2F, 0x008FE8_02862B),
  (0x2D5C34, 0x02852A_009030_02851E),
  (0x2D5C39, 0x028536),
  (0x2D5C3B, 0x00506A),
  (0x2D5C3F, 0x005FA7_005FA8_008E32_008E30_0089AF_00903A_00613B),
  (0x2D5C47, 0x0284E7_009013_0285C1_0285A5_0285EF),
  (0x2D5C4D, 0x0285D5_028589),
  (0x2D5C51, 0x0062EA_0222BB_028624_02257E),
  (0x2D5C56, 0x02865A),
  (0x2D5C5A, 0x008FE9_009089_028636),
  (0x2D5C5E, 0x0211C3_021FF7_0035A0),
  (0x2D5C62, 0x00887A_0090BD),
  (0x2D5C65, 0x0286AC_02868F_028765),
  (0x2D5C69, 0x0286BC_0286E6_0090F6_00588E_028784_0286F7_028EA8_00910A_0286C4),
  (0x2D5C74, 0x0096A3),
  (0x2D5C77, 0x00966C_004E23),
  (0x2D5C7E, 0x0048F4),
  (0x2D5D21, 0x004F44_0288AD_009167_004F72_020107_028880_0288BD),
  (0x2D5D2A, 0x02882A_0288CB),
  (0x2D5D2D, 0x028820),
  (0x2D5D2F, 0x009196),
  (0x2D5D31, 0x006BC9_0287FB),
  (0x2D5D35, 0x00820B),
  (0x2D5D3A, 0x007DDF),
  (0x2D5D3D, 0x02892D),
  (0x2D5D3F, 0x00937C_004E01),
  (0x2D5D42, 0x02894F),
  (0x2D5D45, 0x00921F),
  (0x2D5D47, 0x028AB7_00491C_003EB2),
  (0x2D5D4C, 0x009281_028969_004224),
  (0x2D5D53, 0x009449_028979_009206_00920E),
  (0x2D5D5A, 0x0091D9),
  (0x2D5D5D, 0x008A7A),
  (0x2D5D60, 0x007842_005563_0091E8_005397),
  (0x2D5D65, 0x008216),
  (0x2D5D67, 0x009462_008021_0093C3_0093E0),
  (0x2D5D6F, 0x005252),
  (0x2D5D71, 0x0093A0),
  (0x2D5D73, 0x0093F3_009332),
  (0x2D5D79, 0x009473_0034F6),
  (0x2D5D7C, 0x00921B),
  (0x2D5E21, 0x009418_00939A_00936B_007145),
  (0x2D5E26, 0x007194_0093AD_0093C1),
  (0x2D5E2A, 0x00495B),
  (0x2D5E2C, 0x009349),
  (0x2D5E2E, 0x0092DC_0206BF_0092B5),
  (0x2D5E34, 0x0093E4_028B5C_028B5E_022413_009221),
  (0x2D5E3A, 0x00938C_0092B9),
  (0x2D5E3D, 0x0092E8),
  (0x2D5E40, 0x009275),
  (0x2D5E42, 0x00946C_0092F3_00942E_028C24),
  (0x2D5E4A, 0x00945A),
  (0x2D5E4C, 0x009578),
  (0x2D5E4E, 0x0237F4),
  (0x2D5E50, 0x009587),
  (0x2D5E52, 0x00499E),
  (0x2D5E54, 0x009592),
  (0x2D5E56, 0x028CE1_007250),
  (0x2D5E5A, 0x028DF7_0095A4),
  (0x2D5E60, 0x028D41_006FF6),
  (0x2D5E64, 0x005E37),
  (0x2D5E69, 0x00959E_028D01_028D14),
  (0x2D5E6D, 0x027BAE_0057C5_006C6C_028E18_005C85_005768_007317),
  (0x2D5E75, 0x00577F_028E4E),
  (0x2D5E78, 0x028E5F),
  (0x2D5E7A, 0x005BCF_005866_003644_009627_028E4A),
  (0x2D5F21, 0x004F59),
  (0x2D5F24, 0x005774_00740C),
  (0x2D5F28, 0x009665_029AEB_0290EC_028EB5_005826_00964F_00661C_005823_028E9A),
  (0x2D5F32, 0x009628),
  (0x2D5F34, 0x021B74_0078D2_007795),
  (0x2D5F38, 0x00716B_009040_005DAE_0096A0_005DC3_028F80_028F8F_004CB5_029FC7_0096E5_0049FA_009CEB),
  (0x2D5F44, 0x009D09_0096DD_0096BD_02A069),
  (0x2D5F49, 0x028F86_027227_0096D1_009DC4_009DB5),
  (0x2D5F4F, 0x02900C_029021_003CBE_004A2E),
  (0x2D5F54, 0x026906_0290E1),
  (0x2D5F57, 0x02915F_009717_0264D4),
  (0x2D5F5B, 0x004A2D),
  (0x2D5F62, 0x021F9C_00873A),
  (0x2D5F66, 0x004A19_0096FA_0277F6_007915),
  (0x2D5F6C, 0x004A2A_004A20_005386_00971B_0215E1),
  (0x2D5F72, 0x02A4AE_00975A),
  (0x2D5F75, 0x0291F8_005298_009763_025205_029242),
  (0x2D5F7C, 0x0097BE),
  (0x2D6021, 0x00978C_0097B5_0292B3_0097A9_008E18_0263A4_007DE7_02933B),
  (0x2D602A, 0x007E6E),
  (0x2D602D, 0x00976D),
  (0x2D602F, 0x0097B1_0097EE),
  (0x2D6032, 0x0066B2),
  (0x2D6034, 0x003C88),
  (0x2D6036, 0x0035FD_02944B_029486_0294B5),
  (0x2D603B, 0x003967),
  (0x2D603D, 0x029553),
  (0x2D6041, 0x00653D_02951C_02947C),
  (0x2D6046, 0x025616_008125),
  (0x2D6049, 0x029524_00983A_00981C_0268DE),
  (0x2D604F, 0x00981F),
  (0x2D6051, 0x004AF7),
  (0x2D6053, 0x02676D),
  (0x2D6056, 0x00980B),
  (0x2D6058, 0x029530_02953A_029593),
  (0x2D605F, 0x0295D7_004B17),
  (0x2D6063, 0x00871A_029681_02968E_02968F_02968A),
  (0x2D6069, 0x0043D5),
  (0x2D606B, 0x0098F0),
  (0x2D606D, 0x004B2E_0296CA_00991D),
  (0x2D6071, 0x0098EC_0038BD_02970B_0098E1_009927),
  (0x2D6078, 0x009920_008218_004B3B_00992B),
  (0x2D6121, 0x02972F),
  (0x2D6123, 0x02A369_029719),
  (0x2D6126, 0x0297B9),
  (0x2D6128, 0x029810_00858C_029851),
  (0x2D612D, 0x006DDC),
  (0x2D6130, 0x004B7E),
  (0x2D6132, 0x0099EE),
  (0x2D6134, 0x0099DE),
  (0x2D6139, 0x004B9B),
  (0x2D613B, 0x0099F4_0299BC_0299E2),
  (0x2D613F, 0x004B81),
  (0x2D6141, 0x009A17_02991D_004BBF_0099E6),
  (0x2D6146, 0x0299D9_0099C8),
  (0x2D6149, 0x009A58),
  (0x2D614C, 0x0099B9_009A10_009A36),
  (0x2D6153, 0x029A3A),
  (0x2D6156, 0x004BD0),
  (0x2D6159, 0x009AC4_008EC6_0299A6_009AD9),
  (0x2D6161, 0x00983F_009A0C_004BF3_023B23_004C05_009B02),
  (0x2D6168, 0x0215DA_029C13_006B1D_004C1B),
  (0x2D6173, 0x003C58_029D4B_02A424),
  (0x2D617B, 0x009BCB_029F06),
  (0x2D617E, 0x004C7D),
  (0x2D6222, 0x009C0C_009C02),
  (0x2D6225, 0x009BE4),
  (0x2D6228, 0x029EB4_009C53),
  (0x2D622B, 0x009C65_009F08_009C10_009B72),
  (0x2D6230, 0x004CA5_004CD2),
  (0x2D6233, 0x009D0C_004CB4_009D76_009125_0049F8_02A057),
  (0x2D623B, 0x004D12_004CA8_0049FB_028FA5_004CCC_0049FC_009D5E_02A1BE_0049FF),
  (0x2D6245, 0x02A0A1_009E16),
  (0x2D6248, 0x029018),
  (0x2D624A, 0x004CFC),
  (0x2D624C, 0x028FF3_029050_004A09),
  (0x2D6250, 0x00918E_005869_0078B1_022256_02A2A8),
  (0x2D6256, 0x020019),
  (0x2D6258, 0x003BDF_02A2E7_009E90),
  (0x2D625C, 0x009EB1_009EAF_007CC6_0083FB_005E85),
  (0x2D6262, 0x009EC4_0257AB),
  (0x2D6265, 0x007C98_02A42B),
  (0x2D6268, 0x00569C_009EDA_00594C_003518_009EF1),
  (0x2D626F, 0x0048E3_02A4A0_02A45B),
  (0x2D6273, 0x02A4F6_009F11_0076B7_003C87_027BFF),
  (0x2D6279, 0x004D87_005043),
  (0x2D627D, 0x004E9D_00658B),
  (0x2D6321, 0x020692),
  (0x2D6325, 0x003E27),
  (0x2D6329, 0x00480E_004D9A_005C28),
  (0x2D632D, 0x004E80),
  (0x2D6426, 0x02002C),
  (0x2D642A, 0x0224A5),
  (0x2D642C, 0x022A66_021D00_00535D),
  (0x2D6436, 0x005208),
  (0x2D6444, 0x0200F8_020108),
  (0x2D6447, 0x00373F),
  (0x2D6451, 0x020575_020162),
  (0x2D645A, 0x0204DB),
  (0x2D645E, 0x0201B0),
  (0x2D646B, 0x003439),
  (0x2D646E, 0x020201_009B12),
  (0x2D6523, 0x004EE6),
  (0x2D652B, 0x0201F4),
  (0x2D6531, 0x00602D),
  (0x2D654F, 0x0224D8),
  (0x2D656C, 0x020208),
  (0x2D656E, 0x020256),
  (0x2D6571, 0x0202AB_0224E0),
  (0x2D6577, 0x004F35),
  (0x2D6628, 0x025673),
  (0x2D6632, 0x0201BB_0203EC),
  (0x2D6637, 0x0202FC),
  (0x2D663F, 0x0224EC_02026B),
  (0x2D6642, 0x0202FF),
  (0x2D6646, 0x0052CD),
  (0x2D664D, 0x008CE7_00507C),
  (0x2D6652, 0x0039FC_02039E),
  (0x2D6655, 0x020431),
  (0x2D6657, 0x02250B),
  (0x2D6661, 0x00501C),
  (0x2D6666, 0x02036C),
  (0x2D6674, 0x020206),
  (0x2D6722, 0x00394B),
  (0x2D6726, 0x0203B2),
  (0x2D6728, 0x00504B),
  (0x2D672E, 0x0050F7),
  (0x2D6731, 0x0203A1),
  (0x2D673C, 0x006122),
  (0x2D6742, 0x022518),
  (0x2D6746, 0x02036E),
  (0x2D674D, 0x005EA4),
  (0x2D6753, 0x004FF2),
  (0x2D6755, 0x00347D),
  (0x2D6765, 0x023BCF),
  (0x2D676B, 0x005AB0_020320_020229),
  (0x2D6775, 0x020472),
  (0x2D6777, 0x023A52),
  (0x2D677A, 0x0203BC),
  (0x2D677C, 0x0075C0),
  (0x2D6822, 0x008EC1),
  (0x2D6824, 0x023351),
  (0x2D6827, 0x026DDB),
  (0x2D6829, 0x022555_0202F1),
  (0x2D682F, 0x022547),
  (0x2D683A, 0x0050E9_0202A8_0202A9),
  (0x2D6844, 0x020377),
  (0x2D6859, 0x004840_0202FD),
  (0x2D6866, 0x02041B),
  (0x2D686A, 0x005062),
  (0x2D6872, 0x003497),
  (0x2D6878, 0x020427),
  (0x2D6928, 0x020433),
  (0x2D6931, 0x003735),
  (0x2D6939, 0x0203EA),
  (0x2D693D, 0x02958E_021925),
  (0x2D6944, 0x02964E),
  (0x2D6949, 0x0050AB_02297E),
  (0x2D694D, 0x0277E3),
  (0x2D6958, 0x0099EA),
  (0x2D6967, 0x00518B),
  (0x2D696E, 0x0211BE),
  (0x2D6970, 0x026012),
  (0x2D6972, 0x02780A),
  (0x2D6A22, 0x005196),
  (0x2D6A4F, 0x0205C3),
  (0x2D6A58, 0x0205B8),
  (0x2D6A5E, 0x0205E7),
  (0x2D6A6B, 0x022480),
  (0x2D6A6E, 0x0051F4),
  (0x2D6B21, 0x0206B3),
  (0x2D6B24, 0x003774),
  (0x2D6B26, 0x027FC1),
  (0x2D6B28, 0x005209_0206C9),
  (0x2D6B2D, 0x0073B7_0206B8_0206A5),
  (0x2D6B33, 0x0206DD),
  (0x2D6B37, 0x020765),
  (0x2D6B39, 0x0206D2),
  (0x2D6B3F, 0x027BE0_02071F),
  (0x2D6B43, 0x020790),
  (0x2D6B4A, 0x0230A7_0289EB_0207CF_0230A6),
  (0x2D6B53, 0x00480A),
  (0x2D6B59, 0x02A471),
  (0x2D6B5F, 0x005273),
  (0x2D6B62, 0x028A39_00728D_0206EE),
  (0x2D6B69, 0x005253),
  (0x2D6B6B, 0x029839_0093C2),
  (0x2D6B6F, 0x029F97),
  (0x2D6B72, 0x0207FD),
  (0x2D6B74, 0x02073E),
  (0x2D6C21, 0x0287B3_020800_02081B),
  (0x2D6C2B, 0x0065B8),
  (0x2D6C30, 0x0208A5),
  (0x2D6C33, 0x0059B7),
  (0x2D6C35, 0x00595F_02088F_02477F),
  (0x2D6C3B, 0x006555),
  (0x2D6C46, 0x0050F6),
  (0x2D6C4B, 0x020892),
  (0x2D6C4D, 0x0052CE),
  (0x2D6C4F, 0x0208C3),
  (0x2D6C53, 0x02086B_0061A0),
  (0x2D6C5C, 0x003527_0208BF),
  (0x2D6C63, 0x0052FA_022725),
  (0x2D6C6B, 0x02F82A),
  (0x2D6C6E, 0x026951),
  (0x2D6C74, 0x020905_00530F),
  (0x2D6C77, 0x005314),
  (0x2D6C7C, 0x0208EE),
  (0x2D6D23, 0x02092C),
  (0x2D6D26, 0x007B32),
  (0x2D6D2A, 0x007BCB_0084E7),
  (0x2D6D32, 0x020966),
  (0x2D6D34, 0x007C62),
  (0x2D6D36, 0x006ADD),
  (0x2D6D39, 0x025083),
  (0x2D6D47, 0x0209A3),
  (0x2D6D4C, 0x0209EA),
  (0x2D6D52, 0x00536A_020A10),
  (0x2D6D5C, 0x020A1C),
  (0x2D6D5E, 0x005388),
  (0x2D6D60, 0x00782C),
  (0x2D6D65, 0x005EA1_006DAF_005EA2),
  (0x2D6D6B, 0x020A66),
  (0x2D6D76, 0x020AAA),
  (0x2D6E23, 0x023F5E_005DAC),
  (0x2D6E3D, 0x020B25),
  (0x2D6E3F, 0x020B5E),
  (0x2D6E48, 0x020B4A),
  (0x2D6E4A, 0x00654D),
  (0x2D6E4D, 0x020B6E),
  (0x2D6E52, 0x020B78_00777F),
  (0x2D6E59, 0x003564),
  (0x2D6E5D, 0x023881),
  (0x2D6E75, 0x020D34),
  (0x2D6F24, 0x02814C_024BC1),
  (0x2D6F27, 0x005422),
  (0x2D6F31, 0x0055F6),
  (0x2D6F37, 0x020CF7),
  (0x2D6F40, 0x00357A_020BCD),
  (0x2D6F44, 0x020C1D),
  (0x2D6F4B, 0x020D01),
  (0x2D6F50, 0x020BDE),
  (0x2D6F52, 0x02389C),
  (0x2D6F55, 0x005412),
  (0x2D6F57, 0x020C19),
  (0x2D6F59, 0x008219),
  (0x2D6F60, 0x02A5EB),
  (0x2D6F66, 0x0035BE),
  (0x2D6F68, 0x005559_00558E),
  (0x2D6F70, 0x00357C),
  (0x2D6F7D, 0x008123),
  (0x2D7024, 0x020DBA),
  (0x2D7027, 0x020EEF),
  (0x2D702B, 0x0046DF),
  (0x2D702D, 0x020D72),
  (0x2D7030, 0x020F15),
  (0x2D7032, 0x00549E),
  (0x2D703B, 0x0055FA),
  (0x2D7044, 0x005515),
  (0x2D7048, 0x005502),
  (0x2D7051, 0x020D3F),
  (0x2D7055, 0x020D52),
  (0x2D7058, 0x020D43),
  (0x2D705A, 0x00558B),
  (0x2D7061, 0x008ACE),
  (0x2D7064, 0x020D42),
  (0x2D7068, 0x020D2A),
  (0x2D706A, 0x00560A_020D75),
  (0x2D7074, 0x020CC1),
  (0x2D7079, 0x005552),
  (0x2D7123, 0x00567E),
  (0x2D7126, 0x0054F4_0279D1),
  (0x2D712B, 0x02F848),
  (0x2D713C, 0x020C5C),
  (0x2D7140, 0x003584_02680D),
  (0x2D7143, 0x0055E2_020DF8),
  (0x2D7149, 0x0279CF),
  (0x2D714F, 0x020D2F),
  (0x2D7152, 0x005663),
  (0x2D7155, 0x020E5E),
  (0x2D7158, 0x021050),
  (0x2D715A, 0x005481),
  (0x2D7162, 0x0035C6_020F62_0055D4_0238FA),
  (0x2D7168, 0x02103A),
  (0x2D7172, 0x020FCC),
  (0x2D7177, 0x020DC3),
  (0x2D717D, 0x0035CC),
  (0x2D7225, 0x005696),
  (0x2D722B, 0x008B30),
  (0x2D7230, 0x0035D4_02113A),
  (0x2D7235, 0x021012_0035E4),
  (0x2D7239, 0x005487),
  (0x2D723D, 0x020EF6),
  (0x2D723F, 0x0054F8_0210A2),
  (0x2D724F, 0x0055AB),
  (0x2D7255, 0x020D70),
  (0x2D7259, 0x02117F),
  (0x2D7264, 0x006B3C),
  (0x2D726E, 0x0055C8),
  (0x2D7327, 0x02117C),
  (0x2D7335, 0x0297D3),
  (0x2D733D, 0x003615),
  (0x2D7340, 0x005667),
  (0x2D7342, 0x020F7A),
  (0x2D7344, 0x020BAC_0056D3),
  (0x2D7348, 0x004720_00478B),
  (0x2D734B, 0x00567D),
  (0x2D734E, 0x0077C9),
  (0x2D735A, 0x004FC8),
  (0x2D735F, 0x02115B),
  (0x2D7361, 0x021090),
  (0x2D7364, 0x003613_005571),
  (0x2D736C, 0x0056E1),
  (0x2D736F, 0x00361D_0267A4),
  (0x2D7376, 0x003625),
  (0x2D7424, 0x021239),
  (0x2D7428, 0x005709_008C62_005713),
  (0x2D7436, 0x009A5B),
  (0x2D7438, 0x021222),
  (0x2D743E, 0x004D7A),
  (0x2D7441, 0x0058A3),
  (0x2D7449, 0x005731_02128A_005732_02125B),
  (0x2D745E, 0x005751),
  (0x2D7460, 0x0057BC),
  (0x2D7464, 0x00965B),
  (0x2D7466, 0x0057A0_005C85),
  (0x2D7469, 0x00574B),
  (0x2D746E, 0x025927),
  (0x2D7473, 0x00587B),
  (0x2D7476, 0x0097AB),
  (0x2D7479, 0x009678),
  (0x2D747C, 0x0058A2),
  (0x2D7525, 0x005E97_005182),
  (0x2D7528, 0x005720),
  (0x2D7532, 0x02126C),
  (0x2D7535, 0x00362D),
  (0x2D7539, 0x005832_009654),
  (0x2D753F, 0x028F11),
  (0x2D7542, 0x02F856),
  (0x2D7545, 0x0213B1),
  (0x2D7548, 0x028E42),
  (0x2D754D, 0x0212DD_009652),
  (0x2D7550, 0x00579C),
  (0x2D7552, 0x00579B),
  (0x2D7557, 0x004F10),
  (0x2D755C, 0x00365A),
  (0x2D7561, 0x0213B9),
  (0x2D7568, 0x021367),
  (0x2D756B, 0x00705E),
  (0x2D756E, 0x00573C),
  (0x2D757D, 0x005776),
  (0x2D7622, 0x0057F2),
  (0x2D762C, 0x021390),
  (0x2D762F, 0x0291ED),
  (0x2D7631, 0x0254CF_0057C4),
  (0x2D7638, 0x009696),
  (0x2D763D, 0x02F853),
  (0x2D7643, 0x005944),
  (0x2D7646, 0x024B5B),
  (0x2D7654, 0x0057E5),
  (0x2D7656, 0x02599C),
  (0x2D7658, 0x00586A),
  (0x2D765C, 0x00966F),
  (0x2D7660, 0x007A81_005829),
  (0x2D7663, 0x022F85),
  (0x2D766C, 0x021462),
  (0x2D7671, 0x0058D6),
  (0x2D7674, 0x005D4E),
  (0x2D7678, 0x021447),
  (0x2D7723, 0x005856),
  (0x2D7726, 0x02144A),
  (0x2D772D, 0x026515),
  (0x2D7735, 0x00589D),
  (0x2D773D, 0x006439),
  (0x2D7745, 0x0058CE),
  (0x2D774D, 0x00757B),
  (0x2D774F, 0x004703),
  (0x2D775C, 0x0049E1),
  (0x2D7765, 0x0214A3),
  (0x2D7770, 0x003662_009E75),
  (0x2D777B, 0x0058AA),
  (0x2D777E, 0x0078F0),
  (0x2D7825, 0x0078FD),
  (0x2D7829, 0x0213C3),
  (0x2D782E, 0x0058C7),
  (0x2D7830, 0x003678),
  (0x2D7832, 0x00756A),
  (0x2D7837, 0x0214B0),
  (0x2D783A, 0x005EE9),
  (0x2D7841, 0x024B9B),
  (0x2D784A, 0x02148B),
  (0x2D784C, 0x021331),
  (0x2D784F, 0x02144F_021442_003BFA_0074BD),
  (0x2D7854, 0x021477),
  (0x2D7856, 0x005743),
  (0x2D785C, 0x0058B0),
  (0x2D7869, 0x027BDB),
  (0x2D7871, 0x003689),
  (0x2D7877, 0x02A312),
  (0x2D787A, 0x022FCC),
  (0x2D7927, 0x0215CC_0053CF),
  (0x2D792A, 0x02098D),
  (0x2D792C, 0x00368F),
  (0x2D793A, 0x021609),
  (0x2D793C, 0x021605),
  (0x2D793F, 0x0215E8),
  (0x2D7941, 0x02161F),
  (0x2D7955, 0x021690),
  (0x2D7958, 0x029042),
  (0x2D795C, 0x024CE6),
  (0x2D7961, 0x0216BA_005A02_02181B),
  (0x2D7966, 0x00597A),
  (0x2D796B, 0x021900),
  (0x2D7971, 0x021734),
  (0x2D7973, 0x0036AE),
  (0x2D7977, 0x0036D4),
  (0x2D797E, 0x0216D0),
  (0x2D7A22, 0x005A39),
  (0x2D7A2D, 0x0036B3),
  (0x2D7A30, 0x0036A9),
  (0x2D7A38, 0x02199E),
  (0x2D7A3A, 0x0059EA),
  (0x2D7A3D, 0x005A49),
  (0x2D7A43, 0x00597C_00598D),
  (0x2D7A4F, 0x005AE6),
  (0x2D7A51, 0x0217A8_021729_02171D),
  (0x2D7A57, 0x0217F1),
  (0x2D7A5D, 0x0036D5_0216BE_0048BE_0216BC),
  (0x2D7A63, 0x021736),
  (0x2D7A69, 0x02174A),
  (0x2D7A6B, 0x0217A2),
  (0x2D7A6D, 0x0280E2),
  (0x2D7A71, 0x0217A1_02184F),
  (0x2D7A75, 0x005A15),
  (0x2D7A78, 0x021790),
  (0x2D7A7A, 0x006BD0_005A77),
  (0x2D7B22, 0x0217FD),
  (0x2D7B26, 0x005B49),
  (0x2D7B36, 0x005A71),
  (0x2D7B3A, 0x021791),
  (0x2D7B3E, 0x005022),
  (0x2D7B44, 0x00500E_0059CE),
  (0x2D7B48, 0x00502E),
  (0x2D7B4C, 0x0216E2_005A67),
  (0x2D7B4F, 0x005A54),
  (0x2D7B56, 0x005B35),
  (0x2D7B5E, 0x021709),
  (0x2D7B60, 0x005063_022743),
  (0x2D7B65, 0x021814),
  (0x2D7B68, 0x005B0D),
  (0x2D7B71, 0x021704),
  (0x2D7B77, 0x0059AC),
  (0x2D7B7A, 0x005989),
  (0x2D7C21, 0x0218C3_003464),
  (0x2D7C24, 0x021893),
  (0x2D7C34, 0x005A7E),
  (0x2D7C36, 0x005B00),
  (0x2D7C3F, 0x00371C),
  (0x2D7C42, 0x005B1D),
  (0x2D7C4F, 0x00599B_005B0D_0036F8),
  (0x2D7C56, 0x00919C_003473),
  (0x2D7C5E, 0x02184D),
  (0x2D7C62, 0x0218B2_02181D),
  (0x2D7C6C, 0x005B3A_0217A4_0091D0_007631),
  (0x2D7C75, 0x005AEE),
  (0x2D7C7B, 0x02189A_02181C),
  (0x2D7C7E, 0x021879),
  (0x2D7D22, 0x0218CC),
  (0x2D7D27, 0x021932_005AA0),
  (0x2D7D2A, 0x0218B4),
  (0x2D7D2D, 0x0218EB),
  (0x2D7D36, 0x021939),
  (0x2D7D38, 0x021853),
  (0x2D7D40, 0x0218F0),
  (0x2D7D47, 0x0218F1),
  (0x2D7D52, 0x021889),
  (0x2D7D54, 0x021931),
  (0x2D7D57, 0x0211F2),
  (0x2D7D59, 0x0204B0),
  (0x2D7D5B, 0x005B3B),
  (0x2D7D63, 0x005B0A),
  (0x2D7D69, 0x021761),
  (0x2D7D6D, 0x025D9E),
  (0x2D7D72, 0x0218F8),
  (0x2D7D76, 0x021808),
  (0x2D7E21, 0x021947),
  (0x2D7E2C, 0x023ACC_021966),
  (0x2D7E2F, 0x02197D_02198C_005B7D),
  (0x2D7E34, 0x0219EB),
  (0x2D7E3C, 0x0219CA),
  (0x2D7E40, 0x008569),
  (0x2D7E43, 0x027DA1),
  (0x2D7E45, 0x0219EE),
  (0x2D7E57, 0x005C45),
  (0x2D7E59, 0x0229E3),
  (0x2D7E66, 0x007A89),
  (0x2D7E68, 0x0259BD_005BD7_0051A4),
  (0x2D7E6E, 0x023F67),
  (0x2D7E72, 0x021A98_02F86E),
  (0x2D7E76, 0x0041B2),
  (0x2D7E79, 0x007AB6_021A7A),
  (0x2E2225, 0x003766),
  (0x2E2244, 0x005C20),
  (0x2E233C, 0x0037AF),
  (0x2E2358, 0x005C90),
  (0x2E235C, 0x0037B9),
  (0x2E2379, 0x005C8D),
  (0x2E2428, 0x005CDD),
  (0x2E2447, 0x0037D4),
  (0x2E2557, 0x003804),
  (0x2E255A, 0x0037FA),
  (0x2E2560, 0x003801),
  (0x2E2577, 0x003810),
  (0x2E257A, 0x005967_005D1F),
  (0x2E257E, 0x003816),
  (0x2E262E, 0x003817),
  (0x2E264B, 0x00381D),
  (0x2E267B, 0x005E32),
  (0x2E274F, 0x0220EA),
  (0x2E284C, 0x005ECF),
  (0x2E2968, 0x005F51),
  (0x2E2A36, 0x005008),
  (0x2E2B45, 0x003930),
  (0x2E2B49, 0x0060A4),
  (0x2E2B5B, 0x00605A),
  (0x2E2B71, 0x00391B),
  (0x2E2B74, 0x00609B),
  (0x2E2C35, 0x00394E),
  (0x2E2C48, 0x006FB9),
  (0x2E2C60, 0x003971),
  (0x2E2D5B, 0x003975),
  (0x2E2D79, 0x006128),
  (0x2E2E43, 0x0039A7),
  (0x2E2E5A, 0x022605),
  (0x2E2E75, 0x00399E),
  (0x2E2E78, 0x003994),
  (0x2E2E7E, 0x0039A0),
  (0x2E2F44, 0x00925E),
  (0x2E2F78, 0x0039BE),
  (0x2E2F7A, 0x006738),
  (0x2E2F7C, 0x00634D),
  (0x2E3022, 0x0062D5_00625F),
  (0x2E3028, 0x00640B),
  (0x2E3056, 0x003A00),
  (0x2E312F, 0x006306),
  (0x2E313A, 0x006332),
  (0x2E3144, 0x00651F),
  (0x2E3159, 0x006299),
  (0x2E316B, 0x006541),
  (0x2E3171, 0x0063BD_005261),
  (0x2E324C, 0x00649D),
  (0x2E3328, 0x006528),
  (0x2E334A, 0x006346),
  (0x2E337B, 0x00630E),
  (0x2E346C, 0x003A24),
  (0x2E354E, 0x003A15),
  (0x2E3551, 0x003A6C),
  (0x2E355E, 0x003A65),
  (0x2E3564, 0x003A26),
  (0x2E3570, 0x0064DC),
  (0x2E357C, 0x006541),
  (0x2E3628, 0x006535),
  (0x2E362C, 0x00900C),
  (0x2E363F, 0x0052C5),
  (0x2E3645, 0x0069E3),
  (0x2E3652, 0x006571),
  (0x2E3654, 0x00657F),
  (0x2E365F, 0x0053E1),
  (0x2E3729, 0x0065B5),
  (0x2E372F, 0x006E38),
  (0x2E375F, 0x0066BE),
  (0x2E3771, 0x0080BA),
  (0x2E3843, 0x003AFC),
  (0x2E384C, 0x0070EF),
  (0x2E3870, 0x00714A),
  (0x2E3876, 0x003B19),
  (0x2E3936, 0x0066CD),
  (0x2E395C, 0x0066C5_003ADC),
  (0x2E3A26, 0x00661D),
  (0x2E3A33, 0x0080AD),
  (0x2E3A6E, 0x02F8DC),
  (0x2E3B21, 0x006299_00690F),
  (0x2E3B3C, 0x007B08),
  (0x2E3B79, 0x006A86),
  (0x2E3B7E, 0x004884),
  (0x2E3C33, 0x003BB3_003B9E),
  (0x2E3C40, 0x00857B),
  (0x2E3C49, 0x003B8B),
  (0x2E3C4C, 0x003BD6),
  (0x2E3C58, 0x003BB5),
  (0x2E3C7A, 0x003BC7_006962),
  (0x2E3D62, 0x00684A),
  (0x2E3D6D, 0x004E99),
  (0x2E3D72, 0x006AE7_007A1C),
  (0x2E3E2D, 0x003BE3),
  (0x2E3E3F, 0x007BA0),
  (0x2E3E47, 0x003C02),
  (0x2E3E5C, 0x0067D5),
  (0x2E3E68, 0x003BFF),
  (0x2E3F2D, 0x0069B2),
  (0x2E3F54, 0x006AC1),
  (0x2E3F76, 0x006985),
  (0x2E4034, 0x006A70),
  (0x2E403D, 0x006AC1),
  (0x2E4055, 0x007489),
  (0x2E4059, 0x003BC8),
  (0x2E4131, 0x003C19),
  (0x2E4174, 0x006AA9),
  (0x2E417D, 0x008616),
  (0x2E4225, 0x003BF9),
  (0x2E4242, 0x003BF3),
  (0x2E4275, 0x006AE7),
  (0x2E4327, 0x006AEB),
  (0x2E4333, 0x006AEA),
  (0x2E464C, 0x006C0A),
  (0x2E4670, 0x006CD0),
  (0x2E4731, 0x006C73),
  (0x2E4739, 0x006C67),
  (0x2E4747, 0x006D64),
  (0x2E476F, 0x006D34),
  (0x2E483C, 0x006CD9),
  (0x2E4851, 0x006C61),
  (0x2E4873, 0x006FA3),
  (0x2E492F, 0x006CD9),
  (0x2E493B, 0x006E7C),
  (0x2E494F, 0x008385),
  (0x2E4A57, 0x006F59),
  (0x2E4A6B, 0x006EA6),
  (0x2E4A7E, 0x006FC8),
  (0x2E4B43, 0x006FDA),
  (0x2E4C35, 0x006DE5),
  (0x2E4C4B, 0x006FEB),
  (0x2E4C6E, 0x006D12),
  (0x2E4C7B, 0x006E86),
  (0x2E4D36, 0x006FC6_003D3B),
  (0x2E4D3D, 0x006D38),
  (0x2E4E41, 0x007032),
  (0x2E4E43, 0x007005),
  (0x2E4E56, 0x009800),
  (0x2E4E5D, 0x006DE0),
  (0x2E4E66, 0x003D88),
  (0x2E4E72, 0x006F74),
  (0x2E504D, 0x007094),
  (0x2E506D, 0x0070B1),
  (0x2E514E, 0x0242B9),
  (0x2E5151, 0x0242BA),
  (0x2E5154, 0x007094),
  (0x2E5243, 0x007098),
  (0x2E524D, 0x006A86),
  (0x2E525D, 0x00715B),
  (0x2E534A, 0x004673),
  (0x2E534E, 0x003E01),
  (0x2E5361, 0x003DD3),
  (0x2E5452, 0x0071FE),
  (0x2E5521, 0x007133),
  (0x2E554C, 0x00693E),
  (0x2E5559, 0x003E3E),
  (0x2E5760, 0x004760),
  (0x2E5841, 0x003EAB),
  (0x2E5848, 0x003EAE),
  (0x2E584C, 0x005ECF),
  (0x2E585B, 0x005F01),
  (0x2E586B, 0x00743A),
  (0x2E595D, 0x005CE9),
  (0x2E5A2C, 0x003ED7),
  (0x2E5A40, 0x0073B3),
  (0x2E5A78, 0x0074A2),
  (0x2E5A7A, 0x00749F),
  (0x2E5B2D, 0x00746C),
  (0x2E5B4F, 0x003ECB),
  (0x2E5B6E, 0x003EEE),
  (0x2E5C7D, 0x007516),
  (0x2E5D6D, 0x003F5C),
  (0x2E5D76, 0x003F6D),
  (0x2E5D7E, 0x00573B),
  (0x2E5E3C, 0x003F86),
  (0x2E5E47, 0x0075FE),
  (0x2E5F30, 0x003F78),
  (0x2E5F47, 0x003FCB),
  (0x2E5F6F, 0x0075B8),
  (0x2E604A, 0x007690),
  (0x2E6060, 0x0076A1),
  (0x2E6148, 0x0250F3),
  (0x2E614B, 0x00400E),
  (0x2E624F, 0x00772D),
  (0x2E625F, 0x0077C1),
  (0x2E635C, 0x007887),
  (0x2E6369, 0x00409D),
  (0x2E643A, 0x00792E),
  (0x2E6474, 0x0040D8),
  (0x2E6663, 0x005DD6),
  (0x2E6767, 0x004102),
  (0x2E682A, 0x00413D),
  (0x2E6838, 0x007955),
  (0x2E684E, 0x008020_0084C8),
  (0x2E686F, 0x007A19),
  (0x2E6930, 0x004188),
  (0x2E6B25, 0x007B53),
  (0x2E6B54, 0x007B04),
  (0x2E6B76, 0x007B56),
  (0x2E6B7B, 0x007BB8),
  (0x2E6C26, 0x007BE0_007B2E),
  (0x2E6C3E, 0x007B59),
  (0x2E6C42, 0x004E2A),
  (0x2E6C44, 0x007B9F),
  (0x2E6C46, 0x007BE6),
  (0x2E6C50, 0x005284),
  (0x2E6E59, 0x007C59),
  (0x2E6F35, 0x006CD4),
  (0x2E6F43, 0x009908),
  (0x2E6F76, 0x00429B_007CE8),
  (0x2E7042, 0x0042B8),
  (0x2E7062, 0x007D4F),
  (0x2E7124, 0x007DAF),
  (0x2E7144, 0x0042C1),
  (0x2E715A, 0x007E27),
  (0x2E7162, 0x0042EF),
  (0x2E717C, 0x007D63),
  (0x2E7227, 0x0042FA),
  (0x2E7328, 0x005FAD),
  (0x2E732F, 0x005C69),
  (0x2E735D, 0x007D56),
  (0x2E736A, 0x0076E7),
  (0x2E7374, 0x007E89),
  (0x2E742E, 0x007516),
  (0x2E7431, 0x007F48),
  (0x2E7433, 0x004345),
  (0x2E7450, 0x007F82_007F58),
  (0x2E7453, 0x00435E),
  (0x2E765F, 0x008037),
  (0x2E7733, 0x005ABF),
  (0x2E7768, 0x0080B9),
  (0x2E783A, 0x00815F),
  (0x2E7844, 0x0043DB),
  (0x2E7849, 0x004EA8),
  (0x2E7863, 0x008104),
  (0x2E7953, 0x006ED5),
  (0x2E7A37, 0x0080C6),
  (0x2E7A4C, 0x0054BD),
  (0x2E7B4D, 0x006AC2),
  (0x2E7B61, 0x004467),
  (0x2E7B69, 0x00826A),
  (0x2E7B6D, 0x00826A),
  (0x2E7B76, 0x008276),
  (0x2E7C2A, 0x008327),
  (0x2E7C2E, 0x00831C),
  (0x2E7C48, 0x004497),
  (0x2E7C4C, 0x0082D9),
  (0x2E7C6D, 0x0044A3),
  (0x2E7D24, 0x0083F0),
  (0x2E7E33, 0x00454F),
  (0x2E7E63, 0x0044BA),
  (0x2F2222, 0x00864B_008429),
  (0x2F2228, 0x008409_026FAF_02720B),
  (0x2F222D, 0x0044A9_027084),
  (0x2F2230, 0x026EC3),
  (0x2F2235, 0x0083DD_008455),
  (0x2F2238, 0x008561),
  (0x2F223A, 0x026CCD),
  (0x2F223E, 0x0083F0),
  (0x2F2247, 0x026F77),
  (0x2F2250, 0x00853F),
  (0x2F2255, 0x008507),
  (0x2F225C, 0x006E57_0085FE),
  (0x2F2262, 0x0237B5),
  (0x2F2266, 0x008618),
  (0x2F2268, 0x026E98),
  (0x2F226E, 0x004566_026CF2_02370E_026F78),
  (0x2F2278, 0x026CAD),
  (0x2F227C, 0x0247E7),
  (0x2F2321, 0x021C96),
  (0x2F2323, 0x027172),
  (0x2F2326, 0x0084A9_026BBF),
  (0x2F232E, 0x026D52),
  (0x2F2335, 0x024BF7),
  (0x2F2337, 0x006934),
  (0x2F233A, 0x026F7B_026DAC),
  (0x2F2340, 0x00861B),
  (0x2F2343, 0x004535),
  (0x2F2347, 0x026CCE),
  (0x2F2351, 0x026B44),
  (0x2F2355, 0x020C57),
  (0x2F235E, 0x026CF3),
  (0x2F2367, 0x0259E2_026B82),
  (0x2F236A, 0x004544),
  (0x2F2372, 0x026E33),
  (0x2F2375, 0x026E0E),
  (0x2F2377, 0x008553),
  (0x2F237B, 0x026DFF),
  (0x2F2421, 0x0099A7_0085B3),
  (0x2F2424, 0x026DF2),
  (0x2F242A, 0x0085C9_0083AC),
  (0x2F242F, 0x026E86_026D2B),
  (0x2F2433, 0x026C54),
  (0x2F243F, 0x026F5D),
  (0x2F2445, 0x0084A8_008506),
  (0x2F244A, 0x026E0B),
  (0x2F244D, 0x029147),
  (0x2F244F, 0x026FE0),
  (0x2F2451, 0x0084D8),
  (0x2F245B, 0x0085CC_008320),
  (0x2F245E, 0x026E92),
  (0x2F2462, 0x026F60),
  (0x2F2465, 0x025C69_008493),
  (0x2F2469, 0x027035),
  (0x2F246D, 0x027116_02715D),
  (0x2F2470, 0x0085C4),
  (0x2F2472, 0x0085BC_0083EB),
  (0x2F247A, 0x026FB7),
  (0x2F247C, 0x008372),
  (0x2F2522, 0x0083CC),
  (0x2F2525, 0x008632_02F9AA),
  (0x2F2528, 0x027026_026CC3_008460),
  (0x2F252D, 0x006A22_008507_00839C_0084DA),
  (0x2F2537, 0x026E32),
  (0x2F253F, 0x0044EF),
  (0x2F2546, 0x027087),
  (0x2F254A, 0x027096),
  (0x2F254E, 0x009EC2),
  (0x2F2550, 0x0270D7),
  (0x2F2556, 0x0270DA_026F10),
  (0x2F255C, 0x02F934_026E24),
  (0x2F2562, 0x0270B3),
  (0x2F256D, 0x02F9AE_02703E),
  (0x2F2573, 0x027099_026F48),
  (0x2F2576, 0x00855E),
  (0x2F2625, 0x008570),
  (0x2F2628, 0x026EB3_023A3B),
  (0x2F262B, 0x008350),
  (0x2F2636, 0x026D93),
  (0x2F263A, 0x0270FA),
  (0x2F263C, 0x026CDD_02708A_026EC2),
  (0x2F2648, 0x026FE7),
  (0x2F264C, 0x026E35),
  (0x2F2651, 0x00846A),
  (0x2F2656, 0x008320),
  (0x2F2659, 0x026E8B_00456F),
  (0x2F265D, 0x0069C0),
  (0x2F2661, 0x008360),
  (0x2F2664, 0x026E9D),
  (0x2F2668, 0x0270B0),
  (0x2F2674, 0x02715B),
  (0x2F2676, 0x004559_026EAB_026FE1_026FC4),
  (0x2F267E, 0x004506),
  (0x2F2722, 0x026F30),
  (0x2F2727, 0x027188),
  (0x2F2729, 0x00855F_026CE4),
  (0x2F2731, 0x027149),
  (0x2F2736, 0x00850C),
  (0x2F273C, 0x004583),
  (0x2F273E, 0x00854F),
  (0x2F2742, 0x0085D8),
  (0x2F2747, 0x02701B),
  (0x2F274A, 0x0270DC),
  (0x2F274C, 0x02714F),
  (0x2F2750, 0x008600_02715C),
  (0x2F2755, 0x00843E),
  (0x2F2759, 0x004574),
  (0x2F275B, 0x027191),
  (0x2F2764, 0x0270EC),
  (0x2F2768, 0x004564),
  (0x2F276E, 0x0085EC),
  (0x2F2776, 0x008576),
  (0x2F2823, 0x026FE6),
  (0x2F2825, 0x02710E_026FB4),
  (0x2F2829, 0x026FC8_00861D),
  (0x2F2832, 0x005914_027161),
  (0x2F2837, 0x008628),
  (0x2F2839, 0x026E95),
  (0x2F283C, 0x005ABF),
  (0x2F283E, 0x0044FA),
  (0x2F2840, 0x02716F),
  (0x2F2843, 0x027173),
  (0x2F2846, 0x026D96),
  (0x2F2849, 0x008649),
  (0x2F284D, 0x027137),
  (0x2F284F, 0x0085DF_004580_00864A),
  (0x2F2854, 0x025F47_02717C_02718A_02717E),
  (0x2F2859, 0x0271C1_00552C),
  (0x2F285D, 0x0271A4),
  (0x2F285F, 0x0271C7_0271AB_0271AA),
  (0x2F2863, 0x0271BD),
  (0x2F2868, 0x024D05),
  (0x2F286A, 0x0271D1_021C10_008666),
  (0x2F286F, 0x0271C3),
  (0x2F2872, 0x008669_027216),
  (0x2F2876, 0x0271D0_0299B6_00866F),
  (0x2F287A, 0x00460C),
  (0x2F287E, 0x00459F),
  (0x2F2925, 0x00866B),
  (0x2F2928, 0x0273A9),
  (0x2F2930, 0x02728D_008695_005C3A),
  (0x2F2934, 0x027D45),
  (0x2F293A, 0x027275),
  (0x2F293C, 0x008819_008739),
  (0x2F293F, 0x008D68),
  (0x2F2942, 0x0086D3),
  (0x2F2944, 0x027D44),
  (0x2F2947, 0x0086A0_027381),
  (0x2F294F, 0x0272A2_02A4DC),
  (0x2F2953, 0x00866D),
  (0x2F2958, 0x0086A6),
  (0x2F295B, 0x02A4ED),
  (0x2F295D, 0x02729B_027286),
  (0x2F2963, 0x027358_008777_003F0A_005412_0045B9_027368_0086E2_027468),
  (0x2F296D, 0x0086D9),
  (0x2F296F, 0x0272A1_0272B8_0272AE),
  (0x2F297A, 0x0045CB),
  (0x2F297C, 0x0086DE),
  (0x2F2A23, 0x027499_0272B0_008782),
  (0x2F2A27, 0x00874D_027494),
  (0x2F2A2E, 0x0272D2),
  (0x2F2A30, 0x02A4E7)]

/-- Part of `reads`. -/
def reads3 : Chart := wide24 [
  (0x2F2A34, 0x027599),
  (0x2F2A38, 0x02759A),
  (0x2F2A3A, 0x0045BF),
  (0x2F2A3D, 0x00872D_008829),
  (0x2F2A40, 0x02752B),
  (0x2F2A4A, 0x02740A_027312),
  (0x2F2A4E, 0x00871D),
  (0x2F2A55, 0x0086E7),
  (0x2F2A5A, 0x00868B_027D9E),
  (0x2F2A5F, 0x027552),
  (0x2F2A61, 0x027324),
  (0x2F2A64, 0x0087B5),
  (0x2F2A67, 0x02733F),
  (0x2F2A6A, 0x008727),
  (0x2F2A6C, 0x00867B_008764),
  (0x2F2A72, 0x007331_0087CA),
  (0x2F2A75, 0x0073B3),
  (0x2F2A78, 0x02497F_0274F1),
  (0x2F2A7D, 0x027308_0274AA),
  (0x2F2B22, 0x027414),
  (0x2F2B28, 0x00732C),
  (0x2F2B2D, 0x027CED),
  (0x2F2B2F, 0x027446_02741B),
  (0x2F2B36, 0x027398),
  (0x2F2B39, 0x027367_027231),
  (0x2F2B48, 0x008696),
  (0x2F2B4C, 0x02737D),
  (0x2F2B4F, 0x027549_026474),
  (0x2F2B52, 0x0273D3),
  (0x2F2B54, 0x0045CF_0273CD_0273E9_0274CE),
  (0x2F2B5A, 0x027593),
  (0x2F2B5C, 0x0273D5),
  (0x2F2B5F, 0x0273F8_02159F),
  (0x2F2B63, 0x02741A_027433_0222DC_0274D2_027371_027418_029F1C_027407),
  (0x2F2B6E, 0x0274A6_029A8B_02742E),
  (0x2F2B72, 0x027550_0086D7),
  (0x2F2B7A, 0x007E46_027436),
  (0x2F2C23, 0x027404),
  (0x2F2C27, 0x0272D9_027431_0087B6_027296),
  (0x2F2C2C, 0x0087FA),
  (0x2F2C31, 0x008828),
  (0x2F2C36, 0x0087DA),
  (0x2F2C39, 0x02758B_0087F4),
  (0x2F2C3C, 0x0274DB_0087E9),
  (0x2F2C40, 0x0087E7_004603),
  (0x2F2C45, 0x0273B9_008732_0274D9),
  (0x2F2C4C, 0x0273B6_0045AE),
  (0x2F2C4F, 0x027573),
  (0x2F2C51, 0x0274BC),
  (0x2F2C53, 0x02749C),
  (0x2F2C57, 0x0274BE),
  (0x2F2C59, 0x027955),
  (0x2F2C5B, 0x027518_02744F_00460D),
  (0x2F2C61, 0x0274C9_027457),
  (0x2F2C65, 0x026EF7_02757E),
  (0x2F2C73, 0x0087E0_027575),
  (0x2F2C79, 0x027357_00858E),
  (0x2F2D27, 0x027400_008839),
  (0x2F2D2A, 0x027508),
  (0x2F2D2E, 0x027526),
  (0x2F2D31, 0x004602_027527_0045FF),
  (0x2F2D37, 0x027566),
  (0x2F2D3B, 0x027563_007383_00883F),
  (0x2F2D3F, 0x004601),
  (0x2F2D41, 0x0275AD),
  (0x2F2D44, 0x0275D7_0275AF),
  (0x2F2D4C, 0x0275C0),
  (0x2F2D4F, 0x0275C7),
  (0x2F2D52, 0x0275D9_0275E1),
  (0x2F2D55, 0x027603_0275F3),
  (0x2F2D59, 0x028715),
  (0x2F2D61, 0x02F9C3),
  (0x2F2D66, 0x007D06),
  (0x2F2D68, 0x0276D6),
  (0x2F2D6D, 0x003838),
  (0x2F2D75, 0x007D0D_005747),
  (0x2F2D79, 0x0088B5),
  (0x2F2D7E, 0x02762D),
  (0x2F2E25, 0x027637),
  (0x2F2E27, 0x004629),
  (0x2F2E2A, 0x02777A),
  (0x2F2E2C, 0x003ACA),
  (0x2F2E30, 0x02765F),
  (0x2F2E34, 0x00894F),
  (0x2F2E36, 0x00887B),
  (0x2F2E39, 0x027624),
  (0x2F2E3C, 0x0088A0),
  (0x2F2E42, 0x0277D9_025FCC),
  (0x2F2E45, 0x0088D6),
  (0x2F2E48, 0x008903),
  (0x2F2E4B, 0x0088D7),
  (0x2F2E4F, 0x02764A),
  (0x2F2E51, 0x0088B3_027623),
  (0x2F2E57, 0x0088CC),
  (0x2F2E59, 0x00462B),
  (0x2F2E5B, 0x0088DE_0276E0),
  (0x2F2E5E, 0x0277AB),
  (0x2F2E61, 0x0088E1),
  (0x2F2E69, 0x00892D),
  (0x2F2E71, 0x00893E),
  (0x2F2E73, 0x0088A6_0276BC),
  (0x2F2E78, 0x027688),
  (0x2F2E7A, 0x0276B0_0088FA),
  (0x2F2F22, 0x02769B_029991),
  (0x2F2F2B, 0x027750),
  (0x2F2F2F, 0x005E43),
  (0x2F2F33, 0x027775_02774D),
  (0x2F2F36, 0x0088E9_0042F3),
  (0x2F2F39, 0x027796),
  (0x2F2F3C, 0x007DE3),
  (0x2F2F42, 0x0276B1),
  (0x2F2F47, 0x00466D_0276EA_005BB9),
  (0x2F2F4D, 0x008911),
  (0x2F2F4F, 0x009848_004B8D),
  (0x2F2F53, 0x0277B7),
  (0x2F2F55, 0x02770B),
  (0x2F2F57, 0x02766A_0276DD),
  (0x2F2F5A, 0x004670),
  (0x2F2F5D, 0x007E48_027737),
  (0x2F2F61, 0x0277D4_0088F1),
  (0x2F2F65, 0x0277A8),
  (0x2F2F67, 0x0277B0),
  (0x2F2F6A, 0x0276E1_0276AE_0276BA),
  (0x2F2F70, 0x008882),
  (0x2F2F73, 0x008965),
  (0x2F2F79, 0x027756_0055AE_008965_026065),
  (0x2F3024, 0x0277B8),
  (0x2F3029, 0x0277D2),
  (0x2F302B, 0x004671_02779F_00895C),
  (0x2F3031, 0x027744),
  (0x2F3033, 0x027797),
  (0x2F3038, 0x0277CE),
  (0x2F303A, 0x0277B2_0277CA_005E14_027665_02216D),
  (0x2F3042, 0x005E71),
  (0x2F3049, 0x00466A),
  (0x2F304B, 0x0277D0_02772D),
  (0x2F3050, 0x0221EB),
  (0x2F3052, 0x021432),
  (0x2F3059, 0x009EA7),
  (0x2F305D, 0x008989),
  (0x2F3061, 0x027811),
  (0x2F3063, 0x027E08),
  (0x2F3065, 0x02781F_004021),
  (0x2F306C, 0x027828_00467A),
  (0x2F3070, 0x027877),
  (0x2F3072, 0x007752_00775E_02788F_027205),
  (0x2F307B, 0x00777C),
  (0x2F307E, 0x027861),
  (0x2F3121, 0x02525D),
  (0x2F3123, 0x004683_027894),
  (0x2F3126, 0x0278A8),
  (0x2F312B, 0x0089BB_0089BC),
  (0x2F3130, 0x02784C),
  (0x2F3132, 0x00468D_0278A3_02533A_0278AB_0077D6),
  (0x2F3138, 0x0278B3),
  (0x2F313A, 0x0089FC_0089D5_0278B8),
  (0x2F313E, 0x0278DC_0067E7),
  (0x2F3142, 0x0278F0_0089F5),
  (0x2F3145, 0x020C8B),
  (0x2F3148, 0x0294EB),
  (0x2F314A, 0x0278C2_027931_0089D3),
  (0x2F3150, 0x02790C),
  (0x2F3152, 0x00469F),
  (0x2F315A, 0x027907_027918_00659B_02792B),
  (0x2F3160, 0x0278C4_027926_027914),
  (0x2F3164, 0x007910),
  (0x2F3167, 0x0089D6),
  (0x2F3169, 0x0089FF),
  (0x2F316C, 0x0053EB_02797A_008A05_027970_027966_0279A7),
  (0x2F3177, 0x008A7D_0046B0),
  (0x2F317D, 0x008A7E),
  (0x2F3227, 0x0279A7),
  (0x2F322A, 0x006E20_027A86),
  (0x2F322E, 0x027A6E),
  (0x2F3230, 0x027AF8),
  (0x2F3236, 0x027AAA_027A1D_008B67_0279E7_00546C_008AB3_0279AB_0279C1),
  (0x2F323F, 0x0279F2),
  (0x2F3241, 0x027A3D),
  (0x2F3244, 0x008A24_0046B7),
  (0x2F3248, 0x008A9F),
  (0x2F324B, 0x027A1B),
  (0x2F3251, 0x0279F0),
  (0x2F3259, 0x020EE9_005BDF),
  (0x2F325C, 0x0046C2_008B84),
  (0x2F3262, 0x005408),
  (0x2F3268, 0x027BA3),
  (0x2F326E, 0x027AD4_022A0B),
  (0x2F3271, 0x008B59),
  (0x2F3274, 0x005509),
  (0x2F3279, 0x005FAF_027A73),
  (0x2F327D, 0x0060B0),
  (0x2F3321, 0x008A14),
  (0x2F3325, 0x027A7B_027A9B_027AE0_02797D_005536),
  (0x2F332B, 0x004709),
  (0x2F332F, 0x027998),
  (0x2F3334, 0x027A50_027A9F),
  (0x2F3338, 0x00975E_0046CC),
  (0x2F333B, 0x0046D5),
  (0x2F333D, 0x027A2C),
  (0x2F3340, 0x02942D),
  (0x2F3344, 0x027AE7_009850),
  (0x2F334B, 0x0035B6_027A51_006105),
  (0x2F334F, 0x027B0C_0279A6),
  (0x2F3352, 0x0054A0),
  (0x2F3355, 0x027B2D),
  (0x2F3357, 0x008B8D_027AB3_027AEA),
  (0x2F335C, 0x0046F9_008AE0_027B21),
  (0x2F3363, 0x008B1A_027B2F),
  (0x2F3366, 0x008A9F),
  (0x2F3368, 0x027A26),
  (0x2F336A, 0x004704),
  (0x2F3371, 0x027B64),
  (0x2F3376, 0x006146_027A1E),
  (0x2F337A, 0x008A2C),
  (0x2F337C, 0x027A6E_027A28_00557C),
  (0x2F3422, 0x027B0D),
  (0x2F3424, 0x027A09),
  (0x2F3426, 0x027B9B),
  (0x2F342A, 0x008B38_027B13),
  (0x2F342E, 0x027AAE),
  (0x2F3432, 0x0046B7_008A35),
  (0x2F343F, 0x027A40_027A6A),
  (0x2F3442, 0x00619D),
  (0x2F3444, 0x027A7F_008B47),
  (0x2F344D, 0x0050ED),
  (0x2F3451, 0x027B05_027B7E),
  (0x2F3454, 0x004710),
  (0x2F3459, 0x008A9A_02452A),
  (0x2F345E, 0x008A40),
  (0x2F3462, 0x027B51_027B87),
  (0x2F3465, 0x00566A),
  (0x2F3467, 0x027B74_005661),
  (0x2F346A, 0x008B65_0046FC),
  (0x2F346E, 0x006C93),
  (0x2F3470, 0x004F9C),
  (0x2F3472, 0x003608_027B03_0056B6),
  (0x2F347B, 0x004FF4_008B53),
  (0x2F347E, 0x027B00),
  (0x2F3523, 0x027BA9_027B83),
  (0x2F352A, 0x008B90_008E9B_003513_008B4B_027B90),
  (0x2F3534, 0x027B8A),
  (0x2F3537, 0x008B61),
  (0x2F353A, 0x003F84),
  (0x2F353D, 0x027BCB_027BAF),
  (0x2F3540, 0x027BB7),
  (0x2F3542, 0x027BB0_0294C5),
  (0x2F3546, 0x027BD0),
  (0x2F3548, 0x028F4D),
  (0x2F354A, 0x008C3E),
  (0x2F354D, 0x027BED),
  (0x2F3552, 0x022053),
  (0x2F3555, 0x00730F_007F93),
  (0x2F3558, 0x027C51_0054EE_027C71_027C5F),
  (0x2F3560, 0x008C59),
  (0x2F3562, 0x027C8F_0072F6_027C4D),
  (0x2F3569, 0x027C90_027C42_00733D_008C71_021EB3),
  (0x2F3570, 0x027C95_024846),
  (0x2F3573, 0x02486C_007356),
  (0x2F3576, 0x027C5B_00474A),
  (0x2F357A, 0x027C94_02638B),
  (0x2F357D, 0x0072B4),
  (0x2F3623, 0x02473D_0072D6),
  (0x2F3626, 0x003E67),
  (0x2F3629, 0x02477D_027CD4_027CE1),
  (0x2F362D, 0x004757),
  (0x2F3631, 0x027CE0_007330),
  (0x2F3634, 0x027CF2),
  (0x2F3636, 0x027CFA),
  (0x2F3639, 0x008C7C_027C7F_02483E_00734F),
  (0x2F3642, 0x007383),
  (0x2F3644, 0x00476F),
  (0x2F3646, 0x027D32),
  (0x2F364D, 0x027DB3_027D39),
  (0x2F3651, 0x027D6E),
  (0x2F3654, 0x027D47),
  (0x2F365D, 0x005379),
  (0x2F3661, 0x020B78),
  (0x2F3667, 0x008CE9),
  (0x2F3670, 0x027D9B),
  (0x2F3672, 0x027DC9),
  (0x2F3676, 0x008D10),
  (0x2F367C, 0x020652_004789),
  (0x2F3725, 0x006179_027DE4),
  (0x2F372D, 0x027E18),
  (0x2F372F, 0x027DFC),
  (0x2F3736, 0x028CB4),
  (0x2F373A, 0x004772),
  (0x2F373D, 0x005970),
  (0x2F373F, 0x027E37),
  (0x2F3741, 0x027DE0),
  (0x2F3744, 0x026ADC),
  (0x2F3748, 0x009833),
  (0x2F3753, 0x027E9E),
  (0x2F3757, 0x027EEF),
  (0x2F3759, 0x027F18),
  (0x2F375B, 0x005C1F_027F8F_027EDB),
  (0x2F3761, 0x008DD9),
  (0x2F3763, 0x027FFA),
  (0x2F3767, 0x027ED9_027F92_027ECE),
  (0x2F376B, 0x027EE7_027F32_027F95),
  (0x2F376F, 0x027F15),
  (0x2F3821, 0x027EFB),
  (0x2F3826, 0x027EBB),
  (0x2F3829, 0x022504),
  (0x2F382F, 0x008E13_008D7A),
  (0x2F3832, 0x004813_008D91),
  (0x2F3844, 0x004817),
  (0x2F3848, 0x027FB4_027F70),
  (0x2F384B, 0x027F8B),
  (0x2F3851, 0x027F1E),
  (0x2F3854, 0x027ED1),
  (0x2F3859, 0x027F9F),
  (0x2F385E, 0x027FAB),
  (0x2F3860, 0x022598),
  (0x2F3862, 0x008E8D_007FFC),
  (0x2F3865, 0x027F1A_0047CE),
  (0x2F386E, 0x025039_008DD7),
  (0x2F3871, 0x008691_0077F2),
  (0x2F3876, 0x008E38),
  (0x2F3879, 0x020C0D),
  (0x2F387D, 0x027EBF),
  (0x2F3922, 0x008E60),
  (0x2F3925, 0x028184),
  (0x2F3929, 0x028075_005F7E_0280AB_0047E2_027FDF),
  (0x2F392F, 0x009AB9),
  (0x2F3933, 0x006B6D_008E5E_027FD6),
  (0x2F3938, 0x008DC7),
  (0x2F393A, 0x008E70),
  (0x2F3941, 0x0280E1),
  (0x2F3943, 0x00758E),
  (0x2F3946, 0x004820),
  (0x2F394C, 0x02A60F),
  (0x2F3950, 0x0208DF_028040),
  (0x2F3954, 0x00479C_008E9E),
  (0x2F3958, 0x004830),
  (0x2F395C, 0x027FC3),
  (0x2F395E, 0x02815D_008E37_0298F1_02397B),
  (0x2F3963, 0x027FC4_0281AE),
  (0x2F3966, 0x005D0E_028055),
  (0x2F396F, 0x0281F1),
  (0x2F3972, 0x00583E),
  (0x2F3976, 0x008DBB_02807B),
  (0x2F397D, 0x004813_021976),
  (0x2F3A21, 0x021ADE),
  (0x2F3A24, 0x0281E5),
  (0x2F3A27, 0x008D81),
  (0x2F3A2B, 0x02815E),
  (0x2F3A2E, 0x008E61),
  (0x2F3A30, 0x0281CB),
  (0x2F3A33, 0x008DFF),
  (0x2F3A35, 0x008C74_028082),
  (0x2F3A3C, 0x004820),
  (0x2F3A3E, 0x008E3C),
  (0x2F3A40, 0x0047C6_02811A),
  (0x2F3A43, 0x008EA7),
  (0x2F3A45, 0x0281F3_028152_0281B4_009A53),
  (0x2F3A4A, 0x028155_004825_0281DA_025E28_028162_006A8B),
  (0x2F3A52, 0x0239A2),
  (0x2F3A57, 0x0096AE),
  (0x2F3A5C, 0x0281F0),
  (0x2F3A5E, 0x008E6E_0047CF_0047E1_0281D9_02818D),
  (0x2F3A67, 0x0281E8),
  (0x2F3A6C, 0x005FC2),
  (0x2F3A70, 0x0281C3),
  (0x2F3A72, 0x008E78),
  (0x2F3B29, 0x0056B2),
  (0x2F3B2E, 0x028257_004847_008EDA_0282A2_0282A0),
  (0x2F3B35, 0x0282AF_028323_028302),
  (0x2F3B39, 0x00484B),
  (0x2F3B3F, 0x028373),
  (0x2F3B46, 0x0282BA),
  (0x2F3B48, 0x0282B5_0282B6_02832E),
  (0x2F3B4F, 0x0282CF),
  (0x2F3B51, 0x005E21),
  (0x2F3B56, 0x0283AA_0283A9),
  (0x2F3B59, 0x0283B2),
  (0x2F3B5F, 0x02832F_004852),
  (0x2F3B64, 0x028385),
  (0x2F3B66, 0x005029),
  (0x2F3B6B, 0x0282BE_02836F_02838A_006947),
  (0x2F3B70, 0x0283F0),
  (0x2F3B74, 0x008F41),
  (0x2F3B78, 0x008F0F),
  (0x2F3B7B, 0x028332),
  (0x2F3C22, 0x008F55),
  (0x2F3C25, 0x028328_0282E9_004845),
  (0x2F3C2A, 0x02836C),
  (0x2F3C2D, 0x008F3C),
  (0x2F3C30, 0x0283D4_008ECE_0282D4_0283A6),
  (0x2F3C3D, 0x0283A8),
  (0x2F3C44, 0x009480),
  (0x2F3C48, 0x029359_028395),
  (0x2F3C4C, 0x0283D9),
  (0x2F3C4E, 0x0283CA_008F35),
  (0x2F3C51, 0x02836A),
  (0x2F3C55, 0x0283F2),
  (0x2F3C57, 0x008F63),
  (0x2F3C59, 0x0283FD_006AE8_0283AF_008EE8),
  (0x2F3C5E, 0x0283FE),
  (0x2F3C62, 0x007F6A),
  (0x2F3C6C, 0x008FB6),
  (0x2F3C75, 0x028048),
  (0x2F3C78, 0x02849D),
  (0x2F3C7D, 0x02845E_008FBE),
  (0x2F3D22, 0x00904C),
  (0x2F3D2D, 0x028F7F),
  (0x2F3D2F, 0x008FC6_0224D3),
  (0x2F3D35, 0x02848F),
  (0x2F3D37, 0x00902C),
  (0x2F3D3A, 0x02851C),
  (0x2F3D3C, 0x0062EA),
  (0x2F3D3E, 0x0284C8),
  (0x2F3D45, 0x02855D),
  (0x2F3D47, 0x0207FB_0284D8_0224ED_028655),
  (0x2F3D52, 0x0285C0),
  (0x2F3D57, 0x008DA0_00902E_0038E6),
  (0x2F3D5D, 0x00900E),
  (0x2F3D6A, 0x02848E),
  (0x2F3D75, 0x0284EC),
  (0x2F3D7B, 0x028524),
  (0x2F3E22, 0x008CAB),
  (0x2F3E26, 0x0285DD),
  (0x2F3E34, 0x00395E),
  (0x2F3E37, 0x028637_02865C_009072),
  (0x2F3E3B, 0x028645_00908E_028666),
  (0x2F3E40, 0x02874D),
  (0x2F3E43, 0x00536D),
  (0x2F3E47, 0x028682),
  (0x2F3E4A, 0x02868A),
  (0x2F3E53, 0x028692_008C73),
  (0x2F3E58, 0x0286A0_005CAF),
  (0x2F3E5B, 0x009101),
  (0x2F3E73, 0x0286D9),
  (0x2F3E75, 0x028741),
  (0x2F3E78, 0x0286A8_0211F6),
  (0x2F3E7D, 0x028726_00499C),
  (0x2F3F21, 0x028739),
  (0x2F3F24, 0x0286CE),
  (0x2F3F26, 0x02867C),
  (0x2F3F28, 0x0057BA),
  (0x2F3F2D, 0x0286A5_028787),
  (0x2F3F32, 0x02876E),
  (0x2F3F39, 0x009EE8),
  (0x2F3F3C, 0x008212_0287C0),
  (0x2F3F42, 0x00912C),
  (0x2F3F44, 0x028723),
  (0x2F3F49, 0x028789_028785),
  (0x2F3F52, 0x028724_006EC8),
  (0x2F3F55, 0x028728),
  (0x2F3F58, 0x009111),
  (0x2F3F5A, 0x0048B5),
  (0x2F3F65, 0x0049E0_0286F8_0090FE_0287E6_02875D),
  (0x2F3F6F, 0x0286F5),
  (0x2F3F71, 0x0287BC),
  (0x2F3F73, 0x028760),
  (0x2F3F75, 0x0090FB),
  (0x2F3F7A, 0x0287CC_028693),
  (0x2F3F7D, 0x0287EC),
  (0x2F4021, 0x02878F),
  (0x2F4024, 0x02876C_0287B5),
  (0x2F402C, 0x0287A1),
  (0x2F402F, 0x0287AF_028792),
  (0x2F4033, 0x0287C5),
  (0x2F403B, 0x028796),
  (0x2F403D, 0x028782_009137_0287CE_028725_00913C),
  (0x2F404B, 0x028813),
  (0x2F404D, 0x028801),
  (0x2F4053, 0x00914F),
  (0x2F405A, 0x0048F2),
  (0x2F4060, 0x028827_02890E),
  (0x2F4069, 0x0296DD),
  (0x2F406B, 0x0288AC_0287F4_0287F7),
  (0x2F4070, 0x00410C),
  (0x2F4076, 0x0288B0),
  (0x2F407B, 0x028860),
  (0x2F407D, 0x028802),
  (0x2F4124, 0x02880F_02507A_0091AF),
  (0x2F4128, 0x028814),
  (0x2F412B, 0x02889A_028845_028815_0288F7_0288A4_00917C),
  (0x2F4132, 0x028817),
  (0x2F4135, 0x028907),
  (0x2F4137, 0x006F13),
  (0x2F413C, 0x0288A5),
  (0x2F413F, 0x028855),
  (0x2F4141, 0x0288D3_028869_02A280_02890C),
  (0x2F414C, 0x028909_0267F3_0288E0),
  (0x2F4152, 0x0288BE_02A267),
  (0x2F4156, 0x0091C4_02890D_0288F2),
  (0x2F415A, 0x02391A),
  (0x2F415C, 0x02633F),
  (0x2F415F, 0x0200A0),
  (0x2F4162, 0x0091DA),
  (0x2F4165, 0x00930D_028950),
  (0x2F4169, 0x007F38),
  (0x2F416F, 0x00923B),
  (0x2F4177, 0x00926A),
  (0x2F417B, 0x02894A),
  (0x2F4223, 0x028A90),
  (0x2F422F, 0x009292_02897B_008019_004C19_0092E3),
  (0x2F423B, 0x004920),
  (0x2F423D, 0x003A52),
  (0x2F423F, 0x023723),
  (0x2F4241, 0x00491E),
  (0x2F4244, 0x00928B),
  (0x2F4248, 0x0065A4),
  (0x2F424B, 0x007248),
  (0x2F424D, 0x004928),
  (0x2F4252, 0x006243),
  (0x2F4254, 0x0067F2_009247),
  (0x2F425C, 0x006AB7),
  (0x2F4263, 0x009330_004926),
  (0x2F4267, 0x0091F1),
  (0x2F4269, 0x0289B2),
  (0x2F426D, 0x00925F_004948),
  (0x2F4274, 0x004956),
  (0x2F427E, 0x0067B1),
  (0x2F4323, 0x00935F),
  (0x2F432A, 0x0289EC),
  (0x2F432E, 0x0073CD),
  (0x2F4331, 0x009384),
  (0x2F433E, 0x02F9EA_028AD0),
  (0x2F4345, 0x02894D),
  (0x2F434B, 0x029293),
  (0x2F434E, 0x028C0D),
  (0x2F4350, 0x028AB6),
  (0x2F4354, 0x0077DB_009443),
  (0x2F4357, 0x02894C),
  (0x2F435D, 0x00931F),
  (0x2F4369, 0x028A8D),
  (0x2F4378, 0x009477),
  (0x2F4426, 0x029C5A),
  (0x2F442A, 0x0091EC_0040BB),
  (0x2F4431, 0x02F9E9_009436_0091EF),
  (0x2F4435, 0x028ACF),
  (0x2F4437, 0x009401_0289F4),
  (0x2F4442, 0x0093E5_009305),
  (0x2F444C, 0x0289E6_00925C_028BE2),
  (0x2F4451, 0x008F28),
  (0x2F4454, 0x00525C),
  (0x2F4459, 0x004941_0073CD_00494A),
  (0x2F445F, 0x00941A),
  (0x2F4461, 0x028996),
  (0x2F4465, 0x009373_009233),
  (0x2F446F, 0x0093DB),
  (0x2F4478, 0x0075FC_028B94),
  (0x2F4525, 0x0092FE),
  (0x2F452C, 0x009372),
  (0x2F4532, 0x00937F),
  (0x2F4538, 0x028A89),
  (0x2F453E, 0x0091F6),
  (0x2F4546, 0x009450_004950),
  (0x2F454B, 0x009231),
  (0x2F4553, 0x006939_0289F2),
  (0x2F4556, 0x028BBC),
  (0x2F455B, 0x009237),
  (0x2F455E, 0x004977),
  (0x2F4567, 0x028AD8),
  (0x2F4569, 0x028A93_009260),
  (0x2F456C, 0x028C0C),
  (0x2F456E, 0x009362),
  (0x2F4573, 0x0097F9),
  (0x2F4575, 0x028A37),
  (0x2F4621, 0x00926B),
  (0x2F4637, 0x00941E),
  (0x2F4646, 0x00613E_009465),
  (0x2F464A, 0x0093C9),
  (0x2F464D, 0x007BE6),
  (0x2F464F, 0x0093FF),
  (0x2F4656, 0x0092BF),
  (0x2F4663, 0x028AFC),
  (0x2F4666, 0x0093E9_004962),
  (0x2F466C, 0x00527E),
  (0x2F4673, 0x0289B0),
  (0x2F4679, 0x00942A_007F45),
  (0x2F4723, 0x004955),
  (0x2F472C, 0x0093E6),
  (0x2F472F, 0x028B5D),
  (0x2F4731, 0x029A91_0289E9),
  (0x2F4734, 0x00931E),
  (0x2F473E, 0x0289AD),
  (0x2F4749, 0x028A3B),
  (0x2F474D, 0x0071C8),
  (0x2F4752, 0x009427),
  (0x2F475E, 0x028B10),
  (0x2F4760, 0x028B7C),
  (0x2F4763, 0x004B58),
  (0x2F4765, 0x005331),
  (0x2F4767, 0x028AFD),
  (0x2F4769, 0x028B93),
  (0x2F476F, 0x007126_009353),
  (0x2F4773, 0x028BE3),
  (0x2F4779, 0x009406),
  (0x2F4828, 0x028AD1),
  (0x2F4835, 0x0092D1_028A8E),
  (0x2F4841, 0x028BAB_028B17_028BE0_028BE1),
  (0x2F484A, 0x028BDF),
  (0x2F4851, 0x028965),
  (0x2F4856, 0x009284),
  (0x2F485B, 0x028C1F),
  (0x2F485E, 0x028B5B),
  (0x2F4A2E, 0x0090B4),
  (0x2F4A4A, 0x005F8F),
  (0x2F4A5D, 0x0049E3),
  (0x2F4B46, 0x008086),
  (0x2F4C49, 0x009721),
  (0x2F4C6B, 0x009F97),
  (0x2F4D56, 0x004A66),
  (0x2F4E42, 0x004A87),
  (0x2F4E57, 0x004A75),
  (0x2F4F6B, 0x004AD9),
  (0x2F5029, 0x004AF1),
  (0x2F504A, 0x004B1A),
  (0x2F504D, 0x004B19),
  (0x2F5053, 0x0098C7),
  (0x2F505D, 0x007FE5),
  (0x2F506C, 0x0079D7),
  (0x2F5128, 0x00751B),
  (0x2F5150, 0x004B4C),
  (0x2F5158, 0x007CC7),
  (0x2F5160, 0x004B66),
  (0x2F5166, 0x006C23),
  (0x2F516A, 0x007F9E_004B5B),
  (0x2F5177, 0x004B2C),
  (0x2F5261, 0x004B86),
  (0x2F5275, 0x004B85),
  (0x2F527C, 0x007521),
  (0x2F532C, 0x004B80),
  (0x2F533D, 0x004B7C),
  (0x2F5358, 0x004BB2),
  (0x2F537C, 0x004BBC_004B87),
  (0x2F543A, 0x0098C4),
  (0x2F5459, 0x004BD7),
  (0x2F5476, 0x009AE1),
  (0x2F5533, 0x004BEF),
  (0x2F5545, 0x005DDB),
  (0x2F5552, 0x004C14),
  (0x2F5576, 0x0066A2),
  (0x2F5633, 0x005C2C),
  (0x2F5652, 0x004C2D),
  (0x2F566F, 0x004C3A),
  (0x2F5672, 0x004C3F),
  (0x2F572C, 0x009BF9),
  (0x2F575F, 0x009ABE),
  (0x2F582D, 0x009B89),
  (0x2F585C, 0x009C51),
  (0x2F5870, 0x009C1B),
  (0x2F5877, 0x004C8D_004C56),
  (0x2F5932, 0x004C84),
  (0x2F5941, 0x004C8B),
  (0x2F5952, 0x004C46),
  (0x2F595E, 0x009B63),
  (0x2F5973, 0x009CEC),
  (0x2F5A3A, 0x004CCA),
  (0x2F5A48, 0x009D44),
  (0x2F5B29, 0x004CDC),
  (0x2F5C4F, 0x004A06),
  (0x2F5C65, 0x004A05),
  (0x2F5C6F, 0x004CF6),
  (0x2F5C73, 0x004D0A_009E0A),
  (0x2F5C7B, 0x004D0B),
  (0x2F5D28, 0x004D0C),
  (0x2F5D3C, 0x006EF7),
  (0x2F5D49, 0x009EA4),
  (0x2F5D4F, 0x004D22),
  (0x2F5D5C, 0x00730A),
  (0x2F5D5E, 0x004D25),
  (0x2F5E26, 0x004D46),
  (0x2F5E2B, 0x004D44),
  (0x2F5E42, 0x009EC9),
  (0x2F5E47, 0x004D5B),
  (0x2F5E59, 0x004D5E),
  (0x2F5E66, 0x009B12),
  (0x2F5E76, 0x007D31),
  (0x2F5E7D, 0x006641),
  (0x2F5F23, 0x0086D9),
  (0x2F5F45, 0x0086A1),
  (0x2F5F79, 0x008CEB),
  (0x2F6032, 0x0056D3),
  (0x2F605B, 0x009F90),
  (0x2F606E, 0x00548C),
  (0x2F6070, 0x0089D2_007C72),
  (0x2F6E5A, 0x003596),
  (0x2F6F4E, 0x0080E1),
  (0x2F7025, 0x0035F6),
  (0x2F727E, 0x0056C7),
  (0x2F7A61, 0x005A1A),
  (0x2F7B38, 0x003727),
  (0x303055, 0x003924),
  (0x303231, 0x003931),
  (0x30337C, 0x0057F4),
  (0x303469, 0x0039E8),
  (0x303526, 0x006534),
  (0x30363B, 0x00640B),
  (0x303735, 0x003A45),
  (0x303967, 0x003A89),
  (0x303C57, 0x003AE6),
  (0x303C74, 0x003B01),
  (0x303D60, 0x003B08),
  (0x303E55, 0x003B21),
  (0x30483B, 0x006CE8),
  (0x304A36, 0x003CB1),
  (0x305074, 0x003DA8),
  (0x305237, 0x003DE6),
  (0x306169, 0x003FA1),
  (0x30646F, 0x003FF5),
  (0x30663D, 0x00401F),
  (0x306668, 0x004041),
  (0x30675F, 0x004033),
  (0x306925, 0x025281),
  (0x306B30, 0x0040F2),
  (0x306B35, 0x0040AF),
  (0x30725D, 0x0041A5),
  (0x307C2D, 0x00428B),
  (0x307D5D, 0x0042D5),
  (0x307E4F, 0x004649),
  (0x31233E, 0x004342),
  (0x31235A, 0x00434B),
  (0x312A75, 0x0043F8),
  (0x312B69, 0x004445),
  (0x312F58, 0x0044A2),
  (0x31323D, 0x00451C),
  (0x31342A, 0x00449D),
  (0x313944, 0x004C5F),
  (0x313A35, 0x0087D7),
  (0x313E7B, 0x004301),
  (0x314521, 0x004700),
  (0x314C32, 0x0047B0),
  (0x315127, 0x004865),
  (0x315537, 0x006B67),
  (0x31612B, 0x00417D),
  (0x31614C, 0x004A0E),
  (0x31617B, 0x004A2F),
  (0x316423, 0x004A58),
  (0x316573, 0x00576F),
  (0x316A5C, 0x004B16),
  (0x317033, 0x005E79),
  (0x317479, 0x004C76),
  (0x317A4B, 0x004CEB),
  (0x322263, 0x004D79),
  (0x333021, 0x0058F9),
  (0x33303A, 0x008FFA),
  (0x33304C, 0x004E79),
  (0x333051, 0x008CB3_004E8F),
  (0x333054, 0x003405),
  (0x33305A, 0x00710F_004EBE),
  (0x33305E, 0x0080F6),
  (0x333060, 0x004EAF),
  (0x333066, 0x005FC8),
  (0x33306C, 0x008B90),
  (0x333071, 0x005B83),
  (0x333076, 0x0034A8),
  (0x333078, 0x005F77),
  (0x33314C, 0x005FA0),
  (0x33314F, 0x005D19),
  (0x333157, 0x003430),
  (0x333159, 0x003474),
  (0x333227, 0x008129),
  (0x33323C, 0x005078),
  (0x333240, 0x004FFB),
  (0x33324E, 0x0050E7),
  (0x333251, 0x005FBA),
  (0x333255, 0x004451),
  (0x33325D, 0x004FA1),
  (0x33325F, 0x00510D),
  (0x333272, 0x007097),
  (0x333275, 0x005151),
  (0x333277, 0x02F80E),
  (0x333279, 0x02F80F_005150),
  (0x333323, 0x004E21),
  (0x33332A, 0x004E93),
  (0x333330, 0x00518C),
  (0x333339, 0x0041A9),
  (0x33333C, 0x006C37),
  (0x333344, 0x0051DB),
  (0x33334E, 0x0051FE),
  (0x333355, 0x0234C1_0034DD),
  (0x333360, 0x020707),
  (0x333363, 0x00523E),
  (0x333367, 0x005239),
  (0x333373, 0x007FE6),
  (0x333377, 0x005270),
  (0x33337B, 0x0052E6),
  (0x333421, 0x0091FC),
  (0x333423, 0x005264),
  (0x333428, 0x00523C),
  (0x333439, 0x020884),
  (0x333451, 0x005F59),
  (0x33345B, 0x009679),
  (0x333475, 0x009628),
  (0x33347D, 0x0053C4),
  (0x333529, 0x0053DC),
  (0x33354E, 0x00608B),
  (0x333556, 0x009A03),
  (0x33355C, 0x005449),
  (0x333564, 0x005415),
  (0x333573, 0x008656),
  (0x333623, 0x009F69),
  (0x33362A, 0x009B28),
  (0x33363C, 0x00569E),
  (0x33363E, 0x008C9F),
  (0x333642, 0x008A92),
  (0x333651, 0x008653),
  (0x33365A, 0x005405_004614),
  (0x333663, 0x00462E),
  (0x333672, 0x0055A9),
  (0x333733, 0x005628),
  (0x333764, 0x005631_004E96),
  (0x333768, 0x008FF4),
  (0x33376B, 0x0056F1),
  (0x33376E, 0x00570F),
  (0x333772, 0x0056ED),
  (0x33382C, 0x005DDB),
  (0x333830, 0x00366C),
  (0x33385E, 0x005897),
  (0x33386E, 0x00576F),
  (0x33392F, 0x009029),
  (0x333939, 0x003690),
  (0x333944, 0x005B2D),
  (0x333946, 0x0216B1),
  (0x333953, 0x007CA7),
  (0x33395F, 0x0036FD),
  (0x333963, 0x0059C9),
  (0x333A41, 0x021883),
  (0x333A48, 0x005A26),
  (0x333A4A, 0x005B7E),
  (0x333B37, 0x00374D),
  (0x333B53, 0x003791),
  (0x333B5A, 0x0037A1),
  (0x333B5D, 0x005C5B),
  (0x333B6E, 0x0037F5),
  (0x333C21, 0x007895),
  (0x333C2D, 0x003818),
  (0x333C52, 0x008CEC),
  (0x333C64, 0x005E77),
  (0x333C7B, 0x005EBB_00844A),
  (0x333D28, 0x0053A8),
  (0x333D2A, 0x005E83),
  (0x333D2F, 0x005E81),
  (0x333D42, 0x007D43),
  (0x333D48, 0x005F3A),
  (0x333D4C, 0x007030),
  (0x333D54, 0x004EFD),
  (0x333D5C, 0x008FEC),
  (0x333D6A, 0x004677),
  (0x333D73, 0x0038F2),
  (0x333D75, 0x005FB3),
  (0x333D78, 0x0038FA),
  (0x333D7E, 0x008A8C),
  (0x333E33, 0x003902),
  (0x333E46, 0x006119),
  (0x333E4B, 0x0060A6),
  (0x333E4F, 0x006102),
  (0x333E56, 0x004F60),
  (0x333E61, 0x022663),
  (0x333E64, 0x0060D6),
  (0x333E6B, 0x0060A5),
  (0x333E7D, 0x007652_0226B0),
  (0x333F22, 0x006168),
  (0x333F24, 0x007718),
  (0x333F34, 0x00621A),
  (0x333F3F, 0x0051F4),
  (0x333F55, 0x005B3E),
  (0x333F58, 0x0061F4),
  (0x333F5B, 0x006133),
  (0x334045, 0x00629B),
  (0x33404F, 0x006299_0062D5),
  (0x334131, 0x006425),
  (0x33417E, 0x00629E),
  (0x33422A, 0x0062E1),
  (0x33423D, 0x0053CE),
  (0x334243, 0x0052B9_0279FF),
  (0x334249, 0x00654D),
  (0x334256, 0x006B5B),
  (0x334260, 0x0089D4),
  (0x334270, 0x0065C2),
  (0x334272, 0x0065E1),
  (0x334277, 0x0065EF),
  (0x33427C, 0x003AFA),
  (0x33432E, 0x003B20_00664B),
  (0x334339, 0x00591D),
  (0x33433E, 0x0095C7),
  (0x334342, 0x007156),
  (0x334349, 0x006B77),
  (0x334351, 0x009EAF),
  (0x334357, 0x006702),
  (0x334368, 0x0079EB_005932),
  (0x334425, 0x0076C3),
  (0x33442D, 0x0068A5),
  (0x334432, 0x003A00),
  (0x33443A, 0x0067E4),
  (0x334441, 0x006801),
  (0x334449, 0x006144),
  (0x334467, 0x0068C3),
  (0x334476, 0x00693E),
  (0x33447D, 0x005353),
  (0x334527, 0x006918),
  (0x334529, 0x008265),
  (0x334535, 0x0069C0),
  (0x334541, 0x006A4A),
  (0x33454C, 0x003BCD),
  (0x334550, 0x007F47),
  (0x334553, 0x003BD0),
  (0x334559, 0x0048AA),
  (0x33456D, 0x00826A),
  (0x334574, 0x008A22),
  (0x334621, 0x008B99),
  (0x334623, 0x003C4F),
  (0x33462B, 0x003C55),
  (0x334633, 0x006B8B_007A19),
  (0x33463C, 0x006BBB),
  (0x33464A, 0x003C9C),
  (0x334665, 0x006C61),
  (0x33466A, 0x003CC8),
  (0x334674, 0x0076C5),
  (0x33467A, 0x006CA1),
  (0x334729, 0x006E2B_003CD2),
  (0x334730, 0x006E5F),
  (0x334735, 0x006E22),
  (0x334737, 0x006CBF),
  (0x33473B, 0x003CC5),
  (0x334740, 0x006D1A),
  (0x33474A, 0x006D1F),
  (0x334755, 0x006FEC),
  (0x334759, 0x003D03),
  (0x33475E, 0x006FB9_0060BD),
  (0x33476F, 0x006D44_005A6C),
  (0x33477B, 0x00904A),
  (0x33483B, 0x006CDD_003CD1),
  (0x33483E, 0x003CBB),
  (0x334844, 0x023EAF),
  (0x334849, 0x003D1E),
  (0x33485E, 0x0067D2),
  (0x334877, 0x006F87),
  (0x334928, 0x006FF5),
  (0x33492E, 0x006F81),
  (0x33494A, 0x0070D6),
  (0x334964, 0x003DCA),
  (0x334968, 0x007133_003DD9_00934A),
  (0x334971, 0x003DD6),
  (0x334A28, 0x0091BC),
  (0x334A2C, 0x005911),
  (0x334A58, 0x0089DD),
  (0x334B36, 0x0073CF),
  (0x334B4D, 0x0073E1),
  (0x334B54, 0x003ECE_024908),
  (0x334B71, 0x007501),
  (0x334C2C, 0x00754D),
  (0x334C36, 0x00753B_008E6F),
  (0x334C3E, 0x008E08),
  (0x334C68, 0x007645),
  (0x334C76, 0x007592),
  (0x334C7B, 0x00767A_024F37),
  (0x334D21, 0x003FDD),
  (0x334D62, 0x004079),
  (0x334E35, 0x0040A1),
  (0x334E37, 0x00784E),
  (0x334E54, 0x007CA6),
  (0x334E61, 0x004115),
  (0x334E73, 0x0079A5),
  (0x334E77, 0x004100),
  (0x334F37, 0x005EE9),
  (0x334F3A, 0x007A49_004112),
  (0x334F59, 0x007A93),
  (0x334F5D, 0x02145F_007A91),
  (0x334F6E, 0x006746),
  (0x334F71, 0x0054B2),
  (0x334F7A, 0x0044AD),
  (0x33502A, 0x009257_00724B),
  (0x33503A, 0x02F963),
  (0x335043, 0x005142),
  (0x33505D, 0x0257B9),
  (0x335065, 0x007A45),
  (0x33512E, 0x007E8D),
  (0x33513B, 0x0221C1_007D4C),
  (0x335147, 0x007EEE),
  (0x33514A, 0x007E5B),
  (0x33514C, 0x007DD1),
  (0x33515C, 0x007DAB),
  (0x33516B, 0x007DD0),
  (0x33516D, 0x006374_025FBA),
  (0x335172, 0x007D89),
  (0x335175, 0x007E4B_0042F2),
  (0x335223, 0x007E8E),
  (0x335228, 0x0094B5),
  (0x33522C, 0x004350_007F53),
  (0x335230, 0x007F6E),
  (0x335234, 0x0099E1),
  (0x335238, 0x008989),
  (0x33523F, 0x008B71),
  (0x335241, 0x004B7D),
  (0x335245, 0x004379),
  (0x335259, 0x007E59),
  (0x33525B, 0x0071FF),
  (0x33525D, 0x0264B1),
  (0x335264, 0x00754A),
  (0x335276, 0x008061),
  (0x335278, 0x008040),
  (0x335322, 0x02661F),
  (0x335333, 0x0080BB),
  (0x335336, 0x00991A),
  (0x335338, 0x0063F9),
  (0x33533F, 0x005B61),
  (0x335347, 0x0081D9_0043FB),
  (0x33534D, 0x004611),
  (0x33536E, 0x02689A),
  (0x33537C, 0x004421_009AD5),
  (0x33542B, 0x004453),
  (0x335445, 0x0067C1_008221),
  (0x335461, 0x006CD6),
  (0x335561, 0x008462_0044B1_004556_0051A1),
  (0x335568, 0x008406),
  (0x33556E, 0x004543),
  (0x335575, 0x0044D7),
  (0x335577, 0x008602),
  (0x335629, 0x005170),
  (0x33562C, 0x0085F7),
  (0x33562F, 0x0085AB),
  (0x335631, 0x0084FA),
  (0x335635, 0x0085AC_027009),
  (0x335644, 0x00458B),
  (0x33564B, 0x00865E),
  (0x335652, 0x0087C1),
  (0x335654, 0x0045A3),
  (0x33567A, 0x009C15),
  (0x33567C, 0x008671),
  (0x33572E, 0x00880E),
  (0x335730, 0x0045EB),
  (0x335738, 0x00880F),
  (0x33573D, 0x0087F8),
  (0x335741, 0x008745),
  (0x335749, 0x004619),
  (0x335760, 0x0088E0),
  (0x335762, 0x0042E0),
  (0x33576B, 0x0088F5),
  (0x335772, 0x008943_0088B4),
  (0x335776, 0x0088ED),
  (0x33577E, 0x0085CD),
  (0x335821, 0x0097C8),
  (0x335827, 0x027803),
  (0x335830, 0x00658D),
  (0x335834, 0x0089E7),
  (0x33584B, 0x0046E6),
  (0x335871, 0x008AA4),
  (0x335932, 0x00614A_0046E7),
  (0x335936, 0x0046BA),
  (0x33593D, 0x027B58),
  (0x335941, 0x0054D7),
  (0x33594C, 0x008A8F),
  (0x335955, 0x00473B),
  (0x335957, 0x004742_008C4A),
  (0x33596E, 0x00477A),
  (0x335A30, 0x004768),
  (0x335A40, 0x008D1C),
  (0x335A5F, 0x0284AA),
  (0x335A69, 0x028106),
  (0x335A70, 0x0079B8),
  (0x335A7B, 0x008E28),
  (0x335B43, 0x004856),
  (0x335B4B, 0x008F3A),
  (0x335B60, 0x008F9D),
  (0x335B70, 0x005EF8),
  (0x335B74, 0x0048A0),
  (0x335C35, 0x00488A),
  (0x335C4F, 0x028556_00905F),
  (0x335C63, 0x0090AB),
  (0x335C66, 0x0048CC_0090DE),
  (0x335C6F, 0x0048DE),
  (0x335D23, 0x008A76),
  (0x335D30, 0x005ABF),
  (0x335D3B, 0x0057DC),
  (0x335D4C, 0x00929E),
  (0x335D56, 0x0052FE),
  (0x335D64, 0x0092ED),
  (0x335D6A, 0x02899F),
  (0x335E21, 0x009221),
  (0x335E28, 0x0093BB),
  (0x335E2F, 0x005257),
  (0x335E3A, 0x004965),
  (0x335E3D, 0x009244),
  (0x335E42, 0x009452),
  (0x335E63, 0x0049A8),
  (0x335F2F, 0x028E81),
  (0x335F32, 0x009638),
  (0x335F34, 0x0090C4),
  (0x335F3D, 0x0096B7),
  (0x335F43, 0x009D08),
  (0x335F49, 0x009D70),
  (0x335F4B, 0x00894D),
  (0x335F4E, 0x003560),
  (0x335F6F, 0x0290B3),
  (0x335F73, 0x009759),
  (0x335F75, 0x004FC8),
  (0x33602F, 0x008F41),
  (0x336054, 0x00985A),
  (0x336058, 0x009855),
  (0x33605C, 0x004B03),
  (0x336062, 0x0098C3),
  (0x336065, 0x009951),
  (0x33606E, 0x004B4B),
  (0x336071, 0x004369),
  (0x33612D, 0x006EA4),
  (0x33612F, 0x004B88),
  (0x336144, 0x00482E),
  (0x336147, 0x004B83),
  (0x336158, 0x004AEB_004BDD_008EB0),
  (0x336162, 0x009A23),
  (0x336165, 0x004C11),
  (0x33616B, 0x004C1C),
  (0x33616E, 0x004C1F),
  (0x336179, 0x009C7B),
  (0x33617C, 0x029F1E),
  (0x336241, 0x004CD8),
  (0x336246, 0x0096BA),
  (0x336256, 0x004D21),
  (0x33625E, 0x009EAA_008534),
  (0x336275, 0x0076BC),
  (0x33627D, 0x006589),
  (0x336321, 0x006B6F),
  (0x33632B, 0x007ADC),
  (0x336B33, 0x00524F),
  (0x336C6B, 0x006031),
  (0x336D34, 0x005332),
  (0x336D4C, 0x00353D),
  (0x336D52, 0x00353E),
  (0x336D66, 0x005D16),
  (0x337345, 0x009F67),
  (0x337542, 0x003639),
  (0x33784C, 0x00572B),
  (0x342234, 0x004678),
  (0x342421, 0x005CF2),
  (0x342439, 0x0037D2),
  (0x342453, 0x005CBD),
  (0x342525, 0x0037E7),
  (0x34254F, 0x003802),
  (0x342553, 0x003812),
  (0x342636, 0x00381C),
  (0x342867, 0x003886),
  (0x34292E, 0x0053CE),
  (0x342945, 0x0038AA),
  (0x342C7A, 0x006139),
  (0x342F30, 0x00394E),
  (0x343144, 0x006508),
  (0x343250, 0x00693E),
  (0x343337, 0x00652F),
  (0x343435, 0x0039FF),
  (0x34345C, 0x0064AF),
  (0x34357E, 0x006530),
  (0x34362D, 0x003A7A),
  (0x34376F, 0x003AE4),
  (0x343831, 0x006685),
  (0x343870, 0x007156),
  (0x343875, 0x005FDE),
  (0x34393E, 0x003B29),
  (0x343967, 0x0053C3),
  (0x343A33, 0x0080AD),
  (0x343A5B, 0x00572C),
  (0x343A60, 0x0067C1),
  (0x343B3C, 0x003B72),
  (0x343D72, 0x00696E),
  (0x343E38, 0x007BDA),
  (0x344138, 0x008022),
  (0x344177, 0x008264),
  (0x34417D, 0x006A98),
  (0x344350, 0x003BEA),
  (0x344727, 0x006C4E),
  (0x344766, 0x0051BA),
  (0x344851, 0x006D3C),
  (0x34492F, 0x006D34),
  (0x344960, 0x003CC3),
  (0x344F53, 0x003D78),
  (0x345029, 0x007069),
  (0x34506D, 0x003E00),
  (0x345175, 0x007162),
  (0x345452, 0x007118),
  (0x34555F, 0x003E2F),
  (0x345A78, 0x00F9CC),
  (0x345D60, 0x024C65),
  (0x345D6B, 0x00756D),
  (0x345E3B, 0x0080AC),
  (0x345E47, 0x0075FE),
  (0x345F7E, 0x00761D),
  (0x346126, 0x006900),
  (0x34623F, 0x004049),
  (0x346250, 0x0043BE),
  (0x346346, 0x009399),
  (0x34635C, 0x0078F8),
  (0x346452, 0x0040E9),
  (0x34652B, 0x0040A5),
  (0x346622, 0x00589D),
  (0x34682A, 0x007C7C),
  (0x346850, 0x004160),
  (0x346A7C, 0x007B42),
  (0x346B49, 0x007B70),
  (0x346C42, 0x00500B),
  (0x346E6B, 0x007C1B),
  (0x34704A, 0x0042E1_0042B6),
  (0x347052, 0x0042D5),
  (0x34706D, 0x0042E7),
  (0x34715A, 0x007E1A),
  (0x347162, 0x0042DC),
  (0x347328, 0x00431B),
  (0x34737A, 0x004348),
  (0x347431, 0x0058DC),
  (0x347529, 0x02635D),
  (0x34756A, 0x007FE5),
  (0x34757C, 0x004393),
  (0x34782A, 0x0090C5),
  (0x347872, 0x006B96),
  (0x347A74, 0x008204),
  (0x347D24, 0x0083C7),
  (0x347D5F, 0x0044F7),
  (0x347E5A, 0x0044FF),
  (0x352223, 0x0053D4),
  (0x35233B, 0x004551),
  (0x352574, 0x0083B7),
  (0x352A34, 0x0045FE),
  (0x352A3A, 0x0045BD),
  (0x352A6D, 0x0045BB),
  (0x352B54, 0x0045CF),
  (0x352B63, 0x0045EA),
  (0x352C7A, 0x00460A),
  (0x352D44, 0x004610),
  (0x352D4A, 0x004F17),
  (0x352E42, 0x004665),
  (0x352F2B, 0x004657),
  (0x35323A, 0x004709),
  (0x353261, 0x0046DB),
  (0x35337D, 0x0046D1),
  (0x35344D, 0x008B5B),
  (0x35347B, 0x008B2D),
  (0x35357A, 0x027C9E),
  (0x35376B, 0x0047A3),
  (0x353871, 0x004F01),
  (0x353963, 0x0047DA),
  (0x353A46, 0x0047DE),
  (0x353B51, 0x008F27),
  (0x353B64, 0x004859),
  (0x353F39, 0x0048E3),
  (0x353F55, 0x0048D1),
  (0x354156, 0x0091BE),
  (0x354166, 0x00491B),
  (0x35423F, 0x00491F),
  (0x354525, 0x0096D5),
  (0x35462D, 0x004976),
  (0x35464A, 0x004939),
  (0x354730, 0x004938),
  (0x354B57, 0x006D1B),
  (0x354C47, 0x004A36),
  (0x354C49, 0x004A2B),
  (0x354F34, 0x004ACD),
  (0x355053, 0x0098C8),
  (0x355160, 0x004B2A),
  (0x355174, 0x004B25),
  (0x35522E, 0x004B24),
  (0x355265, 0x004B90),
  (0x355273, 0x004B8B),
  (0x35533D, 0x004B76),
  (0x35543F, 0x004BCE),
  (0x35556C, 0x0049A7),
  (0x35566F, 0x004C44),
  (0x355739, 0x009C76),
  (0x35573F, 0x004C48),
  (0x355747, 0x004C70),
  (0x355756, 0x009C00),
  (0x35583A, 0x004C58),
  (0x355C27, 0x004A03),
  (0x355D5C, 0x008C8E),
  (0x355E76, 0x0082BE),
  (0x356923, 0x003510),
  (0x363D5F, 0x003B15),
  (0x365074, 0x003DAA),
  (0x366874, 0x008074),
  (0x366F2D, 0x004152),
  (0x367529, 0x0041F1),
  (0x36762F, 0x006841),
  (0x373160, 0x0044D2),
  (0x373F50, 0x004638),
  (0x37415E, 0x00468E),
  (0x374766, 0x004748),
  (0x374C5C, 0x0047CC),
  (0x375573, 0x0048E0),
  (0x376879, 0x004AF0),
  (0x377434, 0x004C31),
  (0x393024, 0x0053C1),
  (0x39302D, 0x00534B),
  (0x39303A, 0x005EFC),
  (0x39304C, 0x004E81),
  (0x393052, 0x0065BC),
  (0x393054, 0x020121),
  (0x393057, 0x004E98),
  (0x393076, 0x0050F2),
  (0x393078, 0x009AE3),
  (0x393132, 0x005F7F),
  (0x39314F, 0x005D18),
  (0x393157, 0x0046B1),
  (0x393165, 0x00347A),
  (0x393246, 0x004F1D),
  (0x393323, 0x02F836),
  (0x393330, 0x007B27),
  (0x393368, 0x009B04),
  (0x393421, 0x00528E),
  (0x393428, 0x005227),
  (0x39342E, 0x00351C),
  (0x393439, 0x0061C3),
  (0x39345B, 0x00965E),
  (0x393460, 0x00604A),
  (0x393573, 0x005611),
  (0x393577, 0x009FA2),
  (0x39365A, 0x008AE0),
  (0x39365E, 0x00559E),
  (0x393661, 0x006198),
  (0x393770, 0x0056F2),
  (0x393823, 0x003631),
  (0x393826, 0x003638),
  (0x39383D, 0x0049D5),
  (0x393944, 0x0059B3),
  (0x393978, 0x0036A6),
  (0x393B22, 0x0034C2_003759),
  (0x393B35, 0x005BDB),
  (0x393B39, 0x005BF3),
  (0x393B6B, 0x0037E9_0037C1),
  (0x393B6E, 0x005C97),
  (0x393B78, 0x005CC4),
  (0x393C38, 0x00382A),
  (0x393C47, 0x00383B),
  (0x393C52, 0x008D26),
  (0x393C73, 0x003873),
  (0x393D56, 0x007431),
  (0x393D6F, 0x008907),
  (0x393D75, 0x0060B3),
  (0x393E47, 0x008CC9),
  (0x393E4C, 0x006142),
  (0x393E61, 0x0060AA),
  (0x393E77, 0x003905),
  (0x393E7D, 0x007609),
  (0x393F41, 0x003978),
  (0x393F72, 0x006238),
  (0x394022, 0x006443),
  (0x394042, 0x00646D),
  (0x394067, 0x0039F1),
  (0x394153, 0x003A36),
  (0x39417C, 0x0062E0),
  (0x394243, 0x004FF2),
  (0x39424F, 0x005554),
  (0x394270, 0x003AC5),
  (0x394325, 0x0065FE),
  (0x39432F, 0x003B1C_006644),
  (0x394351, 0x009EB4),
  (0x39442D, 0x009B06),
  (0x39443A, 0x0069CE_0067FA),
  (0x394444, 0x008988),
  (0x39447D, 0x006AC2),
  (0x394527, 0x004802),
  (0x39456D, 0x00826B),
  (0x394576, 0x0238B8),
  (0x394634, 0x006B96),
  (0x39464A, 0x003CAD),
  (0x394726, 0x00576D),
  (0x394735, 0x006C3E),
  (0x39476F, 0x0051C0),
  (0x394824, 0x02F908),
  (0x39483B, 0x009061),
  (0x39485E, 0x004E03),
  (0x39486B, 0x007013),
  (0x39486F, 0x006D2F),
  (0x394926, 0x003D09),
  (0x394928, 0x006D5C),
  (0x394944, 0x006B12),
  (0x394956, 0x00792E),
  (0x394964, 0x0071CC),
  (0x394A29, 0x003DAB),
  (0x394A60, 0x009AE6),
  (0x394C2D, 0x007546),
  (0x394C37, 0x007568),
  (0x394D49, 0x00405E),
  (0x394E28, 0x004096),
  (0x394E3D, 0x006900),
  (0x394E6C, 0x00546A),
  (0x394F31, 0x00412C),
  (0x394F4C, 0x00499F),
  (0x394F59, 0x0041AB_005800),
  (0x394F61, 0x0041BB),
  (0x39502B, 0x0041F3),
  (0x395050, 0x007BED),
  (0x39505B, 0x009B3B),
  (0x395063, 0x009939),
  (0x395065, 0x005EB7),
  (0x39507B, 0x004307),
  (0x39516A, 0x004656),
  (0x395179, 0x007D75),
  (0x395230, 0x005BD8),
  (0x39525B, 0x0066DC),
  (0x39526B, 0x007094),
  (0x395272, 0x00805A),
  (0x395277, 0x00806B),
  (0x39527A, 0x0043CA),
  (0x395321, 0x0043CB),
  (0x395435, 0x0065E7),
  (0x395438, 0x00445B),
  (0x395477, 0x0085A6),
  (0x39552B, 0x0044AC),
  (0x39553C, 0x005D0B),
  (0x395543, 0x0083CC),
  (0x395550, 0x003638),
  (0x395564, 0x006726),
  (0x395568, 0x0083DD),
  (0x395577, 0x00854B),
  (0x39557E, 0x00464F),
  (0x395624, 0x027141),
  (0x395631, 0x0079C7),
  (0x39563C, 0x0056CC),
  (0x395643, 0x004E55),
  (0x395652, 0x0087A1),
  (0x395726, 0x00878E),
  (0x395766, 0x004631),
  (0x395773, 0x007DAF),
  (0x395821, 0x0097E4),
  (0x395824, 0x005365),
  (0x395829, 0x0069FB),
  (0x39586E, 0x004931),
  (0x39593F, 0x008A3C),
  (0x395A2F, 0x0058F2),
  (0x395A36, 0x00983C),
  (0x395A5F, 0x0047F1),
  (0x395A7B, 0x008E2A),
  (0x395B64, 0x004889),
  (0x395C4E, 0x0048AF),
  (0x395C5B, 0x008FB9),
  (0x395D23, 0x0091BB),
  (0x395D38, 0x025F36),
  (0x395E2F, 0x005277),
  (0x395E3D, 0x009295),
  (0x395E42, 0x009274),
  (0x395E69, 0x0095D7),
  (0x395E6F, 0x007A7D),
  (0x395E71, 0x005742_009641),
  (0x395F25, 0x0049D9),
  (0x395F2A, 0x004F8C),
  (0x395F34, 0x00969F),
  (0x395F41, 0x0096E7),
  (0x395F49, 0x005F6B),
  (0x395F4E, 0x004A07),
  (0x395F67, 0x00971A_008987),
  (0x395F6F, 0x004A29),
  (0x39602E, 0x0069A6),
  (0x39605B, 0x0051E8),
  (0x396062, 0x0098D8),
  (0x396074, 0x0055B0),
  (0x39612C, 0x009A6C),
  (0x396156, 0x004839),
  (0x396160, 0x004987),
  (0x396167, 0x009B2A),
  (0x39616F, 0x004C28),
  (0x396179, 0x005C20),
  (0x396223, 0x009BFD),
  (0x396229, 0x009C63),
  (0x396246, 0x004CFD),
  (0x396258, 0x0068BA),
  (0x39625E, 0x009EBA),
  (0x396268, 0x008109),
  (0x396B2F, 0x0206EA),
  (0x396B33, 0x00524F),
  (0x396C6B, 0x0060A4),
  (0x397D57, 0x0036B7),
  (0x397D74, 0x00373B),
  (0x397E31, 0x003738),
  (0x3A2234, 0x003776),
  (0x3A2560, 0x0037E5),
  (0x3A267C, 0x00385B),
  (0x3A2846, 0x003882),
  (0x3A284C, 0x0053A9),
  (0x3A2F7C, 0x0064C0),
  (0x3A376F, 0x003AE4),
  (0x3A3B7D, 0x006AAF),
  (0x3A4034, 0x006855),
  (0x3A445F, 0x006F81),
  (0x3A4A6B, 0x006EA6),
  (0x3A4D62, 0x003D15),
  (0x3A5175, 0x00348C),
  (0x3A5C25, 0x0053E1),
  (0x3A5E25, 0x0058A5),
  (0x3A6A7C, 0x007BEA),
  (0x3A726D, 0x004315),
  (0x3A7328, 0x008B20),
  (0x3A7623, 0x00439A),
  (0x3A7835, 0x008141),
  (0x3A787D, 0x0080FC),
  (0x3A7970, 0x0081D5),
  (0x3A7A74, 0x008204),
  (0x3A7B39, 0x00446D),
  (0x3B287E, 0x0045C8),
  (0x3B2D44, 0x008842),
  (0x3B3377, 0x004701),
  (0x3B3454, 0x004714),
  (0x3B3554, 0x004747_008C63),
  (0x3B3922, 0x008DB5),
  (0x3B3954, 0x0047B3),
  (0x3B3A57, 0x004801),
  (0x3B3B7B, 0x004851),
  (0x3B415F, 0x005BB7),
  (0x3B453E, 0x009247),
  (0x3B4D37, 0x004A51),
  (0x3B517E, 0x004B2D),
  (0x3B563E, 0x004C23),
  (0x3B5772, 0x004C54),
  (0x3B5949, 0x004C73),
  (0x3B5F4F, 0x004D89),
  (0x3C3954, 0x003A86),
  (0x3D2636, 0x004385),
  (0x3D434E, 0x0046D6),
  (0x3F302D, 0x00353A),
  (0x3F3078, 0x005023),
  (0x3F3140, 0x0059B3),
  (0x3F332C, 0x0044E6),
  (0x3F3378, 0x005259),
  (0x3F3421, 0x005294),
  (0x3F3434, 0x0050CD),
  (0x3F3470, 0x005DFB),
  (0x3F347D, 0x020B05),
  (0x3F3573, 0x008B3C),
  (0x3F3639, 0x00545A),
  (0x3F3644, 0x0035D6),
  (0x3F373E, 0x005637),
  (0x3F3753, 0x005694),
  (0x3F3768, 0x009025),
  (0x3F376F, 0x0056D7),
  (0x3F3B22, 0x005BBC),
  (0x3F3B32, 0x003755),
  (0x3F3B52, 0x003799),
  (0x3F3B67, 0x0037BF),
  (0x3F3D27, 0x005EC3),
  (0x3F3D40, 0x0038AE),
  (0x3F3D6F, 0x008986),
  (0x3F3E47, 0x005379),
  (0x3F3F24, 0x00613C),
  (0x3F3F72, 0x006237),
  (0x3F404C, 0x022AB4),
  (0x3F404F, 0x00638A),
  (0x3F407C, 0x003A17),
  (0x3F4147, 0x0063F7),
  (0x3F4174, 0x003A23),
  (0x3F417C, 0x003A3F),
  (0x3F422A, 0x003A2F),
  (0x3F4236, 0x003A66),
  (0x3F423C, 0x005902),
  (0x3F424F, 0x00555F),
  (0x3F433B, 0x006673),
  (0x3F4345, 0x003B25),
  (0x3F4349, 0x020ABE),
  (0x3F4425, 0x003B8E),
  (0x3F443A, 0x0067FB),
  (0x3F4472, 0x007881),
  (0x3F4538, 0x003C09),
  (0x3F456D, 0x008263),
  (0x3F4621, 0x009A69),
  (0x3F4625, 0x006B69),
  (0x3F4629, 0x004E97),
  (0x3F462B, 0x005E30),
  (0x3F463F, 0x004758),
  (0x3F4643, 0x006BCE),
  (0x3F4752, 0x003D07),
  (0x3F476F, 0x0051C8),
  (0x3F484A, 0x005D60),
  (0x3F486F, 0x007D5C),
  (0x3F4926, 0x006E08),
  (0x3F4945, 0x00707E),
  (0x3F494D, 0x003DA4),
  (0x3F4956, 0x007832),
  (0x3F4967, 0x003DD4),
  (0x3F4974, 0x004A84),
  (0x3F4A21, 0x0229FE),
  (0x3F4A28, 0x009DF0),
  (0x3F4A2D, 0x003E02),
  (0x3F4A60, 0x007266),
  (0x3F4B4D, 0x004945),
  (0x3F4C2D, 0x007542),
  (0x3F4D3C, 0x004006),
  (0x3F4F51, 0x0041A5),
  (0x3F502A, 0x004224),
  (0x3F5079, 0x003556),
  (0x3F514C, 0x007EFF),
  (0x3F516D, 0x006403),
  (0x3F5228, 0x0076CB),
  (0x3F535A, 0x00440C),
  (0x3F5467, 0x0082E5),
  (0x3F5524, 0x00450B),
  (0x3F553C, 0x004522),
  (0x3F5550, 0x00585F),
  (0x3F5564, 0x0061DE),
  (0x3F5631, 0x00517F),
  (0x3F563C, 0x007526),
  (0x3F5645, 0x00458D),
  (0x3F5647, 0x00458F),
  (0x3F5652, 0x004607),
  (0x3F5957, 0x00473F),
  (0x3F5959, 0x008276),
  (0x3F5B79, 0x0038A0),
  (0x3F5C29, 0x004483),
  (0x3F5C36, 0x00885F),
  (0x3F5E3D, 0x00496B),
  (0x3F5E42, 0x009373),
  (0x3F5E60, 0x009586),
  (0x3F5F34, 0x028EF6_006B9E),
  (0x3F5F39, 0x0048AB),
  (0x3F5F49, 0x007431),
  (0x3F6074, 0x004B38),
  (0x3F612A, 0x004ADD),
  (0x3F614C, 0x0099C5),
  (0x3F6179, 0x005C1F),
  (0x3F6223, 0x004C39),
  (0x3F6229, 0x004C67),
  (0x3F6230, 0x004CAB),
  (0x3F625E, 0x009EAB),
  (0x3F6A26, 0x0051B4),
  (0x3F7545, 0x00363B),
  (0x402467, 0x005D2F),
  (0x403250, 0x003A35),
  (0x403531, 0x003A4E),
  (0x403732, 0x003ACB),
  (0x404041, 0x003C05),
  (0x404344, 0x003B86),
  (0x404653, 0x006C0E),
  (0x405544, 0x00436D),
  (0x405C25, 0x004967),
  (0x405E2C, 0x005694),
  (0x406850, 0x00413A),
  (0x407144, 0x004304),
  (0x407328, 0x00430A),
  (0x407D6A, 0x008323),
  (0x407E2C, 0x004498),
  (0x412564, 0x00455A),
  (0x41312B, 0x004066),
  (0x413954, 0x0047B8),
  (0x414438, 0x004951),
  (0x414B74, 0x004A26),
  (0x414D37, 0x00484C),
  (0x422225, 0x003FAF),
  (0x434157, 0x004681),
  (0x453051, 0x008D30),
  (0x453336, 0x005B82),
  (0x453378, 0x005231),
  (0x453421, 0x020806),
  (0x45347D, 0x003558),
  (0x453666, 0x005AD0),
  (0x453755, 0x0056AE),
  (0x453768, 0x005EFB),
  (0x45384A, 0x00362F),
  (0x453A6E, 0x003756),
  (0x453B42, 0x003777),
  (0x453B79, 0x021EC5),
  (0x453C41, 0x0048C8),
  (0x453D53, 0x005F66),
  (0x453D6A, 0x003776),
  (0x453E3D, 0x00391F),
  (0x453F6D, 0x0052E0),
  (0x454146, 0x0063DB),
  (0x454244, 0x00654E),
  (0x45426A, 0x003AC4),
  (0x454334, 0x003AF3),
  (0x454349, 0x006B74),
  (0x45456D, 0x006A10),
  (0x45462B, 0x007688),
  (0x45465B, 0x006C2F),
  (0x454738, 0x006CFA),
  (0x454774, 0x006E15),
  (0x454A28, 0x003DFC),
  (0x454A2C, 0x003E09),
  (0x454B21, 0x0247D7),
  (0x454B7A, 0x007523),
  (0x454C31, 0x003F56),
  (0x454C3C, 0x02320D),
  (0x454C69, 0x024E76),
  (0x454C7B, 0x00767A),
  (0x454E43, 0x00788C),
  (0x454E75, 0x007984),
  (0x454F41, 0x004B6B),
  (0x454F45, 0x009896),
  (0x454F62, 0x0047BC),
  (0x45505A, 0x004147),
  (0x455122, 0x007D0D),
  (0x455148, 0x0042DE),
  (0x455151, 0x0042B7),
  (0x45515C, 0x007F10),
  (0x455164, 0x0053BF),
  (0x45516A, 0x004640),
  (0x455271, 0x0043B9),
  (0x455330, 0x00652F),
  (0x45543C, 0x00445E),
  (0x455473, 0x003843),
  (0x455564, 0x006FDB),
  (0x455649, 0x00865A),
  (0x45564B, 0x00865E),
  (0x455655, 0x0045AB),
  (0x455663, 0x008716),
  (0x455746, 0x00672F),
  (0x455837, 0x008BA0),
  (0x455847, 0x008A25),
  (0x455A29, 0x02598E),
  (0x455A2D, 0x00477E),
  (0x455A79, 0x00481E),
  (0x455B48, 0x006689),
  (0x455B6A, 0x008FCE),
  (0x455C53, 0x0285BD),
  (0x455C70, 0x0090F7),
  (0x455D29, 0x0048E8),
  (0x455D3E, 0x009485),
  (0x455E21, 0x00953A),
  (0x455E60, 0x0095EB),
  (0x455F35, 0x009668),
  (0x455F6B, 0x004A16),
  (0x456036, 0x0097FF),
  (0x45604E, 0x009854),
  (0x456064, 0x009963),
  (0x45606B, 0x0098F0),
  (0x45606F, 0x00991D),
  (0x456076, 0x009980),
  (0x456149, 0x004BC1),
  (0x456251, 0x00400B),
  (0x456260, 0x005E7A),
  (0x456275, 0x009F14),
  (0x456278, 0x004455),
  (0x45627D, 0x004122),
  (0x45796B, 0x00370F),
  (0x46284C, 0x005ED0),
  (0x462C3E, 0x00396B),
  (0x46352B, 0x003A36),
  (0x466074, 0x0076B2),
  (0x466B49, 0x0041E5),
  (0x472C4D, 0x008801),
  (0x472E34, 0x004620),
  (0x473422, 0x008C2A),
  (0x47347B, 0x008C2B),
  (0x473539, 0x0056D0),
  (0x47366F, 0x008D4D),
  (0x473B31, 0x00487A),
  (0x474236, 0x00949A),
  (0x474270, 0x0094BC),
  (0x474931, 0x0095F6),
  (0x474E5C, 0x0097DE),
  (0x475174, 0x0044F9),
  (0x475222, 0x009957),
  (0x47577A, 0x009BD6),
  (0x47594E, 0x009C3A),
  (0x475C22, 0x02A1AA),
  (0x475D2C, 0x004D0E),
  (0x475D3C, 0x006EF7),
  (0x475F79, 0x004774),
  (0x475F7B, 0x004AA0),
  (0x4B3021, 0x0058F1),
  (0x4B302F, 0x003400),
  (0x4B3050, 0x004E8A_005F10_006275),
  (0x4B3057, 0x020025),
  (0x4B306C, 0x0096E0),
  (0x4B306E, 0x00F9A8),
  (0x4B3072, 0x004EED),
  (0x4B312D, 0x004F2B),
  (0x4B3130, 0x004FAB),
  (0x4B3144, 0x004F36),
  (0x4B314C, 0x020860),
  (0x4B316A, 0x00723C),
  (0x4B3178, 0x005029),
  (0x4B317C, 0x005024),
  (0x4B3231, 0x004EEE),
  (0x4B3248, 0x0050B2),
  (0x4B324E, 0x0050E7),
  (0x4B325F, 0x0050BB),
  (0x4B3321, 0x005185_005168),
  (0x4B3324, 0x00634C),
  (0x4B333E, 0x00F92E),
  (0x4B3351, 0x005204),
  (0x4B3354, 0x0082C5_00520B),
  (0x4B335B, 0x00522B),
  (0x4B3421, 0x005263),
  (0x4B3435, 0x0052B4_0052F2),
  (0x4B3439, 0x02F827),
  (0x4B346B, 0x005DF5),
  (0x4B3474, 0x00537F),
  (0x4B356A, 0x0055EC),
  (0x4B357B, 0x0054CC),
  (0x4B3622, 0x008C18),
  (0x4B3642, 0x008BF6),
  (0x4B3666, 0x005A1A),
  (0x4B3668, 0x005358),
  (0x4B372C, 0x02F84C),
  (0x4B372F, 0x005C1C),
  (0x4B3749, 0x020F96),
  (0x4B374C, 0x005662),
  (0x4B3758, 0x0056A5),
  (0x4B375A, 0x0053B3),
  (0x4B3768, 0x0211B3),
  (0x4B376F, 0x0056FD),
  (0x4B3772, 0x005186_0056E3_0056F3),
  (0x4B382E, 0x0057C0),
  (0x4B3850, 0x005861),
  (0x4B3853, 0x00586D),
  (0x4B385E, 0x005897),
  (0x4B3864, 0x0058C7),
  (0x4B3869, 0x005727),
  (0x4B386C, 0x005841),
  (0x4B3870, 0x0058CC_0057BB),
  (0x4B387D, 0x00591B),
  (0x4B3938, 0x005942),
  (0x4B393A, 0x005F09),
  (0x4B393E, 0x005965_005333),
  (0x4B3974, 0x005B22),
  (0x4B397B, 0x005A2F),
  (0x4B3A2F, 0x00805F),
  (0x4B3A47, 0x0088CA),
  (0x4B3A49, 0x005B37),
  (0x4B3B22, 0x0051A6),
  (0x4B3B31, 0x005B9F),
  (0x4B3B37, 0x0051A9),
  (0x4B3B43, 0x005BFE),
  (0x4B3B52, 0x008132),
  (0x4B3B61, 0x005C64),
  (0x4B3B67, 0x006B67),
  (0x4B3B79, 0x005D8C),
  (0x4B3B7E, 0x005D15),
  (0x4B3C21, 0x005D5C),
  (0x4B3C23, 0x005CE5),
  (0x4B3C2B, 0x0067C3),
  (0x4B3C2F, 0x005DBA),
  (0x4B3C32, 0x005DD3_005DCC),
  (0x4B3C38, 0x00949C),
  (0x4B3C46, 0x003836),
  (0x4B3C53, 0x005E2F),
  (0x4B3C5E, 0x005E64),
  (0x4B3C65, 0x00412D),
  (0x4B3D24, 0x0053A6),
  (0x4B3D27, 0x005EC3),
  (0x4B3D2A, 0x005EE3),
  (0x4B3D2C, 0x0053B0),
  (0x4B3D2F, 0x005EF0),
  (0x4B3D4B, 0x005F3E_005F25),
  (0x4B3D50, 0x005F5D),
  (0x4B3D53, 0x005F66),
  (0x4B3D5C, 0x005F83),
  (0x4B3D67, 0x005F84),
  (0x4B3E2A, 0x006035),
  (0x4B3E40, 0x006046),
  (0x4B3E5B, 0x0060C5),
  (0x4B3E7E, 0x0060A9),
  (0x4B3F40, 0x00618E),
  (0x4B3F4A, 0x005FDC_00601C),
  (0x4B3F50, 0x0061CA_0061D1),
  (0x4B3F53, 0x0061F2),
  (0x4B3F6E, 0x006226),
  (0x4B3F74, 0x00623B),
  (0x4B403D, 0x006299),
  (0x4B4046, 0x00629C),
  (0x4B4049, 0x0062D0),
  (0x4B4053, 0x00627A),
  (0x4B4066, 0x0062F4),
  (0x4B412A, 0x006323),
  (0x4B4135, 0x006368),
  (0x4B4146, 0x006362_00633F),
  (0x4B417C, 0x003A40),
  (0x4B4235, 0x006442_00643A),
  (0x4B423A, 0x0064B9),
  (0x4B4339, 0x00FA12),
  (0x4B4347, 0x0066C1),
  (0x4B434D, 0x00663F),
  (0x4B4352, 0x0066F5),
  (0x4B4358, 0x0066FD),
  (0x4B442D, 0x0067D7),
  (0x4B4444, 0x008988),
  (0x4B4456, 0x006813),
  (0x4B4472, 0x003BE6),
  (0x4B4476, 0x00685F),
  (0x4B4534, 0x006994),
  (0x4B4537, 0x006804),
  (0x4B4544, 0x0069D8_0069EA),
  (0x4B4553, 0x006955),
  (0x4B4556, 0x006A2A),
  (0x4B4559, 0x009792),
  (0x4B4561, 0x00691C),
  (0x4B4569, 0x006A71),
  (0x4B456C, 0x006ADB_00822E),
  (0x4B456F, 0x00685C_006A29),
  (0x4B4621, 0x006B53),
  (0x4B462A, 0x006B74),
  (0x4B462E, 0x006B81),
  (0x4B4638, 0x006BB1),
  (0x4B4655, 0x006C17),
  (0x4B465A, 0x006C32),
  (0x4B4676, 0x006C89),
  (0x4B4741, 0x0051BD),
  (0x4B4759, 0x006D99),
  (0x4B4761, 0x006DF8),
  (0x4B4767, 0x006DB5),
  (0x4B476C, 0x0051C5),
  (0x4B4835, 0x006DA3),
  (0x4B4846, 0x0078C6),
  (0x4B484A, 0x006E13_0051D6_006F91),
  (0x4B4857, 0x006F22_006E80),
  (0x4B485F, 0x006EDE),
  (0x4B4866, 0x006F11),
  (0x4B4874, 0x006FF3),
  (0x4B4921, 0x006CA2),
  (0x4B4925, 0x006FB3),
  (0x4B492B, 0x006FEB),
  (0x4B492E, 0x006E0B),
  (0x4B4931, 0x006E16),
  (0x4B4937, 0x0056A0),
  (0x4B4940, 0x006F45),
  (0x4B4947, 0x007AC3),
  (0x4B496A, 0x00932C_0083F8),
  (0x4B4973, 0x007115),
  (0x4B4975, 0x006427),
  (0x4B4977, 0x007188),
  (0x4B4A2E, 0x0055B6),
  (0x4B4A38, 0x0243D0),
  (0x4B4A3E, 0x007235),
  (0x4B4A45, 0x005C13),
  (0x4B4A62, 0x0072A0),
  (0x4B4A74, 0x00731C),
  (0x4B4A78, 0x0072F0),
  (0x4B4B2B, 0x007363_00731F),
  (0x4B4B3E, 0x00F9AD),
  (0x4B4B63, 0x00749C),
  (0x4B4B71, 0x007F3E),
  (0x4B4B77, 0x005347),
  (0x4B4C2D, 0x003F57),
  (0x4B4C36, 0x007575),
  (0x4B4C3C, 0x007573),
  (0x4B4C51, 0x0075CA),
  (0x4B4C5B, 0x0075F3),
  (0x4B4C67, 0x00761F),
  (0x4B4C79, 0x007672),
  (0x4B4D41, 0x00862F),
  (0x4B4D45, 0x02F940),
  (0x4B4D4F, 0x00771E),
  (0x4B4D56, 0x008846),
  (0x4B4D59, 0x00FA12),
  (0x4B4D73, 0x0066B8),
  (0x4B4E21, 0x007B36),
  (0x4B4E37, 0x00784F),
  (0x4B4E39, 0x005CFA),
  (0x4B4E56, 0x0078FA),
  (0x4B4E5B, 0x00783F),
  (0x4B4E67, 0x0079D8),
  (0x4B4E7B, 0x007985),
  (0x4B4F29, 0x007A50),
  (0x4B4F3C, 0x0079F0),
  (0x4B4F43, 0x007A32),
  (0x4B4F4C, 0x007A4F),
  (0x4B4F7B, 0x007B7A),
  (0x4B5036, 0x007C14),
  (0x4B503B, 0x007C12),
  (0x4B5044, 0x007C27),
  (0x4B5052, 0x007C56),
  (0x4B5061, 0x007CBE),
  (0x4B506C, 0x007CAB),
  (0x4B5137, 0x007D76),
  (0x4B513B, 0x007CF8),
  (0x4B5148, 0x0042C4),
  (0x4B5154, 0x007DF4),
  (0x4B515A, 0x007E01),
  (0x4B5164, 0x00770C),
  (0x4B516A, 0x007EF7),
  (0x4B516D, 0x007DCF_007E26),
  (0x4B5176, 0x007E04),
  (0x4B5179, 0x007E62),
  (0x4B517E, 0x007E92),
  (0x4B5221, 0x007D9A),
  (0x4B5223, 0x007E4A),
  (0x4B5227, 0x006B20),
  (0x4B522B, 0x007F36_008392),
  (0x4B5238, 0x007F87),
  (0x4B523E, 0x00F9AF),
  (0x4B5247, 0x007FAE),
  (0x4B524E, 0x007FCE),
  (0x4B525A, 0x007FFA_0066DC_008002),
  (0x4B526E, 0x008046),
  (0x4B5277, 0x008068),
  (0x4B527B, 0x00807C_008080),
  (0x4B533B, 0x00695C),
  (0x4B5361, 0x0089D2),
  (0x4B5365, 0x008133),
  (0x4B537D, 0x009ACC),
  (0x4B5422, 0x0081D3),
  (0x4B5428, 0x026900),
  (0x4B5434, 0x006319),
  (0x4B5437, 0x00820E),
  (0x4B546D, 0x0082D3),
  (0x4B5521, 0x008332),
  (0x4B552C, 0x008392),
  (0x4B553A, 0x0083C1),
  (0x4B553C, 0x0082B1),
  (0x4B553F, 0x0083BD),
  (0x4B5542, 0x008420),
  (0x4B5564, 0x0077C7),
  (0x4B5629, 0x0085CD),
  (0x4B562B, 0x008535),
  (0x4B5631, 0x0082B8_007C54),
  (0x4B563A, 0x0082A6),
  (0x4B563F, 0x006A98),
  (0x4B5647, 0x0051E6),
  (0x4B566A, 0x008708),
  (0x4B566E, 0x0045EC),
  (0x4B5671, 0x00873B),
  (0x4B5724, 0x0086CD),
  (0x4B5736, 0x00877F),
  (0x4B5740, 0x008827_004609),
  (0x4B5746, 0x008853),
  (0x4B576C, 0x00523E),
  (0x4B5773, 0x007ED4),
  (0x4B577E, 0x007E7F),
  (0x4B5824, 0x00897E),
  (0x4B5826, 0x008983),
  (0x4B5830, 0x00899A),
  (0x4B5832, 0x0089B3),
  (0x4B5871, 0x008AA4),
  (0x4B587A, 0x008ACB),
  (0x4B5936, 0x008B20),
  (0x4B5946, 0x008A33),
  (0x4B594A, 0x008AAD_005909),
  (0x4B5959, 0x007067),
  (0x4B5963, 0x00734F_0072E2),
  (0x4B5973, 0x008D2E),
  (0x4B5A23, 0x00621D),
  (0x4B5A31, 0x008CCE),
  (0x4B5A3B, 0x008D08),
  (0x4B5A4B, 0x008D77),
  (0x4B5A68, 0x008DF5),
  (0x4B5A7E, 0x005C69),
  (0x4B5B29, 0x008E8D),
  (0x4B5B43, 0x008EFD),
  (0x4B5B46, 0x008F0C),
  (0x4B5B52, 0x008F42),
  (0x4B5B55, 0x008EE2),
  (0x4B5B58, 0x008EE3),
  (0x4B5B5E, 0x005F01),
  (0x4B5C32, 0x0284DC),
  (0x4B5C39, 0x009039),
  (0x4B5C47, 0x009059),
  (0x4B5C50, 0x009045),
  (0x4B5C54, 0x008F9F),
  (0x4B5C5B, 0x008FBA),
  (0x4B5C5E, 0x00961D),
  (0x4B5C72, 0x009119),
  (0x4B5C77, 0x009139),
  (0x4B5D2B, 0x009162),
  (0x4B5D34, 0x0091B8),
  (0x4B5D36, 0x0091C6),
  (0x4B5D38, 0x0091C8),
  (0x4B5D42, 0x0091E1),
  (0x4B5D58, 0x00F9B1),
  (0x4B5D65, 0x008217),
  (0x4B5D70, 0x0092AD),
  (0x4B5D7B, 0x00932C),
  (0x4B5E27, 0x0093AD),
  (0x4B5E3D, 0x009421),
  (0x4B5E3F, 0x00922C),
  (0x4B5E5D, 0x0095D4),
  (0x4B5E69, 0x0095A2),
  (0x4B5E6C, 0x028E0F),
  (0x4B5F30, 0x009686),
  (0x4B5F35, 0x006B92),
  (0x4B5F3A, 0x00967A),
  (0x4B5F49, 0x0051CB),
  (0x4B5F4C, 0x009D8F),
  (0x4B5F50, 0x0096E3),
  (0x4B5F58, 0x00F9B2),
  (0x4B5F62, 0x007668),
  (0x4B5F6F, 0x00970A_009751_00FA1C_00975B_00975C),
  (0x4B602D, 0x009771),
  (0x4B6044, 0x00F9B4),
  (0x4B6048, 0x00981A),
  (0x4B6053, 0x029516),
  (0x4B606F, 0x00991D),
  (0x4B6122, 0x00994B),
  (0x4B6130, 0x0099C4),
  (0x4B613F, 0x009A08),
  (0x4B6145, 0x009A12),
  (0x4B6147, 0x0099C6),
  (0x4B614D, 0x009A13),
  (0x4B6159, 0x0081B8),
  (0x4B615F, 0x009AEA),
  (0x4B6167, 0x0095D8_009599),
  (0x4B623B, 0x009D12),
  (0x4B6247, 0x009D2C),
  (0x4B624F, 0x009D49),
  (0x4B6258, 0x0068BA),
  (0x4B625C, 0x009EB8),
  (0x4B6260, 0x009EBD),
  (0x4B6266, 0x009ED2),
  (0x4B6268, 0x009ED9),
  (0x4B6278, 0x009F21),
  (0x4B6324, 0x009F62),
  (0x4B6455, 0x004EB6),
  (0x4B6637, 0x004FE3),
  (0x4B682E, 0x004EC2),
  (0x4B6A22, 0x007F83),
  (0x4B6A26, 0x006C8D),
  (0x4B7421, 0x0056F9),
  (0x4B7577, 0x0057D3),
  (0x4B763D, 0x0057F4),
  (0x4B7874, 0x00590A),
  (0x4B7954, 0x005968),
  (0x4B7E6A, 0x021A1A),
  (0x4C2330, 0x005C53),
  (0x4C233F, 0x005C76),
  (0x4C2532, 0x005D5B),
  (0x4C2539, 0x005D73),
  (0x4C284C, 0x0053A9),
  (0x4C2867, 0x0048D1),
  (0x4C2962, 0x005F4D),
  (0x4C2F61, 0x00622C),
  (0x4C2F7A, 0x00891D),
  (0x4C3474, 0x00631D),
  (0x4C354A, 0x0064B8),
  (0x4C3744, 0x0065D9),
  (0x4C3A33, 0x0080AD),
  (0x4C3A55, 0x006741),
  (0x4C3A5B, 0x006859),
  (0x4C3B22, 0x006860),
  (0x4C3B31, 0x006798),
  (0x4C3B60, 0x006764),
  (0x4C3F68, 0x0069C7),
  (0x4C3F7A, 0x006922),
  (0x4C4146, 0x008538),
  (0x4C4177, 0x008223),
  (0x4C4333, 0x006AAA),
  (0x4C4339, 0x0069DE),
  (0x4C433F, 0x006A65),
  (0x4C4345, 0x0067A6),
  (0x4C4359, 0x006B05),
  (0x4C4446, 0x006B4E),
  (0x4C476E, 0x006CAD),
  (0x4C4C35, 0x006E0C),
  (0x4C4D3D, 0x006F62),
  (0x4C4D63, 0x006F99),
  (0x4C4F24, 0x006F46),
  (0x4C4F26, 0x006EDD),
  (0x4C4F2B, 0x00701E),
  (0x4C5175, 0x008315),
  (0x4C523A, 0x00717A),
  (0x4C5447, 0x0071E0),
  (0x4C5541, 0x004E2C),
  (0x4C5638, 0x00729F),
  (0x4C5C3A, 0x0073F1),
  (0x4C5C61, 0x0074F4),
  (0x4C5F58, 0x007640),
  (0x4C5F69, 0x0075EB),
  (0x4C6022, 0x007596),
  (0x4C6074, 0x0076B9),
  (0x4C6266, 0x02F94A),
  (0x4C6376, 0x007839),
  (0x4C6564, 0x0078D9_0078B9),
  (0x4C6775, 0x007962),
  (0x4C683E, 0x0079EB),
  (0x4C695C, 0x007A06),
  (0x4C695F, 0x007A63),
  (0x4C6B62, 0x007B4C),
  (0x4C6C46, 0x007B9F),
  (0x4C6E42, 0x007C31),
  (0x4C6F43, 0x007CCD),
  (0x4C6F7B, 0x007CE8),
  (0x4C715A, 0x007EE6),
  (0x4C725D, 0x007A39),
  (0x4C7265, 0x007DFC),
  (0x4C7328, 0x005FAD),
  (0x4C735D, 0x007D4B),
  (0x4C794E, 0x0080B7),
  (0x4C7959, 0x00817D),
  (0x4C796B, 0x00815F),
  (0x4C7A72, 0x008201),
  (0x4C7C45, 0x0082AE),
  (0x4C7D4D, 0x008343),
  (0x4C7D6A, 0x008323),
  (0x4D222A, 0x0083B5),
  (0x4D2925, 0x008770),
  (0x4D2962, 0x0086C9),
  (0x4D2B48, 0x0045A0),
  (0x4D2C3C, 0x0087E5),
  (0x4D2D44, 0x008842),
  (0x4D2D75, 0x008872),
  (0x4D2F5D, 0x008941),
  (0x4D2F73, 0x007E5D),
  (0x4D2F7A, 0x00891D),
  (0x4D3032, 0x0088AE),
  (0x4D3359, 0x0056AF),
  (0x4D3363, 0x008C25),
  (0x4D386F, 0x00544B),
  (0x4D3C6C, 0x008FB6),
  (0x4D4134, 0x00919B),
  (0x4D4176, 0x0091DB),
  (0x4D445B, 0x009306),
  (0x4D446B, 0x00954E),
  (0x4D472C, 0x0093D3),
  (0x4D4754, 0x009544),
  (0x4D477B, 0x00943E),
  (0x4D4832, 0x00953F),
  (0x4D4835, 0x00954C),
  (0x4D4862, 0x009229),
  (0x4D4A6C, 0x009667),
  (0x4D4C58, 0x004A37),
  (0x4D4D61, 0x007EF1),
  (0x4D4F39, 0x00988C),
  (0x4D503A, 0x0098D1),
  (0x4D5053, 0x0098DA),
  (0x4D5154, 0x009942),
  (0x4D517E, 0x004B22),
  (0x4D5574, 0x009B2E),
  (0x4D5858, 0x009BE3),
  (0x4D5875, 0x009CD0),
  (0x4D5934, 0x009CA6),
  (0x4D594E, 0x009BF5),
  (0x4D5973, 0x0051EB),
  (0x4D5A6C, 0x009D46),
  (0x4D5B35, 0x009DAB),
  (0x4D5B7E, 0x009DC6),
  (0x4D5C6B, 0x009D50),
  (0x4D5D49, 0x009E81),
  (0x4D5F70, 0x009F44),
  (0x4D5F7B, 0x02940A),
  (0x4D6047, 0x00816D),
  (0x513051, 0x008CAE),
  (0x513057, 0x003B93),
  (0x513421, 0x0091D6),
  (0x51356A, 0x008BC3),
  (0x51384D, 0x0051C3),
  (0x513928, 0x0044B6),
  (0x513948, 0x003740),
  (0x513A47, 0x008885),
  (0x513B52, 0x006C3D),
  (0x513B6B, 0x0037ED),
  (0x513D67, 0x008FF3),
  (0x51403D, 0x0062DD),
  (0x51456D, 0x00822E),
  (0x51476F, 0x00701E),
  (0x51496B, 0x00852B),
  (0x514B4D, 0x004946),
  (0x514E5B, 0x009271),
  (0x514F29, 0x00418B),
  (0x514F41, 0x004B6C),
  (0x51505C, 0x007CA4),
  (0x51513B, 0x007E9F),
  (0x51527B, 0x008074),
  (0x51563F, 0x008616),
  (0x515B40, 0x004879),
  (0x515B61, 0x0046D2),
  (0x515C60, 0x0048B7),
  (0x515C70, 0x009115),
  (0x515E5D, 0x009616),
  (0x515F57, 0x004A14),
  (0x516122, 0x009988),
  (0x516A26, 0x0051B4),
  (0x517954, 0x00734E),
  (0x52267C, 0x003843),
  (0x52735D, 0x007E8A),
  (0x535554, 0x004C0B),
  (0x535F7B, 0x004AA2),
  (0x57334E, 0x004934),
  (0x573B79, 0x003800),
  (0x574141, 0x0062C5),
  (0x574278, 0x003AD1),
  (0x574345, 0x003B27),
  (0x574968, 0x003E08),
  (0x57496B, 0x003DD1),
  (0x574F4E, 0x004192),
  (0x57566E, 0x0045E6),
  (0x575966, 0x004AC9),
  (0x575D32, 0x0091A4),
  (0x575F56, 0x004A13),
  (0x5D376F, 0x004190),
  (0x5D3774, 0x005717),
  (0x5D3D6D, 0x0048A9),
  (0x5D4266, 0x003AC1),
  (0x5D4325, 0x003AEA),
  (0x5D4775, 0x003CED),
  (0x5D4966, 0x003DFB),
  (0x5D593F, 0x00494C),
  (0x63463D, 0x006BC1),
  (0x635F34, 0x0049CD),
  (0x692126, 0x0030FB),
  (0x692133, 0x0030FD_0030FE),
  (0x692139, 0x003005_003006),
  (0x69213C, 0x0030FC),
  (0x692152, 0x003008_003009_00300A_00300B),
  (0x692421, 0x003041_003042_003043_003044_003045_003046_003047_003048_003049_00304A_00304B_00304C),
  (0x69242D, 0x00304D_00304E_00304F_003050_003051_003052_003053_003054_003055_003056_003057_003058),
  (0x692439, 0x003059_00305A_00305B_00305C_00305D_00305E_00305F_003060_003061_003062_003063_003064),
  (0x692445, 0x003065_003066_003067_003068_003069_00306A_00306B_00306C_00306D_00306E_00306F_003070),
  (0x692451, 0x003071_003072_003073_003074_003075_003076_003077_003078_003079_00307A_00307B_00307C),
  (0x69245D, 0x00307D_00307E_00307F_003080_003081_003082_003083_003084_003085_003086_003087_003088),
  (0x692469, 0x003089_00308A_00308B_00308C_00308D_00308E_00308F_003090_003091_003092_003093),
  (0x692521, 0x0030A1_0030A2_0030A3_0030A4_0030A5_0030A6_0030A7_0030A8_0030A9_0030AA_0030AB_0030AC),
  (0x69252D, 0x0030AD_0030AE_0030AF_0030B0_0030B1_0030B2_0030B3_0030B4_0030B5_0030B6_0030B7_0030B8),
  (0x692539, 0x0030B9_0030BA_0030BB_0030BC_0030BD_0030BE_0030BF_0030C0_0030C1_0030C2_0030C3_0030C4),
  (0x692545, 0x0030C5_0030C6_0030C7_0030C8_0030C9_0030CA_0030CB_0030CC_0030CD_0030CE_0030CF_0030D0),
  (0x692551, 0x0030D1_0030D2_0030D3_0030D4_0030D5_0030D6_0030D7_0030D8_0030D9_0030DA_0030DB_0030DC),
  (0x69255D, 0x0030DD_0030DE_0030DF_0030E0_0030E1_0030E2_0030E3_0030E4_0030E5_0030E6_0030E7_0030E8),
  (0x692569, 0x0030E9_0030EA_0030EB_0030EC_0030ED_0030EE_0030EF_0030F0_0030F1_0030F2_0030F3_0030F4),
  (0x692575, 0x0030F5_0030F6_003099_00309C_0030F7_0030F8_0030F9),
  (0x692733, 0x00AC00),
  (0x693729, 0x007C82),
  (0x693C32, 0x009D2B),
  (0x693C36, 0x0096EB),
  (0x694664, 0x0051EA),
  (0x694677, 0x005302),
  (0x694823, 0x007872),
  (0x69482B, 0x007560),
  (0x694838, 0x00567A),
  (0x694B7B, 0x009EBF),
  (0x694C5D, 0x006762),
  (0x694C68, 0x005301),
  (0x694C7A, 0x009453),
  (0x695130, 0x005116),
  (0x69515E, 0x0051E9),
  (0x69525D, 0x0053FA),
  (0x695326, 0x0054D8),
  (0x69533B, 0x00555D),
  (0x695375, 0x0056CE),
  (0x695429, 0x005726_005737),
  (0x695438, 0x0057B3),
  (0x69543A, 0x0057AA_0057B0),
  (0x695442, 0x0057D6),
  (0x69544B, 0x005870),
  (0x695451, 0x0058B9),
  (0x695457, 0x0058B8),
  (0x69545C, 0x0058D7),
  (0x69545F, 0x0058E5),
  (0x69554E, 0x005B36),
  (0x695626, 0x004E62),
  (0x69562C, 0x00599B),
  (0x69562E, 0x005CBB),
  (0x695630, 0x005CBC),
  (0x695632, 0x005CC5_005CBE),
  (0x69564E, 0x005D76),
  (0x695657, 0x005D90),
  (0x695737, 0x005F16),
  (0x69573B, 0x005F41),
  (0x69576A, 0x00603A),
  (0x69594B, 0x006327),
  (0x69595E, 0x0063B5),
  (0x695A31, 0x0064F6),
  (0x695A73, 0x006683),
  (0x695A7E, 0x0066BC),
  (0x695B37, 0x006737),
  (0x695B7B, 0x006926),
  (0x695C29, 0x006925),
  (0x695C2D, 0x006928),
  (0x695C30, 0x006923_006921),
  (0x695C39, 0x00697E),
  (0x695C43, 0x006981),
  (0x695C4F, 0x0069DD),
  (0x695C53, 0x006A2E),
  (0x695C71, 0x006A78),
  (0x695D36, 0x006B1F),
  (0x695E63, 0x006E82),
  (0x695F70, 0x007195),
  (0x696126, 0x0074F2),
  (0x696136, 0x00753C),
  (0x69613A, 0x007549),
  (0x69613E, 0x007569),
  (0x69626D, 0x007874),
  (0x696273, 0x0078B5),
  (0x696325, 0x007907),
  (0x69634E, 0x007A43),
  (0x696373, 0x007B02),
  (0x696449, 0x007C13),
  (0x69644C, 0x007C17),
  (0x69644E, 0x007BF6),
  (0x696464, 0x007C90),
  (0x696466, 0x007CAD),
  (0x696471, 0x007CC0),
  (0x696474, 0x007CD8),
  (0x69654F, 0x007E05),
  (0x69656D, 0x007E83_007DD5),
  (0x696576, 0x007E90),
  (0x696733, 0x0081A4),
  (0x69675C, 0x00825D),
  (0x69684D, 0x008422),
  (0x696868, 0x0084D9),
  (0x696946, 0x008630),
  (0x69695B, 0x0086AB),
  (0x696962, 0x0086EF),
  (0x696A2C, 0x0087D0),
  (0x696A5E, 0x0088B0),
  (0x696A61, 0x0088C3),
  (0x696A6D, 0x008904),
  (0x696B27, 0x008977),
  (0x696B5C, 0x008ADA),
  (0x696D3F, 0x008EBE_008EC5_008EC8),
  (0x696D5A, 0x008F4C),
  (0x696D7A, 0x009027),
  (0x696E28, 0x009056),
  (0x696E5C, 0x0091DF),
  (0x696F27, 0x00933B),
  (0x696F5B, 0x00958A),
  (0x696F5D, 0x009596),
  (0x697023, 0x009666),
  (0x697058, 0x009779),
  (0x69705D, 0x009786),
  (0x697060, 0x009790),
  (0x697124, 0x0098AA),
  (0x697152, 0x0099F2),
  (0x697174, 0x009ADE),
  (0x69717D, 0x009AF1_009AF7),
  (0x69723B, 0x009B96),
  (0x697240, 0x009BB4),
  (0x697245, 0x009BCF_009BD1),
  (0x69724E, 0x009BF2),
  (0x697260, 0x009C30),
  (0x697265, 0x009C5A),
  (0x69727E, 0x009D48),
  (0x697323, 0x009D64),
  (0x6A2122, 0x023CFE),
  (0x6F2457, 0x001100_001102_001103_001105_001106_001107_001109_00110B_00110C_00110E_00110F_001110),
  (0x6F2463, 0x001111_001112_001101),
  (0x6F2469, 0x001104),
  (0x6F246E, 0x001108),
  (0x6F2470, 0x00110A_00110D_001161_001162_001163),
  (0x6F2476, 0x001165_001166_001167),
  (0x6F247A, 0x001169_00116A),
  (0x6F247E, 0x00116D),
  (0x6F2521, 0x00116E),
  (0x6F2525, 0x001172_001173_001174_001175),
  (0x6F485F, 0x00AC00_00AC01_00AC02_00AC04_00AC07_00AC08_00AC09_00AC10_00AC11_00AC12_00AC13_00AC14),
  (0x6F486B, 0x00AC15_00AC16_00AC17_00AC19_00AC1A_00AC1B_00AC1C_00AC1D_00AC20),
  (0x6F4875, 0x00AC24_00AC2C_00AC2D_00AC2F_00AC30_00AC31_00AC38_00AC39_00AC40_00AC54),
  (0x6F4921, 0x00AC70_00AC71),
  (0x6F4924, 0x00AC74_00AC77_00AC78_00AC79),
  (0x6F4929, 0x00AC80_00AC81_00AC83_00AC84_00AC85_00AC86),
  (0x6F4930, 0x00AC89_00AC8A_00AC8B_00AC8C_00AC90_00AC94_00AC9C_00AC9F_00ACA0_00ACA1_00ACA8_00ACA9),
  (0x6F493C, 0x00ACAA_00ACAC_00ACAF_00ACB0_00ACB8_00ACB9),
  (0x6F4943, 0x00ACBC_00ACBD_00ACC1),
  (0x6F4947, 0x00ACC4),
  (0x6F4949, 0x00ACD7_00ACE0_00ACE1_00ACE4_00ACE7_00ACE8_00ACEA_00ACEC_00ACEF_00ACF0_00ACF1_00ACF3),
  (0x6F4955, 0x00ACF5_00ACF6_00ACFA_00ACFC_00ACFD_00AD00_00AD04_00AD0C_00AD0D_00AD0F_00AD11_00AD18),
  (0x6F4961, 0x00AD19_00AD1C_00AD20_00AD28_00AD29_00AD2D_00AD34_00AD38_00AD3C_00AD44),
  (0x6F496C, 0x00AD49_00AD50_00AD6C_00AD6D_00AD70_00AD73_00AD74_00AD75_00AD76_00AD7C_00AD7D_00AD7F),
  (0x6F4978, 0x00AD81_00AD82_00AD88_00AD8C_00AD90),
  (0x6F497E, 0x00ADA4),
  (0x6F4A22, 0x00ADC0_00ADC4_00ADC8_00ADD0_00ADD1_00ADD3_00ADDC_00ADE0_00ADE4_00ADEC_00ADF8_00ADF9),
  (0x6F4A2E, 0x00ADFC_00ADFF_00AE00_00AE01_00AE08_00AE09_00AE0B_00AE0D_00AE30_00AE31_00AE34_00AE37),
  (0x6F4A3A, 0x00AE38_00AE40_00AE41_00AE43_00AE44_00AE45_00AE4A),
  (0x6F4A43, 0x00AE4C_00AE4D_00AE4E_00AE50_00AE54_00AE5C_00AE5D_00AE60_00AE61_00AE62_00AE65_00AE68),
  (0x6F4A4F, 0x00AE69_00AE6C_00AE70_00AE78_00AE79_00AE7B_00AE7C_00AE7D_00AE84_00AE85_00AEBC_00AEBD),
  (0x6F4A5B, 0x00AEBE_00AEC0_00AEC4_00AECC_00AECD_00AECF_00AED0_00AED1_00AED8_00AEDC_00AEF4_00AF0D),
  (0x6F4A67, 0x00AF2C_00AF2D_00AF30_00AF34_00AF3C_00AF3D_00AF3F_00AF41_00AF42_00AF43_00AF48_00AF49),
  (0x6F4A73, 0x00AF4C_00AF58_00AF5C_00AF5D_00AF64_00AF65_00AF79_00AF80_00AF84_00AF88_00AF90_00AF95),
  (0x6F4B21, 0x00AF9C_00AFB8_00AFB9_00AFBC_00AFC0_00AFC7_00AFC8_00AFC9_00AFCB_00AFCD_00AFCE_00AFD4),
  (0x6F4B2D, 0x00AFD8_00AFE9_00AFF0_00B000),
  (0x6F4B32, 0x00B00C_00B00D_00B010_00B014_00B01C_00B01D_00B028_00B044_00B045_00B048_00B04A_00B04C),
  (0x6F4B3E, 0x00B053_00B054_00B055_00B057_00B059_00B05D_00B07C_00B07D_00B080_00B084_00B08C_00B08D),
  (0x6F4B4A, 0x00B08F_00B090_00B091),
  (0x6F4B4F, 0x00B098_00B099_00B09A_00B09C_00B09F_00B0A0_00B0A1_00B0A8_00B0A9_00B0AB_00B0AC_00B0AD),
  (0x6F4B5B, 0x00B0AE_00B0AF_00B0B1_00B0B3_00B0B4_00B0B5_00B0B8_00B0BB_00B0BC_00B0C4_00B0C5_00B0C7),
  (0x6F4B67, 0x00B0C8_00B0C9_00B0D0_00B0D1_00B0E0_00B0E5_00B0EC_00B108_00B109),
  (0x6F4B71, 0x00B10B_00B10C_00B10F_00B110_00B113_00B118_00B119_00B11B_00B11C_00B11D_00B11E_00B123),
  (0x6F4B7D, 0x00B124_00B125),
  (0x6F4C21, 0x00B128_00B12C_00B134_00B135_00B137_00B140_00B141_00B144_00B150_00B151_00B153_00B154),
  (0x6F4C2D, 0x00B155_00B158_00B15C_00B178_00B179_00B17A_00B17C_00B180_00B188_00B189_00B18B_00B18D),
  (0x6F4C39, 0x00B192_00B193_00B194_00B1A8_00B1CC_00B1D0_00B1D4_00B1DC_00B1E8_00B1FD_00B204_00B205),
  (0x6F4C45, 0x00B208_00B20B_00B20C_00B213_00B214_00B215_00B217_00B220_00B233_00B234_00B258_00B25C),
  (0x6F4C51, 0x00B260_00B268_00B269_00B274_00B284_00B289_00B290_00B291_00B294_00B298_00B299_00B2A0),
  (0x6F4C5D, 0x00B2A1_00B2A5_00B2A6_00B2AA_00B2AC_00B2C8_00B2C9_00B2CC_00B2D0_00B2D8_00B2D9_00B2DB),
  (0x6F4C69, 0x00B2DD_00B2E2),
  (0x6F4C6D, 0x00B2E4_00B2E5_00B2E6_00B2E8_00B2EB_00B2EC_00B2ED_00B2EE_00B2F3_00B2F4_00B2F5_00B2F7),
  (0x6F4C79, 0x00B2F9_00B2FA_00B2FB_00B2FF_00B300_00B301),
  (0x6F4D21, 0x00B304_00B308_00B310_00B311_00B313_00B314_00B315_00B354_00B355_00B358_00B35B_00B35C),
  (0x6F4D2D, 0x00B35F_00B364_00B365_00B367_00B368_00B369_00B36A_00B36B_00B36E_00B370_00B371_00B374),
  (0x6F4D39, 0x00B378_00B380_00B383_00B385_00B38C_00B3C4_00B3C5_00B3C8_00B3CB_00B3CC_00B3D0_00B3D4),
  (0x6F4D45, 0x00B3D5_00B3D7_00B3D9_00B3DB_00B3FC_00B400_00B410_00B418_00B41C_00B420_00B428_00B429),
  (0x6F4D51, 0x00B42B_00B42C_00B450_00B451_00B454_00B458_00B460_00B461_00B463_00B465_00B46C_00B480),
  (0x6F4D5D, 0x00B488_00B4A4_00B4B7_00B4C0_00B4D0_00B4DC_00B4DD_00B4E0_00B4E3_00B4E4_00B4EC_00B4ED),
  (0x6F4D69, 0x00B4EF_00B4F1_00B514_00B515_00B518_00B51B_00B51C_00B524_00B525_00B527_00B528_00B529),
  (0x6F4D75, 0x00B52A),
  (0x6F4D78, 0x00B530_00B531_00B532_00B534_00B537_00B538),
  (0x6F4E21, 0x00B540_00B541_00B543_00B544_00B545_00B54B_00B54C_00B54D_00B550_00B554_00B55C_00B55D),
  (0x6F4E2D, 0x00B55F_00B560_00B561_00B5A0_00B5A1_00B5A4_00B5A8_00B5AB_00B5B0_00B5B1_00B5B3_00B5B4),
  (0x6F4E39, 0x00B5B5_00B5BB_00B5BC_00B5C0_00B5C4_00B5CC_00B5CF_00B5D1_00B610_00B611_00B614_00B618),
  (0x6F4E45, 0x00B625_00B664_00B69C_00B69D_00B6A4_00B6AB_00B6AC_00B6B1_00B6F0_00B6F4_00B6F8_00B700),
  (0x6F4E51, 0x00BF01_00B728_00B729_00B72C_00B72F_00B730_00B738_00B739_00B73B_00B744_00B748_00B760),
  (0x6F4E5D, 0x00B764_00B768_00B770_00B771_00B775),
  (0x6F4E64, 0x00B77C_00B77D_00B780_00B784_00B78C_00B78D_00B78F_00B790_00B791_00B797_00B798_00B799),
  (0x6F4E70, 0x00B79C_00B7A0_00B7A8_00B7A9_00B7AB_00B7AC_00B7AD_00B7B4_00B7B5_00B7C9_00B7EC_00B7ED),
  (0x6F4E7C, 0x00B7F0_00B7F4_00B7FC),
  (0x6F4F21, 0x00B7FD_00B7FF_00B800_00B801_00B807_00B808_00B809_00B80C_00B810_00B818_00B819_00B81B),
  (0x6F4F2D, 0x00B81D_00B824_00B825_00B828_00B82C_00B834_00B835_00B837_00B838_00B839_00B840_00B85C),
  (0x6F4F39, 0x00B85D_00B860_00B864_00B86C_00B86D_00B86F_00B871_00B8B0_00B8CC_00B8E1_00B8E8_00B8E9),
  (0x6F4F45, 0x00B8EC_00B8F0_00B8F8_00B8F9_00B8FB_00B8FD_00B904_00B93C_00B958_00B959_00B95C_00B960),
  (0x6F4F51, 0x00B968_00B96D_00B974_00B975_00B978_00B97C_00B984_00B985_00B987_00B989_00B98E_00B9AC),
  (0x6F4F5D, 0x00B9AD_00B9B0_00B9B4_00B9BC_00B9BD_00B9BF_00B9C1),
  (0x6F4F66, 0x00B9C8_00B9C9_00B9CC_00B9CE_00B9CF_00B9D0_00B9D1_00B9D8_00B9D9_00B9DB_00B9DD_00B9DE),
  (0x6F4F72, 0x00B9E1_00B9E3_00B9E4_00B9E5_00B9E8_00B9EC_00B9F4_00B9F5_00B9F7_00B9F8_00B9F9_00B9FA),
  (0x6F4F7E, 0x00BA00),
  (0x6F5021, 0x00BA38_00BA39_00BA3C_00BA40_00BA48_00BA49_00BA4B_00BA4D_00BA4E_00BA53_00BA54_00BA55),
  (0x6F502D, 0x00BA58_00BA5C_00BA64_00BA65_00BA67_00BA70_00BA71_00BA74_00BA78_00BA83_00BA84_00BA85),
  (0x6F5039, 0x00BA87_00BAA8_00BAA9_00BAAB_00BAAC_00BAB0_00BAB8_00BAB9_00BABB_00BABD_00BAC3_00BAFC),
  (0x6F5045, 0x00BB0F_00BB18_00BB34_00BB35_00BB36_00BB38_00BB3B_00BB3C_00BB3D_00BB44_00BB47_00BB49),
  (0x6F5051, 0x00BB4D_00BB4F_00BB50_00BB54_00BB58_00BB61_00BB63_00BB88_00BB8C_00BBA4_00BBC0_00BBC4),
  (0x6F505D, 0x00BBC8_00BBD0_00BBF8_00BBF9_00BBFC_00BBFF_00BC00_00BC08_00BC09_00BC0B),
  (0x6F5068, 0x00BC0D_00BC0F_00BC11_00BBB4),
  (0x6F506D, 0x00BC14_00BC15_00BC16_00BC18_00BC1B_00BC1C_00BC1D_00BC1F_00BC24_00BC25_00BC27_00BC29),
  (0x6F5079, 0x00BC2D_00BC30_00BC31_00BC34_00BC37_00BC38),
  (0x6F5121, 0x00BC40_00BC41_00BC43_00BC44_00BC45_00BC84_00BC85_00BC88_00BC8B_00BC8C_00BC94_00BC95),
  (0x6F512D, 0x00BC97_00BC98_00BC99_00BC9A_00BCA0_00BCA1_00BCA4_00BCA7_00BCA8_00BCB0_00BCB1_00BCB3),
  (0x6F5139, 0x00BCB5_00BCBC_00BCBD_00BCC0_00BCC4_00BCCC_00BCCD_00BCCF_00BCD0_00BCD1_00BCD2_00BCD5),
  (0x6F5145, 0x00BCF4_00BCF5_00BCF6_00BCF8_00BCFC_00BD04_00BD05_00BD07_00BD09_00BD10_00BD14_00BD24),
  (0x6F5151, 0x00BD48_00BD49_00BD4C_00BD50_00BD58_00BD59_00BD64_00BD80_00BD81_00BD84_00BD87_00BD88),
  (0x6F515D, 0x00BD89_00BD90_00BD91_00BD93_00BD95_00BD99_00BD9C_00BDD4_00BDF0_00BE0C_00BE0D_00BE10),
  (0x6F5169, 0x00BE14_00BE1C_00BE1D_00BE1F_00BE44_00BE45_00BE48_00BE4B_00BE4C_00BE4E_00BE54_00BE55),
  (0x6F5175, 0x00BE57_00BE59_00BE5A_00BE5B),
  (0x6F517B, 0x00BE60_00BE61_00BE64_00BE68),
  (0x6F5221, 0x00BE70_00BE71_00BE73_00BE74_00BE75_00BE7B_00BE7C_00BE7D_00BE80_00BE84_00BE8C_00BE8F),
  (0x6F522D, 0x00BE90_00BE91_00BE98_00BEA8_00BED0_00BED1_00BED4_00BED7_00BED8_00BEE0_00BEE3_00BEE4),
  (0x6F5239, 0x00BEE5_00BEEC_00BF08_00BF09_00BF18_00BF1D_00BF40_00BF41_00BF44_00BF48_00BF50_00BF51),
  (0x6F5245, 0x00BF55_00BFB0_00BFC0_00BFC5_00BFCC_00BFCD_00BFD0_00BFD4_00BFDC_00BFDD_00BFE1_00C058),
  (0x6F5251, 0x00C059_00C05C_00C060_00C068_00C069_00C090_00C091_00C094_00C098_00C0A0_00C0A3_00C0A5),
  (0x6F525F, 0x00C0AC_00C0AD_00C0AE_00C0AF_00C0B0_00C0B3_00C0B4_00C0B5_00C0B6_00C0BC_00C0BD_00C0BF),
  (0x6F526B, 0x00C0C0_00C0C1_00C0C5_00C0C8_00C0C9_00C0CC_00C0CF_00C0D0_00C0D8_00C0D9_00C0DB_00C0DC),
  (0x6F5277, 0x00C0DD_00C0E4_00C0E5_00C0E8_00C0EC_00C0F4_00C0F7_00C0F9),
  (0x6F5321, 0x00C11C_00C11D_00C11E_00C120_00C123_00C124_00C125_00C126_00C127_00C12A_00C12C_00C12D),
  (0x6F532D, 0x00C12F_00C130_00C131_00C136_00C138_00C139_00C13C_00C140_00C148_00C149_00C14B_00C14D),
  (0x6F5339, 0x00C151_00C154_00C158_00C167_00C168_00C170_00C18C_00C18D_00C18E_00C190_00C194_00C19C),
  (0x6F5345, 0x00C19D_00C19F_00C1A1_00C1A5_00C1A8_00C1A9_00C1B0_00C1C4_00C1C8_00C1D7_00C1E0_00C1E4),
  (0x6F5351, 0x00C1E8_00C1F0_00C1F1_00C1F3_00C1FC_00C1FD_00C200_00C204_00C20D),
  (0x6F535B, 0x00C218_00C219_00C21C_00C21F_00C220_00C228_00C229_00C22B_00C22D_00C22F_00C231_00C232),
  (0x6F5367, 0x00C234_00C250_00C258_00C26C_00C270_00C274_00C27C_00C27D_00C27F_00C281_00C288_00C289),
  (0x6F5373, 0x00C290_00C298_00C29B_00C29D_00C2A4_00C2A5_00C2A8_00C2AC_00C2AD),
  (0x6F537D, 0x00C2B4_00C2B5),
  (0x6F5421, 0x00C2B7_00C2B9_00C2DC_00C2DD_00C2E0_00C2E3_00C2E4_00C2EB_00C2EC_00C2ED_00C2EF_00C2F1),
  (0x6F542D, 0x00C2F6),
  (0x6F5430, 0x00C2F8_00C2F9_00C2FC_00C300_00C308_00C309_00C30B_00C30C_00C30D_00C313_00C314_00C315),
  (0x6F543C, 0x00C318_00C31C_00C324_00C327_00C328_00C329_00C330_00C343_00C345_00C368_00C369_00C36C),
  (0x6F5448, 0x00C370_00C372_00C378_00C379_00C37C_00C37D_00C384_00C388_00C399_00C3D8_00C3D9_00C3DC),
  (0x6F5454, 0x00C3DF_00C3E0_00C3E8_00C3ED_00C3F4_00C3F5_00C410_00C42C_00C430_00C434_00C43C_00C43F),
  (0x6F5460, 0x00C464_00C465_00C468_00C46C_00C474_00C479_00C480_00C494_00C4D4_00C4D5_00C4F0_00C4F1),
  (0x6F546C, 0x00C4F4_00C4F8_00C500_00C501_00C50C_00C510_00C528_00C529_00C52C_00C530_00C538_00C539),
  (0x6F5478, 0x00C53B_00C53D),
  (0x6F547C, 0x00C544_00C545_00C548),
  (0x6F5521, 0x00C549_00C54A_00C54C_00C54E_00C553_00C554_00C555_00C557_00C558_00C559_00C55E_00C55F),
  (0x6F552D, 0x00C560_00C561_00C564_00C568_00C570_00C571_00C573_00C574_00C575_00C57C_00C57D_00C580),
  (0x6F5539, 0x00C584_00C587_00C58C_00C58D_00C58F_00C590_00C591_00C595_00C597_00C598_00C59C_00C5B4),
  (0x6F5545, 0x00C5B5_00C5B6_00C5B8_00C5B9_00C5BA_00C5BB_00C5BC_00C5BD_00C5C4_00C5C5_00C5C6_00C5C7),
  (0x6F5551, 0x00C5C8_00C5C9_00C5CA_00C5CC_00C5CE_00C5D0_00C5D1_00C5D4_00C5D8_00C5E0_00C5E1_00C5E3),
  (0x6F555D, 0x00C5E5_00C5EC_00C5ED_00C5EE_00C5F0_00C5F4_00C5F6_00C5F7_00C5FC_00C5FD_00C5FE_00C5FF),
  (0x6F5569, 0x00C600_00C601_00C606_00C607_00C608_00C60C_00C610_00C61B_00C624_00C625_00C628_00C62C),
  (0x6F5575, 0x00C62D_00C62E_00C633_00C634_00C635_00C637_00C639_00C63A_00C63B_00C640),
  (0x6F5621, 0x00C641_00C644_00C648_00C650_00C651_00C653_00C654),
  (0x6F5629, 0x00C65C_00C65D_00C660_00C671_00C678_00C679_00C67C_00C680_00C688_00C68B_00C68D_00C694),
  (0x6F5635, 0x00C695_00C698_00C6A5_00C6A7_00C6A9_00C6B0_00C6B1_00C6B4_00C6B7_00C6B8_00C6B9_00C6BA),
  (0x6F5641, 0x00C6C0_00C6C1_00C6C3_00C6C5_00C6CC_00C6CD_00C6D0_00C6D4_00C6DC_00C6DD_00C6DF_00C6E0),
  (0x6F564D, 0x00C6E1_00C6E8_00C6E9_00C6EC_00C6F0_00C6F8_00C704_00C705_00C708_00C70C_00C714_00C717),
  (0x6F5659, 0x00C719_00C720_00C721_00C724_00C728_00C730_00C735_00C737_00C73C_00C73D_00C740_00C744),
  (0x6F5665, 0x00C74A_00C74C_00C74D_00C751_00C758_00C774_00C775_00C778_00C77C_00C77D_00C783_00C784),
  (0x6F5671, 0x00C785_00C787_00C788_00C789_00C78A_00C78E_00C78F),
  (0x6F5679, 0x00C790_00C791_00C794_00C796_00C798_00C7A0),
  (0x6F5721, 0x00C7A1_00C7A3_00C7A4_00C7A5_00C7A6_00C7A7_00C7AC_00C7AD_00C7B0_00C7B4_00C7BC_00C7BD),
  (0x6F572D, 0x00C7BF_00C7C0_00C7C1_00C7C8_00C7C9_00C7CC_00C7D8_00C800_00C801_00C804_00C808_00C80A),
  (0x6F5739, 0x00C810_00C811_00C813_00C814_00C815_00C816_00C81C_00C81D_00C820_00C824_00C82C_00C82D),
  (0x6F5745, 0x00C82F_00C838_00C83C_00C84C_00C870_00C871_00C874_00C878_00C87A_00C880_00C881_00C885),
  (0x6F5751, 0x00C886_00C887_00C88B_00C88C_00C88D_00C890_00C894_00C89C_00C89D_00C89F_00C8A0),
  (0x6F575D, 0x00C8A8_00C8AC_00C8B0_00C8B8_00C8C4_00C8C8_00C8CC_00C8D4_00C8D5_00C8D7_00C8E0_00C8E4),
  (0x6F5769, 0x00C8F0_00C8F1_00C8F5_00C8FC_00C8FD_00C900_00C904_00C906_00C90C_00C90D_00C90F_00C911),
  (0x6F5775, 0x00C918_00C92C_00C950),
  (0x6F5779, 0x00C954_00C958_00C960_00C961_00C96C_00C970),
  (0x6F5821, 0x00C974_00C988_00C989_00C98C_00C990_00C998_00C999_00C99D_00C9C0_00C9C1_00C9C4_00C9C7),
  (0x6F582D, 0x00C9C8_00C9CA_00C9D0_00C9D1_00C9D3_00C9D5_00C9D6_00C9D9_00C9DA),
  (0x6F5838, 0x00C9DC_00C9DD_00C9E0_00C9E2_00C9E4),
  (0x6F583E, 0x00C9E7_00C9EC_00C9ED_00C9EF_00C9F0_00C9F1_00C9F8_00C9F9_00C9FC_00CA00_00CA08_00CA09),
  (0x6F584A, 0x00CA0B_00CA0C_00CA0D_00CA18_00CA4C_00CA4D_00CA50_00CA54_00CA5C_00CA5D_00CA61_00CA84),
  (0x6F5856, 0x00CA98_00CABC_00CABD_00CAC0_00CAC4_00CACC_00CACD_00CAD1_00CAD2_00CAD3_00CAD8_00CAD9),
  (0x6F5862, 0x00CB10_00CB14_00CB18_00CB20_00CB21_00CB41_00CB48_00CB49_00CB50_00CB58_00CB59_00CB5D),
  (0x6F586E, 0x00CB64_00CBB8_00CBD4_00CBE4_00CBE7_00CC0C_00CC0D_00CC10_00CC14_00CC1C_00CC1D_00CC21),
  (0x6F587A, 0x00CC22_00CC27),
  (0x6F587E, 0x00CC28),
  (0x6F5921, 0x00CC29_00CC2C_00CC2E_00CC2F_00CC30_00CC38_00CC39_00CC3B_00CC3C_00CC3D_00CC3E_00CC3F),
  (0x6F592D, 0x00CC44_00CC45_00CC48_00CC4C_00CC54_00CC55_00CC58_00CC59_00CC60_00CC64_00CC70_00CC71),
  (0x6F5939, 0x00CC98_00CC99_00CC9C_00CCA0_00CCA8_00CCA9_00CCAB_00CCAD_00CCB4_00CCB5_00CCB8_00CCBC),
  (0x6F5945, 0x00CCC7_00CCD0_00CCE4_00CD08_00CD09_00CD0C_00CD10_00CD18_00CD19_00CD1B_00CD1D_00CD2C),
  (0x6F5951, 0x00CD5C_00CD78_00CD94_00CD95_00CD98_00CD9C_00CDA4_00CDA5_00CDA7_00CDA9_00CDB0_00CDC4),
  (0x6F595D, 0x00CDCC_00CDE8_00CE04_00CE20_00CE21_00CE30_00CE35_00CE58_00CE59_00CE5C_00CE60_00CE61),
  (0x6F5969, 0x00CE68_00CE69_00CE6B_00CE6D),
  (0x6F596F, 0x00CE74_00CE75_00CE78_00CE7C_00CE84_00CE85_00CE87_00CE89_00CE90_00CE91_00CE94_00CE98),
  (0x6F597B, 0x00CEA0_00CEA1_00CEA3),
  (0x6F5A21, 0x00CEA5_00CEAC_00CEAD_00CEE4),
  (0x6F5A26, 0x00CEE8_00CEEC_00CEF4_00CEF5_00CEF7),
  (0x6F5A2C, 0x00CEF9),
  (0x6F5A2E, 0x00CF00_00CF01_00CF04_00CF08_00CF10_00CF11_00CF13_00CF15_00CF1C_00CF20_00CF24_00CF2C),
  (0x6F5A3A, 0x00CF2D_00CF2F_00CF30_00CF54_00CF55_00CF58_00CF5C_00CF64_00CF65_00CF67_00CF69_00CF70),
  (0x6F5A46, 0x00CF71_00CF74_00CF78_00CF80_00CF85_00CF8C_00CF8D_00CFA1),
  (0x6F5A4F, 0x00CFB0_00CFC4_00CFE0_00CFE1_00CFE4_00CFE8_00CFF0_00CFF3_00CFF5_00CFFC),
  (0x6F5A5A, 0x00D018_00D02D_00D034_00D035_00D038_00D050_00D06C_00D070_00D074_00D07C_00D07D_00D081),
  (0x6F5A66, 0x00D0A4_00D0A5_00D0A8_00D0AC_00D0B4_00D0B5_00D0B7_00D0B9),
  (0x6F5A70, 0x00D0C0_00D0C1_00D0C4_00D0C8_00D0C9_00D0D0_00D0D1_00D0D3_00D0D4_00D0D5_00D0DC_00D0DD),
  (0x6F5A7C, 0x00D0E0_00D0E4_00D0EC),
  (0x6F5B21, 0x00D0ED_00D0EF_00D0F0_00D0F1_00D130_00D131_00D134_00D138_00D140_00D141_00D143_00D144),
  (0x6F5B2D, 0x00D145_00D14C_00D14D_00D150_00D154_00D15C_00D15D_00D15F_00D160_00D161_00D168_00D1A0),
  (0x6F5B39, 0x00D1A1_00D1A4_00D1A8_00D1B0_00D1B1_00D1B3_00D1B5_00D1D8_00D1F4),
  (0x6F5B43, 0x00D22C_00D22D_00D230_00D234_00D23C_00D23D_00D23F_00D241_00D264_00D277_00D280_00D284),
  (0x6F5B4F, 0x00D288_00D290_00D291_00D293_00D295_00D29C),
  (0x6F5B57, 0x00D2AC),
  (0x6F5B59, 0x00D2B8_00D2B9_00D2BC_00D2BF_00D2C0_00D2C8_00D2C9_00D2CB_00D2D4_00D1F8_00D2F0_00D2F1),
  (0x6F5B65, 0x00D2F4_00D2F8_00D300_00D301_00D305),
  (0x6F5B6C, 0x00D30C_00D30D_00D30E_00D310_00D314_00D31C_00D31D_00D31F_00D320_00D321_00D325_00D328),
  (0x6F5B78, 0x00D329_00D32C_00D330_00D338_00D339_00D33B_00D33C),
  (0x6F5C21, 0x00D33D),
  (0x6F5C23, 0x00D37C_00D37D_00D380_00D384_00D38C_00D38D_00D38F_00D390_00D391_00D398_00D399_00D39C),
  (0x6F5C2F, 0x00D3A0_00D3A8_00D3A9_00D3AB_00D3AD_00D3B4_00D3B5_00D3B8_00D3BC_00D3C4_00D3C5_00D3C8),
  (0x6F5C3B, 0x00D3C9_00D3D0_00D3EC_00D3ED_00D3F0_00D3F4_00D3FC_00D3FD_00D3FF_00D401_00D440_00D444),
  (0x6F5C47, 0x00D45C_00D46F_00D478_00D479_00D47C_00D480_00D488_00D489_00D48B_00D48D_00D494_00D4E8),
  (0x6F5C53, 0x00D504),
  (0x6F5C55, 0x00D508_00D50C_00D514_00D515_00D53C_00D53D_00D540_00D544_00D54C_00D54D_00D54F_00D551),
  (0x6F5C63, 0x00D558_00D559_00D55C_00D560_00D565_00D568_00D569_00D56B_00D56C_00D56D_00D571_00D574),
  (0x6F5C6F, 0x00D575_00D578_00D57C_00D584_00D585_00D587_00D588_00D589_00D590_00D5A5_00D5C8_00D5C9),
  (0x6F5C7B, 0x00D5CC_00D5D0_00D5D2_00D5D8),
  (0x6F5D21, 0x00D5D9_00D5DB_00D5DD_00D5E4_00D5E5_00D5E8_00D5EC_00D5F4_00D5F5_00D5F7_00D5F9_00D600),
  (0x6F5D2D, 0x00D601_00D604_00D608_00D610_00D611_00D613_00D614_00D615_00D61C_00D638_00D639_00D63C),
  (0x6F5D39, 0x00D640_00D648_00D649_00D64B_00D64D),
  (0x6F5D3F, 0x00D654_00D655_00D658_00D65C),
  (0x6F5D44, 0x00D667_00D669_00D670_00D671_00D683),
  (0x6F5D4A, 0x00D68C_00D68D_00D69F_00D6A1_00D6A8_00D6C4_00D6C5_00D6C8_00D6CC_00D6D1_00D6D4_00D6D7),
  (0x6F5D56, 0x00D6E0_00D6E4_00D6E8_00D6F0_00D6FC),
  (0x6F5D5C, 0x00D700_00D711_000965_00D719_00D71C_00D720_00D728_00D729),
  (0x6F5D65, 0x00D72D_00D734_00D73C_00D744_00D749_00D750_00D751_00D754_00D757_00D758_00D759_00D760),
  (0x6F5D71, 0x00D761_00D763_00D765_00D769_00D76C_00D770_00D774_00D788_00D789_00D78C_00D790_00D798),
  (0x6F5D7D, 0x00D799_00D79B),
  (0x6F5E21, 0x00D79D),
  (0x6F7621, 0x003181_003186_00317F),
  (0x6F7625, 0x00318D),
  (0x6F7721, 0x00AD35_00AD7B),
  (0x6F7724, 0x00AD89_00AD9D_00ADB9_00ADD5_00AE07_00AE0E_00AE0F_00AE00_00AE14_00AE5F_00AEED_00AF09),
  (0x6F7730, 0x00AF50_00AFBF_00B060_00B9C4_00C54D_00C54F_00C552_00C5AB_00C568_00C61C_00C61D_00C6FD),
  (0x6F773C, 0x00C717_00C733_00CB4C),
  (0x704C2A, 0x00915E),
  (0x70586F, 0x004EEB),
  (0x705B71, 0x0057B4),
  (0x705C43, 0x0082CA),
  (0x705C50, 0x0082C4),
  (0x705D46, 0x00841C),
  (0x705D5C, 0x008488),
  (0x705F30, 0x007519),
  (0x705F39, 0x005416),
  (0x705F50, 0x00549D_0054D0),
  (0x705F54, 0x0054B4),
  (0x705F5B, 0x0054A3),
  (0x705F61, 0x0054DA),
  (0x70602D, 0x0055B9),
  (0x70603A, 0x0055EA),
  (0x70604C, 0x0055F5),
  (0x706054, 0x005623),
  (0x706058, 0x00562D),
  (0x706067, 0x00567B),
  (0x706131, 0x005C9C),
  (0x70622A, 0x007339),
  (0x706247, 0x009987),
  (0x70624E, 0x009995),
  (0x706340, 0x0061B7),
  (0x706640, 0x0080EC),
  (0x706B42, 0x0080BC),
  (0x706B44, 0x0080BD),
  (0x706B4C, 0x0080E9),
  (0x706B5B, 0x00810E),
  (0x706B5F, 0x008112),
  (0x706B6A, 0x008159),
  (0x706C42, 0x0070BB_0070C0),
  (0x706D3B, 0x007818),
  (0x706D3F, 0x00781C),
  (0x706D45, 0x00783C),
  (0x70727D, 0x0087A8),
  (0x707360, 0x007B7B),
  (0x70736E, 0x007BA2),
  (0x707438, 0x00823E),
  (0x707523, 0x009170),
  (0x70755D, 0x008E3A),
  (0x70775D, 0x009B0F),
  (0x707771, 0x009EE2),
  (0x7B2126, 0x0030FB),
  (0x7B2133, 0x0030FD_0030FE),
  (0x7B2139, 0x003005_003006),
  (0x7B213C, 0x0030FC),
  (0x7B2421, 0x003041_003042_003043_003044_003045_003046_003047_003048_003049_00304A_00304B_00304C),
  (0x7B242D, 0x00304D_00304E_00304F_003050_003051_003052_003053_003054_003055_003056_003057_003058),
  (0x7B2439, 0x003059_00305A_00305B_00305C_00305D_00305E_00305F_003060_003061_003062_003063_003064),
  (0x7B2445, 0x003065_003066_003067_003068_003069_00306A_00306B_00306C_00306D_00306E_00306F_003070),
  (0x7B2451, 0x003071_003072_003073_003074_003075_003076_003077_003078_003079_00307A_00307B_00307C),
  (0x7B245D, 0x00307D_00307E_00307F_003080_003081_003082_003083_003084_003085_003086_003087_003088),
  (0x7B2469, 0x003089_00308A_00308B_00308C_00308D_00308E_00308F_003090_003091_003092_003093),
  (0x7B2521, 0x0030A1_0030A2_0030A3_0030A4_0030A5_0030A6_0030A7_0030A8_0030A9_0030AA_0030AB_0030AC),
  (0x7B252D, 0x0030AD_0030AE_0030AF_0030B0_0030B1_0030B2_0030B3_0030B4_0030B5_0030B6_0030B7_0030B8),
  (0x7B2539, 0x0030B9_0030BA_0030BB_0030BC_0030BD_0030BE_0030BF_0030C0_0030C1_0030C2_0030C3_0030C4),
  (0x7B2545, 0x0030C5_0030C6_0030C7_0030C8_0030C9_0030CA_0030CB_0030CC_0030CD_0030CE_0030CF_0030D0),
  (0x7B2551, 0x0030D1_0030D2_0030D3_0030D4_0030D5_0030D6_0030D7_0030D8_0030D9_0030DA_0030DB_0030DC),
  (0x7B255D, 0x0030DD_0030DE_0030DF_0030E0_0030E1_0030E2_0030E3_0030E4_0030E5_0030E6_0030E7_0030E8),
  (0x7B2569, 0x0030E9_0030EA_0030EB_0030EC_0030ED_0030EE_0030EF_0030F0_0030F1_0030F2_0030F3_0030F4),
  (0x7B2575, 0x0030F5_0030F6_003099_00309C_0030F7_0030F8_0030F9),
  (0x7B2733, 0x00AC00),
  (0x7B3729, 0x007C82),
  (0x7B3C32, 0x009D2B),
  (0x7B3C36, 0x0096EB),
  (0x7B4664, 0x0051EA),
  (0x7B4677, 0x005302),
  (0x7B4823, 0x007872),
  (0x7B482B, 0x007560),
  (0x7B4838, 0x00567A),
  (0x7B4B7B, 0x009EBF),
  (0x7B4C5D, 0x006762),
  (0x7B4C68, 0x005301),
  (0x7B4C7A, 0x009453),
  (0x7B5130, 0x005116),
  (0x7B515E, 0x0051E9),
  (0x7B525D, 0x0053FA),
  (0x7B5326, 0x0054D8),
  (0x7B533B, 0x00555D),
  (0x7B5375, 0x0056CE),
  (0x7B5429, 0x005726_005737),
  (0x7B5438, 0x0057B3),
  (0x7B543A, 0x0057AA_0057B0),
  (0x7B5442, 0x0057D6),
  (0x7B544B, 0x005870),
  (0x7B5451, 0x0058B9),
  (0x7B5457, 0x0058B8),
  (0x7B545C, 0x0058D7),
  (0x7B545F, 0x0058E5),
  (0x7B554E, 0x005B36),
  (0x7B5626, 0x004E62),
  (0x7B562C, 0x00599B),
  (0x7B562E, 0x005CBB),
  (0x7B5630, 0x005CBC),
  (0x7B5632, 0x005CC5_005CBE),
  (0x7B564E, 0x005D76),
  (0x7B5657, 0x005D90),
  (0x7B5737, 0x005F16),
  (0x7B573B, 0x005F41),
  (0x7B576A, 0x00603A),
  (0x7B594B, 0x006327),
  (0x7B595E, 0x0063B5),
  (0x7B5A31, 0x0064F6),
  (0x7B5A73, 0x006683),
  (0x7B5A7E, 0x0066BC),
  (0x7B5B37, 0x006737),
  (0x7B5B7B, 0x006926),
  (0x7B5C29, 0x006925),
  (0x7B5C2D, 0x006928),
  (0x7B5C30, 0x006923_006921),
  (0x7B5C39, 0x00697E),
  (0x7B5C43, 0x006981),
  (0x7B5C4F, 0x0069DD),
  (0x7B5C53, 0x006A2E),
  (0x7B5C71, 0x006A78),
  (0x7B5D36, 0x006B1F),
  (0x7B5E63, 0x006E82),
  (0x7B5F70, 0x007195),
  (0x7B6126, 0x0074F2),
  (0x7B6136, 0x00753C),
  (0x7B613A, 0x007549),
  (0x7B613E, 0x007569),
  (0x7B626D, 0x007874),
  (0x7B6273, 0x0078B5),
  (0x7B6325, 0x007907),
  (0x7B634E, 0x007A43),
  (0x7B6373, 0x007B02),
  (0x7B6449, 0x007C13),
  (0x7B644C, 0x007C17),
  (0x7B644E, 0x007BF6),
  (0x7B6464, 0x007C90),
  (0x7B6466, 0x007CAD),
  (0x7B6471, 0x007CC0),
  (0x7B6474, 0x007CD8),
  (0x7B654F, 0x007E05),
  (0x7B656D, 0x007E83_007DD5),
  (0x7B6576, 0x007E90),
  (0x7B6733, 0x0081A4),
  (0x7B675C, 0x00825D),
  (0x7B684D, 0x008422),
  (0x7B6868, 0x0084D9),
  (0x7B6946, 0x008630),
  (0x7B695B, 0x0086AB),
  (0x7B6962, 0x0086EF),
  (0x7B6A2C, 0x0087D0),
  (0x7B6A5E, 0x0088B0),
  (0x7B6A61, 0x0088C3),
  (0x7B6A6D, 0x008904),
  (0x7B6B27, 0x008977),
  (0x7B6B5C, 0x008ADA),
  (0x7B6D3F, 0x008EBE_008EC5_008EC8),
  (0x7B6D5A, 0x008F4C),
  (0x7B6D7A, 0x009027),
  (0x7B6E28, 0x009056),
  (0x7B6E5C, 0x0091DF),
  (0x7B6F27, 0x00933B),
  (0x7B6F5B, 0x00958A),
  (0x7B6F5D, 0x009596),
  (0x7B7023, 0x009666),
  (0x7B7058, 0x009779),
  (0x7B705D, 0x009786),
  (0x7B7060, 0x009790),
  (0x7B7124, 0x0098AA),
  (0x7B7152, 0x0099F2),
  (0x7B7174, 0x009ADE),
  (0x7B717D, 0x009AF1_009AF7),
  (0x7B723B, 0x009B96),
  (0x7B7240, 0x009BB4),
  (0x7B7245, 0x009BCF_009BD1),
  (0x7B724E, 0x009BF2),
  (0x7B7260, 0x009C30),
  (0x7B7265, 0x009C5A),
  (0x7B727E, 0x009D48),
  (0x7B7323, 0x009D64),
  (0x7C2122, 0x023CFE),
  (0x7F4E6B, 0x004E6B),
  (0x7F4E6D, 0x004E6D),
  (0x7F4E76, 0x004E76_004E77),
  (0x7F503B, 0x00503B),
  (0x7F5078, 0x005078),
  (0x7F5368, 0x005368),
  (0x7F5451, 0x005451),
  (0x7F551C, 0x00551C),
  (0x7F5AA4, 0x005AA4),
  (0x7F5C19, 0x005C19),
  (0x7F5CC0, 0x005CC0),
  (0x7F5E77, 0x005E77),
  (0x7F5F11, 0x005F11),
  (0x7F5F5B, 0x005F5B),
  (0x7F6085, 0x006085),
  (0x7F6231, 0x006231),
  (0x7F63F7, 0x0063F7),
  (0x7F657E, 0x00657E),
  (0x7F663B, 0x00663B),
  (0x7F67FB, 0x0067FB),
  (0x7F6927, 0x006927),
  (0x7F6B0C, 0x006B0C),
  (0x7F7050, 0x007050),
  (0x7F7501, 0x007501),
  (0x7F7916, 0x007916),
  (0x7F7A36, 0x007A36),
  (0x7F7AD7, 0x007AD7),
  (0x7F7B7D, 0x007B7D),
  (0x7F7BD2, 0x007BD2),
  (0x7F8009, 0x008009),
  (0x7F90DE, 0x0090DE),
  (0x7F9115, 0x009115)]

/-- The lines of /repo/modules/from/CCCII.txt: code, character.  No two lines have the same code, so their order does not matter; here they are
sorted. -/
def reads : Chart := reads0 ++ (reads1 ++ (reads2 ++ (reads3)))

/-- Part of `writes`. -/
def writes0 : Chart := wide24 [
  (0x21, 0x212254_212322_212323_212324_212325_212326_212327_212328_212329_21232A_212222_21232C),
  (0x2D, 0x212223_21232E_21232F_212330_212331_212332_212333_212334_212335_212336_212337_212338),
  (0x39, 0x212339_21233A_21233B_21222F_212229_212230_21233F_212340_212341_212342_212343_212344),
  (0x45, 0x212345_212346_212347_212348_212349_21234A_21234B_21234C_21234D_21234E_21234F_212350),
  (0x51, 0x212351_212352_212353_212354_212355_212356_212357_212358_212359_21235A_21235B_21235C),
  (0x5D, 0x21235D),
  (0x5F, 0x21235F),
  (0x61, 0x212361_212362_212363_212364_212251_212366_212367_212368_212369_21236A_21236B_21236C),
  (0x6D, 0x21236D_21236E_21236F_212370_212371_212372_212373_212374_212375_212376_212377_212378),
  (0x79, 0x212379_21237A_21237B_212255_21237D_21237E),
  (0xA2, 0x212B52_212B54),
  (0xA5, 0x212B55),
  (0xA7, 0x212B63),
  (0xA9, 0x212B60),
  (0xAE, 0x212B5F),
  (0xB1, 0x212224),
  (0xB6, 0x212B5E),
  (0xD7, 0x212225),
  (0xF7, 0x212227),
  (0xFC, 0x212F7A),
  (0x2C7, 0x212F51),
  (0x2CA, 0x212F50_212F52),
  (0x2D9, 0x212F53),
  (0x394, 0x212239),
  (0x3C0, 0x212252),
  (0x965, 0x6F5D5E),
  (0x1100, 0x6F2457_6F2465_6F2458_6F2459_6F2469_6F245A_6F245B_6F245C_6F246E_6F245D_6F2470_6F245E),
  (0x110C, 0x6F245F_6F2471_6F2460_6F2461_6F2462_6F2463_6F2464),
  (0x1161, 0x6F2472_6F2473_6F2474),
  (0x1165, 0x6F2476_6F2477_6F2478),
  (0x1169, 0x6F247A_6F247B),
  (0x116D, 0x6F247E_6F2521),
  (0x1172, 0x6F2525_6F2526_6F2527_6F2528),
  (0x2018, 0x212B40_212B41),
  (0x201C, 0x212B42_212B43),
  (0x2020, 0x212B64_212B65),
  (0x20A1, 0x212B53),
  (0x2160, 0x212E71_212E72_212E73_212E74_212E75_212E76_212E77_212E78_212E79_212E7A_212E7B_212E7C),
  (0x21D2, 0x212249),
  (0x21D4, 0x21224A),
  (0x2200, 0x212244),
  (0x2202, 0x212237_212243),
  (0x2206, 0x21223A_21223B_21224C_21224D),
  (0x220B, 0x21224B),
  (0x2211, 0x21224E),
  (0x2215, 0x212228),
  (0x221A, 0x212253),
  (0x221D, 0x21222E_212221),
  (0x2220, 0x21223D),
  (0x2225, 0x21223F),
  (0x2229, 0x212246_212245_212238),
  (0x2234, 0x212242),
  (0x223C, 0x21222D),
  (0x2245, 0x212240),
  (0x2248, 0x21222C),
  (0x225E, 0x212241),
  (0x2260, 0x21222A_21222B),
  (0x2264, 0x212233_212234),
  (0x226A, 0x212235_212236),
  (0x226E, 0x212231_212232),
  (0x2282, 0x212247_212248),
  (0x22A4, 0x21223E),
  (0x22C5, 0x212226),
  (0x22EE, 0x212B36_212B37),
  (0x25A1, 0x21223C),
  (0x3001, 0x212B35_212B33),
  (0x3005, 0x692139_69213A_212F30_212257_212258_212B4A_212B4B_212B25_212B26_212B2B_212B2C_212B4C),
  (0x3011, 0x212B4D_212B75_212A46_212B31_212B32_212B4E_212B4F),
  (0x3021, 0x212F21_212F22_212F23_212F24_212F25_212F26_212F27_212F28_212F29),
  (0x3038, 0x212F2A_212F2B_212F2C),
  (0x3041, 0x692421_692422_692423_692424_692425_692426_692427_692428_692429_69242A_69242B_69242C),
  (0x304D, 0x69242D_69242E_69242F_692430_692431_692432_692433_692434_692435_692436_692437_692438),
  (0x3059, 0x692439_69243A_69243B_69243C_69243D_69243E_69243F_692440_692441_692442_692443_692444),
  (0x3065, 0x692445_692446_692447_692448_692449_69244A_69244B_69244C_69244D_69244E_69244F_692450),
  (0x3071, 0x692451_692452_692453_692454_692455_692456_692457_692458_692459_69245A_69245B_69245C),
  (0x307D, 0x69245D_69245E_69245F_692460_692461_692462_692463_692464_692465_692466_692467_692468),
  (0x3089, 0x692469_69246A_69246B_69246C_69246D_69246E_69246F_692470_692471_692472_692473),
  (0x3099, 0x692577),
  (0x309C, 0x692578_212B72_212B73),
  (0x30A1, 0x692521_692522_692523_692524_692525_692526_692527_692528_692529_69252A_69252B_69252C),
  (0x30AD, 0x69252D_69252E_69252F_692530_692531_692532_692533_692534_692535_692536_692537_692538),
  (0x30B9, 0x692539_69253A_69253B_69253C_69253D_69253E_69253F_692540_692541_692542_692543_692544),
  (0x30C5, 0x692545_692546_692547_692548_692549_69254A_69254B_69254C_69254D_69254E_69254F_692550),
  (0x30D1, 0x692551_692552_692553_692554_692555_692556_692557_692558_692559_69255A_69255B_69255C),
  (0x30DD, 0x69255D_69255E_69255F_692560_692561_692562_692563_692564_692565_692566_692567_692568),
  (0x30E9, 0x692569_69256A_69256B_69256C_69256D_69256E_69256F_692570_692571_692572_692573_692574),
  (0x30F5, 0x692575_692576_692579_69257A_69257B),
  (0x30FB, 0x212B34_69213C_212B70_212B71),
  (0x3105, 0x212F54_212F55_212F56_212F57_212F58_212F59_212F5A_212F5B_212F5C_212F5D_212F5E_212F5F),
  (0x3111, 0x212F60_212F61_212F62_212F63_212F64_212F65_212F66_212F67_212F68_212F69_212F6A_212F6B),
  (0x311D, 0x212F6C_212F6D_212F6E_212F6F_212F70_212F71_212F72_212F73_212F74_212F75_212F76_212F77),
  (0x3129, 0x212F78),
  (0x317F, 0x6F7623),
  (0x3181, 0x6F7621),
  (0x3186, 0x6F7622),
  (0x318D, 0x6F7625),
  (0x33D1, 0x212250_21224F),
  (0x3400, 0x4B302F_216426),
  (0x3404, 0x236130_216434),
  (0x340C, 0x216440),
  (0x3416, 0x236152),
  (0x341C, 0x236157),
  (0x3421, 0x2D3F52),
  (0x3424, 0x23615C),
  (0x3428, 0x216447),
  (0x342C, 0x236170),
  (0x342F, 0x236221_333157_21646F_236228_236229),
  (0x3439, 0x2D646B),
  (0x343B, 0x236234_23623C_276749_216478),
  (0x3440, 0x21647E_236245_2D3078_216552_2D3166_2D313F_216546_27676B),
  (0x3449, 0x236258_23624A_236250_216563_236257_23625C),
  (0x3450, 0x23624E),
  (0x3457, 0x21663D),
  (0x3459, 0x23626A_236266_236269_21662E_236264_236262_236273),
  (0x3463, 0x23627B_2D7C22_21665F_23632D_236327),
  (0x3469, 0x276946),
  (0x346B, 0x216678),
  (0x346D, 0x236322_216737_23633B),
  (0x3473, 0x21676B_333159_23634F_236367_236363_236352),
  (0x347A, 0x393165_23636A_23637D_2D6755_21682B_236423_216770_23637B_23642C),
  (0x3484, 0x216851_236425_216857),
  (0x3488, 0x236427),
  (0x348A, 0x236447),
  (0x348C, 0x3A5175_23642F_23642D),
  (0x3491, 0x236435_23643A_21685A_236439_236430),
  (0x3497, 0x2D6872),
  (0x3499, 0x23644F_23644C_236446_23644D_236456),
  (0x349F, 0x216931_216939_21693F),
  (0x34A4, 0x216942_236472_23646F_216941_333076_21694A),
  (0x34AB, 0x236522_21694F_23652A),
  (0x34B0, 0x236545),
  (0x34B2, 0x2D596C_21695F_236549),
  (0x34B6, 0x2D3327_2D5433_216963),
  (0x34BA, 0x2D5148_216972_216973_23656E),
  (0x34BF, 0x236574),
  (0x34C2, 0x393B22_21697E_23657E_236625),
  (0x34C8, 0x236629_236631_236630_23662D_236633),
  (0x34CE, 0x23663B_23663D_236641_236640),
  (0x34D3, 0x236645_23664E_2D4842_216A5B),
  (0x34D8, 0x23667C),
  (0x34DA, 0x216A7D_2D3425_23673E_333356_216B29_236753_216B2D_236769_216B3C_236763_216B38),
  (0x34E7, 0x236775_216B3D_236776_23676F),
  (0x34EC, 0x236778_236836_236827_23682E),
  (0x34F1, 0x23683B_23683C_236835_236831_236837_216B57_216B65_236847_216B60_216B63),
  (0x34FC, 0x216B68_216B6D_236866),
  (0x3500, 0x23686B_236867_23685F_216B76_236862_236865_236864_236868),
  (0x3509, 0x276C2B_236873_216C24_216B7B_216C22_23692F_236929_356923_236931_216C28_23693D),
  (0x3515, 0x236942),
  (0x3517, 0x216C30_2D626B_216C35_236953),
  (0x351C, 0x39342E_236964_23696A),
  (0x3520, 0x23696D_216C4B_236A27_216C5D_236A33_236A37_236A32_236A3A_216C73_216C74_236A56),
  (0x352C, 0x236A5D_2D344A_227A50_216D27),
  (0x3531, 0x236A71),
  (0x3534, 0x216D32_236A77_216D39_216D3B_216D3F_236B28_3F302D_236B30),
  (0x353D, 0x336D4C_336D52_236B52),
  (0x3541, 0x216D5B_236B6D_236B6A_236B6B_236B75_216D61_216D60_216D65_216D6A_216D6E_216D78_236C26),
  (0x354D, 0x236C28_216D79),
  (0x3550, 0x236C3F_2D3D28_216E24_216E29),
  (0x3555, 0x2D3C68_3F5079_236C57_45347D_216E38_216E39_2D3522_2D353D),
  (0x355E, 0x216E45_216E49_335F4E_236C78_216E52_216E5A_2D6E59_236D2A_216E5E_216E5D_236D3A_236D41),
  (0x356A, 0x236D3E_236D3B_236D5C_216F22_216F2A_21696D_236D5A_236D4B_236D49_216E7B_236D3C_236D45),
  (0x3576, 0x216E73_216F4E_216F2C_236D6E_2D6F40_236D60_236E26_236D74),
  (0x3580, 0x236E31),
  (0x3582, 0x236E49_216F76_236E2F_236E37_236E46_236E39_216F5F),
  (0x358F, 0x236E72_236E77_217029_236E5E_236F23_217042_236E5A_2F6E5A),
  (0x3598, 0x236E69),
  (0x359F, 0x236F56_2D3637_217056_236F71_217052_21705F_217074_236F39_21707C_236F55_236F3A_21705E),
  (0x35AB, 0x236F49),
  (0x35B5, 0x236F50_236F7D_237039_217146_237044_236F78_237026_236F7E_217137_2D6F66_236F73_237032),
  (0x35C1, 0x217141_237036),
  (0x35C5, 0x217139_237021_21712C_236F76_21714C_217142_2D3670_236F6E_237040),
  (0x35D0, 0x2D3675_217129),
  (0x35D3, 0x237123_237075_23705A_3F3644_237125_217163_23707E_23705F_217173),
  (0x35E2, 0x217241_237135_217237_23712D_21722D_21717D_217233_237137_23716B_23714E_23713C_237147),
  (0x35F0, 0x23714D_21726A_23715B),
  (0x35F4, 0x23715F_237152_2F7025),
  (0x35FB, 0x237233_237231_23716E_237225_217274_237241_237232_23717C),
  (0x3606, 0x237251_237249_217333_217322_237269_237268_237271_23726E),
  (0x3610, 0x237323_23727E),
  (0x3613, 0x217356_217352_2D733D_21735C),
  (0x3619, 0x217365_237340_237346),
  (0x361D, 0x21736C_23693A_237351_23735C),
  (0x3622, 0x237366_21742A_217433_237438_23743C_237446_21745B_217452_21745F_237445),
  (0x362D, 0x2D7535),
  (0x362F, 0x45384A),
  (0x3631, 0x393823_217476),
  (0x3634, 0x2D3826),
  (0x3637, 0x2D5450_393826_337542),
  (0x363B, 0x3F7545),
  (0x363E, 0x21753E_21756E_23746E_21757D_237523_23747E_2D5E7C),
  (0x3647, 0x237529_23752F),
  (0x364A, 0x237530_217637),
  (0x364D, 0x217644_23753D_23754B_237542),
  (0x3653, 0x23753F_217668),
  (0x3659, 0x217732_237552_237553),
  (0x365D, 0x23755C_237569),
  (0x3660, 0x217766_217778_237576_237575),
  (0x3665, 0x23756C),
  (0x3669, 0x21782C_217829_237631_333830),
  (0x366E, 0x217834),
  (0x3670, 0x23763F_217848_21783C_237635_23763D),
  (0x3676, 0x217839_217853_2D7830_23764A_237644),
  (0x367E, 0x23765A),
  (0x3680, 0x23765F_23766C_23766D_21786A),
  (0x3685, 0x237721_237725_237726),
  (0x3689, 0x237730_217923_217925_2D3923_237751),
  (0x368F, 0x2D792C_333939),
  (0x3692, 0x217931_23775D_217936_21793A_21793C_237767_217939_237766_237771),
  (0x369C, 0x217947_237824_23777D_217951_217952),
  (0x36A2, 0x2D3943_2D3967_217960_23784E_393978_23784C_237851_237861_237864_23785B_237865_23785D),
  (0x36AE, 0x237856),
  (0x36B0, 0x23786E_237924_217A36_2D7A2D_23786F_237923_2D3961_397D57_237870_23787C),
  (0x36BB, 0x217A33_237879_23786B_23787B_237921),
  (0x36C1, 0x23786C_217A62_217A45_217A3F_217A47),
  (0x36CA, 0x217A48),
  (0x36CD, 0x217A71_237956_237949_217A68_237952_237942_23795C_2D7977_2D7A5D_23795D_217B22_237941),
  (0x36D9, 0x23793E_23794C_2D3979_237962_237950_23794A),
  (0x36E1, 0x23793F_217B5B),
  (0x36E4, 0x277D76_217B4B_23796D_237974_237963_217B2D_23796F_217B45_23796A_23796C_2D3A38_217C2C),
  (0x36F0, 0x2D3A2B_237A3C),
  (0x36F3, 0x217B61_237A50_237A40_237A3E_237A51_237A30_217C33_217B60_237A36_217C2E_33395F_237A34),
  (0x3701, 0x217B72_237A2E_237A4B_237A49_217C3A_237A54_217C4B_237A76_237A6A_237A5E_237A55_237A59),
  (0x370D, 0x237A57_217C54_45796B_217C51_217C37_237A64_237A60),
  (0x3715, 0x237A79_217C66_237B25_217C7D_237A72_237A6E),
  (0x371C, 0x2D7C3F_217D39_237A75),
  (0x3720, 0x237A7E_237B26_237B22_217D35_217D27_237B3E_237B3A_2F7B38_237B31_237B57_237B5D),
  (0x372C, 0x237B59_237B53_217D54_237B60_217D5F_237B71_217D60_237B73_237B78_237B72_237B7B_217D69),
  (0x3738, 0x397E31_237C21_217D77_397D74),
  (0x373D, 0x217D7D_2D3A5A_237C2D_513948_237C38_237C3B_217E29),
  (0x3745, 0x217E2C),
  (0x3748, 0x237C5D_2D3A73_2D3A66_237C5F_217E39_333B37_217E36_237C69_2D3A7D),
  (0x3753, 0x237C77_217E45_3F3B32_453A6E_217E4F_237C7B_393B23_237D3B_2D3B26_237D2D_237D2E_237D2C),
  (0x3761, 0x217E5B_2D3A65_217E63_217E6F_217E72_2E2225),
  (0x3769, 0x217E76_237D52_237D5F_217E7B_237D61_217E7D_237D67_22222A_22222F_222231),
  (0x3774, 0x2D6B24_222234_3A2234_453B42_237E4D_222242_237E56_237E59_222247_237E6A_237E71_22224E),
  (0x3781, 0x222251_237E78_242222_222256_242221_237E7D_242225_242228_242229_24222D_222262),
  (0x378F, 0x22226B_222264_333B53_222271_222272_222270_2D3B5B_22226E_24224E_242256_3F3B52_222321),
  (0x379B, 0x242263_222324),
  (0x379E, 0x222325_222327_222328_333B5A_2D303D_242327_242332_222338_22233A),
  (0x37A8, 0x242335),
  (0x37AA, 0x242338),
  (0x37AC, 0x242336_242337),
  (0x37AF, 0x2E233C_24234B_242345_242344_24233E_24234F_24233C_2D3B6B_242325),
  (0x37B9, 0x2E235C),
  (0x37BB, 0x242368_24235A_242362_24235F_3F3B67_22234D_393B6C),
  (0x37C3, 0x242365_242374_222432),
  (0x37C7, 0x24244A_242431_242427_242448_222436_242433_242428_222442_222447_242440_24242E_342439),
  (0x37D3, 0x242449_2E2447),
  (0x37D6, 0x24243C_242477_242478_242463_2D3B67_242459),
  (0x37DE, 0x222459),
  (0x37E5, 0x282560_24247E_342525_242532_393B6B_222524),
  (0x37EC, 0x22252E_513B6B),
  (0x37EF, 0x242524_24254C_24254A_24254E_242551),
  (0x37F5, 0x333B6E_242555),
  (0x37F8, 0x24255D_24256E_242577_24256C_22254F_222553_242562_242574_573B79_2E2560_34254F),
  (0x3804, 0x2E2557_24263E_242636_242623_24262A_242625_242633),
  (0x380C, 0x24262F_24263D_242637_242635_2E2577_222625_242646_24265D_242645_242643_2E257E_2E262E),
  (0x3818, 0x333C2D_242654_24265C_24265F_342636_2E264B),
  (0x3820, 0x222640_242670_242677),
  (0x3825, 0x242723_242722_22264A_242738),
  (0x382A, 0x393C38),
  (0x382D, 0x222658_242752_242756),
  (0x3831, 0x24275D_222665),
  (0x3834, 0x222667_222666_4B3C46_22266B_242772_22266F_242775_393C47_242777_24282D_222675_222674),
  (0x3840, 0x242823_242832_242830_455473_222721_24283A_22267C_222726_242846_22272E_242858_222731),
  (0x384F, 0x24286D_24285A_24286A_22273A_222738_222734_242868_24286F_222745_22273C_222743_242875),
  (0x385B, 0x222741_222750_242931_24292B_242927_2D3C58),
  (0x3865, 0x222761_242949_242953_22276A_242959_24295C_24296F),
  (0x386E, 0x242974_22277C),
  (0x3871, 0x242979_222823_393C73_242A25_242A32_242A2F_242A2A_242A36_222828_242A2B_242A33_242A3E),
  (0x387D, 0x242A3A_242A39_242A37_222830_242A44_242A41_242A46_242A4B_242A4D_342867),
  (0x3888, 0x222846_222845_242A5F_222848_222844_242A7B_242B24_242B21),
  (0x3891, 0x242B2A_242B34),
  (0x3894, 0x242B37),
  (0x3896, 0x242B41_242B42_2D3D23_22286C_22286E_242B4D_242B47_22287B_242B5D_222924_3F5B79),
  (0x38A5, 0x222940_242C2D_2D3470_242C36_242C3B_342945),
  (0x38AC, 0x242C42),
  (0x38AE, 0x2D3D40_242C48_242C45),
  (0x38B3, 0x242C56_2D5824_242C55),
  (0x38BA, 0x242C5E_242C61_222957_2D6072_222959),
  (0x38C0, 0x242C6C_242C6B_242C6D),
  (0x38C4, 0x242C73_242C77_222964_242D2B_242D36),
  (0x38CB, 0x2D3038_242D3F_242D40_242D47),
  (0x38D1, 0x242D4B_242D4D_242D50_22297A),
  (0x38D9, 0x222A24_222A2A_242D6F_242D6B_242D6A_242D6D_242D68),
  (0x38E2, 0x242D70_242D71_222A37_222A3C_2F3D59),
  (0x38EA, 0x242E30_222A42_242E2E_242E34),
  (0x38EF, 0x222A44_242E47_242E41_333D73),
  (0x38F5, 0x242E55_242E54_242E5B),
  (0x38FA, 0x333D78_222A5A_2D3E21_2D3E37_242E75_222A64_2D3D7B_2D3E26_333E33_222A69_222B25_393E77),
  (0x3906, 0x242F31_242F2E_242E7E_242F23_242F2D_242F2B_242F41_242F4C_242F4E_222B47),
  (0x3912, 0x242F3C_242F3B_242F49_222B40_222B27),
  (0x3918, 0x282D64_2D3E43_242F5F_2E2B71_222B63_222B34_222B55_453E3D_222B64_242F58_242F57_242F60),
  (0x3924, 0x303055_222B54_242F54_242F5E_222B61_2D3E46_2D3E32_242F63_222B5B_282E55_222C3B_243025),
  (0x3930, 0x2E2B45_242F76_222C25_242F79_242F78),
  (0x3936, 0x242F7A_24302C_242F71_222C21),
  (0x393B, 0x243037),
  (0x393E, 0x243039_222C55_243043),
  (0x3942, 0x24304A_2D3E5C_222C4D_243054_222C49_243045_222C5B_24303B_243050_222C40_243051),
  (0x394E, 0x2E2C35_222C5C),
  (0x3951, 0x243059_222C5F_24303E_242F7B),
  (0x3956, 0x243066),
  (0x395A, 0x243055_222D25_222D31_243070_222C77_222D3A_222D22_24306F_222C76_24312E_243131_222D30),
  (0x3966, 0x222D21_2D603B_243138_243042),
  (0x396B, 0x222C71_24313C_243144_222D64_222D5F_243151_2E2C60_24315B_243142_222D65_2E2D5B_222D49),
  (0x3977, 0x222D47_393F41_243159),
  (0x397C, 0x243177_243176_243178),
  (0x3980, 0x243223_222D72),
  (0x3983, 0x24316B_243224_24317A_24317D_243166),
  (0x398A, 0x222E4D_243173_222E53_2D3E73_24323B_243239_24323A_243233_222E4E_243242_2E2E78_243232),
  (0x3996, 0x222E48_243258_243268),
  (0x399A, 0x24327A_222F24_243275_243321_2E2E75_222F22_222F21_24332C_243263_222F35_2D3F5A_243337),
  (0x39A6, 0x243339_2E2E43),
  (0x39A9, 0x243346_243343_222F3F_222F3E_243357),
  (0x39AF, 0x2D3F65_222F49_243363),
  (0x39B4, 0x24336D_24336F_24336A),
  (0x39B8, 0x222F55_243424_222F62_243430_222F68_243438_2E2F78_222F72_222F71_222F74),
  (0x39C3, 0x243467_243466_243465_243476_243475_2D3D3C_24352C_223030_243524_223045_24347D_223036),
  (0x39CF, 0x28322A_283564),
  (0x39D2, 0x223051_22306F_243538_243540_24353C_22312C_223068_223052_243536),
  (0x39DF, 0x28346C),
  (0x39E1, 0x243546_22312B_24355B_243534_24355C_223130),
  (0x39E8, 0x303469_24355E_243560_24354D_22307A_243565_243558_24354A),
  (0x39F1, 0x394067_24356A_243623_24357E_22314F_24357A_24356C_243568_22322B_223232_243630_24362F),
  (0x39FD, 0x24363D_22323C_343435_2E3056_24362E_223178_243625_243644_24363A_223223_223165_2D4225),
  (0x3A09, 0x243658_223262_22317C_243677_243679_223265_24365D_223277_22327C_243652),
  (0x3A14, 0x243656_2E354E_223260_22326C),
  (0x3A19, 0x243734_24372D_223343_223349_243727_243723_24372B_223347_22334A_243733_3F4174_2E346C),
  (0x3A25, 0x223357_2E3564_243730_223356_223323_223340),
  (0x3A2D, 0x243759_243755_3F422A_24373A_243754),
  (0x3A33, 0x243741_243747_403250_394153_22337C_243742_223369_243745_24375D_243761_223374_24373F),
  (0x3A3F, 0x3F417C_4B417C_2D4536),
  (0x3A43, 0x22343B_22345D_303735_243763_24376B_243765_243778_243779_223470_223447_243777_403531),
  (0x3A50, 0x223460),
  (0x3A52, 0x243829),
  (0x3A54, 0x243828_2D4054_24382A_2D4236_223469_223467_24383E_223534_22352F_223527),
  (0x3A60, 0x22353F_243844_223548_243843_243845_2E355E_3F4236_24384A_243847_223547),
  (0x3A6C, 0x2E3551_24385A),
  (0x3A6F, 0x243866_243865_223563_243869_223564_223562_223570_223571_22356E_243877),
  (0x3A7A, 0x34362D_22357E_22357D_24392A_243931_22362B_24393D),
  (0x3A82, 0x22362E),
  (0x3A84, 0x24394F_24394E_3C3954_243964_24395A_303967_24396D_223641_22363D_24396B_24396A_22364A),
  (0x3A90, 0x243A2D_243A23_223649_243A30),
  (0x3A95, 0x243A28_243A32),
  (0x3A9D, 0x243A3A_243A3F_2D424B_243A47_223650_243A45_2D4251),
  (0x3AA5, 0x243A59_243A55),
  (0x3AA8, 0x243A60_243A61),
  (0x3AAB, 0x22365F_243A74_243B21_243B24),
  (0x3AB1, 0x243B31),
  (0x3AB4, 0x243B3D_223672_243B41_2D425B),
  (0x3AB9, 0x243B49_22367D_223721_243B4D_243B4E_243B52),
  (0x3AC1, 0x5D4266_243B5C_22372D_243B68_394270),
  (0x3ACA, 0x243B71_403732),
  (0x3ACD, 0x243B78_243C21_22373F_223753_574278),
  (0x3AD3, 0x243C3C_2D544C),
  (0x3AD8, 0x223761_243C3F_223767_243C56_243C58_243C61_243C57_22382D_243C4E),
  (0x3AE4, 0x34376F_243C75_303C57_2D4345_243C64_22377B_5D4325),
  (0x3AEC, 0x22383A),
  (0x3AEF, 0x243D21_243C77_223840_223841_454334_2D363B_243D36_223857_243D2D_243D2C_243D3A_33427C),
  (0x3AFB, 0x243D33_2E3843_223867),
  (0x3AFF, 0x223869),
  (0x3B01, 0x303C74_243D49_243D50_243D41),
  (0x3B06, 0x243D42_243D4F_303D60_243D44_223923_223925_243D3F_243D58_223937_243D5E_22392E),
  (0x3B12, 0x243D71_223945_243D6E_363D5F),
  (0x3B17, 0x22395F_243E21_2E3876_243D6B_243E28_39432F_243D79_243E27),
  (0x3B20, 0x33432E_303E55_243E2C_243E3A_223970_3F4345_243E3C_574345),
  (0x3B29, 0x34393E_243E42_243E46_243E4D_243E4B_243E50_243E4F),
  (0x3B31, 0x2D4359_243E62_243E6C_243E71_243E70),
  (0x3B38, 0x243E77),
  (0x3B3B, 0x243F21_243F23),
  (0x3B3F, 0x223A48),
  (0x3B41, 0x223A63_223A6A),
  (0x3B44, 0x243F3B),
  (0x3B47, 0x243F54_223B2D),
  (0x3B4A, 0x223B37_243F4D_243F50),
  (0x3B4E, 0x283E33_283E66),
  (0x3B51, 0x223B57_223B53_243F6B_243F6D_223B6C),
  (0x3B58, 0x223C62_223C4C_244031_223C63_244024_244026_24402B_244021_24402F_244033_244023),
  (0x3B68, 0x223D2B_223D4D_24403B_24404A_223D27_244045_24404D_24403C_223E34_2D344F_343B3C),
  (0x3B74, 0x28405E),
  (0x3B78, 0x244123_24405C_223D2C_223D7E_223E32_244052_24405D_223E25_24406A_24407D_244073_244124),
  (0x3B84, 0x223D57_244128_404344_244069_244067),
  (0x3B8B, 0x2E3C49_2D4522_2D4476_3F4425_24413F_223F2F_244158_223E67_223D6D_244157_223E74_223E78),
  (0x3B97, 0x244148_244144_223E7C_223F2E_24414C_244140_223F40_2E3C34_244138),
  (0x3BA3, 0x2D4545),
  (0x3BA5, 0x244228_223F64_244225_223F7B_224032_244169_244162_24422A_244167_223F6F_223F7C_224035),
  (0x3BB1, 0x224024_224039_2E3C33_223F42_2E3C58_223F49_24416B),
  (0x3BB9, 0x244149),
  (0x3BBB, 0x244172_223F43),
  (0x3BBF, 0x224023),
  (0x3BC1, 0x244245_22406C_244243_224052_224132_224043_2E3C7A_2E4059_224073_24423A_244254_24424A),
  (0x3BCD, 0x224078_244234_224058_334553),
  (0x3BD3, 0x22416E_224171_224149_2E3C4C_244275_24426C_24423C_224166_244270_244321_244349),
  (0x3BDF, 0x2D6258_224049_22416F_22413D_2E3E2D_244335_22406B_4B4472),
  (0x3BEA, 0x344350_224240_224228_224239_24434A_24434E),
  (0x3BF1, 0x22422E_22422F_2E4242_224266_24434B_224246_244370_224263_2D4547_22425C_224262),
  (0x3BFE, 0x244377_224336_244428_244378_244372_244429),
  (0x3C05, 0x404041),
  (0x3C07, 0x224323_24437A_3F4538_24443A_224343_244439_224338_224349_22434A_2D4553_244434_22434C),
  (0x3C14, 0x244445_244437_2D4571_244454_224362_2E4131_244461_244469),
  (0x3C1D, 0x224373_2D367D_24452C_244526_244532_244527_224378_224377_244539_244536_244542_224379),
  (0x3C29, 0x24454B_244546_244550_244553_244548_224427_244557_224429),
  (0x3C32, 0x22442E_22442F_24455C_24455D_224436),
  (0x3C39, 0x244572_24456F_24456E_244570_244571_22443D_24462A_244629_244624_224444_224448_244636),
  (0x3C46, 0x244638_22444F_244637),
  (0x3C4A, 0x24463C),
  (0x3C4C, 0x244647_224457_24464B_334623),
  (0x3C55, 0x33462B_22445E_24466B_2D6173_224466_244729_244724_224469),
  (0x3C5E, 0x22446D_22446F_22446E_244744_244749_244751_22447E_224521_224522_244756_2D4636_28453D),
  (0x3C6A, 0x224526_224527_244768_22452B_28453A_224531_24476B_244770_24476C_244776_224534_24477D),
  (0x3C76, 0x24477C),
  (0x3C78, 0x22453C_244831_244832_22453E_244837_224540_224541_224542_244841_244843_244845_224546),
  (0x3C85, 0x244849_24484E_2D6276_24484F_224555),
  (0x3C8B, 0x22455D_24487E_224564_224566_244925),
  (0x3C92, 0x244937_24493A_224574_244948_22457A_22457C_22457B_24493B_224572_244958_33464A_244959),
  (0x3C9E, 0x24494B_244963_224630_24495F_244966),
  (0x3CA4, 0x24496A_224639_244970_24496D_244973),
  (0x3CAA, 0x22464B_244A22_244A24_39464A),
  (0x3CAF, 0x224650_244A2A_304A36_224653_224655_244A44),
  (0x3CB6, 0x22466D_2D4659_244A4B_244A4F_224676_33483E_244A50_22467D_2D5F51),
  (0x3CC0, 0x244A5F_224748_2D4737_344960_224754_33473B_244A5C),
  (0x3CC8, 0x33466A_244A69_244A6A_244B29_244A7D_244A79_244B2A_22477C_244A77_33483C_33472A),
  (0x3CD6, 0x244B2F_244B43_244A74_2D4751_244B36_244B3A_244B40_244B45_244B42),
  (0x3CE0, 0x284D78),
  (0x3CE3, 0x22484B),
  (0x3CE5, 0x244B50_244B51_244B54_244B68_244B55_244B58_244B6F_224956_244B62_224921_244B4D),
  (0x3CF3, 0x22492B),
  (0x3CF5, 0x244C41_224A33_224A3E_244C31_244C23_2D477B_224970_244C44_2D493E_244B74_224878_244C2F),
  (0x3D01, 0x244C3D_244C22_334759_244C33_2D474F_224964_3F4752_244C38_394926),
  (0x3D0F, 0x244C49_224A7C_244C47_244C4A_244C67_244C7A_3A4D62_244C53_244C5A_244C65_244C75_224A5A),
  (0x3D1B, 0x244C64_224A5B_244D25_334849_224A73_244C5F),
  (0x3D25, 0x244D43_244D27_244D53_244D4E_224C2B_244D54_244D33_244D55_244D28_244D31_244D4F_244D4C),
  (0x3D32, 0x224C2C_244D36_2D4821_244D2B_224B74_244D35_244D37),
  (0x3D3B, 0x224B54_244D5C_244E2C_2D4828_224C49_244D60_244D40_244D5E_244D77),
  (0x3D45, 0x244E2F_224C5C),
  (0x3D4A, 0x244E53_224D46_244E60_224D2D_244E3F),
  (0x3D50, 0x224D43_244E43_244E49),
  (0x3D54, 0x244D6B_2D487E_244E5F_244E62_244E63_224D38),
  (0x3D5D, 0x224D75_224E3F_244F2B_224D77_244E71_244E70_244E7E_244E78_244E6C_224E27_224E34_224D7E),
  (0x3D69, 0x244F23_244E6B_244E73_244F28_244E46_244E79_224E5C_244F44_244F31_244F42_244F2C_244F39),
  (0x3D75, 0x244F32_244F36_244F2F_344F53_244F3E_244F48_244F45),
  (0x3D7D, 0x224E78_224E70_244F67_224F21_224E7B),
  (0x3D84, 0x224F2A_224F3D_224F27_224F34_2E4E66),
  (0x3D8C, 0x224F47_224F55_24502E_224F46),
  (0x3D91, 0x224F58_245037_24503A_24503B_224F6A_24504B_245045_24503F),
  (0x3D9A, 0x224F6E_224F74),
  (0x3D9E, 0x245059_224F7E_24505E_225034),
  (0x3DA3, 0x22503F_3F494D_24506C_245075_225051_305074_22504F_365074_394A29_245125_245135_24512A),
  (0x3DAF, 0x245136_245127),
  (0x3DB2, 0x245138_24513C_225130_24514B),
  (0x3DB7, 0x225134),
  (0x3DB9, 0x245154_245158_2D4961_22515B_285266_245152_22514E_225169),
  (0x3DC2, 0x245176_225222_22522B_22517E_245222_225239_245175),
  (0x3DCA, 0x334964_24516F),
  (0x3DCD, 0x225242_245235_225273_24523D_57496B_24523A_225274_3F4967_245229_22525F),
  (0x3DD8, 0x245240_334969),
  (0x3DDF, 0x22533A_245249_24525C_225321_225322_245258_24524D_305237_245254_225331_245263),
  (0x3DEB, 0x245271_245275_22535D_225349_245273_245269_2D4978),
  (0x3DF3, 0x22537E_24532A_24532D_245337_245326_22546C_245332),
  (0x3DFB, 0x5D4966_454A28_225368_24534C_225448_24533A_2E534E_3F4A2D),
  (0x3E05, 0x225463),
  (0x3E08, 0x574968_454A2C_245377_24537B_22546A_245425_22547B_225525_225526_245436_22552F_22552E),
  (0x3E15, 0x2D4239_24545A_24545B_2D4F22_22553E_22553F_245465_24546C_245525_245526_24552E),
  (0x3E21, 0x245530_245543_245555_225554_24555B),
  (0x3E27, 0x24555F_245564_245565_245567_245577_22555C_24556C_245579_245568_22555F_225562_24562B),
  (0x3E33, 0x24562D),
  (0x3E35, 0x245632_245637_24563D_225569_225570_24563E_24564A_245648_22556E_2E5559),
  (0x3E40, 0x22556A_225576_225623_22557A_22562E),
  (0x3E46, 0x24565D_225627),
  (0x3E49, 0x245672_22562F_225631_225635_225634_22563B_22562C_24572F_245735_24573B_245736_22563F),
  (0x3E55, 0x245741_2D595C_225641_245748_245749_24574E_22564A_22565A_24577C_22565D_245770_225655),
  (0x3E61, 0x245829_24582A_245840_225662_22565E_245831_245835_245832),
  (0x3E6B, 0x245849_245847_245850_245848),
  (0x3E71, 0x22572A_245863_245862_245861_245865_225728),
  (0x3E79, 0x245874_24587A_24587E_245923_225734_245925_245879),
  (0x3E81, 0x24593D_245932_2D4A6A),
  (0x3E85, 0x2D4A7D),
  (0x3E87, 0x225764_245954_24595C_245947_245959_245945),
  (0x3E8E, 0x24595F_24596E_24597B_225743_225769_24596C),
  (0x3E95, 0x245A38_245A23_22577A_245A35),
  (0x3E9A, 0x2D4B2D_245A43_225826_245A4C_245A51_245A4D_245A54_245A5D),
  (0x3EA3, 0x245A62_245A63_245A64_245A60_245A6D_225845_245A73_245A72_2E5841),
  (0x3EAD, 0x245A78_2E5848),
  (0x3EB0, 0x245B24_245B2E_2D5D49_2D4B38_245B26_245B2A),
  (0x3EB7, 0x245B32_245B40_225877),
  (0x3EBB, 0x245B2F),
  (0x3EBD, 0x22586E),
  (0x3EBF, 0x225929_245B44),
  (0x3EC2, 0x245B41_245B4B),
  (0x3EC5, 0x285B73),
  (0x3EC7, 0x22593D_245B49_225955_225A31_2E5B4F_245B58_245B52_334B54),
  (0x3ED0, 0x245B59_245B6D_22597D_245B63_245C26_245B62_245B61_225A24),
  (0x3ED9, 0x225965),
  (0x3EDB, 0x225A25),
  (0x3EDD, 0x225A42_225A5E_245B7C_245B74_225A48_225A35),
  (0x3EE7, 0x225B3B),
  (0x3EEC, 0x225B24),
  (0x3EEE, 0x2E5B6E_245C44_245C3D_245C48_245C43),
  (0x3EF4, 0x245C46_245C50_245C59_225B4F_225B50_245C5B_245C5A_225B41),
  (0x3EFD, 0x245C65_245C66_245C62),
  (0x3F04, 0x2D4B64),
  (0x3F06, 0x245C6F_225C35),
  (0x3F09, 0x245D2C_245D2D_245D30_225C48_245D36_225C49_245D39_245D42_245D3F_245D41_245D45_225C4B),
  (0x3F15, 0x245D48_225C51_225C53_245D55_245D54_225C56_245D58_245D60_225C5F_245D5F_225C60_245D5E),
  (0x3F21, 0x225C64_245D71_245D6A_225C62_245D69_245D6B_245D72_245D79_245D66_245D75_245D7D_225C6A),
  (0x3F2D, 0x225C6C_225C69_225C6B_225C70_225C74_225C72_225C76_225C75_225C73_225C79_245E28_225C7A),
  (0x3F39, 0x245E2E_245E2A_225D29),
  (0x3F3D, 0x225D26_225D24_225D2A_225D38_245E36_245E39_225D31_225D2E_245E3F_245E3C_245E40_225D37),
  (0x3F49, 0x225D35_245E48_245E4E),
  (0x3F4D, 0x245E53_245E59),
  (0x3F50, 0x245E5A_225D40_2D4B7C_225D45),
  (0x3F55, 0x225D4C_454C31_4B4C2D_225D53),
  (0x3F5A, 0x245F2B_245F37_2E5D6D_245F40_2D4C31_245F4B_245F47),
  (0x3F62, 0x245F51),
  (0x3F64, 0x245F57_225D73_225D7B_245F5A_225D7A_245F65_245F68_245F70_245F72_2E5D76),
  (0x3F6F, 0x2D4C32_246028_225E30_24602F_225E33_246034),
  (0x3F77, 0x246040_2E5F30_225E42_24603D_225E39),
  (0x3F7D, 0x24604D_225E4F_24605A_24604A_225E49_246054_246046_2F353A),
  (0x3F86, 0x2E5E3C_225E4C_225E53_246058_225E5A_24606B_2D4C77_246062_246065_24605F_225E5B_225E62),
  (0x3F92, 0x24606C_225E70_24607C_225E64_225E6E_24606F_246072_246129_246145_225E65_225E6A_246071),
  (0x3F9E, 0x225E69_24607D_246126_306169_225E7D_24614E_24612E_246143_225E75_246141_246136_246148),
  (0x3FAA, 0x246162_225F2A),
  (0x3FAD, 0x225F3A_24616F_225F34_24615A),
  (0x3FB6, 0x246222_225F4A_246177_246223_225F42_225F46_246221_246227_246172_246152),
  (0x3FC1, 0x24624B_24623F_225F5B_225F59_246246_246248_246238_225F66_225F70_225F6D_2E5F47_24626D),
  (0x3FCE, 0x225F7C),
  (0x3FD1, 0x246274_246272_226027),
  (0x3FD5, 0x226031_246325_226034_246328_226039_246332_22603C_22603E_334D21),
  (0x3FDF, 0x246350_226050),
  (0x3FE2, 0x2D525B_22605C_246365_22605E_226062_246375_24637C_246423_22606F_24642D_226070_246437),
  (0x3FEE, 0x246435_24643F_246438_246442),
  (0x3FF3, 0x246457_246454_30646F_24645A_246459_246463_24646B_246474_24647D_246522_246527_22607E),
  (0x3FFF, 0x226122_22607D_22612B_226129_22612F_246537_246531_3F4D3C_22613A_24653B_22613E_246553),
  (0x400B, 0x456251),
  (0x400D, 0x24655F_2E614B_246567_246573),
  (0x4012, 0x22614A_246572_24656B_24657B_22614C_246622_24657E_246624_24662B_22615B_24662A_22614E),
  (0x401E, 0x246576_30663D_226167_22616A_22616E_226173_246649),
  (0x4027, 0x246654_24665E_226227_22622A_246662_226229_24664F_24664D_24666C_24672A_24672C_24672B),
  (0x4033, 0x30675F_246676_246729_246668_24666F_246678_22622F_226238_246721_246671_24674B_246679),
  (0x403F, 0x246670),
  (0x4041, 0x306668_22625B_226240_24673C_246738_226246_246736_22623F_34623F_246768_246764_246774),
  (0x404D, 0x246769_246756_246762_246776_24676F_246772_246824_24677C_24675E_286274_226268_246844),
  (0x4059, 0x246842_24683D_246846_24683B_22626C_394D49_24682B_24682A),
  (0x4062, 0x246855_24685B_246850_246861_41312B_246860_246851_24686B),
  (0x406B, 0x246924_24686F_246877_246875_246928_246876_246878_24687A_246864_246929_246935_246938),
  (0x4077, 0x246939_24692F_334D62_246934_246955_246951_246956_226336_24695C_246957_246965_246968),
  (0x4083, 0x246964_22633F_246970_246973_226340),
  (0x4089, 0x246A2A_246A35),
  (0x408C, 0x22634D_246A3F_22634E_226353_246A4E_226354_246A52_2D5829_246A64_226358_394E28_246A78),
  (0x4098, 0x246A7B),
  (0x409A, 0x246B25_22636F_246B26_2E6369),
  (0x409F, 0x246B38_246B42_334E35_246B45_246B62_246B46_34652B_226437_246B41),
  (0x40A9, 0x246B64_246B66_226455_226447_246B4D_226445_306B35_246C2A_246C25_2D4E2F_246C28_246B74),
  (0x40B6, 0x246B76_246C48_246C36_226526_246C3E_246C3C_246C4B_246C3F_246C37_226525_22646E_226471),
  (0x40C2, 0x226522),
  (0x40C7, 0x246C4C_246C5A_226533_246C5F_226546_246C56_226530_22653A_246C5E),
  (0x40D1, 0x246C7D_226553_226552_226550_226559_246C79_246C7C_2E6474_246D24_226566_246D2B_246D2E),
  (0x40DD, 0x246D2A_246D29),
  (0x40E0, 0x226565_246D3F_246D48_226628_22662F_246D3B_246D3C_22662D),
  (0x40E9, 0x346452_246D4E_246D5D_246D57_246D54_246D51),
  (0x40F0, 0x246D60_246D65_2D4E50_246D6B_226648_246D6D_246D6E_226651_22665E_246D73_2D4E51_246D7D),
  (0x40FD, 0x246E28_22666E_246E27_334E77_246E2E_2E6767_246E30_246E34_246E39_246E38_246E41_246E3D),
  (0x4109, 0x246E43_226732_246E49_246E44_22673D_246E48_22673A_226742_246E4E_334F3B_246E58_246E59),
  (0x4115, 0x334E61),
  (0x4118, 0x246E5B_246E5A_226769_246E63_246E5E_246E62),
  (0x411F, 0x246E6C_246E6E),
  (0x4122, 0x45627D),
  (0x4124, 0x246E79_246F21_246F29_246F2A_246F31_246F2E_22682B_246F2F_394F31_4B3C65_246F39_246F42),
  (0x4130, 0x246F3D_246F37_246F45_246F43),
  (0x4136, 0x22683B_226840_246F58),
  (0x413A, 0x406850_246F72_246F67_2E682A_246F65_246F6D_22684A_246F62_246F75_246F69_22684B_246F64),
  (0x4146, 0x246F6B_45505A_246F5E_28686A_246F60_247029_22685A_24702A_24702B_246F7C_247025_24702C),
  (0x4152, 0x366F2D_247027_247046_247036_247037_226875_22686E_24703A_247032_226872_226874_226866),
  (0x415E, 0x247039_28693E_346850_247051_226925_226928_24705B_226923_247058_247048_24705C_24704D),
  (0x416C, 0x24705E_22692B_24706E_247060_247069_24706A_226931_226935_247062_22692E_247061_247128),
  (0x4178, 0x247126_247122_247078_247075_247123_31612B_247131_247133_226945_247143_24713C_22694C),
  (0x4184, 0x226949_22694E),
  (0x4188, 0x2E6930_22695A_24715F_514F29),
  (0x418D, 0x22695E_247162_226962_5D376F_24716E_574F4E_247226_247224),
  (0x4196, 0x247222_247233_226971_24722C_247241_247242_24723F_247244_22697D_247245_2D3A74_247247),
  (0x41A2, 0x226A26_247252_24725D_30725D_247263_24726D_247268_333339_247271_394F59_247324_24727B),
  (0x41AF, 0x226A3B_247333_24732E_24732F_247332),
  (0x41B5, 0x247341_24734D_226A40_247343_247342_24734B_394F61_247350_247351_247356_247358_24735D),
  (0x41C1, 0x247368_24736E_247371_226A4A_247376_226A4C_247378_24737D_226A58),
  (0x41CB, 0x247427_24742D_24742E_226A62_226A60_226A64_247439_24743B_226A74_226A75_24744F_247460),
  (0x41D7, 0x226B34_226B28_247466_247472_24746D_247474_247469_247521_226B4F_247479_247478_247522),
  (0x41E3, 0x247534_24747E_466B49_247526_247542_226B66_24754A_247545_226B5D_226B67_226B58_247554),
  (0x41EF, 0x226B5C_247544_367529_286B76_39502B),
  (0x41F5, 0x247555_247578_24756C_24756B_247556_247557_24755E_247568_226B78_226B6B),
  (0x4200, 0x226C22_247648_24753B_24757C_247625_226C37_226C4F_247637_247645_24757E_24762D_24763D),
  (0x420C, 0x24757D_247621_226C5D_226C5E_226C66_24767B_247669_226C67_226C56_226C68_247728_226C72),
  (0x4218, 0x247655_247723_226C6D_226C6A_24772D_247668_24764D_247674_24767E_24772A_247724_247665),
  (0x4224, 0x226C5B_247722_226C6B_247654),
  (0x422A, 0x226D2C_24775A_247733_247757_247736_226D2D_226D27_226D3A_24775B_24774D_247737_226D39),
  (0x4236, 0x247731_247744_247839_247761_24783E_226D59_226D3C_247779_226D51_226C7C_247766_247772),
  (0x4242, 0x24782A_247822_24777B_24776A_24783A),
  (0x4248, 0x247857_247876_247870_226E22_247855_226D77_226D70_247944_247851_226D7B_24787C_24785F),
  (0x4254, 0x247863_247843_247852_247861_24784E_24784F_24786D_226E40_247941_247926_247936_247932),
  (0x4260, 0x226E3E_226E25_247930_226E3C),
  (0x4265, 0x247951_247966_226E51_24795E_247968_24796B_226E4D_247960),
  (0x426E, 0x24797A_247964_247A2B_247978_226E5F_226E64_226E5D_256C75_226E67_226E71_247A52_247A57),
  (0x427A, 0x226E78_247A6D_2D425C_247A75_226F3D_247B24_226F36_247B33_247B2B_247B38_247B2D_247B36),
  (0x4286, 0x226F4D_247B3A_247B42_226F4F_247B3B_307C2D),
  (0x428D, 0x247B56_247B48_247B47_247B51),
  (0x4292, 0x2D5061_226F6C_247B6C_247B5F_247B61_247B6E_247B67_226F7C_247C25_2E6F76_226F7A_227021),
  (0x429E, 0x226F78_247C2A_247B63_247C2E),
  (0x42A3, 0x247C37_227025_247C35_247C36_227023_247C32_247C3F_247C4C_247C4F_247C53_247C56_22702D),
  (0x42AF, 0x247C59_247C5A_247C63_247C61_227038_247C6A_247C70_34704B_455151_2E7042_247C75_247C7C),
  (0x42BB, 0x247D2B_247D26_247C7B_247D21_247D24_227054_2E7144_227053_247D28_4B5148),
  (0x42C8, 0x247D44_227057_22705E_247D35_247D2F_247D38_227066_247D42_247D32_227060),
  (0x42D4, 0x247D39_307D5D_247D4E_247D53_247D5E_247D51_227079_227072_347162),
  (0x42DE, 0x455148_247D65_335762_2D5439_227145_227153_227140_247D6C_247D75_34706D_22715E_247E2B),
  (0x42EA, 0x227176_227177_247E22_22715F_247E2C_2E7162_227173_247E23_335176_247E45_247E38_227237),
  (0x42F6, 0x247E3D_227232_247E4F_247E3B_2E7227_247E3C_227329_22722E_247E3F_227238_247E4C_313E7B),
  (0x4302, 0x247E39_247E46_407144_247E53_227268_39507B_227263_2D5149_407328),
  (0x430C, 0x247E76_247E78_227322_247E70_25222B_247E75_247E73_2D516B_247E7D_3A726D_227340_25223E),
  (0x4318, 0x252221_252239_252234_347328_22734C_25224E_227355_25224D_22734B_252253_25224B_252268),
  (0x4324, 0x25225F_22735A_252265_227357_227366_252275_227367_2D5224_25227B_252323_252327_252330),
  (0x4330, 0x25232D_25232C_25232F_252335_22736F_252338),
  (0x4337, 0x287067),
  (0x4339, 0x287068),
  (0x433D, 0x27514B),
  (0x4342, 0x31233E_227377_227379_2E7433_252345_227378_34737A_252348_25234A_31235A_22737E_252358),
  (0x434E, 0x227434),
  (0x4350, 0x227437_2D522C_22743B_227440_25236A_252373_252374_25236F_252379_227452_22744D_227458),
  (0x435C, 0x22745B_22745A_2E7453_25242D),
  (0x4361, 0x227464_25243D_252441_227470_25244F_227476_25245A_227525_336071_227527_25245B_25245E),
  (0x436D, 0x405544_22752E_25246D_252469_252472_227536_227543_227535_252476_227534_25247A_22753D),
  (0x4379, 0x335245_25252D_227541_252533_22754B_25254C_227550_22755A_227559_252559_22755F_252556),
  (0x4385, 0x3D2636_25255A_252565_227563_25255D_252563_25256F_25256B_252567_252568_25256E_252578),
  (0x4391, 0x25257B_227569_34757C_252629_227578_227622_252634_227627_22762B_3A7623),
  (0x439C, 0x252641),
  (0x439F, 0x252647_252646_252648_252655_2D5268_227645),
  (0x43A6, 0x25265C_227648_22764A_252666_25265E_25266E_28765C_227657_227650_227653_252678_22765C),
  (0x43B2, 0x252723_22766C_25272C_252734_22766F_25273F_252742_455271_252752_252754_227724_252753),
  (0x43BE, 0x346250_252761),
  (0x43C1, 0x22772E_227731_22772F_252770_25277A_252775_252774_252827_25282F_39527A_395321_22774C),
  (0x43CD, 0x252839_252842_25283D_22775D_25285D_22782B_22775C_22775E_252853_227771_252851_25284C),
  (0x43D9, 0x22775A_227763_2E7844_25284E),
  (0x43DF, 0x22776D_25285F_252867_25286A_25286D_252862),
  (0x43E6, 0x252929_252925_25292A_25292B_252877_25292D_252924),
  (0x43EF, 0x25293C_22784E_252934_252932_22784F_227857_25293D_25293B_252942_312A75_252941_252952),
  (0x43FB, 0x335348_22786C_227868_22786F_22787E_25295A_25295C_252972_252967_252970_252960_22787A),
  (0x4407, 0x252973_227872_25296D_252966_243E78_3F535A_25297C_252A31_227931_252A39_227939_252A2B),
  (0x4413, 0x223A3E_252A37_252A32_25297E_227935_252A3C_252A26_22784D_252A2A_227957_227958_227A24),
  (0x441F, 0x252A49_252A52_33537C_252A5A_22795A_252A47_227966_252A4B_252A44_252A50_252A53),
  (0x442B, 0x252A77_252A6C_252A67_252A64_252A73_252A57_227967_227972_252A75_252A2E_252B2B_227A28),
  (0x4437, 0x227A2D_252B25_252B27_227A27_252B2A_227A21),
  (0x443E, 0x252B3E_252B41_252B35_252B40_252B57_227A42_227A44_312B69_252B5B_252B61_252B60_252B63),
  (0x444A, 0x252B66_227A4E_252B6B_252B6C_227A51_227A52_252C22_333255_2D3362_33542B_252C4F_456278),
  (0x4457, 0x252C5A_252C5E_227A7A_227A7B_395438_252D28_252D31_45543C_252D34_252D38_252D39_252D3A),
  (0x4463, 0x227B2D_252D45_252D42_227B37_2E7B61_2D5445),
  (0x446A, 0x252D4F_252D4D_227B40_3A7B39),
  (0x446F, 0x252D55_227B46_252D58_227B4D_252D60_227B4C),
  (0x4476, 0x252D5C),
  (0x4479, 0x252D64_252D74_252D65_227B59_227B58),
  (0x447F, 0x227B5B_227B61_252E22_252E25_3F5C29_252D7C_227B5C_252E21),
  (0x4488, 0x252E2F_252E3E_252E49_252E4C_227B74_252E51_252E53_252E54_252E57),
  (0x4492, 0x252E59_252E5B_252E5E_252E65_252E64_2E7C48_407E2C_27562B_252E78_252F21_252E7B_31342A),
  (0x449E, 0x252E6A_252E7A_252E7C_252E76_227C52_2E7C6D_252E77_227C3E_227C74_252F28_227C77_227C79),
  (0x44AA, 0x252F32_252F37_39552B_334F7A),
  (0x44B0, 0x227D33_335562_227D4C_252F56_252F4B_252F60_513928_227D57_227D59_227D50_2E7E63_252F51),
  (0x44BC, 0x227D46_252F50_227D2C_287951),
  (0x44C1, 0x2D4F7A_252F69_25302A_227E3D_252F61_252F79_252F76_227E3B_227D77_227D6A_252F68_252F73),
  (0x44CD, 0x253026_252F6C_252F70_253022_252F63_373160_253024),
  (0x44D6, 0x292731_335575_253073_253072_25307B_227E6C_227E46_253056_23223D_253070_253067_253071),
  (0x44E2, 0x232221_227E67_253074_25307C_3F332C_253057_287425),
  (0x44EA, 0x232224_227E75),
  (0x44ED, 0x25306A_253157_232258_253140_25324D_232334_25317A_23226C_25315B_23225D_347D5F_232342),
  (0x44F9, 0x475174_2F283E_23227A_253264_25322A_23234B_347E5A_253261_25323F_232351_253132_25325A),
  (0x4505, 0x25323C_253257_23237E_25323E_25325D_253238_3F5524_23242F_2D5039_25327B_25333E_25326F),
  (0x4511, 0x232529_253277_253273_253271_25333B),
  (0x4518, 0x253352_253338_232478),
  (0x451C, 0x31323D_253424_23245D_23252B_253323_253340_3F553C_253342_253344_2D5622),
  (0x4527, 0x25333C),
  (0x4529, 0x232468_253326_23246B_23247E_232543_232549_232550_232542_25336D_23257E_25342D_253426),
  (0x4535, 0x2F2343_232557_23254A_232559_253368_232556_253360_253532_232540_25336E_23253B_253367),
  (0x4541, 0x232545),
  (0x4543, 0x33556E_2F236A_232659_253451_23262C_253473_253460_25343F_253459),
  (0x454D, 0x253442_25345E_2E7E33),
  (0x4551, 0x35233B_25352D_232666_253553_25347A_335563_253550_253548_25352E_412564_253521_232673),
  (0x455D, 0x25354F_232677_253574_232729_232742_23273B_253525_2F2768),
  (0x4566, 0x232755_232766_253632_232764_232750),
  (0x456C, 0x23275D_23275C_25357D_2F265A_25357A_253624_232756_253640_2F2759_253641),
  (0x4578, 0x232833_23282F_232834_232843_232844_25367B_23284A_253727_2F2850_25372A_232851_25372C),
  (0x4585, 0x25372F_232855_253732),
  (0x4589, 0x253736_23285D_335644_23285B_3F5645_25373A_3F5647_253740_232863_232865_253746_253744),
  (0x4595, 0x25374A_25374B_253753_23286E_25376E_253771_253770_232875_2D564D_25377E_2F287E_4D2B48),
  (0x45A1, 0x232933_23293E_335654_253852),
  (0x45A6, 0x23295B_232957_253848_253842_253868_455655),
  (0x45AD, 0x232968_253870_23296D_253874_25385D_253873_232966_23297B_232976_253927_253931_2D566C),
  (0x45B9, 0x2F2967_232A3C_352A6D_253928_352A3A),
  (0x45BF, 0x25396B_25394E_253953_25395A_232A52_253969_232A4A_25393D_25396A_3B287E_253957_253942),
  (0x45CB, 0x253974_253A2C_2D573D_253A21_2F2B54_232A6E_232B22),
  (0x45D3, 0x253A2F_253A3A),
  (0x45D7, 0x232B51_232B44_253A43_232B41_253A61_232B52),
  (0x45DF, 0x253A70_253A6B_253A78_253B28_253A74_232B62_232C28_57566E_232B61_253B2C_232B7B_352B63),
  (0x45EB, 0x335730_4B566E),
  (0x45EE, 0x253A79_253B50_253B4A_253B48_253B35),
  (0x45F4, 0x253B6C_253B5D_2D573E_253B57_253B56_232C6C_253B7D),
  (0x45FC, 0x253B78_232C6F_352A34_232C62_232C6D_232C67_253C28_232C76_253B73_232D26_253C37_3F5652),
  (0x4608, 0x253C50_4B5741_352C7A_232D31_253C52_253C6D_253C78_2D3E47_352D44_33534D_253D2C_232D4C),
  (0x4614, 0x253D31_232D55_253D47),
  (0x4618, 0x253D4D_335749_253D52),
  (0x461C, 0x2D3C43_253D55),
  (0x461F, 0x253D5E_232D6F_253D69_232E29_253E31_253D78_253D79_253D75),
  (0x4628, 0x232E46_232E53_232E47_2F2E59_253E2B_253E2C_333663_253E4E_232E6A_395766),
  (0x4633, 0x232F2A_253E63_253E6D_232E74_232E7D_232E6C_232E6B_253E5E_253E47_232E6D_232F29_253E5D),
  (0x463F, 0x232E73_45516A_232E79_253E6E_232F34_253F29_253E7B_253E78_253E7D_232F3F_307E4F),
  (0x464E, 0x232F55_39557E_232F4C_253F31_232F46_29303C_232F65_232F58_39516A_352F2B_232F67_253F71),
  (0x465C, 0x253F5C_2D5777_253F67_232F79_253F6F_253F74_232F6E_253F79_25402B_254025_253F56_25403C),
  (0x4668, 0x254038_254036_25404C_23303F_233043_254052_254055_254054_233047_23304C_254067_2E534A),
  (0x4674, 0x25406A_233052),
  (0x4677, 0x333D6A_342234_254078_2F306D_233067_254125_254123_254121_254124_254133_434157_254137),
  (0x4683, 0x25413B_254146_233073_254150_254151_25414E_25414C_25415A_23307E_25415D_233124_37415E),
  (0x468F, 0x254165_25416A_254169_254164_254167_233131_233136_254176_23313C_254236_233142_233146),
  (0x469B, 0x25423D_25424A_23314F_233152_254244_254245_233159_23315A_23315B),
  (0x46A5, 0x23315F_23315D_254260_233162_233161_254268_233165_254265_254270_23316F_254277_2F3178),
  (0x46B1, 0x393157_2D583F_25432E_233222_254322),
  (0x46B7, 0x233226_25433C_233178_335936_25433E_25432C_254337_254336_254339_25433B_23317C_2F325C),
  (0x46C3, 0x25432A_23323D_254354_233232_25435B_25435A_254346_233234_254352_254359_25434B_233229),
  (0x46CF, 0x25434C_2D584F_35337D_515B61),
  (0x46D4, 0x233255_2F333B_3D434E_233251_254377_254376_254369_353261_2D5840_254429_25442C_25437E),
  (0x46E0, 0x254428_2D5866_254438_25442F_254431_23327B_33584B_335933_25437C_233326_25443D_254453),
  (0x46EC, 0x233339_254449_25445E_254448_254454_254456_254464_23332E_25444D_25445F),
  (0x46F7, 0x25443B),
  (0x46F9, 0x254479_23335A),
  (0x46FC, 0x254477_25447B_25452A_23336C_314521_3B3377_254542_254554_233446_23343B_254543_254546),
  (0x4708, 0x254553_233433_254549_233452_23345A_254564_25455D_233454_233450_254562_23346C_254579),
  (0x4714, 0x3B3454_233463_254575_254573_2D5945_25462D_25462B_2D594E_25462A_254631_254623_2D594D),
  (0x4720, 0x25463B_254636_254640),
  (0x4729, 0x293524_254658_254659),
  (0x472D, 0x254660_254663_254669_25466E_233546_233549),
  (0x4734, 0x25467A_2D5955_23354E_254724_254725_254727_23354F_335955_254732_254734_25472F_3F5957),
  (0x4740, 0x25473C_254735_335957_25474B_233551_254756_254760_3B3554_374766),
  (0x474A, 0x2F3577_233564_254775_25477B_25477E_233570_25482D_25482B_233576_233578_254839_254838),
  (0x4756, 0x254843_25483C_233622_29363B_254844_254848_254860_254865_233637_233632_2E5760_25487E),
  (0x4762, 0x254923_254927_25492A_25492D_254922_233648_335A30_254951_23364D_25494E_254945_25494F),
  (0x476E, 0x254944_2F3644_254956_23365B_2F373A_254968_475F79_254964_25496E_233675_254973_25496D),
  (0x477A, 0x33596E_25496F_23366C_254970_455A2D_2D5978_254A27_233679_25497B_25497C_254978_254A2B),
  (0x4786, 0x254A2E),
  (0x4788, 0x23372C_233735),
  (0x478B, 0x233740),
  (0x478D, 0x29366C),
  (0x4791, 0x254A5A_254A5F_233745_254A60_254A6A_254A72_233751_233753_254A7E_233759_254A7A_254A7C),
  (0x479D, 0x254B2C_254B2D_233767_254B30_254B32_254B37_35376B_254B38_233772_233777_254B48_254B3E),
  (0x47A9, 0x254B49_233770_254B4E_254B57_233824_254B5D_254B5C_23377D_254B59),
  (0x47B3, 0x233825_23382E_254B5F_254B6A_254B61_413954_254C21_254C23_254B71_454F62_23383E_233846),
  (0x47BF, 0x23383C_254C26_254C3F_233849_23384B_254C32_254C35_254C38_233854_254C4F_233858_254C51),
  (0x47CB, 0x254C52_374C5C_23385E_2F3866_23385F_254C5D_233862_233865_254C64_233868_254C6A_2D5A56),
  (0x47D7, 0x233875_254C70_254C77_353963_254C76_254C7A_254C7B_353A46_254D3E_23387E_23392D_293A5A),
  (0x47E3, 0x254D32_233878_254D2F),
  (0x47E7, 0x254D35_254D2B_254D31_254D39_233923_254D3A),
  (0x47EE, 0x254D59_254D58_254D5A_395A5F),
  (0x47F3, 0x233931_233948_254D61_254D7A_233945_23394F_254D76_23394B_254D74_254E2B_254D4F_233965),
  (0x47FF, 0x254E33_254E30_3B3A57_394527_233962_254E2D_254E2F_23395E_23395D_254E2A_254D7D_23396A),
  (0x480B, 0x23396D),
  (0x480D, 0x233973_254E3F_254E43_254E4D_254E4C_254E48_254E3B_254E3E_254E64),
  (0x4817, 0x254E6A_233A2D_254E54_233A23_233A2C_254E61_254E60_455A79_254F24_233A3D_254F2B_254F2E),
  (0x4823, 0x254F37_254F42_254F2C_254F49_254F21_254F5F_254F5D_233A5C_233A58_254F69_254F77_336144),
  (0x482F, 0x233A6A_255022_255028_2D526E_25503C_255036_25503D_2D3B3D_233A76_25503F_396156),
  (0x483B, 0x233A79_255053_255059_255055_255061_255063_255068_255070_25506D),
  (0x4845, 0x233B34_255127_2F3B2F_2D5B3D_255075_233B38_2F3B39_414D37_25507B),
  (0x484F, 0x255129_233B3A_255128_255131_233B5C_255148_255140_335B43_233B54_233B60_353B64_255153),
  (0x485B, 0x255150_255160_233B62_233B6C_25516B_233C23_255176_25517A_233B7E_25515E_315127_233C2E),
  (0x4867, 0x255228_233C5B_233C2C_25522D_25523C_233C34_255233_233C38_233C37_233C32_255237_233C40),
  (0x4873, 0x255240_233C3A_255246_233C45_233C4F),
  (0x4879, 0x515B40_473B31),
  (0x487C, 0x233C5C_25525E_233C5E),
  (0x4883, 0x233C64_2E3B7E_25527C),
  (0x4887, 0x25527D_255321_395B64_335C35_255326_255330_25532B_25532D),
  (0x4890, 0x255345_233D34_233D36_25534E_233D41_255357_255354_25535E),
  (0x4899, 0x233D47_255369_25536C_233D4F_255374_255375_2D4C26_335B74_25542B_25543E),
  (0x48A4, 0x2D5B6D_25543C_233D7A_255445_255450_5D3D6D_334559_3F5F39),
  (0x48AD, 0x233E2D_255462_395C4E_255470_233E38_255526_233E3E_233E45_233E50),
  (0x48B7, 0x515C60_233E5C_25553E),
  (0x48BB, 0x233E6B_25554B_255557_255551_233E62_233E74_233E66_233E73),
  (0x48C4, 0x233F2B_25555F_255562_233E7B_453C41),
  (0x48CA, 0x233F39_25557A_335C66_233F35_25557C_25557B_25562A_353F55),
  (0x48D3, 0x255632_255637),
  (0x48D7, 0x255640_233F6D_25564B_233F70_233F6C_233F6E_233F7C_335C6F_255655_375573_234026_234030),
  (0x48E3, 0x2D626F_255726),
  (0x48E6, 0x255728_234045_455D29_25572E_23404B_23404C_25572D_25572F_234057_234058_255734_23405D),
  (0x48F2, 0x2F405A_234054_2D5C7E_234060_255748_255746_234063_255749_234067_255750_23406E_234076),
  (0x48FE, 0x255753_255758),
  (0x4901, 0x23407C_255764_25575F_255766_234127_255763_255760_234126_234128_234133_255772_234136),
  (0x490D, 0x23413C_234143_255832_234145_25582B_255834_25583F_25583D_255844_255843_234159_234158),
  (0x4919, 0x25584D_234160_354166_2D5D48_234247_2F4241_35423F_23423E_255871_255874_25587B_25587C),
  (0x4925, 0x23435A_2F4264_255926_2F424D_234330_25592B_25593C_234369_25593F_234434_255939_255937),
  (0x4931, 0x39586E),
  (0x4933, 0x255947_234459_255966_23446E_25597A_354730_35464A_255978_234557_255A2E_255A45_255A4E),
  (0x493F, 0x255A39_234643_2F4459_23463F_255A37_255A3E_3F4B4D_514B4D),
  (0x4948, 0x23467D_255A55_255A5F_255A56_5D593F_23466A_255A5D_234773_2F4547_414438_255A5E_23466B),
  (0x4954, 0x255A6C_2F4723_2F4274_23474B_255A75_23474C_2D574E_255A70),
  (0x495D, 0x234776_255B25_255A6D_255A7D_255B24_255A7B),
  (0x4964, 0x255A7C_335E3A),
  (0x4967, 0x405C25_255B32_234839_255B2A_3F5E3D),
  (0x496E, 0x255B27_23485B_255B31_255B30_234854_234855_234865_234861_35462D_255B40_255B45),
  (0x497A, 0x294233),
  (0x4985, 0x294738_29487C_396160_255B63),
  (0x498A, 0x255B70_255C2B_255C47_255C4C_255C50_255C5B_255C5C_234933_255C66_255C6C_255C6A_255C73),
  (0x4996, 0x255C7A_255D29_255C78_255C79_23493F),
  (0x499C, 0x255D33_255D30_2D5E52_394F4C_255D4E_255D42_255D43_255D45_23494C_255D49),
  (0x49A7, 0x35556C_335E63),
  (0x49AA, 0x23495B_255D65_255D5B_255D6A_255D59_234958),
  (0x49B1, 0x234954_234973_23496E_255E36_234975),
  (0x49B9, 0x255E4A_234979_255E53_255E56_255E55_255E5E),
  (0x49C1, 0x255E68_255E64_255E65_255E77_234A3A_255E6F_255E6E),
  (0x49C9, 0x255F24_234A4C_234A48_255F27_635F34_255F23),
  (0x49D0, 0x255F29_255F28_255F2D_255F33_255F35_39383D_234A54_255F44_234A68_395F25_255F4D_255F4B),
  (0x49DC, 0x234A6F_255F54_234A72),
  (0x49E0, 0x255F5C_255F59_234B24_2F4A5D_255F6F_255F68_234A5C_255F75_255F7A),
  (0x49EA, 0x255F74_234B36_255F7E),
  (0x49EE, 0x256024_256027_234B44),
  (0x49F2, 0x256032),
  (0x49F4, 0x256039),
  (0x49F6, 0x256035_256042_2D6237_234B51_2D5F42_2D623D_2D6240_256052),
  (0x49FF, 0x256059_234B5D_234B61_234B60_355C27_256068_2F5C65_2F5C4F_395F4E_256070_2D624E_234B70),
  (0x4A0B, 0x234B73_256124_256125_31614C_256138_25613D_234C21_234B7E_575F56_515F57),
  (0x4A16, 0x455F6B_256148_234C2B_25613E_25615D_256156_25615C_256153_256170_256165_25616E_256155),
  (0x4A22, 0x256167_234C3A_234C3C_256222_414B74_256175_234C42_395F6F_2D5F6C_354C49_25622C_2D5F5B),
  (0x4A2E, 0x2D5F52_31617B_256239_25623E_234C66_234C69_234C68_25624F_354C47_4D4C58_25625B_234C71),
  (0x4A3A, 0x256265_256268_234C79_234C7A_256271_256277_25627C_234C7C_256329_256325),
  (0x4A45, 0x25632E_256332_256330_256340_234C7E_256342_234D24_234D23_256352),
  (0x4A4F, 0x25635B_234D2F_3B4D37_234D2A_25636C_25636B_234D34_256369_256371_316423_256375_256423),
  (0x4A5B, 0x234D3E_256421_256424_234D3F_256432_25644A_234D50_234D4F_234D57_234D51_234D65_2F4D56),
  (0x4A67, 0x234D4E_25645A_234D5B_234D5D_256453_25644E),
  (0x4A6E, 0x25645F_234D6C_256472_234D77_234D67_256466_25646D_234D72_256529_234D79_234E23_234D7D),
  (0x4A7A, 0x234E28_256528_234E2F_234E32_256534_256545_25653F_234E36_234E31_256542_3F4974_234E39),
  (0x4A86, 0x256551_2F4E42_25655A_234E3F_234E41_256564_256566_234E40_234E44_234E49_234E4A_25656F),
  (0x4A92, 0x256570_256575_256624_256633_256638_234E55_234E56_234E5A_25663E_25664B_25664F_256651),
  (0x4A9E, 0x25665A),
  (0x4AA0, 0x475F7B_25665E_535F7B),
  (0x4AA4, 0x234E6A_234E6B_256661_256662_256663_256667),
  (0x4AAB, 0x234E6E_256675_25667D_256726_256722_25672D),
  (0x4AB3, 0x234E7C_234F22_256742_256762_256768_25675B_234F28_25675D_256769_234F2A_25675F_234F2B),
  (0x4AC0, 0x234F27_256777_234F36_256825),
  (0x4AC5, 0x256779_234F33_256833_25682A_575966_256828_256848_234F65_354F34_256840_234F50_256839),
  (0x4AD1, 0x25683B_234F56),
  (0x4AD4, 0x234F5B_25684B_256852_234F5F_256853_2F4F6B_256854_25685A_234F70_3F612A_234F69),
  (0x4AE0, 0x256867_234F73_256869_25686C_25685E_234F71_25685F_25686B_256873_256877_234F78_336158),
  (0x4AEC, 0x25687A_256922_25687E_25692F_376879_2F5029_256928_25692C_235023_23502C_23502A_256939),
  (0x4AF8, 0x256941_256942_25694E_235035_256949_256954_256955_25695A_23503B_256956_235038_33605C),
  (0x4B04, 0x256968_23503D_235041_25697A_25697B_256974_256972_256A2C_256A30_235043_256A2B_256A22),
  (0x4B10, 0x235044_235047_256A3A_235045_235049_256A42_316A5C_2D6060_256A49_2F504D_2F504A_256A59),
  (0x4B1C, 0x256A52_256A5C_235059_23505A_256A72_23505D_4D517E_256B24_35522E_355174_256B2A_235065),
  (0x4B28, 0x256B2B),
  (0x4B2A, 0x235069_23507A_256B35_3B517E_2D606D_235074_235072_235071_235079_23506F_256B2F_23507D),
  (0x4B36, 0x256B42_256B46_3F6074_235123_256B3F_2D607A_235136_23512D_256B4C_256B4E),
  (0x4B41, 0x23512E_235135_235142_256B5F_235141_23514C_256B6A_23514A_256C21_23514D_33606E_2F5150),
  (0x4B4D, 0x256B7A_256B7E),
  (0x4B50, 0x256C2D_23515B_235168_235163_235167_256C4C_256C3C_256C3B_235177_256C52_256C4E_2F516B),
  (0x4B5D, 0x256C6B_256C65_256C63_256C59_235228_256C6C_235223_256C70),
  (0x4B66, 0x2F5160_256D22_23522C_256D26),
  (0x4B6B, 0x454F41_514F41_256D2A_256D2B),
  (0x4B70, 0x256D3A_235237_256D39_256D4B_235244_256D52_35533D_256D5D_256D5C_235258_256D54_256D5F),
  (0x4B7C, 0x2F533D_335241_2D6130_23526D_2F532C_235267_235262_336147_256D60_2F5275_2F5261_2F537D),
  (0x4B88, 0x33612F_256E21_256D75_355273_256D7D_2F2F50_256E33_256E2C_355265_256E32_256E2E_256E48),
  (0x4B94, 0x235355_256E45_256E4A_235342_256E51_256E42_256E3E_2D6139_256E5D_256E58_256E5F_256E5A),
  (0x4BA0, 0x256E5E),
  (0x4BA2, 0x256E67_256E79_235368_256E78_256E70),
  (0x4BA8, 0x256E73_256E7D_256F25_256F2E_256F30_256F34_256F2D),
  (0x4BB0, 0x256F27_256F2A_2F5358_256F46_256F3B_256F39_256F43_256F4C_23542D_256F4B_256F50_256F53),
  (0x4BBC, 0x2F537C_256F57_256F5F_2D6143_235437_456149_23543B),
  (0x4BC4, 0x295352),
  (0x4BC6, 0x23543C_23543D_256F79_235442_235444_257027_257026_25702D_25702B_23544F_257034_23544D),
  (0x4BD2, 0x257036_257031_257030_235456_235451_25703B_257039_235452_235455_257046_235458_336159),
  (0x4BDE, 0x257054_257050_25705E_25705C_235462_235468_23546B_257078_25707B_257123_257124),
  (0x4BEA, 0x257131_257135_257139_235475_25713C_2F5533_235522_23547D_257140_2D6163_257146_25714A),
  (0x4BF6, 0x235529_25715A_23552D_25716A),
  (0x4BFC, 0x235539_23553A_257224_257175_235542_257227_257226_257174_235549_2D6165_25722A_257178),
  (0x4C08, 0x23554D_235552_25723A_535554_25724B_257241_23555C_25725C_235562_336165_235564_235565),
  (0x4C14, 0x2F5552_235567_23556A_23556E_23556F_23557A_235579_257272_33616B_235628_23562C_33616E),
  (0x4C20, 0x235637_25734C_257356_3B563E_25736C_257366_257372_23563F_39616F_25736B),
  (0x4C2B, 0x23564C_25742B_2F5652),
  (0x4C2F, 0x235654_235652_377434_235655),
  (0x4C34, 0x257446_257442),
  (0x4C37, 0x257453_257458_3F6223_2F566F_23566A_235670_235662_257451_2F5672_235728_235722_235734),
  (0x4C43, 0x257467_35566F_235677_2F5952_235725_35573F_257462_25746A_235744_257522_25746D_23573B),
  (0x4C4F, 0x235763_23576A_257524_257526_25752F_3B5772_25752A_2F5878_235768_35583A_257543_23583C),
  (0x4C5B, 0x257542_235826_235861_25753F_23577B_25753D_235835_235836_235778_235837_235839_257548),
  (0x4C67, 0x3F6229_23577E),
  (0x4C6B, 0x23584F_23584E_235856_257559_257557_355747_23583D_257561_3B5949),
  (0x4C75, 0x23587B_257554_235874_235862_257564_25756C_235872_257566_257574_23592E_25757A_25757D),
  (0x4C81, 0x235924_257578_235937_2F5932_257579_257624),
  (0x4C89, 0x257629_235942_2F5941_257628_2F5877_25762B_257626_235951_257633_257640_257641_23594C),
  (0x4C95, 0x23594B_23595A_23595F),
  (0x4C99, 0x235953_235966_235967_257663),
  (0x4C9F, 0x295750_295843_29583F_295877_295874),
  (0x4CA5, 0x25766A_235976),
  (0x4CA8, 0x25766D_235978_25766E_3F6230_25773A_257733_25772A_257722_25772B_257678_257730_257679),
  (0x4CB4, 0x2D6234_2D5F3F),
  (0x4CB7, 0x2D4468_257732_257747_257752_257746_257756_235A35_25774E_25774C_235A40_235A3A_25774A),
  (0x4CC3, 0x25775A_257777_257754_235A41_235A42),
  (0x4CC9, 0x25775B_2F5A3A),
  (0x4CCC, 0x2D623F_235A55_235A67_235A54_235A4C_235A5D_25776C_257772_257848_235B21_257833),
  (0x4CD8, 0x336241_257844_235A7C_257841_2F5B29_257851_257853_257860_257938_235B4C_235B3A_257856),
  (0x4CE4, 0x235A72),
  (0x4CE6, 0x257878_25793D_2D3347_25787D_25792F_235B58_257921_235B61_235C2D_257941_257939),
  (0x4CF2, 0x25794D_235C29_257955_235B7D_2F5C6F_257979_257964_257965_235C53_257968_257975_396246),
  (0x4CFE, 0x257A26_257A3C_257A24_257A22_257A3D_257A28_257A3B_235C67_257A35_235C75_235D23_235C7B),
  (0x4D0A, 0x2F5C73_2F5C7B_2F5D28_257A5D_257A62_235D34_257A7E_257B29_2D623B),
  (0x4D14, 0x295A4F_295A5B_295B32_295B67_295C52_295C74_235D3D_235D3F_257B3C_235D45_257B44_257B48),
  (0x4D20, 0x235D4A_336256_2F5D4F_257B50_257B4F_2F5D5E_235D53_257B70),
  (0x4D29, 0x257B75_257B77),
  (0x4D2C, 0x257C2B_235D6E_257C2E_257C3A_257C36_257C3E_257C42_235D73_257C46_257C49_257C5F_257C53),
  (0x4D38, 0x235D7C_235D7E_235D7D_257C6F_257C64_235E22_235E24_235E26_235E27_257D27_235E28_257D2A),
  (0x4D44, 0x2F5E2B_257C7D_2F5E26_257D3F_235E2F_257D4B_257D56_235E3B_235E3E_257D60_235E3F_235E40),
  (0x4D50, 0x235E41_257D7A_235E44_257D7E_257E2C_257E2B_235E47_235E46_257E2E_257E2D_257E31_2F5E47),
  (0x4D5C, 0x257E35_235E4B_2F5E59_257E3D_235E4D_257E49_257E4D_235E54_235E4F_257E58_257E52_257E53),
  (0x4D68, 0x235E56_257E64_257E6F_257E66_235E5B_257E6B_235E62_262227_26223A_235E6B_262242_235E71),
  (0x4D74, 0x235E6D_235E70_235F21_262260_262266_322263_2D743E_26226C_26226D_262272_262275_262274),
  (0x4D80, 0x235F35_26227E_235F40_235F44_235F4A_235F52_235F58_26234B_262350_3B5F4F_235F66_26235F),
  (0x4D8C, 0x235F68_262365_262367_262368_262373_262374_235F74_262379_262423_236022_262427_236026),
  (0x4D98, 0x262428_236025_262436_236035_262446_262442_23603B_262452_262456_262459_236044_23604E),
  (0x4DA4, 0x262462_236052_236051_236053_236057_236058_262476_262523_23605F),
  (0x4DAF, 0x26252E),
  (0x4DB1, 0x236069),
  (0x4DB3, 0x26253D_23606F_236073),
  (0x4E00, 0x212C22_212E53_236123_212F37_2D3026_2D3025),
  (0x4E07, 0x212F3D_213027_212F33_213026_213025_216422_21302A_216423_216424_213029_212E61_2D3028),
  (0x4E13, 0x273B3F_21302B_21302E_21302D_2D302D_21302F_212E52_27452D_27352B_274426_27513B_213031),
  (0x4E1F, 0x213030_216427_333323_2D3030_2D5C78_273323_27375A_213032_273663_212C23_21642A_21642B),
  (0x4E2B, 0x213033_4C5541_213034_21642C_236131_21642D_21642E_213035_21642F_275425_216430_212C24),
  (0x4E38, 0x213037_213038_274951_213039_216432_276256_275434_212C25_23613F_236140_216436_21303A),
  (0x4E45, 0x21303B_2D303B_216435_21303C_236138),
  (0x4E4B, 0x21303D_27495D_213041_213040_21303F_27454E_216439_213042_213043_237758_395643_213044),
  (0x4E57, 0x2D3045_213045_212C26),
  (0x4E5C, 0x21643C_212F39_213049_213048_27524D_275C70_695626_21643E),
  (0x4E66, 0x274355),
  (0x4E68, 0x2D3965_21304A_236151_7F4E6B),
  (0x4E6D, 0x7F4E6D),
  (0x4E70, 0x27597A_216441),
  (0x4E73, 0x21304B_236156_236155_7F4E76_7F4E77),
  (0x4E79, 0x33304C),
  (0x4E7E, 0x21304C_216443_2D632D_39304C_21304D_216445_216444_212C27_21304E),
  (0x4E88, 0x21304F_2D4A3B_4B3050_213050_212C29_216448_213052_216449_2D3052_213056_213055_21644A),
  (0x4E94, 0x212F35_213053_333765_3F4629_21644B_213057_273058_213059_2D3058_21644E_213058_21305A),
  (0x4EA0, 0x212C2A_21305B_216451_23616C_21305E_212E6B_21305C_274B7A_21305F_274C2D),
  (0x4EAB, 0x213060_213061_213062_213063_333060_2D3061_2D387E_27582C_216452_236177_275777_216455),
  (0x4EB8, 0x277353_216458_212C2B_216459_21645A),
  (0x4EBE, 0x33305B_27325A_213067_213066_21645D_213068_213069_273249_21306A_21306C_216461_21645E),
  (0x4ECA, 0x213065_21306D_216460_21306B_216462_21645F),
  (0x4ED1, 0x27314F),
  (0x4ED3, 0x27316C_213074_213070_213071_213075_21306F_213076_216469_21646E_216466_216467_213072),
  (0x4EDF, 0x212F4C_236226_21646B_21646C_213073_21306E_213077_21646A),
  (0x4EE8, 0x216463_216468_273259_70586F_273173_4B3072_21652D_216523_213128_23623A_213124_213126),
  (0x4EF4, 0x216521_216527_213127_21652B_216529_236233),
  (0x4EFB, 0x21307C_236230_213129_2D3142_213078_21652A_213125_21652F_216475_216476_216474_236236),
  (0x4F07, 0x216528_216472_213079_21307D_21652C_23622F_212F45_216473_213123_213122_213121_236238),
  (0x4F13, 0x21647B_23622D_21307E_2D3C4D_21652E_236232_21307A_27435A_27677C_276649_216479_273244),
  (0x4F1F, 0x273233_273246),
  (0x4F22, 0x21647C),
  (0x4F24, 0x27324C_273226_27322D_273243_216525_216470_273256_4B312D_216477_216530_236248_213141),
  (0x4F30, 0x213134_216551_2D3140_21653C_21312C_216549_213144_216543_21313A_216542_21312F_216532),
  (0x4F3C, 0x21313D_213137_21653F_216545_216533_21654B_216538_21313B_21653B_216535_213139_21312D),
  (0x4F48, 0x213138_21653A_21653D_216541_21656C_21312B_213142_21312A_213135_213136_216548_21653E),
  (0x4F54, 0x21313C_213133_216531_21312E_216536_213131_21654E_213132_21313F_213143_213130_21654F),
  (0x4F60, 0x213140_216553_216537_21313E_216539_276775_216540_216544_21654D_213154_21656B_216574),
  (0x4F6C, 0x21314D_216575_21657A_213146_212F4B),
  (0x4F72, 0x21656F_213149_216561_213147_216562_21655D_216573_216570_21657B_213152_216557_21655C),
  (0x4F7E, 0x213156_21314A_216560_216572_216556_213151_216565_216558_21314C_21655E_213153_216569),
  (0x4F8A, 0x21656A_21314E_395F2A_213148_216559_213155_216577_216566_21655B_23624D_21656E_216567),
  (0x4F96, 0x21314F_21656D_21655A_21655F_216571_21314B_216576_213145_216579_216568_27315D_33325D),
  (0x4FA2, 0x216564_2D315F),
  (0x4FA5, 0x273251_273238_273235_273258_273260_276871_216555_27325E_2D3263_213166_21315A_216625),
  (0x4FB1, 0x216634_216630_216642_21662F_213159_21315F_216626_236268_216643_216638_216641_236267),
  (0x4FBD, 0x2D4C28_21662B_21315B_216639_216637_213169_213162_213168_216627_21663E_216640_2D735A),
  (0x4FC9, 0x216629_213165_216636_216628_21657C_21316A_21315E_213167_213158_216621_216632_216635),
  (0x4FD5, 0x23625E_216631_21316B_213163_21663F_213160_21663B_216633_213161_21315C_213164_21315D),
  (0x4FE1, 0x213157),
  (0x4FE3, 0x4B6637_216622_21662A_273265_21662C_27326B_273179_27326A),
  (0x4FEC, 0x21663C_273261_213227_21316F_216673_213222_2D6753_213228_216659_216652_216661_216670),
  (0x4FF8, 0x213174_216656_21317E_333240),
  (0x4FFD, 0x216677_21322B_23627E_213226_236326_2D3147_21322A_216676_216649_213179_21664C_216658),
  (0x5009, 0x21316C_23632B_213224_213171_21316E_216663_21323B_216669_213173_21317B_21664D_213176),
  (0x5015, 0x216746_213177_21666F_213221_213225_21317D_216653_216662_216655_216646_21317A_216674),
  (0x5021, 0x213223_21664E_21316D_4B317C_213172_213170_21664B_213175_213178_21322C_21322D_216666),
  (0x502D, 0x213229_21665E_216657_216654_216660_236279_216651_21665C_216650_2D3222_21665B_21666D),
  (0x5039, 0x2D3261_273247_7F503B_21317C_216679_27324A_216648_21673E_216741_236330_213234_216732),
  (0x5045, 0x216745_216726_213231_216739_213233_21674C_216728_213239_216734_213237_21322F_216723),
  (0x5051, 0x216749_216735_216729_21673A_21323A_21672C_23633D_21673B_236333_213232_236347_21322E),
  (0x505D, 0x216738_21672E_21674B_21672B_236339_216747_21667B_216721_213230_21672D_236334_216768),
  (0x5069, 0x216744_21672A_21674D_21674A_216731_216736_216722_216725_23634A_21673C_216740_213235),
  (0x5075, 0x213238_213236_21323C_33323C_2D3240_216748_276822_216733_213256_276842_273267_213242),
  (0x5081, 0x216769_21676D_21675B_236359_21323F_216761_216765_21675C_236358_23635E_21675D_21675A),
  (0x508D, 0x21323D_216762_216755_23634E_213241_21676A_216754_21674E_216764_213243_236350_213244),
  (0x5099, 0x213240_216753_216752_21676C_236361_216750_236368_23634D),
  (0x50A2, 0x21323E_216757),
  (0x50A5, 0x276948_216767_273262_273269_276944_216829_2D6949_21324B_213245_216777_21324D_216827),
  (0x50B1, 0x21682F_213248_213246_21677C_213247_21677D_21324C_216821_21676F_21682C_21325F),
  (0x50BD, 0x21676E_21324A_216779_236374_21682A_216822),
  (0x50C4, 0x21677A_213249_216773_216771_216824_216775_21677B_236421_216776_21682E_21683B_213257),
  (0x50D0, 0x216831_213258_216830_21684D_216832_213255_213252_216836_23642B_216846_213254_216845),
  (0x50DC, 0x216837_21683C_2D3256_216856_216852_21683E_216850_21683D_21684C_213251_216835_21324E),
  (0x50E8, 0x216842_216839_216838_216843_216855_213253_21324F_216834_216844_213250_393076_216841),
  (0x50F4, 0x21683A_21325C_216862_216863_21685C_21325D_236437_21325B_216861_21686A_216868_216858),
  (0x5100, 0x213259_21686D_21325E_216859_212F4E_21685F_216865_216866_213260_213261_21685D_216869),
  (0x510C, 0x21686E_33325F_21685B_216867_213262_216876_213264_216872_213265_216871_236445_216874),
  (0x5118, 0x213263_236449_216878_21687A_21686F_236441_216873_213267_21692E_213268_216928_236451),
  (0x5124, 0x216929_216924_21687E_216922_23645B_21692B_213266_216870_236454_21692F_236462_23645D),
  (0x5130, 0x216937_216930_213269_216940_21693B_21693E_236470_21326A_216946_216947_216944_216948),
  (0x513C, 0x21326B_216949_23647B_212C2C_21326C_21326E_335043_21326D_213270_21326F_213271_213273),
  (0x5148, 0x213274_213272_236523_213276_213275_213277_2D3279),
  (0x5150, 0x33327A_333275_21327A_236525_213279_213278_27327B_21327B),
  (0x5159, 0x216951_216953_216952_21327C_216955_216956_216958_216A73_216959_21327D_21695C_23653F),
  (0x5165, 0x212C2D_2D305B_213321_213322_213323_2D315C_212C2E_213327_212F36_213326),
  (0x5170, 0x27563E_213328),
  (0x5173, 0x275E69_275433_213329_21332A_21332B_21332C_2D5521),
  (0x517B, 0x276071_21332D_274B2B_2D332E_3F5631_21332E_277360_212C2F_236561_216969_4B3321_4B3772),
  (0x5187, 0x216425_273B6E_21332F_213330_21696C_333330_213331_236564_21696E_2D3332_213333_213332),
  (0x5193, 0x216971_216970_213334_212C30_213336_216976_273B37),
  (0x519B, 0x275B34_275B64_2D3A6E_216977_21697A_213337_21697B_213338_21697C_21333A_213339_4B3B22),
  (0x51A8, 0x225D65_4B3B37_216A22_212C31_21333B_236626_236627_27612D_21333C_216A26_216A29_216A27),
  (0x51B4, 0x216A2E_21644C_21333D_21333E_216A2D_216A30_344766_273340_216A35_21333F_216A37_23662E),
  (0x51C0, 0x39476F_236636_216A4B_216A3F_216A44_216A49_213343_216A46_216A4A_216A40_216A43_213342),
  (0x51CC, 0x213341_213340_216A4C_216A52_216A4F_216A4E_216A57_216A54_216A58_216A56_4B484B_216A5A),
  (0x51D8, 0x216A5E_216A63_23665D_333344_213344_213345_236662_216A66_212C32_213036_216A68),
  (0x51E4, 0x276233_216A6A_236670_222664_39605B_69515E_694664_4D5973),
  (0x51ED, 0x216A6E),
  (0x51EF, 0x273348_213347_213348),
  (0x51F3, 0x213349_216A77_212C33_21334A_216A79_21334D_21334C_21334B_274176_2D3C6A_21334E_216A7A),
  (0x51FF, 0x275E4B_212C34_213350_216A7B_213351_4B3351_236737_213353_213352_213354_216B23_213355),
  (0x520B, 0x216B22_216B21_27545C_213359_216B28_216B27_213356_213358_216B24_216B25_236742_216B26),
  (0x5217, 0x213357_273422_27336D_273370_273378_216B2A_21574E_236756),
  (0x5220, 0x2D335C_216B2B_236757_23675C_21335A_21335B_236750_216B2C_21335D_21335E_21335C_4B335B),
  (0x522C, 0x273379_276B3E_213365_23675E_213362_216B33_216B37_216B39_2D3366_216B36_213364_213361),
  (0x5238, 0x21335F_333367_213363_213360_333428_276B7A_333363_276B79_273376_213366_273423_213368),
  (0x5244, 0x216B3E_216B3F_23675D_21336D_216B40_216B43_21336C_21336B_21336A_213369_213367_336B33),
  (0x5250, 0x276B5B_273421_216B4C_216B54_213371_216B53_21336F_216B4A_23677C_216B48_216B4B_213370),
  (0x525C, 0x21336E_213372_216B4D_216B50_216B47_216B46_23677E_4B3421_333423_2D3372),
  (0x5267, 0x27337E_216B5E_213377_213373_216B55_216B5C_216B59_216B5B_213374_333377),
  (0x5272, 0x213375_216B5F_213376_213378_216B64_213379_216B6B_216B6A_216B69_216B6E_23685D_21337A),
  (0x527E, 0x216B6C_21337B_216B72_216B75_216B74_21337C_2D436C_236878_236872_21337E_21337D_213422),
  (0x528A, 0x216B7A_216B77_216B79_213421_393421),
  (0x5290, 0x216B7C_213423_216B7E_216C21_3F3421_23692A_216C27_216C2A_216C29_216C2C_216C2B_212C35),
  (0x529C, 0x236936_27343D_275B5F_213425_213426_273433_2D343C_213427_216C2F_23693F_216C2E_236943),
  (0x52A8, 0x273434_213429_21342B_213428_21342A_216C31_216C33_236947_23694A_27343C_27342F_273435),
  (0x52B4, 0x4B3435_216C36_236951_23694B_23694E_216C34_216C3A_216C37_216C38_23694F_21342C_273438),
  (0x52C0, 0x236956_21342F_23695B_21342E_2D424A_216C3B_236954_21342D_2D3E4C_213430_216C3C_273436),
  (0x52CC, 0x216C3E_216C3D_216C3F_23695F_216C40_216C41_213432_216C45_216C46_213434_216C48_214357),
  (0x52D8, 0x213431_213433),
  (0x52DB, 0x213436_236974_213437_213435_21343A_216C4D_216C4E_213438_216C4C_213439_216C4F_21343B),
  (0x52E7, 0x2D343D_216C56_216C53_236A29_216C55_216C52_216C51_216C59_216C57_216C58_216C5A_4B3436),
  (0x52F3, 0x216C5B_216C5C_21343C_236A30_216C5E_21343D_212C36_216C62_21343E_216C64_216C67_21343F),
  (0x52FF, 0x213440_2D343E_236A41_694677_216C6A_216C68_213441_213442_216C69_213443_216C6D_216C6E),
  (0x530B, 0x216C6F_216C71_213444_236A4D_213446_213445_216C77_216C76_216C79_236A59_212C37_213448),
  (0x5317, 0x213449_236A60_21344A_212C38_236A61_216D24_21344C_2D344E_216D25_21344E_21344D_236A64),
  (0x5323, 0x21344F_236A65_216D26_276D2E_216D2A_236A6B_2D344D_213450_216D2D_216D2F_216D2E_273452),
  (0x532F, 0x213451_216D33_213452_336D34_216D34_216D35_216D36_216D37_216D38_212C39_213453_273455),
  (0x533B, 0x216D3C_216D3D_216D3E_213454_213456_213455_212C3A_236B26_212F3C_236B27_213459_27345F),
  (0x5347, 0x21345B_212E66_21345D_21345C_39302D_216D41_216D42_27553C_273460),
  (0x5351, 0x213462_21345F_213461_213460_273668_275A2F_213463_4B3668_216D45_213464),
  (0x535C, 0x212C3B_216D4B_213466_216E58_213468_213467_274D3F_216D4C_295D3C_395824_213469_2D5424),
  (0x5368, 0x7F5368_212C3C_236B53_275749_216D53_216D54_21346B_212E63_21346C_21346D_216D57_21346E),
  (0x5374, 0x2D3473_21346F_216D5A_213470_213471_213472_216D58_213473_216D5C_2D346E_236B5E_213474),
  (0x5380, 0x216D5D),
  (0x5382, 0x212C3D_236B63_213475_273D2F_274349_236B68_2D6D5E_27347B_216D5F_273869_27347A_276D6D),
  (0x538E, 0x216D64_216D63_29605B),
  (0x5392, 0x236B7D_216D66_216D67_273C7E_216D6F_216D6C_216D71_216D6D_213476_2D3D2F_216D76_213477),
  (0x539E, 0x216D72_213478_236C2F_236C31_2D3C7D_276E2A_216D7A_213479_236C33_236C32_333D28_236C2C),
  (0x53AA, 0x216D7C_216D7B_216E23_21347A_236C3B_222D56_4B3D2C_216E27_21347B_4B375A_216E2A_216E2C),
  (0x53B6, 0x212C3E_216E2F_236C4E_216E2E_2D347C_21347C),
  (0x53BD, 0x216E32),
  (0x53BF, 0x275164_236C52_212F43_27347D_21347D_33347D_216E37_294C6E_294C6C_212C3F_213521_213523),
  (0x53CB, 0x213522_216E3A_213524_216E3B_236C63_216E3E_274C7B_216E3F_2D3050_213526_216E46_213525),
  (0x53D7, 0x213527_27594B_216E4A_216E48_213528_333529_236C6D_236C6F_213529_216E51_216E53_21352B),
  (0x53E3, 0x212C41_21352E_213539_213535),
  (0x53E8, 0x213534_213531_21353C_213537_213536_21353B_21352F_213530_213538_21353A_21353D_213532),
  (0x53F4, 0x216E59_21344B_216E55_27564A_21352D_236D23_236D28_216E57_213533_273740),
  (0x53FF, 0x236D2C_216E65_21353E_216E5B_213547_213546_216E64_21354A_216E60_21354B_213540_213544),
  (0x540B, 0x21353F_213543_213545_21354C_213542_213541_213549_213548_216E5F_216E61_333564_236D2B),
  (0x5417, 0x27367A_216E7E_236D3F_216E6F_213550_216E74_21354E_21354F_213566_21355A_216E76_216F26),
  (0x5423, 0x216F27_216F29_216E77_213559_213553_236D44_213567_216F24_213565_216F28_21354D_21355E),
  (0x542F, 0x216E6B_216E78_213555_216E70_21355C_216E71_21355D_21355B_216E72_213562_213563_216F23),
  (0x543B, 0x213561_213557_216E7D_213552_2D355F_213554_216E7C_213564_213558_236D50_216E6D_213556),
  (0x5448, 0x213560_33355C_21355F_4D386F_216E6C_236D42_213551_216F21),
  (0x5451, 0x2D354F_277267_273762_216E79_27372E_27734C_277030_27363E_276F69_3F3639_273722_273721),
  (0x545D, 0x216F2D_216F34_216F2E_216F3C_216F36_213569_216F4A_216F53_216F41_216F52_216F50_213574),
  (0x546A, 0x216F46_216F43_216F44_216F3A_236D75_216F33_216F68_21357B_216F67_213568_216F4B_21356A),
  (0x5476, 0x21357A_21356E_21356C_216F4D_216F40_21356F_213573_213579_216F3F_216F37_213570_216F38),
  (0x5482, 0x216F39_216F4F_213572_236D64_213575_216F31_216F35_216F47_216F4C_213576_213577_216F49),
  (0x548E, 0x21357D_216F2B_213578_216F3B_213571_236D69_216F42_21356B_21356D),
  (0x5498, 0x216F3D_273756_21357C_27374E_216F2F_705F50_2D7032_216F61_216F59_216F58_216F66_236E41),
  (0x54A4, 0x216F55_216F60_213626_216F63_213622_21357E_213621_213627_213623_216F5A_216F6D_213632),
  (0x54B0, 0x216F6E_213630_216F75_213625_236E35_216F64_216F6F_216F6A_21362C_216F54_216F5B_213631),
  (0x54BC, 0x216F69_21362E_216F5E_216F71_213624_21362D_21362B_236E4A_21362A_216F70_216F74_213628),
  (0x54C8, 0x213633_213629_216F62_236E3F_236E57_216F72_21362F_216F5C_236E34_273649_277272_277255),
  (0x54D4, 0x277239_27727A_216F6C_335941_695326_27727E_236E4E),
  (0x54DC, 0x277328_273747_216F6B_273671_21703D_21363E_216F7C),
  (0x54E4, 0x21702A_21363A_213643_217025_21363D_21363F_213637_217035_236F27_213640_21363B_217032),
  (0x54F0, 0x236E61_216F7E_21363C_217027_216F79_217036_217038_217039_21703B_21703A_213639_217031),
  (0x54FC, 0x213635_217024_236F2F_21702D_236F22_213634_236E7D_217048_217030_21704A_213641_216F7D),
  (0x5508, 0x217034_213642_21702B_217049_217121_236E59_21703E_217046_213636_217047_236E70_217022),
  (0x5514, 0x213638_217043_2D3649_217023_21702E_217045_216F7B_277234_7F551C_277161),
  (0x5520, 0x273732_277060_277169_217044_27366D),
  (0x5526, 0x216F77_21365E),
  (0x5529, 0x236F5F_21705D_21707E_213651_217059_213657_213656_217068_21364F_21707A_213645_21704C),
  (0x5535, 0x21706B_217061_213647_213659_217057_236F4B_217069_217053),
  (0x553E, 0x213653_217079_21706A_21707B_236F57_213650_21364D_217070_213646_217054_217058_217064),
  (0x554A, 0x21364C_236F58_21704E_217050_217077_213648_217055_21705A_217067_2D424F_39424F_213655),
  (0x5556, 0x213644_217078_236F32_21714B_217051_21705B_21364E_236F5E_213649_21424F),
  (0x5561, 0x213652_217060_213654_213658_21707D_21364A_273727_21705C),
  (0x556A, 0x21364B_217063_273678_27375C_277345),
  (0x5570, 0x2D3761_217075),
  (0x5573, 0x21704D_277261_21704B_21704F_217125_273733),
  (0x557A, 0x21713E_21365C_21365D_217155_21366E_21712E_21365B_217144_213669_213666_21523F_21713D),
  (0x5586, 0x21712F_213660_217134_213670_213665_213662_217140_21716E_217145_217149_237023_217123),
  (0x5592, 0x217151_21712D_21365F_21713A_217135_21713C_21366C_217152_21366D_23704A_213661_21366B),
  (0x559E, 0x39365E_21366A_237048_217131_21714F_21714D_217150_217128_23703E_21365A_217126_333672),
  (0x55AA, 0x213663_21712B_21366F_217127_213668_21713B_217153_213667_213671_213664_217136_217147),
  (0x55B6, 0x4B4A2E_273745),
  (0x55B9, 0x70602D),
  (0x55BB, 0x213672),
  (0x55BD, 0x273731_27735A_21716B_217160_217178_217172_21715E_217165_21367E_213722_213678_21717A),
  (0x55C9, 0x21715F_217161_217168_217158_21715B_21367A_21716F_217159_213675_217170_213679_217164),
  (0x55D5, 0x237068_217177_21716D_23707B_21715D_213721_21715A_213676_217162_21715C_213674_237078),
  (0x55E1, 0x213723_217171_21367B_21367D_21373E_213677_216C50_213673_217169_23705B_27375D_4B356A),
  (0x55EF, 0x21367C),
  (0x55F1, 0x237076_217179_27374B_217156_70604C_217239_213728_217227_21722B_21723F_217224_21723D),
  (0x55FD, 0x21372B_213726_217244_213724_217236_21723C_23712B_217240_21712A_21372C_237144_213729),
  (0x5609, 0x21372D_21723E_237130_217231_213731_21372F_217228_217235_21723A_217225_217238_21372E),
  (0x5615, 0x217230_213727_213730_2D373B_237127_217246_213725_217234_217242_21722E_21372A_21725D),
  (0x5622, 0x23713E_706054_27375B),
  (0x5626, 0x237B21_21717E_333733_21373A_217260_21726B_217264_237167_213732_213733_213740_217254),
  (0x5632, 0x213736_217262_21373D_217255_213735_237174_217267_213738_217268_213737_21725F_217261),
  (0x563E, 0x217259_21373C_217252_217258_217247_217265_21724F_236F6F_21725B_217249_21724C_217257),
  (0x564A, 0x21724D_21724B_217248_217269_213734_21726C_2D3749_217243),
  (0x5653, 0x21373B_21725E),
  (0x5656, 0x217251_213739_21725C_21373F_21724E),
  (0x565C, 0x273754),
  (0x565E, 0x21727D_21726F_217272_217323_21374C_217275_213742_213747_21727A_217277_213749_213743),
  (0x566A, 0x213748_213741_21374D_21727C_237230_21374B_21726E_21374A_21727E_21727B_213745),
  (0x5676, 0x217278_21726D_213744_213746_694838_23717A_217270_21732F_217326_21732B_21374E_21732C),
  (0x5682, 0x21733D_217331_217335_213750_217334_213751_217330_2D3572_217337_237253_217328_21732D),
  (0x568E, 0x21374F_213753_213752_217336_217329_217325_3F3753_213754_21733C_217344_21733F_217345),
  (0x569A, 0x217342_217347_217341_21733A_21733E_237276_4B4937),
  (0x56A2, 0x2D3760_27375E),
  (0x56A5, 0x213758_21734C_21734F_213756_217351_21734D_217349_21734E_21734B_213755_4D3359_213757),
  (0x56B1, 0x217359_217353_21735A_21375A_21735F_21375B_213759),
  (0x56BA, 0x217332_237337_21375F_237332_21735E_237336_21375C_21375D_21375E_21735B),
  (0x56C5, 0x217360_23733D_2F727E_213762_213761_213760_217361_213763_217367_695375_217362_217363),
  (0x56D1, 0x213764_217364_217368_21736A),
  (0x56D7, 0x212C42),
  (0x56D9, 0x2D3767_213766_212F34_23734D_21736D_213768_217370_213767_21736F_23734E_4B3773_213769),
  (0x56E5, 0x217371_217374_217377),
  (0x56E9, 0x217373_21376B_217375_2D3768_217372_217376_27376F_21376A_33376B_237356_4B3774_273770),
  (0x56F5, 0x27742E),
  (0x56F7, 0x21737E_217378_217421_21376C_217379_21737D_4B376F_217422_217424_217425_217426_217429),
  (0x5703, 0x21376D_217428_217427_273772_21742E_21376E_21742D_21742C_21376F_217430_213770_2D3772),
  (0x570F, 0x33376E_21742F_237424_213771_213772_217432_217431_213774_5D3774_213773),
  (0x571A, 0x217435_217436_217437_217439_21743A_212C43_21743C_21743B_21743E_21743F_217441_23743D),
  (0x5726, 0x695429_4B3869_21377A_217443_21744C_33784C_213776_213777_217442_213778_213779_21744B),
  (0x5732, 0x217449_21377B_21744F_237441_217447_69542A_217448_27386B_27384A_217466_237449),
  (0x573E, 0x213824_21746A_213821_217462_217467_2D7856_217460_217465),
  (0x5747, 0x213822_21745E_217463_21377D_217468_217469_213823_213825_21377E_213826_21377C_217464),
  (0x5753, 0x217455_21745C),
  (0x5756, 0x217454_217456_217459_237447_27383F_217453_27386F_273871_273855_217461_273861_21382B),
  (0x5762, 0x21746B_21747D_21382C_21747E_21382D_21747A_217470_213829_213828_217525_217536_217477),
  (0x576E, 0x21752A_21747B_217526_217528_217474_217535_217479_217531_21752D_21382A_21752F_21746E),
  (0x577A, 0x21747C_217532_21382F_217534_21746F_217530_217529_21752B_21382E_213827_27386D_27785A),
  (0x5786, 0x27785E_217472_217533_21752E_217475_213831_217549_217556_217553_217541_217539_21754D),
  (0x5792, 0x21754C_21753A_217545_21755B_217555_21754B_217558_217548_217543_217550_2D7550_21754E),
  (0x579E, 0x21753F_217538_213830_217557_213834_213832_217547_21755A_273867_217554),
  (0x57A9, 0x27383E_69543A_217546_237463_277638_213833),
  (0x57B0, 0x69543B),
  (0x57B2, 0x277748_695438_23745B_217540_21755C_21756F_21755F_21757B_217578_21756B_217623_217576),
  (0x57BE, 0x21756C_21755E_4B382E_23747C_213836_213839_217622_2D5E6E_21757E_217560_217579_237472),
  (0x57CA, 0x217574_213838_21755D_21756D_213837_21765A_217561_217569_217577_4B7577_213835_217573),
  (0x57D6, 0x695442_217570_277742_277745_27767A_217571_21763C_21765B_21762E_21383D_213843_217638),
  (0x57E2, 0x217625_217629_213842_217630_21762D_21764C_21765C_217654_237525_217645_217635_217631),
  (0x57EE, 0x217628_217643_217652_21764A_217632_217658_21763D_217726_21762C_21383B_21764E_21383A),
  (0x57FA, 0x21383C_21762A_21763F_21764D_217634_217626_217633_217648_213840_21762B_217659_21383F),
  (0x5806, 0x213841_217636_217646_21756A_21383E_217656_217650_217640_217639_21763B_21763E_27385B),
  (0x5812, 0x217649_217651_217647_273862),
  (0x5817, 0x217660_217723_217669_217677_217667_23753C_21767A_21766C_217724_21772B_21384B_21772C),
  (0x5823, 0x217674_213849_217665_21767C_217671_217676_217661_213847_21772D_21772F_217729_217678),
  (0x582F, 0x213845_213848_213844_217542_21766A_21384A_213846_21766E_237538_217728_217725_217679),
  (0x583B, 0x237539_217666_217749_2F3972_21766D_21775F_4B386C),
  (0x5843, 0x237562_21767D_21772A),
  (0x5847, 0x21765F_217721_217753_213856_217737_213851_21774D_217730_217748_21773B_21384F_217742),
  (0x5853, 0x217747_213854_217754_21774E_21384D_21384E_217735_213852_237555_217744_217733_21384C),
  (0x585F, 0x2D5550_21774F_273850_213855_23754E_217745_21773D_2D5E7B_23754C_21773F_2D6251_237568),
  (0x586B, 0x213850_217740_213853),
  (0x586F, 0x237566_69544B_217734_217775_23757C_21776D_213859_237571_217771_237578_21385B_21775D),
  (0x587B, 0x217767_217761_21776B_213858_21776F_21385F_217770_217762_213857_217769_21385C_21776A),
  (0x5887, 0x217756_217763_21775C_21385A_217774_23756D),
  (0x588E, 0x21775A_217772_217765_217757_217758_21385D_21776E_2D3848_2D3854_33385E_217768_274A46),
  (0x589A, 0x217755_217760_213861_217825_21385E_213863_21782E_21777E_237625_217830),
  (0x58A5, 0x21777A_217832_237633_216267_21777B_21777C_217821_217837_21782B_213862_217831_217828),
  (0x58B1, 0x217824_217836_213860_21782A_217826),
  (0x58B7, 0x23762E_695457_695451_21784C_217843_217841_21784A_213867_217849),
  (0x58C1, 0x213866_217840_217842_217844_213865_21784B_213864_21783A_23763C_2D386E_217846_4B3870),
  (0x58CD, 0x2D385B_217856_217851_217852_21386A_217854_213869_21784F_213868_217850_69545C_21386C),
  (0x58D9, 0x21386B_21785E_21785B_21785C_21785D_21386E_21386D_21785A_216E54_21386F_23765B_213870),
  (0x58E5, 0x69545F),
  (0x58E7, 0x217864_217865_213871),
  (0x58EB, 0x212C44_212E58),
  (0x58EE, 0x273874_213874_275274_2D3875_217868_27463C_217869),
  (0x58F6, 0x273876_237674_27786C_212F41_213876_21766B_21786C_213877_237677_21786D_2D3877_21786F),
  (0x5902, 0x212C45_217871_275647_217872_217873_273240_247A65_4B594B_212C46_217876_217877_217878),
  (0x590E, 0x237728_213878_21787A_22545C_21787B),
  (0x5914, 0x213879_212C47_21387B_21787D_2D346A_21387C_21387D_4B387D_21387E_237731),
  (0x591F, 0x217922_213921_217924_213924_2D3924_213922_213923_23774C_212C48_217929_213928_213926),
  (0x592B, 0x213927_217928_213929_21392A_21792B_21792C_21392B_21792A),
  (0x5934, 0x276046_23775A_2D4646_21392C_21392D_27392E_273940_216E63_217930_23775C_21392E_217932),
  (0x5940, 0x217933_27393F_4B3938_21793F_213933_21793D_237764_213932_213931_213930_217945_237769),
  (0x594C, 0x2D626A_217938_213936_213937_213938_213935_23776D_217943_21392F_213934_274B25_213939),
  (0x5958, 0x21393A),
  (0x595A, 0x21393B_237823_21794B_21794A_21794C_237825_21393C_21794F_21393D_21794D_23782B_4B393E),
  (0x5966, 0x237835_21393E_2D4B25_21393F_213940_217953_217954_217955_213941_23783C_21795C_21795D),
  (0x5972, 0x21795E_212C49_213943_237847_213944_237853_213947_213949_237852_217963_217965_213948),
  (0x597E, 0x217964_217961_23784D_21394B_21394A_213946_213945_217962_273953_273A27_273A36_217973),
  (0x598A, 0x213956_23785A_217968_21394E_21797E_217967_217A21_21796C_21394D_213951_237857_237862),
  (0x5996, 0x213957_21797C_21796B_213954_21796F_2D7C4F_21796D_213953_213952_217970_217971_21797B),
  (0x59A2, 0x21797D_213950_21394F_213955_217977_217969_21394C_273A45_273A3B_277C36_217A26_217A2F),
  (0x59AE, 0x21395A_213960_23787E_237872_217A35_213964_217A3D_217A25_217A22_217A3A_217A2C_21395C),
  (0x59BA, 0x217A2A_213959_217A3C_237878_213958_217A2D_217A3B_217A3E_217978_217A2B_237871_217A24),
  (0x59C6, 0x21395D_237929_217A39_217A23_213963_213965_217A30_21395F_217A31_217A28_21395E_21395B),
  (0x59D2, 0x213961_213962_213966_217A37_217A27_2D395F_21396A_217A5C_213972_217A53_213968_217A5E),
  (0x59DE, 0x217A52_217A42_217A58_217A63_2D397A_213967_217A61_21396D_213971_2D3947_21396C_217A5A),
  (0x59EA, 0x21396E_217A46_213978_23792D_217A4F_237932_217A57_217A50_217A40_217A5B_217A4D_217A59),
  (0x59F6, 0x217A5D_217A49_2D394E_217A43_217A5F_213970_217A60_217A56_23793B_213969_217A51_21396F),
  (0x5A02, 0x217A4B_21396B_273A28_277B3C_277D2B_273A44_277D74_217A78_217A74_217A72_21397C_237931),
  (0x5A0E, 0x217A69_217A6C_23795A_213973_217A7E_213977_217A6B_217A6D_217A75_217A7B_213974_217A6A),
  (0x5A1A, 0x237953_21397B_213976_217A70_23795B_21397A_213979_217A6F_23795F_213975_217A76_21397E),
  (0x5A26, 0x333A48_217B23_217A73_21397D_217A6E_217A7C_217B41_217A7A_217A67_4B397B),
  (0x5A31, 0x2D397B_277C24_217A7D_273A41_217B3D_213A24_217B51_217B3A_217B36_217B42_217B38_213A29),
  (0x5A3D, 0x217B50_217B35_237969_213A26_213A28_217B56_217B2B_217B28_23797A_213A21_217A79_217B39),
  (0x5A49, 0x213A22_213A25_237971_217B47_217B34_217B55_217B53_217B48_217B54_217B2F_217B4F_237978),
  (0x5A55, 0x217B3E_23796B_217B57_217B26_217B4D_213A2B_217B2A_217B32_217B30_217B3B_217B4A_217B2C),
  (0x5A61, 0x23796E_213A2A_217B58_217B52_217B49_213A27_217B31_217B5D_217B4C_213A23_237973_217B5C),
  (0x5A6D, 0x217B3C_237970),
  (0x5A70, 0x217B44_217B37_217B46),
  (0x5A74, 0x273A4A_273A43_273A4B_213A2C_217B7D_217B70_217B6A_217B74_217C28_217B7C_2D7C34_213A2F),
  (0x5A80, 0x237A3B_217B6D_237A23_237A2D_217B68_217B7A_217B78_217B5F_237A25_217B6E_217B65_217B6C),
  (0x5A8C, 0x217C22_2D3A27_217B3F_217C2A_217C4A_217C2B_213A2E_217C30_217B77_217C35_217C29_217B63),
  (0x5A98, 0x237A2C_237A35_213A2D_213A31_217C27_217C2F_217C25_217B71_217B75_237A31_217C26_217B5E),
  (0x5AA4, 0x7F5AA4_217B62_217C21_217C24_217B66_217B76_217C52_217C23_217C31),
  (0x5AAE, 0x217C34_217C36_217C57_217C5B_213A37_213A39_217C47_217C3E_217C53_217C45_217C4F_217C55),
  (0x5ABA, 0x217C50_217C58_213A30_213A36_213A35_217C56_217C46_213A33_213A38_217C44_217C41_237A58),
  (0x5AC6, 0x217C3B_217C4D_217C39_213A34_217C43_217C42_213A32_237A63_237A56_217B69_237A61_217C49),
  (0x5AD2, 0x277D48_217C59_273A48_217C6F_213A3C_213A3B_213A3F_217C5E_217C7B_217C70_217C60_237A71),
  (0x5ADE, 0x237A70_217C6C_217C6E_213A3A_217C63_213A3D_217C69_217C6D_213A40_217C62_237A78_213A3E),
  (0x5AEA, 0x217C72_217C7C_217C5F_217C75_217C64_217C3F_217C71_277D40),
  (0x5AF3, 0x217C7E_237B30_213A45_217D37_217D28_217D22_217D2C_217D32_213A41_217D2D_217D2A_237B2D),
  (0x5AFF, 0x217D26_2D7C36_237B39_217D24_217D38_237B33_217D31_217D3A_217D30_217D2B_213A42_253337),
  (0x5B0B, 0x213A43_213A44_217D2E_217D36_217D3B_217D49_237B4B_217D4A_237B54),
  (0x5B15, 0x217D44_217D3E_217D3D_237B49_217D40_217C61_217D47_237B46_213A47_217D42_237B48_217D41),
  (0x5B21, 0x217D48_4B3974_237B5C_213A49_217D50_217D53_217D51_217D3C_237B66_213A48_237B5E_217D52),
  (0x5B2D, 0x217D57_217D56_217D55_213A4A_217D4B_217D59_237B64_213A46_237B67_69554E_4B3A49_213A4B),
  (0x5B39, 0x217D67_217D5C_217D5B_217D5E_217D65_217D62_217D63_213A4C),
  (0x5B42, 0x217D6D_217D68_217D6B_217D6E_217D6C_217D73_217D72_217D71_217D75_217D76_217D74_217D78),
  (0x5B4E, 0x217D79_217D7A_212C4A_213A4E_237C27_213A4F_213A50_213A51_217D7C_213A52_213A53_273A5B),
  (0x5B5A, 0x213A56_217E21_213A55_213A54_237C2C_213A57_2D367B_237C34_217E23_213A58_213A59_217E24),
  (0x5B66, 0x273A60_217E25_217E26_213A5A_273A63_213A5B_217E28),
  (0x5B6E, 0x217E2A_237C3D_213A5C_213A5E_237C3E_213A5D_217E2D_213A5F),
  (0x5B77, 0x217E2F_213A60),
  (0x5B7A, 0x213A61_217E30_217E31_213A62_237C5B_213A63_212C4B_217E33_217E35_213A64_217E34_213A68),
  (0x5B86, 0x217E37_213A65_213A66_213A67_237C65_213A6A_213A69_217E3A_217E3B_213A6B),
  (0x5B91, 0x237C63_217E3D_217E43_217E3E_217E40_217E3F_213A6C_213A6F_213A70_213A6D_213A71_213A6E),
  (0x5B9D, 0x273B39_273B31_4B3B31_273B38_273B36_213A76_213A73_213A75_213A72_213A74_217E52_217E4C),
  (0x5BA9, 0x237C73_237C79_2D3A7C_217E49_217E51_213A7C_237C7E_213A77_237D27_217E53_213A7E_213A7B),
  (0x5BB5, 0x213A7A_213A79_217E55_213A78_213A7D_237D24_2D3B21_3F3B22_273B35_217E56_213B26_237D3A),
  (0x5BC1, 0x217E59_213B25_217E6A_213B24_212E62_213B21_213B22),
  (0x5BC9, 0x217E60_217E67_217E64_213B27_217E62_217E66_217E6B_213B29_217E6C_213B28_213B2A_217E68),
  (0x5BD6, 0x217E6E_217E75_217E73_217E74),
  (0x5BDB, 0x393B35),
  (0x5BDD, 0x273B2E_213B30_213B33_217E79_213B2B_213B2E_217E7A_213B2F_213B2C_213B31_213B32_213B2D),
  (0x5BE9, 0x213B36_217E61_213B37_213B35_237D5C_213B34_222225_222224_222229_222228_393B39_22222B),
  (0x5BF5, 0x213B38_213B39_22222E_212C4C_273B43_213B3B_273B42_273B44_222232_4B3B43_273877_222233),
  (0x5C01, 0x213B3C_2D3B3F_222236_213B3D_222237_273B40_213B40_213B3F_213B3E_213B41_213B42_222238),
  (0x5C0D, 0x213B43_213B44_212C4D_22223B_213B46_22223E_4B4A45_22223D_22223C_213B47_22223F_273859),
  (0x5C19, 0x2D3B48_213B48_222240_237E47_273730_2D4A29_222244_222243_223930_212C4E_237E61_213B49),
  (0x5C25, 0x222248),
  (0x5C27, 0x273845_22224C_22224D_22224B),
  (0x5C2C, 0x213B4A_2D3845),
  (0x5C2F, 0x222253_222259_213B4B_22225B_22225C_273B4C_24222F_22225F_213B4C_212C4F_21303E_213B4E),
  (0x5C3B, 0x222263_213B4F_273263_213B53_213B52_213B50_213B51_273B61),
  (0x5C44, 0x222265_213B55_213B54_22226A_213B56_222267_222268_213B58_22226F_213B59_213B57_213B5D),
  (0x5C50, 0x213B5C_213B5B_222274_242250_242251_213B5A_222273_222235_217E27_222279_222277_333B5D),
  (0x5C5C, 0x213B5F_22227B_22227D_22227C_213B5E_273B60_213B60_222323_213B61_213B62_28232B_222329),
  (0x5C68, 0x22232B_22232D_22232C_22232F_213B63_222330_212C50_213B64_222333_212C51),
  (0x5C73, 0x222339_222337_222336_4C233F_22233B_22233D_213B66_22233C_22233F_222340_242334_222341),
  (0x5C7F, 0x273C2D_222342_222343_275954),
  (0x5C84, 0x242346_222351_24234E_242356_222349_24234D_222348_22234E_213B68_22234B_242351_222346),
  (0x5C90, 0x213B67_213B69_222353_222350_213B6A_222352_273C2B_28245B_282441_242358_273C28_273B79),
  (0x5C9C, 0x242342_22236A),
  (0x5C9F, 0x222369_222357_213B6E_22235C_22236B_242359_222365_222355_222361_222366_213B6D_22235A),
  (0x5CAB, 0x213B6F_222367_22236F_222356_22235D_24236F_213B71_242369_213B70_2D3C2B_222360_22236C),
  (0x5CB7, 0x213B6B_213B6C_222362_22236E_242370_695630_342453_695633_282647_7F5CC0_22236D),
  (0x5CC3, 0x28262D_282626_695632_22242F_222430_24237D_22242D_242424_22242B_22237D_242376_222377),
  (0x5CCF, 0x24237A_222371_242422_222428_222378_242379_222370_222375_22242A_22237A_213B72_222425),
  (0x5CDB, 0x222421_222431_222429_242423_222422_222426_273B74_22237E_28256A_282577_4B3C23_222372),
  (0x5CE8, 0x213B77_222444_213B7A_22243C_22243A_213B75_222439_222445_213B78_222446_24244D_24244F),
  (0x5CF4, 0x222441_222435_213B79_24242B_222424_222448_242432_213B76_24244B_213B74_222433_22243B),
  (0x5D00, 0x222434_213B73_282569_282458),
  (0x5D06, 0x213B7C_213B7B_2D3B7B_24246D_242461_22244F_222452_222458_213C21_24247D_22245C_213C22),
  (0x5D12, 0x22244A_22245E_213C25_24245A_213B7E_22245B_222468_213C26_222450_213B7D_24253A_22244E),
  (0x5D1E, 0x222449_222467_222453_222454_213C23_24247A_222469_222464_22245A_222457_22244C_213C24),
  (0x5D2C, 0x242465_273C2A_22245D_222466_24247C_22247D_22252F_222532_222477_222521_222471_22246C),
  (0x5D38, 0x222479_242523_22246B_242542_242538_222527_222472_222525_222475_222473_222531_22246D),
  (0x5D44, 0x242522_24252C_242541_22252D_24253D_22246A_222544_222474_213C27_242527_222528_222533),
  (0x5D50, 0x213C28_22247E_222526),
  (0x5D54, 0x22247A_242546_242530_222476_282632_22252C_28257B_242545_4B3C21_28255A_24255A_22253D),
  (0x5D60, 0x3F484A_24255F_22254A_222536_22253B_222545_222541_22252A_222548_213C29_222535_22253A),
  (0x5D6C, 0x222549_242549_22253C_222539_222538_222537_222547_4C2539_222534_22253F_69564E_222563),
  (0x5D78, 0x222562_222550_222558_242563_22254E_222555_222560_222554_24256F_22255A_22254D_24256B),
  (0x5D84, 0x213C2A_24256A_222552_213C2B_22255E_22255B_222556_222561_4B3B79_222557_222551_222571),
  (0x5D90, 0x242628_24263C_222566_222575_22257B_222578_22257C_222569_24262C_222568_222572),
  (0x5D9C, 0x22256F_213C2C_22256C_222567_222577_222573_22256A_222579),
  (0x5DA5, 0x222570_24264E_222626_22262D_222624_222628),
  (0x5DAC, 0x22257E_22262C_22262F_242649_22262A_222627_22262B_222623_22257A_24264A_222630_222636),
  (0x5DB8, 0x222632_222633_213C2F_222635_213C2D_213C2E_222637_222634_222639_242668),
  (0x5DC3, 0x22263E_22263D_273C32_222643_222644_24267B_222646_222645_222647_4B3C33_213C30),
  (0x5DCF, 0x222649_24267E_22264B_213C31_4B3C32_213C32_242727_213C33_2D3C33_22264E_22264C_24272E),
  (0x5DDB, 0x212C52_222652_213C34_213C35_222653_222655_215B69_213C36_2D3C36_222656_212C53_213C3A),
  (0x5DE7, 0x213C39_213C38_276023),
  (0x5DEB, 0x213C3B),
  (0x5DEE, 0x213C3C_282659_222659_212C54_213C3E_212E65_213C40_22265C_22265E_213C41_24275B_22265F),
  (0x5DFA, 0x2D3C42_3F3470),
  (0x5DFD, 0x213C42_212C55_242764_222662_273C5E_213C44_213C45_222663_273C4F_213C46_242769_273C51),
  (0x5E09, 0x22266E_222669_22266D_213C47_222668_22266A_282736_273C52_213C4D_222677_222670_222672),
  (0x5E15, 0x213C4B_213C4A_222673_213C48_222676_213C49_213C4C_273C60_213C4E_22267E_222678_24283B),
  (0x5E21, 0x22267B_222722_22267A_222723_213C4F_273C53_273C58_222724_222728_222727_213C51_24283E),
  (0x5E2D, 0x213C50_222725_4B3C53_3F462B_28275F_2E267B_213C52_222732_22272D_213C53_213C55_213C54),
  (0x5E39, 0x22272C_222730_282747_273C5C_213C57_242853_24286E_213C58_242861_222739_222736_222735),
  (0x5E45, 0x213C56_222737_2D3C61_222748),
  (0x5E4A, 0x242877_222744_213C59_222746_22273F_22273B_22273D_22274D_22274F_22274E_213C5B_213C5D),
  (0x5E56, 0x22274A_213C5C_222747_22274B),
  (0x5E5B, 0x213C5A_222755_222756_222757_213C60_222759_222758_213C5F_213C5E_4B3C5E_222754_22275A),
  (0x5E67, 0x22275B_22275D_222753_222760_213C61_22275F_222764_222763_22275C_222765_242954_212C56),
  (0x5E73, 0x213C63_213C65_22276D_213C64_333C64_213C66_213C67_212C57_213C68_213C69_213C6A_213C6B),
  (0x5E7F, 0x212C58_222777_242975_222778_222776_22277A_2D6260_273F2E_213C6D_222825_222821_213C6E),
  (0x5E8B, 0x22277E_222822_222826_242A22_213C6C_273D2E_282868_24297D_273C76_273F4A_213C73_213C71),
  (0x5E97, 0x213C70_22282A_222829_212E56_222832_213C72_242A31_273D2D_273D27_213C74_22282C_222833),
  (0x5EA3, 0x222834_22282F_222835_213C75_213C77_242A4C_242A56_222838_213C76_222839_213C78_222837),
  (0x5EAF, 0x222836_22283D_222840_222843_22284B_222841_213C7C_213C7B_213C79_213C7A_222842_222849),
  (0x5EBB, 0x333C7B_282861_22284D_213D21_2D3D2B_242A72_213C7E_213C7D_3F3D27_22284C_222853_222856),
  (0x5EC7, 0x222854_213D24_213D23_213D22_222855_222851_222857_222861_2E284C_46284C_22285B_22285A),
  (0x5ED3, 0x213D25_22285F_22285C_213D26_22285D_222858_222860_213D28_222867_222859_213D29_222869),
  (0x5EDF, 0x213D2B_213D2C_222868_213D27_213D2A),
  (0x5EE5, 0x222872_242B46_22286D_222871_22286A),
  (0x5EEB, 0x242B56_213D2E_22287C_22287D_22287E_4B3D2F_222921_222922_213D2F_212C59_242B66_213D32),
  (0x5EF7, 0x213D30_213D31_222927_213D33_222929_222928_2D5B79_212C5A_213D34_275E53_213D35_22292F),
  (0x5F03, 0x222931_213D36_242B71_222933_222935_213D37_4B393A_213D38_212C5B_22293B_22293C_22293E),
  (0x5F0F, 0x213D39_4B3051_2D3D3A_213D3A_212C5C_213D3D_213D3C_242C32_213D3F_213D3E_222945_242C3C),
  (0x5F1B, 0x213D40_222946_222947_222948_213D41_273D47_242C47_22294B_22294C_22294D_273D4C_213D42),
  (0x5F27, 0x213D43_22294A_213D44_282951_242C50_242C5A_213D45_22294E_273D4D_222952_213D46_222953),
  (0x5F33, 0x222951_222954_213D47_222955_213D48_222958_273D4B_333D48_222956_213D49_242C64_4B3D4B),
  (0x5F3F, 0x22295B_22295C_69573B),
  (0x5F43, 0x22295E_22295F),
  (0x5F46, 0x213D4A_242C75_213D4B_242C76_222960_222961_213D4C_222962_213D4D_222967_212C5D_2E2968),
  (0x5F52, 0x27462B_273746_222969_275D74_22296A_213D4E_22296C_213D4F_2D3D4F_7F5F5B_22296E_242D37),
  (0x5F5E, 0x213D50_282970_222970_212C5E_213D51_222972_213D52_213D53_453D53_222974_282978_213D55),
  (0x5F6A, 0x215646_213D56_213D54_213D57_242D4A_222976_213D58_213D59_222978_212C5F_22297C_242D56),
  (0x5F76, 0x222A21_213D5A_222A22_213D5B_242D5A_273D74_213D5F_222A25_222A26_213D5E_213D5C_213D5D),
  (0x5F82, 0x222A23_4B3D5C_273D67_213D60_222A29_213D64_213D61_222A27_213D63_213D62_213D65_242D69),
  (0x5F8E, 0x222A2F_2F4A4A_213D68_213D67_213D66_2D3D6C_222A2B_282A36_242D7A_213D6A_213D69_213D6B),
  (0x5F9A, 0x222A3D_222A38_222A39_242E21_213D6C_222A3B_222A36_213D6D_242E24),
  (0x5FA5, 0x242E2B_222A40_213D70_213D6E_213D6F_213D71_222A3E_213D72_222A47_213D73_222A46_2D3D5D),
  (0x5FB2, 0x222A4A_333D75_2D3D76_213D76_222A48_213D75_242E4B_213D74_222A4E_242E59_222A50_213D77),
  (0x5FBE, 0x242E5F_222A52_222A54_242E64_242E68_212C61_273D78_213D79_273F48_242E6F_242E71_222A57),
  (0x5FCA, 0x242E6E),
  (0x5FCC, 0x213D7C_213E21_222A67_242E78_222A63_222A5F_222A61_222A5B_222A66_222A62_213D7D_213D7E),
  (0x5FD8, 0x213D7B_213D7A_222A60_222A65_4B3F4A_213E26_222A6B),
  (0x5FE0, 0x213E23_222A78_2D3E4D_222A6E_222A7B_242F37_222B22_222A75_222A6D),
  (0x5FEA, 0x222B24_213E22_242F22_222A68_222A72_242F29_273E57_213E24_222A77_222A7D_222A7E_213E27),
  (0x5FF6, 0x222A6C_242F28_222A73_242F25_222A7C_222B21_222A6A_213E25_242F2A_213E28_222A76_273F28),
  (0x6002, 0x273F3B_282E52_282D74_273E5E_273F2B_222B2E_222B31_222B41_222B36_242F3E_222B37_222B45),
  (0x600E, 0x213E35_213E2F_222B46_222B29_213E37_222B50_213E29_213E36_213E2D_222B3C_242F4D_222B30),
  (0x601A, 0x222B39_222B38_222B4E_213E2E_222B3B_222B4D_213E31_213E30_222B43_222B44_222B4A_213E33),
  (0x6026, 0x222B2A_213E34_213E32_222B2C_213E2B_222B2D_222B3F_222B28_222B4F_213E2C_222B26_222B49),
  (0x6032, 0x222B2F_222B3D_222B33_213E2A_242F3F_222B32),
  (0x6039, 0x222B4B_69576A_27516D_282E7E_242F42),
  (0x603F, 0x282E5C_222B70_222B71_222B74_213E3B_242F56_222B60_213E40_222B5A_222B6E_222B5E_222B65),
  (0x604B, 0x273F5C_222B6F_213E41_222B62_242F69_213E3D_222B73_222B59_222B5F_222B53_213E49_2D3E2E),
  (0x6057, 0x222B69_242F5C_213E38_222B5C_222B6C_222B58_222B57_242F55_222B76_222B67_222B7A_213E3F),
  (0x6063, 0x213E39_213E47_213E3C_242F5D_222B68_213E3A_213E43_213E46_213E42_213E44_213E3E_222B78),
  (0x606F, 0x213E45_213E48_2D3E4B_222B56_273F4E_222B52_222B5D_273E61_222B72_273F3A_282E79_282D5E),
  (0x607B, 0x273E70_273E7E_282D34_222C2E_213E4C_222B7E_222C2D_222C22_222C30_213E50_213E4B_222C39),
  (0x6087, 0x222C38_222C26_213E53_222C24_242F6F_213E4A_213E51_222C33),
  (0x6090, 0x222C37_2D3E2D_222C2B_243022_213E54_222C3A_213E4F_222C32_222C27_242F6E_213E4E_222C31),
  (0x609C, 0x242F7D_222C2C_222C2F_213E4D_213E55_222C35_222B7D_213E52_2E2B49_333E6B_333E4B_222C34),
  (0x60A8, 0x213E56_4B3E7E_393E61_282D79_273F56_282D77),
  (0x60AF, 0x273F41_222C42_222C60_213E66_222C54_213E57_213E5E_213E5C_222C6A_213E68_222C41_222C43),
  (0x60BB, 0x213E5F_213E65_213E5A_222C46_222C65_222C6B_222C52_222C63_222C58_222C5D_213E5B_213E67),
  (0x60C7, 0x222C3E_222C59_222C3D_222C3F_213E59_222C45_24304D_222C4E_222C51_243041_213E5D_222C61),
  (0x60D3, 0x222C47_222C48_213E64_243062_24304F_213E63_222C53_213E69_222C69_213E62_222C56_24304C),
  (0x60DF, 0x213E6A_213E60_213E61_222C66_222C62_243047_222C67_213E58_222C57_222C5E_222C6E_2D3D75),
  (0x60EB, 0x273F47_273E6C_273F31_273F44_273F39_213E6F_213E7E_222D34_213E6D_213E76_222D29_213E7B),
  (0x60F7, 0x222C7B_222D3B_213E74_213E71_213E70_222D41_222C7C_222D45_222D2E_213E79_213E7A_333E4F),
  (0x6103, 0x222C73_222D35_222D28_222D43_222D2B_213E7D_213E7C_222D2A_222D39_243125_222C7D_213E78),
  (0x610F, 0x213E6B_222D2C_222C7A_222D32_222D2F_222C70_213E73_222D26_222C79_222C74_222C75_213E72),
  (0x611B, 0x213E77_213E6C_222D23_222D2D_213E6E_2D3F27_222D3F_222D33_213E75_273F42_222D37_282E4C),
  (0x6127, 0x213F2A_222D52_222D50_222D59_222D4E_222D4B_243145_222D60_243155_222D58_24313A_222D5A),
  (0x6133, 0x333F5B_213F2B_222D4C_222D57_222D5E_222D53_342C7A_222D5D_222D54_3F3F24_222D4F_213F29),
  (0x613F, 0x213F25_222D62_222D5B_222D46_243158_213F23_222D55_222D61_213F2C_213F21_222D48_222D4A),
  (0x614B, 0x213F28_213F26_213F27_213F24_24313F_222D51_273F59_222D76_222D7B_222E29_213F37_222E27),
  (0x6157, 0x222D78_213F38_222D73_213F31_222E2A_222E2F_213F32_222D66_213F3A_243175_222E22_213F35),
  (0x6163, 0x213F39_222D79_222E2D_222D6D_213F2F_213F22_222D71_222D74_213F3B_222D7C_282E45_213F36),
  (0x616F, 0x222E2C_213F30_222D70_222D7D_222D77_222D68_222D67_213F2E_213F2D_222D7E_222D6E_222E26),
  (0x617B, 0x24316C_213F34_222E21_213F3C_2D3F3F_222D69_222E30_213F33_222D6B_24322B_2D3F3A_222E24),
  (0x6187, 0x222E2E_222E28_243237_213F47_222E23_222E56_222E55_213F40_222E2B_213F4B_213F3F_222E4C),
  (0x6193, 0x222E3B_213F46_222E35_222E45_222E46_393661_222E3E_213F44_222E41_222E42_222E32_24322E),
  (0x619F, 0x222E3F_243247_222E51_222E3D_222E50_213F42_243244_222E33_213F3D_222E40_213F45_222E39),
  (0x61AB, 0x213F41_213F43_222E47_222E52_222E43_222E36_24322C_213F3E_222E37_222E60_222E58_213F48),
  (0x61B7, 0x24325A_222E6A_222E5E_222E68_243253_222E64_222E62_213F4C_222E69_222E6B_222E63_213F4D),
  (0x61C3, 0x222E5B_243259_222E5F_222E5D_213F4E_213F4F_213F4A_213F50_222E5A_222E5C_213F49_243257),
  (0x61CF, 0x243264_2D3F54_4B3F51_273F55_222E66),
  (0x61D5, 0x222E78_222F26_243271_222E6C),
  (0x61DA, 0x243279_222E76_222E7D_243278_222E7C_222E7E_222E71_222E70_222E74_213F51_222E75_222E77),
  (0x61E6, 0x213F52_222E72_222E79_222F27_222F2D_222F33_222E6F_222F28_222F2C_24332D_222F31_222F2E),
  (0x61F2, 0x213F53_222F29_333F58_213F57_213F55_213F54_213F56_222F36_213F58_222F37_213F5B_222F39),
  (0x61FE, 0x213F59_213F5A_213F5C_222F3D_24334E_222F40_222F41_222F42_282F43_222F43_212C62_222F44),
  (0x620A, 0x212E54_282F47_212E6A_213F60_213F5F_273F6F_213F62_213F64_213F63_243361_222F47_213F66),
  (0x6216, 0x213F65_282F66_222F4B_222F4F_213F68_213F67_222F52_25493E_222F54_213F69_24337C_213F6A),
  (0x6222, 0x213F6B_222F56_222F5D_222F5B_4B3F6E_222F66_222F60_222F61_213F6C_222F63_4C2F61_222F67),
  (0x622E, 0x213F6D_2D3F6F_213F6E_7F6231_213F6F_213F71_213F70_222F6D_212C63_3F3F72_393F72_222F6E),
  (0x623A, 0x222F6F_243442),
  (0x623D, 0x222F70_213F74_213F73_213F75_213F76_222F76_222F75_243451_222F78_222F77_213F77_213F78),
  (0x6249, 0x213F79_222F79_212C64_243462_213F7B_213F7C_243469_222F7A_222F7B_214021_213F7D_213F7E),
  (0x6255, 0x2D403F),
  (0x6258, 0x214024_223027_22302B_214022_222F7D_243473_222F7C_2E3023_223028_223022_22302C_214023),
  (0x6264, 0x223024_243478_22302D_22302A_223026_27422A_27407E_27407D_27413F_21402E_214036_214031),
  (0x6270, 0x243523_22303E_22304A_214037_22304D_2D4268_214028_24352D_22303D_21402B_223049_223047),
  (0x627C, 0x21402F_223035_214030_21402A_21402C_223040_223043_22302F_214032_223046_223031_223038),
  (0x6288, 0x223042_214029_21402D_24347E_22303A_243528_223032_223033_22303B_214034_214027_214038),
  (0x6294, 0x223037_214033_214025_214026_214035_223044_274171_334045_4B4046_22304B_33417E_283174),
  (0x62A0, 0x28337B_274136_274155_223041_275948_273844_223056_223065_21403C_223062_22305B_214044),
  (0x62AC, 0x21404D_223050_223070_22305E_223066_21404F_223054_223053_223058_214053_223069_243537),
  (0x62B8, 0x22303F_214040_243535_223060_214048_214047_223055_21403E_223064_22305A_21403F_22306A),
  (0x62C4, 0x21403A_22305F_214056_21404E_21404A_214039_22306C_214045_21403B_214052_214054_22306E),
  (0x62D0, 0x214049_223057_214041_214042_214046_22304F_214050_214055_214051_21404B_21404C_214043),
  (0x62DC, 0x21403D_51403D_22306B_274228_39417C_33422A_274231_27413C_223061_274174_274233_274226),
  (0x62E8, 0x274166_27417E_223078_223074_214065_21405C_21405E_21405F_223133_214062_22307D_21405A),
  (0x62F4, 0x214066_223125_223137_214060_22312E_223123_223079_24354C_214059_214063_212F4A_214067),
  (0x6300, 0x243561_21405D_223077_22307E_223127_22312F_24355F_214061_21405B_214057),
  (0x630B, 0x22307C_223131_223072_223126_223129_223134_214064_223122_223073_223071_22307B_214058),
  (0x6317, 0x223075),
  (0x6319, 0x4B5434_27415B_274237_28317B_4C3474_274177_27406C_274168_27417A_283462_4B412A_274225),
  (0x6325, 0x274142_283442_69594B_214074_22313E_21406A_214073_22314D_22313F_243567_21406D_223157),
  (0x6331, 0x22313A_223139_24356B_22315E_223145_223149),
  (0x6338, 0x223153_223154_214075_223236_22315A_21412E_21406C_4B4147_223162_223160_214069_223144),
  (0x6344, 0x22314A_223142_214072_223141_223164_214071_223159_22315C_212F48_223150_21406E_21406F),
  (0x6350, 0x214070_243579_223140_223147_22315F_21406B_22313C_223158_22315B_22314B_223151_243577),
  (0x635C, 0x2D4154),
  (0x635E, 0x274165_27414F_223132_274224_4B4146_274153_223148_223170_223242_214121_214135_214077),
  (0x636A, 0x223240_21407E_22316C_223241_223176_223224_243636_214125_21407B_22323F_33516D_22322F),
  (0x6376, 0x214131_21407C_24362A_223228_223226_214134_22323A_223168_22316F_223173_214137_223179),
  (0x6382, 0x22316B_21407D_214136_223174_22322A_223225_21412C_214128_223166_22316D_214127_22322C),
  (0x638E, 0x223227_214132_22323B_24362D_21412F_243637_223221_223222_214079_22317B_214122_21412A),
  (0x639A, 0x243629_214123_22323E_22317A_223172_22316E_214078_21412B_214129_214130_223235_214076),
  (0x63A6, 0x243638_21407A_214133_214126_214124_22317D_21412D_22323D_223239_223230_223238_223237),
  (0x63B2, 0x2D4141_27417D_274160_69595E_22316A_27422B_283457_243634_223234),
  (0x63BC, 0x28342E_223171_223270_22326E_21413C_243667_22324E_223250_223279_223266_214138_223263),
  (0x63C8, 0x22326F_214139_223256_223269_223268_21413A_223249_214143_21413E_223276_214147_223247),
  (0x63D4, 0x24366F_22325C_214140_22327B_223275_223245_21413F_214146_22327A_223273_223243_243657),
  (0x63E0, 0x22325B_21413B_22324A_214144_22326B_223244_223258_223257_223246_21413D_214148_223272),
  (0x63EC, 0x22324B_214141_214142_22326D_223271_223267_22325E_223254_214145_223252_22325D_3F4147),
  (0x63F8, 0x22325F_22326A),
  (0x63FD, 0x27423B),
  (0x63FF, 0x283466_274234_274229_27415F_3F516D),
  (0x6405, 0x27423A_22332E_223359_223326_22334C_223351_22335E_223331_21414F_223338_21414D_223322),
  (0x6411, 0x22334B_22327E_21414C_21414E_223336_214152_214153_223337_22333C_223352_223329_214154),
  (0x641D, 0x223355_214149_223332_22332B_22333D_22333B_223261_22332C_223354_22332F_223321_223342),
  (0x6429, 0x22334F_21414A_22335A_214156_214150_24367E_22334E_223344_223330_223328_223325_223324),
  (0x6435, 0x223348_214155_22333E_22332D_223333_223431_22335B_22332A_214151_21414B_22335D_223353),
  (0x6441, 0x223345_4B4235_223334_274235_283546_274230_2D4152_28352A_223327_274238_223434_24373E),
  (0x644D, 0x223361_223423_22336A_223435_214160_21415A_223430_214159_22337D_22342D_243749_214157),
  (0x6459, 0x223370_223425_223368_22342E_223366_223428_21415F_223433_223253_22342A_223429_223424),
  (0x6465, 0x243756_223421_214161_223449_214158_243750_22336C_223360_223365_22336E_21415B_223372),
  (0x6471, 0x223426_223371_22337B_223376_22337E_22336F_223436_21415C_21415D_21415E_22342C_22336D),
  (0x647D, 0x223378_22336B_243758_24375E_223367_223427_2D4176_28355B_223452_243760_214164_214165),
  (0x6489, 0x223439_223445_223444_223458_24376D_22344B_223442_21416C_2D416C_21416A_214168_243770),
  (0x6495, 0x214169_22344D_22337A_223461_22343F_214170_223440_223441_22324C_214162_223462_22345A),
  (0x64A1, 0x22345F_22344E_223457_214163_214166_223422_223465_223464_21416B),
  (0x64AB, 0x214171_214172_21416F_21416D_34345C_214167_223451_21416E_223466_22343A_27422C_22345B),
  (0x64B7, 0x283542_4C354A_4B423A_283561_214177_214179_22347D_223474_214224_223472_214174_214178),
  (0x64C3, 0x223473_21417D_214173_22345C_21417E),
  (0x64C9, 0x223476_214176_21417A_243834_21417B_214221_22347A_223475_2D4076_214223_22346C_214222),
  (0x64D5, 0x22347C_223479_22346A_214175_223463_21417C_223478_2E3570),
  (0x64DE, 0x27422F_24383C_214225_22352D_223533_22352B_223538_22352E_214227_223539_22353C_22352C),
  (0x64EA, 0x223530_223531_214228_223536_24383D_22352A_214226_214229_21422B_223525_21422A),
  (0x64F6, 0x24384E_223542_22354C_223543_214230_21422F_22354A_22354B_21422E_22353D_21422D_223541),
  (0x6502, 0x223545_243849_223546),
  (0x6506, 0x21422C_243851_22354F_223553_243855_223552_223556_22354E_223555_214231_223550_223557),
  (0x6512, 0x28356D_223558_214233_22355E_22355B_24385D_214232_214234_223559_223561_214236_214235),
  (0x651E, 0x22356B_223565_223566_223567_22356D_214237_214238_223572_223568_223569_2E3328_22356F),
  (0x652A, 0x21423A_214239_21423B_223575_223577_212C65_223578_22357A_223624_223626_212C66_2E3628),
  (0x6536, 0x21423D_223629_22362C_21423E),
  (0x653B, 0x21423F_24393C_223630_214240_214241_223635_22357C_223634_223632_223631_214242_243967),
  (0x6547, 0x223637_214243_223636_24395E),
  (0x654C, 0x274252_2D6E4A_454244_21424A_223640_214246_223643_22363B_22363E_22363F_214245_214247),
  (0x6558, 0x214249_214244),
  (0x655B, 0x274256_22364B_214248_21424E_243A27_223644_223647_21424C_21424D_223646_223623_21424B),
  (0x6567, 0x223645_24397B),
  (0x656A, 0x243A24_226055_214250_22364F),
  (0x656F, 0x243A38_274254_2E3652_214251_223652_214255_214252_243A57_214253_214254_223656_223654),
  (0x657C, 0x243A66),
  (0x657E, 0x7F657E_22365A_22365E_22365D_214256_214257_223661_223664),
  (0x6587, 0x212C67_217D7E_33627D_243B2C_22366C_22366E_335830_27627E),
  (0x6590, 0x21425A_214259_223670_283671_243B36_223671_243B38_212C68_243B3B_21425C_223673_223675),
  (0x659C, 0x21425D_223677_223679_21425E_22367A_21425F_22367C_22367E_212C69_214261_223723_214262),
  (0x65A8, 0x223722_274263_243B50_214E2D_214263_274266_223727_214264_214265),
  (0x65B2, 0x223729_223728_243B60_2E3729_22372A_214266_22372C_212C6A_243B69_243B6A_214268_214269),
  (0x65BE, 0x223730_22372F),
  (0x65C1, 0x21426A_223734_223732_223733_21426B_223731_223738_243B6E_223735_223737_21426D_21426E),
  (0x65CD, 0x22373A_21426C_21426F_22373B_2D4271_22373C_22373D_243B75),
  (0x65D6, 0x214271_214270),
  (0x65D9, 0x4C3744_223742_223744_223745_223747_223746_223748_212C6B_22374A_214272_2D4272_22374E),
  (0x65E5, 0x212C6C_214274_275435_214278_214275_22374F_243C35_214276_214277_223751_223752_223755),
  (0x65F1, 0x214279_243C3A_223756_223754_223757_27432D_27434D_28387C),
  (0x65FA, 0x21427A_22375B_22375C_22375F_394325_243C4A_21427E_223771_214323_223764_22376D_243C43),
  (0x6606, 0x21427B_223768_223759_22375A_22375E_223769_21427D_223763_214321_214324_22376C_22376A),
  (0x6612, 0x223766_214322_21427C_22376B),
  (0x6617, 0x22375D_2D5844_243C45_2D3F24_243C50_223822_22382A_22377C_21432A_214329_223772_223824),
  (0x6623, 0x243C5F_22382C_214325_243C55_214326_21432B_223776_223825_223828_223775_214328_223779),
  (0x662F, 0x214327_22377A_22376E_223778_223827_22382B_223777_22376F),
  (0x6639, 0x223770_22377D_2D4323_274332_283978_276058_4B434D_243C71_223837_21432D_214330_223834),
  (0x6645, 0x223831_243C66_243C6E_243C63_21432F_223833_33432F_214331_243C6F_243C68_21432C_22382E),
  (0x6651, 0x243C73_21432E_274348_28395C_274341_274340_22384D_243D22_223849_214336_223848_22383E),
  (0x665D, 0x214332_22384C_223832_243C6C_22383F_223843_223844_214333_22383D_214335_22384A_214334),
  (0x666A, 0x243D32_223863_223851_223866_214338_214337_21433B_223855_22386A_223860_214339_22384F),
  (0x6676, 0x21433C_223868_22385A_223862_21433D_223861_223853_22385E_223850_243D30_22386B_2D4348),
  (0x6682, 0x274344_695A73_223870_343831_22386E_21433F_214341_214340_22387A_223875_223871_22387D),
  (0x668E, 0x22387E_22385B_223876_21433A_22387B_223872_223879_243D43_214342_21433E_22387C_223873),
  (0x669A, 0x243D68_243D55_2D4338_223932_243D65_223933_22392A_223938_214343_243D67_223936_223931),
  (0x66A6, 0x22392F_27434B_214347_243D77_223941_214344_223943),
  (0x66AE, 0x214346_22394B_243D76_223947_22393A_22393E_214345_223940_243D69_223944_223958_21434A),
  (0x66BA, 0x22395D_22395A_695A7E_223950_22394F_243D7D_223954_4B4347_243E22_223951_22395C_2E395C),
  (0x66C6, 0x214349_223955_22394E_214348_223952_223956_243E2B_22396B_223968_223960_223966_223967),
  (0x66D2, 0x22396A_223969_243E31_243E33_21434B),
  (0x66D8, 0x22396E_21434C_223971_223972_22396F_21434E_243E41_223975_21434D_223976_223973_22397B),
  (0x66E4, 0x22397A_243E48_21434F_243E47_223978_22397C_243E51_22397D_22397E_223A22_223A23_243E53),
  (0x66F0, 0x212C6D_243E57_214351_214352_214353_4B4352_223A24_214354_214355_214356_2D4356_243C76),
  (0x66FC, 0x21352A_4B4358_214358_214359_213335_223A26_334357_21435A_243E5D_223A28_216C7B_243E65),
  (0x6708, 0x212C6E_21435C_243E6B_21435E_223A2F_21435D_243E6F_223A30_223A31_223A2D_223A33_223A34),
  (0x6714, 0x214361_214360_223A35_21435F_223A39_223A38_223A36_214362_243E74_214363_223A3A_214364),
  (0x6720, 0x223A3F_227944_223A42_223A47),
  (0x6725, 0x22797E_214365_214366_212C6F),
  (0x672A, 0x212E67_21436A_214369_21436C_214368_455746),
  (0x6731, 0x21436F_223A55_223A57_21436E_214370_2D4370_243F36_223A4D_223A51_223A50_223A4F_223A53),
  (0x673D, 0x21436D_223A4C_223A4E_27463B_4C3A55_275F4B_274570_243F3C_223A5B_223A5A_223A5C_223A68),
  (0x6749, 0x214379_223A71_223A6D_223A66_223A5D_214373_214378_214375_214372_223A65_223A6E_243F3E),
  (0x6755, 0x223A61_214376_223A58_223A64_223A67_223A6F_243F39_214374_223A60_214371_214377_223A5F),
  (0x6761, 0x223A6C_223A5E_223A6B_4C3B60_27314C_223A70_223A59_27452A_283F5C_223B32_223B36_223A7D),
  (0x676D, 0x21437B_2D4424_214425_21437A_214426_223B30_214427_223B40_214429_223B23_214422_223B3D),
  (0x6779, 0x223B45_223B46_223B21_223A78_223A79_21442D_21442C_223A74_223B3C_223B3A_243F51_223B3E),
  (0x6785, 0x223A7C_243F4C_214421_243F45_21437E_223B43_21437C_223B49_223B48_223A7E_223B2E_21442B),
  (0x6791, 0x223B25_223B22_223A75_223B47_21437D_223B41_214424_223B31_223B26_21442A_243F53_214428),
  (0x679D, 0x214423_27454F_223A7A_223B3B_223B3F_274549_223B33_223B28_284340_4C4345_283D30_283D6E),
  (0x67AA, 0x274540_27452F_223B39_274468_223B79_214433_223B5F_223B7D_223B7E_223B77_21443B_223B72),
  (0x67B6, 0x214438_223B64_21443F_223C21_243F59_223B5C_243F5E),
  (0x67BE, 0x243F56_223B5A_223B66_223B4B_223C23_223C2B_214432_223B58_223B50_243F6E_223B51_223B38),
  (0x67CA, 0x223C26_243F6F_223B54_223B76_223C28_214440_214434_214435_212F47_21442E_214431_223B52),
  (0x67D6, 0x223B6A_4B442D_223B63_223B70_21443C_223B71_223B59_223C2D_21443E_223B74_274563_243F58),
  (0x67E2, 0x223C29_223C24_223B6F_21443A_223B6E_223C2F_243F5C_214437_223C2C_223B55_214439_223B68),
  (0x67EE, 0x223B7C_214436_223B56_21442F_223C2A_214441_214450_21443D_223B7A_223B75_223B61_223B44),
  (0x67FA, 0x243F64_3F443A_223B4C),
  (0x67FE, 0x223B5B_214430_274469_334441_223B6D_223B60_4B4537),
  (0x6806, 0x223B78_274547_274476_27456C_284339_274471_284345_223C22_284333_27456E_223B4E_274555),
  (0x6812, 0x223C59_214456_223C36_223C3C_223C3F_214449_223C57_223C5B_223C33_244025_223C3E_223C5A),
  (0x681E, 0x223C38_223C35_223C64_214443_223C46_223C5D_243F77_243F79_243F7C_223C4E_223C34_21444C),
  (0x682A, 0x214453_223C47_244030_223C48_223C39_223C49_223C5F_223C40_223C41_223C3B_223C58_223C42),
  (0x6836, 0x244028_223C32_214444_21444E_223C53_223C43_214455_21444A_223C31_244032_214452_223C61),
  (0x6842, 0x214447_214451_223C4F_214454_214446_244034_214442_223C30_223C60_223C37_21444F_223C4A),
  (0x684E, 0x223C44_243F7E_21444D_21444B_2D444B_214445_214448_223C5C_223C5E_223D2A),
  (0x6859, 0x4C3A5B_223C65_223C50_4B456F_223C55_223C56_4B4476_283D70_284140_27452B_27455F_284027),
  (0x6865, 0x27455B_274557_274562_27454C_274546),
  (0x686B, 0x223C68_223C69_223D25_223D26_223D34_223D4E_223D2D_223D21_244049_223D3B_223D3C_21445A),
  (0x6877, 0x223D3F_244048_223C6B_2D4441_223D43_223D4A_223D3D_223C72_214461_223C79_214457_223C76),
  (0x6883, 0x21446A_223C7B_214466_214465_223C73_223C6D_223D38_244041_223D32_223D4C_24404C_223D44),
  (0x688F, 0x223D40_223C7A_223D47_223D48_214458_214469_223D24_223D2F_21445D_223D30_223D35_244050),
  (0x689B, 0x223C71_223D22_214463_24403E_214468_223D33_223C66_214460_223D39_223D3A_223C6C_223C7E),
  (0x68A7, 0x21445C_214467_223D2E_223C77_223C70_223D31_214464_223C75_214459_21445B_214462_223C6E),
  (0x68B3, 0x21445F_223D4B_21445E_223C74_244046_223D42_223D45_244040),
  (0x68BC, 0x284257_223C7C),
  (0x68BF, 0x284055_274561),
  (0x68C2, 0x284350_223E40_21446D_223E3A_223E49_223E4B_223D67_214522_223D74_214472_24407A_214479),
  (0x68CE, 0x223E2E_24406B_223E38_223E37_21446F_223D58_223E46_21446B_223D6E_21447A_21447B_223E3D),
  (0x68DA, 0x21447E_223D5A_223D60_223E26_223E2A_214471_214477_223E33_24406E_214470_223D75_24407E),
  (0x68E6, 0x223E36_214476_223E3E_223E2F_223D64_223D6F_223D62_244051_214473_223E47_223E3F_223D73),
  (0x68F2, 0x21446E_223D7B_223E22_214478_223D7A_223D6C_223D6B_21447D_21446C_223E2D_223D79_223D78),
  (0x68FE, 0x223D77_244079_223D52_223D55_223D3E_223E28_223D59_214475_223E3B_223E21_223E39_223D5C),
  (0x690A, 0x223D5B_223D56_223D53_214474_214521_223D70_223D6A_223E44_21447C_223D7C_223E4C_223E4A),
  (0x6916, 0x24412F_223D51_334527_223E24_223E23_223E2B_2D4561),
  (0x691E, 0x244066_27456B_284056_695C31_4C3F7A_695C30_284366_24412C_695B7B_7F6927_695C2D_223D5D),
  (0x692A, 0x223D63_284158_223D50_274553_24412A_223F2A_214524_223F33_223E66_223E7E_223F3A_223E62),
  (0x6936, 0x223F2B_223E73_223E55_223E6E),
  (0x693B, 0x223E6F_223F3F_223F32_223E59_223E60_223F3C_244130_223E72_223E63_223F3D_223E64_24413E),
  (0x6947, 0x223E27_223E6B_223F26_21452A_223E68_223E56_2D4369_223E7B_223E75_223F22_223E5E_223F21),
  (0x6953, 0x21452F_214523_244139_223C6F_223E5F_223E5D_223E5C_214527_223F25_244143_223E65_21452C),
  (0x695F, 0x223E54_214528_2D4530_223E58_223E6A_223F41_223F30_223E51_223F28_21452B_223F3B_223E70),
  (0x696B, 0x214529_223E7A_21452D_223D72_223F3E_223E45_223E61_223E79_223E6D_223E53_214526_223E5A),
  (0x6977, 0x214525_223F35_21452E_223E5B_223F37_27454A_2D454E_244154_223F36_223E7D_695C43_214545),
  (0x6983, 0x225D70_274571_2E3F76_214530_284337_27456A_284359_223F44),
  (0x698D, 0x223F59_223F6A_223F53_223F58_223F5A_24416E_223F54_214534_214532_223F5B_223F6B_224031),
  (0x6999, 0x223F6E_223F4F_214538_214533),
  (0x699E, 0x223F65),
  (0x69A0, 0x223F45_223F57_223F55_22402D_22402E_223F75_223F69_223F61_214531_244175_223F5C_21453C),
  (0x69AC, 0x223F5E_21453E_214537_223F74_223F5F_223F46_223F76_223F4D_214541_223F24_223F4B_214536),
  (0x69B8, 0x223F70_224037_244223_21453B_223F60_22402B_223F77_224027_223F47_214535_223F62_224038),
  (0x69C4, 0x22402A_223F5D_224025_4C3F68_223F66_223F48_223F51_214539_21453D_214540_223F50_223F4E),
  (0x69D0, 0x21453F_223F78),
  (0x69D3, 0x21453A_224034_223F7E_223F6D_2D455B_2D4544_223F68),
  (0x69DB, 0x274566),
  (0x69DD, 0x695C4F_4C4339_274564_28433A_223F72_224066_244232_224055_22404C_224046_224056_214543),
  (0x69E9, 0x22404D_4B4545_224057_224065_224064_22407C_244251_224123_22405B_224124_21454C_224044),
  (0x69F5, 0x224071_223F7A_22405D_22405C_22416C_224048_224051_224050_214548_224070_22405F_224041),
  (0x6A01, 0x214546_21454E_244237_22404F_21454F_224040_224126_22403F_22406D_21454D_22404B_224075),
  (0x6A0D, 0x22404E_22404A_224076_45456D_22403E_22403D_21454A_224128_224059_224127_224054_22406E),
  (0x6A19, 0x214547_224047_224067_224045_224072_214549_214542_224060_21454B_244259_214544_244256),
  (0x6A25, 0x244250_224121_22407B_22413F_4B4570_4B4556_22405E),
  (0x6A2D, 0x224068_695C53_28422B),
  (0x6A31, 0x27456F_22413B_22413A_22412B_21455C_224153_24426B_214558_214555_214557_224159_22413E),
  (0x6A3D, 0x214550_224145_224158_224133_224165_244265_224139_214554_2D454B_244334_214559_224140),
  (0x6A49, 0x224136_334541_21455B_224157_224155_224161_224135_224141_22414F_224142_22415F_22412E),
  (0x6A55, 0x224150_224151_22415D_214551_214552_22413C_224147_22414B_224144_22414A_21455D_224131),
  (0x6A61, 0x21455A_214553_224129_22416D_4C433F_22412A_224137_224230_244264_224167_214556_244273),
  (0x6A6D, 0x22414E_22416A_224138_2E4034_4B4569_224143),
  (0x6A76, 0x244279_224146_695C71_27456D_224156),
  (0x6A7C, 0x284335_22417E_224236_224222_21455E_224174_224238_22422C_214560_224241_22417B_22424A),
  (0x6A88, 0x22423F_224223_244341_224227_224245_224173_22424B_2D4558_224247_224224_22422A_22424C),
  (0x6A94, 0x21455F_224221_224179_22417D_34417D_224234_224229_224237_214562_224235_224249_224226),
  (0x6AA0, 0x224242_224243_214561_22422B_224178_224177_224225_22423D_224175_2E4174_4C4333_224251),
  (0x6AAC, 0x214568_24436D_224257_224258_224270),
  (0x6AB2, 0x244369_214564_224268_224271_224260_22432C_214563_22424E_224254_214566_22426A_224259),
  (0x6ABE, 0x224253_22425D_22425B_22424F_214567_214565_224273_22424D_22426F_22425F_224255_2D4569),
  (0x6ACA, 0x224264_224332_224325_224334_224278_24437B_224329_224328_244427_21456D_224326_224322),
  (0x6AD6, 0x24437E_244423_22427D_22432D_21456A_21456C_224324_21456B_224335_224333_224277_22426C),
  (0x6AE2, 0x22432F_244422),
  (0x6AE5, 0x214569_224279_224275_224345_24443E_224340_224327_224337_22427E_22433C_244441_22433B),
  (0x6AF1, 0x224344_224342_224339_22433E_224348_244435),
  (0x6AF8, 0x224359_224347_224350_21456F_224356_22434E_224357_244444_22435A_224352_224353_224358),
  (0x6B04, 0x21456E_4C4359_24445E_22435B_224331_224360_214570_22435E_7F6B0C_22435F_224361_224366),
  (0x6B10, 0x224364_224367_224363_224368_22435C_224365_214571_22436E_22436C_22436D_224370_22436B),
  (0x6B1C, 0x244476_224371_224372_695D36_212C70_214573_274621_214574_27457E_224374_224376_27457C),
  (0x6B28, 0x22437C_24453A_22437A_24454D_22437E_224423_22437D_224421_224424_224425_214575_24455A),
  (0x6B34, 0x244544_22442A_224428_22442C_22442B_224432_214577_22442D_224431_214578_214576_224435),
  (0x6B40, 0x22443A_224438_22443B_22443C_244575_224439_224437_214579_22443E_21457A_22443F_224443),
  (0x6B4C, 0x21457B_224441_224446_224445_21457C_224447_24462B_4B4621_22444C_22444E_22444B_22444A),
  (0x6B59, 0x21457D),
  (0x6B5B, 0x224452_224451_224450_224453_21457E_224454_214621_212C71_214623_214624_214625_214627),
  (0x6B67, 0x214626_22445A_3F4625_214628_22445B_22445D_22445C_22445F_336321_224462_224461_214629),
  (0x6B74, 0x454349_24466C_246F24_21462A_21462B_212C72_276074_21462D_274638_24472B_22446B_21462E),
  (0x6B80, 0x22446C_4B462E_224471_21462F_224473_244736_214630_274635_224476_214632_214631_274633),
  (0x6B8C, 0x24474C_224479_24474A_24474D_224478_224477_28452F_274636_22447D_22447B_214634_224523),
  (0x6B98, 0x214633_224525_284539_224529_224528_24476E_22452F_224530_224532_274637_224536_224535),
  (0x6BA4, 0x214635_224533_244778_24477A_22453A_244823_224538_224539_244826_22453B_214636_214637),
  (0x6BB0, 0x22453D_4B4638_214638_212C73_274640_214639_24483B_21463A_24483F_224544_21463B_33463C),
  (0x6BBC, 0x21463C_224547_244844_21463E_21463D_63463D_275B52_22454B_22454C_21463F_214640_224553),
  (0x6BC8, 0x224554_224557_224558_212C74_224559_214642_3F4643_214643_22455A_244867_214644_214645),
  (0x6BD4, 0x212C75_274C33_22455B_214647_22455C_274257_224560_212C76_224562_224563_244923_224565),
  (0x6BE0, 0x24492A_22456A_22456D_22456C_24493F_244941_22456E_22456F_224571_22456B_224570_214649),
  (0x6BEC, 0x224578_224577),
  (0x6BEF, 0x21464A_22457E_22462B_224626_22462C_224627_224629_22462A_224634_224633_224638_224637),
  (0x6BFB, 0x224631_224636_21464B_22463B_224642_224641_24497C_224640_224646_224648_22464A_224644),
  (0x6C07, 0x284651_22464C_22464E_2E464C_22464F_224651_224652_404653_212C77_21464E_21464D_244A3E),
  (0x6C13, 0x21464F_212C78_224659_214650_4B4655_22465A_22465B_22465C_214651_22465D_22465E_22465F),
  (0x6C1F, 0x214652_224660_224662_274658_214655_214657_224663_214654_214653_214656_284668_224664),
  (0x6C2B, 0x214658_224668_224666_214659_21465B_224667_22466B_4B465A_21465A_212C79_244A49_22466F),
  (0x6C37, 0x22466E_21465D_21643F_244A4C_224670_224677_224679_21465F_224674_214660_21465E_214661),
  (0x6C43, 0x224675),
  (0x6C45, 0x224671_224678_273451),
  (0x6C49, 0x224672_22467C_22472B_22472E_224727_22472A_224722_214668_244A57_22467A_224721_22472C),
  (0x6C55, 0x214667_224729_214663_244A56_214665_2D4665_224726_224724_214669_214662_214664_214666),
  (0x6C61, 0x244A54_22467B_22472D_27482D_224742_224758_224739_214673_22474A_21466E_224737_224738),
  (0x6C6D, 0x22474C_224752_224747_214672_244A5D_214671_22475D_224731_244A67_224733_244A58_224730),
  (0x6C79, 0x224750_21466D_244A64_244A65_214679_214678_224735_244A6D_21466B_22475A_21467B_22473B),
  (0x6C85, 0x21466C_224732_224751_214675_214676_22474E_224746_21466F_224744_224759_224740_214670),
  (0x6C91, 0x224741_21467A_22474D_22473E_224756_214674_22475E_22474F_214677_22474B_21466A_224753),
  (0x6C9D, 0x224749_244A5E_244A66_22475C_33467A_22473A_284F5D_284C41_27493B_274777_274848_284B42),
  (0x6CA9, 0x284D58_22472F_214725_224767_22476E_21472D_224770_224771_21467C_224825_214728_224833),
  (0x6CB5, 0x244B26_224768_224776_214723_21472E_22477A_214734_21472C_214727_214731_214737_224764),
  (0x6CC1, 0x214730_22477D_224827_214729_214732_224826_224773_22482A_21473A_214738_244A76_214739),
  (0x6CCD, 0x224774_224828_224822_224765_224830_224832_214724_22476B_21472A_22482E_214733_224824),
  (0x6CD9, 0x22476F_22485C_214735_22482C_224831_244A71_224769_22482F_214736_21472B_214721_224823),
  (0x6CE5, 0x214726_244A73_22476C_21467D_224829_224777_224762_224761_22482B_224763_224766_214722),
  (0x6CF1, 0x21472F_22482D_21467E_244B2E_224772_284E3E_284F26_284F39_224778_284F22_274932_27486C),
  (0x6CFD, 0x274921_27474E_224841_22486C_224840_224839_22484C_22485B_224847_224922_22485A_224866),
  (0x6D09, 0x22486E_224850_21473C_214741_244B4E_224867_22484F_224870_22486B_22484A_224849_22483F),
  (0x6D15, 0x244B44_244B5F_214743_244B33_224864_224868_214745_2D4745_224837_214742_224843_22485F),
  (0x6D21, 0x244B3F_224869_22483E_22486D_21473E_22484D_22484E_22483B_224857_214740_22486A_224859),
  (0x6D2D, 0x224846_224860_224871_22473D_21473F_21473D_22486F_22483C_224861_214746_244B35_224854),
  (0x6D39, 0x224844_224862_214744_224845_214747_214748_224851_224856_21473B_22483D_284934_33476F),
  (0x6D45, 0x274768_274863_274871_284B28_284C23_224858_274830),
  (0x6D4D, 0x284E42_274926_274937_284C32_274833_284C2E_27487C_284D2B_284E4C_224944_244B53_22487E),
  (0x6D59, 0x21474D_214755_224957_224950_224933_22493E_224951_224946_224928_224923_224873_224874),
  (0x6D65, 0x22493C_21474C_224940_244B49_214756_214749_244B4B_214750_224925_214753_224926_22494C),
  (0x6D71, 0x224931_22494E_244B52_214754_224949_224876_214757_21474B_224934_224879_224942_22494B),
  (0x6D7D, 0x224945_22492A_224939_22493A_22492C_224952_22493F_22493D_22493B_224938_21474E_21474F),
  (0x6D89, 0x214752_22492E_244B4A_22487C_224927_214775_244B6B_22494D_224929_22487D_214751_224943),
  (0x6D95, 0x21474A_22494F_22487B_224948_4B4759),
  (0x6D9B, 0x27492D),
  (0x6D9D, 0x284D27_284971_274859_284D49_274831_284B6C_4B4835_224A3D_224877_27486D_27486E_274855),
  (0x6DA9, 0x27492E_22495C_224959_22496A_244C3E_214760_214766_224977_224A23_21475D_22495B_22495A),
  (0x6DB5, 0x214767_224A3A_22496B_21476C_224A3C_224967_224A48_21475B_224A45_224A30_22497B_224958),
  (0x6DC1, 0x22495D_224A22_244B75_214778_214764_214776_214762_224968_224A25_224A40_214763_21476A),
  (0x6DCD, 0x224A29_224969_224A24_224A27_21476D_21475F_224A2D_224976_22496D_224A2B_224A34_214771),
  (0x6DD9, 0x214758_214759_224A39_224A36_224A35_214765_224A2A_224A28_21475E_22496C_224A41_21475C),
  (0x6DE5, 0x224A37_224A4A_244B71_21476F_22496E_214777_214770_224960_244C36_214773_224935_224A46),
  (0x6DF1, 0x21476E_224A2C_21475A_224A3F_214774_224971_21476B_4B4761_214769_214768_214772_224A32),
  (0x6DFD, 0x224A2E_224A47_224A42_224978_224A31_224A21_224B2F_244C37_214761_224961_2D482F_3F4926),
  (0x6E0A, 0x274774_4B492E_4C4C35_274854_274933_224979_27485A_284E30_224A44_4B484A_274865_224962),
  (0x6E16, 0x4B4931_274864_244C56_214835_214822_214829_224A78_214836_244C4C_224A4C_21477E_21477A),
  (0x6E22, 0x224B42_214827_214828_21482A_214831_224A50_224B22_2D4845_224B40_224A6E_214830_21482E),
  (0x6E2E, 0x224B2E_214824_224B33_224B26_21477C_224A63_21482F_244C6C_224B30_244C48_21477B_224B36),
  (0x6E3A, 0x21482C_224A7D_224A58_224A67_214833_244C52_224A7A_224A68_244C68_214834_224A6B_224A64),
  (0x6E46, 0x224A4E_224A4F_244C5B_224A55_21482B_224A62_224B41_214832_224A77_224A74_224A70_224A6A),
  (0x6E52, 0x224A7E_224B34_214779_224A5C_214823_224A61_214826_224A53_224C2D_214821_224B24_224B31),
  (0x6E5E, 0x224B28_224B3D_224B2A_224B21_224A66_224A6D_224A54_224A56_224B25_21477D_224B23_224B38),
  (0x6E6A, 0x244C74_224B39_224B3A_244C72_214825_21482D_224B7B_224B37_224B32_224A71_224963_244C4B),
  (0x6E76, 0x224B3E_224A5E_224A4D_224A75_244C7C_224A4B_224B3C_2D4778_274943_274844_4B4858),
  (0x6E82, 0x695E63_274878_224B2C_274934_224B35_284C5A_224A57_214866_224A60_224B3B),
  (0x6E8D, 0x224A79_224B5E_224B4A_214841_224B78_224B59_224B4D_224B4E_244D26_21484B_244D51_214840),
  (0x6E99, 0x224A5F_224B72_224B45_21484C_21483D_224B64_224B46_224B4F_224B67_21483C_224C28_224B75),
  (0x6EA5, 0x21483F_224B76_224B5A_224B57_244D52_21484A_214845),
  (0x6EAD, 0x224B6B_224C23_21483B_224B6E_224B51_224C26_224B6C_224C24_224C29_214838_224B6D_224B52),
  (0x6EB9, 0x224B70_21483E_224B69_214844_224B61_224C25_224B68_224B4B_224B63_214839_224C21_214848),
  (0x6EC5, 0x214842_224B56_214843_224B48_224B6A_224B7C_214847_214867_224B6F_224B43_224B79_224B7A),
  (0x6ED1, 0x214846_224B55_214837_214849_224B7D_244D2C_244D4A_224B49_224B60_2D4850_2D4770_244D59),
  (0x6EDD, 0x4C4F26_27485F_285029_284F61_274858_284E66_224B62_274936_27492B_274944),
  (0x6EE8, 0x274928_274942_284D79_224C77_21484F_224C59_224C61_21485F_224C31_224C37_214864_244D5D),
  (0x6EF4, 0x21484E_224C3B_224C42_224C63_224C2E_224C60_224C76_224C32_224C4A_224C34_214850_214858),
  (0x6F00, 0x224C44_214865_21485D_224C38_244D76_224C7D_21485E_244E23_224C78_224C35_224C5A_224D44),
  (0x6F0C, 0x244D6D_224C5D_224C79_214856_244E30_4B4866_224C3E_21483A_214852_21485B_244D69_224C75),
  (0x6F18, 0x224C51_224C43_224C41_244D62_244D6E_244D70_224C71_224C57_214862_224C72_214857_214859),
  (0x6F24, 0x224C4B_224C39_224C3F_224C52_224C7E_214851_214868_214860_214854_224C65_224C33_214861),
  (0x6F30, 0x224C6D_21485C_214855_21484D_224C67_224C7B_224C5E_224C30_21485A_224C47_224C50_224C3C),
  (0x6F3C, 0x224C6E_224C40_214853_214863_224C69_224C62),
  (0x6F43, 0x244E26_2D485C_4B4940_244E50_27493D_224C6A_224C6B_224C7A_284E41_224C3A_284E62_224C58),
  (0x6F4F, 0x224D2C_224D61_21486C_224D5C_224D32_21486F_224D5A_224D33_224D62_214879_2E4A57_224D2F),
  (0x6F5B, 0x214874_224D31_224D68_224E2E_224D63_224D30_224D29_224D3D_224C3D_21486D_244E47_214877),
  (0x6F67, 0x224D26),
  (0x6F69, 0x224D4E_224D5B_224D22_224D4B_214873_214875_224D2B_214878_244E40_224D5F_244D6A_224D65),
  (0x6F75, 0x224D3E_244E4D_224D59_214876_224D3F_214870_224D5E_214869_224D21_224D23_224D49_21492E),
  (0x6F81, 0x224D4F_224D54_244E65_21486B_244E41_214871_224D27_21486A_224D3A_244E39_224D4D_224D3C),
  (0x6F8D, 0x224D37_214872_224D4C_224D35_4B484C_224D39_224D69_224D64_224C64_224D2E_21486E_224D40),
  (0x6F99, 0x4C4D63_224C73),
  (0x6F9C, 0x27493F_224D24_224E39_224D74_224E30_21487E_224E2A_224E22_214921_224E40_224D79_21487D),
  (0x6FA8, 0x224E3C_224E3E_224E21_224E33_224D6E_224D76_224E42_224E37_224E41_21487B_224E38_214925),
  (0x6FB4, 0x224E35),
  (0x6FB6, 0x224D73),
  (0x6FB8, 0x244E74_214923_224D6F_224D6D_224D7D_224E29_224D78_224E25_214924_214922_21487A_21487C),
  (0x6FC4, 0x224E31_224D6A_224D36_224E26_224E2F_224E2D_224E32_224E24_244F26_224D51_224E2C_224D7A),
  (0x6FD0, 0x244E4C_27493A_27493C_224D70_224E50_224E54_244E7C_244F3F_214927_224E43_224E44_214930),
  (0x6FDC, 0x224E4C_244F37_224E5D_214926_214929_21492C_224E49_224E4F_21492D_224E5F_224E5A_224E59),
  (0x6FE8, 0x224E58_224E56_224E4D_21492B_21492F_244F3C_224E5E_21492A_224E62_214928_224E4E_4B4874),
  (0x6FF4, 0x224E45_334928_224E52_224E46_224E57_263A21_214934_244F5A_224F22),
  (0x6FFE, 0x214936_224E73_224E71_224E65_224E7D_224E75_224E3B_224E66_214933_224E68_224E6B_214932),
  (0x700A, 0x224E7E_214931_224E67_224E6A_224E7A_214937_224E6D_214935),
  (0x7013, 0x244F65_224E6C_21493C_224F30_224F25_224F39_224F23_214939_214938_224F32_21493B_224F2B),
  (0x701F, 0x21493D_224F24_224F35_224F37_224F3A_224F28_224F29_224E72_224F26_21493A_244F7C_245022),
  (0x702B, 0x224F2E_2D493A_224F31_224F2F_224F43_21493E_224F4E_245034_224F4D_224F51_224F44_224F45),
  (0x7037, 0x224F4B_224F59_224F53_224F54_224F48_224F41_224F42_21493F_224F56_224F4A_245026_224F57),
  (0x7043, 0x224F5D_224F61_224F65_224F6F_224F67_224F62_224F69_224F5F_224F5C_214940_224F50_225026),
  (0x704F, 0x284F7D_7F7050_214941_224F71_224F6D),
  (0x7055, 0x224F6B_224F6C_245049_214942_224F78_224F79_224F76_224F73_224F7D_224F7B_224F7A_225023),
  (0x7061, 0x224F7C_24505B_214943_214944_225027_225025_225029_225028_22502F_225030_212C7A_245067),
  (0x706D, 0x274842_225035_225031_214946_225032),
  (0x7073, 0x216C6C_225039_225038_214947_22503C_214949_245070_22503B),
  (0x707C, 0x214948_21494A_225037_22503E_27496F_22504A_24507C_225058_225049_22504D_225042_225055),
  (0x7088, 0x225056_225041_21494F_245074_225059_24507A_21494C_225044_24507D_22504B_21494D_225040),
  (0x7094, 0x225046_21494B_225048_333272_225057_21494E_22504E),
  (0x709C, 0x285252_28533C),
  (0x709F, 0x225065_225067_225062_245128_225063_225064_225061),
  (0x70A7, 0x22506F_22505E_225073_22506B_214950_214952_214955_214956_214954_22506E_22506C_22506D),
  (0x70B3, 0x214953_225069_225071_22506A_22505C_214957_27626A_214951_24512D_27496A_274A21_245133),
  (0x70BF, 0x225072_24513B_274A36_274A38_285150_225074_225137_22513D_22513B_21495B_245149_214958),
  (0x70CB, 0x225138_225139_225135_22507A_21495D_22513A_22512E_24513E_22507D_22512B_225129_225121),
  (0x70D7, 0x225075_21495A_21495C_22513C_245146_22507C_225122_225125_22512C_225128_225123_225076),
  (0x70E3, 0x225126_214959_22507B_27496D_274A26_285424_274A33_225078_27497E_28544F_27497D_225127),
  (0x70EF, 0x225167_22515A_225158_22514F_225148_225150_225157_225160_225142_22515E_21495E_22513F),
  (0x70FB, 0x225164_225151_214961_217627_225152_225168_245161_225165_22514C_225144_22515F_225154),
  (0x7107, 0x245160_245168_21495F_214960_225159_22515C_225141_245153_33305A_22514A_225155_225156),
  (0x7113, 0x225166),
  (0x7115, 0x4B4973_274A25_225145_345452_214962_214964_225229_22522E_245224_22516C_225221_22516E),
  (0x7121, 0x214966_24516D_245170_24516B_24516C_214968_24517C_24517A_22523B_22516A_225237_225233),
  (0x712D, 0x225175_225243_225235_214967_225174_225170_22523D_22516D_225228_214965_22523F_24517B),
  (0x7139, 0x225227_22522F_22522C_2D4A26_225232),
  (0x713F, 0x22516F),
  (0x7141, 0x225256_245231_22525C_225270_225275_225251_225262_22523C_21496A_22524A_225260_214974),
  (0x714D, 0x245241_214969_225254_225269_2D4963_225252_22526B_22524D),
  (0x7156, 0x22526D_22525B_225258_21496B_22525D_246778_21496E_225255_214972_225267_225257_225250),
  (0x7162, 0x22524E_22524F_21496C_214973_214970_214971_225265_21496D_22524B_22524C_21496F_24517D),
  (0x716E, 0x214963_245230_225263_225266_225276_22525A),
  (0x7175, 0x225259_22525E_225248_225278_225326_4C523A_22527C_225336_214975_245260_24524F_22532B),
  (0x7181, 0x245253_225334_225324_214979_225332_225329_22527B_4B4977_22532C_214978_245267_24525B),
  (0x718D, 0x245247_245265_225335_24524E_22527E_225323_245266_214976_695F70_225333_22533C_225339),
  (0x7199, 0x214977_225355_22534A_225361_225341_225346_21497A_225352_225356_22535E_22535A_225351),
  (0x71A5, 0x225342_225353_225363_21497B_22533F_22535F),
  (0x71AC, 0x21497C_225343_225442_22534E_22534C_21497D_225347_225357_225359_22533E_24532C_22536A),
  (0x71B8, 0x22537C_214A27_225372_22542D_225423_225371_214A21_22537A_225422_225424_225375_214A2A),
  (0x71C4, 0x214A2B_225377_225428_225369_214A24_214A22_22536D_225429_245325_245328_214A29_22536F),
  (0x71D0, 0x214A23_225367_214A26_22537D_225426_214A28_225370_245324_225344_21497E_22536C_245329),
  (0x71DC, 0x214A25_225421_22542A_214A2E_225447_22543F_225446),
  (0x71E4, 0x225441_214A2F_214A31_214A2D_225436_225445_24534B_225432_214A32_214A30_214A2C_22543B),
  (0x71F0, 0x245350_22542F_245347_22543D_214A33_22543A_22543E_24533C_225454_225456_22544A_214A34),
  (0x71FC, 0x22544F_225452_225451_225455_225453_225450_225465_22544D_245367_22545F_214A35_225461),
  (0x7208, 0x24536A_24536C_22545E_225471_22544B_214A36_22545B_22546B_214A37_225470_24537D_225469),
  (0x7214, 0x225468_225466_225467_225460_22546E_225474_225479_214A38_22547E_225521_22547C_22547D),
  (0x7222, 0x225524_225527_245431_225529_22552A_245437_214A39_22552B_212C7B),
  (0x722C, 0x214A3C_214A3B_225538_225536_214A3D_273E77_2D4951),
  (0x7235, 0x214A3E_212C7C_274A42_214A40_214A41_214A42_212C7D_225540_214A44_214A45_212C7E_225542),
  (0x7241, 0x225543_225544),
  (0x7244, 0x225547_245473_214A46_212D21_214A48_225549_245527_22554C_214A49_274A4C_245542_225550),
  (0x7250, 0x22554F_22554D_214A4A_225552_245544_225553_214A4B),
  (0x7258, 0x214A4C_212D22_225556_212D23_2D4A4E_214A50_225557_214A4F_214A53_214A52_214A51_225559),
  (0x7264, 0x225558_22555A_22555E_214A54_22555B_214A55_22555D_24556D_24557D_225560_225563_214A56),
  (0x7270, 0x24562A_245622_214A57_225561_214A58_274A5A_225566_225568_225564_214A59_245635_22556C),
  (0x727C, 0x22556D_214A5A_22556B_225571_214A5C_214A5B_225572_225577_214A5D_22557B_225578_22557D),
  (0x7288, 0x225575_225574_274A61_22557C_225625_225622_225624_225628_245666_225626_214A5F_225633),
  (0x7294, 0x225630_245671_214A5E_225629_225636_22563C_22563A_214A60_245732_22563E_24573D_225638),
  (0x72A0, 0x4B4A62_225640_214A61_225646_225644_225642_225643_214A62_225648_225649_22564B_22564C),
  (0x72AC, 0x212D24),
  (0x72AE, 0x22564D_214A64_22564E_245767_225650_245768_22564F_225652_274A68_274B2A_28575E_225659),
  (0x72BA, 0x225654_22565F_225656_225657_245773_225653_214A68_22565B_214A66_225658_214A65_22565C),
  (0x72C6, 0x225651_245772_274A72_225667_22566B_225663_22566C_22566F_214A69_22566D_214A6B_225671),
  (0x72D2, 0x225664_225668_24582E_225670_225660_214A6A_225666_214A67_22566A_22566E_225665_28582D),
  (0x72DE, 0x274B28_225675_214A6E_214A6C_22567C_22567B_225674_225679_225678_22567A_225673_214A6D),
  (0x72EA, 0x225677_225676_274B27_274A70_274B23_274B22_4B4A78_274A7E_28575F_22572E_225724_24585E),
  (0x72F6, 0x22572F_214A73_214A71_214A70_22567E_22572C_214A6F_214A72_225725_225741_22567D_22572D),
  (0x7302, 0x225729_28582B_245873_24587B_22573D_22573B_225740_245878_22573F_225735_225737_225727),
  (0x730E, 0x225733_245926),
  (0x7311, 0x225738_22573A_214A76_225732_285836_214A77_225736_22573E_214A78_22573C_214A75_214A74),
  (0x731D, 0x225731_225742_4B4B2C),
  (0x7321, 0x274B2F_22574A_225754_225756_214A7C_24593F_22574E_225755_214A7B_225748_22574F_22574D),
  (0x732D, 0x225763_22574B_225752_225747_225746_22574C_24592F_214A7D_225758_214A79_214A7A_225749),
  (0x7339, 0x70622A_225762_22575F_22575D_245944_214B22_214B21_225765_22575E_225760_225761_214A7E),
  (0x7345, 0x214B23_225766_22575A_22575B_22575C_225767_225821_22576C_225768_214B25_22576D_214B24),
  (0x7351, 0x22576A_22576B_24596A_24597A_22576F_225776_214B26_22577B_245971_245A26_245A34_225771),
  (0x735D, 0x225774_225772_225775_225779_225770_22577E_4B4B2B),
  (0x7365, 0x22577C_225823_225825_214B27_225827_22582A_22582B_225829_274B2D_22582D_22582F_214B28),
  (0x7371, 0x22582C_214B29_22582E_245A50_214B2C_225833_214B2A_214B2B_225835_214B2D_214B2E_225836),
  (0x737D, 0x225830_225838_225839_214B2F_22583B_22583C_22583A_212D26_22583D_22583E_214B31_22583F),
  (0x7389, 0x212D27_225840_214B33_225841_216437_225842_225843_245A74_274B64_225847_22584C_22584D),
  (0x7395, 0x225846_212F49_225848_225849_285C28_285A4F_274B5E_225864_22585E_225851_214B35_225863),
  (0x73A1, 0x225855_225862_22585B_22584E_22585D_225852_245B2B_214B36_214B37_245B29_214B38_225859),
  (0x73AD, 0x225853_285A47_274B67_274B47_285A79_214B3E_214B3D_22586D_22586C_225867_214B3B_225878),
  (0x73B9, 0x225866_274B69_214B39_225935_22587B_225874_22586F_214B3C),
  (0x73C2, 0x22586A_225872_245B3B_225875_225876_225871_225870_225869_214B3A_245B3D_22587D_214B3F),
  (0x73CE, 0x225879_225868_22586B_274B6B_225925_225921_22592F_22592D_225932_245B47_22593B_22592A),
  (0x73DA, 0x225934_225930_225923_225924_22593A_245B46_214B42_334B4D_225926_225938_225937_225928),
  (0x73E6, 0x22593C_225936_22593E_22593F_225927_225865_225931_214B40_214B41_22592B_285B67_4C5C3A),
  (0x73F2, 0x274B57),
  (0x73F4, 0x22595D_225954_225945_225970_22594A_245B43_225947_245B57_225951_22595A_214B47_225952),
  (0x7400, 0x22595F_225959_225940_214B45_225953_214B43_214B48_22595C_225957_214B44_214B46_225960),
  (0x740C, 0x225956_214B49_285B5D_285B21_274B5F_245B54_22595E_225942_225969_225A30_225978_225964),
  (0x7418, 0x245B6A_225973_225971_225A2A_22597B_22597E),
  (0x741F, 0x225A2F_225A28_225A26_214B50_225962_225A2B_214B51_22597A_225974_225A21_225A23_214B4E),
  (0x742B, 0x22596E_22596A_225A2D_225966_225967_22596C_225A27_225A2C_214B4F_214B4D_214B4B_214B4C),
  (0x7437, 0x22596B_245B66_223D66_214B4A_225A32_225963),
  (0x743E, 0x225A51_214B57_225A5D_214B56_225A45_225A3F_225A36_225A4E_225A50_225A40_225A3B_225A3E),
  (0x744A, 0x225A4A_225A47_225A4D_225A57_225A44_225A38_245B75_225A56_225A4F_245B7B_225A5B_214B53),
  (0x7456, 0x225A5C_225A55_225A43_214B5B_214B55_214B58_214B5A_225A5A_214B59_214B54_225A78_245C37),
  (0x7462, 0x225A61_214B5F_214B60_225A72_225A77_225A64_225A6B_214B5D_214B5E_225A75_225A49_225A60),
  (0x746E, 0x225A69_214B52_214B61_225A6A_225A79_225A62_225A68_225A6D_2D4B60_274B68),
  (0x7479, 0x225B35_225B30_225B32_225B22_225B3E_225B28_225B2C_225B38_225B3C_225B27_214B5C_225A7A),
  (0x7485, 0x225B3F_225B2D_225A7B_225A7E_225B21_225B2A_214B62_225A7C_225B56_285C3A_225B70_225B6A),
  (0x7491, 0x225B5B_225B46_245C41_245C4C_225B47),
  (0x7497, 0x225B40_225B43_225B53_225B45_225B48_214B63_225B55_225B57_225B54_225B59_225B5D_2E5A78),
  (0x74A3, 0x214B64_225B4D_225B6C_214B68_214B65_225B6E_214B66_225B69_225B67_225B5E_225B68_245C5D),
  (0x74AF, 0x225B73_214B67_225B61_225B60_245C64_225B66_225C28_225B78_245C70_225B76_225B79_225C29),
  (0x74BB, 0x225B7C_245C67_214B69_225B75_225C25_225B7A_225C26_245C68_225C2D_225C2A_225C31_245C71),
  (0x74C7, 0x225C2C_225C30_225C2B_214B6A_245C6D_225C32_245C77_225C34_214B6B_245C79_245C78_285C40),
  (0x74D3, 0x225C3B_225C3A_225C39_225C38_225C3C_225C3D_245D21_225C40_225C41_212D28_225C44_225C47),
  (0x74DF, 0x225C46_214B6D_245D3C_214B6E_214B6F_225C50_245D4D_212D29_225C52_245D51_225C54_225C5B),
  (0x74EB, 0x245D5A_225C55_225C57_225C5C_274B74_225C5A_225C58_696126_225C5D_225C61_225C5E_214B71),
  (0x74F7, 0x214B72_225C63_225C65_245D76_225C66),
  (0x74FD, 0x225C6D_225C6F_225C67_225C6E_334B71_225C78_225C77_214B73_225C71_225C7E_225C7D_225D21),
  (0x7509, 0x225C7B_225D27_225D22_214B74_225D28_225D25_225D2D_225D2B_225D2C_225D32_225D33_225D34),
  (0x7515, 0x214B75_225D36_225D39_212D2A_705F30_214B77_245E56_214B78_225D3D_225D3C_212D2B),
  (0x7521, 0x225D42_214B7A_454B7A_225D44_214B7C_214B7B_245E64_212D2C_214B7E_225D47_214C22_214C21),
  (0x752D, 0x214C23_216C72_225D49_212D2D_214C26_212E50_212E68_245E70_275F55_225D4A_214C28_214C29),
  (0x7539, 0x225D4B_225D4D_245E72_696136_214C2A_225D52_225D4F_225D51),
  (0x7542, 0x3F4C2D_245E78_274C31_274343_394C2D_225D58_225D5A_245E7D_225D55_225D59_214C2C_334C2C),
  (0x754E, 0x225D57_214C2B_225D56_225068),
  (0x7553, 0x22477B_214C2F_225D5D_245F39),
  (0x7558, 0x245F32_214C31_214C30_225D60_214C2E_214C2D),
  (0x755F, 0x225D5F_245F35_225D61_214C33_225D67_225D62_214C35_214C32_225D66_394C37_69613E_214C37),
  (0x756B, 0x214C36_225D6B_345D6B_225D6A_225D69_214C34_225D75_285D6B_4B4C3C_274C3B_4B4C36_214C39),
  (0x7577, 0x225D71_214C38_225D6D_225D6E_245F59_225D78_225D79_225D7C_225D7E_245F67_225E22),
  (0x7583, 0x225E25_225E26_245F71_214C3A_214C3B_225E29),
  (0x758A, 0x214C3C_212D2E_225E2A),
  (0x758E, 0x225E2B_214C3E_225E2C_214C3F_212D2F_225E2F_225E2E_225E31_4C6022_274C6E_225E35_214C41),
  (0x759A, 0x214C42_225E34_246035_214C40_225E32_274C61_274C71_274C60_225E37_225E3B_214C43_214C45),
  (0x75A6, 0x225E38_225E40_225E3A_274C58_225E3D_214C44_286032),
  (0x75AE, 0x274C6A_274C63_225E43_225E50_214C49_214C48_225E47_214C50_225E48_225E55_225E4B_214C4D),
  (0x75BA, 0x225E3E_225E4D_214C4C_214C4A_214C4B_225E46_225E52_225E4E_225E4A_225E44_225E51_214C47),
  (0x75C6, 0x225E45_214C46_28603A_274C56_214C51_225E5D_225E5E_225E58_225E56_225E5C_225E5F_225E60),
  (0x75D2, 0x225E57_225E59_214C4F_214C4E_285E7A_225E73_214C54_214C56_225E68_214C52_246125_225E6B),
  (0x75DE, 0x214C55_225E6D_225E72_225E66_214C57_214C53_225E71_225E74_225E67_225E63_274C6D),
  (0x75EA, 0x274C62_4C5F69_246142_225F24_24613F_225E76_214C5A_214C5C_214C5B_246133_214C5D_225F27),
  (0x75F6, 0x225F23_246135_225F26_225F21_214C5F_225F28_225F22_225F25_225E7C_214C5E_214C59_214C58),
  (0x7602, 0x225E7A_225E7E_225E7B_274C4A),
  (0x7607, 0x225F39_225F2C_214C64_225F3C_214C63_225F2E_214C60_225F30_225E78_225F3B_225F31_246154),
  (0x7613, 0x214C62_225F35_225F2D_225F29_285F48_285F5E_225F47_225F3F_225F40_225F4E_225F4C_225F48),
  (0x761F, 0x214C67_214C65_214C6A_225F50_225F4F_214C68_225F3E_214C69_214C61_225F49_214C66_28602B),
  (0x762B, 0x274C78_225F52_225F54_246245_225F51_225F5F_225F5A_225F65_225F5C_214C6B_225F62_225F55),
  (0x7637, 0x225F56_214C6C_225F64_225F53_225F5E_225F60_225F57_274C76_286037_225F58_225F74_214C6E),
  (0x7643, 0x225F6A_225F73_334C68_214C6D_225F69_225F67_225F6F_225F6B_246253_214C6F_225F6E_225F68),
  (0x764F, 0x225F7E_226025_225F7D_214C72_24626B_225F75_225F78_214C70_225F7B_214C71_226024_226021),
  (0x765B, 0x225F77_225F7A_246261_274C75_22602B_226026_226028_214C73_274C77_226022_214C74),
  (0x7667, 0x226032_246323_214C75_226035_274C79_214C77_226037_214C76_226038_22603A_214C78_214C79),
  (0x7673, 0x22603D_246335_22603F_212D30_226041_212E59_226042_334C7B_214C7C_214C7B_212D31_212F3B),
  (0x767F, 0x226045_226048_226046_214D21_226047_214D22_246348_214D24_214D23_214D25_246352_22604D),
  (0x768B, 0x22604A_24634F),
  (0x768E, 0x214D26_22604E_22604F_274D29_226054_214D28_226053_226052_214D27_24635D_226058_226059),
  (0x769A, 0x214D29_226061_22605D_22605F_226060_24636D_226063_2E6060_226064),
  (0x76A4, 0x226065_226066_226067_246374),
  (0x76AA, 0x22606A_226068_22606B_22606D_212D32_22606E_214D2B_274D2D_466074_246440_214D2C_226071),
  (0x76B7, 0x226072_226074_4C6074_214D2D_226076_336275_226077_246472_212D33_24647A),
  (0x76C2, 0x214D2F_214D30_226079_22607B_214D32_2D4D34_214D31_226125_214D33_226123_226126_214D34),
  (0x76CE, 0x214D35_274D3A_276251_274D3D_214D37_226127_214D36),
  (0x76D6, 0x22612C_2D4D38_274D3E_246532_22612E_214D39_214D38_226134_214D3A_214D3B_226138_214D3C),
  (0x76E2, 0x24653C_214D3D_214D3E_214D40_22613B_214D3F_22613F_22613C_214D41),
  (0x76EC, 0x226140_226144_212D34_214D43_226147_226148_214D44_226146_214D45_226149_24657D_226153),
  (0x76F8, 0x214D48_214D47_226158_226159_214D4B),
  (0x76FE, 0x214D4C_246579_24662D_214D49_226156_24657C_22614B_22615A_246577_226150_22614F_214D46),
  (0x770A, 0x226154_214D4A_4B5164_286272_226160_226169_226164_226171_246642_226168),
  (0x7715, 0x226170_24663F_246647_246635_22616B_22616D_226162_226161_22615F_4B4D4F_214D4F_214D4E),
  (0x7721, 0x22616F_22616C_226172_226163_226222_226221_226165_214D50_214D4D_246639_22615E_274D7A),
  (0x772D, 0x226178_22617E_226176_22617B_226177_22617A_226224_226226_226225_214D53_214D51_214D54),
  (0x7739, 0x226175_214D55_246650_214D52_22622B_214D56_22615D_226174_2D4D5F_2D4D46_226235_226230),
  (0x7745, 0x226231_22622C_22622D_246722_246728_226233_226236_246727_226232_226237_214D57_274D5D),
  (0x7751, 0x28632C_22623E_246743_226250_22623C_226244_226248_226242_226239_226245_214D59_214D5F),
  (0x775D, 0x24674D_214D5D_22623A_22623D_214D67_22624F_214D5E_226249_214D62_214D5B_24674A_214D61),
  (0x7769, 0x22624D_214D5A_214D58_214D60_22624E_226261_226256_246775_214D64_246773_24676D_246755),
  (0x7775, 0x246761_226254_24675D_246763_214D5C_226260_226251_246770_214D63_22625D_214D65_226252),
  (0x7781, 0x246771_226262_22625A_214D66_22625F_286323_214D68_22626B_24682F_226263_226266_214D6A),
  (0x778D, 0x22626A_214D69_226264_246841_214D6B_2D4D6D),
  (0x7794, 0x246859_22626F_226273_226277_226272_226276_226270_24686E_226274_24684D_214D6D_214D6C),
  (0x77A0, 0x214D6E_226271_226275_246867_226321_214D6F_246873_214D75_24687B_274D7C_214D71_226322),
  (0x77AC, 0x214D74_214D73_24685A_22627E_214D72_226324_22627B_214D70_226325_22627A_226323_22627D),
  (0x77B8, 0x246931_22632B_226327_214D78_22632C_214D76_226329_214D77_22632D_2E625F_22632A_24693C),
  (0x77C4, 0x226332_22632F_226331_214D79),
  (0x77C9, 0x22632E_226333),
  (0x77CC, 0x24694D_226335_226338_226337_226339_22633A),
  (0x77D3, 0x214D7A_22633B_22633C_24696C_214D7B_22633E_22633D_214D7C_212D35_214D7E_226342_226345),
  (0x77DF, 0x226346_226347_246A45_212D36_214E22_246A46_214E23_226352_22634F_226350_214E24_246A58),
  (0x77EB, 0x274E27_226355_214E25_214E26_214E27_226359_22635A_22635B_212D37_22635C_246A76_274E58),
  (0x77F7, 0x226362_226367_226364_226369_226368_226360_214E29_226366_274E5B_286540_274E4C_214E2A),
  (0x7803, 0x22637D_226372_226379_226371_246A7C_226376_226370_22636C_246B24_214E2C_214E2B_22637A),
  (0x780F, 0x226425_22637C_226374_226378_226422_214E37_274E3E_274E53_28645A_246B23_226373_274E3B),
  (0x781B, 0x226424_706D3F_214E2F_22642C_22643B_226435_226429_22642D_226427_226439_214E35_226450),
  (0x7827, 0x214E33_246B43_22642A_246B3C_226428_226426_214E34_226433_226434_214E2E_22643D_22643A),
  (0x7833, 0x226432_214E30_226431_22643C_214E32_214E31_4C6376_274E5D_286655_706D45_226438_274E5E),
  (0x783F, 0x4B4E5B_274E59_286461_226451_214E38_246B63_22644B_226454_226452_226448_226443_246B69),
  (0x784B, 0x226441_226456_226444_226446_4B4E37_22644E_22643E_22644C_226449_22644A_274E45_286460),
  (0x7857, 0x286622_22644F_286558_28662B),
  (0x785C, 0x226461_214E3A_226465_22652A_226457_22645D_226468_246B7E_226460_226462_226459_246B79),
  (0x7868, 0x22645A_22645C_226466_214E36_214E39_22645B_226467_214E3B_246B70_246C23_694823),
  (0x7874, 0x69626D),
  (0x7876, 0x226464_276252_246C41_226479_246C38_226474_214E42_246C39_226547_22646C_246C4A_226473),
  (0x7882, 0x246C2F_22646F_22647A_246C42_226469_22646D_22652B_214E40_226478_246C40_214E43_226523),
  (0x788E, 0x214E3E_226476_226472_214E41_22652C_226529_226470_22647C_22652D_214E3D_214E3F_22647E),
  (0x789A, 0x22646B_28656A_286577_226538_226543_214E46_246C50_226531_226545_226541_22653B_226534),
  (0x78A6, 0x246C4F_214E44_226544_214E45_226536_226548_22653F_226540_246C5D_22654A_214E3C_22647D),
  (0x78B2, 0x22652F_214E47_22653E_246C61_226532_226539_246C68_4C6565_214E49_22654E_214E4C_246C6F),
  (0x78BE, 0x214E4E_246C6E),
  (0x78C1, 0x214E4A_246C78_246D23_22654F_214E4B_246C73_22655F_22655E_226556_214E4F_214E48_226555),
  (0x78CD, 0x22654D_22655C_22654B_214E50_226558_226557_22655D_226560_214E4D_226567),
  (0x78D8, 0x22655A_4C6564_214E53_22656E_226551_22656B_226575_226568_226573_22656F_226571_226577),
  (0x78E4, 0x226561_226572_246D2D_22656A_214E51_226570_226574_246D39_214E52_226569_226576_214E58),
  (0x78F0, 0x22657B),
  (0x78F2, 0x226579_22657D_214E55_226625_22662C_214E54_34635C_226621_214E56_226629_246D47_226622),
  (0x78FE, 0x226627_226626),
  (0x7901, 0x214E57_246D42),
  (0x7904, 0x22662B_22657E_246D5C_246D5E),
  (0x7909, 0x226639_226631_226636_226632_246D56_214E59_226637_226638_226635_22662E_226634_246D4F),
  (0x7915, 0x226630_7F7916_22663A_246D64_214E5A_226640_22663D_226645_22663F_226643),
  (0x7920, 0x2D4E4A_226642_226646_22664B_22664C_226649_214E5B_22664D_22664E_226650_214E5D_214E5E),
  (0x792C, 0x214E5C_246D6F_226657_226653_226659_226655_226654_226656_22665D_22665C_226660_22665F),
  (0x7938, 0x246D7B_226663_212D38),
  (0x793C, 0x226664_226665_214E61_226668_214E60_214E62_226667),
  (0x7944, 0x226671_214E63_226675_214E66_214E65_214E64_22666A_22666F_246E29_22666B),
  (0x794F, 0x22667B_214E69_226721_246E2D_22667C_226723_214E67_214E6A_214E6F_226677),
  (0x795A, 0x214E6E_226679_22667A_214E6C_214E6B_214E6D_214E68_226728_246E32_246E36_226729_214E70),
  (0x7966, 0x226735_22672A_214E71_22672C_22672E_22672D_226727_214E72),
  (0x796F, 0x274E78_226737_22672F_226730_226731_226733),
  (0x7977, 0x274E7D_274E77_226744_214E73_246E4C_22673E_226739_246E46_214E75_226738_214E74_226743),
  (0x7983, 0x246E47_2D4E75_274E7B_226746_226751_226757_226749_22674B_22674F_246E50_214E77_214E78),
  (0x798F, 0x214E76_22675A_246E54_226766_226755_226754_22674E_226750_226756_22674A_22674D_22675C),
  (0x799B, 0x226760_22675D_226764),
  (0x799F, 0x22675E_226768_22675F_226762_226761_22676D_334E73_214E79_214E7A_226771_22676E_214E7B),
  (0x79AB, 0x226770_226774_246E6D_214E7C_246E70_226775_214E7D_226777_22677A_22677B_246E7B_226821),
  (0x79B7, 0x22677C_212D39_214E7E_226823_226824_226825_214F21_212D3A_214F26_214F24_214F25_246F2C),
  (0x79C4, 0x226829_22682C_226828_395631_22682A_214F27_2D3C65_214F29_225070_22682F_226835_226831),
  (0x79D0, 0x246F41_214F28_214F2A_246F3C_22682D_22682E_226832_2F506C_226838_246F4E_246F4A_226841),
  (0x79DC, 0x22683C_226844_246F54_214F2E_22683F_226842_246F59_214F2D_214F2B_246F55_214F2C_214F2F),
  (0x79E8, 0x226843_214F30_226846_22683E_22683D_226845_246F5A_246F57_274F3C_246F6F_246F66_22684D),
  (0x79F4, 0x22684E_246F70_246F63_226849_226848_246F76_226847_214F31_246F71_274F4A_28694F_226853),
  (0x7A00, 0x214F36),
  (0x7A02, 0x22684F_22685C_22685D_214F32_247024_226859_214F34_226854_226850_214F35_226861_214F33),
  (0x7A0F, 0x22686A_226878_22686B_24703D_22686D_214F3B_226863_24702F_226876_22686C_22686F_214F3A),
  (0x7A1B, 0x226873_214F38_247042_226871_214F37_214F39_226865_226869_274F46_226864_223924_22687D),
  (0x7A27, 0x22687C_22687A_247057_24705D_24704E_226922_22687E_214F3D_226929_226921_214F3C_4B4F43),
  (0x7A33, 0x274F4C_22692D_247049_7F7A36_214F42_22692F_226932_226930_214F43_214F3F_214F41_22692C),
  (0x7A3F, 0x214F3E_214F40_226933_2D4F48_69634E_22693F_226938_214F47_22693E_226939_22693C_22687B),
  (0x7A4B, 0x22693D_214F46_214F44_214F45_4B4F4C_4B4F29_274F49),
  (0x7A53, 0x24712A_226942_247139_226948_214F48_226941_247134_226946_226947_226940),
  (0x7A5E, 0x28695C_22694D_22694F_214F49_214F4A_4C695F_226952_247154_24714A_226951_226954_214F4C),
  (0x7A6A, 0x226953_214F4B_226956_22695C_226957_226958_22695F_247165_226963_226961_212D3B_226966),
  (0x7A76, 0x214F4E_226967_226969_214F4F_214F50_226968_247221_22696A_22696D_214F51_22696B_214F52),
  (0x7A82, 0x22696C_274F64_214F53_226970_226975_226976_214F54_22696E_226978_226974_226977_274F61),
  (0x7A8E, 0x286A3E_226979_22697B_226A22_214F55_226A21_22697A_214F56_214F58_214F59_214F57_247248),
  (0x7A9A, 0x22697C_24724D_274F62_274F5D_226A2B_214F5A_214F5B_226A2A_226A29_226A28_247269_274F60),
  (0x7AA6, 0x274F63_226A2C_226A2E_214F5D_214F5C_226A2F_226A31_286A3C_214F5F_214F5E_226A34_226A35),
  (0x7AB2, 0x247277_226A36_226A33_226A3E_226A3C_226A39_226A3D_247338_214F60_226A3F_24733F_226A3A),
  (0x7ABE, 0x226A41_226A43_226A42_226A45_226A44_4B4947_214F62_214F61_2D4F5F_214F63_226A48_247360),
  (0x7ACA, 0x214F64_212D3C_247370_226A49_247372_226A4B),
  (0x7AD1, 0x226A4F_2D3932_226A51_226A52_226A54_275957_7F7AD7_226A59_214F66_226A55_247422_24737E),
  (0x7ADD, 0x226A56_274F6B_216033_216032_226A5A_226A5F_214F68_226A5D_214F67_226A5E_247431_247437),
  (0x7AE9, 0x247432_226A61_226A66_247441_214F69_226A68_214F6A_226A6B_226A6F_226A71_226A72_247448),
  (0x7AF5, 0x226A76_214F6B_247451_2D4F6B_212D3E_214F6D_226A79_24745E_214F6F_226A7C_214F6E_247458),
  (0x7B01, 0x226A7B_696373_275039_226B25_247473_214F70_226B29_226B2E_226B2B_226B33_226B24_247468),
  (0x7B0D, 0x226B2A_226B26_226B2D_226B22_214F71_226B31_226B2F_226B2C_286B7C_247528_247533_226B44),
  (0x7B19, 0x214F77_226B43_214F75_247527_247529_214F76_226B4D_214F72_226B45_226B37_226B48_226B3F),
  (0x7B25, 0x226B36_214F78_393330_214F74_24752F_226B42_226B4A_214F73_226B4C_226B49_226B4E_226B38),
  (0x7B31, 0x226B47_226B46_226B40_226B3A_226B35_24752D_226B4B_226B39_226B27_27502B_226B3B_275050),
  (0x7B3E, 0x286E68_226B65_226B56_247547_247535_24754D_226B5E_226B61_214F79_226B55_226B60_214F7A),
  (0x7B4A, 0x226B52_214F7E_226B62_215021_226B63_215022_214F7B_226B5A_214F7D_2E6B25_215023_226B64),
  (0x7B56, 0x214F7C_247553_226B59_226B53_286D54_27503C_286E30_226B5F_226B69_226C2A_215024_226C2B),
  (0x7B62, 0x226B74_226C25_226B6C_226B7E_226B68_226B7C_226C28_226B6E_226B73_247567_226B5B_226B70),
  (0x7B6E, 0x226B75_226B7B_226C27_226C26_226B79_226C29_226B76_215026_226C24_215025_226B7A_27504D),
  (0x7B7A, 0x4B4F7B_707360_286D2F_7F7B7D_27504B),
  (0x7B80, 0x275041_226C30_226C3E_24762C_226C4D_226C41_226C46_226C42_226C31_247631_226C2F_21502B),
  (0x7B8C, 0x226C3D_226C3A_226C43_21502D_226C35_226C34_226C33_286E59_215028_215029_226C3B_21502C),
  (0x7B98, 0x226C44_226C48_226C50_226C3C_226C2D_21502A_247622_2E6C44_226C6E_215027_24757B_226C38),
  (0x7BA4, 0x226C2E_247623_286D47_286C58_286E56_275054_275045_275042_226C62_21502F_247658_226C70),
  (0x7BB0, 0x247727_215031_226C52),
  (0x7BB4, 0x215032_226C64_24766C_226C55_226C39_226C73_247660_24772B_247662_247726_226C60_247675),
  (0x7BC0, 0x215033_215035_247677_247666_215030_226C63_215034_21502E_247663_21503A_226C53_226C58),
  (0x7BCC, 0x226C6F_226C71_226C6C_226C5A_226C5C_275046_7F7BD2_27503E_226D2F_226D2A_226C77_247751),
  (0x7BD8, 0x226D35_215037_226D26_215038_226D25_226D22_226C7A_226D32_226D34_21503B_226D23_226C75),
  (0x7BE4, 0x215039_226D24_226D33_226D52_226D29_21503C_226D37_247745_24775D_395050_27504C_286E58),
  (0x7BF0, 0x226D3E_226D3F_226D45_226D54_226D4F_247842_247773_215040_226D58_226D2E_226D50_226D4C),
  (0x7BFC, 0x226D5C_226D7E_21503F_226D4A_226D47_226D5D_226D55_226D5B_247835_226D43_226D3B_21503D),
  (0x7C08, 0x24765E_226D5A_226D4D_226D46_226D4B_21503E_226D4E_226D41_226D49_215036_4B503B_696449),
  (0x7C14, 0x4B5036_24777A_286E69_69644C_2D5042_226D6C_226D73_24784D_226D5F_226D6B_215045_226D66),
  (0x7C20, 0x226D63_215041_226D78_215046_226D74_226D7D_226D61_215044_226D62_226E21_215043_215042),
  (0x7C2C, 0x226E33_226D69_247858_226D68_226D75_4C6E42_226D7A_226E2B_226E35_226E27_226E26_21504A),
  (0x7C38, 0x215049_226E30_226E24_226E34_226E2D_21504B_215048_215047_226E2A_275051_226E3B_21504C),
  (0x7C44, 0x226E45_226E3A_226E43_226E41_226E48_226E49_226E47_226E4A_21504D_21504E_226E46_226E42),
  (0x7C50, 0x21504F_226E50),
  (0x7C53, 0x226E4C_226E4F_247953_2D5052_226E55_247A2F_226E59_226E57_226E58_226E56_226E54_226E5B),
  (0x7C5F, 0x215051_215050),
  (0x7C62, 0x247A3B_226E5E_215052_226E62_226E72_226E5C_226E61_226E68_226E69_226E6E_215053_226E6B),
  (0x7C6E, 0x215054_226E6F_226E70_226E74_215055_212D3F_226E76_226E75),
  (0x7C77, 0x247A62_226E7A_226E7C_226F22_276053_226E7E_226E7D_226E79_226E7B_247A61_226F21_693729),
  (0x7C83, 0x226F2A_226F2F_226F2D_247A6C_226F24_226F26_215057_247A66_247A6F_247A69_226F2C_226F28),
  (0x7C90, 0x696464_226F29_215058_226F35_226F34_226F40_226F32_215059_226F3B_226F3A_226F3F_2D5321),
  (0x7C9C, 0x226F3E_287030_226F45_21505A_226F47_226F49_226F43_226F3C_247B32_21505B_226F4C_226F42),
  (0x7CA8, 0x226F48_226F46_275068_4B506C_226F4A_696466_226F4E_226F50_226F55_21505D_226F54_21505E),
  (0x7CB4, 0x226F51_21505C_247B54_247B53_247B4D_215060_226F5E_226F58_226F5F_21505F_215061_226F59),
  (0x7CC0, 0x247B50_287022_226F64_226F6B_247B6F_226F69_226F67_226F6E_226F68_226F6F_215062_226F61),
  (0x7CCC, 0x226F6D_226F62_226F66_247B79_247B7A_226F70_226F71_226F74_226F72_215064_215063_226F75),
  (0x7CD8, 0x696474_21506A_247C2D_226F7E_215066_227022_215068_215067_215065_226F77_215069),
  (0x7CE4, 0x247C34),
  (0x7CE6, 0x227024_21506B_226F7B_247C50_227026_247C4E_227029_227028_247C57_21506C_22702E_227034),
  (0x7CF2, 0x227030),
  (0x7CF4, 0x227035_227037_227039_22703D_212D40),
  (0x7CFA, 0x22703F_21506E_227041_227040_21506F_247C6D_215070_227047_215071_227044_215074_215072),
  (0x7D06, 0x227042_215075_227045_215073_215078_215077_22704F_215122_247D22_227049_21507E_22704E),
  (0x7D12, 0x227056_22704A_21507D_21507C_22704B_215121_227050_215124_215123_215125_21507A_227052),
  (0x7D1E, 0x227051_227055_215079_215076_21507B),
  (0x7D24, 0x247D2A_2D5129),
  (0x7D27, 0x275144_227070_22706C_247D55_215135_227067_247D36_215129_21512E_21512C_227065_227062),
  (0x7D33, 0x21512D_22705F_227059_247D37_247D40_227058_21512A_227061_227069_215128_22705A_227071),
  (0x7D3F, 0x22706A_21512F_22706F_215130_215127_21512B_227068_215126_22706D_247D45_247D33_227063),
  (0x7D4B, 0x4C735D_33513C_247D5D_227134_227128_215134_22712F_227078_22707C_227121_215137_227126),
  (0x7D57, 0x247D56_227074_22707B_22707E_22715A_22707A_227124_215132_227132_227123_215138_215136),
  (0x7D63, 0x227073_22707D_247D5F_215139_227129_215133_227133_22712B_22712C_22712E_22712D_21513A),
  (0x7D6F, 0x227075_227122_215131_21513B_227130_247D49_395179_4B5137_287275_22714C_21513E_227158),
  (0x7D7B, 0x227154_227151_22714F_247D52_227142_227146_215140_2D5131_22714D_227136_22713B_227144),
  (0x7D87, 0x247D69_227139_227157_227147_227137_22715B_227148_22713D_21513F_227155_21513D_227150),
  (0x7D93, 0x21513C_247D66_22713E_227159),
  (0x7D98, 0x22715C_2D517D_4B5221_22714B_215141_227170_21515D_227222_21514C_227164_21514D_227161),
  (0x7DA4, 0x227172_247E29_22716F_227163_22716D_22715D_227169_227171_227178_21514E_227162_22717B),
  (0x7DB0, 0x215143_215149_215148_227179_215146_21514B_247E28_227165_215150_22717D_215147_215142),
  (0x7DBC, 0x22717E_21514A_215145_21514F_227166_227168_227160_227223_227174_22716E_227175_215151),
  (0x7DC8, 0x22716C_22716B_215144_227167_22717A_227225_22716A_247E2E_33516B_33514C_215155_227242),
  (0x7DD5, 0x69656E_2D5155_227231_215156_22722A_21515C_227234_227246_215158_21515E_227244_215152),
  (0x7DE1, 0x227229_22723B_21515A_22722B_227249_22723E_227227_21515B_215159_22723A_22724C_215157),
  (0x7DED, 0x227241_227245_215153_22724A_227247_22723C_242B3C_215154_22724B_227248_227239_22722F),
  (0x7DF9, 0x227236_22723F_215163_4C7265_227240_227233_227243_22723D_4B515A),
  (0x7E03, 0x227230_4B5176_247E40),
  (0x7E07, 0x227226_215161_22725E_215160_227253_22726F_22724F_247E61_22726A_227269_21515F_227255),
  (0x7E13, 0x22725C_227260_227265_227254_227250_247E6B_247E62_227266_215162_227262_22725D_227251),
  (0x7E1F, 0x22725F_22725B_227252_227256_215164_227259_247E54_4B516E_22726B),
  (0x7E29, 0x227327_22727E_21516C_247E7A_227272_215165_227273_22732B_21516E_215169_227276_227271),
  (0x7E35, 0x227321_227275_215168_227323_227279_227277_22726D_22726E_21516D_215166_227326_227325),
  (0x7E41, 0x21516B_227270_21516A_22727D_21516F_215167_227328_22727A_252223_4B5223_335175_25222C),
  (0x7E4D, 0x2D5172_227341_227335_227333_22732F_22732D_227339_215171_215170_227337_22732C_227331),
  (0x7E59, 0x22733F_215174_252238_22732E_252237_215173_22733A_227330_215172_22733C_227332_22733E),
  (0x7E65, 0x252232),
  (0x7E67, 0x227334_227348_215176_215179_215175_22734A_215177_227349_227351_22734E),
  (0x7E72, 0x227353_227352_227347_227344_227345_227350_227346_215178_25225D_227358_21517D_21517B),
  (0x7E7E, 0x227359_252263_22735C_22735B_21517C_69656D),
  (0x7E85, 0x227368_227364_22735E_227360_2E7374_22735D_227361_215221_227365_335223_21517E_696576),
  (0x7E91, 0x22736A_4B517E_215222_22736D_22736B_215223_227372_227374_227373_227371_227370_215224),
  (0x7E9D, 0x252339_25233B_51513B_27506F_287042_275072_275071_275223_275075_275074_275123_287045),
  (0x7EA9, 0x28735D_275070_275073_275153_27507A_287050_27507D_27507C_275121_275149_275122_287052),
  (0x7EB5, 0x27516E_275150_275125_275124_275077_275076),
  (0x7EBC, 0x28704B_27507E_28704A_27515C_287061_287062_287065_275154_27512B_27512D_27512C_275171),
  (0x7EC8, 0x275130_287269_275126_275128_27512F_27512A_275178_27513C_28706A_275140_275133_275134),
  (0x7ED4, 0x287124_275173),
  (0x7ED7, 0x287134_275179_275139_275136_287130_275138_275137_275132_275131_287144_28714D_27513E),
  (0x7EE3, 0x275172_28715B_27513F_28726B_27517D_287139_275166_275155_275145),
  (0x7EED, 0x275221_335147_287167_27514A_4D4D61_287174_275176_27514E_27514F_287178_4B516A_27514D),
  (0x7EFA, 0x28717D_287161_275141_275142_275143_27514C_275146_275151_28722A_287231_275156_275157),
  (0x7F06, 0x275224_287236_28723C_275158),
  (0x7F0B, 0x28733C_28723E_27515D_27515E_287248_45515C_287247_287253_275159_275152_275168_27515B),
  (0x7F17, 0x287229_27515A_28725E_275162_28725F_28725D_27516C_287250_287251_27517E_287272_275160),
  (0x7F23, 0x27515F_27517B_287279_287321_275169_275222_275165_275167_27516F_287360_275174_275170),
  (0x7F2F, 0x28732D_287349_287359_28734E_287351_287352_287374_212D41_2D3471_215226_225131_215227),
  (0x7F3D, 0x215228_22737A_22737C_22737B_227422_28742E_227425_215229_227428_227427_227429_21522A),
  (0x7F4A, 0x22742D_22742B_22742E_22742F_227431_227432_21522B_212D42),
  (0x7F53, 0x33522D_21522D_21522C),
  (0x7F57, 0x273761_227439),
  (0x7F5A, 0x275233_227445_22743D_227443_227441_21522E_22743E_22743F_275235_227447_22744E_227450),
  (0x7F66, 0x227451_227455_227457_215231_215232_227454_227456_227453_215230_22745D_215233_22745E),
  (0x7F72, 0x21522F_227460_287472_215234_227463_215235_2D5233_215236_227469_227467_227468_22746C),
  (0x7F7E, 0x22746B_22746A),
  (0x7F81, 0x275238_22746F_227471_252448_215237_227472_227474_215238_227477_212D43_252453_21523A),
  (0x7F8D, 0x227479_21523B_252455),
  (0x7F91, 0x22747A_227521_22747D_21523C_227524_22747E_227523),
  (0x7F99, 0x22747C_21523E_227528_227526_227529_21523D_287531_22752B_22752A_22752C_227530_215241),
  (0x7FA5, 0x227531_22752F_227533_215240_215242),
  (0x7FAB, 0x252473_227538_22753C_4B5247_215243_22753B_22753F_215244_227545_227540_227542_215245),
  (0x7FB7, 0x227547_215246_215247_227548_227549_22754A_212D44_22754C_215249_227553_21524B_227556),
  (0x7FC3, 0x227551_22754F_21524A_275251_252553_22755E_252554_227557_227558_21524C_22755C_21524E),
  (0x7FCF, 0x227562_227561_227560_21524D_25255C_21524F_215250_252561_227564_275258_287629_287572),
  (0x7FDB, 0x227567_227566_227565_252571_215253_215251_215252_22756B_227568),
  (0x7FE5, 0x22756A_22756C_22756D_227570_215254_227576_227573_227572_227575_22757A_227577_215255),
  (0x7FF1, 0x21525A_22757E_215256_22757D_257776),
  (0x7FF7, 0x227625_227628_215258_252635_215259_215257_227629_22762A_22762C_21525B_212D45_4B525C),
  (0x8003, 0x21525D_22762E_21525F_21525E_227630_227631_7F8009_252640_227633_212D46_215262_227634),
  (0x800F, 0x227636_215261_227635_212D47_252652_227637_215264_227639_215267_215265_215266_227641),
  (0x801B, 0x227640_215268_22763E_22763D_22763B_227644_227647_344138_252665_227649_22764B_22764C),
  (0x8027, 0x287655_22764F_22764E_22764D_227651_227655_25267A_227658_22765A_22765B_22765D_22765E),
  (0x8033, 0x212D48_22765F_227660_21526A_227663_275275_227669_25272B_227665_252731_21526C_227664),
  (0x803F, 0x21526B_335278_22766B_275279_227670_252737_227674_21526E_252735_252739_227672_21526D),
  (0x804B, 0x27527A_275278_28773F_25273E_227679_227678_227676_22767B),
  (0x8054, 0x275277_252748_21526F_252744_215270_25274B_215272_227727_25274A_227721_215271_4B3A2F),
  (0x8060, 0x25273B_335276_22767E_227728_22772A_227725_22772D_22772B_4B5277_287739_275276_395277),
  (0x806C, 0x227732_227733_2D5277_215277_215276_215273_215274_215275_252822_227739_215279_215278),
  (0x8078, 0x22773D_22773F_25282E_22773E_4B527B_21527B_21527A_212D49_4B527C_227746_224474_275321),
  (0x8084, 0x21527E_215321_212F44_215322_2D5322_212D4A_227747_215324_215325_22774A_227749_22774B),
  (0x8090, 0x227752_252845_227754_215326_227750_22774F_21532B_227755_215328_227751_21532A_215329),
  (0x809C, 0x222973_215327_252846_22774E_27535E_215334_215330_252854_252849_21532F_22776A_227760),
  (0x80A8, 0x22775B_215335_21532D_215331_22775F_223A2E_227759_215333_227761_215332_21532C_227766),
  (0x80B4, 0x215336_227769_25284B_252857_227768_2E7768_21532E_335333_706B42_706B44_275358_275362),
  (0x80C0, 0x275359_275344_22777D_21533C_21533E_227825_22777A_227836_227777_22782C_227826_25286E),
  (0x80CC, 0x215338_22782F_21533F_22782D_227821_25286C_22776E_227772_227842_227829_215337_227830),
  (0x80D8, 0x22776C_227827_21533A_21533D_227823_22782A_215340_22777B_227773_21533B_22776F_227824),
  (0x80E4, 0x215341_215339_22777E_274366_28786E_706B4C_275421_287855_706640_215347_227846_227841),
  (0x80F0, 0x215342_215345_227833_21534A_215346_22783A_227832_252923_21534B_227840_227834_227848),
  (0x80FC, 0x227835_215348_227838_252878_227839_227845_215343_22783C_22783B_215344_215349_22783D),
  (0x8108, 0x21534D_22776B_21534C),
  (0x810D, 0x27537B_706B5B_275422_27537C_275365_706B5F_275378_287A56_227867_215350_227866_22784B),
  (0x8119, 0x22784C_227851_227855_252938_227849_227861_22785D_227924_227864_227863_215351_227854),
  (0x8125, 0x227852_227853_227862_25293E_215352_227860_21534E_22785E_22785B_22785F_21534F_227850),
  (0x8132, 0x4B3B52_4B5365_227856),
  (0x8136, 0x287941),
  (0x8138, 0x27537A_215359_227869_252962_227870_227922_21535B),
  (0x8140, 0x227926_22787D_227878_22787B_227945_252959_21535A_227921_22786D_227923_227874_215355),
  (0x814C, 0x227877_227925_215358_227875_215357_215356_227871_22787C_215354_215353_22786E),
  (0x8158, 0x287975_706B6A_22786A_227933_227938_22793D_227960_252979_227932_227941_22793E_227928),
  (0x8164, 0x22792A_21535F_215365_227948_227943_22793B_252976_215362_22792F_4D6047_215360_22794B),
  (0x8170, 0x21535D_21535C_227940_215361_227947_227930_227946_227934_21535E_215363_215364_275371),
  (0x817C, 0x22793C_4C7959_276144_215368_215366_22794E_22794D_227959_227963_252A45_227952_227962),
  (0x8188, 0x21536A_22795F_215369_227951_227965_227964_22795E_215367_252A5F_27537D_252A69_227978),
  (0x8194, 0x227968_227975_252A76_227977_227970_22796D_21536E_21536D_21536F_21536B_22796E_22796A),
  (0x81A0, 0x21536C_252A66_227974_22796B_696733),
  (0x81A6, 0x22797D_22797A_215372_215371_22797C_227A2A_227A30_252B30_227A25_252B24_227A2E_22797B),
  (0x81B2, 0x227A32_215370_227A2F_227A2C),
  (0x81B7, 0x227A33_252B37_227A26_215374_227A37_252B3C_215379_21537B_215378_215376_227A38_215377),
  (0x81C3, 0x215375_227A3B_227A3C_215373_227A3F_227A3D_21537A_227A3A),
  (0x81CC, 0x227A39_21537C_227A41_21537D_227A43_227A40_252B53_4B5422_227A48_227A46_227A4D_227A47),
  (0x81D8, 0x21537E_227A4C_215421_227A4B_287A57_227A4F_227A53_215422_227A56_227A55_227A57_212D4B),
  (0x81E4, 0x227A58_215424_252C24_227A5B_215425_227A5C_212D4C_252C2D_215427_215428_227A61_227A60),
  (0x81F0, 0x2D5428_227A63_227A65_212D4D_21542A_252C44_227A68_227A66_227A67_227A69_21542B_21542C),
  (0x81FC, 0x212D4E_227A6D_21542E_227A71_21542F_227A70_215430_227A74_227A75_215431_275B53_215432),
  (0x8208, 0x215433_215434_215435_227A77_212D4F_215437_4B5437_252C77_215438_227A7D_215439_227B21),
  (0x8214, 0x21543A_227A7E_227B24_4B5D65_227B25_252D2C_227B26_212D50_21543C_227B27_21543D_212D51),
  (0x8220, 0x227B29_227B2B_21543F_287B66),
  (0x8225, 0x252D3E_252D40_227B30_215443_227B31_215440_215441_215442_227B2E_4B456D_227B2F_27544B),
  (0x8231, 0x27544A_227B3A_227B35_227B36_215445_215447_215444_227B32_215446_227B34_287B6D_227B3D),
  (0x823D, 0x252D50_707438_227B3E_227B47_227B48_227B49_252D56_227B45_227B4A_227B41_215448_227B42),
  (0x8249, 0x227B43_2D5447_227B4B_227B4E),
  (0x824E, 0x227B53_227B50_227B54_227B4F_227B52_227B51),
  (0x8255, 0x227B55_227B56_227B57_215449_21544A_227B5E_227B60_227B5F_69675C_227B65_227B62),
  (0x8261, 0x227B68_227B67_227B69_227B66_227B64_21544B_252E3D_227B6B_227B6A_227B6C_227B6D_227B6E),
  (0x826D, 0x227B6F_212D52_21544D_27544E_21544E_212D53_287B76_227B71_227B72_227B75_227B76_212D54),
  (0x8279, 0x227B78_275631_227C21_227B7B_227B7E_215450_227B7D_227C22),
  (0x8282, 0x275033_227C2D_227C28_227C29),
  (0x8287, 0x227C2A_216330_252E5F_227C2E_215452_2D5452_215453_227C24_227C27_227C26_227C25_215451),
  (0x8293, 0x227C2B_227C2C),
  (0x8296, 0x252E63_292577_227C3B_215456_227C3F_227C35_27557C_215455_227C48_21545B_227C30_227C50),
  (0x82A2, 0x227C51_227C42_227C3C_21545A_227C2F_227C34_227C4C_227C46_227C53_227C38_215459_215458),
  (0x82AE, 0x227C45_227C31_227C3A_21545D_292241_215454_227C4E_227C36_227C4D_227C44_227C37_21545E),
  (0x82BA, 0x227C4F_21545C_227C49_215457_227C3D_227C54_227C32_292535_227C33_252E73_252E69_227C47),
  (0x82C7, 0x27554D_292765_252E75_252F24_27552A_287E61_275567_274365_27563C_227C5B_21546F_227C6D),
  (0x82D3, 0x21546D_21546E_227C65_227C6C_21546A_227C72_227C55_252F33_215464_215469_252F2F_215470),
  (0x82DF, 0x215471_227C5A_227C73_227C6A_215463_227C64_215467_215465_215460_227C5D_252F36_227C5F),
  (0x82EB, 0x227C71_227C70_227C7D_227D25_227C62_252F26_21546B_252F39_227C7C_227C69_227C78_227C75),
  (0x82F7, 0x227C60_227C76_227C58_227C68_227D22_252F35_227D24_227C57),
  (0x8300, 0x227C5C_21546C_215468_21545F_215466_215461_227D23_227C67_227D45_215462),
  (0x830C, 0x227D21),
  (0x830E, 0x275529_292752_227C7B_29252D_227D54),
  (0x8314, 0x227C6E_4C5175_227D56_21547E_252F41_227D31_227D58_227D35_227D3C_227D76_227D38_227D34),
  (0x8320, 0x227D5B_227D27_227D3F_253027_252F5A_227D37_227D3A_227D47_227D29_227D5D_227D43_215472),
  (0x832C, 0x227D40_227D2A_252F4E_227D52_227D44_21547C_215521_227D26_21547A_215479_21547B_227D5C),
  (0x8338, 0x215475_215523_227C63_227D4B_227D48_252F5C),
  (0x833F, 0x227D3D_21547D_227D36_227D3E_227D4D_227D2B_227D4E),
  (0x8347, 0x227D5F_227D53_215478_215474_227D41_227D28_227D4A_227D32_215522_215477_227D2E_215473),
  (0x8353, 0x227D2D_215476_252F55_227D3B_252F48_2D552D_292635_275528_29254B_29247D_292272_292571),
  (0x835F, 0x292657_2F2661_275576_227D42_274537_275553_284B43_274A5E_285323_292546_292668_275563),
  (0x836B, 0x27556E_292567_29233C_29233D_275635_252F77_252F72_227E24_227D6D_227D78_227D7E_227E28),
  (0x8377, 0x215531_215527_227E29_227D7B_215533_215532_227E2C_227E2E_227E21_252F7B_227D7D_227E27),
  (0x8383, 0x227E3A_252F74_227E36_227D70_227E25_252F67_215530_21552D_227E31_227E3C_227D6C_215524),
  (0x838F, 0x227D7A_227D61_227E34_21552C_21552E_227E2A_227D7C_215529_227D6E_215525_227E22_232236),
  (0x839B, 0x227E2F_227E37_227E2D_215526_227E38_21552F_25302D_215528_227D63_227D74_253033_227E23),
  (0x83A7, 0x21552A_227D62_227E2B_227E33_21552B_23222B_227D67_25302C_252F65_227D72_275541_27556C),
  (0x83B3, 0x292375_275555_4D222A_292658_274B29_292574_227E26_276247),
  (0x83BC, 0x29243A_21553F_227E76_227E6A_227E54_21553A_232237_253046_227E66_215539_227E60_23223E),
  (0x83C8, 0x227E5E_232229_215545_227E7A_215543_23223B_227E79_227E41_227E58_232243_227E7C_227E7B),
  (0x83D4, 0x232228_232241_227E7D_227E69_227E71_232328_227E6F_232222_215544_227E65_25306C_23222A),
  (0x83E0, 0x215535_227E5A_227E6B_227E5C_227E48_227E72_233D51_227E4E_227E49_215536_227E52_227E63),
  (0x83EC, 0x227E42_227E44_227E4C_21553C_21553D_21553E_215546_23223C_215540_227E77_227E57_2D3C49),
  (0x83F8, 0x215537_227E43_23223F_227E6E_227E56_232223_23222F_227E5D_253065_227E6D_23222D_215538),
  (0x8404, 0x215548_253051_232235_227E61_227E7E_232238_215541_21553B_215542_215534_215547_23222E),
  (0x8410, 0x227E59_232230_227E4B_227E53_227E62_292661_232232_227E50_227E74),
  (0x841A, 0x292760_227E78_705D46_275642_232225_23222C_232227_227E45_69684D_227E51_275724_274A2E),
  (0x8426, 0x275161_275622_27562A_23232E_23232D_23232F_212F4D_232339_232340_23232B_232261_21554B),
  (0x8432, 0x232324_23226A_232272_215555_232257_232270_215559_23224C_232275_23224B_215554_215549),
  (0x843E, 0x23226E_232249_232260_232251_23242B_253163_232326_232347_23233A_232254_232325_21554F),
  (0x844A, 0x23233F_232327_232343_23225B_232345_232247_232341_23225C_23233C_232248_253177_232344),
  (0x8456, 0x23224F_21554E_232348_232266_232262_215552_232329_23226F_232259_232335_232336_215556),
  (0x8462, 0x23226D_215557_23233D_232252_21554D_232263_23227D_215558_23232C_215551_215550_232271),
  (0x846E, 0x232337_23233E_23233B_232332_253176_232269_232268_21554C_23224D_215553_23227C_23224E),
  (0x847A, 0x232278_23232A_232346_23225F_25316C_253143),
  (0x8481, 0x253149_21554A_2D5034_23227B),
  (0x8486, 0x23225E_29255A_253152_292564),
  (0x848B, 0x275571_292524_232250_23224A_23227E_215566_23243C_232430_23243A_232375_232421_253245),
  (0x8497, 0x232349_23243E_215564_232369_253262_215560_232371_21555B_232353_23242E_232350_23236B),
  (0x84A3, 0x232440_23234D_232338_23242D_232363_232432_23242A_232365_23235A_232422_232429_23244F),
  (0x84AF, 0x232427_23243B_232370_21555A_232438_23235C_232424_232439_232377_215562_232358_232356),
  (0x84BB, 0x23235F_215567_23237A_23235D_21555C_215563_23235E_23237C_25325F_21555E_253129_21555D),
  (0x84C7, 0x232379_2E684F_21555F_232441_215561_232425_232368_232357_23243F_232372_232355_232364),
  (0x84D3, 0x215565_25322C_23236D_232433_253268_23245A_696868_232435_253240_25324C_275629_253267),
  (0x84DF, 0x292651_292840),
  (0x84E2, 0x232354_292633_23235B_294629_276148_23252F_232530_23245E_23245F_23247C_215574_232454),
  (0x84EE, 0x21556C_232535_232534_232246_232471_232473_232466_253324_232527_232477_23246E_25334D),
  (0x84FA, 0x23246F_232465_23247A_23247D_232528_215569_23244D_23244C_232525_232464_253327),
  (0x8506, 0x232446_232255_23246D_232451_23244A_232447_23246A_232456_232450_23244E_232457_215570),
  (0x8512, 0x232463_21556F_215573_232475_232526_21556A_23252A_232458_21556B_23252C_232462_232521),
  (0x851E, 0x232524_232459_232532_215572_232448_215571_23245B_215575_23252D_232461_232522_23244B),
  (0x852A, 0x232469_23246C_21556D_21556E_253332_232472_25334E_232531),
  (0x8533, 0x232445_232453_4B562B),
  (0x8537, 0x275626_4C4146_29282A_275639_23245C_275637_215568_23256F_2F2250_23254F_232546_23256D),
  (0x8543, 0x21557B_232460_232537_23255A_232562_215579_21557D_215577_232565_253421_232539_232571),
  (0x854F, 0x2F273E),
  (0x8551, 0x23255F_232567_23254D_232547_232574_232536_232645_23254B_215578_232561_23256E_232544),
  (0x855D, 0x232576_23255D_2F2729_23257A_23254E_232564_23256B_23255C_232553_23257D_23257C_21557A),
  (0x8569, 0x215576_21557C_23253C_232578_215622_232573_25336B_2F2625_25343C_292768_23255E_27563D),
  (0x8575, 0x253353_25344D_232633_232634_23262D_232642_232636_232637_25345F_215625_232632_232625),
  (0x8581, 0x232655_23264F_232621_21557E_232656_23264E_215628_232657_232648_232651_232630_232577),
  (0x858D, 0x23264D_23264A_232628_232654_215624_253462_232624_215626_23262A_232647_232644_232635),
  (0x8599, 0x232650_23263C_215623_215627_232653_23263E_232658_232631_23263F_232652_25344F_23263D),
  (0x85A5, 0x253461_23262B_232629_232649_21562A_215621_33562F_335635),
  (0x85AE, 0x275632_21562C_21562F_23267D_232663_23266E_232664_232669_23267E_23266B_23265A_23266C),
  (0x85BA, 0x232661_23265B_253479_23266F_232675_232672_25347C_23265D_23266A_23265E_232670_23267C),
  (0x85C6, 0x232662_232725_232678_21562E_232723_232674_232665_215629_232668_21562B_21562D_23274A),
  (0x85D2, 0x232722_275640_23272E_215634_232735_232736_232745_232727_232739_23272F_23274C_215631),
  (0x85DE, 0x23273C_232743_25356F_253558_23274F_232747_215633_215635_23272C_253572_23272A_215630),
  (0x85EA, 0x215632_232726_232733_232731_232762_232737_23274D_253559_253565),
  (0x85F5, 0x23274E_232765_232728_23273E_215637_215639_215636_232757_232751_23275E_23275B_232760),
  (0x8601, 0x23275A_232758_232769_232768_232771_21563A_21563C_23276E_23276A_21563D_21563B_23282D),
  (0x860D, 0x2D562F),
  (0x8610, 0x232754_215638),
  (0x8613, 0x2D563C_23275F_253657_232828_21563F_232772_23277C_215640_232777_23277A_23282B_23282A),
  (0x861F, 0x253647_232824_23277E_232752_232779_232724_232829_232776_232822_232825_232826_232773),
  (0x862B, 0x232775_232839_21563E_232823_2D5576_696946_23283C_232836_232831_232830_25365D_232838),
  (0x8637, 0x232832_215641_232847_232840_232842_23283E_232846_232841_215642_23283F_21787C_253722),
  (0x8643, 0x232848),
  (0x8645, 0x23284C_23284F_23284E_232850_23284D_2F2851_232857_232856_212D55_215643_275648_215644),
  (0x8651, 0x253737_216D74_23285A_215645_215647_232861),
  (0x8658, 0x23285F_23285E_455649_215649_215648_232864_21564B_21564A_25374D_232866_232869_23286A),
  (0x8664, 0x23286D_23286C_2F286C_21564C_23286F_232871_232876_212D56_232878_25377A_23287D_23287C),
  (0x8670, 0x232879_21564E_23287B_232926_232928_232924_25377D_232921_232923_21564F_232925_23287E),
  (0x867C, 0x232927_275F4A_232922_292C5D_275676_275735_275725_292C4D_232929_23293A_232934_232932),
  (0x8689, 0x23292B_215652_23293D_215655_23293C_23293B),
  (0x8690, 0x232941_232936_23293F_215653_232944_232931_23292E_232930_232939_25383C_232945_253832),
  (0x869C, 0x232937_232942_232938_23292D_232946_232947_23292A_215656_215654_25383D_232940_232948),
  (0x86A8, 0x23292F_215650_215651_25383E_292A34_253846_23295F_21565F_232959_21565E_23292C_232960),
  (0x86B4, 0x232963_215659_21565B_23294D_232964_23295E_232958_23294F_23295D_232952_232950_23294B),
  (0x86C0, 0x215657_232953_232956_23294E_21565C_23295A_21565D_215658_23295C_232962_27573F_21565A),
  (0x86CC, 0x232965_4B5724_27573C_232951_232977_23297A_232A22_232970_215663_232974_232A31_232A23),
  (0x86D8, 0x232967_215661_232972_215664_232A24_23296C_23297E_215660_253866_232975_232969_23296E),
  (0x86E4, 0x215665_23297C_23296B_232979_232973_23296F_23296A_23297D_232971_215662_275742_696962),
  (0x86F0, 0x292B6E_292A2F_275732_292B55_292C61_232A32_232A39_232A28_232A33_215667_232A2F_215666),
  (0x86FC, 0x232A29_253930_21566C_232A3D_21566B_253938_21566E_215669_232A30_232A2A_232A34_215668),
  (0x8708, 0x21566A_232A38_232A3A_232A25_232A2B_232A3E_232A36_232A3B_232A2C_232A65_232A66_21566D),
  (0x8714, 0x253934),
  (0x8716, 0x455663_2D567B_215675_232A50_232A5F_253944_21566F_253943_232A4E_253924_232A5B_232A4F),
  (0x8722, 0x215672_232A43_232A51_215673_232A6A_232A69_232A45_232A59_253966_232A56_232A48_232A61),
  (0x872E, 0x232A4B_232A47_232A5D_232A64_232A60_232A40_215674_253963_253940_232A44_25394B_232A5A),
  (0x873A, 0x232A63_215671_232A62_232A4C_232A57_215670_232A49_232A4D_232A67_232A53_232A55_335741),
  (0x8746, 0x232A37_232A58_2D572D_275734_232A42),
  (0x874C, 0x21567D_232A27_232B27_232A6B_232B25_232A78_232A7E_232B35_232A77_215676_232A6F_21567E),
  (0x8758, 0x232A79_215721_232A72_232A7A_232A7D_232B2E_253973_232B28_215677_232B21_232A7C_232A6D),
  (0x8764, 0x232A71_232A73_21567A_253A29_21567C_232B2F_232B24_253955_253A2E_253A25_232B30_232B2D),
  (0x8770, 0x25397D_232A6C_232A76_232A75_215679_253A35_215678_253970_21567B_232B4A_232B34_232A7B),
  (0x877C, 0x27572C_232A74_292C64_4B5736_292B7E_232B3C_215723_215722_232B55_232B53_232B4B_232B4F),
  (0x8788, 0x232B48_232B5D_232B39_232B54_232B5A_215726_395726_253A3F_253A5E_253A62_232B47_232B3D),
  (0x8794, 0x232B5C_232B57_232B49_232B37_232B4C_232B45_232B50_232B38_232B43_232B56_215725_215727),
  (0x87A0, 0x232B3B_395652_215724_232B3A_253A44_232B59),
  (0x87A8, 0x70727D_232B58_232B5F_21572A_232B72_232B60_232B78_232B6F_232B64_232B6A_232B67_21572B),
  (0x87B4, 0x232B76_232B73_232B71_232B65_232C23_232B70_21572F_21572C_232B75_232C24_232B66_232B7E),
  (0x87C0, 0x215729_232B6B_232C26_232B7D_232B6E_232B63_215730_232641_21572D_232B7A_232B68_215731),
  (0x87CC, 0x232C27_253B2A_253A6F),
  (0x87D0, 0x696A2C_215728_21572E_232C48_232C41_232C59_232C3A_232B42_232C4B_232C2A_232C35_232C36),
  (0x87DC, 0x232C49_232C29_253A7B_232C40_232C47_232C46_232C37_232C4C_253B3C_232C3C_232C54_232C2E),
  (0x87E8, 0x232C3D_232C3E_232C34_232C39_215734_232C4A_232C2C_215732_232C31_253B4E_215733_232C30),
  (0x87F4, 0x232C3B_232C3F_232C55_232C57_33573D_215738_232C4E_215735_232C5E_232C33_232C5F_232C51),
  (0x8800, 0x253B58_232C4D_253B5F_232C4F_253B69_215736_232C5D),
  (0x8808, 0x253B62_232C5B_232C50_232C5C_232C5A_215737_232C44_335738_232C61_232C64_232C65_232C6A),
  (0x8814, 0x215739_21573A_232C6B_232C68_232C66_232C63_232C79_232C7A_232C73_232C77_253B66_21573E),
  (0x8820, 0x232C74_21573D_21573B_21573C_253C21_232D24_232D22_232C7E_232D23_232C7D_232C7C_232D25),
  (0x882C, 0x253C39_232D32_232D2E_232D28_232D27_21573F_232D2A_232D2F_232C72_232D39_215741_232D35),
  (0x8838, 0x232D38_215740),
  (0x883B, 0x215742_232D3C_232D3F_232D3E_253C77_212D57_232D41_232D42_232D45_232D44_232D46_232D4A),
  (0x8847, 0x232D4B_232D48_232D49_232D51_232D52_212D58_215745_232D53_253D3F_232D57_253D43_232D56),
  (0x8853, 0x215746_275D61_232D5A_232D59_215747),
  (0x8859, 0x215748_232D5F_215749_232D5E_21574A_2D5749_3F5C36_232D61_21574B_21574C_212D59),
  (0x8865, 0x232D64_232D66_253D53_21574F_232D69_232D68_215750_275822_232D6D_232E23_232E22_215753),
  (0x8871, 0x232D78_232D75_232E24_232D74_232D71_232D72_215754_232E25_232D7C_232D6E_232D77_253D62),
  (0x887D, 0x232D79_232D7E_232D7D_232D76_215752_215751_253D6A_232D7B_292E69_292F2F_232D70_215755),
  (0x8889, 0x253D71_232E42_21575A_232E3B_215759_232E43_232E31_232E3A_232E33_215757_232E35_232E2D),
  (0x8895, 0x253D6F_215758_232E45_232E38_232E40_232E34_232E41_232E2B_253D7B_21575B_232E3C_232E3D),
  (0x88A1, 0x232E36_232E28_232E30_232E2A_232E32_253D7A_232E39_232E27_232E37_232E2F_215756_253E23),
  (0x88AD, 0x275823_4D3032),
  (0x88B0, 0x696A5E_21575E_232E51_232E50_232E4E_2F2D79_253E36_232E57_232E4D_232E4C_232E4A_253E2A),
  (0x88BC, 0x232E54_232E59_232E52_232E49_232E4F_21575C_21575D_696A61_232E5A_275765_27577C),
  (0x88C8, 0x292F36_232E48_232E69_232E5E_232E60_253E4D_232E64_232E61_253E4C_253E52_232E68_232E5C),
  (0x88D4, 0x215764_215766_253E45_232E4B_215761_215760_232E5F_232E62_215762_215765_232E5B_21575F),
  (0x88E0, 0x335760_215763_292F60_29302D_275773_292F72_232F27_232E6F_21576D_253E65_232F26_253E69),
  (0x88EC, 0x232E76_335776_232E7E_232F23_232E7A_232E71_232E75_215768_21576B_33576B_232F25_232E6E),
  (0x88F8, 0x215769_21576A_232E7B_232F22_232F21_21576C_232E72_253E64_232E78_253E5A_215767_232F24),
  (0x8904, 0x696A6D_232F2B_232F35_215770_232F3E_232F2D_232F3D_232F33_232F36_232F39_232F42_232F40),
  (0x8910, 0x21576F_232F3B_215772_215771_232F30_232F43_232F3C_232F31_232F2F_232F37_21576E_275779),
  (0x891D, 0x4C2F7A_232F54_232F51_232F4B_232F4E_232F57_232F49_232F4D_215775_232F56_232F4F_253F32),
  (0x8929, 0x253F4D_215774_215776_253F34_232F50_232F4A_232F45_232F47_232F53_215773_232F60_275771),
  (0x8935, 0x232F5A_215778_232F6C_215779_232F64_232F5F_215777_232F63_232F5E_232F62_232F61_232F5C),
  (0x8941, 0x232F5D_232F6A_232F41_21577A),
  (0x8946, 0x232F7B_232F72_232F74_232F73_253F73_232F76_232F7A_233021_253F77_232F6F_232F7E_232F71),
  (0x8952, 0x232F59_232F75_232F66_293042_21577D_23302A_23302E_25402C_233024_233029_23302C_23302D),
  (0x895E, 0x233025_21577B_21577C_23302B_233023_233034_21577E_233035_233031_233032),
  (0x8969, 0x233038_215821_23303A_23303C_233037_23303B_215822_23303E_23303D_215823_233044_233042),
  (0x8975, 0x233046_233041_696B27_25405B_233048_23304B_233049_23304A),
  (0x897E, 0x212D5A_215824),
  (0x8981, 0x215825_233050_215826_233053_233055_215827_233058_233059_23305C_23305D_212D5C),
  (0x898E, 0x254073_215829),
  (0x8991, 0x233062_233061_21582A_23305F_233063_21582B_233064_233066_254129_4B5830_23306C_23306B),
  (0x899D, 0x23306D_233070_23306E_254136_23306F_233072_233077_233075_233076_21582D_2D5831_25414F),
  (0x89A9, 0x233079_21582C_254158_21582E_233122_254159_23307D_233128_254160_21582F_4B5832_254166),
  (0x89B5, 0x254168_23312C_23312B_23312A_23312E_215830_2F312B_23312F_215831_25416F_233132_215832),
  (0x89C1, 0x275828_275832),
  (0x89C4, 0x275829_27582A_27582B_293066_275831_275830_27582E_29306F_293132_293076_27582D_29307D),
  (0x89D0, 0x27582F_29312B_212D5D_233138_233137_23313B_23313A_254224_254223_25417E_23313F_23313D),
  (0x89DC, 0x233145_23313E_275835_233141_233148_233147_254232_215834_23314A_233143_233144_233140),
  (0x89E8, 0x23314E_23314C_23314B_23314D_233157_233153_233155_293160_233150_233158_254259_23315C),
  (0x89F4, 0x215835_23315E_233160_233164_215836),
  (0x89FA, 0x233166_233168_233167_233169_23316A_23316B_212D5E),
  (0x8A02, 0x215839_21583A_23316E_254279_23316C_23316D_215838_254321_215840_233174_21583E_233173),
  (0x8A0E, 0x21583D_233170_21583B_233171_233172_215843_25427E_21583F_215841_215842_21583C),
  (0x8A1B, 0x21584A_25433D_215846_233223_21584B_233175),
  (0x8A22, 0x233225_215845_2F3244_215847_254323_23317A_254332_23317D_215844_233224_23317E_215849),
  (0x8A2E, 0x233177_254327_233179_215848_254330_4B5946_215856_23323A_23322B_254353_25435C_23322E),
  (0x8A3A, 0x215857_21584C_215850_233240_233258_25436D_233238_215851_233241_254344_23323F_233242),
  (0x8A46, 0x215855_233236_233239_233244_233228_233235_23322D_25434E_23322A_233243_215854_233227),
  (0x8A52, 0x23323C_23322C_215852_21584E_233230_233237_23323B_25434F_233231_215853_254355_254342),
  (0x8A5E, 0x21584F_293523_21584D_233256_215865_21585E_233265_233262_21585B_23325A_233248_21585C),
  (0x8A6A, 0x23324B_215858_215868_215863_215867_233261_21585D_215866_215859_21585A_233254_23325E),
  (0x8A76, 0x233249_233257_23324A_215864_23325B_233260_21585F_23324C_23325F_23324F_23324D_254364),
  (0x8A82, 0x233259_23325C_23325D_215862_233250_215861_233253_275949_275937_23326B_21586D_215870),
  (0x8A8E, 0x23326D_233269_233277_215875_233274_21586E_254437_215923_23326F_233276_215874_233270),
  (0x8A9A, 0x233271_254425_254436),
  (0x8A9E, 0x21586C_23327C_215860_21586B_25442E_21586F_215871_215873_21586A_23326C_215872_233268),
  (0x8AAA, 0x215869_25437D),
  (0x8AAD, 0x4B594A),
  (0x8AAF, 0x233331_215922_254446_21587C_254444_23327D_254460_23327E_23332F_233322_233338_23332B),
  (0x8ABB, 0x233335_215876_23333A_233321_21587D_23333D_254445_215921_23332A_215877_233328_233327),
  (0x8AC7, 0x215879_23335E_21587E_233337_21587A_25444B_233336_233329_233325_23333F_23332C_215878),
  (0x8AD3, 0x23332D_233333_233334_215924_233340_233324_23333E_254443_23333B_21592A_23334C_233362),
  (0x8ADF, 0x233353_233343_233363_233345_233355_233357_25447A_215925_215929_25446D_2D593D_254468),
  (0x8AEB, 0x215927),
  (0x8AED, 0x215930_233348_23335C_233358_215928_23334B_233344_23334F_233350_23334E_21592F_21587B),
  (0x8AF9, 0x233354_215926_233360_23335D_23334D_21592E_233352_21592B_21592C_21592D_233356_215937),
  (0x8B05, 0x23337A_233379_233364_233371_25453F_215935_233378_23336B_233369_215933_23337C_23337D),
  (0x8B11, 0x233377_254540_233370_233359_23337E_233373_215931_23336A_215932_233368_215934_23336F),
  (0x8B1D, 0x215938_233366_233376_215936),
  (0x8B22, 0x23337B_23342E_23342F_233440_23342D_233426_21593B_23343A_233427_233422_21593A_35347B),
  (0x8B2E, 0x233428_23343D_23342C_233437_23343E_233430_25454D_233435_233425_23342A_233375_215939),
  (0x8B3A, 0x23342B_23343F_233439_233429_233438_23344F_23344B_215941_254568_254567_233443_233473),
  (0x8B46, 0x23344A_233451_233442_21593F_233449_254566_233349_23345F_21593E_215942_254558_233458),
  (0x8B52, 0x233455_233448_233444_233457_23344D_233456_21593C_233459_215940_233447_21593D_233464),
  (0x8B5E, 0x233467_233465_23345D_233461_25456E_23346D_23346A_233469_215945_23345E_233466_23345C),
  (0x8B6A, 0x254576_233468_215944_23346B_25457C_215946_215943_254571_2D594C_233471_215947_233475),
  (0x8B76, 0x23346E_215948_233470_25457E_233472_233474),
  (0x8B7D, 0x215949_23347B_23347C_21594A_233479_233522_23347D_23347E_233478_23352B_233526_254644),
  (0x8B89, 0x233527_21594B_233523_233524_2F3357_23352A),
  (0x8B90, 0x233529_23352F_21594E_21594C_23352E_23352D_21594D_233533_233530_233531_21594F_233535),
  (0x8B9C, 0x233537_233538_233539_23353A_455837_275838_275839_27583A_275870_275942_27583B_27583E),
  (0x8BA8, 0x27583D_27594C_27583F_275841_275842_275843_275943_275840_27583C),
  (0x8BB2, 0x275934_275928_293430_29322A_275846_275847_275848_27584A_275924_29317D_27584B_27592F),
  (0x8BBE, 0x275849_275844_275845_275850_275851_29322B_27584E_275853_27593C_293237_275854_275856),
  (0x8BCA, 0x275857_275855_29337A_27584F_29323B_275852_293230_275946_29323C_293250_29325D_27585B),
  (0x8BD6, 0x29324F_27585C_27585D_27585F_275860_275862_29325E_275866_275923_275868_275867_275863),
  (0x8BE2, 0x275865_27585E_293336_275859_27585A_275858_293345_293256_293470_27586B_27586F_27586C),
  (0x8BEE, 0x293271_275871_275873_275874_275872_275875_275869_27586A_293274_27587A_27587B_293325),
  (0x8BFA, 0x27592E_27594A_29332C_293338_27587C_27587E_29333B_275922_293340_27587D_275921_275878),
  (0x8C06, 0x275877_29327E_275879_293478_275876_27592B_29334E_27592A_275935_275927_275929_293359),
  (0x8C12, 0x27592C_27592D_293357_275930_29335D_27594E_293348_293344_275926_275925_275933_293362),
  (0x8C1E, 0x29334C_27593B_293537_293373_275938_275936_275931_293368_275932_29337D_275939_293438),
  (0x8C2A, 0x473422_47347B_27593A_275940_29344D_293459_29352D_27593D_27593E_293539_275947_293468),
  (0x8C36, 0x27594D_212D5F_23353C_23353E_23353D_233540_233541_233542_233543_215952_233544_215951),
  (0x8C42, 0x233545_233547_233548_23354A_212D60_23354B_215954_215955_23354C_23354D_215956_25472D),
  (0x8C4E, 0x215957_233550_215958_254747),
  (0x8C53, 0x254751_215959_212D61_233553_233554),
  (0x8C59, 0x2F3560_21595A_233557_233555_233556_233559_254766_233558_21595B_21595C_3B3555_23355B),
  (0x8C65, 0x23355A_23355E_233561_233563_233562_21595D_21595E_21595F_233565_293574_23356E_233569),
  (0x8C71, 0x23356C_23356A_23356D_23356F_233571_233574_233573_212D62_215961_215960_23357D_25483D),
  (0x8C7D, 0x233623_233625_25484D_233627_233624_215962_233628_233629_23362D_23362A_254852_23362E),
  (0x8C89, 0x215964_215963_25485C_215966_215965_233630_233631_233635_233633_233634_215967_233639),
  (0x8C95, 0x233638_254875_23363D_23363C_23363B_23363E_233641_233642_212D63_215969_233643_21596A),
  (0x8CA1, 0x21596C_21596B_233645_233644_25493C_25493D_215971_21596F_215972_215970_21596E_21596D),
  (0x8CAD, 0x23364B_513051_215973_23364E_233650_215A26_212F42_215978_233652_21597B_21597A_21597D),
  (0x8CB9, 0x233653_233651_215975_215979_21597C_233654_21597E_215977_215976_215A28_215A27_215A25),
  (0x8CC5, 0x215A21_233659_215A22_215A24_23365D_215A23_254954_233658_233657_4B5A31_233662_233665),
  (0x8CD1, 0x215A2A_215A2B_215A29_217E77_23365F_233664_233663_23365E_233674_233670_23366D_215A33),
  (0x8CDD, 0x233672_215A32_233673_215A2C_23366A_215A30_215A2F_215A31_233669_215A2D_23366B_233667),
  (0x8CE9, 0x233668_215A34_23366F_215A2E_215A35_233676),
  (0x8CF0, 0x233677_23367B_254A28_233678_215A36_23367C_233723_233721_23367D_254A2A_215A38_23367E),
  (0x8CFC, 0x215A3A_215A37_233726_254A34_233727_2D4247_23372A_233729_233725_215A39_23372F_23372B),
  (0x8D08, 0x215A3B_23372D_215A3D_215A3C_233732_215A3F_233736_215A3E_23373A_233739_23373B_215A40),
  (0x8D14, 0x23373D_23373F_215A41_254A4F_23373E_233741_254A52_215A42_335A40_275968_275969_27596A),
  (0x8D21, 0x27596B_27596C_27596D_275A30_274247_393C52_27596F_275A34_275972_275970_275971_27597B),
  (0x8D2D, 0x275A3A_4B5973_27596E_453051_275A31_275976_29364E_275979_275978_293651_27597D_27597E),
  (0x8D39, 0x275975_275977_27597C_275A23_293725_275A24_275A25_275A26_275A27_275A28_275A40_275A22),
  (0x8D45, 0x275A21_29373A_29365F_275A2A_293670_275A2B_275A2D_275A35_47366F_275A41_275A32_275A33),
  (0x8D51, 0x29373D_293674_29366A_275A2C_29366B_275A36_29367C_275A39_29367E_275A38_275A37_293726),
  (0x8D5D, 0x275A3C_275A3D_29372B_275A3B_275A3F_275A3E_275A42_212D64_254A5C_215A45_215A44_232A2E),
  (0x8D69, 0x233744),
  (0x8D6B, 0x215A46_233748_215A47_233747_233749_212D65_2D5A48_23374C_215A4A_215A49_275A4F_233750),
  (0x8D77, 0x215A4B_233752_23375D_23375C_23375B_23375F_233757_23375E),
  (0x8D80, 0x233768_215A4E_233765_254B36_233761_215A4C_233769_233760_254B35_233763_215A4D_275A53),
  (0x8D8C, 0x23376E_233775_233776_254B45_233773_23376D_233778_254B43_233771_215A50_233822_233821),
  (0x8D98, 0x254B4B_215A4F_23377C_233830_23382D_254B6D_233827_215A52_233829_23382F_23382C_215A51),
  (0x8DA4, 0x254B5E_233832_233833_233837_215A53_23384A_233850_233852_23384F_233853_233856_233859),
  (0x8DB0, 0x23385A_293866_233866_212D66_215A55_23386A_233869_23386B_275B26_233870_23386F_233876),
  (0x8DBC, 0x23386E_23386D_215A56_233873_254C7D_233872_233871_233874_293A2E_23392B_215A5C_23387D),
  (0x8DC8, 0x23392C_23392A_254D2C_215A5A_215A5E_23387C_215A57_233921_233927_215A5D_23387B_233879),
  (0x8DD4, 0x233928_233926_233922_233929_254D27_233925_215A5B_215A59_254D29_215A58_293A5F_215A60),
  (0x8DE0, 0x233932_215A5F_233939_23393B_23392F_2D5A63_23393A_23393D_215A61_233938_215A64_233935),
  (0x8DEC, 0x233934_23393C_233937_215A65_233930_233933_23393E_215A62_233936_275A68_275B23_275A7E),
  (0x8DF8, 0x293A40_293A5E_215A63_293A57_215A66_233941_233951_233944_23394C_233949_233942_23394A),
  (0x8E04, 0x23394E_233946_233950_254D75_334C3E_23393F_233940),
  (0x8E0C, 0x275B28_254D66),
  (0x8E0F, 0x215A6B_215A68_233963_23396C_254E38_233968_233959_233964_254E35_233969_254E28_23396E),
  (0x8E1B, 0x233960_233961_215A6A_23395C_215A6D_233953_233958_215A69_233954_233956_233955_233966),
  (0x8E27, 0x233967_335A7B_215A6C_233952_215A67_293A60),
  (0x8E2E, 0x233957_275B2A_233A21_215A6F_233A22_233972_215A71_215A73_233979_23395F_233976_215A72),
  (0x8E3A, 0x70755D_254E4E_23397A_23397E_233974_23397D_233977_23396F_215A70_23397C_215A6E_233978),
  (0x8E46, 0x233A26_233A24_215A76_215A74_215A77_215A75_233A2E_233A27_233A29_233A32_233A30_275B2B),
  (0x8E52, 0x275A78_233A2F_233A3A_233A40_233A37_254E6D_254F26_215A79_233A3E_233A3C_233A34_233A43),
  (0x8E5E, 0x233A3F_233A38_233A36_233A41_233A35_215A78_215A7B_233A39_215A7A_233A3B_254F46_233A4B),
  (0x8E6A, 0x233A4C_254F36_215A7D_233A48_2F3A5E_233A4D_293A46_254F34_215A7C_233A4E_233A45_233A44),
  (0x8E76, 0x215B21_233A50_233A47_233A51_215A7E_233A4F_215B22),
  (0x8E7F, 0x293A6B),
  (0x8E81, 0x215B24_215B23_233A52_233A53_215B27_233A54_215B25_233A56_215B26_215B28_233A57_233A55),
  (0x8E8D, 0x215B29_233A5A_275B2C_233A62_215B2A_233A5F_233A60_233A5D_233A46_254F74_233A61_233A63),
  (0x8E99, 0x233A72_233A5E_2F352B_293A70_233A66_233A64_233A65_233A67_215B2B_255021_233A6C_233A6D),
  (0x8EA5, 0x233A6B_233A70_233A6F_233A73_233A71_215B2C_212D67_215B2E_233A74),
  (0x8EAF, 0x275B31_33615A_2D5B2F_215B2F_233A78_255043),
  (0x8EB6, 0x233A7D_2D4E26_233A7B_233A7E_215B30),
  (0x8EBC, 0x233A7A_25504F_25504C_25505A_215B31_25505C_233B28_233B29_2D5278_696D40_233B2C_255066),
  (0x8EC8, 0x696D41_233B2E_212D68_215B33_215B35_215B34_233B31_233B2F_255072_233B30_215B36_233B32),
  (0x8ED4, 0x215B37_233B33_25507A_255124_233B35),
  (0x8EDA, 0x2F3B30_215B39_233B36_233B39_255123_215B38_233B37_255126_4B5B55_4B5B58_233B47_233B48),
  (0x8EE6, 0x255132_233B4A_233B4B_233B46_233B4C_233B4F_233B45_25513F_233B43_233B40_2D5B49_233B4E),
  (0x8EF2, 0x233B3E_255135_233B3B_233B49_233B4D_233B41_215B3B_233B42_233B3F_215B3A_215B3C_2D5B43),
  (0x8EFE, 0x215B3E_233B51_233B56_233B55_233B53_215B3D_233B57_233B59_233B50_233B5B_233B5A_215B3F),
  (0x8F0A, 0x215B40_233B58_4B5B46_233B5F_255152_2F3B78_233B5D_233B5E_215B42_215B44_215B41_215B43),
  (0x8F16, 0x233B71_233B75_233B68_233B67_233B69_215B46_215B4B_215B48_233B6B_215B47_233B6E_233B74),
  (0x8F22, 0x233B6A_233B70_233B66_233B6D_215B45_233B63_233B61_215B49_215B4A_233B6F_233B64_233B7D),
  (0x8F2E, 0x233B79_215B4D_233C21_233B7C_233C24_233B7A_233C27_233C22_233B78_233C25_215B4E_233C26),
  (0x8F3A, 0x335B4B_215B4C_2F3C2D),
  (0x8F3E, 0x215B50_215B53_233C2D_2F3B74_215B52_233C2A_215B4F_215B51_233C30_233C33_233C39_215B55),
  (0x8F4A, 0x233C31_255236_696D5A_215B54_215B57_233C3B_233C41_233C3F_233C3D_233C42_215B56_233C4B),
  (0x8F56, 0x233C48_233C49_233C4C_233C44_233C47_233C50_233C4D_233C53_233C4E_215B58_233C56_215B59),
  (0x8F62, 0x233C57_233C59_233C5A_233C5F_275B32_275B33_275B35_275B36),
  (0x8F6B, 0x275B37_275B55_275B39_275B4A_275B38_275B58_293B3E_275B3A_293C5A_275B3B_293B42_275B3C),
  (0x8F77, 0x293B47_293B4F_293C57_293B3F_275B43_275B3E_275B3F_275B40_275B57_293B5A_293B5B_293B59),
  (0x8F83, 0x275B3D_275B42_275B41_275B46_275B45_275B49_275B48_293B6D_293B6B_293B64_275B47_275B4B),
  (0x8F8F, 0x293B7A_275B4C_275B4D_293C2D_275B4E_275B59_275B51_275B4F_275B50_293C30_275B54_275B56),
  (0x8F9B, 0x212D69_215B5B_233C61_275B60_215B5C_233C62_233C63_25526A_215B5D_233C65_233C66_215B5F),
  (0x8FA7, 0x2D5B5E_215B5E_275B61_233C68_27517A_255275_215B60_21517A_215B61_212D6A_215B63_215B64),
  (0x8FB3, 0x24424D_233C6A_212D6B_293C6C_233C6D_233C6F_275C5B_275C36_233C6E_233C70_275C52_233C73),
  (0x8FBF, 0x233C74_255325_233C71_215B65_2D5B65_215B68_215B67_215B66_275C3E_275C56_255328_233C7A),
  (0x8FCB, 0x233C77_255339_233C7D_215B6A_233C7E_25532C_215B6B_233C75_233C7B_215B6C_233D22_255335),
  (0x8FD7, 0x25532E_275C57_275B7D_233D21_275C33_233C79_275C3A_275B7E_275C50_233D2C_25533F_215B6F),
  (0x8FE3, 0x233D28_233D2F_215B71_215B6E),
  (0x8FE8, 0x233D2D_233D31_215B70_215B73_333D5C_215B72_233D30_233D2E_215B6D_233D26_255341_275C25),
  (0x8FF4, 0x215B79_233D3B_255358_215B76_233D37_233D35_215B78_233D3C_233D39_215B7B_233D3A_233D3D),
  (0x9000, 0x215B77_215B74_233D3E_215B7A_233D3F_215B7C_215B75_255355_233D40_275C4F_275C45_233D45),
  (0x900C, 0x233D48_215C26_2F3D5D_215C2A_215C24_233D44_275C48_2D5C48_215C2E_215C25_215C2C_215C22),
  (0x9018, 0x25536F_215B7D_215C28_215C2D_233D46_215C23_215C27_215C21_215C29_233D49_215C2B_215B7E),
  (0x9024, 0x233D42_3F3768_275C5C_696D7A_255376_233D54_233D52_233D53_2F3D37_233D4A_215C2F_233D58),
  (0x9030, 0x2D5C35_215C31_215C33_233D4D_233D57_215C30_233D59_233D56_215C32_4B5C39_2D5C44_275C5D),
  (0x903C, 0x215C3B_233D68_215C42_233D64_233D61_215C41_215C37_233D5C_233D6A_4B5C50_233D5B_215C3C),
  (0x9048, 0x255430_233D67_215C35_215C34_233D66_215C3F_215C3E_215C3D_215C38_215C40_233D5D_215C36),
  (0x9054, 0x215C39_215C3A_696E28_275C53_215C43_215C47_255440_233D78_215C45_233D75_215C48_335C50),
  (0x9060, 0x215C44_233D6F_233D74_215C46_233D71_275C47_233E22_255442_215C4B_215C49_255453_233D7B),
  (0x906C, 0x233D7C_215C4C_215C4A_233E25_233E21_233E23_215C50_233E24_215C4E_215C4D_233E28_215C51),
  (0x9078, 0x215C4F_233E26_215C53_233E2A_215C52_215C55_233E33_215C54_215C59_215C56_215C58_233E34),
  (0x9084, 0x215C57_233E2C_233E32_215C5A_233E37_2D5C5B_215C5B_233E3A_233E39_233E3B_233E3C_215C5D),
  (0x9090, 0x215C5C_212D6C_25552A_25552C),
  (0x9095, 0x215C5F_22233E_233E40_233E41_233E3F_233E46_233E43_233E44_294031_233E4B_233E47_233E54),
  (0x90A1, 0x233E48_215C61_215C60_255539_233E49_215C63_233E4C_233E51_233E4A_215C62_335C63_293F5C),
  (0x90AD, 0x233E5F_255542_233E58_233E5D_215C65_233E61_233E59_233E57_215C64_233E5B_255541_215C66),
  (0x90B9, 0x275C71_29402B_275C74_233E67_233E6A_233E72_233E69_25554C_215C69_233E63_233E79_233E7A),
  (0x90C5, 0x233E6E_233E6C_233E75_233E78_233E68_215C68_233E76),
  (0x90CD, 0x233E77_215C67_293F23_29402C_275C73_25556E_293F4C_233F40_233E6F_233F21_233F2C_233F27),
  (0x90D9, 0x233E7C_233E7E_233F28_233F2A_233F22_335C67_233F23_233E7D_215C6A_233F26_25555C_233F2D),
  (0x90E5, 0x255566_294040_293F5A_215C6B_233F41_233F2F_233F3E_233F30_215C6C_255577_233F2E_233F32),
  (0x90F1, 0x233E64_233F34_233F3F_233F33_215C6D_2D5C6B_455C70_294021_233F4D_217927_25562B_233F46),
  (0x90FD, 0x215C6E_233F47_233F4A_233F4E_233F45_215C6F_233F51_233F49_233F4F_233F4C_233F50_233F43),
  (0x9109, 0x215C70_2D5C70_233F60_25562E_233F59_233F5F_233F57_233F54_233F58_215C71_233F5E_233F5C),
  (0x9115, 0x515C70_233F5A_233F53_233F63_215C72_233F72_233F76_233F64_233F6B_233F6A_233F65_233F66),
  (0x9121, 0x233F75_233F67_233F62_233F71_233F74_234024_215C75_233F61_233F7A_233F7B_233F79_233F42),
  (0x912D, 0x215C73_234025_233F77_215C74_215C76_234021_234028_23402B_234029_23402C_23402A_23402F),
  (0x9139, 0x215C77_234031_234032_2F4041_255677_234034_234037_234036_234039_294041_23403B_23403D),
  (0x9145, 0x23403F_23403E_234041_234040_212D6D_215C7A_215C79_215C7D_215C7C_234043_234044_234042),
  (0x9151, 0x255729_215C7B_234051_275D2A_23404F_23404D_215C7E_234050_234048_234052),
  (0x915C, 0x234049_275D2F_704C2A_234059_234055_234053_23405C_215D21_234056_215D22_294142_23405F),
  (0x9168, 0x222F58_215D24_215D25_255744_215D23_25573E_234062_234061_255745_275D32_234068_23406C),
  (0x9174, 0x23406B_215D26_23406A_215D28_215D27_234069_234066_25574F_234065_29415D_29415C_275D34),
  (0x9180, 0x234077_234073_23406F_215D2C_234075_23406D_234071_215D29_255754_215D2A_234070_215D2B),
  (0x918C, 0x234072_234124_23407E_255757_23407D_23407B_215D2D_234125_25576D_234078_2D5D2F),
  (0x9198, 0x255777_234135_23412C_234134_215D30_23412B_215D2F_23412D_234132_23412A_234130_215D2E),
  (0x91A4, 0x575D32_23413A_234140_23413B_234137_234139_23413D_215D31_215D32_234147_234148_234141),
  (0x91B0, 0x234144_234142_23414C_23414E_23414B_23414D_23414F_234149_4B5D34_234152_215D33_234151),
  (0x91BC, 0x234155_234157_255849_234156_215D34_215D35_23415A_23415C_23415B_23415D_212D6E_215D36),
  (0x91C8, 0x4B5D38_215D37_275D38_215D38_212D6F_215D3A_215D3B_215D3C_215D3D_212D71),
  (0x91D3, 0x234162_234161_234163_513421_215D41_215D40_234164_234166_25585E_215D42_215D3F_255860),
  (0x91DF, 0x25585F_234167_4B5D42_234168_215D45_234222_234178_215D44_215D46_234171_234179_23416C),
  (0x91EB, 0x23416D_23416B_234169_234173_2F4433_234175_234177_23416F_23417B_234174_215D43_234172),
  (0x91F7, 0x23416A_23417A_234221),
  (0x91FC, 0x333421_23424D_234233_234248_234231_234225_23423F_23422F_234223_234242_23424E_23422E),
  (0x9208, 0x234236_215D4A_234227_23424C_234230_215D48_234245_23422B_215D4D_23424B_234243_234244),
  (0x9214, 0x215D4B_215D49_23424A_234241_234232_23423D_234240_234239_234238_255869_215D4C_2D5D45),
  (0x9220, 0x25586A_23423C_234234_215D47_23423B_234228_234237_234224_23422C_4D4862_234249_234226),
  (0x922C, 0x4B5E3F_234352_23425C_23427B_234251_23425A_23432D_23425F_215D58_234268_23427E_215D4F),
  (0x9238, 0x215D50_23426D_234258_234272_255877_215D51_215D52_234274_215D53_23432E_255872_255876),
  (0x9244, 0x234322_23425D_234278_2F4255_234255_234252_234266_215D54_234326_234254_234323_234271),
  (0x9250, 0x23426B_215D57_234250_234325_234262_234260_234327_215D4E_25586E_255873_23432B_215D55),
  (0x925C, 0x234328_234253_234264_23426A_234277_234256_234265_234269_215D56_234263_234261_23426E),
  (0x9268, 0x255878_255879_234267_23426C_234270_23426F_234275_23427C_234259_514E5B_234273_23425E),
  (0x9274, 0x395E42_23434E_23433E_234347_215D59_234357_234343_215D5F_234332_23433D_234354_234362),
  (0x9280, 0x215D5A_23435C_234333_23432F_23435E_215D5C_234348_23433B_234342_255921_234341_234360),
  (0x928C, 0x23434A_23433F_234345_234279_25587E_23435B_23422A_215D60_255922_23433C_215D5E_234363),
  (0x9298, 0x215D5D_23434B_234355_23435D_215D61_23435F_335D4C_255927_234346_234344_25587D_234364),
  (0x92A4, 0x234338_234331_234350_23434D_234335_234359_234349_234358_215D5B_4B5D70_275E48_25592D),
  (0x92B1, 0x23434F_23442A_215D64_234422_234447_234376_215D66_234378_234442_25593D_215D63_215D69),
  (0x92BD, 0x255944_234379_255938_234377_215D67_23443C_23436A_234438_215D62_234421_23442D_234366),
  (0x92C9, 0x23437C_23443A_23452B_23443E_234426_255932_234427_23436F_234439_215D6A_234444_23443F),
  (0x92D5, 0x23437E_234437_234432_234431_23437A),
  (0x92DB, 0x23442F_234430_234435_234429_234372_234424_23444A_234436_23437D_215D68_23442B_234375),
  (0x92E7, 0x23442C_234441_234433_215D65_234443_234423_335D64_234340_234440_23442E_234371_234448),
  (0x92F3, 0x2D5E43_234425_234445_23436C_234463_215D6D_23445D_234454_234465_215D71_255960_234528),
  (0x92FF, 0x23446F_234530_234472_234462_23444C_215D74_234526_23445B_23444D_234457_23452C_255946),
  (0x930B, 0x234524_255963_23452A_23452D_23445F_215D75_25596A_234466_234456_234522_234474_23447A),
  (0x9317, 0x234527_215E22_234532_215D73_23446D_23452E_234453_23444E_234458_215D6B_23446C_215D70),
  (0x9323, 0x23446A_234464_234428_215D76_234451_215D7D_234476_234479_215D72_4B496A_234525_234478),
  (0x932F, 0x215D6F_234467_23445A_2D5D74_215D6E_234461_23447E_215D6C_255957_234469_23447D_23447C),
  (0x933B, 0x255953_23446B),
  (0x933E, 0x294666_23447B_234471_234531_23452F),
  (0x9344, 0x23444F_23444B_234475_23454D_23456A_23455D_215D7B_215D7C_234535_215D77_234575_23454C),
  (0x9350, 0x234578_23456E_234546_255A23_234567_234566_234553_234538_23455E_234533_23455F_215E24),
  (0x935C, 0x234548_234561_255A25_234562_234573_234565_2F456E_234569_23456F_215D7A_23453E_23456C),
  (0x9368, 0x255979_234568_234547_234571_215E23_234572_234577_255A30_215D7E_234554_23454B_2F4465),
  (0x9374, 0x23456B_215D79_234564_23455C_23455B_234541_234460_234563_234556_255A2C_215E21_2F4532),
  (0x9380, 0x23464E_25597B_215D78_234536_2F4331),
  (0x9386, 0x234544_23454E_234623_23463C_215E25_23457E_234622_234631_234646_234579),
  (0x9391, 0x234630_234637_255A4F_215E26_23457B_215E28_23464F_23462D_255A34_234648_23462B_234650),
  (0x939D, 0x234633_23464D_234635_255A49_234627_215E29_234629_23463D_23472D_234647_234642_23464C),
  (0x93A9, 0x23472F_23464A),
  (0x93AC, 0x23457A_2D5E27_215E27_23453F_234628_23462F_23463A_215E2A_23464B_234621_23462C_23462A),
  (0x93B8, 0x255A51_234625),
  (0x93BB, 0x234651_234640_234644_234560_255A53_234679_234731_23466C_215E2E_234664_23472E_234676),
  (0x93C7, 0x23465A_215E31_234669_234663_23466E_23467C_215E36_234678_234661_234673_215E2C_234727),
  (0x93D3, 0x23472C_23465D_234659_215E2D_215E30_215E37_234722_234672_234675_215E33_215E35_234656),
  (0x93DF, 0x215E2F_234729_215E2B_215E32_234658_215E34_23465F_234730_234667_234666_234665_255A5B),
  (0x93EB, 0x255A68_23467A_234726_234657_234674),
  (0x93F1, 0x234653_23465B_23473A_234827_234767_234770_234769_234756_234662_234749_23473D_23476C),
  (0x93FD, 0x215E3B_23474A_234761_234765_234746),
  (0x9403, 0x215E39_234759_234723_23475D_23476A_23476E_234755_234745_234732_23476D_23474E_23476F),
  (0x940F, 0x23473B_234760_234771_23473E_234734_234758_234748_234772_234752_215E38_23474D_2F445F),
  (0x941B, 0x234763_234733_23475E_23474F_23473F_23473C_4B5E3D_23475C_234762_234826_234738_234750),
  (0x9427, 0x234751_234754_234779_234768_234835_23482C_234836_215E3A_234741_234829_234838_215E40),
  (0x9433, 0x215E3C_23477B_215E3D_234828_234830_215E3F_23482A_215E3E_23482B_23477E_23477C_4D477B),
  (0x943F, 0x234774_234832_234837_23484D_255B28_215E43_234840_23484C_23483B_234742_234849_23484A),
  (0x944B, 0x234841_23483E_234847_234845_23483C_234842_215E42_215E41_694C7A_23483F_23485D_23485A),
  (0x9457, 0x255B39_255B35),
  (0x945A, 0x2D5E4A_234851_234856_255B37_23485E_255B33_215E45_255B36_234858_215E44_234857_23485C),
  (0x9466, 0x234853_23483D_23485F_23486A_234862_234868_2D5E42_234869_23486B_23486C_215E47_23486D),
  (0x9472, 0x215E46_255B44_234875_234874_234873_234871_234872_23486F_255B4B_234878_215E49_215E4A),
  (0x947E, 0x215E48_215E4B_23487D_23487C_23487B_23487E_255B54_455D3E_294162_294161_275D3F_275D40),
  (0x948A, 0x275D41_294164_294163_29416A_29416B_275D46_294222),
  (0x9492, 0x294179_275D45_294475_294221_29455F_275D43_29422F_275D47_474236_294237_29425D_275D48),
  (0x949E, 0x275D4B_275E21_275D4A_29442D_275D71_29424B_275D4D_275E47_274578_275D4C_275E29_275D56),
  (0x94AA, 0x294224_294225_294228_294223_275D49_294231_294258_275D70_294261_27502A_275D4F_335228),
  (0x94B6, 0x29425F_294260_275D51_275D50_294264_275E4A_474270_29426F_275D53_294274_275D52_275E3D),
  (0x94C2, 0x275D57_275D58_275E45_275D55_29432B_275D54_294251_294252_294255_294254_29425C_29426D),
  (0x94CE, 0x275E3F_29433E_275D5B_294346_294343_294433_29445F_294349_294340_294427_29437D_275E39),
  (0x94DA, 0x29433F_275E3E_275D5C_275D67_29434F_294350_294642_29455E_275D5E_29435B_29443E_294359),
  (0x94E6, 0x29435D_294767_275D60_29472F_294362_294355_275D5F_275D5D_275D73_294358_275D59_294331),
  (0x94F2, 0x275E2F_29432F_294732_294335_275D5A_294364_275E43_29473E_275D65_29437A_294469_294371),
  (0x94FE, 0x275E31_275E30_275D66_275E28_29442E_29442B_275D68_275D7C_294440_294441_275E3B_275D69),
  (0x950A, 0x294435_275D6A_275D62_29436C_294750_294751_275D64_275D63_29436A_294372_294375_294466),
  (0x9516, 0x29445B_294551_294568_275D6F_275D7D_29446D_29446C_294471_294472_294474_294476_275D72),
  (0x9522, 0x294478_275E49_275E22_275D75_275D76_29485D_294531_294457),
  (0x952B, 0x29444D_294458_275D6B_275D79_275D6D_275D6E_294532_275D7A_29456A_29454D_275E37_294564),
  (0x9537, 0x294567_29456F_275E23_455E21_275E24_29464A_294573_275D7E_4D4832_275D77_275D78_275E34),
  (0x9544, 0x4D4754_29454E_29467C_275E27_29462B_29462D_294871_29487B_4D4835_275E2A_4D446B_294647),
  (0x9550, 0x29457A_275E25_294628_294621_29483E_275E26_275E32_275E33_275E35_275E36),
  (0x955B, 0x294656_275E2B_275E2C_275E2E_29465A_294673_294758_29475E_294760_294769_29485C_294734),
  (0x9567, 0x294869_29473C_29486F_294662_29474D_29484A_275E3C),
  (0x956F, 0x275E40_275E3A_294774_29483F_275E44_29485E_29486D_275E46_212D72_2D5E4C_255B59_234923),
  (0x957B, 0x234925_234928_23492A_255C39_275E4C_212D73_255C40_215E4E_215E4F_255C44_23492E_23492F),
  (0x9587, 0x2D5E50_234930_215E50_696F5B_215E53_234931_234932_234936_215E52_255C56_215E54_215E56),
  (0x9593, 0x215E55_215E51_234935_696F5D_234934_215E57_255C5E_255C61_234939_23493B_255C72_23493C),
  (0x959F, 0x234938_23493A_215E58_4B5E69_215E5B_215E5D_215E5C_234941_234940_215E59_215E5A),
  (0x95AB, 0x234944_234942_215E5F_234945_255D2B_255D3A_215E5E),
  (0x95B5, 0x234951_23494F_23495F_234956_23494D_23494E_215E60_234948_234952_234949_234950_234957),
  (0x95C1, 0x255D4D_255D46_23495A_234955_255D66_215E65_234953_215E64_234959_215E61_215E62_215E63),
  (0x95CD, 0x23494A_23495D),
  (0x95D0, 0x215E68_234964_234962_234963_215E66_234960_215E67_395E69_255D7B_255D7E_234966_234967),
  (0x95DC, 0x215E69_255D7D_234969_23496D_23496A_215E6A_215E6B_234970_234972_23496F_255E37_234976),
  (0x95E8, 0x275E4D_275E4E_275E4F_455E60_294930_275E50_273648_275E67_275E52_275E64_275E54_294936),
  (0x95F4, 0x275E55_275E51_474931_273E5C_275E57_276168_275E59_275271_29496F_275E5A_275E5F_294963),
  (0x9600, 0x275E5C_275E5B_275E58_294944_295574_275E5E_294942),
  (0x9608, 0x294949_29494D_29494F_29556C_294950_294952_275E60_294948_275E6A_275E63_29495A_29496A),
  (0x9614, 0x275E61_275E62_275E66_275E68_294962_294960_294969_294972_212D74_234978_23497A_275F2B),
  (0x9620, 0x23497D_215E6D_23497C_23497E_23497B),
  (0x9626, 0x234A2C_234A21_234A24_234A2B_215E71_234A25_234A22_234A29_215E70_234A27_234A28_215E6F),
  (0x9632, 0x215E6E_234A26_234A2A_275E7B_275F2C_255E63_335F32_234A2D_234A33_215E74_234A32_234A30),
  (0x963E, 0x255E6B_215E73_215E72_234A31_234A2F_234A2E_215E75_275F37_275F24_275F3C_275F23_294A46),
  (0x964A, 0x234A3F_215E78_215E77_215E79_234A40_234A3B_215E76_234A3C_234A41_234A3E_234A37_275E7E),
  (0x9656, 0x234A4B_234A47_234A46_234A45_234A50_215E7C_234A44_215E7E_217575_234A4A_234A42_215E7D),
  (0x9662, 0x215E7A_215E7B_215F21_2D5F28_697023_4D4A6C_455F35_275F3A_215F22_234A56_234A51_234A53),
  (0x966E, 0x234A58_234A5A_215F2A_234A6A_215F26_215F23_215F29_215F25_215F27_215F28_212F46_255F32),
  (0x967A, 0x4B5F3A_234A5D_234A5F_215F2E_234A62_234A5E_234A69_234A60_234A6D_234A6E_234A63_215F2F),
  (0x9686, 0x215F30_234A61_234A65_234A6C_215F2B_215F2D_255F3C_215F31_215F2C_234A75_275F3B_234A77),
  (0x9692, 0x234A70_234A74_215F33_215F35_234A79_234A7A_215F32_215F34_255F62_215F37_215F36_255F64),
  (0x969E, 0x234B22_234B2A_2D5F3B_234A7E_234B2E_234B2B_234B2F_234B2C_255F77_215F38_215F39_234B35),
  (0x96AA, 0x215F3A_255F69_234B39_234B38_234B37),
  (0x96B0, 0x234B3B_215F3B_234B3C_234B3E_215F3C_234B41_212D75_335F3D_215F3D_212D76_234B4A_215F3E),
  (0x96BC, 0x234B49_234B4D_275F50_234B4B_215F3F_215F43_234B50_234B4F_215F42_215F44_215F41_215F40),
  (0x96C8, 0x25603A_215F47_234B53_215F46_215F48_215F45_234B52_275F4D_232867_2D5F4B_234B57_234B59),
  (0x96D4, 0x234B5C_215F49_215F4A_234B62_234B66_215F4E_234B63_215F4D_215F4B_234B67_215F4C_234B64),
  (0x96E0, 0x29352A_234B68_215F4F_215F50_25606F_234B6D_234B6C_234B6F_212D77_234B71_215F52_256077),
  (0x96EC, 0x256123_256121_256128_215F53_234B76_234B74_215F54_275F6E_234B77_234B7A_212F40_215F56),
  (0x96F8, 0x234B79_215F57_234B78_215F55_25612D_256134_275F67_234C22_215F59_275F6B_234C27_234C26),
  (0x9704, 0x215F5B_234C2A_215F5D_215F5A_234C29_215F5C_4B5F6F_234C2E_25615F_215F62_215F5F_215F61),
  (0x9710, 0x25614C_215F5E_234C2F_215F63_25614D_256152_215F60_2D5F58_256166_234C3E_395F67_234C38),
  (0x971C, 0x215F64_234C3D_215F65_234C35_234C37_234C40_234C49_234C47_234C4A_256177_234C50_215F67),
  (0x9728, 0x234C4E_234C4B_215F66_234C4D_256231_275F6D_234C51_234C53_234C58_234C52_215F6A_234C56),
  (0x9734, 0x234C55_234C5E_234C5C_256244_215F68_215F69_234C62_234C60_234C64_215F6B_215F6C_234C63),
  (0x9740, 0x234C67_234C6A_215F6E_234C6D_215F6D_256256_234C6C_234C6B_215F6F_234C6E_25625F_234C72),
  (0x974D, 0x256262),
  (0x9750, 0x256266_4B5F70_212D78_294C76),
  (0x9755, 0x25626A_215F71_234C74_234C75_335F73_234C76_215F72_215F73_234C78_212D79_234C7B_215F75),
  (0x9761, 0x215F76_212D7B_2D5F77_234C7D_275F79_215F78_234D25_215F79_212D7C_234D26_234D2C_234D27),
  (0x976D, 0x234D2D_234D30_234D29_234D2B_4B602D_234D33_234D35_215F7C_2D507E_215F7B_234D31_234D32),
  (0x9779, 0x256368_234D38_234D3D_215F7D_256374_234D39_234D43_234D3A_234D3C_234D42_234D37_234D40),
  (0x9785, 0x215F7E_69705D_234D48_234D4C_234D49_256430_216022_234D44_216021_234D46_216023_697060),
  (0x9791, 0x276029_4B4559_234D53_234D54_256441_256448_216879_216024_234D52_234D5C_234D59_234D62),
  (0x979D, 0x234D61_234D63_234D5A_216025_234D5E_234D6E_216026_234D6B_234D78_216027_234D68_234D71),
  (0x97A9, 0x256471_234D69_234D74_234D6A_216028_234D70_294E43),
  (0x97B1, 0x234E25_234D7A_234E24_234D7C_234E26_234E27_256526_234E2D_234E29_234E2C_234E2E_234E34),
  (0x97BD, 0x25654A_234E35_234E37_234E38_21602A_234E3A_216029_234E3C_234E3B_21602B_234E3D_234E3E),
  (0x97C9, 0x234E43_234E46_212D7D_21602D_234E4C_234E4B_234E4D_234E4E_256621_234E4F_21602E_234E51),
  (0x97D5, 0x234E50_234E52_234E57_234E53_234E54_256637_234E5D_21602F_234E59_234E5C_25663F_234E5E),
  (0x97E1, 0x234E60_234E5F_234E61_234E63_256653_27602C_27602D_294E4C_27602E_294E54_294E5C_27602F),
  (0x97ED, 0x212D7E_234E65_222F69_234E66_234E68),
  (0x97F3, 0x212E21_256664_234E6C_216034_25666A_234E70_234E74_234E73_216035),
  (0x97FD, 0x234E76_234E75_216036_234E77_212E22_216038_216039_234E78_21603A_21603B_234E79_21603C),
  (0x9809, 0x256746_21603E_25674B_216042_234E7E_234F23_234E7B_21603D_21603F_216041_216040_234F29),
  (0x9815, 0x25675E_234F26_216043_216044_256751_4B6048_234F35_234F39_25676B_234F2D_234F38_234F37),
  (0x9821, 0x216045_256776_234F31_21604C),
  (0x9826, 0x234F2C_234F3A_234F32_234F2F_234F2E_234F34),
  (0x982D, 0x216046_234F40_234F44_216047_234F41_234F45_234F3D_2D4F45_234F3B_256832_21604B_216048),
  (0x9839, 0x21604A_2D604A_216049_395A36),
  (0x983E, 0x234F66_2D6161_256845_234F4C_25683A_234F4D_234F4E_234F57_21604D_234F4B_22732A_23455A),
  (0x984A, 0x234F54_234F62_216050_21604F_216051_21604E_234F63_234F5D_234F60_216052_45604E_234F61),
  (0x9856, 0x234F72_234F6F_216055_234F6B_336054_216054_234F6A_234F6C_216053_256875_234F76_234F75),
  (0x9862, 0x234F77_234F79_234F7D_235021_235022_216056_234F7E_235027_235024_216057_235029_23502B),
  (0x986E, 0x235028_216058_21605A_216059_23502D_235030_235031_276037_276038_276039_294E79_27603A),
  (0x987A, 0x27603B_27603C_27603E_27603F_276056_276040_294F23_276041_276042_294E7B_27603D_276059),
  (0x9886, 0x276044_276043_276048_276045_276047_294F45_4D4F39_284C62),
  (0x988F, 0x294F2C_27604C_276049_294F40_27604A_27604B),
  (0x9896, 0x274F45_27604D_276050_294F60_276051_276052_27604E_27604F_295030_294F77_276054_294F6B),
  (0x98A2, 0x295021),
  (0x98A4, 0x276057_295029_27605A_295031_212E23_235033_697124_25694A_235034_235039_23503A_21605C),
  (0x98B0, 0x256958_21605D_23503C_21605E_235040_23503F_21605F_256A24_235048_235046_216060_23504D),
  (0x98BC, 0x216061_23504B_235051_23504A_23504E_235050_23504F_336062_216062_235058_235053_235052),
  (0x98C8, 0x355053_235055_23504C_235057_23505B_23505C_27605B_276060_295039_4D503A_27605C_27605F),
  (0x98D4, 0x295048_276061_29504D_29504E_276062_295053_4D5053_212E24_23505E_256A79_276063_212E25),
  (0x98E1, 0x23505F_216065_235060_235061_235063_235062_216066_295222_216067_216069_23506C_2D6071),
  (0x98ED, 0x216068),
  (0x98EF, 0x21606B_2D606B_235068_21606A_23506D_21606D_235078_23506E_256B36),
  (0x98F9, 0x23507B_235125_256B3D_21606C_21606E_21606F_235075_235122),
  (0x9902, 0x235128_216070_23512B_216078_235126_235124_235121_216073_216071_23507E_216072_276126),
  (0x990E, 0x235129),
  (0x9910, 0x216074_235132_216075_216077_235130_235138_23512F_235131_216076_235137_235147_21607B),
  (0x991C, 0x235140_2D606F_21607A_23513B_2D6078_21607C_256B5E_23513F_23513A_23513D_23513C_235145),
  (0x9928, 0x216079_235143_235151_235156_235150_235157_23514F_235165_235159_235158_235155_235153),
  (0x9934, 0x23513E_21607D_235162_256B7D_23515E_23515A_235160_23515C_235166_216122_21607E_216121),
  (0x9940, 0x235164_235161_235154_235170_23516E_216123_23516F_23516C_23516A_23516D_235175_235178),
  (0x994C, 0x235172_235171_235173_23516B_235174_216125_216124_256C55_23517B_23517E_235221_235222),
  (0x9958, 0x23517A_235176_235225_235226_216126_235229_216127_23522B_23522D_23522E),
  (0x9963, 0x456064_295060_276065),
  (0x9967, 0x295153_276067_295166_276069_29506C_276068_27606B_27606A_27607A_27606F_27606E_27606C),
  (0x9973, 0x295075_27606D_276072_276124_276073_29512B_295129_276070),
  (0x997C, 0x276078_295132_29512F_276077_456076_276075),
  (0x9983, 0x295140_27607B_27607C_276079_706247_295178_295162_276121_276127_295161_295170_295160),
  (0x998F, 0x27607E_29516A_29516D_276123_295175_295172_70624E_212E26_23522F_235230_212E27_256D30),
  (0x999B, 0x235235_235234_235233_235236_256D38_235238_23523C_23523A_23523B_23523D_21612A_23523E),
  (0x99A7, 0x23523F_21612B_235241_235242_256D4C_212E29_21612E_21612D_235247_23524A_216130_23524B),
  (0x99B3, 0x21612F_216131_235249_235250_256D57_256D5E_235253_235257_235256_23524E_235254_256D55),
  (0x99BF, 0x23524D_235252_216132_23525A_23524F_4B6130_235251_4B6147_235259_23526B_235265_235260),
  (0x99CB, 0x23525C_23526A_23525D_256D6B_23525E_216133_21613A_216138_235261_235263_216135_256D70),
  (0x99D7, 0x23526C_235269_216139_256D6A_216137_23525B_216134_235268_216136),
  (0x99E1, 0x256D7C_21613F_23527B_235276_235271_235270_235278_256E22_23527E_23527C_235279_235274),
  (0x99ED, 0x21613B_23526E_256E23_23527A_21613C_697152_235335_23532A_23532D_256E2B_23532B_235329),
  (0x99F9, 0x23532F_235325_235330_235336_235331_235326_21613E_235333_21613D_235324_235332_235344),
  (0x9A05, 0x235347_235341_235343_4B613F_23533F_235346_23533E_235338_235340_216140_23533D_235348),
  (0x9A11, 0x235345_4B6145_4B614D_235351_23534E_216142_2D6141),
  (0x9A19, 0x216141_235349_23535F_235358_23534A_235357_256E69_23534F_256E66_23534D_235354_23534C),
  (0x9A25, 0x23534B_256E62_235352),
  (0x9A29, 0x23536B_23536C_216143_235367_235360_23536A_235359_216144_235365_235364_256E7B_235362),
  (0x9A35, 0x235361_235369_216145_23535A_235372_235371_235374_256F29_235373_216149_23536E_216148),
  (0x9A41, 0x235370_235379_216146_23537A_216147_235376),
  (0x9A48, 0x23537D_235426_235427_256F3A_23537E_235422_23537C_235421_23537B),
  (0x9A52, 0x235424_235428_235423_21614A_23542C_21614D_23542A_235429_21614B_21614C_256F4D_256F52),
  (0x9A5E, 0x256F4F_21614E_235432_256F60_21614F_235431_235433_216150_235434_235435_235439_235438),
  (0x9A6A, 0x216151_23543A_27612C_27612E_276130_276131_27612F_276147),
  (0x9A73, 0x276132_27614F_295263_276137_276136_276139_276138_295369_276133_276134_27613A_276135),
  (0x9A7F, 0x27614C_295269_295422_275234_29527A_27614A_295427_27613C_27613B_27613F_29543A_276151),
  (0x9A8B, 0x27613D_27614D_295324_295329_27613E_29533D_276140_295340_295347),
  (0x9A95, 0x29537E_295379_276141_295360_29534C_276145_276142_295370_29536A_276143_29535A_276146),
  (0x9AA1, 0x276149_29537A_295421_27614E_276150_295434_295433_212E2A_23543E_256F73_235441_256F6F),
  (0x9AAD, 0x23543F_256F70_216153_216154_235443_235448_235445_23544E),
  (0x9AB6, 0x235449_216155_216156_23544A_235450_23544C_216157_235454_235453_23544B_235459_235457),
  (0x9AC2, 0x23545A_23545C_2D6159_276158_235460_23545E_23545D_25705B_23545F_29546D_29546C_257061),
  (0x9ACE, 0x235464_216158_235466_23546A_21615B_216159_21615A_23546C_23546D_25707E_212E2B_2D615C),
  (0x9ADA, 0x257126_25712A_235472_257134_257136_212E2C_235476_235478_235477_235479_23547E_257142),
  (0x9AE6, 0x21615E_235521_23547A_23547C_4B615F_235527_235525_216161_21615F_21615D),
  (0x9AF1, 0x257153_235528_235523_235524_23552F_23552E_257160_257159_235532_235531_216160_235537),
  (0x9AFD, 0x235535_235534_235533_23553B_235536_235538_216162_23553E_235541_216163_235540_23553C),
  (0x9B09, 0x23554A_235545_235543_235548_216164_235547_257234_23554F_23554E_235550_276166_235558),
  (0x9B15, 0x235555_235557_235553_235554_235559_216165),
  (0x9B1C, 0x23555A_235556_23555D_23555E_23555F_235560_216166_235566_235568_212E2D),
  (0x9B27, 0x216168_216169_23556C_23556D_235570),
  (0x9B2D, 0x235573_235574_212E2E),
  (0x9B31, 0x21616A_212E2F_23557C_23557D_235622),
  (0x9B37, 0x235623_25727C_235624_235627_235629_212E30_235630_235631_235632_235633_21616D_21616E),
  (0x9B43, 0x235636_216170_21616F_235635_276173_23563A_29563C_23563B_235641_23563D_23563E_23563C),
  (0x9B4F, 0x216171_235645_235647_235649_23564A_216172_23564E_23564D_235651_216173_23564F_212E32),
  (0x9B5B, 0x235656_25743E_235657),
  (0x9B5F, 0x235659_23565C_23565B_257440_2F595E_23566C_25744F_235668_23565F_235663_23566B_23566F),
  (0x9B6B, 0x235666_23566D_235660_235661_216176_257449_235664_257452_25744B_23565D_23566E_235667),
  (0x9B77, 0x216175),
  (0x9B7A, 0x235678_235726_235679_23567B_23567C_235733_235672_235723_23572A_235721_235675_235674),
  (0x9B86, 0x235749_235676_23572D_2F582D_235730_235727_235673_23567E_235729_23572C_23572B_216177),
  (0x9B92, 0x235731_23572E_25745E_23567A_69723B_23572F_235732_235743_23573D_23574C_235751_235739),
  (0x9B9E, 0x235742_235736_23574E_23574D_257472),
  (0x9BA4, 0x235741_23574F_235747_23573A_23573F_235738_21617A_216178_235745_23573C_216179_235752),
  (0x9BB0, 0x235746),
  (0x9BB3, 0x235740_697240_23576F_23575A_25747A_235771_235766_235758_23576B_23575B_23576D_235770),
  (0x9BBF, 0x23575E_23576E_23575F_257521_235760_23575C_23583B_23575D_235756_235772_21617C_21617B),
  (0x9BCB, 0x2D617B_25752B_235757),
  (0x9BCF, 0x697245),
  (0x9BD1, 0x697246_235759_23576C_235834_235823_23577A_235777_25754D_257535_23582E_23582D_235774),
  (0x9BDD, 0x235828_235779_23577D_235824_23582C_23582F_257546_235827_235821_235838_21617E_21617D),
  (0x9BE9, 0x235833_235822_23577C_23583A_257538),
  (0x9BEF, 0x25754A_235831_23582B_69724E_257530_235825_4D594E_235850_235851_23585E_2F572C_257539),
  (0x9BFB, 0x235848_235860_216223_23585F_23583E_355756_23585D_235852_235855_23584D_235853_235843),
  (0x9C07, 0x235841_23584B_23585C_235849_235845_23583F_216222_235842_235847_235854_235858_235859),
  (0x9C13, 0x216221_23584C_235844_25755A_23584A),
  (0x9C1B, 0x2F5870_235866_235865_257573_235864_23586A_235878_25756B_23586E_235879_216225_23586F),
  (0x9C27, 0x235877_235871_235875_257568_235863_235873_216224_235870_235869_697260_216226_235925),
  (0x9C33, 0x23592A_235933_235932_235931_235934_23592D_235929_252147_216228_23592C_235927_216227),
  (0x9C3F, 0x235923_235936_23592B_23592F_235922_235926_235921_23587E_235930_235928_21622C_235939),
  (0x9C4B, 0x25762F_257630_23593A_235947_23593F_23593D_235945_235938_235944_216229_235946_21622B),
  (0x9C57, 0x21622A_23593B_23593E_697265),
  (0x9C5D, 0x235940_235950_235955_235956_25763F_23594E_235949_23594D_25763E_235952_23594F_23595B),
  (0x9C6C, 0x257647_235958_23595E_23595C),
  (0x9C71, 0x235959_235964_235965_235962_235963_355739_21622D_21622E_25765D_23596B_23596D_276174),
  (0x9C7D, 0x295656),
  (0x9C7F, 0x276175_295663_276176_29565D),
  (0x9C84, 0x295678_295723_295721_295729_27622E),
  (0x9C8A, 0x29572E_295731),
  (0x9C8D, 0x276177_295955_29567E_29572B_29573C_29573D),
  (0x9C94, 0x27617A_295742_295747),
  (0x9C98, 0x295751_295956_295958_276178_276179_295758_295739_29593B_29575F_29596B_276226_295929),
  (0x9CA4, 0x27617C_29586E_4D5934_29576E_27617B_295756_29575A_276223),
  (0x9CAD, 0x29577A_295822_295823_29577C_29582C_295827_27617E_295828_29582F_295831_29582D_27617D),
  (0x9CBA, 0x295825_295834_295940_29584B),
  (0x9CBF, 0x29595B),
  (0x9CC1, 0x295870),
  (0x9CC3, 0x276221_295854_276222_295859_29585C),
  (0x9CCA, 0x29583E_29586A_295925_276224_295871_276225_4D5875_295864_295866_29592A_276227_295928),
  (0x9CD6, 0x27622C_276228_295932_295921),
  (0x9CDB, 0x29592C_27622B_276229_27622A_295938_29595C),
  (0x9CE2, 0x29594F_295949),
  (0x9CE5, 0x212E33_23596F_235973_257664_216230_235972_2D5F43_2F5973_216B6F),
  (0x9CF0, 0x235974_235975_235977_216233_216232_257670_216231_235A23_235A2C_235A2B_23597E_257742),
  (0x9CFC, 0x23597A_23597D_257725_23597C_235A26_257738_235A21_235A22_235A24_257741_216234_235A28),
  (0x9D08, 0x235A27_216235_257750_25767A_2D6233_23597B),
  (0x9D0F, 0x25775E_235A39_25775D_21623B_235A4A_235A4B_216236_235A32_235A31_235A49_235A43_235A33),
  (0x9D1B, 0x21623A_235A61_235A44_235A3F_235A48_235A3D_235A3C_235A47_216237_25775F_235A30_216239),
  (0x9D27, 0x257745_216238_257763_235A2F_693C32_4B6247_257822_235A5F_235A59_235A65_235A60_235A58),
  (0x9D33, 0x235A4D_235A6C_235A64_235A53_235A5B_235A62_235A50_235A52_21623C_257824_235A6B_235A63),
  (0x9D3F, 0x21623D_235A69_235A4F_235A68_235A6A_235A57_235A6D_4D5A6C),
  (0x9D48, 0x69727E_235A4E_235A78_235A74_235B29_257831_257846_235A77_25783D_21623F_235B2A_235A75),
  (0x9D54, 0x235B24_235B22_235B27_235B23_235A73_235A7B_235B26_235A79_235A70_216241_235B25_235B28),
  (0x9D60, 0x216240_21623E_257845_257837_697323),
  (0x9D66, 0x25786B_235A51_25786C_235B47_216244_235B41_216245_257869_235B4B_235B52_235B48_235B3C),
  (0x9D72, 0x216243_235B53_235B51_235B49_235B38_235B2C_235B3F_235B4A_235B2F_235B4D_25784F_235B3E),
  (0x9D7E, 0x235B42_235B43_235B39_235B30_235B50_235B4F_235B32_235B46_235B3D_235B35_235B37_216242),
  (0x9D8A, 0x235B2E_235B33_235B34),
  (0x9D8F, 0x4B5F4C_25787A_235B31_235B5E_235B6C_235B5A_257875_235B70_235B68_235B60_235B55_235B6B),
  (0x9D9B, 0x235B62_235B6E_235B5D_235B71_235B57_235B63_235B6A_235B6F_235B56_235B66_235B5C_257923),
  (0x9DA7, 0x235B6D_235C30_235B59_235B67_4D5B35_235C34_235C37_235B75_216247_235C2A_235B74_235C36),
  (0x9DB3, 0x235C2F_216246_235C2E_235B76_235B73_235B7B_235C32_235B7C_235C28_235B77_235C31_235C21),
  (0x9DBF, 0x235B78_235B79_235B7A_216248_235C27_235C2B_235C25_4D5B7E_235C22_235C35_235C52_235C24),
  (0x9DCB, 0x235C4B_235C23_235C33_257961_235B7E_235C4C_235C51_235C3F_216249_235C41_235C4E_235C45),
  (0x9DD7, 0x21624A_235C43_235C3E_235C47_235C39_235C4A_235C4D_235C46_235C3A_25797B_235C6B_235C63),
  (0x9DE3, 0x235C54_235C55_21624B_235C6C_235C61_235C68_235C4F),
  (0x9DEB, 0x235C5F_235C69_235C6A_235C6D_235C65_235C62_257A3F_235C57_235C5D_235C49_257973_235C5E),
  (0x9DF7, 0x235C5A_235C5B_21624C_21624D_235C59_235C5C_235C7E_235C70_235C74_235C7C_235C72_225021),
  (0x9E03, 0x235C73_235D21_235C79_235C7A_235C71_257A4D_235C77_257A47_235D24_235D29_235D26_235D27),
  (0x9E0F, 0x235D28_235D25_235D2B_235D2A_235D2C_235D2F_235D36_2D6246_235D33_235D37_235D38_21624E),
  (0x9E1B, 0x235D3A_235D39_235D3B_21624F_27622F_276230_275F4C_276231_276232_295977_27624A_276235),
  (0x9E27, 0x295C34_295A28_276234_276237_295B35_295D36_276238_295A3F_276239_27623B_295A48_295A44),
  (0x9E33, 0x27623A_295C7E_276236_27624B_295C3E_295A59_295A65_295A68_295A6C_295A6A_27623D_27624F),
  (0x9E3F, 0x27623C),
  (0x9E41, 0x295A75_295D3B_27623F_276240_276241_295B2A_295C49_295A70_27623E_276243_295B6C_276244),
  (0x9E4D, 0x295B42_295B52_276245_295B4B_276242_295B2E_295B2C_295C5F_295B60_295B6A_295B6B_295C28),
  (0x9E59, 0x295B70_295B79_295B5C_295B59),
  (0x9E5E, 0x276248_295C36_295C32_295B7C_295B7A_295B77_276246_295C45_27624E_276249_295C47_295C65),
  (0x9E6A, 0x295C6C_295C57_295C5B_27624D),
  (0x9E6F, 0x295C71_27624C_295D29),
  (0x9E73, 0x295D3A),
  (0x9E75, 0x212E34_235D3E_257B30),
  (0x9E79, 0x216250_235D42_235D43_216252_216251_295D42_212E35_235D47_257B46_216254_235D48_235D49),
  (0x9E85, 0x235D4E_235D4C_235D4F_235D4B_257B56_257B52_216255_235D58_235D54_235D56_257B5D_235D55),
  (0x9E91, 0x235D5C_216257_216258_235D5B_235D5A_235D59_216256_235D63_235D61_235D5E_235D5D_235D65),
  (0x9E9D, 0x216259_235D66_21625A_235D6A_235D68_235D6B_257C25_235D6C_212E36_217875_235D6F_235D72),
  (0x9EA9, 0x21625C_235D71_235D76),
  (0x9EAD, 0x235D77_235D75_235D79_235D7A_235D7B_257C5B_257C63_21625D_21625E_235E29_235E2B_27625C),
  (0x9EB9, 0x27625D_39625E_212E37_216260_4B6260_216261_257D48_235E2D_235E30_235E32_212E39_2D6262),
  (0x9EC5, 0x235E36_235E35_235E38_235E37_2F5E42_235E3A_257D5C_235E42_212E3A_216264_216265_235E4A),
  (0x9ED1, 0x212E3B_4B6266_235E4C_216269_235E51_235E50_235E4E_216268_4B6268_235E53_21626C_21626B),
  (0x9EDD, 0x21626D_21626A_235E55_21626E_295E6F_257E61_235E57_235E5A_235E59_235E58_235E5C_21626F),
  (0x9EE9, 0x276272_295E6A_235E5E_235E61_235E63_235E60_216270_235E66_235E65_235E6A_235E69_216271),
  (0x9EF5, 0x235E6E_235E6F_216272_235E73_212E3C_235E75_235E76_235E77_212E3E_235E7B_235E7C_26225C),
  (0x9F01, 0x26225A_235E7D_235F23_262261_262263_235F27_216273_235F2A_235F2B_235F2D_295E7C_295E7D),
  (0x9F0D, 0x295F2B_212E3F_235F2F_235F31_2D6274_235F32_212E40_26226E_216276_235F33_235F34_235F39),
  (0x9F19, 0x216277_235F37_235F38_235F3B_235F3D_235F3C_235F3E_212E41_4B6278_235F45_235F42_235F41),
  (0x9F25, 0x235F4B_235F49_235F46_235F4E_235F4D_235F4C_235F48_216279_235F50_235F54_235F53_262340),
  (0x9F31, 0x235F57_235F5B_235F5C_21627A_235F59_235F61_235F5F_235F5D_235F5E_235F63_212E43_26235D),
  (0x9F3D, 0x235F64_21627C_235F65_235F67_235F69_235F6B_235F6C_4D5F70_235F6D_235F6F_235F70_235F71),
  (0x9F49, 0x235F73_212E44_21627E_235F75_235F76_235F79_235F7B_27627D_295F7B_212E46),
  (0x9F54, 0x235F7C_235F7E_236021_236023_236024_23602B_23602C_236027_216326_23602D_236029_216322),
  (0x9F60, 0x236028_216324_4B6324_216323_236031_262435_216325_236032_236037_23602F_216328_262444),
  (0x9F6C, 0x216327_236042_23603F_236040_23603C_23603A_21632A_236045_236043_236046_236047_216329),
  (0x9F78, 0x236050_23604A_23604F_23604D_236056_236055_23605A_276321_295F7C_295F7E),
  (0x9F83, 0x276322_276324_29602B_296028_276326_276325_276327_276328_27632A_276329_212E48_23605B),
  (0x9F8F, 0x23605C_213D2D_23605D_262529_236061_21632C_236062_236065_236066_26252C_27632B_27632C),
  (0x9F9B, 0x296062_212E49_226960),
  (0x9F9F, 0x27632D_212E4B_23606D_23606E_236070_236072_236071),
  (0xAC00, 0x692733_6F4860_6F4861),
  (0xAC04, 0x6F4862),
  (0xAC07, 0x6F4863_6F4864_6F4865),
  (0xAC10, 0x6F4866_6F4867_6F4868_6F4869_6F486A_6F486B_6F486C_6F486D),
  (0xAC19, 0x6F486E_6F486F_6F4870_6F4871_6F4872),
  (0xAC20, 0x6F4873),
  (0xAC24, 0x6F4875),
  (0xAC2C, 0x6F4876_6F4877),
  (0xAC2F, 0x6F4878_6F4879_6F487A),
  (0xAC38, 0x6F487B_6F487C),
  (0xAC40, 0x6F487D),
  (0xAC54, 0x6F487E),
  (0xAC70, 0x6F4921_6F4922),
  (0xAC74, 0x6F4924),
  (0xAC77, 0x6F4925_6F4926_6F4927),
  (0xAC80, 0x6F4929_6F492A),
  (0xAC83, 0x6F492B_6F492C_6F492D_6F492E),
  (0xAC89, 0x6F4930_6F4931_6F4932_6F4933),
  (0xAC90, 0x6F4934),
  (0xAC94, 0x6F4935),
  (0xAC9C, 0x6F4936),
  (0xAC9F, 0x6F4937_6F4938_6F4939),
  (0xACA8, 0x6F493A_6F493B_6F493C),
  (0xACAC, 0x6F493D),
  (0xACAF, 0x6F493E_6F493F),
  (0xACB8, 0x6F4940_6F4941),
  (0xACBC, 0x6F4943_6F4944),
  (0xACC1, 0x6F4945),
  (0xACC4, 0x6F4947),
  (0xACD7, 0x6F4949),
  (0xACE0, 0x6F494A_6F494B),
  (0xACE4, 0x6F494C),
  (0xACE7, 0x6F494D_6F494E),
  (0xACEA, 0x6F494F),
  (0xACEC, 0x6F4950),
  (0xACEF, 0x6F4951_6F4952_6F4953),
  (0xACF3, 0x6F4954),
  (0xACF5, 0x6F4955_6F4956),
  (0xACFA, 0x6F4957),
  (0xACFC, 0x6F4958_6F4959),
  (0xAD00, 0x6F495A),
  (0xAD04, 0x6F495B),
  (0xAD0C, 0x6F495C_6F495D),
  (0xAD0F, 0x6F495E),
  (0xAD11, 0x6F495F),
  (0xAD18, 0x6F4960_6F4961),
  (0xAD1C, 0x6F4962),
  (0xAD20, 0x6F4963),
  (0xAD28, 0x6F4964_6F4965),
  (0xAD2D, 0x6F4966),
  (0xAD34, 0x6F4967_6F7721),
  (0xAD38, 0x6F4968),
  (0xAD3C, 0x6F4969),
  (0xAD44, 0x6F496A),
  (0xAD49, 0x6F496C),
  (0xAD50, 0x6F496D),
  (0xAD6C, 0x6F496E_6F496F),
  (0xAD70, 0x6F4970),
  (0xAD73, 0x6F4971_6F4972_6F4973_6F4974),
  (0xAD7B, 0x6F7722_6F4975_6F4976),
  (0xAD7F, 0x6F4977),
  (0xAD81, 0x6F4978_6F4979),
  (0xAD88, 0x6F497A_6F7724),
  (0xAD8C, 0x6F497B),
  (0xAD90, 0x6F497C),
  (0xAD9D, 0x6F7725),
  (0xADA4, 0x6F497E),
  (0xADB9, 0x6F7726),
  (0xADC0, 0x6F4A22),
  (0xADC4, 0x6F4A23),
  (0xADC8, 0x6F4A24),
  (0xADD0, 0x6F4A25_6F4A26),
  (0xADD3, 0x6F4A27),
  (0xADD5, 0x6F7727),
  (0xADDC, 0x6F4A28),
  (0xADE0, 0x6F4A29),
  (0xADE4, 0x6F4A2A),
  (0xADEC, 0x6F4A2B),
  (0xADF8, 0x6F4A2C_6F4A2D),
  (0xADFC, 0x6F4A2E),
  (0xADFF, 0x6F4A2F_6F4A30_6F4A31),
  (0xAE07, 0x6F7728_6F4A32_6F4A33),
  (0xAE0B, 0x6F4A34),
  (0xAE0D, 0x6F4A35_6F7729_6F772A),
  (0xAE14, 0x6F772C),
  (0xAE30, 0x6F4A36_6F4A37),
  (0xAE34, 0x6F4A38),
  (0xAE37, 0x6F4A39_6F4A3A),
  (0xAE40, 0x6F4A3B_6F4A3C),
  (0xAE43, 0x6F4A3D_6F4A3E_6F4A3F),
  (0xAE4A, 0x6F4A40),
  (0xAE4C, 0x6F4A43_6F4A44_6F4A45),
  (0xAE50, 0x6F4A46),
  (0xAE54, 0x6F4A47),
  (0xAE5C, 0x6F4A48_6F4A49),
  (0xAE5F, 0x6F772D_6F4A4A_6F4A4B_6F4A4C),
  (0xAE65, 0x6F4A4D),
  (0xAE68, 0x6F4A4E_6F4A4F),
  (0xAE6C, 0x6F4A50),
  (0xAE70, 0x6F4A51),
  (0xAE78, 0x6F4A52_6F4A53),
  (0xAE7B, 0x6F4A54_6F4A55_6F4A56)]

/-- Part of `writes`. -/
def writes1 : Chart := wide24 [
  (0xAE84, 0x6F4A57_6F4A58),
  (0xAEBC, 0x6F4A59_6F4A5A_6F4A5B),
  (0xAEC0, 0x6F4A5C),
  (0xAEC4, 0x6F4A5D),
  (0xAECC, 0x6F4A5E_6F4A5F),
  (0xAECF, 0x6F4A60_6F4A61_6F4A62),
  (0xAED8, 0x6F4A63),
  (0xAEDC, 0x6F4A64),
  (0xAEED, 0x6F772E),
  (0xAEF4, 0x6F4A65),
  (0xAF09, 0x6F772F),
  (0xAF0D, 0x6F4A66),
  (0xAF2C, 0x6F4A67_6F4A68),
  (0xAF30, 0x6F4A69),
  (0xAF34, 0x6F4A6A),
  (0xAF3C, 0x6F4A6B_6F4A6C),
  (0xAF3F, 0x6F4A6D),
  (0xAF41, 0x6F4A6E_6F4A6F_6F4A70),
  (0xAF48, 0x6F4A71_6F4A72),
  (0xAF4C, 0x6F4A73),
  (0xAF50, 0x6F7730),
  (0xAF58, 0x6F4A74),
  (0xAF5C, 0x6F4A75_6F4A76),
  (0xAF64, 0x6F4A77_6F4A78),
  (0xAF79, 0x6F4A79),
  (0xAF80, 0x6F4A7A),
  (0xAF84, 0x6F4A7B),
  (0xAF88, 0x6F4A7C),
  (0xAF90, 0x6F4A7D),
  (0xAF95, 0x6F4A7E),
  (0xAF9C, 0x6F4B21),
  (0xAFB8, 0x6F4B22_6F4B23),
  (0xAFBC, 0x6F4B24),
  (0xAFBF, 0x6F7731_6F4B25),
  (0xAFC7, 0x6F4B26_6F4B27_6F4B28),
  (0xAFCB, 0x6F4B29),
  (0xAFCD, 0x6F4B2A_6F4B2B),
  (0xAFD4, 0x6F4B2C),
  (0xAFD8, 0x6F4B2D),
  (0xAFE9, 0x6F4B2E),
  (0xAFF0, 0x6F4B2F),
  (0xB000, 0x6F4B30),
  (0xB00C, 0x6F4B32_6F4B33),
  (0xB010, 0x6F4B34),
  (0xB014, 0x6F4B35),
  (0xB01C, 0x6F4B36_6F4B37),
  (0xB028, 0x6F4B38),
  (0xB044, 0x6F4B39_6F4B3A),
  (0xB048, 0x6F4B3B),
  (0xB04A, 0x6F4B3C),
  (0xB04C, 0x6F4B3D),
  (0xB053, 0x6F4B3E_6F4B3F_6F4B40),
  (0xB057, 0x6F4B41),
  (0xB059, 0x6F4B42),
  (0xB05D, 0x6F4B43),
  (0xB060, 0x6F7732),
  (0xB07C, 0x6F4B44_6F4B45),
  (0xB080, 0x6F4B46),
  (0xB084, 0x6F4B47),
  (0xB08C, 0x6F4B48_6F4B49),
  (0xB08F, 0x6F4B4A_6F4B4B_6F4B4C),
  (0xB098, 0x6F4B4F_6F4B50_6F4B51),
  (0xB09C, 0x6F4B52),
  (0xB09F, 0x6F4B53_6F4B54_6F4B55),
  (0xB0A8, 0x6F4B56_6F4B57),
  (0xB0AB, 0x6F4B58_6F4B59_6F4B5A_6F4B5B_6F4B5C),
  (0xB0B1, 0x6F4B5D),
  (0xB0B3, 0x6F4B5E_6F4B5F_6F4B60),
  (0xB0B8, 0x6F4B61),
  (0xB0BB, 0x6F4B62_6F4B63),
  (0xB0C4, 0x6F4B64_6F4B65),
  (0xB0C7, 0x6F4B66_6F4B67_6F4B68),
  (0xB0D0, 0x6F4B69_6F4B6A),
  (0xB0E0, 0x6F4B6B),
  (0xB0E5, 0x6F4B6C),
  (0xB0EC, 0x6F4B6D),
  (0xB108, 0x6F4B6E_6F4B6F),
  (0xB10B, 0x6F4B71_6F4B72),
  (0xB10F, 0x6F4B73_6F4B74),
  (0xB113, 0x6F4B75),
  (0xB118, 0x6F4B76_6F4B77),
  (0xB11B, 0x6F4B78_6F4B79_6F4B7A_6F4B7B),
  (0xB123, 0x6F4B7C_6F4B7D_6F4B7E),
  (0xB128, 0x6F4C21),
  (0xB12C, 0x6F4C22),
  (0xB134, 0x6F4C23_6F4C24),
  (0xB137, 0x6F4C25),
  (0xB140, 0x6F4C26_6F4C27),
  (0xB144, 0x6F4C28),
  (0xB150, 0x6F4C29_6F4C2A),
  (0xB153, 0x6F4C2B_6F4C2C_6F4C2D),
  (0xB158, 0x6F4C2E),
  (0xB15C, 0x6F4C2F),
  (0xB178, 0x6F4C30_6F4C31_6F4C32),
  (0xB17C, 0x6F4C33),
  (0xB180, 0x6F4C34),
  (0xB188, 0x6F4C35_6F4C36),
  (0xB18B, 0x6F4C37),
  (0xB18D, 0x6F4C38),
  (0xB192, 0x6F4C39_6F4C3A_6F4C3B),
  (0xB1A8, 0x6F4C3C),
  (0xB1CC, 0x6F4C3D),
  (0xB1D0, 0x6F4C3E),
  (0xB1D4, 0x6F4C3F),
  (0xB1DC, 0x6F4C40),
  (0xB1E8, 0x6F4C41),
  (0xB1FD, 0x6F4C42),
  (0xB204, 0x6F4C43_6F4C44),
  (0xB208, 0x6F4C45),
  (0xB20B, 0x6F4C46_6F4C47),
  (0xB213, 0x6F4C48_6F4C49_6F4C4A),
  (0xB217, 0x6F4C4B),
  (0xB220, 0x6F4C4C),
  (0xB233, 0x6F4C4D_6F4C4E),
  (0xB258, 0x6F4C4F),
  (0xB25C, 0x6F4C50),
  (0xB260, 0x6F4C51),
  (0xB268, 0x6F4C52_6F4C53),
  (0xB274, 0x6F4C54),
  (0xB284, 0x6F4C55),
  (0xB289, 0x6F4C56),
  (0xB290, 0x6F4C57_6F4C58),
  (0xB294, 0x6F4C59),
  (0xB298, 0x6F4C5A_6F4C5B),
  (0xB2A0, 0x6F4C5C_6F4C5D),
  (0xB2A5, 0x6F4C5E_6F4C5F),
  (0xB2AA, 0x6F4C60),
  (0xB2AC, 0x6F4C61),
  (0xB2C8, 0x6F4C62_6F4C63),
  (0xB2CC, 0x6F4C64),
  (0xB2D0, 0x6F4C65),
  (0xB2D8, 0x6F4C66_6F4C67),
  (0xB2DB, 0x6F4C68),
  (0xB2DD, 0x6F4C69),
  (0xB2E2, 0x6F4C6A),
  (0xB2E4, 0x6F4C6D_6F4C6E_6F4C6F),
  (0xB2E8, 0x6F4C70),
  (0xB2EB, 0x6F4C71_6F4C72_6F4C73_6F4C74),
  (0xB2F3, 0x6F4C75_6F4C76_6F4C77),
  (0xB2F7, 0x6F4C78),
  (0xB2F9, 0x6F4C79_6F4C7A_6F4C7B),
  (0xB2FF, 0x6F4C7C_6F4C7D_6F4C7E),
  (0xB304, 0x6F4D21),
  (0xB308, 0x6F4D22),
  (0xB310, 0x6F4D23_6F4D24),
  (0xB313, 0x6F4D25_6F4D26_6F4D27),
  (0xB354, 0x6F4D28_6F4D29),
  (0xB358, 0x6F4D2A),
  (0xB35B, 0x6F4D2B_6F4D2C),
  (0xB35F, 0x6F4D2D),
  (0xB364, 0x6F4D2E_6F4D2F),
  (0xB367, 0x6F4D30_6F4D31_6F4D32_6F4D33_6F4D34),
  (0xB36E, 0x6F4D35),
  (0xB370, 0x6F4D36_6F4D37),
  (0xB374, 0x6F4D38),
  (0xB378, 0x6F4D39),
  (0xB380, 0x6F4D3A),
  (0xB383, 0x6F4D3B),
  (0xB385, 0x6F4D3C),
  (0xB38C, 0x6F4D3D),
  (0xB3C4, 0x6F4D3E_6F4D3F),
  (0xB3C8, 0x6F4D40),
  (0xB3CB, 0x6F4D41_6F4D42),
  (0xB3D0, 0x6F4D43),
  (0xB3D4, 0x6F4D44_6F4D45),
  (0xB3D7, 0x6F4D46),
  (0xB3D9, 0x6F4D47),
  (0xB3DB, 0x6F4D48),
  (0xB3FC, 0x6F4D49),
  (0xB400, 0x6F4D4A),
  (0xB410, 0x6F4D4B),
  (0xB418, 0x6F4D4C),
  (0xB41C, 0x6F4D4D),
  (0xB420, 0x6F4D4E),
  (0xB428, 0x6F4D4F_6F4D50),
  (0xB42B, 0x6F4D51_6F4D52),
  (0xB450, 0x6F4D53_6F4D54),
  (0xB454, 0x6F4D55),
  (0xB458, 0x6F4D56),
  (0xB460, 0x6F4D57_6F4D58),
  (0xB463, 0x6F4D59),
  (0xB465, 0x6F4D5A),
  (0xB46C, 0x6F4D5B),
  (0xB480, 0x6F4D5C),
  (0xB488, 0x6F4D5D),
  (0xB4A4, 0x6F4D5E),
  (0xB4B7, 0x6F4D5F),
  (0xB4C0, 0x6F4D60),
  (0xB4D0, 0x6F4D61),
  (0xB4DC, 0x6F4D62_6F4D63),
  (0xB4E0, 0x6F4D64),
  (0xB4E3, 0x6F4D65_6F4D66),
  (0xB4EC, 0x6F4D67_6F4D68),
  (0xB4EF, 0x6F4D69),
  (0xB4F1, 0x6F4D6A),
  (0xB514, 0x6F4D6B_6F4D6C),
  (0xB518, 0x6F4D6D),
  (0xB51B, 0x6F4D6E_6F4D6F),
  (0xB524, 0x6F4D70_6F4D71),
  (0xB527, 0x6F4D72_6F4D73_6F4D74_6F4D75),
  (0xB530, 0x6F4D78_6F4D79_6F4D7A),
  (0xB534, 0x6F4D7B),
  (0xB537, 0x6F4D7C_6F4D7D),
  (0xB540, 0x6F4E21_6F4E22),
  (0xB543, 0x6F4E23_6F4E24_6F4E25),
  (0xB54B, 0x6F4E26_6F4E27_6F4E28),
  (0xB550, 0x6F4E29),
  (0xB554, 0x6F4E2A),
  (0xB55C, 0x6F4E2B_6F4E2C),
  (0xB55F, 0x6F4E2D_6F4E2E_6F4E2F),
  (0xB5A0, 0x6F4E30_6F4E31),
  (0xB5A4, 0x6F4E32),
  (0xB5A8, 0x6F4E33),
  (0xB5AB, 0x6F4E34),
  (0xB5B0, 0x6F4E35_6F4E36),
  (0xB5B3, 0x6F4E37_6F4E38_6F4E39),
  (0xB5BB, 0x6F4E3A_6F4E3B),
  (0xB5C0, 0x6F4E3C),
  (0xB5C4, 0x6F4E3D),
  (0xB5CC, 0x6F4E3E),
  (0xB5CF, 0x6F4E3F),
  (0xB5D1, 0x6F4E40),
  (0xB610, 0x6F4E41_6F4E42),
  (0xB614, 0x6F4E43),
  (0xB618, 0x6F4E44),
  (0xB625, 0x6F4E45),
  (0xB664, 0x6F4E46),
  (0xB69C, 0x6F4E47_6F4E48),
  (0xB6A4, 0x6F4E49),
  (0xB6AB, 0x6F4E4A_6F4E4B),
  (0xB6B1, 0x6F4E4C),
  (0xB6F0, 0x6F4E4D),
  (0xB6F4, 0x6F4E4E),
  (0xB6F8, 0x6F4E4F),
  (0xB700, 0x6F4E50),
  (0xB728, 0x6F4E52_6F4E53),
  (0xB72C, 0x6F4E54),
  (0xB72F, 0x6F4E55_6F4E56),
  (0xB738, 0x6F4E57_6F4E58),
  (0xB73B, 0x6F4E59),
  (0xB744, 0x6F4E5A),
  (0xB748, 0x6F4E5B),
  (0xB760, 0x6F4E5C),
  (0xB764, 0x6F4E5D),
  (0xB768, 0x6F4E5E),
  (0xB770, 0x6F4E5F_6F4E60),
  (0xB775, 0x6F4E61),
  (0xB77C, 0x6F4E64_6F4E65),
  (0xB780, 0x6F4E66),
  (0xB784, 0x6F4E67),
  (0xB78C, 0x6F4E68_6F4E69),
  (0xB78F, 0x6F4E6A_6F4E6B_6F4E6C),
  (0xB797, 0x6F4E6D_6F4E6E_6F4E6F),
  (0xB79C, 0x6F4E70),
  (0xB7A0, 0x6F4E71),
  (0xB7A8, 0x6F4E72_6F4E73),
  (0xB7AB, 0x6F4E74_6F4E75_6F4E76),
  (0xB7B4, 0x6F4E77_6F4E78),
  (0xB7C9, 0x6F4E79),
  (0xB7EC, 0x6F4E7A_6F4E7B),
  (0xB7F0, 0x6F4E7C),
  (0xB7F4, 0x6F4E7D),
  (0xB7FC, 0x6F4E7E_6F4F21),
  (0xB7FF, 0x6F4F22_6F4F23_6F4F24),
  (0xB807, 0x6F4F25_6F4F26_6F4F27),
  (0xB80C, 0x6F4F28),
  (0xB810, 0x6F4F29),
  (0xB818, 0x6F4F2A_6F4F2B),
  (0xB81B, 0x6F4F2C),
  (0xB81D, 0x6F4F2D),
  (0xB824, 0x6F4F2E_6F4F2F),
  (0xB828, 0x6F4F30),
  (0xB82C, 0x6F4F31),
  (0xB834, 0x6F4F32_6F4F33),
  (0xB837, 0x6F4F34_6F4F35_6F4F36),
  (0xB840, 0x6F4F37),
  (0xB85C, 0x6F4F38_6F4F39),
  (0xB860, 0x6F4F3A),
  (0xB864, 0x6F4F3B),
  (0xB86C, 0x6F4F3C_6F4F3D),
  (0xB86F, 0x6F4F3E),
  (0xB871, 0x6F4F3F),
  (0xB8B0, 0x6F4F40),
  (0xB8CC, 0x6F4F41),
  (0xB8E1, 0x6F4F42),
  (0xB8E8, 0x6F4F43_6F4F44),
  (0xB8EC, 0x6F4F45),
  (0xB8F0, 0x6F4F46),
  (0xB8F8, 0x6F4F47_6F4F48),
  (0xB8FB, 0x6F4F49),
  (0xB8FD, 0x6F4F4A),
  (0xB904, 0x6F4F4B),
  (0xB93C, 0x6F4F4C),
  (0xB958, 0x6F4F4D_6F4F4E),
  (0xB95C, 0x6F4F4F),
  (0xB960, 0x6F4F50),
  (0xB968, 0x6F4F51),
  (0xB96D, 0x6F4F52),
  (0xB974, 0x6F4F53_6F4F54),
  (0xB978, 0x6F4F55),
  (0xB97C, 0x6F4F56),
  (0xB984, 0x6F4F57_6F4F58),
  (0xB987, 0x6F4F59),
  (0xB989, 0x6F4F5A),
  (0xB98E, 0x6F4F5B),
  (0xB9AC, 0x6F4F5C_6F4F5D),
  (0xB9B0, 0x6F4F5E),
  (0xB9B4, 0x6F4F5F),
  (0xB9BC, 0x6F4F60_6F4F61),
  (0xB9BF, 0x6F4F62),
  (0xB9C1, 0x6F4F63),
  (0xB9C4, 0x6F7733),
  (0xB9C8, 0x6F4F66_6F4F67),
  (0xB9CC, 0x6F4F68),
  (0xB9CE, 0x6F4F69_6F4F6A_6F4F6B_6F4F6C),
  (0xB9D8, 0x6F4F6D_6F4F6E),
  (0xB9DB, 0x6F4F6F),
  (0xB9DD, 0x6F4F70_6F4F71),
  (0xB9E1, 0x6F4F72),
  (0xB9E3, 0x6F4F73_6F4F74_6F4F75),
  (0xB9E8, 0x6F4F76),
  (0xB9EC, 0x6F4F77),
  (0xB9F4, 0x6F4F78_6F4F79),
  (0xB9F7, 0x6F4F7A_6F4F7B_6F4F7C_6F4F7D),
  (0xBA00, 0x6F4F7E),
  (0xBA38, 0x6F5021_6F5022),
  (0xBA3C, 0x6F5023),
  (0xBA40, 0x6F5024),
  (0xBA48, 0x6F5025_6F5026),
  (0xBA4B, 0x6F5027),
  (0xBA4D, 0x6F5028_6F5029),
  (0xBA53, 0x6F502A_6F502B_6F502C),
  (0xBA58, 0x6F502D),
  (0xBA5C, 0x6F502E),
  (0xBA64, 0x6F502F_6F5030),
  (0xBA67, 0x6F5031),
  (0xBA70, 0x6F5032_6F5033),
  (0xBA74, 0x6F5034),
  (0xBA78, 0x6F5035),
  (0xBA83, 0x6F5036_6F5037_6F5038),
  (0xBA87, 0x6F5039),
  (0xBAA8, 0x6F503A_6F503B),
  (0xBAAB, 0x6F503C_6F503D),
  (0xBAB0, 0x6F503E),
  (0xBAB8, 0x6F503F_6F5040),
  (0xBABB, 0x6F5041),
  (0xBABD, 0x6F5042),
  (0xBAC3, 0x6F5043),
  (0xBAFC, 0x6F5044),
  (0xBB0F, 0x6F5045),
  (0xBB18, 0x6F5046),
  (0xBB34, 0x6F5047_6F5048_6F5049),
  (0xBB38, 0x6F504A),
  (0xBB3B, 0x6F504B_6F504C_6F504D),
  (0xBB44, 0x6F504E),
  (0xBB47, 0x6F504F),
  (0xBB49, 0x6F5050),
  (0xBB4D, 0x6F5051),
  (0xBB4F, 0x6F5052_6F5053),
  (0xBB54, 0x6F5054),
  (0xBB58, 0x6F5055),
  (0xBB61, 0x6F5056),
  (0xBB63, 0x6F5057),
  (0xBB88, 0x6F5058),
  (0xBB8C, 0x6F5059),
  (0xBBA4, 0x6F505A),
  (0xBBB4, 0x6F506B),
  (0xBBC0, 0x6F505B),
  (0xBBC4, 0x6F505C),
  (0xBBC8, 0x6F505D),
  (0xBBD0, 0x6F505E),
  (0xBBF8, 0x6F505F_6F5060),
  (0xBBFC, 0x6F5061),
  (0xBBFF, 0x6F5062_6F5063),
  (0xBC08, 0x6F5064_6F5065),
  (0xBC0B, 0x6F5066),
  (0xBC0D, 0x6F5068),
  (0xBC0F, 0x6F5069),
  (0xBC11, 0x6F506A),
  (0xBC14, 0x6F506D_6F506E_6F506F),
  (0xBC18, 0x6F5070),
  (0xBC1B, 0x6F5071_6F5072_6F5073),
  (0xBC1F, 0x6F5074),
  (0xBC24, 0x6F5075_6F5076),
  (0xBC27, 0x6F5077),
  (0xBC29, 0x6F5078),
  (0xBC2D, 0x6F5079),
  (0xBC30, 0x6F507A_6F507B),
  (0xBC34, 0x6F507C),
  (0xBC37, 0x6F507D_6F507E),
  (0xBC40, 0x6F5121_6F5122),
  (0xBC43, 0x6F5123_6F5124_6F5125),
  (0xBC84, 0x6F5126_6F5127),
  (0xBC88, 0x6F5128),
  (0xBC8B, 0x6F5129_6F512A),
  (0xBC94, 0x6F512B_6F512C),
  (0xBC97, 0x6F512D_6F512E_6F512F_6F5130),
  (0xBCA0, 0x6F5131_6F5132),
  (0xBCA4, 0x6F5133),
  (0xBCA7, 0x6F5134_6F5135),
  (0xBCB0, 0x6F5136_6F5137),
  (0xBCB3, 0x6F5138),
  (0xBCB5, 0x6F5139),
  (0xBCBC, 0x6F513A_6F513B),
  (0xBCC0, 0x6F513C),
  (0xBCC4, 0x6F513D),
  (0xBCCC, 0x6F513E_6F513F),
  (0xBCCF, 0x6F5140_6F5141_6F5142_6F5143),
  (0xBCD5, 0x6F5144),
  (0xBCF4, 0x6F5145_6F5146_6F5147),
  (0xBCF8, 0x6F5148),
  (0xBCFC, 0x6F5149),
  (0xBD04, 0x6F514A_6F514B),
  (0xBD07, 0x6F514C),
  (0xBD09, 0x6F514D),
  (0xBD10, 0x6F514E),
  (0xBD14, 0x6F514F),
  (0xBD24, 0x6F5150),
  (0xBD48, 0x6F5151_6F5152),
  (0xBD4C, 0x6F5153),
  (0xBD50, 0x6F5154),
  (0xBD58, 0x6F5155_6F5156),
  (0xBD64, 0x6F5157),
  (0xBD80, 0x6F5158_6F5159),
  (0xBD84, 0x6F515A),
  (0xBD87, 0x6F515B_6F515C_6F515D),
  (0xBD90, 0x6F515E_6F515F),
  (0xBD93, 0x6F5160),
  (0xBD95, 0x6F5161),
  (0xBD99, 0x6F5162),
  (0xBD9C, 0x6F5163),
  (0xBDD4, 0x6F5164),
  (0xBDF0, 0x6F5165),
  (0xBE0C, 0x6F5166_6F5167),
  (0xBE10, 0x6F5168),
  (0xBE14, 0x6F5169),
  (0xBE1C, 0x6F516A_6F516B),
  (0xBE1F, 0x6F516C),
  (0xBE44, 0x6F516D_6F516E),
  (0xBE48, 0x6F516F),
  (0xBE4B, 0x6F5170_6F5171),
  (0xBE4E, 0x6F5172),
  (0xBE54, 0x6F5173_6F5174),
  (0xBE57, 0x6F5175),
  (0xBE59, 0x6F5176_6F5177_6F5178),
  (0xBE60, 0x6F517B_6F517C),
  (0xBE64, 0x6F517D),
  (0xBE68, 0x6F517E),
  (0xBE70, 0x6F5221_6F5222),
  (0xBE73, 0x6F5223_6F5224_6F5225),
  (0xBE7B, 0x6F5226_6F5227_6F5228),
  (0xBE80, 0x6F5229),
  (0xBE84, 0x6F522A),
  (0xBE8C, 0x6F522B),
  (0xBE8F, 0x6F522C_6F522D_6F522E),
  (0xBE98, 0x6F522F),
  (0xBEA8, 0x6F5230),
  (0xBED0, 0x6F5231_6F5232),
  (0xBED4, 0x6F5233),
  (0xBED7, 0x6F5234_6F5235),
  (0xBEE0, 0x6F5236),
  (0xBEE3, 0x6F5237_6F5238_6F5239),
  (0xBEEC, 0x6F523A),
  (0xBF01, 0x6F4E51),
  (0xBF08, 0x6F523B_6F523C),
  (0xBF18, 0x6F523D),
  (0xBF1D, 0x6F523E),
  (0xBF40, 0x6F523F_6F5240),
  (0xBF44, 0x6F5241),
  (0xBF48, 0x6F5242),
  (0xBF50, 0x6F5243_6F5244),
  (0xBF55, 0x6F5245),
  (0xBFB0, 0x6F5246),
  (0xBFC0, 0x6F5247),
  (0xBFC5, 0x6F5248),
  (0xBFCC, 0x6F5249_6F524A),
  (0xBFD0, 0x6F524B),
  (0xBFD4, 0x6F524C),
  (0xBFDC, 0x6F524D_6F524E),
  (0xBFE1, 0x6F524F),
  (0xC058, 0x6F5250_6F5251),
  (0xC05C, 0x6F5252),
  (0xC060, 0x6F5253),
  (0xC068, 0x6F5254_6F5255),
  (0xC090, 0x6F5256_6F5257),
  (0xC094, 0x6F5258),
  (0xC098, 0x6F5259),
  (0xC0A0, 0x6F525A),
  (0xC0A3, 0x6F525B),
  (0xC0A5, 0x6F525C),
  (0xC0AC, 0x6F525F_6F5260_6F5261_6F5262_6F5263),
  (0xC0B3, 0x6F5264_6F5265_6F5266_6F5267),
  (0xC0BC, 0x6F5268_6F5269),
  (0xC0BF, 0x6F526A_6F526B_6F526C),
  (0xC0C5, 0x6F526D),
  (0xC0C8, 0x6F526E_6F526F),
  (0xC0CC, 0x6F5270),
  (0xC0CF, 0x6F5271_6F5272),
  (0xC0D8, 0x6F5273_6F5274),
  (0xC0DB, 0x6F5275_6F5276_6F5277),
  (0xC0E4, 0x6F5278_6F5279),
  (0xC0E8, 0x6F527A),
  (0xC0EC, 0x6F527B),
  (0xC0F4, 0x6F527C),
  (0xC0F7, 0x6F527D),
  (0xC0F9, 0x6F527E),
  (0xC11C, 0x6F5321_6F5322_6F5323),
  (0xC120, 0x6F5324),
  (0xC123, 0x6F5325_6F5326_6F5327_6F5328_6F5329),
  (0xC12A, 0x6F532A),
  (0xC12C, 0x6F532B_6F532C),
  (0xC12F, 0x6F532D_6F532E_6F532F),
  (0xC136, 0x6F5330),
  (0xC138, 0x6F5331_6F5332),
  (0xC13C, 0x6F5333),
  (0xC140, 0x6F5334),
  (0xC148, 0x6F5335_6F5336),
  (0xC14B, 0x6F5337),
  (0xC14D, 0x6F5338),
  (0xC151, 0x6F5339),
  (0xC154, 0x6F533A),
  (0xC158, 0x6F533B),
  (0xC167, 0x6F533C_6F533D),
  (0xC170, 0x6F533E),
  (0xC18C, 0x6F533F_6F5340_6F5341),
  (0xC190, 0x6F5342),
  (0xC194, 0x6F5343),
  (0xC19C, 0x6F5344_6F5345),
  (0xC19F, 0x6F5346),
  (0xC1A1, 0x6F5347),
  (0xC1A5, 0x6F5348),
  (0xC1A8, 0x6F5349_6F534A),
  (0xC1B0, 0x6F534B),
  (0xC1C4, 0x6F534C),
  (0xC1C8, 0x6F534D),
  (0xC1D7, 0x6F534E),
  (0xC1E0, 0x6F534F),
  (0xC1E4, 0x6F5350),
  (0xC1E8, 0x6F5351),
  (0xC1F0, 0x6F5352_6F5353),
  (0xC1F3, 0x6F5354),
  (0xC1FC, 0x6F5355_6F5356),
  (0xC200, 0x6F5357),
  (0xC204, 0x6F5358),
  (0xC20D, 0x6F5359),
  (0xC218, 0x6F535B_6F535C),
  (0xC21C, 0x6F535D),
  (0xC21F, 0x6F535E_6F535F),
  (0xC228, 0x6F5360_6F5361),
  (0xC22B, 0x6F5362),
  (0xC22D, 0x6F5363),
  (0xC22F, 0x6F5364),
  (0xC231, 0x6F5365_6F5366),
  (0xC234, 0x6F5367),
  (0xC250, 0x6F5368),
  (0xC258, 0x6F5369),
  (0xC26C, 0x6F536A),
  (0xC270, 0x6F536B),
  (0xC274, 0x6F536C),
  (0xC27C, 0x6F536D_6F536E),
  (0xC27F, 0x6F536F),
  (0xC281, 0x6F5370),
  (0xC288, 0x6F5371_6F5372),
  (0xC290, 0x6F5373),
  (0xC298, 0x6F5374),
  (0xC29B, 0x6F5375),
  (0xC29D, 0x6F5376),
  (0xC2A4, 0x6F5377_6F5378),
  (0xC2A8, 0x6F5379),
  (0xC2AC, 0x6F537A_6F537B),
  (0xC2B4, 0x6F537D_6F537E),
  (0xC2B7, 0x6F5421),
  (0xC2B9, 0x6F5422),
  (0xC2DC, 0x6F5423_6F5424),
  (0xC2E0, 0x6F5425),
  (0xC2E3, 0x6F5426_6F5427),
  (0xC2EB, 0x6F5428_6F5429_6F542A),
  (0xC2EF, 0x6F542B),
  (0xC2F1, 0x6F542C),
  (0xC2F6, 0x6F542D),
  (0xC2F8, 0x6F5430_6F5431),
  (0xC2FC, 0x6F5432),
  (0xC300, 0x6F5433),
  (0xC308, 0x6F5434_6F5435),
  (0xC30B, 0x6F5436_6F5437_6F5438),
  (0xC313, 0x6F5439_6F543A_6F543B),
  (0xC318, 0x6F543C),
  (0xC31C, 0x6F543D),
  (0xC324, 0x6F543E),
  (0xC327, 0x6F543F_6F5440_6F5441),
  (0xC330, 0x6F5442),
  (0xC343, 0x6F5443),
  (0xC345, 0x6F5444),
  (0xC368, 0x6F5445_6F5446),
  (0xC36C, 0x6F5447),
  (0xC370, 0x6F5448),
  (0xC372, 0x6F5449),
  (0xC378, 0x6F544A_6F544B),
  (0xC37C, 0x6F544C_6F544D),
  (0xC384, 0x6F544E),
  (0xC388, 0x6F544F),
  (0xC399, 0x6F5450),
  (0xC3D8, 0x6F5451_6F5452),
  (0xC3DC, 0x6F5453),
  (0xC3DF, 0x6F5454_6F5455),
  (0xC3E8, 0x6F5456),
  (0xC3ED, 0x6F5457),
  (0xC3F4, 0x6F5458_6F5459),
  (0xC410, 0x6F545A),
  (0xC42C, 0x6F545B),
  (0xC430, 0x6F545C),
  (0xC434, 0x6F545D),
  (0xC43C, 0x6F545E),
  (0xC43F, 0x6F545F),
  (0xC464, 0x6F5460_6F5461),
  (0xC468, 0x6F5462),
  (0xC46C, 0x6F5463),
  (0xC474, 0x6F5464),
  (0xC479, 0x6F5465),
  (0xC480, 0x6F5466),
  (0xC494, 0x6F5467),
  (0xC4D4, 0x6F5468_6F5469),
  (0xC4F0, 0x6F546A_6F546B),
  (0xC4F4, 0x6F546C),
  (0xC4F8, 0x6F546D),
  (0xC500, 0x6F546E_6F546F),
  (0xC50C, 0x6F5470),
  (0xC510, 0x6F5471),
  (0xC528, 0x6F5472_6F5473),
  (0xC52C, 0x6F5474),
  (0xC530, 0x6F5475),
  (0xC538, 0x6F5476_6F5477),
  (0xC53B, 0x6F5478),
  (0xC53D, 0x6F5479),
  (0xC544, 0x6F547C_6F547D),
  (0xC548, 0x6F547E_6F5521_6F5522),
  (0xC54C, 0x6F5523_6F7734_6F5524_6F7735),
  (0xC552, 0x6F7736_6F5525_6F5526_6F5527),
  (0xC557, 0x6F5528_6F5529_6F552A),
  (0xC55E, 0x6F552B_6F552C_6F552D_6F552E),
  (0xC564, 0x6F552F),
  (0xC568, 0x6F5530),
  (0xC570, 0x6F5531_6F5532),
  (0xC573, 0x6F5533_6F5534_6F5535),
  (0xC57C, 0x6F5536_6F5537),
  (0xC580, 0x6F5538),
  (0xC584, 0x6F5539),
  (0xC587, 0x6F553A),
  (0xC58C, 0x6F553B_6F553C),
  (0xC58F, 0x6F553D_6F553E_6F553F),
  (0xC595, 0x6F5540),
  (0xC597, 0x6F5541_6F5542),
  (0xC59C, 0x6F5543),
  (0xC5AB, 0x6F7737),
  (0xC5B4, 0x6F5544_6F5545_6F5546),
  (0xC5B8, 0x6F5547_6F5548_6F5549_6F554A_6F554B_6F554C),
  (0xC5C4, 0x6F554D_6F554E_6F554F_6F5550_6F5551_6F5552_6F5553),
  (0xC5CC, 0x6F5554),
  (0xC5CE, 0x6F5555),
  (0xC5D0, 0x6F5556_6F5557),
  (0xC5D4, 0x6F5558),
  (0xC5D8, 0x6F5559),
  (0xC5E0, 0x6F555A_6F555B),
  (0xC5E3, 0x6F555C),
  (0xC5E5, 0x6F555D),
  (0xC5EC, 0x6F555E_6F555F_6F5560),
  (0xC5F0, 0x6F5561),
  (0xC5F4, 0x6F5562),
  (0xC5F6, 0x6F5563_6F5564),
  (0xC5FC, 0x6F5565_6F5566_6F5567_6F5568_6F5569_6F556A),
  (0xC606, 0x6F556B_6F556C_6F556D),
  (0xC60C, 0x6F556E),
  (0xC610, 0x6F556F),
  (0xC61B, 0x6F5570_6F7739_6F773A),
  (0xC624, 0x6F5571_6F5572),
  (0xC628, 0x6F5573),
  (0xC62C, 0x6F5574_6F5575_6F5576),
  (0xC633, 0x6F5577_6F5578_6F5579),
  (0xC637, 0x6F557A),
  (0xC639, 0x6F557B_6F557C_6F557D),
  (0xC640, 0x6F557E_6F5621),
  (0xC644, 0x6F5622),
  (0xC648, 0x6F5623),
  (0xC650, 0x6F5624_6F5625),
  (0xC653, 0x6F5626_6F5627),
  (0xC65C, 0x6F5629_6F562A),
  (0xC660, 0x6F562B),
  (0xC671, 0x6F562C),
  (0xC678, 0x6F562D_6F562E),
  (0xC67C, 0x6F562F),
  (0xC680, 0x6F5630),
  (0xC688, 0x6F5631),
  (0xC68B, 0x6F5632),
  (0xC68D, 0x6F5633),
  (0xC694, 0x6F5634_6F5635),
  (0xC698, 0x6F5636),
  (0xC6A5, 0x6F5637),
  (0xC6A7, 0x6F5638),
  (0xC6A9, 0x6F5639),
  (0xC6B0, 0x6F563A_6F563B),
  (0xC6B4, 0x6F563C),
  (0xC6B7, 0x6F563D_6F563E_6F563F_6F5640),
  (0xC6C0, 0x6F5641_6F5642),
  (0xC6C3, 0x6F5643),
  (0xC6C5, 0x6F5644),
  (0xC6CC, 0x6F5645_6F5646),
  (0xC6D0, 0x6F5647),
  (0xC6D4, 0x6F5648),
  (0xC6DC, 0x6F5649_6F564A),
  (0xC6DF, 0x6F564B_6F564C_6F564D),
  (0xC6E8, 0x6F564E_6F564F),
  (0xC6EC, 0x6F5650),
  (0xC6F0, 0x6F5651),
  (0xC6F8, 0x6F5652),
  (0xC6FD, 0x6F773B),
  (0xC704, 0x6F5653_6F5654),
  (0xC708, 0x6F5655),
  (0xC70C, 0x6F5656),
  (0xC714, 0x6F5657),
  (0xC717, 0x6F5658),
  (0xC719, 0x6F5659),
  (0xC720, 0x6F565A_6F565B),
  (0xC724, 0x6F565C),
  (0xC728, 0x6F565D),
  (0xC730, 0x6F565E),
  (0xC733, 0x6F773D),
  (0xC735, 0x6F565F),
  (0xC737, 0x6F5660),
  (0xC73C, 0x6F5661_6F5662),
  (0xC740, 0x6F5663),
  (0xC744, 0x6F5664),
  (0xC74A, 0x6F5665),
  (0xC74C, 0x6F5666_6F5667),
  (0xC751, 0x6F5668),
  (0xC758, 0x6F5669),
  (0xC774, 0x6F566A_6F566B),
  (0xC778, 0x6F566C),
  (0xC77C, 0x6F566D_6F566E),
  (0xC783, 0x6F566F_6F5670_6F5671),
  (0xC787, 0x6F5672_6F5673_6F5674_6F5675),
  (0xC78E, 0x6F5676_6F5677_6F5679_6F567A),
  (0xC794, 0x6F567B),
  (0xC796, 0x6F567C),
  (0xC798, 0x6F567D),
  (0xC7A0, 0x6F567E_6F5721),
  (0xC7A3, 0x6F5722_6F5723_6F5724_6F5725_6F5726),
  (0xC7AC, 0x6F5727_6F5728),
  (0xC7B0, 0x6F5729),
  (0xC7B4, 0x6F572A),
  (0xC7BC, 0x6F572B_6F572C),
  (0xC7BF, 0x6F572D_6F572E_6F572F),
  (0xC7C8, 0x6F5730_6F5731),
  (0xC7CC, 0x6F5732),
  (0xC7D8, 0x6F5733),
  (0xC800, 0x6F5734_6F5735),
  (0xC804, 0x6F5736),
  (0xC808, 0x6F5737),
  (0xC80A, 0x6F5738),
  (0xC810, 0x6F5739_6F573A),
  (0xC813, 0x6F573B_6F573C_6F573D_6F573E),
  (0xC81C, 0x6F573F_6F5740),
  (0xC820, 0x6F5741),
  (0xC824, 0x6F5742),
  (0xC82C, 0x6F5743_6F5744),
  (0xC82F, 0x6F5745),
  (0xC838, 0x6F5746),
  (0xC83C, 0x6F5747),
  (0xC84C, 0x6F5748),
  (0xC870, 0x6F5749_6F574A),
  (0xC874, 0x6F574B),
  (0xC878, 0x6F574C),
  (0xC87A, 0x6F574D),
  (0xC880, 0x6F574E_6F574F),
  (0xC885, 0x6F5750_6F5751_6F5752),
  (0xC88B, 0x6F5753_6F5754_6F5755),
  (0xC890, 0x6F5756),
  (0xC894, 0x6F5757),
  (0xC89C, 0x6F5758_6F5759),
  (0xC89F, 0x6F575A_6F575B),
  (0xC8A8, 0x6F575D),
  (0xC8AC, 0x6F575E),
  (0xC8B0, 0x6F575F),
  (0xC8B8, 0x6F5760),
  (0xC8C4, 0x6F5761),
  (0xC8C8, 0x6F5762),
  (0xC8CC, 0x6F5763),
  (0xC8D4, 0x6F5764_6F5765),
  (0xC8D7, 0x6F5766),
  (0xC8E0, 0x6F5767),
  (0xC8E4, 0x6F5768),
  (0xC8F0, 0x6F5769_6F576A),
  (0xC8F5, 0x6F576B),
  (0xC8FC, 0x6F576C_6F576D),
  (0xC900, 0x6F576E),
  (0xC904, 0x6F576F),
  (0xC906, 0x6F5770),
  (0xC90C, 0x6F5771_6F5772),
  (0xC90F, 0x6F5773),
  (0xC911, 0x6F5774),
  (0xC918, 0x6F5775),
  (0xC92C, 0x6F5776),
  (0xC950, 0x6F5777),
  (0xC954, 0x6F5779),
  (0xC958, 0x6F577A),
  (0xC960, 0x6F577B_6F577C),
  (0xC96C, 0x6F577D),
  (0xC970, 0x6F577E),
  (0xC974, 0x6F5821),
  (0xC988, 0x6F5822_6F5823),
  (0xC98C, 0x6F5824),
  (0xC990, 0x6F5825),
  (0xC998, 0x6F5826_6F5827),
  (0xC99D, 0x6F5828),
  (0xC9C0, 0x6F5829_6F582A),
  (0xC9C4, 0x6F582B),
  (0xC9C7, 0x6F582C_6F582D),
  (0xC9CA, 0x6F582E),
  (0xC9D0, 0x6F582F_6F5830),
  (0xC9D3, 0x6F5831),
  (0xC9D5, 0x6F5832_6F5833),
  (0xC9D9, 0x6F5834_6F5835),
  (0xC9DC, 0x6F5838_6F5839),
  (0xC9E0, 0x6F583A),
  (0xC9E2, 0x6F583B),
  (0xC9E4, 0x6F583C),
  (0xC9E7, 0x6F583E),
  (0xC9EC, 0x6F583F_6F5840),
  (0xC9EF, 0x6F5841_6F5842_6F5843),
  (0xC9F8, 0x6F5844_6F5845),
  (0xC9FC, 0x6F5846),
  (0xCA00, 0x6F5847),
  (0xCA08, 0x6F5848_6F5849),
  (0xCA0B, 0x6F584A_6F584B_6F584C),
  (0xCA18, 0x6F584D),
  (0xCA4C, 0x6F584E_6F584F),
  (0xCA50, 0x6F5850),
  (0xCA54, 0x6F5851),
  (0xCA5C, 0x6F5852_6F5853),
  (0xCA61, 0x6F5854),
  (0xCA84, 0x6F5855),
  (0xCA98, 0x6F5856),
  (0xCABC, 0x6F5857_6F5858),
  (0xCAC0, 0x6F5859),
  (0xCAC4, 0x6F585A),
  (0xCACC, 0x6F585B_6F585C),
  (0xCAD1, 0x6F585D_6F585E_6F585F),
  (0xCAD8, 0x6F5860_6F5861),
  (0xCB10, 0x6F5862),
  (0xCB14, 0x6F5863),
  (0xCB18, 0x6F5864),
  (0xCB20, 0x6F5865_6F5866),
  (0xCB41, 0x6F5867),
  (0xCB48, 0x6F5868_6F5869),
  (0xCB4C, 0x6F773E),
  (0xCB50, 0x6F586A),
  (0xCB58, 0x6F586B_6F586C),
  (0xCB5D, 0x6F586D),
  (0xCB64, 0x6F586E),
  (0xCBB8, 0x6F586F),
  (0xCBD4, 0x6F5870),
  (0xCBE4, 0x6F5871),
  (0xCBE7, 0x6F5872),
  (0xCC0C, 0x6F5873_6F5874),
  (0xCC10, 0x6F5875),
  (0xCC14, 0x6F5876),
  (0xCC1C, 0x6F5877_6F5878),
  (0xCC21, 0x6F5879_6F587A),
  (0xCC27, 0x6F587B_6F587E_6F5921),
  (0xCC2C, 0x6F5922),
  (0xCC2E, 0x6F5923_6F5924_6F5925),
  (0xCC38, 0x6F5926_6F5927),
  (0xCC3B, 0x6F5928_6F5929_6F592A_6F592B_6F592C),
  (0xCC44, 0x6F592D_6F592E),
  (0xCC48, 0x6F592F),
  (0xCC4C, 0x6F5930),
  (0xCC54, 0x6F5931_6F5932),
  (0xCC58, 0x6F5933_6F5934),
  (0xCC60, 0x6F5935),
  (0xCC64, 0x6F5936),
  (0xCC70, 0x6F5937_6F5938),
  (0xCC98, 0x6F5939_6F593A),
  (0xCC9C, 0x6F593B),
  (0xCCA0, 0x6F593C),
  (0xCCA8, 0x6F593D_6F593E),
  (0xCCAB, 0x6F593F),
  (0xCCAD, 0x6F5940),
  (0xCCB4, 0x6F5941_6F5942),
  (0xCCB8, 0x6F5943),
  (0xCCBC, 0x6F5944),
  (0xCCC7, 0x6F5945),
  (0xCCD0, 0x6F5946),
  (0xCCE4, 0x6F5947),
  (0xCD08, 0x6F5948_6F5949),
  (0xCD0C, 0x6F594A),
  (0xCD10, 0x6F594B),
  (0xCD18, 0x6F594C_6F594D),
  (0xCD1B, 0x6F594E),
  (0xCD1D, 0x6F594F),
  (0xCD2C, 0x6F5950),
  (0xCD5C, 0x6F5951),
  (0xCD78, 0x6F5952),
  (0xCD94, 0x6F5953_6F5954),
  (0xCD98, 0x6F5955),
  (0xCD9C, 0x6F5956),
  (0xCDA4, 0x6F5957_6F5958),
  (0xCDA7, 0x6F5959),
  (0xCDA9, 0x6F595A),
  (0xCDB0, 0x6F595B),
  (0xCDC4, 0x6F595C),
  (0xCDCC, 0x6F595D),
  (0xCDE8, 0x6F595E),
  (0xCE04, 0x6F595F),
  (0xCE20, 0x6F5960_6F5961),
  (0xCE30, 0x6F5962),
  (0xCE35, 0x6F5963),
  (0xCE58, 0x6F5964_6F5965),
  (0xCE5C, 0x6F5966),
  (0xCE60, 0x6F5967_6F5968),
  (0xCE68, 0x6F5969_6F596A),
  (0xCE6B, 0x6F596B),
  (0xCE6D, 0x6F596C),
  (0xCE74, 0x6F596F_6F5970),
  (0xCE78, 0x6F5971),
  (0xCE7C, 0x6F5972),
  (0xCE84, 0x6F5973_6F5974),
  (0xCE87, 0x6F5975),
  (0xCE89, 0x6F5976),
  (0xCE90, 0x6F5977_6F5978),
  (0xCE94, 0x6F5979),
  (0xCE98, 0x6F597A),
  (0xCEA0, 0x6F597B_6F597C),
  (0xCEA3, 0x6F597D),
  (0xCEA5, 0x6F5A21),
  (0xCEAC, 0x6F5A22_6F5A23),
  (0xCEE4, 0x6F5A24),
  (0xCEE8, 0x6F5A26),
  (0xCEEC, 0x6F5A27),
  (0xCEF4, 0x6F5A28_6F5A29),
  (0xCEF7, 0x6F5A2A),
  (0xCEF9, 0x6F5A2C),
  (0xCF00, 0x6F5A2E_6F5A2F),
  (0xCF04, 0x6F5A30),
  (0xCF08, 0x6F5A31),
  (0xCF10, 0x6F5A32_6F5A33),
  (0xCF13, 0x6F5A34),
  (0xCF15, 0x6F5A35),
  (0xCF1C, 0x6F5A36),
  (0xCF20, 0x6F5A37),
  (0xCF24, 0x6F5A38),
  (0xCF2C, 0x6F5A39_6F5A3A),
  (0xCF2F, 0x6F5A3B_6F5A3C),
  (0xCF54, 0x6F5A3D_6F5A3E),
  (0xCF58, 0x6F5A3F),
  (0xCF5C, 0x6F5A40),
  (0xCF64, 0x6F5A41_6F5A42),
  (0xCF67, 0x6F5A43),
  (0xCF69, 0x6F5A44),
  (0xCF70, 0x6F5A45_6F5A46),
  (0xCF74, 0x6F5A47),
  (0xCF78, 0x6F5A48),
  (0xCF80, 0x6F5A49),
  (0xCF85, 0x6F5A4A),
  (0xCF8C, 0x6F5A4B_6F5A4C),
  (0xCFA1, 0x6F5A4D),
  (0xCFB0, 0x6F5A4F),
  (0xCFC4, 0x6F5A50),
  (0xCFE0, 0x6F5A51_6F5A52),
  (0xCFE4, 0x6F5A53),
  (0xCFE8, 0x6F5A54),
  (0xCFF0, 0x6F5A55),
  (0xCFF3, 0x6F5A56),
  (0xCFF5, 0x6F5A57),
  (0xCFFC, 0x6F5A58),
  (0xD018, 0x6F5A5A),
  (0xD02D, 0x6F5A5B),
  (0xD034, 0x6F5A5C_6F5A5D),
  (0xD038, 0x6F5A5E),
  (0xD050, 0x6F5A5F),
  (0xD06C, 0x6F5A60),
  (0xD070, 0x6F5A61),
  (0xD074, 0x6F5A62),
  (0xD07C, 0x6F5A63_6F5A64),
  (0xD081, 0x6F5A65),
  (0xD0A4, 0x6F5A66_6F5A67),
  (0xD0A8, 0x6F5A68),
  (0xD0AC, 0x6F5A69),
  (0xD0B4, 0x6F5A6A_6F5A6B),
  (0xD0B7, 0x6F5A6C),
  (0xD0B9, 0x6F5A6D),
  (0xD0C0, 0x6F5A70_6F5A71),
  (0xD0C4, 0x6F5A72),
  (0xD0C8, 0x6F5A73_6F5A74),
  (0xD0D0, 0x6F5A75_6F5A76),
  (0xD0D3, 0x6F5A77_6F5A78_6F5A79),
  (0xD0DC, 0x6F5A7A_6F5A7B),
  (0xD0E0, 0x6F5A7C),
  (0xD0E4, 0x6F5A7D),
  (0xD0EC, 0x6F5A7E_6F5B21),
  (0xD0EF, 0x6F5B22_6F5B23_6F5B24),
  (0xD130, 0x6F5B25_6F5B26),
  (0xD134, 0x6F5B27),
  (0xD138, 0x6F5B28),
  (0xD140, 0x6F5B29_6F5B2A),
  (0xD143, 0x6F5B2B_6F5B2C_6F5B2D),
  (0xD14C, 0x6F5B2E_6F5B2F),
  (0xD150, 0x6F5B30),
  (0xD154, 0x6F5B31),
  (0xD15C, 0x6F5B32_6F5B33),
  (0xD15F, 0x6F5B34_6F5B35_6F5B36),
  (0xD168, 0x6F5B37),
  (0xD1A0, 0x6F5B38_6F5B39),
  (0xD1A4, 0x6F5B3A),
  (0xD1A8, 0x6F5B3B),
  (0xD1B0, 0x6F5B3C_6F5B3D),
  (0xD1B3, 0x6F5B3E),
  (0xD1B5, 0x6F5B3F),
  (0xD1D8, 0x6F5B40),
  (0xD1F4, 0x6F5B41),
  (0xD1F8, 0x6F5B62),
  (0xD22C, 0x6F5B43_6F5B44),
  (0xD230, 0x6F5B45),
  (0xD234, 0x6F5B46),
  (0xD23C, 0x6F5B47_6F5B48),
  (0xD23F, 0x6F5B49),
  (0xD241, 0x6F5B4A),
  (0xD264, 0x6F5B4B),
  (0xD277, 0x6F5B4C),
  (0xD280, 0x6F5B4D),
  (0xD284, 0x6F5B4E),
  (0xD288, 0x6F5B4F),
  (0xD290, 0x6F5B50_6F5B51),
  (0xD293, 0x6F5B52),
  (0xD295, 0x6F5B53),
  (0xD29C, 0x6F5B54),
  (0xD2AC, 0x6F5B57),
  (0xD2B8, 0x6F5B59_6F5B5A),
  (0xD2BC, 0x6F5B5B),
  (0xD2BF, 0x6F5B5C_6F5B5D),
  (0xD2C8, 0x6F5B5E_6F5B5F),
  (0xD2CB, 0x6F5B60),
  (0xD2D4, 0x6F5B61),
  (0xD2F0, 0x6F5B63_6F5B64),
  (0xD2F4, 0x6F5B65),
  (0xD2F8, 0x6F5B66),
  (0xD300, 0x6F5B67_6F5B68),
  (0xD305, 0x6F5B69),
  (0xD30C, 0x6F5B6C_6F5B6D_6F5B6E),
  (0xD310, 0x6F5B6F),
  (0xD314, 0x6F5B70),
  (0xD31C, 0x6F5B71_6F5B72),
  (0xD31F, 0x6F5B73_6F5B74_6F5B75),
  (0xD325, 0x6F5B76),
  (0xD328, 0x6F5B77_6F5B78),
  (0xD32C, 0x6F5B79),
  (0xD330, 0x6F5B7A),
  (0xD338, 0x6F5B7B_6F5B7C),
  (0xD33B, 0x6F5B7D_6F5B7E_6F5C21),
  (0xD37C, 0x6F5C23_6F5C24),
  (0xD380, 0x6F5C25),
  (0xD384, 0x6F5C26),
  (0xD38C, 0x6F5C27_6F5C28),
  (0xD38F, 0x6F5C29_6F5C2A_6F5C2B),
  (0xD398, 0x6F5C2C_6F5C2D),
  (0xD39C, 0x6F5C2E),
  (0xD3A0, 0x6F5C2F),
  (0xD3A8, 0x6F5C30_6F5C31),
  (0xD3AB, 0x6F5C32),
  (0xD3AD, 0x6F5C33),
  (0xD3B4, 0x6F5C34_6F5C35),
  (0xD3B8, 0x6F5C36),
  (0xD3BC, 0x6F5C37),
  (0xD3C4, 0x6F5C38_6F5C39),
  (0xD3C8, 0x6F5C3A_6F5C3B),
  (0xD3D0, 0x6F5C3C),
  (0xD3EC, 0x6F5C3D_6F5C3E),
  (0xD3F0, 0x6F5C3F),
  (0xD3F4, 0x6F5C40),
  (0xD3FC, 0x6F5C41_6F5C42),
  (0xD3FF, 0x6F5C43),
  (0xD401, 0x6F5C44),
  (0xD440, 0x6F5C45),
  (0xD444, 0x6F5C46),
  (0xD45C, 0x6F5C47),
  (0xD46F, 0x6F5C48),
  (0xD478, 0x6F5C49_6F5C4A),
  (0xD47C, 0x6F5C4B),
  (0xD480, 0x6F5C4C),
  (0xD488, 0x6F5C4D_6F5C4E),
  (0xD48B, 0x6F5C4F),
  (0xD48D, 0x6F5C50),
  (0xD494, 0x6F5C51),
  (0xD4E8, 0x6F5C52),
  (0xD504, 0x6F5C53),
  (0xD508, 0x6F5C55),
  (0xD50C, 0x6F5C56),
  (0xD514, 0x6F5C57_6F5C58),
  (0xD53C, 0x6F5C59_6F5C5A),
  (0xD540, 0x6F5C5B),
  (0xD544, 0x6F5C5C),
  (0xD54C, 0x6F5C5D_6F5C5E),
  (0xD54F, 0x6F5C5F),
  (0xD551, 0x6F5C60),
  (0xD558, 0x6F5C63_6F5C64),
  (0xD55C, 0x6F5C65),
  (0xD560, 0x6F5C66),
  (0xD565, 0x6F5C67),
  (0xD568, 0x6F5C68_6F5C69),
  (0xD56B, 0x6F5C6A_6F5C6B_6F5C6C),
  (0xD571, 0x6F5C6D),
  (0xD574, 0x6F5C6E_6F5C6F),
  (0xD578, 0x6F5C70),
  (0xD57C, 0x6F5C71),
  (0xD584, 0x6F5C72_6F5C73),
  (0xD587, 0x6F5C74_6F5C75_6F5C76),
  (0xD590, 0x6F5C77),
  (0xD5A5, 0x6F5C78),
  (0xD5C8, 0x6F5C79_6F5C7A),
  (0xD5CC, 0x6F5C7B),
  (0xD5D0, 0x6F5C7C),
  (0xD5D2, 0x6F5C7D),
  (0xD5D8, 0x6F5C7E_6F5D21),
  (0xD5DB, 0x6F5D22),
  (0xD5DD, 0x6F5D23),
  (0xD5E4, 0x6F5D24_6F5D25),
  (0xD5E8, 0x6F5D26),
  (0xD5EC, 0x6F5D27),
  (0xD5F4, 0x6F5D28_6F5D29),
  (0xD5F7, 0x6F5D2A),
  (0xD5F9, 0x6F5D2B),
  (0xD600, 0x6F5D2C_6F5D2D),
  (0xD604, 0x6F5D2E),
  (0xD608, 0x6F5D2F),
  (0xD610, 0x6F5D30_6F5D31),
  (0xD613, 0x6F5D32_6F5D33_6F5D34),
  (0xD61C, 0x6F5D35),
  (0xD638, 0x6F5D36_6F5D37),
  (0xD63C, 0x6F5D38),
  (0xD640, 0x6F5D39),
  (0xD648, 0x6F5D3A_6F5D3B),
  (0xD64B, 0x6F5D3C),
  (0xD64D, 0x6F5D3D),
  (0xD654, 0x6F5D3F_6F5D40),
  (0xD658, 0x6F5D41),
  (0xD65C, 0x6F5D42),
  (0xD667, 0x6F5D44),
  (0xD669, 0x6F5D45),
  (0xD670, 0x6F5D46_6F5D47),
  (0xD683, 0x6F5D48),
  (0xD68C, 0x6F5D4A_6F5D4B),
  (0xD69F, 0x6F5D4C),
  (0xD6A1, 0x6F5D4D),
  (0xD6A8, 0x6F5D4E),
  (0xD6C4, 0x6F5D4F_6F5D50),
  (0xD6C8, 0x6F5D51),
  (0xD6CC, 0x6F5D52),
  (0xD6D1, 0x6F5D53),
  (0xD6D4, 0x6F5D54),
  (0xD6D7, 0x6F5D55),
  (0xD6E0, 0x6F5D56),
  (0xD6E4, 0x6F5D57),
  (0xD6E8, 0x6F5D58),
  (0xD6F0, 0x6F5D59),
  (0xD6FC, 0x6F5D5A),
  (0xD700, 0x6F5D5C),
  (0xD711, 0x6F5D5D),
  (0xD719, 0x6F5D5F),
  (0xD71C, 0x6F5D60),
  (0xD720, 0x6F5D61),
  (0xD728, 0x6F5D62_6F5D63),
  (0xD72D, 0x6F5D65),
  (0xD734, 0x6F5D66),
  (0xD73C, 0x6F5D67),
  (0xD744, 0x6F5D68),
  (0xD749, 0x6F5D69),
  (0xD750, 0x6F5D6A_6F5D6B),
  (0xD754, 0x6F5D6C),
  (0xD757, 0x6F5D6D_6F5D6E_6F5D6F),
  (0xD760, 0x6F5D70_6F5D71),
  (0xD763, 0x6F5D72),
  (0xD765, 0x6F5D73),
  (0xD769, 0x6F5D74),
  (0xD76C, 0x6F5D75),
  (0xD770, 0x6F5D76),
  (0xD774, 0x6F5D77),
  (0xD788, 0x6F5D78_6F5D79),
  (0xD78C, 0x6F5D7A),
  (0xD790, 0x6F5D7B),
  (0xD798, 0x6F5D7C_6F5D7D),
  (0xD79B, 0x6F5D7E),
  (0xD79D, 0x6F5E21),
  (0xF928, 0x2D3D22),
  (0xF92A, 0x2D4A6F),
  (0xF92E, 0x4B333E),
  (0xF93E, 0x2D514C),
  (0xF9A8, 0x4B306E),
  (0xF9AD, 0x4B4B3E),
  (0xF9AF, 0x4B523E),
  (0xF9B1, 0x4B5D58_4B5F58),
  (0xF9B4, 0x4B6044),
  (0xF9CC, 0x345A78),
  (0xFA12, 0x4B4339),
  (0xFA1C, 0x4B5F71),
  (0xFE31, 0x212B3F_212B3E_212B27_212B2D_212B21_212B22),
  (0xFE39, 0x212B2F_212B30),
  (0xFE41, 0x212B23_212B24_212B29_212B2A),
  (0xFE4F, 0x212B2E),
  (0x20000, 0x236122_2D3023),
  (0x20003, 0x2D302B),
  (0x20009, 0x236124),
  (0x2000B, 0x2D3027),
  (0x20013, 0x236125_236126),
  (0x20019, 0x2D6256_2D302A_237759),
  (0x2001D, 0x236B41),
  (0x20022, 0x236128),
  (0x20025, 0x4B3057_236127),
  (0x20029, 0x2D4660),
  (0x2002C, 0x2D6426),
  (0x20037, 0x236E3E_236129_236E3D),
  (0x20041, 0x23612B),
  (0x20046, 0x216428),
  (0x20049, 0x23667E),
  (0x20060, 0x23612F_2D3465),
  (0x20066, 0x2D3034),
  (0x2006B, 0x236133),
  (0x2006D, 0x236134),
  (0x20077, 0x237142),
  (0x2007C, 0x236136_236137),
  (0x20084, 0x23613B),
  (0x20086, 0x23613E_23613D),
  (0x20090, 0x236142),
  (0x20092, 0x236141),
  (0x20094, 0x236144_2D392B),
  (0x2009F, 0x236143_2F415F),
  (0x200A2, 0x21643B_21643A_216438_236145),
  (0x200A7, 0x236146),
  (0x200B8, 0x236158_236147),
  (0x200C3, 0x236149),
  (0x200C6, 0x23614A),
  (0x200C9, 0x23614D),
  (0x200CB, 0x23614C),
  (0x200D1, 0x23614B_23614E_274322),
  (0x200D6, 0x23614F),
  (0x200DE, 0x2D4E7C),
  (0x200E1, 0x236150),
  (0x200EB, 0x245E75),
  (0x200F8, 0x2D6444),
  (0x200FA, 0x236159),
  (0x200FD, 0x23615B),
  (0x20105, 0x23615F),
  (0x20107, 0x2D5D25_2D6445),
  (0x2010C, 0x236160_236163_236162_236161),
  (0x20111, 0x236164),
  (0x20113, 0x2D3C35),
  (0x20116, 0x236165),
  (0x2011A, 0x236166),
  (0x20121, 0x393054_2D4274),
  (0x2012D, 0x236168_236167),
  (0x20131, 0x236169),
  (0x20142, 0x23616D),
  (0x20148, 0x23616E),
  (0x2014C, 0x236171),
  (0x20156, 0x2D305F_237734),
  (0x2015A, 0x236172),
  (0x20162, 0x2D6452_236175),
  (0x20169, 0x2D3A5C),
  (0x2016C, 0x216454),
  (0x20171, 0x237743),
  (0x20179, 0x242971),
  (0x20181, 0x236179),
  (0x20187, 0x2D393E),
  (0x2018B, 0x23617A_2D3C7A),
  (0x2018E, 0x23617B),
  (0x20190, 0x23617E_23617C_23617D),
  (0x20199, 0x23774E_236222_243E37),
  (0x2019F, 0x236223),
  (0x201A3, 0x236224_21645B),
  (0x201A6, 0x2D3041_273264_273254_21646D),
  (0x201AE, 0x23693B),
  (0x201B0, 0x2D645E_236B2B),
  (0x201B4, 0x216465),
  (0x201B6, 0x23622C_2D3B4A),
  (0x201BA, 0x236237_236231),
  (0x201BD, 0x21647D),
  (0x201CB, 0x23622E),
  (0x201CF, 0x23623B_23622B),
  (0x201D2, 0x236547),
  (0x201D7, 0x216554_23623D),
  (0x201DA, 0x2D4C25),
  (0x201E0, 0x236242),
  (0x201E6, 0x236246),
  (0x201E9, 0x216550),
  (0x201EF, 0x236247),
  (0x201F1, 0x216534_23623F_236241_2D652B_236244),
  (0x201FC, 0x21654C),
  (0x201FE, 0x2D3121),
  (0x20200, 0x23623E_2D646E),
  (0x20205, 0x236252_23625A),
  (0x20208, 0x216578),
  (0x2020A, 0x23625B_23624C_23625D),
  (0x2020E, 0x2D3153),
  (0x20210, 0x236254),
  (0x20213, 0x2D3179),
  (0x20215, 0x236251),
  (0x20220, 0x236256),
  (0x20223, 0x2D525C_237E45),
  (0x20226, 0x236253),
  (0x20229, 0x236255_23624B),
  (0x2022C, 0x236259_23625F_2D3125),
  (0x20231, 0x236260),
  (0x20233, 0x2D5B5C),
  (0x20235, 0x23626B_23626F),
  (0x20238, 0x236263_236261_23626C),
  (0x20244, 0x21657D),
  (0x2024C, 0x23626E),
  (0x20251, 0x236272),
  (0x20255, 0x2D314A_2D656E),
  (0x20258, 0x236270),
  (0x20262, 0x23626D_216675_236324),
  (0x20267, 0x23627A),
  (0x2026A, 0x216647_21667A),
  (0x2026E, 0x236277),
  (0x20270, 0x21666C),
  (0x2027C, 0x21665A),
  (0x2028F, 0x236328),
  (0x20292, 0x236274_2D323D_236275),
  (0x20296, 0x2D314E),
  (0x2029E, 0x216664),
  (0x202A0, 0x236321),
  (0x202A2, 0x236278_23627C_23627D_236325_23632C),
  (0x202A8, 0x216727_2D683C_236337_236348_216742_236336_236338),
  (0x202B0, 0x236344_2D3225_236331_2D315B_23632E_236345_23632F),
  (0x202BE, 0x2D4D63),
  (0x202C0, 0x216724),
  (0x202C4, 0x21667E_236346),
  (0x202D2, 0x2D3579),
  (0x202D4, 0x236343),
  (0x202D6, 0x23633A),
  (0x202DB, 0x2D5352),
  (0x202DD, 0x236340),
  (0x202E1, 0x236349),
  (0x202E3, 0x2D317D_21667C),
  (0x202E7, 0x23633E),
  (0x202E9, 0x236332),
  (0x202EC, 0x23633F),
  (0x202EF, 0x236365_236356_2D682A_236353_23635A),
  (0x202F5, 0x23635B_23634B_236360),
  (0x202FA, 0x21675F_23635D_2D6637_236351),
  (0x202FF, 0x2D6642),
  (0x20301, 0x236369),
  (0x20309, 0x236357),
  (0x2030B, 0x236366),
  (0x20315, 0x236362_21675E),
  (0x2031C, 0x23635C),
  (0x2031F, 0x246357_2D676C_23634C),
  (0x2032D, 0x23636F_23636C),
  (0x2033C, 0x216823),
  (0x20340, 0x23636B),
  (0x2034F, 0x216778),
  (0x2035F, 0x2D3530),
  (0x20368, 0x23636D),
  (0x2036C, 0x2D6666),
  (0x2036E, 0x2D6746),
  (0x20372, 0x236424),
  (0x20375, 0x23636E),
  (0x20377, 0x2D6844),
  (0x20379, 0x216853),
  (0x2037B, 0x2D3265),
  (0x2037D, 0x21677E),
  (0x20381, 0x216826),
  (0x20389, 0x21683F),
  (0x2038D, 0x21684B),
  (0x20394, 0x216854),
  (0x20399, 0x236428_2D314F),
  (0x2039E, 0x2D6653_236426),
  (0x203A1, 0x2D6731),
  (0x203AD, 0x236429_216849),
  (0x203B2, 0x2D6726_21684A),
  (0x203B6, 0x24337E_21686C_236434),
  (0x203BC, 0x2D677A),
  (0x203BF, 0x23643D),
  (0x203C3, 0x236438),
  (0x203C7, 0x236432_23643E),
  (0x203D3, 0x237176),
  (0x203D6, 0x236436_2D3254),
  (0x203DB, 0x236431),
  (0x203E2, 0x23643B),
  (0x203E7, 0x237173_23643F_23644A_2D6939_236442_2D6633_236444_216877),
  (0x203F0, 0x236440_216875),
  (0x203F5, 0x23644B),
  (0x203FD, 0x236448),
  (0x20400, 0x23644E),
  (0x20406, 0x236443),
  (0x20408, 0x21692D_23643C_236455_23645A_236457_21692A),
  (0x2040F, 0x236450),
  (0x2041A, 0x2D326A_2D6866),
  (0x2041F, 0x21687C_236459_236458_236452),
  (0x20424, 0x23645C),
  (0x20427, 0x2D6878),
  (0x20431, 0x2D6655_236461_236463),
  (0x20435, 0x23645E_236460),
  (0x20439, 0x23645F_236464_236466_23646A_216943_236469_21693D_21693C),
  (0x20444, 0x236468_236467),
  (0x20450, 0x23646C_23646D),
  (0x20453, 0x2D3E56),
  (0x20458, 0x216945_236474),
  (0x2045B, 0x236471),
  (0x2045E, 0x236476_236477),
  (0x20461, 0x236475),
  (0x20469, 0x236478_23647A),
  (0x2046F, 0x236479_23647C_243E66_23647D),
  (0x20474, 0x253D21),
  (0x20479, 0x21694D),
  (0x2047D, 0x21694E),
  (0x20484, 0x236526),
  (0x20486, 0x2D327A),
  (0x2048D, 0x236528),
  (0x2048F, 0x236527_236529),
  (0x20498, 0x23652B_23652D),
  (0x204A2, 0x23652E),
  (0x204A8, 0x23652F),
  (0x204AB, 0x21695A),
  (0x204AD, 0x236531_236530),
  (0x204B0, 0x2D7D59_2D325B_236533),
  (0x204B5, 0x236534),
  (0x204B8, 0x236535),
  (0x204BA, 0x21695B),
  (0x204BE, 0x236536_236537),
  (0x204C8, 0x236538),
  (0x204CA, 0x236539),
  (0x204CC, 0x242B5A),
  (0x204CE, 0x23653B_23653E),
  (0x204D7, 0x236541),
  (0x204D9, 0x236542),
  (0x204DB, 0x2D645A),
  (0x204DD, 0x236543_236544),
  (0x204E3, 0x236546_236548),
  (0x204E6, 0x23654A_23654B),
  (0x204EA, 0x23654C_23654D),
  (0x204ED, 0x23654E_23654F),
  (0x204F6, 0x236552_236551),
  (0x204FD, 0x236553),
  (0x204FF, 0x236554_2D4037),
  (0x20502, 0x236555),
  (0x20506, 0x236556),
  (0x2050C, 0x236559_236557_236558),
  (0x20511, 0x23655A),
  (0x20515, 0x23655B),
  (0x2051E, 0x23655D),
  (0x20520, 0x23655C),
  (0x20528, 0x23655F),
  (0x2052C, 0x23655E),
  (0x2052F, 0x216964),
  (0x20532, 0x236C5D),
  (0x20536, 0x236560),
  (0x2053B, 0x252C76),
  (0x20540, 0x2D522D),
  (0x20544, 0x236563_2D3331_21696B),
  (0x20549, 0x2D4F4D_236562),
  (0x2054C, 0x236565_2D3A6F),
  (0x20555, 0x236566_236567),
  (0x2055D, 0x236568),
  (0x2055F, 0x236569),
  (0x20561, 0x23656A),
  (0x20563, 0x23656B_23656C_23656D_23656F_236570),
  (0x2056B, 0x236571),
  (0x2056D, 0x236572),
  (0x20573, 0x236575),
  (0x20575, 0x2D6451),
  (0x2057B, 0x236576),
  (0x2057D, 0x236577),
  (0x2057F, 0x236578),
  (0x20582, 0x236579),
  (0x20584, 0x23657B),
  (0x20586, 0x23657A),
  (0x2058B, 0x23657C),
  (0x20593, 0x23657D_2D3A79),
  (0x2059F, 0x246E5D_2D352E),
  (0x205A9, 0x236622),
  (0x205AB, 0x236623_236624),
  (0x205B2, 0x216A2B),
  (0x205B6, 0x236628_216A34_2D6A58_23662B_216A31),
  (0x205BD, 0x23662C),
  (0x205C3, 0x2D6A4F),
  (0x205C6, 0x236634),
  (0x205C8, 0x236638_216A3B_216A3C_23663C_236637_236639),
  (0x205CF, 0x23663E_216A39),
  (0x205D4, 0x216A3D_216A3E),
  (0x205D8, 0x236642_216A45_23663F),
  (0x205DD, 0x236643),
  (0x205E5, 0x236644),
  (0x205E7, 0x2D6A5E_216A50_236646),
  (0x205F2, 0x23664C_236649_23664B_236648_23664A),
  (0x205FA, 0x236657_236656_236653_236654_236652_236658),
  (0x20601, 0x236650),
  (0x20605, 0x236661_236659),
  (0x2060A, 0x23665F_236660_23665C),
  (0x2060E, 0x216A60),
  (0x20615, 0x216A61_236664),
  (0x20618, 0x236663),
  (0x2061D, 0x216A67_236666_236667),
  (0x20621, 0x2D3344_236668_236669_2D333E_23666A_23666B),
  (0x2062A, 0x23666D),
  (0x2062D, 0x216A69),
  (0x20631, 0x216A6B_2D3925_23666F),
  (0x20636, 0x2D3559),
  (0x2063A, 0x23666E_236671),
  (0x20641, 0x236672_236673),
  (0x20646, 0x216A6F),
  (0x20648, 0x236678),
  (0x20652, 0x2F367C),
  (0x20654, 0x23667A_236679),
  (0x2065E, 0x23667B),
  (0x20664, 0x236721),
  (0x2066C, 0x25696A),
  (0x20674, 0x236722_2D352C_236723),
  (0x20678, 0x2D4B76),
  (0x2067A, 0x236725),
  (0x2067C, 0x236D25_236724),
  (0x20681, 0x236726),
  (0x20684, 0x236729_23672A_236728),
  (0x20689, 0x23672C_23672B),
  (0x2068C, 0x23672D),
  (0x2068F, 0x23672F),
  (0x20692, 0x2D6321),
  (0x20698, 0x236730),
  (0x2069E, 0x236733_236735_236736),
  (0x206A5, 0x236739),
  (0x206A7, 0x236738_23673A_23673B),
  (0x206AD, 0x23673F_236740_216A7E),
  (0x206B1, 0x23673D_236741_2D6B21),
  (0x206B7, 0x236744_2D6B2E_236749_236746_23673C_23674A_236743),
  (0x206BF, 0x2D5E2F_23674B),
  (0x206C3, 0x236748_2D3354),
  (0x206C9, 0x2D6B29_236747),
  (0x206CE, 0x216B2E),
  (0x206D1, 0x23674D_23675B_23675A_236759_236755_236751),
  (0x206D8, 0x23674F_236754_236752),
  (0x206DD, 0x2D6B33),
  (0x206E0, 0x2D336E),
  (0x206E5, 0x23674E_236758),
  (0x206E8, 0x236764_236766_236768_236767_2D3356_236761_2D6B64),
  (0x206F0, 0x2D335B_23676E),
  (0x206F4, 0x2D3367),
  (0x206F6, 0x23676A),
  (0x206F8, 0x236762),
  (0x206FB, 0x236765_216B31),
  (0x20703, 0x23676C_23676D),
  (0x20707, 0x333360_23675F_236760),
  (0x20710, 0x216B41_236777_236771_2D3371),
  (0x20716, 0x216B42),
  (0x20718, 0x236770_236772),
  (0x2071C, 0x216B45),
  (0x2071F, 0x2D6B40),
  (0x20723, 0x216B44),
  (0x20728, 0x2D342C),
  (0x20731, 0x23682D_216B4E_236829_236824_216B49_216B51),
  (0x20738, 0x2D3423_236823_2D3357_236779_23682A_236826_216B4F_236825),
  (0x20744, 0x236828),
  (0x20758, 0x23682B_23677A_23677D_23677B_236822_216B5A_236838_236834_23682F),
  (0x20762, 0x23683A),
  (0x20764, 0x236839_236833),
  (0x20768, 0x23683D_236832_23682C),
  (0x20773, 0x236830),
  (0x20779, 0x216B5D),
  (0x2077F, 0x236845_23683F),
  (0x20782, 0x236842_23684A_23684D_236846_23684C_236848_216B62_236841_236840),
  (0x2078E, 0x236849_23684F_2D6B43),
  (0x20797, 0x236844),
  (0x207A3, 0x236843_23684E_236853),
  (0x207A7, 0x236850),
  (0x207A9, 0x236852_236856_2D3360_236851_23685A_236858_236855),
  (0x207B1, 0x236857),
  (0x207BC, 0x23685E),
  (0x207BE, 0x23685C_23685B),
  (0x207C2, 0x236860_216B70),
  (0x207C5, 0x236871),
  (0x207C9, 0x216B73_236870_236861_23686C_216B71_23686E_2D6B4C),
  (0x207D2, 0x236869_23686F),
  (0x207D5, 0x236863),
  (0x207D7, 0x23686D),
  (0x207DC, 0x23686A),
  (0x207E6, 0x236874_23687D_236877_236875),
  (0x207EB, 0x216B78_23687A),
  (0x207EE, 0x23687B),
  (0x207F0, 0x236876),
  (0x207FA, 0x23687E_2D336D_236926_2D6B72_23687C),
  (0x20800, 0x236925_236922_236924_236923_236921),
  (0x20806, 0x453421),
  (0x20808, 0x216B7D),
  (0x2080B, 0x254A22),
  (0x2080D, 0x216C25),
  (0x2080F, 0x236928_236927),
  (0x20817, 0x216C26),
  (0x2081B, 0x23692C_23692B_23692D),
  (0x20820, 0x23692E),
  (0x20822, 0x236930),
  (0x20826, 0x2D3374),
  (0x2082A, 0x236932_236933),
  (0x2082E, 0x236934_216C2D),
  (0x20832, 0x2D3424_236937),
  (0x20835, 0x236938_23693C_23693E_236939_236940),
  (0x2083B, 0x236944),
  (0x20841, 0x236941),
  (0x20843, 0x236946_236948),
  (0x20847, 0x216C32),
  (0x2084B, 0x236949_236945),
  (0x20851, 0x23694C_236950),
  (0x20854, 0x236952),
  (0x2085F, 0x236957_4B314C_236958_23695A_236955_23694D_236959),
  (0x20869, 0x23695D),
  (0x2086B, 0x2D6C53_236969_236963_23696B_236962_236966_236968_236965),
  (0x20874, 0x216C42),
  (0x20876, 0x23695E_236961_236960),
  (0x2087B, 0x23696E),
  (0x20883, 0x23696C_333439_236973_23696F_236972_236975_236971),
  (0x2088C, 0x236970),
  (0x2088F, 0x2D6C36),
  (0x20892, 0x2D6C4B_23697A_236978_236979),
  (0x20899, 0x23697C_236976_236977),
  (0x208A0, 0x236A24_236A28_236A21_236A25_216C54_236A22_236A23_2D3437),
  (0x208A9, 0x23697E_23697B),
  (0x208AE, 0x236A26_23697D_236A2E_236A2A_236A2F_236A2B_236A2D_236A2C),
  (0x208B7, 0x236A35),
  (0x208B9, 0x236A34_236A38_236A31),
  (0x208BE, 0x236A36_2D6C5D_236A39_2D3435),
  (0x208C3, 0x2D6C4F_236A3C_236A3B),
  (0x208C7, 0x236A3D),
  (0x208C9, 0x236A3E_216C60),
  (0x208CC, 0x236A40),
  (0x208CF, 0x236A45_236A42_236A44_236A46_236A43),
  (0x208D5, 0x236A48_236A47_236A49_216C70_2D4276),
  (0x208DE, 0x2D5B34_236A4B_236A4A),
  (0x208E4, 0x236A4F),
  (0x208E9, 0x2D5074),
  (0x208EB, 0x236A4E),
  (0x208EE, 0x2D6C7C_236A53_236A4C_236A51),
  (0x208F3, 0x236A52),
  (0x208F5, 0x236A54),
  (0x208F9, 0x236A50_236A55),
  (0x208FC, 0x216C78),
  (0x208FE, 0x216C7A_236A57_236A58),
  (0x20904, 0x216C7C_2D6C74),
  (0x2090A, 0x236A5A_2D564E),
  (0x2090F, 0x216C7D),
  (0x20911, 0x236A5C),
  (0x20913, 0x236A5B),
  (0x20917, 0x236A5F),
  (0x2091D, 0x236A5E),
  (0x2092B, 0x252C69_2D6D23),
  (0x2092E, 0x236A63),
  (0x20930, 0x236A62),
  (0x20932, 0x236B21),
  (0x20934, 0x236A66),
  (0x20938, 0x236A69_236A67_236A68),
  (0x2093C, 0x216D2B_236A6A_236A6C_236A6E),
  (0x20941, 0x236A6D),
  (0x20949, 0x236A6F),
  (0x2094C, 0x236A70),
  (0x20950, 0x216D31_236A74_236A72),
  (0x20954, 0x216D30),
  (0x20956, 0x236A73),
  (0x20958, 0x236A75_236A76),
  (0x2095C, 0x236A78_236A79_236A7A),
  (0x20962, 0x236A7B_236A7C),
  (0x20966, 0x236A7D),
  (0x20968, 0x236A7E),
  (0x2096E, 0x236B22),
  (0x20971, 0x2D435B),
  (0x20975, 0x236B24),
  (0x20978, 0x236B25),
  (0x2097D, 0x236B2A_236B2C_236B29),
  (0x20983, 0x2D3459_236B2F),
  (0x20986, 0x236B32_2D305D_236B2D),
  (0x2098A, 0x236B2E_236B31_236B33_2D792A_236B34_236B35_236B36),
  (0x20992, 0x236B37_2D302E),
  (0x20997, 0x236B38_236B39_2D423C),
  (0x209A3, 0x2D6D47),
  (0x209A7, 0x236B3B_236B3C),
  (0x209AB, 0x216D47_216D48),
  (0x209B7, 0x236B3D),
  (0x209C0, 0x236B3E),
  (0x209D2, 0x236B40),
  (0x209D5, 0x236B42_236B43),
  (0x209D9, 0x236B45_236B47_236B46),
  (0x209DD, 0x236153_216D4F_236B48),
  (0x209E5, 0x21644D),
  (0x209E7, 0x216D4E_2D357D_2D3E54_216D50_236B4B),
  (0x209F0, 0x236B4A),
  (0x209F4, 0x236B4D_236B4C),
  (0x209FF, 0x236B4E),
  (0x20A03, 0x23773C),
  (0x20A06, 0x236B4F),
  (0x20A0A, 0x236B50),
  (0x20A0C, 0x236B51_236B56_236B55),
  (0x20A10, 0x2D6D53),
  (0x20A12, 0x216D56),
  (0x20A14, 0x236B58_236B57_216D55),
  (0x20A18, 0x236B59_236B5B_236B5C),
  (0x20A1C, 0x2D6D5C),
  (0x20A20, 0x236B5D),
  (0x20A22, 0x236B60),
  (0x20A24, 0x236B5F_236B61_236B62),
  (0x20A2C, 0x236B64_236B66_2D3069),
  (0x20A30, 0x2D3942),
  (0x20A32, 0x236B67),
  (0x20A34, 0x236B71_236B69),
  (0x20A38, 0x236B6F_236B70_236B6C),
  (0x20A3E, 0x236B72),
  (0x20A40, 0x216D62_236B79_236B74_236B78),
  (0x20A46, 0x236B7B),
  (0x20A48, 0x236B73_236B77),
  (0x20A4E, 0x236B7C_216D69),
  (0x20A54, 0x236B7A),
  (0x20A57, 0x216D6B_216D70_236C22_236B7E),
  (0x20A5F, 0x2D5B62),
  (0x20A65, 0x236C21_2D6D6B_216D77),
  (0x20A69, 0x236C27_236C24_236C2A),
  (0x20A6D, 0x236C23),
  (0x20A6F, 0x2D3A53),
  (0x20A72, 0x236C29),
  (0x20A77, 0x236C25),
  (0x20A79, 0x236C2B_236C2E),
  (0x20A82, 0x236C30),
  (0x20A86, 0x236C2D_236C35),
  (0x20A90, 0x236C36_236C38_236C39),
  (0x20A97, 0x236C37),
  (0x20A99, 0x216D7E_216E22),
  (0x20A9D, 0x236C3A_2D3477_236C3D),
  (0x20AA3, 0x236C3E),
  (0x20AA5, 0x2D3478),
  (0x20AA7, 0x236C3C),
  (0x20AAA, 0x2D6D76),
  (0x20AAD, 0x236C42_216E26_236C43),
  (0x20AB6, 0x236C40_236C41),
  (0x20ABA, 0x236C44_216E28),
  (0x20ABE, 0x3F4349),
  (0x20AC3, 0x236C46_236C45),
  (0x20AC9, 0x236C47),
  (0x20ACC, 0x236C49),
  (0x20AD0, 0x236C4A),
  (0x20AD6, 0x236C4B_216E30_236C4D),
  (0x20ADB, 0x236C4F_236C50),
  (0x20AEA, 0x2D3325),
  (0x20AEE, 0x236676_236C53),
  (0x20AF6, 0x236C55),
  (0x20AF9, 0x236C56),
  (0x20AFF, 0x236C59),
  (0x20B05, 0x216E36_236C5C),
  (0x20B08, 0x236C5A),
  (0x20B0B, 0x236C5B),
  (0x20B13, 0x236C5E),
  (0x20B1B, 0x236C5F_236C61_236C60),
  (0x20B22, 0x216E3D),
  (0x20B25, 0x236C65_236C66_2D423D),
  (0x20B29, 0x236C67_216E40),
  (0x20B2C, 0x236C69),
  (0x20B2E, 0x236C68),
  (0x20B33, 0x236C6A),
  (0x20B39, 0x2D3C47),
  (0x20B3B, 0x2D3930),
  (0x20B3E, 0x236C6B),
  (0x20B48, 0x236C6C_236B49_2D4B53_236C70),
  (0x20B56, 0x2D424C_216E4D_236C72),
  (0x20B5D, 0x236C6E_2D6E3F),
  (0x20B65, 0x216E4E_236C73),
  (0x20B6E, 0x2D6E4D_236C75_216E4F),
  (0x20B74, 0x216E50),
  (0x20B78, 0x2D6E52_236C74),
  (0x20B7F, 0x236C77_236C76),
  (0x20B83, 0x236C7A_236C7B),
  (0x20B86, 0x236C79),
  (0x20B90, 0x236C7C),
  (0x20B96, 0x236C7D),
  (0x20B99, 0x236C7E),
  (0x20B9C, 0x236D21),
  (0x20BA2, 0x2D3532),
  (0x20BA4, 0x236D24),
  (0x20BA6, 0x2D3536),
  (0x20BA8, 0x236D22),
  (0x20BAB, 0x236D38_2D7344_236D37),
  (0x20BAF, 0x236D31_236D39),
  (0x20BB2, 0x2D353E_236D36_236D33_236D34),
  (0x20BB7, 0x2D3540),
  (0x20BBC, 0x236D30_236D2E_216E62),
  (0x20BC0, 0x216E67_2D5A54_236D2D_236D35),
  (0x20BC6, 0x216E6A),
  (0x20BC8, 0x236D32),
  (0x20BCB, 0x236D56),
  (0x20BCD, 0x216E7A),
  (0x20BD0, 0x236D54_216F25_2D3448_236D5F_236D4A),
  (0x20BD6, 0x236D5D_216E75_236D5E_236D52),
  (0x20BDB, 0x236D4F_236D5B_236D4D_2D6F50),
  (0x20BE6, 0x236D48),
  (0x20BEA, 0x236D46_236D43),
  (0x20BED, 0x236D53),
  (0x20BF1, 0x236D57_236D58),
  (0x20BF4, 0x236D3D),
  (0x20BF6, 0x236D40_236D47),
  (0x20C04, 0x236D4E_236D55),
  (0x20C08, 0x236D67_216F3E_236D73_236E23_236D68_236D61),
  (0x20C0F, 0x236D7A_236D6A_236D6D_236E24_236E25),
  (0x20C15, 0x236D79),
  (0x20C18, 0x236D76_236D6F_236E22_236D78_236E21_236D77),
  (0x20C21, 0x236D62_216F32),
  (0x20C29, 0x236D7B),
  (0x20C2D, 0x216F51_236D7D),
  (0x20C32, 0x236D6C),
  (0x20C36, 0x236D66),
  (0x20C38, 0x2D362E),
  (0x20C3A, 0x236E27_236D7C_236D51),
  (0x20C3E, 0x236D72_236D65_236D71),
  (0x20C47, 0x216F30),
  (0x20C50, 0x236E47_236E3A_236E54_236E51_236E2B_236E53),
  (0x20C57, 0x2F2355_236E2D_236E43_236E42_236E3B_236E38_236E4F_236E4B_236E4D_236E45_236E48_236E2C),
  (0x20C64, 0x236E50_216F57),
  (0x20C68, 0x236E3C_2D3550_236E2E_236E29),
  (0x20C6E, 0x236E52),
  (0x20C72, 0x236E30_236E32_236E58),
  (0x20C7C, 0x216F5D),
  (0x20C8B, 0x236E33_236E36),
  (0x20C8E, 0x216F73),
  (0x20C90, 0x236E55_236E28),
  (0x20C97, 0x216F56),
  (0x20C9A, 0x236E40),
  (0x20CA3, 0x236E56),
  (0x20CA9, 0x236E2A_236E4C),
  (0x20CAE, 0x21702F),
  (0x20CB1, 0x236F2A),
  (0x20CB3, 0x236F25_236E68),
  (0x20CB6, 0x236F21_236E62_236E73_236E6B_236E76_236E60_236F24_236F2D_236F2B_236E64),
  (0x20CC1, 0x236E79_236F29_236E66_236E67_2D3648),
  (0x20CC7, 0x236E78),
  (0x20CC9, 0x236F2C_236E6C_236E74_236E6D_236E6A_236F2E),
  (0x20CDD, 0x21702C),
  (0x20CE8, 0x21703F),
  (0x20CEA, 0x217041),
  (0x20CEC, 0x236E71),
  (0x20CEF, 0x236E6F_236E7B_236E75),
  (0x20CF4, 0x236E7A),
  (0x20CF7, 0x236F28_236E7E_236E5B_236E5C_236E5D),
  (0x20D00, 0x236E6E_2D6F4B),
  (0x20D03, 0x236F31_236E7C),
  (0x20D1F, 0x2D357E),
  (0x20D21, 0x236F26_236E63_236E5F),
  (0x20D27, 0x236F5A_236F36),
  (0x20D2A, 0x236F46_21706E),
  (0x20D2D, 0x236F52_236F64_236F5D_236F62_236F4E_236F53),
  (0x20D34, 0x2D6E75_236F4A_236F60_236F59_236F35_236F33_236F63_236F47_236F3D),
  (0x20D3F, 0x2D7051_2D3C51),
  (0x20D42, 0x236F3C_236F3E),
  (0x20D4D, 0x217066),
  (0x20D51, 0x236F38_2D7055),
  (0x20D58, 0x236F42),
  (0x20D60, 0x236F37),
  (0x20D62, 0x236F3B),
  (0x20D69, 0x21706D_236F4D),
  (0x20D6C, 0x236F54),
  (0x20D6E, 0x236F67),
  (0x20D70, 0x236F5C_236F6A_2D702D_236F69_236F68_236F65),
  (0x20D78, 0x236F48_236F4C),
  (0x20DA7, 0x236F34_236F5B_236F40_236F4F_236F3F_236F51),
  (0x20DB0, 0x236F66_236F44),
  (0x20DB4, 0x236F45_236F61),
  (0x20DB7, 0x217124_237049_23704C_2D7024_23703B),
  (0x20DBE, 0x23702B_23702A_237024_236F6D_237047_236F6B_236F72_23702C_237035_236F70_237045),
  (0x20DCA, 0x237046_217138_23703A_23704B_217130_237041_23703D),
  (0x20DD2, 0x237043_23702F),
  (0x20DD5, 0x2D3563_236F6C),
  (0x20DD9, 0x23703C_237038),
  (0x20DDE, 0x237042_237033),
  (0x20DE7, 0x236F79_217154),
  (0x20DF8, 0x236F7A),
  (0x20DFB, 0x236F7C_237022_237034_237037),
  (0x20E04, 0x21714A),
  (0x20E0D, 0x217122),
  (0x20E0F, 0x217148),
  (0x20E2D, 0x237031_23702E_236F75),
  (0x20E31, 0x237030_237028_237029_236F74_23703F),
  (0x20E37, 0x237053_237063_23705C_23704E_236F77),
  (0x20E40, 0x237062_237052),
  (0x20E43, 0x237074_237066_237067_237060_237122_237071),
  (0x20E4A, 0x237073_237054_23707D_237055),
  (0x20E50, 0x23707C),
  (0x20E52, 0x23704F_237124_237056_23707A_237061_23706A_237072_23706B_23706E_23706C),
  (0x20E5D, 0x237058_2D7155),
  (0x20E60, 0x237077),
  (0x20E64, 0x23705D_23706F_237069),
  (0x20E6A, 0x23704D),
  (0x20E7F, 0x237065),
  (0x20E90, 0x237070),
  (0x20E94, 0x237079),
  (0x20E97, 0x217157_237051),
  (0x20ECC, 0x23706D_237121_237057_23705E_237059),
  (0x20ED4, 0x2D374A),
  (0x20ED7, 0x237126),
  (0x20ED9, 0x237132),
  (0x20EDB, 0x2D3726_217222_237140_23712A_237136_237133_23712C),
  (0x20EE3, 0x237134_21717C_23714B_23714A_237138_237131_237128_23712E_237129_237143),
  (0x20EEF, 0x2D7027),
  (0x20EF1, 0x237139),
  (0x20EF6, 0x2D723D),
  (0x20F00, 0x21717B),
  (0x20F03, 0x21722A),
  (0x20F08, 0x217232_2D5351),
  (0x20F15, 0x2D7030),
  (0x20F17, 0x217229_23712F),
  (0x20F1A, 0x23713B),
  (0x20F1D, 0x237148_23714C),
  (0x20F20, 0x237149),
  (0x20F26, 0x23713D),
  (0x20F2A, 0x237145),
  (0x20F33, 0x21722F),
  (0x20F5D, 0x23713F),
  (0x20F62, 0x2D7163_23715D_23715E),
  (0x20F66, 0x23714F_237163),
  (0x20F69, 0x237170_237150_237158_2D3569_23716A),
  (0x20F70, 0x237156),
  (0x20F72, 0x23716F),
  (0x20F75, 0x237171_217266),
  (0x20F79, 0x23715A_2D7342_237159),
  (0x20F7E, 0x237154_2D357B_23713A),
  (0x20F85, 0x2D5825_237175_237160),
  (0x20F89, 0x237165),
  (0x20F8C, 0x237153),
  (0x20F96, 0x4B3749_23715C),
  (0x20FA2, 0x237161),
  (0x20FA4, 0x237162_237166),
  (0x20FA9, 0x237169),
  (0x20FAB, 0x23716C_23716D),
  (0x20FAE, 0x237157),
  (0x20FBD, 0x217250),
  (0x20FC5, 0x237168_237172_23723C_237238_237229),
  (0x20FCB, 0x237240_23723B_237228_237223_237178_237236_217273),
  (0x20FD3, 0x237244_237239_23723E_237235_237221_237242_23722E),
  (0x20FDC, 0x237237_237227_23717D_23723F_237234_23717B),
  (0x20FE3, 0x237224_237222),
  (0x20FE8, 0x23722D),
  (0x20FFA, 0x217279),
  (0x20FFC, 0x23723D),
  (0x21002, 0x237226),
  (0x2100E, 0x217321),
  (0x21011, 0x23722C_2D7235),
  (0x21016, 0x23723A_237177_237179),
  (0x21038, 0x23717E_237243_23722A),
  (0x2103C, 0x237245_237257_237259_23724E_23724C_23724B),
  (0x21043, 0x237247),
  (0x21046, 0x237248_23725F_217327_237255),
  (0x2104B, 0x23725C_237254),
  (0x2104E, 0x23725D_23725A_2D7158),
  (0x21053, 0x237250_237246),
  (0x21064, 0x21732E),
  (0x21067, 0x237252),
  (0x2106A, 0x237256),
  (0x21070, 0x23725B),
  (0x2108A, 0x23725E_23724A),
  (0x2108F, 0x237274_2D7361),
  (0x21092, 0x217348_237263),
  (0x21095, 0x217346_217340_237275_237260_23727C_237264_23726B_23726D_23726C),
  (0x2109F, 0x217343_237272_237270_2D7240_23726F),
  (0x210A9, 0x237267),
  (0x210AC, 0x237266),
  (0x210BB, 0x21733B),
  (0x210C2, 0x237261_237277),
  (0x210DD, 0x237262_23726A),
  (0x210E1, 0x237278),
  (0x210E6, 0x23727B_237322),
  (0x210E9, 0x237279),
  (0x210F3, 0x237273),
  (0x210F7, 0x237321_237329),
  (0x21106, 0x217350_23727D),
  (0x21111, 0x23732B_237328_237324_237326_237325),
  (0x21118, 0x23732A),
  (0x21122, 0x23727A_237327),
  (0x21133, 0x237335),
  (0x21135, 0x21735D_23732C_237331_23733A_237338_2D7231_237330),
  (0x21141, 0x23732E),
  (0x21144, 0x23732D),
  (0x21156, 0x25253C),
  (0x21158, 0x23733E_23733B),
  (0x2115B, 0x2D735F),
  (0x2116D, 0x23733C),
  (0x21170, 0x2D3729),
  (0x21175, 0x237341),
  (0x21179, 0x237342_237343_217369_2D7327),
  (0x2117F, 0x2D7259),
  (0x21185, 0x237344_237345),
  (0x21191, 0x237347),
  (0x21194, 0x237348),
  (0x211A3, 0x23734B_237349_23734A_23734C),
  (0x211A9, 0x237353),
  (0x211AB, 0x21736E),
  (0x211AE, 0x23734F_237352),
  (0x211B1, 0x237354),
  (0x211B3, 0x237350_237357),
  (0x211BD, 0x23735A_2D696E),
  (0x211C0, 0x237359),
  (0x211C2, 0x237355_2D5C5E),
  (0x211C7, 0x23735B_23735D_23735F_2D376D),
  (0x211D1, 0x23735E_237362_237365_237368),
  (0x211D6, 0x237363),
  (0x211DA, 0x237364),
  (0x211DC, 0x23736A_23736B_237369),
  (0x211E0, 0x237373_2D4D42),
  (0x211E4, 0x23736D_21742B_23736E),
  (0x211E9, 0x237371_2D4F58_237372_23736C),
  (0x211EE, 0x23736F),
  (0x211F0, 0x237370_237375_2D7D57_237379),
  (0x211F6, 0x237376_237374_237378),
  (0x211FA, 0x23737A),
  (0x211FC, 0x237421_23737B),
  (0x211FF, 0x23737D),
  (0x21205, 0x23737C_237422),
  (0x21209, 0x23737E_237428_23742D_237426),
  (0x2120F, 0x237429_237427),
  (0x21212, 0x237425_237423),
  (0x21215, 0x23742A),
  (0x21217, 0x23742E),
  (0x2121E, 0x23742C),
  (0x21220, 0x23742B),
  (0x21222, 0x2D7438),
  (0x21226, 0x237430_23742F_237431),
  (0x2122D, 0x2D4A7E),
  (0x2122F, 0x237433_237432_237434_237435_217438_237436_237437_237439),
  (0x21239, 0x2D7424),
  (0x2123C, 0x21743D),
  (0x2123E, 0x23743A_23743B),
  (0x21241, 0x217450),
  (0x21243, 0x217440),
  (0x21248, 0x2D377A_237440),
  (0x2124C, 0x217451),
  (0x2124E, 0x23743F_21744A_23743E),
  (0x21257, 0x237C2B),
  (0x2125B, 0x2D744C),
  (0x2125D, 0x2D383C),
  (0x2125F, 0x2D3874),
  (0x21269, 0x237443_237448),
  (0x2126C, 0x2D7532_23744A),
  (0x21272, 0x2D3822),
  (0x21277, 0x237442_23744E),
  (0x2127B, 0x277629_237451),
  (0x2127F, 0x217458_237444_23744D_23744C),
  (0x21284, 0x237459),
  (0x21289, 0x217473_2D744A),
  (0x2128D, 0x237454),
  (0x21290, 0x21745A),
  (0x21294, 0x21746C),
  (0x2129B, 0x237456_217478_237452_217471_237458_217521),
  (0x212A8, 0x21746D),
  (0x212AE, 0x2D5752),
  (0x212B0, 0x217523_237453),
  (0x212B3, 0x21752C),
  (0x212B5, 0x237457),
  (0x212B8, 0x23745D),
  (0x212BA, 0x2D473C_237460_237462),
  (0x212C2, 0x21754F),
  (0x212C4, 0x217559_23745C),
  (0x212D5, 0x217551),
  (0x212D9, 0x237466_237467),
  (0x212DD, 0x2D754D),
  (0x212DF, 0x21753B),
  (0x212E3, 0x23745E),
  (0x212E5, 0x217544),
  (0x212E7, 0x23746A_237468_23746B_237465_237461_237464_23747B),
  (0x212EF, 0x217568),
  (0x212F1, 0x237473),
  (0x212F6, 0x237474),
  (0x212F9, 0x21754A_237521),
  (0x212FF, 0x217572),
  (0x2130A, 0x217565),
  (0x21312, 0x237475_237479),
  (0x21318, 0x237522),
  (0x2131D, 0x23746F_237478),
  (0x21325, 0x237477_21762F),
  (0x21329, 0x237531),
  (0x2132D, 0x23752A),
  (0x21331, 0x2D784C_237528),
  (0x2133B, 0x237527),
  (0x2134A, 0x23752B),
  (0x2134D, 0x23752E),
  (0x21350, 0x23752D),
  (0x21361, 0x23752C),
  (0x21366, 0x237537_2D7568_217663_2D382F_217727_217673),
  (0x2136E, 0x217751),
  (0x21372, 0x23753E),
  (0x21376, 0x237540),
  (0x2137B, 0x237549),
  (0x21386, 0x21772E),
  (0x21388, 0x237541),
  (0x2138D, 0x237543),
  (0x21390, 0x2D762C),
  (0x21392, 0x23753A),
  (0x21394, 0x23753B),
  (0x2139C, 0x21766F),
  (0x2139E, 0x21767B),
  (0x213A7, 0x237548_237545_2D3836_237546_237547_23754A),
  (0x213AE, 0x23755B),
  (0x213B0, 0x2D385F_2D7545_2D542B),
  (0x213B4, 0x237554),
  (0x213B7, 0x23755E),
  (0x213B9, 0x237560),
  (0x213BB, 0x23754D),
  (0x213BD, 0x237564_237565_237551_237558_237561),
  (0x213C3, 0x2D7829),
  (0x213CC, 0x237559),
  (0x213D8, 0x237557),
  (0x213DB, 0x237567),
  (0x213DE, 0x217739),
  (0x213E6, 0x237550),
  (0x213E9, 0x23756A_23756B_237556_217731_237621_23757B_237579_237570_23757A),
  (0x213F5, 0x237577),
  (0x213F7, 0x237574),
  (0x2141C, 0x237573_23756E),
  (0x21420, 0x237632),
  (0x21424, 0x23762B_237630),
  (0x2142D, 0x217822),
  (0x21430, 0x23762C_23762F_2F3052),
  (0x21436, 0x217827),
  (0x21439, 0x21782D),
  (0x2143C, 0x2D543C),
  (0x21442, 0x2D7850),
  (0x21446, 0x23762D_2D7678),
  (0x2144A, 0x2D7726),
  (0x2144D, 0x217823),
  (0x2144F, 0x2D784F),
  (0x21454, 0x21777D),
  (0x21458, 0x237634_23762A_237626_237623_237629),
  (0x2145F, 0x334F5D),
  (0x21461, 0x23763A_2D766C),
  (0x21467, 0x237647),
  (0x2146D, 0x23763E),
  (0x21476, 0x237639_2D7854_237641_237637),
  (0x21487, 0x237640_237638),
  (0x2148A, 0x23764F_2D784A_237648),
  (0x21491, 0x237646_23764B_237643),
  (0x2149D, 0x237645),
  (0x214A2, 0x237642_2D7765),
  (0x214A7, 0x23763B),
  (0x214AF, 0x237649_2D7837_237650),
  (0x214B3, 0x237654),
  (0x214C9, 0x23764C_237651),
  (0x214CD, 0x237655),
  (0x214D2, 0x237656),
  (0x214D5, 0x237659_237652),
  (0x214D8, 0x237657),
  (0x214E6, 0x237661_21785F),
  (0x214F0, 0x237660),
  (0x214F2, 0x237665_237664),
  (0x214F6, 0x237667_256C50_237663),
  (0x214FF, 0x237666),
  (0x21501, 0x237668),
  (0x21504, 0x217863),
  (0x21507, 0x237669),
  (0x21509, 0x23766A),
  (0x21515, 0x23766B),
  (0x21517, 0x23766E),
  (0x2151B, 0x23766F_237670),
  (0x21522, 0x237673),
  (0x21528, 0x237672_237671_237675),
  (0x21531, 0x23782A),
  (0x21534, 0x237676),
  (0x21541, 0x237678),
  (0x21545, 0x237679),
  (0x21548, 0x23767B_23767A),
  (0x21550, 0x23767C),
  (0x21552, 0x23767D),
  (0x21557, 0x23767E),
  (0x21560, 0x237722_237723_237724),
  (0x21567, 0x237729),
  (0x2156A, 0x237727),
  (0x2156D, 0x23772A_23772C),
  (0x21570, 0x217879),
  (0x21576, 0x23772D),
  (0x21583, 0x23772E_2D387B),
  (0x21589, 0x2D346F_2D387C),
  (0x2158C, 0x23772F),
  (0x21590, 0x237733_237732_237736_21787E_237735),
  (0x2159C, 0x237737),
  (0x2159E, 0x23773A_2F2B60),
  (0x215A2, 0x237738_237739_23773B),
  (0x215A7, 0x237742_237741),
  (0x215AA, 0x23773D_237740_23773E_23773F),
  (0x215AF, 0x237747),
  (0x215B2, 0x237746_237745),
  (0x215B7, 0x2D3922),
  (0x215BA, 0x237749),
  (0x215BD, 0x23774B_23774A),
  (0x215C1, 0x23774D),
  (0x215C6, 0x23774F),
  (0x215C8, 0x237750),
  (0x215CC, 0x237752_237753),
  (0x215CF, 0x237754),
  (0x215D1, 0x237755),
  (0x215D5, 0x2D305C),
  (0x215DA, 0x237756),
  (0x215DC, 0x24575D_2D392C_23775B),
  (0x215E0, 0x2D3321_2D5F70),
  (0x215E3, 0x21792F),
  (0x215E5, 0x217934_217935_237762_2D793F),
  (0x215F0, 0x23775E),
  (0x215F3, 0x237763),
  (0x215F5, 0x23775F),
  (0x215F7, 0x21793E_23776B_23776A),
  (0x21603, 0x237768),
  (0x21605, 0x2D793C),
  (0x21608, 0x2D3640_2D793A),
  (0x2160D, 0x217941_237772_237773_217940),
  (0x21619, 0x23776E_23776C_237770),
  (0x2161D, 0x237777_23777B_2D7941),
  (0x21621, 0x237775_237774_237778),
  (0x2162B, 0x217946),
  (0x21630, 0x237776),
  (0x21634, 0x23777A),
  (0x21637, 0x2D3939_23777E),
  (0x2163D, 0x217948),
  (0x21644, 0x237822_23777C),
  (0x2164B, 0x217949),
  (0x21651, 0x237828_237826_237829),
  (0x21657, 0x217950_23782C_23782D),
  (0x2165B, 0x237827_2D3940),
  (0x21664, 0x237832),
  (0x21668, 0x23782E_23782F_237831),
  (0x2166C, 0x237837_237833_237836),
  (0x21676, 0x237834),
  (0x21678, 0x217956),
  (0x2167D, 0x237838),
  (0x21681, 0x2D3D38),
  (0x21685, 0x237839),
  (0x21687, 0x23783D),
  (0x2168A, 0x217958),
  (0x2168C, 0x2D5134),
  (0x21690, 0x2D7955_23783E),
  (0x21694, 0x23783F),
  (0x21697, 0x237841),
  (0x21699, 0x237842),
  (0x2169B, 0x237843_237844),
  (0x2169F, 0x237845_237846),
  (0x216A7, 0x23784A),
  (0x216AA, 0x237849),
  (0x216AD, 0x23784B_217966),
  (0x216B1, 0x21795F),
  (0x216B6, 0x2D3945_237855_237854_237850_2D7961_23784F_2D7A60_23785F_237866),
  (0x216C4, 0x21796A_237859),
  (0x216C7, 0x217975_217976),
  (0x216CC, 0x23785E),
  (0x216D0, 0x2D797E),
  (0x216D3, 0x217972),
  (0x216D6, 0x237863_237858_23785C_237926),
  (0x216DC, 0x237925_217A38_23787D),
  (0x216E0, 0x23786D_237873_237877),
  (0x216E5, 0x23786A),
  (0x216E9, 0x237867),
  (0x216EB, 0x237860),
  (0x216F0, 0x217A32),
  (0x216F5, 0x237875_237876),
  (0x216FD, 0x23787A_237922_237874_237928_237927_23792A_237933_2D7B71),
  (0x21707, 0x237930),
  (0x21709, 0x23793D_237935_23792B),
  (0x2170D, 0x237938),
  (0x2171A, 0x23792E),
  (0x2171D, 0x2D7A53),
  (0x21722, 0x23792F),
  (0x21725, 0x237937_23792C_23793A_23793C_2D7A52_237939),
  (0x2172C, 0x237936),
  (0x2172E, 0x217B21_237948),
  (0x21731, 0x23794D_23795E_237947_2D7971_237946_2D7A63),
  (0x21743, 0x237955),
  (0x21748, 0x237944_237945_2D7A69_237943),
  (0x2174D, 0x23794B),
  (0x21752, 0x237951_237958),
  (0x21759, 0x237961_237954_23794E),
  (0x2175D, 0x237940),
  (0x21761, 0x2D7D69_23797B),
  (0x21766, 0x237979_237977),
  (0x21769, 0x2D3957),
  (0x2176B, 0x217B25),
  (0x2176E, 0x237967),
  (0x21775, 0x217B29),
  (0x2177F, 0x237976),
  (0x21786, 0x217B59),
  (0x21790, 0x2D7A78_2D7B3A),
  (0x21798, 0x237965_237966_237972_237964_217B67),
  (0x2179F, 0x237A21),
  (0x217A1, 0x2D7A71_237A33_237A2F_2D7C6D_237A43),
  (0x217A7, 0x237A41_2D7A51),
  (0x217AA, 0x237A42_237A37_237A4F_237A4C_237A32_237A39_237A26),
  (0x217BB, 0x217B6F),
  (0x217BE, 0x217B79),
  (0x217C7, 0x237A53),
  (0x217CC, 0x237A28),
  (0x217D0, 0x237A46_237A4E_23797E),
  (0x217D5, 0x23797D),
  (0x217D7, 0x237A44_237A45),
  (0x217DA, 0x237A29_237A2B_237A27_237A22),
  (0x217DF, 0x237A4A_237A3A_237A48_237A47_237A38_237A3D_237A4D_2D3976),
  (0x217E8, 0x237A5A_237A5F_237A68_237A5B_217C40_237A5D),
  (0x217F1, 0x2D7A57),
  (0x217F4, 0x237A67),
  (0x217F7, 0x237A66),
  (0x217FD, 0x2D7B22),
  (0x21800, 0x217C3D),
  (0x21804, 0x217C5A_217C5D),
  (0x21808, 0x2D7D76),
  (0x2180E, 0x217C3C),
  (0x21810, 0x2D3A43_237A5C_237A69_237A6B_2D7B65),
  (0x21817, 0x217C65),
  (0x21819, 0x237A74_217C74_2D7963_237A7C_2D7C63_237B28),
  (0x21822, 0x2D3F6D),
  (0x21824, 0x217C6A_237A73_237A77),
  (0x2183D, 0x217C73),
  (0x2183F, 0x237B27),
  (0x21841, 0x237B29_237A6C),
  (0x21845, 0x217D21),
  (0x21848, 0x237A7D_237A6F_237B24),
  (0x2184C, 0x237A7B_237A6D_237B3F_237B44_237B41_237B2E_237B36_2D7D38_237B3D_237B38_237B37_217D34),
  (0x21858, 0x237B32_237B34),
  (0x21865, 0x237B2F),
  (0x21868, 0x237B4A_237B2A),
  (0x2186C, 0x217D23),
  (0x21879, 0x2D7C7E_237B3C),
  (0x2187F, 0x2D3A3A_217D29),
  (0x21883, 0x217D33),
  (0x21885, 0x237B3B_237B43_237B35_237B2B_2D7D52_237B40),
  (0x21891, 0x237B51_237B55_2D7C24_2D3A46_237B56_217D3F),
  (0x21898, 0x217D46),
  (0x2189A, 0x237B52),
  (0x2189C, 0x237B2C),
  (0x2189E, 0x217D43),
  (0x218AE, 0x237B4C),
  (0x218B1, 0x237B4F_2D7C62),
  (0x218B4, 0x2D7D2A),
  (0x218B9, 0x237B58),
  (0x218BF, 0x217D45_237B4D_237B4E_237B47_2D7C21),
  (0x218C6, 0x2D3A45),
  (0x218C8, 0x237B50_237B65),
  (0x218CB, 0x237B5F_2D7D22),
  (0x218CF, 0x237B63),
  (0x218D4, 0x237B68),
  (0x218D9, 0x217D4D_217D4E_237B5B),
  (0x218DD, 0x217D4F),
  (0x218E0, 0x237B62),
  (0x218E2, 0x25585B_237B69),
  (0x218E6, 0x237B61),
  (0x218EA, 0x237B6C_237B70_217D64_237B6F_237B6D_237B6E_2D7D40_2D7D47),
  (0x218F8, 0x2D7D72_237B6B),
  (0x218FD, 0x237B75_237B77),
  (0x21900, 0x2D796B),
  (0x21902, 0x217D66),
  (0x21906, 0x217D61),
  (0x2190B, 0x237B76_237B74),
  (0x21912, 0x237B7C),
  (0x21915, 0x217D6A_237B79_237B7A),
  (0x21919, 0x237B7E_2D3A3C_237B7D_217D6F),
  (0x21922, 0x237C23),
  (0x21925, 0x2D693E),
  (0x2192B, 0x237C24),
  (0x2192F, 0x2D3A3F),
  (0x21931, 0x2D7D54_2D7D27),
  (0x21936, 0x237C25_217D7B),
  (0x21939, 0x2D7D36_237C26),
  (0x2193D, 0x237C28_2D3A5B_237C2A),
  (0x21941, 0x237C29),
  (0x21946, 0x2D3948_2D7E21_237C33_237C32),
  (0x2194B, 0x236B44),
  (0x2194D, 0x237C2F),
  (0x21958, 0x217E22),
  (0x2195B, 0x2D4631_2D3A52_2D3A5D),
  (0x21966, 0x237C35_237C36),
  (0x21969, 0x237C3A),
  (0x2196D, 0x237C3C),
  (0x21973, 0x237C3F),
  (0x21976, 0x237C45),
  (0x21978, 0x237C41),
  (0x2197D, 0x2D7E2F),
  (0x2197F, 0x237C43_237C42_237C44),
  (0x21983, 0x237C47_217E2E),
  (0x21986, 0x237C4B),
  (0x2198A, 0x237C48),
  (0x2198C, 0x2D7E30_237C46_237C4A_237C49),
  (0x21993, 0x237C4E_237C4C_237C4D),
  (0x21997, 0x2D3A61),
  (0x21999, 0x237C50),
  (0x2199B, 0x237C52_237C4F),
  (0x2199E, 0x237C56_237C53),
  (0x219A1, 0x237C55_237C58),
  (0x219A8, 0x237C54),
  (0x219AA, 0x237C59),
  (0x219B1, 0x237C5A),
  (0x219B7, 0x237C5C),
  (0x219BA, 0x237C60_237C5E_237C61),
  (0x219C3, 0x217E38_237C62),
  (0x219CA, 0x2D7E3C_2D5971),
  (0x219CD, 0x217E3C),
  (0x219D2, 0x237C64),
  (0x219D4, 0x237C68_237C66),
  (0x219D7, 0x237C6C_217E41_237C72),
  (0x219E1, 0x237C6A),
  (0x219E3, 0x237C6D),
  (0x219E5, 0x237C70_237C71),
  (0x219E8, 0x237C6F_237C74_2D3A68_2D7E34_217E4D_237C76_217E4B_217E4A),
  (0x219F1, 0x2D3A7E),
  (0x219F9, 0x237C75),
  (0x219FC, 0x237C7A),
  (0x21A00, 0x237D28),
  (0x21A02, 0x217E50_237C7D),
  (0x21A05, 0x237D21),
  (0x21A09, 0x2D4649_237D23),
  (0x21A16, 0x237D29_237D2B),
  (0x21A1A, 0x4B7E6A_237D2A_2D3B25),
  (0x21A1F, 0x237D26_237D25),
  (0x21A22, 0x217E57_237D36),
  (0x21A29, 0x237D37),
  (0x21A30, 0x217E5F_237D38_237D30),
  (0x21A35, 0x237D31),
  (0x21A37, 0x237D39),
  (0x21A3B, 0x237D35),
  (0x21A3D, 0x237D41),
  (0x21A3F, 0x237D47),
  (0x21A42, 0x237D3E_237D42_237D46),
  (0x21A46, 0x237D3F_237D43_2D546A),
  (0x21A4B, 0x217E69),
  (0x21A4F, 0x237D3D),
  (0x21A5B, 0x237D44),
  (0x21A61, 0x217E70),
  (0x21A63, 0x237D4E),
  (0x21A65, 0x237D4C),
  (0x21A69, 0x237D4A),
  (0x21A6F, 0x217E71),
  (0x21A76, 0x237D4B),
  (0x21A78, 0x237D4D),
  (0x21A7A, 0x2D7E7A),
  (0x21A7D, 0x237D53_237D51),
  (0x21A81, 0x237D54),
  (0x21A85, 0x237D50),
  (0x21A8C, 0x237D4F),
  (0x21A91, 0x237D56_237D58),
  (0x21A97, 0x237D55_2D7E72_237D5A),
  (0x21A9F, 0x2D3E71_237D5B),
  (0x21AB0, 0x237D5E_237D60_237D62_237D63),
  (0x21AB5, 0x237D65),
  (0x21AB8, 0x237D64),
  (0x21ABA, 0x237D5D),
  (0x21ABD, 0x237D66_237D69),
  (0x21AC0, 0x237D6C_237D6A_237D6D_237D68),
  (0x21ACB, 0x237D6B),
  (0x21ACD, 0x222226),
  (0x21AD4, 0x237D6F),
  (0x21ADD, 0x237D6E_2F3A21_237D71_237D70),
  (0x21AE4, 0x237D72_237D73),
  (0x21AEC, 0x22222D),
  (0x21AEF, 0x237D75),
  (0x21AF2, 0x22222C),
  (0x21AF4, 0x237D76_237D74),
  (0x21AF8, 0x237D78_237D77),
  (0x21AFD, 0x237D7B),
  (0x21B01, 0x237D7A_237D79),
  (0x21B04, 0x237D7E_237D7C_237E21_237D7D),
  (0x21B09, 0x237E23),
  (0x21B0B, 0x237E22_237E24_222230_237E2C_237E25_237E26),
  (0x21B13, 0x237E28),
  (0x21B15, 0x237E27_237E2B_237E29_237E2A_237E2D),
  (0x21B1C, 0x237E2E),
  (0x21B1E, 0x237E2F),
  (0x21B24, 0x237E30_237E31),
  (0x21B27, 0x237E32),
  (0x21B2A, 0x2D5261_237E33),
  (0x21B2F, 0x237E35),
  (0x21B32, 0x237E34_22223A),
  (0x21B35, 0x237E36),
  (0x21B38, 0x237E37),
  (0x21B3D, 0x2D337A),
  (0x21B42, 0x237E38),
  (0x21B47, 0x237E39),
  (0x21B50, 0x237E3C),
  (0x21B5A, 0x237E3F_237E40),
  (0x21B5D, 0x2D5056_237E41_237E44),
  (0x21B62, 0x237E42_237E43),
  (0x21B65, 0x237E46),
  (0x21B6D, 0x237E49_237E48),
  (0x21B73, 0x237E4A_2D5F34),
  (0x21B77, 0x237E4B_237E4C),
  (0x21B7E, 0x237E4E_237E51),
  (0x21B8E, 0x237E52),
  (0x21B90, 0x2D3B45),
  (0x21B96, 0x237E53),
  (0x21B99, 0x237E55_237E54),
  (0x21B9E, 0x237E57_237E58),
  (0x21BA6, 0x237E5A),
  (0x21BB0, 0x237E5B),
  (0x21BBB, 0x237E5D),
  (0x21BBF, 0x237E5F),
  (0x21BC1, 0x237E60),
  (0x21BC4, 0x237E62),
  (0x21BC7, 0x237E63_237E64),
  (0x21BCC, 0x237E66_237E65),
  (0x21BCF, 0x237E68_237E69_237E6E_237E6F),
  (0x21BD6, 0x237E6D),
  (0x21BD8, 0x237E6C_237E6B),
  (0x21BDC, 0x237E70),
  (0x21BDE, 0x237E72),
  (0x21BE1, 0x237E73_237E75),
  (0x21BE6, 0x237E76),
  (0x21BE8, 0x237E79_237E77),
  (0x21BEC, 0x237E7A),
  (0x21BF1, 0x237E7B),
  (0x21BF3, 0x237E7C_222257_242223),
  (0x21BFE, 0x242224_242226_242227),
  (0x21C06, 0x24222A),
  (0x21C0B, 0x24222C_24222B),
  (0x21C0E, 0x24222E),
  (0x21C10, 0x2F286B),
  (0x21C16, 0x22225E),
  (0x21C1A, 0x242230),
  (0x21C1D, 0x242231),
  (0x21C20, 0x242232),
  (0x21C22, 0x242233),
  (0x21C25, 0x242235),
  (0x21C28, 0x242234_2D544D_242238_242236_2D5B2D),
  (0x21C32, 0x242237),
  (0x21C37, 0x242239_2D3B5C),
  (0x21C3B, 0x24223B),
  (0x21C3D, 0x24223A_242242_22226C),
  (0x21C41, 0x242243_24223D),
  (0x21C45, 0x242240_222266_242241),
  (0x21C49, 0x24223F_24223E_222269_242247),
  (0x21C4F, 0x242248_242246_24224B_27463E),
  (0x21C5C, 0x24224A_22226D),
  (0x21C5F, 0x242249),
  (0x21C61, 0x242245_242252_222276_24224C_222275),
  (0x21C70, 0x24224F_242253),
  (0x21C73, 0x242244),
  (0x21C77, 0x24224D),
  (0x21C7A, 0x24225B),
  (0x21C7C, 0x242259_24225D_242255_242257_242254_24225E),
  (0x21C8D, 0x242258),
  (0x21C90, 0x24225C_2D3B57),
  (0x21C96, 0x2F2321_242261),
  (0x21C9A, 0x242260_242265),
  (0x21CA0, 0x2D4E30),
  (0x21CA9, 0x2D3B51_242264),
  (0x21CAC, 0x242266_24226C_24226A),
  (0x21CB3, 0x2D483E),
  (0x21CBC, 0x242269),
  (0x21CBF, 0x242267),
  (0x21CC2, 0x242268),
  (0x21CC4, 0x24226E),
  (0x21CC6, 0x24226D),
  (0x21CCF, 0x24226F),
  (0x21CD1, 0x242274),
  (0x21CD4, 0x242275_22232A),
  (0x21CD8, 0x242273),
  (0x21CDA, 0x242272),
  (0x21CDE, 0x242271),
  (0x21CE0, 0x242276),
  (0x21CE8, 0x242277),
  (0x21CEC, 0x242278_24227A_242279),
  (0x21CF4, 0x24227B),
  (0x21CF8, 0x24227C),
  (0x21CFB, 0x24227D),
  (0x21CFE, 0x242321),
  (0x21D00, 0x2D642D),
  (0x21D05, 0x242322_242323_242328_242326),
  (0x21D0B, 0x242329),
  (0x21D0E, 0x24232B),
  (0x21D14, 0x24232A),
  (0x21D1E, 0x24232C),
  (0x21D20, 0x24232D),
  (0x21D2D, 0x24232E_242330_24232F),
  (0x21D3B, 0x242331),
  (0x21D3E, 0x24233A),
  (0x21D40, 0x242333_2D346D),
  (0x21D4B, 0x24233B),
  (0x21D51, 0x242339),
  (0x21D54, 0x242340_242355_24233D_24234A_242352_242350_242354_242353_24234C),
  (0x21D6C, 0x24233F),
  (0x21D6F, 0x22234C),
  (0x21D73, 0x242357_242349),
  (0x21D77, 0x242348),
  (0x21D7A, 0x22234F),
  (0x21D7C, 0x2D4955),
  (0x21D7E, 0x2D5950),
  (0x21D82, 0x242341_24236E_24236D_24235E_24235C),
  (0x21D88, 0x24236A_24236C),
  (0x21D8B, 0x242363_24235D),
  (0x21D8E, 0x242360_2D3B7D_242364_242361),
  (0x21D93, 0x2D3C2E),
  (0x21D98, 0x242366),
  (0x21D9B, 0x222368),
  (0x21DA3, 0x24236B),
  (0x21DAA, 0x24235B_22242E),
  (0x21DAD, 0x242378),
  (0x21DAF, 0x24237E),
  (0x21DB1, 0x242421),
  (0x21DB4, 0x28254E),
  (0x21DB6, 0x22242C),
  (0x21DC2, 0x242426),
  (0x21DCD, 0x242373_242372),
  (0x21DD1, 0x222376),
  (0x21DD3, 0x242377_24237C_242435_242430_24242A_242443_24243E),
  (0x21DDB, 0x242441_24243A_242439_242434_24242D_242438_242442),
  (0x21DE5, 0x222443),
  (0x21DE8, 0x222440),
  (0x21DEC, 0x242445_24244E),
  (0x21DF8, 0x24242F),
  (0x21DFA, 0x242444_242437),
  (0x21DFF, 0x242447),
  (0x21E04, 0x242452),
  (0x21E08, 0x24243F_24244C_242450),
  (0x21E0C, 0x242451_242446),
  (0x21E11, 0x242469),
  (0x21E14, 0x242471_242453),
  (0x21E17, 0x24245C_242458),
  (0x21E1B, 0x24247B_242464),
  (0x21E1E, 0x24246F_242475_242476_24245B_242474_222465_222461_242455_24246B),
  (0x21E28, 0x24245E_242456_242460),
  (0x21E35, 0x2D3C23),
  (0x21E4E, 0x242467),
  (0x21E53, 0x242472),
  (0x21E56, 0x242454),
  (0x21E58, 0x242470),
  (0x21E62, 0x242473_24245F_24246C_242479_242457_242468_24246A_24245D_24252D),
  (0x21E6C, 0x222523_242521),
  (0x21E6F, 0x242536_242534),
  (0x21E72, 0x24252F_24253E),
  (0x21E75, 0x24253C_24252E_242529_24253B_242528),
  (0x21E7C, 0x24252A),
  (0x21E7E, 0x242533),
  (0x21E86, 0x22246F_242526_242525),
  (0x21E8A, 0x242543),
  (0x21E90, 0x242462),
  (0x21E93, 0x24252B_242539_242537_242535_242540),
  (0x21EA0, 0x222529_2D4D31_22247C),
  (0x21EA7, 0x24253F),
  (0x21EAB, 0x24255B_242548_24254F_242550_24255C),
  (0x21EB3, 0x2F356D_24254B_24255E),
  (0x21EB7, 0x242553_242554),
  (0x21EBD, 0x242552),
  (0x21EC0, 0x222542),
  (0x21EC5, 0x222546),
  (0x21ECC, 0x242558),
  (0x21ED1, 0x242547),
  (0x21ED8, 0x242560_242567_242564),
  (0x21EDD, 0x222564_242573_22255C_242569_24257C_242575_24257D_242566),
  (0x21EE7, 0x24256D_242561_242576_222559),
  (0x21EEC, 0x242568_242572_24257B_242570_24257E),
  (0x21EF5, 0x24257A),
  (0x21EF9, 0x22255D_242571),
  (0x21F00, 0x22255F),
  (0x21F03, 0x242565),
  (0x21F09, 0x242578_222574),
  (0x21F0C, 0x242624),
  (0x21F0E, 0x24262B_24262D),
  (0x21F13, 0x242622_242626),
  (0x21F16, 0x242621_242639),
  (0x21F1A, 0x242634_24262E_242627),
  (0x21F22, 0x242630),
  (0x21F2A, 0x222576),
  (0x21F2C, 0x242629),
  (0x21F3A, 0x24263A_242638),
  (0x21F3D, 0x24263B),
  (0x21F3F, 0x242640),
  (0x21F41, 0x242651_242644),
  (0x21F44, 0x242650_242641_24263F),
  (0x21F49, 0x242653_242648),
  (0x21F52, 0x242647),
  (0x21F59, 0x24264B),
  (0x21F5B, 0x242642_242662_24265E_24266E),
  (0x21F60, 0x242659),
  (0x21F62, 0x242657_24265A),
  (0x21F66, 0x242652_24265B),
  (0x21F6C, 0x2D3C2D),
  (0x21F72, 0x242656),
  (0x21F75, 0x222631),
  (0x21F77, 0x242663),
  (0x21F7C, 0x24264D),
  (0x21F7F, 0x242661_242660),
  (0x21F84, 0x24266A_24266B_24266F_242666_242667_242665_24266C_22263A_242664),
  (0x21F94, 0x24266D_242669),
  (0x21F97, 0x237840),
  (0x21F99, 0x242672),
  (0x21F9B, 0x242676_242673_242671),
  (0x21FA5, 0x242675),
  (0x21FAE, 0x24267D),
  (0x21FB0, 0x24267A_24267C),
  (0x21FBB, 0x242658_242726_242724_242725),
  (0x21FC1, 0x2D3C30_242721),
  (0x21FC7, 0x24272B_242728_24272A_242729_24272C),
  (0x21FCE, 0x222648),
  (0x21FD1, 0x24272D),
  (0x21FD4, 0x242731),
  (0x21FD6, 0x242730),
  (0x21FD9, 0x242733),
  (0x21FDB, 0x24272F_242732_242734),
  (0x21FE0, 0x242735_242736_242739),
  (0x21FE4, 0x242737_24273A),
  (0x21FE8, 0x222651_24273C_24273D),
  (0x21FED, 0x24273E_24273B_242740_24273F),
  (0x21FF5, 0x242741),
  (0x21FF7, 0x2D5C5F),
  (0x21FFC, 0x242742),
  (0x21FFF, 0x242743),
  (0x22001, 0x242745),
  (0x22004, 0x242746),
  (0x2200A, 0x242747_242748_24274A_242749_2D4728),
  (0x22012, 0x2D3C3D),
  (0x22015, 0x24274B),
  (0x22017, 0x24274C_24274E_24274D_2D3C37),
  (0x2201C, 0x242750),
  (0x2201E, 0x24274F),
  (0x2202A, 0x242753),
  (0x22034, 0x242757),
  (0x22036, 0x242758),
  (0x2203A, 0x24275A),
  (0x2203D, 0x24275C),
  (0x22040, 0x24275F_242760_24275E),
  (0x22044, 0x242761),
  (0x2204E, 0x242763_242762),
  (0x22052, 0x242765_2F3552),
  (0x22055, 0x24276E_24276A_242768_242770),
  (0x2205D, 0x24276B_24276C_24276D_242766),
  (0x22062, 0x242767),
  (0x22064, 0x24276F),
  (0x22066, 0x242773_24277C),
  (0x22069, 0x242776_242771),
  (0x2206C, 0x24277B),
  (0x2206E, 0x24277A),
  (0x22071, 0x24277D),
  (0x22074, 0x2D506E),
  (0x22076, 0x242774_242779),
  (0x22079, 0x242778),
  (0x2207B, 0x242827_242822_242821_242825_242829_242826_24282E),
  (0x22083, 0x24282F_242824),
  (0x22086, 0x24282C_2D3C4E),
  (0x22089, 0x24282A_24282B),
  (0x2208D, 0x24277E),
  (0x2208F, 0x242828_242831_2D405C_242833_242835_242834_242839),
  (0x22097, 0x242837_242838),
  (0x2209D, 0x242836),
  (0x220A5, 0x22267D),
  (0x220B1, 0x242843_242844_242845_242841),
  (0x220B6, 0x242842_24283D),
  (0x220B9, 0x22272A),
  (0x220BC, 0x24283F),
  (0x220C0, 0x242840_2D5139),
  (0x220CD, 0x242859_24284C_24284B_24284A_242855_242847_24284D_242848_242854),
  (0x220D7, 0x24284F_242857_242849),
  (0x220DB, 0x24284E_242852),
  (0x220E2, 0x242850),
  (0x220E5, 0x242851_242856),
  (0x220EA, 0x2E274F),
  (0x220EC, 0x222733),
  (0x220EE, 0x242860_24285E_242867_242862_24285C_24285F_24285B_242870_24285D_2D4A4F_242869),
  (0x220FA, 0x24286C),
  (0x22100, 0x242864_242866),
  (0x22104, 0x242865_242863),
  (0x22107, 0x24286B),
  (0x2210A, 0x24287B_242873),
  (0x2210D, 0x242876_242872_242874_22273E),
  (0x22112, 0x24287D_24287C_24287A),
  (0x22116, 0x2D4C34),
  (0x2211A, 0x242879),
  (0x2211C, 0x242878),
  (0x2211E, 0x242871),
  (0x22121, 0x242924_242923_242929_242925),
  (0x22126, 0x24292D_242921),
  (0x2212C, 0x24292A),
  (0x22130, 0x242930_242928_24287E_242926),
  (0x22135, 0x24293E_242935_242936_242939_24293F_24293D_242934_24293B),
  (0x22140, 0x242938_242940),
  (0x22148, 0x242933_24293C_24293A_242932),
  (0x2214E, 0x242947),
  (0x22151, 0x242948_242942),
  (0x22155, 0x242941),
  (0x22157, 0x242945),
  (0x2215C, 0x242944_242943),
  (0x2215F, 0x24294C_24294A),
  (0x22164, 0x24294B),
  (0x22169, 0x242950_24294E_24294F),
  (0x2216D, 0x242952_222766_222767_242951),
  (0x22175, 0x222768),
  (0x22178, 0x242955_242956),
  (0x2217B, 0x242957_22276B_242958_24295B),
  (0x22180, 0x24295A),
  (0x22182, 0x24295D_24295E),
  (0x22185, 0x24295F),
  (0x22189, 0x22276C),
  (0x2218B, 0x242961_242960),
  (0x22196, 0x242962),
  (0x22199, 0x2D3C64_242965),
  (0x2219C, 0x242966),
  (0x221A2, 0x242967_237748),
  (0x221A6, 0x242968),
  (0x221AF, 0x2D506D_242969),
  (0x221B3, 0x24296A),
  (0x221B6, 0x222770_222771_24296C),
  (0x221BA, 0x24296B),
  (0x221BD, 0x24296D_24296E),
  (0x221C1, 0x33513B),
  (0x221C7, 0x222772_242970),
  (0x221CB, 0x242972_242973),
  (0x221D5, 0x236734),
  (0x221D7, 0x242976_24297A),
  (0x221DA, 0x242977),
  (0x221DE, 0x22277B_242978),
  (0x221E4, 0x24297E_242A21_242A23_24297B_24297C),
  (0x221EB, 0x2F3050),
  (0x221EF, 0x2D3C72_242A24),
  (0x221F2, 0x242A35_242A26_242A28_242A2C_242A2D_222827_242A27),
  (0x22202, 0x242A2E_242A30_242A34),
  (0x22206, 0x242A29_242A42_242A3F_242A3D),
  (0x2220B, 0x242A40_242A43_222831_2D3D2A),
  (0x22212, 0x242A3C_242A3B),
  (0x22219, 0x242A48_242A4F_242A51_242A4E_242A4A),
  (0x22220, 0x242A49_242A54_242A50),
  (0x22224, 0x242A55),
  (0x22226, 0x242A58),
  (0x22228, 0x22283A),
  (0x2222A, 0x22282E),
  (0x2222C, 0x242A47),
  (0x2222F, 0x242A57),
  (0x22232, 0x237C39_242A66_242A5A_242A5C_242A65),
  (0x22238, 0x242A6A),
  (0x2223B, 0x242A62_242A59_242A5E_242A60),
  (0x22241, 0x242A6C_242A5D_242A69),
  (0x22245, 0x242A6B),
  (0x22247, 0x242A68),
  (0x22251, 0x242A64),
  (0x22253, 0x242A67),
  (0x22256, 0x2D6253_242A63_242A5B_2D3C7B_242A6D_242B23_242A61_242A7D_242A7E_242B22),
  (0x22262, 0x242A75),
  (0x22264, 0x242A76_242A7C_242A71),
  (0x22268, 0x242A73_242A70),
  (0x2226B, 0x242A77),
  (0x2226D, 0x242A6E),
  (0x22275, 0x242A7A),
  (0x2227A, 0x242A78),
  (0x2227C, 0x242A79),
  (0x2227F, 0x222852_242B2B),
  (0x22284, 0x242B29_242B28),
  (0x22287, 0x242B25_22284E),
  (0x2228C, 0x22284F),
  (0x22292, 0x242B27_242B26_242B2C),
  (0x22296, 0x242B2D_242B33_242B30),
  (0x2229A, 0x242B39_242B32_242B2E),
  (0x222A7, 0x242B38),
  (0x222AC, 0x242B36),
  (0x222AE, 0x242B3F_242A6F_222865_242B3B_242B3A),
  (0x222B5, 0x242B43_242B3D),
  (0x222BB, 0x2D5C52),
  (0x222C2, 0x242B40_242B45_242B4C_242B4B_242B44_22286F),
  (0x222CC, 0x242B4E),
  (0x222D2, 0x242B51),
  (0x222D4, 0x242B50),
  (0x222DA, 0x242B4F),
  (0x222DC, 0x2F2B65_242B53),
  (0x222E3, 0x242B55),
  (0x222E7, 0x242B54),
  (0x222EE, 0x242B57),
  (0x222F1, 0x242B59_242B58),
  (0x222F8, 0x222879_242B5B),
  (0x222FB, 0x242B60_242B5F),
  (0x222FF, 0x242B5C),
  (0x22304, 0x242B61),
  (0x22308, 0x242B62),
  (0x2230D, 0x242B63),
  (0x22313, 0x2D3D25_242B65_242B64),
  (0x2231B, 0x242B67),
  (0x2231D, 0x242B68),
  (0x22325, 0x22292A_242B69),
  (0x22328, 0x242B6A),
  (0x2232B, 0x242B6C),
  (0x2232E, 0x242B6F),
  (0x22333, 0x222932),
  (0x22338, 0x2D3D37_242B70),
  (0x2233B, 0x222934),
  (0x22342, 0x27627B),
  (0x22345, 0x2D3938_242B73_242B74_242B75),
  (0x2234D, 0x2D3D35_2D5873_222936),
  (0x22351, 0x242B77),
  (0x22353, 0x242B76),
  (0x22355, 0x242B78),
  (0x22357, 0x2D5837),
  (0x2235A, 0x222937_242B79_2D3B41),
  (0x22363, 0x242B7A),
  (0x22367, 0x242B7C),
  (0x2236B, 0x242B7B),
  (0x2236D, 0x236731_2D3C3B),
  (0x22371, 0x242B7E),
  (0x22376, 0x2D4237),
  (0x2237C, 0x242C21_242C22),
  (0x2237F, 0x22293F_242C24_2D4627_242C25_242C23),
  (0x22385, 0x242C26_242C27),
  (0x22388, 0x242C28_242C29),
  (0x2238B, 0x242C2B_242C2A),
  (0x2238E, 0x242C2C),
  (0x22394, 0x242C2F_242C30_242C31),
  (0x22399, 0x222944),
  (0x2239B, 0x222943),
  (0x223A9, 0x242C34_242C35_242C3A),
  (0x223AD, 0x242C38_2D464E),
  (0x223B4, 0x242C37_242C39),
  (0x223B7, 0x242C3E),
  (0x223B9, 0x242C40_2D3D42_242C3F),
  (0x223C2, 0x242C43_242C44_242C41_242C3D_242C46),
  (0x223C8, 0x242C49),
  (0x223CB, 0x222949),
  (0x223CD, 0x242C4A_242C4B),
  (0x223D2, 0x242C4C),
  (0x223D5, 0x242C54),
  (0x223D7, 0x22294F_2D5249_242C4E_242C51),
  (0x223DC, 0x242C58_242C52_242C53_242C57),
  (0x223E4, 0x242C5C),
  (0x223E6, 0x242C5D_242C5B_2D3D4A),
  (0x223EA, 0x242C59),
  (0x223ED, 0x242C4F_242C62_242C60_242C63_2D3D45),
  (0x223F7, 0x242C5F),
  (0x22402, 0x242C66_242C67_242C68_2D3D46_242C65),
  (0x2240A, 0x242C69),
  (0x2240E, 0x242C6A),
  (0x22410, 0x242C6E),
  (0x22412, 0x242C70_2D5E37_242C72),
  (0x22419, 0x242C6F_242C71),
  (0x2241E, 0x242C74_242C78),
  (0x22426, 0x242C79_242C7C),
  (0x22429, 0x242C7A),
  (0x2242B, 0x247B78),
  (0x22432, 0x242D22_242D21),
  (0x22437, 0x242C7E),
  (0x2243E, 0x242D23_242D24),
  (0x22444, 0x242D25_242D26_222965_242D27_222966),
  (0x2244A, 0x242D28),
  (0x2244F, 0x242D29),
  (0x22453, 0x242D2A),
  (0x22457, 0x242D2C),
  (0x2245D, 0x242D2D),
  (0x2245F, 0x242D2E_242D2F),
  (0x22462, 0x242D30),
  (0x22466, 0x242D31_242D32),
  (0x2246C, 0x242D33),
  (0x2246E, 0x242D34),
  (0x22471, 0x22296F),
  (0x2247E, 0x242D39),
  (0x22480, 0x242D3A),
  (0x22482, 0x242D3B),
  (0x22486, 0x242D3C),
  (0x22488, 0x273D59_242D3E),
  (0x2248D, 0x242D3D),
  (0x22490, 0x242D42_242D44_242D43_242D41_242D45_2D587B),
  (0x2249B, 0x2D594B),
  (0x2249D, 0x242D48_222975),
  (0x224A3, 0x242D49),
  (0x224A5, 0x2D642A),
  (0x224A9, 0x242D4C),
  (0x224AF, 0x242D4E_222977_242D51_242D4F),
  (0x224B7, 0x242D53),
  (0x224B9, 0x242D54),
  (0x224BE, 0x242D55),
  (0x224C0, 0x242D57),
  (0x224C3, 0x242D58_242D5B),
  (0x224C6, 0x242D59),
  (0x224C8, 0x242D5E_2D5B6C_2D3D6B_242D5D),
  (0x224CE, 0x242D5C),
  (0x224D2, 0x242D62_2F3D30_242D5F),
  (0x224D6, 0x242D61_242D6C_242D63_242D60),
  (0x224DC, 0x222A2C_2D3152_242D67_242D64_242D6E_222A28_242D65_242D66),
  (0x224E9, 0x2D307C),
  (0x224EC, 0x222A32_2F3D49_242D73_242D76_242D74_222A31),
  (0x224F3, 0x222A30),
  (0x224F5, 0x242D75_2D5C28),
  (0x224FB, 0x242D72),
  (0x224FF, 0x242D77_2D3159_242D7D_242D7B),
  (0x22504, 0x222A3A_242E22_242D79_242E25_242E23),
  (0x2250A, 0x242E26_242D7E),
  (0x2250D, 0x2D3156),
  (0x22511, 0x242D78),
  (0x22518, 0x2D6742),
  (0x2251A, 0x2D3D72_222A34),
  (0x2251F, 0x222A41_242E2F_242E28_242E31_242E32_242E2C_242E2D),
  (0x22527, 0x242E27),
  (0x22529, 0x242E2A_242D7C),
  (0x2252C, 0x253D46),
  (0x22531, 0x242E33),
  (0x22533, 0x242E38_242E37),
  (0x22539, 0x242E39),
  (0x22547, 0x2D682F),
  (0x2254D, 0x242E3A_242E35),
  (0x22551, 0x242E3B),
  (0x22553, 0x242E40_242E3C_242E48_242E3F),
  (0x22558, 0x242E45_242E49_242E3D),
  (0x2255E, 0x242E3E),
  (0x22563, 0x242E43),
  (0x22566, 0x242E46),
  (0x22568, 0x242E4A),
  (0x2256A, 0x242E53_242E4F),
  (0x2256D, 0x242E4E_242E4C_242E4D),
  (0x22572, 0x242E50),
  (0x2257A, 0x242E56_242E58),
  (0x2257D, 0x242E5A_2D5C54),
  (0x22584, 0x242E57_253D4E),
  (0x22588, 0x242E5E),
  (0x2258A, 0x222A51_253D50)]

/-- Part of `writes`. -/
def writes2 : Chart := wide24 [
  (0x2258E, 0x242E5D_242E61),
  (0x22591, 0x242E60),
  (0x22597, 0x242E62_242E63),
  (0x2259D, 0x242E66_242E65_242E67),
  (0x225A1, 0x253D51),
  (0x225A4, 0x242E69),
  (0x225A6, 0x242E6A_242E6B),
  (0x225A9, 0x242E6C_242E6D_222A58_242E70),
  (0x225B3, 0x222A5C_242E7C_242E76),
  (0x225B7, 0x242E72),
  (0x225B9, 0x2D3E50_242E74),
  (0x225BF, 0x242E7A_242E7B),
  (0x225C2, 0x242E79),
  (0x225C4, 0x242E73),
  (0x225C7, 0x242E77_242E7D_242F27),
  (0x225CB, 0x242F2F_242F21_2D3D7E_242F30),
  (0x225D2, 0x242F2C),
  (0x225D7, 0x222A74),
  (0x225DE, 0x242F26),
  (0x225E0, 0x222A6F),
  (0x225E7, 0x222A70_222A79),
  (0x225EB, 0x242F34),
  (0x225ED, 0x242F35),
  (0x225EF, 0x242F38_242F33),
  (0x225F2, 0x242F24),
  (0x225F4, 0x242F32_222A71),
  (0x225F9, 0x242F39_242F36),
  (0x22603, 0x242F48_242F44_2E2E5A_242F40),
  (0x22609, 0x242F45_242F46_222B4C_242F3D_242F4B_242F3A_242F47),
  (0x22617, 0x2D5423),
  (0x2261B, 0x222B51),
  (0x2261F, 0x242F4F),
  (0x22625, 0x2D3E3B),
  (0x22629, 0x242F43),
  (0x2262C, 0x222B42),
  (0x22634, 0x242F68),
  (0x22638, 0x242F5A_242F59_242F53_2D3E53_242F67_222B6A),
  (0x2263F, 0x222B6D),
  (0x22641, 0x242F61_242F65),
  (0x22644, 0x2D3E3E_222B79),
  (0x22647, 0x242F52_242F66_2D3E7E_2D3E39_242F5B),
  (0x22652, 0x282E3D),
  (0x22656, 0x2D3E44),
  (0x2265D, 0x222B75),
  (0x22661, 0x242F6A_2D3E3D_333E61),
  (0x22668, 0x222B66),
  (0x2266B, 0x222B6B),
  (0x2266E, 0x242F62_242F64),
  (0x22671, 0x242F74_243021_243026_24302F),
  (0x2267A, 0x242F75),
  (0x2267E, 0x242F77_243027),
  (0x22681, 0x242F73_24302A_2D3427_242F6D_24302E_243023_2D4A66),
  (0x22689, 0x2D3E3A),
  (0x2268B, 0x243029_242F72),
  (0x2268E, 0x243034),
  (0x22690, 0x2D3E55_24302D),
  (0x22697, 0x242F70),
  (0x226A8, 0x243035),
  (0x226AA, 0x243030_243031),
  (0x226AD, 0x242F7E_24302B),
  (0x226B0, 0x333E7E),
  (0x226BA, 0x242F7C_243024),
  (0x226C2, 0x2D3E65_222C64_243046),
  (0x226C6, 0x222C4A),
  (0x226CD, 0x243053),
  (0x226D2, 0x243044_24305E_243040_243049_24305C),
  (0x226D8, 0x243052),
  (0x226DB, 0x222D44_243056_243061_24304E_24303F),
  (0x226E5, 0x24305B_243064_2D3E6A_24303A),
  (0x226EE, 0x243065),
  (0x2270C, 0x222C4F),
  (0x2270F, 0x222C5A),
  (0x22717, 0x24303C),
  (0x22723, 0x24305A),
  (0x22725, 0x2D6C64_243057),
  (0x22728, 0x24312F_24306E_243076_243075),
  (0x2272D, 0x243122_222D27),
  (0x22731, 0x243079),
  (0x22735, 0x24307C_243067_243135_24306C_243132_2D3624_243121),
  (0x2273D, 0x222C78),
  (0x2273F, 0x24313B_243069_243123_243071_2D7B61_243073),
  (0x22746, 0x222D3C_24307D_24307A_24306D_24312D),
  (0x2274C, 0x243078_243063),
  (0x22753, 0x243126_2D3E70),
  (0x22757, 0x243130),
  (0x2275E, 0x243072_243074),
  (0x22767, 0x222D38),
  (0x2276C, 0x24305D),
  (0x22772, 0x2D3E7A_243129_243133),
  (0x22787, 0x243077),
  (0x22789, 0x24312A_24306B_243136),
  (0x2278D, 0x222D24_243148_24313D_24313E),
  (0x22792, 0x243161_243157),
  (0x22795, 0x243139),
  (0x22797, 0x243153),
  (0x2279A, 0x24315A_243154_243146),
  (0x2279F, 0x243141_24314D_243149),
  (0x227A3, 0x243162),
  (0x227A5, 0x243163_243152_24314A),
  (0x227AC, 0x243150),
  (0x227AE, 0x24314C),
  (0x227B2, 0x243140),
  (0x227B4, 0x222D5C),
  (0x227BB, 0x24314E),
  (0x227C5, 0x24315F),
  (0x227CA, 0x24314F_243156),
  (0x227E2, 0x243167_24316E_243228),
  (0x227E6, 0x243171_24317E_24317C_243174),
  (0x227EB, 0x24316F_243227_243170),
  (0x227EF, 0x243225_24316A_24316D_24315C_243164_243169_243222),
  (0x227FE, 0x243179_243221),
  (0x2281B, 0x243226),
  (0x2281D, 0x24322A),
  (0x2282C, 0x243229_243165_24317B),
  (0x22831, 0x243246_243231),
  (0x22835, 0x222E49_2D3E52_243238_222E4B_243235_24323C),
  (0x2283C, 0x24323E_222E54),
  (0x22840, 0x24323F_243240_222E31_243245),
  (0x22845, 0x24323D_2D3F4E_243236_24324D),
  (0x2284F, 0x243230_24322D_24324C_24322F_243241),
  (0x2285F, 0x222E44),
  (0x22865, 0x2D3F41),
  (0x2286F, 0x243251_243E25),
  (0x22874, 0x243248_243249),
  (0x22879, 0x243250),
  (0x2287D, 0x2D3E62),
  (0x22880, 0x222E38_222E3A_243243),
  (0x2288C, 0x24324B_24324F),
  (0x22892, 0x243256_243252),
  (0x22895, 0x243254_24325F_24325E_243255_2D3F23_24325D),
  (0x2289C, 0x24325C),
  (0x228A4, 0x243266),
  (0x228A9, 0x243260),
  (0x228B0, 0x24325B),
  (0x228B2, 0x222E61),
  (0x228B4, 0x222E67),
  (0x228B9, 0x243269),
  (0x228C1, 0x222E65),
  (0x228C9, 0x243267_243265),
  (0x228CE, 0x243274_243276_24326C_222E6D_243270_24327E_24332B),
  (0x228D8, 0x222F25_24326A_24326F),
  (0x228DD, 0x24326D_24327D),
  (0x228E0, 0x243322),
  (0x228E4, 0x222F23),
  (0x228EF, 0x24327C_243323),
  (0x228F3, 0x24327B),
  (0x228F6, 0x2D3F4B),
  (0x228FA, 0x243272_243325),
  (0x228FF, 0x24332A),
  (0x22901, 0x243334_222F30_2D3F32_243329),
  (0x22906, 0x243326_243328),
  (0x2290B, 0x243327),
  (0x2290D, 0x24332F_24332E),
  (0x22910, 0x243335),
  (0x22916, 0x243333),
  (0x22918, 0x243332),
  (0x22924, 0x243331),
  (0x22926, 0x24333C_222F34),
  (0x22929, 0x24333B),
  (0x2292B, 0x24334A),
  (0x2292D, 0x2D3F49),
  (0x2292F, 0x24333D_243341_243338_24333F),
  (0x22936, 0x243340_243342),
  (0x22943, 0x243324_243336),
  (0x2294C, 0x24334B),
  (0x2294E, 0x243347_243345_243344),
  (0x22958, 0x222F3A),
  (0x2295A, 0x243349),
  (0x2295D, 0x24334F_222F38),
  (0x22960, 0x222F3B),
  (0x22965, 0x24334D),
  (0x22967, 0x243350),
  (0x2296B, 0x222F3C),
  (0x22970, 0x243353),
  (0x22973, 0x243351),
  (0x22978, 0x243352),
  (0x2297B, 0x243354),
  (0x2297D, 0x243355_2D694A),
  (0x22985, 0x243356),
  (0x22988, 0x243358_243359_24335A),
  (0x2298C, 0x24335B_24335C_24335E_24335D),
  (0x22991, 0x24335F),
  (0x22998, 0x243360),
  (0x2299A, 0x222F48_243362),
  (0x2299F, 0x222F4A),
  (0x229A1, 0x2D3E6E),
  (0x229A9, 0x2D3F62_243365),
  (0x229B0, 0x243366_243367_243368_243369_243364),
  (0x229B8, 0x24336C),
  (0x229BA, 0x24336E),
  (0x229BC, 0x24336B_243370_243371_243373_222F51),
  (0x229C5, 0x243375_243374_243372_243376),
  (0x229CC, 0x24337A),
  (0x229CF, 0x243379_2D3F6E_243377_24337B),
  (0x229D4, 0x222F57_243427_24337D_243425_243422),
  (0x229DC, 0x243421_243426_243428),
  (0x229E0, 0x243423),
  (0x229E3, 0x2D7E59_222F64_243429_24342E_24342B),
  (0x229E9, 0x222F65),
  (0x229EE, 0x24342D),
  (0x229F0, 0x24342A_24342C),
  (0x229F3, 0x24342F_222F6A_2D3F6C_243431_2D4160),
  (0x229FC, 0x243432_243433_3F4A21),
  (0x22A01, 0x243435),
  (0x22A0B, 0x2F326F),
  (0x22A0F, 0x243436),
  (0x22A14, 0x24343A),
  (0x22A16, 0x243437_243439),
  (0x22A1B, 0x24343D_24343B_24343C),
  (0x22A1F, 0x24343E),
  (0x22A21, 0x24343F),
  (0x22A25, 0x243440),
  (0x22A28, 0x243441),
  (0x22A2A, 0x222F73),
  (0x22A37, 0x2D3F75_243448),
  (0x22A3A, 0x24344C),
  (0x22A44, 0x243449),
  (0x22A46, 0x24344F),
  (0x22A48, 0x24344E),
  (0x22A4B, 0x243450_2D5335),
  (0x22A4F, 0x243452),
  (0x22A51, 0x243453_243455_243454),
  (0x22A55, 0x243457_243459),
  (0x22A58, 0x24345A),
  (0x22A60, 0x24345E),
  (0x22A62, 0x243461),
  (0x22A66, 0x243464),
  (0x22A6B, 0x243468_24346A_24346B),
  (0x22A70, 0x243477_24346F_24346E_243474_24346C_222F7E),
  (0x22A77, 0x24347C_24347B_243472),
  (0x22A7B, 0x243479_24347A),
  (0x22A81, 0x243470_243471),
  (0x22A84, 0x283168),
  (0x22A87, 0x22303C_223039),
  (0x22A8A, 0x243526_243522),
  (0x22A8D, 0x243527_24352E),
  (0x22A91, 0x243521_243532_243531),
  (0x22A95, 0x243525),
  (0x22A98, 0x22304C),
  (0x22AA3, 0x24352A_243529_243533_24352F_243530),
  (0x22AB4, 0x3F404C),
  (0x22AB7, 0x243539_243544),
  (0x22ABA, 0x24353D_243543_24353E),
  (0x22ABE, 0x24353B_243542),
  (0x22AD0, 0x24353A_243541),
  (0x22AD4, 0x22304E),
  (0x22AE2, 0x24353F),
  (0x22AE6, 0x243549_243547_223076_243555),
  (0x22AEB, 0x243550_243556_243553_243548_243559_22312D),
  (0x22AF2, 0x24354F_24354E_243563_223128),
  (0x22AF7, 0x24355A),
  (0x22AFA, 0x243552_243551),
  (0x22AFD, 0x2D4034_2D4061_243557_24354B),
  (0x22B0D, 0x283531),
  (0x22B11, 0x243554),
  (0x22B16, 0x223135),
  (0x22B18, 0x223121),
  (0x22B22, 0x22312A),
  (0x22B2A, 0x243545_243564_243566),
  (0x22B2F, 0x223163),
  (0x22B31, 0x243575),
  (0x22B34, 0x22314C_22313B_223143_243576_2D4065),
  (0x22B3C, 0x243578),
  (0x22B3F, 0x24356E_2D426D_24357B_243569_24356D_243570_24356F),
  (0x22B48, 0x243571),
  (0x22B4B, 0x2D405B),
  (0x22B4D, 0x2D4144_24355D),
  (0x22B55, 0x22313D),
  (0x22B59, 0x243573),
  (0x22B5F, 0x223152),
  (0x22B66, 0x243572),
  (0x22B6A, 0x22314E),
  (0x22B81, 0x223169_223175_243649),
  (0x22B9D, 0x22317E),
  (0x22BA4, 0x2D402D),
  (0x22BA8, 0x223177),
  (0x22BB9, 0x223233),
  (0x22BC2, 0x223161),
  (0x22BC7, 0x2D4140),
  (0x22BE9, 0x243661_2D4056_243675),
  (0x22BED, 0x22324D_243664),
  (0x22BF0, 0x24366A),
  (0x22BF2, 0x24367A),
  (0x22BF4, 0x243650_243660_24364E_243654_243655_243653_243673_24364C_243674_24365F_243662),
  (0x22C02, 0x243672_24364F),
  (0x22C06, 0x24365E_223278),
  (0x22C0A, 0x243663_243665_243666_24364A),
  (0x22C0F, 0x24366E),
  (0x22C11, 0x24366D_24365A_24366C),
  (0x22C16, 0x243671),
  (0x22C18, 0x243670_243659),
  (0x22C1C, 0x24364B),
  (0x22C33, 0x24365C),
  (0x22C36, 0x243669),
  (0x22C3F, 0x246751),
  (0x22C41, 0x243668),
  (0x22C43, 0x24366B),
  (0x22C46, 0x243651_24364D_223255),
  (0x22C4A, 0x2D4078),
  (0x22C4D, 0x223350),
  (0x22C5F, 0x24372A),
  (0x22C61, 0x24372F_22333A_243731_24367D),
  (0x22C66, 0x24372E_243736_24367C),
  (0x22C6B, 0x24372C_243739),
  (0x22C6E, 0x24367B),
  (0x22C73, 0x2D4142_243722),
  (0x22C76, 0x243737_243725_243724),
  (0x22C7A, 0x243728),
  (0x22C7E, 0x243721),
  (0x22C80, 0x243726),
  (0x22C8B, 0x223341),
  (0x22C8E, 0x2D4156),
  (0x22C95, 0x2D4138),
  (0x22C9C, 0x2D453C),
  (0x22CA1, 0x22335C),
  (0x22CB4, 0x24375F_243748_243757_223362_22342B),
  (0x22CBB, 0x2D416D_223363),
  (0x22CBE, 0x24374F_243762_2D4158_24375B_223346),
  (0x22CC4, 0x24373D),
  (0x22CC6, 0x24374A_24373C_24375C),
  (0x22CCA, 0x243746_24373B),
  (0x22CCE, 0x243743),
  (0x22CD1, 0x243751),
  (0x22CD3, 0x24375A),
  (0x22CD7, 0x24374B),
  (0x22CDA, 0x223432),
  (0x22CEA, 0x223375),
  (0x22CEF, 0x243744),
  (0x22CFD, 0x243753_243752),
  (0x22D03, 0x2D417C),
  (0x22D20, 0x243767),
  (0x22D22, 0x24376C_2D385E),
  (0x22D26, 0x243769),
  (0x22D28, 0x223438_243772_243768),
  (0x22D2C, 0x24376A_24377D),
  (0x22D30, 0x243775_22345E_223446_24377A),
  (0x22D3C, 0x243776),
  (0x22D3E, 0x243771_2D4128),
  (0x22D42, 0x243774),
  (0x22D44, 0x2D4124),
  (0x22D46, 0x22344A),
  (0x22D48, 0x243764),
  (0x22D54, 0x223448),
  (0x22D57, 0x24376F),
  (0x22D5E, 0x223437),
  (0x22D60, 0x22347B),
  (0x22D67, 0x223456),
  (0x22D7C, 0x22344C),
  (0x22D80, 0x24382D),
  (0x22D83, 0x243821_243825_243830),
  (0x22D87, 0x243822),
  (0x22D89, 0x22346D_223468_22346E_243833_22346B),
  (0x22D8F, 0x243827),
  (0x22D91, 0x223521_223526_243831),
  (0x22D96, 0x243832),
  (0x22D99, 0x223522_24382E_243826),
  (0x22DA1, 0x22347E),
  (0x22DAB, 0x24382B),
  (0x22DB4, 0x243823),
  (0x22DCB, 0x24383A),
  (0x22DCD, 0x243841_223537),
  (0x22DD0, 0x243839),
  (0x22DD4, 0x243837_243840_22353B_24383B),
  (0x22DDE, 0x223535),
  (0x22DE2, 0x243838),
  (0x22DF6, 0x24384D),
  (0x22DF8, 0x24384B_243842_243846_24384C_2D414C),
  (0x22DFE, 0x223544),
  (0x22E01, 0x243850),
  (0x22E05, 0x2D422D_2D415D),
  (0x22E09, 0x243848),
  (0x22E14, 0x24384F),
  (0x22E23, 0x22354D_223551_243859_243857_24385C),
  (0x22E2B, 0x243858_243852_24385B),
  (0x22E32, 0x243854),
  (0x22E34, 0x243856),
  (0x22E4D, 0x22355D),
  (0x22E4F, 0x22355A),
  (0x22E51, 0x243862_243861),
  (0x22E54, 0x243860),
  (0x22E56, 0x24385F),
  (0x22E58, 0x243864_24385E_243863),
  (0x22E6C, 0x2D4174),
  (0x22E6E, 0x243868),
  (0x22E72, 0x22355F_243870),
  (0x22E77, 0x223560),
  (0x22E84, 0x24386D_243871_243867_24386F_24386B_24386E),
  (0x22E8F, 0x22356A),
  (0x22E91, 0x24386C),
  (0x22E98, 0x22355C),
  (0x22E9E, 0x243874_243875),
  (0x22EA1, 0x223573),
  (0x22EA4, 0x223574_243873),
  (0x22EAB, 0x243876),
  (0x22EAF, 0x223576_243878),
  (0x22EB3, 0x243879_24387A_223579),
  (0x22EB7, 0x24387B_24387C),
  (0x22EBA, 0x24387E),
  (0x22EBC, 0x24387D),
  (0x22EBE, 0x243923_243921_243922_243927_243928_243926),
  (0x22EC5, 0x243925),
  (0x22EC7, 0x243929),
  (0x22EC9, 0x243924),
  (0x22ECC, 0x24392C),
  (0x22ED3, 0x24392D_24392E_243930),
  (0x22ED8, 0x24392F_243932_243934),
  (0x22EDC, 0x243933),
  (0x22EDF, 0x243935_243937),
  (0x22EE3, 0x243936_243938),
  (0x22EE7, 0x243939),
  (0x22EEA, 0x24393A),
  (0x22EEC, 0x24393B_243940_24393E),
  (0x22EF1, 0x24393F),
  (0x22EF3, 0x2D4028_243943_243944_24394A_243945),
  (0x22EF9, 0x22362D),
  (0x22EFB, 0x24394B_243942),
  (0x22EFF, 0x243948_243941_243946),
  (0x22F03, 0x243947),
  (0x22F07, 0x243949),
  (0x22F0C, 0x243955),
  (0x22F0F, 0x243956_24394C_243950_2D4023),
  (0x22F14, 0x243951_243954_243952),
  (0x22F19, 0x243953),
  (0x22F1B, 0x22363A_2D5A45),
  (0x22F1F, 0x243961),
  (0x22F22, 0x243966_24395C_243965),
  (0x22F27, 0x24395B_243963),
  (0x22F2C, 0x243962_24395D),
  (0x22F30, 0x24395F_243960_243968),
  (0x22F35, 0x243958_243957),
  (0x22F3A, 0x243971_243979),
  (0x22F3D, 0x24397A),
  (0x22F42, 0x243969_243975),
  (0x22F47, 0x24396C),
  (0x22F49, 0x22363C_243970_243976),
  (0x22F50, 0x243977),
  (0x22F55, 0x243974),
  (0x22F57, 0x243973),
  (0x22F5A, 0x243A25),
  (0x22F5D, 0x243A2B),
  (0x22F60, 0x223648),
  (0x22F66, 0x24397C_243A2F_243A2E_243A31_243A21_24396F),
  (0x22F6D, 0x243A29),
  (0x22F70, 0x24397E),
  (0x22F75, 0x243A26_243A2C_24396E_243A2A),
  (0x22F82, 0x243A39_243A40),
  (0x22F85, 0x2D7663_243A3C_243A3E),
  (0x22F8D, 0x2D4245),
  (0x22F90, 0x243A36),
  (0x22F92, 0x243A34),
  (0x22F94, 0x243A42),
  (0x22F96, 0x22364C),
  (0x22F99, 0x2D413F_243A33_243A35_243A37_243A3B),
  (0x22FA1, 0x243A41),
  (0x22FA4, 0x243A3D),
  (0x22FA7, 0x243A50),
  (0x22FA9, 0x243A4E_243A4D_223651_243A48_243A4C_243A49_243A4B_2D3D77_243A54),
  (0x22FB3, 0x243A52),
  (0x22FBA, 0x243A4F),
  (0x22FBC, 0x243A4A_243A53),
  (0x22FC6, 0x246E55_243A56_243A5D),
  (0x22FCA, 0x243A5A),
  (0x22FCC, 0x223657_223653_243A5F),
  (0x22FD0, 0x243A5E),
  (0x22FD2, 0x2D596E_243A5C),
  (0x22FD5, 0x243A5B_243A58),
  (0x22FDE, 0x243A65),
  (0x22FE0, 0x243A62),
  (0x22FE2, 0x223659_223658_243A64),
  (0x22FE8, 0x243A63),
  (0x22FED, 0x243A6A),
  (0x22FF4, 0x243A69_243A67),
  (0x22FF8, 0x243A6B),
  (0x22FFD, 0x243A68),
  (0x23000, 0x243A6E_243A73_243A6F),
  (0x23006, 0x22365B),
  (0x23009, 0x243A70_243A6C),
  (0x2300F, 0x243A71_243A77),
  (0x23012, 0x243A76),
  (0x23018, 0x243A75),
  (0x2301D, 0x243A7B_243A78),
  (0x23020, 0x243A7A_243A79),
  (0x23024, 0x223662_243A7E),
  (0x23027, 0x223663),
  (0x2302B, 0x243A7C),
  (0x2302F, 0x243B22),
  (0x23031, 0x243B23),
  (0x23033, 0x243B25),
  (0x23035, 0x243B26_243B27_223665),
  (0x2303C, 0x243B28),
  (0x23049, 0x243B2A_243B2B),
  (0x2304F, 0x243B2E),
  (0x23052, 0x243B2D),
  (0x23057, 0x243B30),
  (0x2305C, 0x243B34),
  (0x2305F, 0x243B32),
  (0x23062, 0x243B33),
  (0x23068, 0x243B37),
  (0x2306B, 0x243B39),
  (0x2306D, 0x243B3C),
  (0x2306F, 0x243B3E_243B3F),
  (0x23073, 0x223674_243B42_243B40),
  (0x23077, 0x243B44),
  (0x23079, 0x243B43),
  (0x2307C, 0x223676),
  (0x23081, 0x223678),
  (0x23084, 0x243B46),
  (0x23086, 0x243B47_243B48),
  (0x23089, 0x22367B_2D497B),
  (0x23092, 0x243B4A),
  (0x23095, 0x2D4264_243B4B_243B4C),
  (0x23099, 0x243B4F),
  (0x2309C, 0x243B51_243B53_223726_243B54),
  (0x230A2, 0x2D4266),
  (0x230A4, 0x243B56_243B55_2D6B4D_2D6B4A),
  (0x230AB, 0x2D4035_243B57),
  (0x230AE, 0x243B5B),
  (0x230B0, 0x243B59),
  (0x230B3, 0x243B58),
  (0x230B5, 0x243B5A),
  (0x230BA, 0x2D4265_243B5D),
  (0x230BD, 0x243B5E),
  (0x230BF, 0x243B5F),
  (0x230C5, 0x243B61),
  (0x230C8, 0x243B62_243B63),
  (0x230CD, 0x22372B_243B64),
  (0x230D2, 0x243B65),
  (0x230D6, 0x243B66_243B67_22372E),
  (0x230DD, 0x243B6D),
  (0x230E6, 0x243B70_243B6F),
  (0x230F3, 0x223739),
  (0x230FD, 0x243B73_243B72),
  (0x23101, 0x2D3527),
  (0x23103, 0x2D4270),
  (0x23105, 0x243B74),
  (0x23109, 0x243B77),
  (0x2310D, 0x243B76_243B79_243B7C_243B7A_243B7B),
  (0x23113, 0x243B7D_243B7E),
  (0x23118, 0x243C24_223741_243C25),
  (0x2311C, 0x243C22_243C27_243C29_243C28_223743),
  (0x23126, 0x243C2A_243C2B_2D4E65),
  (0x2312E, 0x243C2D_243C2E_243C2F_243C30_243C31_2D543D_22374D),
  (0x23138, 0x243C33),
  (0x2313A, 0x243C32_243C34),
  (0x2313F, 0x243C36_2D4278),
  (0x23144, 0x243C38),
  (0x23147, 0x243C37),
  (0x23149, 0x243C39_2D427D),
  (0x2314D, 0x243C3B_2D4333),
  (0x2315B, 0x243C3E_243C44_243C4B),
  (0x2315F, 0x243C3D),
  (0x23161, 0x243C42_243C48),
  (0x23164, 0x243C41_243C40),
  (0x2316A, 0x243C46),
  (0x2316F, 0x2D4332),
  (0x23177, 0x243C5A_243C4D),
  (0x2317A, 0x243C5E_243C59_2D4275),
  (0x2317E, 0x243C5D_223826_243C5C),
  (0x23182, 0x223773),
  (0x23187, 0x243C51_243C53),
  (0x2318C, 0x243C60_243C4C),
  (0x2318F, 0x243C54),
  (0x23192, 0x243C6A),
  (0x23194, 0x243C72_243C6B_243C62_243C74_243C67_243C65),
  (0x2319C, 0x2D4326_243C69),
  (0x231A6, 0x223839),
  (0x231B2, 0x243C79_243C7A),
  (0x231B5, 0x243D25),
  (0x231B9, 0x243C78),
  (0x231BD, 0x243C7B),
  (0x231CC, 0x243C7D),
  (0x231D6, 0x243C7C),
  (0x231D9, 0x243D24),
  (0x231E2, 0x243C7E),
  (0x231E4, 0x243D3C),
  (0x231E7, 0x243D38),
  (0x231E9, 0x243D2E),
  (0x231EB, 0x243D31_243D28),
  (0x231F0, 0x243D29),
  (0x231F2, 0x243D39),
  (0x231F4, 0x243D3D),
  (0x23205, 0x243D2B_2D432F),
  (0x23208, 0x223864),
  (0x2320A, 0x243D34),
  (0x2320D, 0x454C3C),
  (0x23220, 0x243D3B_243D2A),
  (0x23225, 0x243D4E),
  (0x23228, 0x243D4C),
  (0x2322F, 0x243D52),
  (0x23236, 0x223922),
  (0x23238, 0x243D40),
  (0x23246, 0x243D4A),
  (0x23251, 0x243D51_243D53_243D5B_243D5D_243D5C_243D54),
  (0x23258, 0x243D64_243D59_243D5F_243D5A_243D66),
  (0x2325E, 0x223929),
  (0x23261, 0x242B6D),
  (0x2326A, 0x243D63),
  (0x2326F, 0x243D57),
  (0x2327E, 0x243D6C_243D70),
  (0x23281, 0x243D6D),
  (0x23283, 0x2D3433),
  (0x23292, 0x237E3A_223942_243D73),
  (0x23296, 0x243D75),
  (0x2329D, 0x243D6F_243D7A_243D7C_243D7E),
  (0x232A7, 0x243E29),
  (0x232B5, 0x243E24),
  (0x232B7, 0x243E2A),
  (0x232C4, 0x243E23),
  (0x232C6, 0x243E26),
  (0x232C9, 0x243E34_243E2D_243E2F),
  (0x232CD, 0x243E30_243E32),
  (0x232D8, 0x223961),
  (0x232DE, 0x243E3D_243E36),
  (0x232E2, 0x243E39_243E38),
  (0x232EB, 0x22396C),
  (0x232F2, 0x243E43),
  (0x232F5, 0x243E44_243E3F),
  (0x232F8, 0x243E40_243E3B),
  (0x232FF, 0x243E45),
  (0x23308, 0x243E4A),
  (0x2330A, 0x223979),
  (0x2330D, 0x243E4C),
  (0x23316, 0x223A21_243E52),
  (0x2331A, 0x25464A),
  (0x2331C, 0x243E54),
  (0x2331E, 0x252541_243E55_243E56),
  (0x23327, 0x243E5B_243E5A),
  (0x2332C, 0x243E59),
  (0x2333E, 0x243E5C),
  (0x23346, 0x243E5F_243E5E),
  (0x2334F, 0x243E61),
  (0x23351, 0x2D6824_243E63),
  (0x23356, 0x243E64),
  (0x2335B, 0x243E67),
  (0x2335D, 0x2D543E),
  (0x2335F, 0x243E68),
  (0x23363, 0x243E69),
  (0x23365, 0x243E6D_243E6E),
  (0x2336D, 0x243E72),
  (0x23374, 0x243E73),
  (0x2337A, 0x243E76),
  (0x23384, 0x243E7B_243E7C),
  (0x23389, 0x243E75),
  (0x2338E, 0x243E7E),
  (0x23393, 0x243F22_243F24_243F26),
  (0x23397, 0x243F25),
  (0x2339A, 0x243F2A_243F27_243F2C),
  (0x2339F, 0x243F28),
  (0x233A9, 0x243F2D),
  (0x233AE, 0x243F2E),
  (0x233B1, 0x243F30_243F31_243F32_243F33),
  (0x233B8, 0x243F35),
  (0x233BA, 0x243F34),
  (0x233C0, 0x243F37),
  (0x233C2, 0x223A56),
  (0x233CB, 0x243F38),
  (0x233D0, 0x243F3D_243F3A_243F3F),
  (0x233D4, 0x243F49_223B24_243F47_243F46),
  (0x233D9, 0x243F55_243F52),
  (0x233DC, 0x243F43_2D437D_243F41_223B2C_243F4F_243F4B_283D67),
  (0x233E8, 0x223A7B),
  (0x233EC, 0x223B2F),
  (0x233F4, 0x223B42),
  (0x233F6, 0x243F48),
  (0x233F8, 0x243F4E_223A77_243F42),
  (0x233FD, 0x2D442A_223B2A),
  (0x23400, 0x223A76),
  (0x23403, 0x243F40),
  (0x2340B, 0x243F5B_2D445F_243F6C_243F5A_243F65_243F70),
  (0x23412, 0x243F69_243F5D),
  (0x23415, 0x283D2D),
  (0x2341A, 0x223B34),
  (0x2341D, 0x223C3D_223B65),
  (0x23424, 0x223B7B_243F63),
  (0x23429, 0x223C27),
  (0x2342B, 0x243F60_223B73_243F67_243F66_243F68),
  (0x23431, 0x2D4431),
  (0x23435, 0x244039),
  (0x23437, 0x2D443B),
  (0x2343B, 0x243F7D),
  (0x2343D, 0x243F75),
  (0x2343F, 0x243F74_24402A_243F57_24402E_243F78),
  (0x2344B, 0x243F7B),
  (0x23464, 0x223C25),
  (0x23466, 0x223C4B_237470),
  (0x2346E, 0x244035_2D4451),
  (0x23471, 0x2D442E_244036),
  (0x23478, 0x24402D_24402C),
  (0x23480, 0x24404B),
  (0x23482, 0x244037_223D4F),
  (0x23486, 0x24403A_24404F),
  (0x2348F, 0x2D447C),
  (0x23494, 0x223C67),
  (0x23499, 0x223C7D),
  (0x234A0, 0x244042),
  (0x234AF, 0x2D4445),
  (0x234B8, 0x24403D_244044_24403F_24404E),
  (0x234C0, 0x223C6A_333355),
  (0x234C3, 0x244071),
  (0x234C5, 0x24407B_24407C_244055_24405B_244054_244059_244070_223E4D),
  (0x234CF, 0x24405E),
  (0x234D1, 0x244056_244072),
  (0x234D4, 0x244060_24405F),
  (0x234D7, 0x223E4F),
  (0x234DB, 0x244125),
  (0x234DD, 0x244061),
  (0x234E5, 0x223D54),
  (0x234E7, 0x244062),
  (0x234F6, 0x244064),
  (0x23501, 0x244078),
  (0x23503, 0x244075_223E2C),
  (0x23506, 0x24412D),
  (0x23511, 0x24406F),
  (0x23513, 0x244127),
  (0x23526, 0x223D7D),
  (0x2352A, 0x24412E_244121_244126_244057_244058_24405A),
  (0x23531, 0x244132_24414A),
  (0x23537, 0x24415A_244142_244159_24414D_244133_2D4F6E_244146),
  (0x2353F, 0x24413D),
  (0x23541, 0x244160_244134_24414B_24415D_244161),
  (0x23547, 0x24414F),
  (0x2354A, 0x244156_24413A_24415B),
  (0x2354E, 0x24414E),
  (0x2355A, 0x223F27),
  (0x2355C, 0x244135),
  (0x23575, 0x223F29),
  (0x2357E, 0x244145),
  (0x23580, 0x2D445D),
  (0x23589, 0x244131),
  (0x2358D, 0x244147),
  (0x23595, 0x244141),
  (0x235A3, 0x244122_24415E_24413C),
  (0x235AA, 0x244178_24416F_244166_24416D_244177),
  (0x235B0, 0x244229_224028),
  (0x235B5, 0x244164),
  (0x235B7, 0x244227_244163_244231),
  (0x235BB, 0x223F71_244226),
  (0x235BE, 0x223F63_244168),
  (0x235C1, 0x24416A),
  (0x235C3, 0x24416C),
  (0x235CB, 0x284368),
  (0x235CD, 0x22402F),
  (0x235CF, 0x224029_244179_244170),
  (0x235D6, 0x244173),
  (0x235D8, 0x244174),
  (0x235DD, 0x223F56),
  (0x235E5, 0x24417C),
  (0x235E9, 0x24417D_224026),
  (0x235F3, 0x2D4555),
  (0x235F9, 0x244165_24422F_244230_223F79),
  (0x23611, 0x244224),
  (0x23616, 0x24425A_244240_224079_244236_244235_24425B_2D4F76),
  (0x2361E, 0x244255_24425D_244257_24424E_24423B_244241_22407E_244246_224061_24425F_224042),
  (0x2362A, 0x24423E),
  (0x2362C, 0x244248),
  (0x2362E, 0x24424F_244249),
  (0x23631, 0x24425C_24423F),
  (0x23639, 0x244239),
  (0x2363B, 0x22407A),
  (0x2364A, 0x244253),
  (0x2364D, 0x224077),
  (0x23656, 0x224164_22406A),
  (0x2365A, 0x24425E),
  (0x2365F, 0x22406F),
  (0x23664, 0x244238),
  (0x2366B, 0x244260),
  (0x23670, 0x244247_244258_24424B),
  (0x23674, 0x244242_244233_244244),
  (0x2367B, 0x244323),
  (0x23682, 0x244266),
  (0x23684, 0x244276),
  (0x23687, 0x244274),
  (0x2368C, 0x244263_22412F_224170_224130_24426D),
  (0x23692, 0x24426F_244331_244330_244325_24427E),
  (0x23698, 0x22412D_244332),
  (0x2369C, 0x244322_24427D_244268),
  (0x236A0, 0x244326_24432F_244272),
  (0x236A9, 0x244333_244267),
  (0x236AD, 0x24432C),
  (0x236AF, 0x24427B),
  (0x236B4, 0x244269),
  (0x236B8, 0x244278),
  (0x236BC, 0x244277),
  (0x236C0, 0x224154_24432D_22415B),
  (0x236C6, 0x224163),
  (0x236CA, 0x244336),
  (0x236D1, 0x224168),
  (0x236D3, 0x24427A),
  (0x236D5, 0x244327),
  (0x236D8, 0x2D453E),
  (0x236DC, 0x224169),
  (0x236DF, 0x224152),
  (0x236EB, 0x244324),
  (0x236EE, 0x224063),
  (0x236F4, 0x244343_24433E),
  (0x236F7, 0x244342),
  (0x236F9, 0x22423E_22422D_24434F),
  (0x236FD, 0x24434D),
  (0x23702, 0x24433F),
  (0x23704, 0x24433B),
  (0x23706, 0x22417A_244340),
  (0x2370D, 0x244347_2F2270),
  (0x23722, 0x246F25_2F423F_244351_2D4560_2D3B44),
  (0x2372F, 0x22423A),
  (0x23739, 0x244344_24433D),
  (0x2373D, 0x244271),
  (0x23741, 0x24436F_244354),
  (0x23745, 0x24436C),
  (0x23747, 0x244368_244363_24436A),
  (0x2374B, 0x24435E_244359_244366_24436E_244364_24435C_244371_244358_22425E),
  (0x23755, 0x22426E),
  (0x23758, 0x244367),
  (0x2375A, 0x24435D),
  (0x2375C, 0x224272_24435B_244361),
  (0x2376B, 0x22425A),
  (0x2376F, 0x224265),
  (0x23778, 0x244360),
  (0x2377A, 0x244355),
  (0x2377E, 0x244365),
  (0x23786, 0x24436B_244353),
  (0x2378F, 0x246D59_22427C),
  (0x23792, 0x244375_244421_244376),
  (0x23796, 0x2D5572_24442A),
  (0x23799, 0x224321),
  (0x2379C, 0x244374_244373),
  (0x2379F, 0x24442B),
  (0x237A9, 0x22432B),
  (0x237AD, 0x244430),
  (0x237B0, 0x244426),
  (0x237B4, 0x24442C_2F2262_24437C_244424),
  (0x237BC, 0x22427A),
  (0x237C6, 0x24443B_244438_24443D),
  (0x237CA, 0x244432_244431_224341),
  (0x237CE, 0x244436_24443C_244433_244379_24443F),
  (0x237D8, 0x244440),
  (0x237DF, 0x224346),
  (0x237F2, 0x24444D_24444A_24444C_224351),
  (0x237F7, 0x244449_244446_24444B_24444E),
  (0x237FC, 0x224355_24444F),
  (0x23801, 0x244448),
  (0x2380E, 0x244451_244450),
  (0x23814, 0x244447),
  (0x2381A, 0x244458_244452_244456_24445A),
  (0x2381F, 0x244455_24445C),
  (0x23829, 0x22435D),
  (0x23834, 0x244460),
  (0x23837, 0x244468_244463_24446A_24446B),
  (0x2383C, 0x244465),
  (0x2383E, 0x244462),
  (0x23848, 0x24445F_244464_244467_24446E),
  (0x2384E, 0x244471),
  (0x23855, 0x24446D),
  (0x23857, 0x24446F),
  (0x2385F, 0x244472_244473),
  (0x23865, 0x24446C),
  (0x23867, 0x244474),
  (0x23869, 0x244475),
  (0x2386D, 0x244478),
  (0x23870, 0x244479),
  (0x23873, 0x2D3926_24447A),
  (0x23876, 0x24447B),
  (0x2387A, 0x24447C),
  (0x2387D, 0x24447D_24447E),
  (0x23881, 0x244524_244522),
  (0x23885, 0x244521_244525_244523),
  (0x23889, 0x24452F_24452D_244528),
  (0x2388D, 0x244530),
  (0x2388F, 0x244531_24452E_224375_24452B_244529),
  (0x23895, 0x24452A),
  (0x23897, 0x24453B_24453C),
  (0x2389B, 0x244541_22437B_24453F_244538),
  (0x238A0, 0x244534_244540),
  (0x238A3, 0x244537_24453E_244543_244535_244549),
  (0x238AA, 0x244552_24454A_244547),
  (0x238AE, 0x244559_244551_224422_24454C_244554_24454F_24454E),
  (0x238B6, 0x244545),
  (0x238B8, 0x394576),
  (0x238BA, 0x24455B),
  (0x238C4, 0x224426),
  (0x238C8, 0x244566_244564),
  (0x238CC, 0x224430_244563_244558),
  (0x238D2, 0x244567_2D4572_2D4575_244562),
  (0x238DA, 0x244560_244568),
  (0x238DE, 0x24456A_244569_244579),
  (0x238E2, 0x244578_24456D),
  (0x238E6, 0x244577),
  (0x238E9, 0x244573),
  (0x238ED, 0x24456C),
  (0x238F2, 0x224440_224442_244627),
  (0x238F6, 0x24457B_244625_244626_244623_24457E_244622_24457A_2D4578),
  (0x23901, 0x24457D),
  (0x23907, 0x24457C_24462D),
  (0x2390A, 0x24462E_244632_24462C),
  (0x2390E, 0x244631_244633),
  (0x23914, 0x24462F),
  (0x23918, 0x244634),
  (0x2391A, 0x2F415A),
  (0x2391F, 0x244635),
  (0x23922, 0x22444D),
  (0x23928, 0x24463B_244639_24463A),
  (0x2392C, 0x24463F_24463E),
  (0x2392F, 0x24463D_244640_244646),
  (0x23933, 0x244641_244645_244644_244643_244642),
  (0x23939, 0x224456_244648),
  (0x2393E, 0x244649),
  (0x23940, 0x24464A),
  (0x23942, 0x24464C_24464D),
  (0x23947, 0x24464F_2D435A_2D3627_24464E_244650),
  (0x2394D, 0x2D5B6B),
  (0x23951, 0x244656),
  (0x23955, 0x244652_244653_2D3B46),
  (0x23959, 0x244654),
  (0x2395E, 0x244651),
  (0x23961, 0x244655),
  (0x23963, 0x244657_244658_236B3A_244659),
  (0x23968, 0x24465C),
  (0x2396E, 0x24465B),
  (0x23970, 0x24465D),
  (0x23973, 0x24465E),
  (0x23977, 0x24465F),
  (0x23979, 0x224460_244661_244660_244662),
  (0x2397E, 0x244664),
  (0x23980, 0x244663),
  (0x23983, 0x244665),
  (0x23987, 0x244669),
  (0x23989, 0x244668),
  (0x2398C, 0x244666),
  (0x2398F, 0x242C2E_24466A),
  (0x239A1, 0x2D5B25_224465_24466D),
  (0x239A6, 0x244670_244671),
  (0x239A9, 0x24466E_24466F_244672),
  (0x239AD, 0x242674),
  (0x239AF, 0x244673),
  (0x239B5, 0x244675_244674_244676_2D462D_244677),
  (0x239BB, 0x244678_224468),
  (0x239C0, 0x2D3D3E),
  (0x239C2, 0x24467A),
  (0x239C4, 0x24467C),
  (0x239C6, 0x244679),
  (0x239C8, 0x24467B),
  (0x239CA, 0x244721_24472A_244722_244727_24467E_244725_244726_22446A),
  (0x239D5, 0x2D3929_244728),
  (0x239D9, 0x24472C_24472D_24467D_244723),
  (0x239DE, 0x244737_244732),
  (0x239E1, 0x224470),
  (0x239E3, 0x24472E_24472F_244738_244730_244731_244733_224472_244735),
  (0x239EC, 0x244739),
  (0x239F1, 0x244743_24473A_224475),
  (0x239F5, 0x24473E_244746_244747_24473B_24473C),
  (0x239FD, 0x244745_244742_24473D_24473F),
  (0x23A02, 0x244741),
  (0x23A05, 0x244755_244750_24474B),
  (0x23A09, 0x244748_24474F_24474E),
  (0x23A0D, 0x22447A_244752_2D462E),
  (0x23A13, 0x244753_244754),
  (0x23A18, 0x244761),
  (0x23A1B, 0x22447C_24475A_244758_24475B_24475E_24475F_244762_24475C_244757_24475D),
  (0x23A2A, 0x244760_244763_244759),
  (0x23A32, 0x244766_244767),
  (0x23A36, 0x22452C),
  (0x23A38, 0x22452D),
  (0x23A3B, 0x244765_284536),
  (0x23A3E, 0x244769_244764_24476A),
  (0x23A44, 0x2D4840_22452E_2D3339_2D5357_24476D),
  (0x23A4E, 0x224537_244771),
  (0x23A51, 0x244775_2D6777),
  (0x23A54, 0x244774_244779),
  (0x23A59, 0x244773_244772),
  (0x23A5F, 0x244821_24477E_244824_244822),
  (0x23A67, 0x24477B),
  (0x23A6A, 0x244825_244827),
  (0x23A6D, 0x244828),
  (0x23A6F, 0x24482D_24482B_24482C),
  (0x23A74, 0x24482A),
  (0x23A76, 0x244829_24482F),
  (0x23A7A, 0x244833_244834),
  (0x23A7F, 0x244836_244835),
  (0x23A82, 0x244839_244838_24483A_2D4640),
  (0x23A87, 0x24483C_24483E_24483D),
  (0x23A8B, 0x244842_224543),
  (0x23A95, 0x224545),
  (0x23A97, 0x244840),
  (0x23AA0, 0x224549),
  (0x23AAA, 0x244846),
  (0x23AAC, 0x244847_24673B_244848_22454A),
  (0x23AB3, 0x24484A),
  (0x23AB6, 0x24484C),
  (0x23ABB, 0x244852_244853_244855),
  (0x23ABF, 0x244854_24484D),
  (0x23AC9, 0x244850_244851),
  (0x23ACC, 0x2D7E2C),
  (0x23AD0, 0x224556_244859_244857_244856),
  (0x23AD7, 0x244858),
  (0x23AD9, 0x24485A),
  (0x23ADC, 0x24485B_24485C_24485D),
  (0x23AE1, 0x24485E_244862_244860_244861_24485F),
  (0x23AE7, 0x244864_244863),
  (0x23AEA, 0x244865),
  (0x23AEC, 0x244866_2D4643),
  (0x23AF0, 0x244869_244868),
  (0x23AF3, 0x24486A_24486B_24486C_24486D),
  (0x23AF9, 0x24486F_24486E),
  (0x23B02, 0x244870),
  (0x23B06, 0x244872),
  (0x23B08, 0x22455E),
  (0x23B0A, 0x2D403D),
  (0x23B0D, 0x244873_244874_244875_244877_244876),
  (0x23B14, 0x244879_244878),
  (0x23B17, 0x24487A),
  (0x23B19, 0x24487B_24487C_24487D_2D4F26),
  (0x23B23, 0x2D6164),
  (0x23B25, 0x224561),
  (0x23B29, 0x244928_244921_244926_244922_244924),
  (0x23B34, 0x244927),
  (0x23B38, 0x224567_244933_244934_244929_24492C_24492B),
  (0x23B3F, 0x244935),
  (0x23B42, 0x24492F),
  (0x23B44, 0x244936),
  (0x23B47, 0x24492E),
  (0x23B4F, 0x224569),
  (0x23B51, 0x244932),
  (0x23B56, 0x244931_244930_24492D),
  (0x23B5D, 0x24493C),
  (0x23B60, 0x244940_24493D),
  (0x23B63, 0x24493E),
  (0x23B6E, 0x244939),
  (0x23B74, 0x244944),
  (0x23B77, 0x244943),
  (0x23B79, 0x244949_244947_244945),
  (0x23B7F, 0x224579),
  (0x23B83, 0x244946_24494A),
  (0x23B86, 0x224573),
  (0x23B88, 0x244951_224623_244954),
  (0x23B8C, 0x244952_24494C_244955_244950_244957),
  (0x23B94, 0x244956),
  (0x23B9D, 0x224622),
  (0x23BA0, 0x24494F_244953_24494D),
  (0x23BA4, 0x24494E),
  (0x23BA7, 0x22462D_244962),
  (0x23BAA, 0x24495D_24495E_24495B),
  (0x23BB2, 0x224632),
  (0x23BB4, 0x244967),
  (0x23BB7, 0x244965),
  (0x23BB9, 0x24495C),
  (0x23BBE, 0x244960_244961),
  (0x23BC3, 0x24495A),
  (0x23BC6, 0x24496F_244968),
  (0x23BCB, 0x24496E_24496B_244975_244972_2D6765_244976),
  (0x23BD9, 0x22463F),
  (0x23BDC, 0x244974),
  (0x23BE4, 0x244977),
  (0x23BE7, 0x24497B_224643_24497A_24497E),
  (0x23BEC, 0x24497D_244979),
  (0x23BF5, 0x244978),
  (0x23BF9, 0x244A23),
  (0x23BFB, 0x22464D_224649),
  (0x23BFF, 0x224645),
  (0x23C03, 0x244A21),
  (0x23C0A, 0x244A26),
  (0x23C0C, 0x244A27),
  (0x23C0E, 0x244A28),
  (0x23C17, 0x244A29_244A25),
  (0x23C1A, 0x244A33_244A30_244A2C),
  (0x23C1E, 0x244A2D),
  (0x23C21, 0x244A31),
  (0x23C27, 0x244A2F_244A2B_244A32),
  (0x23C2B, 0x244A36_244A35),
  (0x23C36, 0x244A38_244A3A),
  (0x23C3A, 0x244A39),
  (0x23C3C, 0x244A3B),
  (0x23C3F, 0x244A3C),
  (0x23C42, 0x244A3D),
  (0x23C47, 0x244A40_244A41),
  (0x23C4D, 0x244A42),
  (0x23C50, 0x224656),
  (0x23C53, 0x224657),
  (0x23C57, 0x244A43),
  (0x23C5C, 0x2D4657),
  (0x23C5F, 0x224661),
  (0x23C61, 0x244A45_224669_224665_244A47),
  (0x23C6B, 0x244A48),
  (0x23C6E, 0x2D4658),
  (0x23C71, 0x244A4A),
  (0x23C73, 0x244A4D),
  (0x23C75, 0x2D465D_244A4E),
  (0x23C78, 0x244A52),
  (0x23C7A, 0x244A53_244A51),
  (0x23C7D, 0x224673_274877),
  (0x23C80, 0x244A59),
  (0x23C82, 0x244A5B_2D466F),
  (0x23C8A, 0x244A5A),
  (0x23C8F, 0x244A62),
  (0x23C91, 0x244A60_244A68_244A61_2D4721_244A63),
  (0x23C97, 0x284A62_284D5A),
  (0x23C9C, 0x244A6C),
  (0x23CA0, 0x2D4668),
  (0x23CA4, 0x22475B_224757),
  (0x23CA7, 0x224734),
  (0x23CA9, 0x22473F),
  (0x23CB2, 0x244B28_244A75_2D4723_244B21_244B23_244A7C),
  (0x23CBC, 0x244A72_244A6F_244A78_244B27_244A7E),
  (0x23CCA, 0x244B25),
  (0x23CD3, 0x244B24),
  (0x23CD6, 0x244B2D),
  (0x23CDA, 0x2D467A),
  (0x23CDE, 0x244A70_22476A_244B22),
  (0x23CE3, 0x244B2C_244B38_2D477A_244B41),
  (0x23CE9, 0x244B30_244B31),
  (0x23CEC, 0x244B3E_244B3D),
  (0x23CF0, 0x244B34),
  (0x23CF2, 0x244B3B),
  (0x23CF6, 0x244B32_244B39_22485D),
  (0x23CFE, 0x6A2122),
  (0x23D0A, 0x224865),
  (0x23D11, 0x2D473B_2D4A63),
  (0x23D16, 0x244B47),
  (0x23D1D, 0x224872_224947_244B6D_244B67_244B69_244B6C_244B63),
  (0x23D25, 0x244B66_2D4724),
  (0x23D28, 0x244B59_2D4928_244B60),
  (0x23D32, 0x2D4754),
  (0x23D34, 0x2D4757_244B61),
  (0x23D37, 0x244B56),
  (0x23D3B, 0x244B4F_244B6A),
  (0x23D3F, 0x244B4C),
  (0x23D47, 0x224875),
  (0x23D50, 0x224924),
  (0x23D55, 0x244B5E),
  (0x23D5B, 0x224A3B),
  (0x23D5E, 0x2D4838),
  (0x23D60, 0x224937),
  (0x23D66, 0x224955_244B48),
  (0x23D71, 0x244B57),
  (0x23D77, 0x22496F_244C40_244B7D_244B78),
  (0x23D7C, 0x22497E_244C29),
  (0x23D7F, 0x2D4775_244C2D_2D4764_224A49_244B79_244C3B),
  (0x23D86, 0x244B72),
  (0x23D88, 0x244C2C_22495E),
  (0x23D8B, 0x244C3F),
  (0x23D8D, 0x244C27_244C2A_224965_22497A),
  (0x23D96, 0x244C25),
  (0x23D98, 0x244C42),
  (0x23D9D, 0x244C21_244C35),
  (0x23DA1, 0x244C30),
  (0x23DA3, 0x244B7B_244C2E_244B7E_244C2B),
  (0x23DAC, 0x224973),
  (0x23DAF, 0x224966),
  (0x23DB6, 0x22497C),
  (0x23DBE, 0x244B77),
  (0x23DC9, 0x224975_244B7A),
  (0x23DD4, 0x22495F),
  (0x23DDC, 0x244C45_2D4871),
  (0x23DE0, 0x244C28_244C34),
  (0x23DE5, 0x244C39),
  (0x23DEA, 0x2D466E),
  (0x23DF5, 0x244B7C_244C32),
  (0x23DFD, 0x244D21_244C58_244C5D_244C5E),
  (0x23E03, 0x244C6B_244C76_244C5C_244D42_244C78_244C46_244C57_244C3C_244C69),
  (0x23E0D, 0x244C50_244C6D_244C73_244D23_224A6F_244C54),
  (0x23E14, 0x244C7B_2D465C),
  (0x23E17, 0x244D24_244C4D_244C6A_244C66_244C71_244C6F_244C59),
  (0x23E1F, 0x2D4741_244C79),
  (0x23E22, 0x244C55),
  (0x23E28, 0x284E43_244C7D_244C7E),
  (0x23E2D, 0x224A7B),
  (0x23E32, 0x224A5D),
  (0x23E39, 0x244B76),
  (0x23E45, 0x244D22),
  (0x23E47, 0x244C6E),
  (0x23E50, 0x224A6C),
  (0x23E5A, 0x244C77),
  (0x23E5D, 0x244D2F_244D2D_244D2E_224B73_244D38),
  (0x23E64, 0x224C27_244D48),
  (0x23E67, 0x244D29),
  (0x23E69, 0x244D3B_244D2A_2D4833_224B58),
  (0x23E6E, 0x244D56_244D50),
  (0x23E71, 0x244D4B_244D34),
  (0x23E74, 0x244D49_244D45_244D4D),
  (0x23E7C, 0x244D32_244D41),
  (0x23E80, 0x244D44_244D3A),
  (0x23E8C, 0x2D482C),
  (0x23E96, 0x224B5F_244D3E),
  (0x23E9E, 0x224B71),
  (0x23EA6, 0x244D57),
  (0x23EAC, 0x244D46),
  (0x23EAF, 0x334844_224B66),
  (0x23EB3, 0x244D3C),
  (0x23EBF, 0x224B77),
  (0x23ECE, 0x244D5B_244E22_224C68_244E2B_244D5A_244D64),
  (0x23ED5, 0x244D5F_244D79_244E2D_244D6F_244E24_244E25_244D68_244E27),
  (0x23EDE, 0x224C5B),
  (0x23EE0, 0x244E2A_244D78_244D65),
  (0x23EE5, 0x244E2E),
  (0x23EE7, 0x224C56),
  (0x23EEA, 0x244D6C_244D7A_244D66),
  (0x23EEE, 0x244E31_244E32_244D7B_244D67),
  (0x23EF9, 0x244D73_224C45),
  (0x23EFF, 0x244D75),
  (0x23F08, 0x244D74),
  (0x23F0A, 0x224C4F),
  (0x23F0D, 0x244D7E_244D7C),
  (0x23F16, 0x244E21),
  (0x23F1A, 0x244D72),
  (0x23F1C, 0x2D4769),
  (0x23F1E, 0x244E29),
  (0x23F20, 0x244D61),
  (0x23F43, 0x2D4923),
  (0x23F45, 0x244E3D_244E5B_244E4F_2D492C_244E3E),
  (0x23F4C, 0x244E5D),
  (0x23F4E, 0x244E56),
  (0x23F55, 0x244E42),
  (0x23F5A, 0x244E37_244E5C_244E57_244E45_2D6E23_224D34),
  (0x23F61, 0x244E48_244E33),
  (0x23F64, 0x244E5A_244E4A),
  (0x23F67, 0x244E36_244E64),
  (0x23F6B, 0x244E54),
  (0x23F6D, 0x244E51_244E58_244E61_244E5E_244E3A_244E34_244E38_224D4A),
  (0x23F85, 0x2D4779),
  (0x23F87, 0x244E35),
  (0x23F9A, 0x244E4E),
  (0x23F9C, 0x224D45),
  (0x23FA0, 0x224D67),
  (0x23FA4, 0x244E4B),
  (0x23FA6, 0x244E52),
  (0x23FAA, 0x224D28),
  (0x23FB4, 0x224D53),
  (0x23FB7, 0x224D60),
  (0x23FC5, 0x244F24_244F2A_244F29_244E68_244E69_244E72),
  (0x23FCC, 0x244E7D_244F27),
  (0x23FD0, 0x224E36_2D4824_224E3D_244F25),
  (0x23FD8, 0x244E6D),
  (0x23FDD, 0x244F21_244E6A_244E66),
  (0x23FE2, 0x244E6E),
  (0x23FE4, 0x244F22_244E75_224E23),
  (0x23FF3, 0x2D4877),
  (0x23FF8, 0x224D7B),
  (0x24004, 0x244E7B),
  (0x24011, 0x224D6B),
  (0x2401D, 0x244E76),
  (0x2401F, 0x224D25_224E4A),
  (0x24022, 0x242754_244F3D_224E63_244F41_244F35),
  (0x24028, 0x244F2D_224E4B_244F38_244F2E),
  (0x24032, 0x244F49),
  (0x24035, 0x244F33),
  (0x2403D, 0x244F47),
  (0x24047, 0x224E55),
  (0x2404A, 0x244F40),
  (0x2404C, 0x2D4925),
  (0x24050, 0x224E53),
  (0x2405D, 0x244F3B_224E6F),
  (0x24061, 0x244F55_244F5F_244F5E),
  (0x24065, 0x244F57_244F4F_244F63_244F61),
  (0x2406A, 0x244F66_244F6C_244F60_244F54_244F64_244F6B_224E7C_244F62_244F43_244F59),
  (0x24075, 0x244F51),
  (0x24077, 0x244F4B_244F5D_244F52),
  (0x2407D, 0x244F4E_244F4C_244F58_244F56_244F6A_244F4D_244F69_2D4830),
  (0x24090, 0x224E6E),
  (0x24097, 0x244F50),
  (0x240A0, 0x244F5B),
  (0x240A4, 0x244F5C),
  (0x240B2, 0x244F68_244F7B),
  (0x240B5, 0x244F7D_244F72_244F71),
  (0x240B9, 0x244F77),
  (0x240BE, 0x244F6F_244F70),
  (0x240C2, 0x244F76_244F6D),
  (0x240CC, 0x224F2C),
  (0x240E3, 0x244F73),
  (0x240E8, 0x245023_245025_245030_245031),
  (0x240ED, 0x24502D_245029_24502F),
  (0x240F2, 0x245027),
  (0x240F4, 0x224F4C),
  (0x240F6, 0x24502A_224F49_24502B),
  (0x240FA, 0x245024_245035_245028_245033),
  (0x24106, 0x24502C),
  (0x24108, 0x224F68_2D4937),
  (0x2410E, 0x224F5E_245041),
  (0x24111, 0x245040_24503E_245039_24503C),
  (0x24116, 0x245036),
  (0x24119, 0x245043),
  (0x2411B, 0x245042_224F5A),
  (0x24123, 0x245044),
  (0x24127, 0x24503D),
  (0x2412B, 0x224F40),
  (0x24136, 0x224F70_24504A_245048_245046_24504C),
  (0x2413D, 0x245047),
  (0x24146, 0x24504D),
  (0x2414A, 0x245053_24504F_2D487C_2D485B_245052),
  (0x24150, 0x245054_245050_245051_245055),
  (0x24159, 0x224F77_245056),
  (0x24161, 0x225022),
  (0x24163, 0x245057_245058),
  (0x24166, 0x24505A),
  (0x24169, 0x24505C),
  (0x24170, 0x245060_24505F_245061_24505D),
  (0x24178, 0x245062_245063),
  (0x2417D, 0x245064),
  (0x2417F, 0x22502E_245065_245066),
  (0x24183, 0x245068_22503D),
  (0x24188, 0x225033),
  (0x2418A, 0x274A35),
  (0x2418C, 0x2D494C_2D5A43),
  (0x2418F, 0x245069_2D4949_245071_245072),
  (0x24199, 0x24506F),
  (0x2419C, 0x24506A_245077_24507B_24507E),
  (0x241A5, 0x225052_225045),
  (0x241AC, 0x225054),
  (0x241B0, 0x22504C),
  (0x241B3, 0x245079_24506E_225047),
  (0x241BC, 0x245122_245131_245126),
  (0x241C0, 0x245134),
  (0x241C5, 0x245132),
  (0x241CA, 0x22505F_225060),
  (0x241D1, 0x285446),
  (0x241DC, 0x24512B),
  (0x241DE, 0x245130),
  (0x241E0, 0x245137_2D4B30),
  (0x241E3, 0x245139),
  (0x241E5, 0x22505B),
  (0x241E8, 0x24512F),
  (0x241ED, 0x285467),
  (0x241F0, 0x24514C_24514A),
  (0x241F3, 0x245140),
  (0x241F6, 0x24513D),
  (0x241FA, 0x225136),
  (0x241FD, 0x245141),
  (0x2420A, 0x245143),
  (0x24210, 0x225133_245145),
  (0x24213, 0x24513F_245142),
  (0x2421B, 0x245147),
  (0x24223, 0x225132),
  (0x24225, 0x225163_225146_245165_245150),
  (0x2422B, 0x245151),
  (0x2423C, 0x22513E),
  (0x2423F, 0x225253),
  (0x24249, 0x225161),
  (0x2424C, 0x245166_24514E_24515D_245162),
  (0x2425D, 0x245155_24515F_24515E),
  (0x24262, 0x2D595B),
  (0x24265, 0x245225_245221),
  (0x2426A, 0x24516E_245171_245156),
  (0x24273, 0x225171),
  (0x24276, 0x225244),
  (0x24279, 0x22517B_245172),
  (0x24283, 0x225172_245173),
  (0x2428E, 0x225234),
  (0x24290, 0x225238),
  (0x24294, 0x22523A),
  (0x2429A, 0x245227),
  (0x242A9, 0x225226),
  (0x242B4, 0x24523E),
  (0x242B6, 0x245233_245236_24522C_24522D_24523F_24523B),
  (0x242BD, 0x24522E),
  (0x242BF, 0x245242_245237_245238_245239),
  (0x242C4, 0x245234),
  (0x242CF, 0x285356),
  (0x242D8, 0x225264),
  (0x242E5, 0x245246_225272),
  (0x242EB, 0x24523C),
  (0x242ED, 0x245245),
  (0x242F0, 0x2D3429),
  (0x242FA, 0x225268),
  (0x242FE, 0x225246),
  (0x24300, 0x22526F_245243_24522F_245232),
  (0x2430A, 0x24524A_245264_245248_22532F_245256),
  (0x24310, 0x245250),
  (0x24313, 0x24525A_24525D),
  (0x24316, 0x24525E_22532D),
  (0x2431A, 0x22532E),
  (0x2432B, 0x225328),
  (0x2432D, 0x245251),
  (0x2432F, 0x245262),
  (0x24334, 0x22535C),
  (0x24337, 0x245259),
  (0x24339, 0x245257_24525F),
  (0x2433F, 0x24524C_24524B_245268_22532A),
  (0x24348, 0x225330),
  (0x24350, 0x24526C),
  (0x24352, 0x225364_245276),
  (0x24355, 0x24526D_24526E_245270),
  (0x24359, 0x245279),
  (0x2435C, 0x245278_24526F_245274),
  (0x24364, 0x22533D),
  (0x2437C, 0x24527C_22534B),
  (0x24396, 0x225340_245277_245272_24527A),
  (0x243A1, 0x245334),
  (0x243A3, 0x245331_245321_245338),
  (0x243A9, 0x245323),
  (0x243AD, 0x22536B),
  (0x243B1, 0x24534E_245330_245339),
  (0x243C8, 0x225373),
  (0x243CC, 0x225378),
  (0x243D0, 0x4B4A38),
  (0x243D7, 0x22537B_245327),
  (0x243DF, 0x2D4A2F),
  (0x243EB, 0x225427),
  (0x243EE, 0x24532B),
  (0x243F6, 0x225433_24533B_24532F_24534F),
  (0x243FB, 0x22542E_245335),
  (0x243FE, 0x245344_245348_245346),
  (0x24403, 0x225444_225437),
  (0x2440C, 0x225440),
  (0x24410, 0x225443),
  (0x24414, 0x24533F),
  (0x2441E, 0x24533E_245345),
  (0x24425, 0x245340),
  (0x24427, 0x225459_245354_24535A_245352_245361),
  (0x2442E, 0x24535F_22545A_24535B_245355_245359_245360_225457),
  (0x24436, 0x225449),
  (0x24443, 0x252B47_24535D),
  (0x2444C, 0x245356),
  (0x24450, 0x225430),
  (0x24453, 0x245362),
  (0x24457, 0x24536D),
  (0x24461, 0x245365),
  (0x24464, 0x245366_24536B_245364),
  (0x24469, 0x24536E_24536F),
  (0x24472, 0x245363_24537A),
  (0x24475, 0x245372),
  (0x24477, 0x245376_245375),
  (0x2447A, 0x22546D_245369),
  (0x2447E, 0x2D4A2D),
  (0x24480, 0x245370_245379),
  (0x24488, 0x22546F),
  (0x2448F, 0x225472),
  (0x24494, 0x245422),
  (0x2449C, 0x245374_245421_24537C),
  (0x244A1, 0x245426_245371),
  (0x244A4, 0x245423),
  (0x244A6, 0x245427),
  (0x244BA, 0x245429_245428_24542D_24542A),
  (0x244C8, 0x2D4A36),
  (0x244CE, 0x24542F),
  (0x244D1, 0x24542E),
  (0x244D4, 0x24542C_24542B_225523),
  (0x244DA, 0x245430),
  (0x244DD, 0x245432),
  (0x244E4, 0x245433),
  (0x244E6, 0x245435),
  (0x244EC, 0x245438),
  (0x244F2, 0x24543B),
  (0x244F4, 0x24543C_24543D_245440_24543E),
  (0x244FB, 0x24543F),
  (0x244FD, 0x2D3A56_245442),
  (0x24500, 0x245447),
  (0x24502, 0x225533),
  (0x24504, 0x225534_225539),
  (0x24508, 0x245446_245445_245444_245443_245449),
  (0x2450E, 0x245448),
  (0x24514, 0x22553B),
  (0x24519, 0x24544B_24544A),
  (0x24522, 0x2D414E_24544D),
  (0x24528, 0x22553C),
  (0x2452A, 0x2F345A),
  (0x24531, 0x24544F),
  (0x24536, 0x245450),
  (0x24540, 0x245451_252360),
  (0x24544, 0x245453),
  (0x24546, 0x245452_245454),
  (0x2454A, 0x245455),
  (0x2454D, 0x245456),
  (0x24551, 0x245458_245459_2D4A42),
  (0x24555, 0x2D4A40),
  (0x2455A, 0x24545C_24545E),
  (0x2455E, 0x245460_245461_245462),
  (0x24566, 0x245464),
  (0x24569, 0x245463),
  (0x24572, 0x245466),
  (0x24575, 0x245467),
  (0x24577, 0x225545),
  (0x2457A, 0x2D4C4B),
  (0x2457D, 0x24546A_245469_245468_24546B),
  (0x24585, 0x24546F_24546D_24546E),
  (0x24589, 0x2D4C47),
  (0x2458C, 0x245470),
  (0x24592, 0x245472_245474),
  (0x24596, 0x245476_24547B_245475),
  (0x2459B, 0x245478_245479_24547A_245477),
  (0x245A2, 0x24547C),
  (0x245A6, 0x24547D),
  (0x245A9, 0x245521_24547E),
  (0x245AC, 0x245524_245523),
  (0x245B1, 0x24552A_2D4433_245528_24552B_24552C),
  (0x245B7, 0x245529),
  (0x245BA, 0x24552D),
  (0x245BC, 0x245532_24552F),
  (0x245BF, 0x245531_245533_245535_245534),
  (0x245C8, 0x245538),
  (0x245CA, 0x2D4A4A_2D4A49),
  (0x245CD, 0x245536_24553A_245537),
  (0x245D1, 0x24553B),
  (0x245D3, 0x245539),
  (0x245D7, 0x2D4471_245540_24553C),
  (0x245DB, 0x24553E_24553F),
  (0x245DE, 0x24553D),
  (0x245E0, 0x245541),
  (0x245E2, 0x245545),
  (0x245E8, 0x245548),
  (0x245EA, 0x245547_245546_24554A_24554C_245549_24554B),
  (0x245F1, 0x2D4A4B),
  (0x245F3, 0x245550_245551_245552_24554F_24554D_24554E),
  (0x245FA, 0x245553_245557_245554),
  (0x245FE, 0x245556_245559_245558),
  (0x24603, 0x24555A_2D4A4C_24555C_24555D_24555E_2D4A4D),
  (0x2460A, 0x245560),
  (0x2460C, 0x225555),
  (0x24610, 0x245561_245562),
  (0x24614, 0x245563),
  (0x24618, 0x245566),
  (0x2461C, 0x24556E_24557B_245572_245574_24556B_245578_24556A_245569_24556F_2D4A50_24557A_24557C),
  (0x2462A, 0x24557E_245571),
  (0x24632, 0x245570),
  (0x24634, 0x2D4A54_245573_245576_245575_245629_245623_245621_24562E),
  (0x2463D, 0x24562C_245624),
  (0x24645, 0x245626),
  (0x24647, 0x245628_24562F),
  (0x2464B, 0x245630),
  (0x2464E, 0x245627_245625),
  (0x24651, 0x24563C_245633_245639_24563B_245636_24563A_2D4267_245638),
  (0x2465B, 0x225573_245646_245645_245643_245640_245641_24563F_245647),
  (0x24664, 0x24564B),
  (0x24668, 0x2D4377_245649),
  (0x2466D, 0x245644),
  (0x24670, 0x24564F_22557E_245658_245652_245650_245657),
  (0x24677, 0x24564C),
  (0x2467D, 0x24564E),
  (0x2467F, 0x245654_245656_245655),
  (0x24685, 0x245653),
  (0x24688, 0x245651_24564D),
  (0x2468C, 0x2D4A5C),
  (0x2468E, 0x24566A_245668_245664),
  (0x24693, 0x245665_245659),
  (0x2469A, 0x245660_24565F_244667_245667_245669_24566B),
  (0x246A1, 0x24565B_24565C_24565A_245661),
  (0x246A8, 0x24565E_22562A_24567E_24566F_245721_24567D_24566C_24567A_24566E_245678),
  (0x246B3, 0x245676_2D4A52_245663),
  (0x246BC, 0x245673_245674),
  (0x246C0, 0x245675),
  (0x246C2, 0x24567C),
  (0x246C4, 0x24566D_245670),
  (0x246CA, 0x245727_245729),
  (0x246CD, 0x24572C_24572E_24572B_245726_245723_245725),
  (0x246D6, 0x245728_24484B),
  (0x246D9, 0x24572D_245731),
  (0x246DC, 0x245722_245724),
  (0x246DF, 0x24572A),
  (0x246E2, 0x245733_24573C),
  (0x246E5, 0x245737_245738_245734),
  (0x246E9, 0x24573A_245739),
  (0x246ED, 0x24573E),
  (0x246F1, 0x245745_245742_245744),
  (0x246F5, 0x245746_245743_245740_24573F_245747),
  (0x246FB, 0x24574A),
  (0x246FF, 0x24574B),
  (0x24704, 0x24574C_24574D),
  (0x24707, 0x245751),
  (0x24709, 0x245750_24574F_245752_245753_245755),
  (0x24710, 0x245754_245756),
  (0x24713, 0x245757_245759_245758_24575B),
  (0x24718, 0x24575A_24575C),
  (0x2471B, 0x24575E_24575F_245760),
  (0x24721, 0x245762_245765_245761_245769),
  (0x24726, 0x24576A_24576B),
  (0x24729, 0x245766),
  (0x2472B, 0x245763),
  (0x2472E, 0x245764_245774_24577D_24576D),
  (0x24733, 0x2D4B23),
  (0x24735, 0x24576F),
  (0x24737, 0x245771_24576C_245826_24577E_245775_24577B_245779_245777),
  (0x24743, 0x24576E_245824_245822_245821_245823_245825_245776),
  (0x2474D, 0x245778_24577A_24583C_245839_2D4A64_245836_245833_24583D_24583A_245837_245834_24583F),
  (0x24759, 0x24582F_245838_245828_24582B_24583E_24582D_245842),
  (0x24761, 0x245843),
  (0x24763, 0x225669),
  (0x24767, 0x24583B),
  (0x24769, 0x24582C),
  (0x2476C, 0x245841),
  (0x2476E, 0x245827_24585A_245855_245853),
  (0x24773, 0x245859_245844_245852),
  (0x24777, 0x245858_245845_245857),
  (0x2477B, 0x245856),
  (0x2477D, 0x2F3629_24585C_2D6C37_245830_24584A_24584D),
  (0x24789, 0x24584B_24584C_245851_245846_24584E_24584F_225672),
  (0x24797, 0x24585B),
  (0x2479A, 0x245866_22572B_24585F_245869_225730_245860_24586D_245864_245868),
  (0x247AC, 0x225721),
  (0x247AE, 0x24586E),
  (0x247B0, 0x225723),
  (0x247B2, 0x24586C_24586B_24586A_24585D),
  (0x247BE, 0x245867_225722_24586F),
  (0x247C3, 0x245876_245872_245924_245922_245875),
  (0x247CA, 0x245871_245870_245928_225739_245877),
  (0x247D1, 0x245921),
  (0x247D3, 0x245929_2D3E5E),
  (0x247D6, 0x24587C_454B21),
  (0x247DD, 0x24593A_245940_225745_245930_24593B_245941_24592E_225753_245938_245933_245939_245937),
  (0x247E9, 0x225751_24592B),
  (0x247F2, 0x225744),
  (0x247FC, 0x24593E),
  (0x247FE, 0x24592D_24592C_245934),
  (0x24807, 0x245931),
  (0x2480D, 0x245958_245951_245949_245950),
  (0x24813, 0x245957),
  (0x24815, 0x2D4C2E),
  (0x24818, 0x24594C_24594B_24594A),
  (0x2481C, 0x245943_245946),
  (0x2481F, 0x245953_245948),
  (0x24824, 0x245952),
  (0x2482A, 0x24595D_24594E),
  (0x2482D, 0x24595A),
  (0x24835, 0x24594D_24594F),
  (0x24839, 0x245963_245A30),
  (0x2483C, 0x24597D_245969_245964_245967_245962_245965_245970_245968_245966_245977_245978_245960),
  (0x2484F, 0x24596D_24596B),
  (0x24852, 0x245975_245973),
  (0x24855, 0x245979_245961),
  (0x2485C, 0x24597C_245976_245972_24596F_245974),
  (0x24862, 0x245942_245A2F_245A29_245A2B),
  (0x24867, 0x24597E),
  (0x2486A, 0x245A27_245A2A_245A2D_245A22_245A37),
  (0x24870, 0x245A28_245A33_245A2C_225777_245A3A),
  (0x24876, 0x245A24),
  (0x2487A, 0x245A21),
  (0x2487E, 0x245A39_245A3B_245A25_245A31_225778),
  (0x2488B, 0x245A2E_245A47_245A40_245A42_245A3C_245A3D),
  (0x24892, 0x245A3E_245A44_245A45_245A49_245A46_245A41_245A48),
  (0x2489A, 0x2D4B2B_225822_2D4B27),
  (0x248A3, 0x245A3F),
  (0x248A6, 0x245A52_245A4A_245A4F_245A5C),
  (0x248AE, 0x245A4B),
  (0x248B4, 0x245A5A_245A57_245A53_245A56),
  (0x248B9, 0x225834_225832_245A58_245A55),
  (0x248C3, 0x245A5B),
  (0x248C5, 0x245A5F),
  (0x248CA, 0x2D4B2A),
  (0x248CC, 0x245A5E_245A61_225837),
  (0x248D1, 0x245A68_245A66_245A67),
  (0x248D7, 0x245A69_245A65),
  (0x248DB, 0x245A6A),
  (0x248DF, 0x245A6B_245A6C),
  (0x248E3, 0x245A6E_245A6F),
  (0x248E7, 0x245A70_245A71),
  (0x248EC, 0x245A75_245A76_245A7D_245A7E_245A79_245A7A_245A7C),
  (0x248F5, 0x2D4B34_245B21),
  (0x248F8, 0x245A77_245B25_245B28_22585F_245B2D),
  (0x248FF, 0x22584F),
  (0x24907, 0x225860_334B55_225858_245B27_245B2C),
  (0x24910, 0x245B3E_245B31_245B33),
  (0x24920, 0x245B38),
  (0x24926, 0x245B37_245B36),
  (0x24929, 0x245B3F),
  (0x2492B, 0x245B3A_245B39),
  (0x2492E, 0x22587C),
  (0x24931, 0x245B3C_245B34),
  (0x24936, 0x245B4A_245B48_22592C),
  (0x2493A, 0x225933),
  (0x2493E, 0x22587E_22592E),
  (0x24943, 0x225922),
  (0x24952, 0x245B42_245B4D_245B4C),
  (0x24957, 0x22594D),
  (0x24959, 0x245B50),
  (0x2495D, 0x245B51_245B5A),
  (0x24960, 0x225944),
  (0x24964, 0x225943),
  (0x24968, 0x225950),
  (0x2496B, 0x225961),
  (0x2496D, 0x22594B_245B55),
  (0x24970, 0x245B56),
  (0x24977, 0x245B53),
  (0x2497D, 0x245B5D_245B6C_245B5E_245B71_245B72),
  (0x24983, 0x245B73),
  (0x2498C, 0x225968),
  (0x2498E, 0x245B70_225A2E_225979),
  (0x24999, 0x225A29),
  (0x2499D, 0x245B6F),
  (0x249A4, 0x245B6B),
  (0x249A6, 0x2D4B40),
  (0x249AB, 0x225975),
  (0x249AE, 0x245B5C),
  (0x249B1, 0x245B79_245B7A_2D4B57),
  (0x249B9, 0x225A53),
  (0x249BC, 0x245C2A),
  (0x249C5, 0x225A41),
  (0x249C7, 0x225A46),
  (0x249CA, 0x245B7E),
  (0x249CD, 0x245C21),
  (0x249D1, 0x225A58_225A5F),
  (0x249D7, 0x245C23_245C24_245C25),
  (0x249DB, 0x225A33),
  (0x249DE, 0x225A39_225A34_245C28),
  (0x249E3, 0x225A3D),
  (0x249E5, 0x245C27),
  (0x249EA, 0x245C2B_245C36),
  (0x249ED, 0x245C2D_245C2F),
  (0x249F0, 0x2D4B4B_245C32_2D4B4C_225A70),
  (0x249F5, 0x245C31),
  (0x249F8, 0x225A73),
  (0x24A04, 0x225A67),
  (0x24A0D, 0x245C30_245C2C),
  (0x24A13, 0x225A71_2D4B67_225B23_245C47),
  (0x24A18, 0x245C3C),
  (0x24A1B, 0x245C42),
  (0x24A22, 0x225B29),
  (0x24A25, 0x245C2E_225B3D_225B26),
  (0x24A2D, 0x225A7D),
  (0x24A32, 0x225B36),
  (0x24A34, 0x225B33),
  (0x24A39, 0x225B25),
  (0x24A3B, 0x245C3F),
  (0x24A3E, 0x225B37),
  (0x24A40, 0x2D4B3A_225B34_245C4D),
  (0x24A44, 0x245C4F),
  (0x24A53, 0x225B42),
  (0x24A58, 0x225B4B_225B49_225B7D),
  (0x24A5D, 0x225B5C),
  (0x24A68, 0x245C58_245C55),
  (0x24A6C, 0x245C63_225C22_245C5E),
  (0x24A71, 0x225B63_245C61),
  (0x24A76, 0x225B6F),
  (0x24A7C, 0x225B52_285C41),
  (0x24A83, 0x245C60),
  (0x24A8B, 0x245C6A_225C21_225B62),
  (0x24A97, 0x225B74_225B7B_225B7E),
  (0x24AA0, 0x225C27_245C6B),
  (0x24AA4, 0x225B77),
  (0x24AAA, 0x245C73_245C72),
  (0x24AAD, 0x245C74_245C6E),
  (0x24ABC, 0x225C2F_225C2E),
  (0x24ABF, 0x245C76),
  (0x24AC2, 0x225C36),
  (0x24AC9, 0x225C37_245C7A_245C7B),
  (0x24AD5, 0x225C3F),
  (0x24AD8, 0x245D24),
  (0x24ADE, 0x245D23_225C3E_225C43),
  (0x24AE3, 0x245D27_245D25_245D26_225C42_245D29_245D2A_2D4B3E_245D2B_245D2F_245D2E),
  (0x24AF1, 0x245D31_245D32),
  (0x24AF5, 0x245D37_245D35_245D34),
  (0x24AF9, 0x245D33_245D3A_245D38),
  (0x24B01, 0x245D3D_245D3E_245D3B),
  (0x24B08, 0x245D44_245D40),
  (0x24B0C, 0x245D43_245D46),
  (0x24B0F, 0x225C4E_225C4D),
  (0x24B13, 0x225C4C),
  (0x24B15, 0x245D47_225C4F_2D4B6D_245D49),
  (0x24B1B, 0x245D4B),
  (0x24B1D, 0x245D4A),
  (0x24B20, 0x245D4C_2D4B6E),
  (0x24B25, 0x245D4E_245D4F_245D50_245D56_245D53),
  (0x24B2B, 0x245D52_245D57_245D59),
  (0x24B2F, 0x245D5B_225C59_245D5C),
  (0x24B34, 0x245D61_245D63_245D64_245D62),
  (0x24B3E, 0x245D6D_245D67),
  (0x24B44, 0x245D6C),
  (0x24B4C, 0x245D70_245D78),
  (0x24B4F, 0x245D77_245D7A_245D74_245D65),
  (0x24B54, 0x245D73_245D68),
  (0x24B5B, 0x2D7646_245D7E),
  (0x24B5E, 0x245D7B_245E21),
  (0x24B62, 0x225C68),
  (0x24B67, 0x245E23_245E26_245E22),
  (0x24B6B, 0x245E24_245E29),
  (0x24B71, 0x245E25),
  (0x24B74, 0x245E27),
  (0x24B79, 0x245E2D),
  (0x24B7B, 0x245E2B_245E2C_245E2F),
  (0x24B86, 0x245E38),
  (0x24B88, 0x245E31_245E34_225D23_245E33_245E30_245E32_225D30_245E37),
  (0x24B95, 0x245E35),
  (0x24B99, 0x245E3E_245E3B_2D7841_245E3A_245E3D),
  (0x24BA1, 0x245E41_245E42),
  (0x24BA6, 0x245E45_245E46_245E43_245E44_245E47),
  (0x24BAD, 0x245E4A),
  (0x24BAF, 0x245E49_245E4D_245E4B),
  (0x24BB3, 0x245E4C),
  (0x24BB8, 0x245E4F),
  (0x24BBC, 0x245E51_245E50),
  (0x24BC1, 0x2D6F25),
  (0x24BC4, 0x245E52_245E54),
  (0x24BC7, 0x245E58),
  (0x24BCC, 0x225D3F_245E5B),
  (0x24BCF, 0x237E5C_245E5C),
  (0x24BD3, 0x2D4B79_2D3064),
  (0x24BD6, 0x245E5E),
  (0x24BD9, 0x225D41_245E5F_2D4F77),
  (0x24BDF, 0x245E61),
  (0x24BE1, 0x245E62),
  (0x24BE5, 0x245E63),
  (0x24BF3, 0x2D4B7B),
  (0x24BF7, 0x225D46),
  (0x24BFB, 0x245E65),
  (0x24C02, 0x245E66),
  (0x24C05, 0x245E67_2D4B7D_245E68),
  (0x24C0B, 0x245E6B_245E6A),
  (0x24C0E, 0x245E6D_245E6E),
  (0x24C11, 0x245E6F),
  (0x24C15, 0x225D4E),
  (0x24C1E, 0x2D3462_245E73_245E74),
  (0x24C22, 0x245E77),
  (0x24C26, 0x245E7A_245E79),
  (0x24C29, 0x245F22_245F2A),
  (0x24C2C, 0x245F23_245E7B_245E7E),
  (0x24C33, 0x245E7C_2D396F_2D4C2B_2D4C27),
  (0x24C43, 0x245F21_245F25),
  (0x24C46, 0x245F26_245F29),
  (0x24C4B, 0x245F24_245F30_245F2D_245F38),
  (0x24C53, 0x245F33),
  (0x24C5B, 0x245F34_245F3A),
  (0x24C5F, 0x245F2F_245F2E),
  (0x24C63, 0x245F31_245F2C_345D60_245F3C_245F43_225D63_245F42),
  (0x24C71, 0x2D5B3F_245F41),
  (0x24C74, 0x245F44_245F3D),
  (0x24C77, 0x245F3F_245F45),
  (0x24C7A, 0x245F3E),
  (0x24C7D, 0x225D6C_245F4C),
  (0x24C86, 0x225D64),
  (0x24C89, 0x245F48_245F4A),
  (0x24C8D, 0x245F46),
  (0x24C8F, 0x225D68),
  (0x24C91, 0x225D72),
  (0x24C93, 0x245F50_245F56_245F54_245F53_245F52),
  (0x24C99, 0x245F55_245F4F),
  (0x24C9C, 0x2D4C33),
  (0x24CA8, 0x245F4E_245F4D),
  (0x24CAC, 0x225D76_245F5C),
  (0x24CBB, 0x245F5D),
  (0x24CBE, 0x245F5E),
  (0x24CC1, 0x245F61_245F62_245F60),
  (0x24CC5, 0x245F5F),
  (0x24CC8, 0x245F66_225E21_225E24),
  (0x24CCC, 0x245F63),
  (0x24CCE, 0x245F64),
  (0x24CD3, 0x245F6B),
  (0x24CD5, 0x245F6A_225E27),
  (0x24CD8, 0x245F6C),
  (0x24CDD, 0x245F6E),
  (0x24CDF, 0x245F69_245F6D),
  (0x24CE4, 0x225E28_245F74_2D795C),
  (0x24CEA, 0x245F75),
  (0x24CEF, 0x245F76),
  (0x24CF3, 0x245F79_245F78_245F7A),
  (0x24CFA, 0x245F7C),
  (0x24D00, 0x245F7D),
  (0x24D05, 0x245F7E_246021),
  (0x24D09, 0x246022),
  (0x24D13, 0x246023),
  (0x24D1F, 0x24602A_24602C_246029_24602B_24602D),
  (0x24D25, 0x24602E_246031_246033_246030),
  (0x24D2E, 0x246032_246037),
  (0x24D31, 0x225E36),
  (0x24D33, 0x246036),
  (0x24D38, 0x225E3F_24603A),
  (0x24D3B, 0x24603C_246044_225E41_246043),
  (0x24D40, 0x24603B_24603F_246039_246042),
  (0x24D4A, 0x24603E),
  (0x24D4E, 0x246041),
  (0x24D52, 0x246038),
  (0x24D57, 0x24604C_246045),
  (0x24D5A, 0x246052_246049),
  (0x24D5D, 0x24604F_246059_246051_246057),
  (0x24D64, 0x24604B_246056_24604E),
  (0x24D68, 0x246048),
  (0x24D6C, 0x246047_246050_24605C_246053_24605B),
  (0x24D78, 0x246068_246060_246064_246067_24606A_246066_24605E),
  (0x24D81, 0x246061),
  (0x24D83, 0x225E61_24606E),
  (0x24D88, 0x246063),
  (0x24D8B, 0x24606D),
  (0x24D93, 0x24605D_246069_246073_246127_246123_246070),
  (0x24D9A, 0x24607A_24607B_24607E_246074),
  (0x24DA0, 0x246128),
  (0x24DA4, 0x246124),
  (0x24DAD, 0x225E6F_246078_246079_246077),
  (0x24DB2, 0x246121_24612B_24612A_24612C),
  (0x24DC0, 0x246076_246075_2D4C5C_246137_24612F_246147_24613C_225E79_246134_246138_246149),
  (0x24DCC, 0x24613B_246139_24614B_24614D_2D4D44_24614A),
  (0x24DD4, 0x24614F_24614C_24613A_246122_246144_246140),
  (0x24DE0, 0x2D4C59),
  (0x24DE2, 0x246146),
  (0x24DE4, 0x246151),
  (0x24DE6, 0x246131_246130_24613E),
  (0x24DEB, 0x246132),
  (0x24DF7, 0x24613D_246150_24612D),
  (0x24DFB, 0x24616D_24615B_246169_246158_246153_246159_225F36),
  (0x24E04, 0x246160),
  (0x24E06, 0x24615C),
  (0x24E08, 0x246156_246157_246168_2D4C45_246165),
  (0x24E11, 0x225F37_225F32_24615E_246161_246166_246155_24616B_246164),
  (0x24E1D, 0x225F2B),
  (0x24E1F, 0x2D4C4F),
  (0x24E21, 0x24615F),
  (0x24E26, 0x24615D),
  (0x24E29, 0x24616A_225F41_225F4B_246171_24622B_246179_24617D_246226_225F44_24617B_246224_24617A),
  (0x24E35, 0x225F43),
  (0x24E37, 0x24617E_246173_246174),
  (0x24E3B, 0x24616C_24622A_246175),
  (0x24E46, 0x225F4D_24622E_246178),
  (0x24E4A, 0x246225_24622C_246229),
  (0x24E4E, 0x24622D_246228),
  (0x24E5B, 0x24617C_246170_225F5D_246232_246233_246234_24623E_246244_246242_246230_246237_246240),
  (0x24E67, 0x246231_246236_246239),
  (0x24E6C, 0x246247),
  (0x24E72, 0x24623C),
  (0x24E74, 0x24623A_24623B_454C69),
  (0x24E78, 0x24624A),
  (0x24E80, 0x24622F),
  (0x24E83, 0x24625C_24624D_246258_246243_24625D_246235),
  (0x24E8A, 0x225F6C_246251_24624E),
  (0x24E8E, 0x24625B),
  (0x24E90, 0x24625E),
  (0x24E93, 0x246241_246254_246252_24624F_246256),
  (0x24E9B, 0x246250),
  (0x24E9D, 0x246259),
  (0x24EA5, 0x225F72),
  (0x24EA9, 0x24625F),
  (0x24EAB, 0x24624C),
  (0x24EB7, 0x246255_24625A),
  (0x24EBA, 0x225F76_226023_246264),
  (0x24EBE, 0x24626C_246265_246266_24626A_246267_246257_246260_246269_246262_246263),
  (0x24ECC, 0x246268_24626E),
  (0x24ED6, 0x246279_246275_226029_246277_246271),
  (0x24EDC, 0x246276_246270),
  (0x24EE2, 0x246273),
  (0x24EE6, 0x24627A),
  (0x24EE8, 0x24626F_246278),
  (0x24EF1, 0x22602C_22602E_24627B),
  (0x24EF5, 0x22602D_24627C_24627D),
  (0x24F00, 0x246327_246326_246322_246321),
  (0x24F05, 0x246324),
  (0x24F0B, 0x24632B_24632A_246329),
  (0x24F10, 0x24632E_24632D_24632F),
  (0x24F17, 0x24632C_246330_22603B_246331),
  (0x24F22, 0x246334),
  (0x24F26, 0x246336),
  (0x24F29, 0x2D4C7A_2D4C7C),
  (0x24F2E, 0x246337),
  (0x24F31, 0x246338),
  (0x24F33, 0x246339),
  (0x24F36, 0x24633A_334C7C),
  (0x24F39, 0x226044_24633C),
  (0x24F3F, 0x24633D),
  (0x24F41, 0x24633E_246340_246342),
  (0x24F45, 0x246341_24633F_246343),
  (0x24F49, 0x24634B_246346),
  (0x24F4C, 0x246345),
  (0x24F50, 0x2D5B73),
  (0x24F53, 0x24634A),
  (0x24F55, 0x246344_246347),
  (0x24F59, 0x22604C),
  (0x24F62, 0x24634E_24634D),
  (0x24F65, 0x246354_246353),
  (0x24F6B, 0x246351),
  (0x24F71, 0x246356_246355_246358),
  (0x24F79, 0x246360_246361),
  (0x24F7C, 0x24635E),
  (0x24F7E, 0x24635B_24635F),
  (0x24F82, 0x226056),
  (0x24F84, 0x24635A_24635C_246362),
  (0x24F88, 0x246363),
  (0x24F8A, 0x246364),
  (0x24F8F, 0x246369_246367_246366_246368),
  (0x24F95, 0x24636A),
  (0x24F97, 0x24636B),
  (0x24F9B, 0x24636E),
  (0x24F9D, 0x24636C),
  (0x24FA2, 0x246371_246372),
  (0x24FA5, 0x24636F_246370_246373),
  (0x24FAB, 0x246377_24637A_246376_246379),
  (0x24FB2, 0x246378),
  (0x24FB4, 0x226069_24637B),
  (0x24FBA, 0x24637D),
  (0x24FBF, 0x24637E_246422),
  (0x24FC3, 0x246421_246424_246425_246426_246427),
  (0x24FCB, 0x246428_246429),
  (0x24FCE, 0x24642C_24642E_24642B_24642F),
  (0x24FD3, 0x246430_246431_246432),
  (0x24FD8, 0x246436),
  (0x24FDA, 0x246434),
  (0x24FDF, 0x24643E_246439_24643D),
  (0x24FE3, 0x24643B_24643C),
  (0x24FE8, 0x246443_246447_246446),
  (0x24FED, 0x246441),
  (0x24FEF, 0x246448),
  (0x24FF3, 0x24644A_246450_246449_24644C_24644F),
  (0x24FFB, 0x24644E_24644B_24644D_246451),
  (0x25001, 0x226073_246452_246455_226075),
  (0x25008, 0x246456),
  (0x2500E, 0x24645B_246458_24645C),
  (0x25013, 0x24645D_24645E_246467_246465_246468_246461_246466),
  (0x2501B, 0x246462),
  (0x2501D, 0x24645F_246460),
  (0x25020, 0x24646A),
  (0x25022, 0x246469_24646D),
  (0x25029, 0x24646C),
  (0x2502B, 0x24646F_24646E),
  (0x2502E, 0x246470_246473_246475_246471),
  (0x25035, 0x246476),
  (0x25038, 0x246477_246479_246478),
  (0x25041, 0x24647B_24647C_226078),
  (0x25045, 0x24647E_246524_246521_246523_2D4D40),
  (0x2504B, 0x246525_246526),
  (0x2504E, 0x24652A),
  (0x25050, 0x24652C_226121_24652B),
  (0x25055, 0x226124),
  (0x2505B, 0x246528_246529),
  (0x2505F, 0x24652F_24652D),
  (0x25063, 0x226128),
  (0x25066, 0x22612A),
  (0x2506A, 0x2D3A57),
  (0x2506C, 0x246535),
  (0x2506E, 0x246536_246533_2D4D3B_246534_246530),
  (0x25074, 0x226130),
  (0x25079, 0x246539_226133),
  (0x2507C, 0x246538),
  (0x25081, 0x226132_24653A_2D6D39),
  (0x25087, 0x24653F_24653E),
  (0x2508B, 0x24653D),
  (0x25092, 0x246540_226139),
  (0x25098, 0x246544_246542),
  (0x250A3, 0x246541_24654B_226142_246546),
  (0x250A8, 0x246548),
  (0x250AA, 0x246549),
  (0x250AC, 0x246547),
  (0x250AE, 0x22613D_24654A),
  (0x250B5, 0x246545),
  (0x250B8, 0x226141_24654D_246550),
  (0x250BE, 0x246551),
  (0x250C2, 0x246554),
  (0x250C7, 0x246557),
  (0x250C9, 0x246556),
  (0x250CC, 0x246555),
  (0x250D0, 0x24654C),
  (0x250D4, 0x226145),
  (0x250D7, 0x246559_24655C_24655B),
  (0x250DF, 0x24655D_24655E),
  (0x250E3, 0x246560_246561),
  (0x250E7, 0x246566_246565_2D4D52_246564_246563),
  (0x250EE, 0x246568),
  (0x250F0, 0x246562),
  (0x250F3, 0x2E6148_24656E_246571),
  (0x250F9, 0x246570_24656C),
  (0x250FD, 0x24656A_24656D_246569),
  (0x25101, 0x24656F),
  (0x25108, 0x246574_226151),
  (0x2510B, 0x246628_28623A_246630_226152),
  (0x25111, 0x246621_24662E_246626_246623_246629_24662F_22614D_246631),
  (0x2511B, 0x24657A_24662C_246625_246627),
  (0x25122, 0x2D4D48),
  (0x25126, 0x246575),
  (0x2512E, 0x226155_226157),
  (0x25131, 0x24663D_246640),
  (0x25134, 0x246634_24663A),
  (0x25137, 0x246638_246648_246644),
  (0x2513B, 0x246633),
  (0x2513D, 0x24663C_246641),
  (0x25141, 0x246646_24664C),
  (0x25144, 0x24664A),
  (0x2514A, 0x226166),
  (0x2514F, 0x246637),
  (0x25151, 0x24663E_24664B),
  (0x25154, 0x246643),
  (0x25156, 0x246632_24663B_246645_246636),
  (0x2515E, 0x246652_24664E_246661),
  (0x25166, 0x24665D_24665F_246653),
  (0x2516A, 0x24665B),
  (0x2516C, 0x24665C_2D582B),
  (0x25171, 0x2D4D49_246665),
  (0x25175, 0x24665A),
  (0x25177, 0x246659_246663),
  (0x2517A, 0x246666),
  (0x2517D, 0x246664),
  (0x25184, 0x22617D_246656),
  (0x25187, 0x246651_246655_246660),
  (0x2518B, 0x246675_24672D),
  (0x2518F, 0x246658),
  (0x25191, 0x246726),
  (0x25194, 0x24667B),
  (0x25196, 0x24666B_24667A_24667D_246674_246669_246730_24672F_246667),
  (0x2519F, 0x246725),
  (0x251A1, 0x24672E),
  (0x251A3, 0x24667E),
  (0x251A5, 0x24666D),
  (0x251AF, 0x24666E),
  (0x251B2, 0x246731),
  (0x251B7, 0x24667C),
  (0x251C3, 0x246723_246672_246724_2D4D68_24666A),
  (0x251CC, 0x24674C_246745_246740_246744),
  (0x251D1, 0x246739),
  (0x251D3, 0x22623B_246741_246749_22624C),
  (0x251D8, 0x246747_24673F_24673A_226247_246733),
  (0x251DE, 0x246746_246734_24674F_2D4D5A),
  (0x251ED, 0x246750),
  (0x251EF, 0x246752),
  (0x251F2, 0x246732_24673E),
  (0x251F5, 0x24673D),
  (0x251FE, 0x24674E_246737_246742),
  (0x25202, 0x246760_246753_246766_246759_246779_24676C_246823_24677E_24677D_246822),
  (0x25212, 0x24677B_246777_24675A_246821),
  (0x25217, 0x24676A),
  (0x25219, 0x24675F_246758_246757_24675B),
  (0x25227, 0x22625E_2D4D64_246765),
  (0x2522B, 0x24677A),
  (0x25237, 0x24675C),
  (0x2523B, 0x246767_22626D_24682D_246827_246836_24683F_226267),
  (0x25243, 0x24684C_24683C_246835_226269_246834),
  (0x2524A, 0x246839_246856_24683E),
  (0x2524E, 0x24684B),
  (0x25250, 0x246848_24682C),
  (0x25253, 0x246829_246837_246826_246831),
  (0x25258, 0x24684A_24682E),
  (0x2525B, 0x246828_246833_24683A_246840_246849),
  (0x25267, 0x246832),
  (0x25270, 0x246847),
  (0x25274, 0x246857_246858_246853_24685E_24685C_246865_24684F_24686A_24686C_246852_24685F_24685D),
  (0x25280, 0x246869_306925),
  (0x25287, 0x246830_246868_24684E),
  (0x25293, 0x246854),
  (0x252A7, 0x246863_246862),
  (0x252AA, 0x246754_246866_246922_246870_246879_246871_246921),
  (0x252B4, 0x246925_246872_246927),
  (0x252B8, 0x246874),
  (0x252BC, 0x24687E_24687D),
  (0x252BF, 0x24687C),
  (0x252C1, 0x246923),
  (0x252C6, 0x226279),
  (0x252CD, 0x2D4D67),
  (0x252D9, 0x246933_226328),
  (0x252DC, 0x24692B),
  (0x252DE, 0x24692E),
  (0x252E1, 0x246932_24692C_24692D_246937_246936_24692A),
  (0x252EA, 0x24693B),
  (0x252EF, 0x24693A),
  (0x252FF, 0x246942_24693D_246946_246947_246945_246948_246944_246940),
  (0x25308, 0x246941),
  (0x2530D, 0x24693F),
  (0x2530F, 0x246943_24694A),
  (0x25312, 0x2D4D76),
  (0x2531A, 0x24694F_246954_24694C_2D4D6C_246950_246952),
  (0x25322, 0x226334),
  (0x25328, 0x24694E_246953),
  (0x2532D, 0x246959_246958_24695B_24695A_24695D),
  (0x2533A, 0x246966_24695F_246960_246961_24695E),
  (0x25340, 0x246963_24696A),
  (0x25343, 0x246962),
  (0x25349, 0x246967),
  (0x2534B, 0x246969),
  (0x2534F, 0x24696B),
  (0x25353, 0x24696D_24696E),
  (0x2535A, 0x24696F),
  (0x2535D, 0x246971_246972_226341_246974_246976_246977_246975),
  (0x25367, 0x226343_246978),
  (0x2536A, 0x24697E_226344_24697D_24697A_24697B_246979),
  (0x25371, 0x24697C_246A22_246A21_246A23_246A24),
  (0x25378, 0x246A25_226348_246A29_246A26_246A28_226349),
  (0x2537F, 0x2D4D4C_246A27),
  (0x25382, 0x246A2C_246A2F_2D4540_246A2B_22634A),
  (0x25388, 0x246A2D_246A2E_22634B_246A31_22634C_246A30_246A39),
  (0x25390, 0x246A33_246A32_246A34_246A37_246A36_246A38_246A3C_246A3E_246A3B_246A3D),
  (0x2539B, 0x246A3A),
  (0x2539F, 0x246A40_246A41_246A44_246A43_246A42),
  (0x253AC, 0x246A47_246A48_246A4A_246A49_246A4C_246A4D),
  (0x253B3, 0x246A4F),
  (0x253B8, 0x246A4B_246A53_246A5A),
  (0x253BE, 0x246A59_2D4E23),
  (0x253C4, 0x246A54_246A55_246A57_246A51_246A56),
  (0x253CE, 0x246A5E),
  (0x253D2, 0x246A5B_246A5D),
  (0x253D6, 0x246A5F_246A60_246A62_226356),
  (0x253DB, 0x246A61_246A66_246A65_246A63),
  (0x253E0, 0x226357),
  (0x253E5, 0x246A68),
  (0x253E9, 0x246A67_246A69_246A6B),
  (0x253EF, 0x246A6C_246A6A),
  (0x253F3, 0x246A6D),
  (0x253F8, 0x246A6E),
  (0x25400, 0x246A6F_246A70_246A71),
  (0x25411, 0x246A72),
  (0x25413, 0x246A73),
  (0x25415, 0x246A74),
  (0x25417, 0x2D4E34),
  (0x25419, 0x246A79_246A77_22635D),
  (0x2541D, 0x226365_246A7A),
  (0x25423, 0x22636A),
  (0x25425, 0x22635F),
  (0x25429, 0x246B29_226377_2D4E56_246B27),
  (0x2542F, 0x22636E),
  (0x25432, 0x246B2D),
  (0x25435, 0x226375),
  (0x25438, 0x22637B),
  (0x2543A, 0x2D4E35),
  (0x2543D, 0x246B28),
  (0x2543F, 0x246A7D),
  (0x25444, 0x246B21_246B2A),
  (0x25447, 0x246B44_246B2E),
  (0x2544A, 0x246B32_246B34),
  (0x2544D, 0x246B30_246B3F_246B3E_246B3D_246B47_246B49_246B40_246B48),
  (0x25458, 0x246B3B_246B36),
  (0x2545B, 0x246B3A),
  (0x2545F, 0x246B31),
  (0x25461, 0x246B33_22642F_246B39),
  (0x25465, 0x246B4A),
  (0x2546E, 0x22642E),
  (0x25470, 0x246B35),
  (0x25473, 0x246B56_246B4F),
  (0x25477, 0x246B61_246B6B_246B5A_246B50_246B6A_246B6E_246B6C_246B37_246B58_246B4E_246B53_246B57),
  (0x25488, 0x246B52_226442),
  (0x2548C, 0x226453),
  (0x25491, 0x246B54),
  (0x25497, 0x246B6F),
  (0x25499, 0x246B65),
  (0x2549B, 0x246B68_246B51),
  (0x2549E, 0x246B4C),
  (0x254A0, 0x246B60_246B5C_246B55_246B5F),
  (0x254A7, 0x246B59_246B6D_246B67_246B73_246C2B_246B72_246C22_246B7C_246B75_246B7D_246B7B_246C29),
  (0x254B3, 0x246B71_226458_246C21_246C2C),
  (0x254BC, 0x246C24),
  (0x254C3, 0x246C2E_226463),
  (0x254C6, 0x246B78_246C2D),
  (0x254CA, 0x22647B_246C46_246C31_246C43),
  (0x254CF, 0x246C3A_246C35_246C45_246C49_2D4E41),
  (0x254D6, 0x246C3D_246C47),
  (0x254E5, 0x226524),
  (0x254E7, 0x226528_246C33_246C34),
  (0x254EB, 0x246C32),
  (0x254FA, 0x246C51_246C62_246C52),
  (0x254FE, 0x246C65),
  (0x25500, 0x246C64_246C54_246C5C),
  (0x25504, 0x246C66),
  (0x25507, 0x246C57_246C53_246C4D_246C59),
  (0x25510, 0x2D4E4D),
  (0x25516, 0x22653D_246C60),
  (0x2551C, 0x246C6B),
  (0x2551E, 0x246C69),
  (0x25521, 0x246C67),
  (0x25527, 0x246C6A_246C5B_246C58_246C63_246C55),
  (0x2552D, 0x246C76_246C74),
  (0x25530, 0x246C77_246C7B),
  (0x25534, 0x246C72),
  (0x25536, 0x22654C),
  (0x2553B, 0x246C4E),
  (0x2553D, 0x226554),
  (0x25541, 0x246C6D),
  (0x25545, 0x246C6C_246C7A_246C70_246C7E),
  (0x2554D, 0x246D33_246D25_246D34),
  (0x25551, 0x246D2F_246D28_246D30_246D35_246D31_246D26_246D32_246D3A),
  (0x2555A, 0x2D4A5E),
  (0x2555E, 0x226562_22656D),
  (0x25561, 0x246D2C_22656C_246D38),
  (0x25565, 0x226624_226564),
  (0x25570, 0x246D44_2D4E42_246D40),
  (0x25574, 0x2D4E5E_246D3E_226623),
  (0x25578, 0x246D46_246D4B_246D49_246D4A_246D37_246D3D_246D45_246D4C),
  (0x25581, 0x22657C),
  (0x25597, 0x246D50_246D52_246D55_246D4D),
  (0x2559C, 0x246D53),
  (0x2559E, 0x246D5F),
  (0x255A0, 0x246D58),
  (0x255A2, 0x226633),
  (0x255A4, 0x246D5A),
  (0x255A8, 0x246D5B),
  (0x255AA, 0x226641_246D63_246D61),
  (0x255B2, 0x22663E),
  (0x255BB, 0x246D67_246D68),
  (0x255BF, 0x246D66_246D69_22664F),
  (0x255C4, 0x226658),
  (0x255CA, 0x246D6A),
  (0x255D2, 0x246D6C_246D70),
  (0x255D9, 0x22665B),
  (0x255DD, 0x246D72),
  (0x255DF, 0x246D74),
  (0x255E6, 0x246D76_246D71),
  (0x255EA, 0x246D75_246D79),
  (0x255ED, 0x246D77_246D78),
  (0x255F5, 0x246D7C_256D49_2D5B50),
  (0x255FA, 0x246D7E_246E21),
  (0x255FE, 0x246E22_246E23),
  (0x25603, 0x246E24_246E25),
  (0x2560B, 0x226666),
  (0x25616, 0x2D6046),
  (0x2561E, 0x226670),
  (0x25621, 0x2D4E66),
  (0x2562B, 0x246E2C),
  (0x2562D, 0x246E2B_246E33_226678),
  (0x25635, 0x22667E),
  (0x25643, 0x226722),
  (0x25645, 0x226676),
  (0x25649, 0x246E31_2D4E72_246E2F),
  (0x2564D, 0x2D4E6B_246E37),
  (0x25655, 0x226725_226726),
  (0x25666, 0x246E3A),
  (0x25668, 0x246E35),
  (0x2566C, 0x246E40),
  (0x2566E, 0x246E3B),
  (0x25670, 0x246E42),
  (0x25673, 0x2D6628),
  (0x25679, 0x246E3C),
  (0x25689, 0x246E4D_246E45_246E4F),
  (0x25691, 0x22673C),
  (0x25695, 0x22673F),
  (0x25697, 0x226748),
  (0x2569A, 0x226741),
  (0x256A6, 0x246E57),
  (0x256A9, 0x226753),
  (0x256B5, 0x226752),
  (0x256C2, 0x246E53),
  (0x256C5, 0x226767),
  (0x256CD, 0x226763),
  (0x256D8, 0x246E64),
  (0x256DA, 0x246E5F),
  (0x256DC, 0x2D4E6A_246E65_246E60_246E66),
  (0x256E5, 0x246E61),
  (0x256EF, 0x246E69_246E68),
  (0x256F3, 0x246E6A),
  (0x256F7, 0x246E67),
  (0x25703, 0x246E71_246E72),
  (0x2570B, 0x226773),
  (0x25711, 0x246E6F_246E73),
  (0x25716, 0x246E76),
  (0x25719, 0x246E75_246E77),
  (0x25722, 0x246E78),
  (0x25725, 0x226779),
  (0x25730, 0x246E7C_2D4E6D_246E7D_22677D_246E7E),
  (0x2573D, 0x246F22),
  (0x25740, 0x23615D),
  (0x25742, 0x246F23),
  (0x25748, 0x226826),
  (0x2574A, 0x246F26),
  (0x2574C, 0x246F27),
  (0x25750, 0x2D4F27_246F28_246F2B),
  (0x25754, 0x246F32_246F2D_246F33),
  (0x25758, 0x246F35),
  (0x2575F, 0x246F30_2D4F25),
  (0x25762, 0x2D335E),
  (0x25765, 0x246F3F_246F3A_246F40_246F47_246F48_246F3B_246F49_226830_246F38_246F3E),
  (0x25775, 0x226836),
  (0x25777, 0x2D5264_246F44_226834),
  (0x2577C, 0x2D4459),
  (0x2577E, 0x246F4B_246F4C),
  (0x25781, 0x246F53),
  (0x25783, 0x246F56_246F46),
  (0x2578A, 0x246F50),
  (0x2578D, 0x246F51_246F4D_246F52),
  (0x25797, 0x246F4F_246F68),
  (0x2579A, 0x246F77_246F73_246F74),
  (0x2579E, 0x246F5F),
  (0x257A2, 0x246F7A),
  (0x257A7, 0x246F78),
  (0x257A9, 0x246F5C_246F61_2D6263),
  (0x257AF, 0x246F5B_246F6A),
  (0x257B2, 0x247026_246F7D_22685E_226856),
  (0x257B9, 0x246F7B),
  (0x257BB, 0x247023_247028),
  (0x257C3, 0x247022),
  (0x257C5, 0x246F79),
  (0x257C7, 0x226855),
  (0x257CB, 0x246F6C),
  (0x257CD, 0x247041_247033_247034),
  (0x257D2, 0x247035_247030_24703B_24703F_247047_24703E_24703C),
  (0x257DA, 0x247031),
  (0x257E2, 0x226867),
  (0x257EF, 0x247043),
  (0x257FA, 0x247045_247044),
  (0x257FD, 0x24704C),
  (0x25800, 0x247056),
  (0x25803, 0x247059_226926_24705A_24704F),
  (0x25809, 0x247054_24704B_247055),
  (0x2580D, 0x247050),
  (0x25831, 0x24706F_247063_247068_247071),
  (0x25836, 0x247066_24706D),
  (0x25839, 0x247070_24706B),
  (0x2583C, 0x2D4F2C_247053_247064_247072_247067_24705F),
  (0x25843, 0x226934),
  (0x25845, 0x24706C),
  (0x25859, 0x247073),
  (0x2585B, 0x247065_247124),
  (0x2585F, 0x247077_24707B_247121_247074_24707A),
  (0x25866, 0x247076_247125),
  (0x2586A, 0x24707D),
  (0x2586C, 0x24712B),
  (0x2586E, 0x24707E),
  (0x25871, 0x247079_226937),
  (0x25887, 0x247127_24707C),
  (0x2588A, 0x24712F),
  (0x2588C, 0x247136_247130_24712D_247132_247135_226944),
  (0x25893, 0x247138_226943_24712E),
  (0x258AD, 0x247129),
  (0x258AF, 0x24713B_247137),
  (0x258B2, 0x24712C),
  (0x258B4, 0x24713F_24713E_226950_247141_247142_247147),
  (0x258BB, 0x247140),
  (0x258BD, 0x247144),
  (0x258C4, 0x247146),
  (0x258CA, 0x247150),
  (0x258CC, 0x247145),
  (0x258D3, 0x24713D),
  (0x258D6, 0x247151_247149_24714C_24714B),
  (0x258DB, 0x24714F_247152_247153_24714D_24714E),
  (0x258E4, 0x247156),
  (0x258E9, 0x247157),
  (0x258EB, 0x22695B_247158),
  (0x258EF, 0x226959_24715C),
  (0x258F2, 0x24715A),
  (0x258F8, 0x24715D),
  (0x258FC, 0x247159),
  (0x25902, 0x24715E),
  (0x25905, 0x247160),
  (0x25908, 0x247164_247163_247167_247166),
  (0x2590E, 0x247168),
  (0x25917, 0x24716A_247169),
  (0x2591C, 0x24716B),
  (0x2591E, 0x24716D_24716C),
  (0x25923, 0x24716F_247171),
  (0x25926, 0x247170_247173_247177_247172),
  (0x2592D, 0x247176),
  (0x2592F, 0x2D4F4E),
  (0x25931, 0x247175_247174_247178_24717A_24717B),
  (0x25937, 0x247179_24717E_247227_247228_24717D),
  (0x2593E, 0x24717C_247225),
  (0x25944, 0x247229),
  (0x25947, 0x24722D),
  (0x25949, 0x2D3B6F_226972_247235_247234_22696F_247232_247231_247230_24722E),
  (0x25953, 0x24722A_24722F),
  (0x2595D, 0x247236),
  (0x25960, 0x247243_24723D),
  (0x25963, 0x247239_247237_24723B_24723E_24723C_24723A_2D3549),
  (0x25971, 0x247240),
  (0x25973, 0x247246_247238),
  (0x25976, 0x247260_24724F_24725C_247249),
  (0x2597B, 0x226A25),
  (0x2597D, 0x24724E_24725A_24725F_247256_24724B_247257_24724C),
  (0x25985, 0x247250_247251),
  (0x25988, 0x247254),
  (0x2598A, 0x24725E_24725B_24724A_247258_455A29_247259_247253),
  (0x2599B, 0x247264_24726B_247266_247265_24726A_247262),
  (0x259A2, 0x247255_24726F_247267_24726C),
  (0x259A8, 0x24726E),
  (0x259B1, 0x226A2D),
  (0x259B8, 0x247273_247274_247275),
  (0x259BD, 0x2D7E68),
  (0x259BF, 0x247272),
  (0x259C7, 0x247276),
  (0x259CA, 0x2D4F5A_247270),
  (0x259D0, 0x247321),
  (0x259D2, 0x247278_247322_247329_247261_247326_24732B_24727E_24727A_24732C_24727D),
  (0x259DD, 0x247323_247325_24727C_247328),
  (0x259E2, 0x2F2367),
  (0x259E5, 0x24732A),
  (0x259E8, 0x2D5A29),
  (0x259EC, 0x247334_24733D_226A37_247335),
  (0x259F1, 0x247330_24732D_247339),
  (0x259F5, 0x24733C_24733B_247340_247331_247327),
  (0x259FB, 0x247336),
  (0x259FD, 0x24733E),
  (0x25A05, 0x247337),
  (0x25A0D, 0x24734F_247345_247347_247344_24734E_2D4F62),
  (0x25A16, 0x24734A),
  (0x25A18, 0x24734C),
  (0x25A1C, 0x247346),
  (0x25A21, 0x247353_247352_226A46),
  (0x25A2A, 0x226A47),
  (0x25A2D, 0x247354),
  (0x25A30, 0x24735E),
  (0x25A32, 0x247357_24735C_24735B),
  (0x25A3B, 0x247364_247365_247367_247361_24735F_247362_247366_247363),
  (0x25A4A, 0x247369),
  (0x25A4C, 0x24736A),
  (0x25A4E, 0x24736B),
  (0x25A50, 0x2D4F63),
  (0x25A52, 0x24736C),
  (0x25A54, 0x24736D_24736F),
  (0x25A57, 0x247373_247374_247375),
  (0x25A60, 0x2D4F66_24737B_247421),
  (0x25A64, 0x24737A_247379_247423),
  (0x25A6A, 0x226A57),
  (0x25A72, 0x247425_2D3D60),
  (0x25A75, 0x247424),
  (0x25A7B, 0x247428),
  (0x25A7E, 0x24742A_247429_24742B_24742F_24742C_247430),
  (0x25A8A, 0x247433_226A67_247436_247438),
  (0x25A8F, 0x247434),
  (0x25A93, 0x247435),
  (0x25A95, 0x24743A),
  (0x25A98, 0x24743D_24743C_247440_24743E),
  (0x25AA1, 0x226A69),
  (0x25AA5, 0x247444_247445_247442),
  (0x25AAB, 0x247443),
  (0x25AAE, 0x226A6E_247449),
  (0x25AB1, 0x247446),
  (0x25AB3, 0x24744C),
  (0x25ABB, 0x24744A_24744E),
  (0x25AC2, 0x243E3E_24744D),
  (0x25AC5, 0x247450),
  (0x25AC9, 0x247453),
  (0x25ACB, 0x247452),
  (0x25ACE, 0x247454),
  (0x25AD9, 0x247455),
  (0x25ADB, 0x247457_247456_24745B_24745C_247459_24745A_2D4F6F_24745D),
  (0x25AE5, 0x226A7A),
  (0x25AE8, 0x226A7E_226B21),
  (0x25AEC, 0x247461),
  (0x25AEF, 0x24746C_247462_226B30_24746A_247464_247467_247465),
  (0x25AF7, 0x247470_24746E_247463),
  (0x25AFC, 0x24746F_247476_226B23),
  (0x25B06, 0x24746B),
  (0x25B08, 0x247475_247477_226B32),
  (0x25B0D, 0x24752B_24747D_24752E_247524),
  (0x25B12, 0x247523_24752C_226B41_247525_2D4D2A_24747A),
  (0x25B19, 0x24747C),
  (0x25B1D, 0x247531_247532),
  (0x25B20, 0x286D35_226B3E),
  (0x25B24, 0x226B3C_24752A),
  (0x25B2A, 0x247541_247550_247540_24753D_247536_226B57_24754B_24747B_24754E_247546_247537_24753C),
  (0x25B37, 0x247549),
  (0x25B3A, 0x24754C_24753F_247552),
  (0x25B3F, 0x247530_247543),
  (0x25B43, 0x24753E),
  (0x25B4B, 0x247551),
  (0x25B50, 0x247579_24755F_24756F_226B6D_24756D_24755B_226C21_247577_247573_247561),
  (0x25B5B, 0x247558_24755C_24757A_247569_247575_24755A_247560_24756A),
  (0x25B65, 0x247570_247571_247566),
  (0x25B6A, 0x247572_247564),
  (0x25B6D, 0x247574_24756E_24755D_247562_247548),
  (0x25B7B, 0x247565),
  (0x25B8D, 0x247647_247563_24763F_247646_247641_226C32),
  (0x25B94, 0x247626_24762F_24762E_247644_226C51),
  (0x25B9A, 0x24763E_247640_247629_24762A_247638),
  (0x25BA0, 0x2D502A_24764B_24762B_24763C_247628_247630),
  (0x25BA7, 0x247559_247649),
  (0x25BAA, 0x24763A_247639_247636_24763B_247627_24764A_226C36),
  (0x25BB5, 0x226C2C),
  (0x25BC0, 0x226C4E),
  (0x25BC3, 0x247633),
  (0x25BC6, 0x247632),
  (0x25BD1, 0x247667_2D444A),
  (0x25BD4, 0x24772E_226C65_24764E_24767D_247671_247670_247673_226C54_24767A_24765A_24764F_24772C),
  (0x25BE1, 0x247679_24764C),
  (0x25BE4, 0x247664_247729_24765F_247725_226C69),
  (0x25BEA, 0x247661_24766B_24766E_247672_247643_247650),
  (0x25BF2, 0x247651_247678_247656),
  (0x25BF6, 0x24767C_247721_24766D),
  (0x25BFA, 0x24766F_247635),
  (0x25BFD, 0x24765B_247659_24766A),
  (0x25C05, 0x247657),
  (0x25C14, 0x226C61),
  (0x25C18, 0x247755_24774C_226D2B_247734_247743_247756_226C74_247740_226C7B_247741_24775C_247759),
  (0x25C24, 0x247653_247754_24773D_247758_226C79_247752_24775E),
  (0x25C2C, 0x247753_226D36_247747_247739_24773A_247746_247738),
  (0x25C35, 0x247735_247732),
  (0x25C39, 0x247750_24773B_24774E_24773E),
  (0x25C3E, 0x24772F),
  (0x25C41, 0x24774F_24773C),
  (0x25C46, 0x247730_247748),
  (0x25C4A, 0x226C78),
  (0x25C4D, 0x24773F),
  (0x25C5D, 0x226D28),
  (0x25C61, 0x226D30),
  (0x25C67, 0x226D21_247749_2F2465),
  (0x25C75, 0x24777E_24777C_24783D_24776F_247832_247775_24783C_226D44_247824_247825_247830_226D5E),
  (0x25C81, 0x24777D),
  (0x25C84, 0x247764_247821_247769_24783B_247777_24782F_247771),
  (0x25C8C, 0x247760_247770_247778_247828_24776B_247829),
  (0x25C96, 0x247831_247776_247834_24776C_247763_24783F_24782E_24776D_24782C_247836_247765_247762),
  (0x25CA2, 0x24782B_24782D),
  (0x25CA6, 0x247774_247838_247827),
  (0x25CAA, 0x24776E_247767),
  (0x25CC6, 0x247823_226E23_247874_247768_226D6D_247871_24785D_247850_226D6E_24787A_247856_247854),
  (0x25CD2, 0x247849),
  (0x25CD4, 0x247859_24786E_24785E_24787B_247848_247866_247873_247847_24785C_247846_226D60_247877),
  (0x25CE0, 0x226D76_247853_247844_24786B),
  (0x25CE5, 0x24784B_2D5021_226D6F),
  (0x25CEA, 0x24786A),
  (0x25CEC, 0x247869),
  (0x25CEE, 0x247872),
  (0x25CF0, 0x247845_247875_24785B_247860_24786F_247879),
  (0x25CF7, 0x24784A_24787E_247921_247862),
  (0x25CFD, 0x226D67),
  (0x25CFF, 0x247837_24784C),
  (0x25D06, 0x24785A),
  (0x25D0A, 0x226D65),
  (0x25D10, 0x247865_247864_247922),
  (0x25D20, 0x24786C_24793A_247942),
  (0x25D24, 0x226E37_247934_247927_226E38_226E3F_226E36_247939_226E2E_24792B_24792C_247931_24792A),
  (0x25D30, 0x247924_247923_24792E),
  (0x25D34, 0x226E3D_247940_247943_24793D_24793C_24792F_247928_247935_24793E),
  (0x25D3E, 0x247933_247925),
  (0x25D43, 0x226E2C_247929),
  (0x25D49, 0x247938),
  (0x25D4F, 0x247937),
  (0x25D52, 0x24793F),
  (0x25D5C, 0x24795B_24795A_247950_24793B_24794E_247954_247956_247947_24795C),
  (0x25D66, 0x247955_24794D_226E53_247945_247946_24794F_247948),
  (0x25D6E, 0x247959_247952_24794B_24794C_247949),
  (0x25D7B, 0x226E4B),
  (0x25D86, 0x247965_247972_247973),
  (0x25D8A, 0x24796A_247970_24796D_247974),
  (0x25D8F, 0x24795F_247967_247962),
  (0x25D93, 0x24796E_247961),
  (0x25D97, 0x247971_24795D_247969_24796C),
  (0x25D9C, 0x247975_247957_2D7D6D),
  (0x25DA2, 0x247976),
  (0x25DB5, 0x247A30_247A24_24797E_247A25_247A21_247963_247A27_24797C),
  (0x25DBE, 0x24797D_247A22_247A26_247977_24797B_24796F_247A2D_247A29_247A23_247A2C_247A28_247A2E),
  (0x25DCF, 0x226E5A),
  (0x25DD4, 0x247A3D_247A36_247A32_226E60_247A37_247A39_247A34_247A33_247A3A_247A35_247A38),
  (0x25DE8, 0x247A42_247A3F_247A41_247A44_247A45),
  (0x25DEE, 0x247A3C),
  (0x25DF0, 0x247A40_247A43_247A47_247A46),
  (0x25DF8, 0x2D504E_247A48),
  (0x25DFC, 0x247A49_247A4A_247A4B_247A4D_226E6C),
  (0x25E03, 0x247A4C),
  (0x25E08, 0x247A51_247A4F_247A50),
  (0x25E0E, 0x226E6D),
  (0x25E10, 0x247A53),
  (0x25E17, 0x247A54_247A56),
  (0x25E1A, 0x247A55),
  (0x25E21, 0x226E73_247A58_247A59),
  (0x25E25, 0x247A5A),
  (0x25E27, 0x247A5B_2F3A4D),
  (0x25E2A, 0x247A5C),
  (0x25E2C, 0x247A5D),
  (0x25E2F, 0x247A60),
  (0x25E32, 0x247A5E),
  (0x25E34, 0x247A67_247A6A_247A68),
  (0x25E39, 0x226F25),
  (0x25E41, 0x247B25_247A76_247B21_247A7B_247A72_226F33_247B23_247A74_247A7C_247A7E_247B22_247A77),
  (0x25E4D, 0x247A73_247A71),
  (0x25E51, 0x226F37),
  (0x25E53, 0x247A79),
  (0x25E56, 0x247A78),
  (0x25E5A, 0x247B2A_247B31_247B27_247B34_247B30),
  (0x25E60, 0x247B37_247B35),
  (0x25E63, 0x247B2F),
  (0x25E69, 0x247B2E),
  (0x25E6B, 0x247B28),
  (0x25E71, 0x247B26_247B44_247B39),
  (0x25E75, 0x247B3D_247B40_247B29_247B3C),
  (0x25E7A, 0x2D5065_247B2C_247B41_247B45_247B43),
  (0x25E89, 0x247B3E_247B46),
  (0x25E93, 0x226F53),
  (0x25E99, 0x247B4E_247B4B),
  (0x25E9C, 0x247B49_226F5B_247B3F),
  (0x25EA1, 0x247B4C),
  (0x25EA3, 0x247B4A_247B52),
  (0x25EA6, 0x226F57_226F56),
  (0x25EB1, 0x226F5A),
  (0x25EB5, 0x247B57),
  (0x25EB7, 0x247B4F),
  (0x25EC1, 0x247B68_247B5C_247B5D_247B65_247B5E_2D505A_226F65_247B62_247B6A_247B6D_247B55_247B64),
  (0x25ECD, 0x247B6B),
  (0x25ED1, 0x247B69_247B70_247B5B),
  (0x25ED5, 0x247B58_247B5A),
  (0x25EDD, 0x247B71_247B59),
  (0x25EE4, 0x247C23_247B7D_226F76_247B72_247B77_226F73),
  (0x25EEC, 0x247C24_247B75_247B74_247C21_247B7C),
  (0x25EF4, 0x247B7E),
  (0x25EFE, 0x247B76_247C27_247C2B_247C26_247C2F_247C29_247C30_247B7B),
  (0x25F0C, 0x226F79),
  (0x25F18, 0x247C46),
  (0x25F1A, 0x247C45_247C47_247C3C_247C51_247C3B),
  (0x25F21, 0x247C43),
  (0x25F24, 0x247C38),
  (0x25F27, 0x247C3E),
  (0x25F29, 0x247C3D_247C41_247C40_247C33_247C31_247C42),
  (0x25F34, 0x247C39),
  (0x25F36, 0x227027_247C48_247C4B_247C52_247C55_247C4A_247C5C),
  (0x25F41, 0x247C44_247C54),
  (0x25F45, 0x247C49_22702A_2F2854_247C4D),
  (0x25F4B, 0x22702C),
  (0x25F4F, 0x22702F_247C58),
  (0x25F57, 0x227033_227032_247C5D),
  (0x25F5B, 0x247C5B),
  (0x25F5F, 0x227031),
  (0x25F65, 0x247C5E),
  (0x25F67, 0x247C5F),
  (0x25F6C, 0x227036_247C62),
  (0x25F70, 0x247C60),
  (0x25F73, 0x247C65_247C64),
  (0x25F76, 0x247C67_247C69_247C66_247C68),
  (0x25F7D, 0x22703B),
  (0x25F7F, 0x22703A),
  (0x25F82, 0x247C6B),
  (0x25F85, 0x247C6E),
  (0x25F87, 0x247C6F),
  (0x25F8A, 0x247C71_247C6C_247C72),
  (0x25F8F, 0x247C74_247C73_2D507D),
  (0x25F93, 0x247C77),
  (0x25F95, 0x247C76),
  (0x25F9B, 0x22704D),
  (0x25F9D, 0x22704C),
  (0x25FA0, 0x2D5073_247D2C_247D27_247C7D),
  (0x25FA8, 0x247D2D_247D29),
  (0x25FAE, 0x247D23_247C7A),
  (0x25FB9, 0x247D2E_33516E_247C79_247C78),
  (0x25FC3, 0x247D34_247D41),
  (0x25FC6, 0x22705D_247D30),
  (0x25FC9, 0x22705C_247D3F_22706B_247D46_247D31_247D43),
  (0x25FD1, 0x247D3E),
  (0x25FD3, 0x2D5070),
  (0x25FD5, 0x247D3D),
  (0x25FDE, 0x247D47),
  (0x25FE1, 0x247D3B),
  (0x25FE6, 0x247D5C_247D5B_247D58_247D4D),
  (0x25FEB, 0x247D59_247D4C),
  (0x25FEE, 0x247D50_227135),
  (0x25FF3, 0x247D60_247D54_247D57),
  (0x25FF9, 0x247D48_247D4B),
  (0x25FFC, 0x247D4A_227076),
  (0x26005, 0x227131),
  (0x26007, 0x2D513C),
  (0x26009, 0x247D5A),
  (0x26012, 0x247D71_247D63_247D6E_247D6D_227149),
  (0x26018, 0x247D64),
  (0x2601B, 0x247D62_247D70_247D6F),
  (0x2601F, 0x2D5121_247D4F_247D68),
  (0x26023, 0x247D74_247D6B),
  (0x26028, 0x247D6A),
  (0x2602C, 0x227138),
  (0x26033, 0x22713C),
  (0x26035, 0x22714E),
  (0x26044, 0x247D67),
  (0x26048, 0x247D76_247D78_247D7D),
  (0x2604D, 0x247E2F_247E21_247E24_247E27),
  (0x26055, 0x227224_247D7B),
  (0x26059, 0x247D79),
  (0x2605C, 0x247D7E_247E25),
  (0x26064, 0x227221_2F2F7C),
  (0x26073, 0x247E30),
  (0x26076, 0x247D77_247D7A),
  (0x26081, 0x247E31),
  (0x26084, 0x22724E_247E4A_247E44),
  (0x26088, 0x247E43_247E4D),
  (0x2608B, 0x247E3A_22722D_247E47_247E49),
  (0x26091, 0x247E4B),
  (0x26095, 0x247E42),
  (0x26097, 0x227235_22722C_247E33),
  (0x2609B, 0x247E34),
  (0x260A0, 0x247E35_247E3E_247E4E),
  (0x260A4, 0x247E37),
  (0x260AB, 0x247E41),
  (0x260B3, 0x2D5144),
  (0x260B5, 0x2D516E_2D5147),
  (0x260C3, 0x247E67_247E59_247E55),
  (0x260C7, 0x22726C_247E68_247E69_247E58_247E65_247E5C),
  (0x260CF, 0x247E6C_247E5D_247E5E_247E60_247E64_247E57),
  (0x260D6, 0x227257_247E52_247E56_227264),
  (0x260DB, 0x247E6D_247E5F_247E63),
  (0x260E1, 0x247E6E_247E5B),
  (0x260E6, 0x247E5A_2D4E44),
  (0x260EA, 0x22725A),
  (0x260F0, 0x2D5176),
  (0x260F9, 0x247E66),
  (0x260FD, 0x247E6F),
  (0x26102, 0x22727B),
  (0x2610B, 0x252228_247E77_22727C),
  (0x2610F, 0x247E79_247E71_227278_247E7C),
  (0x26114, 0x247E72_252222),
  (0x26119, 0x252227),
  (0x2611C, 0x247E7B),
  (0x2612C, 0x227324),
  (0x2612F, 0x247E7E_252224),
  (0x26132, 0x2D5165),
  (0x2613C, 0x227342_25222E_25223B_22733B_252230),
  (0x26143, 0x252241_247E74),
  (0x26146, 0x25222F_252235_252233),
  (0x2614A, 0x25223F_252231_25222D_252240_252243),
  (0x26151, 0x252242),
  (0x26154, 0x25223A),
  (0x2615E, 0x227274),
  (0x26160, 0x25223C),
  (0x26166, 0x252236_25223D),
  (0x26170, 0x227336),
  (0x26175, 0x252254_252255),
  (0x26178, 0x25225C_252257_252256_25224A_25225B_227354_252259_252252_227343_252249_252251),
  (0x26184, 0x25224C),
  (0x26186, 0x252246),
  (0x26188, 0x25225A_252247),
  (0x2618B, 0x25224F),
  (0x2618D, 0x252248),
  (0x26196, 0x2D5174),
  (0x26198, 0x25225E_252250),
  (0x2619B, 0x22734F_252260),
  (0x2619E, 0x252269_252266_252261_252262),
  (0x261A3, 0x252264_252277_252245_252267),
  (0x261A8, 0x252273),
  (0x261AB, 0x25226F),
  (0x261B2, 0x227356),
  (0x261B8, 0x25226A),
  (0x261BB, 0x252278),
  (0x261BD, 0x252271_252272_252274_25226D_25226E_252324),
  (0x261C4, 0x252276_252270),
  (0x261CE, 0x227363),
  (0x261D1, 0x25226C),
  (0x261D4, 0x252321),
  (0x261D6, 0x252325_25227D_25227C_252329),
  (0x261DB, 0x25227E),
  (0x261E7, 0x22736C_252326_252328),
  (0x261EB, 0x22736E_25232A_25232B),
  (0x261F0, 0x25232E_252331),
  (0x261F5, 0x252332),
  (0x261F8, 0x252334),
  (0x261FA, 0x252333_2D5159_252337),
  (0x26203, 0x25233A),
  (0x26205, 0x25233C),
  (0x26221, 0x287358),
  (0x26223, 0x25233E_25233F_25233D_252342),
  (0x26228, 0x252343_252346),
  (0x2622F, 0x25234E_25234D_25234B_252349),
  (0x26234, 0x252353_252351_252352_25234C_227421),
  (0x2623A, 0x252355_252354),
  (0x26241, 0x252356_252357),
  (0x26246, 0x227424),
  (0x26248, 0x25235A_252359),
  (0x26250, 0x25235C),
  (0x26255, 0x25235E),
  (0x2625D, 0x252362_252361_227430),
  (0x26262, 0x227433),
  (0x26265, 0x252363),
  (0x26267, 0x252364),
  (0x2626B, 0x252365_227436),
  (0x26277, 0x252366),
  (0x26279, 0x227438),
  (0x26281, 0x252369_22743A_22743C),
  (0x26288, 0x25236C),
  (0x2628B, 0x252367_252368),
  (0x2628F, 0x252372_252370_252375_252377_227446_227444),
  (0x2629C, 0x252376),
  (0x262A3, 0x25236D),
  (0x262A7, 0x252371),
  (0x262AB, 0x25237A),
  (0x262AF, 0x25237B),
  (0x262B3, 0x25236E_25237C),
  (0x262BB, 0x252378_252421_25237D_22744F_25237E),
  (0x262C5, 0x252426_252423_227459_252422_252425),
  (0x262CB, 0x252424),
  (0x262D8, 0x2D5230),
  (0x262DA, 0x2D5231),
  (0x262DE, 0x25242C),
  (0x262E0, 0x252428_25242B_252427_25242A_252429),
  (0x262E7, 0x2D522F),
  (0x262EA, 0x242B6E),
  (0x262EF, 0x252432_25242F),
  (0x262F3, 0x252430_252431_25242E),
  (0x262FF, 0x252433_252436),
  (0x2630A, 0x252434),
  (0x26310, 0x2D5236),
  (0x26312, 0x25243C),
  (0x26314, 0x22746D),
  (0x26317, 0x252439),
  (0x2631A, 0x25243A),
  (0x2631F, 0x25243B_252440_252442_252444),
  (0x26326, 0x25243F),
  (0x26329, 0x252535_252447_252449_227473_252445_252446),
  (0x26334, 0x2D5237_25244C_25244E_25244B_25244D),
  (0x2633A, 0x25244A),
  (0x2633E, 0x227478_252451),
  (0x26341, 0x252450_252452),
  (0x2634F, 0x252454),
  (0x26355, 0x22747B),
  (0x26357, 0x252457_252458),
  (0x2635B, 0x252456),
  (0x2635D, 0x347529),
  (0x26366, 0x252461),
  (0x2636A, 0x252462_25245C),
  (0x2636D, 0x25245F),
  (0x26371, 0x25245D),
  (0x26374, 0x252464_252463),
  (0x26377, 0x252460),
  (0x26379, 0x25246C_252465_25246A_252468),
  (0x2637E, 0x25246B),
  (0x26382, 0x252467),
  (0x26384, 0x252466),
  (0x26387, 0x25246E),
  (0x2638A, 0x252471_2F357B_252470),
  (0x2638E, 0x25246F),
  (0x26397, 0x252474_252475),
  (0x2639A, 0x252478),
  (0x2639E, 0x252477),
  (0x263A2, 0x25247D_25247C_25247E_25247B_22753E),
  (0x263A8, 0x252479),
  (0x263AB, 0x227537_22753A_252521),
  (0x263AF, 0x252523_252524_252522_252526),
  (0x263B5, 0x252527),
  (0x263B7, 0x252529_252528_25252C),
  (0x263C0, 0x25252A_2D5244_25252E),
  (0x263C5, 0x252534_252530_25252F_252532),
  (0x263CA, 0x227544),
  (0x263D1, 0x227546),
  (0x263D4, 0x252531_252536),
  (0x263DC, 0x252537),
  (0x263E0, 0x2D523C),
  (0x263E2, 0x252538),
  (0x263E4, 0x25253A_252539_25253B),
  (0x263E8, 0x25253D),
  (0x263EC, 0x25253F),
  (0x263EE, 0x252540),
  (0x263F0, 0x252542_252543_2D5248_252544),
  (0x263F5, 0x2D5257),
  (0x263F7, 0x252548_252547_252545_22754D_252546),
  (0x26403, 0x25254F_252549_25254E_25254B_227552_227555_252550_252551_25254D_25254A),
  (0x26410, 0x22754E),
  (0x26415, 0x252555_252558_22755B_22755D),
  (0x2641C, 0x2D5251),
  (0x26421, 0x252557),
  (0x26423, 0x252562),
  (0x26428, 0x252564),
  (0x2642B, 0x252560_2D5250),
  (0x26430, 0x25255F),
  (0x26433, 0x25255E),
  (0x26438, 0x25256A_252566_25256C),
  (0x2643E, 0x252569_252570_25256D),
  (0x26447, 0x252579_252574),
  (0x2644A, 0x252575_252572_252576_252573_252577_25257C),
  (0x26451, 0x25257A),
  (0x26458, 0x252621_252625),
  (0x2645B, 0x252624_22756E_252626_25257D),
  (0x26460, 0x252623_227571),
  (0x26463, 0x252622),
  (0x26471, 0x252627_22757B),
  (0x26474, 0x25262E),
  (0x26476, 0x22757C),
  (0x26478, 0x25262D_25262C_252628_25257E_25262B),
  (0x2647E, 0x25262A),
  (0x26485, 0x252630),
  (0x26487, 0x25262F_252632),
  (0x2648B, 0x2D5255),
  (0x2648D, 0x252633_227623),
  (0x26490, 0x252631_227624),
  (0x2649C, 0x227626_252637),
  (0x2649F, 0x252636),
  (0x264A2, 0x2D525A),
  (0x264A6, 0x252639_25263A_252638),
  (0x264B0, 0x25263B_33525D),
  (0x264B6, 0x25263E),
  (0x264BB, 0x25263F),
  (0x264BF, 0x2D525E),
  (0x264C8, 0x252642),
  (0x264CB, 0x252643),
  (0x264CD, 0x252644),
  (0x264D0, 0x252645),
  (0x264D2, 0x252649_25264A_25264B_25264C_25264D),
  (0x264D9, 0x25264F),
  (0x264DB, 0x25264E),
  (0x264E2, 0x252650),
  (0x264E4, 0x252651_252653),
  (0x264EC, 0x252657),
  (0x264EF, 0x227642_25265B_25265A),
  (0x264F3, 0x252659_227646),
  (0x264F8, 0x252663_25265D_252664_252660_25265F_252662_252661),
  (0x26502, 0x25266A_25266B_25266C_252667_252669),
  (0x26508, 0x25266D),
  (0x2650B, 0x252672_252670_25266F_252671),
  (0x26511, 0x252668),
  (0x26513, 0x252673_227654_252675),
  (0x2651B, 0x252677),
  (0x2651D, 0x252676_252674_25267C_252679),
  (0x26525, 0x25267B_25267D),
  (0x2652B, 0x25267E_252721_252722),
  (0x2652F, 0x252727_252726),
  (0x26532, 0x252725_227661),
  (0x26536, 0x252724_25272A_252728_252729),
  (0x2653C, 0x227668),
  (0x2653E, 0x25272F_25272E_252730),
  (0x26543, 0x227667),
  (0x26546, 0x25272D),
  (0x26548, 0x227666_252733),
  (0x2654E, 0x22766A_252732),
  (0x26551, 0x22766D_227671_22766E),
  (0x26555, 0x252738),
  (0x26559, 0x25273A),
  (0x26560, 0x25273C),
  (0x26576, 0x252741_252743_252746),
  (0x2657C, 0x2D526D_252749),
  (0x26586, 0x252745),
  (0x26588, 0x25274E_252750_25274C_25275F),
  (0x2658D, 0x252751_25274D),
  (0x26590, 0x252755),
  (0x26595, 0x227722),
  (0x2659D, 0x25274F),
  (0x265A2, 0x252758),
  (0x265A4, 0x25275D_25275E_25275A_252759_25275C_25275B),
  (0x265AC, 0x252762),
  (0x265B2, 0x22772C),
  (0x265B8, 0x252760),
  (0x265BA, 0x252757),
  (0x265BC, 0x25276C_252767_252766_25276D_25276B),
  (0x265C2, 0x25276A),
  (0x265C5, 0x252768),
  (0x265CD, 0x252765_25276E),
  (0x265D0, 0x252771_252772_252773_25276F_25277B_227734_252777_252776),
  (0x265DC, 0x25277C),
  (0x265DF, 0x2D527B),
  (0x265E1, 0x252821_25277E_227738),
  (0x265E5, 0x252779),
  (0x265E7, 0x252825_252826_252823_227737),
  (0x265EC, 0x227735),
  (0x265EE, 0x252824),
  (0x265F2, 0x227736_252828_252829_25282A_25282C_2D5273),
  (0x265FB, 0x25282B_25282D),
  (0x26603, 0x252830),
  (0x26605, 0x252831),
  (0x2660A, 0x252832),
  (0x2660D, 0x227740),
  (0x26610, 0x227743_252833_227744)]

/-- Part of `writes`. -/
def writes3 : Chart := wide24 [
  (0x26614, 0x227745),
  (0x2661F, 0x335322),
  (0x26624, 0x252836),
  (0x26629, 0x25283B_252838),
  (0x2662F, 0x25283C),
  (0x26632, 0x25283A_252837_227753_25283E_252843_252844),
  (0x26639, 0x252841_25283F_2D5326_252840_252848_252847_252855_252859),
  (0x26642, 0x25285B),
  (0x26644, 0x252852),
  (0x26646, 0x252858_25284F_227764_25284D),
  (0x2664B, 0x252856),
  (0x26652, 0x227757),
  (0x26659, 0x252850),
  (0x2665B, 0x2D5331_25285A),
  (0x26667, 0x25285C_25284A_2D5336),
  (0x2666B, 0x227770_252869_2D4C4C_25285E_252871),
  (0x26671, 0x227779_252872),
  (0x26674, 0x252861_25286F_252863_252864_252870_252865_25286B_252866_22777C),
  (0x2667F, 0x227822),
  (0x26683, 0x2D532E),
  (0x2668F, 0x252860),
  (0x26694, 0x227776),
  (0x2669E, 0x252876),
  (0x266A2, 0x25287E_25287B_252922_252926),
  (0x266A7, 0x227844_25292F_252927_25287C_252873),
  (0x266AD, 0x252921_252930),
  (0x266B2, 0x252875),
  (0x266B5, 0x227837),
  (0x266B8, 0x25287D),
  (0x266C1, 0x2D5365),
  (0x266CF, 0x25287A_252928),
  (0x266D2, 0x252879),
  (0x266D4, 0x25294E_25293A_252935),
  (0x266D8, 0x252937),
  (0x266DA, 0x252947_252931_25294F),
  (0x266DE, 0x252948_25293F_252940),
  (0x266E2, 0x252944_252936_25294D_22785C),
  (0x266E9, 0x252949_252951),
  (0x266F0, 0x252950),
  (0x266F2, 0x25294C),
  (0x26701, 0x252954_25294A_252943_252945),
  (0x26706, 0x252964_252961),
  (0x26709, 0x2D535B_252957_25296B_252965_252956_25295E_25296C_252955),
  (0x26713, 0x252974),
  (0x26715, 0x227873_25295B),
  (0x2671B, 0x25296A_252975),
  (0x26721, 0x2D494E),
  (0x26730, 0x252969),
  (0x26736, 0x2D5366),
  (0x26738, 0x252958),
  (0x26740, 0x227876),
  (0x2674F, 0x25295F),
  (0x26752, 0x25295D_252968_252971),
  (0x26756, 0x252A34),
  (0x2675A, 0x252A2C_252A24_252A2D),
  (0x2675F, 0x252A29_252978),
  (0x26762, 0x227936),
  (0x26765, 0x252A3A_252A28),
  (0x26769, 0x2D533C_252A25_2D535D),
  (0x2676D, 0x252A36_252A21_252A22_252A3B_25297A_252A33_252A2F_252A3E_252A3D),
  (0x26777, 0x252A23),
  (0x26796, 0x252A35_252A30),
  (0x26799, 0x252A5B_227956_22795C_227961_252A59_252A4C_252A46_252A58_252A5C_252A51_252A4D_252A41),
  (0x267A5, 0x252A4F),
  (0x267AB, 0x252A40_2D535C_252A43_252A48),
  (0x267B0, 0x252A4A_252A60_252A54),
  (0x267B5, 0x252A5D),
  (0x267BA, 0x252A56),
  (0x267C3, 0x252A55),
  (0x267D3, 0x252A3F_252A27_252A4E),
  (0x267D8, 0x252A63_252A6D),
  (0x267DB, 0x252A61_22796C_2D534C),
  (0x267DF, 0x252A65_227973),
  (0x267E3, 0x252A74_2D523D_252A70_252A79_252A6B),
  (0x267EF, 0x2D5324_252A72),
  (0x267F3, 0x2F414D),
  (0x26801, 0x252A62),
  (0x26803, 0x252A7C_227A35_252B26_252B22_252A7E_252B21_227A22),
  (0x2680C, 0x252B2D_252B2F_227A29_252A6E_252B2C_252B23),
  (0x26813, 0x252B2E),
  (0x26816, 0x252B29),
  (0x2681E, 0x252A71),
  (0x26826, 0x252A68_2D536C),
  (0x26837, 0x252B31_252A7D_252A7A_252A7B_252B28),
  (0x2683E, 0x252B3F_252B43),
  (0x26841, 0x252B3A_252B3D_252B3B),
  (0x26845, 0x252B36_252B32_252B46),
  (0x2684C, 0x252B44),
  (0x26855, 0x252B34_243F2B),
  (0x26867, 0x252B39_252B38),
  (0x2686A, 0x252B42_252B33),
  (0x26870, 0x252B51_252B4C_252B48),
  (0x26874, 0x252B4A_252B50_252B4D_252B54_252B55_252B4F_252B4E_252B49_252B58_252B56),
  (0x26888, 0x252B4B),
  (0x2688A, 0x227A49_252B59),
  (0x2688D, 0x252B5E_252B5A_252B5D_252B52),
  (0x26892, 0x252B5C),
  (0x2689A, 0x33536E),
  (0x268A5, 0x252B67),
  (0x268A7, 0x252B69_252B65_252B68_252B64_252B62),
  (0x268AE, 0x252B6A),
  (0x268B8, 0x252B6D),
  (0x268BA, 0x252B6E),
  (0x268BF, 0x252B71_252B6F),
  (0x268C2, 0x252B70),
  (0x268C6, 0x252B72_252B76),
  (0x268CB, 0x252B73),
  (0x268CD, 0x252B74),
  (0x268CF, 0x252B75),
  (0x268D1, 0x252B77_252B78),
  (0x268D6, 0x252B79),
  (0x268DB, 0x252B7A_252B7B),
  (0x268DE, 0x252B7C_252B7D),
  (0x268E2, 0x252C21),
  (0x268E4, 0x252C23_252B7E_252C25_252C26_252C27),
  (0x268ED, 0x252C28_2D3A59_252C29),
  (0x268F4, 0x252C2B),
  (0x268FA, 0x2D4C7D_227A5D),
  (0x268FE, 0x252C2E),
  (0x26900, 0x4B5428_252C2F_252C30_2D4D23),
  (0x26906, 0x2D5F54_252C31),
  (0x26909, 0x252C32),
  (0x2690C, 0x2D4347),
  (0x2690E, 0x227A5E_227A5F),
  (0x26915, 0x252C33),
  (0x26917, 0x252C34_252C35_227A64_252C36),
  (0x2691C, 0x252C37),
  (0x2691F, 0x252C38),
  (0x26921, 0x252C3B_252C39_252C3A),
  (0x26926, 0x252C3D_252C3C_252C3F),
  (0x2692B, 0x252C40_252C3E),
  (0x26933, 0x2D5429),
  (0x26938, 0x252C41),
  (0x2693B, 0x252C43),
  (0x2693D, 0x252C42),
  (0x2693F, 0x2D3B58),
  (0x26941, 0x252C45_252C46),
  (0x26945, 0x252C48_2D413B_2D542C),
  (0x26949, 0x252C49_227A6A_252C4B),
  (0x2694D, 0x252C4A_227A6B_252C4C_252C4D_252C4E),
  (0x26958, 0x227A6F_2D4352),
  (0x2695D, 0x2D542F),
  (0x26963, 0x252C50),
  (0x26966, 0x252C51_2D597B),
  (0x2696A, 0x252C52),
  (0x2696C, 0x252C53_227A73),
  (0x26970, 0x252C54),
  (0x26972, 0x252C55_252C56),
  (0x26984, 0x252C57_252C58_252C59),
  (0x2698C, 0x252C5C),
  (0x26991, 0x252C60),
  (0x26995, 0x252C5F),
  (0x26997, 0x252C61_252C63),
  (0x2699A, 0x2D3B23),
  (0x2699C, 0x252C62_252C65),
  (0x269A2, 0x252C67_252C66),
  (0x269A7, 0x252C68_225458_252C6C_252C6D_252C6B),
  (0x269AF, 0x252C6A_252C6E),
  (0x269B2, 0x252C6F),
  (0x269B6, 0x2D3870),
  (0x269BB, 0x252C70),
  (0x269BD, 0x252C71_252C72_252C73),
  (0x269C5, 0x252C75),
  (0x269C8, 0x227A7C_252C79_2D355E_252C7D),
  (0x269CD, 0x252C7C),
  (0x269CF, 0x252C78_252C7B),
  (0x269D2, 0x252C7E),
  (0x269D8, 0x252D21_252D22_252D23_252D24),
  (0x269DD, 0x252D26),
  (0x269DF, 0x227B22_252D27_227B23_252D25),
  (0x269E9, 0x252D29),
  (0x269EE, 0x252D2A),
  (0x269F4, 0x252D2B),
  (0x269F6, 0x2D5437),
  (0x269F8, 0x252D2D_252D2E),
  (0x269FC, 0x252D2F),
  (0x269FE, 0x252D32_252D33),
  (0x26A06, 0x252D35_252D36),
  (0x26A09, 0x227B2A),
  (0x26A0D, 0x252D37_252D3D_252D3C_252D3B),
  (0x26A16, 0x252D43),
  (0x26A19, 0x252D44),
  (0x26A1C, 0x252D3F_252D41),
  (0x26A21, 0x252D49_227B39_252D4A_252D47_252D4C_252D4B),
  (0x26A2C, 0x252D48),
  (0x26A2E, 0x227B38_252D51),
  (0x26A31, 0x2D473E),
  (0x26A34, 0x227B3F_252D52),
  (0x26A38, 0x252D53),
  (0x26A3C, 0x252D4E),
  (0x26A3E, 0x252D54),
  (0x26A40, 0x227B44),
  (0x26A49, 0x252D57),
  (0x26A4B, 0x252D5E_252D5B_252D5F),
  (0x26A55, 0x252D5D_252D62),
  (0x26A58, 0x252D5A),
  (0x26A5C, 0x252D59_252D70_252D73_252D72_252D6F_252D68_252D69_252D6A_252D63),
  (0x26A67, 0x252D6C),
  (0x26A6A, 0x252D6D),
  (0x26A6C, 0x252D6E_252D71),
  (0x26A6F, 0x252D6B),
  (0x26A71, 0x252D66_252D67),
  (0x26A74, 0x252D79_252D75_252D7A),
  (0x26A78, 0x252D76),
  (0x26A7A, 0x252D78),
  (0x26A7C, 0x252D77),
  (0x26A85, 0x2D5448),
  (0x26A87, 0x227B5A_252E23_252D7B_252D7E_252D7D),
  (0x26A8D, 0x252E24_252E26),
  (0x26A91, 0x227B63_252E32),
  (0x26A94, 0x252E29_252E31_252E35_252E2E_252E30_252E36_252E2B_252E2C_252E37_252E2A),
  (0x26AA3, 0x252E34),
  (0x26AA7, 0x252E2D),
  (0x26AAA, 0x252E3B_252E3A_252E39_252E38),
  (0x26AB1, 0x252E3C),
  (0x26AB6, 0x252E40_252E3F),
  (0x26AB9, 0x246558),
  (0x26ABD, 0x252E41_252E43_252E42),
  (0x26AC3, 0x252E44),
  (0x26AC8, 0x227B70),
  (0x26ACD, 0x252E46_252E47),
  (0x26AD3, 0x252E48_252E4B_252E4A_252E4E),
  (0x26AD9, 0x252E4D),
  (0x26ADC, 0x2F3744),
  (0x26AE1, 0x252E4F),
  (0x26AEA, 0x252E50_252E52),
  (0x26AEF, 0x252E56_252E55),
  (0x26AF3, 0x227B79_252E58),
  (0x26AF6, 0x252E5C),
  (0x26AFB, 0x252E5D),
  (0x26AFD, 0x227B7A_252E5A_227B7C),
  (0x26B01, 0x252E60_252E61_252E67_252E62_252E66),
  (0x26B14, 0x252F22_227C43_252E7E_252E72_252F23_252E7D_252E6F),
  (0x26B1C, 0x252E6C_252E71_252E6E),
  (0x26B21, 0x275538_252E74_252E79),
  (0x26B2C, 0x227C39),
  (0x26B30, 0x227C4B),
  (0x26B35, 0x252E6B),
  (0x26B38, 0x227C61_252F2D_227C6F_252F38),
  (0x26B40, 0x252F29_252F2C_2D5539),
  (0x26B44, 0x2F2351),
  (0x26B48, 0x252F27_252F2E_252F3A_252F2A),
  (0x26B50, 0x227C7E),
  (0x26B54, 0x227C56),
  (0x26B58, 0x227C7A),
  (0x26B5F, 0x252F34),
  (0x26B61, 0x252F2B),
  (0x26B68, 0x252F25),
  (0x26B6D, 0x252F47_252F44_252F45_252F3D_252F3E_252F40_252F4C_252F3B_252F3C_252F57_252F53_252F5F),
  (0x26B79, 0x252F49_252F4F_252F59_252F5D),
  (0x26B7E, 0x252F54_252F5B),
  (0x26B81, 0x252F52_2F2368),
  (0x26B87, 0x252F42_252F4A),
  (0x26B8E, 0x252F46_2D4573_252F5E_252F3F),
  (0x26B95, 0x227D5E),
  (0x26BAA, 0x227D55),
  (0x26BB3, 0x227D4F_227D51),
  (0x26BB6, 0x25302E_253029_253038_252F7D),
  (0x26BBB, 0x25302B_227D69_25303A_252F78_2F2327_253040_253032),
  (0x26BC4, 0x252F6F_252F6A),
  (0x26BC7, 0x252F62_227D66_25303D),
  (0x26BCD, 0x227D75),
  (0x26BCF, 0x253034_253035),
  (0x26BD2, 0x252F58),
  (0x26BD4, 0x252F6B_252F64_253028),
  (0x26BDA, 0x25303B),
  (0x26BDF, 0x253039),
  (0x26BE3, 0x25303C_253043),
  (0x26BE7, 0x252F7A_253037),
  (0x26BEA, 0x252F71_252F66_25303E),
  (0x26BEE, 0x253021_25302F_252F7C_25307D_253042_25303F),
  (0x26C08, 0x253030),
  (0x26C0F, 0x29252F),
  (0x26C16, 0x253059),
  (0x26C18, 0x252F7E_252F75),
  (0x26C21, 0x227D68),
  (0x26C2A, 0x253047_227E40_253076_25304D_25305E_253078_253079_25305F_253064_25304B),
  (0x26C36, 0x253053),
  (0x26C38, 0x25305B_253121_253075),
  (0x26C3D, 0x25305A_25307A_253077_227E4A_227E68_253055_25304C_23223A_253052_25304F_253045_253044),
  (0x26C4A, 0x232226),
  (0x26C4C, 0x253063),
  (0x26C4F, 0x227E73),
  (0x26C51, 0x25306E_2D5469_253060_2F2433),
  (0x26C56, 0x253058),
  (0x26C5D, 0x25306F_253062_253061_253069),
  (0x26C63, 0x253048_2D552B),
  (0x26C67, 0x253068),
  (0x26C69, 0x25307E),
  (0x26C6F, 0x25305C_253054),
  (0x26C75, 0x253066),
  (0x26C77, 0x25305D),
  (0x26C84, 0x253049),
  (0x26C96, 0x227E64),
  (0x26C9D, 0x232240),
  (0x26CA4, 0x253126_253125),
  (0x26CAA, 0x232231),
  (0x26CAD, 0x2F2278),
  (0x26CB6, 0x227D6F_227E3E),
  (0x26CC0, 0x253123_253170),
  (0x26CC3, 0x253150_253178_253130_25312F_25316B_232277),
  (0x26CCA, 0x232321_253160_25316D_25316E_2F2347_253147_25314A_253145),
  (0x26CD4, 0x25312B_25316A_253164_253162_253139_25314C_232276_253141),
  (0x26CDD, 0x232273_253174_25315E_25313F_253179_25315C_25316F_2F272A_25315A_253142_25312C),
  (0x26CE9, 0x232323),
  (0x26CEB, 0x253171_253161),
  (0x26CF0, 0x25312D),
  (0x26CF2, 0x2F226F_2F235E),
  (0x26CF5, 0x25314E),
  (0x26CF7, 0x253134),
  (0x26CF9, 0x25317C_25313D),
  (0x26CFD, 0x253172_253135_253148_25314B_253165),
  (0x26D03, 0x25313C),
  (0x26D08, 0x25315F_253146_25314D),
  (0x26D0C, 0x253127_25315D_25312A_253173_25313B_232265),
  (0x26D14, 0x253133_253128_25313A),
  (0x26D1A, 0x25314F),
  (0x26D20, 0x253166),
  (0x26D24, 0x253167),
  (0x26D29, 0x232333),
  (0x26D2B, 0x2F2430_253169_253175),
  (0x26D3B, 0x232256),
  (0x26D40, 0x23226B),
  (0x26D48, 0x232274),
  (0x26D50, 0x25317B_253131_2F232E),
  (0x26D5F, 0x253153),
  (0x26D61, 0x253226_253256_253251_253221),
  (0x26D66, 0x253260_232436_25324E_23234E),
  (0x26D6B, 0x25323A_25312E_253243),
  (0x26D6F, 0x232352),
  (0x26D71, 0x253239),
  (0x26D74, 0x25325B_23237B),
  (0x26D77, 0x253237_232366),
  (0x26D7C, 0x253247_253250_253253_253228_25325E),
  (0x26D82, 0x253242),
  (0x26D84, 0x253225_23236C_232437_232367_25323D),
  (0x26D8A, 0x253222_253258_25322E_253229_253259),
  (0x26D90, 0x23236F_25324F),
  (0x26D93, 0x2F2636),
  (0x26D95, 0x253236_2F2846),
  (0x26D99, 0x253241_253230),
  (0x26DA5, 0x23243D),
  (0x26DA8, 0x253235_23234F),
  (0x26DAC, 0x2F233B),
  (0x26DB6, 0x23234A),
  (0x26DBF, 0x232373),
  (0x26DC2, 0x232428),
  (0x26DC8, 0x232442),
  (0x26DD4, 0x253244),
  (0x26DD9, 0x25325C),
  (0x26DDB, 0x253254),
  (0x26DDF, 0x253223_253248),
  (0x26DE7, 0x253249),
  (0x26DF0, 0x23234C),
  (0x26DF2, 0x253255_253227),
  (0x26DF5, 0x253265),
  (0x26DF7, 0x25322B_253266_253252),
  (0x26DFB, 0x25326B),
  (0x26DFD, 0x25323B),
  (0x26DFF, 0x2F237B_232470_25326E_232444),
  (0x26E06, 0x253276_25334F_253350_253278_25327D_2F244A_25334C_25333D_2F2375_253333_25327E_2D5570),
  (0x26E12, 0x253346_253325_253339),
  (0x26E17, 0x25332B_25332A_25333F_23247B_25334B),
  (0x26E21, 0x253347_25327A_232455_2F255D),
  (0x26E2A, 0x253270),
  (0x26E2E, 0x253272_2D5525_253274_25334A_2F2537_2F2372),
  (0x26E35, 0x253334_253335_253349_253343),
  (0x26E3D, 0x25337C),
  (0x26E44, 0x253355),
  (0x26E47, 0x25333A),
  (0x26E4F, 0x232449_232452),
  (0x26E54, 0x232476),
  (0x26E5C, 0x253356),
  (0x26E5E, 0x253354),
  (0x26E60, 0x253328),
  (0x26E66, 0x25326D),
  (0x26E6E, 0x232426),
  (0x26E77, 0x253331),
  (0x26E7D, 0x253279),
  (0x26E7F, 0x253345_253322),
  (0x26E84, 0x25326A),
  (0x26E86, 0x25342B),
  (0x26E88, 0x2D5563_253433_232560_25342C_253358_232541_25342F),
  (0x26E90, 0x253372_25335C_232555_253369_25342A_2F2839_232554_253429_25335A),
  (0x26E9C, 0x25335D_2F2664_25335F_253370),
  (0x26EA1, 0x25337D_253435_253365_253366),
  (0x26EA6, 0x23253D_253357_253430_253371),
  (0x26EAB, 0x2F2677_253438_253432),
  (0x26EB0, 0x253437),
  (0x26EB2, 0x25342E_2F2628),
  (0x26EB6, 0x25336F_253431_253361_25327C),
  (0x26EBB, 0x25336A),
  (0x26EBD, 0x25337E_25335B),
  (0x26EC2, 0x2F263E_25343D_25335E_253428),
  (0x26ED0, 0x23253E),
  (0x26EDC, 0x253359),
  (0x26EDE, 0x253423),
  (0x26EE5, 0x2D5546_2D5548),
  (0x26EF0, 0x253376_23254C),
  (0x26EF3, 0x253379),
  (0x26EF7, 0x2F2C65),
  (0x26EFD, 0x253377),
  (0x26F03, 0x25343B),
  (0x26F07, 0x253364_253374),
  (0x26F0A, 0x25336C),
  (0x26F0C, 0x25343A_2D5526_253439),
  (0x26F10, 0x2F2557),
  (0x26F16, 0x232569),
  (0x26F21, 0x253436_253425),
  (0x26F2A, 0x23263A_23264C),
  (0x26F30, 0x2F2722_25346E_25345C_25346B_253450_253465),
  (0x26F37, 0x232638),
  (0x26F39, 0x253441),
  (0x26F3C, 0x25346D),
  (0x26F3F, 0x253449_25346C_253475),
  (0x26F43, 0x25346F_253456_25344C_25344E_25346A_2F2574),
  (0x26F4A, 0x253466_253467),
  (0x26F4F, 0x253470_253471_253469_25345D_25343E_253458_253474_253464_25345B_253440_25344A),
  (0x26F5D, 0x2F243F),
  (0x26F60, 0x2F2462),
  (0x26F65, 0x25344B),
  (0x26F67, 0x2D552F),
  (0x26F69, 0x2D4139),
  (0x26F6B, 0x253452_253455),
  (0x26F6E, 0x253476_253447),
  (0x26F75, 0x253457),
  (0x26F77, 0x2F2247_2F2271),
  (0x26F7B, 0x2F233A),
  (0x26F7D, 0x253445),
  (0x26F7F, 0x253448),
  (0x26F88, 0x232643),
  (0x26F8F, 0x253454),
  (0x26F93, 0x2D553C_2D5435),
  (0x26F9F, 0x23263B),
  (0x26FA6, 0x253478),
  (0x26FAB, 0x253536_253535),
  (0x26FAE, 0x253533_2F2229_253522_253539_253527_25353A_2F2826_253528_253526_25347B_25347E_25352F),
  (0x26FBA, 0x25354B_253552),
  (0x26FBD, 0x25353E),
  (0x26FBF, 0x253523_253472_25354D_25352B),
  (0x26FC4, 0x253540_253524_253538_253549_2F2829),
  (0x26FCA, 0x253546),
  (0x26FCC, 0x253545_253551_25353F_23267A_232676),
  (0x26FD6, 0x253534),
  (0x26FDD, 0x232740),
  (0x26FE0, 0x2F244F_2F2678),
  (0x26FE6, 0x2F2823_2F2648),
  (0x26FEE, 0x253529),
  (0x26FF3, 0x25353C),
  (0x27003, 0x253531_232679),
  (0x27006, 0x253544_253543),
  (0x27009, 0x335636_253554),
  (0x27014, 0x25354A_253530_25354E),
  (0x27018, 0x253542_25352C_25354C_2F2747),
  (0x27020, 0x253571_253556),
  (0x27023, 0x253557_25356A_253564_23274B_25356B_253573_253568),
  (0x2702B, 0x23273D_25356D_253563),
  (0x2702F, 0x253555),
  (0x27032, 0x25355E_253569_232746_25355B_25355D),
  (0x2703A, 0x253562_253570),
  (0x2703E, 0x2F256E),
  (0x27041, 0x232744),
  (0x27048, 0x25355F_253561_253566_25356E),
  (0x2704D, 0x253560_253567),
  (0x2705E, 0x232734),
  (0x2707E, 0x25362B_253638),
  (0x27081, 0x25362C_253631_253633_2F222E_253635_253634_23276B_253626_253636_2F263D_253578),
  (0x2708D, 0x25357C),
  (0x2708F, 0x253625_23276F),
  (0x27092, 0x232759),
  (0x27094, 0x253621),
  (0x27096, 0x2F254A),
  (0x27099, 0x2F2573),
  (0x2709B, 0x25362E_253576),
  (0x2709E, 0x253623),
  (0x270A0, 0x253630_25357E_253627_25355C),
  (0x270A6, 0x253622),
  (0x270A8, 0x253577_253637),
  (0x270AB, 0x253639),
  (0x270B0, 0x2F2668_2D557A_232767_2F2562),
  (0x270BC, 0x232763),
  (0x270C3, 0x232770),
  (0x270CF, 0x25364B_253664_253659),
  (0x270D4, 0x253645_25363F_253650_2F2550_25364E_253642_25364D_25364C_2F274A_23277D),
  (0x270DF, 0x253646),
  (0x270E2, 0x253649),
  (0x270E7, 0x25363E_253643_253654_253652),
  (0x270EC, 0x2F2764),
  (0x270EF, 0x253644),
  (0x270F8, 0x23282C_253648_2F263A),
  (0x270FD, 0x232774),
  (0x270FF, 0x232778),
  (0x2710D, 0x25365C_232837_25365E_253667_253666_253663_253661_253653_23283A_2F246D),
  (0x2711A, 0x25365B_25365F_25365A),
  (0x27120, 0x253660),
  (0x27124, 0x253662),
  (0x27127, 0x2D563D),
  (0x27136, 0x23283D_2F284D_253677_25366A_253670_253669_253673_253676_253674_25366B_25366F_395624),
  (0x27143, 0x25366E),
  (0x27146, 0x253672),
  (0x27149, 0x2F2731),
  (0x2714B, 0x25366C),
  (0x2714F, 0x2F274C),
  (0x27153, 0x25366D),
  (0x27157, 0x25367D_253679),
  (0x2715A, 0x25367C_2F2674_2F2751_2F246E),
  (0x2715F, 0x25367A),
  (0x27161, 0x2F2833_253723),
  (0x2716E, 0x253725_2F2840_25367E),
  (0x27172, 0x253724_2F2843),
  (0x2717A, 0x253729_253728_2F2855_25372B_2F2857),
  (0x27187, 0x232852_2F2727_25372D_2F2856),
  (0x2718F, 0x25372E_232854_2F275B),
  (0x27193, 0x232858_253730_253731),
  (0x27198, 0x253734_253733),
  (0x271A1, 0x253739_253738_25373B_25373C_25373D_232860),
  (0x271AA, 0x2F2861_2F2860),
  (0x271AF, 0x25373E),
  (0x271B8, 0x253741_253742_253749_253747_253748_25374C),
  (0x271BF, 0x253745),
  (0x271C1, 0x25374E),
  (0x271C3, 0x2F286F_232868_25374F),
  (0x271C7, 0x2F285F_253750_253752),
  (0x271CF, 0x253755_253756_2F286A),
  (0x271D3, 0x253754),
  (0x271DB, 0x253757_253759_25375B_25375F_253760_23286B_253762),
  (0x271E3, 0x25375C_25375E),
  (0x271E6, 0x253758_253763),
  (0x271EC, 0x25375A_253765),
  (0x271F0, 0x253764_25376B_253768),
  (0x271F7, 0x25376A),
  (0x271FB, 0x253772_25376F_253767),
  (0x271FF, 0x232870),
  (0x27201, 0x25376D),
  (0x27205, 0x232872),
  (0x27208, 0x253773),
  (0x2720B, 0x2F222A_253774_253775_253776),
  (0x27211, 0x232873),
  (0x27213, 0x253777),
  (0x27216, 0x2F2873),
  (0x27218, 0x253778),
  (0x2721A, 0x232874),
  (0x2721C, 0x232877_253779),
  (0x2721F, 0x23287A_2D5654),
  (0x27226, 0x25377B_25377C),
  (0x27229, 0x253822_253826),
  (0x2722C, 0x2D564F_253821),
  (0x2722F, 0x253823_253824_2F2B3A),
  (0x27239, 0x253825),
  (0x2723B, 0x253839),
  (0x2723D, 0x253831_253828),
  (0x27240, 0x253834_25383B),
  (0x27243, 0x253838_25382D_25382A_253835),
  (0x27248, 0x25382E_2D4644_25383A_25382B_253829_253836_253837),
  (0x27251, 0x253830),
  (0x2725B, 0x25382F),
  (0x2725D, 0x232935_25383F_232961),
  (0x27261, 0x253840_253841_253845_253854_25384D),
  (0x27267, 0x253843),
  (0x27269, 0x253849_232955_25384B_253844_253856),
  (0x2726F, 0x25384F_253855),
  (0x27275, 0x2F293A),
  (0x27277, 0x253853),
  (0x27281, 0x253851),
  (0x27284, 0x25384E_25384C_2F295E),
  (0x2728D, 0x253850_253847_25385B_253865),
  (0x27292, 0x25385C_253877_253876_253861_25385E_253860_253863_253872_25386E_253878_253858_232978),
  (0x2729E, 0x25385F_253875_253869_2F296F_2F294F_25386C_2D5674_253862_253871_2D5665),
  (0x272A9, 0x25386A),
  (0x272AC, 0x25386D),
  (0x272AE, 0x2F2971_25385A_2F2A24),
  (0x272B2, 0x25387A),
  (0x272B6, 0x25387B_253859_2F2970),
  (0x272BD, 0x253879_253857),
  (0x272C8, 0x253935_253936_25387C_253929),
  (0x272CD, 0x253925_25392B_25392E_253922_253921_232A2D_253932_253926_25392D_253923_253937_232A26),
  (0x272D9, 0x2F2C27_253933),
  (0x272E1, 0x25392C),
  (0x272E5, 0x232A35),
  (0x272E8, 0x25392A),
  (0x272EE, 0x232A21),
  (0x272F1, 0x25392F_25387E),
  (0x27301, 0x253939),
  (0x27303, 0x25393E_253954_253968_25393A_253961_232A46_25394C_253941),
  (0x2730C, 0x253960),
  (0x2730E, 0x253958_25395B_253946_253947_2F2A4B_253962_253952),
  (0x27316, 0x253964_253948_253965_253951_253956_253967_25395E_253950),
  (0x2731F, 0x2D5651),
  (0x27322, 0x25396C_25394F_2F2A61_25394A),
  (0x27327, 0x253959),
  (0x2732C, 0x25393F),
  (0x27333, 0x232A5C),
  (0x2733C, 0x25394D),
  (0x2733E, 0x25395F_2F2A67_25396D_25393C),
  (0x27352, 0x253A28_2D5729_25397C_253A36_232B2B_2F2C79_232B2C),
  (0x2735B, 0x2D5667_253A23),
  (0x27360, 0x253A27),
  (0x27362, 0x232B36),
  (0x27365, 0x253A2A_253971_253975_2F2968_25397B_232B26_232B3E_253A3C_253A39_253A34_253A38_253A37),
  (0x27371, 0x2F2B67_253A3B),
  (0x27374, 0x25397A_25397E_253A3D_253A2D_253A30_253976),
  (0x2737B, 0x253A31_253A32_2F2B4C_253977_253978_2D5673_2F2948_2D567A_253A33_253A22),
  (0x27388, 0x253A24),
  (0x27390, 0x232B31),
  (0x27392, 0x232A68_232B32),
  (0x27395, 0x253A2B_253A26_2D567D_2F2B36_253A3E),
  (0x273A1, 0x253A42_253A47_253A54_253A52_232B5B_253A51),
  (0x273A8, 0x253A4B_253A59_253A5A_253A57_253A5B_253A63_232B46),
  (0x273B0, 0x232B40_253A4E_253A58_232B3F),
  (0x273B5, 0x253A5D_253A5C_253A60_253A41_253A4D_253A4F),
  (0x273BC, 0x253A67_253A48_232B4E_253A40),
  (0x273C2, 0x253A50),
  (0x273C4, 0x253A4C_253A45_253A49),
  (0x273CA, 0x253A56),
  (0x273CC, 0x253A4A_2F2B55),
  (0x273CF, 0x2D565D),
  (0x273D3, 0x2F2B52),
  (0x273D5, 0x2F2B5C),
  (0x273E2, 0x232B4D),
  (0x273E5, 0x253A53),
  (0x273E7, 0x253A55),
  (0x273E9, 0x2F2B56),
  (0x273EB, 0x253A65),
  (0x273F8, 0x232B5E_253A6C_253A77_253A7E),
  (0x273FE, 0x232B77_232B7C_2F2D27),
  (0x27404, 0x253B2E_253B23),
  (0x27407, 0x232B6C_253A6A),
  (0x2740A, 0x2F2A4A_253B24_253B25_253A75_253B2D),
  (0x27410, 0x232B69_253B26_253A71_253B21_253A7A),
  (0x27416, 0x253A76_253A69_2F2B68_253A73_253A68_2F2B30),
  (0x2741E, 0x253B22),
  (0x27425, 0x232B79),
  (0x27429, 0x232C22),
  (0x2742C, 0x253A7D),
  (0x2742E, 0x2F2B70),
  (0x27430, 0x25243E_2F2C28_253B30_2F2B64_253A6E),
  (0x27436, 0x2F2B7B),
  (0x27440, 0x253B2F),
  (0x27445, 0x232C38_253B36_253B4C_253B39),
  (0x2744A, 0x253B45_253B46_253A7C_232C43_232C45_2F2C5C_232C2F_253B47_253B34_253B4F_253B3B),
  (0x27456, 0x253B3F_232C2B_253B31_253B37_253B32),
  (0x2745C, 0x253B42_253B3D_253B33_253B3A),
  (0x27461, 0x253B41),
  (0x27463, 0x2D5732_253B52),
  (0x27466, 0x253B51_253B3E_253B43_253B49),
  (0x2746B, 0x253B4D),
  (0x27475, 0x253B4B),
  (0x27479, 0x232C2D),
  (0x27482, 0x253B53),
  (0x27488, 0x253B40),
  (0x2748E, 0x253B65_232C56),
  (0x27491, 0x253B67),
  (0x27493, 0x253B59_232C52),
  (0x27496, 0x232C58_253B5E_253B5C_253B68_253B60),
  (0x2749C, 0x253B5A_253B5B),
  (0x2749F, 0x253B55),
  (0x274A2, 0x2D567C),
  (0x274A6, 0x2F2B6E),
  (0x274A8, 0x253B61_253B63_253B64),
  (0x274B8, 0x232C60),
  (0x274BA, 0x253B6D),
  (0x274BC, 0x2F2C51_232C53_2F2C57),
  (0x274C0, 0x253B6B_253B6A_253B54),
  (0x274C9, 0x253B6E),
  (0x274CB, 0x253B74_2D5724),
  (0x274CE, 0x2F2B57_253B70_253B75),
  (0x274D2, 0x2F2B66_253B7E_253B6F_253B71_253B79_253B7A_253B76_2F2C47),
  (0x274DB, 0x2F2C3C),
  (0x274DD, 0x232C6E),
  (0x274E7, 0x253B7C_253B72_253B77_253B7B),
  (0x274EC, 0x253C33),
  (0x274F1, 0x253C27_253C25_2D5662_253C2B),
  (0x274F6, 0x253C2C_253C2D_253C24_253C2A_253C23_253C31),
  (0x274FD, 0x232C75),
  (0x274FF, 0x232C78_253C2E),
  (0x27502, 0x253C22),
  (0x27505, 0x253C2F),
  (0x27508, 0x2F2D2A),
  (0x2750E, 0x253C32_253C30),
  (0x27516, 0x253C29_253C34_2F2C5B),
  (0x2751D, 0x253C3F_232D21_253C36_253C35_253C3A_253C47_253C3E_253C42_253C41_253C3B_253C4A_253C3D),
  (0x2752A, 0x253C44_253C38_253C3C),
  (0x2752E, 0x253C46),
  (0x27530, 0x253C48),
  (0x27533, 0x253C4B_253C43),
  (0x27536, 0x253C49_253C40),
  (0x2753C, 0x253C45),
  (0x27543, 0x253C57_232D29_232D2D_253C54_253C58_232D2C_253C56_253C4D_253C59_253C55_253C4E),
  (0x2754F, 0x232D30_2F2B72_253C53_253C51),
  (0x27555, 0x253C4F),
  (0x27559, 0x253C5A),
  (0x2755B, 0x232D37_253C5E),
  (0x2755E, 0x253C63_253C61),
  (0x27561, 0x253C5C_253C5B_2F2D3B_253C62_253C60_232D36_253C64_253C5F_253C5D_232D34),
  (0x2756E, 0x253C65_232D3A_253C69_253C68_232D3B_2F2C4F_253C66_253C6A),
  (0x27578, 0x253C6B_253C67_253C6F),
  (0x2757C, 0x253C6E),
  (0x2757E, 0x2F2C66_253C71_232D3D_253C70),
  (0x27584, 0x253C75_253C72_253C74_253C73),
  (0x2758B, 0x253C76),
  (0x27591, 0x253C79_253C7A_2F2B5A),
  (0x27595, 0x253C7B_2D3C31),
  (0x27598, 0x253C7C_253C7E_2F2A38_253C7D_253D22),
  (0x275A0, 0x257A7B),
  (0x275A2, 0x253D24_253D23),
  (0x275A7, 0x253D25),
  (0x275AA, 0x253D26_253D27_253D28_2F2D41_253D29_2F2D45),
  (0x275B5, 0x253D2B),
  (0x275B7, 0x253D2A),
  (0x275BA, 0x253D2F_253D2D_253D30),
  (0x275BF, 0x253D2E_2F2D4C_253D32),
  (0x275C6, 0x253D34_232D4F_253D33),
  (0x275CB, 0x253D36_253D35),
  (0x275CE, 0x253D37_253D38),
  (0x275D5, 0x253D39_253D3A_2F2D44),
  (0x275D9, 0x2F2D52),
  (0x275DE, 0x253D3B),
  (0x275E1, 0x253D3C_253D3D_253D3E_232D54),
  (0x275E6, 0x253D40),
  (0x275E8, 0x253D42_253D41),
  (0x275EB, 0x253D48_253D44),
  (0x275F0, 0x253D45),
  (0x275F3, 0x253D49_232D5C),
  (0x275F8, 0x232D5D_253D4B),
  (0x275FC, 0x253D4C),
  (0x275FF, 0x253D4F),
  (0x27602, 0x232D62_2F2D55),
  (0x27608, 0x232D63),
  (0x2760D, 0x253D56_253D5C_253D54_253D5A_253D58_253D5B_253D57),
  (0x27618, 0x232D6A),
  (0x2761A, 0x232D67),
  (0x2761C, 0x253D59),
  (0x2761E, 0x253D5D),
  (0x27621, 0x253D65_253D60_253D66_2F2E39_253D61),
  (0x27627, 0x253D67_232D6C_253D68_253D63_253D6B_253D64_2F2D7E_253D6D),
  (0x27632, 0x232D73_253D6C),
  (0x27637, 0x2F2E25),
  (0x2763B, 0x232E21),
  (0x2763D, 0x232E44_253E29_232E2E_253D70),
  (0x27642, 0x253D74_232E2C_253D72_253D76_253D7D_253D6E_253D73_253D7E_2F2E4F),
  (0x2764C, 0x253E22),
  (0x2764F, 0x253E21),
  (0x27653, 0x232E3E),
  (0x2765B, 0x253D77),
  (0x2765D, 0x253D7C_253E26_253E32_253E28_253E25_253E27_253E2D),
  (0x27665, 0x253E30),
  (0x27668, 0x253E40_253E3C_253E3D_253E2E_253E38_253E3B),
  (0x2766F, 0x253E3A),
  (0x27674, 0x253E37_253E3F_253E39),
  (0x27678, 0x253E2F),
  (0x2767A, 0x253E33),
  (0x2767E, 0x253E41),
  (0x27680, 0x253E55_253E42_253E48_253E51_253E53_253E44_253E49_253E54_253E46_253E50_253E4B_232E67),
  (0x2768C, 0x2D5765_2D5761),
  (0x2768F, 0x253E4A_253E56),
  (0x27692, 0x253E59),
  (0x2769B, 0x2F2F22_2D5776_2D575C),
  (0x276A1, 0x253E58),
  (0x276A4, 0x253E75_253E62),
  (0x276A7, 0x253E68_232E70_253E74_253E5C_253E61_253E5B),
  (0x276AE, 0x253E6A_253E6B_2D5146_2F2F42),
  (0x276B3, 0x253E6F),
  (0x276B5, 0x253E72_253E60_253E6C),
  (0x276BA, 0x2F2F6C_232F3A_253E71),
  (0x276BF, 0x232E77),
  (0x276C1, 0x253E73_253E66_253E67_253E70),
  (0x276CD, 0x232E7C),
  (0x276CF, 0x253E77_253E7A_253E7C_253F2A_253F24_232F2E_253F25_253E76),
  (0x276D8, 0x253F21),
  (0x276DA, 0x253F27_253F2B_253F2E_253F2C_232F32_253F26_2F2E5C_253E7E_253E79_253F2F_253F2D),
  (0x276E7, 0x253F30),
  (0x276E9, 0x253F28_2F2F48),
  (0x276F8, 0x253F42_253F3F_253F37_253F35_253F3E_253F48_253F36_253F4C_232F52_253F41_253F3D_253F3C),
  (0x27704, 0x253F38_232F48_253F3A_253F43_253F4B_253F45_253F46_253F44_253F49_253F47),
  (0x27713, 0x253F3B_253F39_253F40),
  (0x2771A, 0x253F4A),
  (0x2771D, 0x253F55_253F59_253F5E_253F4E_253F51_253F5D_232F6B_253F5F_253F50_253F54_253F53),
  (0x2772C, 0x253F5A_2F304C),
  (0x27730, 0x253F52_253F57_253F5B_253F22),
  (0x27735, 0x253F6D),
  (0x27737, 0x2F2F5E),
  (0x2773C, 0x253F60_253F4F),
  (0x27740, 0x232F69),
  (0x27742, 0x253F6A_232F70_253F6B),
  (0x27746, 0x253F6E_253F68_253F7A_232F7C_253F63_253F64_253F78_232F78_253F62_253F7E_232F6D_253F7C),
  (0x27752, 0x232F77),
  (0x27754, 0x253F75_254022_254023_253F7B_253F65_253F66_253F7D),
  (0x2775C, 0x253F72),
  (0x2775E, 0x233022),
  (0x27763, 0x254021),
  (0x2776A, 0x253F6C),
  (0x2776C, 0x253F61_253F70_253F76_253F69_232F5B),
  (0x27772, 0x25402A_25402D_254029_2F2F33_254027_25402F_254024),
  (0x2777A, 0x2F2E2A),
  (0x2777D, 0x254028_25402E),
  (0x27780, 0x254026),
  (0x27785, 0x233026),
  (0x27788, 0x233028),
  (0x2778A, 0x232F7D),
  (0x2778D, 0x254030_25403D_25403A),
  (0x27792, 0x254041),
  (0x27794, 0x254035_254043_254031_254042),
  (0x27799, 0x254040),
  (0x2779B, 0x254033),
  (0x2779D, 0x254034_25403B_2F302C),
  (0x277A3, 0x254032),
  (0x277A6, 0x254039_254044_254045_254048_254049_233036),
  (0x277AD, 0x254047_25404A_25404B_254046),
  (0x277B2, 0x2F303A),
  (0x277B5, 0x233039_233040_25404D_25404F_254051_254050),
  (0x277BD, 0x25404E),
  (0x277C3, 0x254057_254053),
  (0x277C7, 0x233045),
  (0x277C9, 0x254058_254056),
  (0x277CC, 0x25405A),
  (0x277CE, 0x254059),
  (0x277D0, 0x2F304B_25405C_2F3029),
  (0x277D4, 0x2F2F61_25405D),
  (0x277D8, 0x25405E_25405F_254060),
  (0x277DC, 0x254061),
  (0x277DE, 0x254062),
  (0x277E1, 0x254064_254063_2D694D),
  (0x277E6, 0x254066_254069),
  (0x277EA, 0x25406B),
  (0x277EC, 0x25406C),
  (0x277F5, 0x233057_2D5F68),
  (0x277F8, 0x25406E),
  (0x27802, 0x254070_335827),
  (0x27806, 0x254071),
  (0x27808, 0x254072),
  (0x2780A, 0x23305E_254074),
  (0x2780D, 0x254075_254076_25407D_254077_2F3061_25407E_25407A),
  (0x27817, 0x233060_25407B),
  (0x2781A, 0x25407C_254079_25412B),
  (0x2781E, 0x254128_25412A_233065),
  (0x27823, 0x254122),
  (0x27826, 0x254126),
  (0x27828, 0x2F306C_25412F_254132_254130),
  (0x2782F, 0x233069_25412C),
  (0x27834, 0x25412D),
  (0x27836, 0x25412E),
  (0x27838, 0x254131),
  (0x2783C, 0x25413D_254134_25413E_25413C),
  (0x27845, 0x254138),
  (0x27847, 0x25413A_254139_254135),
  (0x2784B, 0x233074_2F3130_254142_233078_254140),
  (0x27851, 0x254143),
  (0x27855, 0x254145_254147),
  (0x2785A, 0x254141),
  (0x2785C, 0x254144),
  (0x2785F, 0x25413F),
  (0x27861, 0x254149_254148_254154_254155),
  (0x27866, 0x254156),
  (0x27868, 0x23307B_23307C_23307A_25414D_254157),
  (0x2786F, 0x254153),
  (0x27875, 0x25414A_254152_2F3070),
  (0x27879, 0x233123_25415B),
  (0x2787C, 0x25415C),
  (0x27882, 0x254161_233127_233126),
  (0x27886, 0x25415E),
  (0x27888, 0x25415F),
  (0x2788A, 0x233129_254162),
  (0x2788F, 0x2F3074_254163),
  (0x27892, 0x25416D),
  (0x27894, 0x25416B),
  (0x27896, 0x25416C),
  (0x2789A, 0x2D582F_25416E_233133_254170_233130),
  (0x278A1, 0x254171_233134_2F3133),
  (0x278A6, 0x233135_254173_2F3126),
  (0x278AA, 0x254172_2F3135_254174_254175),
  (0x278AF, 0x254177),
  (0x278B1, 0x2D3E34),
  (0x278B3, 0x2F3138),
  (0x278B5, 0x254178_254179),
  (0x278B8, 0x2F313C_25417A),
  (0x278BC, 0x254222_254225_254221),
  (0x278C1, 0x25417C_2F314A_25417D_2F3160),
  (0x278CA, 0x254228_254227_25417B),
  (0x278CF, 0x254226),
  (0x278D1, 0x25422D_25422B),
  (0x278D5, 0x25422F_254229),
  (0x278D9, 0x25422A_25422C_25422E_2F313E),
  (0x278DF, 0x254230),
  (0x278E1, 0x254235_254233_254237_254234),
  (0x278E6, 0x254231),
  (0x278E9, 0x25423C_25423A_254239_254238_25423B),
  (0x278F0, 0x2F3142),
  (0x278F5, 0x25424B),
  (0x278F7, 0x254249_254241_25423E_254248),
  (0x278FC, 0x254243),
  (0x27900, 0x25423F),
  (0x27903, 0x254246),
  (0x27907, 0x2F315A),
  (0x27909, 0x254247),
  (0x2790C, 0x2F3150_25424D_25424C_254255_254253_254257_254250_25424F_2F3162_25424E_254252_254254),
  (0x27918, 0x2F315B_254256),
  (0x2791B, 0x25425A),
  (0x2791E, 0x254258_25425F_25425E_254251),
  (0x27923, 0x25425C),
  (0x27926, 0x2F3161),
  (0x27928, 0x25425D),
  (0x2792B, 0x2F315D),
  (0x2792E, 0x25425B),
  (0x27930, 0x254262_2F314B_254261_254263),
  (0x27935, 0x254264),
  (0x2793B, 0x254267_233163_254266),
  (0x27948, 0x25426B_254269_25426C_25426A_25426D_25426E),
  (0x27953, 0x25426F),
  (0x27955, 0x2F2C59),
  (0x27957, 0x254271),
  (0x27959, 0x254272),
  (0x2795B, 0x254273_254274),
  (0x2795E, 0x254276_254275),
  (0x27962, 0x2D5861_25427D_25427C),
  (0x27966, 0x25427A),
  (0x2796D, 0x25427B_25432D),
  (0x27970, 0x2F316F_25432B_254340_2D585C_25433A_25432F_2D5875_2D5841_254334_254338_2F316D),
  (0x2797C, 0x254328_2F3328_2D593C),
  (0x27980, 0x254329),
  (0x27982, 0x254331),
  (0x2798D, 0x254341_254335),
  (0x27990, 0x25433F_254324_254326),
  (0x27998, 0x2F332F),
  (0x2799B, 0x254333),
  (0x2799D, 0x233245_254351_254357_254347),
  (0x279A2, 0x254356),
  (0x279A4, 0x254350),
  (0x279A6, 0x233233_23323E_254358),
  (0x279AB, 0x2F323C),
  (0x279AD, 0x25435D_25434A_25434D),
  (0x279B8, 0x254349_254348_25435E),
  (0x279BD, 0x2D5857_2D5845),
  (0x279C1, 0x2F323D),
  (0x279C4, 0x254362_254366_254374),
  (0x279C8, 0x254370_254363),
  (0x279CB, 0x254368_25436C),
  (0x279CF, 0x254371),
  (0x279D1, 0x2D5926_23324E_254375_254378_254361_254372),
  (0x279D8, 0x25436B),
  (0x279DC, 0x25436E_25436A),
  (0x279DF, 0x254367_254365_2D584B_233247),
  (0x279E7, 0x2F3239),
  (0x279E9, 0x25435F),
  (0x279F0, 0x2F3251),
  (0x279F2, 0x2F323F),
  (0x279F5, 0x254426_25443A_254424_254432_233279_23326E_23327A_25437B),
  (0x279FE, 0x25442D_334244_254435),
  (0x27A02, 0x254439_25442B_254433),
  (0x27A07, 0x25442A),
  (0x27A09, 0x2F3424_254427_254430),
  (0x27A0F, 0x2D5876),
  (0x27A11, 0x23326A),
  (0x27A16, 0x233278_254422_254421),
  (0x27A1B, 0x2F324B_254379_2F3237_2F3377_25437A),
  (0x27A21, 0x254423),
  (0x27A23, 0x2D5847_233272_254434_2F3368_25444E_2F337D_254450_254458),
  (0x27A2C, 0x2F333D_2D4D3D),
  (0x27A30, 0x254462_254442_254455_254459_25444A_254451),
  (0x27A37, 0x25445A_254457_254461),
  (0x27A3D, 0x2F3241_25443F_25444C_2F343F),
  (0x27A42, 0x2D5931_25445B_25444F_25443E_254447_25443C_254467),
  (0x27A4E, 0x233332),
  (0x27A50, 0x2F3334_2F334C_254465_254466_254440_254441),
  (0x27A5A, 0x254452_2D5865),
  (0x27A5D, 0x254463),
  (0x27A60, 0x2D592F),
  (0x27A63, 0x254521),
  (0x27A66, 0x254470_233346_25447C),
  (0x27A6A, 0x23335F_2D5858_254473),
  (0x27A6E, 0x2F322E),
  (0x27A70, 0x25446A_25446B_25446F_2F327A_25446C),
  (0x27A76, 0x254472),
  (0x27A78, 0x254478_254469),
  (0x27A7B, 0x2F3325_254471_2D5877),
  (0x27A7F, 0x2F3444),
  (0x27A83, 0x25447D),
  (0x27A85, 0x25447E_2F322B_254474_233347),
  (0x27A93, 0x254476),
  (0x27A95, 0x254475),
  (0x27A98, 0x254524_254533_254532_2F3326_254525_25453C_25452B_2F3335_233367_23336E_25453B_254529),
  (0x27AA6, 0x25452F_254528_25452E),
  (0x27AAA, 0x2F3236_25453E_254537_254539_25452D_254531_254522_254538),
  (0x27AB3, 0x2F3358),
  (0x27AB5, 0x25453D_254530),
  (0x27AB9, 0x254523),
  (0x27AC3, 0x25452C),
  (0x27ACA, 0x254527),
  (0x27ACF, 0x25453A),
  (0x27AD1, 0x254541),
  (0x27AD3, 0x254550_2F326E_254551),
  (0x27AD7, 0x25454C_254556),
  (0x27ADA, 0x233434_254548_25446E_254552_25454B),
  (0x27AE0, 0x2F3327_254545_233424),
  (0x27AE4, 0x25454F_254547_233432_2F3344),
  (0x27AEA, 0x2F3359),
  (0x27AEC, 0x25454A),
  (0x27AF0, 0x254544_233421),
  (0x27AF6, 0x23343C),
  (0x27AF8, 0x2F3230_254555),
  (0x27AFE, 0x25455B_254560_2F347E_25456D_25455F_2F3473_2D5938_233445_25455C_254561_25456B),
  (0x27B0A, 0x23344E_25455E_254569_254559),
  (0x27B0F, 0x25454E),
  (0x27B13, 0x2F342B),
  (0x27B15, 0x254563_25456A),
  (0x27B1E, 0x254565),
  (0x27B21, 0x2F335E),
  (0x27B24, 0x25455A),
  (0x27B27, 0x254578_25457A_25457B_25456F_254570_254577_2F3355_233462_2F3364_25456C_254574),
  (0x27B33, 0x2D5946),
  (0x27B42, 0x254621_254629),
  (0x27B45, 0x254625),
  (0x27B47, 0x254630_254622),
  (0x27B4A, 0x25462C),
  (0x27B4C, 0x254626_254627_25462E_254628),
  (0x27B51, 0x2F3462_254633_233476_254632_25462F),
  (0x27B58, 0x33593D),
  (0x27B5A, 0x25457D),
  (0x27B5C, 0x254638_25463A_25463E),
  (0x27B60, 0x254634),
  (0x27B63, 0x25463D_254637_25463C),
  (0x27B6A, 0x254639),
  (0x27B71, 0x233525),
  (0x27B73, 0x254635_2F3467_25463F),
  (0x27B78, 0x254645_233528),
  (0x27B7B, 0x254641_254642_254649_2F3452),
  (0x27B83, 0x2F3524_254646),
  (0x27B86, 0x25464B_2F3463),
  (0x27B8A, 0x2F3534),
  (0x27B8D, 0x254648),
  (0x27B90, 0x2F352E_25464D),
  (0x27B93, 0x233534),
  (0x27B97, 0x25464C),
  (0x27B99, 0x254653),
  (0x27B9B, 0x2F3426),
  (0x27B9D, 0x25464E_254652),
  (0x27BA0, 0x254651_254650),
  (0x27BA3, 0x2F3268_254655),
  (0x27BA6, 0x254654),
  (0x27BA9, 0x2F3523_293238_254657_25465A_25465C_25465B_23353F_2F3542_25465D),
  (0x27BB3, 0x25465E_25465F_254661_254662_2F3540),
  (0x27BBA, 0x254665_254668_254664_254666),
  (0x27BBF, 0x254667_25466B_25466C),
  (0x27BC3, 0x25466A),
  (0x27BC9, 0x25466D_25466F_2F353D_254673),
  (0x27BCF, 0x254671_2F3546),
  (0x27BD5, 0x254674),
  (0x27BD7, 0x254675_254676_254677),
  (0x27BDB, 0x254678),
  (0x27BDD, 0x254679_25467B),
  (0x27BE0, 0x25467C_25467D),
  (0x27BE4, 0x25467E_254722_254721),
  (0x27BE8, 0x254723_254728),
  (0x27BEB, 0x254726),
  (0x27BED, 0x2F354D_2D5958_25472B_25472E_25472A_25472C),
  (0x27BF4, 0x254729),
  (0x27BF7, 0x254733),
  (0x27BFA, 0x254730_254731_25473A),
  (0x27BFE, 0x254737_254736_254738),
  (0x27C03, 0x25473F_25473D),
  (0x27C06, 0x254740_254739_25473E),
  (0x27C0A, 0x254743_254741),
  (0x27C0E, 0x254670),
  (0x27C10, 0x254742_254748_254746_254744),
  (0x27C15, 0x254745),
  (0x27C18, 0x25474A_25474C),
  (0x27C20, 0x25474D_25474E_25474F_254750),
  (0x27C25, 0x254752),
  (0x27C28, 0x254753_254754_254755_254757),
  (0x27C2F, 0x25475A_25475D_25475B_25475E_25475C_25475F_254761),
  (0x27C37, 0x254763_254762_254764),
  (0x27C3B, 0x254765),
  (0x27C3F, 0x23355F_25476C_23355D_2F356A),
  (0x27C44, 0x254769_254768),
  (0x27C48, 0x25476B_254767_254770),
  (0x27C4D, 0x2F3564_25476E_233560_25476D_2F3558_254771_25476F),
  (0x27C58, 0x254773_254774),
  (0x27C5B, 0x2F3576_254779_254776),
  (0x27C5F, 0x2F355B_254777_254772),
  (0x27C63, 0x254778),
  (0x27C68, 0x254821_254822_25477D),
  (0x27C6C, 0x233568),
  (0x27C70, 0x25477C_2F355A_254825_254824_23356B_254823),
  (0x27C7B, 0x254829_254826_254828_254827_2F363A),
  (0x27C82, 0x233572_25482C),
  (0x27C85, 0x25482A_25482E_233575_254830),
  (0x27C8A, 0x25482F_254831_233577_254832),
  (0x27C8F, 0x2F3562_254833),
  (0x27C94, 0x2F357A_2F3570),
  (0x27C97, 0x254834_254836_254835),
  (0x27C9C, 0x254837_23357A_35357A),
  (0x27CA1, 0x25483A_25483B),
  (0x27CA4, 0x254842_254841_25483F_254840_25483E),
  (0x27CAC, 0x25484A_254845_25484E_254847_254850_233626_2D4A6B),
  (0x27CB4, 0x25484F_254846),
  (0x27CB9, 0x25484C_254849_25484B),
  (0x27CBE, 0x254854_254856_254859_254855_254858),
  (0x27CC4, 0x254857_23362B_254853_2D5964),
  (0x27CC9, 0x254851),
  (0x27CCC, 0x25485F_25485D_25485A_25485B_25485E),
  (0x27CD4, 0x2F362A),
  (0x27CD9, 0x254863_254862_254861_254869_254867_25486A_23362F_254866_2F362B),
  (0x27CE3, 0x254864),
  (0x27CE6, 0x254871_25486D_25486E_254873_25486F_25486B_25486C_254872_254870),
  (0x27CF2, 0x2F3634),
  (0x27CF4, 0x254874_254876_25487A),
  (0x27CF8, 0x254878_254879_233636_25487B_254877),
  (0x27CFF, 0x25487C),
  (0x27D01, 0x25487D_254925),
  (0x27D04, 0x23363A_254921),
  (0x27D07, 0x254926),
  (0x27D0A, 0x254924),
  (0x27D0C, 0x25492C),
  (0x27D0E, 0x25492B),
  (0x27D13, 0x254929),
  (0x27D15, 0x254928_23363F_25492E),
  (0x27D19, 0x254931_25492F),
  (0x27D1D, 0x254930),
  (0x27D20, 0x254932_254933_254934_254935_254937_254936),
  (0x27D29, 0x254938),
  (0x27D2C, 0x254939_25493B),
  (0x27D32, 0x25493A),
  (0x27D34, 0x25493F),
  (0x27D39, 0x2F364E_254942),
  (0x27D43, 0x254943_2F2944_2F2934_233649_2F3654_254940),
  (0x27D4A, 0x254947_254946_25494B),
  (0x27D4E, 0x2D5A24_25494D),
  (0x27D51, 0x254948),
  (0x27D53, 0x23364F),
  (0x27D5B, 0x254949),
  (0x27D5E, 0x25494C),
  (0x27D60, 0x25494A),
  (0x27D62, 0x254950_25495E),
  (0x27D65, 0x254961),
  (0x27D67, 0x25495D_254952_2D596D_254958_25495C_25495F_254955_2F3651),
  (0x27D71, 0x254960),
  (0x27D7B, 0x254959_25495A),
  (0x27D7E, 0x254953),
  (0x27D82, 0x254957),
  (0x27D85, 0x2D5A25_254962_254965),
  (0x27D8A, 0x233660),
  (0x27D8D, 0x254966),
  (0x27D95, 0x25496B_25496A_254976),
  (0x27D99, 0x254969),
  (0x27D9B, 0x2F3670_25496C_254967_254972_254975),
  (0x27DA1, 0x2D7E43_254971),
  (0x27DB2, 0x254A23_254979_2D5A35_254A26_2D5972),
  (0x27DB8, 0x254A21),
  (0x27DBA, 0x254977_2D597E),
  (0x27DBD, 0x2D5A33),
  (0x27DC5, 0x252438),
  (0x27DC9, 0x2F3672_254A24_25497D),
  (0x27DCD, 0x254A29_254A2F_254A2C_254A25_254A30_254A2D),
  (0x27DD5, 0x2D5A22),
  (0x27DDF, 0x254A3B_2F3741_254A36),
  (0x27DE4, 0x2F3726_254A37_254A31),
  (0x27DF1, 0x254A35),
  (0x27DFB, 0x254A33_2F372F_254A44_254A40_23372E_254A3D),
  (0x27E02, 0x254A3F_233730),
  (0x27E05, 0x254A42_2D5A39),
  (0x27E08, 0x254A3C),
  (0x27E0A, 0x254A3E),
  (0x27E0D, 0x233728),
  (0x27E0F, 0x233731),
  (0x27E11, 0x2D5A3B),
  (0x27E15, 0x254A43_233733_254A47_233738_254A45_2D5A28),
  (0x27E21, 0x233734_233737),
  (0x27E25, 0x254A46_254A48_254A4D_254A4C_23373C_254A49_254A4A),
  (0x27E31, 0x254A50_254A51),
  (0x27E37, 0x2F373F),
  (0x27E3D, 0x254A53),
  (0x27E3F, 0x254A4E),
  (0x27E48, 0x254A55),
  (0x27E4A, 0x254A56),
  (0x27E4C, 0x254A57),
  (0x27E50, 0x254A58),
  (0x27E52, 0x2D597A),
  (0x27E56, 0x293673_293729),
  (0x27E59, 0x254A59),
  (0x27E5B, 0x254A5B),
  (0x27E5D, 0x254A5D_233743),
  (0x27E63, 0x254A61),
  (0x27E68, 0x254A62_254A63),
  (0x27E6C, 0x254A65_254A64),
  (0x27E6F, 0x2D496A),
  (0x27E72, 0x23374A_23374B_254A66_254A67_254A68),
  (0x27E79, 0x2D4A21_254A69),
  (0x27E7D, 0x254A6B_254A6C),
  (0x27E85, 0x254A6D),
  (0x27E87, 0x2D5A4A),
  (0x27E8A, 0x23374D),
  (0x27E8C, 0x23374F),
  (0x27E8E, 0x254A6E_254A70),
  (0x27E92, 0x254A6F_254A74),
  (0x27E99, 0x254A71),
  (0x27E9C, 0x254A75_254B22_2F3753_254A76_254B23_254A79_254B25_254B24_254B26),
  (0x27EA7, 0x254A7B_254A77),
  (0x27EAA, 0x233758_233756),
  (0x27EB0, 0x254A78),
  (0x27EB2, 0x254A7D_254B21),
  (0x27EB6, 0x254B2F_254B2E_254B34_254B2B_254B2A_254B28),
  (0x27EBD, 0x254B33_254B27_254B29_23376B_254B39),
  (0x27ECA, 0x233764_23376A),
  (0x27ECD, 0x254B31_2F3769),
  (0x27ED1, 0x254B3F_254B40_23376C_254B3D),
  (0x27ED6, 0x254B47_254B3C_254B3A_254B41_254B3B_2F375D_254B44_254B46),
  (0x27EE5, 0x233779),
  (0x27EE7, 0x2F376B),
  (0x27EEF, 0x2F3757_254B5A_254B4F_23377E_254B4D_254B4A_254B52_254B58_254B4C_254B50_23377A_254B5B),
  (0x27EFB, 0x254B53_254B55),
  (0x27EFF, 0x254B51),
  (0x27F0A, 0x254B54),
  (0x27F0E, 0x254B68_233826_233828_254B64_254B63_254B60_254B66_2F376F_254B62_23382A_2F3759_254B67),
  (0x27F1A, 0x2F3865),
  (0x27F1E, 0x254B6E),
  (0x27F20, 0x254B6C_254B6B),
  (0x27F24, 0x254B65),
  (0x27F28, 0x233838_254B7C_233834_254B76_254B79_254B70_254B75_254C22_254B7A_254B7D_254B72),
  (0x27F34, 0x254B78_254B7B),
  (0x27F37, 0x23383B_233836),
  (0x27F3C, 0x23383A_233839),
  (0x27F44, 0x254B7E_254B73_254B74),
  (0x27F49, 0x254C28_254C2A_254C2C_254C29_233840_233843_254C2B_233842_254C25_233844_254C27_254C24),
  (0x27F56, 0x254C2D),
  (0x27F59, 0x23383F),
  (0x27F5B, 0x233841_233845),
  (0x27F5E, 0x254C36_254C3A_254C3D_254C33_254C34_254C2E_233848_254C30_254C2F_254C3B_254C3E_254C39),
  (0x27F6A, 0x23384C),
  (0x27F6F, 0x233847_2F3849),
  (0x27F72, 0x254C3C),
  (0x27F74, 0x254C31_254C40),
  (0x27F77, 0x254C46_233851),
  (0x27F7A, 0x254C44_23384E_254C47_254C4A_254C49_254C41_254C4C_254C4D_254C48),
  (0x27F86, 0x254C4B_254C43),
  (0x27F8A, 0x254C42_2F384B),
  (0x27F8D, 0x233855_233857_254C54_254C53_254C4E_2F3768),
  (0x27F94, 0x254C50_2F376D),
  (0x27F99, 0x254C56_23385C_254C57),
  (0x27F9F, 0x2F3859_254C55_254C58_254C5C_23385D_254C5A_254C59),
  (0x27FA7, 0x254C5B_233860_23385B),
  (0x27FAB, 0x2F385E),
  (0x27FAE, 0x254C5F_233861_233863_233864_254C61_254C60_2F3848_233867_254C62),
  (0x27FBB, 0x254C66),
  (0x27FBD, 0x254C63_254C67),
  (0x27FC0, 0x254C65_254C68),
  (0x27FC3, 0x2F395C_2F3963_254C6B_254C69),
  (0x27FCC, 0x254C6C),
  (0x27FD0, 0x23386C),
  (0x27FD2, 0x254C6D_254C71_254C75_254D22_254D21),
  (0x27FD8, 0x254C7E_254C74_254D24_275A7B),
  (0x27FDD, 0x254D23_254C7C_2F392D),
  (0x27FE5, 0x254C78),
  (0x27FE9, 0x254D26),
  (0x27FEB, 0x254C6E),
  (0x27FEE, 0x254C6F_254C73_254C79),
  (0x27FF2, 0x254D3B_23387A_254D2D_254D34_2D5A57_254D2A),
  (0x27FF9, 0x233924_254D36),
  (0x27FFC, 0x254D3C_254D30),
  (0x28000, 0x254D3D_293A63),
  (0x28007, 0x254D33),
  (0x28013, 0x254D38_254D37_254D45_254D43),
  (0x28018, 0x254D44_254D46_254D52_254D49_254D50_254D4B_254D4C_254D3F_254D41),
  (0x28026, 0x254D4D_254D47_254D5B_254D51),
  (0x2802B, 0x254D56_254D4E_254D54_254D55_254D4A),
  (0x28033, 0x254D5C_254D5D),
  (0x28038, 0x254D40),
  (0x28040, 0x2F3951_254D70_233947_254D5F_254D6D_254D5E),
  (0x28047, 0x254D67_254D64_23394D_254D6C_254D62_254D68_254D69_254D6A_254D63),
  (0x28051, 0x254D6F_254D71),
  (0x28054, 0x254D73_2F3967),
  (0x2805F, 0x254D78),
  (0x28061, 0x254D77),
  (0x28073, 0x254D60),
  (0x28075, 0x2F3929_254E22_254E25_254E32_254D7B_254E2C_2F3977),
  (0x2807D, 0x254E31),
  (0x2807F, 0x254E26_254E23_254E27_2F3A36_254E39_254E34_254D6B),
  (0x28087, 0x254E37),
  (0x2808E, 0x254E29),
  (0x28092, 0x254D7C),
  (0x2809B, 0x254E24_254E2E_254E21_254D7E_254D72),
  (0x280A1, 0x254E45),
  (0x280A3, 0x233971_254E49),
  (0x280A6, 0x254E4F_254E40),
  (0x280A9, 0x254E41_254E3D_233970),
  (0x280AD, 0x254E46),
  (0x280AF, 0x254E53_254E42_254E3C_254E47),
  (0x280B4, 0x254E51_254E50),
  (0x280B7, 0x254E4A_254E52),
  (0x280BF, 0x254E4B),
  (0x280D3, 0x254E63_254E69_254E58_233A2A_254E65_254E66_254E5B),
  (0x280DB, 0x254E5D),
  (0x280DD, 0x233A33_254E6B_233A31_254E55_2F3941_254E67_254E5C_254E56_254E68),
  (0x280E8, 0x233A28),
  (0x280EC, 0x254E6C_254E5E),
  (0x280EF, 0x254E62),
  (0x280F2, 0x254E5F),
  (0x280FF, 0x254E5A_254E57),
  (0x28103, 0x254E78),
  (0x28105, 0x254E79_335A69_254E74_254E70_254E71_254F32_254E76_254E7C_254F30_254E7A_254E7D),
  (0x28111, 0x254F31_254E6F_254F33_254F22_254E73),
  (0x28118, 0x254E7B_2D5A66_254F2D_254E75),
  (0x2811D, 0x254E59),
  (0x28128, 0x254F29),
  (0x2812F, 0x254F28_254F27),
  (0x28145, 0x254F2F_254E7E),
  (0x2814A, 0x254F25_254F3C_2D6F24),
  (0x2814E, 0x254F41_254F44),
  (0x28151, 0x254F4A_254F38_254E77_233A4A_2F3A4A_254F40_254F47_254F39),
  (0x2815A, 0x254F23),
  (0x2815C, 0x254F2A_2F395E_254F48),
  (0x28162, 0x2F3A4E_254F3D_254F3F),
  (0x28168, 0x254F45_254F4B_254F3E),
  (0x28175, 0x2D5A6B_2D5B24),
  (0x28180, 0x254F3B_254F4C_254F60_254F57_254F52_254F5B_254F56_254F54_254F59),
  (0x2818A, 0x254F55_254F4D_254F50_254F5A_254F58_254F4F_254F4E),
  (0x28199, 0x254F51),
  (0x281A6, 0x254F5E_254F53_254F5C),
  (0x281AA, 0x233A59),
  (0x281AC, 0x254F64_254F66_254F65_233A5B_254F63_254F61_254F67),
  (0x281B4, 0x2F3A47_254F62),
  (0x281C1, 0x254F68),
  (0x281C3, 0x2F3A70_254F6C_254F6F_254F6D_254F6B_254F6A),
  (0x281CA, 0x254F70_2F3A30),
  (0x281CE, 0x254F6E),
  (0x281D4, 0x254F73),
  (0x281D6, 0x254F7A_254F78_254F75_2F3A61_2F3A4C),
  (0x281DD, 0x254F76_254F79),
  (0x281E4, 0x233A69_254F7B_254F7D_254F7C_2F3A67_254F7E),
  (0x281EF, 0x233A6E_2F3A5C_255026),
  (0x281F3, 0x2F3A45),
  (0x281FB, 0x255024_255023_255025),
  (0x28204, 0x255029_25502A),
  (0x28208, 0x25502B),
  (0x28213, 0x25502D),
  (0x28215, 0x25502C_25502F_25502E_255034_255033_255030_255032),
  (0x28225, 0x255035),
  (0x28227, 0x255031),
  (0x28229, 0x255038_25503B_255037_2D5B31),
  (0x2822E, 0x25503A),
  (0x28235, 0x2D5A59_255039),
  (0x28238, 0x255042_255041_255040_2D5426),
  (0x28247, 0x25503E_255045),
  (0x2824B, 0x255044),
  (0x2824E, 0x233A77),
  (0x28252, 0x255046),
  (0x28255, 0x255049),
  (0x28257, 0x2F3B2E),
  (0x2825C, 0x25504A_255047),
  (0x28262, 0x255051_233B21_255052),
  (0x28268, 0x233B24),
  (0x2826A, 0x255050_233B23_25504B),
  (0x28271, 0x255056_233B26),
  (0x28274, 0x255058),
  (0x28277, 0x255054_255057_25505D),
  (0x2827B, 0x233B27),
  (0x2827D, 0x25505E_25505F),
  (0x28283, 0x233B2B_233B2A_255060),
  (0x28289, 0x255062),
  (0x2828D, 0x255064),
  (0x28293, 0x255065_255067),
  (0x2829B, 0x255069),
  (0x2829D, 0x25506A_25506B_25506C_25506F_25506E_2F3B31),
  (0x282A9, 0x255073),
  (0x282AF, 0x2F3B35_255074_255071),
  (0x282B3, 0x255076),
  (0x282B5, 0x2F3B48_2F3B49),
  (0x282B8, 0x255122_25507D_2F3B46_255079_255077),
  (0x282BE, 0x2F3B6B),
  (0x282C0, 0x25507C),
  (0x282C8, 0x25507E_255121),
  (0x282CF, 0x2F3B4F_25512F_233B3D),
  (0x282D4, 0x2F3C32_255125_255138_25512B_255136_255133_25512E_255130_255139_25512D_25512C_25513B),
  (0x282E1, 0x255134),
  (0x282E6, 0x255137_25513A_255141_2F3C26_25514A_255146_233B52_255147_255149_255144_25513E),
  (0x282F2, 0x25513D),
  (0x282F7, 0x255142),
  (0x282FA, 0x25514B),
  (0x282FC, 0x2D425F_25513C_255143),
  (0x28301, 0x255145_2F3B37),
  (0x28304, 0x255151_25514C),
  (0x28307, 0x2D5B3B_255154),
  (0x2830C, 0x255155_25514D_255156),
  (0x28313, 0x255159),
  (0x28318, 0x255158),
  (0x2831D, 0x255157),
  (0x2831F, 0x25514E),
  (0x28322, 0x25516C_2F3B36_25515C_233B65),
  (0x28327, 0x255161_2F3C25_255163),
  (0x2832B, 0x25515B_255164_255168_2F3B4A_25514F),
  (0x28332, 0x2F3B7B_255167_255169),
  (0x28336, 0x25515A),
  (0x2833A, 0x233B76),
  (0x2833D, 0x233B72_233B73),
  (0x28345, 0x255165_255162_25516F_233C28),
  (0x2834A, 0x255178),
  (0x2834C, 0x233B7B),
  (0x2834E, 0x255172_233B77_255171_25516D),
  (0x28356, 0x25517B),
  (0x2835B, 0x255173),
  (0x2835D, 0x255175_255177),
  (0x28362, 0x255170),
  (0x28367, 0x255179_25516E),
  (0x2836A, 0x2F3C51_255223_2F3C2A_25517E),
  (0x2836F, 0x255227_255224),
  (0x28372, 0x255226_2F3B3F_25517C),
  (0x28376, 0x233C29),
  (0x28378, 0x25522B_25522A),
  (0x2837B, 0x2D5B45),
  (0x2837F, 0x255221_25522F_25517D),
  (0x28383, 0x25522E),
  (0x28385, 0x2F3B64),
  (0x28387, 0x255225_255222_25522C_2F3B6D),
  (0x2838D, 0x255231),
  (0x28390, 0x255239),
  (0x28393, 0x233C35_255238_2F3C49_25523A_25523B),
  (0x283A1, 0x255230_255235_255234_25523F),
  (0x283A6, 0x2F3C33_255241_2F3C3D_233C3E_2F3B56_255242),
  (0x283AD, 0x25523D_255243_2F3C5B),
  (0x283B1, 0x25523E_2F3B59_25524C_255248),
  (0x283B6, 0x255249_255245),
  (0x283B9, 0x255244),
  (0x283BF, 0x233C46),
  (0x283C5, 0x255247_25524A),
  (0x283C8, 0x233C51_233C52_2F3C4E),
  (0x283CF, 0x2D5B56),
  (0x283D1, 0x2D5B40_233C55),
  (0x283D4, 0x233C54),
  (0x283D9, 0x2F3C4C_255250_25524E),
  (0x283DF, 0x255254_233C58),
  (0x283E2, 0x255252_2D5B54),
  (0x283E5, 0x255251_255253),
  (0x283E8, 0x255255_255256_25525A_255259),
  (0x283F0, 0x2F3B70_255257_255258_233C5D_25525B_25525F_25525D),
  (0x283F9, 0x255260),
  (0x283FD, 0x2F3C59_2F3C5E_255261),
  (0x28401, 0x255262),
  (0x28403, 0x255263),
  (0x28408, 0x293B57),
  (0x2840B, 0x255264_2D5B5A),
  (0x28410, 0x255265_255266),
  (0x28414, 0x255268),
  (0x2841B, 0x255269),
  (0x2841E, 0x25526C_25526B_255270_25526F),
  (0x28423, 0x25526D),
  (0x28425, 0x25526E_255271),
  (0x28428, 0x255273_255272_233C67_2D5944),
  (0x2842F, 0x255274_255277_255276),
  (0x28434, 0x245F73_255278_255279),
  (0x28439, 0x25527A),
  (0x28445, 0x25527B),
  (0x2844A, 0x233C6B),
  (0x2844C, 0x255322_2D5B35_255323),
  (0x28450, 0x2D5B68_255324),
  (0x28459, 0x233C72),
  (0x2845C, 0x255327_255329_2F3C7D),
  (0x28460, 0x25532A),
  (0x28463, 0x25532F_233C7C_233D23_2D3D68),
  (0x28468, 0x255338),
  (0x2846A, 0x25533A_255332),
  (0x2846D, 0x255337),
  (0x28477, 0x2D5B67),
  (0x2847C, 0x255333_255336),
  (0x2847F, 0x255331_255334),
  (0x28482, 0x255348_25533C_25534B_233D2B_25533D_255342),
  (0x28489, 0x25534A_255344_233D2A),
  (0x2848D, 0x255340_2F3D6A_2F3D35),
  (0x28495, 0x233D32),
  (0x2849C, 0x25533B_2F3C78_255343),
  (0x284A1, 0x25534D_25534C_255346),
  (0x284A6, 0x25535F_25535C_25534F_255359_335A5F_255350_255356),
  (0x284B1, 0x255353_2D5B76),
  (0x284B4, 0x255361),
  (0x284BC, 0x255362_25535D_255351),
  (0x284C1, 0x255360_25535A_25535B),
  (0x284C6, 0x2D5B77_25536E_2F3D3E),
  (0x284CA, 0x255367),
  (0x284CD, 0x255364),
  (0x284D8, 0x2F3D48),
  (0x284DC, 0x4B5C32),
  (0x284DE, 0x255352),
  (0x284E3, 0x255366),
  (0x284E5, 0x255368_25536B_25536D_255370_255363),
  (0x284EC, 0x25537D_255372_255424_255422_255371),
  (0x284F2, 0x255423),
  (0x284F4, 0x255425_2D5B74),
  (0x284FF, 0x255421),
  (0x28502, 0x25537E),
  (0x28505, 0x2D5B70),
  (0x28510, 0x233D50),
  (0x28516, 0x25537C),
  (0x28518, 0x255379_255378_255373_25537B_2F3D3A),
  (0x2851E, 0x2D5C36),
  (0x28521, 0x25542E_255433_233D60_2F3D7B),
  (0x28526, 0x255429),
  (0x28528, 0x255434_255435_2D5C34),
  (0x2852F, 0x25542F),
  (0x28536, 0x2D5C39),
  (0x2853D, 0x233D69),
  (0x28542, 0x233D62),
  (0x28545, 0x233D5F),
  (0x28552, 0x255431),
  (0x28555, 0x255426_335C4F_25542A),
  (0x2855A, 0x255432_25542C_255428_2F3D45),
  (0x28562, 0x255437),
  (0x28566, 0x255438_25543F),
  (0x28571, 0x233D76),
  (0x28574, 0x233D6C),
  (0x28579, 0x255439_25543A),
  (0x2857F, 0x25543B),
  (0x28583, 0x25543D_255436),
  (0x28589, 0x2D5C4E),
  (0x2858B, 0x255444_255443_255447_255452_25544C),
  (0x28599, 0x25544D),
  (0x2859B, 0x255448_233D7E),
  (0x285A2, 0x255451),
  (0x285A5, 0x2D5C4A),
  (0x285AC, 0x25544E_25544A_25544B_255449_25544F),
  (0x285B3, 0x255441_25545C_25545E_25545D_25545B),
  (0x285B9, 0x233E27),
  (0x285BD, 0x455C53_255459),
  (0x285C0, 0x2F3D52_2D5C49),
  (0x285D5, 0x2D5C4D),
  (0x285DD, 0x2F3E26_255458_25545F_255455_25545A),
  (0x285E3, 0x255456),
  (0x285E5, 0x255469_255468_25546B_255465_255467_255466),
  (0x285EF, 0x2D5C4B_255464_233E31),
  (0x285F4, 0x233E30),
  (0x285F9, 0x2D4F75),
  (0x28601, 0x25546A_255463_255461_255460),
  (0x28607, 0x233E36),
  (0x28609, 0x255471),
  (0x28611, 0x2D5B7E),
  (0x28614, 0x25546C),
  (0x28619, 0x25546D),
  (0x2861D, 0x25546F_25546E_255472),
  (0x28624, 0x2D5C53),
  (0x2862B, 0x2D5C30),
  (0x2862F, 0x25547A),
  (0x28632, 0x255477_255479_255478_255476_2D5C5C_2F3E37_25547D),
  (0x2863C, 0x25524B),
  (0x2863E, 0x25547E),
  (0x28640, 0x25547C),
  (0x28644, 0x255524_2F3E3B),
  (0x2864F, 0x255523),
  (0x28652, 0x255522_255525_233E3D_2F3D4A),
  (0x2865A, 0x2D5C56),
  (0x2865C, 0x2F3E38),
  (0x28661, 0x255528),
  (0x28663, 0x255527),
  (0x28666, 0x2F3E3D),
  (0x28668, 0x255529_25552B),
  (0x2866C, 0x25552E_25552F),
  (0x2866F, 0x25552D_255530),
  (0x28673, 0x255531),
  (0x28675, 0x255535_233E4D_233E4E_255537_233E53_233E4F),
  (0x2867C, 0x2F3F26_255538),
  (0x28682, 0x2F3E47),
  (0x2868A, 0x2F3E4A),
  (0x2868C, 0x233E52),
  (0x2868F, 0x2D5C66),
  (0x28692, 0x2F3E53_255540_233E60_255545),
  (0x28698, 0x25553F_233E70),
  (0x2869F, 0x255546_2F3E58),
  (0x286A3, 0x25553B),
  (0x286A5, 0x2F3F2D),
  (0x286A8, 0x2F3E78),
  (0x286AA, 0x233E55_233E56_2D5C65),
  (0x286AE, 0x255544_255550_25554F_25554A_25554D_255548),
  (0x286B6, 0x255552),
  (0x286B9, 0x233E6D),
  (0x286BC, 0x2D5C69),
  (0x286BE, 0x25554E),
  (0x286C4, 0x2D5C71),
  (0x286C8, 0x255555_255553_255554_233F24_25555A_255567_2F3F24_25556C_25556B_25555B_255569_25555E),
  (0x286D4, 0x255560_255565_233F25),
  (0x286D9, 0x2F3E73),
  (0x286DC, 0x233E71),
  (0x286E0, 0x25555D_255568_255564_25556A_255561_25556D_2D5C6A_255563),
  (0x286EB, 0x233F3D_233F37_233F3C_255572_255571),
  (0x286F1, 0x25556F),
  (0x286F3, 0x255573_255575_255574_255578_2D5C6E_25557D),
  (0x286FE, 0x233F36),
  (0x2870C, 0x255570_255576),
  (0x2870F, 0x255622_255628_255626),
  (0x28713, 0x255629_25562C_2F2D59_255627_25563E_255624_255623),
  (0x2871C, 0x255625),
  (0x28721, 0x233F48),
  (0x28723, 0x233F44_2F3F52_2F4040_2F3E7D),
  (0x28728, 0x2F3F55),
  (0x28730, 0x255621_25557E),
  (0x28733, 0x255630_233F55_255638_25562F_233F52_255635_2F3F21_25563A_233F5B_255631_25563B_25563C),
  (0x2873F, 0x255639_233F5D_2F3E75),
  (0x28746, 0x255634),
  (0x28748, 0x25563D),
  (0x2874A, 0x255633_233F73_233F69_233F68_255642_255643),
  (0x28751, 0x255649),
  (0x28753, 0x255647),
  (0x28756, 0x255651),
  (0x28758, 0x233F6F),
  (0x2875B, 0x25564A_255645_2F3F69),
  (0x28760, 0x2F3F73),
  (0x28762, 0x255644),
  (0x28764, 0x25564D_2D5C67),
  (0x28767, 0x255641_255648_25564F),
  (0x2876B, 0x234023_255661_233F78_2F3F32_255652_25565D_25565E_25565C),
  (0x28774, 0x255653_255654),
  (0x28777, 0x255656_233F7D),
  (0x2877D, 0x255657),
  (0x28782, 0x2F403D),
  (0x28784, 0x2D5C6D_2F3F4A),
  (0x28787, 0x2F3F2E),
  (0x28789, 0x2F3F49_25565B_255658_25565F),
  (0x2878E, 0x255659_255660_255646_25566E_25566B_25566C),
  (0x28795, 0x255668_2F403B_255662_255667_255669_255663_255664),
  (0x287A1, 0x2F402C),
  (0x287A3, 0x255666),
  (0x287A6, 0x25566D),
  (0x287A8, 0x255670_25566F_23402D_255671),
  (0x287AF, 0x2F402F),
  (0x287B2, 0x255675_2D6C21),
  (0x287B5, 0x2F4025_255674_255673),
  (0x287BA, 0x255679),
  (0x287BC, 0x2F3F71_25567A),
  (0x287BF, 0x255676_2F3F3D),
  (0x287C2, 0x25567B_25567C_234033_255678),
  (0x287CC, 0x2F3F7A),
  (0x287CE, 0x234038_234035),
  (0x287D1, 0x25567E),
  (0x287D6, 0x25567D),
  (0x287D8, 0x255721_23403C_23403A),
  (0x287DF, 0x255723_255724),
  (0x287E5, 0x255725_2F3F68),
  (0x287E9, 0x2D5940),
  (0x287EC, 0x2F3F7D),
  (0x287EE, 0x255727),
  (0x287F4, 0x23404E_25572C_25572B_2F406D_255730_255732),
  (0x287FB, 0x2D5D32),
  (0x287FE, 0x255731),
  (0x28801, 0x2F404D_2F407D),
  (0x2880B, 0x255738_255739_25573A),
  (0x2880F, 0x2F4124),
  (0x28811, 0x23405B_23405A_2F404B_255733_2F412D_255737_2F4132),
  (0x2881C, 0x23405E),
  (0x2881F, 0x255736_2D5D2D_255735),
  (0x28824, 0x25573D_255747_25573C_255741),
  (0x2882A, 0x2D5D2A),
  (0x2882C, 0x255740),
  (0x28836, 0x255743),
  (0x28838, 0x25574B_25574C_234064),
  (0x2883F, 0x25574D),
  (0x28841, 0x25574E_255751_255752_25574A_2F412C),
  (0x2884E, 0x25575E_25575A_25575C_25575B),
  (0x28853, 0x255759),
  (0x28855, 0x2F413F),
  (0x28858, 0x25575D),
  (0x28860, 0x2F407B_255756),
  (0x28864, 0x255755),
  (0x28869, 0x2F4142),
  (0x2886B, 0x234122_255769_23407A_25576C_255765),
  (0x28871, 0x255768_25576B),
  (0x28874, 0x255761),
  (0x28876, 0x255767),
  (0x28878, 0x25576A),
  (0x2887B, 0x234079),
  (0x2887D, 0x234121),
  (0x28880, 0x2D5D26),
  (0x28883, 0x255762),
  (0x28885, 0x255773_255774_25577A_255776_255779_234131_23412F_23412E),
  (0x2888E, 0x255771),
  (0x28890, 0x25576E_25576F_255775_234129),
  (0x28895, 0x234123),
  (0x2889A, 0x2F412B),
  (0x288A0, 0x255770_23413F_255821_255822_2F412F_2F413C_25577E),
  (0x288A8, 0x255824_2D5835_255825),
  (0x288AC, 0x2F406B_2D5D22_255823_25577B_2F4076),
  (0x288B9, 0x25577D),
  (0x288BD, 0x2D5D27_2F4152_25582F_25582D_255827_25582C_255829_255831_234146_255828_25582E_255830),
  (0x288CB, 0x2D5D2B),
  (0x288CD, 0x25577C),
  (0x288D3, 0x2F4141_255833),
  (0x288D7, 0x255838_255836_255839_23414A_25583B),
  (0x288DD, 0x25583A),
  (0x288E0, 0x2F414E),
  (0x288E2, 0x255835),
  (0x288E6, 0x255840_234150_234153),
  (0x288EC, 0x25583E),
  (0x288EF, 0x255841),
  (0x288F1, 0x234154_2F4158),
  (0x288F5, 0x255842),
  (0x288F7, 0x255847_255846),
  (0x288FB, 0x255848_255845),
  (0x288FE, 0x25584B),
  (0x28902, 0x25584A),
  (0x28907, 0x25584C),
  (0x28909, 0x2F414C),
  (0x2890C, 0x2F4144_2F4157_23415E),
  (0x28910, 0x25584E_25584F),
  (0x28913, 0x2D4D51),
  (0x28915, 0x255850),
  (0x28918, 0x255851),
  (0x2891A, 0x255852),
  (0x28921, 0x255854_255855),
  (0x28928, 0x255857_255856),
  (0x2892B, 0x255858),
  (0x2892D, 0x2D5D3D),
  (0x28931, 0x255859),
  (0x28934, 0x25585A),
  (0x28937, 0x25585C),
  (0x28939, 0x25585D),
  (0x2893D, 0x234165),
  (0x28942, 0x255861_255862),
  (0x28946, 0x23417D),
  (0x28949, 0x255863_2F417B),
  (0x2894C, 0x2F4357_2F4345),
  (0x2894F, 0x2D5D42_2F4166),
  (0x28953, 0x255867),
  (0x28955, 0x255866),
  (0x28959, 0x255864),
  (0x2895C, 0x234246),
  (0x2895E, 0x25586C),
  (0x28963, 0x25586B_234229_2F4851_23432A_25587A_2D4D7D_2D5D4D),
  (0x2896D, 0x23424F),
  (0x2896F, 0x25586F),
  (0x28976, 0x234329),
  (0x28979, 0x2D5D54),
  (0x2897B, 0x2F4230),
  (0x2897E, 0x234257),
  (0x28982, 0x25586D),
  (0x28984, 0x255923),
  (0x28986, 0x255928),
  (0x28992, 0x25592A),
  (0x28996, 0x2F4461),
  (0x2899E, 0x252D61_335D6A_23433A),
  (0x289AA, 0x234361_234353),
  (0x289AD, 0x234370_255931),
  (0x289B0, 0x2F4673),
  (0x289B2, 0x2F4269_25593E),
  (0x289B6, 0x25593A_234449),
  (0x289BE, 0x255942),
  (0x289C3, 0x255936),
  (0x289C5, 0x23437B),
  (0x289D5, 0x255930_255933_255934),
  (0x289DB, 0x25593B),
  (0x289E1, 0x234373),
  (0x289E4, 0x23436B),
  (0x289E6, 0x255956_255958_255961_255945_25594D_2D6B4B_2F432A),
  (0x289F0, 0x255968_25594F_2F4554_25596B_2F4438_25595D),
  (0x289FC, 0x234521),
  (0x289FE, 0x25595F_25594C_234455),
  (0x28A04, 0x25595A_25595C),
  (0x28A0A, 0x234477),
  (0x28A11, 0x25596F),
  (0x28A17, 0x255955),
  (0x28A19, 0x25595E),
  (0x28A1C, 0x255969),
  (0x28A23, 0x234473),
  (0x28A29, 0x255964),
  (0x28A2C, 0x255967),
  (0x28A2E, 0x25594E_255974_25597C),
  (0x28A32, 0x255977_255A2B_255A22),
  (0x28A36, 0x25596D_255971),
  (0x28A39, 0x25597D_255A24_2F4749),
  (0x28A3F, 0x234542),
  (0x28A43, 0x234549_255A27),
  (0x28A4C, 0x23453C_255972_23453A),
  (0x28A52, 0x234550),
  (0x28A55, 0x23454F),
  (0x28A57, 0x255A2A),
  (0x28A59, 0x234558_234576),
  (0x28A62, 0x23456D),
  (0x28A65, 0x255A21),
  (0x28A67, 0x25597E),
  (0x28A69, 0x255A29),
  (0x28A6F, 0x255A2D),
  (0x28A71, 0x234540_255973),
  (0x28A80, 0x234552),
  (0x28A82, 0x234545_234539_255976_255975),
  (0x28A87, 0x255A3C_255A4D_234652_255A3D_234638_255A3B_255A33_255A3A_255A35_234632),
  (0x28A92, 0x255A44_2F4569),
  (0x28A95, 0x255A4A),
  (0x28A97, 0x255A4C),
  (0x28A9B, 0x234634),
  (0x28AA5, 0x255A40),
  (0x28AA8, 0x234641_255A47),
  (0x28AB6, 0x255A48_255A46),
  (0x28AB9, 0x255A50),
  (0x28AC3, 0x23457D),
  (0x28AC6, 0x255A38),
  (0x28ACA, 0x255A3F_23462E),
  (0x28ACE, 0x255A41_2F4435_2F433F_2F4828_255A5C),
  (0x28AD5, 0x255A57_255A65_255A66_2F4567),
  (0x28ADA, 0x255A59),
  (0x28ADE, 0x255A64),
  (0x28AE0, 0x234724_255A67),
  (0x28AE7, 0x255A61),
  (0x28AEB, 0x23467B_234671),
  (0x28AF2, 0x23467E),
  (0x28AFC, 0x2F4663_2F4767),
  (0x28B01, 0x255A54),
  (0x28B05, 0x255A58),
  (0x28B09, 0x234670),
  (0x28B0C, 0x234721_234744),
  (0x28B10, 0x2F475E),
  (0x28B12, 0x234740),
  (0x28B14, 0x255A6F),
  (0x28B16, 0x234747_255A76),
  (0x28B1A, 0x255A73),
  (0x28B1C, 0x255A6B),
  (0x28B1F, 0x234743),
  (0x28B22, 0x234739),
  (0x28B29, 0x234753),
  (0x28B30, 0x23475B),
  (0x28B32, 0x255A74),
  (0x28B3B, 0x23476B),
  (0x28B41, 0x255A69_255A6A),
  (0x28B49, 0x23465C),
  (0x28B4E, 0x255A71),
  (0x28B53, 0x255A6E),
  (0x28B56, 0x234775),
  (0x28B5A, 0x255A7A_234831_2D5E35_2F472F_255A78),
  (0x28B65, 0x255A7E),
  (0x28B68, 0x234778),
  (0x28B6C, 0x255B21),
  (0x28B70, 0x234823),
  (0x28B74, 0x255B22),
  (0x28B7C, 0x2F4760),
  (0x28B8F, 0x23482E),
  (0x28B92, 0x234843_2F4769_255B2C),
  (0x28B9C, 0x23483A),
  (0x28BA4, 0x23484B),
  (0x28BAB, 0x2F4841),
  (0x28BAD, 0x234846),
  (0x28BB7, 0x255B29_255B3A_255B2F),
  (0x28BBB, 0x255B2E_2F4556),
  (0x28BBF, 0x255B2B_234834),
  (0x28BC8, 0x234852),
  (0x28BD9, 0x234850_255B34),
  (0x28BDE, 0x255B3E_2F484A_255B3F_255B41_255B3C_2F4773),
  (0x28BE6, 0x255B3D),
  (0x28BF0, 0x234867),
  (0x28BF2, 0x234860),
  (0x28BF5, 0x234866),
  (0x28BFC, 0x255B46),
  (0x28BFE, 0x23486E),
  (0x28C06, 0x255B43),
  (0x28C09, 0x255B4D),
  (0x28C0C, 0x2F456C_2F434E),
  (0x28C0F, 0x255B49),
  (0x28C1A, 0x255B4E),
  (0x28C1C, 0x255B47_255B4C_255B4F_234879_234877),
  (0x28C24, 0x2D5E45),
  (0x28C29, 0x255B50),
  (0x28C2D, 0x255B51),
  (0x28C30, 0x23487A),
  (0x28C35, 0x255B53),
  (0x28C38, 0x255B55),
  (0x28C3B, 0x255B57),
  (0x28C45, 0x29432E),
  (0x28C48, 0x29437C),
  (0x28C4F, 0x294633),
  (0x28C54, 0x29473B),
  (0x28C59, 0x255B58_255B5F_255B5D_255B5B_255B60),
  (0x28C60, 0x255B5E_255B61),
  (0x28C63, 0x255B5C_255B5A_255B62_255B68_255B6B),
  (0x28C6B, 0x255B65_255B67_255B66_255B69_255B6C_255B64_255B6A),
  (0x28C75, 0x234926),
  (0x28C78, 0x255B71),
  (0x28C7A, 0x255B6E_255B6F_255B72),
  (0x28C7F, 0x255B6D_255B73_255B77_255B74),
  (0x28C84, 0x255B76),
  (0x28C86, 0x255B75_255B78_255B7D),
  (0x28C8A, 0x255B7B_255B7E_255C21_234927_255B7A),
  (0x28C90, 0x255C22_255B79),
  (0x28C93, 0x255C24),
  (0x28C95, 0x234929),
  (0x28C99, 0x255C23),
  (0x28C9C, 0x255C26),
  (0x28C9E, 0x255C29_255C28_255C27),
  (0x28CA7, 0x255C2E),
  (0x28CA9, 0x255C2D_255C2A_255C2F_255C2C_255C33_255C31_255C30_255C35_255C34_255C32_255C37_2F3736),
  (0x28CB7, 0x255C36_255C38_255C3A),
  (0x28CBB, 0x255C3B),
  (0x28CBF, 0x255C3C_255C3D_255C3E_255C3F),
  (0x28CC9, 0x255C41_255C45_255C43_255C42),
  (0x28CCF, 0x23492C_255C4B_255C46),
  (0x28CD4, 0x255C49_255C4A),
  (0x28CD7, 0x255C5A_255C4E_255C55_255C59_255C4F),
  (0x28CDD, 0x255C57_255C51_255C53_255C54_2D5E56),
  (0x28CE3, 0x255C58),
  (0x28CEF, 0x255C5D),
  (0x28CF2, 0x255C4D_255C62_255C71_255C67_255C65_255C5F_255C6D),
  (0x28CFA, 0x255C70_255C60_255C64_255C63_2D4E69_255C6F_255C6B_255C6E),
  (0x28D06, 0x255C68),
  (0x28D0D, 0x255D23_255C7C_255D22_255D26_255C77_23493E_255D25_2D5E6B_255D21_255D27_255C7B_255D24),
  (0x28D19, 0x255C76_255C7E_255C7D),
  (0x28D1E, 0x255D2A),
  (0x28D21, 0x255D28),
  (0x28D23, 0x255C75),
  (0x28D25, 0x255C74),
  (0x28D28, 0x255D32_255D3D_255D2F_255D40_255D38_255D2E),
  (0x28D30, 0x255D3C_255D39),
  (0x28D3A, 0x255D34_255D36_255D35),
  (0x28D3E, 0x255D37),
  (0x28D41, 0x2D5E60_255D41_255D3F_255D2C_255D3B_255D3E),
  (0x28D48, 0x255D54_255D48_255D4A_255D56_23494B_255D44),
  (0x28D4F, 0x255D4F_255D58),
  (0x28D58, 0x255D50),
  (0x28D5A, 0x255D53_255D52),
  (0x28D5E, 0x255D55_255D57_255D4B_255D4C),
  (0x28D64, 0x255D47_255D62_23495E_255D63),
  (0x28D69, 0x255D5E_255D60_255D64_255D5F_255D5C_255D69_255D5D_255D5A),
  (0x28D74, 0x255D61),
  (0x28D76, 0x255D67),
  (0x28D7C, 0x255D68),
  (0x28D80, 0x255D72_255D71_255D6D_255D6C),
  (0x28D85, 0x255D6E_255D75_255D74_255D6B_255D70_255D76_255D6F),
  (0x28D99, 0x255D77),
  (0x28D9D, 0x2D3858_255D79_255D7C_255E22),
  (0x28DA2, 0x255E21),
  (0x28DA8, 0x255E23),
  (0x28DAC, 0x255E2A_255E30_255E27_255E2B_255E29_255E2C_255E31_255D78_255E2E),
  (0x28DB6, 0x255D7A),
  (0x28DB9, 0x23496C_255E2F),
  (0x28DBC, 0x255E25_255E26),
  (0x28DC1, 0x255E28),
  (0x28DC3, 0x255E34_255E2D_255E39_255E3A_255E33),
  (0x28DCE, 0x255E35),
  (0x28DD0, 0x255E3B),
  (0x28DD2, 0x255E38_255E32_255E3D),
  (0x28DD8, 0x255E3C),
  (0x28DDB, 0x234974),
  (0x28DDF, 0x255E3E),
  (0x28DE5, 0x255E3F_255E40),
  (0x28DE9, 0x255E41),
  (0x28DEC, 0x255E43),
  (0x28DEE, 0x255E42),
  (0x28DF0, 0x255E44),
  (0x28DF2, 0x255E46),
  (0x28DF7, 0x255E47_255E45),
  (0x28DFB, 0x234977),
  (0x28DFD, 0x255E48),
  (0x28E0F, 0x4B5E6C_255E4C_255E4B_255E4F_255E4D_255E50_255E4E_255E52_255E51_2D5E70_255E54_255E58),
  (0x28E1B, 0x255E5A_255E5B_255E5C_255E57),
  (0x28E20, 0x255E59),
  (0x28E26, 0x234A23),
  (0x28E29, 0x255E5D),
  (0x28E2B, 0x255E5F),
  (0x28E2D, 0x255E62_255E69_255E6A_255E61_255E66),
  (0x28E3A, 0x255E67_255E6C_255E60),
  (0x28E41, 0x255E74_255E72),
  (0x28E44, 0x255E76_255E78_255E79),
  (0x28E4A, 0x255E7A),
  (0x28E4C, 0x255E75_234A36_2D5E76_234A38),
  (0x28E59, 0x255F21),
  (0x28E5B, 0x255E7B_255E7C_255F25),
  (0x28E5F, 0x234A43_255F26_255E7D),
  (0x28E63, 0x255E7E),
  (0x28E75, 0x234A4F),
  (0x28E79, 0x255F37_255F34_255F2F),
  (0x28E7D, 0x255F30),
  (0x28E81, 0x335F2F),
  (0x28E85, 0x255F38),
  (0x28E96, 0x255F2C),
  (0x28E98, 0x255F36_234A59_2D5F30),
  (0x28E9C, 0x255F2B_255F2E),
  (0x28EA0, 0x255F47_255F49_255F43_255F46_255F40_255F3B_255F3D_255F39_234A64),
  (0x28EAB, 0x255F4A_255F41_255F45_255F48),
  (0x28EB1, 0x234A5B),
  (0x28EB5, 0x2D5F2B),
  (0x28EB8, 0x255F42),
  (0x28EBF, 0x255F3F_255F57_255F55_255F52),
  (0x28EC5, 0x255F58_255F56_255F51_255F50),
  (0x28ECC, 0x234A7C_255F53),
  (0x28ED2, 0x255F4F),
  (0x28ED6, 0x255F4C_255F4E),
  (0x28EE4, 0x234A73),
  (0x28EE7, 0x234A78),
  (0x28EEF, 0x255F60),
  (0x28EF2, 0x234B28),
  (0x28EF4, 0x255F65_255F61_234B26_255F5A),
  (0x28EFA, 0x234B23_234B27_234B29),
  (0x28F01, 0x255F5B_255F5F),
  (0x28F0A, 0x234B30_255F6E_255F70_255F72_255F73_255F6A_255F67_2D753F_255F6C_255F71_255F66),
  (0x28F25, 0x255F6D),
  (0x28F2A, 0x255F78_255F79_234B31),
  (0x28F2E, 0x234B34_255F7B),
  (0x28F31, 0x234B2D),
  (0x28F34, 0x234B33),
  (0x28F3D, 0x255F7C),
  (0x28F3F, 0x256022_256021),
  (0x28F44, 0x256023),
  (0x28F4D, 0x234B3D),
  (0x28F56, 0x256025),
  (0x28F5D, 0x256026),
  (0x28F63, 0x234B42),
  (0x28F66, 0x256029_25602A_256028),
  (0x28F6F, 0x25602B),
  (0x28F72, 0x25602C_25602D),
  (0x28F77, 0x25602E_234B46),
  (0x28F7C, 0x25602F),
  (0x28F7F, 0x234B47_2D5F3D),
  (0x28F82, 0x256030_256031),
  (0x28F86, 0x2D5F49),
  (0x28F89, 0x256034_234B4C),
  (0x28F8C, 0x256033),
  (0x28F8F, 0x2D5F3E),
  (0x28F92, 0x256036_256037_234B4E),
  (0x28F97, 0x25603B),
  (0x28F9A, 0x256038_25603C),
  (0x28FA1, 0x256041_25603E),
  (0x28FA4, 0x256045_2D623E_234B54),
  (0x28FA9, 0x25603D),
  (0x28FAC, 0x256040_25603F),
  (0x28FB0, 0x256043_256044),
  (0x28FB3, 0x256046_256048_25604C),
  (0x28FB7, 0x25604B),
  (0x28FBB, 0x256047),
  (0x28FBE, 0x256050),
  (0x28FC0, 0x25604A_25604E_25604D),
  (0x28FC5, 0x25604F),
  (0x28FC7, 0x256049),
  (0x28FD0, 0x256053),
  (0x28FD9, 0x256051),
  (0x28FDB, 0x256054),
  (0x28FE1, 0x256056_256058),
  (0x28FED, 0x256057),
  (0x28FEF, 0x25605C_25605B),
  (0x28FF3, 0x2D624C_25605E_25605D_256055),
  (0x28FFB, 0x25605A),
  (0x28FFF, 0x25605F),
  (0x2900B, 0x234B5F_2D5F4F),
  (0x29018, 0x2D6248),
  (0x2901C, 0x256060),
  (0x2901E, 0x256062_256061),
  (0x29021, 0x2D5F50),
  (0x29023, 0x256063),
  (0x29028, 0x256067),
  (0x2902A, 0x256064_256065),
  (0x29030, 0x234B6A),
  (0x29032, 0x256066),
  (0x29036, 0x25606B),
  (0x2903C, 0x256069),
  (0x2903F, 0x25606A),
  (0x29042, 0x2D7958_25606C_25606D),
  (0x2904C, 0x25606E),
  (0x29050, 0x2D624D),
  (0x29057, 0x256072),
  (0x2905F, 0x256073),
  (0x2906F, 0x256074),
  (0x29074, 0x256075),
  (0x29077, 0x256076),
  (0x29079, 0x234B72_25607A_256079),
  (0x29082, 0x256129_25607C_256122_25607D_25607E),
  (0x29088, 0x25607B),
  (0x2908D, 0x256126_25612A),
  (0x29093, 0x256132_25612E_25612B_256131_25612F),
  (0x29099, 0x256135),
  (0x2909E, 0x256136),
  (0x290A1, 0x256133_234C25_234C23_25613B_25613A_234B7B_256137_256139),
  (0x290AA, 0x25613C),
  (0x290AE, 0x234B7D_234C24),
  (0x290B1, 0x234B7C),
  (0x290B3, 0x335F6F),
  (0x290B9, 0x256149_256142_256143_256141_256140_256147_256146),
  (0x290C1, 0x25613F),
  (0x290C3, 0x25614A),
  (0x290C8, 0x234C2C),
  (0x290CB, 0x256145),
  (0x290D0, 0x25614B_256144),
  (0x290D4, 0x234C33_25615A_256154_256158_256150_234C32_25614E),
  (0x290DC, 0x25614F),
  (0x290E0, 0x256151_256160),
  (0x290EC, 0x2D5F2A),
  (0x290EF, 0x25615B),
  (0x290F4, 0x256157_234C36_256168_256169_234C39_256172_256171),
  (0x290FC, 0x25616A_256163_256178),
  (0x29106, 0x25616D),
  (0x2910A, 0x256162),
  (0x2910D, 0x234C41),
  (0x29116, 0x256173_256221_256226_234C44_256179_25617B),
  (0x2911D, 0x256176_256228_25617E_25617A_234C43_25617C),
  (0x29126, 0x256225),
  (0x29137, 0x256223_256224),
  (0x2913A, 0x25617D_256234_25622A_256232_25622D_25622E_234C4F_256233_25622F_256235_25622B),
  (0x29147, 0x2F244D_256229),
  (0x2914C, 0x256236),
  (0x29156, 0x256230),
  (0x2915E, 0x234C54_2D5F57_25623A_25623B_256245_25623C),
  (0x29166, 0x234C59_234C5B_234C57),
  (0x2916A, 0x256238),
  (0x2916F, 0x25623D),
  (0x29174, 0x256237),
  (0x2917C, 0x234C61_234C5F),
  (0x2917F, 0x25623F_256240_256246_234C5D),
  (0x29184, 0x256241_256243),
  (0x2918D, 0x256242),
  (0x29191, 0x234C65_25624C_256247),
  (0x29195, 0x25624A),
  (0x29198, 0x256248),
  (0x2919A, 0x25624B_256249),
  (0x291A4, 0x256250),
  (0x291A6, 0x256252),
  (0x291AB, 0x256251),
  (0x291AD, 0x256254_256257_256255),
  (0x291B2, 0x256258),
  (0x291B5, 0x234C6F_25625A_25625D_256259),
  (0x291BD, 0x25625C),
  (0x291BF, 0x256261),
  (0x291C1, 0x256260),
  (0x291C3, 0x234C70),
  (0x291C7, 0x25625E),
  (0x291CB, 0x256263),
  (0x291CE, 0x256264),
  (0x291D4, 0x256267_234C73_256269),
  (0x291DB, 0x25626B_25626C_25626D),
  (0x291DF, 0x25626E_25626F),
  (0x291E3, 0x256270),
  (0x291E9, 0x256272_256274_256273),
  (0x291ED, 0x2D762F_256278_256276),
  (0x291F4, 0x256279),
  (0x291F8, 0x2D5F75_25627B),
  (0x291FB, 0x25627A_25627D_25627E),
  (0x29201, 0x256321),
  (0x29205, 0x256323_256327_256326_256328_256324),
  (0x2920B, 0x25632A),
  (0x2920D, 0x256331_25632C_256333_25632D),
  (0x29212, 0x256334),
  (0x29214, 0x25632F),
  (0x29217, 0x25632B),
  (0x29219, 0x256337_256335_256339_256338),
  (0x2921E, 0x256336),
  (0x29221, 0x25633B_25633A_25633F_25633D_234D21_25633E_25633C),
  (0x2922B, 0x256343_256341_234D22_256345_256344),
  (0x29232, 0x25634A_256347_256346_256349_256348_25634B_25634D_25634C_25634E_256350_256351_25634F),
  (0x29241, 0x256353_2D5F79_256355_256354),
  (0x29246, 0x256356),
  (0x2924D, 0x256358),
  (0x2924F, 0x256359_256357),
  (0x29252, 0x25635A),
  (0x29254, 0x25635D_25635C),
  (0x29257, 0x25635E_25635F_256360),
  (0x2925C, 0x256361_256362),
  (0x29261, 0x25636F),
  (0x29265, 0x256363),
  (0x29267, 0x25636A),
  (0x2926A, 0x256370_256367_25636E),
  (0x2926F, 0x256366_256365),
  (0x29275, 0x256372_256364),
  (0x29278, 0x256376_256378_234D36),
  (0x2927C, 0x25637E_256377_25637D_256426_256427_234D41_256429_256425_256422_256428_256379_25637C),
  (0x29289, 0x25637B),
  (0x2928D, 0x256373),
  (0x2928F, 0x25637A_25642E_25642C_256437_234D47_25642B_25643A_25642D_256436_256431_234D4B_234D4A),
  (0x2929B, 0x25643C_25643B_234D45),
  (0x2929F, 0x256438),
  (0x292A1, 0x256434_256435_25643D_256439),
  (0x292A6, 0x25642A_256433_25642F),
  (0x292AA, 0x256440_256443_256444_234D58_234D4D_256442_256445),
  (0x292B3, 0x2D6023_25643F_25643E_256447),
  (0x292BA, 0x25644C_25644B_256449),
  (0x292BF, 0x256452_256457_234D5F_25645B_234D64_256450_256455_234D6F),
  (0x292C9, 0x256454_234D60),
  (0x292CC, 0x256458_25645D_2D3176_234D66),
  (0x292D2, 0x25645C),
  (0x292D7, 0x256459),
  (0x292D9, 0x256460),
  (0x292DC, 0x256456_25645E_256451_256477_234D6D_256461_256464_256463_256474_256467_256478_25646A),
  (0x292E8, 0x256469),
  (0x292EA, 0x256470),
  (0x292EC, 0x256473_256479_256468_25647B_25647A),
  (0x292F2, 0x256475),
  (0x292F4, 0x234D75),
  (0x292F9, 0x25646B_25647C),
  (0x292FC, 0x256465_256462_25646C_25646E_25646F),
  (0x29303, 0x256531_25652D_256530_256527_25652A_234E22_256522),
  (0x2930C, 0x256525_234D7E_25652C_234D7B),
  (0x29311, 0x25647D),
  (0x29313, 0x256523),
  (0x2931D, 0x25652F),
  (0x29320, 0x25652E_25647E_256521),
  (0x29326, 0x234E30_25653A_234E2A_25653B_256535_256532_256533),
  (0x2932E, 0x234E33_256537_25653D),
  (0x29332, 0x256539_25653C),
  (0x29336, 0x256538),
  (0x2933B, 0x2D6028),
  (0x2933E, 0x256536),
  (0x29340, 0x25653E),
  (0x29343, 0x256548_256544_256541_256549),
  (0x29349, 0x256546_256547),
  (0x2934E, 0x256543_256540),
  (0x29353, 0x25654C_256553),
  (0x29356, 0x25654B_256550_234D76_25654D),
  (0x2935B, 0x25654F_256552_256554),
  (0x29364, 0x25654E_256556_256559_256557),
  (0x29369, 0x25655B_256558),
  (0x2936F, 0x256555),
  (0x29372, 0x25655F_256562_25655D_256560),
  (0x29377, 0x25655C_256565_256561),
  (0x2937B, 0x257326),
  (0x2937D, 0x256568),
  (0x2937F, 0x234E42),
  (0x29382, 0x256563),
  (0x29387, 0x256567),
  (0x2938A, 0x256569),
  (0x2938C, 0x234E47),
  (0x29391, 0x234E48_25656A_25656C_25656E_25656B),
  (0x29397, 0x25656D_256576_256572_256577_256571_256573),
  (0x293A1, 0x256574),
  (0x293A4, 0x25657D_25657E_256579_256622_25657C),
  (0x293AD, 0x25657B_25657A_256625),
  (0x293B1, 0x256623_256626_256627),
  (0x293B5, 0x256629),
  (0x293B7, 0x256628_25662D_25662E_25662A_256632_25662F_256630_25662B_256631),
  (0x293C5, 0x256639_256634_234E58_256635_25662C_256636),
  (0x293CF, 0x234E5B),
  (0x293D2, 0x25663D_25663A),
  (0x293D6, 0x25663C_25663B_256642_256644_256640),
  (0x293DE, 0x256643_256641_256645_256647_256649_256646_25664A_256648_25664C),
  (0x293E8, 0x25664D_234E62_25664E),
  (0x293ED, 0x256650),
  (0x293F2, 0x256652),
  (0x293F4, 0x256654_256655_234E64),
  (0x293F9, 0x256656_256658),
  (0x29401, 0x256659),
  (0x29403, 0x25665B),
  (0x29405, 0x234E67),
  (0x29409, 0x25665D_25665C),
  (0x2940C, 0x234E69),
  (0x29415, 0x256660),
  (0x29418, 0x256665_256666),
  (0x2941B, 0x256669_25666B),
  (0x2941E, 0x256674_25666C_25666E_256671),
  (0x29423, 0x25666F_256670_256672_25666D_256677_256673),
  (0x2942B, 0x256676),
  (0x2942D, 0x25667B_256678_256679_25667A_256721),
  (0x29434, 0x25667E_256724_256723_256725_256727),
  (0x2943B, 0x256729_256728),
  (0x2943E, 0x25672A),
  (0x29440, 0x25672C),
  (0x29442, 0x25672F_25672E),
  (0x29447, 0x256730_256731_256732_256733_2D6037_256734_256735),
  (0x29450, 0x25673A_25673D_25673B_256739_234E7A_256736_25673C),
  (0x29458, 0x25673E),
  (0x2945A, 0x25674C),
  (0x2945C, 0x256740_256747),
  (0x2945F, 0x25674D_25675C_25674A_256741_234F21_256749),
  (0x29466, 0x234F24_256744),
  (0x2946C, 0x256743),
  (0x2946E, 0x256748_25673F_256760),
  (0x29472, 0x256759_25675A_256765_256758_256754_256753_256756_25674F_256761_256766_256755),
  (0x2947E, 0x256767),
  (0x29483, 0x256752_256764),
  (0x29486, 0x2D6038_256763),
  (0x2948A, 0x256750),
  (0x2948F, 0x256770_25676F_256772),
  (0x29493, 0x25676D_256771_25676C),
  (0x29497, 0x256774),
  (0x2949A, 0x256773_2D3F68),
  (0x2949D, 0x256775),
  (0x294AD, 0x256778_256821_25677C_234F49_25682C_234F4A_234F3F_256826_25682E),
  (0x294B7, 0x256822_256827),
  (0x294BA, 0x256829_25682B_256823_256831_25677E_25677D_234F43),
  (0x294C2, 0x25677A),
  (0x294C4, 0x25682F_2F3543),
  (0x294CB, 0x2D5A36),
  (0x294D0, 0x234F3E),
  (0x294D6, 0x256830),
  (0x294D8, 0x25677B_256834),
  (0x294DD, 0x25682D_234F52_256846_25683D),
  (0x294E2, 0x256844),
  (0x294E4, 0x256841_234F55_25683E_256837_25683F_25683C_256847_256838_234F53),
  (0x294EE, 0x256836),
  (0x294F8, 0x234F4F),
  (0x294FB, 0x256842_256843),
  (0x29500, 0x234F64_256850_256856_256858_25684C_256859_25684E_25685C_256851_25684D_234F5E_256857),
  (0x2950C, 0x25685B),
  (0x29512, 0x256855),
  (0x29515, 0x25684A_4B6053_234F5A_25684F_256868_256865),
  (0x2951C, 0x2D6042_256866_256863_256862_256864_256861_25685D),
  (0x29524, 0x2D6049),
  (0x29526, 0x25686A),
  (0x2952E, 0x256860),
  (0x29530, 0x2D6058),
  (0x29533, 0x256874_25686E_256871_25686D),
  (0x29538, 0x256872_256876_2D6059),
  (0x2953C, 0x25686F),
  (0x29546, 0x256870),
  (0x29549, 0x256878_234F7C),
  (0x2954C, 0x25687D_256926),
  (0x2954F, 0x256925_25687B),
  (0x29552, 0x256921_2D603D_256879_256923_256924),
  (0x2955C, 0x25687C),
  (0x2955F, 0x25692B_256929_25692A),
  (0x29564, 0x256927),
  (0x2956A, 0x25692D),
  (0x2956D, 0x256935),
  (0x2956F, 0x256931),
  (0x29571, 0x256933),
  (0x29573, 0x25692E),
  (0x29575, 0x256932),
  (0x29579, 0x256934),
  (0x2957E, 0x23502E_256936_256930_256937),
  (0x29586, 0x256938_25693A),
  (0x2958A, 0x23502F),
  (0x2958C, 0x25693E_25693C_25693D_25693F),
  (0x29592, 0x256940_2D605A_257B21),
  (0x29596, 0x294F4D),
  (0x2959B, 0x256944),
  (0x2959D, 0x256945),
  (0x295A0, 0x256943),
  (0x295A2, 0x25694D_256947_256948_256950_256953_256946),
  (0x295A9, 0x256951),
  (0x295AC, 0x25694F_25694B),
  (0x295AF, 0x256952),
  (0x295B2, 0x25694C),
  (0x295B4, 0x256961_256960_235037_25695F_25695E_25695B_256959_256957_25695D),
  (0x295BE, 0x25695C_256962),
  (0x295C4, 0x256964),
  (0x295C6, 0x25696C),
  (0x295C8, 0x25696D),
  (0x295CA, 0x256966_2D3C46),
  (0x295CE, 0x256969),
  (0x295D0, 0x256963),
  (0x295D3, 0x256970_25697E_25696E),
  (0x295D7, 0x2D605F_256971_256975_25697D),
  (0x295DE, 0x25697C_256978),
  (0x295E1, 0x23503E_256973_256976_256977_256979),
  (0x295E7, 0x25696F),
  (0x295E9, 0x256A36_256A33_256A31_235042_256A32),
  (0x295EF, 0x256A35_256A40),
  (0x295F2, 0x256A34_256A29_256A2A_256A2F_256A21_256A2E),
  (0x295FC, 0x256A28_256A26_256A25_256A27),
  (0x29601, 0x256A23),
  (0x29605, 0x256A3B),
  (0x29607, 0x256A47_256A3F_256A46_256A3D_256A41_256A45_256A38_256A48_256A3C),
  (0x29611, 0x256A3E_256A39_256A37),
  (0x29618, 0x256A43_256A44),
  (0x2961C, 0x256A4A_256A4B_256A4F_256A4C_256A4D),
  (0x29626, 0x256A4E),
  (0x2962D, 0x256A50_256A55_256A56_256A53_256A51_256A5B_256A58),
  (0x29635, 0x256A5A_256A54),
  (0x29639, 0x235056_256A61_256A5D_256A5F_256A62),
  (0x29642, 0x235054),
  (0x29644, 0x256A5E),
  (0x29647, 0x256A60),
  (0x2964E, 0x2D6944_256A63_256A64_256A66_256A65),
  (0x29656, 0x256A68),
  (0x29658, 0x256A67_256A69_256A6A_256A6C_256A6B_256A6D),
  (0x29660, 0x256A6E_256A6F_256A70_256A71),
  (0x29676, 0x256A74_256A73_256A75),
  (0x2967A, 0x256A76),
  (0x2967C, 0x256A77_256A78_256A7A),
  (0x29681, 0x2D6064),
  (0x29684, 0x256A7B_256A7C),
  (0x29687, 0x256B26_256B23_256A7D_2D6067),
  (0x2968C, 0x256B21),
  (0x2968E, 0x2D6065_2D6066),
  (0x29692, 0x256A7E),
  (0x29696, 0x235066_256B27),
  (0x2969B, 0x256B28),
  (0x2969D, 0x256B2C),
  (0x296A0, 0x235064),
  (0x296A4, 0x256B29),
  (0x296A9, 0x256B2D_256B30_256B32_23507C_256B3A_256B38_256B31_256B2E_256B34_256B37),
  (0x296B4, 0x235127_235070_256B33_2D5058),
  (0x296B9, 0x235076),
  (0x296BE, 0x256B3E),
  (0x296C3, 0x23512C),
  (0x296C5, 0x256B3C_256B39_256B3B),
  (0x296CA, 0x2D606E_256B48_256B44),
  (0x296CE, 0x256B45_256B43),
  (0x296D1, 0x256B47),
  (0x296D3, 0x256B40),
  (0x296D8, 0x256B41),
  (0x296DA, 0x256B49),
  (0x296DD, 0x256B57),
  (0x296DF, 0x256B55_256B54_256B4B_235139_256B50_256B4D_235133_256B52_256B51_256B56),
  (0x296EA, 0x256B53),
  (0x296ED, 0x256B4F),
  (0x296F3, 0x256B5B),
  (0x296F5, 0x256B58_256B59),
  (0x296F9, 0x256B5A_235144_256B72_256B6E_235146),
  (0x296FF, 0x256B68),
  (0x29701, 0x256B63),
  (0x29703, 0x256B67),
  (0x29705, 0x256B62),
  (0x29707, 0x256B5D),
  (0x2970A, 0x256B6C_2D6073),
  (0x2970D, 0x256B64),
  (0x29711, 0x256B6B_256B71),
  (0x29716, 0x256B65_256B69),
  (0x29719, 0x2D6124_256B61),
  (0x2971F, 0x256B66),
  (0x29721, 0x256B6D_256B70),
  (0x2972D, 0x256C27),
  (0x2972F, 0x235149_256B7B_256C23_256C26_256B78),
  (0x29735, 0x256C25_256C2A_256C24_256B6F),
  (0x2973D, 0x256B75),
  (0x29748, 0x256B77),
  (0x2974C, 0x256B76),
  (0x29756, 0x256C2C_256C22),
  (0x29759, 0x2D3676_256C34_256C2E_256C31_256C2F_256C39_256C29_256C37_256C35_256B74_256C36),
  (0x29765, 0x256C32),
  (0x29768, 0x256C33),
  (0x2976A, 0x256C30),
  (0x2976D, 0x23515D),
  (0x29771, 0x23515F),
  (0x29776, 0x256C3A_256C38),
  (0x2977D, 0x256C42),
  (0x2977F, 0x256C3E_256C4A),
  (0x29783, 0x256C49_256C40_256C44_256C47),
  (0x29789, 0x256C45),
  (0x2978B, 0x256C3D),
  (0x29791, 0x256C41),
  (0x29799, 0x256C43),
  (0x2979E, 0x256C46),
  (0x297A4, 0x256C56_256C53_256C54_235179_256C57_256C51),
  (0x297AC, 0x256C4F),
  (0x297B6, 0x256C5E),
  (0x297B9, 0x2D6126),
  (0x297BE, 0x256C67_256C5C_256C58_256C5D_256C61_256C5B_23517D_256C6A),
  (0x297C7, 0x256C69_256C60_256C66_256C62),
  (0x297CC, 0x256C64_256C68),
  (0x297CF, 0x23517C),
  (0x297D1, 0x256C5F_256C5A_256C72_256C6D_256C6E),
  (0x297D9, 0x256C6F_256C74),
  (0x297DC, 0x256C73_235224_256C71),
  (0x297E4, 0x256C78),
  (0x297E6, 0x256C79_256C7A_256C7B_256C76_256C77),
  (0x297ED, 0x256C7C_256C7D_256C7E),
  (0x297F3, 0x256D21),
  (0x297F6, 0x256D23),
  (0x297F8, 0x256D25),
  (0x297FA, 0x256D24),
  (0x297FD, 0x256D27),
  (0x29810, 0x2D6128),
  (0x2981A, 0x256D28),
  (0x29823, 0x256D29),
  (0x2982F, 0x256D2C_2D3879),
  (0x29836, 0x256D2D_256D2E),
  (0x29839, 0x235231),
  (0x2983B, 0x256D31),
  (0x2983D, 0x256D2F_256D32),
  (0x29843, 0x256D34_256D35_256D36),
  (0x2984C, 0x256D3B_256D3E_256D3D),
  (0x29850, 0x256D3F_2D612A_256D3C_256D43_256D42_256D40),
  (0x2985D, 0x256D45),
  (0x29860, 0x256D46_256D44_256D47),
  (0x29866, 0x256D4A_256D4D_256D4E_235246),
  (0x2986B, 0x256D50),
  (0x2986F, 0x256D4F_256D51),
  (0x29877, 0x256D59),
  (0x2987A, 0x235255),
  (0x2987E, 0x256D5B),
  (0x29884, 0x256D5A_256D56),
  (0x2988A, 0x256D58),
  (0x2988C, 0x256D53_256D6E_256D6C),
  (0x29892, 0x256D71_256D68_256D61_256D67_256D63_256D64_256D62_256D65_256D72_256D6F),
  (0x298A1, 0x256D69),
  (0x298A5, 0x235266),
  (0x298A8, 0x23525F),
  (0x298AA, 0x256D66_256D6D),
  (0x298AE, 0x235322_235323_256E27_256D79_235272_256D76_256D74),
  (0x298B6, 0x256D7A_256D73_256E26_256D7E),
  (0x298BB, 0x256E24_256D78),
  (0x298BE, 0x235273_256E25),
  (0x298C9, 0x256E29_235275),
  (0x298D1, 0x23526F),
  (0x298D6, 0x256E2A),
  (0x298D8, 0x235327),
  (0x298DA, 0x235328),
  (0x298DD, 0x256E2F_256E30),
  (0x298E1, 0x23532C),
  (0x298E3, 0x256E35_256E34),
  (0x298E9, 0x256E2D),
  (0x298EB, 0x256E31),
  (0x298EE, 0x256E54_256E4D_256E3A_23533C_256E49_256E41_256E37_256E38_256E4F),
  (0x298F8, 0x256E53_256E43_256E3F_256E4C_256E39),
  (0x29901, 0x256E47),
  (0x29905, 0x23533B),
  (0x29908, 0x256E46_256E4B),
  (0x2990B, 0x256E4E),
  (0x2990F, 0x256E3D),
  (0x29912, 0x256E3C),
  (0x29916, 0x256E52_256E40_256E6A_256E56_256E63_256E65),
  (0x2991D, 0x2D6142_256E36_256E64_23535D_256E57),
  (0x29923, 0x256E68_256E5C_256E5B_256E6D),
  (0x29929, 0x256E59),
  (0x2992C, 0x256E61_256E60),
  (0x29935, 0x235350),
  (0x29939, 0x256E6B_256E50),
  (0x2993D, 0x256F21),
  (0x29940, 0x256F23_256E71_256E76_256E6F_23535B_235366),
  (0x29947, 0x23535E_256E7E_235363_256E74_256E7A_256E6E),
  (0x2994F, 0x256E77_256F22_256E7C),
  (0x29954, 0x256F24),
  (0x2995B, 0x23536D_256E75),
  (0x2996B, 0x256F2B_256F28_256F33_256F26_256F2C_256F31),
  (0x29974, 0x256F35),
  (0x2997D, 0x256F36),
  (0x2997F, 0x256E72_256F37_256F32_256F3C),
  (0x29984, 0x256F42_256F44),
  (0x29987, 0x256F3D),
  (0x2998A, 0x256F38_256F47_256F3E),
  (0x2998F, 0x256F41),
  (0x29991, 0x2F2F23),
  (0x29996, 0x256F40),
  (0x29999, 0x256F3F),
  (0x2999B, 0x256F45),
  (0x299A0, 0x256F48),
  (0x299A4, 0x256F4A),
  (0x299A6, 0x2D615B),
  (0x299A8, 0x256F4E),
  (0x299B6, 0x256F54),
  (0x299B9, 0x256F51_23542E),
  (0x299BC, 0x2D613C),
  (0x299C2, 0x256F5A),
  (0x299C4, 0x256F5B_235430_256F5C_256F59),
  (0x299C9, 0x23542F_256F5D_256F5E_256F58),
  (0x299CF, 0x256F62_256F61),
  (0x299D2, 0x256F63),
  (0x299D4, 0x256F64_256F65),
  (0x299D8, 0x256F67_2D6146_256F68),
  (0x299DC, 0x256F66),
  (0x299E1, 0x256F69_2D613D),
  (0x299F4, 0x29527E),
  (0x29A00, 0x295351),
  (0x29A11, 0x256F6A_256F6C_256F6B_256F71_256F6D),
  (0x29A17, 0x235440_256F75_256F6E_256F74_256F72_256F7A_256F78_256F7B),
  (0x29A20, 0x256F7C_256F7D),
  (0x29A23, 0x256F76),
  (0x29A29, 0x256F7E),
  (0x29A2C, 0x257023_257022_257029_25702E_25702F),
  (0x29A32, 0x257024_235447_235446),
  (0x29A36, 0x25702C),
  (0x29A38, 0x257028_25702A_2D6153_257021),
  (0x29A3D, 0x257035_257037_257032),
  (0x29A43, 0x257033),
  (0x29A49, 0x25703E),
  (0x29A4B, 0x25703A_257042_25703F_257041_257038),
  (0x29A52, 0x25703C),
  (0x29A54, 0x257040),
  (0x29A57, 0x25704E_257048),
  (0x29A5B, 0x25704C),
  (0x29A5D, 0x257045),
  (0x29A5F, 0x25704B_257044_257049_25704D),
  (0x29A64, 0x25704A),
  (0x29A66, 0x257043_257047),
  (0x29A6D, 0x257053_25704F_257057_257051),
  (0x29A72, 0x23545B_257059_257052),
  (0x29A76, 0x257055),
  (0x29A7C, 0x257056),
  (0x29A80, 0x235461_257060_25705F_25705A),
  (0x29A88, 0x25705D_235469_257062_257064),
  (0x29A8D, 0x257063_257065),
  (0x29A90, 0x257066_257068),
  (0x29A97, 0x235467_25706A_257069),
  (0x29A9B, 0x25706C_25706B),
  (0x29AA0, 0x25706D_257071_25706F_25706E_257075_257072_257073_257074),
  (0x29AA9, 0x257070),
  (0x29AAD, 0x257077_257076),
  (0x29AB1, 0x257079_23546F),
  (0x29AB4, 0x25707A),
  (0x29AB8, 0x25707C),
  (0x29ABC, 0x257121),
  (0x29ABE, 0x257122),
  (0x29AC0, 0x257125_257128_257127),
  (0x29AC6, 0x235470),
  (0x29ACD, 0x25712C),
  (0x29AD1, 0x235471),
  (0x29AD4, 0x25712D_25712E),
  (0x29AD7, 0x25712F),
  (0x29ADD, 0x257130),
  (0x29AE0, 0x257132),
  (0x29AEA, 0x257137_2D5F29),
  (0x29AED, 0x257138),
  (0x29AF2, 0x25713A_25713B_25713D),
  (0x29AFA, 0x25713E),
  (0x29AFF, 0x25713F_257141),
  (0x29B02, 0x257143),
  (0x29B06, 0x23547B),
  (0x29B0F, 0x257147_257145_23552B),
  (0x29B14, 0x257156),
  (0x29B16, 0x257157_257150),
  (0x29B19, 0x23552C_25714C_25714B_257148_257149_25714F_257155_257152),
  (0x29B29, 0x25714D),
  (0x29B2B, 0x25714E),
  (0x29B2D, 0x257151_257154),
  (0x29B30, 0x25715E_257163),
  (0x29B33, 0x257161),
  (0x29B35, 0x257165_25715C_257164_257158_25715B_257162_257166),
  (0x29B3D, 0x25715D),
  (0x29B42, 0x235530),
  (0x29B47, 0x25716F),
  (0x29B4A, 0x25716B),
  (0x29B4C, 0x25716C),
  (0x29B4E, 0x257171_257173_25716E_257168_25716D_257169),
  (0x29B5D, 0x257172_257176_25717E_257223_25717C_257221_23553F),
  (0x29B65, 0x257225),
  (0x29B67, 0x257222_25717D_257177_23553D_257179),
  (0x29B77, 0x25717A),
  (0x29B7A, 0x235546),
  (0x29B7D, 0x257228_235544_257230_257235_25722B_25722E),
  (0x29B84, 0x257232_25722D),
  (0x29B88, 0x257229),
  (0x29B8F, 0x25722C_25722F),
  (0x29B96, 0x25723D_23554B_257237_25723C_25723B_257238_235551_23554C_25723F_257239_257236),
  (0x29BAB, 0x257240),
  (0x29BAE, 0x25723E_257244_25724A_257243),
  (0x29BB3, 0x257245_257248_257242_257246_257249),
  (0x29BB9, 0x257247),
  (0x29BC3, 0x257251_25724E_25724C_257252_257250_25724D_257254_23555B_257253_25724F_257255),
  (0x29BCF, 0x257256),
  (0x29BDB, 0x25725B_257259_257258_25725A),
  (0x29BE6, 0x235561),
  (0x29BE8, 0x235563),
  (0x29BF0, 0x257260_25725F_25725D_25725E),
  (0x29BFA, 0x257262),
  (0x29BFE, 0x257263),
  (0x29C00, 0x257261_235569_257264_257265),
  (0x29C07, 0x257266),
  (0x29C09, 0x257267_257268_257269_25726A_25726B_23556B),
  (0x29C13, 0x2D6169),
  (0x29C17, 0x25726C),
  (0x29C1D, 0x235571_235572_235575_25726D_25726E_235577),
  (0x29C24, 0x25726F),
  (0x29C2A, 0x257270_235578),
  (0x29C2D, 0x257271),
  (0x29C2F, 0x257273),
  (0x29C32, 0x257275_257277_257276),
  (0x29C36, 0x257274),
  (0x29C39, 0x23557E),
  (0x29C3E, 0x235621),
  (0x29C42, 0x257278),
  (0x29C44, 0x25727A),
  (0x29C46, 0x257279_25727B),
  (0x29C4F, 0x25727D),
  (0x29C53, 0x257322_257321),
  (0x29C57, 0x257323_23562A_25727E_23562B),
  (0x29C5C, 0x235626),
  (0x29C5E, 0x257324),
  (0x29C61, 0x257325),
  (0x29C66, 0x257329_257328),
  (0x29C6A, 0x257327_25732A_25732B_25732C_25732D),
  (0x29C71, 0x23562E_23562D_25732E_23562F),
  (0x29C77, 0x25732F),
  (0x29C79, 0x257330),
  (0x29C7B, 0x257331_257332),
  (0x29C81, 0x257338_257334_257337_257335),
  (0x29C89, 0x257333_25733E_257339_25733A_25733D_25733B_235634_25733C),
  (0x29CA2, 0x257342_257343),
  (0x29CA6, 0x257347_257341),
  (0x29CA9, 0x25734B_25734A_235638),
  (0x29CB1, 0x25733F),
  (0x29CB3, 0x257346_257344_257349),
  (0x29CB7, 0x257348),
  (0x29CB9, 0x257345),
  (0x29CBB, 0x25734D),
  (0x29CBD, 0x257350_25734F),
  (0x29CC0, 0x25734E_235639),
  (0x29CC5, 0x257355_257354_257353_257357),
  (0x29CCB, 0x257352_25735A_25735D_257362_257364_25735B),
  (0x29CD2, 0x25735C_25735E_257359_257363),
  (0x29CD8, 0x25735F_257360),
  (0x29CDD, 0x257358),
  (0x29CE1, 0x257361_257368_257365_25736E_25736A_257370_25736D_25736F),
  (0x29CEF, 0x257367),
  (0x29CF2, 0x257371),
  (0x29CF5, 0x257375_257374),
  (0x29CF8, 0x257376),
  (0x29CFD, 0x235642),
  (0x29D00, 0x257369),
  (0x29D03, 0x257377),
  (0x29D06, 0x25737B_25737A),
  (0x29D09, 0x257378),
  (0x29D0D, 0x257379),
  (0x29D10, 0x25737D_257424_25737E_23564B),
  (0x29D16, 0x235648),
  (0x29D18, 0x257423_25737C),
  (0x29D1C, 0x257422_257429_257373_257421_257427_25742C),
  (0x29D23, 0x257428_25742A),
  (0x29D28, 0x257425_257426_25742D),
  (0x29D2E, 0x25742F_25742E),
  (0x29D31, 0x235650_257431_257430),
  (0x29D36, 0x235640),
  (0x29D3A, 0x257432_257433),
  (0x29D3E, 0x235653),
  (0x29D40, 0x257434),
  (0x29D44, 0x257435_257436),
  (0x29D47, 0x257437_257438),
  (0x29D4A, 0x257439_2D6174_25743B_25743D_25743A_235658),
  (0x29D51, 0x25743F),
  (0x29D55, 0x257444_257445_257441),
  (0x29D59, 0x23565A),
  (0x29D5B, 0x257443),
  (0x29D60, 0x257455_257457_257456_25744E),
  (0x29D65, 0x257450_25744D),
  (0x29D69, 0x235665),
  (0x29D6B, 0x257448_257447_25744A),
  (0x29D71, 0x257454),
  (0x29D73, 0x23565E),
  (0x29D79, 0x235671),
  (0x29D7B, 0x235669),
  (0x29D80, 0x25744C_235724_25745B),
  (0x29D84, 0x257460_235735),
  (0x29D87, 0x257466_257465_25745F),
  (0x29D8C, 0x257464),
  (0x29D8E, 0x257463),
  (0x29D95, 0x257469_257461),
  (0x29D9B, 0x23567D),
  (0x29D9E, 0x25745D),
  (0x29DA1, 0x23574B_257471_257476_257474_25746E_25746B_257475),
  (0x29DA9, 0x25746F),
  (0x29DAB, 0x257478),
  (0x29DAD, 0x235748),
  (0x29DAF, 0x235753_257473),
  (0x29DB6, 0x235737),
  (0x29DBF, 0x257470),
  (0x29DC2, 0x25746C),
  (0x29DCB, 0x25745C_257477_235773_25752C_235764_25747C),
  (0x29DD2, 0x235769_25747E),
  (0x29DD5, 0x257479_257528_25752D),
  (0x29DD9, 0x25747B),
  (0x29DE0, 0x235765),
  (0x29DF4, 0x25752E_257523),
  (0x29DF9, 0x23582A),
  (0x29DFB, 0x25753B_257537_257544),
  (0x29E00, 0x25754B_257527_25754F_25754C_235829),
  (0x29E06, 0x257541_257540),
  (0x29E0B, 0x25753C_257545),
  (0x29E0E, 0x257533),
  (0x29E10, 0x25754E),
  (0x29E1F, 0x257550),
  (0x29E22, 0x257547),
  (0x29E25, 0x257536),
  (0x29E27, 0x257534_257532),
  (0x29E2D, 0x235775),
  (0x29E39, 0x25753A),
  (0x29E3E, 0x235846),
  (0x29E40, 0x257558_257531_25755D),
  (0x29E44, 0x25755C_25755F),
  (0x29E47, 0x235840_257555_25755B_257553),
  (0x29E4D, 0x257556_257551_257562),
  (0x29E51, 0x257560),
  (0x29E62, 0x25755E),
  (0x29E65, 0x257563),
  (0x29E71, 0x257565_23586B_25756D_257570),
  (0x29E76, 0x235868_257571_257567),
  (0x29E7A, 0x23586C),
  (0x29E7C, 0x25756A),
  (0x29E7E, 0x23587C),
  (0x29E80, 0x23587D),
  (0x29E84, 0x25756E),
  (0x29E9B, 0x25756F),
  (0x29EAB, 0x257572),
  (0x29EAD, 0x257575_257576_257577_235935_25757B_23586D),
  (0x29EB4, 0x2D6228_257622),
  (0x29EB7, 0x257621_25757C),
  (0x29EC8, 0x23587A),
  (0x29ECA, 0x25757E),
  (0x29ED6, 0x257623),
  (0x29ED8, 0x25762A),
  (0x29EDA, 0x257631_235941_235943_257627),
  (0x29EE4, 0x25762E),
  (0x29EE7, 0x25762D),
  (0x29EF4, 0x235948),
  (0x29F02, 0x257634_25763A_25763C_257639_2D617C),
  (0x29F08, 0x235957_257638_257632_25763D_257643_257642_257635),
  (0x29F12, 0x257636),
  (0x29F14, 0x23594A_23595D),
  (0x29F17, 0x235954),
  (0x29F1C, 0x2F2B69),
  (0x29F1E, 0x33617C_25763B),
  (0x29F26, 0x257648_257645_25764C),
  (0x29F2A, 0x257644),
  (0x29F2D, 0x257649),
  (0x29F33, 0x25764B_257646),
  (0x29F3D, 0x257651),
  (0x29F40, 0x25764E_25764D),
  (0x29F45, 0x235961),
  (0x29F4C, 0x257650_257653_257654_257652_235969),
  (0x29F55, 0x257655),
  (0x29F5B, 0x257657_257656_25765A_257659),
  (0x29F61, 0x257658),
  (0x29F67, 0x25765E_25765C_23596A_25765B),
  (0x29F6C, 0x257660),
  (0x29F6E, 0x23596C),
  (0x29F70, 0x25765F),
  (0x29F73, 0x257661),
  (0x29F75, 0x23596E),
  (0x29F77, 0x257662),
  (0x29F81, 0x29575C),
  (0x29F90, 0x235970),
  (0x29F92, 0x257666),
  (0x29F94, 0x257665_257667),
  (0x29F97, 0x235971_257669_257668),
  (0x29F9E, 0x257677_257673_257672_257675_25766B_257674),
  (0x29FA7, 0x257676),
  (0x29FAC, 0x257671),
  (0x29FB1, 0x25773F_25773D_25767D_235A2A_257721_25767E_257723_257727_25773B_257724_257740_25772D),
  (0x29FBD, 0x25767B_257734_257739_25772E_25772C_257731_257736_25772F_257728),
  (0x29FC7, 0x2D5F40_257743_257735),
  (0x29FCB, 0x257726),
  (0x29FD3, 0x257737),
  (0x29FD5, 0x25773C),
  (0x29FD8, 0x235A29),
  (0x29FDB, 0x257729),
  (0x29FDD, 0x25774D_257759_257748_25774F_257758_235A2E_235A37_25774B_25775C_235A3E_257764),
  (0x29FEA, 0x257761),
  (0x29FEC, 0x257751),
  (0x29FF5, 0x235A34),
  (0x29FFE, 0x235A45),
  (0x2A00A, 0x257757),
  (0x2A00D, 0x257760),
  (0x2A012, 0x25776D_257827_257773_25777C_25777D_257825_235A5A),
  (0x2A01A, 0x257774_257770),
  (0x2A01D, 0x257766_257769_25777B_257828_257775_257821_257826_257765_257768_235A56_25776B),
  (0x2A029, 0x257823),
  (0x2A02C, 0x25776A_257779),
  (0x2A03A, 0x257778),
  (0x2A040, 0x257771),
  (0x2A04A, 0x25783C),
  (0x2A04D, 0x257835_257840_235A7D_257849_235A7E_257832_257836_25782D_25782C),
  (0x2A057, 0x2D6238_25782B_25783E_25782A_235B2B_25782E),
  (0x2A05E, 0x25783F),
  (0x2A060, 0x25782F),
  (0x2A062, 0x25783A_257842),
  (0x2A065, 0x257839_257847_257838),
  (0x2A069, 0x2D5F47_235A76),
  (0x2A06E, 0x25784A),
  (0x2A072, 0x257830),
  (0x2A077, 0x257850_25784E_257871_257866_257858_25786F_257852_257868_25785E_25786A),
  (0x2A084, 0x257870_257857_235B4E_257863_25784C_235B3B),
  (0x2A08B, 0x25785C_257862_257854),
  (0x2A090, 0x25785B_25784D_25786E_257864),
  (0x2A095, 0x257855),
  (0x2A09B, 0x257861_25785D),
  (0x2A09E, 0x257867),
  (0x2A0A0, 0x257865_2D6245),
  (0x2A0A4, 0x25786D),
  (0x2A0AA, 0x257859),
  (0x2A0B6, 0x257922),
  (0x2A0B9, 0x25787B_25793F),
  (0x2A0BC, 0x257928_25793C_25793B),
  (0x2A0C0, 0x257931_25793E_257876_235B72_25792E_25792A_257924_25787C_235B5B_257929_25793A_235B5F),
  (0x2A0CC, 0x25792B_25792D_257935_25787E),
  (0x2A0D1, 0x25792C_257874_257944),
  (0x2A0D5, 0x257872_257932),
  (0x2A0DA, 0x257934_257873_257879_257937),
  (0x2A0E2, 0x235B65_257925),
  (0x2A0EB, 0x257940),
  (0x2A0ED, 0x257877),
  (0x2A0F0, 0x257942),
  (0x2A0F6, 0x257936_257933_257926),
  (0x2A0FA, 0x25794C),
  (0x2A0FC, 0x25795B_257947_257948_257954),
  (0x2A101, 0x25794B_25794A),
  (0x2A104, 0x2D3D56_257960_257959_25795E_25794E_25795F_257956_257945_25794F_257930_257950_257949),
  (0x2A110, 0x257952),
  (0x2A112, 0x257957),
  (0x2A117, 0x257951),
  (0x2A11D, 0x25795D),
  (0x2A123, 0x235B54),
  (0x2A129, 0x25795C),
  (0x2A12B, 0x257946),
  (0x2A12D, 0x235C42_25796A_257969),
  (0x2A131, 0x235C38_257967_25796F),
  (0x2A135, 0x257927_257970_25796D_25796C_257978),
  (0x2A13B, 0x257972),
  (0x2A13D, 0x257974_257A21_235C44),
  (0x2A143, 0x235C40_257962_257976_257963_257977_25797C_257958_25797D_25796E_25797E),
  (0x2A14E, 0x25795A_257A30),
  (0x2A156, 0x25796B),
  (0x2A15D, 0x25797A),
  (0x2A16E, 0x235C3B),
  (0x2A170, 0x257A40_257A2F_257A3A),
  (0x2A174, 0x257A29_257A31),
  (0x2A179, 0x257A38_257A32_257A39_257A2B_257A2A_235C60_257A2E_257A2C_257A2D_235C76),
  (0x2A184, 0x257A37),
  (0x2A186, 0x257A33),
  (0x2A189, 0x257A27_257971_257A3E),
  (0x2A19B, 0x257A34),
  (0x2A19F, 0x257A25_257A23),
  (0x2A1A8, 0x257A36),
  (0x2A1AA, 0x475C22_235C64),
  (0x2A1AF, 0x257A4A_235C78_235D22_257A45_257A4F_257A4B_235C6E_257A4C_257A50_257A44_257A4E_2D477E),
  (0x2A1BE, 0x2D6242_257A42_257A48_257A49_257A46),
  (0x2A1C7, 0x257A52_257A51_257A43),
  (0x2A1D1, 0x257A5F_257A53_257A5C),
  (0x2A1D5, 0x257A54_257A56_257A58_257A57),
  (0x2A1DB, 0x257A55_257A5B_257A5E_262328),
  (0x2A1E1, 0x257A5A),
  (0x2A1ED, 0x257A65),
  (0x2A1EF, 0x257A61_235D2E_235D31_235D32_235D30_257A64_257A60),
  (0x2A1F7, 0x235D2D),
  (0x2A1F9, 0x257A66),
  (0x2A200, 0x257A63),
  (0x2A203, 0x257A69),
  (0x2A206, 0x257A6B_257A6F),
  (0x2A209, 0x257A6C),
  (0x2A20B, 0x257A68_257A70_257A6D),
  (0x2A210, 0x257A6A),
  (0x2A217, 0x257A67_257A73),
  (0x2A21C, 0x257A74),
  (0x2A21E, 0x257A71_257A72),
  (0x2A225, 0x257A77),
  (0x2A227, 0x257A76_257A78_257A75_257A79),
  (0x2A22F, 0x257A7A_257A7D_257A7C),
  (0x2A234, 0x257B22),
  (0x2A238, 0x257B24),
  (0x2A23A, 0x257B25_257B27_257B28),
  (0x2A23F, 0x257B2A),
  (0x2A24A, 0x295C68),
  (0x2A256, 0x257B2C_257B2B_257B2D),
  (0x2A25C, 0x257B2F_257B2E),
  (0x2A262, 0x257B31_257B32),
  (0x2A266, 0x257B36_2F4153_257B35),
  (0x2A26A, 0x257B34),
  (0x2A26D, 0x257B38_235D41_257B37),
  (0x2A271, 0x235D40),
  (0x2A275, 0x257B39_257B3A_257B3B_235D44),
  (0x2A27B, 0x257B3D),
  (0x2A27F, 0x257B3F_257B3E),
  (0x2A284, 0x257B41),
  (0x2A286, 0x257B42_257B43),
  (0x2A289, 0x257B45_235D46),
  (0x2A28D, 0x257B47),
  (0x2A28F, 0x257B4A_257B4B),
  (0x2A292, 0x257B4C),
  (0x2A295, 0x257B49),
  (0x2A297, 0x257B4D),
  (0x2A29C, 0x257B4E),
  (0x2A2A2, 0x257B51),
  (0x2A2A5, 0x257B54_257B58_235D51_2D6254_257B57_257B5B_257B55_2D574F_257B5A),
  (0x2A2B3, 0x257B53_257B63_257B5F_257B64_257B5E),
  (0x2A2B9, 0x257B61),
  (0x2A2BB, 0x257B62),
  (0x2A2BF, 0x257B66),
  (0x2A2C1, 0x257B60_257B65),
  (0x2A2C4, 0x257B69_257B68_257B6E_257B6F),
  (0x2A2C9, 0x257B6C_257B6D),
  (0x2A2CC, 0x257B67),
  (0x2A2CF, 0x257B6A_235D60_257B6B),
  (0x2A2D6, 0x257B71_257B73),
  (0x2A2DA, 0x257B72),
  (0x2A2DC, 0x257B76_235D64),
  (0x2A2E1, 0x257B7B_257B79_257B7A),
  (0x2A2E7, 0x2D6259),
  (0x2A2EA, 0x257B7C_257C21_257B7E),
  (0x2A2EE, 0x235D69_257C22_257B7D_257C23),
  (0x2A2F9, 0x257C26_257C27),
  (0x2A2FE, 0x257C29_235D6D_257C28_257C2A_257C2F_257C2C_257C2D_257C37_257C39_257C3D_257C34_257C30),
  (0x2A30A, 0x257C35),
  (0x2A30C, 0x257C31_257C3C),
  (0x2A310, 0x257C3F_2D497C_2D7877_257C3B),
  (0x2A316, 0x257C45),
  (0x2A318, 0x235D74),
  (0x2A31A, 0x257C47),
  (0x2A31D, 0x257C44_257C43_257C48_257C41),
  (0x2A322, 0x257C4B_257C51_257C4D_257C4F),
  (0x2A327, 0x257C4A_257C4C_257C50_257C4E_257C52),
  (0x2A32D, 0x257C59_257C54),
  (0x2A330, 0x257C57_257C5E),
  (0x2A335, 0x257C55_257C56_257C5A),
  (0x2A339, 0x257C5C_257C58),
  (0x2A33C, 0x257C6B_257C68_257C69_257C6D_257C62_257C67_257C60),
  (0x2A344, 0x257C6E_257C61_257C6A_257C6C_257C66),
  (0x2A34C, 0x257C72),
  (0x2A34E, 0x257C73_257C74),
  (0x2A353, 0x257C71_257C75),
  (0x2A357, 0x257C76),
  (0x2A35A, 0x257C70_257C78),
  (0x2A35D, 0x257C7B),
  (0x2A35F, 0x257C7A_235E25_257C77),
  (0x2A363, 0x257D25_257D26),
  (0x2A366, 0x257D21_257C7C),
  (0x2A369, 0x257D22_257D23),
  (0x2A36C, 0x257C65_257D24_257C7E),
  (0x2A372, 0x257D2C_257D2B_257D29_257D2D_257D28),
  (0x2A378, 0x257D2F_257D32_257D31_257D30),
  (0x2A37D, 0x257D2E),
  (0x2A37F, 0x257D33),
  (0x2A381, 0x257D34),
  (0x2A383, 0x257D36_257D35_257D37_257D38_257D39),
  (0x2A392, 0x257D3C_257D3B_257D3A_235E2C_257D3D_257D3E),
  (0x2A39B, 0x257D43_257D41_257D40_257D42),
  (0x2A3A0, 0x257D46_257D45),
  (0x2A3A4, 0x257D47_257D4A_257D49),
  (0x2A3A8, 0x235E2E),
  (0x2A3AB, 0x257D4C),
  (0x2A3AD, 0x235E31_257D4E_257D4D),
  (0x2A3B2, 0x257D4F_257D50_257D51_257D53_257D55),
  (0x2A3B8, 0x257D52_257D54_257D57_257D59_257D5D),
  (0x2A3BE, 0x257D5B),
  (0x2A3C0, 0x257D5A_257D58_235E3C),
  (0x2A3C5, 0x257D5E_235E3D_257D62_257D63_257D61_257D64_257D5F),
  (0x2A3CD, 0x257D67),
  (0x2A3CF, 0x257D66),
  (0x2A3D2, 0x257D68_257D6D_257D6B_257D69_257D6A),
  (0x2A3D9, 0x257D6F),
  (0x2A3DE, 0x257D6E_257D71_257D72)]

/-- Part of `writes`. -/
def writes4 : Chart := wide24 [
  (0x2A3E2, 0x257D70),
  (0x2A3E4, 0x257D73_257D74_257D75),
  (0x2A3E8, 0x257D76_257D77_257D78_257D79),
  (0x2A3EE, 0x235E43),
  (0x2A3F1, 0x257D7D_257D7C_257D7B_257E21),
  (0x2A3F6, 0x257E26_257E27_257E23),
  (0x2A3FA, 0x257E22_257E24),
  (0x2A3FE, 0x257E25_235E45_257E28),
  (0x2A402, 0x257E29_257E2A_235E48),
  (0x2A407, 0x257E2F),
  (0x2A40B, 0x257E30_257E33_257E34_257E32_235E49),
  (0x2A413, 0x257E36_257E38),
  (0x2A416, 0x257E37),
  (0x2A418, 0x257E39),
  (0x2A41A, 0x257E3A),
  (0x2A41D, 0x257E3B_257E3F_257E3E),
  (0x2A423, 0x257E3C_257E44_257E46_257E43_257E45_257E40_257E41),
  (0x2A42B, 0x2D6266),
  (0x2A42E, 0x257E4B_257E48_257E42),
  (0x2A432, 0x257E4F),
  (0x2A434, 0x257E4C),
  (0x2A43A, 0x257E51_257E50),
  (0x2A43F, 0x257E59_257E55),
  (0x2A442, 0x257E57_257E4E_257E5A),
  (0x2A446, 0x257E54_257E56_257E5E_257E5D_257E5F_257E63_257E62),
  (0x2A44E, 0x257E5B_257E60_257E5C),
  (0x2A452, 0x257E68_257E65),
  (0x2A455, 0x257E72_257E69_257E67),
  (0x2A459, 0x257E70_257E6A_2D6271_257E71_257E6C),
  (0x2A45F, 0x257E6D),
  (0x2A462, 0x257E6E),
  (0x2A466, 0x262223_257E7D_257E7E_257E77_257E74_257E75_257E76_262222_257E7C_262228_257E78_235E5F),
  (0x2A475, 0x257E7A_262221_262224_257E79_262225),
  (0x2A47B, 0x262226_257E7B),
  (0x2A47E, 0x26222E_26222F_235E67),
  (0x2A482, 0x26222B),
  (0x2A484, 0x26222A),
  (0x2A486, 0x26222C_26222D),
  (0x2A48A, 0x262232_262231),
  (0x2A48D, 0x262229),
  (0x2A48F, 0x262234),
  (0x2A491, 0x262237_262235_262236_262233_262239),
  (0x2A498, 0x26223E_262240),
  (0x2A49B, 0x26223F_26223C_26223D),
  (0x2A49F, 0x26223B_235E68_235E6C_262241_262238),
  (0x2A4A9, 0x262244_262243_262249_262245_262248_2D487B_262246),
  (0x2A4B2, 0x262247),
  (0x2A4B4, 0x26224A),
  (0x2A4B9, 0x235E72_26224E_26224B_26224C),
  (0x2A4BE, 0x26224D_26224F_262250),
  (0x2A4C3, 0x262251_262252_262253),
  (0x2A4C9, 0x262254_262255_262257_235E78),
  (0x2A4CE, 0x262259_262258_235E79),
  (0x2A4D4, 0x26225B),
  (0x2A4DA, 0x26225E_235E7E_26225D),
  (0x2A4E1, 0x26225F),
  (0x2A4E7, 0x262262),
  (0x2A4EC, 0x235F24_2F295B_262265),
  (0x2A4F0, 0x262264),
  (0x2A4F4, 0x235F26),
  (0x2A4F6, 0x2D6273_235F28),
  (0x2A4F9, 0x235F29),
  (0x2A4FC, 0x262268),
  (0x2A4FF, 0x235F2E),
  (0x2A503, 0x235F30),
  (0x2A505, 0x26226B_26226A),
  (0x2A50B, 0x26226F),
  (0x2A511, 0x262271),
  (0x2A514, 0x26227A_235F36_262277_262279_262278_262276),
  (0x2A51C, 0x26227B),
  (0x2A51F, 0x26227C),
  (0x2A526, 0x262321_235F3A),
  (0x2A529, 0x262323_262325_262324_262322),
  (0x2A530, 0x262327),
  (0x2A533, 0x235F3F),
  (0x2A536, 0x262329_26232A),
  (0x2A53A, 0x26232B),
  (0x2A53C, 0x26232C),
  (0x2A53E, 0x262332_262334_262331_26232E_262335_26232D),
  (0x2A546, 0x262336_26232F_262333),
  (0x2A54A, 0x235F51),
  (0x2A54C, 0x26233A_262339_262337),
  (0x2A550, 0x262338),
  (0x2A552, 0x26233B_26233D_26233C),
  (0x2A559, 0x26233E),
  (0x2A55D, 0x262342_235F56),
  (0x2A560, 0x26233F),
  (0x2A564, 0x262341),
  (0x2A566, 0x262343),
  (0x2A568, 0x262345_262344),
  (0x2A56B, 0x26234A_262346_26234C_262348_262349_262347_235F5A),
  (0x2A574, 0x26234D),
  (0x2A577, 0x26234F),
  (0x2A579, 0x26234E),
  (0x2A57F, 0x26236F_262353_262354_262351),
  (0x2A584, 0x262352),
  (0x2A586, 0x262355_235F62_262357_262356_262358_262359_26235B_26235A),
  (0x2A590, 0x26235C_26235E),
  (0x2A595, 0x262360),
  (0x2A59A, 0x262362_262364_262363),
  (0x2A59E, 0x262361),
  (0x2A5A2, 0x235F6A_262366),
  (0x2A5A5, 0x26236B_262369),
  (0x2A5A9, 0x26236A_26236C),
  (0x2A5AF, 0x26236D_2D3753),
  (0x2A5B3, 0x26236E),
  (0x2A5B5, 0x235F6E_262370_262371),
  (0x2A5BC, 0x262372),
  (0x2A5C1, 0x262375_262376),
  (0x2A5C5, 0x262377_262378_26237B),
  (0x2A5C9, 0x235F77),
  (0x2A5CB, 0x235F78),
  (0x2A5CD, 0x235F7A),
  (0x2A5CF, 0x26237E_26237D),
  (0x2A5D4, 0x262421),
  (0x2A5D6, 0x262422),
  (0x2A5D9, 0x235F7D),
  (0x2A5DC, 0x262424_262425),
  (0x2A5E4, 0x262426),
  (0x2A5E6, 0x26242D_26242C_23602A),
  (0x2A5EA, 0x26242A_262430_26242B_23602E_26242E),
  (0x2A5F4, 0x262429_26242F),
  (0x2A5F7, 0x262438_262439_262431_262432_236034_26243A_236036_236033),
  (0x2A600, 0x236030_26243B),
  (0x2A603, 0x262433),
  (0x2A606, 0x26243D_26243C),
  (0x2A609, 0x262437_26243E),
  (0x2A60D, 0x262434_26243F_2F394C_262447_262445_262449_236038),
  (0x2A615, 0x26244A),
  (0x2A617, 0x26244B),
  (0x2A61C, 0x262440_262443),
  (0x2A623, 0x262441_262448_236041_26244D_236039_23603D),
  (0x2A62A, 0x262450),
  (0x2A62C, 0x23603E_262451),
  (0x2A631, 0x262453_26244C_26244E),
  (0x2A636, 0x26244F),
  (0x2A639, 0x26245A_262454_262455_262457),
  (0x2A63E, 0x26245B),
  (0x2A640, 0x262458),
  (0x2A645, 0x26245D),
  (0x2A648, 0x26245C_236049_236048_262463_262460_23604C_262465_26245F),
  (0x2A651, 0x23604B),
  (0x2A654, 0x26245E),
  (0x2A656, 0x262464),
  (0x2A659, 0x262461),
  (0x2A65B, 0x262467),
  (0x2A65D, 0x26246A_262466_262469),
  (0x2A662, 0x262468_26246E_236054),
  (0x2A666, 0x26246F_262471_26246D),
  (0x2A66D, 0x26246C),
  (0x2A670, 0x262474),
  (0x2A672, 0x262473_262475_262472),
  (0x2A677, 0x262479),
  (0x2A679, 0x262478_262477),
  (0x2A67D, 0x26247A_26247C_26247B),
  (0x2A681, 0x236059_26247D_26247E),
  (0x2A687, 0x262522),
  (0x2A689, 0x262521),
  (0x2A68D, 0x262525_262524),
  (0x2A691, 0x262526),
  (0x2A693, 0x262527),
  (0x2A698, 0x262528),
  (0x2A69D, 0x236060),
  (0x2A6A0, 0x236063),
  (0x2A6A2, 0x26252B),
  (0x2A6A5, 0x26252D),
  (0x2A6AC, 0x262531_262530_262532_26252F_236067),
  (0x2A6B6, 0x262538_262535_262536_262534_262533_262537),
  (0x2A6C0, 0x262539),
  (0x2A6C2, 0x26253B_26253A),
  (0x2A6C8, 0x26253C),
  (0x2A6CA, 0x26253E),
  (0x2A6CF, 0x26253F),
  (0x2F80E, 0x333277_333279),
  (0x2F827, 0x4B3439_216C63),
  (0x2F82A, 0x2D6C6B),
  (0x2F835, 0x2D4946_393323),
  (0x2F838, 0x236C71),
  (0x2F83A, 0x236D26_2D354A),
  (0x2F840, 0x216F65),
  (0x2F848, 0x2D712B_2D3664),
  (0x2F84C, 0x4B372C),
  (0x2F850, 0x2D3352),
  (0x2F853, 0x2D763D),
  (0x2F856, 0x2D7542),
  (0x2F867, 0x237A24),
  (0x2F86E, 0x2D7E73),
  (0x2F873, 0x2D3B40),
  (0x2F877, 0x2D3B5E),
  (0x2F87A, 0x222379),
  (0x2F87F, 0x222540),
  (0x2F8A1, 0x2D3F26),
  (0x2F8B1, 0x24333A),
  (0x2F8B4, 0x24346D),
  (0x2F8B8, 0x2D4046),
  (0x2F8BE, 0x223248),
  (0x2F8D0, 0x243D60),
  (0x2F8DA, 0x243E7D_2D4371_2E3A6E),
  (0x2F8E3, 0x2D443D),
  (0x2F8FD, 0x244A7B),
  (0x2F908, 0x394824),
  (0x2F90C, 0x2D4843),
  (0x2F914, 0x2D476F),
  (0x2F934, 0x2F255C),
  (0x2F93C, 0x22606C_2D4D2F),
  (0x2F940, 0x4B4D45),
  (0x2F945, 0x2D4D4F),
  (0x2F94A, 0x4C6266),
  (0x2F963, 0x33503A),
  (0x2F997, 0x292675),
  (0x2F9AA, 0x2F2526),
  (0x2F9AE, 0x2F256D),
  (0x2F9B1, 0x253651),
  (0x2F9BC, 0x232B23),
  (0x2F9C3, 0x2F2D61),
  (0x2F9D0, 0x2D5930),
  (0x2F9D3, 0x23362C),
  (0x2F9D5, 0x2D5976_2D5A42),
  (0x2F9DF, 0x2D5B4E),
  (0x2F9E9, 0x2F4431_2F433E),
  (0x2F9FC, 0x256737_256745)]

/-- The lines of /repo/modules/to/CCCII.txt: character, code; sorted.  Of several lines for one character only the first is kept, which is the one
that counts (C50). -/
def writes : Chart := writes0 ++ (writes1 ++ (writes2 ++ (writes3 ++ (writes4))))

end Verif.Cccii
