import Verif.Spec.Charset
/-
Generated by tools/charsets.py from rule files of /repo/modules/from and /repo/modules/to.
-/
namespace Verif.Charsets
open Verif.Spec

set_option maxRecDepth 100000

/-- The rules of /repo/modules/from/_JIS0201.txt: code, character.  No two lines have the same code, so their order does not matter; here they
are sorted. -/
def jis0201Reads : Chart := Chart.wide [
  (0x5C, 0x00A5),
  (0x7E, 0x203E),
  (0xA1, 0xFF61_FF62_FF63_FF64_FF65_FF66_FF67_FF68_FF69_FF6A_FF6B_FF6C),
  (0xAD, 0xFF6D_FF6E_FF6F_FF70_FF71_FF72_FF73_FF74_FF75_FF76_FF77_FF78),
  (0xB9, 0xFF79_FF7A_FF7B_FF7C_FF7D_FF7E_FF7F_FF80_FF81_FF82_FF83_FF84),
  (0xC5, 0xFF85_FF86_FF87_FF88_FF89_FF8A_FF8B_FF8C_FF8D_FF8E_FF8F_FF90),
  (0xD1, 0xFF91_FF92_FF93_FF94_FF95_FF96_FF97_FF98_FF99_FF9A_FF9B_FF9C),
  (0xDD, 0xFF9D_FF9E_FF9F)]

/-- /repo/modules/from/_JIS0201.txt; there is no file for writing. -/
def jis0201 : Charset where
  reads := jis0201Reads
  writes := []

/-- The rules of /repo/modules/from/_JIS0208.txt: code, character.  No two lines have the same code, so their order does not matter; here they
are sorted. -/
def jis0208Reads : Chart := Chart.wide [
  (0x2121, 0x3000_3001_3002_FF0C_FF0E_30FB_FF1A_FF1B_FF1F_FF01_309B_309C),
  (0x212D, 0x00B4_FF40_00A8_FF3E_FFE3_FF3F_30FD_30FE_309D_309E_3003_4EDD),
  (0x2139, 0x3005_3006_3007_30FC_2015_2010_FF0F_005C_301C_2016_FF5C_2026),
  (0x2145, 0x2025_2018_2019_201C_201D_FF08_FF09_3014_3015_FF3B_FF3D_FF5B),
  (0x2151, 0xFF5D_3008_3009_300A_300B_300C_300D_300E_300F_3010_3011_FF0B),
  (0x215D, 0x2212_00B1_00D7_00F7_FF1D_2260_FF1C_FF1E_2266_2267_221E_2234),
  (0x2169, 0x2642_2640_00B0_2032_2033_2103_FFE5_FF04_00A2_00A3_FF05_FF03),
  (0x2175, 0xFF06_FF0A_FF20_00A7_2606_2605_25CB_25CF_25CE_25C7),
  (0x2221, 0x25C6_25A1_25A0_25B3_25B2_25BD_25BC_203B_3012_2192_2190_2191),
  (0x222D, 0x2193_3013),
  (0x223A, 0x2208_220B_2286_2287_2282_2283_222A_2229),
  (0x224A, 0x2227_2228_00AC_21D2_21D4_2200_2203),
  (0x225C, 0x2220_22A5_2312_2202_2207_2261_2252_226A_226B_221A_223D_221D),
  (0x2268, 0x2235_222B_222C),
  (0x2272, 0x212B_2030_266F_266D_266A_2020_2021_00B6),
  (0x227E, 0x25EF),
  (0x2330, 0xFF10_FF11_FF12_FF13_FF14_FF15_FF16_FF17_FF18_FF19),
  (0x2341, 0xFF21_FF22_FF23_FF24_FF25_FF26_FF27_FF28_FF29_FF2A_FF2B_FF2C),
  (0x234D, 0xFF2D_FF2E_FF2F_FF30_FF31_FF32_FF33_FF34_FF35_FF36_FF37_FF38),
  (0x2359, 0xFF39_FF3A),
  (0x2361, 0xFF41_FF42_FF43_FF44_FF45_FF46_FF47_FF48_FF49_FF4A_FF4B_FF4C),
  (0x236D, 0xFF4D_FF4E_FF4F_FF50_FF51_FF52_FF53_FF54_FF55_FF56_FF57_FF58),
  (0x2379, 0xFF59_FF5A),
  (0x2421, 0x3041_3042_3043_3044_3045_3046_3047_3048_3049_304A_304B_304C),
  (0x242D, 0x304D_304E_304F_3050_3051_3052_3053_3054_3055_3056_3057_3058),
  (0x2439, 0x3059_305A_305B_305C_305D_305E_305F_3060_3061_3062_3063_3064),
  (0x2445, 0x3065_3066_3067_3068_3069_306A_306B_306C_306D_306E_306F_3070),
  (0x2451, 0x3071_3072_3073_3074_3075_3076_3077_3078_3079_307A_307B_307C),
  (0x245D, 0x307D_307E_307F_3080_3081_3082_3083_3084_3085_3086_3087_3088),
  (0x2469, 0x3089_308A_308B_308C_308D_308E_308F_3090_3091_3092_3093),
  (0x2521, 0x30A1_30A2_30A3_30A4_30A5_30A6_30A7_30A8_30A9_30AA_30AB_30AC),
  (0x252D, 0x30AD_30AE_30AF_30B0_30B1_30B2_30B3_30B4_30B5_30B6_30B7_30B8),
  (0x2539, 0x30B9_30BA_30BB_30BC_30BD_30BE_30BF_30C0_30C1_30C2_30C3_30C4),
  (0x2545, 0x30C5_30C6_30C7_30C8_30C9_30CA_30CB_30CC_30CD_30CE_30CF_30D0),
  (0x2551, 0x30D1_30D2_30D3_30D4_30D5_30D6_30D7_30D8_30D9_30DA_30DB_30DC),
  (0x255D, 0x30DD_30DE_30DF_30E0_30E1_30E2_30E3_30E4_30E5_30E6_30E7_30E8),
  (0x2569, 0x30E9_30EA_30EB_30EC_30ED_30EE_30EF_30F0_30F1_30F2_30F3_30F4),
  (0x2575, 0x30F5_30F6),
  (0x2621, 0x0391_0392_0393_0394_0395_0396_0397_0398_0399_039A_039B_039C),
  (0x262D, 0x039D_039E_039F_03A0_03A1_03A3_03A4_03A5_03A6_03A7_03A8_03A9),
  (0x2641, 0x03B1_03B2_03B3_03B4_03B5_03B6_03B7_03B8_03B9_03BA_03BB_03BC),
  (0x264D, 0x03BD_03BE_03BF_03C0_03C1_03C3_03C4_03C5_03C6_03C7_03C8_03C9),
  (0x2721, 0x0410_0411_0412_0413_0414_0415_0401_0416_0417_0418_0419_041A),
  (0x272D, 0x041B_041C_041D_041E_041F_0420_0421_0422_0423_0424_0425_0426),
  (0x2739, 0x0427_0428_0429_042A_042B_042C_042D_042E_042F),
  (0x2751, 0x0430_0431_0432_0433_0434_0435_0451_0436_0437_0438_0439_043A),
  (0x275D, 0x043B_043C_043D_043E_043F_0440_0441_0442_0443_0444_0445_0446),
  (0x2769, 0x0447_0448_0449_044A_044B_044C_044D_044E_044F),
  (0x2821, 0x2500_2502_250C_2510_2518_2514_251C_252C_2524_2534_253C_2501),
  (0x282D, 0x2503_250F_2513_251B_2517_2523_2533_252B_253B_254B_2520_252F),
  (0x2839, 0x2528_2537_253F_251D_2530_2525_2538_2542),
  (0x3021, 0x4E9C_5516_5A03_963F_54C0_611B_6328_59F6_9022_8475_831C_7A50),
  (0x302D, 0x60AA_63E1_6E25_65ED_8466_82A6_9BF5_6893_5727_65A1_6271_5B9B),
  (0x3039, 0x59D0_867B_98F4_7D62_7DBE_9B8E_6216_7C9F_88B7_5B89_5EB5_6309),
  (0x3045, 0x6697_6848_95C7_978D_674F_4EE5_4F0A_4F4D_4F9D_5049_56F2_5937),
  (0x3051, 0x59D4_5A01_5C09_60DF_610F_6170_6613_6905_70BA_754F_7570_79FB),
  (0x305D, 0x7DAD_7DEF_80C3_840E_8863_8B02_9055_907A_533B_4E95_4EA5_57DF),
  (0x3069, 0x80B2_90C1_78EF_4E00_58F1_6EA2_9038_7A32_8328_828B_9C2F_5141),
  (0x3075, 0x5370_54BD_54E1_56E0_59FB_5F15_98F2_6DEB_80E4_852D),
  (0x3121, 0x9662_9670_96A0_97FB_540B_53F3_5B87_70CF_7FBD_8FC2_96E8_536F),
  (0x312D, 0x9D5C_7ABA_4E11_7893_81FC_6E26_5618_5504_6B1D_851A_9C3B_59E5),
  (0x3139, 0x53A9_6D66_74DC_958F_5642_4E91_904B_96F2_834F_990C_53E1_55B6),
  (0x3145, 0x5B30_5F71_6620_66F3_6804_6C38_6CF3_6D29_745B_76C8_7A4E_9834),
  (0x3151, 0x82F1_885B_8A60_92ED_6DB2_75AB_76CA_99C5_60A6_8B01_8D8A_95B2),
  (0x315D, 0x698E_53AD_5186_5712_5830_5944_5BB4_5EF6_6028_63A9_63F4_6CBF),
  (0x3169, 0x6F14_708E_7114_7159_71D5_733F_7E01_8276_82D1_8597_9060_925B),
  (0x3175, 0x9D1B_5869_65BC_6C5A_7525_51F9_592E_5965_5F80_5FDC),
  (0x3221, 0x62BC_65FA_6A2A_6B27_6BB4_738B_7FC1_8956_9D2C_9D0E_9EC4_5CA1),
  (0x322D, 0x6C96_837B_5104_5C4B_61B6_81C6_6876_7261_4E59_4FFA_5378_6069),
  (0x3239, 0x6E29_7A4F_97F3_4E0B_5316_4EEE_4F55_4F3D_4FA1_4F73_52A0_53EF),
  (0x3245, 0x5609_590F_5AC1_5BB6_5BE1_79D1_6687_679C_67B6_6B4C_6CB3_706B),
  (0x3251, 0x73C2_798D_79BE_7A3C_7B87_82B1_82DB_8304_8377_83EF_83D3_8766),
  (0x325D, 0x8AB2_5629_8CA8_8FE6_904E_971E_868A_4FC4_5CE8_6211_7259_753B),
  (0x3269, 0x81E5_82BD_86FE_8CC0_96C5_9913_99D5_4ECB_4F1A_89E3_56DE_584A),
  (0x3275, 0x58CA_5EFB_5FEB_602A_6094_6062_61D0_6212_62D0_6539),
  (0x3321, 0x9B41_6666_68B0_6D77_7070_754C_7686_7D75_82A5_87F9_958B_968E),
  (0x332D, 0x8C9D_51F1_52BE_5916_54B3_5BB3_5D16_6168_6982_6DAF_788D_84CB),
  (0x3339, 0x8857_8A72_93A7_9AB8_6D6C_99A8_86D9_57A3_67FF_86CE_920E_5283),
  (0x3345, 0x5687_5404_5ED3_62E1_64B9_683C_6838_6BBB_7372_78BA_7A6B_899A),
  (0x3351, 0x89D2_8D6B_8F03_90ED_95A3_9694_9769_5B66_5CB3_697D_984D_984E),
  (0x335D, 0x639B_7B20_6A2B_6A7F_68B6_9C0D_6F5F_5272_559D_6070_62EC_6D3B),
  (0x3369, 0x6E07_6ED1_845B_8910_8F44_4E14_9C39_53F6_691B_6A3A_9784_682A),
  (0x3375, 0x515C_7AC3_84B2_91DC_938C_565B_9D28_6822_8305_8431),
  (0x3421, 0x7CA5_5208_82C5_74E6_4E7E_4F83_51A0_5BD2_520A_52D8_52E7_5DFB),
  (0x342D, 0x559A_582A_59E6_5B8C_5B98_5BDB_5E72_5E79_60A3_611F_6163_61BE),
  (0x3439, 0x63DB_6562_67D1_6853_68FA_6B3E_6B53_6C57_6F22_6F97_6F45_74B0),
  (0x3445, 0x7518_76E3_770B_7AFF_7BA1_7C21_7DE9_7F36_7FF0_809D_8266_839E),
  (0x3451, 0x89B3_8ACC_8CAB_9084_9451_9593_9591_95A2_9665_97D3_9928_8218),
  (0x345D, 0x4E38_542B_5CB8_5DCC_73A9_764C_773C_5CA9_7FEB_8D0B_96C1_9811),
  (0x3469, 0x9854_9858_4F01_4F0E_5371_559C_5668_57FA_5947_5B09_5BC4_5C90),
  (0x3475, 0x5E0C_5E7E_5FCC_63EE_673A_65D7_65E2_671F_68CB_68C4),
  (0x3521, 0x6A5F_5E30_6BC5_6C17_6C7D_757F_7948_5B63_7A00_7D00_5FBD_898F),
  (0x352D, 0x8A18_8CB4_8D77_8ECC_8F1D_98E2_9A0E_9B3C_4E80_507D_5100_5993),
  (0x3539, 0x5B9C_622F_6280_64EC_6B3A_72A0_7591_7947_7FA9_87FB_8ABC_8B70),
  (0x3545, 0x63AC_83CA_97A0_5409_5403_55AB_6854_6A58_8A70_7827_6775_9ECD),
  (0x3551, 0x5374_5BA2_811A_8650_9006_4E18_4E45_4EC7_4F11_53CA_5438_5BAE),
  (0x355D, 0x5F13_6025_6551_673D_6C42_6C72_6CE3_7078_7403_7A76_7AAE_7B08),
  (0x3569, 0x7D1A_7CFE_7D66_65E7_725B_53BB_5C45_5DE8_62D2_62E0_6319_6E20),
  (0x3575, 0x865A_8A31_8DDD_92F8_6F01_79A6_9B5A_4EA8_4EAB_4EAC),
  (0x3621, 0x4F9B_4FA0_50D1_5147_7AF6_5171_51F6_5354_5321_537F_53EB_55AC),
  (0x362D, 0x5883_5CE1_5F37_5F4A_602F_6050_606D_631F_6559_6A4B_6CC1_72C2),
  (0x3639, 0x72ED_77EF_80F8_8105_8208_854E_90F7_93E1_97FF_9957_9A5A_4EF0),
  (0x3645, 0x51DD_5C2D_6681_696D_5C40_66F2_6975_7389_6850_7C81_50C5_52E4),
  (0x3651, 0x5747_5DFE_9326_65A4_6B23_6B3D_7434_7981_79BD_7B4B_7DCA_82B9),
  (0x365D, 0x83CC_887F_895F_8B39_8FD1_91D1_541F_9280_4E5D_5036_53E5_533A),
  (0x3669, 0x72D7_7396_77E9_82E6_8EAF_99C6_99C8_99D2_5177_611A_865E_55B0),
  (0x3675, 0x7A7A_5076_5BD3_9047_9685_4E32_6ADB_91E7_5C51_5C48),
  (0x3721, 0x6398_7A9F_6C93_9774_8F61_7AAA_718A_9688_7C82_6817_7E70_6851),
  (0x372D, 0x936C_52F2_541B_85AB_8A13_7FA4_8ECD_90E1_5366_8888_7941_4FC2),
  (0x3739, 0x50BE_5211_5144_5553_572D_73EA_578B_5951_5F62_5F84_6075_6176),
  (0x3745, 0x6167_61A9_63B2_643A_656C_666F_6842_6E13_7566_7A3D_7CFB_7D4C),
  (0x3751, 0x7D99_7E4B_7F6B_830E_834A_86CD_8A08_8A63_8B66_8EFD_981A_9D8F),
  (0x375D, 0x82B8_8FCE_9BE8_5287_621F_6483_6FC0_9699_6841_5091_6B20_6C7A),
  (0x3769, 0x6F54_7A74_7D50_8840_8A23_6708_4EF6_5039_5026_5065_517C_5238),
  (0x3775, 0x5263_55A7_570F_5805_5ACC_5EFA_61B2_61F8_62F3_6372),
  (0x3821, 0x691C_6A29_727D_72AC_732E_7814_786F_7D79_770C_80A9_898B_8B19),
  (0x382D, 0x8CE2_8ED2_9063_9375_967A_9855_9A13_9E78_5143_539F_53B3_5E7B),
  (0x3839, 0x5F26_6E1B_6E90_7384_73FE_7D43_8237_8A00_8AFA_9650_4E4E_500B),
  (0x3845, 0x53E4_547C_56FA_59D1_5B64_5DF1_5EAB_5F27_6238_6545_67AF_6E56),
  (0x3851, 0x72D0_7CCA_88B4_80A1_80E1_83F0_864E_8A87_8DE8_9237_96C7_9867),
  (0x385D, 0x9F13_4E94_4E92_4F0D_5348_5449_543E_5A2F_5F8C_5FA1_609F_68A7),
  (0x3869, 0x6A8E_745A_7881_8A9E_8AA4_8B77_9190_4E5E_9BC9_4EA4_4F7C_4FAF),
  (0x3875, 0x5019_5016_5149_516C_529F_52B9_52FE_539A_53E3_5411),
  (0x3921, 0x540E_5589_5751_57A2_597D_5B54_5B5D_5B8F_5DE5_5DE7_5DF7_5E78),
  (0x392D, 0x5E83_5E9A_5EB7_5F18_6052_614C_6297_62D8_63A7_653B_6602_6643),
  (0x3939, 0x66F4_676D_6821_6897_69CB_6C5F_6D2A_6D69_6E2F_6E9D_7532_7687),
  (0x3945, 0x786C_7A3F_7CE0_7D05_7D18_7D5E_7DB1_8015_8003_80AF_80B1_8154),
  (0x3951, 0x818F_822A_8352_884C_8861_8B1B_8CA2_8CFC_90CA_9175_9271_783F),
  (0x395D, 0x92FC_95A4_964D_9805_9999_9AD8_9D3B_525B_52AB_53F7_5408_58D5),
  (0x3969, 0x62F7_6FE0_8C6A_8F5F_9EB9_514B_523B_544A_56FD_7A40_9177_9D60),
  (0x3975, 0x9ED2_7344_6F09_8170_7511_5FFD_60DA_9AA8_72DB_8FBC),
  (0x3A21, 0x6B64_9803_4ECA_56F0_5764_58BE_5A5A_6068_61C7_660F_6606_6839),
  (0x3A2D, 0x68B1_6DF7_75D5_7D3A_826E_9B42_4E9B_4F50_53C9_5506_5D6F_5DE6),
  (0x3A39, 0x5DEE_67FB_6C99_7473_7802_8A50_9396_88DF_5750_5EA7_632B_50B5),
  (0x3A45, 0x50AC_518D_6700_54C9_585E_59BB_5BB0_5F69_624D_63A1_683D_6B73),
  (0x3A51, 0x6E08_707D_91C7_7280_7815_7826_796D_658E_7D30_83DC_88C1_8F09),
  (0x3A5D, 0x969B_5264_5728_6750_7F6A_8CA1_51B4_5742_962A_583A_698A_80B4),
  (0x3A69, 0x54B2_5D0E_57FC_7895_9DFA_4F5C_524A_548B_643E_6628_6714_67F5),
  (0x3A75, 0x7A84_7B56_7D22_932F_685C_9BAD_7B39_5319_518A_5237),
  (0x3B21, 0x5BDF_62F6_64AE_64E6_672D_6BBA_85A9_96D1_7690_9BD6_634C_9306),
  (0x3B2D, 0x9BAB_76BF_6652_4E09_5098_53C2_5C71_60E8_6492_6563_685F_71E6),
  (0x3B39, 0x73CA_7523_7B97_7E82_8695_8B83_8CDB_9178_9910_65AC_66AB_6B8B),
  (0x3B45, 0x4ED5_4ED4_4F3A_4F7F_523A_53F8_53F2_55E3_56DB_58EB_59CB_59C9),
  (0x3B51, 0x59FF_5B50_5C4D_5E02_5E2B_5FD7_601D_6307_652F_5B5C_65AF_65BD),
  (0x3B5D, 0x65E8_679D_6B62_6B7B_6C0F_7345_7949_79C1_7CF8_7D19_7D2B_80A2),
  (0x3B69, 0x8102_81F3_8996_8A5E_8A69_8A66_8A8C_8AEE_8CC7_8CDC_96CC_98FC),
  (0x3B75, 0x6B6F_4E8B_4F3C_4F8D_5150_5B57_5BFA_6148_6301_6642),
  (0x3C21, 0x6B21_6ECB_6CBB_723E_74BD_75D4_78C1_793A_800C_8033_81EA_8494),
  (0x3C2D, 0x8F9E_6C50_9E7F_5F0F_8B58_9D2B_7AFA_8EF8_5B8D_96EB_4E03_53F1),
  (0x3C39, 0x57F7_5931_5AC9_5BA4_6089_6E7F_6F06_75BE_8CEA_5B9F_8500_7BE0),
  (0x3C45, 0x5072_67F4_829D_5C61_854A_7E1E_820E_5199_5C04_6368_8D66_659C),
  (0x3C51, 0x716E_793E_7D17_8005_8B1D_8ECA_906E_86C7_90AA_501F_52FA_5C3A),
  (0x3C5D, 0x6753_707C_7235_914C_91C8_932B_82E5_5BC2_5F31_60F9_4E3B_53D6),
  (0x3C69, 0x5B88_624B_6731_6B8A_72E9_73E0_7A2E_816B_8DA3_9152_9996_5112),
  (0x3C75, 0x53D7_546A_5BFF_6388_6A39_7DAC_9700_56DA_53CE_5468),
  (0x3D21, 0x5B97_5C31_5DDE_4FEE_6101_62FE_6D32_79C0_79CB_7D42_7E4D_7FD2),
  (0x3D2D, 0x81ED_821F_8490_8846_8972_8B90_8E74_8F2F_9031_914B_916C_96C6),
  (0x3D39, 0x919C_4EC0_4F4F_5145_5341_5F93_620E_67D4_6C41_6E0B_7363_7E26),
  (0x3D45, 0x91CD_9283_53D4_5919_5BBF_6DD1_795D_7E2E_7C9B_587E_719F_51FA),
  (0x3D51, 0x8853_8FF0_4FCA_5CFB_6625_77AC_7AE3_821C_99FF_51C6_5FAA_65EC),
  (0x3D5D, 0x696F_6B89_6DF3_6E96_6F64_76FE_7D14_5DE1_9075_9187_9806_51E6),
  (0x3D69, 0x521D_6240_6691_66D9_6E1A_5EB6_7DD2_7F72_66F8_85AF_85F7_8AF8),
  (0x3D75, 0x52A9_53D9_5973_5E8F_5F90_6055_92E4_9664_50B7_511F),
  (0x3E21, 0x52DD_5320_5347_53EC_54E8_5546_5531_5617_5968_59BE_5A3C_5BB5),
  (0x3E2D, 0x5C06_5C0F_5C11_5C1A_5E84_5E8A_5EE0_5F70_627F_6284_62DB_638C),
  (0x3E39, 0x6377_6607_660C_662D_6676_677E_68A2_6A1F_6A35_6CBC_6D88_6E09),
  (0x3E45, 0x6E58_713C_7126_7167_75C7_7701_785D_7901_7965_79F0_7AE0_7B11),
  (0x3E51, 0x7CA7_7D39_8096_83D6_848B_8549_885D_88F3_8A1F_8A3C_8A54_8A73),
  (0x3E5D, 0x8C61_8CDE_91A4_9266_937E_9418_969C_9798_4E0A_4E08_4E1E_4E57),
  (0x3E69, 0x5197_5270_57CE_5834_58CC_5B22_5E38_60C5_64FE_6761_6756_6D44),
  (0x3E75, 0x72B6_7573_7A63_84B8_8B72_91B8_9320_5631_57F4_98FE),
  (0x3F21, 0x62ED_690D_6B96_71ED_7E54_8077_8272_89E6_98DF_8755_8FB1_5C3B),
  (0x3F2D, 0x4F38_4FE1_4FB5_5507_5A20_5BDD_5BE9_5FC3_614E_632F_65B0_664B),
  (0x3F39, 0x68EE_699B_6D78_6DF1_7533_75B9_771F_795E_79E6_7D33_81E3_82AF),
  (0x3F45, 0x85AA_89AA_8A3A_8EAB_8F9B_9032_91DD_9707_4EBA_4EC1_5203_5875),
  (0x3F51, 0x58EC_5C0B_751A_5C3D_814E_8A0A_8FC5_9663_976D_7B25_8ACF_9808),
  (0x3F5D, 0x9162_56F3_53A8_9017_5439_5782_5E25_63A8_6C34_708A_7761_7C8B),
  (0x3F69, 0x7FE0_8870_9042_9154_9310_9318_968F_745E_9AC4_5D07_5D69_6570),
  (0x3F75, 0x67A2_8DA8_96DB_636E_6749_6919_83C5_9817_96C0_88FE),
  (0x4021, 0x6F84_647A_5BF8_4E16_702C_755D_662F_51C4_5236_52E2_59D3_5F81),
  (0x402D, 0x6027_6210_653F_6574_661F_6674_68F2_6816_6B63_6E05_7272_751F),
  (0x4039, 0x76DB_7CBE_8056_58F0_88FD_897F_8AA0_8A93_8ACB_901D_9192_9752),
  (0x4045, 0x9759_6589_7A0E_8106_96BB_5E2D_60DC_621A_65A5_6614_6790_77F3),
  (0x4051, 0x7A4D_7C4D_7E3E_810A_8CAC_8D64_8DE1_8E5F_78A9_5207_62D9_63A5),
  (0x405D, 0x6442_6298_8A2D_7A83_7BC0_8AAC_96EA_7D76_820C_8749_4ED9_5148),
  (0x4069, 0x5343_5360_5BA3_5C02_5C16_5DDD_6226_6247_64B0_6813_6834_6CC9),
  (0x4075, 0x6D45_6D17_67D3_6F5C_714E_717D_65CB_7A7F_7BAD_7DDA),
  (0x4121, 0x7E4A_7FA8_817A_821B_8239_85A6_8A6E_8CCE_8DF5_9078_9077_92AD),
  (0x412D, 0x9291_9583_9BAE_524D_5584_6F38_7136_5168_7985_7E55_81B3_7CCE),
  (0x4139, 0x564C_5851_5CA8_63AA_66FE_66FD_695A_72D9_758F_758E_790E_7956),
  (0x4145, 0x79DF_7C97_7D20_7D44_8607_8A34_963B_9061_9F20_50E7_5275_53CC),
  (0x4151, 0x53E2_5009_55AA_58EE_594F_723D_5B8B_5C64_531D_60E3_60F3_635C),
  (0x415D, 0x6383_633F_63BB_64CD_65E9_66F9_5DE3_69CD_69FD_6F15_71E5_4E89),
  (0x4169, 0x75E9_76F8_7A93_7CDF_7DCF_7D9C_8061_8349_8358_846C_84BC_85FB),
  (0x4175, 0x88C5_8D70_9001_906D_9397_971C_9A12_50CF_5897_618E),
  (0x4221, 0x81D3_8535_8D08_9020_4FC3_5074_5247_5373_606F_6349_675F_6E2C),
  (0x422D, 0x8DB3_901F_4FD7_5C5E_8CCA_65CF_7D9A_5352_8896_5176_63C3_5B58),
  (0x4239, 0x5B6B_5C0A_640D_6751_905C_4ED6_591A_592A_6C70_8A51_553E_5815),
  (0x4245, 0x59A5_60F0_6253_67C1_8235_6955_9640_99C4_9A28_4F53_5806_5BFE),
  (0x4251, 0x8010_5CB1_5E2F_5F85_6020_614B_6234_66FF_6CF0_6EDE_80CE_817F),
  (0x425D, 0x82D4_888B_8CB8_9000_902E_968A_9EDB_9BDB_4EE3_53F0_5927_7B2C),
  (0x4269, 0x918D_984C_9DF9_6EDD_7027_5353_5544_5B85_6258_629E_62D3_6CA2),
  (0x4275, 0x6FEF_7422_8A17_9438_6FC1_8AFE_8338_51E7_86F8_53EA),
  (0x4321, 0x53E9_4F46_9054_8FB0_596A_8131_5DFD_7AEA_8FBF_68DA_8C37_72F8),
  (0x432D, 0x9C48_6A3D_8AB0_4E39_5358_5606_5766_62C5_63A2_65E6_6B4E_6DE1),
  (0x4339, 0x6E5B_70AD_77ED_7AEF_7BAA_7DBB_803D_80C6_86CB_8A95_935B_56E3),
  (0x4345, 0x58C7_5F3E_65AD_6696_6A80_6BB5_7537_8AC7_5024_77E5_5730_5F1B),
  (0x4351, 0x6065_667A_6C60_75F4_7A1A_7F6E_81F4_8718_9045_99B3_7BC9_755C),
  (0x435D, 0x7AF9_7B51_84C4_9010_79E9_7A92_8336_5AE1_7740_4E2D_4EF2_5B99),
  (0x4369, 0x5FE0_62BD_663C_67F1_6CE8_866B_8877_8A3B_914E_92F3_99D0_6A17),
  (0x4375, 0x7026_732A_82E7_8457_8CAF_4E01_5146_51CB_558B_5BF5),
  (0x4421, 0x5E16_5E33_5E81_5F14_5F35_5F6B_5FB4_61F2_6311_66A2_671D_6F6E),
  (0x442D, 0x7252_753A_773A_8074_8139_8178_8776_8ABF_8ADC_8D85_8DF3_929A),
  (0x4439, 0x9577_9802_9CE5_52C5_6357_76F4_6715_6C88_73CD_8CC3_93AE_9673),
  (0x4445, 0x6D25_589C_690E_69CC_8FFD_939A_75DB_901A_585A_6802_63B4_69FB),
  (0x4451, 0x4F43_6F2C_67D8_8FBB_8526_7DB4_9354_693F_6F70_576A_58F7_5B2C),
  (0x445D, 0x7D2C_722A_540A_91E3_9DB4_4EAD_4F4E_505C_5075_5243_8C9E_5448),
  (0x4469, 0x5824_5B9A_5E1D_5E95_5EAD_5EF7_5F1F_608C_62B5_633A_63D0_68AF),
  (0x4475, 0x6C40_7887_798E_7A0B_7DE0_8247_8A02_8AE6_8E44_9013),
  (0x4521, 0x90B8_912D_91D8_9F0E_6CE5_6458_64E2_6575_6EF4_7684_7B1B_9069),
  (0x452D, 0x93D1_6EBA_54F2_5FB9_64A4_8F4D_8FED_9244_5178_586B_5929_5C55),
  (0x4539, 0x5E97_6DFB_7E8F_751C_8CBC_8EE2_985B_70B9_4F1D_6BBF_6FB1_7530),
  (0x4545, 0x96FB_514E_5410_5835_5857_59AC_5C60_5F92_6597_675C_6E21_767B),
  (0x4551, 0x83DF_8CED_9014_90FD_934D_7825_783A_52AA_5EA6_571F_5974_6012),
  (0x455D, 0x5012_515A_51AC_51CD_5200_5510_5854_5858_5957_5B95_5CF6_5D8B),
  (0x4569, 0x60BC_6295_642D_6771_6843_68BC_68DF_76D7_6DD8_6E6F_6D9B_706F),
  (0x4575, 0x71C8_5F53_75D8_7977_7B49_7B54_7B52_7CD6_7D71_5230),
  (0x4621, 0x8463_8569_85E4_8A0E_8B04_8C46_8E0F_9003_900F_9419_9676_982D),
  (0x462D, 0x9A30_95D8_50CD_52D5_540C_5802_5C0E_61A7_649E_6D1E_77B3_7AE5),
  (0x4639, 0x80F4_8404_9053_9285_5CE0_9D07_533F_5F97_5FB3_6D9C_7279_7763),
  (0x4645, 0x79BF_7BE4_6BD2_72EC_8AAD_6803_6A61_51F8_7A81_6934_5C4A_9CF6),
  (0x4651, 0x82EB_5BC5_9149_701E_5678_5C6F_60C7_6566_6C8C_8C5A_9041_9813),
  (0x465D, 0x5451_66C7_920D_5948_90A3_5185_4E4D_51EA_8599_8B0E_7058_637A),
  (0x4669, 0x934B_6962_99B4_7E04_7577_5357_6960_8EDF_96E3_6C5D_4E8C_5C3C),
  (0x4675, 0x5F10_8FE9_5302_8CD1_8089_8679_5EFF_65E5_4E73_5165),
  (0x4721, 0x5982_5C3F_97EE_4EFB_598A_5FCD_8A8D_6FE1_79B0_7962_5BE7_8471),
  (0x472D, 0x732B_71B1_5E74_5FF5_637B_649A_71C3_7C98_4E43_5EFC_4E4B_57DC),
  (0x4739, 0x56A2_60A9_6FC3_7D0D_80FD_8133_81BF_8FB2_8997_86A4_5DF4_628A),
  (0x4745, 0x64AD_8987_6777_6CE2_6D3E_7436_7834_5A46_7F75_82AD_99AC_4FF3),
  (0x4751, 0x5EC3_62DD_6392_6557_676F_76C3_724C_80CC_80BA_8F29_914D_500D),
  (0x475D, 0x57F9_5A92_6885_6973_7164_72FD_8CB7_58F2_8CE0_966A_9019_877F),
  (0x4769, 0x79E4_77E7_8429_4F2F_5265_535A_62CD_67CF_6CCA_767D_7B94_7C95),
  (0x4775, 0x8236_8584_8FEB_66DD_6F20_7206_7E1B_83AB_99C1_9EA6),
  (0x4821, 0x51FD_7BB1_7872_7BB8_8087_7B48_6AE8_5E61_808C_7551_7560_516B),
  (0x482D, 0x9262_6E8C_767A_9197_9AEA_4F10_7F70_629C_7B4F_95A5_9CE9_567A),
  (0x4839, 0x5859_86E4_96BC_4F34_5224_534A_53CD_53DB_5E06_642C_6591_677F),
  (0x4845, 0x6C3E_6C4E_7248_72AF_73ED_7554_7E41_822C_85E9_8CA9_7BC4_91C6),
  (0x4851, 0x7169_9812_98EF_633D_6669_756A_76E4_78D0_8543_86EE_532A_5351),
  (0x485D, 0x5426_5983_5E87_5F7C_60B2_6249_6279_62AB_6590_6BD4_6CCC_75B2),
  (0x4869, 0x76AE_7891_79D8_7DCB_7F77_80A5_88AB_8AB9_8CBB_907F_975E_98DB),
  (0x4875, 0x6A0B_7C38_5099_5C3E_5FAE_6787_6BD8_7435_7709_7F8E),
  (0x4921, 0x9F3B_67CA_7A17_5339_758B_9AED_5F66_819D_83F1_8098_5F3C_5FC5),
  (0x492D, 0x7562_7B46_903C_6867_59EB_5A9B_7D10_767E_8B2C_4FF5_5F6A_6A19),
  (0x4939, 0x6C37_6F02_74E2_7968_8868_8A55_8C79_5EDF_63CF_75C5_79D2_82D7),
  (0x4945, 0x9328_92F2_849C_86ED_9C2D_54C1_5F6C_658C_6D5C_7015_8CA7_8CD3),
  (0x4951, 0x983B_654F_74F6_4E0D_4ED8_57E0_592B_5A66_5BCC_51A8_5E03_5E9C),
  (0x495D, 0x6016_6276_6577_65A7_666E_6D6E_7236_7B26_8150_819A_8299_8B5C),
  (0x4969, 0x8CA0_8CE6_8D74_961C_9644_4FAE_64AB_6B66_821E_8461_856A_90E8),
  (0x4975, 0x5C01_6953_98A8_847A_8557_4F0F_526F_5FA9_5E45_670D),
  (0x4A21, 0x798F_8179_8907_8986_6DF5_5F17_6255_6CB8_4ECF_7269_9B92_5206),
  (0x4A2D, 0x543B_5674_58B3_61A4_626E_711A_596E_7C89_7CDE_7D1B_96F0_6587),
  (0x4A39, 0x805E_4E19_4F75_5175_5840_5E63_5E73_5F0A_67C4_4E26_853D_9589),
  (0x4A45, 0x965B_7C73_9801_50FB_58C1_7656_78A7_5225_77A5_8511_7B86_504F),
  (0x4A51, 0x5909_7247_7BC7_7DE8_8FBA_8FD4_904D_4FBF_52C9_5A29_5F01_97AD),
  (0x4A5D, 0x4FDD_8217_92EA_5703_6355_6B69_752B_88DC_8F14_7A42_52DF_5893),
  (0x4A69, 0x6155_620A_66AE_6BCD_7C3F_83E9_5023_4FF8_5305_5446_5831_5949),
  (0x4A75, 0x5B9D_5CF0_5CEF_5D29_5E96_62B1_6367_653E_65B9_670B),
  (0x4B21, 0x6CD5_6CE1_70F9_7832_7E2B_80DE_82B3_840C_84EC_8702_8912_8A2A),
  (0x4B2D, 0x8C4A_90A6_92D2_98FD_9CF3_9D6C_4E4F_4EA1_508D_5256_574A_59A8),
  (0x4B39, 0x5E3D_5FD8_5FD9_623F_66B4_671B_67D0_68D2_5192_7D21_80AA_81A8),
  (0x4B45, 0x8B00_8C8C_8CBF_927E_9632_5420_982C_5317_50D5_535C_58A8_64B2),
  (0x4B51, 0x6734_7267_7766_7A46_91E6_52C3_6CA1_6B86_5800_5E4C_5954_672C),
  (0x4B5D, 0x7FFB_51E1_76C6_6469_78E8_9B54_9EBB_57CB_59B9_6627_679A_6BCE),
  (0x4B69, 0x54E9_69D9_5E55_819C_6795_9BAA_67FE_9C52_685D_4EA6_4FE3_53C8),
  (0x4B75, 0x62B9_672B_6CAB_8FC4_4FAD_7E6D_9EBF_4E07_6162_6E80),
  (0x4C21, 0x6F2B_8513_5473_672A_9B45_5DF3_7B95_5CAC_5BC6_871C_6E4A_84D1),
  (0x4C2D, 0x7A14_8108_5999_7C8D_6C11_7720_52D9_5922_7121_725F_77DB_9727),
  (0x4C39, 0x9D61_690B_5A7F_5A18_51A5_540D_547D_660E_76DF_8FF7_9298_9CF4),
  (0x4C45, 0x59EA_725D_6EC5_514D_68C9_7DBF_7DEC_9762_9EBA_6478_6A21_8302),
  (0x4C51, 0x5984_5B5F_6BDB_731B_76F2_7DB2_8017_8499_5132_6728_9ED9_76EE),
  (0x4C5D, 0x6762_52FF_9905_5C24_623B_7C7E_8CB0_554F_60B6_7D0B_9580_5301),
  (0x4C69, 0x4E5F_51B6_591C_723A_8036_91CE_5F25_77E2_5384_5F79_7D04_85AC),
  (0x4C75, 0x8A33_8E8D_9756_67F3_85AE_9453_6109_6108_6CB9_7652),
  (0x4D21, 0x8AED_8F38_552F_4F51_512A_52C7_53CB_5BA5_5E7D_60A0_6182_63D6),
  (0x4D2D, 0x6709_67DA_6E67_6D8C_7336_7337_7531_7950_88D5_8A98_904A_9091),
  (0x4D39, 0x90F5_96C4_878D_5915_4E88_4F59_4E0E_8A89_8F3F_9810_50AD_5E7C),
  (0x4D45, 0x5996_5BB9_5EB8_63DA_63FA_64C1_66DC_694A_69D8_6D0B_6EB6_7194),
  (0x4D51, 0x7528_7AAF_7F8A_8000_8449_84C9_8981_8B21_8E0A_9065_967D_990A),
  (0x4D5D, 0x617E_6291_6B32_6C83_6D74_7FCC_7FFC_6DC0_7F85_87BA_88F8_6765),
  (0x4D69, 0x83B1_983C_96F7_6D1B_7D61_843D_916A_4E71_5375_5D50_6B04_6FEB),
  (0x4D75, 0x85CD_862D_89A7_5229_540F_5C65_674E_68A8_7406_7483),
  (0x4E21, 0x75E2_88CF_88E1_91CC_96E2_9678_5F8B_7387_7ACB_844E_63A0_7565),
  (0x4E2D, 0x5289_6D41_6E9C_7409_7559_786B_7C92_9686_7ADC_9F8D_4FB6_616E),
  (0x4E39, 0x65C5_865C_4E86_4EAE_50DA_4E21_51CC_5BEE_6599_6881_6DBC_731F),
  (0x4E45, 0x7642_77AD_7A1C_7CE7_826F_8AD2_907C_91CF_9675_9818_529B_7DD1),
  (0x4E51, 0x502B_5398_6797_6DCB_71D0_7433_81E8_8F2A_96A3_9C57_9E9F_7460),
  (0x4E5D, 0x5841_6D99_7D2F_985E_4EE4_4F36_4F8B_51B7_52B1_5DBA_601C_73B2),
  (0x4E69, 0x793C_82D3_9234_96B7_96F6_970A_9E97_9F62_66A6_6B74_5217_52A3),
  (0x4E75, 0x70C8_88C2_5EC9_604B_6190_6F23_7149_7C3E_7DF4_806F),
  (0x4F21, 0x84EE_9023_932C_5442_9B6F_6AD3_7089_8CC2_8DEF_9732_52B4_5A41),
  (0x4F2D, 0x5ECA_5F04_6717_697C_6994_6D6A_6F0F_7262_72FC_7BED_8001_807E),
  (0x4F39, 0x874B_90CE_516D_9E93_7984_808B_9332_8AD6_502D_548C_8A71_6B6A),
  (0x4F45, 0x8CC4_8107_60D1_67A0_9DF2_4E99_4E98_9C10_8A6B_85C1_8568_6900),
  (0x4F51, 0x6E7E_7897_8155),
  (0x5021, 0x5F0C_4E10_4E15_4E2A_4E31_4E36_4E3C_4E3F_4E42_4E56_4E58_4E82),
  (0x502D, 0x4E85_8C6B_4E8A_8212_5F0D_4E8E_4E9E_4E9F_4EA0_4EA2_4EB0_4EB3),
  (0x5039, 0x4EB6_4ECE_4ECD_4EC4_4EC6_4EC2_4ED7_4EDE_4EED_4EDF_4EF7_4F09),
  (0x5045, 0x4F5A_4F30_4F5B_4F5D_4F57_4F47_4F76_4F88_4F8F_4F98_4F7B_4F69),
  (0x5051, 0x4F70_4F91_4F6F_4F86_4F96_5118_4FD4_4FDF_4FCE_4FD8_4FDB_4FD1),
  (0x505D, 0x4FDA_4FD0_4FE4_4FE5_501A_5028_5014_502A_5025_5005_4F1C_4FF6),
  (0x5069, 0x5021_5029_502C_4FFE_4FEF_5011_5006_5043_5047_6703_5055_5050),
  (0x5075, 0x5048_505A_5056_506C_5078_5080_509A_5085_50B4_50B2),
  (0x5121, 0x50C9_50CA_50B3_50C2_50D6_50DE_50E5_50ED_50E3_50EE_50F9_50F5),
  (0x512D, 0x5109_5101_5102_5116_5115_5114_511A_5121_513A_5137_513C_513B),
  (0x5139, 0x513F_5140_5152_514C_5154_5162_7AF8_5169_516A_516E_5180_5182),
  (0x5145, 0x56D8_518C_5189_518F_5191_5193_5195_5196_51A4_51A6_51A2_51A9),
  (0x5151, 0x51AA_51AB_51B3_51B1_51B2_51B0_51B5_51BD_51C5_51C9_51DB_51E0),
  (0x515D, 0x8655_51E9_51ED_51F0_51F5_51FE_5204_520B_5214_520E_5227_522A),
  (0x5169, 0x522E_5233_5239_524F_5244_524B_524C_525E_5254_526A_5274_5269),
  (0x5175, 0x5273_527F_527D_528D_5294_5292_5271_5288_5291_8FA8),
  (0x5221, 0x8FA7_52AC_52AD_52BC_52B5_52C1_52CD_52D7_52DE_52E3_52E6_98ED),
  (0x522D, 0x52E0_52F3_52F5_52F8_52F9_5306_5308_7538_530D_5310_530F_5315),
  (0x5239, 0x531A_5323_532F_5331_5333_5338_5340_5346_5345_4E17_5349_534D),
  (0x5245, 0x51D6_535E_5369_536E_5918_537B_5377_5382_5396_53A0_53A6_53A5),
  (0x5251, 0x53AE_53B0_53B6_53C3_7C12_96D9_53DF_66FC_71EE_53EE_53E8_53ED),
  (0x525D, 0x53FA_5401_543D_5440_542C_542D_543C_542E_5436_5429_541D_544E),
  (0x5269, 0x548F_5475_548E_545F_5471_5477_5470_5492_547B_5480_5476_5484),
  (0x5275, 0x5490_5486_54C7_54A2_54B8_54A5_54AC_54C4_54C8_54A8),
  (0x5321, 0x54AB_54C2_54A4_54BE_54BC_54D8_54E5_54E6_550F_5514_54FD_54EE),
  (0x532D, 0x54ED_54FA_54E2_5539_5540_5563_554C_552E_555C_5545_5556_5557),
  (0x5339, 0x5538_5533_555D_5599_5580_54AF_558A_559F_557B_557E_5598_559E),
  (0x5345, 0x55AE_557C_5583_55A9_5587_55A8_55DA_55C5_55DF_55C4_55DC_55E4),
  (0x5351, 0x55D4_5614_55F7_5616_55FE_55FD_561B_55F9_564E_5650_71DF_5634),
  (0x535D, 0x5636_5632_5638_566B_5664_562F_566C_566A_5686_5680_568A_56A0),
  (0x5369, 0x5694_568F_56A5_56AE_56B6_56B4_56C2_56BC_56C1_56C3_56C0_56C8),
  (0x5375, 0x56CE_56D1_56D3_56D7_56EE_56F9_5700_56FF_5704_5709),
  (0x5421, 0x5708_570B_570D_5713_5718_5716_55C7_571C_5726_5737_5738_574E),
  (0x542D, 0x573B_5740_574F_5769_57C0_5788_5761_577F_5789_5793_57A0_57B3),
  (0x5439, 0x57A4_57AA_57B0_57C3_57C6_57D4_57D2_57D3_580A_57D6_57E3_580B),
  (0x5445, 0x5819_581D_5872_5821_5862_584B_5870_6BC0_5852_583D_5879_5885),
  (0x5451, 0x58B9_589F_58AB_58BA_58DE_58BB_58B8_58AE_58C5_58D3_58D1_58D7),
  (0x545D, 0x58D9_58D8_58E5_58DC_58E4_58DF_58EF_58FA_58F9_58FB_58FC_58FD),
  (0x5469, 0x5902_590A_5910_591B_68A6_5925_592C_592D_5932_5938_593E_7AD2),
  (0x5475, 0x5955_5950_594E_595A_5958_5962_5960_5967_596C_5969),
  (0x5521, 0x5978_5981_599D_4F5E_4FAB_59A3_59B2_59C6_59E8_59DC_598D_59D9),
  (0x552D, 0x59DA_5A25_5A1F_5A11_5A1C_5A09_5A1A_5A40_5A6C_5A49_5A35_5A36),
  (0x5539, 0x5A62_5A6A_5A9A_5ABC_5ABE_5ACB_5AC2_5ABD_5AE3_5AD7_5AE6_5AE9),
  (0x5545, 0x5AD6_5AFA_5AFB_5B0C_5B0B_5B16_5B32_5AD0_5B2A_5B36_5B3E_5B43),
  (0x5551, 0x5B45_5B40_5B51_5B55_5B5A_5B5B_5B65_5B69_5B70_5B73_5B75_5B78),
  (0x555D, 0x6588_5B7A_5B80_5B83_5BA6_5BB8_5BC3_5BC7_5BC9_5BD4_5BD0_5BE4),
  (0x5569, 0x5BE6_5BE2_5BDE_5BE5_5BEB_5BF0_5BF6_5BF3_5C05_5C07_5C08_5C0D),
  (0x5575, 0x5C13_5C20_5C22_5C28_5C38_5C39_5C41_5C46_5C4E_5C53),
  (0x5621, 0x5C50_5C4F_5B71_5C6C_5C6E_4E62_5C76_5C79_5C8C_5C91_5C94_599B),
  (0x562D, 0x5CAB_5CBB_5CB6_5CBC_5CB7_5CC5_5CBE_5CC7_5CD9_5CE9_5CFD_5CFA),
  (0x5639, 0x5CED_5D8C_5CEA_5D0B_5D15_5D17_5D5C_5D1F_5D1B_5D11_5D14_5D22),
  (0x5645, 0x5D1A_5D19_5D18_5D4C_5D52_5D4E_5D4B_5D6C_5D73_5D76_5D87_5D84),
  (0x5651, 0x5D82_5DA2_5D9D_5DAC_5DAE_5DBD_5D90_5DB7_5DBC_5DC9_5DCD_5DD3),
  (0x565D, 0x5DD2_5DD6_5DDB_5DEB_5DF2_5DF5_5E0B_5E1A_5E19_5E11_5E1B_5E36),
  (0x5669, 0x5E37_5E44_5E43_5E40_5E4E_5E57_5E54_5E5F_5E62_5E64_5E47_5E75),
  (0x5675, 0x5E76_5E7A_9EBC_5E7F_5EA0_5EC1_5EC2_5EC8_5ED0_5ECF),
  (0x5721, 0x5ED6_5EE3_5EDD_5EDA_5EDB_5EE2_5EE1_5EE8_5EE9_5EEC_5EF1_5EF3),
  (0x572D, 0x5EF0_5EF4_5EF8_5EFE_5F03_5F09_5F5D_5F5C_5F0B_5F11_5F16_5F29),
  (0x5739, 0x5F2D_5F38_5F41_5F48_5F4C_5F4E_5F2F_5F51_5F56_5F57_5F59_5F61),
  (0x5745, 0x5F6D_5F73_5F77_5F83_5F82_5F7F_5F8A_5F88_5F91_5F87_5F9E_5F99),
  (0x5751, 0x5F98_5FA0_5FA8_5FAD_5FBC_5FD6_5FFB_5FE4_5FF8_5FF1_5FDD_60B3),
  (0x575D, 0x5FFF_6021_6060_6019_6010_6029_600E_6031_601B_6015_602B_6026),
  (0x5769, 0x600F_603A_605A_6041_606A_6077_605F_604A_6046_604D_6063_6043),
  (0x5775, 0x6064_6042_606C_606B_6059_6081_608D_60E7_6083_609A),
  (0x5821, 0x6084_609B_6096_6097_6092_60A7_608B_60E1_60B8_60E0_60D3_60B4),
  (0x582D, 0x5FF0_60BD_60C6_60B5_60D8_614D_6115_6106_60F6_60F7_6100_60F4),
  (0x5839, 0x60FA_6103_6121_60FB_60F1_610D_610E_6147_613E_6128_6127_614A),
  (0x5845, 0x613F_613C_612C_6134_613D_6142_6144_6173_6177_6158_6159_615A),
  (0x5851, 0x616B_6174_616F_6165_6171_615F_615D_6153_6175_6199_6196_6187),
  (0x585D, 0x61AC_6194_619A_618A_6191_61AB_61AE_61CC_61CA_61C9_61F7_61C8),
  (0x5869, 0x61C3_61C6_61BA_61CB_7F79_61CD_61E6_61E3_61F6_61FA_61F4_61FF),
  (0x5875, 0x61FD_61FC_61FE_6200_6208_6209_620D_620C_6214_621B),
  (0x5921, 0x621E_6221_622A_622E_6230_6232_6233_6241_624E_625E_6263_625B),
  (0x592D, 0x6260_6268_627C_6282_6289_627E_6292_6293_6296_62D4_6283_6294),
  (0x5939, 0x62D7_62D1_62BB_62CF_62FF_62C6_64D4_62C8_62DC_62CC_62CA_62C2),
  (0x5945, 0x62C7_629B_62C9_630C_62EE_62F1_6327_6302_6308_62EF_62F5_6350),
  (0x5951, 0x633E_634D_641C_634F_6396_638E_6380_63AB_6376_63A3_638F_6389),
  (0x595D, 0x639F_63B5_636B_6369_63BE_63E9_63C0_63C6_63E3_63C9_63D2_63F6),
  (0x5969, 0x63C4_6416_6434_6406_6413_6426_6436_651D_6417_6428_640F_6467),
  (0x5975, 0x646F_6476_644E_652A_6495_6493_64A5_64A9_6488_64BC),
  (0x5A21, 0x64DA_64D2_64C5_64C7_64BB_64D8_64C2_64F1_64E7_8209_64E0_64E1),
  (0x5A2D, 0x62AC_64E3_64EF_652C_64F6_64F4_64F2_64FA_6500_64FD_6518_651C),
  (0x5A39, 0x6505_6524_6523_652B_6534_6535_6537_6536_6538_754B_6548_6556),
  (0x5A45, 0x6555_654D_6558_655E_655D_6572_6578_6582_6583_8B8A_659B_659F),
  (0x5A51, 0x65AB_65B7_65C3_65C6_65C1_65C4_65CC_65D2_65DB_65D9_65E0_65E1),
  (0x5A5D, 0x65F1_6772_660A_6603_65FB_6773_6635_6636_6634_661C_664F_6644),
  (0x5A69, 0x6649_6641_665E_665D_6664_6667_6668_665F_6662_6670_6683_6688),
  (0x5A75, 0x668E_6689_6684_6698_669D_66C1_66B9_66C9_66BE_66BC),
  (0x5B21, 0x66C4_66B8_66D6_66DA_66E0_663F_66E6_66E9_66F0_66F5_66F7_670F),
  (0x5B2D, 0x6716_671E_6726_6727_9738_672E_673F_6736_6741_6738_6737_6746),
  (0x5B39, 0x675E_6760_6759_6763_6764_6789_6770_67A9_677C_676A_678C_678B),
  (0x5B45, 0x67A6_67A1_6785_67B7_67EF_67B4_67EC_67B3_67E9_67B8_67E4_67DE),
  (0x5B51, 0x67DD_67E2_67EE_67B9_67CE_67C6_67E7_6A9C_681E_6846_6829_6840),
  (0x5B5D, 0x684D_6832_684E_68B3_682B_6859_6863_6877_687F_689F_688F_68AD),
  (0x5B69, 0x6894_689D_689B_6883_6AAE_68B9_6874_68B5_68A0_68BA_690F_688D),
  (0x5B75, 0x687E_6901_68CA_6908_68D8_6922_6926_68E1_690C_68CD),
  (0x5C21, 0x68D4_68E7_68D5_6936_6912_6904_68D7_68E3_6925_68F9_68E0_68EF),
  (0x5C2D, 0x6928_692A_691A_6923_6921_68C6_6979_6977_695C_6978_696B_6954),
  (0x5C39, 0x697E_696E_6939_6974_693D_6959_6930_6961_695E_695D_6981_696A),
  (0x5C45, 0x69B2_69AE_69D0_69BF_69C1_69D3_69BE_69CE_5BE8_69CA_69DD_69BB),
  (0x5C51, 0x69C3_69A7_6A2E_6991_69A0_699C_6995_69B4_69DE_69E8_6A02_6A1B),
  (0x5C5D, 0x69FF_6B0A_69F9_69F2_69E7_6A05_69B1_6A1E_69ED_6A14_69EB_6A0A),
  (0x5C69, 0x6A12_6AC1_6A23_6A13_6A44_6A0C_6A72_6A36_6A78_6A47_6A62_6A59),
  (0x5C75, 0x6A66_6A48_6A38_6A22_6A90_6A8D_6AA0_6A84_6AA2_6AA3),
  (0x5D21, 0x6A97_8617_6ABB_6AC3_6AC2_6AB8_6AB3_6AAC_6ADE_6AD1_6ADF_6AAA),
  (0x5D2D, 0x6ADA_6AEA_6AFB_6B05_8616_6AFA_6B12_6B16_9B31_6B1F_6B38_6B37),
  (0x5D39, 0x76DC_6B39_98EE_6B47_6B43_6B49_6B50_6B59_6B54_6B5B_6B5F_6B61),
  (0x5D45, 0x6B78_6B79_6B7F_6B80_6B84_6B83_6B8D_6B98_6B95_6B9E_6BA4_6BAA),
  (0x5D51, 0x6BAB_6BAF_6BB2_6BB1_6BB3_6BB7_6BBC_6BC6_6BCB_6BD3_6BDF_6BEC),
  (0x5D5D, 0x6BEB_6BF3_6BEF_9EBE_6C08_6C13_6C14_6C1B_6C24_6C23_6C5E_6C55),
  (0x5D69, 0x6C62_6C6A_6C82_6C8D_6C9A_6C81_6C9B_6C7E_6C68_6C73_6C92_6C90),
  (0x5D75, 0x6CC4_6CF1_6CD3_6CBD_6CD7_6CC5_6CDD_6CAE_6CB1_6CBE),
  (0x5E21, 0x6CBA_6CDB_6CEF_6CD9_6CEA_6D1F_884D_6D36_6D2B_6D3D_6D38_6D19),
  (0x5E2D, 0x6D35_6D33_6D12_6D0C_6D63_6D93_6D64_6D5A_6D79_6D59_6D8E_6D95),
  (0x5E39, 0x6FE4_6D85_6DF9_6E15_6E0A_6DB5_6DC7_6DE6_6DB8_6DC6_6DEC_6DDE),
  (0x5E45, 0x6DCC_6DE8_6DD2_6DC5_6DFA_6DD9_6DE4_6DD5_6DEA_6DEE_6E2D_6E6E),
  (0x5E51, 0x6E2E_6E19_6E72_6E5F_6E3E_6E23_6E6B_6E2B_6E76_6E4D_6E1F_6E43),
  (0x5E5D, 0x6E3A_6E4E_6E24_6EFF_6E1D_6E38_6E82_6EAA_6E98_6EC9_6EB7_6ED3),
  (0x5E69, 0x6EBD_6EAF_6EC4_6EB2_6ED4_6ED5_6E8F_6EA5_6EC2_6E9F_6F41_6F11),
  (0x5E75, 0x704C_6EEC_6EF8_6EFE_6F3F_6EF2_6F31_6EEF_6F32_6ECC),
  (0x5F21, 0x6F3E_6F13_6EF7_6F86_6F7A_6F78_6F81_6F80_6F6F_6F5B_6FF3_6F6D),
  (0x5F2D, 0x6F82_6F7C_6F58_6F8E_6F91_6FC2_6F66_6FB3_6FA3_6FA1_6FA4_6FB9),
  (0x5F39, 0x6FC6_6FAA_6FDF_6FD5_6FEC_6FD4_6FD8_6FF1_6FEE_6FDB_7009_700B),
  (0x5F45, 0x6FFA_7011_7001_700F_6FFE_701B_701A_6F74_701D_7018_701F_7030),
  (0x5F51, 0x703E_7032_7051_7063_7099_7092_70AF_70F1_70AC_70B8_70B3_70AE),
  (0x5F5D, 0x70DF_70CB_70DD_70D9_7109_70FD_711C_7119_7165_7155_7188_7166),
  (0x5F69, 0x7162_714C_7156_716C_718F_71FB_7184_7195_71A8_71AC_71D7_71B9),
  (0x5F75, 0x71BE_71D2_71C9_71D4_71CE_71E0_71EC_71E7_71F5_71FC),
  (0x6021, 0x71F9_71FF_720D_7210_721B_7228_722D_722C_7230_7232_723B_723C),
  (0x602D, 0x723F_7240_7246_724B_7258_7274_727E_7282_7281_7287_7292_7296),
  (0x6039, 0x72A2_72A7_72B9_72B2_72C3_72C6_72C4_72CE_72D2_72E2_72E0_72E1),
  (0x6045, 0x72F9_72F7_500F_7317_730A_731C_7316_731D_7334_732F_7329_7325),
  (0x6051, 0x733E_734E_734F_9ED8_7357_736A_7368_7370_7378_7375_737B_737A),
  (0x605D, 0x73C8_73B3_73CE_73BB_73C0_73E5_73EE_73DE_74A2_7405_746F_7425),
  (0x6069, 0x73F8_7432_743A_7455_743F_745F_7459_7441_745C_7469_7470_7463),
  (0x6075, 0x746A_7476_747E_748B_749E_74A7_74CA_74CF_74D4_73F1),
  (0x6121, 0x74E0_74E3_74E7_74E9_74EE_74F2_74F0_74F1_74F8_74F7_7504_7503),
  (0x612D, 0x7505_750C_750E_750D_7515_7513_751E_7526_752C_753C_7544_754D),
  (0x6139, 0x754A_7549_755B_7546_755A_7569_7564_7567_756B_756D_7578_7576),
  (0x6145, 0x7586_7587_7574_758A_7589_7582_7594_759A_759D_75A5_75A3_75C2),
  (0x6151, 0x75B3_75C3_75B5_75BD_75B8_75BC_75B1_75CD_75CA_75D2_75D9_75E3),
  (0x615D, 0x75DE_75FE_75FF_75FC_7601_75F0_75FA_75F2_75F3_760B_760D_7609),
  (0x6169, 0x761F_7627_7620_7621_7622_7624_7634_7630_763B_7647_7648_7646),
  (0x6175, 0x765C_7658_7661_7662_7668_7669_766A_7667_766C_7670),
  (0x6221, 0x7672_7676_7678_767C_7680_7683_7688_768B_768E_7696_7693_7699),
  (0x622D, 0x769A_76B0_76B4_76B8_76B9_76BA_76C2_76CD_76D6_76D2_76DE_76E1),
  (0x6239, 0x76E5_76E7_76EA_862F_76FB_7708_7707_7704_7729_7724_771E_7725),
  (0x6245, 0x7726_771B_7737_7738_7747_775A_7768_776B_775B_7765_777F_777E),
  (0x6251, 0x7779_778E_778B_7791_77A0_779E_77B0_77B6_77B9_77BF_77BC_77BD),
  (0x625D, 0x77BB_77C7_77CD_77D7_77DA_77DC_77E3_77EE_77FC_780C_7812_7926),
  (0x6269, 0x7820_792A_7845_788E_7874_7886_787C_789A_788C_78A3_78B5_78AA),
  (0x6275, 0x78AF_78D1_78C6_78CB_78D4_78BE_78BC_78C5_78CA_78EC),
  (0x6321, 0x78E7_78DA_78FD_78F4_7907_7912_7911_7919_792C_792B_7940_7960),
  (0x632D, 0x7957_795F_795A_7955_7953_797A_797F_798A_799D_79A7_9F4B_79AA),
  (0x6339, 0x79AE_79B3_79B9_79BA_79C9_79D5_79E7_79EC_79E1_79E3_7A08_7A0D),
  (0x6345, 0x7A18_7A19_7A20_7A1F_7980_7A31_7A3B_7A3E_7A37_7A43_7A57_7A49),
  (0x6351, 0x7A61_7A62_7A69_9F9D_7A70_7A79_7A7D_7A88_7A97_7A95_7A98_7A96),
  (0x635D, 0x7AA9_7AC8_7AB0_7AB6_7AC5_7AC4_7ABF_9083_7AC7_7ACA_7ACD_7ACF),
  (0x6369, 0x7AD5_7AD3_7AD9_7ADA_7ADD_7AE1_7AE2_7AE6_7AED_7AF0_7B02_7B0F),
  (0x6375, 0x7B0A_7B06_7B33_7B18_7B19_7B1E_7B35_7B28_7B36_7B50),
  (0x6421, 0x7B7A_7B04_7B4D_7B0B_7B4C_7B45_7B75_7B65_7B74_7B67_7B70_7B71),
  (0x642D, 0x7B6C_7B6E_7B9D_7B98_7B9F_7B8D_7B9C_7B9A_7B8B_7B92_7B8F_7B5D),
  (0x6439, 0x7B99_7BCB_7BC1_7BCC_7BCF_7BB4_7BC6_7BDD_7BE9_7C11_7C14_7BE6),
  (0x6445, 0x7BE5_7C60_7C00_7C07_7C13_7BF3_7BF7_7C17_7C0D_7BF6_7C23_7C27),
  (0x6451, 0x7C2A_7C1F_7C37_7C2B_7C3D_7C4C_7C43_7C54_7C4F_7C40_7C50_7C58),
  (0x645D, 0x7C5F_7C64_7C56_7C65_7C6C_7C75_7C83_7C90_7CA4_7CAD_7CA2_7CAB),
  (0x6469, 0x7CA1_7CA8_7CB3_7CB2_7CB1_7CAE_7CB9_7CBD_7CC0_7CC5_7CC2_7CD8),
  (0x6475, 0x7CD2_7CDC_7CE2_9B3B_7CEF_7CF2_7CF4_7CF6_7CFA_7D06),
  (0x6521, 0x7D02_7D1C_7D15_7D0A_7D45_7D4B_7D2E_7D32_7D3F_7D35_7D46_7D73),
  (0x652D, 0x7D56_7D4E_7D72_7D68_7D6E_7D4F_7D63_7D93_7D89_7D5B_7D8F_7D7D),
  (0x6539, 0x7D9B_7DBA_7DAE_7DA3_7DB5_7DC7_7DBD_7DAB_7E3D_7DA2_7DAF_7DDC),
  (0x6545, 0x7DB8_7D9F_7DB0_7DD8_7DDD_7DE4_7DDE_7DFB_7DF2_7DE1_7E05_7E0A),
  (0x6551, 0x7E23_7E21_7E12_7E31_7E1F_7E09_7E0B_7E22_7E46_7E66_7E3B_7E35),
  (0x655D, 0x7E39_7E43_7E37_7E32_7E3A_7E67_7E5D_7E56_7E5E_7E59_7E5A_7E79),
  (0x6569, 0x7E6A_7E69_7E7C_7E7B_7E83_7DD5_7E7D_8FAE_7E7F_7E88_7E89_7E8C),
  (0x6575, 0x7E92_7E90_7E93_7E94_7E96_7E8E_7E9B_7E9C_7F38_7F3A),
  (0x6621, 0x7F45_7F4C_7F4D_7F4E_7F50_7F51_7F55_7F54_7F58_7F5F_7F60_7F68),
  (0x662D, 0x7F69_7F67_7F78_7F82_7F86_7F83_7F88_7F87_7F8C_7F94_7F9E_7F9D),
  (0x6639, 0x7F9A_7FA3_7FAF_7FB2_7FB9_7FAE_7FB6_7FB8_8B71_7FC5_7FC6_7FCA),
  (0x6645, 0x7FD5_7FD4_7FE1_7FE6_7FE9_7FF3_7FF9_98DC_8006_8004_800B_8012),
  (0x6651, 0x8018_8019_801C_8021_8028_803F_803B_804A_8046_8052_8058_805A),
  (0x665D, 0x805F_8062_8068_8073_8072_8070_8076_8079_807D_807F_8084_8086),
  (0x6669, 0x8085_809B_8093_809A_80AD_5190_80AC_80DB_80E5_80D9_80DD_80C4),
  (0x6675, 0x80DA_80D6_8109_80EF_80F1_811B_8129_8123_812F_814B),
  (0x6721, 0x968B_8146_813E_8153_8151_80FC_8171_816E_8165_8166_8174_8183),
  (0x672D, 0x8188_818A_8180_8182_81A0_8195_81A4_81A3_815F_8193_81A9_81B0),
  (0x6739, 0x81B5_81BE_81B8_81BD_81C0_81C2_81BA_81C9_81CD_81D1_81D9_81D8),
  (0x6745, 0x81C8_81DA_81DF_81E0_81E7_81FA_81FB_81FE_8201_8202_8205_8207),
  (0x6751, 0x820A_820D_8210_8216_8229_822B_8238_8233_8240_8259_8258_825D),
  (0x675D, 0x825A_825F_8264_8262_8268_826A_826B_822E_8271_8277_8278_827E),
  (0x6769, 0x828D_8292_82AB_829F_82BB_82AC_82E1_82E3_82DF_82D2_82F4_82F3),
  (0x6775, 0x82FA_8393_8303_82FB_82F9_82DE_8306_82DC_8309_82D9),
  (0x6821, 0x8335_8334_8316_8332_8331_8340_8339_8350_8345_832F_832B_8317),
  (0x682D, 0x8318_8385_839A_83AA_839F_83A2_8396_8323_838E_8387_838A_837C),
  (0x6839, 0x83B5_8373_8375_83A0_8389_83A8_83F4_8413_83EB_83CE_83FD_8403),
  (0x6845, 0x83D8_840B_83C1_83F7_8407_83E0_83F2_840D_8422_8420_83BD_8438),
  (0x6851, 0x8506_83FB_846D_842A_843C_855A_8484_8477_846B_84AD_846E_8482),
  (0x685D, 0x8469_8446_842C_846F_8479_8435_84CA_8462_84B9_84BF_849F_84D9),
  (0x6869, 0x84CD_84BB_84DA_84D0_84C1_84C6_84D6_84A1_8521_84FF_84F4_8517),
  (0x6875, 0x8518_852C_851F_8515_8514_84FC_8540_8563_8558_8548),
  (0x6921, 0x8541_8602_854B_8555_8580_85A4_8588_8591_858A_85A8_856D_8594),
  (0x692D, 0x859B_85EA_8587_859C_8577_857E_8590_85C9_85BA_85CF_85B9_85D0),
  (0x6939, 0x85D5_85DD_85E5_85DC_85F9_860A_8613_860B_85FE_85FA_8606_8622),
  (0x6945, 0x861A_8630_863F_864D_4E55_8654_865F_8667_8671_8693_86A3_86A9),
  (0x6951, 0x86AA_868B_868C_86B6_86AF_86C4_86C6_86B0_86C9_8823_86AB_86D4),
  (0x695D, 0x86DE_86E9_86EC_86DF_86DB_86EF_8712_8706_8708_8700_8703_86FB),
  (0x6969, 0x8711_8709_870D_86F9_870A_8734_873F_8737_873B_8725_8729_871A),
  (0x6975, 0x8760_875F_8778_874C_874E_8774_8757_8768_876E_8759),
  (0x6A21, 0x8753_8763_876A_8805_87A2_879F_8782_87AF_87CB_87BD_87C0_87D0),
  (0x6A2D, 0x96D6_87AB_87C4_87B3_87C7_87C6_87BB_87EF_87F2_87E0_880F_880D),
  (0x6A39, 0x87FE_87F6_87F7_880E_87D2_8811_8816_8815_8822_8821_8831_8836),
  (0x6A45, 0x8839_8827_883B_8844_8842_8852_8859_885E_8862_886B_8881_887E),
  (0x6A51, 0x889E_8875_887D_88B5_8872_8882_8897_8892_88AE_8899_88A2_888D),
  (0x6A5D, 0x88A4_88B0_88BF_88B1_88C3_88C4_88D4_88D8_88D9_88DD_88F9_8902),
  (0x6A69, 0x88FC_88F4_88E8_88F2_8904_890C_890A_8913_8943_891E_8925_892A),
  (0x6A75, 0x892B_8941_8944_893B_8936_8938_894C_891D_8960_895E),
  (0x6B21, 0x8966_8964_896D_896A_896F_8974_8977_897E_8983_8988_898A_8993),
  (0x6B2D, 0x8998_89A1_89A9_89A6_89AC_89AF_89B2_89BA_89BD_89BF_89C0_89DA),
  (0x6B39, 0x89DC_89DD_89E7_89F4_89F8_8A03_8A16_8A10_8A0C_8A1B_8A1D_8A25),
  (0x6B45, 0x8A36_8A41_8A5B_8A52_8A46_8A48_8A7C_8A6D_8A6C_8A62_8A85_8A82),
  (0x6B51, 0x8A84_8AA8_8AA1_8A91_8AA5_8AA6_8A9A_8AA3_8AC4_8ACD_8AC2_8ADA),
  (0x6B5D, 0x8AEB_8AF3_8AE7_8AE4_8AF1_8B14_8AE0_8AE2_8AF7_8ADE_8ADB_8B0C),
  (0x6B69, 0x8B07_8B1A_8AE1_8B16_8B10_8B17_8B20_8B33_97AB_8B26_8B2B_8B3E),
  (0x6B75, 0x8B28_8B41_8B4C_8B4F_8B4E_8B49_8B56_8B5B_8B5A_8B6B),
  (0x6C21, 0x8B5F_8B6C_8B6F_8B74_8B7D_8B80_8B8C_8B8E_8B92_8B93_8B96_8B99),
  (0x6C2D, 0x8B9A_8C3A_8C41_8C3F_8C48_8C4C_8C4E_8C50_8C55_8C62_8C6C_8C78),
  (0x6C39, 0x8C7A_8C82_8C89_8C85_8C8A_8C8D_8C8E_8C94_8C7C_8C98_621D_8CAD),
  (0x6C45, 0x8CAA_8CBD_8CB2_8CB3_8CAE_8CB6_8CC8_8CC1_8CE4_8CE3_8CDA_8CFD),
  (0x6C51, 0x8CFA_8CFB_8D04_8D05_8D0A_8D07_8D0F_8D0D_8D10_9F4E_8D13_8CCD),
  (0x6C5D, 0x8D14_8D16_8D67_8D6D_8D71_8D73_8D81_8D99_8DC2_8DBE_8DBA_8DCF),
  (0x6C69, 0x8DDA_8DD6_8DCC_8DDB_8DCB_8DEA_8DEB_8DDF_8DE3_8DFC_8E08_8E09),
  (0x6C75, 0x8DFF_8E1D_8E1E_8E10_8E1F_8E42_8E35_8E30_8E34_8E4A),
  (0x6D21, 0x8E47_8E49_8E4C_8E50_8E48_8E59_8E64_8E60_8E2A_8E63_8E55_8E76),
  (0x6D2D, 0x8E72_8E7C_8E81_8E87_8E85_8E84_8E8B_8E8A_8E93_8E91_8E94_8E99),
  (0x6D39, 0x8EAA_8EA1_8EAC_8EB0_8EC6_8EB1_8EBE_8EC5_8EC8_8ECB_8EDB_8EE3),
  (0x6D45, 0x8EFC_8EFB_8EEB_8EFE_8F0A_8F05_8F15_8F12_8F19_8F13_8F1C_8F1F),
  (0x6D51, 0x8F1B_8F0C_8F26_8F33_8F3B_8F39_8F45_8F42_8F3E_8F4C_8F49_8F46),
  (0x6D5D, 0x8F4E_8F57_8F5C_8F62_8F63_8F64_8F9C_8F9F_8FA3_8FAD_8FAF_8FB7),
  (0x6D69, 0x8FDA_8FE5_8FE2_8FEA_8FEF_9087_8FF4_9005_8FF9_8FFA_9011_9015),
  (0x6D75, 0x9021_900D_901E_9016_900B_9027_9036_9035_9039_8FF8),
  (0x6E21, 0x904F_9050_9051_9052_900E_9049_903E_9056_9058_905E_9068_906F),
  (0x6E2D, 0x9076_96A8_9072_9082_907D_9081_9080_908A_9089_908F_90A8_90AF),
  (0x6E39, 0x90B1_90B5_90E2_90E4_6248_90DB_9102_9112_9119_9132_9130_914A),
  (0x6E45, 0x9156_9158_9163_9165_9169_9173_9172_918B_9189_9182_91A2_91AB),
  (0x6E51, 0x91AF_91AA_91B5_91B4_91BA_91C0_91C1_91C9_91CB_91D0_91D6_91DF),
  (0x6E5D, 0x91E1_91DB_91FC_91F5_91F6_921E_91FF_9214_922C_9215_9211_925E),
  (0x6E69, 0x9257_9245_9249_9264_9248_9295_923F_924B_9250_929C_9296_9293),
  (0x6E75, 0x929B_925A_92CF_92B9_92B7_92E9_930F_92FA_9344_932E),
  (0x6F21, 0x9319_9322_931A_9323_933A_9335_933B_935C_9360_937C_936E_9356),
  (0x6F2D, 0x93B0_93AC_93AD_9394_93B9_93D6_93D7_93E8_93E5_93D8_93C3_93DD),
  (0x6F39, 0x93D0_93C8_93E4_941A_9414_9413_9403_9407_9410_9436_942B_9435),
  (0x6F45, 0x9421_943A_9441_9452_9444_945B_9460_9462_945E_946A_9229_9470),
  (0x6F51, 0x9475_9477_947D_945A_947C_947E_9481_947F_9582_9587_958A_9594),
  (0x6F5D, 0x9596_9598_9599_95A0_95A8_95A7_95AD_95BC_95BB_95B9_95BE_95CA),
  (0x6F69, 0x6FF6_95C3_95CD_95CC_95D5_95D4_95D6_95DC_95E1_95E5_95E2_9621),
  (0x6F75, 0x9628_962E_962F_9642_964C_964F_964B_9677_965C_965E),
  (0x7021, 0x965D_965F_9666_9672_966C_968D_9698_9695_9697_96AA_96A7_96B1),
  (0x702D, 0x96B2_96B0_96B4_96B6_96B8_96B9_96CE_96CB_96C9_96CD_894D_96DC),
  (0x7039, 0x970D_96D5_96F9_9704_9706_9708_9713_970E_9711_970F_9716_9719),
  (0x7045, 0x9724_972A_9730_9739_973D_973E_9744_9746_9748_9742_9749_975C),
  (0x7051, 0x9760_9764_9766_9768_52D2_976B_9771_9779_9785_977C_9781_977A),
  (0x705D, 0x9786_978B_978F_9790_979C_97A8_97A6_97A3_97B3_97B4_97C3_97C6),
  (0x7069, 0x97C8_97CB_97DC_97ED_9F4F_97F2_7ADF_97F6_97F5_980F_980C_9838),
  (0x7075, 0x9824_9821_9837_983D_9846_984F_984B_986B_986F_9870),
  (0x7121, 0x9871_9874_9873_98AA_98AF_98B1_98B6_98C4_98C3_98C6_98E9_98EB),
  (0x712D, 0x9903_9909_9912_9914_9918_9921_991D_991E_9924_9920_992C_992E),
  (0x7139, 0x993D_993E_9942_9949_9945_9950_994B_9951_9952_994C_9955_9997),
  (0x7145, 0x9998_99A5_99AD_99AE_99BC_99DF_99DB_99DD_99D8_99D1_99ED_99EE),
  (0x7151, 0x99F1_99F2_99FB_99F8_9A01_9A0F_9A05_99E2_9A19_9A2B_9A37_9A45),
  (0x715D, 0x9A42_9A40_9A43_9A3E_9A55_9A4D_9A5B_9A57_9A5F_9A62_9A65_9A64),
  (0x7169, 0x9A69_9A6B_9A6A_9AAD_9AB0_9ABC_9AC0_9ACF_9AD1_9AD3_9AD4_9ADE),
  (0x7175, 0x9ADF_9AE2_9AE3_9AE6_9AEF_9AEB_9AEE_9AF4_9AF1_9AF7),
  (0x7221, 0x9AFB_9B06_9B18_9B1A_9B1F_9B22_9B23_9B25_9B27_9B28_9B29_9B2A),
  (0x722D, 0x9B2E_9B2F_9B32_9B44_9B43_9B4F_9B4D_9B4E_9B51_9B58_9B74_9B93),
  (0x7239, 0x9B83_9B91_9B96_9B97_9B9F_9BA0_9BA8_9BB4_9BC0_9BCA_9BB9_9BC6),
  (0x7245, 0x9BCF_9BD1_9BD2_9BE3_9BE2_9BE4_9BD4_9BE1_9C3A_9BF2_9BF1_9BF0),
  (0x7251, 0x9C15_9C14_9C09_9C13_9C0C_9C06_9C08_9C12_9C0A_9C04_9C2E_9C1B),
  (0x725D, 0x9C25_9C24_9C21_9C30_9C47_9C32_9C46_9C3E_9C5A_9C60_9C67_9C76),
  (0x7269, 0x9C78_9CE7_9CEC_9CF0_9D09_9D08_9CEB_9D03_9D06_9D2A_9D26_9DAF),
  (0x7275, 0x9D23_9D1F_9D44_9D15_9D12_9D41_9D3F_9D3E_9D46_9D48),
  (0x7321, 0x9D5D_9D5E_9D64_9D51_9D50_9D59_9D72_9D89_9D87_9DAB_9D6F_9D7A),
  (0x732D, 0x9D9A_9DA4_9DA9_9DB2_9DC4_9DC1_9DBB_9DB8_9DBA_9DC6_9DCF_9DC2),
  (0x7339, 0x9DD9_9DD3_9DF8_9DE6_9DED_9DEF_9DFD_9E1A_9E1B_9E1E_9E75_9E79),
  (0x7345, 0x9E7D_9E81_9E88_9E8B_9E8C_9E92_9E95_9E91_9E9D_9EA5_9EA9_9EB8),
  (0x7351, 0x9EAA_9EAD_9761_9ECC_9ECE_9ECF_9ED0_9ED4_9EDC_9EDE_9EDD_9EE0),
  (0x735D, 0x9EE5_9EE8_9EEF_9EF4_9EF6_9EF7_9EF9_9EFB_9EFC_9EFD_9F07_9F08),
  (0x7369, 0x76B7_9F15_9F21_9F2C_9F3E_9F4A_9F52_9F54_9F63_9F5F_9F60_9F61),
  (0x7375, 0x9F66_9F67_9F6C_9F6A_9F77_9F72_9F76_9F95_9F9C_9FA0),
  (0x7421, 0x582F_69C7_9059_7464_51DC_7199)]

/-- /repo/modules/from/_JIS0208.txt; there is no file for writing. -/
def jis0208 : Charset where
  reads := jis0208Reads
  writes := []

/-- The rules of /repo/modules/from/_JIS0212.txt: code, character.  No two lines have the same code, so their order does not matter; here they
are sorted. -/
def jis0212Reads : Chart := Chart.wide [
  (0x222F, 0x02D8_02C7_00B8_02D9_02DD_00AF_02DB_02DA_007E_0384_0385),
  (0x2242, 0x00A1_00A6_00BF),
  (0x226B, 0x00BA_00AA_00A9_00AE_2122_00A4_2116),
  (0x2661, 0x0386_0388_0389_038A_03AA),
  (0x2667, 0x038C),
  (0x2669, 0x038E_03AB),
  (0x266C, 0x038F),
  (0x2671, 0x03AC_03AD_03AE_03AF_03CA_0390_03CC_03C2_03CD_03CB_03B0_03CE),
  (0x2742, 0x0402_0403_0404_0405_0406_0407_0408_0409_040A_040B_040C_040E),
  (0x274E, 0x040F),
  (0x2772, 0x0452_0453_0454_0455_0456_0457_0458_0459_045A_045B_045C_045E),
  (0x277E, 0x045F),
  (0x2921, 0x00C6_0110),
  (0x2924, 0x0126),
  (0x2926, 0x0132),
  (0x2928, 0x0141_013F),
  (0x292B, 0x014A_00D8_0152),
  (0x292F, 0x0166_00DE),
  (0x2941, 0x00E6_0111_00F0_0127_0131_0133_0138_0142_0140_0149_014B_00F8),
  (0x294D, 0x0153_00DF_0167_00FE),
  (0x2A21, 0x00C1_00C0_00C4_00C2_0102_01CD_0100_0104_00C5_00C3_0106_0108),
  (0x2A2D, 0x010C_00C7_010A_010E_00C9_00C8_00CB_00CA_011A_0116_0112_0118),
  (0x2A3A, 0x011C_011E_0122_0120_0124_00CD_00CC_00CF_00CE_01CF_0130_012A),
  (0x2A46, 0x012E_0128_0134_0136_0139_013D_013B_0143_0147_0145_00D1_00D3),
  (0x2A52, 0x00D2_00D6_00D4_01D1_0150_014C_00D5_0154_0158_0156_015A_015C),
  (0x2A5E, 0x0160_015E_0164_0162_00DA_00D9_00DC_00DB_016C_01D3_0170_016A),
  (0x2A6A, 0x0172_016E_0168_01D7_01DB_01D9_01D5_0174_00DD_0178_0176_0179),
  (0x2A76, 0x017D_017B),
  (0x2B21, 0x00E1_00E0_00E4_00E2_0103_01CE_0101_0105_00E5_00E3_0107_0109),
  (0x2B2D, 0x010D_00E7_010B_010F_00E9_00E8_00EB_00EA_011B_0117_0113_0119),
  (0x2B39, 0x01F5_011D_011F),
  (0x2B3D, 0x0121_0125_00ED_00EC_00EF_00EE_01D0),
  (0x2B45, 0x012B_012F_0129_0135_0137_013A_013E_013C_0144_0148_0146_00F1),
  (0x2B51, 0x00F3_00F2_00F6_00F4_01D2_0151_014D_00F5_0155_0159_0157_015B),
  (0x2B5D, 0x015D_0161_015F_0165_0163_00FA_00F9_00FC_00FB_016D_01D4_0171),
  (0x2B69, 0x016B_0173_016F_0169_01D8_01DC_01DA_01D6_0175_00FD_00FF_0177),
  (0x2B75, 0x017A_017E_017C),
  (0x3021, 0x4E02_4E04_4E05_4E0C_4E12_4E1F_4E23_4E24_4E28_4E2B_4E2E_4E2F),
  (0x302D, 0x4E30_4E35_4E40_4E41_4E44_4E47_4E51_4E5A_4E5C_4E63_4E68_4E69),
  (0x3039, 0x4E74_4E75_4E79_4E7F_4E8D_4E96_4E97_4E9D_4EAF_4EB9_4EC3_4ED0),
  (0x3045, 0x4EDA_4EDB_4EE0_4EE1_4EE2_4EE8_4EEF_4EF1_4EF3_4EF5_4EFD_4EFE),
  (0x3051, 0x4EFF_4F00_4F02_4F03_4F08_4F0B_4F0C_4F12_4F15_4F16_4F17_4F19),
  (0x305D, 0x4F2E_4F31_4F60_4F33_4F35_4F37_4F39_4F3B_4F3E_4F40_4F42_4F48),
  (0x3069, 0x4F49_4F4B_4F4C_4F52_4F54_4F56_4F58_4F5F_4F63_4F6A_4F6C_4F6E),
  (0x3075, 0x4F71_4F77_4F78_4F79_4F7A_4F7D_4F7E_4F81_4F82_4F84),
  (0x3121, 0x4F85_4F89_4F8A_4F8C_4F8E_4F90_4F92_4F93_4F94_4F97_4F99_4F9A),
  (0x312D, 0x4F9E_4F9F_4FB2_4FB7_4FB9_4FBB_4FBC_4FBD_4FBE_4FC0_4FC1_4FC5),
  (0x3139, 0x4FC6_4FC8_4FC9_4FCB_4FCC_4FCD_4FCF_4FD2_4FDC_4FE0_4FE2_4FF0),
  (0x3145, 0x4FF2_4FFC_4FFD_4FFF_5000_5001_5004_5007_500A_500C_500E_5010),
  (0x3151, 0x5013_5017_5018_501B_501C_501D_501E_5022_5027_502E_5030_5032),
  (0x315D, 0x5033_5035_5040_5041_5042_5045_5046_504A_504C_504E_5051_5052),
  (0x3169, 0x5053_5057_5059_505F_5060_5062_5063_5066_5067_506A_506D_5070),
  (0x3175, 0x5071_503B_5081_5083_5084_5086_508A_508E_508F_5090),
  (0x3221, 0x5092_5093_5094_5096_509B_509C_509E_509F_50A0_50A1_50A2_50AA),
  (0x322D, 0x50AF_50B0_50B9_50BA_50BD_50C0_50C3_50C4_50C7_50CC_50CE_50D0),
  (0x3239, 0x50D3_50D4_50D8_50DC_50DD_50DF_50E2_50E4_50E6_50E8_50E9_50EF),
  (0x3245, 0x50F1_50F6_50FA_50FE_5103_5106_5107_5108_510B_510C_510D_510E),
  (0x3251, 0x50F2_5110_5117_5119_511B_511C_511D_511E_5123_5127_5128_512C),
  (0x325D, 0x512D_512F_5131_5133_5134_5135_5138_5139_5142_514A_514F_5153),
  (0x3269, 0x5155_5157_5158_515F_5164_5166_517E_5183_5184_518B_518E_5198),
  (0x3275, 0x519D_51A1_51A3_51AD_51B8_51BA_51BC_51BE_51BF_51C2),
  (0x3321, 0x51C8_51CF_51D1_51D2_51D3_51D5_51D8_51DE_51E2_51E5_51EE_51F2),
  (0x332D, 0x51F3_51F4_51F7_5201_5202_5205_5212_5213_5215_5216_5218_5222),
  (0x3339, 0x5228_5231_5232_5235_523C_5245_5249_5255_5257_5258_525A_525C),
  (0x3345, 0x525F_5260_5261_5266_526E_5277_5278_5279_5280_5282_5285_528A),
  (0x3351, 0x528C_5293_5295_5296_5297_5298_529A_529C_52A4_52A5_52A6_52A7),
  (0x335D, 0x52AF_52B0_52B6_52B7_52B8_52BA_52BB_52BD_52C0_52C4_52C6_52C8),
  (0x3369, 0x52CC_52CF_52D1_52D4_52D6_52DB_52DC_52E1_52E5_52E8_52E9_52EA),
  (0x3375, 0x52EC_52F0_52F1_52F4_52F6_52F7_5300_5303_530A_530B),
  (0x3421, 0x530C_5311_5313_5318_531B_531C_531E_531F_5325_5327_5328_5329),
  (0x342D, 0x532B_532C_532D_5330_5332_5335_533C_533D_533E_5342_534C_534B),
  (0x3439, 0x5359_535B_5361_5363_5365_536C_536D_5372_5379_537E_5383_5387),
  (0x3445, 0x5388_538E_5393_5394_5399_539D_53A1_53A4_53AA_53AB_53AF_53B2),
  (0x3451, 0x53B4_53B5_53B7_53B8_53BA_53BD_53C0_53C5_53CF_53D2_53D3_53D5),
  (0x345D, 0x53DA_53DD_53DE_53E0_53E6_53E7_53F5_5402_5413_541A_5421_5427),
  (0x3469, 0x5428_542A_542F_5431_5434_5435_5443_5444_5447_544D_544F_545E),
  (0x3475, 0x5462_5464_5466_5467_5469_546B_546D_546E_5474_547F),
  (0x3521, 0x5481_5483_5485_5488_5489_548D_5491_5495_5496_549C_549F_54A1),
  (0x352D, 0x54A6_54A7_54A9_54AA_54AD_54AE_54B1_54B7_54B9_54BA_54BB_54BF),
  (0x3539, 0x54C6_54CA_54CD_54CE_54E0_54EA_54EC_54EF_54F6_54FC_54FE_54FF),
  (0x3545, 0x5500_5501_5505_5508_5509_550C_550D_550E_5515_552A_552B_5532),
  (0x3551, 0x5535_5536_553B_553C_553D_5541_5547_5549_554A_554D_5550_5551),
  (0x355D, 0x5558_555A_555B_555E_5560_5561_5564_5566_557F_5581_5582_5586),
  (0x3569, 0x5588_558E_558F_5591_5592_5593_5594_5597_55A3_55A4_55AD_55B2),
  (0x3575, 0x55BF_55C1_55C3_55C6_55C9_55CB_55CC_55CE_55D1_55D2),
  (0x3621, 0x55D3_55D7_55D8_55DB_55DE_55E2_55E9_55F6_55FF_5605_5608_560A),
  (0x362D, 0x560D_560E_560F_5610_5611_5612_5619_562C_5630_5633_5635_5637),
  (0x3639, 0x5639_563B_563C_563D_563F_5640_5641_5643_5644_5646_5649_564B),
  (0x3645, 0x564D_564F_5654_565E_5660_5661_5662_5663_5666_5669_566D_566F),
  (0x3651, 0x5671_5672_5675_5684_5685_5688_568B_568C_5695_5699_569A_569D),
  (0x365D, 0x569E_569F_56A6_56A7_56A8_56A9_56AB_56AC_56AD_56B1_56B3_56B7),
  (0x3669, 0x56BE_56C5_56C9_56CA_56CB_56CF_56D0_56CC_56CD_56D9_56DC_56DD),
  (0x3675, 0x56DF_56E1_56E4_56E5_56E6_56E7_56E8_56F1_56EB_56ED),
  (0x3721, 0x56F6_56F7_5701_5702_5707_570A_570C_5711_5715_571A_571B_571D),
  (0x372D, 0x5720_5722_5723_5724_5725_5729_572A_572C_572E_572F_5733_5734),
  (0x3739, 0x573D_573E_573F_5745_5746_574C_574D_5752_5762_5765_5767_5768),
  (0x3745, 0x576B_576D_576E_576F_5770_5771_5773_5774_5775_5777_5779_577A),
  (0x3751, 0x577B_577C_577E_5781_5783_578C_5794_5797_5799_579A_579C_579D),
  (0x375D, 0x579E_579F_57A1_5795_57A7_57A8_57A9_57AC_57B8_57BD_57C7_57C8),
  (0x3769, 0x57CC_57CF_57D5_57DD_57DE_57E4_57E6_57E7_57E9_57ED_57F0_57F5),
  (0x3775, 0x57F6_57F8_57FD_57FE_57FF_5803_5804_5808_5809_57E1),
  (0x3821, 0x580C_580D_581B_581E_581F_5820_5826_5827_582D_5832_5839_583F),
  (0x382D, 0x5849_584C_584D_584F_5850_5855_585F_5861_5864_5867_5868_5878),
  (0x3839, 0x587C_587F_5880_5881_5887_5888_5889_588A_588C_588D_588F_5890),
  (0x3845, 0x5894_5896_589D_58A0_58A1_58A2_58A6_58A9_58B1_58B2_58C4_58BC),
  (0x3851, 0x58C2_58C8_58CD_58CE_58D0_58D2_58D4_58D6_58DA_58DD_58E1_58E2),
  (0x385D, 0x58E9_58F3_5905_5906_590B_590C_5912_5913_5914_8641_591D_5921),
  (0x3869, 0x5923_5924_5928_592F_5930_5933_5935_5936_593F_5943_5946_5952),
  (0x3875, 0x5953_5959_595B_595D_595E_595F_5961_5963_596B_596D),
  (0x3921, 0x596F_5972_5975_5976_5979_597B_597C_598B_598C_598E_5992_5995),
  (0x392D, 0x5997_599F_59A4_59A7_59AD_59AE_59AF_59B0_59B3_59B7_59BA_59BC),
  (0x3939, 0x59C1_59C3_59C4_59C8_59CA_59CD_59D2_59DD_59DE_59DF_59E3_59E4),
  (0x3945, 0x59E7_59EE_59EF_59F1_59F2_59F4_59F7_5A00_5A04_5A0C_5A0D_5A0E),
  (0x3951, 0x5A12_5A13_5A1E_5A23_5A24_5A27_5A28_5A2A_5A2D_5A30_5A44_5A45),
  (0x395D, 0x5A47_5A48_5A4C_5A50_5A55_5A5E_5A63_5A65_5A67_5A6D_5A77_5A7A),
  (0x3969, 0x5A7B_5A7E_5A8B_5A90_5A93_5A96_5A99_5A9C_5A9E_5A9F_5AA0_5AA2),
  (0x3975, 0x5AA7_5AAC_5AB1_5AB2_5AB3_5AB5_5AB8_5ABA_5ABB_5ABF),
  (0x3A21, 0x5AC4_5AC6_5AC8_5ACF_5ADA_5ADC_5AE0_5AE5_5AEA_5AEE_5AF5_5AF6),
  (0x3A2D, 0x5AFD_5B00_5B01_5B08_5B17_5B34_5B19_5B1B_5B1D_5B21_5B25_5B2D),
  (0x3A39, 0x5B38_5B41_5B4B_5B4C_5B52_5B56_5B5E_5B68_5B6E_5B6F_5B7C_5B7D),
  (0x3A45, 0x5B7E_5B7F_5B81_5B84_5B86_5B8A_5B8E_5B90_5B91_5B93_5B94_5B96),
  (0x3A51, 0x5BA8_5BA9_5BAC_5BAD_5BAF_5BB1_5BB2_5BB7_5BBA_5BBC_5BC0_5BC1),
  (0x3A5D, 0x5BCD_5BCF_5BD6_5BD7_5BD8_5BD9_5BDA_5BE0_5BEF_5BF1_5BF4_5BFD),
  (0x3A69, 0x5C0C_5C17_5C1E_5C1F_5C23_5C26_5C29_5C2B_5C2C_5C2E_5C30_5C32),
  (0x3A75, 0x5C35_5C36_5C59_5C5A_5C5C_5C62_5C63_5C67_5C68_5C69),
  (0x3B21, 0x5C6D_5C70_5C74_5C75_5C7A_5C7B_5C7C_5C7D_5C87_5C88_5C8A_5C8F),
  (0x3B2D, 0x5C92_5C9D_5C9F_5CA0_5CA2_5CA3_5CA6_5CAA_5CB2_5CB4_5CB5_5CBA),
  (0x3B39, 0x5CC9_5CCB_5CD2_5CDD_5CD7_5CEE_5CF1_5CF2_5CF4_5D01_5D06_5D0D),
  (0x3B45, 0x5D12_5D2B_5D23_5D24_5D26_5D27_5D31_5D34_5D39_5D3D_5D3F_5D42),
  (0x3B51, 0x5D43_5D46_5D48_5D55_5D51_5D59_5D4A_5D5F_5D60_5D61_5D62_5D64),
  (0x3B5D, 0x5D6A_5D6D_5D70_5D79_5D7A_5D7E_5D7F_5D81_5D83_5D88_5D8A_5D92),
  (0x3B69, 0x5D93_5D94_5D95_5D99_5D9B_5D9F_5DA0_5DA7_5DAB_5DB0_5DB4_5DB8),
  (0x3B75, 0x5DB9_5DC3_5DC7_5DCB_5DD0_5DCE_5DD8_5DD9_5DE0_5DE4),
  (0x3C21, 0x5DE9_5DF8_5DF9_5E00_5E07_5E0D_5E12_5E14_5E15_5E18_5E1F_5E20),
  (0x3C2D, 0x5E2E_5E28_5E32_5E35_5E3E_5E4B_5E50_5E49_5E51_5E56_5E58_5E5B),
  (0x3C39, 0x5E5C_5E5E_5E68_5E6A_5E6B_5E6C_5E6D_5E6E_5E70_5E80_5E8B_5E8E),
  (0x3C45, 0x5EA2_5EA4_5EA5_5EA8_5EAA_5EAC_5EB1_5EB3_5EBD_5EBE_5EBF_5EC6),
  (0x3C51, 0x5ECC_5ECB_5ECE_5ED1_5ED2_5ED4_5ED5_5EDC_5EDE_5EE5_5EEB_5F02),
  (0x3C5D, 0x5F06_5F07_5F08_5F0E_5F19_5F1C_5F1D_5F21_5F22_5F23_5F24_5F28),
  (0x3C69, 0x5F2B_5F2C_5F2E_5F30_5F34_5F36_5F3B_5F3D_5F3F_5F40_5F44_5F45),
  (0x3C75, 0x5F47_5F4D_5F50_5F54_5F58_5F5B_5F60_5F63_5F64_5F67),
  (0x3D21, 0x5F6F_5F72_5F74_5F75_5F78_5F7A_5F7D_5F7E_5F89_5F8D_5F8F_5F96),
  (0x3D2D, 0x5F9C_5F9D_5FA2_5FA7_5FAB_5FA4_5FAC_5FAF_5FB0_5FB1_5FB8_5FC4),
  (0x3D39, 0x5FC7_5FC8_5FC9_5FCB_5FD0_5FD1_5FD2_5FD3_5FD4_5FDE_5FE1_5FE2),
  (0x3D45, 0x5FE8_5FE9_5FEA_5FEC_5FED_5FEE_5FEF_5FF2_5FF3_5FF6_5FFA_5FFC),
  (0x3D51, 0x6007_600A_600D_6013_6014_6017_6018_601A_601F_6024_602D_6033),
  (0x3D5D, 0x6035_6040_6047_6048_6049_604C_6051_6054_6056_6057_605D_6061),
  (0x3D69, 0x6067_6071_607E_607F_6082_6086_6088_608A_608E_6091_6093_6095),
  (0x3D75, 0x6098_609D_609E_60A2_60A4_60A5_60A8_60B0_60B1_60B7),
  (0x3E21, 0x60BB_60BE_60C2_60C4_60C8_60C9_60CA_60CB_60CE_60CF_60D4_60D5),
  (0x3E2D, 0x60D9_60DB_60DD_60DE_60E2_60E5_60F2_60F5_60F8_60FC_60FD_6102),
  (0x3E39, 0x6107_610A_610C_6110_6111_6112_6113_6114_6116_6117_6119_611C),
  (0x3E45, 0x611E_6122_612A_612B_6130_6131_6135_6136_6137_6139_6141_6145),
  (0x3E51, 0x6146_6149_615E_6160_616C_6172_6178_617B_617C_617F_6180_6181),
  (0x3E5D, 0x6183_6184_618B_618D_6192_6193_6197_6198_619C_619D_619F_61A0),
  (0x3E69, 0x61A5_61A8_61AA_61AD_61B8_61B9_61BC_61C0_61C1_61C2_61CE_61CF),
  (0x3E75, 0x61D5_61DC_61DD_61DE_61DF_61E1_61E2_61E7_61E9_61E5),
  (0x3F21, 0x61EC_61ED_61EF_6201_6203_6204_6207_6213_6215_621C_6220_6222),
  (0x3F2D, 0x6223_6227_6229_622B_6239_623D_6242_6243_6244_6246_624C_6250),
  (0x3F39, 0x6251_6252_6254_6256_625A_625C_6264_626D_626F_6273_627A_627D),
  (0x3F45, 0x628D_628E_628F_6290_62A6_62A8_62B3_62B6_62B7_62BA_62BE_62BF),
  (0x3F51, 0x62C4_62CE_62D5_62D6_62DA_62EA_62F2_62F4_62FC_62FD_6303_6304),
  (0x3F5D, 0x630A_630B_630D_6310_6313_6316_6318_6329_632A_632D_6335_6336),
  (0x3F69, 0x6339_633C_6341_6342_6343_6344_6346_634A_634B_634E_6352_6353),
  (0x3F75, 0x6354_6358_635B_6365_6366_636C_636D_6371_6374_6375),
  (0x4021, 0x6378_637C_637D_637F_6382_6384_6387_638A_6390_6394_6395_6399),
  (0x402D, 0x639A_639E_63A4_63A6_63AD_63AE_63AF_63BD_63C1_63C5_63C8_63CE),
  (0x4039, 0x63D1_63D3_63D4_63D5_63DC_63E0_63E5_63EA_63EC_63F2_63F3_63F5),
  (0x4045, 0x63F8_63F9_6409_640A_6410_6412_6414_6418_641E_6420_6422_6424),
  (0x4051, 0x6425_6429_642A_642F_6430_6435_643D_643F_644B_644F_6451_6452),
  (0x405D, 0x6453_6454_645A_645B_645C_645D_645F_6460_6461_6463_646D_6473),
  (0x4069, 0x6474_647B_647D_6485_6487_648F_6490_6491_6498_6499_649B_649D),
  (0x4075, 0x649F_64A1_64A3_64A6_64A8_64AC_64B3_64BD_64BE_64BF),
  (0x4121, 0x64C4_64C9_64CA_64CB_64CC_64CE_64D0_64D1_64D5_64D7_64E4_64E5),
  (0x412D, 0x64E9_64EA_64ED_64F0_64F5_64F7_64FB_64FF_6501_6504_6508_6509),
  (0x4139, 0x650A_650F_6513_6514_6516_6519_651B_651E_651F_6522_6526_6529),
  (0x4145, 0x652E_6531_653A_653C_653D_6543_6547_6549_6550_6552_6554_655F),
  (0x4151, 0x6560_6567_656B_657A_657D_6581_6585_658A_6592_6595_6598_659D),
  (0x415D, 0x65A0_65A3_65A6_65AE_65B2_65B3_65B4_65BF_65C2_65C8_65C9_65CE),
  (0x4169, 0x65D0_65D4_65D6_65D8_65DF_65F0_65F2_65F4_65F5_65F9_65FE_65FF),
  (0x4175, 0x6600_6604_6608_6609_660D_6611_6612_6615_6616_661D),
  (0x4221, 0x661E_6621_6622_6623_6624_6626_6629_662A_662B_662C_662E_6630),
  (0x422D, 0x6631_6633_6639_6637_6640_6645_6646_664A_664C_6651_664E_6657),
  (0x4239, 0x6658_6659_665B_665C_6660_6661_66FB_666A_666B_666C_667E_6673),
  (0x4245, 0x6675_667F_6677_6678_6679_667B_6680_667C_668B_668C_668D_6690),
  (0x4251, 0x6692_6699_669A_669B_669C_669F_66A0_66A4_66AD_66B1_66B2_66B5),
  (0x425D, 0x66BB_66BF_66C0_66C2_66C3_66C8_66CC_66CE_66CF_66D4_66DB_66DF),
  (0x4269, 0x66E8_66EB_66EC_66EE_66FA_6705_6707_670E_6713_6719_671C_6720),
  (0x4275, 0x6722_6733_673E_6745_6747_6748_674C_6754_6755_675D),
  (0x4321, 0x6766_676C_676E_6774_6776_677B_6781_6784_678E_678F_6791_6793),
  (0x432D, 0x6796_6798_6799_679B_67B0_67B1_67B2_67B5_67BB_67BC_67BD_67F9),
  (0x4339, 0x67C0_67C2_67C3_67C5_67C8_67C9_67D2_67D7_67D9_67DC_67E1_67E6),
  (0x4345, 0x67F0_67F2_67F6_67F7_6852_6814_6819_681D_681F_6828_6827_682C),
  (0x4351, 0x682D_682F_6830_6831_6833_683B_683F_6844_6845_684A_684C_6855),
  (0x435D, 0x6857_6858_685B_686B_686E_686F_6870_6871_6872_6875_6879_687A),
  (0x4369, 0x687B_687C_6882_6884_6886_6888_6896_6898_689A_689C_68A1_68A3),
  (0x4375, 0x68A5_68A9_68AA_68AE_68B2_68BB_68C5_68C8_68CC_68CF),
  (0x4421, 0x68D0_68D1_68D3_68D6_68D9_68DC_68DD_68E5_68E8_68EA_68EB_68EC),
  (0x442D, 0x68ED_68F0_68F1_68F5_68F6_68FB_68FC_68FD_6906_6909_690A_6910),
  (0x4439, 0x6911_6913_6916_6917_6931_6933_6935_6938_693B_6942_6945_6949),
  (0x4445, 0x694E_6957_695B_6963_6964_6965_6966_6968_6969_696C_6970_6971),
  (0x4451, 0x6972_697A_697B_697F_6980_698D_6992_6996_6998_69A1_69A5_69A6),
  (0x445D, 0x69A8_69AB_69AD_69AF_69B7_69B8_69BA_69BC_69C5_69C8_69D1_69D6),
  (0x4469, 0x69D7_69E2_69E5_69EE_69EF_69F1_69F3_69F5_69FE_6A00_6A01_6A03),
  (0x4475, 0x6A0F_6A11_6A15_6A1A_6A1D_6A20_6A24_6A28_6A30_6A32),
  (0x4521, 0x6A34_6A37_6A3B_6A3E_6A3F_6A45_6A46_6A49_6A4A_6A4E_6A50_6A51),
  (0x452D, 0x6A52_6A55_6A56_6A5B_6A64_6A67_6A6A_6A71_6A73_6A7E_6A81_6A83),
  (0x4539, 0x6A86_6A87_6A89_6A8B_6A91_6A9B_6A9D_6A9E_6A9F_6AA5_6AAB_6AAF),
  (0x4545, 0x6AB0_6AB1_6AB4_6ABD_6ABE_6ABF_6AC6_6AC9_6AC8_6ACC_6AD0_6AD4),
  (0x4551, 0x6AD5_6AD6_6ADC_6ADD_6AE4_6AE7_6AEC_6AF0_6AF1_6AF2_6AFC_6AFD),
  (0x455D, 0x6B02_6B03_6B06_6B07_6B09_6B0F_6B10_6B11_6B17_6B1B_6B1E_6B24),
  (0x4569, 0x6B28_6B2B_6B2C_6B2F_6B35_6B36_6B3B_6B3F_6B46_6B4A_6B4D_6B52),
  (0x4575, 0x6B56_6B58_6B5D_6B60_6B67_6B6B_6B6E_6B70_6B75_6B7D),
  (0x4621, 0x6B7E_6B82_6B85_6B97_6B9B_6B9F_6BA0_6BA2_6BA3_6BA8_6BA9_6BAC),
  (0x462D, 0x6BAD_6BAE_6BB0_6BB8_6BB9_6BBD_6BBE_6BC3_6BC4_6BC9_6BCC_6BD6),
  (0x4639, 0x6BDA_6BE1_6BE3_6BE6_6BE7_6BEE_6BF1_6BF7_6BF9_6BFF_6C02_6C04),
  (0x4645, 0x6C05_6C09_6C0D_6C0E_6C10_6C12_6C19_6C1F_6C26_6C27_6C28_6C2C),
  (0x4651, 0x6C2E_6C33_6C35_6C36_6C3A_6C3B_6C3F_6C4A_6C4B_6C4D_6C4F_6C52),
  (0x465D, 0x6C54_6C59_6C5B_6C5C_6C6B_6C6D_6C6F_6C74_6C76_6C78_6C79_6C7B),
  (0x4669, 0x6C85_6C86_6C87_6C89_6C94_6C95_6C97_6C98_6C9C_6C9F_6CB0_6CB2),
  (0x4675, 0x6CB4_6CC2_6CC6_6CCD_6CCF_6CD0_6CD1_6CD2_6CD4_6CD6),
  (0x4721, 0x6CDA_6CDC_6CE0_6CE7_6CE9_6CEB_6CEC_6CEE_6CF2_6CF4_6D04_6D07),
  (0x472D, 0x6D0A_6D0E_6D0F_6D11_6D13_6D1A_6D26_6D27_6D28_6C67_6D2E_6D2F),
  (0x4739, 0x6D31_6D39_6D3C_6D3F_6D57_6D5E_6D5F_6D61_6D65_6D67_6D6F_6D70),
  (0x4745, 0x6D7C_6D82_6D87_6D91_6D92_6D94_6D96_6D97_6D98_6DAA_6DAC_6DB4),
  (0x4751, 0x6DB7_6DB9_6DBD_6DBF_6DC4_6DC8_6DCA_6DCE_6DCF_6DD6_6DDB_6DDD),
  (0x475D, 0x6DDF_6DE0_6DE2_6DE5_6DE9_6DEF_6DF0_6DF4_6DF6_6DFC_6E00_6E04),
  (0x4769, 0x6E1E_6E22_6E27_6E32_6E36_6E39_6E3B_6E3C_6E44_6E45_6E48_6E49),
  (0x4775, 0x6E4B_6E4F_6E51_6E52_6E53_6E54_6E57_6E5C_6E5D_6E5E),
  (0x4821, 0x6E62_6E63_6E68_6E73_6E7B_6E7D_6E8D_6E93_6E99_6EA0_6EA7_6EAD),
  (0x482D, 0x6EAE_6EB1_6EB3_6EBB_6EBF_6EC0_6EC1_6EC3_6EC7_6EC8_6ECA_6ECD),
  (0x4839, 0x6ECE_6ECF_6EEB_6EED_6EEE_6EF9_6EFB_6EFD_6F04_6F08_6F0A_6F0C),
  (0x4845, 0x6F0D_6F16_6F18_6F1A_6F1B_6F26_6F29_6F2A_6F2F_6F30_6F33_6F36),
  (0x4851, 0x6F3B_6F3C_6F2D_6F4F_6F51_6F52_6F53_6F57_6F59_6F5A_6F5D_6F5E),
  (0x485D, 0x6F61_6F62_6F68_6F6C_6F7D_6F7E_6F83_6F87_6F88_6F8B_6F8C_6F8D),
  (0x4869, 0x6F90_6F92_6F93_6F94_6F96_6F9A_6F9F_6FA0_6FA5_6FA6_6FA7_6FA8),
  (0x4875, 0x6FAE_6FAF_6FB0_6FB5_6FB6_6FBC_6FC5_6FC7_6FC8_6FCA),
  (0x4921, 0x6FDA_6FDE_6FE8_6FE9_6FF0_6FF5_6FF9_6FFC_6FFD_7000_7005_7006),
  (0x492D, 0x7007_700D_7017_7020_7023_702F_7034_7037_7039_703C_7043_7044),
  (0x4939, 0x7048_7049_704A_704B_7054_7055_705D_705E_704E_7064_7065_706C),
  (0x4945, 0x706E_7075_7076_707E_7081_7085_7086_7094_7095_7096_7097_7098),
  (0x4951, 0x709B_70A4_70AB_70B0_70B1_70B4_70B7_70CA_70D1_70D3_70D4_70D5),
  (0x495D, 0x70D6_70D8_70DC_70E4_70FA_7103_7104_7105_7106_7107_710B_710C),
  (0x4969, 0x710F_711E_7120_712B_712D_712F_7130_7131_7138_7141_7145_7146),
  (0x4975, 0x7147_714A_714B_7150_7152_7157_715A_715C_715E_7160),
  (0x4A21, 0x7168_7179_7180_7185_7187_718C_7192_719A_719B_71A0_71A2_71AF),
  (0x4A2D, 0x71B0_71B2_71B3_71BA_71BF_71C0_71C1_71C4_71CB_71CC_71D3_71D6),
  (0x4A39, 0x71D9_71DA_71DC_71F8_71FE_7200_7207_7208_7209_7213_7217_721A),
  (0x4A45, 0x721D_721F_7224_722B_722F_7234_7238_7239_7241_7242_7243_7245),
  (0x4A51, 0x724E_724F_7250_7253_7255_7256_725A_725C_725E_7260_7263_7268),
  (0x4A5D, 0x726B_726E_726F_7271_7277_7278_727B_727C_727F_7284_7289_728D),
  (0x4A69, 0x728E_7293_729B_72A8_72AD_72AE_72B1_72B4_72BE_72C1_72C7_72C9),
  (0x4A75, 0x72CC_72D5_72D6_72D8_72DF_72E5_72F3_72F4_72FA_72FB),
  (0x4B21, 0x72FE_7302_7304_7305_7307_730B_730D_7312_7313_7318_7319_731E),
  (0x4B2D, 0x7322_7324_7327_7328_732C_7331_7332_7335_733A_733B_733D_7343),
  (0x4B39, 0x734D_7350_7352_7356_7358_735D_735E_735F_7360_7366_7367_7369),
  (0x4B45, 0x736B_736C_736E_736F_7371_7377_7379_737C_7380_7381_7383_7385),
  (0x4B51, 0x7386_738E_7390_7393_7395_7397_7398_739C_739E_739F_73A0_73A2),
  (0x4B5D, 0x73A5_73A6_73AA_73AB_73AD_73B5_73B7_73B9_73BC_73BD_73BF_73C5),
  (0x4B69, 0x73C6_73C9_73CB_73CC_73CF_73D2_73D3_73D6_73D9_73DD_73E1_73E3),
  (0x4B75, 0x73E6_73E7_73E9_73F4_73F5_73F7_73F9_73FA_73FB_73FD),
  (0x4C21, 0x73FF_7400_7401_7404_7407_740A_7411_741A_741B_7424_7426_7428),
  (0x4C2D, 0x7429_742A_742B_742C_742D_742E_742F_7430_7431_7439_7440_7443),
  (0x4C39, 0x7444_7446_7447_744B_744D_7451_7452_7457_745D_7462_7466_7467),
  (0x4C45, 0x7468_746B_746D_746E_7471_7472_7480_7481_7485_7486_7487_7489),
  (0x4C51, 0x748F_7490_7491_7492_7498_7499_749A_749C_749F_74A0_74A1_74A3),
  (0x4C5D, 0x74A6_74A8_74A9_74AA_74AB_74AE_74AF_74B1_74B2_74B5_74B9_74BB),
  (0x4C69, 0x74BF_74C8_74C9_74CC_74D0_74D3_74D8_74DA_74DB_74DE_74DF_74E4),
  (0x4C75, 0x74E8_74EA_74EB_74EF_74F4_74FA_74FB_74FC_74FF_7506),
  (0x4D21, 0x7512_7516_7517_7520_7521_7524_7527_7529_752A_752F_7536_7539),
  (0x4D2D, 0x753D_753E_753F_7540_7543_7547_7548_754E_7550_7552_7557_755E),
  (0x4D39, 0x755F_7561_756F_7571_7579_757A_757B_757C_757D_757E_7581_7585),
  (0x4D45, 0x7590_7592_7593_7595_7599_759C_75A2_75A4_75B4_75BA_75BF_75C0),
  (0x4D51, 0x75C1_75C4_75C6_75CC_75CE_75CF_75D7_75DC_75DF_75E0_75E1_75E4),
  (0x4D5D, 0x75E7_75EC_75EE_75EF_75F1_75F9_7600_7602_7603_7604_7607_7608),
  (0x4D69, 0x760A_760C_760F_7612_7613_7615_7616_7619_761B_761C_761D_761E),
  (0x4D75, 0x7623_7625_7626_7629_762D_7632_7633_7635_7638_7639),
  (0x4E21, 0x763A_763C_764A_7640_7641_7643_7644_7645_7649_764B_7655_7659),
  (0x4E2D, 0x765F_7664_7665_766D_766E_766F_7671_7674_7681_7685_768C_768D),
  (0x4E39, 0x7695_769B_769C_769D_769F_76A0_76A2_76A3_76A4_76A5_76A6_76A7),
  (0x4E45, 0x76A8_76AA_76AD_76BD_76C1_76C5_76C9_76CB_76CC_76CE_76D4_76D9),
  (0x4E51, 0x76E0_76E6_76E8_76EC_76F0_76F1_76F6_76F9_76FC_7700_7706_770A),
  (0x4E5D, 0x770E_7712_7714_7715_7717_7719_771A_771C_7722_7728_772D_772E),
  (0x4E69, 0x772F_7734_7735_7736_7739_773D_773E_7742_7745_7746_774A_774D),
  (0x4E75, 0x774E_774F_7752_7756_7757_775C_775E_775F_7760_7762),
  (0x4F21, 0x7764_7767_776A_776C_7770_7772_7773_7774_777A_777D_7780_7784),
  (0x4F2D, 0x778C_778D_7794_7795_7796_779A_779F_77A2_77A7_77AA_77AE_77AF),
  (0x4F39, 0x77B1_77B5_77BE_77C3_77C9_77D1_77D2_77D5_77D9_77DE_77DF_77E0),
  (0x4F45, 0x77E4_77E6_77EA_77EC_77F0_77F1_77F4_77F8_77FB_7805_7806_7809),
  (0x4F51, 0x780D_780E_7811_781D_7821_7822_7823_782D_782E_7830_7835_7837),
  (0x4F5D, 0x7843_7844_7847_7848_784C_784E_7852_785C_785E_7860_7861_7863),
  (0x4F69, 0x7864_7868_786A_786E_787A_787E_788A_788F_7894_7898_78A1_789D),
  (0x4F75, 0x789E_789F_78A4_78A8_78AC_78AD_78B0_78B1_78B2_78B3),
  (0x5021, 0x78BB_78BD_78BF_78C7_78C8_78C9_78CC_78CE_78D2_78D3_78D5_78D6),
  (0x502D, 0x78E4_78DB_78DF_78E0_78E1_78E6_78EA_78F2_78F3_7900_78F6_78F7),
  (0x5039, 0x78FA_78FB_78FF_7906_790C_7910_791A_791C_791E_791F_7920_7925),
  (0x5045, 0x7927_7929_792D_7931_7934_7935_793B_793D_793F_7944_7945_7946),
  (0x5051, 0x794A_794B_794F_7951_7954_7958_795B_795C_7967_7969_796B_7972),
  (0x505D, 0x7979_797B_797C_797E_798B_798C_7991_7993_7994_7995_7996_7998),
  (0x5069, 0x799B_799C_79A1_79A8_79A9_79AB_79AF_79B1_79B4_79B8_79BB_79C2),
  (0x5075, 0x79C4_79C7_79C8_79CA_79CF_79D4_79D6_79DA_79DD_79DE),
  (0x5121, 0x79E0_79E2_79E5_79EA_79EB_79ED_79F1_79F8_79FC_7A02_7A03_7A07),
  (0x512D, 0x7A09_7A0A_7A0C_7A11_7A15_7A1B_7A1E_7A21_7A27_7A2B_7A2D_7A2F),
  (0x5139, 0x7A30_7A34_7A35_7A38_7A39_7A3A_7A44_7A45_7A47_7A48_7A4C_7A55),
  (0x5145, 0x7A56_7A59_7A5C_7A5D_7A5F_7A60_7A65_7A67_7A6A_7A6D_7A75_7A78),
  (0x5151, 0x7A7E_7A80_7A82_7A85_7A86_7A8A_7A8B_7A90_7A91_7A94_7A9E_7AA0),
  (0x515D, 0x7AA3_7AAC_7AB3_7AB5_7AB9_7ABB_7ABC_7AC6_7AC9_7ACC_7ACE_7AD1),
  (0x5169, 0x7ADB_7AE8_7AE9_7AEB_7AEC_7AF1_7AF4_7AFB_7AFD_7AFE_7B07_7B14),
  (0x5175, 0x7B1F_7B23_7B27_7B29_7B2A_7B2B_7B2D_7B2E_7B2F_7B30),
  (0x5221, 0x7B31_7B34_7B3D_7B3F_7B40_7B41_7B47_7B4E_7B55_7B60_7B64_7B66),
  (0x522D, 0x7B69_7B6A_7B6D_7B6F_7B72_7B73_7B77_7B84_7B89_7B8E_7B90_7B91),
  (0x5239, 0x7B96_7B9B_7B9E_7BA0_7BA5_7BAC_7BAF_7BB0_7BB2_7BB5_7BB6_7BBA),
  (0x5245, 0x7BBB_7BBC_7BBD_7BC2_7BC5_7BC8_7BCA_7BD4_7BD6_7BD7_7BD9_7BDA),
  (0x5251, 0x7BDB_7BE8_7BEA_7BF2_7BF4_7BF5_7BF8_7BF9_7BFA_7BFC_7BFE_7C01),
  (0x525D, 0x7C02_7C03_7C04_7C06_7C09_7C0B_7C0C_7C0E_7C0F_7C19_7C1B_7C20),
  (0x5269, 0x7C25_7C26_7C28_7C2C_7C31_7C33_7C34_7C36_7C39_7C3A_7C46_7C4A),
  (0x5275, 0x7C55_7C51_7C52_7C53_7C59_7C5A_7C5B_7C5C_7C5D_7C5E),
  (0x5321, 0x7C61_7C63_7C67_7C69_7C6D_7C6E_7C70_7C72_7C79_7C7C_7C7D_7C86),
  (0x532D, 0x7C87_7C8F_7C94_7C9E_7CA0_7CA6_7CB0_7CB6_7CB7_7CBA_7CBB_7CBC),
  (0x5339, 0x7CBF_7CC4_7CC7_7CC8_7CC9_7CCD_7CCF_7CD3_7CD4_7CD5_7CD7_7CD9),
  (0x5345, 0x7CDA_7CDD_7CE6_7CE9_7CEB_7CF5_7D03_7D07_7D08_7D09_7D0F_7D11),
  (0x5351, 0x7D12_7D13_7D16_7D1D_7D1E_7D23_7D26_7D2A_7D2D_7D31_7D3C_7D3D),
  (0x535D, 0x7D3E_7D40_7D41_7D47_7D48_7D4D_7D51_7D53_7D57_7D59_7D5A_7D5C),
  (0x5369, 0x7D5D_7D65_7D67_7D6A_7D70_7D78_7D7A_7D7B_7D7F_7D81_7D82_7D83),
  (0x5375, 0x7D85_7D86_7D88_7D8B_7D8C_7D8D_7D91_7D96_7D97_7D9D),
  (0x5421, 0x7D9E_7DA6_7DA7_7DAA_7DB3_7DB6_7DB7_7DB9_7DC2_7DC3_7DC4_7DC5),
  (0x542D, 0x7DC6_7DCC_7DCD_7DCE_7DD7_7DD9_7E00_7DE2_7DE5_7DE6_7DEA_7DEB),
  (0x5439, 0x7DED_7DF1_7DF5_7DF6_7DF9_7DFA_7E08_7E10_7E11_7E15_7E17_7E1C),
  (0x5445, 0x7E1D_7E20_7E27_7E28_7E2C_7E2D_7E2F_7E33_7E36_7E3F_7E44_7E45),
  (0x5451, 0x7E47_7E4E_7E50_7E52_7E58_7E5F_7E61_7E62_7E65_7E6B_7E6E_7E6F),
  (0x545D, 0x7E73_7E78_7E7E_7E81_7E86_7E87_7E8A_7E8D_7E91_7E95_7E98_7E9A),
  (0x5469, 0x7E9D_7E9E_7F3C_7F3B_7F3D_7F3E_7F3F_7F43_7F44_7F47_7F4F_7F52),
  (0x5475, 0x7F53_7F5B_7F5C_7F5D_7F61_7F63_7F64_7F65_7F66_7F6D),
  (0x5521, 0x7F71_7F7D_7F7E_7F7F_7F80_7F8B_7F8D_7F8F_7F90_7F91_7F96_7F97),
  (0x552D, 0x7F9C_7FA1_7FA2_7FA6_7FAA_7FAD_7FB4_7FBC_7FBF_7FC0_7FC3_7FC8),
  (0x5539, 0x7FCE_7FCF_7FDB_7FDF_7FE3_7FE5_7FE8_7FEC_7FEE_7FEF_7FF2_7FFA),
  (0x5545, 0x7FFD_7FFE_7FFF_8007_8008_800A_800D_800E_800F_8011_8013_8014),
  (0x5551, 0x8016_801D_801E_801F_8020_8024_8026_802C_802E_8030_8034_8035),
  (0x555D, 0x8037_8039_803A_803C_803E_8040_8044_8060_8064_8066_806D_8071),
  (0x5569, 0x8075_8081_8088_808E_809C_809E_80A6_80A7_80AB_80B8_80B9_80C8),
  (0x5575, 0x80CD_80CF_80D2_80D4_80D5_80D7_80D8_80E0_80ED_80EE),
  (0x5621, 0x80F0_80F2_80F3_80F6_80F9_80FA_80FE_8103_810B_8116_8117_8118),
  (0x562D, 0x811C_811E_8120_8124_8127_812C_8130_8135_813A_813C_8145_8147),
  (0x5639, 0x814A_814C_8152_8157_8160_8161_8167_8168_8169_816D_816F_8177),
  (0x5645, 0x8181_8190_8184_8185_8186_818B_818E_8196_8198_819B_819E_81A2),
  (0x5651, 0x81AE_81B2_81B4_81BB_81CB_81C3_81C5_81CA_81CE_81CF_81D5_81D7),
  (0x565D, 0x81DB_81DD_81DE_81E1_81E4_81EB_81EC_81F0_81F1_81F2_81F5_81F6),
  (0x5669, 0x81F8_81F9_81FD_81FF_8200_8203_820F_8213_8214_8219_821A_821D),
  (0x5675, 0x8221_8222_8228_8232_8234_823A_8243_8244_8245_8246),
  (0x5721, 0x824B_824E_824F_8251_8256_825C_8260_8263_8267_826D_8274_827B),
  (0x572D, 0x827D_827F_8280_8281_8283_8284_8287_8289_828A_828E_8291_8294),
  (0x5739, 0x8296_8298_829A_829B_82A0_82A1_82A3_82A4_82A7_82A8_82A9_82AA),
  (0x5745, 0x82AE_82B0_82B2_82B4_82B7_82BA_82BC_82BE_82BF_82C6_82D0_82D5),
  (0x5751, 0x82DA_82E0_82E2_82E4_82E8_82EA_82ED_82EF_82F6_82F7_82FD_82FE),
  (0x575D, 0x8300_8301_8307_8308_830A_830B_8354_831B_831D_831E_831F_8321),
  (0x5769, 0x8322_832C_832D_832E_8330_8333_8337_833A_833C_833D_8342_8343),
  (0x5775, 0x8344_8347_834D_834E_8351_8355_8356_8357_8370_8378),
  (0x5821, 0x837D_837F_8380_8382_8384_8386_838D_8392_8394_8395_8398_8399),
  (0x582D, 0x839B_839C_839D_83A6_83A7_83A9_83AC_83BE_83BF_83C0_83C7_83C9),
  (0x5839, 0x83CF_83D0_83D1_83D4_83DD_8353_83E8_83EA_83F6_83F8_83F9_83FC),
  (0x5845, 0x8401_8406_840A_840F_8411_8415_8419_83AD_842F_8439_8445_8447),
  (0x5851, 0x8448_844A_844D_844F_8451_8452_8456_8458_8459_845A_845C_8460),
  (0x585D, 0x8464_8465_8467_846A_8470_8473_8474_8476_8478_847C_847D_8481),
  (0x5869, 0x8485_8492_8493_8495_849E_84A6_84A8_84A9_84AA_84AF_84B1_84B4),
  (0x5875, 0x84BA_84BD_84BE_84C0_84C2_84C7_84C8_84CC_84CF_84D3),
  (0x5921, 0x84DC_84E7_84EA_84EF_84F0_84F1_84F2_84F7_8532_84FA_84FB_84FD),
  (0x592D, 0x8502_8503_8507_850C_850E_8510_851C_851E_8522_8523_8524_8525),
  (0x5939, 0x8527_852A_852B_852F_8533_8534_8536_853F_8546_854F_8550_8551),
  (0x5945, 0x8552_8553_8556_8559_855C_855D_855E_855F_8560_8561_8562_8564),
  (0x5951, 0x856B_856F_8579_857A_857B_857D_857F_8581_8585_8586_8589_858B),
  (0x595D, 0x858C_858F_8593_8598_859D_859F_85A0_85A2_85A5_85A7_85B4_85B6),
  (0x5969, 0x85B7_85B8_85BC_85BD_85BE_85BF_85C2_85C7_85CA_85CB_85CE_85AD),
  (0x5975, 0x85D8_85DA_85DF_85E0_85E6_85E8_85ED_85F3_85F6_85FC),
  (0x5A21, 0x85FF_8600_8604_8605_860D_860E_8610_8611_8612_8618_8619_861B),
  (0x5A2D, 0x861E_8621_8627_8629_8636_8638_863A_863C_863D_8640_8642_8646),
  (0x5A39, 0x8652_8653_8656_8657_8658_8659_865D_8660_8661_8662_8663_8664),
  (0x5A45, 0x8669_866C_866F_8675_8676_8677_867A_868D_8691_8696_8698_869A),
  (0x5A51, 0x869C_86A1_86A6_86A7_86A8_86AD_86B1_86B3_86B4_86B5_86B7_86B8),
  (0x5A5D, 0x86B9_86BF_86C0_86C1_86C3_86C5_86D1_86D2_86D5_86D7_86DA_86DC),
  (0x5A69, 0x86E0_86E3_86E5_86E7_8688_86FA_86FC_86FD_8704_8705_8707_870B),
  (0x5A75, 0x870E_870F_8710_8713_8714_8719_871E_871F_8721_8723),
  (0x5B21, 0x8728_872E_872F_8731_8732_8739_873A_873C_873D_873E_8740_8743),
  (0x5B2D, 0x8745_874D_8758_875D_8761_8764_8765_876F_8771_8772_877B_8783),
  (0x5B39, 0x8784_8785_8786_8787_8788_8789_878B_878C_8790_8793_8795_8797),
  (0x5B45, 0x8798_8799_879E_87A0_87A3_87A7_87AC_87AD_87AE_87B1_87B5_87BE),
  (0x5B51, 0x87BF_87C1_87C8_87C9_87CA_87CE_87D5_87D6_87D9_87DA_87DC_87DF),
  (0x5B5D, 0x87E2_87E3_87E4_87EA_87EB_87ED_87F1_87F3_87F8_87FA_87FF_8801),
  (0x5B69, 0x8803_8806_8809_880A_880B_8810_8819_8812_8813_8814_8818_881A),
  (0x5B75, 0x881B_881C_881E_881F_8828_882D_882E_8830_8832_8835),
  (0x5C21, 0x883A_883C_8841_8843_8845_8848_8849_884A_884B_884E_8851_8855),
  (0x5C2D, 0x8856_8858_885A_885C_885F_8860_8864_8869_8871_8879_887B_8880),
  (0x5C39, 0x8898_889A_889B_889C_889F_88A0_88A8_88AA_88BA_88BD_88BE_88C0),
  (0x5C45, 0x88CA_88CB_88CC_88CD_88CE_88D1_88D2_88D3_88DB_88DE_88E7_88EF),
  (0x5C51, 0x88F0_88F1_88F5_88F7_8901_8906_890D_890E_890F_8915_8916_8918),
  (0x5C5D, 0x8919_891A_891C_8920_8926_8927_8928_8930_8931_8932_8935_8939),
  (0x5C69, 0x893A_893E_8940_8942_8945_8946_8949_894F_8952_8957_895A_895B),
  (0x5C75, 0x895C_8961_8962_8963_896B_896E_8970_8973_8975_897A),
  (0x5D21, 0x897B_897C_897D_8989_898D_8990_8994_8995_899B_899C_899F_89A0),
  (0x5D2D, 0x89A5_89B0_89B4_89B5_89B6_89B7_89BC_89D4_89D5_89D6_89D7_89D8),
  (0x5D39, 0x89E5_89E9_89EB_89ED_89F1_89F3_89F6_89F9_89FD_89FF_8A04_8A05),
  (0x5D45, 0x8A07_8A0F_8A11_8A12_8A14_8A15_8A1E_8A20_8A22_8A24_8A26_8A2B),
  (0x5D51, 0x8A2C_8A2F_8A35_8A37_8A3D_8A3E_8A40_8A43_8A45_8A47_8A49_8A4D),
  (0x5D5D, 0x8A4E_8A53_8A56_8A57_8A58_8A5C_8A5D_8A61_8A65_8A67_8A75_8A76),
  (0x5D69, 0x8A77_8A79_8A7A_8A7B_8A7E_8A7F_8A80_8A83_8A86_8A8B_8A8F_8A90),
  (0x5D75, 0x8A92_8A96_8A97_8A99_8A9F_8AA7_8AA9_8AAE_8AAF_8AB3),
  (0x5E21, 0x8AB6_8AB7_8ABB_8ABE_8AC3_8AC6_8AC8_8AC9_8ACA_8AD1_8AD3_8AD4),
  (0x5E2D, 0x8AD5_8AD7_8ADD_8ADF_8AEC_8AF0_8AF4_8AF5_8AF6_8AFC_8AFF_8B05),
  (0x5E39, 0x8B06_8B0B_8B11_8B1C_8B1E_8B1F_8B0A_8B2D_8B30_8B37_8B3C_8B42),
  (0x5E45, 0x8B43_8B44_8B45_8B46_8B48_8B52_8B53_8B54_8B59_8B4D_8B5E_8B63),
  (0x5E51, 0x8B6D_8B76_8B78_8B79_8B7C_8B7E_8B81_8B84_8B85_8B8B_8B8D_8B8F),
  (0x5E5D, 0x8B94_8B95_8B9C_8B9E_8B9F_8C38_8C39_8C3D_8C3E_8C45_8C47_8C49),
  (0x5E69, 0x8C4B_8C4F_8C51_8C53_8C54_8C57_8C58_8C5B_8C5D_8C59_8C63_8C64),
  (0x5E75, 0x8C66_8C68_8C69_8C6D_8C73_8C75_8C76_8C7B_8C7E_8C86),
  (0x5F21, 0x8C87_8C8B_8C90_8C92_8C93_8C99_8C9B_8C9C_8CA4_8CB9_8CBA_8CC5),
  (0x5F2D, 0x8CC6_8CC9_8CCB_8CCF_8CD6_8CD5_8CD9_8CDD_8CE1_8CE8_8CEC_8CEF),
  (0x5F39, 0x8CF0_8CF2_8CF5_8CF7_8CF8_8CFE_8CFF_8D01_8D03_8D09_8D12_8D17),
  (0x5F45, 0x8D1B_8D65_8D69_8D6C_8D6E_8D7F_8D82_8D84_8D88_8D8D_8D90_8D91),
  (0x5F51, 0x8D95_8D9E_8D9F_8DA0_8DA6_8DAB_8DAC_8DAF_8DB2_8DB5_8DB7_8DB9),
  (0x5F5D, 0x8DBB_8DC0_8DC5_8DC6_8DC7_8DC8_8DCA_8DCE_8DD1_8DD4_8DD5_8DD7),
  (0x5F69, 0x8DD9_8DE4_8DE5_8DE7_8DEC_8DF0_8DBC_8DF1_8DF2_8DF4_8DFD_8E01),
  (0x5F75, 0x8E04_8E05_8E06_8E0B_8E11_8E14_8E16_8E20_8E21_8E22),
  (0x6021, 0x8E23_8E26_8E27_8E31_8E33_8E36_8E37_8E38_8E39_8E3D_8E40_8E41),
  (0x602D, 0x8E4B_8E4D_8E4E_8E4F_8E54_8E5B_8E5C_8E5D_8E5E_8E61_8E62_8E69),
  (0x6039, 0x8E6C_8E6D_8E6F_8E70_8E71_8E79_8E7A_8E7B_8E82_8E83_8E89_8E90),
  (0x6045, 0x8E92_8E95_8E9A_8E9B_8E9D_8E9E_8EA2_8EA7_8EA9_8EAD_8EAE_8EB3),
  (0x6051, 0x8EB5_8EBA_8EBB_8EC0_8EC1_8EC3_8EC4_8EC7_8ECF_8ED1_8ED4_8EDC),
  (0x605D, 0x8EE8_8EEE_8EF0_8EF1_8EF7_8EF9_8EFA_8EED_8F00_8F02_8F07_8F08),
  (0x6069, 0x8F0F_8F10_8F16_8F17_8F18_8F1E_8F20_8F21_8F23_8F25_8F27_8F28),
  (0x6075, 0x8F2C_8F2D_8F2E_8F34_8F35_8F36_8F37_8F3A_8F40_8F41),
  (0x6121, 0x8F43_8F47_8F4F_8F51_8F52_8F53_8F54_8F55_8F58_8F5D_8F5E_8F65),
  (0x612D, 0x8F9D_8FA0_8FA1_8FA4_8FA5_8FA6_8FB5_8FB6_8FB8_8FBE_8FC0_8FC1),
  (0x6139, 0x8FC6_8FCA_8FCB_8FCD_8FD0_8FD2_8FD3_8FD5_8FE0_8FE3_8FE4_8FE8),
  (0x6145, 0x8FEE_8FF1_8FF5_8FF6_8FFB_8FFE_9002_9004_9008_900C_9018_901B),
  (0x6151, 0x9028_9029_902F_902A_902C_902D_9033_9034_9037_903F_9043_9044),
  (0x615D, 0x904C_905B_905D_9062_9066_9067_906C_9070_9074_9079_9085_9088),
  (0x6169, 0x908B_908C_908E_9090_9095_9097_9098_9099_909B_90A0_90A1_90A2),
  (0x6175, 0x90A5_90B0_90B2_90B3_90B4_90B6_90BD_90CC_90BE_90C3),
  (0x6221, 0x90C4_90C5_90C7_90C8_90D5_90D7_90D8_90D9_90DC_90DD_90DF_90E5),
  (0x622D, 0x90D2_90F6_90EB_90EF_90F0_90F4_90FE_90FF_9100_9104_9105_9106),
  (0x6239, 0x9108_910D_9110_9114_9116_9117_9118_911A_911C_911E_9120_9125),
  (0x6245, 0x9122_9123_9127_9129_912E_912F_9131_9134_9136_9137_9139_913A),
  (0x6251, 0x913C_913D_9143_9147_9148_914F_9153_9157_9159_915A_915B_9161),
  (0x625D, 0x9164_9167_916D_9174_9179_917A_917B_9181_9183_9185_9186_918A),
  (0x6269, 0x918E_9191_9193_9194_9195_9198_919E_91A1_91A6_91A8_91AC_91AD),
  (0x6275, 0x91AE_91B0_91B1_91B2_91B3_91B6_91BB_91BC_91BD_91BF),
  (0x6321, 0x91C2_91C3_91C5_91D3_91D4_91D7_91D9_91DA_91DE_91E4_91E5_91E9),
  (0x632D, 0x91EA_91EC_91ED_91EE_91EF_91F0_91F1_91F7_91F9_91FB_91FD_9200),
  (0x6339, 0x9201_9204_9205_9206_9207_9209_920A_920C_9210_9212_9213_9216),
  (0x6345, 0x9218_921C_921D_9223_9224_9225_9226_9228_922E_922F_9230_9233),
  (0x6351, 0x9235_9236_9238_9239_923A_923C_923E_9240_9242_9243_9246_9247),
  (0x635D, 0x924A_924D_924E_924F_9251_9258_9259_925C_925D_9260_9261_9265),
  (0x6369, 0x9267_9268_9269_926E_926F_9270_9275_9276_9277_9278_9279_927B),
  (0x6375, 0x927C_927D_927F_9288_9289_928A_928D_928E_9292_9297),
  (0x6421, 0x9299_929F_92A0_92A4_92A5_92A7_92A8_92AB_92AF_92B2_92B6_92B8),
  (0x642D, 0x92BA_92BB_92BC_92BD_92BF_92C0_92C1_92C2_92C3_92C5_92C6_92C7),
  (0x6439, 0x92C8_92CB_92CC_92CD_92CE_92D0_92D3_92D5_92D7_92D8_92D9_92DC),
  (0x6445, 0x92DD_92DF_92E0_92E1_92E3_92E5_92E7_92E8_92EC_92EE_92F0_92F9),
  (0x6451, 0x92FB_92FF_9300_9302_9308_930D_9311_9314_9315_931C_931D_931E),
  (0x645D, 0x931F_9321_9324_9325_9327_9329_932A_9333_9334_9336_9337_9347),
  (0x6469, 0x9348_9349_9350_9351_9352_9355_9357_9358_935A_935E_9364_9365),
  (0x6475, 0x9367_9369_936A_936D_936F_9370_9371_9373_9374_9376),
  (0x6521, 0x937A_937D_937F_9380_9381_9382_9388_938A_938B_938D_938F_9392),
  (0x652D, 0x9395_9398_939B_939E_93A1_93A3_93A4_93A6_93A8_93AB_93B4_93B5),
  (0x6539, 0x93B6_93BA_93A9_93C1_93C4_93C5_93C6_93C7_93C9_93CA_93CB_93CC),
  (0x6545, 0x93CD_93D3_93D9_93DC_93DE_93DF_93E2_93E6_93E7_93F9_93F7_93F8),
  (0x6551, 0x93FA_93FB_93FD_9401_9402_9404_9408_9409_940D_940E_940F_9415),
  (0x655D, 0x9416_9417_941F_942E_942F_9431_9432_9433_9434_943B_943F_943D),
  (0x6569, 0x9443_9445_9448_944A_944C_9455_9459_945C_945F_9461_9463_9468),
  (0x6575, 0x946B_946D_946E_946F_9471_9472_9484_9483_9578_9579),
  (0x6621, 0x957E_9584_9588_958C_958D_958E_959D_959E_959F_95A1_95A6_95A9),
  (0x662D, 0x95AB_95AC_95B4_95B6_95BA_95BD_95BF_95C6_95C8_95C9_95CB_95D0),
  (0x6639, 0x95D1_95D2_95D3_95D9_95DA_95DD_95DE_95DF_95E0_95E4_95E6_961D),
  (0x6645, 0x961E_9622_9624_9625_9626_962C_9631_9633_9637_9638_9639_963A),
  (0x6651, 0x963C_963D_9641_9652_9654_9656_9657_9658_9661_966E_9674_967B),
  (0x665D, 0x967C_967E_967F_9681_9682_9683_9684_9689_9691_9696_969A_969D),
  (0x6669, 0x969F_96A4_96A5_96A6_96A9_96AE_96AF_96B3_96BA_96CA_96D2_5DB2),
  (0x6675, 0x96D8_96DA_96DD_96DE_96DF_96E9_96EF_96F1_96FA_9702),
  (0x6721, 0x9703_9705_9709_971A_971B_971D_9721_9722_9723_9728_9731_9733),
  (0x672D, 0x9741_9743_974A_974E_974F_9755_9757_9758_975A_975B_9763_9767),
  (0x6739, 0x976A_976E_9773_9776_9777_9778_977B_977D_977F_9780_9789_9795),
  (0x6745, 0x9796_9797_9799_979A_979E_979F_97A2_97AC_97AE_97B1_97B2_97B5),
  (0x6751, 0x97B6_97B8_97B9_97BA_97BC_97BE_97BF_97C1_97C4_97C5_97C7_97C9),
  (0x675D, 0x97CA_97CC_97CD_97CE_97D0_97D1_97D4_97D7_97D8_97D9_97DD_97DE),
  (0x6769, 0x97E0_97DB_97E1_97E4_97EF_97F1_97F4_97F7_97F8_97FA_9807_980A),
  (0x6775, 0x9819_980D_980E_9814_9816_981C_981E_9820_9823_9826),
  (0x6821, 0x982B_982E_982F_9830_9832_9833_9835_9825_983E_9844_9847_984A),
  (0x682D, 0x9851_9852_9853_9856_9857_9859_985A_9862_9863_9865_9866_986A),
  (0x6839, 0x986C_98AB_98AD_98AE_98B0_98B4_98B7_98B8_98BA_98BB_98BF_98C2),
  (0x6845, 0x98C5_98C8_98CC_98E1_98E3_98E5_98E6_98E7_98EA_98F3_98F6_9902),
  (0x6851, 0x9907_9908_9911_9915_9916_9917_991A_991B_991C_991F_9922_9926),
  (0x685D, 0x9927_992B_9931_9932_9933_9934_9935_9939_993A_993B_993C_9940),
  (0x6869, 0x9941_9946_9947_9948_994D_994E_9954_9958_9959_995B_995C_995E),
  (0x6875, 0x995F_9960_999B_999D_999F_99A6_99B0_99B1_99B2_99B5),
  (0x6921, 0x99B9_99BA_99BD_99BF_99C3_99C9_99D3_99D4_99D9_99DA_99DC_99DE),
  (0x692D, 0x99E7_99EA_99EB_99EC_99F0_99F4_99F5_99F9_99FD_99FE_9A02_9A03),
  (0x6939, 0x9A04_9A0B_9A0C_9A10_9A11_9A16_9A1E_9A20_9A22_9A23_9A24_9A27),
  (0x6945, 0x9A2D_9A2E_9A33_9A35_9A36_9A38_9A47_9A41_9A44_9A4A_9A4B_9A4C),
  (0x6951, 0x9A4E_9A51_9A54_9A56_9A5D_9AAA_9AAC_9AAE_9AAF_9AB2_9AB4_9AB5),
  (0x695D, 0x9AB6_9AB9_9ABB_9ABE_9ABF_9AC1_9AC3_9AC6_9AC8_9ACE_9AD0_9AD2),
  (0x6969, 0x9AD5_9AD6_9AD7_9ADB_9ADC_9AE0_9AE4_9AE5_9AE7_9AE9_9AEC_9AF2),
  (0x6975, 0x9AF3_9AF5_9AF9_9AFA_9AFD_9AFF_9B00_9B01_9B02_9B03),
  (0x6A21, 0x9B04_9B05_9B08_9B09_9B0B_9B0C_9B0D_9B0E_9B10_9B12_9B16_9B19),
  (0x6A2D, 0x9B1B_9B1C_9B20_9B26_9B2B_9B2D_9B33_9B34_9B35_9B37_9B39_9B3A),
  (0x6A39, 0x9B3D_9B48_9B4B_9B4C_9B55_9B56_9B57_9B5B_9B5E_9B61_9B63_9B65),
  (0x6A45, 0x9B66_9B68_9B6A_9B6B_9B6C_9B6D_9B6E_9B73_9B75_9B77_9B78_9B79),
  (0x6A51, 0x9B7F_9B80_9B84_9B85_9B86_9B87_9B89_9B8A_9B8B_9B8D_9B8F_9B90),
  (0x6A5D, 0x9B94_9B9A_9B9D_9B9E_9BA6_9BA7_9BA9_9BAC_9BB0_9BB1_9BB2_9BB7),
  (0x6A69, 0x9BB8_9BBB_9BBC_9BBE_9BBF_9BC1_9BC7_9BC8_9BCE_9BD0_9BD7_9BD8),
  (0x6A75, 0x9BDD_9BDF_9BE5_9BE7_9BEA_9BEB_9BEF_9BF3_9BF7_9BF8),
  (0x6B21, 0x9BF9_9BFA_9BFD_9BFF_9C00_9C02_9C0B_9C0F_9C11_9C16_9C18_9C19),
  (0x6B2D, 0x9C1A_9C1C_9C1E_9C22_9C23_9C26_9C27_9C28_9C29_9C2A_9C31_9C35),
  (0x6B39, 0x9C36_9C37_9C3D_9C41_9C43_9C44_9C45_9C49_9C4A_9C4E_9C4F_9C50),
  (0x6B45, 0x9C53_9C54_9C56_9C58_9C5B_9C5D_9C5E_9C5F_9C63_9C69_9C6A_9C5C),
  (0x6B51, 0x9C6B_9C68_9C6E_9C70_9C72_9C75_9C77_9C7B_9CE6_9CF2_9CF7_9CF9),
  (0x6B5D, 0x9D0B_9D02_9D11_9D17_9D18_9D1C_9D1D_9D1E_9D2F_9D30_9D32_9D33),
  (0x6B69, 0x9D34_9D3A_9D3C_9D45_9D3D_9D42_9D43_9D47_9D4A_9D53_9D54_9D5F),
  (0x6B75, 0x9D63_9D62_9D65_9D69_9D6A_9D6B_9D70_9D76_9D77_9D7B),
  (0x6C21, 0x9D7C_9D7E_9D83_9D84_9D86_9D8A_9D8D_9D8E_9D92_9D93_9D95_9D96),
  (0x6C2D, 0x9D97_9D98_9DA1_9DAA_9DAC_9DAE_9DB1_9DB5_9DB9_9DBC_9DBF_9DC3),
  (0x6C39, 0x9DC7_9DC9_9DCA_9DD4_9DD5_9DD6_9DD7_9DDA_9DDE_9DDF_9DE0_9DE5),
  (0x6C45, 0x9DE7_9DE9_9DEB_9DEE_9DF0_9DF3_9DF4_9DFE_9E0A_9E02_9E07_9E0E),
  (0x6C51, 0x9E10_9E11_9E12_9E15_9E16_9E19_9E1C_9E1D_9E7A_9E7B_9E7C_9E80),
  (0x6C5D, 0x9E82_9E83_9E84_9E85_9E87_9E8E_9E8F_9E96_9E98_9E9B_9E9E_9EA4),
  (0x6C69, 0x9EA8_9EAC_9EAE_9EAF_9EB0_9EB3_9EB4_9EB5_9EC6_9EC8_9ECB_9ED5),
  (0x6C75, 0x9EDF_9EE4_9EE7_9EEC_9EED_9EEE_9EF0_9EF1_9EF2_9EF5),
  (0x6D21, 0x9EF8_9EFF_9F02_9F03_9F09_9F0F_9F10_9F11_9F12_9F14_9F16_9F17),
  (0x6D2D, 0x9F19_9F1A_9F1B_9F1F_9F22_9F26_9F2A_9F2B_9F2F_9F31_9F32_9F34),
  (0x6D39, 0x9F37_9F39_9F3A_9F3C_9F3D_9F3F_9F41_9F43_9F44_9F45_9F46_9F47),
  (0x6D45, 0x9F53_9F55_9F56_9F57_9F58_9F5A_9F5D_9F5E_9F68_9F69_9F6D_9F6E),
  (0x6D51, 0x9F6F_9F70_9F71_9F73_9F75_9F7A_9F7D_9F8F_9F90_9F91_9F92_9F94),
  (0x6D5D, 0x9F96_9F97_9F9E_9FA1_9FA2_9FA3_9FA5)]

/-- The rules of /repo/modules/to/_JIS0212.txt: character, code.  No two lines have the same character; sorted.  Lines `0100..`, if any, are
listed separately. -/
def jis0212Writes : Chart := Chart.wide [
  (0x7E, 0x2237),
  (0xA1, 0x2242),
  (0xA4, 0x2270),
  (0xA6, 0x2243),
  (0xA9, 0x226D_226C),
  (0xAE, 0x226E_2234),
  (0xB8, 0x2231),
  (0xBA, 0x226B),
  (0xBF, 0x2244_2A22_2A21_2A24_2A2A_2A23_2A29_2921_2A2E_2A32_2A31_2A34),
  (0xCB, 0x2A33_2A40_2A3F_2A42_2A41),
  (0xD1, 0x2A50_2A52_2A51_2A54_2A58_2A53),
  (0xD8, 0x292C_2A63_2A62_2A65_2A64_2A72_2930_294E_2B22_2B21_2B24_2B2A),
  (0xE4, 0x2B23_2B29_2941_2B2E_2B32_2B31_2B34_2B33_2B40_2B3F_2B42_2B41),
  (0xF0, 0x2943_2B50_2B52_2B51_2B54_2B58_2B53),
  (0xF8, 0x294C_2B63_2B62_2B65_2B64_2B72_2950_2B73_2A27_2B27_2A25_2B25),
  (0x104, 0x2A28_2B28_2A2B_2B2B_2A2C_2B2C_2A2F_2B2F_2A2D_2B2D_2A30_2B30),
  (0x110, 0x2922_2942_2A37_2B37),
  (0x116, 0x2A36_2B36_2A38_2B38_2A35_2B35_2A3A_2B3A_2A3B_2B3B_2A3D_2B3D),
  (0x122, 0x2A3C),
  (0x124, 0x2A3E_2B3E_2924_2944_2A47_2B47_2A45_2B45),
  (0x12E, 0x2A46_2B46_2A44_2945_2926_2946_2A48_2B48_2A49_2B49_2947_2A4A),
  (0x13A, 0x2B4A_2A4C_2B4C_2A4B_2B4B_2929_2949_2928_2948_2A4D_2B4D_2A4F),
  (0x146, 0x2B4F_2A4E_2B4E_294A_292B_294B_2A57_2B57),
  (0x150, 0x2A56_2B56_292D_294D_2A59_2B59_2A5B_2B5B_2A5A_2B5A_2A5C_2B5C),
  (0x15C, 0x2A5D_2B5D_2A5F_2B5F_2A5E_2B5E_2A61_2B61_2A60_2B60_292F_294F),
  (0x168, 0x2A6C_2B6C_2A69_2B69_2A66_2B66_2A6B_2B6B_2A68_2B68_2A6A_2B6A),
  (0x174, 0x2A71_2B71_2A74_2B74_2A73_2A75_2B75_2A77_2B77_2A76_2B76),
  (0x1CD, 0x2A26_2B26_2A43_2B43_2A55_2B55_2A67_2B67_2A70_2B70_2A6D_2B6D),
  (0x1D9, 0x2A6F_2B6F_2A6E_2B6E),
  (0x1F5, 0x2B39),
  (0x2C7, 0x2230),
  (0x2D8, 0x222F_2232_2236_2235),
  (0x2DD, 0x2233),
  (0x384, 0x2238_2239_2661),
  (0x388, 0x2662_2663_2664),
  (0x38C, 0x2667),
  (0x38E, 0x2669_266C_2676),
  (0x3AA, 0x2665_266A_2671_2672_2673_2674_267B),
  (0x3C2, 0x2678),
  (0x3CA, 0x2675_267A_2677_2679_267C),
  (0x402, 0x2742_2743_2744_2745_2746_2747_2748_2749_274A_274B_274C),
  (0x40E, 0x274D_274E),
  (0x452, 0x2772_2773_2774_2775_2776_2777_2778_2779_277A_277B_277C),
  (0x45E, 0x277D_277E),
  (0x2116, 0x2271),
  (0x2122, 0x226F),
  (0x4E02, 0x3021),
  (0x4E04, 0x3022_3023),
  (0x4E0C, 0x3024),
  (0x4E12, 0x3025),
  (0x4E1F, 0x3026),
  (0x4E23, 0x3027_3028),
  (0x4E28, 0x3029),
  (0x4E2B, 0x302A),
  (0x4E2E, 0x302B_302C_302D),
  (0x4E35, 0x302E),
  (0x4E40, 0x302F_3030),
  (0x4E44, 0x3031),
  (0x4E47, 0x3032),
  (0x4E51, 0x3033),
  (0x4E5A, 0x3034),
  (0x4E5C, 0x3035),
  (0x4E63, 0x3036),
  (0x4E68, 0x3037_3038),
  (0x4E74, 0x3039_303A),
  (0x4E79, 0x303B),
  (0x4E7F, 0x303C),
  (0x4E8D, 0x303D),
  (0x4E96, 0x303E_303F),
  (0x4E9D, 0x3040),
  (0x4EAF, 0x3041),
  (0x4EB9, 0x3042),
  (0x4EC3, 0x3043),
  (0x4ED0, 0x3044),
  (0x4EDA, 0x3045_3046),
  (0x4EE0, 0x3047_3048_3049),
  (0x4EE8, 0x304A),
  (0x4EEF, 0x304B),
  (0x4EF1, 0x304C),
  (0x4EF3, 0x304D),
  (0x4EF5, 0x304E),
  (0x4EFD, 0x304F_3050_3051_3052),
  (0x4F02, 0x3053_3054),
  (0x4F08, 0x3055),
  (0x4F0B, 0x3056_3057),
  (0x4F12, 0x3058),
  (0x4F15, 0x3059_305A_305B),
  (0x4F19, 0x305C),
  (0x4F2E, 0x305D),
  (0x4F31, 0x305E),
  (0x4F33, 0x3060),
  (0x4F35, 0x3061),
  (0x4F37, 0x3062),
  (0x4F39, 0x3063),
  (0x4F3B, 0x3064),
  (0x4F3E, 0x3065),
  (0x4F40, 0x3066),
  (0x4F42, 0x3067),
  (0x4F48, 0x3068_3069),
  (0x4F4B, 0x306A_306B),
  (0x4F52, 0x306C),
  (0x4F54, 0x306D),
  (0x4F56, 0x306E),
  (0x4F58, 0x306F),
  (0x4F5F, 0x3070_305F),
  (0x4F63, 0x3071),
  (0x4F6A, 0x3072),
  (0x4F6C, 0x3073),
  (0x4F6E, 0x3074),
  (0x4F71, 0x3075),
  (0x4F77, 0x3076_3077_3078_3079),
  (0x4F7D, 0x307A_307B),
  (0x4F81, 0x307C_307D),
  (0x4F84, 0x307E_3121),
  (0x4F89, 0x3122_3123),
  (0x4F8C, 0x3124),
  (0x4F8E, 0x3125),
  (0x4F90, 0x3126),
  (0x4F92, 0x3127_3128_3129),
  (0x4F97, 0x312A),
  (0x4F99, 0x312B_312C),
  (0x4F9E, 0x312D_312E),
  (0x4FB2, 0x312F),
  (0x4FB7, 0x3130),
  (0x4FB9, 0x3131),
  (0x4FBB, 0x3132_3133_3134_3135),
  (0x4FC0, 0x3136_3137),
  (0x4FC5, 0x3138_3139),
  (0x4FC8, 0x313A_313B),
  (0x4FCB, 0x313C_313D_313E),
  (0x4FCF, 0x313F),
  (0x4FD2, 0x3140),
  (0x4FDC, 0x3141),
  (0x4FE0, 0x3142),
  (0x4FE2, 0x3143),
  (0x4FF0, 0x3144),
  (0x4FF2, 0x3145),
  (0x4FFC, 0x3146_3147),
  (0x4FFF, 0x3148_3149_314A),
  (0x5004, 0x314B),
  (0x5007, 0x314C),
  (0x500A, 0x314D),
  (0x500C, 0x314E),
  (0x500E, 0x314F),
  (0x5010, 0x3150),
  (0x5013, 0x3151),
  (0x5017, 0x3152_3153),
  (0x501B, 0x3154_3155_3156_3157),
  (0x5022, 0x3158),
  (0x5027, 0x3159),
  (0x502E, 0x315A),
  (0x5030, 0x315B),
  (0x5032, 0x315C_315D),
  (0x5035, 0x315E),
  (0x503B, 0x3176),
  (0x5040, 0x315F_3160_3161),
  (0x5045, 0x3162_3163),
  (0x504A, 0x3164),
  (0x504C, 0x3165),
  (0x504E, 0x3166),
  (0x5051, 0x3167_3168_3169),
  (0x5057, 0x316A),
  (0x5059, 0x316B),
  (0x505F, 0x316C_316D),
  (0x5062, 0x316E_316F),
  (0x5066, 0x3170_3171),
  (0x506A, 0x3172),
  (0x506D, 0x3173),
  (0x5070, 0x3174_3175),
  (0x5081, 0x3177),
  (0x5083, 0x3178_3179),
  (0x5086, 0x317A),
  (0x508A, 0x317B),
  (0x508E, 0x317C_317D_317E),
  (0x5092, 0x3221_3222_3223),
  (0x5096, 0x3224),
  (0x509B, 0x3225_3226),
  (0x509E, 0x3227_3228_3229_322A_322B),
  (0x50AA, 0x322C),
  (0x50AF, 0x322D_322E),
  (0x50B9, 0x322F_3230),
  (0x50BD, 0x3231),
  (0x50C0, 0x3232),
  (0x50C3, 0x3233_3234),
  (0x50C7, 0x3235),
  (0x50CC, 0x3236),
  (0x50CE, 0x3237),
  (0x50D0, 0x3238),
  (0x50D3, 0x3239_323A),
  (0x50D8, 0x323B),
  (0x50DC, 0x323C_323D),
  (0x50DF, 0x323E),
  (0x50E2, 0x323F),
  (0x50E4, 0x3240),
  (0x50E6, 0x3241),
  (0x50E8, 0x3242_3243),
  (0x50EF, 0x3244),
  (0x50F1, 0x3245_3251),
  (0x50F6, 0x3246),
  (0x50FA, 0x3247),
  (0x50FE, 0x3248),
  (0x5103, 0x3249),
  (0x5106, 0x324A_324B_324C),
  (0x510B, 0x324D_324E_324F_3250),
  (0x5110, 0x3252),
  (0x5117, 0x3253),
  (0x5119, 0x3254),
  (0x511B, 0x3255_3256_3257_3258),
  (0x5123, 0x3259),
  (0x5127, 0x325A_325B),
  (0x512C, 0x325C_325D),
  (0x512F, 0x325E),
  (0x5131, 0x325F),
  (0x5133, 0x3260_3261_3262),
  (0x5138, 0x3263_3264),
  (0x5142, 0x3265),
  (0x514A, 0x3266),
  (0x514F, 0x3267),
  (0x5153, 0x3268),
  (0x5155, 0x3269),
  (0x5157, 0x326A_326B),
  (0x515F, 0x326C),
  (0x5164, 0x326D),
  (0x5166, 0x326E),
  (0x517E, 0x326F),
  (0x5183, 0x3270_3271),
  (0x518B, 0x3272),
  (0x518E, 0x3273),
  (0x5198, 0x3274),
  (0x519D, 0x3275),
  (0x51A1, 0x3276),
  (0x51A3, 0x3277),
  (0x51AD, 0x3278),
  (0x51B8, 0x3279),
  (0x51BA, 0x327A),
  (0x51BC, 0x327B),
  (0x51BE, 0x327C_327D),
  (0x51C2, 0x327E),
  (0x51C8, 0x3321),
  (0x51CF, 0x3322),
  (0x51D1, 0x3323_3324_3325),
  (0x51D5, 0x3326),
  (0x51D8, 0x3327),
  (0x51DE, 0x3328),
  (0x51E2, 0x3329),
  (0x51E5, 0x332A),
  (0x51EE, 0x332B),
  (0x51F2, 0x332C_332D_332E),
  (0x51F7, 0x332F),
  (0x5201, 0x3330_3331),
  (0x5205, 0x3332),
  (0x5212, 0x3333_3334),
  (0x5215, 0x3335_3336),
  (0x5218, 0x3337),
  (0x5222, 0x3338),
  (0x5228, 0x3339),
  (0x5231, 0x333A_333B),
  (0x5235, 0x333C),
  (0x523C, 0x333D),
  (0x5245, 0x333E),
  (0x5249, 0x333F),
  (0x5255, 0x3340),
  (0x5257, 0x3341_3342),
  (0x525A, 0x3343),
  (0x525C, 0x3344),
  (0x525F, 0x3345_3346_3347),
  (0x5266, 0x3348),
  (0x526E, 0x3349),
  (0x5277, 0x334A_334B_334C),
  (0x5280, 0x334D),
  (0x5282, 0x334E),
  (0x5285, 0x334F),
  (0x528A, 0x3350),
  (0x528C, 0x3351),
  (0x5293, 0x3352),
  (0x5295, 0x3353_3354_3355_3356),
  (0x529A, 0x3357),
  (0x529C, 0x3358),
  (0x52A4, 0x3359_335A_335B_335C),
  (0x52AF, 0x335D_335E),
  (0x52B6, 0x335F_3360_3361),
  (0x52BA, 0x3362_3363),
  (0x52BD, 0x3364),
  (0x52C0, 0x3365),
  (0x52C4, 0x3366),
  (0x52C6, 0x3367),
  (0x52C8, 0x3368),
  (0x52CC, 0x3369),
  (0x52CF, 0x336A),
  (0x52D1, 0x336B),
  (0x52D4, 0x336C),
  (0x52D6, 0x336D),
  (0x52DB, 0x336E_336F),
  (0x52E1, 0x3370),
  (0x52E5, 0x3371),
  (0x52E8, 0x3372_3373_3374),
  (0x52EC, 0x3375),
  (0x52F0, 0x3376_3377),
  (0x52F4, 0x3378),
  (0x52F6, 0x3379_337A),
  (0x5300, 0x337B),
  (0x5303, 0x337C),
  (0x530A, 0x337D_337E_3421),
  (0x5311, 0x3422),
  (0x5313, 0x3423),
  (0x5318, 0x3424),
  (0x531B, 0x3425_3426),
  (0x531E, 0x3427_3428),
  (0x5325, 0x3429),
  (0x5327, 0x342A_342B_342C),
  (0x532B, 0x342D_342E_342F),
  (0x5330, 0x3430),
  (0x5332, 0x3431),
  (0x5335, 0x3432),
  (0x533C, 0x3433_3434_3435),
  (0x5342, 0x3436),
  (0x534B, 0x3438_3437),
  (0x5359, 0x3439),
  (0x535B, 0x343A),
  (0x5361, 0x343B),
  (0x5363, 0x343C),
  (0x5365, 0x343D),
  (0x536C, 0x343E_343F),
  (0x5372, 0x3440),
  (0x5379, 0x3441),
  (0x537E, 0x3442),
  (0x5383, 0x3443),
  (0x5387, 0x3444_3445),
  (0x538E, 0x3446),
  (0x5393, 0x3447_3448),
  (0x5399, 0x3449),
  (0x539D, 0x344A),
  (0x53A1, 0x344B),
  (0x53A4, 0x344C),
  (0x53AA, 0x344D_344E),
  (0x53AF, 0x344F),
  (0x53B2, 0x3450),
  (0x53B4, 0x3451_3452),
  (0x53B7, 0x3453_3454),
  (0x53BA, 0x3455),
  (0x53BD, 0x3456),
  (0x53C0, 0x3457),
  (0x53C5, 0x3458),
  (0x53CF, 0x3459),
  (0x53D2, 0x345A_345B),
  (0x53D5, 0x345C),
  (0x53DA, 0x345D),
  (0x53DD, 0x345E_345F),
  (0x53E0, 0x3460),
  (0x53E6, 0x3461_3462),
  (0x53F5, 0x3463),
  (0x5402, 0x3464),
  (0x5413, 0x3465),
  (0x541A, 0x3466),
  (0x5421, 0x3467),
  (0x5427, 0x3468_3469),
  (0x542A, 0x346A),
  (0x542F, 0x346B),
  (0x5431, 0x346C),
  (0x5434, 0x346D_346E),
  (0x5443, 0x346F_3470),
  (0x5447, 0x3471),
  (0x544D, 0x3472),
  (0x544F, 0x3473),
  (0x545E, 0x3474),
  (0x5462, 0x3475),
  (0x5464, 0x3476),
  (0x5466, 0x3477_3478),
  (0x5469, 0x3479),
  (0x546B, 0x347A),
  (0x546D, 0x347B_347C),
  (0x5474, 0x347D),
  (0x547F, 0x347E),
  (0x5481, 0x3521),
  (0x5483, 0x3522),
  (0x5485, 0x3523),
  (0x5488, 0x3524_3525),
  (0x548D, 0x3526),
  (0x5491, 0x3527),
  (0x5495, 0x3528_3529),
  (0x549C, 0x352A),
  (0x549F, 0x352B),
  (0x54A1, 0x352C),
  (0x54A6, 0x352D_352E),
  (0x54A9, 0x352F_3530),
  (0x54AD, 0x3531_3532),
  (0x54B1, 0x3533),
  (0x54B7, 0x3534),
  (0x54B9, 0x3535_3536_3537),
  (0x54BF, 0x3538),
  (0x54C6, 0x3539),
  (0x54CA, 0x353A),
  (0x54CD, 0x353B_353C),
  (0x54E0, 0x353D),
  (0x54EA, 0x353E),
  (0x54EC, 0x353F),
  (0x54EF, 0x3540),
  (0x54F6, 0x3541),
  (0x54FC, 0x3542),
  (0x54FE, 0x3543_3544_3545_3546),
  (0x5505, 0x3547),
  (0x5508, 0x3548_3549),
  (0x550C, 0x354A_354B_354C),
  (0x5515, 0x354D),
  (0x552A, 0x354E_354F),
  (0x5532, 0x3550),
  (0x5535, 0x3551_3552),
  (0x553B, 0x3553_3554_3555),
  (0x5541, 0x3556),
  (0x5547, 0x3557),
  (0x5549, 0x3558_3559),
  (0x554D, 0x355A),
  (0x5550, 0x355B_355C),
  (0x5558, 0x355D),
  (0x555A, 0x355E_355F),
  (0x555E, 0x3560),
  (0x5560, 0x3561_3562),
  (0x5564, 0x3563),
  (0x5566, 0x3564),
  (0x557F, 0x3565),
  (0x5581, 0x3566_3567),
  (0x5586, 0x3568),
  (0x5588, 0x3569),
  (0x558E, 0x356A_356B),
  (0x5591, 0x356C_356D_356E_356F),
  (0x5597, 0x3570),
  (0x55A3, 0x3571_3572),
  (0x55AD, 0x3573),
  (0x55B2, 0x3574),
  (0x55BF, 0x3575),
  (0x55C1, 0x3576),
  (0x55C3, 0x3577),
  (0x55C6, 0x3578),
  (0x55C9, 0x3579),
  (0x55CB, 0x357A_357B),
  (0x55CE, 0x357C),
  (0x55D1, 0x357D_357E_3621),
  (0x55D7, 0x3622_3623),
  (0x55DB, 0x3624),
  (0x55DE, 0x3625),
  (0x55E2, 0x3626),
  (0x55E9, 0x3627),
  (0x55F6, 0x3628),
  (0x55FF, 0x3629),
  (0x5605, 0x362A),
  (0x5608, 0x362B),
  (0x560A, 0x362C),
  (0x560D, 0x362D_362E_362F_3630_3631_3632),
  (0x5619, 0x3633),
  (0x562C, 0x3634),
  (0x5630, 0x3635),
  (0x5633, 0x3636),
  (0x5635, 0x3637),
  (0x5637, 0x3638),
  (0x5639, 0x3639),
  (0x563B, 0x363A_363B_363C),
  (0x563F, 0x363D_363E_363F),
  (0x5643, 0x3640_3641),
  (0x5646, 0x3642),
  (0x5649, 0x3643),
  (0x564B, 0x3644),
  (0x564D, 0x3645),
  (0x564F, 0x3646),
  (0x5654, 0x3647),
  (0x565E, 0x3648),
  (0x5660, 0x3649_364A_364B_364C),
  (0x5666, 0x364D),
  (0x5669, 0x364E),
  (0x566D, 0x364F),
  (0x566F, 0x3650),
  (0x5671, 0x3651_3652),
  (0x5675, 0x3653),
  (0x5684, 0x3654_3655),
  (0x5688, 0x3656),
  (0x568B, 0x3657_3658),
  (0x5695, 0x3659),
  (0x5699, 0x365A_365B),
  (0x569D, 0x365C_365D_365E),
  (0x56A6, 0x365F_3660_3661_3662),
  (0x56AB, 0x3663_3664_3665),
  (0x56B1, 0x3666),
  (0x56B3, 0x3667),
  (0x56B7, 0x3668),
  (0x56BE, 0x3669),
  (0x56C5, 0x366A),
  (0x56C9, 0x366B_366C_366D_3670_3671),
  (0x56CF, 0x366E_366F),
  (0x56D9, 0x3672),
  (0x56DC, 0x3673_3674),
  (0x56DF, 0x3675),
  (0x56E1, 0x3676),
  (0x56E4, 0x3677_3678_3679_367A_367B),
  (0x56EB, 0x367D),
  (0x56ED, 0x367E),
  (0x56F1, 0x367C),
  (0x56F6, 0x3721_3722),
  (0x5701, 0x3723_3724),
  (0x5707, 0x3725),
  (0x570A, 0x3726),
  (0x570C, 0x3727),
  (0x5711, 0x3728),
  (0x5715, 0x3729),
  (0x571A, 0x372A_372B),
  (0x571D, 0x372C),
  (0x5720, 0x372D),
  (0x5722, 0x372E_372F_3730_3731),
  (0x5729, 0x3732_3733),
  (0x572C, 0x3734),
  (0x572E, 0x3735_3736),
  (0x5733, 0x3737_3738),
  (0x573D, 0x3739_373A_373B),
  (0x5745, 0x373C_373D),
  (0x574C, 0x373E_373F),
  (0x5752, 0x3740),
  (0x5762, 0x3741),
  (0x5765, 0x3742),
  (0x5767, 0x3743_3744),
  (0x576B, 0x3745),
  (0x576D, 0x3746_3747_3748_3749_374A),
  (0x5773, 0x374B_374C_374D),
  (0x5777, 0x374E),
  (0x5779, 0x374F_3750_3751_3752),
  (0x577E, 0x3753),
  (0x5781, 0x3754),
  (0x5783, 0x3755),
  (0x578C, 0x3756),
  (0x5794, 0x3757_3760),
  (0x5797, 0x3758),
  (0x5799, 0x3759_375A),
  (0x579C, 0x375B_375C_375D_375E),
  (0x57A1, 0x375F),
  (0x57A7, 0x3761_3762_3763),
  (0x57AC, 0x3764),
  (0x57B8, 0x3765),
  (0x57BD, 0x3766),
  (0x57C7, 0x3767_3768),
  (0x57CC, 0x3769),
  (0x57CF, 0x376A),
  (0x57D5, 0x376B),
  (0x57DD, 0x376C_376D),
  (0x57E1, 0x377E),
  (0x57E4, 0x376E),
  (0x57E6, 0x376F_3770),
  (0x57E9, 0x3771),
  (0x57ED, 0x3772),
  (0x57F0, 0x3773),
  (0x57F5, 0x3774_3775),
  (0x57F8, 0x3776),
  (0x57FD, 0x3777_3778_3779),
  (0x5803, 0x377A_377B),
  (0x5808, 0x377C_377D),
  (0x580C, 0x3821_3822),
  (0x581B, 0x3823),
  (0x581E, 0x3824_3825_3826),
  (0x5826, 0x3827_3828),
  (0x582D, 0x3829),
  (0x5832, 0x382A),
  (0x5839, 0x382B),
  (0x583F, 0x382C),
  (0x5849, 0x382D),
  (0x584C, 0x382E_382F),
  (0x584F, 0x3830_3831),
  (0x5855, 0x3832),
  (0x585F, 0x3833),
  (0x5861, 0x3834),
  (0x5864, 0x3835),
  (0x5867, 0x3836_3837),
  (0x5878, 0x3838),
  (0x587C, 0x3839),
  (0x587F, 0x383A_383B_383C),
  (0x5887, 0x383D_383E_383F_3840),
  (0x588C, 0x3841_3842),
  (0x588F, 0x3843_3844),
  (0x5894, 0x3845),
  (0x5896, 0x3846),
  (0x589D, 0x3847),
  (0x58A0, 0x3848_3849_384A),
  (0x58A6, 0x384B),
  (0x58A9, 0x384C),
  (0x58B1, 0x384D_384E),
  (0x58BC, 0x3850),
  (0x58C2, 0x3851),
  (0x58C4, 0x384F),
  (0x58C8, 0x3852),
  (0x58CD, 0x3853_3854),
  (0x58D0, 0x3855),
  (0x58D2, 0x3856),
  (0x58D4, 0x3857),
  (0x58D6, 0x3858),
  (0x58DA, 0x3859),
  (0x58DD, 0x385A),
  (0x58E1, 0x385B_385C),
  (0x58E9, 0x385D),
  (0x58F3, 0x385E),
  (0x5905, 0x385F_3860),
  (0x590B, 0x3861_3862),
  (0x5912, 0x3863_3864_3865),
  (0x591D, 0x3867),
  (0x5921, 0x3868),
  (0x5923, 0x3869_386A),
  (0x5928, 0x386B),
  (0x592F, 0x386C_386D),
  (0x5933, 0x386E),
  (0x5935, 0x386F_3870),
  (0x593F, 0x3871),
  (0x5943, 0x3872),
  (0x5946, 0x3873),
  (0x5952, 0x3874_3875),
  (0x5959, 0x3876),
  (0x595B, 0x3877),
  (0x595D, 0x3878_3879_387A),
  (0x5961, 0x387B),
  (0x5963, 0x387C),
  (0x596B, 0x387D),
  (0x596D, 0x387E),
  (0x596F, 0x3921),
  (0x5972, 0x3922),
  (0x5975, 0x3923_3924),
  (0x5979, 0x3925),
  (0x597B, 0x3926_3927),
  (0x598B, 0x3928_3929),
  (0x598E, 0x392A),
  (0x5992, 0x392B),
  (0x5995, 0x392C),
  (0x5997, 0x392D),
  (0x599F, 0x392E),
  (0x59A4, 0x392F),
  (0x59A7, 0x3930),
  (0x59AD, 0x3931_3932_3933_3934),
  (0x59B3, 0x3935),
  (0x59B7, 0x3936),
  (0x59BA, 0x3937),
  (0x59BC, 0x3938),
  (0x59C1, 0x3939),
  (0x59C3, 0x393A_393B),
  (0x59C8, 0x393C),
  (0x59CA, 0x393D),
  (0x59CD, 0x393E),
  (0x59D2, 0x393F),
  (0x59DD, 0x3940_3941_3942),
  (0x59E3, 0x3943_3944),
  (0x59E7, 0x3945),
  (0x59EE, 0x3946_3947),
  (0x59F1, 0x3948_3949),
  (0x59F4, 0x394A),
  (0x59F7, 0x394B),
  (0x5A00, 0x394C),
  (0x5A04, 0x394D),
  (0x5A0C, 0x394E_394F_3950),
  (0x5A12, 0x3951_3952),
  (0x5A1E, 0x3953),
  (0x5A23, 0x3954_3955),
  (0x5A27, 0x3956_3957),
  (0x5A2A, 0x3958),
  (0x5A2D, 0x3959),
  (0x5A30, 0x395A),
  (0x5A44, 0x395B_395C),
  (0x5A47, 0x395D_395E),
  (0x5A4C, 0x395F),
  (0x5A50, 0x3960),
  (0x5A55, 0x3961),
  (0x5A5E, 0x3962),
  (0x5A63, 0x3963),
  (0x5A65, 0x3964),
  (0x5A67, 0x3965),
  (0x5A6D, 0x3966),
  (0x5A77, 0x3967),
  (0x5A7A, 0x3968_3969),
  (0x5A7E, 0x396A),
  (0x5A8B, 0x396B),
  (0x5A90, 0x396C),
  (0x5A93, 0x396D),
  (0x5A96, 0x396E),
  (0x5A99, 0x396F),
  (0x5A9C, 0x3970),
  (0x5A9E, 0x3971_3972_3973),
  (0x5AA2, 0x3974),
  (0x5AA7, 0x3975),
  (0x5AAC, 0x3976),
  (0x5AB1, 0x3977_3978_3979),
  (0x5AB5, 0x397A),
  (0x5AB8, 0x397B),
  (0x5ABA, 0x397C_397D),
  (0x5ABF, 0x397E),
  (0x5AC4, 0x3A21),
  (0x5AC6, 0x3A22),
  (0x5AC8, 0x3A23),
  (0x5ACF, 0x3A24),
  (0x5ADA, 0x3A25),
  (0x5ADC, 0x3A26),
  (0x5AE0, 0x3A27),
  (0x5AE5, 0x3A28),
  (0x5AEA, 0x3A29),
  (0x5AEE, 0x3A2A),
  (0x5AF5, 0x3A2B_3A2C),
  (0x5AFD, 0x3A2D),
  (0x5B00, 0x3A2E_3A2F),
  (0x5B08, 0x3A30),
  (0x5B17, 0x3A31),
  (0x5B19, 0x3A33),
  (0x5B1B, 0x3A34),
  (0x5B1D, 0x3A35),
  (0x5B21, 0x3A36),
  (0x5B25, 0x3A37),
  (0x5B2D, 0x3A38),
  (0x5B34, 0x3A32),
  (0x5B38, 0x3A39),
  (0x5B41, 0x3A3A),
  (0x5B4B, 0x3A3B_3A3C),
  (0x5B52, 0x3A3D),
  (0x5B56, 0x3A3E),
  (0x5B5E, 0x3A3F),
  (0x5B68, 0x3A40),
  (0x5B6E, 0x3A41_3A42),
  (0x5B7C, 0x3A43_3A44_3A45_3A46),
  (0x5B81, 0x3A47),
  (0x5B84, 0x3A48),
  (0x5B86, 0x3A49),
  (0x5B8A, 0x3A4A),
  (0x5B8E, 0x3A4B),
  (0x5B90, 0x3A4C_3A4D),
  (0x5B93, 0x3A4E_3A4F),
  (0x5B96, 0x3A50),
  (0x5BA8, 0x3A51_3A52),
  (0x5BAC, 0x3A53_3A54),
  (0x5BAF, 0x3A55),
  (0x5BB1, 0x3A56_3A57),
  (0x5BB7, 0x3A58),
  (0x5BBA, 0x3A59),
  (0x5BBC, 0x3A5A),
  (0x5BC0, 0x3A5B_3A5C),
  (0x5BCD, 0x3A5D),
  (0x5BCF, 0x3A5E),
  (0x5BD6, 0x3A5F_3A60_3A61_3A62_3A63),
  (0x5BE0, 0x3A64),
  (0x5BEF, 0x3A65),
  (0x5BF1, 0x3A66),
  (0x5BF4, 0x3A67),
  (0x5BFD, 0x3A68),
  (0x5C0C, 0x3A69),
  (0x5C17, 0x3A6A),
  (0x5C1E, 0x3A6B_3A6C),
  (0x5C23, 0x3A6D),
  (0x5C26, 0x3A6E),
  (0x5C29, 0x3A6F),
  (0x5C2B, 0x3A70_3A71),
  (0x5C2E, 0x3A72),
  (0x5C30, 0x3A73),
  (0x5C32, 0x3A74),
  (0x5C35, 0x3A75_3A76),
  (0x5C59, 0x3A77_3A78),
  (0x5C5C, 0x3A79),
  (0x5C62, 0x3A7A_3A7B),
  (0x5C67, 0x3A7C_3A7D_3A7E),
  (0x5C6D, 0x3B21),
  (0x5C70, 0x3B22),
  (0x5C74, 0x3B23_3B24),
  (0x5C7A, 0x3B25_3B26_3B27_3B28),
  (0x5C87, 0x3B29_3B2A),
  (0x5C8A, 0x3B2B),
  (0x5C8F, 0x3B2C),
  (0x5C92, 0x3B2D),
  (0x5C9D, 0x3B2E),
  (0x5C9F, 0x3B2F_3B30),
  (0x5CA2, 0x3B31_3B32),
  (0x5CA6, 0x3B33),
  (0x5CAA, 0x3B34),
  (0x5CB2, 0x3B35),
  (0x5CB4, 0x3B36_3B37),
  (0x5CBA, 0x3B38),
  (0x5CC9, 0x3B39),
  (0x5CCB, 0x3B3A),
  (0x5CD2, 0x3B3B),
  (0x5CD7, 0x3B3D),
  (0x5CDD, 0x3B3C),
  (0x5CEE, 0x3B3E),
  (0x5CF1, 0x3B3F_3B40),
  (0x5CF4, 0x3B41),
  (0x5D01, 0x3B42),
  (0x5D06, 0x3B43),
  (0x5D0D, 0x3B44),
  (0x5D12, 0x3B45),
  (0x5D23, 0x3B47_3B48),
  (0x5D26, 0x3B49_3B4A),
  (0x5D2B, 0x3B46),
  (0x5D31, 0x3B4B),
  (0x5D34, 0x3B4C),
  (0x5D39, 0x3B4D),
  (0x5D3D, 0x3B4E),
  (0x5D3F, 0x3B4F),
  (0x5D42, 0x3B50_3B51),
  (0x5D46, 0x3B52),
  (0x5D48, 0x3B53),
  (0x5D4A, 0x3B57),
  (0x5D51, 0x3B55),
  (0x5D55, 0x3B54),
  (0x5D59, 0x3B56),
  (0x5D5F, 0x3B58_3B59_3B5A_3B5B),
  (0x5D64, 0x3B5C),
  (0x5D6A, 0x3B5D),
  (0x5D6D, 0x3B5E),
  (0x5D70, 0x3B5F),
  (0x5D79, 0x3B60_3B61),
  (0x5D7E, 0x3B62_3B63),
  (0x5D81, 0x3B64),
  (0x5D83, 0x3B65),
  (0x5D88, 0x3B66),
  (0x5D8A, 0x3B67),
  (0x5D92, 0x3B68_3B69_3B6A_3B6B),
  (0x5D99, 0x3B6C),
  (0x5D9B, 0x3B6D),
  (0x5D9F, 0x3B6E_3B6F),
  (0x5DA7, 0x3B70),
  (0x5DAB, 0x3B71),
  (0x5DB0, 0x3B72),
  (0x5DB2, 0x6674),
  (0x5DB4, 0x3B73),
  (0x5DB8, 0x3B74_3B75),
  (0x5DC3, 0x3B76),
  (0x5DC7, 0x3B77),
  (0x5DCB, 0x3B78),
  (0x5DCE, 0x3B7A),
  (0x5DD0, 0x3B79),
  (0x5DD8, 0x3B7B_3B7C),
  (0x5DE0, 0x3B7D),
  (0x5DE4, 0x3B7E),
  (0x5DE9, 0x3C21),
  (0x5DF8, 0x3C22_3C23),
  (0x5E00, 0x3C24),
  (0x5E07, 0x3C25),
  (0x5E0D, 0x3C26),
  (0x5E12, 0x3C27),
  (0x5E14, 0x3C28_3C29),
  (0x5E18, 0x3C2A),
  (0x5E1F, 0x3C2B_3C2C),
  (0x5E28, 0x3C2E),
  (0x5E2E, 0x3C2D),
  (0x5E32, 0x3C2F),
  (0x5E35, 0x3C30),
  (0x5E3E, 0x3C31),
  (0x5E49, 0x3C34),
  (0x5E4B, 0x3C32),
  (0x5E50, 0x3C33_3C35),
  (0x5E56, 0x3C36),
  (0x5E58, 0x3C37),
  (0x5E5B, 0x3C38_3C39),
  (0x5E5E, 0x3C3A),
  (0x5E68, 0x3C3B),
  (0x5E6A, 0x3C3C_3C3D_3C3E_3C3F_3C40),
  (0x5E70, 0x3C41),
  (0x5E80, 0x3C42),
  (0x5E8B, 0x3C43),
  (0x5E8E, 0x3C44),
  (0x5EA2, 0x3C45),
  (0x5EA4, 0x3C46_3C47),
  (0x5EA8, 0x3C48),
  (0x5EAA, 0x3C49),
  (0x5EAC, 0x3C4A),
  (0x5EB1, 0x3C4B),
  (0x5EB3, 0x3C4C),
  (0x5EBD, 0x3C4D_3C4E_3C4F),
  (0x5EC6, 0x3C50),
  (0x5ECB, 0x3C52_3C51),
  (0x5ECE, 0x3C53),
  (0x5ED1, 0x3C54_3C55),
  (0x5ED4, 0x3C56_3C57),
  (0x5EDC, 0x3C58),
  (0x5EDE, 0x3C59),
  (0x5EE5, 0x3C5A),
  (0x5EEB, 0x3C5B),
  (0x5F02, 0x3C5C),
  (0x5F06, 0x3C5D_3C5E_3C5F),
  (0x5F0E, 0x3C60),
  (0x5F19, 0x3C61),
  (0x5F1C, 0x3C62_3C63),
  (0x5F21, 0x3C64_3C65_3C66_3C67),
  (0x5F28, 0x3C68),
  (0x5F2B, 0x3C69_3C6A),
  (0x5F2E, 0x3C6B),
  (0x5F30, 0x3C6C),
  (0x5F34, 0x3C6D),
  (0x5F36, 0x3C6E),
  (0x5F3B, 0x3C6F),
  (0x5F3D, 0x3C70),
  (0x5F3F, 0x3C71_3C72),
  (0x5F44, 0x3C73_3C74),
  (0x5F47, 0x3C75),
  (0x5F4D, 0x3C76),
  (0x5F50, 0x3C77),
  (0x5F54, 0x3C78),
  (0x5F58, 0x3C79),
  (0x5F5B, 0x3C7A),
  (0x5F60, 0x3C7B),
  (0x5F63, 0x3C7C_3C7D),
  (0x5F67, 0x3C7E),
  (0x5F6F, 0x3D21),
  (0x5F72, 0x3D22),
  (0x5F74, 0x3D23_3D24),
  (0x5F78, 0x3D25),
  (0x5F7A, 0x3D26),
  (0x5F7D, 0x3D27_3D28),
  (0x5F89, 0x3D29),
  (0x5F8D, 0x3D2A),
  (0x5F8F, 0x3D2B),
  (0x5F96, 0x3D2C),
  (0x5F9C, 0x3D2D_3D2E),
  (0x5FA2, 0x3D2F),
  (0x5FA4, 0x3D32),
  (0x5FA7, 0x3D30),
  (0x5FAB, 0x3D31_3D33),
  (0x5FAF, 0x3D34_3D35_3D36),
  (0x5FB8, 0x3D37),
  (0x5FC4, 0x3D38),
  (0x5FC7, 0x3D39_3D3A_3D3B),
  (0x5FCB, 0x3D3C),
  (0x5FD0, 0x3D3D_3D3E_3D3F_3D40_3D41),
  (0x5FDE, 0x3D42),
  (0x5FE1, 0x3D43_3D44),
  (0x5FE8, 0x3D45_3D46_3D47),
  (0x5FEC, 0x3D48_3D49_3D4A_3D4B),
  (0x5FF2, 0x3D4C_3D4D),
  (0x5FF6, 0x3D4E),
  (0x5FFA, 0x3D4F),
  (0x5FFC, 0x3D50),
  (0x6007, 0x3D51),
  (0x600A, 0x3D52),
  (0x600D, 0x3D53),
  (0x6013, 0x3D54_3D55),
  (0x6017, 0x3D56_3D57),
  (0x601A, 0x3D58),
  (0x601F, 0x3D59),
  (0x6024, 0x3D5A),
  (0x602D, 0x3D5B),
  (0x6033, 0x3D5C),
  (0x6035, 0x3D5D),
  (0x6040, 0x3D5E),
  (0x6047, 0x3D5F_3D60_3D61),
  (0x604C, 0x3D62),
  (0x6051, 0x3D63),
  (0x6054, 0x3D64),
  (0x6056, 0x3D65_3D66),
  (0x605D, 0x3D67),
  (0x6061, 0x3D68),
  (0x6067, 0x3D69),
  (0x6071, 0x3D6A),
  (0x607E, 0x3D6B_3D6C),
  (0x6082, 0x3D6D),
  (0x6086, 0x3D6E),
  (0x6088, 0x3D6F),
  (0x608A, 0x3D70),
  (0x608E, 0x3D71),
  (0x6091, 0x3D72),
  (0x6093, 0x3D73),
  (0x6095, 0x3D74),
  (0x6098, 0x3D75),
  (0x609D, 0x3D76_3D77),
  (0x60A2, 0x3D78),
  (0x60A4, 0x3D79_3D7A),
  (0x60A8, 0x3D7B),
  (0x60B0, 0x3D7C_3D7D),
  (0x60B7, 0x3D7E),
  (0x60BB, 0x3E21),
  (0x60BE, 0x3E22),
  (0x60C2, 0x3E23),
  (0x60C4, 0x3E24),
  (0x60C8, 0x3E25_3E26_3E27_3E28),
  (0x60CE, 0x3E29_3E2A),
  (0x60D4, 0x3E2B_3E2C),
  (0x60D9, 0x3E2D),
  (0x60DB, 0x3E2E),
  (0x60DD, 0x3E2F_3E30),
  (0x60E2, 0x3E31),
  (0x60E5, 0x3E32),
  (0x60F2, 0x3E33),
  (0x60F5, 0x3E34),
  (0x60F8, 0x3E35),
  (0x60FC, 0x3E36_3E37),
  (0x6102, 0x3E38),
  (0x6107, 0x3E39),
  (0x610A, 0x3E3A),
  (0x610C, 0x3E3B),
  (0x6110, 0x3E3C_3E3D_3E3E_3E3F_3E40),
  (0x6116, 0x3E41_3E42),
  (0x6119, 0x3E43),
  (0x611C, 0x3E44),
  (0x611E, 0x3E45),
  (0x6122, 0x3E46),
  (0x612A, 0x3E47_3E48),
  (0x6130, 0x3E49_3E4A),
  (0x6135, 0x3E4B_3E4C_3E4D),
  (0x6139, 0x3E4E),
  (0x6141, 0x3E4F),
  (0x6145, 0x3E50_3E51),
  (0x6149, 0x3E52),
  (0x615E, 0x3E53),
  (0x6160, 0x3E54),
  (0x616C, 0x3E55),
  (0x6172, 0x3E56),
  (0x6178, 0x3E57),
  (0x617B, 0x3E58_3E59),
  (0x617F, 0x3E5A_3E5B_3E5C),
  (0x6183, 0x3E5D_3E5E),
  (0x618B, 0x3E5F),
  (0x618D, 0x3E60),
  (0x6192, 0x3E61_3E62),
  (0x6197, 0x3E63_3E64),
  (0x619C, 0x3E65_3E66),
  (0x619F, 0x3E67_3E68),
  (0x61A5, 0x3E69),
  (0x61A8, 0x3E6A),
  (0x61AA, 0x3E6B),
  (0x61AD, 0x3E6C),
  (0x61B8, 0x3E6D_3E6E),
  (0x61BC, 0x3E6F),
  (0x61C0, 0x3E70_3E71_3E72),
  (0x61CE, 0x3E73_3E74),
  (0x61D5, 0x3E75),
  (0x61DC, 0x3E76_3E77_3E78_3E79),
  (0x61E1, 0x3E7A_3E7B),
  (0x61E5, 0x3E7E),
  (0x61E7, 0x3E7C),
  (0x61E9, 0x3E7D),
  (0x61EC, 0x3F21_3F22),
  (0x61EF, 0x3F23),
  (0x6201, 0x3F24),
  (0x6203, 0x3F25_3F26),
  (0x6207, 0x3F27),
  (0x6213, 0x3F28),
  (0x6215, 0x3F29),
  (0x621C, 0x3F2A),
  (0x6220, 0x3F2B),
  (0x6222, 0x3F2C_3F2D),
  (0x6227, 0x3F2E),
  (0x6229, 0x3F2F),
  (0x622B, 0x3F30),
  (0x6239, 0x3F31),
  (0x623D, 0x3F32),
  (0x6242, 0x3F33_3F34_3F35),
  (0x6246, 0x3F36),
  (0x624C, 0x3F37),
  (0x6250, 0x3F38_3F39_3F3A),
  (0x6254, 0x3F3B),
  (0x6256, 0x3F3C),
  (0x625A, 0x3F3D),
  (0x625C, 0x3F3E),
  (0x6264, 0x3F3F),
  (0x626D, 0x3F40),
  (0x626F, 0x3F41),
  (0x6273, 0x3F42),
  (0x627A, 0x3F43),
  (0x627D, 0x3F44),
  (0x628D, 0x3F45_3F46_3F47_3F48),
  (0x62A6, 0x3F49),
  (0x62A8, 0x3F4A),
  (0x62B3, 0x3F4B),
  (0x62B6, 0x3F4C_3F4D),
  (0x62BA, 0x3F4E),
  (0x62BE, 0x3F4F_3F50),
  (0x62C4, 0x3F51),
  (0x62CE, 0x3F52),
  (0x62D5, 0x3F53_3F54),
  (0x62DA, 0x3F55),
  (0x62EA, 0x3F56),
  (0x62F2, 0x3F57),
  (0x62F4, 0x3F58),
  (0x62FC, 0x3F59_3F5A),
  (0x6303, 0x3F5B_3F5C),
  (0x630A, 0x3F5D_3F5E),
  (0x630D, 0x3F5F),
  (0x6310, 0x3F60),
  (0x6313, 0x3F61),
  (0x6316, 0x3F62),
  (0x6318, 0x3F63),
  (0x6329, 0x3F64_3F65),
  (0x632D, 0x3F66),
  (0x6335, 0x3F67_3F68),
  (0x6339, 0x3F69),
  (0x633C, 0x3F6A),
  (0x6341, 0x3F6B_3F6C_3F6D_3F6E),
  (0x6346, 0x3F6F),
  (0x634A, 0x3F70_3F71),
  (0x634E, 0x3F72),
  (0x6352, 0x3F73_3F74_3F75),
  (0x6358, 0x3F76),
  (0x635B, 0x3F77),
  (0x6365, 0x3F78_3F79),
  (0x636C, 0x3F7A_3F7B),
  (0x6371, 0x3F7C),
  (0x6374, 0x3F7D_3F7E),
  (0x6378, 0x4021),
  (0x637C, 0x4022_4023),
  (0x637F, 0x4024),
  (0x6382, 0x4025),
  (0x6384, 0x4026),
  (0x6387, 0x4027),
  (0x638A, 0x4028),
  (0x6390, 0x4029),
  (0x6394, 0x402A_402B),
  (0x6399, 0x402C_402D),
  (0x639E, 0x402E),
  (0x63A4, 0x402F),
  (0x63A6, 0x4030),
  (0x63AD, 0x4031_4032_4033),
  (0x63BD, 0x4034),
  (0x63C1, 0x4035),
  (0x63C5, 0x4036),
  (0x63C8, 0x4037),
  (0x63CE, 0x4038),
  (0x63D1, 0x4039),
  (0x63D3, 0x403A_403B_403C),
  (0x63DC, 0x403D),
  (0x63E0, 0x403E),
  (0x63E5, 0x403F),
  (0x63EA, 0x4040),
  (0x63EC, 0x4041),
  (0x63F2, 0x4042_4043),
  (0x63F5, 0x4044),
  (0x63F8, 0x4045_4046),
  (0x6409, 0x4047_4048),
  (0x6410, 0x4049),
  (0x6412, 0x404A),
  (0x6414, 0x404B),
  (0x6418, 0x404C),
  (0x641E, 0x404D),
  (0x6420, 0x404E),
  (0x6422, 0x404F),
  (0x6424, 0x4050_4051),
  (0x6429, 0x4052_4053),
  (0x642F, 0x4054_4055),
  (0x6435, 0x4056),
  (0x643D, 0x4057),
  (0x643F, 0x4058),
  (0x644B, 0x4059),
  (0x644F, 0x405A),
  (0x6451, 0x405B_405C_405D_405E),
  (0x645A, 0x405F_4060_4061_4062),
  (0x645F, 0x4063_4064_4065),
  (0x6463, 0x4066),
  (0x646D, 0x4067),
  (0x6473, 0x4068_4069),
  (0x647B, 0x406A),
  (0x647D, 0x406B),
  (0x6485, 0x406C),
  (0x6487, 0x406D),
  (0x648F, 0x406E_406F_4070),
  (0x6498, 0x4071_4072),
  (0x649B, 0x4073),
  (0x649D, 0x4074),
  (0x649F, 0x4075),
  (0x64A1, 0x4076),
  (0x64A3, 0x4077),
  (0x64A6, 0x4078),
  (0x64A8, 0x4079),
  (0x64AC, 0x407A),
  (0x64B3, 0x407B),
  (0x64BD, 0x407C_407D_407E),
  (0x64C4, 0x4121),
  (0x64C9, 0x4122_4123_4124_4125),
  (0x64CE, 0x4126),
  (0x64D0, 0x4127_4128),
  (0x64D5, 0x4129),
  (0x64D7, 0x412A),
  (0x64E4, 0x412B_412C),
  (0x64E9, 0x412D_412E),
  (0x64ED, 0x412F),
  (0x64F0, 0x4130),
  (0x64F5, 0x4131),
  (0x64F7, 0x4132),
  (0x64FB, 0x4133),
  (0x64FF, 0x4134),
  (0x6501, 0x4135),
  (0x6504, 0x4136),
  (0x6508, 0x4137_4138_4139),
  (0x650F, 0x413A),
  (0x6513, 0x413B_413C),
  (0x6516, 0x413D),
  (0x6519, 0x413E),
  (0x651B, 0x413F),
  (0x651E, 0x4140_4141),
  (0x6522, 0x4142),
  (0x6526, 0x4143),
  (0x6529, 0x4144),
  (0x652E, 0x4145),
  (0x6531, 0x4146),
  (0x653A, 0x4147),
  (0x653C, 0x4148_4149),
  (0x6543, 0x414A),
  (0x6547, 0x414B),
  (0x6549, 0x414C),
  (0x6550, 0x414D),
  (0x6552, 0x414E),
  (0x6554, 0x414F),
  (0x655F, 0x4150_4151),
  (0x6567, 0x4152),
  (0x656B, 0x4153),
  (0x657A, 0x4154),
  (0x657D, 0x4155),
  (0x6581, 0x4156),
  (0x6585, 0x4157),
  (0x658A, 0x4158),
  (0x6592, 0x4159),
  (0x6595, 0x415A),
  (0x6598, 0x415B),
  (0x659D, 0x415C),
  (0x65A0, 0x415D),
  (0x65A3, 0x415E),
  (0x65A6, 0x415F),
  (0x65AE, 0x4160),
  (0x65B2, 0x4161_4162_4163),
  (0x65BF, 0x4164),
  (0x65C2, 0x4165),
  (0x65C8, 0x4166_4167),
  (0x65CE, 0x4168),
  (0x65D0, 0x4169),
  (0x65D4, 0x416A),
  (0x65D6, 0x416B),
  (0x65D8, 0x416C),
  (0x65DF, 0x416D),
  (0x65F0, 0x416E),
  (0x65F2, 0x416F),
  (0x65F4, 0x4170_4171),
  (0x65F9, 0x4172),
  (0x65FE, 0x4173_4174_4175),
  (0x6604, 0x4176),
  (0x6608, 0x4177_4178),
  (0x660D, 0x4179),
  (0x6611, 0x417A_417B),
  (0x6615, 0x417C_417D),
  (0x661D, 0x417E_4221),
  (0x6621, 0x4222_4223_4224_4225),
  (0x6626, 0x4226),
  (0x6629, 0x4227_4228_4229_422A),
  (0x662E, 0x422B),
  (0x6630, 0x422C_422D),
  (0x6633, 0x422E),
  (0x6637, 0x4230),
  (0x6639, 0x422F),
  (0x6640, 0x4231),
  (0x6645, 0x4232_4233),
  (0x664A, 0x4234),
  (0x664C, 0x4235),
  (0x664E, 0x4237),
  (0x6651, 0x4236),
  (0x6657, 0x4238_4239_423A),
  (0x665B, 0x423B_423C),
  (0x6660, 0x423D_423E),
  (0x666A, 0x4240_4241_4242),
  (0x6673, 0x4244),
  (0x6675, 0x4245),
  (0x6677, 0x4247_4248_4249),
  (0x667B, 0x424A_424C),
  (0x667E, 0x4243_4246_424B),
  (0x668B, 0x424D_424E_424F),
  (0x6690, 0x4250),
  (0x6692, 0x4251),
  (0x6699, 0x4252_4253_4254_4255),
  (0x669F, 0x4256_4257),
  (0x66A4, 0x4258),
  (0x66AD, 0x4259),
  (0x66B1, 0x425A_425B),
  (0x66B5, 0x425C),
  (0x66BB, 0x425D),
  (0x66BF, 0x425E_425F),
  (0x66C2, 0x4260_4261),
  (0x66C8, 0x4262),
  (0x66CC, 0x4263),
  (0x66CE, 0x4264_4265),
  (0x66D4, 0x4266),
  (0x66DB, 0x4267),
  (0x66DF, 0x4268),
  (0x66E8, 0x4269),
  (0x66EB, 0x426A_426B),
  (0x66EE, 0x426C),
  (0x66FA, 0x426D_423F),
  (0x6705, 0x426E),
  (0x6707, 0x426F),
  (0x670E, 0x4270),
  (0x6713, 0x4271),
  (0x6719, 0x4272),
  (0x671C, 0x4273),
  (0x6720, 0x4274),
  (0x6722, 0x4275),
  (0x6733, 0x4276),
  (0x673E, 0x4277),
  (0x6745, 0x4278),
  (0x6747, 0x4279_427A),
  (0x674C, 0x427B),
  (0x6754, 0x427C_427D),
  (0x675D, 0x427E),
  (0x6766, 0x4321),
  (0x676C, 0x4322),
  (0x676E, 0x4323),
  (0x6774, 0x4324),
  (0x6776, 0x4325),
  (0x677B, 0x4326),
  (0x6781, 0x4327),
  (0x6784, 0x4328),
  (0x678E, 0x4329_432A),
  (0x6791, 0x432B),
  (0x6793, 0x432C),
  (0x6796, 0x432D),
  (0x6798, 0x432E_432F),
  (0x679B, 0x4330),
  (0x67B0, 0x4331_4332_4333),
  (0x67B5, 0x4334),
  (0x67BB, 0x4335_4336_4337),
  (0x67C0, 0x4339),
  (0x67C2, 0x433A_433B),
  (0x67C5, 0x433C),
  (0x67C8, 0x433D_433E),
  (0x67D2, 0x433F),
  (0x67D7, 0x4340),
  (0x67D9, 0x4341),
  (0x67DC, 0x4342),
  (0x67E1, 0x4343),
  (0x67E6, 0x4344),
  (0x67F0, 0x4345),
  (0x67F2, 0x4346),
  (0x67F6, 0x4347_4348),
  (0x67F9, 0x4338),
  (0x6814, 0x434A),
  (0x6819, 0x434B),
  (0x681D, 0x434C),
  (0x681F, 0x434D),
  (0x6827, 0x434F_434E),
  (0x682C, 0x4350_4351),
  (0x682F, 0x4352_4353_4354),
  (0x6833, 0x4355),
  (0x683B, 0x4356),
  (0x683F, 0x4357),
  (0x6844, 0x4358_4359),
  (0x684A, 0x435A),
  (0x684C, 0x435B),
  (0x6852, 0x4349),
  (0x6855, 0x435C),
  (0x6857, 0x435D_435E),
  (0x685B, 0x435F),
  (0x686B, 0x4360),
  (0x686E, 0x4361_4362_4363_4364_4365),
  (0x6875, 0x4366),
  (0x6879, 0x4367_4368_4369_436A),
  (0x6882, 0x436B),
  (0x6884, 0x436C),
  (0x6886, 0x436D),
  (0x6888, 0x436E),
  (0x6896, 0x436F),
  (0x6898, 0x4370),
  (0x689A, 0x4371),
  (0x689C, 0x4372),
  (0x68A1, 0x4373),
  (0x68A3, 0x4374),
  (0x68A5, 0x4375),
  (0x68A9, 0x4376_4377),
  (0x68AE, 0x4378),
  (0x68B2, 0x4379),
  (0x68BB, 0x437A),
  (0x68C5, 0x437B),
  (0x68C8, 0x437C),
  (0x68CC, 0x437D),
  (0x68CF, 0x437E_4421_4422),
  (0x68D3, 0x4423),
  (0x68D6, 0x4424),
  (0x68D9, 0x4425),
  (0x68DC, 0x4426_4427),
  (0x68E5, 0x4428),
  (0x68E8, 0x4429),
  (0x68EA, 0x442A_442B_442C_442D),
  (0x68F0, 0x442E_442F),
  (0x68F5, 0x4430_4431),
  (0x68FB, 0x4432_4433_4434),
  (0x6906, 0x4435),
  (0x6909, 0x4436_4437),
  (0x6910, 0x4438_4439),
  (0x6913, 0x443A),
  (0x6916, 0x443B_443C),
  (0x6931, 0x443D),
  (0x6933, 0x443E),
  (0x6935, 0x443F),
  (0x6938, 0x4440),
  (0x693B, 0x4441),
  (0x6942, 0x4442),
  (0x6945, 0x4443),
  (0x6949, 0x4444),
  (0x694E, 0x4445),
  (0x6957, 0x4446),
  (0x695B, 0x4447),
  (0x6963, 0x4448_4449_444A_444B),
  (0x6968, 0x444C_444D),
  (0x696C, 0x444E),
  (0x6970, 0x444F_4450_4451),
  (0x697A, 0x4452_4453),
  (0x697F, 0x4454_4455),
  (0x698D, 0x4456),
  (0x6992, 0x4457),
  (0x6996, 0x4458),
  (0x6998, 0x4459),
  (0x69A1, 0x445A),
  (0x69A5, 0x445B_445C),
  (0x69A8, 0x445D),
  (0x69AB, 0x445E),
  (0x69AD, 0x445F),
  (0x69AF, 0x4460),
  (0x69B7, 0x4461_4462),
  (0x69BA, 0x4463),
  (0x69BC, 0x4464),
  (0x69C5, 0x4465),
  (0x69C8, 0x4466),
  (0x69D1, 0x4467),
  (0x69D6, 0x4468_4469),
  (0x69E2, 0x446A),
  (0x69E5, 0x446B),
  (0x69EE, 0x446C_446D),
  (0x69F1, 0x446E),
  (0x69F3, 0x446F),
  (0x69F5, 0x4470),
  (0x69FE, 0x4471),
  (0x6A00, 0x4472_4473),
  (0x6A03, 0x4474),
  (0x6A0F, 0x4475),
  (0x6A11, 0x4476),
  (0x6A15, 0x4477),
  (0x6A1A, 0x4478),
  (0x6A1D, 0x4479),
  (0x6A20, 0x447A),
  (0x6A24, 0x447B),
  (0x6A28, 0x447C),
  (0x6A30, 0x447D),
  (0x6A32, 0x447E),
  (0x6A34, 0x4521),
  (0x6A37, 0x4522),
  (0x6A3B, 0x4523),
  (0x6A3E, 0x4524_4525),
  (0x6A45, 0x4526_4527),
  (0x6A49, 0x4528_4529),
  (0x6A4E, 0x452A),
  (0x6A50, 0x452B_452C_452D),
  (0x6A55, 0x452E_452F),
  (0x6A5B, 0x4530),
  (0x6A64, 0x4531),
  (0x6A67, 0x4532),
  (0x6A6A, 0x4533),
  (0x6A71, 0x4534),
  (0x6A73, 0x4535),
  (0x6A7E, 0x4536),
  (0x6A81, 0x4537),
  (0x6A83, 0x4538),
  (0x6A86, 0x4539_453A),
  (0x6A89, 0x453B),
  (0x6A8B, 0x453C),
  (0x6A91, 0x453D),
  (0x6A9B, 0x453E),
  (0x6A9D, 0x453F_4540_4541),
  (0x6AA5, 0x4542),
  (0x6AAB, 0x4543),
  (0x6AAF, 0x4544_4545_4546),
  (0x6AB4, 0x4547),
  (0x6ABD, 0x4548_4549_454A),
  (0x6AC6, 0x454B),
  (0x6AC8, 0x454D_454C),
  (0x6ACC, 0x454E),
  (0x6AD0, 0x454F),
  (0x6AD4, 0x4550_4551_4552),
  (0x6ADC, 0x4553_4554),
  (0x6AE4, 0x4555),
  (0x6AE7, 0x4556),
  (0x6AEC, 0x4557),
  (0x6AF0, 0x4558_4559_455A),
  (0x6AFC, 0x455B_455C),
  (0x6B02, 0x455D_455E),
  (0x6B06, 0x455F_4560),
  (0x6B09, 0x4561),
  (0x6B0F, 0x4562_4563_4564),
  (0x6B17, 0x4565),
  (0x6B1B, 0x4566),
  (0x6B1E, 0x4567),
  (0x6B24, 0x4568),
  (0x6B28, 0x4569),
  (0x6B2B, 0x456A_456B),
  (0x6B2F, 0x456C),
  (0x6B35, 0x456D_456E),
  (0x6B3B, 0x456F),
  (0x6B3F, 0x4570),
  (0x6B46, 0x4571),
  (0x6B4A, 0x4572),
  (0x6B4D, 0x4573),
  (0x6B52, 0x4574),
  (0x6B56, 0x4575),
  (0x6B58, 0x4576),
  (0x6B5D, 0x4577),
  (0x6B60, 0x4578),
  (0x6B67, 0x4579),
  (0x6B6B, 0x457A),
  (0x6B6E, 0x457B),
  (0x6B70, 0x457C),
  (0x6B75, 0x457D),
  (0x6B7D, 0x457E_4621),
  (0x6B82, 0x4622),
  (0x6B85, 0x4623),
  (0x6B97, 0x4624),
  (0x6B9B, 0x4625),
  (0x6B9F, 0x4626_4627),
  (0x6BA2, 0x4628_4629),
  (0x6BA8, 0x462A_462B),
  (0x6BAC, 0x462C_462D_462E),
  (0x6BB0, 0x462F),
  (0x6BB8, 0x4630_4631),
  (0x6BBD, 0x4632_4633),
  (0x6BC3, 0x4634_4635),
  (0x6BC9, 0x4636),
  (0x6BCC, 0x4637),
  (0x6BD6, 0x4638),
  (0x6BDA, 0x4639),
  (0x6BE1, 0x463A),
  (0x6BE3, 0x463B),
  (0x6BE6, 0x463C_463D),
  (0x6BEE, 0x463E),
  (0x6BF1, 0x463F),
  (0x6BF7, 0x4640),
  (0x6BF9, 0x4641),
  (0x6BFF, 0x4642),
  (0x6C02, 0x4643),
  (0x6C04, 0x4644_4645),
  (0x6C09, 0x4646),
  (0x6C0D, 0x4647_4648),
  (0x6C10, 0x4649),
  (0x6C12, 0x464A),
  (0x6C19, 0x464B),
  (0x6C1F, 0x464C),
  (0x6C26, 0x464D_464E_464F),
  (0x6C2C, 0x4650),
  (0x6C2E, 0x4651),
  (0x6C33, 0x4652),
  (0x6C35, 0x4653_4654),
  (0x6C3A, 0x4655_4656),
  (0x6C3F, 0x4657),
  (0x6C4A, 0x4658_4659),
  (0x6C4D, 0x465A),
  (0x6C4F, 0x465B),
  (0x6C52, 0x465C),
  (0x6C54, 0x465D),
  (0x6C59, 0x465E),
  (0x6C5B, 0x465F_4660),
  (0x6C67, 0x4736),
  (0x6C6B, 0x4661),
  (0x6C6D, 0x4662),
  (0x6C6F, 0x4663),
  (0x6C74, 0x4664),
  (0x6C76, 0x4665),
  (0x6C78, 0x4666_4667),
  (0x6C7B, 0x4668),
  (0x6C85, 0x4669_466A_466B),
  (0x6C89, 0x466C),
  (0x6C94, 0x466D_466E),
  (0x6C97, 0x466F_4670),
  (0x6C9C, 0x4671),
  (0x6C9F, 0x4672),
  (0x6CB0, 0x4673),
  (0x6CB2, 0x4674),
  (0x6CB4, 0x4675),
  (0x6CC2, 0x4676),
  (0x6CC6, 0x4677),
  (0x6CCD, 0x4678),
  (0x6CCF, 0x4679_467A_467B_467C),
  (0x6CD4, 0x467D),
  (0x6CD6, 0x467E),
  (0x6CDA, 0x4721),
  (0x6CDC, 0x4722),
  (0x6CE0, 0x4723),
  (0x6CE7, 0x4724),
  (0x6CE9, 0x4725),
  (0x6CEB, 0x4726_4727),
  (0x6CEE, 0x4728),
  (0x6CF2, 0x4729),
  (0x6CF4, 0x472A),
  (0x6D04, 0x472B),
  (0x6D07, 0x472C),
  (0x6D0A, 0x472D),
  (0x6D0E, 0x472E_472F),
  (0x6D11, 0x4730),
  (0x6D13, 0x4731),
  (0x6D1A, 0x4732),
  (0x6D26, 0x4733_4734_4735),
  (0x6D2E, 0x4737_4738),
  (0x6D31, 0x4739),
  (0x6D39, 0x473A),
  (0x6D3C, 0x473B),
  (0x6D3F, 0x473C),
  (0x6D57, 0x473D),
  (0x6D5E, 0x473E_473F),
  (0x6D61, 0x4740),
  (0x6D65, 0x4741),
  (0x6D67, 0x4742),
  (0x6D6F, 0x4743_4744),
  (0x6D7C, 0x4745),
  (0x6D82, 0x4746),
  (0x6D87, 0x4747),
  (0x6D91, 0x4748_4749),
  (0x6D94, 0x474A),
  (0x6D96, 0x474B_474C_474D),
  (0x6DAA, 0x474E),
  (0x6DAC, 0x474F),
  (0x6DB4, 0x4750),
  (0x6DB7, 0x4751),
  (0x6DB9, 0x4752),
  (0x6DBD, 0x4753),
  (0x6DBF, 0x4754),
  (0x6DC4, 0x4755),
  (0x6DC8, 0x4756),
  (0x6DCA, 0x4757),
  (0x6DCE, 0x4758_4759),
  (0x6DD6, 0x475A),
  (0x6DDB, 0x475B),
  (0x6DDD, 0x475C),
  (0x6DDF, 0x475D_475E),
  (0x6DE2, 0x475F),
  (0x6DE5, 0x4760),
  (0x6DE9, 0x4761),
  (0x6DEF, 0x4762_4763),
  (0x6DF4, 0x4764),
  (0x6DF6, 0x4765),
  (0x6DFC, 0x4766),
  (0x6E00, 0x4767),
  (0x6E04, 0x4768),
  (0x6E1E, 0x4769),
  (0x6E22, 0x476A),
  (0x6E27, 0x476B),
  (0x6E32, 0x476C),
  (0x6E36, 0x476D),
  (0x6E39, 0x476E),
  (0x6E3B, 0x476F_4770),
  (0x6E44, 0x4771_4772),
  (0x6E48, 0x4773_4774),
  (0x6E4B, 0x4775),
  (0x6E4F, 0x4776),
  (0x6E51, 0x4777_4778_4779_477A),
  (0x6E57, 0x477B),
  (0x6E5C, 0x477C_477D_477E),
  (0x6E62, 0x4821_4822),
  (0x6E68, 0x4823),
  (0x6E73, 0x4824),
  (0x6E7B, 0x4825),
  (0x6E7D, 0x4826),
  (0x6E8D, 0x4827),
  (0x6E93, 0x4828),
  (0x6E99, 0x4829),
  (0x6EA0, 0x482A),
  (0x6EA7, 0x482B),
  (0x6EAD, 0x482C_482D),
  (0x6EB1, 0x482E),
  (0x6EB3, 0x482F),
  (0x6EBB, 0x4830),
  (0x6EBF, 0x4831_4832_4833),
  (0x6EC3, 0x4834),
  (0x6EC7, 0x4835_4836),
  (0x6ECA, 0x4837),
  (0x6ECD, 0x4838_4839_483A),
  (0x6EEB, 0x483B),
  (0x6EED, 0x483C_483D),
  (0x6EF9, 0x483E),
  (0x6EFB, 0x483F),
  (0x6EFD, 0x4840),
  (0x6F04, 0x4841),
  (0x6F08, 0x4842),
  (0x6F0A, 0x4843),
  (0x6F0C, 0x4844_4845),
  (0x6F16, 0x4846),
  (0x6F18, 0x4847),
  (0x6F1A, 0x4848_4849),
  (0x6F26, 0x484A),
  (0x6F29, 0x484B_484C),
  (0x6F2D, 0x4853),
  (0x6F2F, 0x484D_484E),
  (0x6F33, 0x484F),
  (0x6F36, 0x4850),
  (0x6F3B, 0x4851_4852),
  (0x6F4F, 0x4854),
  (0x6F51, 0x4855_4856_4857),
  (0x6F57, 0x4858),
  (0x6F59, 0x4859_485A),
  (0x6F5D, 0x485B_485C),
  (0x6F61, 0x485D_485E),
  (0x6F68, 0x485F),
  (0x6F6C, 0x4860),
  (0x6F7D, 0x4861_4862),
  (0x6F83, 0x4863),
  (0x6F87, 0x4864_4865),
  (0x6F8B, 0x4866_4867_4868),
  (0x6F90, 0x4869),
  (0x6F92, 0x486A_486B_486C),
  (0x6F96, 0x486D),
  (0x6F9A, 0x486E),
  (0x6F9F, 0x486F_4870),
  (0x6FA5, 0x4871_4872_4873_4874),
  (0x6FAE, 0x4875_4876_4877),
  (0x6FB5, 0x4878_4879),
  (0x6FBC, 0x487A),
  (0x6FC5, 0x487B),
  (0x6FC7, 0x487C_487D),
  (0x6FCA, 0x487E),
  (0x6FDA, 0x4921),
  (0x6FDE, 0x4922),
  (0x6FE8, 0x4923_4924),
  (0x6FF0, 0x4925),
  (0x6FF5, 0x4926),
  (0x6FF9, 0x4927),
  (0x6FFC, 0x4928_4929),
  (0x7000, 0x492A),
  (0x7005, 0x492B_492C_492D),
  (0x700D, 0x492E),
  (0x7017, 0x492F),
  (0x7020, 0x4930),
  (0x7023, 0x4931),
  (0x702F, 0x4932),
  (0x7034, 0x4933),
  (0x7037, 0x4934),
  (0x7039, 0x4935),
  (0x703C, 0x4936),
  (0x7043, 0x4937_4938),
  (0x7048, 0x4939_493A_493B_493C),
  (0x704E, 0x4941),
  (0x7054, 0x493D_493E),
  (0x705D, 0x493F_4940),
  (0x7064, 0x4942_4943),
  (0x706C, 0x4944),
  (0x706E, 0x4945),
  (0x7075, 0x4946_4947),
  (0x707E, 0x4948),
  (0x7081, 0x4949),
  (0x7085, 0x494A_494B),
  (0x7094, 0x494C_494D_494E_494F_4950),
  (0x709B, 0x4951),
  (0x70A4, 0x4952),
  (0x70AB, 0x4953),
  (0x70B0, 0x4954_4955),
  (0x70B4, 0x4956),
  (0x70B7, 0x4957),
  (0x70CA, 0x4958),
  (0x70D1, 0x4959),
  (0x70D3, 0x495A_495B_495C_495D),
  (0x70D8, 0x495E),
  (0x70DC, 0x495F),
  (0x70E4, 0x4960),
  (0x70FA, 0x4961),
  (0x7103, 0x4962_4963_4964_4965_4966),
  (0x710B, 0x4967_4968),
  (0x710F, 0x4969),
  (0x711E, 0x496A),
  (0x7120, 0x496B),
  (0x712B, 0x496C),
  (0x712D, 0x496D),
  (0x712F, 0x496E_496F_4970),
  (0x7138, 0x4971),
  (0x7141, 0x4972),
  (0x7145, 0x4973_4974_4975),
  (0x714A, 0x4976_4977),
  (0x7150, 0x4978),
  (0x7152, 0x4979),
  (0x7157, 0x497A),
  (0x715A, 0x497B),
  (0x715C, 0x497C),
  (0x715E, 0x497D),
  (0x7160, 0x497E),
  (0x7168, 0x4A21),
  (0x7179, 0x4A22),
  (0x7180, 0x4A23),
  (0x7185, 0x4A24),
  (0x7187, 0x4A25),
  (0x718C, 0x4A26),
  (0x7192, 0x4A27),
  (0x719A, 0x4A28_4A29),
  (0x71A0, 0x4A2A),
  (0x71A2, 0x4A2B),
  (0x71AF, 0x4A2C_4A2D),
  (0x71B2, 0x4A2E_4A2F),
  (0x71BA, 0x4A30),
  (0x71BF, 0x4A31_4A32_4A33),
  (0x71C4, 0x4A34),
  (0x71CB, 0x4A35_4A36),
  (0x71D3, 0x4A37),
  (0x71D6, 0x4A38),
  (0x71D9, 0x4A39_4A3A),
  (0x71DC, 0x4A3B),
  (0x71F8, 0x4A3C),
  (0x71FE, 0x4A3D),
  (0x7200, 0x4A3E),
  (0x7207, 0x4A3F_4A40_4A41),
  (0x7213, 0x4A42),
  (0x7217, 0x4A43),
  (0x721A, 0x4A44),
  (0x721D, 0x4A45),
  (0x721F, 0x4A46),
  (0x7224, 0x4A47),
  (0x722B, 0x4A48),
  (0x722F, 0x4A49),
  (0x7234, 0x4A4A),
  (0x7238, 0x4A4B_4A4C),
  (0x7241, 0x4A4D_4A4E_4A4F),
  (0x7245, 0x4A50),
  (0x724E, 0x4A51_4A52_4A53),
  (0x7253, 0x4A54),
  (0x7255, 0x4A55_4A56),
  (0x725A, 0x4A57),
  (0x725C, 0x4A58),
  (0x725E, 0x4A59),
  (0x7260, 0x4A5A),
  (0x7263, 0x4A5B),
  (0x7268, 0x4A5C),
  (0x726B, 0x4A5D),
  (0x726E, 0x4A5E_4A5F),
  (0x7271, 0x4A60),
  (0x7277, 0x4A61_4A62),
  (0x727B, 0x4A63_4A64),
  (0x727F, 0x4A65),
  (0x7284, 0x4A66),
  (0x7289, 0x4A67),
  (0x728D, 0x4A68_4A69),
  (0x7293, 0x4A6A),
  (0x729B, 0x4A6B),
  (0x72A8, 0x4A6C),
  (0x72AD, 0x4A6D_4A6E),
  (0x72B1, 0x4A6F),
  (0x72B4, 0x4A70),
  (0x72BE, 0x4A71),
  (0x72C1, 0x4A72),
  (0x72C7, 0x4A73),
  (0x72C9, 0x4A74),
  (0x72CC, 0x4A75),
  (0x72D5, 0x4A76_4A77),
  (0x72D8, 0x4A78),
  (0x72DF, 0x4A79),
  (0x72E5, 0x4A7A),
  (0x72F3, 0x4A7B_4A7C),
  (0x72FA, 0x4A7D_4A7E),
  (0x72FE, 0x4B21),
  (0x7302, 0x4B22),
  (0x7304, 0x4B23_4B24),
  (0x7307, 0x4B25),
  (0x730B, 0x4B26),
  (0x730D, 0x4B27),
  (0x7312, 0x4B28_4B29),
  (0x7318, 0x4B2A_4B2B),
  (0x731E, 0x4B2C),
  (0x7322, 0x4B2D),
  (0x7324, 0x4B2E),
  (0x7327, 0x4B2F_4B30),
  (0x732C, 0x4B31),
  (0x7331, 0x4B32_4B33),
  (0x7335, 0x4B34),
  (0x733A, 0x4B35_4B36),
  (0x733D, 0x4B37),
  (0x7343, 0x4B38),
  (0x734D, 0x4B39),
  (0x7350, 0x4B3A),
  (0x7352, 0x4B3B),
  (0x7356, 0x4B3C),
  (0x7358, 0x4B3D),
  (0x735D, 0x4B3E_4B3F_4B40_4B41),
  (0x7366, 0x4B42_4B43),
  (0x7369, 0x4B44),
  (0x736B, 0x4B45_4B46),
  (0x736E, 0x4B47_4B48),
  (0x7371, 0x4B49),
  (0x7377, 0x4B4A),
  (0x7379, 0x4B4B),
  (0x737C, 0x4B4C),
  (0x7380, 0x4B4D_4B4E),
  (0x7383, 0x4B4F),
  (0x7385, 0x4B50_4B51),
  (0x738E, 0x4B52),
  (0x7390, 0x4B53),
  (0x7393, 0x4B54),
  (0x7395, 0x4B55),
  (0x7397, 0x4B56_4B57),
  (0x739C, 0x4B58),
  (0x739E, 0x4B59_4B5A_4B5B),
  (0x73A2, 0x4B5C),
  (0x73A5, 0x4B5D_4B5E),
  (0x73AA, 0x4B5F_4B60),
  (0x73AD, 0x4B61),
  (0x73B5, 0x4B62),
  (0x73B7, 0x4B63),
  (0x73B9, 0x4B64),
  (0x73BC, 0x4B65_4B66),
  (0x73BF, 0x4B67),
  (0x73C5, 0x4B68_4B69),
  (0x73C9, 0x4B6A),
  (0x73CB, 0x4B6B_4B6C),
  (0x73CF, 0x4B6D),
  (0x73D2, 0x4B6E_4B6F),
  (0x73D6, 0x4B70),
  (0x73D9, 0x4B71),
  (0x73DD, 0x4B72),
  (0x73E1, 0x4B73),
  (0x73E3, 0x4B74),
  (0x73E6, 0x4B75_4B76),
  (0x73E9, 0x4B77),
  (0x73F4, 0x4B78_4B79),
  (0x73F7, 0x4B7A),
  (0x73F9, 0x4B7B_4B7C_4B7D),
  (0x73FD, 0x4B7E),
  (0x73FF, 0x4C21_4C22_4C23),
  (0x7404, 0x4C24),
  (0x7407, 0x4C25),
  (0x740A, 0x4C26),
  (0x7411, 0x4C27),
  (0x741A, 0x4C28_4C29),
  (0x7424, 0x4C2A),
  (0x7426, 0x4C2B),
  (0x7428, 0x4C2C_4C2D_4C2E_4C2F_4C30_4C31_4C32_4C33_4C34_4C35),
  (0x7439, 0x4C36),
  (0x7440, 0x4C37),
  (0x7443, 0x4C38_4C39),
  (0x7446, 0x4C3A_4C3B),
  (0x744B, 0x4C3C),
  (0x744D, 0x4C3D),
  (0x7451, 0x4C3E_4C3F),
  (0x7457, 0x4C40),
  (0x745D, 0x4C41),
  (0x7462, 0x4C42),
  (0x7466, 0x4C43_4C44_4C45),
  (0x746B, 0x4C46),
  (0x746D, 0x4C47_4C48),
  (0x7471, 0x4C49_4C4A),
  (0x7480, 0x4C4B_4C4C),
  (0x7485, 0x4C4D_4C4E_4C4F),
  (0x7489, 0x4C50),
  (0x748F, 0x4C51_4C52_4C53_4C54),
  (0x7498, 0x4C55_4C56_4C57),
  (0x749C, 0x4C58),
  (0x749F, 0x4C59_4C5A_4C5B),
  (0x74A3, 0x4C5C),
  (0x74A6, 0x4C5D),
  (0x74A8, 0x4C5E_4C5F_4C60_4C61),
  (0x74AE, 0x4C62_4C63),
  (0x74B1, 0x4C64_4C65),
  (0x74B5, 0x4C66),
  (0x74B9, 0x4C67),
  (0x74BB, 0x4C68),
  (0x74BF, 0x4C69),
  (0x74C8, 0x4C6A_4C6B),
  (0x74CC, 0x4C6C),
  (0x74D0, 0x4C6D),
  (0x74D3, 0x4C6E),
  (0x74D8, 0x4C6F),
  (0x74DA, 0x4C70_4C71),
  (0x74DE, 0x4C72_4C73),
  (0x74E4, 0x4C74),
  (0x74E8, 0x4C75),
  (0x74EA, 0x4C76_4C77),
  (0x74EF, 0x4C78),
  (0x74F4, 0x4C79),
  (0x74FA, 0x4C7A_4C7B_4C7C),
  (0x74FF, 0x4C7D),
  (0x7506, 0x4C7E),
  (0x7512, 0x4D21),
  (0x7516, 0x4D22_4D23),
  (0x7520, 0x4D24_4D25),
  (0x7524, 0x4D26),
  (0x7527, 0x4D27),
  (0x7529, 0x4D28_4D29),
  (0x752F, 0x4D2A),
  (0x7536, 0x4D2B),
  (0x7539, 0x4D2C),
  (0x753D, 0x4D2D_4D2E_4D2F_4D30),
  (0x7543, 0x4D31),
  (0x7547, 0x4D32_4D33),
  (0x754E, 0x4D34),
  (0x7550, 0x4D35),
  (0x7552, 0x4D36),
  (0x7557, 0x4D37),
  (0x755E, 0x4D38_4D39),
  (0x7561, 0x4D3A),
  (0x756F, 0x4D3B),
  (0x7571, 0x4D3C),
  (0x7579, 0x4D3D_4D3E_4D3F_4D40_4D41_4D42),
  (0x7581, 0x4D43),
  (0x7585, 0x4D44),
  (0x7590, 0x4D45),
  (0x7592, 0x4D46_4D47),
  (0x7595, 0x4D48),
  (0x7599, 0x4D49),
  (0x759C, 0x4D4A),
  (0x75A2, 0x4D4B),
  (0x75A4, 0x4D4C),
  (0x75B4, 0x4D4D),
  (0x75BA, 0x4D4E),
  (0x75BF, 0x4D4F_4D50_4D51),
  (0x75C4, 0x4D52),
  (0x75C6, 0x4D53),
  (0x75CC, 0x4D54),
  (0x75CE, 0x4D55_4D56),
  (0x75D7, 0x4D57),
  (0x75DC, 0x4D58),
  (0x75DF, 0x4D59_4D5A_4D5B),
  (0x75E4, 0x4D5C),
  (0x75E7, 0x4D5D),
  (0x75EC, 0x4D5E),
  (0x75EE, 0x4D5F_4D60),
  (0x75F1, 0x4D61),
  (0x75F9, 0x4D62),
  (0x7600, 0x4D63),
  (0x7602, 0x4D64_4D65_4D66),
  (0x7607, 0x4D67_4D68),
  (0x760A, 0x4D69),
  (0x760C, 0x4D6A),
  (0x760F, 0x4D6B),
  (0x7612, 0x4D6C_4D6D),
  (0x7615, 0x4D6E_4D6F),
  (0x7619, 0x4D70),
  (0x761B, 0x4D71_4D72_4D73_4D74),
  (0x7623, 0x4D75),
  (0x7625, 0x4D76_4D77),
  (0x7629, 0x4D78),
  (0x762D, 0x4D79),
  (0x7632, 0x4D7A_4D7B),
  (0x7635, 0x4D7C),
  (0x7638, 0x4D7D_4D7E_4E21),
  (0x763C, 0x4E22),
  (0x7640, 0x4E24_4E25),
  (0x7643, 0x4E26_4E27_4E28),
  (0x7649, 0x4E29_4E23_4E2A),
  (0x7655, 0x4E2B),
  (0x7659, 0x4E2C),
  (0x765F, 0x4E2D),
  (0x7664, 0x4E2E_4E2F),
  (0x766D, 0x4E30_4E31_4E32),
  (0x7671, 0x4E33),
  (0x7674, 0x4E34),
  (0x7681, 0x4E35),
  (0x7685, 0x4E36),
  (0x768C, 0x4E37_4E38),
  (0x7695, 0x4E39),
  (0x769B, 0x4E3A_4E3B_4E3C),
  (0x769F, 0x4E3D_4E3E),
  (0x76A2, 0x4E3F_4E40_4E41_4E42_4E43_4E44_4E45),
  (0x76AA, 0x4E46),
  (0x76AD, 0x4E47),
  (0x76BD, 0x4E48),
  (0x76C1, 0x4E49),
  (0x76C5, 0x4E4A),
  (0x76C9, 0x4E4B),
  (0x76CB, 0x4E4C_4E4D),
  (0x76CE, 0x4E4E),
  (0x76D4, 0x4E4F),
  (0x76D9, 0x4E50),
  (0x76E0, 0x4E51),
  (0x76E6, 0x4E52),
  (0x76E8, 0x4E53),
  (0x76EC, 0x4E54),
  (0x76F0, 0x4E55_4E56),
  (0x76F6, 0x4E57),
  (0x76F9, 0x4E58),
  (0x76FC, 0x4E59),
  (0x7700, 0x4E5A),
  (0x7706, 0x4E5B),
  (0x770A, 0x4E5C),
  (0x770E, 0x4E5D),
  (0x7712, 0x4E5E),
  (0x7714, 0x4E5F_4E60),
  (0x7717, 0x4E61),
  (0x7719, 0x4E62_4E63),
  (0x771C, 0x4E64),
  (0x7722, 0x4E65),
  (0x7728, 0x4E66),
  (0x772D, 0x4E67_4E68_4E69),
  (0x7734, 0x4E6A_4E6B_4E6C),
  (0x7739, 0x4E6D),
  (0x773D, 0x4E6E_4E6F),
  (0x7742, 0x4E70),
  (0x7745, 0x4E71_4E72),
  (0x774A, 0x4E73),
  (0x774D, 0x4E74_4E75_4E76),
  (0x7752, 0x4E77),
  (0x7756, 0x4E78_4E79),
  (0x775C, 0x4E7A),
  (0x775E, 0x4E7B_4E7C_4E7D),
  (0x7762, 0x4E7E),
  (0x7764, 0x4F21),
  (0x7767, 0x4F22),
  (0x776A, 0x4F23),
  (0x776C, 0x4F24),
  (0x7770, 0x4F25),
  (0x7772, 0x4F26_4F27_4F28),
  (0x777A, 0x4F29),
  (0x777D, 0x4F2A),
  (0x7780, 0x4F2B),
  (0x7784, 0x4F2C),
  (0x778C, 0x4F2D_4F2E),
  (0x7794, 0x4F2F_4F30_4F31),
  (0x779A, 0x4F32),
  (0x779F, 0x4F33),
  (0x77A2, 0x4F34),
  (0x77A7, 0x4F35),
  (0x77AA, 0x4F36),
  (0x77AE, 0x4F37_4F38),
  (0x77B1, 0x4F39),
  (0x77B5, 0x4F3A),
  (0x77BE, 0x4F3B),
  (0x77C3, 0x4F3C),
  (0x77C9, 0x4F3D),
  (0x77D1, 0x4F3E_4F3F),
  (0x77D5, 0x4F40),
  (0x77D9, 0x4F41),
  (0x77DE, 0x4F42_4F43_4F44),
  (0x77E4, 0x4F45),
  (0x77E6, 0x4F46),
  (0x77EA, 0x4F47),
  (0x77EC, 0x4F48),
  (0x77F0, 0x4F49_4F4A),
  (0x77F4, 0x4F4B),
  (0x77F8, 0x4F4C),
  (0x77FB, 0x4F4D),
  (0x7805, 0x4F4E_4F4F),
  (0x7809, 0x4F50),
  (0x780D, 0x4F51_4F52),
  (0x7811, 0x4F53),
  (0x781D, 0x4F54),
  (0x7821, 0x4F55_4F56_4F57),
  (0x782D, 0x4F58_4F59),
  (0x7830, 0x4F5A),
  (0x7835, 0x4F5B),
  (0x7837, 0x4F5C),
  (0x7843, 0x4F5D_4F5E),
  (0x7847, 0x4F5F_4F60),
  (0x784C, 0x4F61),
  (0x784E, 0x4F62),
  (0x7852, 0x4F63),
  (0x785C, 0x4F64),
  (0x785E, 0x4F65),
  (0x7860, 0x4F66_4F67),
  (0x7863, 0x4F68_4F69),
  (0x7868, 0x4F6A),
  (0x786A, 0x4F6B),
  (0x786E, 0x4F6C),
  (0x787A, 0x4F6D),
  (0x787E, 0x4F6E),
  (0x788A, 0x4F6F),
  (0x788F, 0x4F70),
  (0x7894, 0x4F71),
  (0x7898, 0x4F72),
  (0x789D, 0x4F74_4F75_4F76),
  (0x78A1, 0x4F73),
  (0x78A4, 0x4F77),
  (0x78A8, 0x4F78),
  (0x78AC, 0x4F79_4F7A),
  (0x78B0, 0x4F7B_4F7C_4F7D_4F7E),
  (0x78BB, 0x5021),
  (0x78BD, 0x5022),
  (0x78BF, 0x5023),
  (0x78C7, 0x5024_5025_5026),
  (0x78CC, 0x5027),
  (0x78CE, 0x5028),
  (0x78D2, 0x5029_502A),
  (0x78D5, 0x502B_502C),
  (0x78DB, 0x502E),
  (0x78DF, 0x502F_5030_5031),
  (0x78E4, 0x502D),
  (0x78E6, 0x5032),
  (0x78EA, 0x5033),
  (0x78F2, 0x5034_5035),
  (0x78F6, 0x5037_5038),
  (0x78FA, 0x5039_503A),
  (0x78FF, 0x503B_5036),
  (0x7906, 0x503C),
  (0x790C, 0x503D),
  (0x7910, 0x503E),
  (0x791A, 0x503F),
  (0x791C, 0x5040),
  (0x791E, 0x5041_5042_5043),
  (0x7925, 0x5044),
  (0x7927, 0x5045),
  (0x7929, 0x5046),
  (0x792D, 0x5047),
  (0x7931, 0x5048),
  (0x7934, 0x5049_504A),
  (0x793B, 0x504B),
  (0x793D, 0x504C),
  (0x793F, 0x504D),
  (0x7944, 0x504E_504F_5050),
  (0x794A, 0x5051_5052),
  (0x794F, 0x5053),
  (0x7951, 0x5054),
  (0x7954, 0x5055),
  (0x7958, 0x5056),
  (0x795B, 0x5057_5058),
  (0x7967, 0x5059),
  (0x7969, 0x505A),
  (0x796B, 0x505B),
  (0x7972, 0x505C),
  (0x7979, 0x505D),
  (0x797B, 0x505E_505F),
  (0x797E, 0x5060),
  (0x798B, 0x5061_5062),
  (0x7991, 0x5063),
  (0x7993, 0x5064_5065_5066_5067),
  (0x7998, 0x5068),
  (0x799B, 0x5069_506A),
  (0x79A1, 0x506B),
  (0x79A8, 0x506C_506D),
  (0x79AB, 0x506E),
  (0x79AF, 0x506F),
  (0x79B1, 0x5070),
  (0x79B4, 0x5071),
  (0x79B8, 0x5072),
  (0x79BB, 0x5073),
  (0x79C2, 0x5074),
  (0x79C4, 0x5075),
  (0x79C7, 0x5076_5077),
  (0x79CA, 0x5078),
  (0x79CF, 0x5079),
  (0x79D4, 0x507A),
  (0x79D6, 0x507B),
  (0x79DA, 0x507C),
  (0x79DD, 0x507D_507E),
  (0x79E0, 0x5121),
  (0x79E2, 0x5122),
  (0x79E5, 0x5123),
  (0x79EA, 0x5124_5125),
  (0x79ED, 0x5126),
  (0x79F1, 0x5127),
  (0x79F8, 0x5128),
  (0x79FC, 0x5129),
  (0x7A02, 0x512A_512B),
  (0x7A07, 0x512C),
  (0x7A09, 0x512D_512E),
  (0x7A0C, 0x512F),
  (0x7A11, 0x5130),
  (0x7A15, 0x5131),
  (0x7A1B, 0x5132),
  (0x7A1E, 0x5133),
  (0x7A21, 0x5134),
  (0x7A27, 0x5135),
  (0x7A2B, 0x5136),
  (0x7A2D, 0x5137),
  (0x7A2F, 0x5138_5139),
  (0x7A34, 0x513A_513B),
  (0x7A38, 0x513C_513D_513E),
  (0x7A44, 0x513F_5140),
  (0x7A47, 0x5141_5142),
  (0x7A4C, 0x5143),
  (0x7A55, 0x5144_5145),
  (0x7A59, 0x5146),
  (0x7A5C, 0x5147_5148),
  (0x7A5F, 0x5149_514A),
  (0x7A65, 0x514B),
  (0x7A67, 0x514C),
  (0x7A6A, 0x514D),
  (0x7A6D, 0x514E),
  (0x7A75, 0x514F),
  (0x7A78, 0x5150),
  (0x7A7E, 0x5151),
  (0x7A80, 0x5152),
  (0x7A82, 0x5153),
  (0x7A85, 0x5154_5155),
  (0x7A8A, 0x5156_5157),
  (0x7A90, 0x5158_5159),
  (0x7A94, 0x515A),
  (0x7A9E, 0x515B),
  (0x7AA0, 0x515C),
  (0x7AA3, 0x515D),
  (0x7AAC, 0x515E),
  (0x7AB3, 0x515F),
  (0x7AB5, 0x5160),
  (0x7AB9, 0x5161),
  (0x7ABB, 0x5162_5163),
  (0x7AC6, 0x5164),
  (0x7AC9, 0x5165),
  (0x7ACC, 0x5166),
  (0x7ACE, 0x5167),
  (0x7AD1, 0x5168),
  (0x7ADB, 0x5169),
  (0x7AE8, 0x516A_516B),
  (0x7AEB, 0x516C_516D),
  (0x7AF1, 0x516E),
  (0x7AF4, 0x516F),
  (0x7AFB, 0x5170),
  (0x7AFD, 0x5171_5172),
  (0x7B07, 0x5173),
  (0x7B14, 0x5174),
  (0x7B1F, 0x5175),
  (0x7B23, 0x5176),
  (0x7B27, 0x5177),
  (0x7B29, 0x5178_5179_517A),
  (0x7B2D, 0x517B_517C_517D_517E_5221),
  (0x7B34, 0x5222),
  (0x7B3D, 0x5223),
  (0x7B3F, 0x5224_5225_5226),
  (0x7B47, 0x5227),
  (0x7B4E, 0x5228),
  (0x7B55, 0x5229),
  (0x7B60, 0x522A),
  (0x7B64, 0x522B),
  (0x7B66, 0x522C),
  (0x7B69, 0x522D_522E),
  (0x7B6D, 0x522F),
  (0x7B6F, 0x5230),
  (0x7B72, 0x5231_5232),
  (0x7B77, 0x5233),
  (0x7B84, 0x5234),
  (0x7B89, 0x5235),
  (0x7B8E, 0x5236),
  (0x7B90, 0x5237_5238),
  (0x7B96, 0x5239),
  (0x7B9B, 0x523A),
  (0x7B9E, 0x523B),
  (0x7BA0, 0x523C),
  (0x7BA5, 0x523D),
  (0x7BAC, 0x523E),
  (0x7BAF, 0x523F_5240),
  (0x7BB2, 0x5241),
  (0x7BB5, 0x5242_5243),
  (0x7BBA, 0x5244_5245_5246_5247),
  (0x7BC2, 0x5248),
  (0x7BC5, 0x5249),
  (0x7BC8, 0x524A),
  (0x7BCA, 0x524B),
  (0x7BD4, 0x524C),
  (0x7BD6, 0x524D_524E),
  (0x7BD9, 0x524F_5250_5251),
  (0x7BE8, 0x5252),
  (0x7BEA, 0x5253),
  (0x7BF2, 0x5254),
  (0x7BF4, 0x5255_5256),
  (0x7BF8, 0x5257_5258_5259),
  (0x7BFC, 0x525A),
  (0x7BFE, 0x525B),
  (0x7C01, 0x525C_525D_525E_525F),
  (0x7C06, 0x5260),
  (0x7C09, 0x5261),
  (0x7C0B, 0x5262_5263),
  (0x7C0E, 0x5264_5265),
  (0x7C19, 0x5266),
  (0x7C1B, 0x5267),
  (0x7C20, 0x5268),
  (0x7C25, 0x5269_526A),
  (0x7C28, 0x526B),
  (0x7C2C, 0x526C),
  (0x7C31, 0x526D),
  (0x7C33, 0x526E_526F),
  (0x7C36, 0x5270),
  (0x7C39, 0x5271_5272),
  (0x7C46, 0x5273),
  (0x7C4A, 0x5274),
  (0x7C51, 0x5276_5277_5278),
  (0x7C55, 0x5275),
  (0x7C59, 0x5279_527A_527B_527C_527D_527E),
  (0x7C61, 0x5321),
  (0x7C63, 0x5322),
  (0x7C67, 0x5323),
  (0x7C69, 0x5324),
  (0x7C6D, 0x5325_5326),
  (0x7C70, 0x5327),
  (0x7C72, 0x5328),
  (0x7C79, 0x5329),
  (0x7C7C, 0x532A_532B),
  (0x7C86, 0x532C_532D),
  (0x7C8F, 0x532E),
  (0x7C94, 0x532F),
  (0x7C9E, 0x5330),
  (0x7CA0, 0x5331),
  (0x7CA6, 0x5332),
  (0x7CB0, 0x5333),
  (0x7CB6, 0x5334_5335),
  (0x7CBA, 0x5336_5337_5338),
  (0x7CBF, 0x5339),
  (0x7CC4, 0x533A),
  (0x7CC7, 0x533B_533C_533D),
  (0x7CCD, 0x533E),
  (0x7CCF, 0x533F),
  (0x7CD3, 0x5340_5341_5342),
  (0x7CD7, 0x5343),
  (0x7CD9, 0x5344_5345),
  (0x7CDD, 0x5346),
  (0x7CE6, 0x5347),
  (0x7CE9, 0x5348),
  (0x7CEB, 0x5349),
  (0x7CF5, 0x534A),
  (0x7D03, 0x534B),
  (0x7D07, 0x534C_534D_534E),
  (0x7D0F, 0x534F),
  (0x7D11, 0x5350_5351_5352),
  (0x7D16, 0x5353),
  (0x7D1D, 0x5354_5355),
  (0x7D23, 0x5356),
  (0x7D26, 0x5357),
  (0x7D2A, 0x5358),
  (0x7D2D, 0x5359),
  (0x7D31, 0x535A),
  (0x7D3C, 0x535B_535C_535D),
  (0x7D40, 0x535E_535F),
  (0x7D47, 0x5360_5361),
  (0x7D4D, 0x5362),
  (0x7D51, 0x5363),
  (0x7D53, 0x5364),
  (0x7D57, 0x5365),
  (0x7D59, 0x5366_5367),
  (0x7D5C, 0x5368_5369),
  (0x7D65, 0x536A),
  (0x7D67, 0x536B),
  (0x7D6A, 0x536C),
  (0x7D70, 0x536D),
  (0x7D78, 0x536E),
  (0x7D7A, 0x536F_5370),
  (0x7D7F, 0x5371),
  (0x7D81, 0x5372_5373_5374),
  (0x7D85, 0x5375_5376),
  (0x7D88, 0x5377),
  (0x7D8B, 0x5378_5379_537A),
  (0x7D91, 0x537B),
  (0x7D96, 0x537C_537D),
  (0x7D9D, 0x537E_5421),
  (0x7DA6, 0x5422_5423),
  (0x7DAA, 0x5424),
  (0x7DB3, 0x5425),
  (0x7DB6, 0x5426_5427),
  (0x7DB9, 0x5428),
  (0x7DC2, 0x5429_542A_542B_542C_542D),
  (0x7DCC, 0x542E_542F_5430),
  (0x7DD7, 0x5431),
  (0x7DD9, 0x5432),
  (0x7DE2, 0x5434),
  (0x7DE5, 0x5435_5436),
  (0x7DEA, 0x5437_5438),
  (0x7DED, 0x5439),
  (0x7DF1, 0x543A),
  (0x7DF5, 0x543B_543C),
  (0x7DF9, 0x543D_543E),
  (0x7E00, 0x5433),
  (0x7E08, 0x543F),
  (0x7E10, 0x5440_5441),
  (0x7E15, 0x5442),
  (0x7E17, 0x5443),
  (0x7E1C, 0x5444_5445),
  (0x7E20, 0x5446),
  (0x7E27, 0x5447_5448),
  (0x7E2C, 0x5449_544A),
  (0x7E2F, 0x544B),
  (0x7E33, 0x544C),
  (0x7E36, 0x544D),
  (0x7E3F, 0x544E),
  (0x7E44, 0x544F_5450),
  (0x7E47, 0x5451),
  (0x7E4E, 0x5452),
  (0x7E50, 0x5453),
  (0x7E52, 0x5454),
  (0x7E58, 0x5455),
  (0x7E5F, 0x5456),
  (0x7E61, 0x5457_5458),
  (0x7E65, 0x5459),
  (0x7E6B, 0x545A),
  (0x7E6E, 0x545B_545C),
  (0x7E73, 0x545D),
  (0x7E78, 0x545E),
  (0x7E7E, 0x545F),
  (0x7E81, 0x5460),
  (0x7E86, 0x5461_5462),
  (0x7E8A, 0x5463),
  (0x7E8D, 0x5464),
  (0x7E91, 0x5465),
  (0x7E95, 0x5466),
  (0x7E98, 0x5467),
  (0x7E9A, 0x5468),
  (0x7E9D, 0x5469_546A),
  (0x7F3B, 0x546C_546B_546D_546E_546F),
  (0x7F43, 0x5470_5471),
  (0x7F47, 0x5472),
  (0x7F4F, 0x5473),
  (0x7F52, 0x5474_5475),
  (0x7F5B, 0x5476_5477_5478),
  (0x7F61, 0x5479),
  (0x7F63, 0x547A_547B_547C_547D),
  (0x7F6D, 0x547E),
  (0x7F71, 0x5521),
  (0x7F7D, 0x5522_5523_5524_5525),
  (0x7F8B, 0x5526),
  (0x7F8D, 0x5527),
  (0x7F8F, 0x5528_5529_552A),
  (0x7F96, 0x552B_552C),
  (0x7F9C, 0x552D),
  (0x7FA1, 0x552E_552F),
  (0x7FA6, 0x5530),
  (0x7FAA, 0x5531),
  (0x7FAD, 0x5532),
  (0x7FB4, 0x5533),
  (0x7FBC, 0x5534),
  (0x7FBF, 0x5535_5536),
  (0x7FC3, 0x5537),
  (0x7FC8, 0x5538),
  (0x7FCE, 0x5539_553A),
  (0x7FDB, 0x553B),
  (0x7FDF, 0x553C),
  (0x7FE3, 0x553D),
  (0x7FE5, 0x553E),
  (0x7FE8, 0x553F),
  (0x7FEC, 0x5540),
  (0x7FEE, 0x5541_5542),
  (0x7FF2, 0x5543),
  (0x7FFA, 0x5544),
  (0x7FFD, 0x5545_5546_5547),
  (0x8007, 0x5548_5549),
  (0x800A, 0x554A),
  (0x800D, 0x554B_554C_554D),
  (0x8011, 0x554E),
  (0x8013, 0x554F_5550),
  (0x8016, 0x5551),
  (0x801D, 0x5552_5553_5554_5555),
  (0x8024, 0x5556),
  (0x8026, 0x5557),
  (0x802C, 0x5558),
  (0x802E, 0x5559),
  (0x8030, 0x555A),
  (0x8034, 0x555B_555C),
  (0x8037, 0x555D),
  (0x8039, 0x555E_555F),
  (0x803C, 0x5560),
  (0x803E, 0x5561),
  (0x8040, 0x5562),
  (0x8044, 0x5563),
  (0x8060, 0x5564),
  (0x8064, 0x5565),
  (0x8066, 0x5566),
  (0x806D, 0x5567),
  (0x8071, 0x5568),
  (0x8075, 0x5569),
  (0x8081, 0x556A),
  (0x8088, 0x556B),
  (0x808E, 0x556C),
  (0x809C, 0x556D),
  (0x809E, 0x556E),
  (0x80A6, 0x556F_5570),
  (0x80AB, 0x5571),
  (0x80B8, 0x5572_5573),
  (0x80C8, 0x5574),
  (0x80CD, 0x5575),
  (0x80CF, 0x5576),
  (0x80D2, 0x5577),
  (0x80D4, 0x5578_5579),
  (0x80D7, 0x557A_557B),
  (0x80E0, 0x557C),
  (0x80ED, 0x557D_557E),
  (0x80F0, 0x5621),
  (0x80F2, 0x5622_5623),
  (0x80F6, 0x5624),
  (0x80F9, 0x5625_5626),
  (0x80FE, 0x5627),
  (0x8103, 0x5628),
  (0x810B, 0x5629),
  (0x8116, 0x562A_562B_562C),
  (0x811C, 0x562D),
  (0x811E, 0x562E),
  (0x8120, 0x562F),
  (0x8124, 0x5630),
  (0x8127, 0x5631),
  (0x812C, 0x5632),
  (0x8130, 0x5633),
  (0x8135, 0x5634),
  (0x813A, 0x5635),
  (0x813C, 0x5636),
  (0x8145, 0x5637),
  (0x8147, 0x5638),
  (0x814A, 0x5639),
  (0x814C, 0x563A),
  (0x8152, 0x563B),
  (0x8157, 0x563C),
  (0x8160, 0x563D_563E),
  (0x8167, 0x563F_5640_5641),
  (0x816D, 0x5642),
  (0x816F, 0x5643),
  (0x8177, 0x5644),
  (0x8181, 0x5645),
  (0x8184, 0x5647_5648_5649),
  (0x818B, 0x564A),
  (0x818E, 0x564B),
  (0x8190, 0x5646),
  (0x8196, 0x564C),
  (0x8198, 0x564D),
  (0x819B, 0x564E),
  (0x819E, 0x564F),
  (0x81A2, 0x5650),
  (0x81AE, 0x5651),
  (0x81B2, 0x5652),
  (0x81B4, 0x5653),
  (0x81BB, 0x5654),
  (0x81C3, 0x5656),
  (0x81C5, 0x5657),
  (0x81CA, 0x5658_5655),
  (0x81CE, 0x5659_565A),
  (0x81D5, 0x565B),
  (0x81D7, 0x565C),
  (0x81DB, 0x565D),
  (0x81DD, 0x565E_565F),
  (0x81E1, 0x5660),
  (0x81E4, 0x5661),
  (0x81EB, 0x5662_5663),
  (0x81F0, 0x5664_5665_5666),
  (0x81F5, 0x5667_5668),
  (0x81F8, 0x5669_566A),
  (0x81FD, 0x566B),
  (0x81FF, 0x566C_566D),
  (0x8203, 0x566E),
  (0x820F, 0x566F),
  (0x8213, 0x5670_5671),
  (0x8219, 0x5672_5673),
  (0x821D, 0x5674),
  (0x8221, 0x5675_5676),
  (0x8228, 0x5677),
  (0x8232, 0x5678),
  (0x8234, 0x5679),
  (0x823A, 0x567A),
  (0x8243, 0x567B_567C_567D_567E),
  (0x824B, 0x5721),
  (0x824E, 0x5722_5723),
  (0x8251, 0x5724),
  (0x8256, 0x5725),
  (0x825C, 0x5726),
  (0x8260, 0x5727),
  (0x8263, 0x5728),
  (0x8267, 0x5729),
  (0x826D, 0x572A),
  (0x8274, 0x572B),
  (0x827B, 0x572C),
  (0x827D, 0x572D),
  (0x827F, 0x572E_572F_5730),
  (0x8283, 0x5731_5732),
  (0x8287, 0x5733),
  (0x8289, 0x5734_5735),
  (0x828E, 0x5736),
  (0x8291, 0x5737),
  (0x8294, 0x5738),
  (0x8296, 0x5739),
  (0x8298, 0x573A),
  (0x829A, 0x573B_573C),
  (0x82A0, 0x573D_573E),
  (0x82A3, 0x573F_5740),
  (0x82A7, 0x5741_5742_5743_5744),
  (0x82AE, 0x5745),
  (0x82B0, 0x5746),
  (0x82B2, 0x5747),
  (0x82B4, 0x5748),
  (0x82B7, 0x5749),
  (0x82BA, 0x574A),
  (0x82BC, 0x574B),
  (0x82BE, 0x574C_574D),
  (0x82C6, 0x574E),
  (0x82D0, 0x574F),
  (0x82D5, 0x5750),
  (0x82DA, 0x5751),
  (0x82E0, 0x5752),
  (0x82E2, 0x5753),
  (0x82E4, 0x5754),
  (0x82E8, 0x5755),
  (0x82EA, 0x5756),
  (0x82ED, 0x5757),
  (0x82EF, 0x5758),
  (0x82F6, 0x5759_575A),
  (0x82FD, 0x575B_575C),
  (0x8300, 0x575D_575E),
  (0x8307, 0x575F_5760),
  (0x830A, 0x5761_5762),
  (0x831B, 0x5764),
  (0x831D, 0x5765_5766_5767),
  (0x8321, 0x5768_5769),
  (0x832C, 0x576A_576B_576C),
  (0x8330, 0x576D),
  (0x8333, 0x576E),
  (0x8337, 0x576F),
  (0x833A, 0x5770),
  (0x833C, 0x5771_5772),
  (0x8342, 0x5773_5774_5775),
  (0x8347, 0x5776),
  (0x834D, 0x5777_5778),
  (0x8351, 0x5779),
  (0x8353, 0x583E_5763_577A_577B_577C),
  (0x8370, 0x577D),
  (0x8378, 0x577E),
  (0x837D, 0x5821),
  (0x837F, 0x5822_5823),
  (0x8382, 0x5824),
  (0x8384, 0x5825),
  (0x8386, 0x5826),
  (0x838D, 0x5827),
  (0x8392, 0x5828),
  (0x8394, 0x5829_582A),
  (0x8398, 0x582B_582C),
  (0x839B, 0x582D_582E_582F),
  (0x83A6, 0x5830_5831),
  (0x83A9, 0x5832),
  (0x83AC, 0x5833_584C),
  (0x83BE, 0x5834_5835_5836),
  (0x83C7, 0x5837),
  (0x83C9, 0x5838),
  (0x83CF, 0x5839_583A_583B),
  (0x83D4, 0x583C),
  (0x83DD, 0x583D),
  (0x83E8, 0x583F),
  (0x83EA, 0x5840),
  (0x83F6, 0x5841),
  (0x83F8, 0x5842_5843),
  (0x83FC, 0x5844),
  (0x8401, 0x5845),
  (0x8406, 0x5846),
  (0x840A, 0x5847),
  (0x840F, 0x5848),
  (0x8411, 0x5849),
  (0x8415, 0x584A),
  (0x8419, 0x584B),
  (0x842F, 0x584D),
  (0x8439, 0x584E),
  (0x8445, 0x584F),
  (0x8447, 0x5850_5851),
  (0x844A, 0x5852),
  (0x844D, 0x5853),
  (0x844F, 0x5854),
  (0x8451, 0x5855_5856),
  (0x8456, 0x5857),
  (0x8458, 0x5858_5859_585A),
  (0x845C, 0x585B),
  (0x8460, 0x585C),
  (0x8464, 0x585D_585E),
  (0x8467, 0x585F),
  (0x846A, 0x5860),
  (0x8470, 0x5861),
  (0x8473, 0x5862_5863),
  (0x8476, 0x5864),
  (0x8478, 0x5865),
  (0x847C, 0x5866_5867),
  (0x8481, 0x5868),
  (0x8485, 0x5869),
  (0x8492, 0x586A_586B),
  (0x8495, 0x586C),
  (0x849E, 0x586D),
  (0x84A6, 0x586E),
  (0x84A8, 0x586F_5870_5871),
  (0x84AF, 0x5872),
  (0x84B1, 0x5873),
  (0x84B4, 0x5874),
  (0x84BA, 0x5875),
  (0x84BD, 0x5876_5877),
  (0x84C0, 0x5878),
  (0x84C2, 0x5879),
  (0x84C7, 0x587A_587B),
  (0x84CC, 0x587C),
  (0x84CF, 0x587D),
  (0x84D3, 0x587E),
  (0x84DC, 0x5921),
  (0x84E7, 0x5922),
  (0x84EA, 0x5923),
  (0x84EF, 0x5924_5925_5926_5927),
  (0x84F7, 0x5928),
  (0x84FA, 0x592A_592B),
  (0x84FD, 0x592C),
  (0x8502, 0x592D_592E),
  (0x8507, 0x592F),
  (0x850C, 0x5930),
  (0x850E, 0x5931),
  (0x8510, 0x5932),
  (0x851C, 0x5933),
  (0x851E, 0x5934),
  (0x8522, 0x5935_5936_5937_5938),
  (0x8527, 0x5939),
  (0x852A, 0x593A_593B),
  (0x852F, 0x593C),
  (0x8532, 0x5929_593D_593E),
  (0x8536, 0x593F),
  (0x853F, 0x5940),
  (0x8546, 0x5941),
  (0x854F, 0x5942_5943_5944_5945_5946),
  (0x8556, 0x5947),
  (0x8559, 0x5948),
  (0x855C, 0x5949_594A_594B_594C_594D_594E_594F),
  (0x8564, 0x5950),
  (0x856B, 0x5951),
  (0x856F, 0x5952),
  (0x8579, 0x5953_5954_5955),
  (0x857D, 0x5956),
  (0x857F, 0x5957),
  (0x8581, 0x5958),
  (0x8585, 0x5959_595A),
  (0x8589, 0x595B),
  (0x858B, 0x595C_595D),
  (0x858F, 0x595E),
  (0x8593, 0x595F),
  (0x8598, 0x5960),
  (0x859D, 0x5961),
  (0x859F, 0x5962_5963),
  (0x85A2, 0x5964),
  (0x85A5, 0x5965),
  (0x85A7, 0x5966),
  (0x85AD, 0x5974),
  (0x85B4, 0x5967),
  (0x85B6, 0x5968_5969_596A),
  (0x85BC, 0x596B_596C_596D_596E),
  (0x85C2, 0x596F),
  (0x85C7, 0x5970),
  (0x85CA, 0x5971_5972),
  (0x85CE, 0x5973),
  (0x85D8, 0x5975),
  (0x85DA, 0x5976),
  (0x85DF, 0x5977_5978),
  (0x85E6, 0x5979),
  (0x85E8, 0x597A),
  (0x85ED, 0x597B),
  (0x85F3, 0x597C),
  (0x85F6, 0x597D),
  (0x85FC, 0x597E),
  (0x85FF, 0x5A21_5A22),
  (0x8604, 0x5A23_5A24),
  (0x860D, 0x5A25_5A26),
  (0x8610, 0x5A27_5A28_5A29),
  (0x8618, 0x5A2A_5A2B),
  (0x861B, 0x5A2C),
  (0x861E, 0x5A2D),
  (0x8621, 0x5A2E),
  (0x8627, 0x5A2F),
  (0x8629, 0x5A30),
  (0x8636, 0x5A31),
  (0x8638, 0x5A32),
  (0x863A, 0x5A33),
  (0x863C, 0x5A34_5A35),
  (0x8640, 0x5A36_3866_5A37),
  (0x8646, 0x5A38),
  (0x8652, 0x5A39_5A3A),
  (0x8656, 0x5A3B_5A3C_5A3D_5A3E),
  (0x865D, 0x5A3F),
  (0x8660, 0x5A40_5A41_5A42_5A43_5A44),
  (0x8669, 0x5A45),
  (0x866C, 0x5A46),
  (0x866F, 0x5A47),
  (0x8675, 0x5A48_5A49_5A4A),
  (0x867A, 0x5A4B),
  (0x8688, 0x5A6D),
  (0x868D, 0x5A4C),
  (0x8691, 0x5A4D),
  (0x8696, 0x5A4E),
  (0x8698, 0x5A4F),
  (0x869A, 0x5A50),
  (0x869C, 0x5A51),
  (0x86A1, 0x5A52),
  (0x86A6, 0x5A53_5A54_5A55),
  (0x86AD, 0x5A56),
  (0x86B1, 0x5A57),
  (0x86B3, 0x5A58_5A59_5A5A),
  (0x86B7, 0x5A5B_5A5C_5A5D),
  (0x86BF, 0x5A5E_5A5F_5A60),
  (0x86C3, 0x5A61),
  (0x86C5, 0x5A62),
  (0x86D1, 0x5A63_5A64),
  (0x86D5, 0x5A65),
  (0x86D7, 0x5A66),
  (0x86DA, 0x5A67),
  (0x86DC, 0x5A68),
  (0x86E0, 0x5A69),
  (0x86E3, 0x5A6A),
  (0x86E5, 0x5A6B),
  (0x86E7, 0x5A6C),
  (0x86FA, 0x5A6E),
  (0x86FC, 0x5A6F_5A70),
  (0x8704, 0x5A71_5A72),
  (0x8707, 0x5A73),
  (0x870B, 0x5A74),
  (0x870E, 0x5A75_5A76_5A77),
  (0x8713, 0x5A78_5A79),
  (0x8719, 0x5A7A),
  (0x871E, 0x5A7B_5A7C),
  (0x8721, 0x5A7D),
  (0x8723, 0x5A7E),
  (0x8728, 0x5B21),
  (0x872E, 0x5B22_5B23),
  (0x8731, 0x5B24_5B25),
  (0x8739, 0x5B26_5B27),
  (0x873C, 0x5B28_5B29_5B2A),
  (0x8740, 0x5B2B),
  (0x8743, 0x5B2C),
  (0x8745, 0x5B2D),
  (0x874D, 0x5B2E),
  (0x8758, 0x5B2F),
  (0x875D, 0x5B30),
  (0x8761, 0x5B31),
  (0x8764, 0x5B32_5B33),
  (0x876F, 0x5B34),
  (0x8771, 0x5B35_5B36),
  (0x877B, 0x5B37),
  (0x8783, 0x5B38_5B39_5B3A_5B3B_5B3C_5B3D_5B3E),
  (0x878B, 0x5B3F_5B40),
  (0x8790, 0x5B41),
  (0x8793, 0x5B42),
  (0x8795, 0x5B43),
  (0x8797, 0x5B44_5B45_5B46),
  (0x879E, 0x5B47),
  (0x87A0, 0x5B48),
  (0x87A3, 0x5B49),
  (0x87A7, 0x5B4A),
  (0x87AC, 0x5B4B_5B4C_5B4D),
  (0x87B1, 0x5B4E),
  (0x87B5, 0x5B4F),
  (0x87BE, 0x5B50_5B51),
  (0x87C1, 0x5B52),
  (0x87C8, 0x5B53_5B54_5B55),
  (0x87CE, 0x5B56),
  (0x87D5, 0x5B57_5B58),
  (0x87D9, 0x5B59_5B5A),
  (0x87DC, 0x5B5B),
  (0x87DF, 0x5B5C),
  (0x87E2, 0x5B5D_5B5E_5B5F),
  (0x87EA, 0x5B60_5B61),
  (0x87ED, 0x5B62),
  (0x87F1, 0x5B63),
  (0x87F3, 0x5B64),
  (0x87F8, 0x5B65),
  (0x87FA, 0x5B66),
  (0x87FF, 0x5B67),
  (0x8801, 0x5B68),
  (0x8803, 0x5B69),
  (0x8806, 0x5B6A),
  (0x8809, 0x5B6B_5B6C_5B6D),
  (0x8810, 0x5B6E),
  (0x8812, 0x5B70_5B71_5B72),
  (0x8818, 0x5B73_5B6F_5B74_5B75_5B76),
  (0x881E, 0x5B77_5B78),
  (0x8828, 0x5B79),
  (0x882D, 0x5B7A_5B7B),
  (0x8830, 0x5B7C),
  (0x8832, 0x5B7D),
  (0x8835, 0x5B7E),
  (0x883A, 0x5C21),
  (0x883C, 0x5C22),
  (0x8841, 0x5C23),
  (0x8843, 0x5C24),
  (0x8845, 0x5C25),
  (0x8848, 0x5C26_5C27_5C28_5C29),
  (0x884E, 0x5C2A),
  (0x8851, 0x5C2B),
  (0x8855, 0x5C2C_5C2D),
  (0x8858, 0x5C2E),
  (0x885A, 0x5C2F),
  (0x885C, 0x5C30),
  (0x885F, 0x5C31_5C32),
  (0x8864, 0x5C33),
  (0x8869, 0x5C34),
  (0x8871, 0x5C35),
  (0x8879, 0x5C36),
  (0x887B, 0x5C37),
  (0x8880, 0x5C38),
  (0x8898, 0x5C39),
  (0x889A, 0x5C3A_5C3B_5C3C),
  (0x889F, 0x5C3D_5C3E),
  (0x88A8, 0x5C3F),
  (0x88AA, 0x5C40),
  (0x88BA, 0x5C41),
  (0x88BD, 0x5C42_5C43),
  (0x88C0, 0x5C44),
  (0x88CA, 0x5C45_5C46_5C47_5C48_5C49),
  (0x88D1, 0x5C4A_5C4B_5C4C),
  (0x88DB, 0x5C4D),
  (0x88DE, 0x5C4E),
  (0x88E7, 0x5C4F),
  (0x88EF, 0x5C50_5C51_5C52),
  (0x88F5, 0x5C53),
  (0x88F7, 0x5C54),
  (0x8901, 0x5C55),
  (0x8906, 0x5C56),
  (0x890D, 0x5C57_5C58_5C59),
  (0x8915, 0x5C5A_5C5B),
  (0x8918, 0x5C5C_5C5D_5C5E),
  (0x891C, 0x5C5F),
  (0x8920, 0x5C60),
  (0x8926, 0x5C61_5C62_5C63),
  (0x8930, 0x5C64_5C65_5C66),
  (0x8935, 0x5C67),
  (0x8939, 0x5C68_5C69),
  (0x893E, 0x5C6A),
  (0x8940, 0x5C6B),
  (0x8942, 0x5C6C),
  (0x8945, 0x5C6D_5C6E),
  (0x8949, 0x5C6F),
  (0x894F, 0x5C70),
  (0x8952, 0x5C71),
  (0x8957, 0x5C72),
  (0x895A, 0x5C73_5C74_5C75),
  (0x8961, 0x5C76_5C77_5C78),
  (0x896B, 0x5C79),
  (0x896E, 0x5C7A),
  (0x8970, 0x5C7B),
  (0x8973, 0x5C7C),
  (0x8975, 0x5C7D),
  (0x897A, 0x5C7E_5D21_5D22_5D23),
  (0x8989, 0x5D24),
  (0x898D, 0x5D25),
  (0x8990, 0x5D26),
  (0x8994, 0x5D27_5D28),
  (0x899B, 0x5D29_5D2A),
  (0x899F, 0x5D2B_5D2C),
  (0x89A5, 0x5D2D),
  (0x89B0, 0x5D2E),
  (0x89B4, 0x5D2F_5D30_5D31_5D32),
  (0x89BC, 0x5D33),
  (0x89D4, 0x5D34_5D35_5D36_5D37_5D38),
  (0x89E5, 0x5D39),
  (0x89E9, 0x5D3A),
  (0x89EB, 0x5D3B),
  (0x89ED, 0x5D3C),
  (0x89F1, 0x5D3D),
  (0x89F3, 0x5D3E),
  (0x89F6, 0x5D3F),
  (0x89F9, 0x5D40),
  (0x89FD, 0x5D41),
  (0x89FF, 0x5D42),
  (0x8A04, 0x5D43_5D44),
  (0x8A07, 0x5D45),
  (0x8A0F, 0x5D46),
  (0x8A11, 0x5D47_5D48),
  (0x8A14, 0x5D49_5D4A),
  (0x8A1E, 0x5D4B),
  (0x8A20, 0x5D4C),
  (0x8A22, 0x5D4D),
  (0x8A24, 0x5D4E),
  (0x8A26, 0x5D4F),
  (0x8A2B, 0x5D50_5D51),
  (0x8A2F, 0x5D52),
  (0x8A35, 0x5D53),
  (0x8A37, 0x5D54),
  (0x8A3D, 0x5D55_5D56),
  (0x8A40, 0x5D57),
  (0x8A43, 0x5D58),
  (0x8A45, 0x5D59),
  (0x8A47, 0x5D5A),
  (0x8A49, 0x5D5B),
  (0x8A4D, 0x5D5C_5D5D),
  (0x8A53, 0x5D5E),
  (0x8A56, 0x5D5F_5D60_5D61),
  (0x8A5C, 0x5D62_5D63),
  (0x8A61, 0x5D64),
  (0x8A65, 0x5D65),
  (0x8A67, 0x5D66),
  (0x8A75, 0x5D67_5D68_5D69),
  (0x8A79, 0x5D6A_5D6B_5D6C),
  (0x8A7E, 0x5D6D_5D6E_5D6F),
  (0x8A83, 0x5D70),
  (0x8A86, 0x5D71),
  (0x8A8B, 0x5D72),
  (0x8A8F, 0x5D73_5D74),
  (0x8A92, 0x5D75),
  (0x8A96, 0x5D76_5D77),
  (0x8A99, 0x5D78),
  (0x8A9F, 0x5D79),
  (0x8AA7, 0x5D7A),
  (0x8AA9, 0x5D7B),
  (0x8AAE, 0x5D7C_5D7D),
  (0x8AB3, 0x5D7E),
  (0x8AB6, 0x5E21_5E22),
  (0x8ABB, 0x5E23),
  (0x8ABE, 0x5E24),
  (0x8AC3, 0x5E25),
  (0x8AC6, 0x5E26),
  (0x8AC8, 0x5E27_5E28_5E29),
  (0x8AD1, 0x5E2A),
  (0x8AD3, 0x5E2B_5E2C_5E2D),
  (0x8AD7, 0x5E2E),
  (0x8ADD, 0x5E2F),
  (0x8ADF, 0x5E30),
  (0x8AEC, 0x5E31),
  (0x8AF0, 0x5E32),
  (0x8AF4, 0x5E33_5E34_5E35),
  (0x8AFC, 0x5E36),
  (0x8AFF, 0x5E37),
  (0x8B05, 0x5E38_5E39),
  (0x8B0A, 0x5E3F_5E3A),
  (0x8B11, 0x5E3B),
  (0x8B1C, 0x5E3C),
  (0x8B1E, 0x5E3D_5E3E),
  (0x8B2D, 0x5E40),
  (0x8B30, 0x5E41),
  (0x8B37, 0x5E42),
  (0x8B3C, 0x5E43),
  (0x8B42, 0x5E44_5E45_5E46_5E47_5E48),
  (0x8B48, 0x5E49),
  (0x8B4D, 0x5E4E),
  (0x8B52, 0x5E4A_5E4B_5E4C),
  (0x8B59, 0x5E4D),
  (0x8B5E, 0x5E4F),
  (0x8B63, 0x5E50),
  (0x8B6D, 0x5E51),
  (0x8B76, 0x5E52),
  (0x8B78, 0x5E53_5E54),
  (0x8B7C, 0x5E55),
  (0x8B7E, 0x5E56),
  (0x8B81, 0x5E57),
  (0x8B84, 0x5E58_5E59),
  (0x8B8B, 0x5E5A),
  (0x8B8D, 0x5E5B),
  (0x8B8F, 0x5E5C),
  (0x8B94, 0x5E5D_5E5E),
  (0x8B9C, 0x5E5F),
  (0x8B9E, 0x5E60_5E61),
  (0x8C38, 0x5E62_5E63),
  (0x8C3D, 0x5E64_5E65),
  (0x8C45, 0x5E66),
  (0x8C47, 0x5E67),
  (0x8C49, 0x5E68),
  (0x8C4B, 0x5E69),
  (0x8C4F, 0x5E6A),
  (0x8C51, 0x5E6B),
  (0x8C53, 0x5E6C_5E6D),
  (0x8C57, 0x5E6E_5E6F_5E72),
  (0x8C5B, 0x5E70),
  (0x8C5D, 0x5E71),
  (0x8C63, 0x5E73_5E74),
  (0x8C66, 0x5E75),
  (0x8C68, 0x5E76_5E77),
  (0x8C6D, 0x5E78),
  (0x8C73, 0x5E79),
  (0x8C75, 0x5E7A_5E7B),
  (0x8C7B, 0x5E7C),
  (0x8C7E, 0x5E7D),
  (0x8C86, 0x5E7E_5F21),
  (0x8C8B, 0x5F22),
  (0x8C90, 0x5F23),
  (0x8C92, 0x5F24_5F25),
  (0x8C99, 0x5F26),
  (0x8C9B, 0x5F27_5F28),
  (0x8CA4, 0x5F29),
  (0x8CB9, 0x5F2A_5F2B),
  (0x8CC5, 0x5F2C_5F2D),
  (0x8CC9, 0x5F2E),
  (0x8CCB, 0x5F2F),
  (0x8CCF, 0x5F30),
  (0x8CD5, 0x5F32_5F31),
  (0x8CD9, 0x5F33),
  (0x8CDD, 0x5F34),
  (0x8CE1, 0x5F35),
  (0x8CE8, 0x5F36),
  (0x8CEC, 0x5F37),
  (0x8CEF, 0x5F38_5F39),
  (0x8CF2, 0x5F3A),
  (0x8CF5, 0x5F3B),
  (0x8CF7, 0x5F3C_5F3D),
  (0x8CFE, 0x5F3E_5F3F),
  (0x8D01, 0x5F40),
  (0x8D03, 0x5F41),
  (0x8D09, 0x5F42),
  (0x8D12, 0x5F43),
  (0x8D17, 0x5F44),
  (0x8D1B, 0x5F45),
  (0x8D65, 0x5F46),
  (0x8D69, 0x5F47),
  (0x8D6C, 0x5F48),
  (0x8D6E, 0x5F49),
  (0x8D7F, 0x5F4A),
  (0x8D82, 0x5F4B),
  (0x8D84, 0x5F4C),
  (0x8D88, 0x5F4D),
  (0x8D8D, 0x5F4E),
  (0x8D90, 0x5F4F_5F50),
  (0x8D95, 0x5F51),
  (0x8D9E, 0x5F52_5F53_5F54),
  (0x8DA6, 0x5F55),
  (0x8DAB, 0x5F56_5F57),
  (0x8DAF, 0x5F58),
  (0x8DB2, 0x5F59),
  (0x8DB5, 0x5F5A),
  (0x8DB7, 0x5F5B),
  (0x8DB9, 0x5F5C),
  (0x8DBB, 0x5F5D_5F6F),
  (0x8DC0, 0x5F5E),
  (0x8DC5, 0x5F5F_5F60_5F61_5F62),
  (0x8DCA, 0x5F63),
  (0x8DCE, 0x5F64),
  (0x8DD1, 0x5F65),
  (0x8DD4, 0x5F66_5F67),
  (0x8DD7, 0x5F68),
  (0x8DD9, 0x5F69),
  (0x8DE4, 0x5F6A_5F6B),
  (0x8DE7, 0x5F6C),
  (0x8DEC, 0x5F6D),
  (0x8DF0, 0x5F6E_5F70_5F71),
  (0x8DF4, 0x5F72),
  (0x8DFD, 0x5F73),
  (0x8E01, 0x5F74),
  (0x8E04, 0x5F75_5F76_5F77),
  (0x8E0B, 0x5F78),
  (0x8E11, 0x5F79),
  (0x8E14, 0x5F7A),
  (0x8E16, 0x5F7B),
  (0x8E20, 0x5F7C_5F7D_5F7E_6021),
  (0x8E26, 0x6022_6023),
  (0x8E31, 0x6024),
  (0x8E33, 0x6025),
  (0x8E36, 0x6026_6027_6028_6029),
  (0x8E3D, 0x602A),
  (0x8E40, 0x602B_602C),
  (0x8E4B, 0x602D),
  (0x8E4D, 0x602E_602F_6030),
  (0x8E54, 0x6031),
  (0x8E5B, 0x6032_6033_6034_6035),
  (0x8E61, 0x6036_6037),
  (0x8E69, 0x6038),
  (0x8E6C, 0x6039_603A),
  (0x8E6F, 0x603B_603C_603D),
  (0x8E79, 0x603E_603F_6040),
  (0x8E82, 0x6041_6042),
  (0x8E89, 0x6043),
  (0x8E90, 0x6044),
  (0x8E92, 0x6045),
  (0x8E95, 0x6046),
  (0x8E9A, 0x6047_6048),
  (0x8E9D, 0x6049_604A),
  (0x8EA2, 0x604B),
  (0x8EA7, 0x604C),
  (0x8EA9, 0x604D),
  (0x8EAD, 0x604E_604F),
  (0x8EB3, 0x6050),
  (0x8EB5, 0x6051),
  (0x8EBA, 0x6052_6053),
  (0x8EC0, 0x6054_6055),
  (0x8EC3, 0x6056_6057),
  (0x8EC7, 0x6058),
  (0x8ECF, 0x6059),
  (0x8ED1, 0x605A),
  (0x8ED4, 0x605B),
  (0x8EDC, 0x605C),
  (0x8EE8, 0x605D),
  (0x8EED, 0x6064_605E),
  (0x8EF0, 0x605F_6060),
  (0x8EF7, 0x6061),
  (0x8EF9, 0x6062_6063),
  (0x8F00, 0x6065),
  (0x8F02, 0x6066),
  (0x8F07, 0x6067_6068),
  (0x8F0F, 0x6069_606A),
  (0x8F16, 0x606B_606C_606D),
  (0x8F1E, 0x606E),
  (0x8F20, 0x606F_6070),
  (0x8F23, 0x6071),
  (0x8F25, 0x6072),
  (0x8F27, 0x6073_6074),
  (0x8F2C, 0x6075_6076_6077),
  (0x8F34, 0x6078_6079_607A_607B),
  (0x8F3A, 0x607C),
  (0x8F40, 0x607D_607E),
  (0x8F43, 0x6121),
  (0x8F47, 0x6122),
  (0x8F4F, 0x6123),
  (0x8F51, 0x6124_6125_6126_6127_6128),
  (0x8F58, 0x6129),
  (0x8F5D, 0x612A_612B),
  (0x8F65, 0x612C),
  (0x8F9D, 0x612D),
  (0x8FA0, 0x612E_612F),
  (0x8FA4, 0x6130_6131_6132),
  (0x8FB5, 0x6133_6134),
  (0x8FB8, 0x6135),
  (0x8FBE, 0x6136),
  (0x8FC0, 0x6137_6138),
  (0x8FC6, 0x6139),
  (0x8FCA, 0x613A_613B),
  (0x8FCD, 0x613C),
  (0x8FD0, 0x613D),
  (0x8FD2, 0x613E_613F),
  (0x8FD5, 0x6140),
  (0x8FE0, 0x6141),
  (0x8FE3, 0x6142_6143),
  (0x8FE8, 0x6144),
  (0x8FEE, 0x6145),
  (0x8FF1, 0x6146),
  (0x8FF5, 0x6147_6148),
  (0x8FFB, 0x6149),
  (0x8FFE, 0x614A),
  (0x9002, 0x614B),
  (0x9004, 0x614C),
  (0x9008, 0x614D),
  (0x900C, 0x614E),
  (0x9018, 0x614F),
  (0x901B, 0x6150),
  (0x9028, 0x6151_6152_6154),
  (0x902C, 0x6155_6156),
  (0x902F, 0x6153),
  (0x9033, 0x6157_6158),
  (0x9037, 0x6159),
  (0x903F, 0x615A),
  (0x9043, 0x615B_615C),
  (0x904C, 0x615D),
  (0x905B, 0x615E),
  (0x905D, 0x615F),
  (0x9062, 0x6160),
  (0x9066, 0x6161_6162),
  (0x906C, 0x6163),
  (0x9070, 0x6164),
  (0x9074, 0x6165),
  (0x9079, 0x6166),
  (0x9085, 0x6167),
  (0x9088, 0x6168),
  (0x908B, 0x6169_616A),
  (0x908E, 0x616B),
  (0x9090, 0x616C),
  (0x9095, 0x616D),
  (0x9097, 0x616E_616F_6170),
  (0x909B, 0x6171),
  (0x90A0, 0x6172_6173_6174),
  (0x90A5, 0x6175),
  (0x90B0, 0x6176),
  (0x90B2, 0x6177_6178_6179),
  (0x90B6, 0x617A),
  (0x90BD, 0x617B_617D),
  (0x90C3, 0x617E_6221_6222),
  (0x90C7, 0x6223_6224),
  (0x90CC, 0x617C),
  (0x90D2, 0x622D),
  (0x90D5, 0x6225),
  (0x90D7, 0x6226_6227_6228),
  (0x90DC, 0x6229_622A),
  (0x90DF, 0x622B),
  (0x90E5, 0x622C),
  (0x90EB, 0x622F),
  (0x90EF, 0x6230_6231),
  (0x90F4, 0x6232),
  (0x90F6, 0x622E),
  (0x90FE, 0x6233_6234_6235),
  (0x9104, 0x6236_6237_6238),
  (0x9108, 0x6239),
  (0x910D, 0x623A),
  (0x9110, 0x623B),
  (0x9114, 0x623C),
  (0x9116, 0x623D_623E_623F),
  (0x911A, 0x6240),
  (0x911C, 0x6241),
  (0x911E, 0x6242),
  (0x9120, 0x6243),
  (0x9122, 0x6245_6246),
  (0x9125, 0x6244),
  (0x9127, 0x6247),
  (0x9129, 0x6248),
  (0x912E, 0x6249_624A),
  (0x9131, 0x624B),
  (0x9134, 0x624C),
  (0x9136, 0x624D_624E),
  (0x9139, 0x624F_6250),
  (0x913C, 0x6251_6252),
  (0x9143, 0x6253),
  (0x9147, 0x6254_6255),
  (0x914F, 0x6256),
  (0x9153, 0x6257),
  (0x9157, 0x6258),
  (0x9159, 0x6259_625A_625B),
  (0x9161, 0x625C),
  (0x9164, 0x625D),
  (0x9167, 0x625E),
  (0x916D, 0x625F),
  (0x9174, 0x6260),
  (0x9179, 0x6261_6262_6263),
  (0x9181, 0x6264),
  (0x9183, 0x6265),
  (0x9185, 0x6266_6267),
  (0x918A, 0x6268),
  (0x918E, 0x6269),
  (0x9191, 0x626A),
  (0x9193, 0x626B_626C_626D),
  (0x9198, 0x626E),
  (0x919E, 0x626F),
  (0x91A1, 0x6270),
  (0x91A6, 0x6271),
  (0x91A8, 0x6272),
  (0x91AC, 0x6273_6274_6275),
  (0x91B0, 0x6276_6277_6278_6279),
  (0x91B6, 0x627A),
  (0x91BB, 0x627B_627C_627D),
  (0x91BF, 0x627E),
  (0x91C2, 0x6321_6322),
  (0x91C5, 0x6323),
  (0x91D3, 0x6324_6325),
  (0x91D7, 0x6326),
  (0x91D9, 0x6327_6328),
  (0x91DE, 0x6329),
  (0x91E4, 0x632A_632B),
  (0x91E9, 0x632C_632D),
  (0x91EC, 0x632E_632F_6330_6331_6332_6333),
  (0x91F7, 0x6334),
  (0x91F9, 0x6335),
  (0x91FB, 0x6336),
  (0x91FD, 0x6337),
  (0x9200, 0x6338_6339),
  (0x9204, 0x633A_633B_633C_633D),
  (0x9209, 0x633E_633F),
  (0x920C, 0x6340),
  (0x9210, 0x6341),
  (0x9212, 0x6342_6343),
  (0x9216, 0x6344),
  (0x9218, 0x6345),
  (0x921C, 0x6346_6347),
  (0x9223, 0x6348_6349_634A_634B),
  (0x9228, 0x634C),
  (0x922E, 0x634D_634E_634F),
  (0x9233, 0x6350),
  (0x9235, 0x6351_6352),
  (0x9238, 0x6353_6354_6355),
  (0x923C, 0x6356),
  (0x923E, 0x6357),
  (0x9240, 0x6358),
  (0x9242, 0x6359_635A),
  (0x9246, 0x635B_635C),
  (0x924A, 0x635D),
  (0x924D, 0x635E_635F_6360),
  (0x9251, 0x6361),
  (0x9258, 0x6362_6363),
  (0x925C, 0x6364_6365),
  (0x9260, 0x6366_6367),
  (0x9265, 0x6368),
  (0x9267, 0x6369_636A_636B),
  (0x926E, 0x636C_636D_636E),
  (0x9275, 0x636F_6370_6371_6372_6373),
  (0x927B, 0x6374_6375_6376),
  (0x927F, 0x6377),
  (0x9288, 0x6378_6379_637A),
  (0x928D, 0x637B_637C),
  (0x9292, 0x637D),
  (0x9297, 0x637E),
  (0x9299, 0x6421),
  (0x929F, 0x6422_6423),
  (0x92A4, 0x6424_6425),
  (0x92A7, 0x6426_6427),
  (0x92AB, 0x6428),
  (0x92AF, 0x6429),
  (0x92B2, 0x642A),
  (0x92B6, 0x642B),
  (0x92B8, 0x642C),
  (0x92BA, 0x642D_642E_642F_6430),
  (0x92BF, 0x6431_6432_6433_6434_6435),
  (0x92C5, 0x6436_6437_6438_6439),
  (0x92CB, 0x643A_643B_643C_643D),
  (0x92D0, 0x643E),
  (0x92D3, 0x643F),
  (0x92D5, 0x6440),
  (0x92D7, 0x6441_6442_6443),
  (0x92DC, 0x6444_6445),
  (0x92DF, 0x6446_6447_6448),
  (0x92E3, 0x6449),
  (0x92E5, 0x644A),
  (0x92E7, 0x644B_644C),
  (0x92EC, 0x644D),
  (0x92EE, 0x644E),
  (0x92F0, 0x644F),
  (0x92F9, 0x6450),
  (0x92FB, 0x6451),
  (0x92FF, 0x6452_6453),
  (0x9302, 0x6454),
  (0x9308, 0x6455),
  (0x930D, 0x6456),
  (0x9311, 0x6457),
  (0x9314, 0x6458_6459),
  (0x931C, 0x645A_645B_645C_645D),
  (0x9321, 0x645E),
  (0x9324, 0x645F_6460),
  (0x9327, 0x6461),
  (0x9329, 0x6462_6463),
  (0x9333, 0x6464_6465),
  (0x9336, 0x6466_6467),
  (0x9347, 0x6468_6469_646A),
  (0x9350, 0x646B_646C_646D),
  (0x9355, 0x646E),
  (0x9357, 0x646F_6470),
  (0x935A, 0x6471),
  (0x935E, 0x6472),
  (0x9364, 0x6473_6474),
  (0x9367, 0x6475),
  (0x9369, 0x6476_6477),
  (0x936D, 0x6478),
  (0x936F, 0x6479_647A_647B),
  (0x9373, 0x647C_647D),
  (0x9376, 0x647E),
  (0x937A, 0x6521),
  (0x937D, 0x6522),
  (0x937F, 0x6523_6524_6525_6526),
  (0x9388, 0x6527),
  (0x938A, 0x6528_6529),
  (0x938D, 0x652A),
  (0x938F, 0x652B),
  (0x9392, 0x652C),
  (0x9395, 0x652D),
  (0x9398, 0x652E),
  (0x939B, 0x652F),
  (0x939E, 0x6530),
  (0x93A1, 0x6531),
  (0x93A3, 0x6532_6533),
  (0x93A6, 0x6534),
  (0x93A8, 0x6535_653B),
  (0x93AB, 0x6536),
  (0x93B4, 0x6537_6538_6539),
  (0x93BA, 0x653A),
  (0x93C1, 0x653C),
  (0x93C4, 0x653D_653E_653F_6540),
  (0x93C9, 0x6541_6542_6543_6544_6545),
  (0x93D3, 0x6546),
  (0x93D9, 0x6547),
  (0x93DC, 0x6548),
  (0x93DE, 0x6549_654A),
  (0x93E2, 0x654B),
  (0x93E6, 0x654C_654D),
  (0x93F7, 0x654F_6550_654E_6551_6552),
  (0x93FD, 0x6553),
  (0x9401, 0x6554_6555),
  (0x9404, 0x6556),
  (0x9408, 0x6557_6558),
  (0x940D, 0x6559_655A_655B),
  (0x9415, 0x655C_655D_655E),
  (0x941F, 0x655F),
  (0x942E, 0x6560_6561),
  (0x9431, 0x6562_6563_6564_6565),
  (0x943B, 0x6566),
  (0x943D, 0x6568),
  (0x943F, 0x6567),
  (0x9443, 0x6569),
  (0x9445, 0x656A),
  (0x9448, 0x656B),
  (0x944A, 0x656C),
  (0x944C, 0x656D),
  (0x9455, 0x656E),
  (0x9459, 0x656F),
  (0x945C, 0x6570),
  (0x945F, 0x6571),
  (0x9461, 0x6572),
  (0x9463, 0x6573),
  (0x9468, 0x6574),
  (0x946B, 0x6575),
  (0x946D, 0x6576_6577_6578),
  (0x9471, 0x6579_657A),
  (0x9483, 0x657C_657B),
  (0x9578, 0x657D_657E),
  (0x957E, 0x6621),
  (0x9584, 0x6622),
  (0x9588, 0x6623),
  (0x958C, 0x6624_6625_6626),
  (0x959D, 0x6627_6628_6629),
  (0x95A1, 0x662A),
  (0x95A6, 0x662B),
  (0x95A9, 0x662C),
  (0x95AB, 0x662D_662E),
  (0x95B4, 0x662F),
  (0x95B6, 0x6630),
  (0x95BA, 0x6631),
  (0x95BD, 0x6632),
  (0x95BF, 0x6633),
  (0x95C6, 0x6634),
  (0x95C8, 0x6635_6636),
  (0x95CB, 0x6637),
  (0x95D0, 0x6638_6639_663A_663B),
  (0x95D9, 0x663C_663D),
  (0x95DD, 0x663E_663F_6640_6641),
  (0x95E4, 0x6642),
  (0x95E6, 0x6643),
  (0x961D, 0x6644_6645),
  (0x9622, 0x6646),
  (0x9624, 0x6647_6648_6649),
  (0x962C, 0x664A),
  (0x9631, 0x664B),
  (0x9633, 0x664C),
  (0x9637, 0x664D_664E_664F_6650),
  (0x963C, 0x6651_6652),
  (0x9641, 0x6653),
  (0x9652, 0x6654),
  (0x9654, 0x6655),
  (0x9656, 0x6656_6657_6658),
  (0x9661, 0x6659),
  (0x966E, 0x665A),
  (0x9674, 0x665B),
  (0x967B, 0x665C_665D),
  (0x967E, 0x665E_665F),
  (0x9681, 0x6660_6661_6662_6663),
  (0x9689, 0x6664),
  (0x9691, 0x6665),
  (0x9696, 0x6666),
  (0x969A, 0x6667),
  (0x969D, 0x6668),
  (0x969F, 0x6669),
  (0x96A4, 0x666A_666B_666C),
  (0x96A9, 0x666D),
  (0x96AE, 0x666E_666F),
  (0x96B3, 0x6670),
  (0x96BA, 0x6671),
  (0x96CA, 0x6672),
  (0x96D2, 0x6673),
  (0x96D8, 0x6675),
  (0x96DA, 0x6676),
  (0x96DD, 0x6677_6678_6679),
  (0x96E9, 0x667A),
  (0x96EF, 0x667B),
  (0x96F1, 0x667C),
  (0x96FA, 0x667D),
  (0x9702, 0x667E_6721),
  (0x9705, 0x6722),
  (0x9709, 0x6723),
  (0x971A, 0x6724_6725),
  (0x971D, 0x6726),
  (0x9721, 0x6727_6728_6729),
  (0x9728, 0x672A),
  (0x9731, 0x672B),
  (0x9733, 0x672C),
  (0x9741, 0x672D),
  (0x9743, 0x672E),
  (0x974A, 0x672F),
  (0x974E, 0x6730_6731),
  (0x9755, 0x6732),
  (0x9757, 0x6733_6734),
  (0x975A, 0x6735_6736),
  (0x9763, 0x6737),
  (0x9767, 0x6738),
  (0x976A, 0x6739),
  (0x976E, 0x673A),
  (0x9773, 0x673B),
  (0x9776, 0x673C_673D_673E),
  (0x977B, 0x673F),
  (0x977D, 0x6740),
  (0x977F, 0x6741_6742),
  (0x9789, 0x6743),
  (0x9795, 0x6744_6745_6746),
  (0x9799, 0x6747_6748),
  (0x979E, 0x6749_674A),
  (0x97A2, 0x674B),
  (0x97AC, 0x674C),
  (0x97AE, 0x674D),
  (0x97B1, 0x674E_674F),
  (0x97B5, 0x6750_6751),
  (0x97B8, 0x6752_6753_6754),
  (0x97BC, 0x6755),
  (0x97BE, 0x6756_6757),
  (0x97C1, 0x6758),
  (0x97C4, 0x6759_675A),
  (0x97C7, 0x675B),
  (0x97C9, 0x675C_675D),
  (0x97CC, 0x675E_675F_6760),
  (0x97D0, 0x6761_6762),
  (0x97D4, 0x6763),
  (0x97D7, 0x6764_6765_6766),
  (0x97DB, 0x676A),
  (0x97DD, 0x6767_6768),
  (0x97E0, 0x6769_676B),
  (0x97E4, 0x676C),
  (0x97EF, 0x676D),
  (0x97F1, 0x676E),
  (0x97F4, 0x676F),
  (0x97F7, 0x6770_6771),
  (0x97FA, 0x6772),
  (0x9807, 0x6773),
  (0x980A, 0x6774),
  (0x980D, 0x6776_6777),
  (0x9814, 0x6778),
  (0x9816, 0x6779),
  (0x9819, 0x6775),
  (0x981C, 0x677A),
  (0x981E, 0x677B),
  (0x9820, 0x677C),
  (0x9823, 0x677D),
  (0x9825, 0x6828_677E),
  (0x982B, 0x6821),
  (0x982E, 0x6822_6823_6824),
  (0x9832, 0x6825_6826),
  (0x9835, 0x6827),
  (0x983E, 0x6829),
  (0x9844, 0x682A),
  (0x9847, 0x682B),
  (0x984A, 0x682C),
  (0x9851, 0x682D_682E_682F),
  (0x9856, 0x6830_6831),
  (0x9859, 0x6832_6833),
  (0x9862, 0x6834_6835),
  (0x9865, 0x6836_6837),
  (0x986A, 0x6838),
  (0x986C, 0x6839),
  (0x98AB, 0x683A),
  (0x98AD, 0x683B_683C),
  (0x98B0, 0x683D),
  (0x98B4, 0x683E),
  (0x98B7, 0x683F_6840),
  (0x98BA, 0x6841_6842),
  (0x98BF, 0x6843),
  (0x98C2, 0x6844),
  (0x98C5, 0x6845),
  (0x98C8, 0x6846),
  (0x98CC, 0x6847),
  (0x98E1, 0x6848),
  (0x98E3, 0x6849),
  (0x98E5, 0x684A_684B_684C),
  (0x98EA, 0x684D),
  (0x98F3, 0x684E),
  (0x98F6, 0x684F),
  (0x9902, 0x6850),
  (0x9907, 0x6851_6852),
  (0x9911, 0x6853),
  (0x9915, 0x6854_6855_6856),
  (0x991A, 0x6857_6858_6859),
  (0x991F, 0x685A),
  (0x9922, 0x685B),
  (0x9926, 0x685C_685D),
  (0x992B, 0x685E),
  (0x9931, 0x685F_6860_6861_6862_6863),
  (0x9939, 0x6864_6865_6866_6867),
  (0x9940, 0x6868_6869),
  (0x9946, 0x686A_686B_686C),
  (0x994D, 0x686D_686E),
  (0x9954, 0x686F),
  (0x9958, 0x6870_6871),
  (0x995B, 0x6872_6873),
  (0x995E, 0x6874_6875_6876),
  (0x999B, 0x6877),
  (0x999D, 0x6878),
  (0x999F, 0x6879),
  (0x99A6, 0x687A),
  (0x99B0, 0x687B_687C_687D),
  (0x99B5, 0x687E),
  (0x99B9, 0x6921_6922),
  (0x99BD, 0x6923),
  (0x99BF, 0x6924),
  (0x99C3, 0x6925),
  (0x99C9, 0x6926),
  (0x99D3, 0x6927_6928),
  (0x99D9, 0x6929_692A),
  (0x99DC, 0x692B),
  (0x99DE, 0x692C),
  (0x99E7, 0x692D),
  (0x99EA, 0x692E_692F_6930),
  (0x99F0, 0x6931),
  (0x99F4, 0x6932_6933),
  (0x99F9, 0x6934),
  (0x99FD, 0x6935_6936),
  (0x9A02, 0x6937_6938_6939),
  (0x9A0B, 0x693A_693B),
  (0x9A10, 0x693C_693D),
  (0x9A16, 0x693E),
  (0x9A1E, 0x693F),
  (0x9A20, 0x6940),
  (0x9A22, 0x6941_6942_6943),
  (0x9A27, 0x6944),
  (0x9A2D, 0x6945_6946),
  (0x9A33, 0x6947),
  (0x9A35, 0x6948_6949),
  (0x9A38, 0x694A),
  (0x9A41, 0x694C),
  (0x9A44, 0x694D),
  (0x9A47, 0x694B),
  (0x9A4A, 0x694E_694F_6950),
  (0x9A4E, 0x6951),
  (0x9A51, 0x6952),
  (0x9A54, 0x6953),
  (0x9A56, 0x6954),
  (0x9A5D, 0x6955),
  (0x9AAA, 0x6956),
  (0x9AAC, 0x6957),
  (0x9AAE, 0x6958_6959),
  (0x9AB2, 0x695A),
  (0x9AB4, 0x695B_695C_695D),
  (0x9AB9, 0x695E),
  (0x9ABB, 0x695F),
  (0x9ABE, 0x6960_6961),
  (0x9AC1, 0x6962),
  (0x9AC3, 0x6963),
  (0x9AC6, 0x6964),
  (0x9AC8, 0x6965),
  (0x9ACE, 0x6966),
  (0x9AD0, 0x6967),
  (0x9AD2, 0x6968),
  (0x9AD5, 0x6969_696A_696B),
  (0x9ADB, 0x696C_696D),
  (0x9AE0, 0x696E),
  (0x9AE4, 0x696F_6970),
  (0x9AE7, 0x6971),
  (0x9AE9, 0x6972),
  (0x9AEC, 0x6973),
  (0x9AF2, 0x6974_6975),
  (0x9AF5, 0x6976),
  (0x9AF9, 0x6977_6978),
  (0x9AFD, 0x6979),
  (0x9AFF, 0x697A_697B_697C_697D_697E_6A21_6A22),
  (0x9B08, 0x6A23_6A24),
  (0x9B0B, 0x6A25_6A26_6A27_6A28),
  (0x9B10, 0x6A29),
  (0x9B12, 0x6A2A),
  (0x9B16, 0x6A2B),
  (0x9B19, 0x6A2C),
  (0x9B1B, 0x6A2D_6A2E),
  (0x9B20, 0x6A2F),
  (0x9B26, 0x6A30),
  (0x9B2B, 0x6A31),
  (0x9B2D, 0x6A32),
  (0x9B33, 0x6A33_6A34_6A35),
  (0x9B37, 0x6A36),
  (0x9B39, 0x6A37_6A38),
  (0x9B3D, 0x6A39),
  (0x9B48, 0x6A3A),
  (0x9B4B, 0x6A3B_6A3C),
  (0x9B55, 0x6A3D_6A3E_6A3F),
  (0x9B5B, 0x6A40),
  (0x9B5E, 0x6A41),
  (0x9B61, 0x6A42),
  (0x9B63, 0x6A43),
  (0x9B65, 0x6A44_6A45),
  (0x9B68, 0x6A46),
  (0x9B6A, 0x6A47_6A48_6A49_6A4A_6A4B),
  (0x9B73, 0x6A4C),
  (0x9B75, 0x6A4D),
  (0x9B77, 0x6A4E_6A4F_6A50),
  (0x9B7F, 0x6A51_6A52),
  (0x9B84, 0x6A53_6A54_6A55_6A56),
  (0x9B89, 0x6A57_6A58_6A59),
  (0x9B8D, 0x6A5A),
  (0x9B8F, 0x6A5B_6A5C),
  (0x9B94, 0x6A5D),
  (0x9B9A, 0x6A5E),
  (0x9B9D, 0x6A5F_6A60),
  (0x9BA6, 0x6A61_6A62),
  (0x9BA9, 0x6A63),
  (0x9BAC, 0x6A64),
  (0x9BB0, 0x6A65_6A66_6A67),
  (0x9BB7, 0x6A68_6A69),
  (0x9BBB, 0x6A6A_6A6B),
  (0x9BBE, 0x6A6C_6A6D),
  (0x9BC1, 0x6A6E),
  (0x9BC7, 0x6A6F_6A70),
  (0x9BCE, 0x6A71),
  (0x9BD0, 0x6A72),
  (0x9BD7, 0x6A73_6A74),
  (0x9BDD, 0x6A75),
  (0x9BDF, 0x6A76),
  (0x9BE5, 0x6A77),
  (0x9BE7, 0x6A78),
  (0x9BEA, 0x6A79_6A7A),
  (0x9BEF, 0x6A7B),
  (0x9BF3, 0x6A7C),
  (0x9BF7, 0x6A7D_6A7E_6B21_6B22),
  (0x9BFD, 0x6B23),
  (0x9BFF, 0x6B24_6B25),
  (0x9C02, 0x6B26),
  (0x9C0B, 0x6B27),
  (0x9C0F, 0x6B28),
  (0x9C11, 0x6B29),
  (0x9C16, 0x6B2A),
  (0x9C18, 0x6B2B_6B2C_6B2D),
  (0x9C1C, 0x6B2E),
  (0x9C1E, 0x6B2F),
  (0x9C22, 0x6B30_6B31),
  (0x9C26, 0x6B32_6B33_6B34_6B35_6B36),
  (0x9C31, 0x6B37),
  (0x9C35, 0x6B38_6B39_6B3A),
  (0x9C3D, 0x6B3B),
  (0x9C41, 0x6B3C),
  (0x9C43, 0x6B3D_6B3E_6B3F),
  (0x9C49, 0x6B40_6B41),
  (0x9C4E, 0x6B42_6B43_6B44),
  (0x9C53, 0x6B45_6B46),
  (0x9C56, 0x6B47),
  (0x9C58, 0x6B48),
  (0x9C5B, 0x6B49_6B50_6B4A_6B4B_6B4C),
  (0x9C63, 0x6B4D),
  (0x9C68, 0x6B52_6B4E_6B4F_6B51),
  (0x9C6E, 0x6B53),
  (0x9C70, 0x6B54),
  (0x9C72, 0x6B55),
  (0x9C75, 0x6B56),
  (0x9C77, 0x6B57),
  (0x9C7B, 0x6B58),
  (0x9CE6, 0x6B59),
  (0x9CF2, 0x6B5A),
  (0x9CF7, 0x6B5B),
  (0x9CF9, 0x6B5C),
  (0x9D02, 0x6B5E),
  (0x9D0B, 0x6B5D),
  (0x9D11, 0x6B5F),
  (0x9D17, 0x6B60_6B61),
  (0x9D1C, 0x6B62_6B63_6B64),
  (0x9D2F, 0x6B65_6B66),
  (0x9D32, 0x6B67_6B68_6B69),
  (0x9D3A, 0x6B6A),
  (0x9D3C, 0x6B6B_6B6D),
  (0x9D42, 0x6B6E_6B6F),
  (0x9D45, 0x6B6C),
  (0x9D47, 0x6B70),
  (0x9D4A, 0x6B71),
  (0x9D53, 0x6B72_6B73),
  (0x9D5F, 0x6B74),
  (0x9D62, 0x6B76_6B75),
  (0x9D65, 0x6B77),
  (0x9D69, 0x6B78_6B79_6B7A),
  (0x9D70, 0x6B7B),
  (0x9D76, 0x6B7C_6B7D),
  (0x9D7B, 0x6B7E_6C21),
  (0x9D7E, 0x6C22),
  (0x9D83, 0x6C23_6C24),
  (0x9D86, 0x6C25),
  (0x9D8A, 0x6C26),
  (0x9D8D, 0x6C27_6C28),
  (0x9D92, 0x6C29_6C2A),
  (0x9D95, 0x6C2B_6C2C_6C2D_6C2E),
  (0x9DA1, 0x6C2F),
  (0x9DAA, 0x6C30),
  (0x9DAC, 0x6C31),
  (0x9DAE, 0x6C32),
  (0x9DB1, 0x6C33),
  (0x9DB5, 0x6C34),
  (0x9DB9, 0x6C35),
  (0x9DBC, 0x6C36),
  (0x9DBF, 0x6C37),
  (0x9DC3, 0x6C38),
  (0x9DC7, 0x6C39),
  (0x9DC9, 0x6C3A_6C3B),
  (0x9DD4, 0x6C3C_6C3D_6C3E_6C3F),
  (0x9DDA, 0x6C40),
  (0x9DDE, 0x6C41_6C42_6C43),
  (0x9DE5, 0x6C44),
  (0x9DE7, 0x6C45),
  (0x9DE9, 0x6C46),
  (0x9DEB, 0x6C47),
  (0x9DEE, 0x6C48),
  (0x9DF0, 0x6C49),
  (0x9DF3, 0x6C4A_6C4B),
  (0x9DFE, 0x6C4C),
  (0x9E02, 0x6C4E),
  (0x9E07, 0x6C4F),
  (0x9E0A, 0x6C4D),
  (0x9E0E, 0x6C50),
  (0x9E10, 0x6C51_6C52_6C53),
  (0x9E15, 0x6C54_6C55),
  (0x9E19, 0x6C56),
  (0x9E1C, 0x6C57_6C58),
  (0x9E7A, 0x6C59_6C5A_6C5B),
  (0x9E80, 0x6C5C),
  (0x9E82, 0x6C5D_6C5E_6C5F_6C60),
  (0x9E87, 0x6C61),
  (0x9E8E, 0x6C62_6C63),
  (0x9E96, 0x6C64),
  (0x9E98, 0x6C65),
  (0x9E9B, 0x6C66),
  (0x9E9E, 0x6C67),
  (0x9EA4, 0x6C68),
  (0x9EA8, 0x6C69),
  (0x9EAC, 0x6C6A),
  (0x9EAE, 0x6C6B_6C6C_6C6D),
  (0x9EB3, 0x6C6E_6C6F_6C70),
  (0x9EC6, 0x6C71),
  (0x9EC8, 0x6C72),
  (0x9ECB, 0x6C73),
  (0x9ED5, 0x6C74),
  (0x9EDF, 0x6C75),
  (0x9EE4, 0x6C76),
  (0x9EE7, 0x6C77),
  (0x9EEC, 0x6C78_6C79_6C7A),
  (0x9EF0, 0x6C7B_6C7C_6C7D),
  (0x9EF5, 0x6C7E),
  (0x9EF8, 0x6D21),
  (0x9EFF, 0x6D22),
  (0x9F02, 0x6D23_6D24),
  (0x9F09, 0x6D25),
  (0x9F0F, 0x6D26_6D27_6D28_6D29),
  (0x9F14, 0x6D2A),
  (0x9F16, 0x6D2B_6D2C),
  (0x9F19, 0x6D2D_6D2E_6D2F),
  (0x9F1F, 0x6D30),
  (0x9F22, 0x6D31),
  (0x9F26, 0x6D32),
  (0x9F2A, 0x6D33_6D34),
  (0x9F2F, 0x6D35),
  (0x9F31, 0x6D36_6D37),
  (0x9F34, 0x6D38),
  (0x9F37, 0x6D39),
  (0x9F39, 0x6D3A_6D3B),
  (0x9F3C, 0x6D3C_6D3D),
  (0x9F3F, 0x6D3E),
  (0x9F41, 0x6D3F),
  (0x9F43, 0x6D40_6D41_6D42_6D43_6D44),
  (0x9F53, 0x6D45),
  (0x9F55, 0x6D46_6D47_6D48_6D49),
  (0x9F5A, 0x6D4A),
  (0x9F5D, 0x6D4B_6D4C),
  (0x9F68, 0x6D4D_6D4E),
  (0x9F6D, 0x6D4F_6D50_6D51_6D52_6D53),
  (0x9F73, 0x6D54),
  (0x9F75, 0x6D55),
  (0x9F7A, 0x6D56),
  (0x9F7D, 0x6D57),
  (0x9F8F, 0x6D58_6D59_6D5A_6D5B),
  (0x9F94, 0x6D5C),
  (0x9F96, 0x6D5D_6D5E),
  (0x9F9E, 0x6D5F),
  (0x9FA1, 0x6D60_6D61_6D62),
  (0x9FA5, 0x6D63)]

/-- /repo/modules/from/_JIS0212.txt and /repo/modules/to/_JIS0212.txt. -/
def jis0212 : Charset where
  reads := jis0212Reads
  writes := jis0212Writes

end Verif.Charsets
