import Verif.Spec.Charset
/-
Generated by tools/charsets.py from rule files of /repo/modules/from and /repo/modules/to.
-/
namespace Verif.Charsets
open Verif.Spec

set_option maxRecDepth 100000

/-- The rules of /repo/modules/from/_SHIFT-JIS.txt: code, character.  No two lines have the same code, so their order does not matter; here they
are sorted. -/
def shiftJisReads : Chart := Chart.wide [
  (0xA1, 0xFF61_FF62_FF63_FF64_FF65_FF66_FF67_FF68_FF69_FF6A_FF6B_FF6C),
  (0xAD, 0xFF6D_FF6E_FF6F_FF70_FF71_FF72_FF73_FF74_FF75_FF76_FF77_FF78),
  (0xB9, 0xFF79_FF7A_FF7B_FF7C_FF7D_FF7E_FF7F_FF80_FF81_FF82_FF83_FF84),
  (0xC5, 0xFF85_FF86_FF87_FF88_FF89_FF8A_FF8B_FF8C_FF8D_FF8E_FF8F_FF90),
  (0xD1, 0xFF91_FF92_FF93_FF94_FF95_FF96_FF97_FF98_FF99_FF9A_FF9B_FF9C),
  (0xDD, 0xFF9D_FF9E_FF9F),
  (0x8140, 0x3000_3001_3002_FF0C_FF0E_30FB_FF1A_FF1B_FF1F_FF01_309B_309C),
  (0x814C, 0x00B4_FF40_00A8_FF3E_FFE3_FF3F_30FD_30FE_309D_309E_3003_4EDD),
  (0x8158, 0x3005_3006_3007_30FC_2015_2010_FF0F_005C_301C_2016_FF5C_2026),
  (0x8164, 0x2025_2018_2019_201C_201D_FF08_FF09_3014_3015_FF3B_FF3D_FF5B),
  (0x8170, 0xFF5D_3008_3009_300A_300B_300C_300D_300E_300F_3010_3011_FF0B),
  (0x817C, 0x2212_00B1_00D7),
  (0x8180, 0x00F7_FF1D_2260_FF1C_FF1E_2266_2267_221E_2234_2642_2640_00B0),
  (0x818C, 0x2032_2033_2103_FFE5_FF04_00A2_00A3_FF05_FF03_FF06_FF0A_FF20),
  (0x8198, 0x00A7_2606_2605_25CB_25CF_25CE_25C7_25C6_25A1_25A0_25B3_25B2),
  (0x81A4, 0x25BD_25BC_203B_3012_2192_2190_2191_2193_3013),
  (0x81B8, 0x2208_220B_2286_2287_2282_2283_222A_2229),
  (0x81C8, 0x2227_2228_00AC_21D2_21D4_2200_2203),
  (0x81DA, 0x2220_22A5_2312_2202_2207_2261_2252_226A_226B_221A_223D_221D),
  (0x81E6, 0x2235_222B_222C),
  (0x81F0, 0x212B_2030_266F_266D_266A_2020_2021_00B6),
  (0x81FC, 0x25EF),
  (0x824F, 0xFF10_FF11_FF12_FF13_FF14_FF15_FF16_FF17_FF18_FF19),
  (0x8260, 0xFF21_FF22_FF23_FF24_FF25_FF26_FF27_FF28_FF29_FF2A_FF2B_FF2C),
  (0x826C, 0xFF2D_FF2E_FF2F_FF30_FF31_FF32_FF33_FF34_FF35_FF36_FF37_FF38),
  (0x8278, 0xFF39_FF3A),
  (0x8281, 0xFF41_FF42_FF43_FF44_FF45_FF46_FF47_FF48_FF49_FF4A_FF4B_FF4C),
  (0x828D, 0xFF4D_FF4E_FF4F_FF50_FF51_FF52_FF53_FF54_FF55_FF56_FF57_FF58),
  (0x8299, 0xFF59_FF5A),
  (0x829F, 0x3041_3042_3043_3044_3045_3046_3047_3048_3049_304A_304B_304C),
  (0x82AB, 0x304D_304E_304F_3050_3051_3052_3053_3054_3055_3056_3057_3058),
  (0x82B7, 0x3059_305A_305B_305C_305D_305E_305F_3060_3061_3062_3063_3064),
  (0x82C3, 0x3065_3066_3067_3068_3069_306A_306B_306C_306D_306E_306F_3070),
  (0x82CF, 0x3071_3072_3073_3074_3075_3076_3077_3078_3079_307A_307B_307C),
  (0x82DB, 0x307D_307E_307F_3080_3081_3082_3083_3084_3085_3086_3087_3088),
  (0x82E7, 0x3089_308A_308B_308C_308D_308E_308F_3090_3091_3092_3093),
  (0x8340, 0x30A1_30A2_30A3_30A4_30A5_30A6_30A7_30A8_30A9_30AA_30AB_30AC),
  (0x834C, 0x30AD_30AE_30AF_30B0_30B1_30B2_30B3_30B4_30B5_30B6_30B7_30B8),
  (0x8358, 0x30B9_30BA_30BB_30BC_30BD_30BE_30BF_30C0_30C1_30C2_30C3_30C4),
  (0x8364, 0x30C5_30C6_30C7_30C8_30C9_30CA_30CB_30CC_30CD_30CE_30CF_30D0),
  (0x8370, 0x30D1_30D2_30D3_30D4_30D5_30D6_30D7_30D8_30D9_30DA_30DB_30DC),
  (0x837C, 0x30DD_30DE_30DF),
  (0x8380, 0x30E0_30E1_30E2_30E3_30E4_30E5_30E6_30E7_30E8_30E9_30EA_30EB),
  (0x838C, 0x30EC_30ED_30EE_30EF_30F0_30F1_30F2_30F3_30F4_30F5_30F6),
  (0x839F, 0x0391_0392_0393_0394_0395_0396_0397_0398_0399_039A_039B_039C),
  (0x83AB, 0x039D_039E_039F_03A0_03A1_03A3_03A4_03A5_03A6_03A7_03A8_03A9),
  (0x83BF, 0x03B1_03B2_03B3_03B4_03B5_03B6_03B7_03B8_03B9_03BA_03BB_03BC),
  (0x83CB, 0x03BD_03BE_03BF_03C0_03C1_03C3_03C4_03C5_03C6_03C7_03C8_03C9),
  (0x8440, 0x0410_0411_0412_0413_0414_0415_0401_0416_0417_0418_0419_041A),
  (0x844C, 0x041B_041C_041D_041E_041F_0420_0421_0422_0423_0424_0425_0426),
  (0x8458, 0x0427_0428_0429_042A_042B_042C_042D_042E_042F),
  (0x8470, 0x0430_0431_0432_0433_0434_0435_0451_0436_0437_0438_0439_043A),
  (0x847C, 0x043B_043C_043D),
  (0x8480, 0x043E_043F_0440_0441_0442_0443_0444_0445_0446_0447_0448_0449),
  (0x848C, 0x044A_044B_044C_044D_044E_044F),
  (0x849F, 0x2500_2502_250C_2510_2518_2514_251C_252C_2524_2534_253C_2501),
  (0x84AB, 0x2503_250F_2513_251B_2517_2523_2533_252B_253B_254B_2520_252F),
  (0x84B7, 0x2528_2537_253F_251D_2530_2525_2538_2542),
  (0x889F, 0x4E9C_5516_5A03_963F_54C0_611B_6328_59F6_9022_8475_831C_7A50),
  (0x88AB, 0x60AA_63E1_6E25_65ED_8466_82A6_9BF5_6893_5727_65A1_6271_5B9B),
  (0x88B7, 0x59D0_867B_98F4_7D62_7DBE_9B8E_6216_7C9F_88B7_5B89_5EB5_6309),
  (0x88C3, 0x6697_6848_95C7_978D_674F_4EE5_4F0A_4F4D_4F9D_5049_56F2_5937),
  (0x88CF, 0x59D4_5A01_5C09_60DF_610F_6170_6613_6905_70BA_754F_7570_79FB),
  (0x88DB, 0x7DAD_7DEF_80C3_840E_8863_8B02_9055_907A_533B_4E95_4EA5_57DF),
  (0x88E7, 0x80B2_90C1_78EF_4E00_58F1_6EA2_9038_7A32_8328_828B_9C2F_5141),
  (0x88F3, 0x5370_54BD_54E1_56E0_59FB_5F15_98F2_6DEB_80E4_852D),
  (0x8940, 0x9662_9670_96A0_97FB_540B_53F3_5B87_70CF_7FBD_8FC2_96E8_536F),
  (0x894C, 0x9D5C_7ABA_4E11_7893_81FC_6E26_5618_5504_6B1D_851A_9C3B_59E5),
  (0x8958, 0x53A9_6D66_74DC_958F_5642_4E91_904B_96F2_834F_990C_53E1_55B6),
  (0x8964, 0x5B30_5F71_6620_66F3_6804_6C38_6CF3_6D29_745B_76C8_7A4E_9834),
  (0x8970, 0x82F1_885B_8A60_92ED_6DB2_75AB_76CA_99C5_60A6_8B01_8D8A_95B2),
  (0x897C, 0x698E_53AD_5186),
  (0x8980, 0x5712_5830_5944_5BB4_5EF6_6028_63A9_63F4_6CBF_6F14_708E_7114),
  (0x898C, 0x7159_71D5_733F_7E01_8276_82D1_8597_9060_925B_9D1B_5869_65BC),
  (0x8998, 0x6C5A_7525_51F9_592E_5965_5F80_5FDC_62BC_65FA_6A2A_6B27_6BB4),
  (0x89A4, 0x738B_7FC1_8956_9D2C_9D0E_9EC4_5CA1_6C96_837B_5104_5C4B_61B6),
  (0x89B0, 0x81C6_6876_7261_4E59_4FFA_5378_6069_6E29_7A4F_97F3_4E0B_5316),
  (0x89BC, 0x4EEE_4F55_4F3D_4FA1_4F73_52A0_53EF_5609_590F_5AC1_5BB6_5BE1),
  (0x89C8, 0x79D1_6687_679C_67B6_6B4C_6CB3_706B_73C2_798D_79BE_7A3C_7B87),
  (0x89D4, 0x82B1_82DB_8304_8377_83EF_83D3_8766_8AB2_5629_8CA8_8FE6_904E),
  (0x89E0, 0x971E_868A_4FC4_5CE8_6211_7259_753B_81E5_82BD_86FE_8CC0_96C5),
  (0x89EC, 0x9913_99D5_4ECB_4F1A_89E3_56DE_584A_58CA_5EFB_5FEB_602A_6094),
  (0x89F8, 0x6062_61D0_6212_62D0_6539),
  (0x8A40, 0x9B41_6666_68B0_6D77_7070_754C_7686_7D75_82A5_87F9_958B_968E),
  (0x8A4C, 0x8C9D_51F1_52BE_5916_54B3_5BB3_5D16_6168_6982_6DAF_788D_84CB),
  (0x8A58, 0x8857_8A72_93A7_9AB8_6D6C_99A8_86D9_57A3_67FF_86CE_920E_5283),
  (0x8A64, 0x5687_5404_5ED3_62E1_64B9_683C_6838_6BBB_7372_78BA_7A6B_899A),
  (0x8A70, 0x89D2_8D6B_8F03_90ED_95A3_9694_9769_5B66_5CB3_697D_984D_984E),
  (0x8A7C, 0x639B_7B20_6A2B),
  (0x8A80, 0x6A7F_68B6_9C0D_6F5F_5272_559D_6070_62EC_6D3B_6E07_6ED1_845B),
  (0x8A8C, 0x8910_8F44_4E14_9C39_53F6_691B_6A3A_9784_682A_515C_7AC3_84B2),
  (0x8A98, 0x91DC_938C_565B_9D28_6822_8305_8431_7CA5_5208_82C5_74E6_4E7E),
  (0x8AA4, 0x4F83_51A0_5BD2_520A_52D8_52E7_5DFB_559A_582A_59E6_5B8C_5B98),
  (0x8AB0, 0x5BDB_5E72_5E79_60A3_611F_6163_61BE_63DB_6562_67D1_6853_68FA),
  (0x8ABC, 0x6B3E_6B53_6C57_6F22_6F97_6F45_74B0_7518_76E3_770B_7AFF_7BA1),
  (0x8AC8, 0x7C21_7DE9_7F36_7FF0_809D_8266_839E_89B3_8ACC_8CAB_9084_9451),
  (0x8AD4, 0x9593_9591_95A2_9665_97D3_9928_8218_4E38_542B_5CB8_5DCC_73A9),
  (0x8AE0, 0x764C_773C_5CA9_7FEB_8D0B_96C1_9811_9854_9858_4F01_4F0E_5371),
  (0x8AEC, 0x559C_5668_57FA_5947_5B09_5BC4_5C90_5E0C_5E7E_5FCC_63EE_673A),
  (0x8AF8, 0x65D7_65E2_671F_68CB_68C4),
  (0x8B40, 0x6A5F_5E30_6BC5_6C17_6C7D_757F_7948_5B63_7A00_7D00_5FBD_898F),
  (0x8B4C, 0x8A18_8CB4_8D77_8ECC_8F1D_98E2_9A0E_9B3C_4E80_507D_5100_5993),
  (0x8B58, 0x5B9C_622F_6280_64EC_6B3A_72A0_7591_7947_7FA9_87FB_8ABC_8B70),
  (0x8B64, 0x63AC_83CA_97A0_5409_5403_55AB_6854_6A58_8A70_7827_6775_9ECD),
  (0x8B70, 0x5374_5BA2_811A_8650_9006_4E18_4E45_4EC7_4F11_53CA_5438_5BAE),
  (0x8B7C, 0x5F13_6025_6551),
  (0x8B80, 0x673D_6C42_6C72_6CE3_7078_7403_7A76_7AAE_7B08_7D1A_7CFE_7D66),
  (0x8B8C, 0x65E7_725B_53BB_5C45_5DE8_62D2_62E0_6319_6E20_865A_8A31_8DDD),
  (0x8B98, 0x92F8_6F01_79A6_9B5A_4EA8_4EAB_4EAC_4F9B_4FA0_50D1_5147_7AF6),
  (0x8BA4, 0x5171_51F6_5354_5321_537F_53EB_55AC_5883_5CE1_5F37_5F4A_602F),
  (0x8BB0, 0x6050_606D_631F_6559_6A4B_6CC1_72C2_72ED_77EF_80F8_8105_8208),
  (0x8BBC, 0x854E_90F7_93E1_97FF_9957_9A5A_4EF0_51DD_5C2D_6681_696D_5C40),
  (0x8BC8, 0x66F2_6975_7389_6850_7C81_50C5_52E4_5747_5DFE_9326_65A4_6B23),
  (0x8BD4, 0x6B3D_7434_7981_79BD_7B4B_7DCA_82B9_83CC_887F_895F_8B39_8FD1),
  (0x8BE0, 0x91D1_541F_9280_4E5D_5036_53E5_533A_72D7_7396_77E9_82E6_8EAF),
  (0x8BEC, 0x99C6_99C8_99D2_5177_611A_865E_55B0_7A7A_5076_5BD3_9047_9685),
  (0x8BF8, 0x4E32_6ADB_91E7_5C51_5C48),
  (0x8C40, 0x6398_7A9F_6C93_9774_8F61_7AAA_718A_9688_7C82_6817_7E70_6851),
  (0x8C4C, 0x936C_52F2_541B_85AB_8A13_7FA4_8ECD_90E1_5366_8888_7941_4FC2),
  (0x8C58, 0x50BE_5211_5144_5553_572D_73EA_578B_5951_5F62_5F84_6075_6176),
  (0x8C64, 0x6167_61A9_63B2_643A_656C_666F_6842_6E13_7566_7A3D_7CFB_7D4C),
  (0x8C70, 0x7D99_7E4B_7F6B_830E_834A_86CD_8A08_8A63_8B66_8EFD_981A_9D8F),
  (0x8C7C, 0x82B8_8FCE_9BE8),
  (0x8C80, 0x5287_621F_6483_6FC0_9699_6841_5091_6B20_6C7A_6F54_7A74_7D50),
  (0x8C8C, 0x8840_8A23_6708_4EF6_5039_5026_5065_517C_5238_5263_55A7_570F),
  (0x8C98, 0x5805_5ACC_5EFA_61B2_61F8_62F3_6372_691C_6A29_727D_72AC_732E),
  (0x8CA4, 0x7814_786F_7D79_770C_80A9_898B_8B19_8CE2_8ED2_9063_9375_967A),
  (0x8CB0, 0x9855_9A13_9E78_5143_539F_53B3_5E7B_5F26_6E1B_6E90_7384_73FE),
  (0x8CBC, 0x7D43_8237_8A00_8AFA_9650_4E4E_500B_53E4_547C_56FA_59D1_5B64),
  (0x8CC8, 0x5DF1_5EAB_5F27_6238_6545_67AF_6E56_72D0_7CCA_88B4_80A1_80E1),
  (0x8CD4, 0x83F0_864E_8A87_8DE8_9237_96C7_9867_9F13_4E94_4E92_4F0D_5348),
  (0x8CE0, 0x5449_543E_5A2F_5F8C_5FA1_609F_68A7_6A8E_745A_7881_8A9E_8AA4),
  (0x8CEC, 0x8B77_9190_4E5E_9BC9_4EA4_4F7C_4FAF_5019_5016_5149_516C_529F),
  (0x8CF8, 0x52B9_52FE_539A_53E3_5411),
  (0x8D40, 0x540E_5589_5751_57A2_597D_5B54_5B5D_5B8F_5DE5_5DE7_5DF7_5E78),
  (0x8D4C, 0x5E83_5E9A_5EB7_5F18_6052_614C_6297_62D8_63A7_653B_6602_6643),
  (0x8D58, 0x66F4_676D_6821_6897_69CB_6C5F_6D2A_6D69_6E2F_6E9D_7532_7687),
  (0x8D64, 0x786C_7A3F_7CE0_7D05_7D18_7D5E_7DB1_8015_8003_80AF_80B1_8154),
  (0x8D70, 0x818F_822A_8352_884C_8861_8B1B_8CA2_8CFC_90CA_9175_9271_783F),
  (0x8D7C, 0x92FC_95A4_964D),
  (0x8D80, 0x9805_9999_9AD8_9D3B_525B_52AB_53F7_5408_58D5_62F7_6FE0_8C6A),
  (0x8D8C, 0x8F5F_9EB9_514B_523B_544A_56FD_7A40_9177_9D60_9ED2_7344_6F09),
  (0x8D98, 0x8170_7511_5FFD_60DA_9AA8_72DB_8FBC_6B64_9803_4ECA_56F0_5764),
  (0x8DA4, 0x58BE_5A5A_6068_61C7_660F_6606_6839_68B1_6DF7_75D5_7D3A_826E),
  (0x8DB0, 0x9B42_4E9B_4F50_53C9_5506_5D6F_5DE6_5DEE_67FB_6C99_7473_7802),
  (0x8DBC, 0x8A50_9396_88DF_5750_5EA7_632B_50B5_50AC_518D_6700_54C9_585E),
  (0x8DC8, 0x59BB_5BB0_5F69_624D_63A1_683D_6B73_6E08_707D_91C7_7280_7815),
  (0x8DD4, 0x7826_796D_658E_7D30_83DC_88C1_8F09_969B_5264_5728_6750_7F6A),
  (0x8DE0, 0x8CA1_51B4_5742_962A_583A_698A_80B4_54B2_5D0E_57FC_7895_9DFA),
  (0x8DEC, 0x4F5C_524A_548B_643E_6628_6714_67F5_7A84_7B56_7D22_932F_685C),
  (0x8DF8, 0x9BAD_7B39_5319_518A_5237),
  (0x8E40, 0x5BDF_62F6_64AE_64E6_672D_6BBA_85A9_96D1_7690_9BD6_634C_9306),
  (0x8E4C, 0x9BAB_76BF_6652_4E09_5098_53C2_5C71_60E8_6492_6563_685F_71E6),
  (0x8E58, 0x73CA_7523_7B97_7E82_8695_8B83_8CDB_9178_9910_65AC_66AB_6B8B),
  (0x8E64, 0x4ED5_4ED4_4F3A_4F7F_523A_53F8_53F2_55E3_56DB_58EB_59CB_59C9),
  (0x8E70, 0x59FF_5B50_5C4D_5E02_5E2B_5FD7_601D_6307_652F_5B5C_65AF_65BD),
  (0x8E7C, 0x65E8_679D_6B62),
  (0x8E80, 0x6B7B_6C0F_7345_7949_79C1_7CF8_7D19_7D2B_80A2_8102_81F3_8996),
  (0x8E8C, 0x8A5E_8A69_8A66_8A8C_8AEE_8CC7_8CDC_96CC_98FC_6B6F_4E8B_4F3C),
  (0x8E98, 0x4F8D_5150_5B57_5BFA_6148_6301_6642_6B21_6ECB_6CBB_723E_74BD),
  (0x8EA4, 0x75D4_78C1_793A_800C_8033_81EA_8494_8F9E_6C50_9E7F_5F0F_8B58),
  (0x8EB0, 0x9D2B_7AFA_8EF8_5B8D_96EB_4E03_53F1_57F7_5931_5AC9_5BA4_6089),
  (0x8EBC, 0x6E7F_6F06_75BE_8CEA_5B9F_8500_7BE0_5072_67F4_829D_5C61_854A),
  (0x8EC8, 0x7E1E_820E_5199_5C04_6368_8D66_659C_716E_793E_7D17_8005_8B1D),
  (0x8ED4, 0x8ECA_906E_86C7_90AA_501F_52FA_5C3A_6753_707C_7235_914C_91C8),
  (0x8EE0, 0x932B_82E5_5BC2_5F31_60F9_4E3B_53D6_5B88_624B_6731_6B8A_72E9),
  (0x8EEC, 0x73E0_7A2E_816B_8DA3_9152_9996_5112_53D7_546A_5BFF_6388_6A39),
  (0x8EF8, 0x7DAC_9700_56DA_53CE_5468),
  (0x8F40, 0x5B97_5C31_5DDE_4FEE_6101_62FE_6D32_79C0_79CB_7D42_7E4D_7FD2),
  (0x8F4C, 0x81ED_821F_8490_8846_8972_8B90_8E74_8F2F_9031_914B_916C_96C6),
  (0x8F58, 0x919C_4EC0_4F4F_5145_5341_5F93_620E_67D4_6C41_6E0B_7363_7E26),
  (0x8F64, 0x91CD_9283_53D4_5919_5BBF_6DD1_795D_7E2E_7C9B_587E_719F_51FA),
  (0x8F70, 0x8853_8FF0_4FCA_5CFB_6625_77AC_7AE3_821C_99FF_51C6_5FAA_65EC),
  (0x8F7C, 0x696F_6B89_6DF3),
  (0x8F80, 0x6E96_6F64_76FE_7D14_5DE1_9075_9187_9806_51E6_521D_6240_6691),
  (0x8F8C, 0x66D9_6E1A_5EB6_7DD2_7F72_66F8_85AF_85F7_8AF8_52A9_53D9_5973),
  (0x8F98, 0x5E8F_5F90_6055_92E4_9664_50B7_511F_52DD_5320_5347_53EC_54E8),
  (0x8FA4, 0x5546_5531_5617_5968_59BE_5A3C_5BB5_5C06_5C0F_5C11_5C1A_5E84),
  (0x8FB0, 0x5E8A_5EE0_5F70_627F_6284_62DB_638C_6377_6607_660C_662D_6676),
  (0x8FBC, 0x677E_68A2_6A1F_6A35_6CBC_6D88_6E09_6E58_713C_7126_7167_75C7),
  (0x8FC8, 0x7701_785D_7901_7965_79F0_7AE0_7B11_7CA7_7D39_8096_83D6_848B),
  (0x8FD4, 0x8549_885D_88F3_8A1F_8A3C_8A54_8A73_8C61_8CDE_91A4_9266_937E),
  (0x8FE0, 0x9418_969C_9798_4E0A_4E08_4E1E_4E57_5197_5270_57CE_5834_58CC),
  (0x8FEC, 0x5B22_5E38_60C5_64FE_6761_6756_6D44_72B6_7573_7A63_84B8_8B72),
  (0x8FF8, 0x91B8_9320_5631_57F4_98FE),
  (0x9040, 0x62ED_690D_6B96_71ED_7E54_8077_8272_89E6_98DF_8755_8FB1_5C3B),
  (0x904C, 0x4F38_4FE1_4FB5_5507_5A20_5BDD_5BE9_5FC3_614E_632F_65B0_664B),
  (0x9058, 0x68EE_699B_6D78_6DF1_7533_75B9_771F_795E_79E6_7D33_81E3_82AF),
  (0x9064, 0x85AA_89AA_8A3A_8EAB_8F9B_9032_91DD_9707_4EBA_4EC1_5203_5875),
  (0x9070, 0x58EC_5C0B_751A_5C3D_814E_8A0A_8FC5_9663_976D_7B25_8ACF_9808),
  (0x907C, 0x9162_56F3_53A8),
  (0x9080, 0x9017_5439_5782_5E25_63A8_6C34_708A_7761_7C8B_7FE0_8870_9042),
  (0x908C, 0x9154_9310_9318_968F_745E_9AC4_5D07_5D69_6570_67A2_8DA8_96DB),
  (0x9098, 0x636E_6749_6919_83C5_9817_96C0_88FE_6F84_647A_5BF8_4E16_702C),
  (0x90A4, 0x755D_662F_51C4_5236_52E2_59D3_5F81_6027_6210_653F_6574_661F),
  (0x90B0, 0x6674_68F2_6816_6B63_6E05_7272_751F_76DB_7CBE_8056_58F0_88FD),
  (0x90BC, 0x897F_8AA0_8A93_8ACB_901D_9192_9752_9759_6589_7A0E_8106_96BB),
  (0x90C8, 0x5E2D_60DC_621A_65A5_6614_6790_77F3_7A4D_7C4D_7E3E_810A_8CAC),
  (0x90D4, 0x8D64_8DE1_8E5F_78A9_5207_62D9_63A5_6442_6298_8A2D_7A83_7BC0),
  (0x90E0, 0x8AAC_96EA_7D76_820C_8749_4ED9_5148_5343_5360_5BA3_5C02_5C16),
  (0x90EC, 0x5DDD_6226_6247_64B0_6813_6834_6CC9_6D45_6D17_67D3_6F5C_714E),
  (0x90F8, 0x717D_65CB_7A7F_7BAD_7DDA),
  (0x9140, 0x7E4A_7FA8_817A_821B_8239_85A6_8A6E_8CCE_8DF5_9078_9077_92AD),
  (0x914C, 0x9291_9583_9BAE_524D_5584_6F38_7136_5168_7985_7E55_81B3_7CCE),
  (0x9158, 0x564C_5851_5CA8_63AA_66FE_66FD_695A_72D9_758F_758E_790E_7956),
  (0x9164, 0x79DF_7C97_7D20_7D44_8607_8A34_963B_9061_9F20_50E7_5275_53CC),
  (0x9170, 0x53E2_5009_55AA_58EE_594F_723D_5B8B_5C64_531D_60E3_60F3_635C),
  (0x917C, 0x6383_633F_63BB),
  (0x9180, 0x64CD_65E9_66F9_5DE3_69CD_69FD_6F15_71E5_4E89_75E9_76F8_7A93),
  (0x918C, 0x7CDF_7DCF_7D9C_8061_8349_8358_846C_84BC_85FB_88C5_8D70_9001),
  (0x9198, 0x906D_9397_971C_9A12_50CF_5897_618E_81D3_8535_8D08_9020_4FC3),
  (0x91A4, 0x5074_5247_5373_606F_6349_675F_6E2C_8DB3_901F_4FD7_5C5E_8CCA),
  (0x91B0, 0x65CF_7D9A_5352_8896_5176_63C3_5B58_5B6B_5C0A_640D_6751_905C),
  (0x91BC, 0x4ED6_591A_592A_6C70_8A51_553E_5815_59A5_60F0_6253_67C1_8235),
  (0x91C8, 0x6955_9640_99C4_9A28_4F53_5806_5BFE_8010_5CB1_5E2F_5F85_6020),
  (0x91D4, 0x614B_6234_66FF_6CF0_6EDE_80CE_817F_82D4_888B_8CB8_9000_902E),
  (0x91E0, 0x968A_9EDB_9BDB_4EE3_53F0_5927_7B2C_918D_984C_9DF9_6EDD_7027),
  (0x91EC, 0x5353_5544_5B85_6258_629E_62D3_6CA2_6FEF_7422_8A17_9438_6FC1),
  (0x91F8, 0x8AFE_8338_51E7_86F8_53EA),
  (0x9240, 0x53E9_4F46_9054_8FB0_596A_8131_5DFD_7AEA_8FBF_68DA_8C37_72F8),
  (0x924C, 0x9C48_6A3D_8AB0_4E39_5358_5606_5766_62C5_63A2_65E6_6B4E_6DE1),
  (0x9258, 0x6E5B_70AD_77ED_7AEF_7BAA_7DBB_803D_80C6_86CB_8A95_935B_56E3),
  (0x9264, 0x58C7_5F3E_65AD_6696_6A80_6BB5_7537_8AC7_5024_77E5_5730_5F1B),
  (0x9270, 0x6065_667A_6C60_75F4_7A1A_7F6E_81F4_8718_9045_99B3_7BC9_755C),
  (0x927C, 0x7AF9_7B51_84C4),
  (0x9280, 0x9010_79E9_7A92_8336_5AE1_7740_4E2D_4EF2_5B99_5FE0_62BD_663C),
  (0x928C, 0x67F1_6CE8_866B_8877_8A3B_914E_92F3_99D0_6A17_7026_732A_82E7),
  (0x9298, 0x8457_8CAF_4E01_5146_51CB_558B_5BF5_5E16_5E33_5E81_5F14_5F35),
  (0x92A4, 0x5F6B_5FB4_61F2_6311_66A2_671D_6F6E_7252_753A_773A_8074_8139),
  (0x92B0, 0x8178_8776_8ABF_8ADC_8D85_8DF3_929A_9577_9802_9CE5_52C5_6357),
  (0x92BC, 0x76F4_6715_6C88_73CD_8CC3_93AE_9673_6D25_589C_690E_69CC_8FFD),
  (0x92C8, 0x939A_75DB_901A_585A_6802_63B4_69FB_4F43_6F2C_67D8_8FBB_8526),
  (0x92D4, 0x7DB4_9354_693F_6F70_576A_58F7_5B2C_7D2C_722A_540A_91E3_9DB4),
  (0x92E0, 0x4EAD_4F4E_505C_5075_5243_8C9E_5448_5824_5B9A_5E1D_5E95_5EAD),
  (0x92EC, 0x5EF7_5F1F_608C_62B5_633A_63D0_68AF_6C40_7887_798E_7A0B_7DE0),
  (0x92F8, 0x8247_8A02_8AE6_8E44_9013),
  (0x9340, 0x90B8_912D_91D8_9F0E_6CE5_6458_64E2_6575_6EF4_7684_7B1B_9069),
  (0x934C, 0x93D1_6EBA_54F2_5FB9_64A4_8F4D_8FED_9244_5178_586B_5929_5C55),
  (0x9358, 0x5E97_6DFB_7E8F_751C_8CBC_8EE2_985B_70B9_4F1D_6BBF_6FB1_7530),
  (0x9364, 0x96FB_514E_5410_5835_5857_59AC_5C60_5F92_6597_675C_6E21_767B),
  (0x9370, 0x83DF_8CED_9014_90FD_934D_7825_783A_52AA_5EA6_571F_5974_6012),
  (0x937C, 0x5012_515A_51AC),
  (0x9380, 0x51CD_5200_5510_5854_5858_5957_5B95_5CF6_5D8B_60BC_6295_642D),
  (0x938C, 0x6771_6843_68BC_68DF_76D7_6DD8_6E6F_6D9B_706F_71C8_5F53_75D8),
  (0x9398, 0x7977_7B49_7B54_7B52_7CD6_7D71_5230_8463_8569_85E4_8A0E_8B04),
  (0x93A4, 0x8C46_8E0F_9003_900F_9419_9676_982D_9A30_95D8_50CD_52D5_540C),
  (0x93B0, 0x5802_5C0E_61A7_649E_6D1E_77B3_7AE5_80F4_8404_9053_9285_5CE0),
  (0x93BC, 0x9D07_533F_5F97_5FB3_6D9C_7279_7763_79BF_7BE4_6BD2_72EC_8AAD),
  (0x93C8, 0x6803_6A61_51F8_7A81_6934_5C4A_9CF6_82EB_5BC5_9149_701E_5678),
  (0x93D4, 0x5C6F_60C7_6566_6C8C_8C5A_9041_9813_5451_66C7_920D_5948_90A3),
  (0x93E0, 0x5185_4E4D_51EA_8599_8B0E_7058_637A_934B_6962_99B4_7E04_7577),
  (0x93EC, 0x5357_6960_8EDF_96E3_6C5D_4E8C_5C3C_5F10_8FE9_5302_8CD1_8089),
  (0x93F8, 0x8679_5EFF_65E5_4E73_5165),
  (0x9440, 0x5982_5C3F_97EE_4EFB_598A_5FCD_8A8D_6FE1_79B0_7962_5BE7_8471),
  (0x944C, 0x732B_71B1_5E74_5FF5_637B_649A_71C3_7C98_4E43_5EFC_4E4B_57DC),
  (0x9458, 0x56A2_60A9_6FC3_7D0D_80FD_8133_81BF_8FB2_8997_86A4_5DF4_628A),
  (0x9464, 0x64AD_8987_6777_6CE2_6D3E_7436_7834_5A46_7F75_82AD_99AC_4FF3),
  (0x9470, 0x5EC3_62DD_6392_6557_676F_76C3_724C_80CC_80BA_8F29_914D_500D),
  (0x947C, 0x57F9_5A92_6885),
  (0x9480, 0x6973_7164_72FD_8CB7_58F2_8CE0_966A_9019_877F_79E4_77E7_8429),
  (0x948C, 0x4F2F_5265_535A_62CD_67CF_6CCA_767D_7B94_7C95_8236_8584_8FEB),
  (0x9498, 0x66DD_6F20_7206_7E1B_83AB_99C1_9EA6_51FD_7BB1_7872_7BB8_8087),
  (0x94A4, 0x7B48_6AE8_5E61_808C_7551_7560_516B_9262_6E8C_767A_9197_9AEA),
  (0x94B0, 0x4F10_7F70_629C_7B4F_95A5_9CE9_567A_5859_86E4_96BC_4F34_5224),
  (0x94BC, 0x534A_53CD_53DB_5E06_642C_6591_677F_6C3E_6C4E_7248_72AF_73ED),
  (0x94C8, 0x7554_7E41_822C_85E9_8CA9_7BC4_91C6_7169_9812_98EF_633D_6669),
  (0x94D4, 0x756A_76E4_78D0_8543_86EE_532A_5351_5426_5983_5E87_5F7C_60B2),
  (0x94E0, 0x6249_6279_62AB_6590_6BD4_6CCC_75B2_76AE_7891_79D8_7DCB_7F77),
  (0x94EC, 0x80A5_88AB_8AB9_8CBB_907F_975E_98DB_6A0B_7C38_5099_5C3E_5FAE),
  (0x94F8, 0x6787_6BD8_7435_7709_7F8E),
  (0x9540, 0x9F3B_67CA_7A17_5339_758B_9AED_5F66_819D_83F1_8098_5F3C_5FC5),
  (0x954C, 0x7562_7B46_903C_6867_59EB_5A9B_7D10_767E_8B2C_4FF5_5F6A_6A19),
  (0x9558, 0x6C37_6F02_74E2_7968_8868_8A55_8C79_5EDF_63CF_75C5_79D2_82D7),
  (0x9564, 0x9328_92F2_849C_86ED_9C2D_54C1_5F6C_658C_6D5C_7015_8CA7_8CD3),
  (0x9570, 0x983B_654F_74F6_4E0D_4ED8_57E0_592B_5A66_5BCC_51A8_5E03_5E9C),
  (0x957C, 0x6016_6276_6577),
  (0x9580, 0x65A7_666E_6D6E_7236_7B26_8150_819A_8299_8B5C_8CA0_8CE6_8D74),
  (0x958C, 0x961C_9644_4FAE_64AB_6B66_821E_8461_856A_90E8_5C01_6953_98A8),
  (0x9598, 0x847A_8557_4F0F_526F_5FA9_5E45_670D_798F_8179_8907_8986_6DF5),
  (0x95A4, 0x5F17_6255_6CB8_4ECF_7269_9B92_5206_543B_5674_58B3_61A4_626E),
  (0x95B0, 0x711A_596E_7C89_7CDE_7D1B_96F0_6587_805E_4E19_4F75_5175_5840),
  (0x95BC, 0x5E63_5E73_5F0A_67C4_4E26_853D_9589_965B_7C73_9801_50FB_58C1),
  (0x95C8, 0x7656_78A7_5225_77A5_8511_7B86_504F_5909_7247_7BC7_7DE8_8FBA),
  (0x95D4, 0x8FD4_904D_4FBF_52C9_5A29_5F01_97AD_4FDD_8217_92EA_5703_6355),
  (0x95E0, 0x6B69_752B_88DC_8F14_7A42_52DF_5893_6155_620A_66AE_6BCD_7C3F),
  (0x95EC, 0x83E9_5023_4FF8_5305_5446_5831_5949_5B9D_5CF0_5CEF_5D29_5E96),
  (0x95F8, 0x62B1_6367_653E_65B9_670B),
  (0x9640, 0x6CD5_6CE1_70F9_7832_7E2B_80DE_82B3_840C_84EC_8702_8912_8A2A),
  (0x964C, 0x8C4A_90A6_92D2_98FD_9CF3_9D6C_4E4F_4EA1_508D_5256_574A_59A8),
  (0x9658, 0x5E3D_5FD8_5FD9_623F_66B4_671B_67D0_68D2_5192_7D21_80AA_81A8),
  (0x9664, 0x8B00_8C8C_8CBF_927E_9632_5420_982C_5317_50D5_535C_58A8_64B2),
  (0x9670, 0x6734_7267_7766_7A46_91E6_52C3_6CA1_6B86_5800_5E4C_5954_672C),
  (0x967C, 0x7FFB_51E1_76C6),
  (0x9680, 0x6469_78E8_9B54_9EBB_57CB_59B9_6627_679A_6BCE_54E9_69D9_5E55),
  (0x968C, 0x819C_6795_9BAA_67FE_9C52_685D_4EA6_4FE3_53C8_62B9_672B_6CAB),
  (0x9698, 0x8FC4_4FAD_7E6D_9EBF_4E07_6162_6E80_6F2B_8513_5473_672A_9B45),
  (0x96A4, 0x5DF3_7B95_5CAC_5BC6_871C_6E4A_84D1_7A14_8108_5999_7C8D_6C11),
  (0x96B0, 0x7720_52D9_5922_7121_725F_77DB_9727_9D61_690B_5A7F_5A18_51A5),
  (0x96BC, 0x540D_547D_660E_76DF_8FF7_9298_9CF4_59EA_725D_6EC5_514D_68C9),
  (0x96C8, 0x7DBF_7DEC_9762_9EBA_6478_6A21_8302_5984_5B5F_6BDB_731B_76F2),
  (0x96D4, 0x7DB2_8017_8499_5132_6728_9ED9_76EE_6762_52FF_9905_5C24_623B),
  (0x96E0, 0x7C7E_8CB0_554F_60B6_7D0B_9580_5301_4E5F_51B6_591C_723A_8036),
  (0x96EC, 0x91CE_5F25_77E2_5384_5F79_7D04_85AC_8A33_8E8D_9756_67F3_85AE),
  (0x96F8, 0x9453_6109_6108_6CB9_7652),
  (0x9740, 0x8AED_8F38_552F_4F51_512A_52C7_53CB_5BA5_5E7D_60A0_6182_63D6),
  (0x974C, 0x6709_67DA_6E67_6D8C_7336_7337_7531_7950_88D5_8A98_904A_9091),
  (0x9758, 0x90F5_96C4_878D_5915_4E88_4F59_4E0E_8A89_8F3F_9810_50AD_5E7C),
  (0x9764, 0x5996_5BB9_5EB8_63DA_63FA_64C1_66DC_694A_69D8_6D0B_6EB6_7194),
  (0x9770, 0x7528_7AAF_7F8A_8000_8449_84C9_8981_8B21_8E0A_9065_967D_990A),
  (0x977C, 0x617E_6291_6B32),
  (0x9780, 0x6C83_6D74_7FCC_7FFC_6DC0_7F85_87BA_88F8_6765_83B1_983C_96F7),
  (0x978C, 0x6D1B_7D61_843D_916A_4E71_5375_5D50_6B04_6FEB_85CD_862D_89A7),
  (0x9798, 0x5229_540F_5C65_674E_68A8_7406_7483_75E2_88CF_88E1_91CC_96E2),
  (0x97A4, 0x9678_5F8B_7387_7ACB_844E_63A0_7565_5289_6D41_6E9C_7409_7559),
  (0x97B0, 0x786B_7C92_9686_7ADC_9F8D_4FB6_616E_65C5_865C_4E86_4EAE_50DA),
  (0x97BC, 0x4E21_51CC_5BEE_6599_6881_6DBC_731F_7642_77AD_7A1C_7CE7_826F),
  (0x97C8, 0x8AD2_907C_91CF_9675_9818_529B_7DD1_502B_5398_6797_6DCB_71D0),
  (0x97D4, 0x7433_81E8_8F2A_96A3_9C57_9E9F_7460_5841_6D99_7D2F_985E_4EE4),
  (0x97E0, 0x4F36_4F8B_51B7_52B1_5DBA_601C_73B2_793C_82D3_9234_96B7_96F6),
  (0x97EC, 0x970A_9E97_9F62_66A6_6B74_5217_52A3_70C8_88C2_5EC9_604B_6190),
  (0x97F8, 0x6F23_7149_7C3E_7DF4_806F),
  (0x9840, 0x84EE_9023_932C_5442_9B6F_6AD3_7089_8CC2_8DEF_9732_52B4_5A41),
  (0x984C, 0x5ECA_5F04_6717_697C_6994_6D6A_6F0F_7262_72FC_7BED_8001_807E),
  (0x9858, 0x874B_90CE_516D_9E93_7984_808B_9332_8AD6_502D_548C_8A71_6B6A),
  (0x9864, 0x8CC4_8107_60D1_67A0_9DF2_4E99_4E98_9C10_8A6B_85C1_8568_6900),
  (0x9870, 0x6E7E_7897_8155),
  (0x989F, 0x5F0C_4E10_4E15_4E2A_4E31_4E36_4E3C_4E3F_4E42_4E56_4E58_4E82),
  (0x98AB, 0x4E85_8C6B_4E8A_8212_5F0D_4E8E_4E9E_4E9F_4EA0_4EA2_4EB0_4EB3),
  (0x98B7, 0x4EB6_4ECE_4ECD_4EC4_4EC6_4EC2_4ED7_4EDE_4EED_4EDF_4EF7_4F09),
  (0x98C3, 0x4F5A_4F30_4F5B_4F5D_4F57_4F47_4F76_4F88_4F8F_4F98_4F7B_4F69),
  (0x98CF, 0x4F70_4F91_4F6F_4F86_4F96_5118_4FD4_4FDF_4FCE_4FD8_4FDB_4FD1),
  (0x98DB, 0x4FDA_4FD0_4FE4_4FE5_501A_5028_5014_502A_5025_5005_4F1C_4FF6),
  (0x98E7, 0x5021_5029_502C_4FFE_4FEF_5011_5006_5043_5047_6703_5055_5050),
  (0x98F3, 0x5048_505A_5056_506C_5078_5080_509A_5085_50B4_50B2),
  (0x9940, 0x50C9_50CA_50B3_50C2_50D6_50DE_50E5_50ED_50E3_50EE_50F9_50F5),
  (0x994C, 0x5109_5101_5102_5116_5115_5114_511A_5121_513A_5137_513C_513B),
  (0x9958, 0x513F_5140_5152_514C_5154_5162_7AF8_5169_516A_516E_5180_5182),
  (0x9964, 0x56D8_518C_5189_518F_5191_5193_5195_5196_51A4_51A6_51A2_51A9),
  (0x9970, 0x51AA_51AB_51B3_51B1_51B2_51B0_51B5_51BD_51C5_51C9_51DB_51E0),
  (0x997C, 0x8655_51E9_51ED),
  (0x9980, 0x51F0_51F5_51FE_5204_520B_5214_520E_5227_522A_522E_5233_5239),
  (0x998C, 0x524F_5244_524B_524C_525E_5254_526A_5274_5269_5273_527F_527D),
  (0x9998, 0x528D_5294_5292_5271_5288_5291_8FA8_8FA7_52AC_52AD_52BC_52B5),
  (0x99A4, 0x52C1_52CD_52D7_52DE_52E3_52E6_98ED_52E0_52F3_52F5_52F8_52F9),
  (0x99B0, 0x5306_5308_7538_530D_5310_530F_5315_531A_5323_532F_5331_5333),
  (0x99BC, 0x5338_5340_5346_5345_4E17_5349_534D_51D6_535E_5369_536E_5918),
  (0x99C8, 0x537B_5377_5382_5396_53A0_53A6_53A5_53AE_53B0_53B6_53C3_7C12),
  (0x99D4, 0x96D9_53DF_66FC_71EE_53EE_53E8_53ED_53FA_5401_543D_5440_542C),
  (0x99E0, 0x542D_543C_542E_5436_5429_541D_544E_548F_5475_548E_545F_5471),
  (0x99EC, 0x5477_5470_5492_547B_5480_5476_5484_5490_5486_54C7_54A2_54B8),
  (0x99F8, 0x54A5_54AC_54C4_54C8_54A8),
  (0x9A40, 0x54AB_54C2_54A4_54BE_54BC_54D8_54E5_54E6_550F_5514_54FD_54EE),
  (0x9A4C, 0x54ED_54FA_54E2_5539_5540_5563_554C_552E_555C_5545_5556_5557),
  (0x9A58, 0x5538_5533_555D_5599_5580_54AF_558A_559F_557B_557E_5598_559E),
  (0x9A64, 0x55AE_557C_5583_55A9_5587_55A8_55DA_55C5_55DF_55C4_55DC_55E4),
  (0x9A70, 0x55D4_5614_55F7_5616_55FE_55FD_561B_55F9_564E_5650_71DF_5634),
  (0x9A7C, 0x5636_5632_5638),
  (0x9A80, 0x566B_5664_562F_566C_566A_5686_5680_568A_56A0_5694_568F_56A5),
  (0x9A8C, 0x56AE_56B6_56B4_56C2_56BC_56C1_56C3_56C0_56C8_56CE_56D1_56D3),
  (0x9A98, 0x56D7_56EE_56F9_5700_56FF_5704_5709_5708_570B_570D_5713_5718),
  (0x9AA4, 0x5716_55C7_571C_5726_5737_5738_574E_573B_5740_574F_5769_57C0),
  (0x9AB0, 0x5788_5761_577F_5789_5793_57A0_57B3_57A4_57AA_57B0_57C3_57C6),
  (0x9ABC, 0x57D4_57D2_57D3_580A_57D6_57E3_580B_5819_581D_5872_5821_5862),
  (0x9AC8, 0x584B_5870_6BC0_5852_583D_5879_5885_58B9_589F_58AB_58BA_58DE),
  (0x9AD4, 0x58BB_58B8_58AE_58C5_58D3_58D1_58D7_58D9_58D8_58E5_58DC_58E4),
  (0x9AE0, 0x58DF_58EF_58FA_58F9_58FB_58FC_58FD_5902_590A_5910_591B_68A6),
  (0x9AEC, 0x5925_592C_592D_5932_5938_593E_7AD2_5955_5950_594E_595A_5958),
  (0x9AF8, 0x5962_5960_5967_596C_5969),
  (0x9B40, 0x5978_5981_599D_4F5E_4FAB_59A3_59B2_59C6_59E8_59DC_598D_59D9),
  (0x9B4C, 0x59DA_5A25_5A1F_5A11_5A1C_5A09_5A1A_5A40_5A6C_5A49_5A35_5A36),
  (0x9B58, 0x5A62_5A6A_5A9A_5ABC_5ABE_5ACB_5AC2_5ABD_5AE3_5AD7_5AE6_5AE9),
  (0x9B64, 0x5AD6_5AFA_5AFB_5B0C_5B0B_5B16_5B32_5AD0_5B2A_5B36_5B3E_5B43),
  (0x9B70, 0x5B45_5B40_5B51_5B55_5B5A_5B5B_5B65_5B69_5B70_5B73_5B75_5B78),
  (0x9B7C, 0x6588_5B7A_5B80),
  (0x9B80, 0x5B83_5BA6_5BB8_5BC3_5BC7_5BC9_5BD4_5BD0_5BE4_5BE6_5BE2_5BDE),
  (0x9B8C, 0x5BE5_5BEB_5BF0_5BF6_5BF3_5C05_5C07_5C08_5C0D_5C13_5C20_5C22),
  (0x9B98, 0x5C28_5C38_5C39_5C41_5C46_5C4E_5C53_5C50_5C4F_5B71_5C6C_5C6E),
  (0x9BA4, 0x4E62_5C76_5C79_5C8C_5C91_5C94_599B_5CAB_5CBB_5CB6_5CBC_5CB7),
  (0x9BB0, 0x5CC5_5CBE_5CC7_5CD9_5CE9_5CFD_5CFA_5CED_5D8C_5CEA_5D0B_5D15),
  (0x9BBC, 0x5D17_5D5C_5D1F_5D1B_5D11_5D14_5D22_5D1A_5D19_5D18_5D4C_5D52),
  (0x9BC8, 0x5D4E_5D4B_5D6C_5D73_5D76_5D87_5D84_5D82_5DA2_5D9D_5DAC_5DAE),
  (0x9BD4, 0x5DBD_5D90_5DB7_5DBC_5DC9_5DCD_5DD3_5DD2_5DD6_5DDB_5DEB_5DF2),
  (0x9BE0, 0x5DF5_5E0B_5E1A_5E19_5E11_5E1B_5E36_5E37_5E44_5E43_5E40_5E4E),
  (0x9BEC, 0x5E57_5E54_5E5F_5E62_5E64_5E47_5E75_5E76_5E7A_9EBC_5E7F_5EA0),
  (0x9BF8, 0x5EC1_5EC2_5EC8_5ED0_5ECF),
  (0x9C40, 0x5ED6_5EE3_5EDD_5EDA_5EDB_5EE2_5EE1_5EE8_5EE9_5EEC_5EF1_5EF3),
  (0x9C4C, 0x5EF0_5EF4_5EF8_5EFE_5F03_5F09_5F5D_5F5C_5F0B_5F11_5F16_5F29),
  (0x9C58, 0x5F2D_5F38_5F41_5F48_5F4C_5F4E_5F2F_5F51_5F56_5F57_5F59_5F61),
  (0x9C64, 0x5F6D_5F73_5F77_5F83_5F82_5F7F_5F8A_5F88_5F91_5F87_5F9E_5F99),
  (0x9C70, 0x5F98_5FA0_5FA8_5FAD_5FBC_5FD6_5FFB_5FE4_5FF8_5FF1_5FDD_60B3),
  (0x9C7C, 0x5FFF_6021_6060),
  (0x9C80, 0x6019_6010_6029_600E_6031_601B_6015_602B_6026_600F_603A_605A),
  (0x9C8C, 0x6041_606A_6077_605F_604A_6046_604D_6063_6043_6064_6042_606C),
  (0x9C98, 0x606B_6059_6081_608D_60E7_6083_609A_6084_609B_6096_6097_6092),
  (0x9CA4, 0x60A7_608B_60E1_60B8_60E0_60D3_60B4_5FF0_60BD_60C6_60B5_60D8),
  (0x9CB0, 0x614D_6115_6106_60F6_60F7_6100_60F4_60FA_6103_6121_60FB_60F1),
  (0x9CBC, 0x610D_610E_6147_613E_6128_6127_614A_613F_613C_612C_6134_613D),
  (0x9CC8, 0x6142_6144_6173_6177_6158_6159_615A_616B_6174_616F_6165_6171),
  (0x9CD4, 0x615F_615D_6153_6175_6199_6196_6187_61AC_6194_619A_618A_6191),
  (0x9CE0, 0x61AB_61AE_61CC_61CA_61C9_61F7_61C8_61C3_61C6_61BA_61CB_7F79),
  (0x9CEC, 0x61CD_61E6_61E3_61F6_61FA_61F4_61FF_61FD_61FC_61FE_6200_6208),
  (0x9CF8, 0x6209_620D_620C_6214_621B),
  (0x9D40, 0x621E_6221_622A_622E_6230_6232_6233_6241_624E_625E_6263_625B),
  (0x9D4C, 0x6260_6268_627C_6282_6289_627E_6292_6293_6296_62D4_6283_6294),
  (0x9D58, 0x62D7_62D1_62BB_62CF_62FF_62C6_64D4_62C8_62DC_62CC_62CA_62C2),
  (0x9D64, 0x62C7_629B_62C9_630C_62EE_62F1_6327_6302_6308_62EF_62F5_6350),
  (0x9D70, 0x633E_634D_641C_634F_6396_638E_6380_63AB_6376_63A3_638F_6389),
  (0x9D7C, 0x639F_63B5_636B),
  (0x9D80, 0x6369_63BE_63E9_63C0_63C6_63E3_63C9_63D2_63F6_63C4_6416_6434),
  (0x9D8C, 0x6406_6413_6426_6436_651D_6417_6428_640F_6467_646F_6476_644E),
  (0x9D98, 0x652A_6495_6493_64A5_64A9_6488_64BC_64DA_64D2_64C5_64C7_64BB),
  (0x9DA4, 0x64D8_64C2_64F1_64E7_8209_64E0_64E1_62AC_64E3_64EF_652C_64F6),
  (0x9DB0, 0x64F4_64F2_64FA_6500_64FD_6518_651C_6505_6524_6523_652B_6534),
  (0x9DBC, 0x6535_6537_6536_6538_754B_6548_6556_6555_654D_6558_655E_655D),
  (0x9DC8, 0x6572_6578_6582_6583_8B8A_659B_659F_65AB_65B7_65C3_65C6_65C1),
  (0x9DD4, 0x65C4_65CC_65D2_65DB_65D9_65E0_65E1_65F1_6772_660A_6603_65FB),
  (0x9DE0, 0x6773_6635_6636_6634_661C_664F_6644_6649_6641_665E_665D_6664),
  (0x9DEC, 0x6667_6668_665F_6662_6670_6683_6688_668E_6689_6684_6698_669D),
  (0x9DF8, 0x66C1_66B9_66C9_66BE_66BC),
  (0x9E40, 0x66C4_66B8_66D6_66DA_66E0_663F_66E6_66E9_66F0_66F5_66F7_670F),
  (0x9E4C, 0x6716_671E_6726_6727_9738_672E_673F_6736_6741_6738_6737_6746),
  (0x9E58, 0x675E_6760_6759_6763_6764_6789_6770_67A9_677C_676A_678C_678B),
  (0x9E64, 0x67A6_67A1_6785_67B7_67EF_67B4_67EC_67B3_67E9_67B8_67E4_67DE),
  (0x9E70, 0x67DD_67E2_67EE_67B9_67CE_67C6_67E7_6A9C_681E_6846_6829_6840),
  (0x9E7C, 0x684D_6832_684E),
  (0x9E80, 0x68B3_682B_6859_6863_6877_687F_689F_688F_68AD_6894_689D_689B),
  (0x9E8C, 0x6883_6AAE_68B9_6874_68B5_68A0_68BA_690F_688D_687E_6901_68CA),
  (0x9E98, 0x6908_68D8_6922_6926_68E1_690C_68CD_68D4_68E7_68D5_6936_6912),
  (0x9EA4, 0x6904_68D7_68E3_6925_68F9_68E0_68EF_6928_692A_691A_6923_6921),
  (0x9EB0, 0x68C6_6979_6977_695C_6978_696B_6954_697E_696E_6939_6974_693D),
  (0x9EBC, 0x6959_6930_6961_695E_695D_6981_696A_69B2_69AE_69D0_69BF_69C1),
  (0x9EC8, 0x69D3_69BE_69CE_5BE8_69CA_69DD_69BB_69C3_69A7_6A2E_6991_69A0),
  (0x9ED4, 0x699C_6995_69B4_69DE_69E8_6A02_6A1B_69FF_6B0A_69F9_69F2_69E7),
  (0x9EE0, 0x6A05_69B1_6A1E_69ED_6A14_69EB_6A0A_6A12_6AC1_6A23_6A13_6A44),
  (0x9EEC, 0x6A0C_6A72_6A36_6A78_6A47_6A62_6A59_6A66_6A48_6A38_6A22_6A90),
  (0x9EF8, 0x6A8D_6AA0_6A84_6AA2_6AA3),
  (0x9F40, 0x6A97_8617_6ABB_6AC3_6AC2_6AB8_6AB3_6AAC_6ADE_6AD1_6ADF_6AAA),
  (0x9F4C, 0x6ADA_6AEA_6AFB_6B05_8616_6AFA_6B12_6B16_9B31_6B1F_6B38_6B37),
  (0x9F58, 0x76DC_6B39_98EE_6B47_6B43_6B49_6B50_6B59_6B54_6B5B_6B5F_6B61),
  (0x9F64, 0x6B78_6B79_6B7F_6B80_6B84_6B83_6B8D_6B98_6B95_6B9E_6BA4_6BAA),
  (0x9F70, 0x6BAB_6BAF_6BB2_6BB1_6BB3_6BB7_6BBC_6BC6_6BCB_6BD3_6BDF_6BEC),
  (0x9F7C, 0x6BEB_6BF3_6BEF),
  (0x9F80, 0x9EBE_6C08_6C13_6C14_6C1B_6C24_6C23_6C5E_6C55_6C62_6C6A_6C82),
  (0x9F8C, 0x6C8D_6C9A_6C81_6C9B_6C7E_6C68_6C73_6C92_6C90_6CC4_6CF1_6CD3),
  (0x9F98, 0x6CBD_6CD7_6CC5_6CDD_6CAE_6CB1_6CBE_6CBA_6CDB_6CEF_6CD9_6CEA),
  (0x9FA4, 0x6D1F_884D_6D36_6D2B_6D3D_6D38_6D19_6D35_6D33_6D12_6D0C_6D63),
  (0x9FB0, 0x6D93_6D64_6D5A_6D79_6D59_6D8E_6D95_6FE4_6D85_6DF9_6E15_6E0A),
  (0x9FBC, 0x6DB5_6DC7_6DE6_6DB8_6DC6_6DEC_6DDE_6DCC_6DE8_6DD2_6DC5_6DFA),
  (0x9FC8, 0x6DD9_6DE4_6DD5_6DEA_6DEE_6E2D_6E6E_6E2E_6E19_6E72_6E5F_6E3E),
  (0x9FD4, 0x6E23_6E6B_6E2B_6E76_6E4D_6E1F_6E43_6E3A_6E4E_6E24_6EFF_6E1D),
  (0x9FE0, 0x6E38_6E82_6EAA_6E98_6EC9_6EB7_6ED3_6EBD_6EAF_6EC4_6EB2_6ED4),
  (0x9FEC, 0x6ED5_6E8F_6EA5_6EC2_6E9F_6F41_6F11_704C_6EEC_6EF8_6EFE_6F3F),
  (0x9FF8, 0x6EF2_6F31_6EEF_6F32_6ECC),
  (0xE040, 0x6F3E_6F13_6EF7_6F86_6F7A_6F78_6F81_6F80_6F6F_6F5B_6FF3_6F6D),
  (0xE04C, 0x6F82_6F7C_6F58_6F8E_6F91_6FC2_6F66_6FB3_6FA3_6FA1_6FA4_6FB9),
  (0xE058, 0x6FC6_6FAA_6FDF_6FD5_6FEC_6FD4_6FD8_6FF1_6FEE_6FDB_7009_700B),
  (0xE064, 0x6FFA_7011_7001_700F_6FFE_701B_701A_6F74_701D_7018_701F_7030),
  (0xE070, 0x703E_7032_7051_7063_7099_7092_70AF_70F1_70AC_70B8_70B3_70AE),
  (0xE07C, 0x70DF_70CB_70DD),
  (0xE080, 0x70D9_7109_70FD_711C_7119_7165_7155_7188_7166_7162_714C_7156),
  (0xE08C, 0x716C_718F_71FB_7184_7195_71A8_71AC_71D7_71B9_71BE_71D2_71C9),
  (0xE098, 0x71D4_71CE_71E0_71EC_71E7_71F5_71FC_71F9_71FF_720D_7210_721B),
  (0xE0A4, 0x7228_722D_722C_7230_7232_723B_723C_723F_7240_7246_724B_7258),
  (0xE0B0, 0x7274_727E_7282_7281_7287_7292_7296_72A2_72A7_72B9_72B2_72C3),
  (0xE0BC, 0x72C6_72C4_72CE_72D2_72E2_72E0_72E1_72F9_72F7_500F_7317_730A),
  (0xE0C8, 0x731C_7316_731D_7334_732F_7329_7325_733E_734E_734F_9ED8_7357),
  (0xE0D4, 0x736A_7368_7370_7378_7375_737B_737A_73C8_73B3_73CE_73BB_73C0),
  (0xE0E0, 0x73E5_73EE_73DE_74A2_7405_746F_7425_73F8_7432_743A_7455_743F),
  (0xE0EC, 0x745F_7459_7441_745C_7469_7470_7463_746A_7476_747E_748B_749E),
  (0xE0F8, 0x74A7_74CA_74CF_74D4_73F1),
  (0xE140, 0x74E0_74E3_74E7_74E9_74EE_74F2_74F0_74F1_74F8_74F7_7504_7503),
  (0xE14C, 0x7505_750C_750E_750D_7515_7513_751E_7526_752C_753C_7544_754D),
  (0xE158, 0x754A_7549_755B_7546_755A_7569_7564_7567_756B_756D_7578_7576),
  (0xE164, 0x7586_7587_7574_758A_7589_7582_7594_759A_759D_75A5_75A3_75C2),
  (0xE170, 0x75B3_75C3_75B5_75BD_75B8_75BC_75B1_75CD_75CA_75D2_75D9_75E3),
  (0xE17C, 0x75DE_75FE_75FF),
  (0xE180, 0x75FC_7601_75F0_75FA_75F2_75F3_760B_760D_7609_761F_7627_7620),
  (0xE18C, 0x7621_7622_7624_7634_7630_763B_7647_7648_7646_765C_7658_7661),
  (0xE198, 0x7662_7668_7669_766A_7667_766C_7670_7672_7676_7678_767C_7680),
  (0xE1A4, 0x7683_7688_768B_768E_7696_7693_7699_769A_76B0_76B4_76B8_76B9),
  (0xE1B0, 0x76BA_76C2_76CD_76D6_76D2_76DE_76E1_76E5_76E7_76EA_862F_76FB),
  (0xE1BC, 0x7708_7707_7704_7729_7724_771E_7725_7726_771B_7737_7738_7747),
  (0xE1C8, 0x775A_7768_776B_775B_7765_777F_777E_7779_778E_778B_7791_77A0),
  (0xE1D4, 0x779E_77B0_77B6_77B9_77BF_77BC_77BD_77BB_77C7_77CD_77D7_77DA),
  (0xE1E0, 0x77DC_77E3_77EE_77FC_780C_7812_7926_7820_792A_7845_788E_7874),
  (0xE1EC, 0x7886_787C_789A_788C_78A3_78B5_78AA_78AF_78D1_78C6_78CB_78D4),
  (0xE1F8, 0x78BE_78BC_78C5_78CA_78EC),
  (0xE240, 0x78E7_78DA_78FD_78F4_7907_7912_7911_7919_792C_792B_7940_7960),
  (0xE24C, 0x7957_795F_795A_7955_7953_797A_797F_798A_799D_79A7_9F4B_79AA),
  (0xE258, 0x79AE_79B3_79B9_79BA_79C9_79D5_79E7_79EC_79E1_79E3_7A08_7A0D),
  (0xE264, 0x7A18_7A19_7A20_7A1F_7980_7A31_7A3B_7A3E_7A37_7A43_7A57_7A49),
  (0xE270, 0x7A61_7A62_7A69_9F9D_7A70_7A79_7A7D_7A88_7A97_7A95_7A98_7A96),
  (0xE27C, 0x7AA9_7AC8_7AB0),
  (0xE280, 0x7AB6_7AC5_7AC4_7ABF_9083_7AC7_7ACA_7ACD_7ACF_7AD5_7AD3_7AD9),
  (0xE28C, 0x7ADA_7ADD_7AE1_7AE2_7AE6_7AED_7AF0_7B02_7B0F_7B0A_7B06_7B33),
  (0xE298, 0x7B18_7B19_7B1E_7B35_7B28_7B36_7B50_7B7A_7B04_7B4D_7B0B_7B4C),
  (0xE2A4, 0x7B45_7B75_7B65_7B74_7B67_7B70_7B71_7B6C_7B6E_7B9D_7B98_7B9F),
  (0xE2B0, 0x7B8D_7B9C_7B9A_7B8B_7B92_7B8F_7B5D_7B99_7BCB_7BC1_7BCC_7BCF),
  (0xE2BC, 0x7BB4_7BC6_7BDD_7BE9_7C11_7C14_7BE6_7BE5_7C60_7C00_7C07_7C13),
  (0xE2C8, 0x7BF3_7BF7_7C17_7C0D_7BF6_7C23_7C27_7C2A_7C1F_7C37_7C2B_7C3D),
  (0xE2D4, 0x7C4C_7C43_7C54_7C4F_7C40_7C50_7C58_7C5F_7C64_7C56_7C65_7C6C),
  (0xE2E0, 0x7C75_7C83_7C90_7CA4_7CAD_7CA2_7CAB_7CA1_7CA8_7CB3_7CB2_7CB1),
  (0xE2EC, 0x7CAE_7CB9_7CBD_7CC0_7CC5_7CC2_7CD8_7CD2_7CDC_7CE2_9B3B_7CEF),
  (0xE2F8, 0x7CF2_7CF4_7CF6_7CFA_7D06),
  (0xE340, 0x7D02_7D1C_7D15_7D0A_7D45_7D4B_7D2E_7D32_7D3F_7D35_7D46_7D73),
  (0xE34C, 0x7D56_7D4E_7D72_7D68_7D6E_7D4F_7D63_7D93_7D89_7D5B_7D8F_7D7D),
  (0xE358, 0x7D9B_7DBA_7DAE_7DA3_7DB5_7DC7_7DBD_7DAB_7E3D_7DA2_7DAF_7DDC),
  (0xE364, 0x7DB8_7D9F_7DB0_7DD8_7DDD_7DE4_7DDE_7DFB_7DF2_7DE1_7E05_7E0A),
  (0xE370, 0x7E23_7E21_7E12_7E31_7E1F_7E09_7E0B_7E22_7E46_7E66_7E3B_7E35),
  (0xE37C, 0x7E39_7E43_7E37),
  (0xE380, 0x7E32_7E3A_7E67_7E5D_7E56_7E5E_7E59_7E5A_7E79_7E6A_7E69_7E7C),
  (0xE38C, 0x7E7B_7E83_7DD5_7E7D_8FAE_7E7F_7E88_7E89_7E8C_7E92_7E90_7E93),
  (0xE398, 0x7E94_7E96_7E8E_7E9B_7E9C_7F38_7F3A_7F45_7F4C_7F4D_7F4E_7F50),
  (0xE3A4, 0x7F51_7F55_7F54_7F58_7F5F_7F60_7F68_7F69_7F67_7F78_7F82_7F86),
  (0xE3B0, 0x7F83_7F88_7F87_7F8C_7F94_7F9E_7F9D_7F9A_7FA3_7FAF_7FB2_7FB9),
  (0xE3BC, 0x7FAE_7FB6_7FB8_8B71_7FC5_7FC6_7FCA_7FD5_7FD4_7FE1_7FE6_7FE9),
  (0xE3C8, 0x7FF3_7FF9_98DC_8006_8004_800B_8012_8018_8019_801C_8021_8028),
  (0xE3D4, 0x803F_803B_804A_8046_8052_8058_805A_805F_8062_8068_8073_8072),
  (0xE3E0, 0x8070_8076_8079_807D_807F_8084_8086_8085_809B_8093_809A_80AD),
  (0xE3EC, 0x5190_80AC_80DB_80E5_80D9_80DD_80C4_80DA_80D6_8109_80EF_80F1),
  (0xE3F8, 0x811B_8129_8123_812F_814B),
  (0xE440, 0x968B_8146_813E_8153_8151_80FC_8171_816E_8165_8166_8174_8183),
  (0xE44C, 0x8188_818A_8180_8182_81A0_8195_81A4_81A3_815F_8193_81A9_81B0),
  (0xE458, 0x81B5_81BE_81B8_81BD_81C0_81C2_81BA_81C9_81CD_81D1_81D9_81D8),
  (0xE464, 0x81C8_81DA_81DF_81E0_81E7_81FA_81FB_81FE_8201_8202_8205_8207),
  (0xE470, 0x820A_820D_8210_8216_8229_822B_8238_8233_8240_8259_8258_825D),
  (0xE47C, 0x825A_825F_8264),
  (0xE480, 0x8262_8268_826A_826B_822E_8271_8277_8278_827E_828D_8292_82AB),
  (0xE48C, 0x829F_82BB_82AC_82E1_82E3_82DF_82D2_82F4_82F3_82FA_8393_8303),
  (0xE498, 0x82FB_82F9_82DE_8306_82DC_8309_82D9_8335_8334_8316_8332_8331),
  (0xE4A4, 0x8340_8339_8350_8345_832F_832B_8317_8318_8385_839A_83AA_839F),
  (0xE4B0, 0x83A2_8396_8323_838E_8387_838A_837C_83B5_8373_8375_83A0_8389),
  (0xE4BC, 0x83A8_83F4_8413_83EB_83CE_83FD_8403_83D8_840B_83C1_83F7_8407),
  (0xE4C8, 0x83E0_83F2_840D_8422_8420_83BD_8438_8506_83FB_846D_842A_843C),
  (0xE4D4, 0x855A_8484_8477_846B_84AD_846E_8482_8469_8446_842C_846F_8479),
  (0xE4E0, 0x8435_84CA_8462_84B9_84BF_849F_84D9_84CD_84BB_84DA_84D0_84C1),
  (0xE4EC, 0x84C6_84D6_84A1_8521_84FF_84F4_8517_8518_852C_851F_8515_8514),
  (0xE4F8, 0x84FC_8540_8563_8558_8548),
  (0xE540, 0x8541_8602_854B_8555_8580_85A4_8588_8591_858A_85A8_856D_8594),
  (0xE54C, 0x859B_85EA_8587_859C_8577_857E_8590_85C9_85BA_85CF_85B9_85D0),
  (0xE558, 0x85D5_85DD_85E5_85DC_85F9_860A_8613_860B_85FE_85FA_8606_8622),
  (0xE564, 0x861A_8630_863F_864D_4E55_8654_865F_8667_8671_8693_86A3_86A9),
  (0xE570, 0x86AA_868B_868C_86B6_86AF_86C4_86C6_86B0_86C9_8823_86AB_86D4),
  (0xE57C, 0x86DE_86E9_86EC),
  (0xE580, 0x86DF_86DB_86EF_8712_8706_8708_8700_8703_86FB_8711_8709_870D),
  (0xE58C, 0x86F9_870A_8734_873F_8737_873B_8725_8729_871A_8760_875F_8778),
  (0xE598, 0x874C_874E_8774_8757_8768_876E_8759_8753_8763_876A_8805_87A2),
  (0xE5A4, 0x879F_8782_87AF_87CB_87BD_87C0_87D0_96D6_87AB_87C4_87B3_87C7),
  (0xE5B0, 0x87C6_87BB_87EF_87F2_87E0_880F_880D_87FE_87F6_87F7_880E_87D2),
  (0xE5BC, 0x8811_8816_8815_8822_8821_8831_8836_8839_8827_883B_8844_8842),
  (0xE5C8, 0x8852_8859_885E_8862_886B_8881_887E_889E_8875_887D_88B5_8872),
  (0xE5D4, 0x8882_8897_8892_88AE_8899_88A2_888D_88A4_88B0_88BF_88B1_88C3),
  (0xE5E0, 0x88C4_88D4_88D8_88D9_88DD_88F9_8902_88FC_88F4_88E8_88F2_8904),
  (0xE5EC, 0x890C_890A_8913_8943_891E_8925_892A_892B_8941_8944_893B_8936),
  (0xE5F8, 0x8938_894C_891D_8960_895E),
  (0xE640, 0x8966_8964_896D_896A_896F_8974_8977_897E_8983_8988_898A_8993),
  (0xE64C, 0x8998_89A1_89A9_89A6_89AC_89AF_89B2_89BA_89BD_89BF_89C0_89DA),
  (0xE658, 0x89DC_89DD_89E7_89F4_89F8_8A03_8A16_8A10_8A0C_8A1B_8A1D_8A25),
  (0xE664, 0x8A36_8A41_8A5B_8A52_8A46_8A48_8A7C_8A6D_8A6C_8A62_8A85_8A82),
  (0xE670, 0x8A84_8AA8_8AA1_8A91_8AA5_8AA6_8A9A_8AA3_8AC4_8ACD_8AC2_8ADA),
  (0xE67C, 0x8AEB_8AF3_8AE7),
  (0xE680, 0x8AE4_8AF1_8B14_8AE0_8AE2_8AF7_8ADE_8ADB_8B0C_8B07_8B1A_8AE1),
  (0xE68C, 0x8B16_8B10_8B17_8B20_8B33_97AB_8B26_8B2B_8B3E_8B28_8B41_8B4C),
  (0xE698, 0x8B4F_8B4E_8B49_8B56_8B5B_8B5A_8B6B_8B5F_8B6C_8B6F_8B74_8B7D),
  (0xE6A4, 0x8B80_8B8C_8B8E_8B92_8B93_8B96_8B99_8B9A_8C3A_8C41_8C3F_8C48),
  (0xE6B0, 0x8C4C_8C4E_8C50_8C55_8C62_8C6C_8C78_8C7A_8C82_8C89_8C85_8C8A),
  (0xE6BC, 0x8C8D_8C8E_8C94_8C7C_8C98_621D_8CAD_8CAA_8CBD_8CB2_8CB3_8CAE),
  (0xE6C8, 0x8CB6_8CC8_8CC1_8CE4_8CE3_8CDA_8CFD_8CFA_8CFB_8D04_8D05_8D0A),
  (0xE6D4, 0x8D07_8D0F_8D0D_8D10_9F4E_8D13_8CCD_8D14_8D16_8D67_8D6D_8D71),
  (0xE6E0, 0x8D73_8D81_8D99_8DC2_8DBE_8DBA_8DCF_8DDA_8DD6_8DCC_8DDB_8DCB),
  (0xE6EC, 0x8DEA_8DEB_8DDF_8DE3_8DFC_8E08_8E09_8DFF_8E1D_8E1E_8E10_8E1F),
  (0xE6F8, 0x8E42_8E35_8E30_8E34_8E4A),
  (0xE740, 0x8E47_8E49_8E4C_8E50_8E48_8E59_8E64_8E60_8E2A_8E63_8E55_8E76),
  (0xE74C, 0x8E72_8E7C_8E81_8E87_8E85_8E84_8E8B_8E8A_8E93_8E91_8E94_8E99),
  (0xE758, 0x8EAA_8EA1_8EAC_8EB0_8EC6_8EB1_8EBE_8EC5_8EC8_8ECB_8EDB_8EE3),
  (0xE764, 0x8EFC_8EFB_8EEB_8EFE_8F0A_8F05_8F15_8F12_8F19_8F13_8F1C_8F1F),
  (0xE770, 0x8F1B_8F0C_8F26_8F33_8F3B_8F39_8F45_8F42_8F3E_8F4C_8F49_8F46),
  (0xE77C, 0x8F4E_8F57_8F5C),
  (0xE780, 0x8F62_8F63_8F64_8F9C_8F9F_8FA3_8FAD_8FAF_8FB7_8FDA_8FE5_8FE2),
  (0xE78C, 0x8FEA_8FEF_9087_8FF4_9005_8FF9_8FFA_9011_9015_9021_900D_901E),
  (0xE798, 0x9016_900B_9027_9036_9035_9039_8FF8_904F_9050_9051_9052_900E),
  (0xE7A4, 0x9049_903E_9056_9058_905E_9068_906F_9076_96A8_9072_9082_907D),
  (0xE7B0, 0x9081_9080_908A_9089_908F_90A8_90AF_90B1_90B5_90E2_90E4_6248),
  (0xE7BC, 0x90DB_9102_9112_9119_9132_9130_914A_9156_9158_9163_9165_9169),
  (0xE7C8, 0x9173_9172_918B_9189_9182_91A2_91AB_91AF_91AA_91B5_91B4_91BA),
  (0xE7D4, 0x91C0_91C1_91C9_91CB_91D0_91D6_91DF_91E1_91DB_91FC_91F5_91F6),
  (0xE7E0, 0x921E_91FF_9214_922C_9215_9211_925E_9257_9245_9249_9264_9248),
  (0xE7EC, 0x9295_923F_924B_9250_929C_9296_9293_929B_925A_92CF_92B9_92B7),
  (0xE7F8, 0x92E9_930F_92FA_9344_932E),
  (0xE840, 0x9319_9322_931A_9323_933A_9335_933B_935C_9360_937C_936E_9356),
  (0xE84C, 0x93B0_93AC_93AD_9394_93B9_93D6_93D7_93E8_93E5_93D8_93C3_93DD),
  (0xE858, 0x93D0_93C8_93E4_941A_9414_9413_9403_9407_9410_9436_942B_9435),
  (0xE864, 0x9421_943A_9441_9452_9444_945B_9460_9462_945E_946A_9229_9470),
  (0xE870, 0x9475_9477_947D_945A_947C_947E_9481_947F_9582_9587_958A_9594),
  (0xE87C, 0x9596_9598_9599),
  (0xE880, 0x95A0_95A8_95A7_95AD_95BC_95BB_95B9_95BE_95CA_6FF6_95C3_95CD),
  (0xE88C, 0x95CC_95D5_95D4_95D6_95DC_95E1_95E5_95E2_9621_9628_962E_962F),
  (0xE898, 0x9642_964C_964F_964B_9677_965C_965E_965D_965F_9666_9672_966C),
  (0xE8A4, 0x968D_9698_9695_9697_96AA_96A7_96B1_96B2_96B0_96B4_96B6_96B8),
  (0xE8B0, 0x96B9_96CE_96CB_96C9_96CD_894D_96DC_970D_96D5_96F9_9704_9706),
  (0xE8BC, 0x9708_9713_970E_9711_970F_9716_9719_9724_972A_9730_9739_973D),
  (0xE8C8, 0x973E_9744_9746_9748_9742_9749_975C_9760_9764_9766_9768_52D2),
  (0xE8D4, 0x976B_9771_9779_9785_977C_9781_977A_9786_978B_978F_9790_979C),
  (0xE8E0, 0x97A8_97A6_97A3_97B3_97B4_97C3_97C6_97C8_97CB_97DC_97ED_9F4F),
  (0xE8EC, 0x97F2_7ADF_97F6_97F5_980F_980C_9838_9824_9821_9837_983D_9846),
  (0xE8F8, 0x984F_984B_986B_986F_9870),
  (0xE940, 0x9871_9874_9873_98AA_98AF_98B1_98B6_98C4_98C3_98C6_98E9_98EB),
  (0xE94C, 0x9903_9909_9912_9914_9918_9921_991D_991E_9924_9920_992C_992E),
  (0xE958, 0x993D_993E_9942_9949_9945_9950_994B_9951_9952_994C_9955_9997),
  (0xE964, 0x9998_99A5_99AD_99AE_99BC_99DF_99DB_99DD_99D8_99D1_99ED_99EE),
  (0xE970, 0x99F1_99F2_99FB_99F8_9A01_9A0F_9A05_99E2_9A19_9A2B_9A37_9A45),
  (0xE97C, 0x9A42_9A40_9A43),
  (0xE980, 0x9A3E_9A55_9A4D_9A5B_9A57_9A5F_9A62_9A65_9A64_9A69_9A6B_9A6A),
  (0xE98C, 0x9AAD_9AB0_9ABC_9AC0_9ACF_9AD1_9AD3_9AD4_9ADE_9ADF_9AE2_9AE3),
  (0xE998, 0x9AE6_9AEF_9AEB_9AEE_9AF4_9AF1_9AF7_9AFB_9B06_9B18_9B1A_9B1F),
  (0xE9A4, 0x9B22_9B23_9B25_9B27_9B28_9B29_9B2A_9B2E_9B2F_9B32_9B44_9B43),
  (0xE9B0, 0x9B4F_9B4D_9B4E_9B51_9B58_9B74_9B93_9B83_9B91_9B96_9B97_9B9F),
  (0xE9BC, 0x9BA0_9BA8_9BB4_9BC0_9BCA_9BB9_9BC6_9BCF_9BD1_9BD2_9BE3_9BE2),
  (0xE9C8, 0x9BE4_9BD4_9BE1_9C3A_9BF2_9BF1_9BF0_9C15_9C14_9C09_9C13_9C0C),
  (0xE9D4, 0x9C06_9C08_9C12_9C0A_9C04_9C2E_9C1B_9C25_9C24_9C21_9C30_9C47),
  (0xE9E0, 0x9C32_9C46_9C3E_9C5A_9C60_9C67_9C76_9C78_9CE7_9CEC_9CF0_9D09),
  (0xE9EC, 0x9D08_9CEB_9D03_9D06_9D2A_9D26_9DAF_9D23_9D1F_9D44_9D15_9D12),
  (0xE9F8, 0x9D41_9D3F_9D3E_9D46_9D48),
  (0xEA40, 0x9D5D_9D5E_9D64_9D51_9D50_9D59_9D72_9D89_9D87_9DAB_9D6F_9D7A),
  (0xEA4C, 0x9D9A_9DA4_9DA9_9DB2_9DC4_9DC1_9DBB_9DB8_9DBA_9DC6_9DCF_9DC2),
  (0xEA58, 0x9DD9_9DD3_9DF8_9DE6_9DED_9DEF_9DFD_9E1A_9E1B_9E1E_9E75_9E79),
  (0xEA64, 0x9E7D_9E81_9E88_9E8B_9E8C_9E92_9E95_9E91_9E9D_9EA5_9EA9_9EB8),
  (0xEA70, 0x9EAA_9EAD_9761_9ECC_9ECE_9ECF_9ED0_9ED4_9EDC_9EDE_9EDD_9EE0),
  (0xEA7C, 0x9EE5_9EE8_9EEF),
  (0xEA80, 0x9EF4_9EF6_9EF7_9EF9_9EFB_9EFC_9EFD_9F07_9F08_76B7_9F15_9F21),
  (0xEA8C, 0x9F2C_9F3E_9F4A_9F52_9F54_9F63_9F5F_9F60_9F61_9F66_9F67_9F6C),
  (0xEA98, 0x9F6A_9F77_9F72_9F76_9F95_9F9C_9FA0_582F_69C7_9059_7464_51DC),
  (0xEAA4, 0x7199)]

/-- The rules of /repo/modules/to/_SHIFT-JIS.txt: character, code.  No two lines have the same character; sorted.  Lines `0100..`, if any, are
listed separately. -/
def shiftJisWrites : Chart := Chart.wide [
  (0x5C, 0x815F),
  (0xA2, 0x8191_8192),
  (0xA7, 0x8198_814E),
  (0xAC, 0x81CA),
  (0xB0, 0x818B_817D),
  (0xB4, 0x814C),
  (0xB6, 0x81F7),
  (0xD7, 0x817E),
  (0xF7, 0x8180),
  (0x391, 0x839F_83A0_83A1_83A2_83A3_83A4_83A5_83A6_83A7_83A8_83A9_83AA),
  (0x39D, 0x83AB_83AC_83AD_83AE_83AF),
  (0x3A3, 0x83B0_83B1_83B2_83B3_83B4_83B5_83B6),
  (0x3B1, 0x83BF_83C0_83C1_83C2_83C3_83C4_83C5_83C6_83C7_83C8_83C9_83CA),
  (0x3BD, 0x83CB_83CC_83CD_83CE_83CF),
  (0x3C3, 0x83D0_83D1_83D2_83D3_83D4_83D5_83D6),
  (0x401, 0x8446),
  (0x410, 0x8440_8441_8442_8443_8444_8445_8447_8448_8449_844A_844B_844C),
  (0x41C, 0x844D_844E_844F_8450_8451_8452_8453_8454_8455_8456_8457_8458),
  (0x428, 0x8459_845A_845B_845C_845D_845E_845F_8460_8470_8471_8472_8473),
  (0x434, 0x8474_8475_8477_8478_8479_847A_847B_847C_847D_847E_8480_8481),
  (0x440, 0x8482_8483_8484_8485_8486_8487_8488_8489_848A_848B_848C_848D),
  (0x44C, 0x848E_848F_8490_8491),
  (0x451, 0x8476),
  (0x2010, 0x815D),
  (0x2015, 0x815C_8161),
  (0x2018, 0x8165_8166),
  (0x201C, 0x8167_8168),
  (0x2020, 0x81F5_81F6),
  (0x2025, 0x8164_8163),
  (0x2030, 0x81F1),
  (0x2032, 0x818C_818D),
  (0x203B, 0x81A6),
  (0x2103, 0x818E),
  (0x212B, 0x81F0),
  (0x2190, 0x81A9_81AA_81A8_81AB),
  (0x21D2, 0x81CB),
  (0x21D4, 0x81CC),
  (0x2200, 0x81CD),
  (0x2202, 0x81DD_81CE),
  (0x2207, 0x81DE_81B8),
  (0x220B, 0x81B9),
  (0x2212, 0x817C),
  (0x221A, 0x81E3),
  (0x221D, 0x81E5_8187),
  (0x2220, 0x81DA),
  (0x2227, 0x81C8_81C9_81BF_81BE_81E7_81E8),
  (0x2234, 0x8188_81E6),
  (0x223D, 0x81E4),
  (0x2252, 0x81E0),
  (0x2260, 0x8182_81DF),
  (0x2266, 0x8185_8186),
  (0x226A, 0x81E1_81E2),
  (0x2282, 0x81BC_81BD),
  (0x2286, 0x81BA_81BB),
  (0x22A5, 0x81DB),
  (0x2312, 0x81DC),
  (0x2500, 0x849F_84AA_84A0_84AB),
  (0x250C, 0x84A1),
  (0x250F, 0x84AC_84A2),
  (0x2513, 0x84AD_84A4),
  (0x2517, 0x84AF_84A3),
  (0x251B, 0x84AE_84A5_84BA),
  (0x2520, 0x84B5),
  (0x2523, 0x84B0_84A7_84BC),
  (0x2528, 0x84B7),
  (0x252B, 0x84B2_84A6),
  (0x252F, 0x84B6_84BB),
  (0x2533, 0x84B1_84A8),
  (0x2537, 0x84B8_84BD),
  (0x253B, 0x84B3_84A9),
  (0x253F, 0x84B9),
  (0x2542, 0x84BE),
  (0x254B, 0x84B4),
  (0x25A0, 0x81A1_81A0),
  (0x25B2, 0x81A3_81A2),
  (0x25BC, 0x81A5_81A4),
  (0x25C6, 0x819F_819E),
  (0x25CB, 0x819B),
  (0x25CE, 0x819D_819C),
  (0x25EF, 0x81FC),
  (0x2605, 0x819A_8199),
  (0x2640, 0x818A),
  (0x2642, 0x8189),
  (0x266A, 0x81F4),
  (0x266D, 0x81F3),
  (0x266F, 0x81F2),
  (0x3000, 0x8140_8141_8142_8156),
  (0x3005, 0x8158_8159_815A_8171_8172_8173_8174_8175_8176_8177_8178_8179),
  (0x3011, 0x817A_81A7_81AC_816B_816C),
  (0x301C, 0x8160),
  (0x3041, 0x829F_82A0_82A1_82A2_82A3_82A4_82A5_82A6_82A7_82A8_82A9_82AA),
  (0x304D, 0x82AB_82AC_82AD_82AE_82AF_82B0_82B1_82B2_82B3_82B4_82B5_82B6),
  (0x3059, 0x82B7_82B8_82B9_82BA_82BB_82BC_82BD_82BE_82BF_82C0_82C1_82C2),
  (0x3065, 0x82C3_82C4_82C5_82C6_82C7_82C8_82C9_82CA_82CB_82CC_82CD_82CE),
  (0x3071, 0x82CF_82D0_82D1_82D2_82D3_82D4_82D5_82D6_82D7_82D8_82D9_82DA),
  (0x307D, 0x82DB_82DC_82DD_82DE_82DF_82E0_82E1_82E2_82E3_82E4_82E5_82E6),
  (0x3089, 0x82E7_82E8_82E9_82EA_82EB_82EC_82ED_82EE_82EF_82F0_82F1),
  (0x309B, 0x814A_814B_8154_8155),
  (0x30A1, 0x8340_8341_8342_8343_8344_8345_8346_8347_8348_8349_834A_834B),
  (0x30AD, 0x834C_834D_834E_834F_8350_8351_8352_8353_8354_8355_8356_8357),
  (0x30B9, 0x8358_8359_835A_835B_835C_835D_835E_835F_8360_8361_8362_8363),
  (0x30C5, 0x8364_8365_8366_8367_8368_8369_836A_836B_836C_836D_836E_836F),
  (0x30D1, 0x8370_8371_8372_8373_8374_8375_8376_8377_8378_8379_837A_837B),
  (0x30DD, 0x837C_837D_837E_8380_8381_8382_8383_8384_8385_8386_8387_8388),
  (0x30E9, 0x8389_838A_838B_838C_838D_838E_838F_8390_8391_8392_8393_8394),
  (0x30F5, 0x8395_8396),
  (0x30FB, 0x8145_815B_8152_8153),
  (0x4E00, 0x88EA_929A),
  (0x4E03, 0x8EB5),
  (0x4E07, 0x969C_8FE4_8E4F_8FE3_89BA),
  (0x4E0D, 0x9573_975E),
  (0x4E10, 0x98A0_894E),
  (0x4E14, 0x8A8E_98A1_90A2_99C0_8B75_95B8),
  (0x4E1E, 0x8FE5),
  (0x4E21, 0x97BC),
  (0x4E26, 0x95C0),
  (0x4E2A, 0x98A2),
  (0x4E2D, 0x9286),
  (0x4E31, 0x98A3_8BF8),
  (0x4E36, 0x98A4),
  (0x4E38, 0x8ADB_924F),
  (0x4E3B, 0x8EE5_98A5),
  (0x4E3F, 0x98A6),
  (0x4E42, 0x98A7_9454),
  (0x4E45, 0x8B76),
  (0x4E4B, 0x9456),
  (0x4E4D, 0x93E1_8CC1_9652),
  (0x4E55, 0xE568_98A8_8FE6_98A9_89B3),
  (0x4E5D, 0x8BE3_8CEE_96E7),
  (0x4E62, 0x9BA4),
  (0x4E71, 0x9790),
  (0x4E73, 0x93FB),
  (0x4E7E, 0x8AA3),
  (0x4E80, 0x8B54),
  (0x4E82, 0x98AA),
  (0x4E85, 0x98AB_97B9),
  (0x4E88, 0x975C_9188_98AD_8E96_93F1),
  (0x4E8E, 0x98B0),
  (0x4E91, 0x895D_8CDD),
  (0x4E94, 0x8CDC_88E4),
  (0x4E98, 0x986A_9869),
  (0x4E9B, 0x8DB1_889F),
  (0x4E9E, 0x98B1_98B2_98B3_9653_98B4),
  (0x4EA4, 0x8CF0_88E5_9692),
  (0x4EA8, 0x8B9C),
  (0x4EAB, 0x8B9D_8B9E_92E0_97BA),
  (0x4EB0, 0x98B5),
  (0x4EB3, 0x98B6),
  (0x4EB6, 0x98B7),
  (0x4EBA, 0x906C),
  (0x4EC0, 0x8F59_906D_98BC),
  (0x4EC4, 0x98BA),
  (0x4EC6, 0x98BB_8B77),
  (0x4ECA, 0x8DA1_89EE),
  (0x4ECD, 0x98B9_98B8_95A7),
  (0x4ED4, 0x8E65_8E64_91BC_98BD_9574_90E5),
  (0x4EDD, 0x8157_98BE_98C0),
  (0x4EE3, 0x91E3_97DF_88C8),
  (0x4EED, 0x98BF_89BC),
  (0x4EF0, 0x8BC2),
  (0x4EF2, 0x9287),
  (0x4EF6, 0x8C8F_98C1),
  (0x4EFB, 0x9443),
  (0x4F01, 0x8AE9),
  (0x4F09, 0x98C2_88C9),
  (0x4F0D, 0x8CDE_8AEA_959A_94B0_8B78),
  (0x4F1A, 0x89EF),
  (0x4F1C, 0x98E5_9360),
  (0x4F2F, 0x948C_98C4),
  (0x4F34, 0x94BA),
  (0x4F36, 0x97E0),
  (0x4F38, 0x904C),
  (0x4F3A, 0x8E66),
  (0x4F3C, 0x8E97_89BE),
  (0x4F43, 0x92CF),
  (0x4F46, 0x9241_98C8),
  (0x4F4D, 0x88CA_92E1_8F5A_8DB2_9743),
  (0x4F53, 0x91CC),
  (0x4F55, 0x89BD),
  (0x4F57, 0x98C7),
  (0x4F59, 0x975D_98C3_98C5_8DEC_98C6_9B43),
  (0x4F69, 0x98CE),
  (0x4F6F, 0x98D1_98CF),
  (0x4F73, 0x89C0),
  (0x4F75, 0x95B9_98C9),
  (0x4F7B, 0x98CD_8CF1),
  (0x4F7F, 0x8E67),
  (0x4F83, 0x8AA4),
  (0x4F86, 0x98D2),
  (0x4F88, 0x98CA),
  (0x4F8B, 0x97E1),
  (0x4F8D, 0x8E98),
  (0x4F8F, 0x98CB),
  (0x4F91, 0x98D0),
  (0x4F96, 0x98D3),
  (0x4F98, 0x98CC),
  (0x4F9B, 0x8B9F),
  (0x4F9D, 0x88CB),
  (0x4FA0, 0x8BA0_89BF),
  (0x4FAB, 0x9B44),
  (0x4FAD, 0x9699_958E_8CF2),
  (0x4FB5, 0x904E_97B5),
  (0x4FBF, 0x95D6),
  (0x4FC2, 0x8C57_91A3_89E2),
  (0x4FCA, 0x8F72),
  (0x4FCE, 0x98D7),
  (0x4FD0, 0x98DC_98DA),
  (0x4FD4, 0x98D5),
  (0x4FD7, 0x91AD_98D8),
  (0x4FDA, 0x98DB_98D9),
  (0x4FDD, 0x95DB),
  (0x4FDF, 0x98D6),
  (0x4FE1, 0x904D),
  (0x4FE3, 0x9693_98DD_98DE),
  (0x4FEE, 0x8F43_98EB),
  (0x4FF3, 0x946F),
  (0x4FF5, 0x9555_98E6),
  (0x4FF8, 0x95EE),
  (0x4FFA, 0x89B4),
  (0x4FFE, 0x98EA),
  (0x5005, 0x98E4_98ED),
  (0x5009, 0x9171),
  (0x500B, 0x8CC2),
  (0x500D, 0x947B),
  (0x500F, 0xE0C5),
  (0x5011, 0x98EC_937C),
  (0x5014, 0x98E1),
  (0x5016, 0x8CF4),
  (0x5019, 0x8CF3_98DF),
  (0x501F, 0x8ED8),
  (0x5021, 0x98E7),
  (0x5023, 0x95ED_926C_98E3_8C91),
  (0x5028, 0x98E0_98E8_98E2_97CF_98E9_9860),
  (0x5036, 0x8BE4),
  (0x5039, 0x8C90),
  (0x5043, 0x98EE),
  (0x5047, 0x98EF_98F3_88CC),
  (0x504F, 0x95CE_98F2),
  (0x5055, 0x98F1_98F5),
  (0x505A, 0x98F4),
  (0x505C, 0x92E2),
  (0x5065, 0x8C92),
  (0x506C, 0x98F6),
  (0x5072, 0x8EC3),
  (0x5074, 0x91A4_92E3_8BF4),
  (0x5078, 0x98F7),
  (0x507D, 0x8B55),
  (0x5080, 0x98F8),
  (0x5085, 0x98FA),
  (0x508D, 0x9654),
  (0x5091, 0x8C86),
  (0x5098, 0x8E50_94F5_98F9),
  (0x50AC, 0x8DC3_9762),
  (0x50B2, 0x98FC_9942_98FB_8DC2),
  (0x50B7, 0x8F9D),
  (0x50BE, 0x8C58),
  (0x50C2, 0x9943),
  (0x50C5, 0x8BCD),
  (0x50C9, 0x9940_9941),
  (0x50CD, 0x93AD),
  (0x50CF, 0x919C),
  (0x50D1, 0x8BA1),
  (0x50D5, 0x966C_9944),
  (0x50DA, 0x97BB),
  (0x50DE, 0x9945),
  (0x50E3, 0x9948),
  (0x50E5, 0x9946),
  (0x50E7, 0x916D),
  (0x50ED, 0x9947_9949),
  (0x50F5, 0x994B),
  (0x50F9, 0x994A),
  (0x50FB, 0x95C6),
  (0x5100, 0x8B56_994D_994E),
  (0x5104, 0x89AD),
  (0x5109, 0x994C),
  (0x5112, 0x8EF2),
  (0x5114, 0x9951_9950_994F),
  (0x5118, 0x98D4),
  (0x511A, 0x9952),
  (0x511F, 0x8F9E),
  (0x5121, 0x9953),
  (0x512A, 0x9744),
  (0x5132, 0x96D7),
  (0x5137, 0x9955),
  (0x513A, 0x9954_9957_9956),
  (0x513F, 0x9958_9959_88F2),
  (0x5143, 0x8CB3_8C5A_8F5B_929B_8BA2_90E6_8CF5),
  (0x514B, 0x8D8E_995B_96C6_9365),
  (0x5150, 0x8E99),
  (0x5152, 0x995A),
  (0x5154, 0x995C),
  (0x515A, 0x937D),
  (0x515C, 0x8A95),
  (0x5162, 0x995D),
  (0x5165, 0x93FC),
  (0x5168, 0x9153_995F_9960_94AA_8CF6_985A_9961),
  (0x5171, 0x8BA4),
  (0x5175, 0x95BA_91B4_8BEF_9354),
  (0x517C, 0x8C93),
  (0x5180, 0x9962),
  (0x5182, 0x9963),
  (0x5185, 0x93E0_897E),
  (0x5189, 0x9966_8DFB),
  (0x518C, 0x9965_8DC4),
  (0x518F, 0x9967_E3EC_9968_9660_9969),
  (0x5195, 0x996A_996B_8FE7),
  (0x5199, 0x8ECA),
  (0x51A0, 0x8AA5),
  (0x51A2, 0x996E),
  (0x51A4, 0x996C_96BB_996D),
  (0x51A8, 0x9579_996F_9970_9971_937E),
  (0x51B0, 0x9975_9973_9974_9972_8DE1_9976_96E8_97E2),
  (0x51BD, 0x9977),
  (0x51C4, 0x90A6_9978_8F79),
  (0x51C9, 0x9979),
  (0x51CB, 0x929C_97BD_9380),
  (0x51D6, 0x99C3),
  (0x51DB, 0x997A_EAA3_8BC3),
  (0x51E0, 0x997B_967D),
  (0x51E6, 0x8F88_91FA),
  (0x51E9, 0x997D_93E2),
  (0x51ED, 0x997E),
  (0x51F0, 0x9980_8A4D),
  (0x51F5, 0x9981_8BA5),
  (0x51F8, 0x93CA_899A_8F6F),
  (0x51FD, 0x949F_9982),
  (0x5200, 0x9381),
  (0x5203, 0x906E_9983),
  (0x5206, 0x95AA_90D8_8AA0),
  (0x520A, 0x8AA7_9984),
  (0x520E, 0x9986),
  (0x5211, 0x8C59),
  (0x5214, 0x9985),
  (0x5217, 0x97F1),
  (0x521D, 0x8F89),
  (0x5224, 0x94BB_95CA),
  (0x5227, 0x9987),
  (0x5229, 0x9798_9988),
  (0x522E, 0x9989),
  (0x5230, 0x939E),
  (0x5233, 0x998A),
  (0x5236, 0x90A7_8DFC_8C94_998B_8E68_8D8F),
  (0x5243, 0x92E4_998D),
  (0x5247, 0x91A5),
  (0x524A, 0x8DED_998E_998F_914F),
  (0x524F, 0x998C),
  (0x5254, 0x9991),
  (0x5256, 0x9655),
  (0x525B, 0x8D84),
  (0x525E, 0x9990),
  (0x5263, 0x8C95_8DDC_948D),
  (0x5269, 0x9994_9992),
  (0x526F, 0x959B_8FE8_999B_8A84_9995_9993_916E),
  (0x527D, 0x9997),
  (0x527F, 0x9996),
  (0x5283, 0x8A63),
  (0x5287, 0x8C80_999C_97AB),
  (0x528D, 0x9998),
  (0x5291, 0x999D_999A),
  (0x5294, 0x9999),
  (0x529B, 0x97CD),
  (0x529F, 0x8CF7_89C1),
  (0x52A3, 0x97F2),
  (0x52A9, 0x8F95_9377_8D85_99A0_99A1),
  (0x52B1, 0x97E3),
  (0x52B4, 0x984A_99A3),
  (0x52B9, 0x8CF8),
  (0x52BC, 0x99A2),
  (0x52BE, 0x8A4E),
  (0x52C1, 0x99A4),
  (0x52C3, 0x9675),
  (0x52C5, 0x92BA),
  (0x52C7, 0x9745),
  (0x52C9, 0x95D7),
  (0x52CD, 0x99A5),
  (0x52D2, 0xE8D3),
  (0x52D5, 0x93AE),
  (0x52D7, 0x99A6_8AA8_96B1),
  (0x52DD, 0x8F9F_99A7_95E5_99AB),
  (0x52E2, 0x90A8_99A8_8BCE),
  (0x52E6, 0x99A9_8AA9),
  (0x52F2, 0x8C4D_99AC),
  (0x52F5, 0x99AD),
  (0x52F8, 0x99AE_99AF_8ED9),
  (0x52FE, 0x8CF9_96DC),
  (0x5301, 0x96E6_93F5),
  (0x5305, 0x95EF_99B0),
  (0x5308, 0x99B1),
  (0x530D, 0x99B3),
  (0x530F, 0x99B5_99B4),
  (0x5315, 0x99B6_89BB_966B),
  (0x5319, 0x8DFA_99B7),
  (0x531D, 0x9178),
  (0x5320, 0x8FA0_8BA7),
  (0x5323, 0x99B8),
  (0x532A, 0x94D9),
  (0x532F, 0x99B9),
  (0x5331, 0x99BA),
  (0x5333, 0x99BB),
  (0x5338, 0x99BC_9543_8BE6_88E3),
  (0x533F, 0x93BD_99BD_8F5C),
  (0x5343, 0x90E7),
  (0x5345, 0x99BF_99BE_8FA1_8CDF_99C1_94BC),
  (0x534D, 0x99C2),
  (0x5351, 0x94DA_91B2_91EC_8BA6),
  (0x5357, 0x93EC_9250),
  (0x535A, 0x948E),
  (0x535C, 0x966D),
  (0x535E, 0x99C4),
  (0x5360, 0x90E8),
  (0x5366, 0x8C54),
  (0x5369, 0x99C5),
  (0x536E, 0x99C6_894B_88F3_8AEB),
  (0x5373, 0x91A6_8B70_9791),
  (0x5377, 0x99C9_89B5),
  (0x537B, 0x99C8),
  (0x537F, 0x8BA8),
  (0x5382, 0x99CA),
  (0x5384, 0x96EF),
  (0x5396, 0x99CB),
  (0x5398, 0x97D0),
  (0x539A, 0x8CFA),
  (0x539F, 0x8CB4_99CC),
  (0x53A5, 0x99CE_99CD),
  (0x53A8, 0x907E_8958),
  (0x53AD, 0x897D_99CF),
  (0x53B0, 0x99D0),
  (0x53B3, 0x8CB5),
  (0x53B6, 0x99D1),
  (0x53BB, 0x8B8E),
  (0x53C2, 0x8E51_99D2),
  (0x53C8, 0x9694_8DB3_8B79_9746_916F_94BD_8EFB),
  (0x53D4, 0x8F66),
  (0x53D6, 0x8EE6_8EF3),
  (0x53D9, 0x8F96),
  (0x53DB, 0x94BE),
  (0x53DF, 0x99D5),
  (0x53E1, 0x8962_9170_8CFB_8CC3_8BE5),
  (0x53E8, 0x99D9_9240_91FC_8BA9_8FA2_99DA_99D8_89C2_91E4_8EB6_8E6A_8945),
  (0x53F6, 0x8A90_8D86_8E69),
  (0x53FA, 0x99DB),
  (0x5401, 0x99DC),
  (0x5403, 0x8B68_8A65),
  (0x5408, 0x8D87_8B67_92DD_8944_93AF_96BC_8D40_9799_9366_8CFC),
  (0x541B, 0x8C4E),
  (0x541D, 0x99E5),
  (0x541F, 0x8BE1_9669),
  (0x5426, 0x94DB),
  (0x5429, 0x99E4),
  (0x542B, 0x8ADC_99DF_99E0_99E2),
  (0x5436, 0x99E3),
  (0x5438, 0x8B7A_9081),
  (0x543B, 0x95AB_99E1_99DD_8CE1),
  (0x5440, 0x99DE),
  (0x5442, 0x9843),
  (0x5446, 0x95F0),
  (0x5448, 0x92E6_8CE0_8D90),
  (0x544E, 0x99E6),
  (0x5451, 0x93DB),
  (0x545F, 0x99EA),
  (0x5468, 0x8EFC),
  (0x546A, 0x8EF4),
  (0x5470, 0x99ED_99EB),
  (0x5473, 0x96A1),
  (0x5475, 0x99E8_99F1_99EC),
  (0x547B, 0x99EF_8CC4_96BD),
  (0x5480, 0x99F0),
  (0x5484, 0x99F2),
  (0x5486, 0x99F4),
  (0x548B, 0x8DEE_9861),
  (0x548E, 0x99E9_99E7_99F3),
  (0x5492, 0x99EE),
  (0x54A2, 0x99F6),
  (0x54A4, 0x9A42_99F8),
  (0x54A8, 0x99FC),
  (0x54AB, 0x9A40_99F9),
  (0x54AF, 0x9A5D),
  (0x54B2, 0x8DE7_8A50),
  (0x54B8, 0x99F7),
  (0x54BC, 0x9A44_88F4_9A43),
  (0x54C0, 0x88A3_9569_9A41),
  (0x54C4, 0x99FA),
  (0x54C7, 0x99F5_99FB_8DC6),
  (0x54D8, 0x9A45),
  (0x54E1, 0x88F5_9A4E),
  (0x54E5, 0x9A46_9A47),
  (0x54E8, 0x8FA3_9689),
  (0x54ED, 0x9A4C_9A4B),
  (0x54F2, 0x934E),
  (0x54FA, 0x9A4D),
  (0x54FD, 0x9A4A),
  (0x5504, 0x8953),
  (0x5506, 0x8DB4_904F),
  (0x550F, 0x9A48_9382),
  (0x5514, 0x9A49),
  (0x5516, 0x88A0),
  (0x552E, 0x9A53_9742),
  (0x5531, 0x8FA5),
  (0x5533, 0x9A59),
  (0x5538, 0x9A58_9A4F),
  (0x553E, 0x91C1),
  (0x5540, 0x9A50),
  (0x5544, 0x91ED_9A55_8FA4),
  (0x554C, 0x9A52),
  (0x554F, 0x96E2),
  (0x5553, 0x8C5B),
  (0x5556, 0x9A56_9A57),
  (0x555C, 0x9A54_9A5A),
  (0x5563, 0x9A51),
  (0x557B, 0x9A60_9A65),
  (0x557E, 0x9A61),
  (0x5580, 0x9A5C),
  (0x5583, 0x9A66_9150),
  (0x5587, 0x9A68),
  (0x5589, 0x8D41_9A5E_929D),
  (0x5598, 0x9A62_9A5B_8AAB),
  (0x559C, 0x8AEC_8A85_9A63_9A5F),
  (0x55A7, 0x8C96_9A69_9A67_9172_8B69_8BAA),
  (0x55AE, 0x9A64),
  (0x55B0, 0x8BF2),
  (0x55B6, 0x8963),
  (0x55C4, 0x9A6D_9A6B),
  (0x55C7, 0x9AA5),
  (0x55D4, 0x9A70),
  (0x55DA, 0x9A6A),
  (0x55DC, 0x9A6E),
  (0x55DF, 0x9A6C),
  (0x55E3, 0x8E6B_9A6F),
  (0x55F7, 0x9A72),
  (0x55F9, 0x9A77),
  (0x55FD, 0x9A75_9A74),
  (0x5606, 0x9251),
  (0x5609, 0x89C3),
  (0x5614, 0x9A71),
  (0x5616, 0x9A73_8FA6_8952),
  (0x561B, 0x9A76),
  (0x5629, 0x89DC),
  (0x562F, 0x9A82),
  (0x5631, 0x8FFA_9A7D),
  (0x5634, 0x9A7B),
  (0x5636, 0x9A7C),
  (0x5638, 0x9A7E),
  (0x5642, 0x895C),
  (0x564C, 0x9158),
  (0x564E, 0x9A78),
  (0x5650, 0x9A79),
  (0x565B, 0x8A9A),
  (0x5664, 0x9A81),
  (0x5668, 0x8AED),
  (0x566A, 0x9A84_9A80_9A83),
  (0x5674, 0x95AC),
  (0x5678, 0x93D3),
  (0x567A, 0x94B6),
  (0x5680, 0x9A86),
  (0x5686, 0x9A85_8A64),
  (0x568A, 0x9A87),
  (0x568F, 0x9A8A),
  (0x5694, 0x9A89),
  (0x56A0, 0x9A88),
  (0x56A2, 0x9458),
  (0x56A5, 0x9A8B),
  (0x56AE, 0x9A8C),
  (0x56B4, 0x9A8E),
  (0x56B6, 0x9A8D),
  (0x56BC, 0x9A90),
  (0x56C0, 0x9A93_9A91_9A8F_9A92),
  (0x56C8, 0x9A94),
  (0x56CE, 0x9A95),
  (0x56D1, 0x9A96),
  (0x56D3, 0x9A97),
  (0x56D7, 0x9A98_9964),
  (0x56DA, 0x8EFA_8E6C),
  (0x56DE, 0x89F1),
  (0x56E0, 0x88F6),
  (0x56E3, 0x9263),
  (0x56EE, 0x9A99),
  (0x56F0, 0x8DA2),
  (0x56F2, 0x88CD_907D),
  (0x56F9, 0x9A9A_8CC5),
  (0x56FD, 0x8D91),
  (0x56FF, 0x9A9C_9A9B),
  (0x5703, 0x95DE_9A9D),
  (0x5708, 0x9A9F_9A9E),
  (0x570B, 0x9AA0),
  (0x570D, 0x9AA1),
  (0x570F, 0x8C97),
  (0x5712, 0x8980_9AA2),
  (0x5716, 0x9AA4),
  (0x5718, 0x9AA3),
  (0x571C, 0x9AA6),
  (0x571F, 0x9379),
  (0x5726, 0x9AA7_88B3_8DDD),
  (0x572D, 0x8C5C),
  (0x5730, 0x926E),
  (0x5737, 0x9AA8_9AA9),
  (0x573B, 0x9AAB),
  (0x5740, 0x9AAC),
  (0x5742, 0x8DE2),
  (0x5747, 0x8BCF),
  (0x574A, 0x9656),
  (0x574E, 0x9AAA_9AAD_8DBF_8D42),
  (0x5761, 0x9AB1),
  (0x5764, 0x8DA3),
  (0x5766, 0x9252),
  (0x5769, 0x9AAE_92D8),
  (0x577F, 0x9AB2),
  (0x5782, 0x9082),
  (0x5788, 0x9AB0_9AB3),
  (0x578B, 0x8C5E),
  (0x5793, 0x9AB4),
  (0x57A0, 0x9AB5),
  (0x57A2, 0x8D43_8A5F_9AB7),
  (0x57AA, 0x9AB8),
  (0x57B0, 0x9AB9),
  (0x57B3, 0x9AB6),
  (0x57C0, 0x9AAF),
  (0x57C3, 0x9ABA),
  (0x57C6, 0x9ABB),
  (0x57CB, 0x9684),
  (0x57CE, 0x8FE9),
  (0x57D2, 0x9ABD_9ABE_9ABC),
  (0x57D6, 0x9AC0),
  (0x57DC, 0x9457),
  (0x57DF, 0x88E6_9575),
  (0x57E3, 0x9AC1),
  (0x57F4, 0x8FFB),
  (0x57F7, 0x8EB7),
  (0x57F9, 0x947C_8AEE),
  (0x57FC, 0x8DE9),
  (0x5800, 0x9678),
  (0x5802, 0x93B0),
  (0x5805, 0x8C98_91CD),
  (0x580A, 0x9ABF_9AC2),
  (0x5815, 0x91C2),
  (0x5819, 0x9AC3),
  (0x581D, 0x9AC4),
  (0x5821, 0x9AC6),
  (0x5824, 0x92E7),
  (0x582A, 0x8AAC),
  (0x582F, 0xEA9F_8981_95F1),
  (0x5834, 0x8FEA_9367),
  (0x583A, 0x8DE4),
  (0x583D, 0x9ACC),
  (0x5840, 0x95BB_97DB),
  (0x584A, 0x89F2_9AC8),
  (0x5851, 0x9159_9ACB),
  (0x5854, 0x9383),
  (0x5857, 0x9368_9384_94B7_92CB),
  (0x585E, 0x8DC7),
  (0x5862, 0x9AC7),
  (0x5869, 0x8996),
  (0x586B, 0x9355),
  (0x5870, 0x9AC9),
  (0x5872, 0x9AC5),
  (0x5875, 0x906F),
  (0x5879, 0x9ACD),
  (0x587E, 0x8F6D),
  (0x5883, 0x8BAB),
  (0x5885, 0x9ACE),
  (0x5893, 0x95E6),
  (0x5897, 0x919D),
  (0x589C, 0x92C4),
  (0x589F, 0x9AD0),
  (0x58A8, 0x966E),
  (0x58AB, 0x9AD1),
  (0x58AE, 0x9AD6),
  (0x58B3, 0x95AD),
  (0x58B8, 0x9AD5_9ACF_9AD2_9AD4),
  (0x58BE, 0x8DA4),
  (0x58C1, 0x95C7),
  (0x58C5, 0x9AD7),
  (0x58C7, 0x9264),
  (0x58CA, 0x89F3),
  (0x58CC, 0x8FEB),
  (0x58D1, 0x9AD9),
  (0x58D3, 0x9AD8),
  (0x58D5, 0x8D88),
  (0x58D7, 0x9ADA_9ADC_9ADB),
  (0x58DC, 0x9ADE),
  (0x58DE, 0x9AD3_9AE0),
  (0x58E4, 0x9ADF_9ADD),
  (0x58EB, 0x8E6D_9070),
  (0x58EE, 0x9173_9AE1_90BA_88EB_9484),
  (0x58F7, 0x92D9),
  (0x58F9, 0x9AE3_9AE2_9AE4_9AE5_9AE6),
  (0x5902, 0x9AE7),
  (0x5909, 0x95CF_9AE8),
  (0x590F, 0x89C4_9AE9),
  (0x5915, 0x975B_8A4F),
  (0x5918, 0x99C7_8F67_91BD_9AEA_96E9),
  (0x5922, 0x96B2),
  (0x5925, 0x9AEC),
  (0x5927, 0x91E5),
  (0x5929, 0x9356_91BE_9576_9AED_9AEE_899B),
  (0x5931, 0x8EB8_9AEF),
  (0x5937, 0x88CE_9AF0),
  (0x593E, 0x9AF1),
  (0x5944, 0x8982),
  (0x5947, 0x8AEF_93DE_95F2),
  (0x594E, 0x9AF5_9174_9AF4_8C5F),
  (0x5954, 0x967A_9AF3),
  (0x5957, 0x9385_9AF7),
  (0x595A, 0x9AF6),
  (0x5960, 0x9AF9),
  (0x5962, 0x9AF8),
  (0x5965, 0x899C),
  (0x5967, 0x9AFA_8FA7_9AFC_9244),
  (0x596C, 0x9AFB),
  (0x596E, 0x95B1),
  (0x5973, 0x8F97_937A),
  (0x5978, 0x9B40),
  (0x597D, 0x8D44),
  (0x5981, 0x9B41_9440_94DC_96CF),
  (0x598A, 0x9444),
  (0x598D, 0x9B4A),
  (0x5993, 0x8B57),
  (0x5996, 0x9764),
  (0x5999, 0x96AD),
  (0x599B, 0x9BAA),
  (0x599D, 0x9B42),
  (0x59A3, 0x9B45),
  (0x59A5, 0x91C3),
  (0x59A8, 0x9657),
  (0x59AC, 0x9369),
  (0x59B2, 0x9B46),
  (0x59B9, 0x9685),
  (0x59BB, 0x8DC8),
  (0x59BE, 0x8FA8),
  (0x59C6, 0x9B47),
  (0x59C9, 0x8E6F),
  (0x59CB, 0x8E6E),
  (0x59D0, 0x88B7_8CC6),
  (0x59D3, 0x90A9_88CF),
  (0x59D9, 0x9B4B_9B4C),
  (0x59DC, 0x9B49),
  (0x59E5, 0x8957_8AAD),
  (0x59E8, 0x9B48),
  (0x59EA, 0x96C3_9550),
  (0x59F6, 0x88A6),
  (0x59FB, 0x88F7),
  (0x59FF, 0x8E70),
  (0x5A01, 0x88D0),
  (0x5A03, 0x88A1),
  (0x5A09, 0x9B51),
  (0x5A11, 0x9B4F),
  (0x5A18, 0x96BA),
  (0x5A1A, 0x9B52),
  (0x5A1C, 0x9B50),
  (0x5A1F, 0x9B4E_9050),
  (0x5A25, 0x9B4D),
  (0x5A29, 0x95D8),
  (0x5A2F, 0x8CE2),
  (0x5A35, 0x9B56_9B57),
  (0x5A3C, 0x8FA9),
  (0x5A40, 0x9B53_984B),
  (0x5A46, 0x946B),
  (0x5A49, 0x9B55),
  (0x5A5A, 0x8DA5),
  (0x5A62, 0x9B58),
  (0x5A66, 0x9577),
  (0x5A6A, 0x9B59),
  (0x5A6C, 0x9B54),
  (0x5A7F, 0x96B9),
  (0x5A92, 0x947D),
  (0x5A9A, 0x9B5A_9551),
  (0x5ABC, 0x9B5B_9B5F_9B5C),
  (0x5AC1, 0x89C5_9B5E),
  (0x5AC9, 0x8EB9),
  (0x5ACB, 0x9B5D_8C99),
  (0x5AD0, 0x9B6B),
  (0x5AD6, 0x9B64_9B61),
  (0x5AE1, 0x9284),
  (0x5AE3, 0x9B60),
  (0x5AE6, 0x9B62),
  (0x5AE9, 0x9B63),
  (0x5AFA, 0x9B65_9B66),
  (0x5B09, 0x8AF0),
  (0x5B0B, 0x9B68_9B67),
  (0x5B16, 0x9B69),
  (0x5B22, 0x8FEC),
  (0x5B2A, 0x9B6C),
  (0x5B2C, 0x92DA),
  (0x5B30, 0x8964),
  (0x5B32, 0x9B6A),
  (0x5B36, 0x9B6D),
  (0x5B3E, 0x9B6E),
  (0x5B40, 0x9B71),
  (0x5B43, 0x9B6F),
  (0x5B45, 0x9B70),
  (0x5B50, 0x8E71_9B72),
  (0x5B54, 0x8D45_9B73),
  (0x5B57, 0x8E9A_91B6),
  (0x5B5A, 0x9B74_9B75_8E79_8D46),
  (0x5B5F, 0x96D0),
  (0x5B63, 0x8B47_8CC7_9B76_8A77),
  (0x5B69, 0x9B77),
  (0x5B6B, 0x91B7),
  (0x5B70, 0x9B78_9BA1),
  (0x5B73, 0x9B79),
  (0x5B75, 0x9B7A),
  (0x5B78, 0x9B7B),
  (0x5B7A, 0x9B7D),
  (0x5B80, 0x9B7E),
  (0x5B83, 0x9B80),
  (0x5B85, 0x91EE),
  (0x5B87, 0x8946_8EE7_88C0),
  (0x5B8B, 0x9176_8AAE_8EB3),
  (0x5B8F, 0x8D47),
  (0x5B95, 0x9386),
  (0x5B97, 0x8F40_8AAF_9288_92E8_88B6_8B58_95F3),
  (0x5B9F, 0x8EC0),
  (0x5BA2, 0x8B71_90E9_8EBA_9747_9B81),
  (0x5BAE, 0x8B7B),
  (0x5BB0, 0x8DC9),
  (0x5BB3, 0x8A51_8983_8FAA_89C6),
  (0x5BB8, 0x9B82_9765),
  (0x5BBF, 0x8F68),
  (0x5BC2, 0x8EE2_9B83_8AF1_93D0_96A7_9B84),
  (0x5BC9, 0x9B85),
  (0x5BCC, 0x9578),
  (0x5BD0, 0x9B87),
  (0x5BD2, 0x8AA6_8BF5_9B86),
  (0x5BDB, 0x8AB0),
  (0x5BDD, 0x9051_9B8B_8E40),
  (0x5BE1, 0x89C7_9B8A),
  (0x5BE4, 0x9B88_9B8C_9B89_944A_9ECB_9052),
  (0x5BEB, 0x9B8D),
  (0x5BEE, 0x97BE),
  (0x5BF0, 0x9B8E),
  (0x5BF3, 0x9B90),
  (0x5BF5, 0x929E_9B8F),
  (0x5BF8, 0x90A1),
  (0x5BFA, 0x8E9B),
  (0x5BFE, 0x91CE_8EF5),
  (0x5C01, 0x9595_90EA),
  (0x5C04, 0x8ECB_9B91_8FAB_9B92_9B93_88D1_91B8_9071),
  (0x5C0D, 0x9B94_93B1_8FAC),
  (0x5C11, 0x8FAD),
  (0x5C13, 0x9B95),
  (0x5C16, 0x90EB),
  (0x5C1A, 0x8FAE),
  (0x5C20, 0x9B96),
  (0x5C22, 0x9B97),
  (0x5C24, 0x96DE),
  (0x5C28, 0x9B98),
  (0x5C2D, 0x8BC4),
  (0x5C31, 0x8F41),
  (0x5C38, 0x9B99_9B9A_8EDA_904B_93F2_9073_94F6_9441_8BC7_9B9B),
  (0x5C45, 0x8B8F_9B9C),
  (0x5C48, 0x8BFC),
  (0x5C4A, 0x93CD_89AE),
  (0x5C4D, 0x8E72_9B9D_9BA0_9B9F_8BFB),
  (0x5C53, 0x9B9E),
  (0x5C55, 0x9357),
  (0x5C5E, 0x91AE),
  (0x5C60, 0x936A_8EC6),
  (0x5C64, 0x9177_979A),
  (0x5C6C, 0x9BA2),
  (0x5C6E, 0x9BA3_93D4),
  (0x5C71, 0x8E52),
  (0x5C76, 0x9BA5),
  (0x5C79, 0x9BA6),
  (0x5C8C, 0x9BA7),
  (0x5C90, 0x8AF2_9BA8),
  (0x5C94, 0x9BA9),
  (0x5CA1, 0x89AA),
  (0x5CA8, 0x915A_8AE2),
  (0x5CAB, 0x9BAB_96A6),
  (0x5CB1, 0x91D0),
  (0x5CB3, 0x8A78),
  (0x5CB6, 0x9BAD_9BAF_8ADD),
  (0x5CBB, 0x9BAC_9BAE),
  (0x5CBE, 0x9BB1),
  (0x5CC5, 0x9BB0),
  (0x5CC7, 0x9BB2),
  (0x5CD9, 0x9BB3),
  (0x5CE0, 0x93BB_8BAC),
  (0x5CE8, 0x89E3_9BB4_9BB9),
  (0x5CED, 0x9BB7),
  (0x5CEF, 0x95F5_95F4),
  (0x5CF6, 0x9387),
  (0x5CFA, 0x9BB6_8F73),
  (0x5CFD, 0x9BB5),
  (0x5D07, 0x9092),
  (0x5D0B, 0x9BBA),
  (0x5D0E, 0x8DE8),
  (0x5D11, 0x9BC0),
  (0x5D14, 0x9BC1_9BBB_8A52_9BBC_9BC5_9BC4_9BC3_9BBF),
  (0x5D1F, 0x9BBE),
  (0x5D22, 0x9BC2),
  (0x5D29, 0x95F6),
  (0x5D4B, 0x9BC9_9BC6),
  (0x5D4E, 0x9BC8),
  (0x5D50, 0x9792),
  (0x5D52, 0x9BC7),
  (0x5D5C, 0x9BBD),
  (0x5D69, 0x9093),
  (0x5D6C, 0x9BCA),
  (0x5D6F, 0x8DB5),
  (0x5D73, 0x9BCB),
  (0x5D76, 0x9BCC),
  (0x5D82, 0x9BCF),
  (0x5D84, 0x9BCE),
  (0x5D87, 0x9BCD),
  (0x5D8B, 0x9388_9BB8),
  (0x5D90, 0x9BD5),
  (0x5D9D, 0x9BD1),
  (0x5DA2, 0x9BD0),
  (0x5DAC, 0x9BD2),
  (0x5DAE, 0x9BD3),
  (0x5DB7, 0x9BD6),
  (0x5DBA, 0x97E4),
  (0x5DBC, 0x9BD7_9BD4),
  (0x5DC9, 0x9BD8),
  (0x5DCC, 0x8ADE_9BD9),
  (0x5DD2, 0x9BDB_9BDA),
  (0x5DD6, 0x9BDC),
  (0x5DDB, 0x9BDD),
  (0x5DDD, 0x90EC_8F42),
  (0x5DE1, 0x8F84),
  (0x5DE3, 0x9183),
  (0x5DE5, 0x8D48_8DB6_8D49_8B90),
  (0x5DEB, 0x9BDE),
  (0x5DEE, 0x8DB7),
  (0x5DF1, 0x8CC8_9BDF_96A4_9462_9BE0),
  (0x5DF7, 0x8D4A),
  (0x5DFB, 0x8AAA),
  (0x5DFD, 0x9246_8BD0),
  (0x5E02, 0x8E73_957A),
  (0x5E06, 0x94BF),
  (0x5E0B, 0x9BE1_8AF3),
  (0x5E11, 0x9BE4),
  (0x5E16, 0x929F),
  (0x5E19, 0x9BE3_9BE2_9BE5),
  (0x5E1D, 0x92E9),
  (0x5E25, 0x9083),
  (0x5E2B, 0x8E74),
  (0x5E2D, 0x90C8),
  (0x5E2F, 0x91D1_8B41),
  (0x5E33, 0x92A0),
  (0x5E36, 0x9BE6_9BE7_8FED),
  (0x5E3D, 0x9658),
  (0x5E40, 0x9BEA),
  (0x5E43, 0x9BE9_9BE8_959D),
  (0x5E47, 0x9BF1),
  (0x5E4C, 0x9679),
  (0x5E4E, 0x9BEB),
  (0x5E54, 0x9BED_968B),
  (0x5E57, 0x9BEC),
  (0x5E5F, 0x9BEE),
  (0x5E61, 0x94A6_9BEF_95BC_9BF0),
  (0x5E72, 0x8AB1_95BD_944E_9BF2_9BF3),
  (0x5E78, 0x8D4B_8AB2_9BF4_8CB6_9763_9748_8AF4_9BF6),
  (0x5E81, 0x92A1),
  (0x5E83, 0x8D4C_8FAF),
  (0x5E87, 0x94DD),
  (0x5E8A, 0x8FB0),
  (0x5E8F, 0x8F98),
  (0x5E95, 0x92EA_95F7_9358),
  (0x5E9A, 0x8D4D),
  (0x5E9C, 0x957B),
  (0x5EA0, 0x9BF7),
  (0x5EA6, 0x9378_8DC0),
  (0x5EAB, 0x8CC9),
  (0x5EAD, 0x92EB),
  (0x5EB5, 0x88C1_8F8E_8D4E_9766),
  (0x5EC1, 0x9BF8_9BF9_9470),
  (0x5EC8, 0x9BFA_97F5_984C),
  (0x5ECF, 0x9BFC_9BFB),
  (0x5ED3, 0x8A66),
  (0x5ED6, 0x9C40),
  (0x5EDA, 0x9C43_9C44),
  (0x5EDD, 0x9C42),
  (0x5EDF, 0x955F_8FB1_9C46_9C45_9C41),
  (0x5EE8, 0x9C47_9C48),
  (0x5EEC, 0x9C49),
  (0x5EF0, 0x9C4C_9C4A),
  (0x5EF3, 0x9C4B_9C4D),
  (0x5EF6, 0x8984_92EC_9C4E),
  (0x5EFA, 0x8C9A_89F4_9455),
  (0x5EFE, 0x9C4F_93F9),
  (0x5F01, 0x95D9),
  (0x5F03, 0x9C50_984D),
  (0x5F09, 0x9C51_95BE_9C54_989F_98AF),
  (0x5F0F, 0x8EAE_93F3_9C55),
  (0x5F13, 0x8B7C_92A2_88F8_9C56_95A4_8D4F),
  (0x5F1B, 0x926F),
  (0x5F1F, 0x92ED),
  (0x5F25, 0x96ED_8CB7_8CCA),
  (0x5F29, 0x9C57),
  (0x5F2D, 0x9C58),
  (0x5F2F, 0x9C5E),
  (0x5F31, 0x8EE3),
  (0x5F35, 0x92A3),
  (0x5F37, 0x8BAD_9C59),
  (0x5F3C, 0x954A),
  (0x5F3E, 0x9265),
  (0x5F41, 0x9C5A),
  (0x5F48, 0x9C5B),
  (0x5F4A, 0x8BAE),
  (0x5F4C, 0x9C5C),
  (0x5F4E, 0x9C5D),
  (0x5F51, 0x9C5F),
  (0x5F53, 0x9396),
  (0x5F56, 0x9C60_9C61),
  (0x5F59, 0x9C62),
  (0x5F5C, 0x9C53_9C52),
  (0x5F61, 0x9C63_8C60),
  (0x5F66, 0x9546),
  (0x5F69, 0x8DCA_9556_92A4_956A_9C64),
  (0x5F70, 0x8FB2_8965),
  (0x5F73, 0x9C65),
  (0x5F77, 0x9C66),
  (0x5F79, 0x96F0),
  (0x5F7C, 0x94DE),
  (0x5F7F, 0x9C69_899D_90AA_9C68_9C67_8C61_91D2),
  (0x5F87, 0x9C6D_9C6B),
  (0x5F8A, 0x9C6A_97A5_8CE3),
  (0x5F90, 0x8F99_9C6C_936B_8F5D),
  (0x5F97, 0x93BE_9C70_9C6F),
  (0x5F9E, 0x9C6E),
  (0x5FA0, 0x9C71_8CE4),
  (0x5FA8, 0x9C72_959C_8F7A),
  (0x5FAD, 0x9C73_94F7),
  (0x5FB3, 0x93BF_92A5),
  (0x5FB9, 0x934F),
  (0x5FBC, 0x9C74_8B4A),
  (0x5FC3, 0x9053),
  (0x5FC5, 0x954B),
  (0x5FCC, 0x8AF5_9445),
  (0x5FD6, 0x9C75_8E75_9659_965A),
  (0x5FDC, 0x899E_9C7A),
  (0x5FE0, 0x9289),
  (0x5FE4, 0x9C77),
  (0x5FEB, 0x89F5),
  (0x5FF0, 0x9CAB_9C79),
  (0x5FF5, 0x944F),
  (0x5FF8, 0x9C78),
  (0x5FFB, 0x9C76),
  (0x5FFD, 0x8D9A),
  (0x5FFF, 0x9C7C),
  (0x600E, 0x9C83_9C89_9C81),
  (0x6012, 0x937B),
  (0x6015, 0x9C86_957C),
  (0x6019, 0x9C80),
  (0x601B, 0x9C85_97E5_8E76),
  (0x6020, 0x91D3_9C7D),
  (0x6025, 0x8B7D_9C88_90AB_8985_9C82_89F6_9C87),
  (0x602F, 0x8BAF),
  (0x6031, 0x9C84),
  (0x603A, 0x9C8A),
  (0x6041, 0x9C8C_9C96_9C94),
  (0x6046, 0x9C91),
  (0x604A, 0x9C90_97F6),
  (0x604D, 0x9C92),
  (0x6050, 0x8BB0),
  (0x6052, 0x8D50),
  (0x6055, 0x8F9A),
  (0x6059, 0x9C99_9C8B),
  (0x605F, 0x9C8F_9C7E),
  (0x6062, 0x89F8_9C93_9C95_9270),
  (0x6068, 0x8DA6_89B6_9C8D_9C98_9C97_8BB1),
  (0x606F, 0x91A7_8A86),
  (0x6075, 0x8C62),
  (0x6077, 0x9C8E),
  (0x6081, 0x9C9A),
  (0x6083, 0x9C9D_9C9F),
  (0x6089, 0x8EBB),
  (0x608B, 0x9CA5_92EE_9C9B),
  (0x6092, 0x9CA3),
  (0x6094, 0x89F7),
  (0x6096, 0x9CA1_9CA2),
  (0x609A, 0x9C9E_9CA0),
  (0x609F, 0x8CE5_9749),
  (0x60A3, 0x8AB3),
  (0x60A6, 0x8978_9CA4),
  (0x60A9, 0x9459_88AB),
  (0x60B2, 0x94DF_9C7B_9CAA_9CAE_96E3),
  (0x60B8, 0x9CA7),
  (0x60BC, 0x9389_9CAC),
  (0x60C5, 0x8FEE_9CAD_93D5),
  (0x60D1, 0x9866),
  (0x60D3, 0x9CA9),
  (0x60D8, 0x9CAF),
  (0x60DA, 0x8D9B),
  (0x60DC, 0x90C9),
  (0x60DF, 0x88D2_9CA8_9CA6),
  (0x60E3, 0x9179),
  (0x60E7, 0x9C9C_8E53),
  (0x60F0, 0x91C4_9CBB),
  (0x60F3, 0x917A_9CB6),
  (0x60F6, 0x9CB3_9CB4),
  (0x60F9, 0x8EE4_9CB7_9CBA),
  (0x6100, 0x9CB5_8F44),
  (0x6103, 0x9CB8),
  (0x6106, 0x9CB2),
  (0x6108, 0x96FA_96F9),
  (0x610D, 0x9CBC_9CBD_88D3),
  (0x6115, 0x9CB1),
  (0x611A, 0x8BF0_88A4),
  (0x611F, 0x8AB4),
  (0x6121, 0x9CB9),
  (0x6127, 0x9CC1_9CC0),
  (0x612C, 0x9CC5),
  (0x6134, 0x9CC6),
  (0x613C, 0x9CC4_9CC7_9CBF_9CC3),
  (0x6142, 0x9CC8),
  (0x6144, 0x9CC9),
  (0x6147, 0x9CBE_8E9C),
  (0x614A, 0x9CC2_91D4_8D51_9CB0_9054),
  (0x6153, 0x9CD6),
  (0x6155, 0x95E7),
  (0x6158, 0x9CCC_9CCD_9CCE),
  (0x615D, 0x9CD5),
  (0x615F, 0x9CD4),
  (0x6162, 0x969D_8AB5),
  (0x6165, 0x9CD2),
  (0x6167, 0x8C64_8A53),
  (0x616B, 0x9CCF),
  (0x616E, 0x97B6_9CD1_88D4_9CD3),
  (0x6173, 0x9CCA_9CD0_9CD7_8C63_9CCB),
  (0x617E, 0x977C),
  (0x6182, 0x974A),
  (0x6187, 0x9CDA),
  (0x618A, 0x9CDE),
  (0x618E, 0x919E),
  (0x6190, 0x97F7_9CDF),
  (0x6194, 0x9CDC),
  (0x6196, 0x9CD9),
  (0x6199, 0x9CD8_9CDD),
  (0x61A4, 0x95AE),
  (0x61A7, 0x93B2),
  (0x61A9, 0x8C65),
  (0x61AB, 0x9CE0_9CDB),
  (0x61AE, 0x9CE1),
  (0x61B2, 0x8C9B),
  (0x61B6, 0x89AF),
  (0x61BA, 0x9CE9),
  (0x61BE, 0x8AB6),
  (0x61C3, 0x9CE7),
  (0x61C6, 0x9CE8_8DA7_9CE6_9CE4_9CE3_9CEA_9CE2_9CEC),
  (0x61D0, 0x89F9),
  (0x61E3, 0x9CEE),
  (0x61E6, 0x9CED),
  (0x61F2, 0x92A6),
  (0x61F4, 0x9CF1),
  (0x61F6, 0x9CEF_9CE5_8C9C),
  (0x61FA, 0x9CF0),
  (0x61FC, 0x9CF4_9CF3_9CF5_9CF2_9CF6),
  (0x6208, 0x9CF7_9CF8_95E8),
  (0x620C, 0x9CFA_9CF9_8F5E),
  (0x6210, 0x90AC_89E4_89FA),
  (0x6214, 0x9CFB),
  (0x6216, 0x88BD),
  (0x621A, 0x90CA_9CFC),
  (0x621D, 0xE6C1_9D40_8C81),
  (0x6221, 0x9D41),
  (0x6226, 0x90ED),
  (0x622A, 0x9D42),
  (0x622E, 0x9D43_8B59_9D44),
  (0x6232, 0x9D45_9D46_91D5),
  (0x6238, 0x8CCB),
  (0x623B, 0x96DF),
  (0x623F, 0x965B_8F8A_9D47),
  (0x6247, 0x90EE_E7BB_94E0),
  (0x624B, 0x8EE8),
  (0x624D, 0x8DCB_9D48),
  (0x6253, 0x91C5),
  (0x6255, 0x95A5),
  (0x6258, 0x91EF),
  (0x625B, 0x9D4B),
  (0x625E, 0x9D49),
  (0x6260, 0x9D4C),
  (0x6263, 0x9D4A),
  (0x6268, 0x9D4D),
  (0x626E, 0x95AF),
  (0x6271, 0x88B5),
  (0x6276, 0x957D),
  (0x6279, 0x94E1),
  (0x627C, 0x9D4E),
  (0x627E, 0x9D51_8FB3_8B5A),
  (0x6282, 0x9D4F_9D56_8FB4),
  (0x6289, 0x9D50_9463),
  (0x6291, 0x977D_9D52_9D53_9D57_938A_9D54_8D52_90DC),
  (0x629B, 0x9D65_94B2),
  (0x629E, 0x91F0),
  (0x62AB, 0x94E2_9DAB),
  (0x62B1, 0x95F8),
  (0x62B5, 0x92EF),
  (0x62B9, 0x9695),
  (0x62BB, 0x9D5A_899F_928A),
  (0x62C2, 0x9D63),
  (0x62C5, 0x9253_9D5D_9D64_9D5F_9D66_9D62),
  (0x62CC, 0x9D61_948F),
  (0x62CF, 0x9D5B_89FB_9D59_8B91_91F1_9D55),
  (0x62D7, 0x9D58_8D53_90D9),
  (0x62DB, 0x8FB5_9D60_9471),
  (0x62E0, 0x8B92_8A67),
  (0x62EC, 0x8A87_9040_9D68_9D6D),
  (0x62F1, 0x9D69),
  (0x62F3, 0x8C9D),
  (0x62F5, 0x9D6E_8E41_8D89),
  (0x62FE, 0x8F45_9D5C),
  (0x6301, 0x8E9D_9D6B),
  (0x6307, 0x8E77_9D6C_88C2),
  (0x630C, 0x9D67),
  (0x6311, 0x92A7),
  (0x6319, 0x8B93),
  (0x631F, 0x8BB2),
  (0x6327, 0x9D6A_88A5),
  (0x632B, 0x8DC1),
  (0x632F, 0x9055),
  (0x633A, 0x92F0),
  (0x633D, 0x94D2_9D70_917D),
  (0x6349, 0x91A8),
  (0x634C, 0x8E4A_9D71),
  (0x634F, 0x9D73_9D6F),
  (0x6355, 0x95DF),
  (0x6357, 0x92BB),
  (0x635C, 0x917B),
  (0x6367, 0x95F9_8ECC_9D80),
  (0x636B, 0x9D7E),
  (0x636E, 0x9098),
  (0x6372, 0x8C9E),
  (0x6376, 0x9D78_8FB7),
  (0x637A, 0x93E6_9450),
  (0x6380, 0x9D76),
  (0x6383, 0x917C),
  (0x6388, 0x8EF6_9D7B),
  (0x638C, 0x8FB6),
  (0x638E, 0x9D75_9D7A),
  (0x6392, 0x9472),
  (0x6396, 0x9D74),
  (0x6398, 0x8C40),
  (0x639B, 0x8A7C),
  (0x639F, 0x9D7C_97A9_8DCC_9254_9D79),
  (0x63A5, 0x90DA),
  (0x63A7, 0x8D54_9084_8986_915B_9D77_8B64),
  (0x63B2, 0x8C66),
  (0x63B4, 0x92CD_9D7D),
  (0x63BB, 0x917E),
  (0x63BE, 0x9D81),
  (0x63C0, 0x9D83),
  (0x63C3, 0x91B5_9D89),
  (0x63C6, 0x9D84),
  (0x63C9, 0x9D86),
  (0x63CF, 0x9560_92F1),
  (0x63D2, 0x9D87),
  (0x63D6, 0x974B),
  (0x63DA, 0x9767_8AB7),
  (0x63E1, 0x88AC),
  (0x63E3, 0x9D85),
  (0x63E9, 0x9D82),
  (0x63EE, 0x8AF6),
  (0x63F4, 0x8987),
  (0x63F6, 0x9D88),
  (0x63FA, 0x9768),
  (0x6406, 0x9D8C),
  (0x640D, 0x91B9),
  (0x640F, 0x9D93),
  (0x6413, 0x9D8D),
  (0x6416, 0x9D8A_9D91),
  (0x641C, 0x9D72),
  (0x6426, 0x9D8E),
  (0x6428, 0x9D92),
  (0x642C, 0x94C0_938B),
  (0x6434, 0x9D8B),
  (0x6436, 0x9D8F),
  (0x643A, 0x8C67),
  (0x643E, 0x8DEF),
  (0x6442, 0x90DB),
  (0x644E, 0x9D97),
  (0x6458, 0x9345),
  (0x6467, 0x9D94),
  (0x6469, 0x9680),
  (0x646F, 0x9D95),
  (0x6476, 0x9D96),
  (0x6478, 0x96CC),
  (0x647A, 0x90A0),
  (0x6483, 0x8C82),
  (0x6488, 0x9D9D),
  (0x6492, 0x8E54_9D9A),
  (0x6495, 0x9D99),
  (0x649A, 0x9451),
  (0x649E, 0x93B3),
  (0x64A4, 0x9350_9D9B),
  (0x64A9, 0x9D9C),
  (0x64AB, 0x958F),
  (0x64AD, 0x9464_8E42),
  (0x64B0, 0x90EF),
  (0x64B2, 0x966F),
  (0x64B9, 0x8A68),
  (0x64BB, 0x9DA3_9D9E),
  (0x64C1, 0x9769_9DA5),
  (0x64C5, 0x9DA1),
  (0x64C7, 0x9DA2),
  (0x64CD, 0x9180),
  (0x64D2, 0x9DA0),
  (0x64D4, 0x9D5E),
  (0x64D8, 0x9DA4),
  (0x64DA, 0x9D9F),
  (0x64E0, 0x9DA9_9DAA_9346_9DAC),
  (0x64E6, 0x8E43_9DA7),
  (0x64EC, 0x8B5B),
  (0x64EF, 0x9DAD),
  (0x64F1, 0x9DA6_9DB1),
  (0x64F4, 0x9DB0),
  (0x64F6, 0x9DAF),
  (0x64FA, 0x9DB2),
  (0x64FD, 0x9DB4_8FEF),
  (0x6500, 0x9DB3),
  (0x6505, 0x9DB7),
  (0x6518, 0x9DB5),
  (0x651C, 0x9DB6_9D90),
  (0x6523, 0x9DB9_9DB8),
  (0x652A, 0x9D98_9DBA_9DAE),
  (0x652F, 0x8E78),
  (0x6534, 0x9DBB_9DBC_9DBE_9DBD_9DBF_89FC),
  (0x653B, 0x8D55),
  (0x653E, 0x95FA_90AD),
  (0x6545, 0x8CCC),
  (0x6548, 0x9DC1),
  (0x654D, 0x9DC4),
  (0x654F, 0x9571),
  (0x6551, 0x8B7E),
  (0x6555, 0x9DC3_9DC2_9473_9DC5_8BB3),
  (0x655D, 0x9DC7_9DC6),
  (0x6562, 0x8AB8_8E55),
  (0x6566, 0x93D6),
  (0x656C, 0x8C68),
  (0x6570, 0x9094),
  (0x6572, 0x9DC8),
  (0x6574, 0x90AE_9347),
  (0x6577, 0x957E_9DC9),
  (0x6582, 0x9DCA_9DCB),
  (0x6587, 0x95B6_9B7C_90C4),
  (0x658C, 0x956B),
  (0x658E, 0x8DD6),
  (0x6590, 0x94E3_94C1),
  (0x6597, 0x936C),
  (0x6599, 0x97BF),
  (0x659B, 0x9DCD_8ECE),
  (0x659F, 0x9DCE),
  (0x65A1, 0x88B4),
  (0x65A4, 0x8BD2_90CB),
  (0x65A7, 0x9580),
  (0x65AB, 0x9DCF_8E61_9266),
  (0x65AF, 0x8E7A_9056),
  (0x65B7, 0x9DD0),
  (0x65B9, 0x95FB),
  (0x65BC, 0x8997_8E7B),
  (0x65C1, 0x9DD3),
  (0x65C3, 0x9DD1_9DD4_97B7_9DD2),
  (0x65CB, 0x90F9_9DD5),
  (0x65CF, 0x91B0),
  (0x65D2, 0x9DD6),
  (0x65D7, 0x8AF8),
  (0x65D9, 0x9DD8),
  (0x65DB, 0x9DD7),
  (0x65E0, 0x9DD9_9DDA_8AF9),
  (0x65E5, 0x93FA_9255_8B8C_8E7C_9181),
  (0x65EC, 0x8F7B_88AE),
  (0x65F1, 0x9DDB),
  (0x65FA, 0x89A0_9DDF),
  (0x6602, 0x8D56_9DDE),
  (0x6606, 0x8DA9_8FB8),
  (0x660A, 0x9DDD),
  (0x660C, 0x8FB9),
  (0x660E, 0x96BE_8DA8),
  (0x6613, 0x88D5_90CC),
  (0x661C, 0x9DE4),
  (0x661F, 0x90AF_8966),
  (0x6625, 0x8F74),
  (0x6627, 0x9686_8DF0),
  (0x662D, 0x8FBA),
  (0x662F, 0x90A5),
  (0x6634, 0x9DE3_9DE1_9DE2),
  (0x663C, 0x928B),
  (0x663F, 0x9E45),
  (0x6641, 0x9DE8_8E9E_8D57_9DE6),
  (0x6649, 0x9DE7),
  (0x664B, 0x9057),
  (0x664F, 0x9DE5),
  (0x6652, 0x8E4E),
  (0x665D, 0x9DEA_9DE9_9DEE),
  (0x6662, 0x9DEF),
  (0x6664, 0x9DEB),
  (0x6666, 0x8A41_9DEC_9DED_94D3),
  (0x666E, 0x9581_8C69_9DF0),
  (0x6674, 0x90B0),
  (0x6676, 0x8FBB),
  (0x667A, 0x9271),
  (0x6681, 0x8BC5),
  (0x6683, 0x9DF1_9DF5),
  (0x6687, 0x89C9_9DF2_9DF4),
  (0x668E, 0x9DF3),
  (0x6691, 0x8F8B),
  (0x6696, 0x9267_88C3_9DF6),
  (0x669D, 0x9DF7),
  (0x66A2, 0x92A8),
  (0x66A6, 0x97EF),
  (0x66AB, 0x8E62),
  (0x66AE, 0x95E9),
  (0x66B4, 0x965C),
  (0x66B8, 0x9E41_9DF9),
  (0x66BC, 0x9DFC),
  (0x66BE, 0x9DFB),
  (0x66C1, 0x9DF8),
  (0x66C4, 0x9E40),
  (0x66C7, 0x93DC),
  (0x66C9, 0x9DFA),
  (0x66D6, 0x9E42),
  (0x66D9, 0x8F8C_9E43),
  (0x66DC, 0x976A_9498),
  (0x66E0, 0x9E44),
  (0x66E6, 0x9E46),
  (0x66E9, 0x9E47),
  (0x66F0, 0x9E48),
  (0x66F2, 0x8BC8_8967_8D58_9E49),
  (0x66F7, 0x9E4A_8F91_9182),
  (0x66FC, 0x99D6_915D_915C_91D6_8DC5),
  (0x6703, 0x98F0),
  (0x6708, 0x8C8E_974C),
  (0x670B, 0x95FC),
  (0x670D, 0x959E),
  (0x670F, 0x9E4B),
  (0x6714, 0x8DF1_92BD_9E4C_984E),
  (0x671B, 0x965D),
  (0x671D, 0x92A9_9E4D_8AFA),
  (0x6726, 0x9E4E_9E4F_96D8),
  (0x672A, 0x96A2_9696_967B_8E44_9E51),
  (0x6731, 0x8EE9),
  (0x6734, 0x9670),
  (0x6736, 0x9E53_9E56_9E55),
  (0x673A, 0x8AF7),
  (0x673D, 0x8B80),
  (0x673F, 0x9E52),
  (0x6741, 0x9E54),
  (0x6746, 0x9E57),
  (0x6749, 0x9099),
  (0x674E, 0x979B_88C7_8DDE_91BA),
  (0x6753, 0x8EDB),
  (0x6756, 0x8FF1),
  (0x6759, 0x9E5A),
  (0x675C, 0x936D),
  (0x675E, 0x9E58_91A9_9E59_8FF0_96DB_9E5B_9E5C_9788),
  (0x676A, 0x9E61),
  (0x676D, 0x8D59),
  (0x676F, 0x9474_9E5E_938C_9DDC_9DE0),
  (0x6775, 0x8B6E),
  (0x6777, 0x9466),
  (0x677C, 0x9E60),
  (0x677E, 0x8FBC_94C2),
  (0x6785, 0x9E66),
  (0x6787, 0x94F8),
  (0x6789, 0x9E5D),
  (0x678B, 0x9E63_9E62),
  (0x6790, 0x90CD),
  (0x6795, 0x968D),
  (0x6797, 0x97D1),
  (0x679A, 0x9687),
  (0x679C, 0x89CA_8E7D),
  (0x67A0, 0x9867_9E65_9095),
  (0x67A6, 0x9E64),
  (0x67A9, 0x9E5F),
  (0x67AF, 0x8CCD),
  (0x67B3, 0x9E6B_9E69),
  (0x67B6, 0x89CB_9E67_9E6D_9E73),
  (0x67C1, 0x91C6),
  (0x67C4, 0x95BF),
  (0x67C6, 0x9E75),
  (0x67CA, 0x9541),
  (0x67CE, 0x9E74_9490_965E_8AB9),
  (0x67D3, 0x90F5_8F5F),
  (0x67D8, 0x92D1),
  (0x67DA, 0x974D),
  (0x67DD, 0x9E70_9E6F),
  (0x67E2, 0x9E71),
  (0x67E4, 0x9E6E),
  (0x67E7, 0x9E76),
  (0x67E9, 0x9E6C),
  (0x67EC, 0x9E6A),
  (0x67EE, 0x9E72_9E68),
  (0x67F1, 0x928C),
  (0x67F3, 0x96F6_8EC4_8DF2),
  (0x67FB, 0x8DB8),
  (0x67FE, 0x968F_8A60),
  (0x6802, 0x92CC_93C8_8968),
  (0x6813, 0x90F0),
  (0x6816, 0x90B2_8C49),
  (0x681E, 0x9E78),
  (0x6821, 0x8D5A_8A9C),
  (0x6829, 0x9E7A_8A94_9E81),
  (0x6832, 0x9E7D),
  (0x6834, 0x90F1),
  (0x6838, 0x8A6A_8DAA),
  (0x683C, 0x8A69_8DCD),
  (0x6840, 0x9E7B_8C85_8C6A_938D),
  (0x6846, 0x9E79),
  (0x6848, 0x88C4),
  (0x684D, 0x9E7C_9E7E),
  (0x6850, 0x8BCB_8C4B),
  (0x6853, 0x8ABA_8B6A),
  (0x6859, 0x9E82),
  (0x685C, 0x8DF7_9691),
  (0x685F, 0x8E56),
  (0x6863, 0x9E83),
  (0x6867, 0x954F),
  (0x6874, 0x9E8F),
  (0x6876, 0x89B1_9E84),
  (0x687E, 0x9E95_9E85),
  (0x6881, 0x97C0),
  (0x6883, 0x9E8C),
  (0x6885, 0x947E),
  (0x688D, 0x9E94),
  (0x688F, 0x9E87),
  (0x6893, 0x88B2_9E89),
  (0x6897, 0x8D5B),
  (0x689B, 0x9E8B),
  (0x689D, 0x9E8A),
  (0x689F, 0x9E86_9E91),
  (0x68A2, 0x8FBD),
  (0x68A6, 0x9AEB_8CE6_979C),
  (0x68AD, 0x9E88),
  (0x68AF, 0x92F2_8A42_8DAB),
  (0x68B3, 0x9E80),
  (0x68B5, 0x9E90_8A81),
  (0x68B9, 0x9E8E_9E92),
  (0x68BC, 0x938E),
  (0x68C4, 0x8AFC),
  (0x68C6, 0x9EB0),
  (0x68C9, 0x96C7_9E97_8AFB),
  (0x68CD, 0x9E9E),
  (0x68D2, 0x965F),
  (0x68D4, 0x9E9F_9EA1),
  (0x68D7, 0x9EA5_9E99),
  (0x68DA, 0x9249),
  (0x68DF, 0x938F_9EA9_9E9C),
  (0x68E3, 0x9EA6),
  (0x68E7, 0x9EA0),
  (0x68EE, 0x9058_9EAA),
  (0x68F2, 0x90B1),
  (0x68F9, 0x9EA8_8ABB),
  (0x6900, 0x986F_9E96),
  (0x6904, 0x9EA4_88D6),
  (0x6908, 0x9E98),
  (0x690B, 0x96B8_9E9D_9041_92C5_9E93),
  (0x6912, 0x9EA3),
  (0x6919, 0x909A_9EAD_8A91_8C9F),
  (0x6921, 0x9EAF_9E9A_9EAE),
  (0x6925, 0x9EA7_9E9B),
  (0x6928, 0x9EAB),
  (0x692A, 0x9EAC),
  (0x6930, 0x9EBD),
  (0x6934, 0x93CC),
  (0x6936, 0x9EA2),
  (0x6939, 0x9EB9),
  (0x693D, 0x9EBB),
  (0x693F, 0x92D6),
  (0x694A, 0x976B),
  (0x6953, 0x9596_9EB6_91C8),
  (0x6959, 0x9EBC_915E),
  (0x695C, 0x9EB3_9EC0_9EBF),
  (0x6960, 0x93ED_9EBE_93E8),
  (0x696A, 0x9EC2_9EB5),
  (0x696D, 0x8BC6_9EB8_8F7C),
  (0x6973, 0x9480_9EBA_8BC9),
  (0x6977, 0x9EB2_9EB4_9EB1),
  (0x697C, 0x984F_8A79_9EB7),
  (0x6981, 0x9EC1_8A54),
  (0x698A, 0x8DE5),
  (0x698E, 0x897C),
  (0x6991, 0x9ED2),
  (0x6994, 0x9850_9ED5),
  (0x699B, 0x9059_9ED4),
  (0x69A0, 0x9ED3),
  (0x69A7, 0x9ED0),
  (0x69AE, 0x9EC4),
  (0x69B1, 0x9EE1_9EC3),
  (0x69B4, 0x9ED6),
  (0x69BB, 0x9ECE),
  (0x69BE, 0x9EC9_9EC6),
  (0x69C1, 0x9EC7),
  (0x69C3, 0x9ECF),
  (0x69C7, 0xEAA0),
  (0x69CA, 0x9ECC_8D5C_92C6_9184_9ECA),
  (0x69D0, 0x9EC5),
  (0x69D3, 0x9EC8),
  (0x69D8, 0x976C_968A),
  (0x69DD, 0x9ECD_9ED7),
  (0x69E7, 0x9EDF_9ED8),
  (0x69EB, 0x9EE5),
  (0x69ED, 0x9EE3),
  (0x69F2, 0x9EDE),
  (0x69F9, 0x9EDD),
  (0x69FB, 0x92CE),
  (0x69FD, 0x9185),
  (0x69FF, 0x9EDB),
  (0x6A02, 0x9ED9),
  (0x6A05, 0x9EE0),
  (0x6A0A, 0x9EE6_94F3_9EEC),
  (0x6A12, 0x9EE7_9EEA_9EE4),
  (0x6A17, 0x9294),
  (0x6A19, 0x9557),
  (0x6A1B, 0x9EDA),
  (0x6A1E, 0x9EE2_8FBE),
  (0x6A21, 0x96CD_9EF6_9EE9),
  (0x6A29, 0x8CA0_89A1_8A7E),
  (0x6A2E, 0x9ED1),
  (0x6A35, 0x8FBF_9EEE),
  (0x6A38, 0x9EF5_8EF7_8A92),
  (0x6A3D, 0x924D),
  (0x6A44, 0x9EEB),
  (0x6A47, 0x9EF0_9EF4),
  (0x6A4B, 0x8BB4),
  (0x6A58, 0x8B6B_9EF2),
  (0x6A5F, 0x8B40),
  (0x6A61, 0x93C9_9EF1),
  (0x6A66, 0x9EF3),
  (0x6A72, 0x9EED),
  (0x6A78, 0x9EEF),
  (0x6A7F, 0x8A80_9268),
  (0x6A84, 0x9EFA),
  (0x6A8D, 0x9EF8_8CE7),
  (0x6A90, 0x9EF7),
  (0x6A97, 0x9F40),
  (0x6A9C, 0x9E77),
  (0x6AA0, 0x9EF9),
  (0x6AA2, 0x9EFB_9EFC),
  (0x6AAA, 0x9F4B),
  (0x6AAC, 0x9F47),
  (0x6AAE, 0x9E8D),
  (0x6AB3, 0x9F46),
  (0x6AB8, 0x9F45),
  (0x6ABB, 0x9F42),
  (0x6AC1, 0x9EE8_9F44_9F43),
  (0x6AD1, 0x9F49),
  (0x6AD3, 0x9845),
  (0x6ADA, 0x9F4C_8BF9),
  (0x6ADE, 0x9F48_9F4A),
  (0x6AE8, 0x94A5),
  (0x6AEA, 0x9F4D),
  (0x6AFA, 0x9F51_9F4E),
  (0x6B04, 0x9793_9F4F),
  (0x6B0A, 0x9EDC),
  (0x6B12, 0x9F52),
  (0x6B16, 0x9F53),
  (0x6B1D, 0x8954),
  (0x6B1F, 0x9F55_8C87_8E9F),
  (0x6B23, 0x8BD3),
  (0x6B27, 0x89A2),
  (0x6B32, 0x977E),
  (0x6B37, 0x9F57_9F56_9F59_8B5C),
  (0x6B3D, 0x8BD4_8ABC),
  (0x6B43, 0x9F5C),
  (0x6B47, 0x9F5B),
  (0x6B49, 0x9F5D),
  (0x6B4C, 0x89CC),
  (0x6B4E, 0x9256),
  (0x6B50, 0x9F5E),
  (0x6B53, 0x8ABD_9F60),
  (0x6B59, 0x9F5F),
  (0x6B5B, 0x9F61),
  (0x6B5F, 0x9F62),
  (0x6B61, 0x9F63_8E7E_90B3_8D9F),
  (0x6B66, 0x9590),
  (0x6B69, 0x95E0_9863),
  (0x6B6F, 0x8E95),
  (0x6B73, 0x8DCE_97F0),
  (0x6B78, 0x9F64_9F65),
  (0x6B7B, 0x8E80),
  (0x6B7F, 0x9F66_9F67),
  (0x6B83, 0x9F69_9F68),
  (0x6B86, 0x9677),
  (0x6B89, 0x8F7D_8EEA_8E63),
  (0x6B8D, 0x9F6A),
  (0x6B95, 0x9F6C_9042),
  (0x6B98, 0x9F6B),
  (0x6B9E, 0x9F6D),
  (0x6BA4, 0x9F6E),
  (0x6BAA, 0x9F6F_9F70),
  (0x6BAF, 0x9F71),
  (0x6BB1, 0x9F73_9F72_9F74_89A3_9269),
  (0x6BB7, 0x9F75),
  (0x6BBA, 0x8E45_8A6B_9F76),
  (0x6BBF, 0x9361_9ACA),
  (0x6BC5, 0x8B42_9F77),
  (0x6BCB, 0x9F78),
  (0x6BCD, 0x95EA_9688),
  (0x6BD2, 0x93C5_9F79_94E4),
  (0x6BD8, 0x94F9),
  (0x6BDB, 0x96D1),
  (0x6BDF, 0x9F7A),
  (0x6BEB, 0x9F7C_9F7B),
  (0x6BEF, 0x9F7E),
  (0x6BF3, 0x9F7D),
  (0x6C08, 0x9F81),
  (0x6C0F, 0x8E81),
  (0x6C11, 0x96AF),
  (0x6C13, 0x9F82_9F83),
  (0x6C17, 0x8B43),
  (0x6C1B, 0x9F84),
  (0x6C23, 0x9F86_9F85),
  (0x6C34, 0x9085),
  (0x6C37, 0x9558_8969),
  (0x6C3E, 0x94C3),
  (0x6C40, 0x92F3_8F60_8B81),
  (0x6C4E, 0x94C4),
  (0x6C50, 0x8EAC),
  (0x6C55, 0x9F88),
  (0x6C57, 0x8ABE),
  (0x6C5A, 0x8998),
  (0x6C5D, 0x93F0_9F87_8D5D_9272),
  (0x6C62, 0x9F89),
  (0x6C68, 0x9F91),
  (0x6C6A, 0x9F8A),
  (0x6C70, 0x91BF),
  (0x6C72, 0x8B82_9F92),
  (0x6C7A, 0x8C88),
  (0x6C7D, 0x8B44_9F90),
  (0x6C81, 0x9F8E_9F8B_9780),
  (0x6C88, 0x92BE),
  (0x6C8C, 0x93D7_9F8C),
  (0x6C90, 0x9F94),
  (0x6C92, 0x9F93_8C42),
  (0x6C96, 0x89AB),
  (0x6C99, 0x8DB9_9F8D_9F8F),
  (0x6CA1, 0x9676_91F2),
  (0x6CAB, 0x9697),
  (0x6CAE, 0x9F9C),
  (0x6CB1, 0x9F9D),
  (0x6CB3, 0x89CD),
  (0x6CB8, 0x95A6_96FB_9F9F_8EA1_8FC0_9F98_9F9E_8988),
  (0x6CC1, 0x8BB5),
  (0x6CC4, 0x9F95_9F9A),
  (0x6CC9, 0x90F2_9491),
  (0x6CCC, 0x94E5),
  (0x6CD3, 0x9F97),
  (0x6CD5, 0x9640),
  (0x6CD7, 0x9F99),
  (0x6CD9, 0x9FA2),
  (0x6CDB, 0x9FA0),
  (0x6CDD, 0x9F9B),
  (0x6CE1, 0x9641_9467_8B83),
  (0x6CE5, 0x9344),
  (0x6CE8, 0x928D),
  (0x6CEA, 0x9FA3),
  (0x6CEF, 0x9FA1_91D7_9F96),
  (0x6CF3, 0x896A),
  (0x6D0B, 0x976D_9FAE),
  (0x6D12, 0x9FAD),
  (0x6D17, 0x90F4),
  (0x6D19, 0x9FAA),
  (0x6D1B, 0x978C),
  (0x6D1E, 0x93B4_9FA4),
  (0x6D25, 0x92C3),
  (0x6D29, 0x896B_8D5E_9FA7),
  (0x6D32, 0x8F46_9FAC),
  (0x6D35, 0x9FAB_9FA6),
  (0x6D38, 0x9FA9),
  (0x6D3B, 0x8A88),
  (0x6D3D, 0x9FA8_9468),
  (0x6D41, 0x97AC),
  (0x6D44, 0x8FF2_90F3),
  (0x6D59, 0x9FB4_9FB2),
  (0x6D5C, 0x956C),
  (0x6D63, 0x9FAF_9FB1),
  (0x6D66, 0x8959),
  (0x6D69, 0x8D5F_9851),
  (0x6D6C, 0x8A5C),
  (0x6D6E, 0x9582),
  (0x6D74, 0x9781),
  (0x6D77, 0x8A43_905A_9FB3),
  (0x6D85, 0x9FB8),
  (0x6D88, 0x8FC1),
  (0x6D8C, 0x974F),
  (0x6D8E, 0x9FB5),
  (0x6D93, 0x9FB0),
  (0x6D95, 0x9FB6),
  (0x6D99, 0x97DC),
  (0x6D9B, 0x9393_93C0),
  (0x6DAF, 0x8A55),
  (0x6DB2, 0x8974),
  (0x6DB5, 0x9FBC),
  (0x6DB8, 0x9FBF),
  (0x6DBC, 0x97C1),
  (0x6DC0, 0x9784),
  (0x6DC5, 0x9FC6_9FC0_9FBD),
  (0x6DCB, 0x97D2_9FC3),
  (0x6DD1, 0x8F69_9FC5),
  (0x6DD5, 0x9FCA),
  (0x6DD8, 0x9391_9FC8),
  (0x6DDE, 0x9FC2),
  (0x6DE1, 0x9257),
  (0x6DE4, 0x9FC9),
  (0x6DE6, 0x9FBE),
  (0x6DE8, 0x9FC4),
  (0x6DEA, 0x9FCB_88FA_9FC1),
  (0x6DEE, 0x9FCC),
  (0x6DF1, 0x905B),
  (0x6DF3, 0x8F7E),
  (0x6DF5, 0x95A3),
  (0x6DF7, 0x8DAC),
  (0x6DF9, 0x9FB9_9FC7_9359),
  (0x6E05, 0x90B4),
  (0x6E07, 0x8A89_8DCF_8FC2_9FBB_8F61),
  (0x6E13, 0x8C6B),
  (0x6E15, 0x9FBA),
  (0x6E19, 0x9FD0_8F8D_8CB8),
  (0x6E1D, 0x9FDF),
  (0x6E1F, 0x9FD9_8B94_936E),
  (0x6E23, 0x9FD4_9FDD_88AD_8951),
  (0x6E29, 0x89B7),
  (0x6E2B, 0x9FD6_91AA_9FCD_9FCF_8D60),
  (0x6E38, 0x9FE0),
  (0x6E3A, 0x9FDB),
  (0x6E3E, 0x9FD3),
  (0x6E43, 0x9FDA),
  (0x6E4A, 0x96A9),
  (0x6E4D, 0x9FD8_9FDC),
  (0x6E56, 0x8CCE),
  (0x6E58, 0x8FC3),
  (0x6E5B, 0x9258),
  (0x6E5F, 0x9FD2),
  (0x6E67, 0x974E),
  (0x6E6B, 0x9FD5),
  (0x6E6E, 0x9FCE_9392),
  (0x6E72, 0x9FD1),
  (0x6E76, 0x9FD7),
  (0x6E7E, 0x9870_8EBC_969E),
  (0x6E82, 0x9FE1),
  (0x6E8C, 0x94AC),
  (0x6E8F, 0x9FED_8CB9),
  (0x6E96, 0x8F80),
  (0x6E98, 0x9FE3),
  (0x6E9C, 0x97AD_8D61),
  (0x6E9F, 0x9FF0),
  (0x6EA2, 0x88EC),
  (0x6EA5, 0x9FEE),
  (0x6EAA, 0x9FE2),
  (0x6EAF, 0x9FE8),
  (0x6EB2, 0x9FEA),
  (0x6EB6, 0x976E_9FE5),
  (0x6EBA, 0x934D),
  (0x6EBD, 0x9FE7),
  (0x6EC2, 0x9FEF),
  (0x6EC4, 0x9FE9_96C5),
  (0x6EC9, 0x9FE4),
  (0x6ECB, 0x8EA0_9FFC),
  (0x6ED1, 0x8A8A),
  (0x6ED3, 0x9FE6_9FEB_9FEC),
  (0x6EDD, 0x91EA_91D8),
  (0x6EEC, 0x9FF4),
  (0x6EEF, 0x9FFA),
  (0x6EF2, 0x9FF8),
  (0x6EF4, 0x9348),
  (0x6EF7, 0xE042_9FF5),
  (0x6EFE, 0x9FF6_9FDE),
  (0x6F01, 0x8B99_9559),
  (0x6F06, 0x8EBD),
  (0x6F09, 0x8D97),
  (0x6F0F, 0x9852),
  (0x6F11, 0x9FF2),
  (0x6F13, 0xE041_8989_9186),
  (0x6F20, 0x9499),
  (0x6F22, 0x8ABF_97F8),
  (0x6F2B, 0x969F_92D0),
  (0x6F31, 0x9FF9_9FFB),
  (0x6F38, 0x9151),
  (0x6F3E, 0xE040_9FF7),
  (0x6F41, 0x9FF1),
  (0x6F45, 0x8AC1),
  (0x6F54, 0x8C89),
  (0x6F58, 0xE04E),
  (0x6F5B, 0xE049_90F6),
  (0x6F5F, 0x8A83),
  (0x6F64, 0x8F81),
  (0x6F66, 0xE052),
  (0x6F6D, 0xE04B_92AA_E048_92D7),
  (0x6F74, 0xE06B),
  (0x6F78, 0xE045),
  (0x6F7A, 0xE044),
  (0x6F7C, 0xE04D),
  (0x6F80, 0xE047_E046_E04C),
  (0x6F84, 0x909F),
  (0x6F86, 0xE043),
  (0x6F8E, 0xE04F),
  (0x6F91, 0xE050),
  (0x6F97, 0x8AC0),
  (0x6FA1, 0xE055),
  (0x6FA3, 0xE054_E056),
  (0x6FAA, 0xE059),
  (0x6FB1, 0x9362),
  (0x6FB3, 0xE053),
  (0x6FB9, 0xE057),
  (0x6FC0, 0x8C83_91F7_E051_945A),
  (0x6FC6, 0xE058),
  (0x6FD4, 0xE05D_E05B),
  (0x6FD8, 0xE05E),
  (0x6FDB, 0xE061),
  (0x6FDF, 0xE05A_8D8A_9447),
  (0x6FE4, 0x9FB7),
  (0x6FEB, 0x9794_E05C),
  (0x6FEE, 0xE060_91F3),
  (0x6FF1, 0xE05F),
  (0x6FF3, 0xE04A),
  (0x6FF6, 0xE889),
  (0x6FFA, 0xE064),
  (0x6FFE, 0xE068),
  (0x7001, 0xE066),
  (0x7009, 0xE062),
  (0x700B, 0xE063),
  (0x700F, 0xE067),
  (0x7011, 0xE065),
  (0x7015, 0x956D),
  (0x7018, 0xE06D),
  (0x701A, 0xE06A_E069),
  (0x701D, 0xE06C_93D2_E06E),
  (0x7026, 0x9295_91EB),
  (0x702C, 0x90A3),
  (0x7030, 0xE06F),
  (0x7032, 0xE071),
  (0x703E, 0xE070),
  (0x704C, 0x9FF3),
  (0x7051, 0xE072),
  (0x7058, 0x93E5),
  (0x7063, 0xE073),
  (0x706B, 0x89CE),
  (0x706F, 0x9394_8A44),
  (0x7078, 0x8B84),
  (0x707C, 0x8EDC_8DD0),
  (0x7089, 0x9846_9086),
  (0x708E, 0x898A),
  (0x7092, 0xE075),
  (0x7099, 0xE074),
  (0x70AC, 0xE078_9259_E07B_E076),
  (0x70B3, 0xE07A),
  (0x70B8, 0xE079_935F_88D7),
  (0x70C8, 0x97F3),
  (0x70CB, 0xE07D),
  (0x70CF, 0x8947),
  (0x70D9, 0xE080),
  (0x70DD, 0xE07E),
  (0x70DF, 0xE07C),
  (0x70F1, 0xE077),
  (0x70F9, 0x9642),
  (0x70FD, 0xE082),
  (0x7109, 0xE081),
  (0x7114, 0x898B),
  (0x7119, 0xE084_95B0),
  (0x711C, 0xE083),
  (0x7121, 0x96B3),
  (0x7126, 0x8FC5),
  (0x7136, 0x9152),
  (0x713C, 0x8FC4),
  (0x7149, 0x97F9),
  (0x714C, 0xE08A),
  (0x714E, 0x90F7),
  (0x7155, 0xE086_E08B),
  (0x7159, 0x898C),
  (0x7162, 0xE089),
  (0x7164, 0x9481_E085_E088_8FC6),
  (0x7169, 0x94CF),
  (0x716C, 0xE08C),
  (0x716E, 0x8ECF),
  (0x717D, 0x90F8),
  (0x7184, 0xE08F),
  (0x7188, 0xE087),
  (0x718A, 0x8C46),
  (0x718F, 0xE08D),
  (0x7194, 0x976F_E090),
  (0x7199, 0xEAA4),
  (0x719F, 0x8F6E),
  (0x71A8, 0xE091),
  (0x71AC, 0xE092),
  (0x71B1, 0x944D),
  (0x71B9, 0xE094),
  (0x71BE, 0xE095),
  (0x71C3, 0x9452),
  (0x71C8, 0x9395_E097),
  (0x71CE, 0xE099),
  (0x71D0, 0x97D3),
  (0x71D2, 0xE096),
  (0x71D4, 0xE098_898D),
  (0x71D7, 0xE093),
  (0x71DF, 0x9A7A_E09A),
  (0x71E5, 0x9187_8E57_E09C),
  (0x71EC, 0xE09B_9043_99D7),
  (0x71F5, 0xE09D),
  (0x71F9, 0xE09F),
  (0x71FB, 0xE08E_E09E),
  (0x71FF, 0xE0A0),
  (0x7206, 0x949A),
  (0x720D, 0xE0A1),
  (0x7210, 0xE0A2),
  (0x721B, 0xE0A3),
  (0x7228, 0xE0A4),
  (0x722A, 0x92DC),
  (0x722C, 0xE0A6_E0A5),
  (0x7230, 0xE0A7),
  (0x7232, 0xE0A8),
  (0x7235, 0x8EDD_9583),
  (0x723A, 0x96EA_E0A9_E0AA_9175_8EA2_E0AB_E0AC),
  (0x7246, 0xE0AD_95D0_94C5),
  (0x724B, 0xE0AE_9476),
  (0x7252, 0x92AB),
  (0x7258, 0xE0AF_89E5),
  (0x725B, 0x8B8D),
  (0x725D, 0x96C4),
  (0x725F, 0x96B4),
  (0x7261, 0x89B2_9853),
  (0x7267, 0x9671),
  (0x7269, 0x95A8),
  (0x7272, 0x90B5),
  (0x7274, 0xE0B0),
  (0x7279, 0x93C1),
  (0x727D, 0x8CA1_E0B1),
  (0x7280, 0x8DD2_E0B3_E0B2),
  (0x7287, 0xE0B4),
  (0x7292, 0xE0B5),
  (0x7296, 0xE0B6),
  (0x72A0, 0x8B5D),
  (0x72A2, 0xE0B7),
  (0x72A7, 0xE0B8),
  (0x72AC, 0x8CA2),
  (0x72AF, 0x94C6),
  (0x72B2, 0xE0BA),
  (0x72B6, 0x8FF3),
  (0x72B9, 0xE0B9),
  (0x72C2, 0x8BB6_E0BB_E0BD),
  (0x72C6, 0xE0BC),
  (0x72CE, 0xE0BE),
  (0x72D0, 0x8CCF),
  (0x72D2, 0xE0BF),
  (0x72D7, 0x8BE7),
  (0x72D9, 0x915F),
  (0x72DB, 0x8D9D),
  (0x72E0, 0xE0C1_E0C2_E0C0),
  (0x72E9, 0x8EEB),
  (0x72EC, 0x93C6_8BB7),
  (0x72F7, 0xE0C4_924B_E0C3),
  (0x72FC, 0x9854_9482),
  (0x730A, 0xE0C7),
  (0x7316, 0xE0C9_E0C6),
  (0x731B, 0x96D2_E0C8_E0CA),
  (0x731F, 0x97C2),
  (0x7325, 0xE0CE),
  (0x7329, 0xE0CD_9296_944C),
  (0x732E, 0x8CA3_E0CC),
  (0x7334, 0xE0CB),
  (0x7336, 0x9750_9751),
  (0x733E, 0xE0CF_898E),
  (0x7344, 0x8D96_8E82),
  (0x734E, 0xE0D0_E0D1),
  (0x7357, 0xE0D3),
  (0x7363, 0x8F62),
  (0x7368, 0xE0D5),
  (0x736A, 0xE0D4),
  (0x7370, 0xE0D6),
  (0x7372, 0x8A6C),
  (0x7375, 0xE0D8),
  (0x7378, 0xE0D7),
  (0x737A, 0xE0DA_E0D9),
  (0x7384, 0x8CBA),
  (0x7387, 0x97A6),
  (0x7389, 0x8BCA),
  (0x738B, 0x89A4),
  (0x7396, 0x8BE8),
  (0x73A9, 0x8ADF),
  (0x73B2, 0x97E6_E0DC),
  (0x73BB, 0xE0DE),
  (0x73C0, 0xE0DF),
  (0x73C2, 0x89CF),
  (0x73C8, 0xE0DB),
  (0x73CA, 0x8E58),
  (0x73CD, 0x92BF_E0DD),
  (0x73DE, 0xE0E2),
  (0x73E0, 0x8EEC),
  (0x73E5, 0xE0E0),
  (0x73EA, 0x8C5D),
  (0x73ED, 0x94C7_E0E1),
  (0x73F1, 0xE0FC),
  (0x73F8, 0xE0E7),
  (0x73FE, 0x8CBB),
  (0x7403, 0x8B85),
  (0x7405, 0xE0E4_979D),
  (0x7409, 0x97AE),
  (0x7422, 0x91F4),
  (0x7425, 0xE0E6),
  (0x7432, 0xE0E8_97D4_8BD5_94FA_9469),
  (0x743A, 0xE0E9),
  (0x743F, 0xE0EB),
  (0x7441, 0xE0EE),
  (0x7455, 0xE0EA),
  (0x7459, 0xE0ED_8CE8_896C_E0EF),
  (0x745E, 0x9090_E0EC_97DA),
  (0x7463, 0xE0F2_EAA2),
  (0x7469, 0xE0F0_E0F3),
  (0x746F, 0xE0E5_E0F1),
  (0x7473, 0x8DBA),
  (0x7476, 0xE0F4),
  (0x747E, 0xE0F5),
  (0x7483, 0x979E),
  (0x748B, 0xE0F6),
  (0x749E, 0xE0F7),
  (0x74A2, 0xE0E3),
  (0x74A7, 0xE0F8),
  (0x74B0, 0x8AC2),
  (0x74BD, 0x8EA3),
  (0x74CA, 0xE0F9),
  (0x74CF, 0xE0FA),
  (0x74D4, 0xE0FB),
  (0x74DC, 0x895A),
  (0x74E0, 0xE140),
  (0x74E2, 0x955A_E141),
  (0x74E6, 0x8AA2_E142),
  (0x74E9, 0xE143),
  (0x74EE, 0xE144),
  (0x74F0, 0xE146_E147_E145),
  (0x74F6, 0x9572_E149_E148),
  (0x7503, 0xE14B_E14A_E14C),
  (0x750C, 0xE14D_E14F_E14E),
  (0x7511, 0x8D99),
  (0x7513, 0xE151),
  (0x7515, 0xE150),
  (0x7518, 0x8AC3),
  (0x751A, 0x9072),
  (0x751C, 0x935B),
  (0x751E, 0xE152_90B6),
  (0x7523, 0x8E59),
  (0x7525, 0x8999_E153),
  (0x7528, 0x9770),
  (0x752B, 0x95E1_E154),
  (0x7530, 0x9363_9752_8D62_905C),
  (0x7537, 0x926A_99B2),
  (0x753A, 0x92AC_89E6_E155),
  (0x7544, 0xE156),
  (0x7546, 0xE15B),
  (0x7549, 0xE159_E158_9DC0_8A45_E157),
  (0x754F, 0x88D8),
  (0x7551, 0x94A8),
  (0x7554, 0x94C8),
  (0x7559, 0x97AF_E15C_E15A_927B_90A4),
  (0x7560, 0x94A9),
  (0x7562, 0x954C),
  (0x7564, 0xE15E_97AA_8C6C_E15F),
  (0x7569, 0xE15D_94D4_E160),
  (0x756D, 0xE161),
  (0x7570, 0x88D9),
  (0x7573, 0x8FF4_E166),
  (0x7576, 0xE163_93EB_E162),
  (0x757F, 0x8B45),
  (0x7582, 0xE169),
  (0x7586, 0xE164_E165),
  (0x7589, 0xE168_E167_9544),
  (0x758E, 0x9161_9160),
  (0x7591, 0x8B5E),
  (0x7594, 0xE16A),
  (0x759A, 0xE16B),
  (0x759D, 0xE16C),
  (0x75A3, 0xE16E),
  (0x75A5, 0xE16D),
  (0x75AB, 0x8975),
  (0x75B1, 0xE176_94E6_E170),
  (0x75B5, 0xE172),
  (0x75B8, 0xE174_905D),
  (0x75BC, 0xE175_E173_8EBE),
  (0x75C2, 0xE16F_E171),
  (0x75C5, 0x9561),
  (0x75C7, 0x8FC7),
  (0x75CA, 0xE178),
  (0x75CD, 0xE177),
  (0x75D2, 0xE179),
  (0x75D4, 0x8EA4_8DAD),
  (0x75D8, 0x9397_E17A),
  (0x75DB, 0x92C9),
  (0x75DE, 0xE17C),
  (0x75E2, 0x979F_E17B),
  (0x75E9, 0x9189),
  (0x75F0, 0xE182),
  (0x75F2, 0xE184_E185_9273),
  (0x75FA, 0xE183),
  (0x75FC, 0xE180),
  (0x75FE, 0xE17D_E17E),
  (0x7601, 0xE181),
  (0x7609, 0xE188),
  (0x760B, 0xE186),
  (0x760D, 0xE187),
  (0x761F, 0xE189_E18B_E18C_E18D),
  (0x7624, 0xE18E),
  (0x7627, 0xE18A),
  (0x7630, 0xE190),
  (0x7634, 0xE18F),
  (0x763B, 0xE191),
  (0x7642, 0x97C3),
  (0x7646, 0xE194_E192_E193),
  (0x764C, 0x8AE0),
  (0x7652, 0x96FC),
  (0x7656, 0x95C8),
  (0x7658, 0xE196),
  (0x765C, 0xE195),
  (0x7661, 0xE197_E198),
  (0x7667, 0xE19C_E199_E19A_E19B),
  (0x766C, 0xE19D),
  (0x7670, 0xE19E),
  (0x7672, 0xE19F),
  (0x7676, 0xE1A0),
  (0x7678, 0xE1A1),
  (0x767A, 0x94AD_936F_E1A2_9492_9553),
  (0x7680, 0xE1A3),
  (0x7683, 0xE1A4_9349),
  (0x7686, 0x8A46_8D63_E1A5),
  (0x768B, 0xE1A6),
  (0x768E, 0xE1A7),
  (0x7690, 0x8E48),
  (0x7693, 0xE1A9),
  (0x7696, 0xE1A8),
  (0x7699, 0xE1AA_E1AB),
  (0x76AE, 0x94E7),
  (0x76B0, 0xE1AC),
  (0x76B4, 0xE1AD),
  (0x76B7, 0xEA89_E1AE_E1AF_E1B0),
  (0x76BF, 0x8E4D),
  (0x76C2, 0xE1B1_9475),
  (0x76C6, 0x967E),
  (0x76C8, 0x896D),
  (0x76CA, 0x8976),
  (0x76CD, 0xE1B2),
  (0x76D2, 0xE1B4),
  (0x76D6, 0xE1B3_9390),
  (0x76DB, 0x90B7_9F58),
  (0x76DE, 0xE1B5_96BF),
  (0x76E1, 0xE1B6),
  (0x76E3, 0x8AC4_94D5_E1B7),
  (0x76E7, 0xE1B8),
  (0x76EA, 0xE1B9),
  (0x76EE, 0x96DA),
  (0x76F2, 0x96D3),
  (0x76F4, 0x92BC),
  (0x76F8, 0x918A),
  (0x76FB, 0xE1BB),
  (0x76FE, 0x8F82),
  (0x7701, 0x8FC8),
  (0x7704, 0xE1BE),
  (0x7707, 0xE1BD_E1BC_94FB),
  (0x770B, 0x8AC5_8CA7),
  (0x771B, 0xE1C4),
  (0x771E, 0xE1C1_905E_96B0),
  (0x7724, 0xE1C0_E1C2_E1C3),
  (0x7729, 0xE1BF),
  (0x7737, 0xE1C5_E1C6),
  (0x773A, 0x92AD),
  (0x773C, 0x8AE1),
  (0x7740, 0x9285),
  (0x7747, 0xE1C7),
  (0x775A, 0xE1C8_E1CB),
  (0x7761, 0x9087),
  (0x7763, 0x93C2),
  (0x7765, 0xE1CC_9672),
  (0x7768, 0xE1C9),
  (0x776B, 0xE1CA),
  (0x7779, 0xE1CF),
  (0x777E, 0xE1CE_E1CD),
  (0x778B, 0xE1D1),
  (0x778E, 0xE1D0),
  (0x7791, 0xE1D2),
  (0x779E, 0xE1D4),
  (0x77A0, 0xE1D3),
  (0x77A5, 0x95CB),
  (0x77AC, 0x8F75_97C4),
  (0x77B0, 0xE1D5),
  (0x77B3, 0x93B5),
  (0x77B6, 0xE1D6),
  (0x77B9, 0xE1D7),
  (0x77BB, 0xE1DB_E1D9_E1DA),
  (0x77BF, 0xE1D8),
  (0x77C7, 0xE1DC),
  (0x77CD, 0xE1DD),
  (0x77D7, 0xE1DE),
  (0x77DA, 0xE1DF_96B5_E1E0),
  (0x77E2, 0x96EE_E1E1),
  (0x77E5, 0x926D),
  (0x77E7, 0x948A),
  (0x77E9, 0x8BE9),
  (0x77ED, 0x925A_E1E2_8BB8),
  (0x77F3, 0x90CE),
  (0x77FC, 0xE1E3),
  (0x7802, 0x8DBB),
  (0x780C, 0xE1E4),
  (0x7812, 0xE1E5),
  (0x7814, 0x8CA4_8DD3),
  (0x7820, 0xE1E7),
  (0x7825, 0x9375_8DD4_8B6D),
  (0x7832, 0x9643),
  (0x7834, 0x946A),
  (0x783A, 0x9376),
  (0x783F, 0x8D7B),
  (0x7845, 0xE1E9),
  (0x785D, 0x8FC9),
  (0x786B, 0x97B0_8D64),
  (0x786F, 0x8CA5),
  (0x7872, 0x94A1),
  (0x7874, 0xE1EB),
  (0x787C, 0xE1ED),
  (0x7881, 0x8CE9),
  (0x7886, 0xE1EC_92F4),
  (0x788C, 0xE1EF_8A56_E1EA),
  (0x7891, 0x94E8),
  (0x7893, 0x894F),
  (0x7895, 0x8DEA),
  (0x7897, 0x9871),
  (0x789A, 0xE1EE),
  (0x78A3, 0xE1F0),
  (0x78A7, 0x95C9),
  (0x78A9, 0x90D7_E1F2),
  (0x78AF, 0xE1F3),
  (0x78B5, 0xE1F1),
  (0x78BA, 0x8A6D),
  (0x78BC, 0xE1F9),
  (0x78BE, 0xE1F8),
  (0x78C1, 0x8EA5),
  (0x78C5, 0xE1FA_E1F5),
  (0x78CA, 0xE1FB_E1F6),
  (0x78D0, 0x94D6_E1F4),
  (0x78D4, 0xE1F7),
  (0x78DA, 0xE241),
  (0x78E7, 0xE240_9681),
  (0x78EC, 0xE1FC),
  (0x78EF, 0x88E9),
  (0x78F4, 0xE243),
  (0x78FD, 0xE242),
  (0x7901, 0x8FCA),
  (0x7907, 0xE244),
  (0x790E, 0x9162),
  (0x7911, 0xE246_E245),
  (0x7919, 0xE247),
  (0x7926, 0xE1E6),
  (0x792A, 0xE1E8_E249_E248),
  (0x793A, 0x8EA6),
  (0x793C, 0x97E7),
  (0x793E, 0x8ED0),
  (0x7940, 0xE24A_8C56),
  (0x7947, 0x8B5F_8B46_8E83),
  (0x7950, 0x9753),
  (0x7953, 0xE250),
  (0x7955, 0xE24F_9163_E24C),
  (0x795A, 0xE24E),
  (0x795D, 0x8F6A_905F_E24D_E24B),
  (0x7962, 0x9449),
  (0x7965, 0x8FCB),
  (0x7968, 0x955B),
  (0x796D, 0x8DD5),
  (0x7977, 0x9398),
  (0x797A, 0xE251),
  (0x797F, 0xE252_E268_8BD6),
  (0x7984, 0x985C_9154),
  (0x798A, 0xE253),
  (0x798D, 0x89D0_92F5_959F),
  (0x799D, 0xE254),
  (0x79A6, 0x8B9A_E255),
  (0x79AA, 0xE257),
  (0x79AE, 0xE258),
  (0x79B0, 0x9448),
  (0x79B3, 0xE259),
  (0x79B9, 0xE25A_E25B),
  (0x79BD, 0x8BD7_89D1_93C3_8F47_8E84),
  (0x79C9, 0xE25C),
  (0x79CB, 0x8F48),
  (0x79D1, 0x89C8_9562),
  (0x79D5, 0xE25D),
  (0x79D8, 0x94E9),
  (0x79DF, 0x9164),
  (0x79E1, 0xE260),
  (0x79E3, 0xE261_9489),
  (0x79E6, 0x9060_E25E),
  (0x79E9, 0x9281),
  (0x79EC, 0xE25F),
  (0x79F0, 0x8FCC),
  (0x79FB, 0x88DA),
  (0x7A00, 0x8B48),
  (0x7A08, 0xE262),
  (0x7A0B, 0x92F6),
  (0x7A0D, 0xE263_90C5),
  (0x7A14, 0x96AB),
  (0x7A17, 0x9542_E264_E265_9274),
  (0x7A1C, 0x97C5),
  (0x7A1F, 0xE267_E266),
  (0x7A2E, 0x8EED),
  (0x7A31, 0xE269_88EE),
  (0x7A37, 0xE26C),
  (0x7A3B, 0xE26A_89D2_8C6D_E26B_8D65_8D92),
  (0x7A42, 0x95E4_E26D),
  (0x7A46, 0x9673),
  (0x7A49, 0xE26F),
  (0x7A4D, 0x90CF_896E_89B8_88AA),
  (0x7A57, 0xE26E),
  (0x7A61, 0xE270_E271_8FF5),
  (0x7A69, 0xE272),
  (0x7A6B, 0x8A6E),
  (0x7A70, 0xE274),
  (0x7A74, 0x8C8A),
  (0x7A76, 0x8B86),
  (0x7A79, 0xE275_8BF3),
  (0x7A7D, 0xE276),
  (0x7A7F, 0x90FA),
  (0x7A81, 0x93CB),
  (0x7A83, 0x90DE_8DF3),
  (0x7A88, 0xE277),
  (0x7A92, 0x9282_918B),
  (0x7A95, 0xE279_E27B_E278_E27A),
  (0x7A9F, 0x8C41),
  (0x7AA9, 0xE27C_8C45),
  (0x7AAE, 0x8B87_9771_E27E),
  (0x7AB6, 0xE280),
  (0x7ABA, 0x894D),
  (0x7ABF, 0xE283),
  (0x7AC3, 0x8A96_E282_E281),
  (0x7AC7, 0xE285_E27D),
  (0x7ACA, 0xE286_97A7),
  (0x7ACD, 0xE287),
  (0x7ACF, 0xE288),
  (0x7AD2, 0x9AF2_E28A),
  (0x7AD5, 0xE289),
  (0x7AD9, 0xE28B_E28C),
  (0x7ADC, 0x97B3_E28D),
  (0x7ADF, 0xE8ED_8FCD_E28E_E28F_8F76),
  (0x7AE5, 0x93B6_E290),
  (0x7AEA, 0x9247),
  (0x7AED, 0xE291),
  (0x7AEF, 0x925B_E292),
  (0x7AF6, 0x8BA3),
  (0x7AF8, 0x995E_927C_8EB1),
  (0x7AFF, 0x8AC6),
  (0x7B02, 0xE293),
  (0x7B04, 0xE2A0),
  (0x7B06, 0xE296),
  (0x7B08, 0x8B88),
  (0x7B0A, 0xE295_E2A2),
  (0x7B0F, 0xE294),
  (0x7B11, 0x8FCE),
  (0x7B18, 0xE298_E299),
  (0x7B1B, 0x934A),
  (0x7B1E, 0xE29A),
  (0x7B20, 0x8A7D),
  (0x7B25, 0x9079_9584),
  (0x7B28, 0xE29C),
  (0x7B2C, 0x91E6),
  (0x7B33, 0xE297),
  (0x7B35, 0xE29B_E29D),
  (0x7B39, 0x8DF9),
  (0x7B45, 0xE2A4_954D),
  (0x7B48, 0x94A4_9399),
  (0x7B4B, 0x8BD8_E2A3_E2A1),
  (0x7B4F, 0x94B3_E29E_927D_939B),
  (0x7B54, 0x939A),
  (0x7B56, 0x8DF4),
  (0x7B5D, 0xE2B6),
  (0x7B65, 0xE2A6),
  (0x7B67, 0xE2A8),
  (0x7B6C, 0xE2AB),
  (0x7B6E, 0xE2AC),
  (0x7B70, 0xE2A9_E2AA),
  (0x7B74, 0xE2A7_E2A5),
  (0x7B7A, 0xE29F),
  (0x7B86, 0x95CD_89D3),
  (0x7B8B, 0xE2B3),
  (0x7B8D, 0xE2B0),
  (0x7B8F, 0xE2B5),
  (0x7B92, 0xE2B4),
  (0x7B94, 0x9493_96A5),
  (0x7B97, 0x8E5A_E2AE_E2B7_E2B2),
  (0x7B9C, 0xE2B1_E2AD),
  (0x7B9F, 0xE2AF),
  (0x7BA1, 0x8AC7),
  (0x7BAA, 0x925C),
  (0x7BAD, 0x90FB),
  (0x7BB1, 0x94A0),
  (0x7BB4, 0xE2BC),
  (0x7BB8, 0x94A2),
  (0x7BC0, 0x90DF_E2B9),
  (0x7BC4, 0x94CD),
  (0x7BC6, 0xE2BD_95D1),
  (0x7BC9, 0x927A),
  (0x7BCB, 0xE2B8_E2BA),
  (0x7BCF, 0xE2BB),
  (0x7BDD, 0xE2BE),
  (0x7BE0, 0x8EC2),
  (0x7BE4, 0x93C4_E2C3_E2C2),
  (0x7BE9, 0xE2BF),
  (0x7BED, 0x9855),
  (0x7BF3, 0xE2C8),
  (0x7BF6, 0xE2CC_E2C9),
  (0x7C00, 0xE2C5),
  (0x7C07, 0xE2C6),
  (0x7C0D, 0xE2CB),
  (0x7C11, 0xE2C0_99D3_E2C7_E2C1),
  (0x7C17, 0xE2CA),
  (0x7C1F, 0xE2D0),
  (0x7C21, 0x8AC8),
  (0x7C23, 0xE2CD),
  (0x7C27, 0xE2CE),
  (0x7C2A, 0xE2CF_E2D2),
  (0x7C37, 0xE2D1_94F4),
  (0x7C3D, 0xE2D3_97FA_95EB_E2D8),
  (0x7C43, 0xE2D5),
  (0x7C4C, 0xE2D4_90D0),
  (0x7C4F, 0xE2D7_E2D9),
  (0x7C54, 0xE2D6),
  (0x7C56, 0xE2DD),
  (0x7C58, 0xE2DA),
  (0x7C5F, 0xE2DB_E2C4),
  (0x7C64, 0xE2DC_E2DE),
  (0x7C6C, 0xE2DF),
  (0x7C73, 0x95C4),
  (0x7C75, 0xE2E0),
  (0x7C7E, 0x96E0),
  (0x7C81, 0x8BCC_8C48_E2E1),
  (0x7C89, 0x95B2),
  (0x7C8B, 0x9088),
  (0x7C8D, 0x96AE),
  (0x7C90, 0xE2E2),
  (0x7C92, 0x97B1),
  (0x7C95, 0x9494),
  (0x7C97, 0x9165_9453),
  (0x7C9B, 0x8F6C),
  (0x7C9F, 0x88BE),
  (0x7CA1, 0xE2E7_E2E5),
  (0x7CA4, 0xE2E3_8A9F),
  (0x7CA7, 0x8FCF_E2E8),
  (0x7CAB, 0xE2E6),
  (0x7CAD, 0xE2E4_E2EC),
  (0x7CB1, 0xE2EB_E2EA_E2E9),
  (0x7CB9, 0xE2ED),
  (0x7CBD, 0xE2EE_90B8),
  (0x7CC0, 0xE2EF),
  (0x7CC2, 0xE2F1),
  (0x7CC5, 0xE2F0),
  (0x7CCA, 0x8CD0),
  (0x7CCE, 0x9157),
  (0x7CD2, 0xE2F3),
  (0x7CD6, 0x939C),
  (0x7CD8, 0xE2F2),
  (0x7CDC, 0xE2F4),
  (0x7CDE, 0x95B3_918C_8D66),
  (0x7CE2, 0xE2F5),
  (0x7CE7, 0x97C6),
  (0x7CEF, 0xE2F7),
  (0x7CF2, 0xE2F8),
  (0x7CF4, 0xE2F9),
  (0x7CF6, 0xE2FA),
  (0x7CF8, 0x8E85),
  (0x7CFA, 0xE2FB_8C6E),
  (0x7CFE, 0x8B8A),
  (0x7D00, 0x8B49),
  (0x7D02, 0xE340),
  (0x7D04, 0x96F1_8D67_E2FC),
  (0x7D0A, 0xE343_96E4),
  (0x7D0D, 0x945B),
  (0x7D10, 0x9552),
  (0x7D14, 0x8F83_E342),
  (0x7D17, 0x8ED1_8D68_8E86_8B89_95B4_E341),
  (0x7D20, 0x9166_9661_8DF5),
  (0x7D2B, 0x8E87_92DB),
  (0x7D2E, 0xE346_97DD_8DD7),
  (0x7D32, 0xE347_9061),
  (0x7D35, 0xE349),
  (0x7D39, 0x8FD0_8DAE),
  (0x7D3F, 0xE348),
  (0x7D42, 0x8F49_8CBC_9167_E344_E34A),
  (0x7D4B, 0xE345_8C6F),
  (0x7D4E, 0xE34D_E351_8C8B),
  (0x7D56, 0xE34C),
  (0x7D5B, 0xE355),
  (0x7D5E, 0x8D69),
  (0x7D61, 0x978D_88BA_E352),
  (0x7D66, 0x8B8B),
  (0x7D68, 0xE34F),
  (0x7D6E, 0xE350),
  (0x7D71, 0x939D_E34E_E34B),
  (0x7D75, 0x8A47_90E2),
  (0x7D79, 0x8CA6),
  (0x7D7D, 0xE357),
  (0x7D89, 0xE354),
  (0x7D8F, 0xE356),
  (0x7D93, 0xE353),
  (0x7D99, 0x8C70_91B1_E358_918E),
  (0x7D9F, 0xE365),
  (0x7DA2, 0xE361_E35B),
  (0x7DAB, 0xE35F_8EF8_88DB_E35A_E362_E366_8D6A_96D4),
  (0x7DB4, 0x92D4_E35C),
  (0x7DB8, 0xE364),
  (0x7DBA, 0xE359_925D),
  (0x7DBD, 0xE35E_88BB_96C8),
  (0x7DC7, 0xE35D),
  (0x7DCA, 0x8BD9_94EA),
  (0x7DCF, 0x918D),
  (0x7DD1, 0x97CE_8F8F),
  (0x7DD5, 0xE38E),
  (0x7DD8, 0xE367),
  (0x7DDA, 0x90FC),
  (0x7DDC, 0xE363_E368_E36A),
  (0x7DE0, 0x92F7_E36D),
  (0x7DE4, 0xE369),
  (0x7DE8, 0x95D2_8AC9),
  (0x7DEC, 0x96C9),
  (0x7DEF, 0x88DC),
  (0x7DF2, 0xE36C),
  (0x7DF4, 0x97FB),
  (0x7DFB, 0xE36B),
  (0x7E01, 0x898F),
  (0x7E04, 0x93EA_E36E),
  (0x7E09, 0xE375_E36F_E376),
  (0x7E12, 0xE372),
  (0x7E1B, 0x949B),
  (0x7E1E, 0x8EC8_E374),
  (0x7E21, 0xE371_E377_E370),
  (0x7E26, 0x8F63),
  (0x7E2B, 0x9644),
  (0x7E2E, 0x8F6B),
  (0x7E31, 0xE373_E380),
  (0x7E35, 0xE37B),
  (0x7E37, 0xE37E),
  (0x7E39, 0xE37C_E381_E37A),
  (0x7E3D, 0xE360_90D1),
  (0x7E41, 0x94C9),
  (0x7E43, 0xE37D),
  (0x7E46, 0xE378),
  (0x7E4A, 0x9140_8C71),
  (0x7E4D, 0x8F4A),
  (0x7E54, 0x9044_9155_E384),
  (0x7E59, 0xE386_E387),
  (0x7E5D, 0xE383_E385),
  (0x7E66, 0xE379_E382),
  (0x7E69, 0xE38A_E389),
  (0x7E6D, 0x969A),
  (0x7E70, 0x8C4A),
  (0x7E79, 0xE388),
  (0x7E7B, 0xE38C_E38B_E38F),
  (0x7E7F, 0xE391),
  (0x7E82, 0x8E5B_E38D),
  (0x7E88, 0xE392_E393),
  (0x7E8C, 0xE394),
  (0x7E8E, 0xE39A_935A_E396),
  (0x7E92, 0xE395_E397_E398),
  (0x7E96, 0xE399),
  (0x7E9B, 0xE39B_E39C),
  (0x7F36, 0x8ACA),
  (0x7F38, 0xE39D),
  (0x7F3A, 0xE39E),
  (0x7F45, 0xE39F),
  (0x7F4C, 0xE3A0_E3A1_E3A2),
  (0x7F50, 0xE3A3_E3A4),
  (0x7F54, 0xE3A6_E3A5),
  (0x7F58, 0xE3A7),
  (0x7F5F, 0xE3A8_E3A9),
  (0x7F67, 0xE3AC_E3AA_E3AB_8DDF_8C72),
  (0x7F6E, 0x9275),
  (0x7F70, 0x94B1),
  (0x7F72, 0x8F90),
  (0x7F75, 0x946C),
  (0x7F77, 0x94EB_E3AD_9CEB),
  (0x7F82, 0xE3AE_E3B0),
  (0x7F85, 0x9785_E3AF_E3B2_E3B1),
  (0x7F8A, 0x9772),
  (0x7F8C, 0xE3B3),
  (0x7F8E, 0x94FC),
  (0x7F94, 0xE3B4),
  (0x7F9A, 0xE3B7),
  (0x7F9D, 0xE3B6_E3B5),
  (0x7FA3, 0xE3B8_8C51),
  (0x7FA8, 0x9141_8B60),
  (0x7FAE, 0xE3BC_E3B9),
  (0x7FB2, 0xE3BA),
  (0x7FB6, 0xE3BD),
  (0x7FB8, 0xE3BE_E3BB),
  (0x7FBD, 0x8948),
  (0x7FC1, 0x89A5),
  (0x7FC5, 0xE3C0_E3C1),
  (0x7FCA, 0xE3C2),
  (0x7FCC, 0x9782),
  (0x7FD2, 0x8F4B),
  (0x7FD4, 0xE3C4_E3C3),
  (0x7FE0, 0x9089_E3C5),
  (0x7FE6, 0xE3C6),
  (0x7FE9, 0xE3C7),
  (0x7FEB, 0x8AE3),
  (0x7FF0, 0x8ACB),
  (0x7FF3, 0xE3C8),
  (0x7FF9, 0xE3C9),
  (0x7FFB, 0x967C_9783),
  (0x8000, 0x9773_9856),
  (0x8003, 0x8D6C_E3CC_8ED2_E3CB),
  (0x800B, 0xE3CD_8EA7),
  (0x8010, 0x91CF),
  (0x8012, 0xE3CE),
  (0x8015, 0x8D6B),
  (0x8017, 0x96D5_E3CF_E3D0),
  (0x801C, 0xE3D1),
  (0x8021, 0xE3D2),
  (0x8028, 0xE3D3),
  (0x8033, 0x8EA8),
  (0x8036, 0x96EB),
  (0x803B, 0xE3D5),
  (0x803D, 0x925E),
  (0x803F, 0xE3D4),
  (0x8046, 0xE3D7),
  (0x804A, 0xE3D6),
  (0x8052, 0xE3D8),
  (0x8056, 0x90B9),
  (0x8058, 0xE3D9),
  (0x805A, 0xE3DA),
  (0x805E, 0x95B7_E3DB),
  (0x8061, 0x918F_E3DC),
  (0x8068, 0xE3DD),
  (0x806F, 0x97FC_E3E0),
  (0x8072, 0xE3DF_E3DE_92AE),
  (0x8076, 0xE3E1_9045),
  (0x8079, 0xE3E2),
  (0x807D, 0xE3E3_9857_E3E4),
  (0x8084, 0xE3E5_E3E7_E3E6_94A3),
  (0x8089, 0x93F7),
  (0x808B, 0x985D_94A7),
  (0x8093, 0xE3E9),
  (0x8096, 0x8FD1),
  (0x8098, 0x9549),
  (0x809A, 0xE3EA_E3E8),
  (0x809D, 0x8ACC),
  (0x80A1, 0x8CD2_8E88),
  (0x80A5, 0x94EC),
  (0x80A9, 0x8CA8_9662),
  (0x80AC, 0xE3ED_E3EB),
  (0x80AF, 0x8D6D),
  (0x80B1, 0x8D6E_88E7),
  (0x80B4, 0x8DE6),
  (0x80BA, 0x9478),
  (0x80C3, 0x88DD_E3F2),
  (0x80C6, 0x925F),
  (0x80CC, 0x9477),
  (0x80CE, 0x91D9),
  (0x80D6, 0xE3F4),
  (0x80D9, 0xE3F0_E3F3_E3EE),
  (0x80DD, 0xE3F1_9645),
  (0x80E1, 0x8CD3),
  (0x80E4, 0x88FB_E3EF),
  (0x80EF, 0xE3F6),
  (0x80F1, 0xE3F7),
  (0x80F4, 0x93B7),
  (0x80F8, 0x8BB9),
  (0x80FC, 0xE445_945C),
  (0x8102, 0x8E89),
  (0x8105, 0x8BBA_90C6_9865_96AC_E3F5_90D2),
  (0x811A, 0x8B72_E3F8),
  (0x8123, 0xE3FA),
  (0x8129, 0xE3F9),
  (0x812F, 0xE3FB),
  (0x8131, 0x9245),
  (0x8133, 0x945D),
  (0x8139, 0x92AF),
  (0x813E, 0xE442),
  (0x8146, 0xE441),
  (0x814B, 0xE3FC),
  (0x814E, 0x9074),
  (0x8150, 0x9585_E444),
  (0x8153, 0xE443_8D6F_9872),
  (0x815F, 0xE454),
  (0x8165, 0xE448_E449),
  (0x816B, 0x8EEE),
  (0x816E, 0xE447),
  (0x8170, 0x8D98_E446),
  (0x8174, 0xE44A),
  (0x8178, 0x92B0_95A0_9142),
  (0x817F, 0x91DA_E44E),
  (0x8182, 0xE44F_E44B),
  (0x8188, 0xE44C),
  (0x818A, 0xE44D),
  (0x818F, 0x8D70),
  (0x8193, 0xE455),
  (0x8195, 0xE451),
  (0x819A, 0x9586),
  (0x819C, 0x968C_9547),
  (0x81A0, 0xE450),
  (0x81A3, 0xE453_E452),
  (0x81A8, 0x9663_E456),
  (0x81B0, 0xE457),
  (0x81B3, 0x9156),
  (0x81B5, 0xE458),
  (0x81B8, 0xE45A),
  (0x81BA, 0xE45E),
  (0x81BD, 0xE45B_E459_945E_E45C),
  (0x81C2, 0xE45D),
  (0x81C6, 0x89B0),
  (0x81C8, 0xE464_E45F),
  (0x81CD, 0xE460),
  (0x81D1, 0xE461),
  (0x81D3, 0x919F),
  (0x81D8, 0xE463_E462_E465),
  (0x81DF, 0xE466_E467),
  (0x81E3, 0x9062),
  (0x81E5, 0x89E7),
  (0x81E7, 0xE468_97D5),
  (0x81EA, 0x8EA9),
  (0x81ED, 0x8F4C),
  (0x81F3, 0x8E8A_9276),
  (0x81FA, 0xE469_E46A_8950),
  (0x81FE, 0xE46B),
  (0x8201, 0xE46C_E46D),
  (0x8205, 0xE46E),
  (0x8207, 0xE46F_8BBB_9DA8_E470),
  (0x820C, 0x90E3_E471_8EC9),
  (0x8210, 0xE472),
  (0x8212, 0x98AE),
  (0x8216, 0xE473_95DC_8ADA),
  (0x821B, 0x9143_8F77),
  (0x821E, 0x9591_8F4D),
  (0x8229, 0xE474_8D71_E475_94CA),
  (0x822E, 0xE484),
  (0x8233, 0xE477),
  (0x8235, 0x91C7_9495_8CBD_E476_9144),
  (0x8240, 0xE478),
  (0x8247, 0x92F8),
  (0x8258, 0xE47A_E479_E47C),
  (0x825D, 0xE47B),
  (0x825F, 0xE47D),
  (0x8262, 0xE480),
  (0x8264, 0xE47E),
  (0x8266, 0x8ACD),
  (0x8268, 0xE481),
  (0x826A, 0xE482_E483),
  (0x826E, 0x8DAF_97C7),
  (0x8271, 0xE485_9046),
  (0x8276, 0x8990_E486_E487),
  (0x827E, 0xE488),
  (0x828B, 0x88F0),
  (0x828D, 0xE489),
  (0x8292, 0xE48A),
  (0x8299, 0x9587),
  (0x829D, 0x8EC5),
  (0x829F, 0xE48C),
  (0x82A5, 0x8A48_88B0),
  (0x82AB, 0xE48B_E48E_946D),
  (0x82AF, 0x9063),
  (0x82B1, 0x89D4),
  (0x82B3, 0x9646),
  (0x82B8, 0x8C7C_8BDA),
  (0x82BB, 0xE48D),
  (0x82BD, 0x89E8),
  (0x82C5, 0x8AA1),
  (0x82D1, 0x8991_E492_97E8_91DB),
  (0x82D7, 0x9563),
  (0x82D9, 0xE49E),
  (0x82DB, 0x89D5_E49C),
  (0x82DE, 0xE49A_E491),
  (0x82E1, 0xE48F),
  (0x82E3, 0xE490),
  (0x82E5, 0x8EE1_8BEA_9297),
  (0x82EB, 0x93CF),
  (0x82F1, 0x8970),
  (0x82F3, 0xE494_E493),
  (0x82F9, 0xE499_E495_E498),
  (0x8302, 0x96CE_E497_89D6_8A9D_E49B),
  (0x8309, 0xE49D),
  (0x830E, 0x8C73),
  (0x8316, 0xE4A1_E4AA_E4AB),
  (0x831C, 0x88A9),
  (0x8323, 0xE4B2),
  (0x8328, 0x88EF),
  (0x832B, 0xE4A9),
  (0x832F, 0xE4A8),
  (0x8331, 0xE4A3_E4A2),
  (0x8334, 0xE4A0_E49F_9283),
  (0x8338, 0x91F9_E4A5),
  (0x8340, 0xE4A4),
  (0x8345, 0xE4A7),
  (0x8349, 0x9190_8C74),
  (0x834F, 0x8960_E4A6),
  (0x8352, 0x8D72),
  (0x8358, 0x9191),
  (0x8373, 0xE4B8),
  (0x8375, 0xE4B9),
  (0x8377, 0x89D7),
  (0x837B, 0x89AC_E4B6),
  (0x8385, 0xE4AC),
  (0x8387, 0xE4B4),
  (0x8389, 0xE4BB_E4B5),
  (0x838E, 0xE4B3),
  (0x8393, 0xE496),
  (0x8396, 0xE4B1),
  (0x839A, 0xE4AD),
  (0x839E, 0x8ACE_E4AF_E4BA),
  (0x83A2, 0xE4B0),
  (0x83A8, 0xE4BC),
  (0x83AA, 0xE4AE_949C),
  (0x83B1, 0x9789),
  (0x83B5, 0xE4B7),
  (0x83BD, 0xE4CD),
  (0x83C1, 0xE4C5),
  (0x83C5, 0x909B),
  (0x83CA, 0x8B65),
  (0x83CC, 0x8BDB),
  (0x83CE, 0xE4C0),
  (0x83D3, 0x89D9),
  (0x83D6, 0x8FD2),
  (0x83D8, 0xE4C3),
  (0x83DC, 0x8DD8),
  (0x83DF, 0x9370_E4C8),
  (0x83E9, 0x95EC),
  (0x83EB, 0xE4BF),
  (0x83EF, 0x89D8_8CD4_9548_E4C9),
  (0x83F4, 0xE4BD),
  (0x83F7, 0xE4C6),
  (0x83FB, 0xE4D0),
  (0x83FD, 0xE4C1),
  (0x8403, 0xE4C2_93B8),
  (0x8407, 0xE4C7),
  (0x840B, 0xE4C4_9647_E4CA_88DE),
  (0x8413, 0xE4BE),
  (0x8420, 0xE4CC),
  (0x8422, 0xE4CB),
  (0x8429, 0x948B_E4D2),
  (0x842C, 0xE4DD),
  (0x8431, 0x8A9E),
  (0x8435, 0xE4E0),
  (0x8438, 0xE4CE),
  (0x843C, 0xE4D3_978E),
  (0x8446, 0xE4DC),
  (0x8449, 0x9774),
  (0x844E, 0x97A8),
  (0x8457, 0x9298),
  (0x845B, 0x8A8B),
  (0x8461, 0x9592_E4E2_939F),
  (0x8466, 0x88AF),
  (0x8469, 0xE4DB),
  (0x846B, 0xE4D7_9192_E4D1_E4D9_E4DE),
  (0x8471, 0x944B),
  (0x8475, 0x88A8),
  (0x8477, 0xE4D6),
  (0x8479, 0xE4DF_9598),
  (0x8482, 0xE4DA),
  (0x8484, 0xE4D5),
  (0x848B, 0x8FD3),
  (0x8490, 0x8F4E),
  (0x8494, 0x8EAA),
  (0x8499, 0x96D6),
  (0x849C, 0x9566),
  (0x849F, 0xE4E5),
  (0x84A1, 0xE4EE),
  (0x84AD, 0xE4D8),
  (0x84B2, 0x8A97),
  (0x84B8, 0x8FF6_E4E3),
  (0x84BB, 0xE4E8_9193),
  (0x84BF, 0xE4E4),
  (0x84C1, 0xE4EB),
  (0x84C4, 0x927E),
  (0x84C6, 0xE4EC),
  (0x84C9, 0x9775_E4E1_8A57),
  (0x84CD, 0xE4E7),
  (0x84D0, 0xE4EA_96AA),
  (0x84D6, 0xE4ED),
  (0x84D9, 0xE4E6_E4E9),
  (0x84EC, 0x9648),
  (0x84EE, 0x9840),
  (0x84F4, 0xE4F1),
  (0x84FC, 0xE4F8),
  (0x84FF, 0xE4F0_8EC1),
  (0x8506, 0xE4CF),
  (0x8511, 0x95CC),
  (0x8513, 0x96A0_E4F7_E4F6),
  (0x8517, 0xE4F2_E4F3),
  (0x851A, 0x8955),
  (0x851F, 0xE4F5),
  (0x8521, 0xE4EF),
  (0x8526, 0x92D3),
  (0x852C, 0xE4F4_88FC),
  (0x8535, 0x91A0),
  (0x853D, 0x95C1),
  (0x8540, 0xE4F9_E540),
  (0x8543, 0x94D7),
  (0x8548, 0xE4FC_8FD4_8EC7_E542),
  (0x854E, 0x8BBC),
  (0x8555, 0xE543),
  (0x8557, 0x9599_E4FB),
  (0x855A, 0xE4D4),
  (0x8563, 0xE4FA),
  (0x8568, 0x986E_93A0_9593),
  (0x856D, 0xE54A),
  (0x8577, 0xE550),
  (0x857E, 0xE551),
  (0x8580, 0xE544),
  (0x8584, 0x9496),
  (0x8587, 0xE54E_E546),
  (0x858A, 0xE548),
  (0x8590, 0xE552_E547),
  (0x8594, 0xE54B),
  (0x8597, 0x8992),
  (0x8599, 0x93E3),
  (0x859B, 0xE54C_E54F),
  (0x85A4, 0xE545),
  (0x85A6, 0x9145),
  (0x85A8, 0xE549_8E46_9064_8C4F_96F2),
  (0x85AE, 0x96F7_8F92),
  (0x85B9, 0xE556_E554),
  (0x85C1, 0x986D),
  (0x85C9, 0xE553),
  (0x85CD, 0x9795),
  (0x85CF, 0xE555_E557),
  (0x85D5, 0xE558),
  (0x85DC, 0xE55B_E559),
  (0x85E4, 0x93A1_E55A),
  (0x85E9, 0x94CB_E54D),
  (0x85F7, 0x8F93),
  (0x85F9, 0xE55C_E561_9194),
  (0x85FE, 0xE560),
  (0x8602, 0xE541),
  (0x8606, 0xE562_9168),
  (0x860A, 0xE55D_E55F),
  (0x8613, 0xE55E),
  (0x8616, 0x9F50_9F41),
  (0x861A, 0xE564),
  (0x8622, 0xE563),
  (0x862D, 0x9796),
  (0x862F, 0xE1BA_E565),
  (0x863F, 0xE566),
  (0x864D, 0xE567_8CD5),
  (0x8650, 0x8B73),
  (0x8654, 0xE569_997C),
  (0x865A, 0x8B95),
  (0x865C, 0x97B8),
  (0x865E, 0x8BF1_E56A),
  (0x8667, 0xE56B),
  (0x866B, 0x928E),
  (0x8671, 0xE56C),
  (0x8679, 0x93F8),
  (0x867B, 0x88B8),
  (0x868A, 0x89E1_E571_E572),
  (0x8693, 0xE56D),
  (0x8695, 0x8E5C),
  (0x86A3, 0xE56E_9461),
  (0x86A9, 0xE56F_E570_E57A),
  (0x86AF, 0xE574_E577),
  (0x86B6, 0xE573),
  (0x86C4, 0xE575),
  (0x86C6, 0xE576_8ED6),
  (0x86C9, 0xE578),
  (0x86CB, 0x9260),
  (0x86CD, 0x8C75_8A61),
  (0x86D4, 0xE57B),
  (0x86D9, 0x8A5E),
  (0x86DB, 0xE581),
  (0x86DE, 0xE57C_E580),
  (0x86E4, 0x94B8),
  (0x86E9, 0xE57D),
  (0x86EC, 0xE57E_9567_94D8_E582),
  (0x86F8, 0x91FB_E58C),
  (0x86FB, 0xE588),
  (0x86FE, 0x89E9),
  (0x8700, 0xE586),
  (0x8702, 0x9649_E587),
  (0x8706, 0xE584),
  (0x8708, 0xE585_E58A_E58D),
  (0x870D, 0xE58B),
  (0x8711, 0xE589_E583),
  (0x8718, 0x9277),
  (0x871A, 0xE594),
  (0x871C, 0x96A8),
  (0x8725, 0xE592),
  (0x8729, 0xE593),
  (0x8734, 0xE58E),
  (0x8737, 0xE590),
  (0x873B, 0xE591),
  (0x873F, 0xE58F),
  (0x8749, 0x90E4),
  (0x874B, 0x9858_E598),
  (0x874E, 0xE599),
  (0x8753, 0xE59F),
  (0x8755, 0x9049),
  (0x8757, 0xE59B),
  (0x8759, 0xE59E),
  (0x875F, 0xE596_E595),
  (0x8763, 0xE5A0),
  (0x8766, 0x89DA),
  (0x8768, 0xE59C),
  (0x876A, 0xE5A1),
  (0x876E, 0xE59D),
  (0x8774, 0xE59A),
  (0x8776, 0x92B1),
  (0x8778, 0xE597),
  (0x877F, 0x9488),
  (0x8782, 0xE5A5),
  (0x878D, 0x975A),
  (0x879F, 0xE5A4),
  (0x87A2, 0xE5A3),
  (0x87AB, 0xE5AC),
  (0x87AF, 0xE5A6),
  (0x87B3, 0xE5AE),
  (0x87BA, 0x9786_E5B1),
  (0x87BD, 0xE5A8),
  (0x87C0, 0xE5A9),
  (0x87C4, 0xE5AD),
  (0x87C6, 0xE5B0_E5AF),
  (0x87CB, 0xE5A7),
  (0x87D0, 0xE5AA),
  (0x87D2, 0xE5BB),
  (0x87E0, 0xE5B4),
  (0x87EF, 0xE5B2),
  (0x87F2, 0xE5B3),
  (0x87F6, 0xE5B8_E5B9),
  (0x87F9, 0x8A49),
  (0x87FB, 0x8B61),
  (0x87FE, 0xE5B7),
  (0x8805, 0xE5A2),
  (0x880D, 0xE5B6_E5BA_E5B5),
  (0x8811, 0xE5BC),
  (0x8815, 0xE5BE_E5BD),
  (0x8821, 0xE5C0_E5BF_E579),
  (0x8827, 0xE5C4),
  (0x8831, 0xE5C1),
  (0x8836, 0xE5C2),
  (0x8839, 0xE5C3),
  (0x883B, 0xE5C5),
  (0x8840, 0x8C8C),
  (0x8842, 0xE5C7),
  (0x8844, 0xE5C6),
  (0x8846, 0x8F4F),
  (0x884C, 0x8D73_9FA5),
  (0x8852, 0xE5C8_8F70),
  (0x8857, 0x8A58),
  (0x8859, 0xE5C9),
  (0x885B, 0x8971),
  (0x885D, 0x8FD5_E5CA),
  (0x8861, 0x8D74_E5CB_88DF),
  (0x8868, 0x955C),
  (0x886B, 0xE5CC),
  (0x8870, 0x908A),
  (0x8872, 0xE5D3),
  (0x8875, 0xE5D0),
  (0x8877, 0x928F),
  (0x887D, 0xE5D1_E5CE_8BDC),
  (0x8881, 0xE5CD_E5D4),
  (0x8888, 0x8C55),
  (0x888B, 0x91DC),
  (0x888D, 0xE5DA),
  (0x8892, 0xE5D6),
  (0x8896, 0x91B3_E5D5),
  (0x8899, 0xE5D8),
  (0x889E, 0xE5CF),
  (0x88A2, 0xE5D9),
  (0x88A4, 0xE5DB),
  (0x88AB, 0x94ED),
  (0x88AE, 0xE5D7),
  (0x88B0, 0xE5DC_E5DE),
  (0x88B4, 0x8CD1_E5D2),
  (0x88B7, 0x88BF),
  (0x88BF, 0xE5DD),
  (0x88C1, 0x8DD9_97F4_E5DF_E5E0_9195),
  (0x88CF, 0x97A0),
  (0x88D4, 0xE5E1_9754),
  (0x88D8, 0xE5E2_E5E3),
  (0x88DC, 0x95E2_E5E4),
  (0x88DF, 0x8DBE),
  (0x88E1, 0x97A1),
  (0x88E8, 0xE5E9),
  (0x88F2, 0xE5EA_8FD6_E5E8),
  (0x88F8, 0x9787_E5E5),
  (0x88FC, 0xE5E7_90BB_909E),
  (0x8902, 0xE5E6),
  (0x8904, 0xE5EB),
  (0x8907, 0x95A1),
  (0x890A, 0xE5ED),
  (0x890C, 0xE5EC),
  (0x8910, 0x8A8C),
  (0x8912, 0x964A_E5EE),
  (0x891D, 0xE5FA_E5F0),
  (0x8925, 0xE5F1),
  (0x892A, 0xE5F2_E5F3),
  (0x8936, 0xE5F7),
  (0x8938, 0xE5F8),
  (0x893B, 0xE5F6),
  (0x8941, 0xE5F4),
  (0x8943, 0xE5EF_E5F5),
  (0x894C, 0xE5F9_E8B5),
  (0x8956, 0x89A6),
  (0x895E, 0xE5FC_8BDD_E5FB),
  (0x8964, 0xE641),
  (0x8966, 0xE640),
  (0x896A, 0xE643),
  (0x896D, 0xE642),
  (0x896F, 0xE644),
  (0x8972, 0x8F50),
  (0x8974, 0xE645),
  (0x8977, 0xE646),
  (0x897E, 0xE647_90BC),
  (0x8981, 0x9776),
  (0x8983, 0xE648),
  (0x8986, 0x95A2_9465_E649),
  (0x898A, 0xE64A_8CA9),
  (0x898F, 0x8B4B),
  (0x8993, 0xE64B),
  (0x8996, 0x8E8B_9460_E64C),
  (0x899A, 0x8A6F),
  (0x89A1, 0xE64D),
  (0x89A6, 0xE64F_9797),
  (0x89A9, 0xE64E_9065),
  (0x89AC, 0xE650),
  (0x89AF, 0xE651),
  (0x89B2, 0xE652_8ACF),
  (0x89BA, 0xE653),
  (0x89BD, 0xE654),
  (0x89BF, 0xE655_E656),
  (0x89D2, 0x8A70),
  (0x89DA, 0xE657),
  (0x89DC, 0xE658_E659),
  (0x89E3, 0x89F0),
  (0x89E6, 0x9047_E65A),
  (0x89F4, 0xE65B),
  (0x89F8, 0xE65C),
  (0x8A00, 0x8CBE),
  (0x8A02, 0x92F9_E65D),
  (0x8A08, 0x8C76),
  (0x8A0A, 0x9075),
  (0x8A0C, 0xE660),
  (0x8A0E, 0x93A2),
  (0x8A10, 0xE65F),
  (0x8A13, 0x8C50),
  (0x8A16, 0xE65E_91F5_8B4C),
  (0x8A1B, 0xE661),
  (0x8A1D, 0xE662),
  (0x8A1F, 0x8FD7),
  (0x8A23, 0x8C8D),
  (0x8A25, 0xE663),
  (0x8A2A, 0x964B),
  (0x8A2D, 0x90DD),
  (0x8A31, 0x8B96),
  (0x8A33, 0x96F3_9169),
  (0x8A36, 0xE664),
  (0x8A3A, 0x9066_9290_8FD8),
  (0x8A41, 0xE665),
  (0x8A46, 0xE668),
  (0x8A48, 0xE669),
  (0x8A50, 0x8DBC_91C0_E667),
  (0x8A54, 0x8FD9_955D),
  (0x8A5B, 0xE666),
  (0x8A5E, 0x8E8C),
  (0x8A60, 0x8972),
  (0x8A62, 0xE66D_8C77),
  (0x8A66, 0x8E8E),
  (0x8A69, 0x8E8D),
  (0x8A6B, 0x986C_E66C_E66B_9146),
  (0x8A70, 0x8B6C_9862_8A59_8FDA),
  (0x8A7C, 0xE66A),
  (0x8A82, 0xE66F),
  (0x8A84, 0xE670_E66E),
  (0x8A87, 0x8CD6),
  (0x8A89, 0x975F),
  (0x8A8C, 0x8E8F_9446),
  (0x8A91, 0xE673),
  (0x8A93, 0x90BE),
  (0x8A95, 0x9261),
  (0x8A98, 0x9755),
  (0x8A9A, 0xE676),
  (0x8A9E, 0x8CEA),
  (0x8AA0, 0x90BD_E672),
  (0x8AA3, 0xE677_8CEB_E674_E675),
  (0x8AA8, 0xE671),
  (0x8AAC, 0x90E0_93C7),
  (0x8AB0, 0x924E),
  (0x8AB2, 0x89DB),
  (0x8AB9, 0x94EE),
  (0x8ABC, 0x8B62),
  (0x8ABF, 0x92B2),
  (0x8AC2, 0xE67A),
  (0x8AC4, 0xE678),
  (0x8AC7, 0x926B),
  (0x8ACB, 0x90BF_8AD0_E679),
  (0x8ACF, 0x907A),
  (0x8AD2, 0x97C8),
  (0x8AD6, 0x985F),
  (0x8ADA, 0xE67B_E687_92B3),
  (0x8ADE, 0xE686),
  (0x8AE0, 0xE683_E68B_E684),
  (0x8AE4, 0xE680),
  (0x8AE6, 0x92FA_E67E),
  (0x8AEB, 0xE67C),
  (0x8AED, 0x9740_8E90),
  (0x8AF1, 0xE681),
  (0x8AF3, 0xE67D),
  (0x8AF7, 0xE685_8F94),
  (0x8AFA, 0x8CBF),
  (0x8AFE, 0x91F8),
  (0x8B00, 0x9664_8979_88E0),
  (0x8B04, 0x93A3),
  (0x8B07, 0xE689),
  (0x8B0C, 0xE688),
  (0x8B0E, 0x93E4),
  (0x8B10, 0xE68D),
  (0x8B14, 0xE682),
  (0x8B16, 0xE68C_E68E),
  (0x8B19, 0x8CAA_E68A_8D75),
  (0x8B1D, 0x8ED3),
  (0x8B20, 0xE68F_9777),
  (0x8B26, 0xE692),
  (0x8B28, 0xE695),
  (0x8B2B, 0xE693_9554),
  (0x8B33, 0xE690),
  (0x8B39, 0x8BDE),
  (0x8B3E, 0xE694),
  (0x8B41, 0xE696),
  (0x8B49, 0xE69A),
  (0x8B4C, 0xE697),
  (0x8B4E, 0xE699_E698),
  (0x8B56, 0xE69B),
  (0x8B58, 0x8EAF),
  (0x8B5A, 0xE69D_E69C_9588),
  (0x8B5F, 0xE69F),
  (0x8B66, 0x8C78),
  (0x8B6B, 0xE69E_E6A0),
  (0x8B6F, 0xE6A1_8B63_E3BF_8FF7),
  (0x8B74, 0xE6A2),
  (0x8B77, 0x8CEC),
  (0x8B7D, 0xE6A3),
  (0x8B80, 0xE6A4),
  (0x8B83, 0x8E5D),
  (0x8B8A, 0x9DCC),
  (0x8B8C, 0xE6A5),
  (0x8B8E, 0xE6A6),
  (0x8B90, 0x8F51),
  (0x8B92, 0xE6A7_E6A8),
  (0x8B96, 0xE6A9),
  (0x8B99, 0xE6AA_E6AB),
  (0x8C37, 0x924A),
  (0x8C3A, 0xE6AC),
  (0x8C3F, 0xE6AE),
  (0x8C41, 0xE6AD),
  (0x8C46, 0x93A4),
  (0x8C48, 0xE6AF),
  (0x8C4A, 0x964C),
  (0x8C4C, 0xE6B0),
  (0x8C4E, 0xE6B1),
  (0x8C50, 0xE6B2),
  (0x8C55, 0xE6B3),
  (0x8C5A, 0x93D8),
  (0x8C61, 0x8FDB_E6B4),
  (0x8C6A, 0x8D8B_98AC_E6B5),
  (0x8C78, 0xE6B6_955E_E6B7),
  (0x8C7C, 0xE6BF),
  (0x8C82, 0xE6B8),
  (0x8C85, 0xE6BA),
  (0x8C89, 0xE6B9_E6BB),
  (0x8C8C, 0x9665_E6BC_E6BD),
  (0x8C94, 0xE6BE),
  (0x8C98, 0xE6C0),
  (0x8C9D, 0x8A4C_92E5),
  (0x8CA0, 0x9589_8DE0_8D76),
  (0x8CA7, 0x956E_89DD_94CC_E6C3_8AD1_90D3_E6C2_E6C7_9299_96E1),
  (0x8CB2, 0xE6C5_E6C6_8B4D),
  (0x8CB6, 0xE6C8_9483_91DD),
  (0x8CBB, 0x94EF_935C_E6C4),
  (0x8CBF, 0x9666_89EA_E6CA_9847_92C0_9864),
  (0x8CC7, 0x8E91_E6C9),
  (0x8CCA, 0x91AF),
  (0x8CCD, 0xE6DA_9147),
  (0x8CD1, 0x93F6),
  (0x8CD3, 0x956F),
  (0x8CDA, 0xE6CD_8E5E_8E92),
  (0x8CDE, 0x8FDC),
  (0x8CE0, 0x9485),
  (0x8CE2, 0x8CAB_E6CC_E6CB),
  (0x8CE6, 0x958A),
  (0x8CEA, 0x8EBF),
  (0x8CED, 0x9371),
  (0x8CFA, 0xE6CF_E6D0_8D77_E6CE),
  (0x8D04, 0xE6D1_E6D2),
  (0x8D07, 0xE6D4_91A1),
  (0x8D0A, 0xE6D3_8AE4),
  (0x8D0D, 0xE6D6),
  (0x8D0F, 0xE6D5_E6D7),
  (0x8D13, 0xE6D9_E6DB),
  (0x8D16, 0xE6DC),
  (0x8D64, 0x90D4),
  (0x8D66, 0x8ECD_E6DD),
  (0x8D6B, 0x8A71),
  (0x8D6D, 0xE6DE),
  (0x8D70, 0x9196_E6DF),
  (0x8D73, 0xE6E0_958B),
  (0x8D77, 0x8B4E),
  (0x8D81, 0xE6E1),
  (0x8D85, 0x92B4),
  (0x8D8A, 0x897A),
  (0x8D99, 0xE6E2),
  (0x8DA3, 0x8EEF),
  (0x8DA8, 0x9096),
  (0x8DB3, 0x91AB),
  (0x8DBA, 0xE6E5),
  (0x8DBE, 0xE6E4),
  (0x8DC2, 0xE6E3),
  (0x8DCB, 0xE6EB_E6E9),
  (0x8DCF, 0xE6E6),
  (0x8DD6, 0xE6E8),
  (0x8DDA, 0xE6E7_E6EA),
  (0x8DDD, 0x8B97),
  (0x8DDF, 0xE6EE),
  (0x8DE1, 0x90D5),
  (0x8DE3, 0xE6EF),
  (0x8DE8, 0x8CD7),
  (0x8DEA, 0xE6EC_E6ED),
  (0x8DEF, 0x9848),
  (0x8DF3, 0x92B5),
  (0x8DF5, 0x9148),
  (0x8DFC, 0xE6F0),
  (0x8DFF, 0xE6F3),
  (0x8E08, 0xE6F1_E6F2_9778),
  (0x8E0F, 0x93A5_E6F6),
  (0x8E1D, 0xE6F4_E6F5_E6F7),
  (0x8E2A, 0xE748),
  (0x8E30, 0xE6FA),
  (0x8E34, 0xE6FB_E6F9),
  (0x8E42, 0xE6F8),
  (0x8E44, 0x92FB),
  (0x8E47, 0xE740_E744_E741_E6FC),
  (0x8E4C, 0xE742),
  (0x8E50, 0xE743),
  (0x8E55, 0xE74A),
  (0x8E59, 0xE745),
  (0x8E5F, 0x90D6_E747),
  (0x8E63, 0xE749_E746),
  (0x8E72, 0xE74C),
  (0x8E74, 0x8F52),
  (0x8E76, 0xE74B),
  (0x8E7C, 0xE74D),
  (0x8E81, 0xE74E),
  (0x8E84, 0xE751_E750),
  (0x8E87, 0xE74F),
  (0x8E8A, 0xE753_E752),
  (0x8E8D, 0x96F4),
  (0x8E91, 0xE755),
  (0x8E93, 0xE754_E756),
  (0x8E99, 0xE757),
  (0x8EA1, 0xE759),
  (0x8EAA, 0xE758_9067_E75A),
  (0x8EAF, 0x8BEB_E75B_E75D),
  (0x8EBE, 0xE75E),
  (0x8EC5, 0xE75F_E75C),
  (0x8EC8, 0xE760),
  (0x8ECA, 0x8ED4_E761_8B4F_8C52),
  (0x8ED2, 0x8CAC),
  (0x8EDB, 0xE762),
  (0x8EDF, 0x93EE),
  (0x8EE2, 0x935D_E763),
  (0x8EEB, 0xE766),
  (0x8EF8, 0x8EB2),
  (0x8EFB, 0xE765_E764_8C79_E767),
  (0x8F03, 0x8A72),
  (0x8F05, 0xE769),
  (0x8F09, 0x8DDA_E768),
  (0x8F0C, 0xE771),
  (0x8F12, 0xE76B_E76D_95E3_E76A),
  (0x8F19, 0xE76C),
  (0x8F1B, 0xE770_E76E_8B50),
  (0x8F1F, 0xE76F),
  (0x8F26, 0xE772),
  (0x8F29, 0x9479_97D6),
  (0x8F2F, 0x8F53),
  (0x8F33, 0xE773),
  (0x8F38, 0x9741_E775),
  (0x8F3B, 0xE774),
  (0x8F3E, 0xE778_9760),
  (0x8F42, 0xE777),
  (0x8F44, 0x8A8D_E776_E77B),
  (0x8F49, 0xE77A),
  (0x8F4C, 0xE779_9351_E77C),
  (0x8F57, 0xE77D),
  (0x8F5C, 0xE77E),
  (0x8F5F, 0x8D8C),
  (0x8F61, 0x8C44_E780_E781_E782),
  (0x8F9B, 0x9068_E783),
  (0x8F9E, 0x8EAB_E784),
  (0x8FA3, 0xE785),
  (0x8FA7, 0x999F_999E),
  (0x8FAD, 0xE786_E390_E787_9243_904A_945F),
  (0x8FB7, 0xE788),
  (0x8FBA, 0x95D3_92D2_8D9E),
  (0x8FBF, 0x9248),
  (0x8FC2, 0x8949),
  (0x8FC4, 0x9698_9076),
  (0x8FCE, 0x8C7D),
  (0x8FD1, 0x8BDF),
  (0x8FD4, 0x95D4),
  (0x8FDA, 0xE789),
  (0x8FE2, 0xE78B),
  (0x8FE5, 0xE78A_89DE),
  (0x8FE9, 0x93F4_E78C_9497),
  (0x8FED, 0x9352),
  (0x8FEF, 0xE78D_8F71),
  (0x8FF4, 0xE78F),
  (0x8FF7, 0x96C0_E79E_E791_E792),
  (0x8FFD, 0x92C7),
  (0x9000, 0x91DE_9197),
  (0x9003, 0x93A6),
  (0x9005, 0xE790_8B74),
  (0x900B, 0xE799),
  (0x900D, 0xE796_E7A3_93A7_9280_E793),
  (0x9013, 0x92FC_9372_E794_E798_9080),
  (0x9019, 0x9487_92CA),
  (0x901D, 0x90C0_E797_91AC_91A2_E795_88A7_9841),
  (0x9027, 0xE79A),
  (0x902E, 0x91DF),
  (0x9031, 0x8F54_9069),
  (0x9035, 0xE79C_E79B),
  (0x9038, 0x88ED_E79D),
  (0x903C, 0x954E),
  (0x903E, 0xE7A5),
  (0x9041, 0x93D9_908B),
  (0x9045, 0x9278),
  (0x9047, 0x8BF6),
  (0x9049, 0xE7A4_9756_895E),
  (0x904D, 0x95D5_89DF_E79F_E7A0_E7A1_E7A2_93B9_9242_88E1_E7A6),
  (0x9058, 0xE7A7_EAA1),
  (0x905C, 0x91BB),
  (0x905E, 0xE7A8),
  (0x9060, 0x8993_916B),
  (0x9063, 0x8CAD),
  (0x9065, 0x9779),
  (0x9068, 0xE7A9_934B),
  (0x906D, 0x9198_8ED5_E7AA),
  (0x9072, 0xE7AD),
  (0x9075, 0x8F85_E7AB_914A_9149),
  (0x907A, 0x88E2),
  (0x907C, 0x97C9_E7AF),
  (0x907F, 0x94F0_E7B1_E7B0_E7AE_E284_8AD2),
  (0x9087, 0xE78E),
  (0x9089, 0xE7B3_E7B2),
  (0x908F, 0xE7B4),
  (0x9091, 0x9757),
  (0x90A3, 0x93DF),
  (0x90A6, 0x964D),
  (0x90A8, 0xE7B5),
  (0x90AA, 0x8ED7),
  (0x90AF, 0xE7B6),
  (0x90B1, 0xE7B7),
  (0x90B5, 0xE7B8),
  (0x90B8, 0x9340),
  (0x90C1, 0x88E8),
  (0x90CA, 0x8D78),
  (0x90CE, 0x9859),
  (0x90DB, 0xE7BC),
  (0x90E1, 0x8C53_E7B9),
  (0x90E4, 0xE7BA),
  (0x90E8, 0x9594),
  (0x90ED, 0x8A73),
  (0x90F5, 0x9758),
  (0x90F7, 0x8BBD),
  (0x90FD, 0x9373),
  (0x9102, 0xE7BD),
  (0x9112, 0xE7BE),
  (0x9119, 0xE7BF),
  (0x912D, 0x9341),
  (0x9130, 0xE7C1),
  (0x9132, 0xE7C0),
  (0x9149, 0x93D1_E7C2_8F55_8EDE_947A_9291),
  (0x9152, 0x8EF0),
  (0x9154, 0x908C),
  (0x9156, 0xE7C3),
  (0x9158, 0xE7C4),
  (0x9162, 0x907C_E7C5),
  (0x9165, 0xE7C6),
  (0x9169, 0xE7C7_978F),
  (0x916C, 0x8F56),
  (0x9172, 0xE7C9_E7C8),
  (0x9175, 0x8D79),
  (0x9177, 0x8D93_8E5F),
  (0x9182, 0xE7CC),
  (0x9187, 0x8F86),
  (0x9189, 0xE7CB),
  (0x918B, 0xE7CA),
  (0x918D, 0x91E7),
  (0x9190, 0x8CED),
  (0x9192, 0x90C1),
  (0x9197, 0x94AE),
  (0x919C, 0x8F58),
  (0x91A2, 0xE7CD),
  (0x91A4, 0x8FDD),
  (0x91AA, 0xE7D0_E7CE),
  (0x91AF, 0xE7CF),
  (0x91B4, 0xE7D2_E7D1),
  (0x91B8, 0x8FF8),
  (0x91BA, 0xE7D3),
  (0x91C0, 0xE7D4_E7D5),
  (0x91C6, 0x94CE_8DD1_8EDF_E7D6),
  (0x91CB, 0xE7D7_97A2_8F64_96EC_97CA_E7D8_8BE0),
  (0x91D6, 0xE7D9),
  (0x91D8, 0x9342),
  (0x91DB, 0xE7DC_8A98_906A),
  (0x91DF, 0xE7DA),
  (0x91E1, 0xE7DB),
  (0x91E3, 0x92DE),
  (0x91E6, 0x9674_8BFA),
  (0x91F5, 0xE7DE_E7DF),
  (0x91FC, 0xE7DD),
  (0x91FF, 0xE7E1),
  (0x920D, 0x93DD_8A62),
  (0x9211, 0xE7E5),
  (0x9214, 0xE7E2_E7E4),
  (0x921E, 0xE7E0),
  (0x9229, 0xE86E),
  (0x922C, 0xE7E3),
  (0x9234, 0x97E9),
  (0x9237, 0x8CD8),
  (0x923F, 0xE7ED),
  (0x9244, 0x9353_E7E8),
  (0x9248, 0xE7EB_E7E9),
  (0x924B, 0xE7EE),
  (0x9250, 0xE7EF),
  (0x9257, 0xE7E7),
  (0x925A, 0xE7F4_8994),
  (0x925E, 0xE7E6),
  (0x9262, 0x94AB),
  (0x9264, 0xE7EA),
  (0x9266, 0x8FDE),
  (0x9271, 0x8D7A),
  (0x927E, 0x9667),
  (0x9280, 0x8BE2),
  (0x9283, 0x8F65),
  (0x9285, 0x93BA),
  (0x9291, 0x914C),
  (0x9293, 0xE7F2),
  (0x9295, 0xE7EC_E7F1),
  (0x9298, 0x96C1),
  (0x929A, 0x92B6_E7F3_E7F0),
  (0x92AD, 0x914B),
  (0x92B7, 0xE7F7),
  (0x92B9, 0xE7F6),
  (0x92CF, 0xE7F5),
  (0x92D2, 0x964E),
  (0x92E4, 0x8F9B),
  (0x92E9, 0xE7F8_95DD),
  (0x92ED, 0x8973),
  (0x92F2, 0x9565_9292),
  (0x92F8, 0x8B98),
  (0x92FA, 0xE7FA),
  (0x92FC, 0x8D7C),
  (0x9306, 0x8E4B),
  (0x930F, 0xE7F9_908D),
  (0x9318, 0x908E_E840_E842),
  (0x9320, 0x8FF9),
  (0x9322, 0xE841_E843),
  (0x9326, 0x8BD1),
  (0x9328, 0x9564),
  (0x932B, 0x8EE0_9842),
  (0x932E, 0xE7FC_8DF6),
  (0x9332, 0x985E),
  (0x9335, 0xE845),
  (0x933A, 0xE844_E846),
  (0x9344, 0xE7FB),
  (0x934B, 0x93E7),
  (0x934D, 0x9374),
  (0x9354, 0x92D5),
  (0x9356, 0xE84B),
  (0x935B, 0x9262_E847),
  (0x9360, 0xE848),
  (0x936C, 0x8C4C),
  (0x936E, 0xE84A),
  (0x9375, 0x8CAE),
  (0x937C, 0xE849),
  (0x937E, 0x8FDF),
  (0x938C, 0x8A99),
  (0x9394, 0xE84F),
  (0x9396, 0x8DBD_9199),
  (0x939A, 0x92C8),
  (0x93A7, 0x8A5A),
  (0x93AC, 0xE84D_E84E_92C1),
  (0x93B0, 0xE84C),
  (0x93B9, 0xE850),
  (0x93C3, 0xE856),
  (0x93C8, 0xE859),
  (0x93D0, 0xE858_934C),
  (0x93D6, 0xE851_E852_E855),
  (0x93DD, 0xE857),
  (0x93E1, 0x8BBE),
  (0x93E4, 0xE85A_E854),
  (0x93E8, 0xE853),
  (0x9403, 0xE85E),
  (0x9407, 0xE85F),
  (0x9410, 0xE860),
  (0x9413, 0xE85D_E85C),
  (0x9418, 0x8FE0_93A8_E85B),
  (0x9421, 0xE864),
  (0x942B, 0xE862),
  (0x9435, 0xE863_E861),
  (0x9438, 0x91F6),
  (0x943A, 0xE865),
  (0x9441, 0xE866),
  (0x9444, 0xE868),
  (0x9451, 0x8AD3_E867_96F8),
  (0x945A, 0xE873_E869),
  (0x945E, 0xE86C),
  (0x9460, 0xE86A),
  (0x9462, 0xE86B),
  (0x946A, 0xE86D),
  (0x9470, 0xE86F),
  (0x9475, 0xE870),
  (0x9477, 0xE871),
  (0x947C, 0xE874_E872_E875_E877),
  (0x9481, 0xE876),
  (0x9577, 0x92B7),
  (0x9580, 0x96E5),
  (0x9582, 0xE878_914D),
  (0x9587, 0xE879),
  (0x9589, 0x95C2_E87A_8A4A),
  (0x958F, 0x895B),
  (0x9591, 0x8AD5),
  (0x9593, 0x8AD4_E87B),
  (0x9596, 0xE87C),
  (0x9598, 0xE87D_E87E),
  (0x95A0, 0xE880),
  (0x95A2, 0x8AD6_8A74_8D7D_94B4),
  (0x95A7, 0xE882_E881),
  (0x95AD, 0xE883),
  (0x95B2, 0x897B),
  (0x95B9, 0xE886),
  (0x95BB, 0xE885_E884),
  (0x95BE, 0xE887),
  (0x95C3, 0xE88A),
  (0x95C7, 0x88C5),
  (0x95CA, 0xE888),
  (0x95CC, 0xE88C_E88B),
  (0x95D4, 0xE88E_E88D_E88F),
  (0x95D8, 0x93AC),
  (0x95DC, 0xE890),
  (0x95E1, 0xE891_E893),
  (0x95E5, 0xE892),
  (0x961C, 0x958C),
  (0x9621, 0xE894),
  (0x9628, 0xE895),
  (0x962A, 0x8DE3),
  (0x962E, 0xE896_E897),
  (0x9632, 0x9668),
  (0x963B, 0x916A),
  (0x963F, 0x88A2_91C9),
  (0x9642, 0xE898),
  (0x9644, 0x958D),
  (0x964B, 0xE89B_E899_8D7E),
  (0x964F, 0xE89A_8CC0),
  (0x965B, 0x95C3_E89D_E89F_E89E_E8A0),
  (0x9662, 0x8940_9077_8F9C_8AD7_E8A1),
  (0x966A, 0x9486),
  (0x966C, 0xE8A3),
  (0x9670, 0x8941),
  (0x9672, 0xE8A2_92C2),
  (0x9675, 0x97CB_93A9_E89C_97A4),
  (0x967A, 0x8CAF),
  (0x967D, 0x977A),
  (0x9685, 0x8BF7_97B2),
  (0x9688, 0x8C47),
  (0x968A, 0x91E0_E440),
  (0x968D, 0xE8A4_8A4B_908F),
  (0x9694, 0x8A75_E8A6),
  (0x9697, 0xE8A7_E8A5_8C84),
  (0x969B, 0x8DDB_8FE1),
  (0x96A0, 0x8942),
  (0x96A3, 0x97D7),
  (0x96A7, 0xE8A9_E7AC),
  (0x96AA, 0xE8A8),
  (0x96B0, 0xE8AC_E8AA_E8AB),
  (0x96B4, 0xE8AD),
  (0x96B6, 0xE8AE_97EA_E8AF_E8B0),
  (0x96BB, 0x90C7_94B9),
  (0x96C0, 0x909D_8AE5),
  (0x96C4, 0x9759_89EB_8F57_8CD9),
  (0x96C9, 0xE8B3),
  (0x96CB, 0xE8B2_8E93_E8B4_E8B1),
  (0x96D1, 0x8E47),
  (0x96D5, 0xE8B8_E5AB),
  (0x96D9, 0x99D4),
  (0x96DB, 0x9097_E8B6),
  (0x96E2, 0x97A3_93EF),
  (0x96E8, 0x894A),
  (0x96EA, 0x90E1_8EB4),
  (0x96F0, 0x95B5),
  (0x96F2, 0x895F),
  (0x96F6, 0x97EB_978B),
  (0x96F9, 0xE8B9),
  (0x96FB, 0x9364),
  (0x9700, 0x8EF9),
  (0x9704, 0xE8BA),
  (0x9706, 0xE8BB_906B_E8BC),
  (0x970A, 0x97EC),
  (0x970D, 0xE8B7_E8BE_E8C0),
  (0x9711, 0xE8BF),
  (0x9713, 0xE8BD),
  (0x9716, 0xE8C1),
  (0x9719, 0xE8C2),
  (0x971C, 0x919A),
  (0x971E, 0x89E0),
  (0x9724, 0xE8C3),
  (0x9727, 0x96B6),
  (0x972A, 0xE8C4),
  (0x9730, 0xE8C5),
  (0x9732, 0x9849),
  (0x9738, 0x9E50_E8C6),
  (0x973D, 0xE8C7_E8C8),
  (0x9742, 0xE8CC),
  (0x9744, 0xE8C9),
  (0x9746, 0xE8CA),
  (0x9748, 0xE8CB_E8CD),
  (0x9752, 0x90C2),
  (0x9756, 0x96F5),
  (0x9759, 0x90C3),
  (0x975C, 0xE8CE),
  (0x975E, 0x94F1),
  (0x9760, 0xE8CF_EA72_96CA),
  (0x9764, 0xE8D0),
  (0x9766, 0xE8D1),
  (0x9768, 0xE8D2_8A76),
  (0x976B, 0xE8D4),
  (0x976D, 0x9078),
  (0x9771, 0xE8D5),
  (0x9774, 0x8C43),
  (0x9779, 0xE8D6_E8DA),
  (0x977C, 0xE8D8),
  (0x9781, 0xE8D9),
  (0x9784, 0x8A93_E8D7_E8DB),
  (0x978B, 0xE8DC),
  (0x978D, 0x88C6),
  (0x978F, 0xE8DD_E8DE),
  (0x9798, 0x8FE2),
  (0x979C, 0xE8DF),
  (0x97A0, 0x8B66),
  (0x97A3, 0xE8E2),
  (0x97A6, 0xE8E1),
  (0x97A8, 0xE8E0),
  (0x97AB, 0xE691),
  (0x97AD, 0x95DA),
  (0x97B3, 0xE8E3_E8E4),
  (0x97C3, 0xE8E5),
  (0x97C6, 0xE8E6),
  (0x97C8, 0xE8E7),
  (0x97CB, 0xE8E8),
  (0x97D3, 0x8AD8),
  (0x97DC, 0xE8E9),
  (0x97ED, 0xE8EA_9442),
  (0x97F2, 0xE8EC_89B9),
  (0x97F5, 0xE8EF_E8EE),
  (0x97FB, 0x8943),
  (0x97FF, 0x8BBF),
  (0x9801, 0x95C5_92B8_8DA0),
  (0x9805, 0x8D80_8F87),
  (0x9808, 0x907B),
  (0x980C, 0xE8F1),
  (0x980F, 0xE8F0_9761_8AE6_94D0_93DA),
  (0x9817, 0x909C_97CC),
  (0x981A, 0x8C7A),
  (0x9821, 0xE8F4),
  (0x9824, 0xE8F3),
  (0x982C, 0x966A_93AA),
  (0x9834, 0x896F),
  (0x9837, 0xE8F5_E8F2),
  (0x983B, 0x9570_978A_E8F6),
  (0x9846, 0xE8F7),
  (0x984B, 0xE8F9_91E8_8A7A_8A7B_E8F8),
  (0x9854, 0x8AE7_8CB0),
  (0x9858, 0x8AE8),
  (0x985B, 0x935E),
  (0x985E, 0x97DE),
  (0x9867, 0x8CDA),
  (0x986B, 0xE8FA),
  (0x986F, 0xE8FB_E8FC_E940),
  (0x9873, 0xE942_E941),
  (0x98A8, 0x9597),
  (0x98AA, 0xE943),
  (0x98AF, 0xE944),
  (0x98B1, 0xE945),
  (0x98B6, 0xE946),
  (0x98C3, 0xE948_E947),
  (0x98C6, 0xE949),
  (0x98DB, 0x94F2_E3CA),
  (0x98DF, 0x9048),
  (0x98E2, 0x8B51),
  (0x98E9, 0xE94A),
  (0x98EB, 0xE94B),
  (0x98ED, 0x99AA_9F5A_94D1),
  (0x98F2, 0x88F9),
  (0x98F4, 0x88B9),
  (0x98FC, 0x8E94_964F_8FFC),
  (0x9903, 0xE94C),
  (0x9905, 0x96DD),
  (0x9909, 0xE94D_977B),
  (0x990C, 0x8961),
  (0x9910, 0x8E60),
  (0x9912, 0xE94E_89EC_E94F),
  (0x9918, 0xE950),
  (0x991D, 0xE952_E953),
  (0x9920, 0xE955_E951),
  (0x9924, 0xE954),
  (0x9928, 0x8AD9),
  (0x992C, 0xE956),
  (0x992E, 0xE957),
  (0x993D, 0xE958_E959),
  (0x9942, 0xE95A),
  (0x9945, 0xE95C),
  (0x9949, 0xE95B),
  (0x994B, 0xE95E_E961),
  (0x9950, 0xE95D_E95F_E960),
  (0x9955, 0xE962),
  (0x9957, 0x8BC0),
  (0x9996, 0x8EF1_E963_E964_8D81),
  (0x99A5, 0xE965),
  (0x99A8, 0x8A5D),
  (0x99AC, 0x946E_E966_E967),
  (0x99B3, 0x9279_93E9),
  (0x99BC, 0xE968),
  (0x99C1, 0x949D),
  (0x99C4, 0x91CA_8977_8BEC),
  (0x99C8, 0x8BED),
  (0x99D0, 0x9293_E96D_8BEE),
  (0x99D5, 0x89ED),
  (0x99D8, 0xE96C),
  (0x99DB, 0xE96A),
  (0x99DD, 0xE96B),
  (0x99DF, 0xE969),
  (0x99E2, 0xE977),
  (0x99ED, 0xE96E_E96F),
  (0x99F1, 0xE970_E971),
  (0x99F8, 0xE973),
  (0x99FB, 0xE972),
  (0x99FF, 0x8F78),
  (0x9A01, 0xE974),
  (0x9A05, 0xE976),
  (0x9A0E, 0x8B52_E975),
  (0x9A12, 0x919B_8CB1),
  (0x9A19, 0xE978),
  (0x9A28, 0x91CB),
  (0x9A2B, 0xE979),
  (0x9A30, 0x93AB),
  (0x9A37, 0xE97A),
  (0x9A3E, 0xE980),
  (0x9A40, 0xE97D),
  (0x9A42, 0xE97C_E97E),
  (0x9A45, 0xE97B),
  (0x9A4D, 0xE982),
  (0x9A55, 0xE981),
  (0x9A57, 0xE984),
  (0x9A5A, 0x8BC1_E983),
  (0x9A5F, 0xE985),
  (0x9A62, 0xE986),
  (0x9A64, 0xE988_E987),
  (0x9A69, 0xE989_E98B_E98A),
  (0x9AA8, 0x8D9C),
  (0x9AAD, 0xE98C),
  (0x9AB0, 0xE98D),
  (0x9AB8, 0x8A5B),
  (0x9ABC, 0xE98E),
  (0x9AC0, 0xE98F),
  (0x9AC4, 0x9091),
  (0x9ACF, 0xE990),
  (0x9AD1, 0xE991),
  (0x9AD3, 0xE992_E993),
  (0x9AD8, 0x8D82),
  (0x9ADE, 0xE994_E995),
  (0x9AE2, 0xE996_E997),
  (0x9AE6, 0xE998),
  (0x9AEA, 0x94AF_E99A),
  (0x9AED, 0x9545_E99B_E999),
  (0x9AF1, 0xE99D),
  (0x9AF4, 0xE99C),
  (0x9AF7, 0xE99E),
  (0x9AFB, 0xE99F),
  (0x9B06, 0xE9A0),
  (0x9B18, 0xE9A1),
  (0x9B1A, 0xE9A2),
  (0x9B1F, 0xE9A3),
  (0x9B22, 0xE9A4_E9A5),
  (0x9B25, 0xE9A6),
  (0x9B27, 0xE9A7_E9A8_E9A9_E9AA),
  (0x9B2E, 0xE9AB_E9AC),
  (0x9B31, 0x9F54_E9AD),
  (0x9B3B, 0xE2F6_8B53),
  (0x9B41, 0x8A40_8DB0_E9AF_E9AE_96A3),
  (0x9B4D, 0xE9B1_E9B2_E9B0),
  (0x9B51, 0xE9B3),
  (0x9B54, 0x9682),
  (0x9B58, 0xE9B4),
  (0x9B5A, 0x8B9B),
  (0x9B6F, 0x9844),
  (0x9B74, 0xE9B5),
  (0x9B83, 0xE9B7),
  (0x9B8E, 0x88BC),
  (0x9B91, 0xE9B8_95A9_E9B6),
  (0x9B96, 0xE9B9_E9BA),
  (0x9B9F, 0xE9BB_E9BC),
  (0x9BA8, 0xE9BD),
  (0x9BAA, 0x968E_8E4C),
  (0x9BAD, 0x8DF8_914E),
  (0x9BB4, 0xE9BE),
  (0x9BB9, 0xE9C1),
  (0x9BC0, 0xE9BF),
  (0x9BC6, 0xE9C2),
  (0x9BC9, 0x8CEF_E9C0),
  (0x9BCF, 0xE9C3),
  (0x9BD1, 0xE9C4_E9C5),
  (0x9BD4, 0xE9C9),
  (0x9BD6, 0x8E49),
  (0x9BDB, 0x91E2),
  (0x9BE1, 0xE9CA_E9C7_E9C6_E9C8),
  (0x9BE8, 0x8C7E),
  (0x9BF0, 0xE9CE_E9CD_E9CC),
  (0x9BF5, 0x88B1),
  (0x9C04, 0xE9D8),
  (0x9C06, 0xE9D4),
  (0x9C08, 0xE9D5_E9D1_E9D7),
  (0x9C0C, 0xE9D3_8A82),
  (0x9C10, 0x986B),
  (0x9C12, 0xE9D6_E9D2_E9D0_E9CF),
  (0x9C1B, 0xE9DA),
  (0x9C21, 0xE9DD),
  (0x9C24, 0xE9DC_E9DB),
  (0x9C2D, 0x9568_E9D9_88F1_E9DE),
  (0x9C32, 0xE9E0),
  (0x9C39, 0x8A8F_E9CB_8956),
  (0x9C3E, 0xE9E2),
  (0x9C46, 0xE9E1_E9DF_924C),
  (0x9C52, 0x9690),
  (0x9C57, 0x97D8),
  (0x9C5A, 0xE9E3),
  (0x9C60, 0xE9E4),
  (0x9C67, 0xE9E5),
  (0x9C76, 0xE9E6),
  (0x9C78, 0xE9E7),
  (0x9CE5, 0x92B9),
  (0x9CE7, 0xE9E8),
  (0x9CE9, 0x94B5),
  (0x9CEB, 0xE9ED_E9E9),
  (0x9CF0, 0xE9EA),
  (0x9CF3, 0x9650_96C2),
  (0x9CF6, 0x93CE),
  (0x9D03, 0xE9EE),
  (0x9D06, 0xE9EF_93BC_E9EC_E9EB),
  (0x9D0E, 0x89A8),
  (0x9D12, 0xE9F7),
  (0x9D15, 0xE9F6),
  (0x9D1B, 0x8995),
  (0x9D1F, 0xE9F4),
  (0x9D23, 0xE9F3),
  (0x9D26, 0xE9F1),
  (0x9D28, 0x8A9B),
  (0x9D2A, 0xE9F0_8EB0_89A7),
  (0x9D3B, 0x8D83),
  (0x9D3E, 0xE9FA_E9F9),
  (0x9D41, 0xE9F8),
  (0x9D44, 0xE9F5),
  (0x9D46, 0xE9FB),
  (0x9D48, 0xE9FC),
  (0x9D50, 0xEA44_EA43),
  (0x9D59, 0xEA45),
  (0x9D5C, 0x894C_EA40_EA41),
  (0x9D60, 0x8D94_96B7),
  (0x9D64, 0xEA42),
  (0x9D6C, 0x9651),
  (0x9D6F, 0xEA4A),
  (0x9D72, 0xEA46),
  (0x9D7A, 0xEA4B),
  (0x9D87, 0xEA48),
  (0x9D89, 0xEA47),
  (0x9D8F, 0x8C7B),
  (0x9D9A, 0xEA4C),
  (0x9DA4, 0xEA4D),
  (0x9DA9, 0xEA4E),
  (0x9DAB, 0xEA49),
  (0x9DAF, 0xE9F2),
  (0x9DB2, 0xEA4F),
  (0x9DB4, 0x92DF),
  (0x9DB8, 0xEA53),
  (0x9DBA, 0xEA54_EA52),
  (0x9DC1, 0xEA51_EA57),
  (0x9DC4, 0xEA50),
  (0x9DC6, 0xEA55),
  (0x9DCF, 0xEA56),
  (0x9DD3, 0xEA59),
  (0x9DD9, 0xEA58),
  (0x9DE6, 0xEA5B),
  (0x9DED, 0xEA5C),
  (0x9DEF, 0xEA5D),
  (0x9DF2, 0x9868),
  (0x9DF8, 0xEA5A_91E9_8DEB),
  (0x9DFD, 0xEA5E),
  (0x9E1A, 0xEA5F_EA60),
  (0x9E1E, 0xEA61),
  (0x9E75, 0xEA62),
  (0x9E78, 0x8CB2_EA63),
  (0x9E7D, 0xEA64),
  (0x9E7F, 0x8EAD),
  (0x9E81, 0xEA65),
  (0x9E88, 0xEA66),
  (0x9E8B, 0xEA67_EA68),
  (0x9E91, 0xEA6B_EA69_985B),
  (0x9E95, 0xEA6A),
  (0x9E97, 0x97ED),
  (0x9E9D, 0xEA6C),
  (0x9E9F, 0x97D9),
  (0x9EA5, 0xEA6D_949E),
  (0x9EA9, 0xEA6E_EA70),
  (0x9EAD, 0xEA71),
  (0x9EB8, 0xEA6F_8D8D_96CB_9683_9BF5),
  (0x9EBE, 0x9F80_969B),
  (0x9EC4, 0x89A9),
  (0x9ECC, 0xEA73_8B6F_EA74_EA75_EA76),
  (0x9ED2, 0x8D95),
  (0x9ED4, 0xEA77),
  (0x9ED8, 0xE0D2_96D9),
  (0x9EDB, 0x91E1_EA78_EA7A_EA79),
  (0x9EE0, 0xEA7B),
  (0x9EE5, 0xEA7C),
  (0x9EE8, 0xEA7D),
  (0x9EEF, 0xEA7E),
  (0x9EF4, 0xEA80),
  (0x9EF6, 0xEA81_EA82),
  (0x9EF9, 0xEA83),
  (0x9EFB, 0xEA84_EA85_EA86),
  (0x9F07, 0xEA87_EA88),
  (0x9F0E, 0x9343),
  (0x9F13, 0x8CDB),
  (0x9F15, 0xEA8A),
  (0x9F20, 0x916C_EA8B),
  (0x9F2C, 0xEA8C),
  (0x9F3B, 0x9540),
  (0x9F3E, 0xEA8D),
  (0x9F4A, 0xEA8E_E256),
  (0x9F4E, 0xE6D8_E8EB),
  (0x9F52, 0xEA8F),
  (0x9F54, 0xEA90),
  (0x9F5F, 0xEA92_EA93_EA94_97EE_EA91),
  (0x9F66, 0xEA95_EA96),
  (0x9F6A, 0xEA98),
  (0x9F6C, 0xEA97),
  (0x9F72, 0xEA9A),
  (0x9F76, 0xEA9B_EA99),
  (0x9F8D, 0x97B4),
  (0x9F95, 0xEA9C),
  (0x9F9C, 0xEA9D_E273),
  (0x9FA0, 0xEA9E),
  (0xFF01, 0x8149),
  (0xFF03, 0x8194_8190_8193_8195),
  (0xFF08, 0x8169_816A_8196_817B_8143),
  (0xFF0E, 0x8144_815E_824F_8250_8251_8252_8253_8254_8255_8256_8257_8258),
  (0xFF1A, 0x8146_8147_8183_8181_8184_8148_8197_8260_8261_8262_8263_8264),
  (0xFF26, 0x8265_8266_8267_8268_8269_826A_826B_826C_826D_826E_826F_8270),
  (0xFF32, 0x8271_8272_8273_8274_8275_8276_8277_8278_8279_816D),
  (0xFF3D, 0x816E_814F_8151_814D_8281_8282_8283_8284_8285_8286_8287_8288),
  (0xFF49, 0x8289_828A_828B_828C_828D_828E_828F_8290_8291_8292_8293_8294),
  (0xFF55, 0x8295_8296_8297_8298_8299_829A_816F_8162_8170),
  (0xFF61, 0x00A1_00A2_00A3_00A4_00A5_00A6_00A7_00A8_00A9_00AA_00AB_00AC),
  (0xFF6D, 0x00AD_00AE_00AF_00B0_00B1_00B2_00B3_00B4_00B5_00B6_00B7_00B8),
  (0xFF79, 0x00B9_00BA_00BB_00BC_00BD_00BE_00BF_00C0_00C1_00C2_00C3_00C4),
  (0xFF85, 0x00C5_00C6_00C7_00C8_00C9_00CA_00CB_00CC_00CD_00CE_00CF_00D0),
  (0xFF91, 0x00D1_00D2_00D3_00D4_00D5_00D6_00D7_00D8_00D9_00DA_00DB_00DC),
  (0xFF9D, 0x00DD_00DE_00DF),
  (0xFFE3, 0x8150),
  (0xFFE5, 0x818F)]

/-- /repo/modules/from/_SHIFT-JIS.txt and /repo/modules/to/_SHIFT-JIS.txt. -/
def shiftJis : Charset where
  reads := shiftJisReads
  writes := shiftJisWrites

end Verif.Charsets
