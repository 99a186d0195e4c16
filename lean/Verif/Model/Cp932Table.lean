import Verif.Spec.Charset
/-
Generated by tools/charsets.py from rule files of /repo/modules/from and /repo/modules/to.
-/
namespace Verif.Charsets
open Verif.Spec

set_option maxRecDepth 100000

/-- The rules of /repo/modules/from/_CP932.txt: code, character.  No two lines have the same code, so their order does not matter; here they
are sorted. -/
def cp932Reads : Chart := Chart.wide [
  (0xA1, 0xFF61_FF62_FF63_FF64_FF65_FF66_FF67_FF68_FF69_FF6A_FF6B_FF6C),
  (0xAD, 0xFF6D_FF6E_FF6F_FF70_FF71_FF72_FF73_FF74_FF75_FF76_FF77_FF78),
  (0xB9, 0xFF79_FF7A_FF7B_FF7C_FF7D_FF7E_FF7F_FF80_FF81_FF82_FF83_FF84),
  (0xC5, 0xFF85_FF86_FF87_FF88_FF89_FF8A_FF8B_FF8C_FF8D_FF8E_FF8F_FF90),
  (0xD1, 0xFF91_FF92_FF93_FF94_FF95_FF96_FF97_FF98_FF99_FF9A_FF9B_FF9C),
  (0xDD, 0xFF9D_FF9E_FF9F),
  (0x8140, 0x3000_3001_3002_FF0C_FF0E_30FB_FF1A_FF1B_FF1F_FF01_309B_309C),
  (0x814C, 0x00B4_FF40_00A8_FF3E_FFE3_FF3F_30FD_30FE_309D_309E_3003_4EDD),
  (0x8158, 0x3005_3006_3007_30FC_2015_2010_FF0F_FF3C_FF5E_2225_FF5C_2026),
  (0x8164, 0x2025_2018_2019_201C_201D_FF08_FF09_3014_3015_FF3B_FF3D_FF5B),
  (0x8170, 0xFF5D_3008_3009_300A_300B_300C_300D_300E_300F_3010_3011_FF0B),
  (0x817C, 0xFF0D_00B1_00D7),
  (0x8180, 0x00F7_FF1D_2260_FF1C_FF1E_2266_2267_221E_2234_2642_2640_00B0),
  (0x818C, 0x2032_2033_2103_FFE5_FF04_FFE0_FFE1_FF05_FF03_FF06_FF0A_FF20),
  (0x8198, 0x00A7_2606_2605_25CB_25CF_25CE_25C7_25C6_25A1_25A0_25B3_25B2),
  (0x81A4, 0x25BD_25BC_203B_3012_2192_2190_2191_2193_3013),
  (0x81B8, 0x2208_220B_2286_2287_2282_2283_222A_2229),
  (0x81C8, 0x2227_2228_FFE2_21D2_21D4_2200_2203),
  (0x81DA, 0x2220_22A5_2312_2202_2207_2261_2252_226A_226B_221A_223D_221D),
  (0x81E6, 0x2235_222B_222C),
  (0x81F0, 0x212B_2030_266F_266D_266A_2020_2021_00B6),
  (0x81FC, 0x25EF),
  (0x824F, 0xFF10_FF11_FF12_FF13_FF14_FF15_FF16_FF17_FF18_FF19),
  (0x8260, 0xFF21_FF22_FF23_FF24_FF25_FF26_FF27_FF28_FF29_FF2A_FF2B_FF2C),
  (0x826C, 0xFF2D_FF2E_FF2F_FF30_FF31_FF32_FF33_FF34_FF35_FF36_FF37_FF38),
  (0x8278, 0xFF39_FF3A),
  (0x8281, 0xFF41_FF42_FF43_FF44_FF45_FF46_FF47_FF48_FF49_FF4A_FF4B_FF4C),
  (0x828D, 0xFF4D_FF4E_FF4F_FF50_FF51_FF52_FF53_FF54_FF55_FF56_FF57_FF58),
  (0x8299, 0xFF59_FF5A),
  (0x829F, 0x3041_3042_3043_3044_3045_3046_3047_3048_3049_304A_304B_304C),
  (0x82AB, 0x304D_304E_304F_3050_3051_3052_3053_3054_3055_3056_3057_3058),
  (0x82B7, 0x3059_305A_305B_305C_305D_305E_305F_3060_3061_3062_3063_3064),
  (0x82C3, 0x3065_3066_3067_3068_3069_306A_306B_306C_306D_306E_306F_3070),
  (0x82CF, 0x3071_3072_3073_3074_3075_3076_3077_3078_3079_307A_307B_307C),
  (0x82DB, 0x307D_307E_307F_3080_3081_3082_3083_3084_3085_3086_3087_3088),
  (0x82E7, 0x3089_308A_308B_308C_308D_308E_308F_3090_3091_3092_3093),
  (0x8340, 0x30A1_30A2_30A3_30A4_30A5_30A6_30A7_30A8_30A9_30AA_30AB_30AC),
  (0x834C, 0x30AD_30AE_30AF_30B0_30B1_30B2_30B3_30B4_30B5_30B6_30B7_30B8),
  (0x8358, 0x30B9_30BA_30BB_30BC_30BD_30BE_30BF_30C0_30C1_30C2_30C3_30C4),
  (0x8364, 0x30C5_30C6_30C7_30C8_30C9_30CA_30CB_30CC_30CD_30CE_30CF_30D0),
  (0x8370, 0x30D1_30D2_30D3_30D4_30D5_30D6_30D7_30D8_30D9_30DA_30DB_30DC),
  (0x837C, 0x30DD_30DE_30DF),
  (0x8380, 0x30E0_30E1_30E2_30E3_30E4_30E5_30E6_30E7_30E8_30E9_30EA_30EB),
  (0x838C, 0x30EC_30ED_30EE_30EF_30F0_30F1_30F2_30F3_30F4_30F5_30F6),
  (0x839F, 0x0391_0392_0393_0394_0395_0396_0397_0398_0399_039A_039B_039C),
  (0x83AB, 0x039D_039E_039F_03A0_03A1_03A3_03A4_03A5_03A6_03A7_03A8_03A9),
  (0x83BF, 0x03B1_03B2_03B3_03B4_03B5_03B6_03B7_03B8_03B9_03BA_03BB_03BC),
  (0x83CB, 0x03BD_03BE_03BF_03C0_03C1_03C3_03C4_03C5_03C6_03C7_03C8_03C9),
  (0x8440, 0x0410_0411_0412_0413_0414_0415_0401_0416_0417_0418_0419_041A),
  (0x844C, 0x041B_041C_041D_041E_041F_0420_0421_0422_0423_0424_0425_0426),
  (0x8458, 0x0427_0428_0429_042A_042B_042C_042D_042E_042F),
  (0x8470, 0x0430_0431_0432_0433_0434_0435_0451_0436_0437_0438_0439_043A),
  (0x847C, 0x043B_043C_043D),
  (0x8480, 0x043E_043F_0440_0441_0442_0443_0444_0445_0446_0447_0448_0449),
  (0x848C, 0x044A_044B_044C_044D_044E_044F),
  (0x849F, 0x2500_2502_250C_2510_2518_2514_251C_252C_2524_2534_253C_2501),
  (0x84AB, 0x2503_250F_2513_251B_2517_2523_2533_252B_253B_254B_2520_252F),
  (0x84B7, 0x2528_2537_253F_251D_2530_2525_2538_2542),
  (0x8740, 0x2460_2461_2462_2463_2464_2465_2466_2467_2468_2469_246A_246B),
  (0x874C, 0x246C_246D_246E_246F_2470_2471_2472_2473_2160_2161_2162_2163),
  (0x8758, 0x2164_2165_2166_2167_2168_2169),
  (0x875F, 0x3349_3314_3322_334D_3318_3327_3303_3336_3351_3357_330D_3326),
  (0x876B, 0x3323_332B_334A_333B_339C_339D_339E_338E_338F_33C4_33A1),
  (0x877E, 0x337B),
  (0x8780, 0x301D_301F_2116_33CD_2121_32A4_32A5_32A6_32A7_32A8_3231_3232),
  (0x878C, 0x3239_337E_337D_337C_2252_2261_222B_222E_2211_221A_22A5_2220),
  (0x8798, 0x221F_22BF_2235_2229_222A),
  (0x889F, 0x4E9C_5516_5A03_963F_54C0_611B_6328_59F6_9022_8475_831C_7A50),
  (0x88AB, 0x60AA_63E1_6E25_65ED_8466_82A6_9BF5_6893_5727_65A1_6271_5B9B),
  (0x88B7, 0x59D0_867B_98F4_7D62_7DBE_9B8E_6216_7C9F_88B7_5B89_5EB5_6309),
  (0x88C3, 0x6697_6848_95C7_978D_674F_4EE5_4F0A_4F4D_4F9D_5049_56F2_5937),
  (0x88CF, 0x59D4_5A01_5C09_60DF_610F_6170_6613_6905_70BA_754F_7570_79FB),
  (0x88DB, 0x7DAD_7DEF_80C3_840E_8863_8B02_9055_907A_533B_4E95_4EA5_57DF),
  (0x88E7, 0x80B2_90C1_78EF_4E00_58F1_6EA2_9038_7A32_8328_828B_9C2F_5141),
  (0x88F3, 0x5370_54BD_54E1_56E0_59FB_5F15_98F2_6DEB_80E4_852D),
  (0x8940, 0x9662_9670_96A0_97FB_540B_53F3_5B87_70CF_7FBD_8FC2_96E8_536F),
  (0x894C, 0x9D5C_7ABA_4E11_7893_81FC_6E26_5618_5504_6B1D_851A_9C3B_59E5),
  (0x8958, 0x53A9_6D66_74DC_958F_5642_4E91_904B_96F2_834F_990C_53E1_55B6),
  (0x8964, 0x5B30_5F71_6620_66F3_6804_6C38_6CF3_6D29_745B_76C8_7A4E_9834),
  (0x8970, 0x82F1_885B_8A60_92ED_6DB2_75AB_76CA_99C5_60A6_8B01_8D8A_95B2),
  (0x897C, 0x698E_53AD_5186),
  (0x8980, 0x5712_5830_5944_5BB4_5EF6_6028_63A9_63F4_6CBF_6F14_708E_7114),
  (0x898C, 0x7159_71D5_733F_7E01_8276_82D1_8597_9060_925B_9D1B_5869_65BC),
  (0x8998, 0x6C5A_7525_51F9_592E_5965_5F80_5FDC_62BC_65FA_6A2A_6B27_6BB4),
  (0x89A4, 0x738B_7FC1_8956_9D2C_9D0E_9EC4_5CA1_6C96_837B_5104_5C4B_61B6),
  (0x89B0, 0x81C6_6876_7261_4E59_4FFA_5378_6069_6E29_7A4F_97F3_4E0B_5316),
  (0x89BC, 0x4EEE_4F55_4F3D_4FA1_4F73_52A0_53EF_5609_590F_5AC1_5BB6_5BE1),
  (0x89C8, 0x79D1_6687_679C_67B6_6B4C_6CB3_706B_73C2_798D_79BE_7A3C_7B87),
  (0x89D4, 0x82B1_82DB_8304_8377_83EF_83D3_8766_8AB2_5629_8CA8_8FE6_904E),
  (0x89E0, 0x971E_868A_4FC4_5CE8_6211_7259_753B_81E5_82BD_86FE_8CC0_96C5),
  (0x89EC, 0x9913_99D5_4ECB_4F1A_89E3_56DE_584A_58CA_5EFB_5FEB_602A_6094),
  (0x89F8, 0x6062_61D0_6212_62D0_6539),
  (0x8A40, 0x9B41_6666_68B0_6D77_7070_754C_7686_7D75_82A5_87F9_958B_968E),
  (0x8A4C, 0x8C9D_51F1_52BE_5916_54B3_5BB3_5D16_6168_6982_6DAF_788D_84CB),
  (0x8A58, 0x8857_8A72_93A7_9AB8_6D6C_99A8_86D9_57A3_67FF_86CE_920E_5283),
  (0x8A64, 0x5687_5404_5ED3_62E1_64B9_683C_6838_6BBB_7372_78BA_7A6B_899A),
  (0x8A70, 0x89D2_8D6B_8F03_90ED_95A3_9694_9769_5B66_5CB3_697D_984D_984E),
  (0x8A7C, 0x639B_7B20_6A2B),
  (0x8A80, 0x6A7F_68B6_9C0D_6F5F_5272_559D_6070_62EC_6D3B_6E07_6ED1_845B),
  (0x8A8C, 0x8910_8F44_4E14_9C39_53F6_691B_6A3A_9784_682A_515C_7AC3_84B2),
  (0x8A98, 0x91DC_938C_565B_9D28_6822_8305_8431_7CA5_5208_82C5_74E6_4E7E),
  (0x8AA4, 0x4F83_51A0_5BD2_520A_52D8_52E7_5DFB_559A_582A_59E6_5B8C_5B98),
  (0x8AB0, 0x5BDB_5E72_5E79_60A3_611F_6163_61BE_63DB_6562_67D1_6853_68FA),
  (0x8ABC, 0x6B3E_6B53_6C57_6F22_6F97_6F45_74B0_7518_76E3_770B_7AFF_7BA1),
  (0x8AC8, 0x7C21_7DE9_7F36_7FF0_809D_8266_839E_89B3_8ACC_8CAB_9084_9451),
  (0x8AD4, 0x9593_9591_95A2_9665_97D3_9928_8218_4E38_542B_5CB8_5DCC_73A9),
  (0x8AE0, 0x764C_773C_5CA9_7FEB_8D0B_96C1_9811_9854_9858_4F01_4F0E_5371),
  (0x8AEC, 0x559C_5668_57FA_5947_5B09_5BC4_5C90_5E0C_5E7E_5FCC_63EE_673A),
  (0x8AF8, 0x65D7_65E2_671F_68CB_68C4),
  (0x8B40, 0x6A5F_5E30_6BC5_6C17_6C7D_757F_7948_5B63_7A00_7D00_5FBD_898F),
  (0x8B4C, 0x8A18_8CB4_8D77_8ECC_8F1D_98E2_9A0E_9B3C_4E80_507D_5100_5993),
  (0x8B58, 0x5B9C_622F_6280_64EC_6B3A_72A0_7591_7947_7FA9_87FB_8ABC_8B70),
  (0x8B64, 0x63AC_83CA_97A0_5409_5403_55AB_6854_6A58_8A70_7827_6775_9ECD),
  (0x8B70, 0x5374_5BA2_811A_8650_9006_4E18_4E45_4EC7_4F11_53CA_5438_5BAE),
  (0x8B7C, 0x5F13_6025_6551),
  (0x8B80, 0x673D_6C42_6C72_6CE3_7078_7403_7A76_7AAE_7B08_7D1A_7CFE_7D66),
  (0x8B8C, 0x65E7_725B_53BB_5C45_5DE8_62D2_62E0_6319_6E20_865A_8A31_8DDD),
  (0x8B98, 0x92F8_6F01_79A6_9B5A_4EA8_4EAB_4EAC_4F9B_4FA0_50D1_5147_7AF6),
  (0x8BA4, 0x5171_51F6_5354_5321_537F_53EB_55AC_5883_5CE1_5F37_5F4A_602F),
  (0x8BB0, 0x6050_606D_631F_6559_6A4B_6CC1_72C2_72ED_77EF_80F8_8105_8208),
  (0x8BBC, 0x854E_90F7_93E1_97FF_9957_9A5A_4EF0_51DD_5C2D_6681_696D_5C40),
  (0x8BC8, 0x66F2_6975_7389_6850_7C81_50C5_52E4_5747_5DFE_9326_65A4_6B23),
  (0x8BD4, 0x6B3D_7434_7981_79BD_7B4B_7DCA_82B9_83CC_887F_895F_8B39_8FD1),
  (0x8BE0, 0x91D1_541F_9280_4E5D_5036_53E5_533A_72D7_7396_77E9_82E6_8EAF),
  (0x8BEC, 0x99C6_99C8_99D2_5177_611A_865E_55B0_7A7A_5076_5BD3_9047_9685),
  (0x8BF8, 0x4E32_6ADB_91E7_5C51_5C48),
  (0x8C40, 0x6398_7A9F_6C93_9774_8F61_7AAA_718A_9688_7C82_6817_7E70_6851),
  (0x8C4C, 0x936C_52F2_541B_85AB_8A13_7FA4_8ECD_90E1_5366_8888_7941_4FC2),
  (0x8C58, 0x50BE_5211_5144_5553_572D_73EA_578B_5951_5F62_5F84_6075_6176),
  (0x8C64, 0x6167_61A9_63B2_643A_656C_666F_6842_6E13_7566_7A3D_7CFB_7D4C),
  (0x8C70, 0x7D99_7E4B_7F6B_830E_834A_86CD_8A08_8A63_8B66_8EFD_981A_9D8F),
  (0x8C7C, 0x82B8_8FCE_9BE8),
  (0x8C80, 0x5287_621F_6483_6FC0_9699_6841_5091_6B20_6C7A_6F54_7A74_7D50),
  (0x8C8C, 0x8840_8A23_6708_4EF6_5039_5026_5065_517C_5238_5263_55A7_570F),
  (0x8C98, 0x5805_5ACC_5EFA_61B2_61F8_62F3_6372_691C_6A29_727D_72AC_732E),
  (0x8CA4, 0x7814_786F_7D79_770C_80A9_898B_8B19_8CE2_8ED2_9063_9375_967A),
  (0x8CB0, 0x9855_9A13_9E78_5143_539F_53B3_5E7B_5F26_6E1B_6E90_7384_73FE),
  (0x8CBC, 0x7D43_8237_8A00_8AFA_9650_4E4E_500B_53E4_547C_56FA_59D1_5B64),
  (0x8CC8, 0x5DF1_5EAB_5F27_6238_6545_67AF_6E56_72D0_7CCA_88B4_80A1_80E1),
  (0x8CD4, 0x83F0_864E_8A87_8DE8_9237_96C7_9867_9F13_4E94_4E92_4F0D_5348),
  (0x8CE0, 0x5449_543E_5A2F_5F8C_5FA1_609F_68A7_6A8E_745A_7881_8A9E_8AA4),
  (0x8CEC, 0x8B77_9190_4E5E_9BC9_4EA4_4F7C_4FAF_5019_5016_5149_516C_529F),
  (0x8CF8, 0x52B9_52FE_539A_53E3_5411),
  (0x8D40, 0x540E_5589_5751_57A2_597D_5B54_5B5D_5B8F_5DE5_5DE7_5DF7_5E78),
  (0x8D4C, 0x5E83_5E9A_5EB7_5F18_6052_614C_6297_62D8_63A7_653B_6602_6643),
  (0x8D58, 0x66F4_676D_6821_6897_69CB_6C5F_6D2A_6D69_6E2F_6E9D_7532_7687),
  (0x8D64, 0x786C_7A3F_7CE0_7D05_7D18_7D5E_7DB1_8015_8003_80AF_80B1_8154),
  (0x8D70, 0x818F_822A_8352_884C_8861_8B1B_8CA2_8CFC_90CA_9175_9271_783F),
  (0x8D7C, 0x92FC_95A4_964D),
  (0x8D80, 0x9805_9999_9AD8_9D3B_525B_52AB_53F7_5408_58D5_62F7_6FE0_8C6A),
  (0x8D8C, 0x8F5F_9EB9_514B_523B_544A_56FD_7A40_9177_9D60_9ED2_7344_6F09),
  (0x8D98, 0x8170_7511_5FFD_60DA_9AA8_72DB_8FBC_6B64_9803_4ECA_56F0_5764),
  (0x8DA4, 0x58BE_5A5A_6068_61C7_660F_6606_6839_68B1_6DF7_75D5_7D3A_826E),
  (0x8DB0, 0x9B42_4E9B_4F50_53C9_5506_5D6F_5DE6_5DEE_67FB_6C99_7473_7802),
  (0x8DBC, 0x8A50_9396_88DF_5750_5EA7_632B_50B5_50AC_518D_6700_54C9_585E),
  (0x8DC8, 0x59BB_5BB0_5F69_624D_63A1_683D_6B73_6E08_707D_91C7_7280_7815),
  (0x8DD4, 0x7826_796D_658E_7D30_83DC_88C1_8F09_969B_5264_5728_6750_7F6A),
  (0x8DE0, 0x8CA1_51B4_5742_962A_583A_698A_80B4_54B2_5D0E_57FC_7895_9DFA),
  (0x8DEC, 0x4F5C_524A_548B_643E_6628_6714_67F5_7A84_7B56_7D22_932F_685C),
  (0x8DF8, 0x9BAD_7B39_5319_518A_5237),
  (0x8E40, 0x5BDF_62F6_64AE_64E6_672D_6BBA_85A9_96D1_7690_9BD6_634C_9306),
  (0x8E4C, 0x9BAB_76BF_6652_4E09_5098_53C2_5C71_60E8_6492_6563_685F_71E6),
  (0x8E58, 0x73CA_7523_7B97_7E82_8695_8B83_8CDB_9178_9910_65AC_66AB_6B8B),
  (0x8E64, 0x4ED5_4ED4_4F3A_4F7F_523A_53F8_53F2_55E3_56DB_58EB_59CB_59C9),
  (0x8E70, 0x59FF_5B50_5C4D_5E02_5E2B_5FD7_601D_6307_652F_5B5C_65AF_65BD),
  (0x8E7C, 0x65E8_679D_6B62),
  (0x8E80, 0x6B7B_6C0F_7345_7949_79C1_7CF8_7D19_7D2B_80A2_8102_81F3_8996),
  (0x8E8C, 0x8A5E_8A69_8A66_8A8C_8AEE_8CC7_8CDC_96CC_98FC_6B6F_4E8B_4F3C),
  (0x8E98, 0x4F8D_5150_5B57_5BFA_6148_6301_6642_6B21_6ECB_6CBB_723E_74BD),
  (0x8EA4, 0x75D4_78C1_793A_800C_8033_81EA_8494_8F9E_6C50_9E7F_5F0F_8B58),
  (0x8EB0, 0x9D2B_7AFA_8EF8_5B8D_96EB_4E03_53F1_57F7_5931_5AC9_5BA4_6089),
  (0x8EBC, 0x6E7F_6F06_75BE_8CEA_5B9F_8500_7BE0_5072_67F4_829D_5C61_854A),
  (0x8EC8, 0x7E1E_820E_5199_5C04_6368_8D66_659C_716E_793E_7D17_8005_8B1D),
  (0x8ED4, 0x8ECA_906E_86C7_90AA_501F_52FA_5C3A_6753_707C_7235_914C_91C8),
  (0x8EE0, 0x932B_82E5_5BC2_5F31_60F9_4E3B_53D6_5B88_624B_6731_6B8A_72E9),
  (0x8EEC, 0x73E0_7A2E_816B_8DA3_9152_9996_5112_53D7_546A_5BFF_6388_6A39),
  (0x8EF8, 0x7DAC_9700_56DA_53CE_5468),
  (0x8F40, 0x5B97_5C31_5DDE_4FEE_6101_62FE_6D32_79C0_79CB_7D42_7E4D_7FD2),
  (0x8F4C, 0x81ED_821F_8490_8846_8972_8B90_8E74_8F2F_9031_914B_916C_96C6),
  (0x8F58, 0x919C_4EC0_4F4F_5145_5341_5F93_620E_67D4_6C41_6E0B_7363_7E26),
  (0x8F64, 0x91CD_9283_53D4_5919_5BBF_6DD1_795D_7E2E_7C9B_587E_719F_51FA),
  (0x8F70, 0x8853_8FF0_4FCA_5CFB_6625_77AC_7AE3_821C_99FF_51C6_5FAA_65EC),
  (0x8F7C, 0x696F_6B89_6DF3),
  (0x8F80, 0x6E96_6F64_76FE_7D14_5DE1_9075_9187_9806_51E6_521D_6240_6691),
  (0x8F8C, 0x66D9_6E1A_5EB6_7DD2_7F72_66F8_85AF_85F7_8AF8_52A9_53D9_5973),
  (0x8F98, 0x5E8F_5F90_6055_92E4_9664_50B7_511F_52DD_5320_5347_53EC_54E8),
  (0x8FA4, 0x5546_5531_5617_5968_59BE_5A3C_5BB5_5C06_5C0F_5C11_5C1A_5E84),
  (0x8FB0, 0x5E8A_5EE0_5F70_627F_6284_62DB_638C_6377_6607_660C_662D_6676),
  (0x8FBC, 0x677E_68A2_6A1F_6A35_6CBC_6D88_6E09_6E58_713C_7126_7167_75C7),
  (0x8FC8, 0x7701_785D_7901_7965_79F0_7AE0_7B11_7CA7_7D39_8096_83D6_848B),
  (0x8FD4, 0x8549_885D_88F3_8A1F_8A3C_8A54_8A73_8C61_8CDE_91A4_9266_937E),
  (0x8FE0, 0x9418_969C_9798_4E0A_4E08_4E1E_4E57_5197_5270_57CE_5834_58CC),
  (0x8FEC, 0x5B22_5E38_60C5_64FE_6761_6756_6D44_72B6_7573_7A63_84B8_8B72),
  (0x8FF8, 0x91B8_9320_5631_57F4_98FE),
  (0x9040, 0x62ED_690D_6B96_71ED_7E54_8077_8272_89E6_98DF_8755_8FB1_5C3B),
  (0x904C, 0x4F38_4FE1_4FB5_5507_5A20_5BDD_5BE9_5FC3_614E_632F_65B0_664B),
  (0x9058, 0x68EE_699B_6D78_6DF1_7533_75B9_771F_795E_79E6_7D33_81E3_82AF),
  (0x9064, 0x85AA_89AA_8A3A_8EAB_8F9B_9032_91DD_9707_4EBA_4EC1_5203_5875),
  (0x9070, 0x58EC_5C0B_751A_5C3D_814E_8A0A_8FC5_9663_976D_7B25_8ACF_9808),
  (0x907C, 0x9162_56F3_53A8),
  (0x9080, 0x9017_5439_5782_5E25_63A8_6C34_708A_7761_7C8B_7FE0_8870_9042),
  (0x908C, 0x9154_9310_9318_968F_745E_9AC4_5D07_5D69_6570_67A2_8DA8_96DB),
  (0x9098, 0x636E_6749_6919_83C5_9817_96C0_88FE_6F84_647A_5BF8_4E16_702C),
  (0x90A4, 0x755D_662F_51C4_5236_52E2_59D3_5F81_6027_6210_653F_6574_661F),
  (0x90B0, 0x6674_68F2_6816_6B63_6E05_7272_751F_76DB_7CBE_8056_58F0_88FD),
  (0x90BC, 0x897F_8AA0_8A93_8ACB_901D_9192_9752_9759_6589_7A0E_8106_96BB),
  (0x90C8, 0x5E2D_60DC_621A_65A5_6614_6790_77F3_7A4D_7C4D_7E3E_810A_8CAC),
  (0x90D4, 0x8D64_8DE1_8E5F_78A9_5207_62D9_63A5_6442_6298_8A2D_7A83_7BC0),
  (0x90E0, 0x8AAC_96EA_7D76_820C_8749_4ED9_5148_5343_5360_5BA3_5C02_5C16),
  (0x90EC, 0x5DDD_6226_6247_64B0_6813_6834_6CC9_6D45_6D17_67D3_6F5C_714E),
  (0x90F8, 0x717D_65CB_7A7F_7BAD_7DDA),
  (0x9140, 0x7E4A_7FA8_817A_821B_8239_85A6_8A6E_8CCE_8DF5_9078_9077_92AD),
  (0x914C, 0x9291_9583_9BAE_524D_5584_6F38_7136_5168_7985_7E55_81B3_7CCE),
  (0x9158, 0x564C_5851_5CA8_63AA_66FE_66FD_695A_72D9_758F_758E_790E_7956),
  (0x9164, 0x79DF_7C97_7D20_7D44_8607_8A34_963B_9061_9F20_50E7_5275_53CC),
  (0x9170, 0x53E2_5009_55AA_58EE_594F_723D_5B8B_5C64_531D_60E3_60F3_635C),
  (0x917C, 0x6383_633F_63BB),
  (0x9180, 0x64CD_65E9_66F9_5DE3_69CD_69FD_6F15_71E5_4E89_75E9_76F8_7A93),
  (0x918C, 0x7CDF_7DCF_7D9C_8061_8349_8358_846C_84BC_85FB_88C5_8D70_9001),
  (0x9198, 0x906D_9397_971C_9A12_50CF_5897_618E_81D3_8535_8D08_9020_4FC3),
  (0x91A4, 0x5074_5247_5373_606F_6349_675F_6E2C_8DB3_901F_4FD7_5C5E_8CCA),
  (0x91B0, 0x65CF_7D9A_5352_8896_5176_63C3_5B58_5B6B_5C0A_640D_6751_905C),
  (0x91BC, 0x4ED6_591A_592A_6C70_8A51_553E_5815_59A5_60F0_6253_67C1_8235),
  (0x91C8, 0x6955_9640_99C4_9A28_4F53_5806_5BFE_8010_5CB1_5E2F_5F85_6020),
  (0x91D4, 0x614B_6234_66FF_6CF0_6EDE_80CE_817F_82D4_888B_8CB8_9000_902E),
  (0x91E0, 0x968A_9EDB_9BDB_4EE3_53F0_5927_7B2C_918D_984C_9DF9_6EDD_7027),
  (0x91EC, 0x5353_5544_5B85_6258_629E_62D3_6CA2_6FEF_7422_8A17_9438_6FC1),
  (0x91F8, 0x8AFE_8338_51E7_86F8_53EA),
  (0x9240, 0x53E9_4F46_9054_8FB0_596A_8131_5DFD_7AEA_8FBF_68DA_8C37_72F8),
  (0x924C, 0x9C48_6A3D_8AB0_4E39_5358_5606_5766_62C5_63A2_65E6_6B4E_6DE1),
  (0x9258, 0x6E5B_70AD_77ED_7AEF_7BAA_7DBB_803D_80C6_86CB_8A95_935B_56E3),
  (0x9264, 0x58C7_5F3E_65AD_6696_6A80_6BB5_7537_8AC7_5024_77E5_5730_5F1B),
  (0x9270, 0x6065_667A_6C60_75F4_7A1A_7F6E_81F4_8718_9045_99B3_7BC9_755C),
  (0x927C, 0x7AF9_7B51_84C4),
  (0x9280, 0x9010_79E9_7A92_8336_5AE1_7740_4E2D_4EF2_5B99_5FE0_62BD_663C),
  (0x928C, 0x67F1_6CE8_866B_8877_8A3B_914E_92F3_99D0_6A17_7026_732A_82E7),
  (0x9298, 0x8457_8CAF_4E01_5146_51CB_558B_5BF5_5E16_5E33_5E81_5F14_5F35),
  (0x92A4, 0x5F6B_5FB4_61F2_6311_66A2_671D_6F6E_7252_753A_773A_8074_8139),
  (0x92B0, 0x8178_8776_8ABF_8ADC_8D85_8DF3_929A_9577_9802_9CE5_52C5_6357),
  (0x92BC, 0x76F4_6715_6C88_73CD_8CC3_93AE_9673_6D25_589C_690E_69CC_8FFD),
  (0x92C8, 0x939A_75DB_901A_585A_6802_63B4_69FB_4F43_6F2C_67D8_8FBB_8526),
  (0x92D4, 0x7DB4_9354_693F_6F70_576A_58F7_5B2C_7D2C_722A_540A_91E3_9DB4),
  (0x92E0, 0x4EAD_4F4E_505C_5075_5243_8C9E_5448_5824_5B9A_5E1D_5E95_5EAD),
  (0x92EC, 0x5EF7_5F1F_608C_62B5_633A_63D0_68AF_6C40_7887_798E_7A0B_7DE0),
  (0x92F8, 0x8247_8A02_8AE6_8E44_9013),
  (0x9340, 0x90B8_912D_91D8_9F0E_6CE5_6458_64E2_6575_6EF4_7684_7B1B_9069),
  (0x934C, 0x93D1_6EBA_54F2_5FB9_64A4_8F4D_8FED_9244_5178_586B_5929_5C55),
  (0x9358, 0x5E97_6DFB_7E8F_751C_8CBC_8EE2_985B_70B9_4F1D_6BBF_6FB1_7530),
  (0x9364, 0x96FB_514E_5410_5835_5857_59AC_5C60_5F92_6597_675C_6E21_767B),
  (0x9370, 0x83DF_8CED_9014_90FD_934D_7825_783A_52AA_5EA6_571F_5974_6012),
  (0x937C, 0x5012_515A_51AC),
  (0x9380, 0x51CD_5200_5510_5854_5858_5957_5B95_5CF6_5D8B_60BC_6295_642D),
  (0x938C, 0x6771_6843_68BC_68DF_76D7_6DD8_6E6F_6D9B_706F_71C8_5F53_75D8),
  (0x9398, 0x7977_7B49_7B54_7B52_7CD6_7D71_5230_8463_8569_85E4_8A0E_8B04),
  (0x93A4, 0x8C46_8E0F_9003_900F_9419_9676_982D_9A30_95D8_50CD_52D5_540C),
  (0x93B0, 0x5802_5C0E_61A7_649E_6D1E_77B3_7AE5_80F4_8404_9053_9285_5CE0),
  (0x93BC, 0x9D07_533F_5F97_5FB3_6D9C_7279_7763_79BF_7BE4_6BD2_72EC_8AAD),
  (0x93C8, 0x6803_6A61_51F8_7A81_6934_5C4A_9CF6_82EB_5BC5_9149_701E_5678),
  (0x93D4, 0x5C6F_60C7_6566_6C8C_8C5A_9041_9813_5451_66C7_920D_5948_90A3),
  (0x93E0, 0x5185_4E4D_51EA_8599_8B0E_7058_637A_934B_6962_99B4_7E04_7577),
  (0x93EC, 0x5357_6960_8EDF_96E3_6C5D_4E8C_5C3C_5F10_8FE9_5302_8CD1_8089),
  (0x93F8, 0x8679_5EFF_65E5_4E73_5165),
  (0x9440, 0x5982_5C3F_97EE_4EFB_598A_5FCD_8A8D_6FE1_79B0_7962_5BE7_8471),
  (0x944C, 0x732B_71B1_5E74_5FF5_637B_649A_71C3_7C98_4E43_5EFC_4E4B_57DC),
  (0x9458, 0x56A2_60A9_6FC3_7D0D_80FD_8133_81BF_8FB2_8997_86A4_5DF4_628A),
  (0x9464, 0x64AD_8987_6777_6CE2_6D3E_7436_7834_5A46_7F75_82AD_99AC_4FF3),
  (0x9470, 0x5EC3_62DD_6392_6557_676F_76C3_724C_80CC_80BA_8F29_914D_500D),
  (0x947C, 0x57F9_5A92_6885),
  (0x9480, 0x6973_7164_72FD_8CB7_58F2_8CE0_966A_9019_877F_79E4_77E7_8429),
  (0x948C, 0x4F2F_5265_535A_62CD_67CF_6CCA_767D_7B94_7C95_8236_8584_8FEB),
  (0x9498, 0x66DD_6F20_7206_7E1B_83AB_99C1_9EA6_51FD_7BB1_7872_7BB8_8087),
  (0x94A4, 0x7B48_6AE8_5E61_808C_7551_7560_516B_9262_6E8C_767A_9197_9AEA),
  (0x94B0, 0x4F10_7F70_629C_7B4F_95A5_9CE9_567A_5859_86E4_96BC_4F34_5224),
  (0x94BC, 0x534A_53CD_53DB_5E06_642C_6591_677F_6C3E_6C4E_7248_72AF_73ED),
  (0x94C8, 0x7554_7E41_822C_85E9_8CA9_7BC4_91C6_7169_9812_98EF_633D_6669),
  (0x94D4, 0x756A_76E4_78D0_8543_86EE_532A_5351_5426_5983_5E87_5F7C_60B2),
  (0x94E0, 0x6249_6279_62AB_6590_6BD4_6CCC_75B2_76AE_7891_79D8_7DCB_7F77),
  (0x94EC, 0x80A5_88AB_8AB9_8CBB_907F_975E_98DB_6A0B_7C38_5099_5C3E_5FAE),
  (0x94F8, 0x6787_6BD8_7435_7709_7F8E),
  (0x9540, 0x9F3B_67CA_7A17_5339_758B_9AED_5F66_819D_83F1_8098_5F3C_5FC5),
  (0x954C, 0x7562_7B46_903C_6867_59EB_5A9B_7D10_767E_8B2C_4FF5_5F6A_6A19),
  (0x9558, 0x6C37_6F02_74E2_7968_8868_8A55_8C79_5EDF_63CF_75C5_79D2_82D7),
  (0x9564, 0x9328_92F2_849C_86ED_9C2D_54C1_5F6C_658C_6D5C_7015_8CA7_8CD3),
  (0x9570, 0x983B_654F_74F6_4E0D_4ED8_57E0_592B_5A66_5BCC_51A8_5E03_5E9C),
  (0x957C, 0x6016_6276_6577),
  (0x9580, 0x65A7_666E_6D6E_7236_7B26_8150_819A_8299_8B5C_8CA0_8CE6_8D74),
  (0x958C, 0x961C_9644_4FAE_64AB_6B66_821E_8461_856A_90E8_5C01_6953_98A8),
  (0x9598, 0x847A_8557_4F0F_526F_5FA9_5E45_670D_798F_8179_8907_8986_6DF5),
  (0x95A4, 0x5F17_6255_6CB8_4ECF_7269_9B92_5206_543B_5674_58B3_61A4_626E),
  (0x95B0, 0x711A_596E_7C89_7CDE_7D1B_96F0_6587_805E_4E19_4F75_5175_5840),
  (0x95BC, 0x5E63_5E73_5F0A_67C4_4E26_853D_9589_965B_7C73_9801_50FB_58C1),
  (0x95C8, 0x7656_78A7_5225_77A5_8511_7B86_504F_5909_7247_7BC7_7DE8_8FBA),
  (0x95D4, 0x8FD4_904D_4FBF_52C9_5A29_5F01_97AD_4FDD_8217_92EA_5703_6355),
  (0x95E0, 0x6B69_752B_88DC_8F14_7A42_52DF_5893_6155_620A_66AE_6BCD_7C3F),
  (0x95EC, 0x83E9_5023_4FF8_5305_5446_5831_5949_5B9D_5CF0_5CEF_5D29_5E96),
  (0x95F8, 0x62B1_6367_653E_65B9_670B),
  (0x9640, 0x6CD5_6CE1_70F9_7832_7E2B_80DE_82B3_840C_84EC_8702_8912_8A2A),
  (0x964C, 0x8C4A_90A6_92D2_98FD_9CF3_9D6C_4E4F_4EA1_508D_5256_574A_59A8),
  (0x9658, 0x5E3D_5FD8_5FD9_623F_66B4_671B_67D0_68D2_5192_7D21_80AA_81A8),
  (0x9664, 0x8B00_8C8C_8CBF_927E_9632_5420_982C_5317_50D5_535C_58A8_64B2),
  (0x9670, 0x6734_7267_7766_7A46_91E6_52C3_6CA1_6B86_5800_5E4C_5954_672C),
  (0x967C, 0x7FFB_51E1_76C6),
  (0x9680, 0x6469_78E8_9B54_9EBB_57CB_59B9_6627_679A_6BCE_54E9_69D9_5E55),
  (0x968C, 0x819C_6795_9BAA_67FE_9C52_685D_4EA6_4FE3_53C8_62B9_672B_6CAB),
  (0x9698, 0x8FC4_4FAD_7E6D_9EBF_4E07_6162_6E80_6F2B_8513_5473_672A_9B45),
  (0x96A4, 0x5DF3_7B95_5CAC_5BC6_871C_6E4A_84D1_7A14_8108_5999_7C8D_6C11),
  (0x96B0, 0x7720_52D9_5922_7121_725F_77DB_9727_9D61_690B_5A7F_5A18_51A5),
  (0x96BC, 0x540D_547D_660E_76DF_8FF7_9298_9CF4_59EA_725D_6EC5_514D_68C9),
  (0x96C8, 0x7DBF_7DEC_9762_9EBA_6478_6A21_8302_5984_5B5F_6BDB_731B_76F2),
  (0x96D4, 0x7DB2_8017_8499_5132_6728_9ED9_76EE_6762_52FF_9905_5C24_623B),
  (0x96E0, 0x7C7E_8CB0_554F_60B6_7D0B_9580_5301_4E5F_51B6_591C_723A_8036),
  (0x96EC, 0x91CE_5F25_77E2_5384_5F79_7D04_85AC_8A33_8E8D_9756_67F3_85AE),
  (0x96F8, 0x9453_6109_6108_6CB9_7652),
  (0x9740, 0x8AED_8F38_552F_4F51_512A_52C7_53CB_5BA5_5E7D_60A0_6182_63D6),
  (0x974C, 0x6709_67DA_6E67_6D8C_7336_7337_7531_7950_88D5_8A98_904A_9091),
  (0x9758, 0x90F5_96C4_878D_5915_4E88_4F59_4E0E_8A89_8F3F_9810_50AD_5E7C),
  (0x9764, 0x5996_5BB9_5EB8_63DA_63FA_64C1_66DC_694A_69D8_6D0B_6EB6_7194),
  (0x9770, 0x7528_7AAF_7F8A_8000_8449_84C9_8981_8B21_8E0A_9065_967D_990A),
  (0x977C, 0x617E_6291_6B32),
  (0x9780, 0x6C83_6D74_7FCC_7FFC_6DC0_7F85_87BA_88F8_6765_83B1_983C_96F7),
  (0x978C, 0x6D1B_7D61_843D_916A_4E71_5375_5D50_6B04_6FEB_85CD_862D_89A7),
  (0x9798, 0x5229_540F_5C65_674E_68A8_7406_7483_75E2_88CF_88E1_91CC_96E2),
  (0x97A4, 0x9678_5F8B_7387_7ACB_844E_63A0_7565_5289_6D41_6E9C_7409_7559),
  (0x97B0, 0x786B_7C92_9686_7ADC_9F8D_4FB6_616E_65C5_865C_4E86_4EAE_50DA),
  (0x97BC, 0x4E21_51CC_5BEE_6599_6881_6DBC_731F_7642_77AD_7A1C_7CE7_826F),
  (0x97C8, 0x8AD2_907C_91CF_9675_9818_529B_7DD1_502B_5398_6797_6DCB_71D0),
  (0x97D4, 0x7433_81E8_8F2A_96A3_9C57_9E9F_7460_5841_6D99_7D2F_985E_4EE4),
  (0x97E0, 0x4F36_4F8B_51B7_52B1_5DBA_601C_73B2_793C_82D3_9234_96B7_96F6),
  (0x97EC, 0x970A_9E97_9F62_66A6_6B74_5217_52A3_70C8_88C2_5EC9_604B_6190),
  (0x97F8, 0x6F23_7149_7C3E_7DF4_806F),
  (0x9840, 0x84EE_9023_932C_5442_9B6F_6AD3_7089_8CC2_8DEF_9732_52B4_5A41),
  (0x984C, 0x5ECA_5F04_6717_697C_6994_6D6A_6F0F_7262_72FC_7BED_8001_807E),
  (0x9858, 0x874B_90CE_516D_9E93_7984_808B_9332_8AD6_502D_548C_8A71_6B6A),
  (0x9864, 0x8CC4_8107_60D1_67A0_9DF2_4E99_4E98_9C10_8A6B_85C1_8568_6900),
  (0x9870, 0x6E7E_7897_8155),
  (0x989F, 0x5F0C_4E10_4E15_4E2A_4E31_4E36_4E3C_4E3F_4E42_4E56_4E58_4E82),
  (0x98AB, 0x4E85_8C6B_4E8A_8212_5F0D_4E8E_4E9E_4E9F_4EA0_4EA2_4EB0_4EB3),
  (0x98B7, 0x4EB6_4ECE_4ECD_4EC4_4EC6_4EC2_4ED7_4EDE_4EED_4EDF_4EF7_4F09),
  (0x98C3, 0x4F5A_4F30_4F5B_4F5D_4F57_4F47_4F76_4F88_4F8F_4F98_4F7B_4F69),
  (0x98CF, 0x4F70_4F91_4F6F_4F86_4F96_5118_4FD4_4FDF_4FCE_4FD8_4FDB_4FD1),
  (0x98DB, 0x4FDA_4FD0_4FE4_4FE5_501A_5028_5014_502A_5025_5005_4F1C_4FF6),
  (0x98E7, 0x5021_5029_502C_4FFE_4FEF_5011_5006_5043_5047_6703_5055_5050),
  (0x98F3, 0x5048_505A_5056_506C_5078_5080_509A_5085_50B4_50B2),
  (0x9940, 0x50C9_50CA_50B3_50C2_50D6_50DE_50E5_50ED_50E3_50EE_50F9_50F5),
  (0x994C, 0x5109_5101_5102_5116_5115_5114_511A_5121_513A_5137_513C_513B),
  (0x9958, 0x513F_5140_5152_514C_5154_5162_7AF8_5169_516A_516E_5180_5182),
  (0x9964, 0x56D8_518C_5189_518F_5191_5193_5195_5196_51A4_51A6_51A2_51A9),
  (0x9970, 0x51AA_51AB_51B3_51B1_51B2_51B0_51B5_51BD_51C5_51C9_51DB_51E0),
  (0x997C, 0x8655_51E9_51ED),
  (0x9980, 0x51F0_51F5_51FE_5204_520B_5214_520E_5227_522A_522E_5233_5239),
  (0x998C, 0x524F_5244_524B_524C_525E_5254_526A_5274_5269_5273_527F_527D),
  (0x9998, 0x528D_5294_5292_5271_5288_5291_8FA8_8FA7_52AC_52AD_52BC_52B5),
  (0x99A4, 0x52C1_52CD_52D7_52DE_52E3_52E6_98ED_52E0_52F3_52F5_52F8_52F9),
  (0x99B0, 0x5306_5308_7538_530D_5310_530F_5315_531A_5323_532F_5331_5333),
  (0x99BC, 0x5338_5340_5346_5345_4E17_5349_534D_51D6_535E_5369_536E_5918),
  (0x99C8, 0x537B_5377_5382_5396_53A0_53A6_53A5_53AE_53B0_53B6_53C3_7C12),
  (0x99D4, 0x96D9_53DF_66FC_71EE_53EE_53E8_53ED_53FA_5401_543D_5440_542C),
  (0x99E0, 0x542D_543C_542E_5436_5429_541D_544E_548F_5475_548E_545F_5471),
  (0x99EC, 0x5477_5470_5492_547B_5480_5476_5484_5490_5486_54C7_54A2_54B8),
  (0x99F8, 0x54A5_54AC_54C4_54C8_54A8),
  (0x9A40, 0x54AB_54C2_54A4_54BE_54BC_54D8_54E5_54E6_550F_5514_54FD_54EE),
  (0x9A4C, 0x54ED_54FA_54E2_5539_5540_5563_554C_552E_555C_5545_5556_5557),
  (0x9A58, 0x5538_5533_555D_5599_5580_54AF_558A_559F_557B_557E_5598_559E),
  (0x9A64, 0x55AE_557C_5583_55A9_5587_55A8_55DA_55C5_55DF_55C4_55DC_55E4),
  (0x9A70, 0x55D4_5614_55F7_5616_55FE_55FD_561B_55F9_564E_5650_71DF_5634),
  (0x9A7C, 0x5636_5632_5638),
  (0x9A80, 0x566B_5664_562F_566C_566A_5686_5680_568A_56A0_5694_568F_56A5),
  (0x9A8C, 0x56AE_56B6_56B4_56C2_56BC_56C1_56C3_56C0_56C8_56CE_56D1_56D3),
  (0x9A98, 0x56D7_56EE_56F9_5700_56FF_5704_5709_5708_570B_570D_5713_5718),
  (0x9AA4, 0x5716_55C7_571C_5726_5737_5738_574E_573B_5740_574F_5769_57C0),
  (0x9AB0, 0x5788_5761_577F_5789_5793_57A0_57B3_57A4_57AA_57B0_57C3_57C6),
  (0x9ABC, 0x57D4_57D2_57D3_580A_57D6_57E3_580B_5819_581D_5872_5821_5862),
  (0x9AC8, 0x584B_5870_6BC0_5852_583D_5879_5885_58B9_589F_58AB_58BA_58DE),
  (0x9AD4, 0x58BB_58B8_58AE_58C5_58D3_58D1_58D7_58D9_58D8_58E5_58DC_58E4),
  (0x9AE0, 0x58DF_58EF_58FA_58F9_58FB_58FC_58FD_5902_590A_5910_591B_68A6),
  (0x9AEC, 0x5925_592C_592D_5932_5938_593E_7AD2_5955_5950_594E_595A_5958),
  (0x9AF8, 0x5962_5960_5967_596C_5969),
  (0x9B40, 0x5978_5981_599D_4F5E_4FAB_59A3_59B2_59C6_59E8_59DC_598D_59D9),
  (0x9B4C, 0x59DA_5A25_5A1F_5A11_5A1C_5A09_5A1A_5A40_5A6C_5A49_5A35_5A36),
  (0x9B58, 0x5A62_5A6A_5A9A_5ABC_5ABE_5ACB_5AC2_5ABD_5AE3_5AD7_5AE6_5AE9),
  (0x9B64, 0x5AD6_5AFA_5AFB_5B0C_5B0B_5B16_5B32_5AD0_5B2A_5B36_5B3E_5B43),
  (0x9B70, 0x5B45_5B40_5B51_5B55_5B5A_5B5B_5B65_5B69_5B70_5B73_5B75_5B78),
  (0x9B7C, 0x6588_5B7A_5B80),
  (0x9B80, 0x5B83_5BA6_5BB8_5BC3_5BC7_5BC9_5BD4_5BD0_5BE4_5BE6_5BE2_5BDE),
  (0x9B8C, 0x5BE5_5BEB_5BF0_5BF6_5BF3_5C05_5C07_5C08_5C0D_5C13_5C20_5C22),
  (0x9B98, 0x5C28_5C38_5C39_5C41_5C46_5C4E_5C53_5C50_5C4F_5B71_5C6C_5C6E),
  (0x9BA4, 0x4E62_5C76_5C79_5C8C_5C91_5C94_599B_5CAB_5CBB_5CB6_5CBC_5CB7),
  (0x9BB0, 0x5CC5_5CBE_5CC7_5CD9_5CE9_5CFD_5CFA_5CED_5D8C_5CEA_5D0B_5D15),
  (0x9BBC, 0x5D17_5D5C_5D1F_5D1B_5D11_5D14_5D22_5D1A_5D19_5D18_5D4C_5D52),
  (0x9BC8, 0x5D4E_5D4B_5D6C_5D73_5D76_5D87_5D84_5D82_5DA2_5D9D_5DAC_5DAE),
  (0x9BD4, 0x5DBD_5D90_5DB7_5DBC_5DC9_5DCD_5DD3_5DD2_5DD6_5DDB_5DEB_5DF2),
  (0x9BE0, 0x5DF5_5E0B_5E1A_5E19_5E11_5E1B_5E36_5E37_5E44_5E43_5E40_5E4E),
  (0x9BEC, 0x5E57_5E54_5E5F_5E62_5E64_5E47_5E75_5E76_5E7A_9EBC_5E7F_5EA0),
  (0x9BF8, 0x5EC1_5EC2_5EC8_5ED0_5ECF),
  (0x9C40, 0x5ED6_5EE3_5EDD_5EDA_5EDB_5EE2_5EE1_5EE8_5EE9_5EEC_5EF1_5EF3),
  (0x9C4C, 0x5EF0_5EF4_5EF8_5EFE_5F03_5F09_5F5D_5F5C_5F0B_5F11_5F16_5F29),
  (0x9C58, 0x5F2D_5F38_5F41_5F48_5F4C_5F4E_5F2F_5F51_5F56_5F57_5F59_5F61),
  (0x9C64, 0x5F6D_5F73_5F77_5F83_5F82_5F7F_5F8A_5F88_5F91_5F87_5F9E_5F99),
  (0x9C70, 0x5F98_5FA0_5FA8_5FAD_5FBC_5FD6_5FFB_5FE4_5FF8_5FF1_5FDD_60B3),
  (0x9C7C, 0x5FFF_6021_6060),
  (0x9C80, 0x6019_6010_6029_600E_6031_601B_6015_602B_6026_600F_603A_605A),
  (0x9C8C, 0x6041_606A_6077_605F_604A_6046_604D_6063_6043_6064_6042_606C),
  (0x9C98, 0x606B_6059_6081_608D_60E7_6083_609A_6084_609B_6096_6097_6092),
  (0x9CA4, 0x60A7_608B_60E1_60B8_60E0_60D3_60B4_5FF0_60BD_60C6_60B5_60D8),
  (0x9CB0, 0x614D_6115_6106_60F6_60F7_6100_60F4_60FA_6103_6121_60FB_60F1),
  (0x9CBC, 0x610D_610E_6147_613E_6128_6127_614A_613F_613C_612C_6134_613D),
  (0x9CC8, 0x6142_6144_6173_6177_6158_6159_615A_616B_6174_616F_6165_6171),
  (0x9CD4, 0x615F_615D_6153_6175_6199_6196_6187_61AC_6194_619A_618A_6191),
  (0x9CE0, 0x61AB_61AE_61CC_61CA_61C9_61F7_61C8_61C3_61C6_61BA_61CB_7F79),
  (0x9CEC, 0x61CD_61E6_61E3_61F6_61FA_61F4_61FF_61FD_61FC_61FE_6200_6208),
  (0x9CF8, 0x6209_620D_620C_6214_621B),
  (0x9D40, 0x621E_6221_622A_622E_6230_6232_6233_6241_624E_625E_6263_625B),
  (0x9D4C, 0x6260_6268_627C_6282_6289_627E_6292_6293_6296_62D4_6283_6294),
  (0x9D58, 0x62D7_62D1_62BB_62CF_62FF_62C6_64D4_62C8_62DC_62CC_62CA_62C2),
  (0x9D64, 0x62C7_629B_62C9_630C_62EE_62F1_6327_6302_6308_62EF_62F5_6350),
  (0x9D70, 0x633E_634D_641C_634F_6396_638E_6380_63AB_6376_63A3_638F_6389),
  (0x9D7C, 0x639F_63B5_636B),
  (0x9D80, 0x6369_63BE_63E9_63C0_63C6_63E3_63C9_63D2_63F6_63C4_6416_6434),
  (0x9D8C, 0x6406_6413_6426_6436_651D_6417_6428_640F_6467_646F_6476_644E),
  (0x9D98, 0x652A_6495_6493_64A5_64A9_6488_64BC_64DA_64D2_64C5_64C7_64BB),
  (0x9DA4, 0x64D8_64C2_64F1_64E7_8209_64E0_64E1_62AC_64E3_64EF_652C_64F6),
  (0x9DB0, 0x64F4_64F2_64FA_6500_64FD_6518_651C_6505_6524_6523_652B_6534),
  (0x9DBC, 0x6535_6537_6536_6538_754B_6548_6556_6555_654D_6558_655E_655D),
  (0x9DC8, 0x6572_6578_6582_6583_8B8A_659B_659F_65AB_65B7_65C3_65C6_65C1),
  (0x9DD4, 0x65C4_65CC_65D2_65DB_65D9_65E0_65E1_65F1_6772_660A_6603_65FB),
  (0x9DE0, 0x6773_6635_6636_6634_661C_664F_6644_6649_6641_665E_665D_6664),
  (0x9DEC, 0x6667_6668_665F_6662_6670_6683_6688_668E_6689_6684_6698_669D),
  (0x9DF8, 0x66C1_66B9_66C9_66BE_66BC),
  (0x9E40, 0x66C4_66B8_66D6_66DA_66E0_663F_66E6_66E9_66F0_66F5_66F7_670F),
  (0x9E4C, 0x6716_671E_6726_6727_9738_672E_673F_6736_6741_6738_6737_6746),
  (0x9E58, 0x675E_6760_6759_6763_6764_6789_6770_67A9_677C_676A_678C_678B),
  (0x9E64, 0x67A6_67A1_6785_67B7_67EF_67B4_67EC_67B3_67E9_67B8_67E4_67DE),
  (0x9E70, 0x67DD_67E2_67EE_67B9_67CE_67C6_67E7_6A9C_681E_6846_6829_6840),
  (0x9E7C, 0x684D_6832_684E),
  (0x9E80, 0x68B3_682B_6859_6863_6877_687F_689F_688F_68AD_6894_689D_689B),
  (0x9E8C, 0x6883_6AAE_68B9_6874_68B5_68A0_68BA_690F_688D_687E_6901_68CA),
  (0x9E98, 0x6908_68D8_6922_6926_68E1_690C_68CD_68D4_68E7_68D5_6936_6912),
  (0x9EA4, 0x6904_68D7_68E3_6925_68F9_68E0_68EF_6928_692A_691A_6923_6921),
  (0x9EB0, 0x68C6_6979_6977_695C_6978_696B_6954_697E_696E_6939_6974_693D),
  (0x9EBC, 0x6959_6930_6961_695E_695D_6981_696A_69B2_69AE_69D0_69BF_69C1),
  (0x9EC8, 0x69D3_69BE_69CE_5BE8_69CA_69DD_69BB_69C3_69A7_6A2E_6991_69A0),
  (0x9ED4, 0x699C_6995_69B4_69DE_69E8_6A02_6A1B_69FF_6B0A_69F9_69F2_69E7),
  (0x9EE0, 0x6A05_69B1_6A1E_69ED_6A14_69EB_6A0A_6A12_6AC1_6A23_6A13_6A44),
  (0x9EEC, 0x6A0C_6A72_6A36_6A78_6A47_6A62_6A59_6A66_6A48_6A38_6A22_6A90),
  (0x9EF8, 0x6A8D_6AA0_6A84_6AA2_6AA3),
  (0x9F40, 0x6A97_8617_6ABB_6AC3_6AC2_6AB8_6AB3_6AAC_6ADE_6AD1_6ADF_6AAA),
  (0x9F4C, 0x6ADA_6AEA_6AFB_6B05_8616_6AFA_6B12_6B16_9B31_6B1F_6B38_6B37),
  (0x9F58, 0x76DC_6B39_98EE_6B47_6B43_6B49_6B50_6B59_6B54_6B5B_6B5F_6B61),
  (0x9F64, 0x6B78_6B79_6B7F_6B80_6B84_6B83_6B8D_6B98_6B95_6B9E_6BA4_6BAA),
  (0x9F70, 0x6BAB_6BAF_6BB2_6BB1_6BB3_6BB7_6BBC_6BC6_6BCB_6BD3_6BDF_6BEC),
  (0x9F7C, 0x6BEB_6BF3_6BEF),
  (0x9F80, 0x9EBE_6C08_6C13_6C14_6C1B_6C24_6C23_6C5E_6C55_6C62_6C6A_6C82),
  (0x9F8C, 0x6C8D_6C9A_6C81_6C9B_6C7E_6C68_6C73_6C92_6C90_6CC4_6CF1_6CD3),
  (0x9F98, 0x6CBD_6CD7_6CC5_6CDD_6CAE_6CB1_6CBE_6CBA_6CDB_6CEF_6CD9_6CEA),
  (0x9FA4, 0x6D1F_884D_6D36_6D2B_6D3D_6D38_6D19_6D35_6D33_6D12_6D0C_6D63),
  (0x9FB0, 0x6D93_6D64_6D5A_6D79_6D59_6D8E_6D95_6FE4_6D85_6DF9_6E15_6E0A),
  (0x9FBC, 0x6DB5_6DC7_6DE6_6DB8_6DC6_6DEC_6DDE_6DCC_6DE8_6DD2_6DC5_6DFA),
  (0x9FC8, 0x6DD9_6DE4_6DD5_6DEA_6DEE_6E2D_6E6E_6E2E_6E19_6E72_6E5F_6E3E),
  (0x9FD4, 0x6E23_6E6B_6E2B_6E76_6E4D_6E1F_6E43_6E3A_6E4E_6E24_6EFF_6E1D),
  (0x9FE0, 0x6E38_6E82_6EAA_6E98_6EC9_6EB7_6ED3_6EBD_6EAF_6EC4_6EB2_6ED4),
  (0x9FEC, 0x6ED5_6E8F_6EA5_6EC2_6E9F_6F41_6F11_704C_6EEC_6EF8_6EFE_6F3F),
  (0x9FF8, 0x6EF2_6F31_6EEF_6F32_6ECC),
  (0xE040, 0x6F3E_6F13_6EF7_6F86_6F7A_6F78_6F81_6F80_6F6F_6F5B_6FF3_6F6D),
  (0xE04C, 0x6F82_6F7C_6F58_6F8E_6F91_6FC2_6F66_6FB3_6FA3_6FA1_6FA4_6FB9),
  (0xE058, 0x6FC6_6FAA_6FDF_6FD5_6FEC_6FD4_6FD8_6FF1_6FEE_6FDB_7009_700B),
  (0xE064, 0x6FFA_7011_7001_700F_6FFE_701B_701A_6F74_701D_7018_701F_7030),
  (0xE070, 0x703E_7032_7051_7063_7099_7092_70AF_70F1_70AC_70B8_70B3_70AE),
  (0xE07C, 0x70DF_70CB_70DD),
  (0xE080, 0x70D9_7109_70FD_711C_7119_7165_7155_7188_7166_7162_714C_7156),
  (0xE08C, 0x716C_718F_71FB_7184_7195_71A8_71AC_71D7_71B9_71BE_71D2_71C9),
  (0xE098, 0x71D4_71CE_71E0_71EC_71E7_71F5_71FC_71F9_71FF_720D_7210_721B),
  (0xE0A4, 0x7228_722D_722C_7230_7232_723B_723C_723F_7240_7246_724B_7258),
  (0xE0B0, 0x7274_727E_7282_7281_7287_7292_7296_72A2_72A7_72B9_72B2_72C3),
  (0xE0BC, 0x72C6_72C4_72CE_72D2_72E2_72E0_72E1_72F9_72F7_500F_7317_730A),
  (0xE0C8, 0x731C_7316_731D_7334_732F_7329_7325_733E_734E_734F_9ED8_7357),
  (0xE0D4, 0x736A_7368_7370_7378_7375_737B_737A_73C8_73B3_73CE_73BB_73C0),
  (0xE0E0, 0x73E5_73EE_73DE_74A2_7405_746F_7425_73F8_7432_743A_7455_743F),
  (0xE0EC, 0x745F_7459_7441_745C_7469_7470_7463_746A_7476_747E_748B_749E),
  (0xE0F8, 0x74A7_74CA_74CF_74D4_73F1),
  (0xE140, 0x74E0_74E3_74E7_74E9_74EE_74F2_74F0_74F1_74F8_74F7_7504_7503),
  (0xE14C, 0x7505_750C_750E_750D_7515_7513_751E_7526_752C_753C_7544_754D),
  (0xE158, 0x754A_7549_755B_7546_755A_7569_7564_7567_756B_756D_7578_7576),
  (0xE164, 0x7586_7587_7574_758A_7589_7582_7594_759A_759D_75A5_75A3_75C2),
  (0xE170, 0x75B3_75C3_75B5_75BD_75B8_75BC_75B1_75CD_75CA_75D2_75D9_75E3),
  (0xE17C, 0x75DE_75FE_75FF),
  (0xE180, 0x75FC_7601_75F0_75FA_75F2_75F3_760B_760D_7609_761F_7627_7620),
  (0xE18C, 0x7621_7622_7624_7634_7630_763B_7647_7648_7646_765C_7658_7661),
  (0xE198, 0x7662_7668_7669_766A_7667_766C_7670_7672_7676_7678_767C_7680),
  (0xE1A4, 0x7683_7688_768B_768E_7696_7693_7699_769A_76B0_76B4_76B8_76B9),
  (0xE1B0, 0x76BA_76C2_76CD_76D6_76D2_76DE_76E1_76E5_76E7_76EA_862F_76FB),
  (0xE1BC, 0x7708_7707_7704_7729_7724_771E_7725_7726_771B_7737_7738_7747),
  (0xE1C8, 0x775A_7768_776B_775B_7765_777F_777E_7779_778E_778B_7791_77A0),
  (0xE1D4, 0x779E_77B0_77B6_77B9_77BF_77BC_77BD_77BB_77C7_77CD_77D7_77DA),
  (0xE1E0, 0x77DC_77E3_77EE_77FC_780C_7812_7926_7820_792A_7845_788E_7874),
  (0xE1EC, 0x7886_787C_789A_788C_78A3_78B5_78AA_78AF_78D1_78C6_78CB_78D4),
  (0xE1F8, 0x78BE_78BC_78C5_78CA_78EC),
  (0xE240, 0x78E7_78DA_78FD_78F4_7907_7912_7911_7919_792C_792B_7940_7960),
  (0xE24C, 0x7957_795F_795A_7955_7953_797A_797F_798A_799D_79A7_9F4B_79AA),
  (0xE258, 0x79AE_79B3_79B9_79BA_79C9_79D5_79E7_79EC_79E1_79E3_7A08_7A0D),
  (0xE264, 0x7A18_7A19_7A20_7A1F_7980_7A31_7A3B_7A3E_7A37_7A43_7A57_7A49),
  (0xE270, 0x7A61_7A62_7A69_9F9D_7A70_7A79_7A7D_7A88_7A97_7A95_7A98_7A96),
  (0xE27C, 0x7AA9_7AC8_7AB0),
  (0xE280, 0x7AB6_7AC5_7AC4_7ABF_9083_7AC7_7ACA_7ACD_7ACF_7AD5_7AD3_7AD9),
  (0xE28C, 0x7ADA_7ADD_7AE1_7AE2_7AE6_7AED_7AF0_7B02_7B0F_7B0A_7B06_7B33),
  (0xE298, 0x7B18_7B19_7B1E_7B35_7B28_7B36_7B50_7B7A_7B04_7B4D_7B0B_7B4C),
  (0xE2A4, 0x7B45_7B75_7B65_7B74_7B67_7B70_7B71_7B6C_7B6E_7B9D_7B98_7B9F),
  (0xE2B0, 0x7B8D_7B9C_7B9A_7B8B_7B92_7B8F_7B5D_7B99_7BCB_7BC1_7BCC_7BCF),
  (0xE2BC, 0x7BB4_7BC6_7BDD_7BE9_7C11_7C14_7BE6_7BE5_7C60_7C00_7C07_7C13),
  (0xE2C8, 0x7BF3_7BF7_7C17_7C0D_7BF6_7C23_7C27_7C2A_7C1F_7C37_7C2B_7C3D),
  (0xE2D4, 0x7C4C_7C43_7C54_7C4F_7C40_7C50_7C58_7C5F_7C64_7C56_7C65_7C6C),
  (0xE2E0, 0x7C75_7C83_7C90_7CA4_7CAD_7CA2_7CAB_7CA1_7CA8_7CB3_7CB2_7CB1),
  (0xE2EC, 0x7CAE_7CB9_7CBD_7CC0_7CC5_7CC2_7CD8_7CD2_7CDC_7CE2_9B3B_7CEF),
  (0xE2F8, 0x7CF2_7CF4_7CF6_7CFA_7D06),
  (0xE340, 0x7D02_7D1C_7D15_7D0A_7D45_7D4B_7D2E_7D32_7D3F_7D35_7D46_7D73),
  (0xE34C, 0x7D56_7D4E_7D72_7D68_7D6E_7D4F_7D63_7D93_7D89_7D5B_7D8F_7D7D),
  (0xE358, 0x7D9B_7DBA_7DAE_7DA3_7DB5_7DC7_7DBD_7DAB_7E3D_7DA2_7DAF_7DDC),
  (0xE364, 0x7DB8_7D9F_7DB0_7DD8_7DDD_7DE4_7DDE_7DFB_7DF2_7DE1_7E05_7E0A),
  (0xE370, 0x7E23_7E21_7E12_7E31_7E1F_7E09_7E0B_7E22_7E46_7E66_7E3B_7E35),
  (0xE37C, 0x7E39_7E43_7E37),
  (0xE380, 0x7E32_7E3A_7E67_7E5D_7E56_7E5E_7E59_7E5A_7E79_7E6A_7E69_7E7C),
  (0xE38C, 0x7E7B_7E83_7DD5_7E7D_8FAE_7E7F_7E88_7E89_7E8C_7E92_7E90_7E93),
  (0xE398, 0x7E94_7E96_7E8E_7E9B_7E9C_7F38_7F3A_7F45_7F4C_7F4D_7F4E_7F50),
  (0xE3A4, 0x7F51_7F55_7F54_7F58_7F5F_7F60_7F68_7F69_7F67_7F78_7F82_7F86),
  (0xE3B0, 0x7F83_7F88_7F87_7F8C_7F94_7F9E_7F9D_7F9A_7FA3_7FAF_7FB2_7FB9),
  (0xE3BC, 0x7FAE_7FB6_7FB8_8B71_7FC5_7FC6_7FCA_7FD5_7FD4_7FE1_7FE6_7FE9),
  (0xE3C8, 0x7FF3_7FF9_98DC_8006_8004_800B_8012_8018_8019_801C_8021_8028),
  (0xE3D4, 0x803F_803B_804A_8046_8052_8058_805A_805F_8062_8068_8073_8072),
  (0xE3E0, 0x8070_8076_8079_807D_807F_8084_8086_8085_809B_8093_809A_80AD),
  (0xE3EC, 0x5190_80AC_80DB_80E5_80D9_80DD_80C4_80DA_80D6_8109_80EF_80F1),
  (0xE3F8, 0x811B_8129_8123_812F_814B),
  (0xE440, 0x968B_8146_813E_8153_8151_80FC_8171_816E_8165_8166_8174_8183),
  (0xE44C, 0x8188_818A_8180_8182_81A0_8195_81A4_81A3_815F_8193_81A9_81B0),
  (0xE458, 0x81B5_81BE_81B8_81BD_81C0_81C2_81BA_81C9_81CD_81D1_81D9_81D8),
  (0xE464, 0x81C8_81DA_81DF_81E0_81E7_81FA_81FB_81FE_8201_8202_8205_8207),
  (0xE470, 0x820A_820D_8210_8216_8229_822B_8238_8233_8240_8259_8258_825D),
  (0xE47C, 0x825A_825F_8264),
  (0xE480, 0x8262_8268_826A_826B_822E_8271_8277_8278_827E_828D_8292_82AB),
  (0xE48C, 0x829F_82BB_82AC_82E1_82E3_82DF_82D2_82F4_82F3_82FA_8393_8303),
  (0xE498, 0x82FB_82F9_82DE_8306_82DC_8309_82D9_8335_8334_8316_8332_8331),
  (0xE4A4, 0x8340_8339_8350_8345_832F_832B_8317_8318_8385_839A_83AA_839F),
  (0xE4B0, 0x83A2_8396_8323_838E_8387_838A_837C_83B5_8373_8375_83A0_8389),
  (0xE4BC, 0x83A8_83F4_8413_83EB_83CE_83FD_8403_83D8_840B_83C1_83F7_8407),
  (0xE4C8, 0x83E0_83F2_840D_8422_8420_83BD_8438_8506_83FB_846D_842A_843C),
  (0xE4D4, 0x855A_8484_8477_846B_84AD_846E_8482_8469_8446_842C_846F_8479),
  (0xE4E0, 0x8435_84CA_8462_84B9_84BF_849F_84D9_84CD_84BB_84DA_84D0_84C1),
  (0xE4EC, 0x84C6_84D6_84A1_8521_84FF_84F4_8517_8518_852C_851F_8515_8514),
  (0xE4F8, 0x84FC_8540_8563_8558_8548),
  (0xE540, 0x8541_8602_854B_8555_8580_85A4_8588_8591_858A_85A8_856D_8594),
  (0xE54C, 0x859B_85EA_8587_859C_8577_857E_8590_85C9_85BA_85CF_85B9_85D0),
  (0xE558, 0x85D5_85DD_85E5_85DC_85F9_860A_8613_860B_85FE_85FA_8606_8622),
  (0xE564, 0x861A_8630_863F_864D_4E55_8654_865F_8667_8671_8693_86A3_86A9),
  (0xE570, 0x86AA_868B_868C_86B6_86AF_86C4_86C6_86B0_86C9_8823_86AB_86D4),
  (0xE57C, 0x86DE_86E9_86EC),
  (0xE580, 0x86DF_86DB_86EF_8712_8706_8708_8700_8703_86FB_8711_8709_870D),
  (0xE58C, 0x86F9_870A_8734_873F_8737_873B_8725_8729_871A_8760_875F_8778),
  (0xE598, 0x874C_874E_8774_8757_8768_876E_8759_8753_8763_876A_8805_87A2),
  (0xE5A4, 0x879F_8782_87AF_87CB_87BD_87C0_87D0_96D6_87AB_87C4_87B3_87C7),
  (0xE5B0, 0x87C6_87BB_87EF_87F2_87E0_880F_880D_87FE_87F6_87F7_880E_87D2),
  (0xE5BC, 0x8811_8816_8815_8822_8821_8831_8836_8839_8827_883B_8844_8842),
  (0xE5C8, 0x8852_8859_885E_8862_886B_8881_887E_889E_8875_887D_88B5_8872),
  (0xE5D4, 0x8882_8897_8892_88AE_8899_88A2_888D_88A4_88B0_88BF_88B1_88C3),
  (0xE5E0, 0x88C4_88D4_88D8_88D9_88DD_88F9_8902_88FC_88F4_88E8_88F2_8904),
  (0xE5EC, 0x890C_890A_8913_8943_891E_8925_892A_892B_8941_8944_893B_8936),
  (0xE5F8, 0x8938_894C_891D_8960_895E),
  (0xE640, 0x8966_8964_896D_896A_896F_8974_8977_897E_8983_8988_898A_8993),
  (0xE64C, 0x8998_89A1_89A9_89A6_89AC_89AF_89B2_89BA_89BD_89BF_89C0_89DA),
  (0xE658, 0x89DC_89DD_89E7_89F4_89F8_8A03_8A16_8A10_8A0C_8A1B_8A1D_8A25),
  (0xE664, 0x8A36_8A41_8A5B_8A52_8A46_8A48_8A7C_8A6D_8A6C_8A62_8A85_8A82),
  (0xE670, 0x8A84_8AA8_8AA1_8A91_8AA5_8AA6_8A9A_8AA3_8AC4_8ACD_8AC2_8ADA),
  (0xE67C, 0x8AEB_8AF3_8AE7),
  (0xE680, 0x8AE4_8AF1_8B14_8AE0_8AE2_8AF7_8ADE_8ADB_8B0C_8B07_8B1A_8AE1),
  (0xE68C, 0x8B16_8B10_8B17_8B20_8B33_97AB_8B26_8B2B_8B3E_8B28_8B41_8B4C),
  (0xE698, 0x8B4F_8B4E_8B49_8B56_8B5B_8B5A_8B6B_8B5F_8B6C_8B6F_8B74_8B7D),
  (0xE6A4, 0x8B80_8B8C_8B8E_8B92_8B93_8B96_8B99_8B9A_8C3A_8C41_8C3F_8C48),
  (0xE6B0, 0x8C4C_8C4E_8C50_8C55_8C62_8C6C_8C78_8C7A_8C82_8C89_8C85_8C8A),
  (0xE6BC, 0x8C8D_8C8E_8C94_8C7C_8C98_621D_8CAD_8CAA_8CBD_8CB2_8CB3_8CAE),
  (0xE6C8, 0x8CB6_8CC8_8CC1_8CE4_8CE3_8CDA_8CFD_8CFA_8CFB_8D04_8D05_8D0A),
  (0xE6D4, 0x8D07_8D0F_8D0D_8D10_9F4E_8D13_8CCD_8D14_8D16_8D67_8D6D_8D71),
  (0xE6E0, 0x8D73_8D81_8D99_8DC2_8DBE_8DBA_8DCF_8DDA_8DD6_8DCC_8DDB_8DCB),
  (0xE6EC, 0x8DEA_8DEB_8DDF_8DE3_8DFC_8E08_8E09_8DFF_8E1D_8E1E_8E10_8E1F),
  (0xE6F8, 0x8E42_8E35_8E30_8E34_8E4A),
  (0xE740, 0x8E47_8E49_8E4C_8E50_8E48_8E59_8E64_8E60_8E2A_8E63_8E55_8E76),
  (0xE74C, 0x8E72_8E7C_8E81_8E87_8E85_8E84_8E8B_8E8A_8E93_8E91_8E94_8E99),
  (0xE758, 0x8EAA_8EA1_8EAC_8EB0_8EC6_8EB1_8EBE_8EC5_8EC8_8ECB_8EDB_8EE3),
  (0xE764, 0x8EFC_8EFB_8EEB_8EFE_8F0A_8F05_8F15_8F12_8F19_8F13_8F1C_8F1F),
  (0xE770, 0x8F1B_8F0C_8F26_8F33_8F3B_8F39_8F45_8F42_8F3E_8F4C_8F49_8F46),
  (0xE77C, 0x8F4E_8F57_8F5C),
  (0xE780, 0x8F62_8F63_8F64_8F9C_8F9F_8FA3_8FAD_8FAF_8FB7_8FDA_8FE5_8FE2),
  (0xE78C, 0x8FEA_8FEF_9087_8FF4_9005_8FF9_8FFA_9011_9015_9021_900D_901E),
  (0xE798, 0x9016_900B_9027_9036_9035_9039_8FF8_904F_9050_9051_9052_900E),
  (0xE7A4, 0x9049_903E_9056_9058_905E_9068_906F_9076_96A8_9072_9082_907D),
  (0xE7B0, 0x9081_9080_908A_9089_908F_90A8_90AF_90B1_90B5_90E2_90E4_6248),
  (0xE7BC, 0x90DB_9102_9112_9119_9132_9130_914A_9156_9158_9163_9165_9169),
  (0xE7C8, 0x9173_9172_918B_9189_9182_91A2_91AB_91AF_91AA_91B5_91B4_91BA),
  (0xE7D4, 0x91C0_91C1_91C9_91CB_91D0_91D6_91DF_91E1_91DB_91FC_91F5_91F6),
  (0xE7E0, 0x921E_91FF_9214_922C_9215_9211_925E_9257_9245_9249_9264_9248),
  (0xE7EC, 0x9295_923F_924B_9250_929C_9296_9293_929B_925A_92CF_92B9_92B7),
  (0xE7F8, 0x92E9_930F_92FA_9344_932E),
  (0xE840, 0x9319_9322_931A_9323_933A_9335_933B_935C_9360_937C_936E_9356),
  (0xE84C, 0x93B0_93AC_93AD_9394_93B9_93D6_93D7_93E8_93E5_93D8_93C3_93DD),
  (0xE858, 0x93D0_93C8_93E4_941A_9414_9413_9403_9407_9410_9436_942B_9435),
  (0xE864, 0x9421_943A_9441_9452_9444_945B_9460_9462_945E_946A_9229_9470),
  (0xE870, 0x9475_9477_947D_945A_947C_947E_9481_947F_9582_9587_958A_9594),
  (0xE87C, 0x9596_9598_9599),
  (0xE880, 0x95A0_95A8_95A7_95AD_95BC_95BB_95B9_95BE_95CA_6FF6_95C3_95CD),
  (0xE88C, 0x95CC_95D5_95D4_95D6_95DC_95E1_95E5_95E2_9621_9628_962E_962F),
  (0xE898, 0x9642_964C_964F_964B_9677_965C_965E_965D_965F_9666_9672_966C),
  (0xE8A4, 0x968D_9698_9695_9697_96AA_96A7_96B1_96B2_96B0_96B4_96B6_96B8),
  (0xE8B0, 0x96B9_96CE_96CB_96C9_96CD_894D_96DC_970D_96D5_96F9_9704_9706),
  (0xE8BC, 0x9708_9713_970E_9711_970F_9716_9719_9724_972A_9730_9739_973D),
  (0xE8C8, 0x973E_9744_9746_9748_9742_9749_975C_9760_9764_9766_9768_52D2),
  (0xE8D4, 0x976B_9771_9779_9785_977C_9781_977A_9786_978B_978F_9790_979C),
  (0xE8E0, 0x97A8_97A6_97A3_97B3_97B4_97C3_97C6_97C8_97CB_97DC_97ED_9F4F),
  (0xE8EC, 0x97F2_7ADF_97F6_97F5_980F_980C_9838_9824_9821_9837_983D_9846),
  (0xE8F8, 0x984F_984B_986B_986F_9870),
  (0xE940, 0x9871_9874_9873_98AA_98AF_98B1_98B6_98C4_98C3_98C6_98E9_98EB),
  (0xE94C, 0x9903_9909_9912_9914_9918_9921_991D_991E_9924_9920_992C_992E),
  (0xE958, 0x993D_993E_9942_9949_9945_9950_994B_9951_9952_994C_9955_9997),
  (0xE964, 0x9998_99A5_99AD_99AE_99BC_99DF_99DB_99DD_99D8_99D1_99ED_99EE),
  (0xE970, 0x99F1_99F2_99FB_99F8_9A01_9A0F_9A05_99E2_9A19_9A2B_9A37_9A45),
  (0xE97C, 0x9A42_9A40_9A43),
  (0xE980, 0x9A3E_9A55_9A4D_9A5B_9A57_9A5F_9A62_9A65_9A64_9A69_9A6B_9A6A),
  (0xE98C, 0x9AAD_9AB0_9ABC_9AC0_9ACF_9AD1_9AD3_9AD4_9ADE_9ADF_9AE2_9AE3),
  (0xE998, 0x9AE6_9AEF_9AEB_9AEE_9AF4_9AF1_9AF7_9AFB_9B06_9B18_9B1A_9B1F),
  (0xE9A4, 0x9B22_9B23_9B25_9B27_9B28_9B29_9B2A_9B2E_9B2F_9B32_9B44_9B43),
  (0xE9B0, 0x9B4F_9B4D_9B4E_9B51_9B58_9B74_9B93_9B83_9B91_9B96_9B97_9B9F),
  (0xE9BC, 0x9BA0_9BA8_9BB4_9BC0_9BCA_9BB9_9BC6_9BCF_9BD1_9BD2_9BE3_9BE2),
  (0xE9C8, 0x9BE4_9BD4_9BE1_9C3A_9BF2_9BF1_9BF0_9C15_9C14_9C09_9C13_9C0C),
  (0xE9D4, 0x9C06_9C08_9C12_9C0A_9C04_9C2E_9C1B_9C25_9C24_9C21_9C30_9C47),
  (0xE9E0, 0x9C32_9C46_9C3E_9C5A_9C60_9C67_9C76_9C78_9CE7_9CEC_9CF0_9D09),
  (0xE9EC, 0x9D08_9CEB_9D03_9D06_9D2A_9D26_9DAF_9D23_9D1F_9D44_9D15_9D12),
  (0xE9F8, 0x9D41_9D3F_9D3E_9D46_9D48),
  (0xEA40, 0x9D5D_9D5E_9D64_9D51_9D50_9D59_9D72_9D89_9D87_9DAB_9D6F_9D7A),
  (0xEA4C, 0x9D9A_9DA4_9DA9_9DB2_9DC4_9DC1_9DBB_9DB8_9DBA_9DC6_9DCF_9DC2),
  (0xEA58, 0x9DD9_9DD3_9DF8_9DE6_9DED_9DEF_9DFD_9E1A_9E1B_9E1E_9E75_9E79),
  (0xEA64, 0x9E7D_9E81_9E88_9E8B_9E8C_9E92_9E95_9E91_9E9D_9EA5_9EA9_9EB8),
  (0xEA70, 0x9EAA_9EAD_9761_9ECC_9ECE_9ECF_9ED0_9ED4_9EDC_9EDE_9EDD_9EE0),
  (0xEA7C, 0x9EE5_9EE8_9EEF),
  (0xEA80, 0x9EF4_9EF6_9EF7_9EF9_9EFB_9EFC_9EFD_9F07_9F08_76B7_9F15_9F21),
  (0xEA8C, 0x9F2C_9F3E_9F4A_9F52_9F54_9F63_9F5F_9F60_9F61_9F66_9F67_9F6C),
  (0xEA98, 0x9F6A_9F77_9F72_9F76_9F95_9F9C_9FA0_582F_69C7_9059_7464_51DC),
  (0xEAA4, 0x7199),
  (0xED40, 0x7E8A_891C_9348_9288_84DC_4FC9_70BB_6631_68C8_92F9_66FB_5F45),
  (0xED4C, 0x4E28_4EE1_4EFC_4F00_4F03_4F39_4F56_4F92_4F8A_4F9A_4F94_4FCD),
  (0xED58, 0x5040_5022_4FFF_501E_5046_5070_5042_5094_50F4_50D8_514A_5164),
  (0xED64, 0x519D_51BE_51EC_5215_529C_52A6_52C0_52DB_5300_5307_5324_5372),
  (0xED70, 0x5393_53B2_53DD_FA0E_549C_548A_54A9_54FF_5586_5759_5765_57AC),
  (0xED7C, 0x57C8_57C7_FA0F),
  (0xED80, 0xFA10_589E_58B2_590B_5953_595B_595D_5963_59A4_59BA_5B56_5BC0),
  (0xED8C, 0x752F_5BD8_5BEC_5C1E_5CA6_5CBA_5CF5_5D27_5D53_FA11_5D42_5D6D),
  (0xED98, 0x5DB8_5DB9_5DD0_5F21_5F34_5F67_5FB7_5FDE_605D_6085_608A_60DE),
  (0xEDA4, 0x60D5_6120_60F2_6111_6137_6130_6198_6213_62A6_63F5_6460_649D),
  (0xEDB0, 0x64CE_654E_6600_6615_663B_6609_662E_661E_6624_6665_6657_6659),
  (0xEDBC, 0xFA12_6673_6699_66A0_66B2_66BF_66FA_670E_F929_6766_67BB_6852),
  (0xEDC8, 0x67C0_6801_6844_68CF_FA13_6968_FA14_6998_69E2_6A30_6A6B_6A46),
  (0xEDD4, 0x6A73_6A7E_6AE2_6AE4_6BD6_6C3F_6C5C_6C86_6C6F_6CDA_6D04_6D87),
  (0xEDE0, 0x6D6F_6D96_6DAC_6DCF_6DF8_6DF2_6DFC_6E39_6E5C_6E27_6E3C_6EBF),
  (0xEDEC, 0x6F88_6FB5_6FF5_7005_7007_7028_7085_70AB_710F_7104_715C_7146),
  (0xEDF8, 0x7147_FA15_71C1_71FE_72B1),
  (0xEE40, 0x72BE_7324_FA16_7377_73BD_73C9_73D6_73E3_73D2_7407_73F5_7426),
  (0xEE4C, 0x742A_7429_742E_7462_7489_749F_7501_756F_7682_769C_769E_769B),
  (0xEE58, 0x76A6_FA17_7746_52AF_7821_784E_7864_787A_7930_FA18_FA19_FA1A),
  (0xEE64, 0x7994_FA1B_799B_7AD1_7AE7_FA1C_7AEB_7B9E_FA1D_7D48_7D5C_7DB7),
  (0xEE70, 0x7DA0_7DD6_7E52_7F47_7FA1_FA1E_8301_8362_837F_83C7_83F6_8448),
  (0xEE7C, 0x84B4_8553_8559),
  (0xEE80, 0x856B_FA1F_85B0_FA20_FA21_8807_88F5_8A12_8A37_8A79_8AA7_8ABE),
  (0xEE8C, 0x8ADF_FA22_8AF6_8B53_8B7F_8CF0_8CF4_8D12_8D76_FA23_8ECF_FA24),
  (0xEE98, 0xFA25_9067_90DE_FA26_9115_9127_91DA_91D7_91DE_91ED_91EE_91E4),
  (0xEEA4, 0x91E5_9206_9210_920A_923A_9240_923C_924E_9259_9251_9239_9267),
  (0xEEB0, 0x92A7_9277_9278_92E7_92D7_92D9_92D0_FA27_92D5_92E0_92D3_9325),
  (0xEEBC, 0x9321_92FB_FA28_931E_92FF_931D_9302_9370_9357_93A4_93C6_93DE),
  (0xEEC8, 0x93F8_9431_9445_9448_9592_F9DC_FA29_969D_96AF_9733_973B_9743),
  (0xEED4, 0x974D_974F_9751_9755_9857_9865_FA2A_FA2B_9927_FA2C_999E_9A4E),
  (0xEEE0, 0x9AD9_9ADC_9B75_9B72_9B8F_9BB1_9BBB_9C00_9D70_9D6B_FA2D_9E19),
  (0xEEEC, 0x9ED1),
  (0xEEEF, 0x2170_2171_2172_2173_2174_2175_2176_2177_2178_2179_FFE2_FFE4),
  (0xEEFB, 0xFF07_FF02),
  (0xFA40, 0x2170_2171_2172_2173_2174_2175_2176_2177_2178_2179_2160_2161),
  (0xFA4C, 0x2162_2163_2164_2165_2166_2167_2168_2169_FFE2_FFE4_FF07_FF02),
  (0xFA58, 0x3231_2116_2121_2235_7E8A_891C_9348_9288_84DC_4FC9_70BB_6631),
  (0xFA64, 0x68C8_92F9_66FB_5F45_4E28_4EE1_4EFC_4F00_4F03_4F39_4F56_4F92),
  (0xFA70, 0x4F8A_4F9A_4F94_4FCD_5040_5022_4FFF_501E_5046_5070_5042_5094),
  (0xFA7C, 0x50F4_50D8_514A),
  (0xFA80, 0x5164_519D_51BE_51EC_5215_529C_52A6_52C0_52DB_5300_5307_5324),
  (0xFA8C, 0x5372_5393_53B2_53DD_FA0E_549C_548A_54A9_54FF_5586_5759_5765),
  (0xFA98, 0x57AC_57C8_57C7_FA0F_FA10_589E_58B2_590B_5953_595B_595D_5963),
  (0xFAA4, 0x59A4_59BA_5B56_5BC0_752F_5BD8_5BEC_5C1E_5CA6_5CBA_5CF5_5D27),
  (0xFAB0, 0x5D53_FA11_5D42_5D6D_5DB8_5DB9_5DD0_5F21_5F34_5F67_5FB7_5FDE),
  (0xFABC, 0x605D_6085_608A_60DE_60D5_6120_60F2_6111_6137_6130_6198_6213),
  (0xFAC8, 0x62A6_63F5_6460_649D_64CE_654E_6600_6615_663B_6609_662E_661E),
  (0xFAD4, 0x6624_6665_6657_6659_FA12_6673_6699_66A0_66B2_66BF_66FA_670E),
  (0xFAE0, 0xF929_6766_67BB_6852_67C0_6801_6844_68CF_FA13_6968_FA14_6998),
  (0xFAEC, 0x69E2_6A30_6A6B_6A46_6A73_6A7E_6AE2_6AE4_6BD6_6C3F_6C5C_6C86),
  (0xFAF8, 0x6C6F_6CDA_6D04_6D87_6D6F),
  (0xFB40, 0x6D96_6DAC_6DCF_6DF8_6DF2_6DFC_6E39_6E5C_6E27_6E3C_6EBF_6F88),
  (0xFB4C, 0x6FB5_6FF5_7005_7007_7028_7085_70AB_710F_7104_715C_7146_7147),
  (0xFB58, 0xFA15_71C1_71FE_72B1_72BE_7324_FA16_7377_73BD_73C9_73D6_73E3),
  (0xFB64, 0x73D2_7407_73F5_7426_742A_7429_742E_7462_7489_749F_7501_756F),
  (0xFB70, 0x7682_769C_769E_769B_76A6_FA17_7746_52AF_7821_784E_7864_787A),
  (0xFB7C, 0x7930_FA18_FA19),
  (0xFB80, 0xFA1A_7994_FA1B_799B_7AD1_7AE7_FA1C_7AEB_7B9E_FA1D_7D48_7D5C),
  (0xFB8C, 0x7DB7_7DA0_7DD6_7E52_7F47_7FA1_FA1E_8301_8362_837F_83C7_83F6),
  (0xFB98, 0x8448_84B4_8553_8559_856B_FA1F_85B0_FA20_FA21_8807_88F5_8A12),
  (0xFBA4, 0x8A37_8A79_8AA7_8ABE_8ADF_FA22_8AF6_8B53_8B7F_8CF0_8CF4_8D12),
  (0xFBB0, 0x8D76_FA23_8ECF_FA24_FA25_9067_90DE_FA26_9115_9127_91DA_91D7),
  (0xFBBC, 0x91DE_91ED_91EE_91E4_91E5_9206_9210_920A_923A_9240_923C_924E),
  (0xFBC8, 0x9259_9251_9239_9267_92A7_9277_9278_92E7_92D7_92D9_92D0_FA27),
  (0xFBD4, 0x92D5_92E0_92D3_9325_9321_92FB_FA28_931E_92FF_931D_9302_9370),
  (0xFBE0, 0x9357_93A4_93C6_93DE_93F8_9431_9445_9448_9592_F9DC_FA29_969D),
  (0xFBEC, 0x96AF_9733_973B_9743_974D_974F_9751_9755_9857_9865_FA2A_FA2B),
  (0xFBF8, 0x9927_FA2C_999E_9A4E_9AD9),
  (0xFC40, 0x9ADC_9B75_9B72_9B8F_9BB1_9BBB_9C00_9D70_9D6B_FA2D_9E19_9ED1)]

/-- /repo/modules/from/_CP932.txt; there is no file for writing. -/
def cp932 : Charset where
  reads := cp932Reads
  writes := []

end Verif.Charsets
