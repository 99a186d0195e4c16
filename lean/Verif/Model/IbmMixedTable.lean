import Verif.Spec.Charset
/-
Generated by tools/ibmmixed.py from rule files of /repo/modules/from and /repo/modules/to.
-/
namespace Verif.IbmMixed
open Verif.Spec

set_option maxRecDepth 100000

/-- The lines of /repo/modules/from/IBM-930.txt with one byte (those that call the callback): code, character; sorted.  Of several lines for one code only the
first is kept, which is the one that counts (C50). -/
def single930 : Chart := Chart.wide [
  (0x1, 0x0001_0002_0003_009C_0009_0086_007F_0097_008D_008E_000B_000C),
  (0xD, 0x000D_000E_000F_0010_0011_0012_0013_009D_0085_0008_0087_0018),
  (0x19, 0x0019_0092_008F_001C_001D_001E_001F_0080_0081_0082_0083_0084),
  (0x25, 0x000A_0017_001B_0088_0089_008A_008B_008C_0005_0006_0007_0090),
  (0x31, 0x0091_0016_0093_0094_0095_0096_0004_0098_0099_009A_009B_0014),
  (0x3D, 0x0015_009E_001A_0020_FF61_FF62_FF63_FF64_FF65_FF66_FF67_FF68),
  (0x49, 0xFF69_00A3_002E_003C_0028_002B_007C_0026_FF6A_FF6B_FF6C_FF6D),
  (0x55, 0xFF6E_FF6F),
  (0x58, 0xFF70),
  (0x5A, 0x0021_00A5_002A_0029_003B_00AC_002D_002F_0061_0062_0063_0064),
  (0x66, 0x0065_0066_0067_0068),
  (0x6B, 0x002C_0025_005F_003E_003F_005B_0069_006A_006B_006C_006D_006E),
  (0x77, 0x006F_0070_0060_003A_0023_0040_0027_003D_0022_005D_FF71_FF72),
  (0x83, 0xFF73_FF74_FF75_FF76_FF77_FF78_FF79_FF7A_0071_FF7B_FF7C_FF7D),
  (0x8F, 0xFF7E_FF7F_FF80_FF81_FF82_FF83_FF84_FF85_FF86_FF87_FF88_FF89),
  (0x9B, 0x0072),
  (0x9D, 0xFF8A_FF8B_FF8C_007E_203E_FF8D_FF8E_FF8F_FF90_FF91_FF92_FF93),
  (0xA9, 0xFF94_FF95_0073_FF96_FF97_FF98_FF99_005E_00A2_005C_0074_0075),
  (0xB5, 0x0076_0077_0078_0079_007A_FF9A_FF9B_FF9C_FF9D_FF9E_FF9F_007B),
  (0xC1, 0x0041_0042_0043_0044_0045_0046_0047_0048_0049),
  (0xD0, 0x007D_004A_004B_004C_004D_004E_004F_0050_0051_0052),
  (0xE0, 0x0024),
  (0xE2, 0x0053_0054_0055_0056_0057_0058_0059_005A),
  (0xF0, 0x0030_0031_0032_0033_0034_0035_0036_0037_0038_0039),
  (0xFF, 0x009F)]

/-- The lines of /repo/modules/from/IBM-930.txt with two bytes: code, character; sorted.  Of several lines for one code only the
first is kept, which is the one that counts (C50). -/
def double930 : Chart := Chart.wide [
  (0x4040, 0x3000),
  (0x4141, 0x03B1_03B2_03B3_03B4_03B5_03B6_03B7_03B8_03B9_03BA_03BB_03BC),
  (0x414D, 0x03BD_03BE_03BF_03C0_03C1_03C3_03C4_03C5_03C6_03C7_03C8_03C9),
  (0x4161, 0x0391_0392_0393_0394_0395_0396_0397_0398_0399_039A_039B_039C),
  (0x416D, 0x039D_039E_039F_03A0_03A1_03A3_03A4_03A5_03A6_03A7_03A8_03A9),
  (0x4180, 0x0430_0431_0432_0433_0434_0435_0451_0436_0437_0438_0439_043A),
  (0x418C, 0x043B_043C_043D_043E_043F_0440_0441_0442_0443_0444_0445_0446),
  (0x4198, 0x0447_0448_0449_044A_044B_044C_044D_044E_044F),
  (0x41B1, 0x2170_2171_2172_2173_2174_2175_2176_2177_2178_2179),
  (0x41C0, 0x0410_0411_0412_0413_0414_0415_0401_0416_0417_0418_0419_041A),
  (0x41CC, 0x041B_041C_041D_041E_041F_0420_0421_0422_0423_0424_0425_0426),
  (0x41D8, 0x0427_0428_0429_042A_042B_042C_042D_042E_042F),
  (0x41F1, 0x2160_2161_2162_2163_2164_2165_2166_2167_2168_2169),
  (0x424A, 0xFFE1_FF0E_FF1C_FF08_FF0B_FF5C_FF06),
  (0x425A, 0xFF01_FFE5_FF0A_FF09_FF1B_FFE2_2212_FF0F),
  (0x426A, 0x00A6_FF0C_FF05_FF3F_FF1E_FF1F),
  (0x4279, 0xFF40_FF1A_FF03_FF20_FF07_FF1D_FF02),
  (0x4281, 0xFF41_FF42_FF43_FF44_FF45_FF46_FF47_FF48_FF49),
  (0x4291, 0xFF4A_FF4B_FF4C_FF4D_FF4E_FF4F_FF50_FF51_FF52),
  (0x42A1, 0xFFE3_FF53_FF54_FF55_FF56_FF57_FF58_FF59_FF5A),
  (0x42C0, 0xFF5B_FF21_FF22_FF23_FF24_FF25_FF26_FF27_FF28_FF29),
  (0x42D0, 0xFF5D_FF2A_FF2B_FF2C_FF2D_FF2E_FF2F_FF30_FF31_FF32),
  (0x42E0, 0xFF04),
  (0x42E2, 0xFF33_FF34_FF35_FF36_FF37_FF38_FF39_FF3A),
  (0x42F0, 0xFF10_FF11_FF12_FF13_FF14_FF15_FF16_FF17_FF18_FF19),
  (0x4341, 0x3002_300C_300D_3001_30FB_30F2_30A1_30A3_30A5_FFE0_2220_22A5),
  (0x434D, 0x2312_2202_2207),
  (0x4351, 0x30A7_30A9_30E3_30E5_30E7_30C3_30EE_30FC_30F5_30F6_2261_2252),
  (0x435D, 0x226A_226B_221A_223D_221D_222B_222C_2208_220B_2286_2287_2282),
  (0x4369, 0x2283_222A_2229_2227_2228_21D2_21D4_2200_2203_212B_2030_266F),
  (0x4375, 0x266D_266A_2020_2021_00B6_25EF),
  (0x437C, 0x2500_2502_250C_2510),
  (0x4381, 0x30A2_30A4_30A6_30A8_30AA_30AB_30AD_30AF_30B1_30B3),
  (0x438C, 0x30B5_30B7_30B9_30BB_30BD_30BF_30C1_30C4_30C6_30C8_30CA_30CB),
  (0x4398, 0x30CC_30CD_30CE),
  (0x439D, 0x30CF_30D2_30D5),
  (0x43A1, 0x301C_30D8_30DB_30DE_30DF_30E0_30E1_30E2_30E4_30E6),
  (0x43AC, 0x30E8_30E9_30EA_30EB_2518_2514_251C_252C_2524_2534_253C_2501),
  (0x43B8, 0x2503_250F_30EC_30ED_30EF_30F3_309B_309C_30AC_30AE_30B0_30B2),
  (0x43C4, 0x30B4_30B6_30B8_30BA_30BC_30BE_30C0_30C2_30C5_30C7_30C9_30D0),
  (0x43D0, 0x30D3_30D6_30D9_30DC_30F4_30D1_30D4_30D7_30DA_30DD_30F0_30F1),
  (0x43DC, 0x30FD_30FE),
  (0x43E0, 0xFF3C_2513_251B_2517_2523_2533_252B_253B_254B_2520_252F_2528),
  (0x43EC, 0x2537_253F_251D_2530_2525_2538_2542),
  (0x4442, 0x300E_300F_FF3B_FF3D_3092_3041_3043_3045_2014_00B1_2260_221E),
  (0x444E, 0x2103),
  (0x4450, 0x00B4_3047_3049_3083_3085_3087_3063_308E),
  (0x445A, 0x2010_3003_4EDD_3005_3006_3007_00A8_2018_201C_3014_3008_300A),
  (0x4466, 0x3010_2266_2234_2642_00A7_203B_3012_3231_2116_2121_FF3E_2019),
  (0x4472, 0x201D_3015_3009_300B_3011_2267_2235_2640_00D7_00F7_2016_3013),
  (0x447E, 0x2025_2026),
  (0x4481, 0x3042_3044_3046_3048_304A_304B_304D_304F_3051_3053),
  (0x448C, 0x3055_3057_3059_305B_305D_305F_3061_3064_3066_3068_306A_306B),
  (0x4498, 0x306C_306D_306E),
  (0x449D, 0x306F_3072_3075),
  (0x44A2, 0x3078_307B_307E_307F_3080_3081_3082_3084_3086),
  (0x44AC, 0x3088_3089_308A_308B),
  (0x44BA, 0x308C_308D_308F_3093),
  (0x44C0, 0x304C_304E_3050_3052_3054_3056_3058_305A_305C_305E_3060_3062),
  (0x44CC, 0x3065_3067_3069_3070_3073_3076_3079_307C),
  (0x44D5, 0x3071_3074_3077_307A_307D_3090_3091_309D_309E),
  (0x44E0, 0x25CB_25CF_25B3_25B2_25CE_2606_2605_25C7_25C6_25A1_25A0_25BD),
  (0x44EC, 0x25BC_00B0_2032_2033_2192_2190_2191_2193),
  (0x4541, 0x4E00_4E8C_4E09_56DB_4E94_516D_4E03_516B_4E5D_5341_767E_5343),
  (0x454D, 0x4E07_5104_90FD_9053_5E9C_770C_5E02_533A_753A_6751_6771_897F),
  (0x4559, 0x5357_5317_5927_4E2D_5C0F_4E0A_4E0B_5E74_6708_65E5_7530_5B50),
  (0x4565, 0x5C71_672C_5DDD_85E4_91CE_5DE5_696D_6728_4E95_90CE_5CF6_96C4),
  (0x4571, 0x9AD8_5CA1_592B_539F_4EAC_4F50_6B63_677E_6A5F_548C_88FD_7537),
  (0x457D, 0x7F8E_5409_5D0E_77F3_8C37_96FB_9577_6CBB_6CA2_91D1_65B0_53E3),
  (0x4589, 0x6A4B_4E45_798F_6240_5E73_5185_56FD_5316_962A_5BAE_4EBA_4F5C),
  (0x4595, 0x90E8_6E05_6B21_7FA9_751F_4EE3_51FA_6C34_68EE_5149_52A0_5408),
  (0x45A1, 0x795E_6797_91CD_884C_4FE1_660E_6D77_5B89_5E78_4FDD_592A_5BCC),
  (0x45AD, 0x6C5F_9234_524D_77E5_6B66_4F0A_662D_5206_52DD_7528_5E83_9020),
  (0x45B9, 0x6C17_6210_898B_5229_4F1A_5B66_5CA9_7523_9593_5730_81EA_826F),
  (0x45C5, 0x95A2_611B_653F_5C3E_8A08_6587_624B_7236_65B9_4E8B_6238_54C1),
  (0x45D1, 0x559C_6E21_5F18_53E4_8FBA_5009_9244_4E4B_5834_6D0B_57CE_6D25),
  (0x45DD, 0x7ACB_5EA6_5348_4ECA_5F66_8A2D_901A_52D5_5F8C_5948_5B9A_6C60),
  (0x45E9, 0x5C4B_6D5C_7406_5742_5B9F_82F1_7684_53F8_79C0_6A2A_540D_5B5D),
  (0x45F5, 0x7AF9_535A_529B_5EAB_8449_6804_6C38_5668_7389_591A),
  (0x4641, 0x8CC0_771F_6075_9759_5186_8302_654F_8C4A_5175_6CD5_767A_9752),
  (0x464D, 0x5897_6599_5FE0_8CC7_6642_7269_8ECA_5FB3_8981_5BFE_585A_79CB),
  (0x4659, 0x767D_6CB3_702C_6CB9_9686_8535_5F53_4FCA_5FD7_6625_793E_99AC),
  (0x4665, 0x5165_5EFA_6839_6749_9032_8208_6D66_7CBE_540C_6027_7C73_8005),
  (0x4671, 0x52A9_679D_8FD1_76F4_76EE_6765_753B_76F8_9ED2_4E38_8239_7531),
  (0x467D, 0x58EB_7B2C_718A_7D19_5065_68B0_82B3_571F_6709_5BB6_7DDA_7D4C),
  (0x4689, 0x8ABF_5929_671F_7F6E_6D45_6589_5F0F_5F62_9762_7A2E_8F38_5916),
  (0x4695, 0x5143_4F53_9E7F_5FA1_5973_5EB7_4E16_52C7_5800_597D_5150_5BFA),
  (0x46A1, 0x92FC_7279_57FC_9054_5411_53D6_7B49_667A_56DE_9580_904B_5099),
  (0x46AD, 0x601D_963F_4E0D_9808_5168_5BFF_5584_677F_98EF_8C9E_73FE_98DF),
  (0x46B9, 0x7D44_985E_516C_6750_9999_5546_7D50_8868_77E2_6F5F_79C1_5236),
  (0x46C5, 0x90A6_6CBC_7CF8_5B8F_7B56_6CE2_54E1_6570_958B_6E96_6A39_8CBB),
  (0x46D1, 0x660C_5F37_7814_53CB_5B87_82E5_83CA_6301_82B1_5F15_7D00_8352),
  (0x46DD, 0x5225_4FEE_8D8A_4F4F_85AC_6BDB_9060_554F_5965_578B_5FC3_767B),
  (0x46E9, 0x65E9_67F3_6D69_8CEA_52D9_6CC9_5E38_5B88_57FA_7BA1_6CF0_4F38),
  (0x46F5, 0x6700_4EE5_6B4C_88D5_8D64_8DB3_898F_6D41_8AA0_6607),
  (0x4741, 0x5DDE_7167_5869_9001_96C5_672B_54F2_5CB8_4E5F_5C90_521D_8328),
  (0x474D, 0x5247_6BD4_80FD_8A71_6295_8EE2_83C5_9023_4ED6_6C11_7D66_9152),
  (0x4759, 0x7E41_4FA1_6E80_671D_4ED8_6761_7121_8003_697D_4E3B_610F_6226),
  (0x4765, 0x5207_5264_7247_7D30_6E08_7A32_5E03_91CC_5C5E_7AE0_5909_4F55),
  (0x4771, 0x685C_5F7C_67FB_76CA_58F2_4EC1_6DF1_53F0_9CE5_9DB4_652F_6574),
  (0x477D, 0x89D2_5609_5473_885B_8B70_5727_7387_8DEF_706B_961C_8F1D_70B9),
  (0x4789, 0x4E0E_6E1B_7551_9280_7A7A_4EA4_7FBD_534A_53CE_592E_7DCF_8A18),
  (0x4795, 0x6674_69CB_969B_6885_5370_8A00_6817_8EAB_66F8_514B_7D20_96C6),
  (0x47A1, 0x7BC0_5148_6EDD_6C7A_6559_7D14_67F4_63A5_661F_7740_7559_6620),
  (0x47AD, 0x5DF1_754C_5177_656C_7FA4_9806_5171_6D3B_91CF_6307_89E3_5BA4),
  (0x47B9, 0x679C_5404_671B_9632_7D04_61B2_967D_4E80_56F3_4E88_8272_7A0E),
  (0x47C5, 0x690D_53EF_6052_4F4D_5178_5FC5_7D9A_6025_5728_57A3_541B_5EF6),
  (0x47D1, 0x5D8B_4F01_6803_670D_71B1_5272_5354_6B69_53F2_512A_658E_623F),
  (0x47DD, 0x5B97_683C_8FB0_7B20_5712_8AF8_8107_5553_8CE2_5F25_98A8_5F97),
  (0x47E9, 0x6613_6253_982D_65ED_6BB5_52E2_7136_56E3_984D_843D_914D_7A0B),
  (0x47F5, 0x8FBB_543E_611F_5BDB_53CD_7A14_9700_6E90_6C96_984C),
  (0x4841, 0x8FBC_8349_7B97_76DB_8FB2_90A3_7701_69D8_6BBF_5C11_4ECB_53D7),
  (0x484D, 0x97F3_7DE8_59D4_5E84_4FC2_72B6_793A_5E97_5A9B_682A_6ECB_68A8),
  (0x4859, 0x7E04_53F3_5DE6_53CA_9078_5C45_60C5_7DF4_70AD_9928_9271_6A21),
  (0x4865, 0x6B8A_7E3E_4E9C_7E4A_4EF2_5857_6D88_8853_691C_6717_5B85_529F),
  (0x4871, 0x5C1A_8CBF_60A6_8102_7BE0_4F73_7D21_51A8_6851_78BA_7267_4E26),
  (0x487D, 0x5024_89B3_8CB4_7DAD_7D71_5BBF_4E21_7CD6_89AA_9332_6F84_65BD),
  (0x4889, 0x5BB9_98DB_5C40_7950_904E_6C0F_6539_76E4_7A4D_6E0B_5DFB_6DF3),
  (0x4895, 0x5FDC_4E89_8ECD_88C5_9178_7E54_67D3_5E1D_7DBF_7C89_822A_7532),
  (0x48A1, 0x5468_4ED9_5F85_4F4E_7DD1_8EFD_9EBB_6176_52B4_78EF_4E39_80B2),
  (0x48AD, 0x9650_5C0E_653E_6643_5EA7_4EF6_60F3_9A13_4ED5_4F7F_8F2A_9854),
  (0x48B9, 0x756A_5F35_805E_4F9B_6E6F_6EB6_6821_9285_92F3_878D_9756_5199),
  (0x48C5, 0x5B8C_6E2F_935B_591C_5145_9F8D_7DB1_83F1_901F_52C9_5237_8D77),
  (0x48D1, 0x6469_53C2_55B6_7A42_63A8_8FD4_8077_6B62_4F1D_5E79_7403_6A29),
  (0x48DD, 0x5C55_5E61_845B_5EAD_975E_53F7_5358_6B73_62E1_51E6_8A9E_6628),
  (0x48E9, 0x57DF_6DF5_518D_50CD_79D1_9B5A_7AEF_9014_6848_5B57_8AD6_517C),
  (0x48F5, 0x53C8_632F_6280_5FB9_672D_7CFB_5F93_51B7_614B_5CF0),
  (0x4941, 0x5931_539A_5074_6CE8_6E2C_9803_4E57_8A66_576A_8429_515A_6C7D),
  (0x494D, 0x5B9D_606D_6A0B_6E29_6577_8AAC_82B8_544A_6B74_822C_98FE_793C),
  (0x4959, 0x5C06_96E3_7802_5224_5F79_5F71_66FD_5E2F_9678_938C_8AC7_5F70),
  (0x4965, 0x60AA_6A19_7533_5BB3_6BCD_88DC_5E4C_58F0_9664_7B39_5A66_4E7E),
  (0x4971, 0x7AF6_829D_725B_8CB7_79FB_785D_8336_52B9_990A_52F2_80A5_8B19),
  (0x497D, 0x7089_590F_5802_67CF_6255_5E30_713C_786B_8001_7A76_5BE9_91DD),
  (0x4989, 0x65AD_5C04_5DEE_5D50_6298_8010_5BA3_59CB_5F8B_6B8B_666F_8C61),
  (0x4995, 0x90F7_5353_96E2_85AB_6B7B_8015_64CD_4EAE_4E91_90E1_52E4_6C42),
  (0x49A1, 0x8CAB_5B98_59BB_88CF_773C_4F2F_7AAF_7BC9_968E_63DB_6842_99C5),
  (0x49AD, 0x68B6_5747_8CA1_547D_738B_84B2_90C1_78E8_7B11_66F2_6975_5831),
  (0x49B9, 0x63D0_8A3C_96EA_9055_88C1_9996_75C5_6850_4F59_74E6_4EE4_5439),
  (0x49C5, 0x732A_672A_525B_8CA0_4F34_5100_542B_9069_8FC4_5C3B_5DCC_7B54),
  (0x49D1, 0x8FFD_8A0E_4E08_925B_71C3_8AB2_70BA_9662_679A_76AE_8B77_7DBE),
  (0x49DD, 0x96E8_6211_5BC4_837B_62BC_7D0D_76E3_7E2B_964D_572D_7ADC_7BC4),
  (0x49E9, 0x6BBA_8C9D_698E_9047_6F14_5360_8FEB_5287_624D_6566_7D1A_7D42),
  (0x49F5, 0x6BCE_7D79_7E2E_666E_7965_500B_5C02_99D2_8A55_7560),
  (0x4A41, 0x5B58_8089_50BE_5E2B_6DB2_4F8B_81E3_81F3_56E0_7D99_5DF2_899A),
  (0x4A4D, 0x6E9D_6D17_8AAD_8996_731B_5DE8_7DB2_888B_4EFB_5BC6_8896_6CC1),
  (0x4A59, 0x8457_8F03_6BC5_97FF_8CA9_5E45_82E6_63AA_5F81_78C1_821E_52AA),
  (0x4A65, 0x7AAA_5999_6297_8F14_7FD2_4FC3_54C9_967A_66F4_8B1B_5E72_5FA9),
  (0x4A71, 0x8A2A_6D3E_7763_6483_8B58_614E_5A5A_8D85_71D0_983C_72E9_583A),
  (0x4A7D, 0x5DFE_8A8D_67C4_7DE0_4F11_77ED_4F0F_5BC5_629C_5C3C_533B_6DC0),
  (0x4A89, 0x81FC_96D1_904A_6D6E_93E1_5C64_98FC_524A_6DFB_8584_968A_56FA),
  (0x4A95, 0x5883_7766_9805_4E73_8C46_8A31_7DD2_8FF0_6D6A_4F9D_6B6F_6B27),
  (0x4AA1, 0x62C5_511F_9769_5374_9AA8_6775_887F_5305_7570_8D70_864E_5CEF),
  (0x4AAD, 0x8CDE_5FF5_725F_7686_609F_80CC_59EB_8131_5E0C_8A17_9676_82D7),
  (0x4AB9, 0x74B0_84B8_50D5_96F2_7248_7834_6DD1_6E09_67FF_6F54_5915_500D),
  (0x4AC5, 0x72AC_9EC4_7B46_9B3C_6563_53BB_8A98_91DC_9818_6FC3_65C5_501F),
  (0x4AD1, 0x7F8A_6F64_9031_5F3E_63F4_9038_8B66_7BE4_7206_6843_72EC_65CF),
  (0x4ADD, 0x82A6_5BA2_6960_9EA6_52DF_6790_639B_7D75_9855_5DF3_5805_8ACB),
  (0x4AE9, 0x95A3_8863_8CA8_5B63_5E8A_5449_786C_7D2B_8CA2_5352_7D76_8CB8),
  (0x4AF5, 0x7070_547C_6545_6676_73B2_56F2_7BB1_58A8_7A81_66AE),
  (0x4B41, 0x8087_59FF_8840_56F0_7B51_6DF7_5F01_934B_9000_4FE3_675F_4FBF),
  (0x4B4D, 0x8CC3_526F_63A1_5442_8907_698A_5E2D_5A18_7518_514D_5E7E_50B5),
  (0x4B59, 0x5BDD_68D2_745E_69FB_5FAE_55E3_8A70_5BF8_5824_8358_5F13_5E95),
  (0x4B65, 0x706F_751A_7D05_60E3_7E70_5012_5238_83EF_5373_5F31_6A2B_9CF4),
  (0x4B71, 0x53CC_6D32_4EAB_4E92_842C_8A8C_65E2_6F01_80A9_9DF9_8B72_7B52),
  (0x4B7D, 0x9589_6D74_63A2_6590_5BD2_6319_8AB0_76DF_99A8_7A74_8236_8846),
  (0x4B89, 0x8061_6557_5922_9644_88AB_9326_7B4B_62B5_5371_5E81_5BDF_4F75),
  (0x4B95, 0x58C1_7058_7DCA_5438_73E0_52D8_5208_78D0_6B23_6838_4E43_690E),
  (0x4BA1, 0x8377_6ED1_98F2_8170_8857_8EF8_798E_83DC_8FCE_7E01_5510_4EA8),
  (0x4BAD, 0x8A33_9162_5EFB_606F_4E86_664B_6368_5217_8056_51FD_7642_821F),
  (0x4BB9, 0x9685_50CF_662F_4F3C_4E59_6A3D_4E71_523A_8ACF_6A58_66FF_670B),
  (0x4BC5, 0x653B_9732_5EC3_8A13_5782_604B_866B_95D8_60A9_4E01_63CF_6FC0),
  (0x4BD1, 0x659C_8CAC_8305_7CA7_6050_96F7_5FCD_640D_5B54_900F_62D3_59B9),
  (0x4BDD, 0x7159_51AC_79F0_552F_5275_6697_80F8_4E98_4ECF_51CD_9D5C_5144),
  (0x4BE9, 0x7A93_67F1_5841_7C21_8861_5C31_68DA_91E7_9DF2_63EE_6575_84EE),
  (0x4BF5, 0x523B_6B32_7C98_5982_969C_8987_7C9F_9006_62DB_66DC),
  (0x4C41, 0x6355_6982_50AC_623B_5FD8_63DA_75DB_627F_616E_8266_7C95_716E),
  (0x4C4D, 0x96C7_7F6A_5426_5200_83D3_5211_594F_9D28_574A_66C7_9858_820E),
  (0x4C59, 0x6614_733F_50B7_6551_5EB8_5B6B_55AC_5FEB_6388_8CAF_676F_5951),
  (0x4C65, 0x5A01_71E5_5DE3_8C6A_6271_81F4_5C3A_5F92_9045_7384_7149_79D8),
  (0x4C71, 0x796D_9003_83CC_5FB4_5B8D_6279_64AE_7D18_723E_5BEE_65E7_8D08),
  (0x4C7D, 0x9E78_52E7_5D07_9F62_6069_536F_6681_9663_5E3D_62B1_722A_6E4A),
  (0x4C89, 0x93AE_79E6_53E5_809D_88FE_53B3_6C88_6E7F_5141_9091_6F6E_84C4),
  (0x4C95, 0x85EA_8129_6BD2_663C_7F72_73C2_5F1F_790E_60B2_72ED_58EE_8179),
  (0x4CA1, 0x8E8D_5C65_5DE7_6C37_6DE1_862D_72AF_8E0A_7C92_8218_8033_63A7),
  (0x4CAD, 0x9291_5019_8155_8A69_8EDF_66B4_8133_7591_6B20_6669_90F5_4E32),
  (0x4CB9, 0x73EA_693F_7687_707D_7D3A_6148_8607_99FF_59C9_7832_7815_907F),
  (0x4CC5, 0x80A1_5C3F_66A2_9418_6D44_5E55_5854_7B95_8DE1_4EA1_8C5A_81E8),
  (0x4CD1, 0x89E6_9670_5263_74F6_9A5A_6012_520A_7434_9801_907A_5504_7956),
  (0x4CDD, 0x5230_54B2_8A34_96A3_4FF3_9283_91E3_7D39_9688_4F51_7D61_5DBA),
  (0x4CE9, 0x9BAE_5F80_795D_8597_8DA3_7C60_5C0A_7565_85A9_63D6_9E97_7D22),
  (0x4CF5, 0x5375_9AEA_9042_6B3D_7D0B_6392_80AA_7DE9_9F3B_99C6),
  (0x4D41, 0x6D78_6731_5531_6398_7825_5CB3_5DE1_92AD_98FD_9810_6CE3_6B64),
  (0x4D4D, 0x5321_6B53_5E8F_7AE5_502B_6E56_62BD_8276_6A9C_4E18_57F7_752B),
  (0x4D59, 0x7C97_82EB_9802_811A_73CD_8F9B_5C0B_63E1_7372_8150_80E1_5B99),
  (0x4D65, 0x76D7_6291_65EC_8A3A_5947_65E8_6E7E_6696_55AB_8F09_92ED_9396),
  (0x4D71, 0x4EEE_755C_6F38_8F9E_7981_5C01_62E0_9BE8_91C8_6276_65CB_8E0F),
  (0x4D7D, 0x8B21_699B_6216_5A92_90B8_50DA_79DF_6C41_5270_9175_8B39_685D),
  (0x4D89, 0x5875_819C_5B9C_8A89_8A72_9D8F_6377_5974_8AA4_52B1_6962_5C48),
  (0x4D95, 0x9CE9_673A_75B2_6D1E_4F0D_7E6D_7B48_7FCC_65E6_59A5_79E9_6212),
  (0x4DA1, 0x6EDE_770B_8CA7_65BC_885D_6ADB_5C4A_8074_9084_8ECC_65D7_57F9),
  (0x4DAD, 0x708E_6F06_5E7C_77AC_4FF5_5949_81ED_9B45_7FFC_8178_69FD_6CCA),
  (0x4DB9, 0x69C7_79D2_8B1D_9ED9_81D3_7A3C_7968_6F5C_63B2_8DDD_6383_6E9C),
  (0x4DC5, 0x5E33_61F8_76BF_642C_7DB4_6247_6458_6816_5F69_9022_7A1A_82B9),
  (0x4DD1, 0x70C8_9A12_6163_6FEF_53EB_9D3B_62FE_60A0_9591_6D99_6162_9298),
  (0x4DDD, 0x635C_9707_8972_683D_51E1_9B54_608C_5B22_99C4_7126_8A73_971C),
  (0x4DE9, 0x7396_67D4_60A3_4E11_4EF0_8CDB_8CB0_7912_9774_8986_5146_57DC),
  (0x4DF5, 0x99D0_80C3_8338_78A7_86CD_7F85_5049_8247_690B_7C4D),
  (0x4E41, 0x53EA_5F26_6E25_6881_9375_5DFD_5347_9727_643A_75C7_6FA4_73A9),
  (0x4E4D, 0x77E9_9451_8B5C_808C_674E_4EAD_582F_7573_8ED2_6CE5_9320_8FF7),
  (0x4E59, 0x7D33_72C2_8217_7422_82C5_9A30_773A_5F84_9673_64AD_920D_74DC),
  (0x4E65, 0x60C7_86ED_4FFA_52A3_6A3A_7720_5320_61B6_5674_8776_6CBF_505C),
  (0x4E71, 0x602A_8466_6B96_6DBC_97D3_968F_6876_60D1_5378_64A4_51A0_9154),
  (0x4E7D, 0x5DF4_629E_5E63_929A_7693_6C5A_6597_50E7_7C82_5F6B_6CE1_5F6C),
  (0x4E89, 0x5AC1_6F2C_852D_6442_5750_58C7_8CFC_8A5E_7A7F_689D_7E26_7A40),
  (0x4E95, 0x7344_8AEB_4FD7_7A63_8036_7DEF_80C6_8AED_731F_8FEA_4F0E_758B),
  (0x4EA1, 0x518A_6734_5FD9_61C7_65AF_9CF3_5ECA_9262_68DF_6CB8_80F4_57CB),
  (0x4EAD, 0x6C99_96A0_5B64_58F1_68C4_5410_982C_8A87_4E5E_6167_9BAB_90AA),
  (0x4EB9, 0x55B0_82BD_596A_66F3_8299_5893_719F_6284_67D1_9063_5ACC_6C57),
  (0x4EC5, 0x7CE7_5851_64B2_58CA_830E_5968_5302_5A46_8702_6065_72D9_89A7),
  (0x4ED1, 0x6689_66F9_5D6F_5BB0_96BC_636E_60DC_7948_51DD_8606_5EC9_7554),
  (0x4EDD, 0x596E_6B04_4F43_7B94_67DA_62DD_628A_971E_62ED_6EC5_508D_67B6),
  (0x4EE9, 0x80E4_9EBF_5EB5_638C_85CD_9867_52C5_6016_68CB_61D0_5751_8F29),
  (0x4EF5, 0x5FAA_81A8_7D62_71C8_54C0_69CC_6B3E_65AC_63C3_4F46),
  (0x4F41, 0x7B1B_6B86_88F8_5203_732E_6687_7D17_57F4_570F_618E_970A_7C3F),
  (0x4F4D, 0x8B00_7881_8CE0_548B_7B87_745B_7C11_8870_5398_5448_6CF3_6F22),
  (0x4F59, 0x53F6_88B4_5301_7A6B_8695_5861_5D29_88C2_62D2_4E1E_5036_96C0),
  (0x4F65, 0x7363_8A3B_5176_7199_7FE0_8888_7E1E_4E4F_84CB_6F2B_5859_936C),
  (0x4F71, 0x53E9_865A_9149_86EF_5E06_5507_902E_6795_846C_5BA5_82A5_8431),
  (0x4F7D, 0x6D8C_63FA_4EA5_51C6_6328_7F70_5B5F_5DBD_99C8_53EC_7985_8A54),
  (0x4F89, 0x7962_88DF_5B09_4FB5_4F91_9B8E_5192_96F0_6DAF_622F_8490_8CDC),
  (0x4F95, 0x5075_5CE0_4E14_4F83_7C54_84D1_77B3_8AEE_5CE8_62F6_663B_8A93),
  (0x4FA1, 0x8526_8A95_65FA_6714_53D4_62AB_8CE6_88F3_5BE7_868A_668E_582A),
  (0x4FAD, 0x6170_696F_9F13_7A92_7893_6A7F_9017_9266_7D10_7BC7_6EF4_821C),
  (0x4FB9, 0x5C3D_62CD_85C1_6F02_6E67_6691_85A6_637A_821B_4F8D_5091_8A02),
  (0x4FC5, 0x62EC_9BC9_7A3D_7C9B_50C5_9019_708A_7C8B_64EC_665F_6562_732B),
  (0x4FD1, 0x5339_67A0_55A7_6D2A_7A3F_64E6_79A7_67D8_7B26_96BB_6311_72A0),
  (0x4FDD, 0x5C6F_7026_97EE_60DF_8AFE_8B04_8494_9BD6_82AF_932C_6606_9640),
  (0x4FE9, 0x5BC2_86C7_7949_8017_6919_7092_963B_7C7E_59D3_5B5C_7D1B_91D8),
  (0x4FF5, 0x6A80_85E9_6905_6C93_502D_4EA6_7FC1_61A4_8CCA_9665),
  (0x5041, 0x93D1_53F1_598A_8EAC_62D8_6867_71D5_7B67_504F_67D0_82D1_978D),
  (0x504D, 0x748B_80BA_7336_514E_8105_90CA_584A_67FE_6FF1_5FFD_76C6_9A0E),
  (0x5059, 0x507D_9694_5EF7_7BB8_904D_6C4E_85FB_819D_67AF_564C_5606_8C8C),
  (0x5065, 0x56DA_73ED_8CC4_8FC5_96F6_6C50_8944_8F3F_7D5E_60E8_72FC_7D9C),
  (0x5071, 0x8463_5CFB_5446_5D16_6CA1_81B3_58FA_5BB4_8108_541F_8CBC_6182),
  (0x507D, 0x78A9_6FE1_91A4_76F2_6020_76FE_84C9_7F36_4EC7_755D_7A17_84EC),
  (0x5089, 0x75F4_4F3A_676D_7460_62F3_6F20_79E4_87F9_6094_6234_66AB_820C),
  (0x5095, 0x8499_723A_5FCC_6109_70CF_7261_7A50_5098_9AED_5D69_601C_6667),
  (0x50A1, 0x99B4_5E7B_643E_5830_53C9_7A9F_990C_9B42_8F5F_7AAE_5B9B_68A2),
  (0x50AD, 0x6249_7984_9DFA_5451_932F_8AC4_5F90_8DF3_5A2F_80DE_6D29_7A4F),
  (0x50B9, 0x84BC_9D2B_9010_6D38_916A_6FC1_9905_6BBB_5EB6_91B8_5076_6F0F),
  (0x50C5, 0x4E19_540F_9675_6C72_51B4_5631_9F20_66A6_5F0A_75AB_51F8_674F),
  (0x50D1, 0x8DF5_6C70_8A6B_757F_5CAC_6841_8CD3_9BDB_8475_6893_840C_72DB),
  (0x50DD, 0x7577_8568_783A_847A_5F10_831C_6813_6E1A_9DAF_51F9_7980_4E99),
  (0x50E9, 0x5EE3_908A_80AF_59A8_77DB_8D74_8A1F_673D_533F_8A0A_5618_6756),
  (0x50F5, 0x53D9_4F10_7409_5A41_4FF8_79B0_9838_8E2A_9D60_8F44),
  (0x5141, 0x65A5_75BE_906D_867B_60BC_51B6_5937_7D2F_916C_69AE_7CE0_792A),
  (0x514D, 0x5D14_64C1_58EC_589C_8D66_66D9_61F2_912D_6E58_9435_965B_7272),
  (0x5159, 0x5F6A_5E9A_8F1B_5B95_5C39_9013_834F_7CCE_620A_90ED_691B_6E15),
  (0x5165, 0x65DB_66FE_4E9F_55AA_7A83_83E9_8B83_846D_83F0_7F50_918D_9190),
  (0x5171, 0x758E_95A5_81E7_75E2_61A9_8A50_95B2_53A8_59F6_9813_7891_7C17),
  (0x517D, 0x6B3A_57E0_620E_83D6_8AD2_75D4_927E_59DC_5289_9087_6FFE_7473),
  (0x5189, 0x5C09_9D6C_84FC_7CDF_7BAD_8A6E_594E_56A2_819A_7947_6636_53E1),
  (0x5195, 0x7887_58CC_9397_6E13_5256_828B_9E9F_9583_658C_9E93_7345_6E26),
  (0x51A1, 0x9D07_5983_7DAC_96C1_61BE_6762_9ECE_90A8_9187_9F0E_7C38_51F1),
  (0x51AD, 0x8599_524C_540E_7901_655E_6668_5CE1_7566_76C8_8679_531D_5506),
  (0x51B9, 0x7926_8912_77EF_7CC0_570B_515C_7E8A_535C_8A60_65A7_8766_5766),
  (0x51C5, 0x6AE8_87FB_5E16_7AEA_8D73_771E_737A_66E0_9410_816B_7B08_91FC),
  (0x51D1, 0x5737_6FE4_856A_7E55_9957_87BA_694A_818F_5EFF_891C_72D0_9846),
  (0x51DD, 0x9EDB_8D99_5DD6_62B9_64AB_4F76_613F_68AF_5F14_800C_92F8_7BC1),
  (0x51E9, 0x52FE_664F_9177_51F6_97A0_839E_647A_9C3A_67F5_7C4F_685F_9B6F),
  (0x51F5, 0x9F4B_7FFB_9348_4FF6_9E92_9197_96DB_5BE6_6CCC_7CFE),
  (0x5241, 0x9453_6822_66B9_5BD4_98F4_8AE6_8154_7827_74BD_6ED3_9288_5A20),
  (0x524D, 0x5B8B_86F8_760D_865C_6641_91C9_5589_7A4E_59E5_6042_932B_5B5A),
  (0x5259, 0x849C_5C91_96CD_62D9_675C_6787_5E7D_8650_9EB4_5CB1_80CE_7A00),
  (0x5265, 0x8ABC_5700_8096_7D72_9211_8098_907C_7761_8737_9075_817A_7C3E),
  (0x5271, 0x6EA2_965E_7E90_72D7_58FD_60B3_9786_7E88_587E_6E20_84DC_6961),
  (0x527D, 0x77AD_5197_652A_6777_5DCD_6101_932E_5954_6367_798D_7AFF_80D6),
  (0x5289, 0x58B3_6168_6AC3_7483_9B92_660A_642D_5118_6763_809B_9C10_4FC9),
  (0x5295, 0x6953_7A1C_52FF_6055_768E_817F_5642_5F6D_7194_70BB_7436_8000),
  (0x52A1, 0x874B_55DA_7435_7690_96EB_66DD_751C_633D_6EC9_7C64_7CA5_6D35),
  (0x52AD, 0x935C_7027_5E25_701D_54BD_611A_6973_6C6A_559A_6D19_96CC_5BE1),
  (0x52B9, 0x59FB_697C_914C_7709_8500_7A46_7872_92E4_8CED_7CFA_9D1B_814E),
  (0x52C5, 0x9AC4_68A0_6DCB_5918_83B1_5629_9B41_6897_70B3_9771_9419_67A2),
  (0x52D1, 0x6802_7895_68A7_50D6_80B1_5EF8_82D4_797A_67CA_7E4D_69CD_51C4),
  (0x52DD, 0x723D_6829_99B3_5F3C_8F61_682B_6155_6591_8FB1_7E1B_9798_9952),
  (0x52E9, 0x8877_5B2C_6631_4FA0_6939_6AFB_5BB5_7AC8_5026_5944_9059_7B25),
  (0x52F5, 0x7B4F_8E74_8543_5858_8B0E_5039_8654_97F6_7569_72F8),
  (0x5341, 0x4EF7_9D89_5016_51CC_62CC_91C6_8755_649A_88F4_91E6_6854_695A),
  (0x534D, 0x6C40_7B6C_6741_77D7_8823_5384_8EAF_7280_8C6B_788D_7165_8207),
  (0x5359, 0x68B1_8D04_9077_701E_8FE6_810A_81BF_89DC_68B3_6ADF_92EA_95C7),
  (0x5365, 0x7957_7A20_53A9_8E5F_786F_79B9_5F27_5ED6_6853_93AC_919C_691A),
  (0x5371, 0x5806_64B0_7E4B_7D8F_68F2_6EA5_82DB_9192_5243_8EB0_9081_721B),
  (0x537D, 0x7DCB_7656_59AC_6FE0_8B28_80A2_5544_6070_5F4A_68C8_633A_9438),
  (0x5389, 0x9B4F_81E5_6A17_70DD_69A7_614C_920E_9310_9BAD_52D7_925E_92F9),
  (0x5395, 0x5993_7696_66FB_5769_73CA_7678_6A1F_7E9C_9811_8CD1_5840_6349),
  (0x53A1, 0x871C_62D0_60B4_6B89_86EE_5764_581D_8549_7235_7652_983B_8237),
  (0x53AD, 0x5351_5C24_59BE_5815_901D_69B4_8346_9EA9_976B_8086_53AD_6068),
  (0x53B9, 0x4FAE_76C3_6A05_689B_937E_99D5_91C7_5C16_585E_61A7_9699_4FDF),
  (0x53C5, 0x8278_9C52_5F45_6108_7C8D_806F_5DF7_8D6B_57B0_98E2_5703_79BF),
  (0x53D1, 0x5996_7941_540A_83DF_9C39_52D2_6BD8_86CB_4EC0_9A28_5366_8006),
  (0x53DD, 0x7337_6492_8FED_5AC9_5420_537F_4FAF_807E_543B_7515_7B18_8749),
  (0x53E9, 0x54B3_704C_8997_6CAB_85FA_7114_696E_9328_745A_59D1_6E5B_617E),
  (0x53F5, 0x53E2_8317_76E7_848B_85AF_6925_5C60_7259_75D5_8B90),
  (0x5441, 0x6E07_82AD_5C4F_7BED_9784_6F70_764C_88B7_92D2_4F36_5EFE_9061),
  (0x544D, 0x88E1_8471_711A_6D1B_80B4_74E2_7433_5A7F_905C_980C_5319_906E),
  (0x5459, 0x6BB4_85AA_7897_7AFA_6AAE_8910_958F_620C_4F3D_4F7C_79BE_9D0E),
  (0x5465, 0x4ED4_57A2_51A5_6900_6089_707C_7AE3_8956_93A7_9C2D_5112_52FA),
  (0x5471, 0x7CCA_60F9_7078_81C6_559D_6991_96C9_553E_805A_8304_8332_54FA),
  (0x547D, 0x565B_8FBF_5634_6760_525D_840E_5E5F_7B65_9035_8387_6B4E_58BE),
  (0x5489, 0x6309_727D_97AD_69D0_546A_984E_632B_714E_8557_7CDE_6372_68F9),
  (0x5495, 0x7511_8602_6EBA_5A3C_7A84_851A_95A4_59D0_60DA_51EA_5A29_7169),
  (0x54A1, 0x6F15_696B_63BB_75E9_4E4E_7DBB_6934_8521_8FFA_9354_9C3B_5F17),
  (0x54AD, 0x5ED3_8258_895F_82E7_52C3_5C51_83AB_7826_79E1_7FF0_626E_60F0),
  (0x54B9, 0x5CA8_6F97_71A8_9909_5132_5E37_5F04_637B_6753_68D7_6652_9CF6),
  (0x54C5, 0x88B0_52AB_4FC4_4E3C_67B3_7BAA_7F4D_8A23_63B4_71E6_65A4_6F09),
  (0x54D1, 0x853D_5072_7DBA_5516_7B04_72FD_6CD3_8422_621F_50AD_8235_8718),
  (0x54DD, 0x5919_6028_677C_6F23_75B9_695C_520E_8018_8B01_71ED_5713_660F),
  (0x54E9, 0x83EB_7164_7D9B_5617_7D7D_8F4D_9318_8569_5D17_678C_67DE_87C7),
  (0x54F5, 0x79AE_5835_8404_9041_7FD4_6E8C_8A63_9D08_670F_939A),
  (0x5541, 0x63AC_602F_64E2_608D_96B7_6357_8461_914B_75D8_60E7_9913_9C57),
  (0x554D, 0x5984_6DEB_5E96_6D9C_9BF0_58BB_7977_60B6_633F_5BF5_9812_558B),
  (0x5559, 0x82D3_5147_6190_7953_79BD_6C5D_9EB5_9C48_8DA8_5EE0_7D43_5EFC),
  (0x5565, 0x854E_8CE4_5AE1_54E8_5023_52BE_7DEC_8511_6666_6C3E_724C_8ADC),
  (0x5571, 0x9C0D_77A5_8B02_8D05_6F11_9834_97FB_50FB_7F75_5A03_8513_4FB6),
  (0x557D, 0x634C_9D61_808B_5294_65A1_567A_5957_8D0B_6A35_6AD3_70F9_865E),
  (0x5589, 0x6FB1_51E7_7FEB_59EA_5E87_6B6A_754F_717D_914E_7D2C_8C79_6062),
  (0x5595, 0x621A_7FA8_5F1B_6C8C_86FE_7562_7B86_9AB8_6627_7ABA_844E_6F81),
  (0x55A1, 0x8B2C_86A4_6FEB_7B8B_7F77_8F2F_8E44_7E23_4E4D_79A6_8AFA_903C),
  (0x55AD, 0x50D1_9ECD_5EDF_758F_631F_53DB_9910_826E_62F7_68FA_725D_803D),
  (0x55B9, 0x58D5_5C4D_86D9_540B_8805_92F2_9237_5C61_985A_86E4_966A_7262),
  (0x55C5, 0x6955_6CD7_6994_9C2F_77E7_68C9_8DE8_6D6C_67C1_9BAA_619A_63A9),
  (0x55D1, 0x7015_9306_934D_6A61_6258_5283_7525_5687_6C83_6834_649E_4E9B),
  (0x55DD, 0x7252_59E6_8FC2_5FBD_6DD8_85F7_8A51_9817_99C1_63A0_7C81_5B30),
  (0x55E9, 0x8139_5403_7E82_8106_532A_6A8E_7F6B_54E9_5678_8AB9_6715_5BD3),
  (0x55F5, 0x6478_64FE_6B1D_8CC2_51CB_7E8F),
  (0x5641, 0x5F0C_4E10_4E15_4E28_4E2A_4E31_4E36_4E3F_4E42_4E56_4E58_4E62),
  (0x564D, 0x4E82_4E85_4E8A_4E8E_5F0D_4E9E_4EA0_4EA2_4EB0_4EB3_4EB6_4ECE),
  (0x5659, 0x4ECD_4EC4_4EC6_4EC2_4EE1_4ED7_4EDE_4EED_4EDF_4EFC_4F09_4F1C),
  (0x5665, 0x4F00_4F03_4F5A_4F30_4F5D_4F39_4F57_4F47_4F5E_4F56_4F5B_4F92),
  (0x5671, 0x4F8A_4F88_4F8F_4F9A_4FAD_4F98_4F7B_4FAB_4F69_4F70_4F94_4F6F),
  (0x567D, 0x4F86_4F96_4FD4_4FCE_4FD8_4FDB_4FD1_4FDA_4FD0_4FCD_4FE4_4FE5),
  (0x5689, 0x501A_5040_5028_5014_502A_5025_5005_5021_5022_5029_502C_4FFF),
  (0x5695, 0x4FFE_4FEF_5011_501E_5006_5043_5047_5055_5050_5048_505A_5056),
  (0x56A1, 0x500F_5046_5070_5042_506C_5078_5080_5094_509A_5085_50B4_6703),
  (0x56AD, 0x50B2_50C9_50CA_50B3_50C2_50F4_50DE_50E5_50D8_50ED_50E3_50EE),
  (0x56B9, 0x50F9_50F5_5109_5101_5102_511A_5115_5114_5116_5121_513A_5137),
  (0x56C5, 0x513C_513B_513F_5140_514A_514C_5152_5154_5162_5164_5169_516A),
  (0x56D1, 0x516E_5180_5182_56D8_518C_5189_518F_5191_5193_5195_5196_519D),
  (0x56DD, 0x51A4_51A6_51A2_51A9_51AA_51AB_51B3_51B1_51B2_51B0_51B5_51BE),
  (0x56E9, 0x51BD_51C5_51C9_51DB_51E0_51E9_51EC_51ED_51F0_51F5_51FE_5204),
  (0x56F5, 0x520B_5214_5215_5227_522A_522E_5233_5239_5244_524B),
  (0x5741, 0x524F_525E_5254_5271_526A_5273_5274_5269_527F_527D_528D_5288),
  (0x574D, 0x5292_5291_529C_52A6_52AC_52AD_52BC_52B5_52C1_52C0_52CD_52DB),
  (0x5759, 0x52DE_52E3_52E6_52E0_52F3_52F5_52F8_52F9_5300_5306_5307_5308),
  (0x5765, 0x7538_530D_5310_530F_5315_531A_5324_5323_532F_5331_5333_5338),
  (0x5771, 0x5340_5345_5346_5349_4E17_534D_51D6_8209_535E_5369_536E_5372),
  (0x577D, 0x5377_537B_5382_5393_5396_53A0_53A6_53A5_53AE_53B0_53B2_53B6),
  (0x5789, 0x53C3_7C12_53DD_53DF_66FC_FA0E_71EE_53EE_53E8_53ED_53FA_5401),
  (0x5795, 0x543D_5440_542C_542D_543C_542E_5436_5429_541D_544E_548F_5475),
  (0x57A1, 0x548E_545F_5471_5477_5470_5492_547B_5480_549C_5476_5484_5490),
  (0x57AD, 0x5486_548A_54C7_54BC_54AF_54A2_54B8_54A5_54AC_54C4_54D8_54C8),
  (0x57B9, 0x54A8_54AB_54C2_54A4_54A9_54BE_54E5_54FF_54E6_550F_5514_54FD),
  (0x57C5, 0x54EE_54ED_54E2_5539_5540_5563_554C_552E_555C_5545_5556_5557),
  (0x57D1, 0x5538_5533_555D_5599_5580_558A_559F_557B_557E_5598_559E_55AE),
  (0x57DD, 0x557C_5586_5583_55A9_5587_55A8_55C5_55DF_55C4_55DC_55E4_55D4),
  (0x57E9, 0x55F9_5614_55F7_5616_55FE_55FD_561B_564E_5650_5636_5632_5638),
  (0x57F5, 0x566B_5664_5686_562F_566C_566A_71DF_5694_568F_5680),
  (0x5841, 0x568A_56A0_56A5_56AE_56B6_56B4_56C8_56C2_56BC_56C1_56C3_56C0),
  (0x584D, 0x56CE_56D3_56D1_56D7_56EE_56F9_56FF_5704_5709_5708_570D_55C7),
  (0x5859, 0x5718_5716_571C_5726_5738_574E_573B_5759_5740_574F_5765_5788),
  (0x5865, 0x5761_577F_5789_5793_57A0_57A4_57B3_57AC_57AA_57C3_57C6_57C8),
  (0x5871, 0x57C0_57D4_57C7_57D2_57D3_57D6_FA0F_580A_57E3_580B_5819_5821),
  (0x587D, 0x584B_5862_6BC0_583D_5852_FA10_5870_5879_5885_5872_589F_58AB),
  (0x5889, 0x58B8_589E_58AE_58B2_58B9_58BA_58C5_58D3_58D1_58D7_58D9_58D8),
  (0x5895, 0x58DE_58DC_58DF_58E4_58E5_58EF_58F7_58F9_58FB_58FC_5902_590A),
  (0x58A1, 0x590B_5910_591B_68A6_5925_592C_592D_5932_5938_593E_5955_5950),
  (0x58AD, 0x5953_595A_5958_595B_595D_5963_5962_5960_5967_596C_5969_5978),
  (0x58B9, 0x5981_598D_599B_599D_59A3_59A4_59B2_59BA_59C6_59E8_59D9_59DA),
  (0x58C5, 0x5A25_5A1F_5A11_5A1C_5A1A_5A09_5A40_5A6C_5A49_5A35_5A36_5A62),
  (0x58D1, 0x5A6A_5A9A_5ABC_5ABE_5AD0_5ACB_5AC2_5ABD_5AE3_5AD7_5AE6_5AE9),
  (0x58DD, 0x5AD6_5AFA_5AFB_5B0C_5B0B_5B16_5B32_5B2A_5B36_5B3E_5B43_5B45),
  (0x58E9, 0x5B40_5B51_5B55_5B56_6588_5B5B_5B65_5B69_5B70_5B73_5B75_5B78),
  (0x58F5, 0x5B7A_5B80_5B83_5BA6_5BB8_5BC3_5BC7_5BC0_5BC9_752F),
  (0x5941, 0x5BD0_5BD8_5BDE_5BEC_5BE4_5BE2_5BE5_5BEB_5BF0_5BF3_5BF6_5C05),
  (0x594D, 0x5C07_5C08_5C0D_5C13_5C1E_5C20_5C22_5C28_5C38_5C41_5C46_5C4E),
  (0x5959, 0x5C53_5C50_5B71_5C6C_5C6E_5C76_5C79_5C8C_5C94_5CBE_5CAB_5CBB),
  (0x5965, 0x5CB6_5CB7_5CA6_5CBA_5CC5_5CBC_5CC7_5CD9_5CE9_5CFD_5CFA_5CF5),
  (0x5971, 0x5CED_5CEA_5D0B_5D15_5D1F_5D1B_5D11_5D27_5D22_5D1A_5D19_5D18),
  (0x597D, 0x5D4C_5D52_5D53_FA11_5D5C_5D4E_5D4B_5D42_5D6C_5D73_5D6D_5D76),
  (0x5989, 0x5D87_5D84_5D82_5D8C_5DA2_5D9D_5D90_5DAC_5DAE_5DB7_5DB8_5DBC),
  (0x5995, 0x5DB9_5DC9_5DD0_5DD3_5DD2_5DDB_5DEB_5DF5_5E0B_5E1A_5E19_5E11),
  (0x59A1, 0x5E1B_5E36_5E44_5E43_5E40_5E47_5E4E_5E57_5E54_5E62_5E64_5E75),
  (0x59AD, 0x5E76_5E7A_5E7F_5EA0_5EC1_5EC2_5EC8_5ED0_5ECF_5EDD_5EDA_5EDB),
  (0x59B9, 0x5EE2_5EE1_5EE8_5EE9_5EEC_5EF0_5EF1_5EF3_5EF4_5F03_5F09_5F0B),
  (0x59C5, 0x5F11_5F16_5F21_5F29_5F2D_5F2F_5F34_5F38_5F41_5F48_5F4C_5F4E),
  (0x59D1, 0x5F51_5F56_5F57_5F59_5F5C_5F5D_5F61_5F67_5F73_5F77_5F83_5F82),
  (0x59DD, 0x5F7F_5F8A_5F88_5F87_5F91_5F99_5F9E_5F98_5FA0_5FA8_5FAD_5FB7),
  (0x59E9, 0x5FBC_5FD6_5FFB_5FE4_5FF8_5FF1_5FF0_5FDD_5FDE_5FFF_6021_6019),
  (0x59F5, 0x6010_6029_600E_6031_601B_6015_602B_6026_600F_603A),
  (0x5A41, 0x605A_6041_6060_605D_606A_6077_605F_604A_6046_604D_6063_6043),
  (0x5A4D, 0x6064_606C_606B_6059_6085_6081_6083_609A_6084_609B_608A_6096),
  (0x5A59, 0x6097_6092_60A7_608B_60E1_60B8_60DE_60E0_60D3_60BD_60C6_60B5),
  (0x5A65, 0x60D5_60D8_6120_60F2_6115_6106_60F6_60F7_6100_60F4_60FA_6103),
  (0x5A71, 0x6121_60FB_60F1_610D_610E_6111_6147_614D_6137_6128_6127_613E),
  (0x5A7D, 0x614A_6130_613C_612C_6134_6165_615D_613D_6142_6144_6173_6187),
  (0x5A89, 0x6177_6158_6159_615A_616B_6174_616F_6171_615F_6153_6175_6198),
  (0x5A95, 0x6199_6196_61AC_6194_618A_6191_61AB_61AE_61CC_61CA_61C9_61C8),
  (0x5AA1, 0x61C3_61C6_61BA_61CB_7F79_61CD_61E6_61E3_61F4_61F7_61F6_61FD),
  (0x5AAD, 0x61FA_61FF_61FC_61FE_6200_6208_6209_620D_6213_6214_621B_621E),
  (0x5AB9, 0x6221_622A_622E_6230_6232_6233_6241_624E_625E_6263_625B_6260),
  (0x5AC5, 0x6268_627C_6282_6289_6292_627E_6293_6296_6283_6294_62D7_62D1),
  (0x5AD1, 0x62BB_62CF_62AC_62C6_62C8_62DC_62D4_62CA_62C2_62A6_62C7_629B),
  (0x5ADD, 0x62C9_630C_62EE_62F1_6327_6302_6308_62EF_62F5_62FF_6350_634D),
  (0x5AE9, 0x633E_634F_6396_638E_6380_63AB_6376_63A3_638F_6389_639F_636B),
  (0x5AF5, 0x6369_63B5_63BE_63E9_63C0_63C6_63F5_63E3_63C9_63D2),
  (0x5B41, 0x63F6_63C4_6434_6406_6413_6426_6436_641C_6417_6428_640F_6416),
  (0x5B4D, 0x644E_6467_646F_6460_6476_64B9_649D_64CE_6495_64BB_6493_64A5),
  (0x5B59, 0x64A9_6488_64BC_64DA_64D2_64C5_64C7_64D4_64D8_64C2_64F1_64E7),
  (0x5B65, 0x64E0_64E1_64E3_64EF_64F4_64F6_64F2_64FA_6500_64FD_6518_651C),
  (0x5B71, 0x651D_6505_6524_6523_652B_652C_6534_6535_6537_6536_6538_754B),
  (0x5B7D, 0x6548_654E_6556_654D_6558_6555_655D_6572_6578_6582_6583_8B8A),
  (0x5B89, 0x659B_659F_65AB_65B7_65C3_65C6_65C1_65C4_65CC_65D2_65D9_65E1),
  (0x5B95, 0x65E0_65F1_6600_6615_6602_6772_6603_65FB_6609_663F_6635_662E),
  (0x5BA1, 0x661E_6634_661C_6624_6644_6649_6665_6657_665E_6664_6659_6662),
  (0x5BAD, 0x665D_FA12_6673_6670_6683_6688_6684_6699_6698_66A0_669D_66B2),
  (0x5BB9, 0x66C4_66C1_66BF_66C9_66BE_66BC_66B8_66D6_66DA_66E6_66E9_66F0),
  (0x5BC5, 0x66F5_66F7_66FA_670E_F929_6716_671E_7E22_6726_6727_9738_672E),
  (0x5BD1, 0x673F_6736_6737_6738_6746_675E_6759_6766_6764_6789_6785_6770),
  (0x5BDD, 0x67A9_676A_678B_6773_67A6_67A1_67BB_67B7_67EF_67B4_67EC_67E9),
  (0x5BE9, 0x67B8_67E7_67E4_6852_67DD_67E2_67EE_67C0_67CE_67B9_6801_67C6),
  (0x5BF5, 0x681E_6846_684D_6840_6844_6832_684E_6863_6859_688D),
  (0x5C41, 0x6877_687F_689F_687E_688F_68AD_6894_6883_68BC_68B9_6874_68B5),
  (0x5C4D, 0x68BA_690F_6901_68CA_6908_68D8_6926_68E1_690C_68CD_68D4_68E7),
  (0x5C59, 0x68D5_6912_68EF_6904_68E3_68E0_68CF_68C6_6922_692A_6921_6923),
  (0x5C65, 0x6928_FA13_6979_6977_6936_6978_6954_696A_6974_6968_693D_6959),
  (0x5C71, 0x6930_695E_695D_697E_6981_69B2_69BF_FA14_6998_69C1_69D3_69BE),
  (0x5C7D, 0x69CE_5BE8_69CA_69B1_69DD_69BB_69C3_69A0_699C_6995_69DE_6A2E),
  (0x5C89, 0x69E8_6A02_6A1B_69FF_69F9_69F2_69E7_69E2_6A1E_69ED_6A14_69EB),
  (0x5C95, 0x6A0A_6A22_6A12_6A23_6A13_6A30_6A6B_6A44_6A0C_6AA0_6A36_6A78),
  (0x5CA1, 0x6A47_6A62_6A59_6A66_6A48_6A46_6A38_6A72_6A73_6A90_6A8D_6A84),
  (0x5CAD, 0x6AA2_6AA3_6A7E_6A97_6AAC_6AAA_6ABB_6AC2_6AB8_6AB3_6AC1_6ADE),
  (0x5CB9, 0x6AE2_6AD1_6ADA_6AE4_8616_8617_6AEA_6B05_6B0A_6AFA_6B12_6B16),
  (0x5CC5, 0x6B1F_6B38_6B37_6B39_76DC_98EE_6B47_6B43_6B49_6B50_6B59_6B54),
  (0x5CD1, 0x6B5B_6B5F_6B61_6B78_6B79_6B7F_6B80_6B84_6B83_6B8D_6B98_6B95),
  (0x5CDD, 0x6B9E_6BA4_6BAA_6BAB_6BAF_6BB1_6BB2_6BB3_6BB7_6BBC_6BC6_6BCB),
  (0x5CE9, 0x6BD3_6BD6_6BDF_6BEC_6BEB_6BF3_6BEF_6C08_6C13_6C14_6C1B_6C24),
  (0x5CF5, 0x6C23_6C3F_6C5E_6C55_6C5C_6C62_6C82_6C8D_6C86_6C6F),
  (0x5D41, 0x6C9A_6C81_6C9B_6C7E_6C68_6C73_6C92_6C90_6CC4_6CF1_6CBD_6CC5),
  (0x5D4D, 0x6CAE_6CDA_6CDD_6CB1_6CBE_6CBA_6CDB_6CEF_6CD9_6CEA_6D1F_6D04),
  (0x5D59, 0x6D36_6D2B_6D3D_6D33_6D12_6D0C_6D63_6D87_6D93_6D6F_6D64_6D5A),
  (0x5D65, 0x6D79_6D59_6D8E_6D95_6D9B_6D85_6D96_6DF9_6E0A_6E2E_6DB5_6DE6),
  (0x5D71, 0x6DC7_6DAC_6DB8_6DCF_6DC6_6DEC_6DDE_6DCC_6DE8_6DF8_6DD2_6DC5),
  (0x5D7D, 0x6DFA_6DD9_6DF2_6DFC_6DE4_6DD5_6DEA_6DEE_6E2D_6E6E_6E19_6E72),
  (0x5D89, 0x6E5F_6E39_6E3E_6E23_6E6B_6E5C_6E2B_6E76_6E4D_6E1F_6E27_6E43),
  (0x5D95, 0x6E3C_6E3A_6E4E_6E24_6E1D_6E38_6E82_6EAA_6E98_6EB7_6EBD_6EAF),
  (0x5DA1, 0x6EC4_6EB2_6ED4_6ED5_6E8F_6EBF_6EC2_6E9F_6F41_6F45_6EEC_6EF8),
  (0x5DAD, 0x6EFE_6F3F_6EF2_6F31_6EEF_6F32_6ECC_6EFF_6F3E_6F13_6EF7_6F86),
  (0x5DB9, 0x6F7A_6F78_6F80_6F6F_6F5B_6F6D_6F74_6F82_6F88_6F7C_6F58_6FC6),
  (0x5DC5, 0x6F8E_6F91_6F66_6FB3_6FA3_6FB5_6FA1_6FB9_6FDB_6FAA_6FC2_6FDF),
  (0x5DD1, 0x6FD5_6FEC_6FD8_6FD4_6FF5_6FEE_7005_7007_7009_700B_6FFA_7011),
  (0x5DDD, 0x7001_700F_701B_701A_701F_6FF3_7028_7018_7030_703E_7032_7051),
  (0x5DE9, 0x7063_7085_7099_70AF_70AB_70AC_70B8_70AE_70DF_70CB_70D9_7109),
  (0x5DF5, 0x710F_7104_70F1_70FD_711C_7119_715C_7146_7147_7166),
  (0x5E41, 0x7162_714C_7156_716C_7188_718F_7184_7195_FA15_71AC_71C1_71B9),
  (0x5E4D, 0x71BE_71D2_71E7_71C9_71D4_71D7_71CE_71F5_71E0_71EC_71FB_71FC),
  (0x5E59, 0x71F9_71FE_71FF_720D_7210_7228_722D_722C_7230_7232_723B_723C),
  (0x5E65, 0x723F_7240_7246_724B_7258_7274_727E_7281_7287_7282_7292_7296),
  (0x5E71, 0x72A2_72A7_72B1_72B2_72BE_72C3_72C6_72C4_72B9_72CE_72D2_72E2),
  (0x5E7D, 0x72E0_72E1_72F9_72F7_7317_730A_731C_7316_731D_7324_7334_7329),
  (0x5E89, 0x732F_FA16_7325_733E_734F_734E_7357_9ED8_736A_7368_7370_7377),
  (0x5E95, 0x7378_7375_737B_73C8_73BD_73B3_73CE_73BB_73C0_73C9_73D6_73E5),
  (0x5EA1, 0x73E3_73D2_73EE_73F1_73DE_73F8_7407_73F5_7405_7426_742A_7425),
  (0x5EAD, 0x7429_742E_7432_743A_7455_743F_745F_7459_7441_745C_7469_7470),
  (0x5EB9, 0x7463_746A_7464_7462_7489_746F_747E_749F_749E_74A2_74A7_74CA),
  (0x5EC5, 0x74CF_74D4_74E0_74E3_74E7_74E9_74EE_74F0_74F2_74F1_74F7_74F8),
  (0x5ED1, 0x7501_7504_7503_7505_750D_750C_750E_7513_751E_7526_752C_753C),
  (0x5EDD, 0x7544_754D_754A_7549_7546_755B_755A_7564_7567_756B_756F_7574),
  (0x5EE9, 0x756D_7578_7576_7582_7586_7587_758A_7589_7594_759A_759D_75A5),
  (0x5EF5, 0x75A3_75C2_75B3_75C3_75B5_75BD_75B8_75BC_75B1_75CD),
  (0x5F41, 0x75CA_75D2_75D9_75E3_75DE_75FE_75FF_75FC_7601_75F0_75FA_75F2),
  (0x5F4D, 0x75F3_760B_7609_761F_7627_7620_7621_7622_7624_7634_7630_763B),
  (0x5F59, 0x7647_7648_7658_7646_765C_7661_7662_7668_7669_7667_766A_766C),
  (0x5F65, 0x7670_7672_7676_767C_7682_7680_7683_7688_768B_7699_769A_769C),
  (0x5F71, 0x769E_769B_76A6_76B0_76B4_76B8_76B9_76BA_76C2_FA17_76CD_76D6),
  (0x5F7D, 0x76D2_76DE_76E1_76E5_76EA_862F_76FB_7708_7707_7704_7724_7729),
  (0x5F89, 0x7725_7726_771B_7737_7738_7746_7747_775A_7768_776B_775B_7765),
  (0x5F95, 0x777F_777E_7779_778E_778B_7791_77A0_779E_77B0_77B6_77B9_77BF),
  (0x5FA1, 0x77BC_77BD_77BB_77C7_77CD_77DA_77DC_77E3_77EE_52AF_77FC_780C),
  (0x5FAD, 0x7812_7821_783F_7820_7845_784E_7864_7874_788E_787A_7886_789A),
  (0x5FB9, 0x787C_788C_78A3_78B5_78AA_78AF_78D1_78C6_78CB_78D4_78BE_78BC),
  (0x5FC5, 0x78C5_78CA_78EC_78E7_78DA_78FD_78F4_7907_7911_7919_792C_792B),
  (0x5FD1, 0x7930_FA18_7940_7960_FA19_795F_795A_7955_FA1A_797F_798A_7994),
  (0x5FDD, 0xFA1B_799D_799B_79AA_79B3_79BA_79C9_79D5_79E7_79EC_79E3_7A08),
  (0x5FE9, 0x7A0D_7A18_7A19_7A1F_7A31_7A3E_7A37_7A3B_7A43_7A57_7A49_7A62),
  (0x5FF5, 0x7A61_7A69_9F9D_7A70_7A79_7A7D_7A88_7A95_7A98_7A96),
  (0x6041, 0x7A97_7AA9_7AB0_7AB6_9083_7AC3_7ABF_7AC5_7AC4_7AC7_7ACA_7ACD),
  (0x604D, 0x7ACF_7AD2_7AD1_7AD5_7AD3_7AD9_7ADA_7ADD_7AE1_7AE2_7AE6_7AE7),
  (0x6059, 0xFA1C_7AEB_7AED_7AF0_7AF8_7B02_7B0F_7B0B_7B0A_7B06_7B33_7B36),
  (0x6065, 0x7B19_7B1E_7B35_7B28_7B50_7B4D_7B4C_7B45_7B5D_7B75_7B7A_7B74),
  (0x6071, 0x7B70_7B71_7B6E_7B9D_7B98_7B9F_7B8D_7B9C_7B9A_7B92_7B8F_7B99),
  (0x607D, 0x7BCF_7BCB_7BCC_7BB4_7BC6_7B9E_7BDD_7BE9_7BE6_7BF7_7BE5_7C14),
  (0x6089, 0x7C00_7C13_7C07_7BF3_7C0D_7BF6_7C23_7C27_7C2A_7C1F_7C37_7C2B),
  (0x6095, 0x7C3D_7C40_7C4C_7C43_7C56_7C50_7C58_7C5F_7C65_7C6C_7C75_7C83),
  (0x60A1, 0x7C90_7CA4_7CA2_7CAB_7CA1_7CAD_7CA8_7CB3_7CB2_7CB1_7CAE_7CB9),
  (0x60AD, 0xFA1D_7CBD_7CC5_7CC2_7CD2_7CE2_7CD8_7CDC_7CEF_7CF2_7CF4_7CF6),
  (0x60B9, 0x7D06_7D02_7D1C_7D15_7D0A_7D45_7D4B_7D2E_7D32_7D3F_7D35_7D48),
  (0x60C5, 0x7D46_7D5C_7D73_7D56_7D4E_7D68_7D6E_7D4F_7D63_7D93_7D89_7D5B),
  (0x60D1, 0x7DAE_7DA3_7DB5_7DB7_7DC7_7DBD_7DAB_7DA2_7DAF_7DA0_7DB8_7D9F),
  (0x60DD, 0x7DB0_7DD5_7DD8_7DDD_7DD6_7DE4_7DDE_7DFB_7E0B_7DF2_7DE1_7DDC),
  (0x60E9, 0x7E05_7E0A_7E21_7E12_7E1F_7E09_7E3A_7E46_7E48_7E31_7E3D_7E35),
  (0x60F5, 0x7E3B_7E39_7E43_7E37_7E32_7E5D_7E56_7E5E_7E52_7E59),
  (0x6141, 0x7E5A_7E67_7E79_7E6A_7E69_7E7C_7E7B_7E7D_8FAE_7E7F_7E83_7E89),
  (0x614D, 0x7E8E_7E8C_7E92_7E93_7E94_7E96_7E9B_7F38_7F3A_7F45_7F47_7F4C),
  (0x6159, 0x7F4E_7F51_7F55_7F54_7F58_7F5F_7F60_7F68_7F67_7F69_7F78_7F82),
  (0x6165, 0x7F86_7F83_7F87_7F88_7F8C_7F94_7F9E_7F9D_7F9A_7FA1_7FA3_7FAF),
  (0x6171, 0x7FAE_7FB2_7FB9_7FB6_7FB8_8B71_FA1E_7FC5_7FC6_7FCA_7FD5_7FE1),
  (0x617D, 0x7FE6_7FE9_7FF3_7FF9_8004_800B_8012_8019_801C_8021_8028_803F),
  (0x6189, 0x803B_804A_8046_8052_8058_805F_8062_8068_8073_8072_8070_8076),
  (0x6195, 0x8079_807D_807F_8084_8085_8093_809A_80AD_5190_80AC_80DB_80E5),
  (0x61A1, 0x80D9_80DD_80C4_80DA_8109_80EF_80F1_811B_8123_812F_814B_8146),
  (0x61AD, 0x813E_8153_8151_80FC_8171_816E_8165_815F_8166_8174_8183_8188),
  (0x61B9, 0x818A_8180_8182_81A0_8195_81A3_8193_81B5_81A4_81A9_81B8_81B0),
  (0x61C5, 0x81C8_81BE_81BD_81C0_81C2_81BA_81C9_81CD_81D1_81D8_81D9_81DA),
  (0x61D1, 0x81DF_81E0_81FA_81FB_81FE_8201_8202_8205_820D_8210_8212_8216),
  (0x61DD, 0x8229_822B_822E_8238_8233_8240_8259_825A_825D_825F_8264_8262),
  (0x61E9, 0x8268_826A_826B_8271_8277_827E_828D_8292_82AB_829F_82BB_82AC),
  (0x61F5, 0x82E1_82E3_82DF_8301_82D2_82F4_82F3_8303_82FB_82F9),
  (0x6241, 0x82DE_8306_82DC_82FA_8309_82D9_8335_8362_8334_8316_8331_8340),
  (0x624D, 0x8339_8350_8345_832F_832B_8318_839A_83AA_839F_83A2_8396_8323),
  (0x6259, 0x838E_8375_837F_838A_837C_83B5_8373_8393_83A0_8385_8389_83A8),
  (0x6265, 0x83F4_8413_83C7_83CE_83F7_83FD_8403_83D8_840B_83C1_8407_83E0),
  (0x6271, 0x83F2_840D_8420_83F6_83BD_83FB_842A_8462_843C_8484_8477_846B),
  (0x627D, 0x8479_8448_846E_8482_8469_8446_846F_8438_8435_84CA_84B9_84BF),
  (0x6289, 0x849F_84B4_84CD_84BB_84DA_84D0_84C1_84AD_84C6_84D6_84A1_84D9),
  (0x6295, 0x84FF_84F4_8517_8518_852C_851F_8515_8514_8506_8553_855A_8540),
  (0x62A1, 0x8559_8563_8558_8548_8541_854A_854B_856B_8555_8580_85A4_8588),
  (0x62AD, 0x8591_858A_85A8_856D_8594_859B_85AE_8587_859C_8577_857E_8590),
  (0x62B9, 0xFA1F_820A_85B0_85C9_85BA_85CF_85B9_85D0_85D5_85DD_85E5_85DC),
  (0x62C5, 0x85F9_860A_8613_860B_85FE_8622_861A_8630_863F_FA20_864D_4E55),
  (0x62D1, 0x8655_865F_8667_8671_8693_86A3_86A9_868B_86AA_868C_86B6_86AF),
  (0x62DD, 0x86C4_86C6_86B0_86C9_86CE_FA21_86AB_86D4_86DE_86E9_86EC_86DF),
  (0x62E9, 0x86DB_8712_8706_8708_8700_8703_86FB_8711_8709_870D_86F9_870A),
  (0x62F5, 0x8734_873F_873B_8725_8729_871A_875F_8778_874C_874E),
  (0x6341, 0x8774_8757_8768_8782_876A_8760_876E_8759_8753_8763_877F_87A2),
  (0x634D, 0x87C6_879F_87AF_87CB_87BD_87C0_87D0_96D6_87AB_87C4_87B3_87D2),
  (0x6359, 0x87BB_87EF_87F2_87E0_880E_8807_880F_8816_880D_87FE_87F6_87F7),
  (0x6365, 0x8811_8815_8822_8821_8827_8831_8836_8839_883B_8842_8844_884D),
  (0x6371, 0x8852_8859_885E_8862_886B_8881_887E_8875_887D_8872_8882_889E),
  (0x637D, 0x8897_8892_88AE_8899_88A2_888D_88A4_88BF_88B5_88B1_88C3_88C4),
  (0x6389, 0x88D4_88D8_88D9_88DD_88F9_8902_88FC_88F5_88E8_88F2_8904_890C),
  (0x6395, 0x892A_891D_890A_8913_891E_8925_892B_8941_893B_8936_8943_8938),
  (0x63A1, 0x894D_894C_8960_895E_8966_896A_8964_896D_896F_8974_8977_897E),
  (0x63AD, 0x8983_8988_898A_8993_8998_89A1_89A9_89A6_89AC_89AF_89B2_89BA),
  (0x63B9, 0x89BF_89BD_89C0_89DA_89DD_89E7_89F4_89F8_8A03_8A16_8A10_8A0C),
  (0x63C5, 0x8A12_8A1B_8A1D_8A25_8A36_8A41_8A37_8A5B_8A52_8A46_8A48_8A7C),
  (0x63D1, 0x8A6D_8A6C_8A62_8A79_8A85_8A82_8A84_8AA8_8AA1_8A91_8AA5_8AA6),
  (0x63DD, 0x8A9A_8AA3_8AA7_8ACC_8ABE_8ACD_8AC2_8ADA_8AF3_8AE7_8AE4_8AF1),
  (0x63E9, 0x8B14_8AE0_8AE2_8AE1_8ADF_FA22_8AF6_8AF7_8ADE_8ADB_8B0C_8B07),
  (0x63F5, 0x8B1A_8B16_8B10_8B17_8B20_8B33_8B41_97AB_8B26_8B2B),
  (0x6441, 0x8B3E_8B4C_8B4F_8B4E_8B53_8B49_8B56_8B5B_8B5A_8B74_8B6B_8B5F),
  (0x644D, 0x8B6C_8B6F_8B7D_8B7F_8B80_8B8C_8B8E_8B99_8B92_8B93_8B96_8B9A),
  (0x6459, 0x8C3A_8C41_8C3F_8C48_8C4C_8C4E_8C50_8C55_8C62_8C6C_8C78_8C7A),
  (0x6465, 0x8C7C_8C82_8C89_8C85_8C8A_8C8D_8C8E_8C98_8C94_621D_8CAD_8CAA),
  (0x6471, 0x8CAE_8CBD_8CB2_8CB3_8CC1_8CB6_8CC8_8CCE_8CCD_8CE3_8CDA_8CF0),
  (0x647D, 0x8CF4_8CFD_8CFA_8CFB_8D07_8D0A_8D0F_8D0D_8D12_8D10_8D13_8D14),
  (0x6489, 0x8D16_8D67_8D6D_8D71_8D76_FA23_8D81_8DC2_8DBE_8DBA_8DCF_8DDA),
  (0x6495, 0x8DD6_8DCC_8DDB_8DCB_8DEA_8DEB_8DDF_8DE3_8DFC_8E08_8DFF_8E09),
  (0x64A1, 0x8E1D_8E1E_8E10_8E1F_8E42_8E35_8E30_8E34_8E4A_8E47_8E49_8E4C),
  (0x64AD, 0x8E50_8E48_8E59_8E64_8E60_8E55_8E63_8E76_8E72_8E87_8E7C_8E81),
  (0x64B9, 0x8E85_8E84_8E8B_8E8A_8E93_8E91_8E94_8E99_8EA1_8EAA_8EB1_8EBE),
  (0x64C5, 0x8EC6_8EC5_8EC8_8ECB_8ECF_8EDB_8EE3_8EFC_8EFB_8EEB_8EFE_8F0A),
  (0x64D1, 0x8F0C_8F05_8F15_8F12_8F13_8F1C_8F19_8F1F_8F26_8F33_8F3B_8F39),
  (0x64DD, 0x8F45_8F42_8F3E_8F49_8F46_8F4C_8F4E_8F57_8F5C_8F62_8F63_8F64),
  (0x64E9, 0x8F9C_8F9F_8FA3_8FA8_8FA7_8FAD_8FAF_8FB7_FA24_8FDA_8FE5_8FE2),
  (0x64F5, 0x8FEF_8FE9_8FF4_9005_8FF9_8FF8_9011_9015_900E_9021),
  (0x6541, 0x900D_901E_9016_900B_9027_9036_9039_904F_FA25_9050_9051_9052),
  (0x654D, 0x9049_903E_9056_9058_905E_9068_9067_906F_9076_96A8_9072_9082),
  (0x6559, 0x907D_9089_9080_908F_6248_90AF_90B1_90B5_90E2_90E4_90DB_90DE),
  (0x6565, 0x9102_FA26_9115_9112_9119_9132_9127_9130_914A_9156_9158_9163),
  (0x6571, 0x9165_9169_9173_9172_918B_9189_9182_91A2_91AB_91AF_91AA_91B5),
  (0x657D, 0x91B4_91BA_91C0_91C1_91CB_91D0_91DA_91DB_91D7_91DE_91D6_91DF),
  (0x6589, 0x91E1_91ED_91F5_91EE_91E4_91F6_91E5_9206_921E_91FF_9210_9214),
  (0x6595, 0x920A_922C_9215_9229_9257_9245_923A_9249_9264_9240_923C_9248),
  (0x65A1, 0x924E_9250_9259_923F_9251_9239_924B_9267_925A_929C_92A7_9277),
  (0x65AD, 0x9278_9296_9293_929B_9295_92E9_92CF_92E7_92D7_92D9_92D0_FA27),
  (0x65B9, 0x92D5_92B9_92B7_92E0_92D3_933A_9335_930F_9325_92FA_9321_9344),
  (0x65C5, 0x92FB_FA28_9319_931E_92FF_9322_931A_931D_9323_9302_933B_9370),
  (0x65D1, 0x9360_937C_936E_9356_9357_93B9_93B0_93A4_93AD_9394_93C8_93D6),
  (0x65DD, 0x93C6_93D7_93E8_93E5_93D8_93C3_93DD_93DE_93D0_93E4_941A_93F8),
  (0x65E9, 0x9414_9413_9421_9403_9407_9436_942B_9431_943A_9441_9452_9445),
  (0x65F5, 0x9444_9448_945B_945A_9460_9462_945E_946A_9475_9470),
  (0x6641, 0x9477_947F_947D_947C_947E_9481_9582_9587_958A_9592_9594_9596),
  (0x664D, 0x9598_9599_95A0_95A8_95A7_95AD_95BC_95BB_95B9_95BE_95CA_6FF6),
  (0x6659, 0x95C3_95CD_95CC_95D5_95D4_95D6_95DC_95E1_95E5_95E2_9621_9628),
  (0x6665, 0x962E_962F_9642_964F_964C_964B_965C_965D_965F_9666_9677_9672),
  (0x6671, 0x966C_968D_968B_F9DC_9698_9695_9697_FA29_969D_96A7_96AA_96B1),
  (0x667D, 0x96B2_96B0_96AF_96B4_96B6_96B8_96B9_96CE_96CB_96D5_96DC_96D9),
  (0x6689, 0x96F9_9704_9706_9708_9719_970D_9713_970E_9711_970F_9716_9724),
  (0x6695, 0x972A_9730_9733_9739_973B_973D_973E_9746_9744_9743_9748_9742),
  (0x66A1, 0x9749_974D_974F_9751_9755_975C_9760_9764_9766_9768_976D_9779),
  (0x66AD, 0x9785_977C_9781_977A_978B_978F_9790_979C_97A8_97A6_97A3_97B3),
  (0x66B9, 0x97B4_97C3_97C6_97C8_97CB_97DC_97ED_97F2_7ADF_97F5_980F_981A),
  (0x66C5, 0x9824_9821_9837_9839_984F_984B_9857_9865_986B_986F_9870_9871),
  (0x66D1, 0x9874_9873_98AA_98AF_98B1_98B6_98C4_98C3_98C6_98DC_98ED_98E9),
  (0x66DD, 0xFA2A_98EB_FA2B_9903_991D_9912_9914_9918_9927_FA2C_9921_991E),
  (0x66E9, 0x9924_9920_992C_992E_993D_993E_9942_9949_9945_9950_994B_9951),
  (0x66F5, 0x994C_9955_9997_9998_999E_99A5_99AD_99AE_99BC_99DF),
  (0x6741, 0x99DB_99DD_99D8_99D1_99ED_99EE_99E2_99F1_99F2_99FB_99F8_9A01),
  (0x674D, 0x9A0F_9A05_9A19_9A2B_9A37_9A40_9A45_9A42_9A43_9A3E_9A55_9A4D),
  (0x6759, 0x9A4E_9A5B_9A57_9A5F_9A62_9A69_9A65_9A64_9A6A_9A6B_9AAD_9AB0),
  (0x6765, 0x9ABC_9AC0_9ACF_9AD3_9AD4_9AD1_9AD9_9ADC_9ADE_9ADF_9AE2_9AE3),
  (0x6771, 0x9AE6_9AEF_9AEB_9AEE_9AF4_9AF1_9AF7_9AFB_9B06_9B18_9B1A_9B1F),
  (0x677D, 0x9B22_9B23_9B25_9B27_9B28_9B29_9B2A_9B2E_9B2F_9B31_9B32_9B3B),
  (0x6789, 0x9B44_9B43_9B4D_9B4E_9B51_9B58_9B75_9B74_9B72_9B93_9B8F_9B83),
  (0x6795, 0x9B91_9B96_9B97_9B9F_9BA0_9BA8_9BB1_9BB4_9BC0_9BCA_9BBB_9BB9),
  (0x67A1, 0x9BC6_9BCF_9BD1_9BD2_9BE3_9BE2_9BE4_9BD4_9BE1_9BF5_9BF1_9BF2),
  (0x67AD, 0x9C04_9C1B_9C15_9C14_9C00_9C09_9C13_9C0C_9C06_9C08_9C12_9C0A),
  (0x67B9, 0x9C2E_9C25_9C24_9C21_9C30_9C47_9C32_9C46_9C3E_9C5A_9C60_9C67),
  (0x67C5, 0x9C76_9C78_9CEB_9CE7_9CEC_9CF0_9D09_9D03_9D06_9D2A_9D26_9D2C),
  (0x67D1, 0x9D23_9D1F_9D15_9D12_9D41_9D3F_9D44_9D3E_9D46_9D48_9D5D_9D5E),
  (0x67DD, 0x9D59_9D51_9D50_9D64_9D72_9D70_9D87_9D6B_9D6F_9D7A_9D9A_9DA4),
  (0x67E9, 0x9DA9_9DAB_9DB2_9DC4_9DC1_9DBB_9DB8_9DBA_9DC6_9DCF_9DC2_FA2D),
  (0x67F5, 0x9DD9_9DD3_9DF8_9DE6_9DED_9DEF_9DFD_9E1A_9E1B_9E19),
  (0x6841, 0x9E1E_9E75_9E79_9E7D_9E81_9E88_9E8B_9E8C_9E95_9E91_9E9D_9EA5),
  (0x684D, 0x9EB8_9EAA_9EAD_9EBC_9EBE_9761_9ECC_9ECF_9ED0_9ED1_9ED4_9EDC),
  (0x6859, 0x9EDE_9EDD_9EE0_9EE5_9EE8_9EEF_9EF4_9EF6_9EF7_9EF9_9EFB_9EFC),
  (0x6865, 0x9EFD_9F07_9F08_76B7_9F15_9F21_9F2C_9F3E_9F4A_9F4E_9F4F_9F52),
  (0x6871, 0x9F54_9F63_9F5F_9F60_9F61_9F66_9F67_9F6C_9F6A_9F77_9F72_9F76),
  (0x687D, 0x9F95_9F9C_9FA0_5C2D_69D9_9065_7476_51DC_7155),
  (0x6941, 0xE000_E001_E002_E003_E004_E005_E006_E007_E008_E009_E00A_E00B),
  (0x694D, 0xE00C_E00D_E00E_E00F_E010_E011_E012_E013_E014_E015_E016_E017),
  (0x6959, 0xE018_E019_E01A_E01B_E01C_E01D_E01E_E01F_E020_E021_E022_E023),
  (0x6965, 0xE024_E025_E026_E027_E028_E029_E02A_E02B_E02C_E02D_E02E_E02F),
  (0x6971, 0xE030_E031_E032_E033_E034_E035_E036_E037_E038_E039_E03A_E03B),
  (0x697D, 0xE03C_E03D_E03E_E03F_E040_E041_E042_E043_E044_E045_E046_E047),
  (0x6989, 0xE048_E049_E04A_E04B_E04C_E04D_E04E_E04F_E050_E051_E052_E053),
  (0x6995, 0xE054_E055_E056_E057_E058_E059_E05A_E05B_E05C_E05D_E05E_E05F),
  (0x69A1, 0xE060_E061_E062_E063_E064_E065_E066_E067_E068_E069_E06A_E06B),
  (0x69AD, 0xE06C_E06D_E06E_E06F_E070_E071_E072_E073_E074_E075_E076_E077),
  (0x69B9, 0xE078_E079_E07A_E07B_E07C_E07D_E07E_E07F_E080_E081_E082_E083),
  (0x69C5, 0xE084_E085_E086_E087_E088_E089_E08A_E08B_E08C_E08D_E08E_E08F),
  (0x69D1, 0xE090_E091_E092_E093_E094_E095_E096_E097_E098_E099_E09A_E09B),
  (0x69DD, 0xE09C_E09D_E09E_E09F_E0A0_E0A1_E0A2_E0A3_E0A4_E0A5_E0A6_E0A7),
  (0x69E9, 0xE0A8_E0A9_E0AA_E0AB_E0AC_E0AD_E0AE_E0AF_E0B0_E0B1_E0B2_E0B3),
  (0x69F5, 0xE0B4_E0B5_E0B6_E0B7_E0B8_E0B9_E0BA_E0BB_E0BC_E0BD),
  (0x6A41, 0xE0BE_E0BF_E0C0_E0C1_E0C2_E0C3_E0C4_E0C5_E0C6_E0C7_E0C8_E0C9),
  (0x6A4D, 0xE0CA_E0CB_E0CC_E0CD_E0CE_E0CF_E0D0_E0D1_E0D2_E0D3_E0D4_E0D5),
  (0x6A59, 0xE0D6_E0D7_E0D8_E0D9_E0DA_E0DB_E0DC_E0DD_E0DE_E0DF_E0E0_E0E1),
  (0x6A65, 0xE0E2_E0E3_E0E4_E0E5_E0E6_E0E7_E0E8_E0E9_E0EA_E0EB_E0EC_E0ED),
  (0x6A71, 0xE0EE_E0EF_E0F0_E0F1_E0F2_E0F3_E0F4_E0F5_E0F6_E0F7_E0F8_E0F9),
  (0x6A7D, 0xE0FA_E0FB_E0FC_E0FD_E0FE_E0FF_E100_E101_E102_E103_E104_E105),
  (0x6A89, 0xE106_E107_E108_E109_E10A_E10B_E10C_E10D_E10E_E10F_E110_E111),
  (0x6A95, 0xE112_E113_E114_E115_E116_E117_E118_E119_E11A_E11B_E11C_E11D),
  (0x6AA1, 0xE11E_E11F_E120_E121_E122_E123_E124_E125_E126_E127_E128_E129),
  (0x6AAD, 0xE12A_E12B_E12C_E12D_E12E_E12F_E130_E131_E132_E133_E134_E135),
  (0x6AB9, 0xE136_E137_E138_E139_E13A_E13B_E13C_E13D_E13E_E13F_E140_E141),
  (0x6AC5, 0xE142_E143_E144_E145_E146_E147_E148_E149_E14A_E14B_E14C_E14D),
  (0x6AD1, 0xE14E_E14F_E150_E151_E152_E153_E154_E155_E156_E157_E158_E159),
  (0x6ADD, 0xE15A_E15B_E15C_E15D_E15E_E15F_E160_E161_E162_E163_E164_E165),
  (0x6AE9, 0xE166_E167_E168_E169_E16A_E16B_E16C_E16D_E16E_E16F_E170_E171),
  (0x6AF5, 0xE172_E173_E174_E175_E176_E177_E178_E179_E17A_E17B),
  (0x6B41, 0xE17C_E17D_E17E_E17F_E180_E181_E182_E183_E184_E185_E186_E187),
  (0x6B4D, 0xE188_E189_E18A_E18B_E18C_E18D_E18E_E18F_E190_E191_E192_E193),
  (0x6B59, 0xE194_E195_E196_E197_E198_E199_E19A_E19B_E19C_E19D_E19E_E19F),
  (0x6B65, 0xE1A0_E1A1_E1A2_E1A3_E1A4_E1A5_E1A6_E1A7_E1A8_E1A9_E1AA_E1AB),
  (0x6B71, 0xE1AC_E1AD_E1AE_E1AF_E1B0_E1B1_E1B2_E1B3_E1B4_E1B5_E1B6_E1B7),
  (0x6B7D, 0xE1B8_E1B9_E1BA_E1BB_E1BC_E1BD_E1BE_E1BF_E1C0_E1C1_E1C2_E1C3),
  (0x6B89, 0xE1C4_E1C5_E1C6_E1C7_E1C8_E1C9_E1CA_E1CB_E1CC_E1CD_E1CE_E1CF),
  (0x6B95, 0xE1D0_E1D1_E1D2_E1D3_E1D4_E1D5_E1D6_E1D7_E1D8_E1D9_E1DA_E1DB),
  (0x6BA1, 0xE1DC_E1DD_E1DE_E1DF_E1E0_E1E1_E1E2_E1E3_E1E4_E1E5_E1E6_E1E7),
  (0x6BAD, 0xE1E8_E1E9_E1EA_E1EB_E1EC_E1ED_E1EE_E1EF_E1F0_E1F1_E1F2_E1F3),
  (0x6BB9, 0xE1F4_E1F5_E1F6_E1F7_E1F8_E1F9_E1FA_E1FB_E1FC_E1FD_E1FE_E1FF),
  (0x6BC5, 0xE200_E201_E202_E203_E204_E205_E206_E207_E208_E209_E20A_E20B),
  (0x6BD1, 0xE20C_E20D_E20E_E20F_E210_E211_E212_E213_E214_E215_E216_E217),
  (0x6BDD, 0xE218_E219_E21A_E21B_E21C_E21D_E21E_E21F_E220_E221_E222_E223),
  (0x6BE9, 0xE224_E225_E226_E227_E228_E229_E22A_E22B_E22C_E22D_E22E_E22F),
  (0x6BF5, 0xE230_E231_E232_E233_E234_E235_E236_E237_E238_E239),
  (0x6C41, 0xE23A_E23B_E23C_E23D_E23E_E23F_E240_E241_E242_E243_E244_E245),
  (0x6C4D, 0xE246_E247_E248_E249_E24A_E24B_E24C_E24D_E24E_E24F_E250_E251),
  (0x6C59, 0xE252_E253_E254_E255_E256_E257_E258_E259_E25A_E25B_E25C_E25D),
  (0x6C65, 0xE25E_E25F_E260_E261_E262_E263_E264_E265_E266_E267_E268_E269),
  (0x6C71, 0xE26A_E26B_E26C_E26D_E26E_E26F_E270_E271_E272_E273_E274_E275),
  (0x6C7D, 0xE276_E277_E278_E279_E27A_E27B_E27C_E27D_E27E_E27F_E280_E281),
  (0x6C89, 0xE282_E283_E284_E285_E286_E287_E288_E289_E28A_E28B_E28C_E28D),
  (0x6C95, 0xE28E_E28F_E290_E291_E292_E293_E294_E295_E296_E297_E298_E299),
  (0x6CA1, 0xE29A_E29B_E29C_E29D_E29E_E29F_E2A0_E2A1_E2A2_E2A3_E2A4_E2A5),
  (0x6CAD, 0xE2A6_E2A7_E2A8_E2A9_E2AA_E2AB_E2AC_E2AD_E2AE_E2AF_E2B0_E2B1),
  (0x6CB9, 0xE2B2_E2B3_E2B4_E2B5_E2B6_E2B7_E2B8_E2B9_E2BA_E2BB_E2BC_E2BD),
  (0x6CC5, 0xE2BE_E2BF_E2C0_E2C1_E2C2_E2C3_E2C4_E2C5_E2C6_E2C7_E2C8_E2C9),
  (0x6CD1, 0xE2CA_E2CB_E2CC_E2CD_E2CE_E2CF_E2D0_E2D1_E2D2_E2D3_E2D4_E2D5),
  (0x6CDD, 0xE2D6_E2D7_E2D8_E2D9_E2DA_E2DB_E2DC_E2DD_E2DE_E2DF_E2E0_E2E1),
  (0x6CE9, 0xE2E2_E2E3_E2E4_E2E5_E2E6_E2E7_E2E8_E2E9_E2EA_E2EB_E2EC_E2ED),
  (0x6CF5, 0xE2EE_E2EF_E2F0_E2F1_E2F2_E2F3_E2F4_E2F5_E2F6_E2F7),
  (0x6D41, 0xE2F8_E2F9_E2FA_E2FB_E2FC_E2FD_E2FE_E2FF_E300_E301_E302_E303),
  (0x6D4D, 0xE304_E305_E306_E307_E308_E309_E30A_E30B_E30C_E30D_E30E_E30F),
  (0x6D59, 0xE310_E311_E312_E313_E314_E315_E316_E317_E318_E319_E31A_E31B),
  (0x6D65, 0xE31C_E31D_E31E_E31F_E320_E321_E322_E323_E324_E325_E326_E327),
  (0x6D71, 0xE328_E329_E32A_E32B_E32C_E32D_E32E_E32F_E330_E331_E332_E333),
  (0x6D7D, 0xE334_E335_E336_E337_E338_E339_E33A_E33B_E33C_E33D_E33E_E33F),
  (0x6D89, 0xE340_E341_E342_E343_E344_E345_E346_E347_E348_E349_E34A_E34B),
  (0x6D95, 0xE34C_E34D_E34E_E34F_E350_E351_E352_E353_E354_E355_E356_E357),
  (0x6DA1, 0xE358_E359_E35A_E35B_E35C_E35D_E35E_E35F_E360_E361_E362_E363),
  (0x6DAD, 0xE364_E365_E366_E367_E368_E369_E36A_E36B_E36C_E36D_E36E_E36F),
  (0x6DB9, 0xE370_E371_E372_E373_E374_E375_E376_E377_E378_E379_E37A_E37B),
  (0x6DC5, 0xE37C_E37D_E37E_E37F_E380_E381_E382_E383_E384_E385_E386_E387),
  (0x6DD1, 0xE388_E389_E38A_E38B_E38C_E38D_E38E_E38F_E390_E391_E392_E393),
  (0x6DDD, 0xE394_E395_E396_E397_E398_E399_E39A_E39B_E39C_E39D_E39E_E39F),
  (0x6DE9, 0xE3A0_E3A1_E3A2_E3A3_E3A4_E3A5_E3A6_E3A7_E3A8_E3A9_E3AA_E3AB),
  (0x6DF5, 0xE3AC_E3AD_E3AE_E3AF_E3B0_E3B1_E3B2_E3B3_E3B4_E3B5),
  (0x6E41, 0xE3B6_E3B7_E3B8_E3B9_E3BA_E3BB_E3BC_E3BD_E3BE_E3BF_E3C0_E3C1),
  (0x6E4D, 0xE3C2_E3C3_E3C4_E3C5_E3C6_E3C7_E3C8_E3C9_E3CA_E3CB_E3CC_E3CD),
  (0x6E59, 0xE3CE_E3CF_E3D0_E3D1_E3D2_E3D3_E3D4_E3D5_E3D6_E3D7_E3D8_E3D9),
  (0x6E65, 0xE3DA_E3DB_E3DC_E3DD_E3DE_E3DF_E3E0_E3E1_E3E2_E3E3_E3E4_E3E5),
  (0x6E71, 0xE3E6_E3E7_E3E8_E3E9_E3EA_E3EB_E3EC_E3ED_E3EE_E3EF_E3F0_E3F1),
  (0x6E7D, 0xE3F2_E3F3_E3F4_E3F5_E3F6_E3F7_E3F8_E3F9_E3FA_E3FB_E3FC_E3FD),
  (0x6E89, 0xE3FE_E3FF_E400_E401_E402_E403_E404_E405_E406_E407_E408_E409),
  (0x6E95, 0xE40A_E40B_E40C_E40D_E40E_E40F_E410_E411_E412_E413_E414_E415),
  (0x6EA1, 0xE416_E417_E418_E419_E41A_E41B_E41C_E41D_E41E_E41F_E420_E421),
  (0x6EAD, 0xE422_E423_E424_E425_E426_E427_E428_E429_E42A_E42B_E42C_E42D),
  (0x6EB9, 0xE42E_E42F_E430_E431_E432_E433_E434_E435_E436_E437_E438_E439),
  (0x6EC5, 0xE43A_E43B_E43C_E43D_E43E_E43F_E440_E441_E442_E443_E444_E445),
  (0x6ED1, 0xE446_E447_E448_E449_E44A_E44B_E44C_E44D_E44E_E44F_E450_E451),
  (0x6EDD, 0xE452_E453_E454_E455_E456_E457_E458_E459_E45A_E45B_E45C_E45D),
  (0x6EE9, 0xE45E_E45F_E460_E461_E462_E463_E464_E465_E466_E467_E468_E469),
  (0x6EF5, 0xE46A_E46B_E46C_E46D_E46E_E46F_E470_E471_E472_E473),
  (0x6F41, 0xE474_E475_E476_E477_E478_E479_E47A_E47B_E47C_E47D_E47E_E47F),
  (0x6F4D, 0xE480_E481_E482_E483_E484_E485_E486_E487_E488_E489_E48A_E48B),
  (0x6F59, 0xE48C_E48D_E48E_E48F_E490_E491_E492_E493_E494_E495_E496_E497),
  (0x6F65, 0xE498_E499_E49A_E49B_E49C_E49D_E49E_E49F_E4A0_E4A1_E4A2_E4A3),
  (0x6F71, 0xE4A4_E4A5_E4A6_E4A7_E4A8_E4A9_E4AA_E4AB_E4AC_E4AD_E4AE_E4AF),
  (0x6F7D, 0xE4B0_E4B1_E4B2_E4B3_E4B4_E4B5_E4B6_E4B7_E4B8_E4B9_E4BA_E4BB),
  (0x6F89, 0xE4BC_E4BD_E4BE_E4BF_E4C0_E4C1_E4C2_E4C3_E4C4_E4C5_E4C6_E4C7),
  (0x6F95, 0xE4C8_E4C9_E4CA_E4CB_E4CC_E4CD_E4CE_E4CF_E4D0_E4D1_E4D2_E4D3),
  (0x6FA1, 0xE4D4_E4D5_E4D6_E4D7_E4D8_E4D9_E4DA_E4DB_E4DC_E4DD_E4DE_E4DF),
  (0x6FAD, 0xE4E0_E4E1_E4E2_E4E3_E4E4_E4E5_E4E6_E4E7_E4E8_E4E9_E4EA_E4EB),
  (0x6FB9, 0xE4EC_E4ED_E4EE_E4EF_E4F0_E4F1_E4F2_E4F3_E4F4_E4F5_E4F6_E4F7),
  (0x6FC5, 0xE4F8_E4F9_E4FA_E4FB_E4FC_E4FD_E4FE_E4FF_E500_E501_E502_E503),
  (0x6FD1, 0xE504_E505_E506_E507_E508_E509_E50A_E50B_E50C_E50D_E50E_E50F),
  (0x6FDD, 0xE510_E511_E512_E513_E514_E515_E516_E517_E518_E519_E51A_E51B),
  (0x6FE9, 0xE51C_E51D_E51E_E51F_E520_E521_E522_E523_E524_E525_E526_E527),
  (0x6FF5, 0xE528_E529_E52A_E52B_E52C_E52D_E52E_E52F_E530_E531),
  (0x7041, 0xE532_E533_E534_E535_E536_E537_E538_E539_E53A_E53B_E53C_E53D),
  (0x704D, 0xE53E_E53F_E540_E541_E542_E543_E544_E545_E546_E547_E548_E549),
  (0x7059, 0xE54A_E54B_E54C_E54D_E54E_E54F_E550_E551_E552_E553_E554_E555),
  (0x7065, 0xE556_E557_E558_E559_E55A_E55B_E55C_E55D_E55E_E55F_E560_E561),
  (0x7071, 0xE562_E563_E564_E565_E566_E567_E568_E569_E56A_E56B_E56C_E56D),
  (0x707D, 0xE56E_E56F_E570_E571_E572_E573_E574_E575_E576_E577_E578_E579),
  (0x7089, 0xE57A_E57B_E57C_E57D_E57E_E57F_E580_E581_E582_E583_E584_E585),
  (0x7095, 0xE586_E587_E588_E589_E58A_E58B_E58C_E58D_E58E_E58F_E590_E591),
  (0x70A1, 0xE592_E593_E594_E595_E596_E597_E598_E599_E59A_E59B_E59C_E59D),
  (0x70AD, 0xE59E_E59F_E5A0_E5A1_E5A2_E5A3_E5A4_E5A5_E5A6_E5A7_E5A8_E5A9),
  (0x70B9, 0xE5AA_E5AB_E5AC_E5AD_E5AE_E5AF_E5B0_E5B1_E5B2_E5B3_E5B4_E5B5),
  (0x70C5, 0xE5B6_E5B7_E5B8_E5B9_E5BA_E5BB_E5BC_E5BD_E5BE_E5BF_E5C0_E5C1),
  (0x70D1, 0xE5C2_E5C3_E5C4_E5C5_E5C6_E5C7_E5C8_E5C9_E5CA_E5CB_E5CC_E5CD),
  (0x70DD, 0xE5CE_E5CF_E5D0_E5D1_E5D2_E5D3_E5D4_E5D5_E5D6_E5D7_E5D8_E5D9),
  (0x70E9, 0xE5DA_E5DB_E5DC_E5DD_E5DE_E5DF_E5E0_E5E1_E5E2_E5E3_E5E4_E5E5),
  (0x70F5, 0xE5E6_E5E7_E5E8_E5E9_E5EA_E5EB_E5EC_E5ED_E5EE_E5EF),
  (0x7141, 0xE5F0_E5F1_E5F2_E5F3_E5F4_E5F5_E5F6_E5F7_E5F8_E5F9_E5FA_E5FB),
  (0x714D, 0xE5FC_E5FD_E5FE_E5FF_E600_E601_E602_E603_E604_E605_E606_E607),
  (0x7159, 0xE608_E609_E60A_E60B_E60C_E60D_E60E_E60F_E610_E611_E612_E613),
  (0x7165, 0xE614_E615_E616_E617_E618_E619_E61A_E61B_E61C_E61D_E61E_E61F),
  (0x7171, 0xE620_E621_E622_E623_E624_E625_E626_E627_E628_E629_E62A_E62B),
  (0x717D, 0xE62C_E62D_E62E_E62F_E630_E631_E632_E633_E634_E635_E636_E637),
  (0x7189, 0xE638_E639_E63A_E63B_E63C_E63D_E63E_E63F_E640_E641_E642_E643),
  (0x7195, 0xE644_E645_E646_E647_E648_E649_E64A_E64B_E64C_E64D_E64E_E64F),
  (0x71A1, 0xE650_E651_E652_E653_E654_E655_E656_E657_E658_E659_E65A_E65B),
  (0x71AD, 0xE65C_E65D_E65E_E65F_E660_E661_E662_E663_E664_E665_E666_E667),
  (0x71B9, 0xE668_E669_E66A_E66B_E66C_E66D_E66E_E66F_E670_E671_E672_E673),
  (0x71C5, 0xE674_E675_E676_E677_E678_E679_E67A_E67B_E67C_E67D_E67E_E67F),
  (0x71D1, 0xE680_E681_E682_E683_E684_E685_E686_E687_E688_E689_E68A_E68B),
  (0x71DD, 0xE68C_E68D_E68E_E68F_E690_E691_E692_E693_E694_E695_E696_E697),
  (0x71E9, 0xE698_E699_E69A_E69B_E69C_E69D_E69E_E69F_E6A0_E6A1_E6A2_E6A3),
  (0x71F5, 0xE6A4_E6A5_E6A6_E6A7_E6A8_E6A9_E6AA_E6AB_E6AC_E6AD),
  (0x7241, 0xE6AE_E6AF_E6B0_E6B1_E6B2_E6B3_E6B4_E6B5_E6B6_E6B7_E6B8_E6B9),
  (0x724D, 0xE6BA_E6BB_E6BC_E6BD_E6BE_E6BF_E6C0_E6C1_E6C2_E6C3_E6C4_E6C5),
  (0x7259, 0xE6C6_E6C7_E6C8_E6C9_E6CA_E6CB_E6CC_E6CD_E6CE_E6CF_E6D0_E6D1),
  (0x7265, 0xE6D2_E6D3_E6D4_E6D5_E6D6_E6D7_E6D8_E6D9_E6DA_E6DB_E6DC_E6DD),
  (0x7271, 0xE6DE_E6DF_E6E0_E6E1_E6E2_E6E3_E6E4_E6E5_E6E6_E6E7_E6E8_E6E9),
  (0x727D, 0xE6EA_E6EB_E6EC_E6ED_E6EE_E6EF_E6F0_E6F1_E6F2_E6F3_E6F4_E6F5),
  (0x7289, 0xE6F6_E6F7_E6F8_E6F9_E6FA_E6FB_E6FC_E6FD_E6FE_E6FF_E700_E701),
  (0x7295, 0xE702_E703_E704_E705_E706_E707_E708_E709_E70A_E70B_E70C_E70D),
  (0x72A1, 0xE70E_E70F_E710_E711_E712_E713_E714_E715_E716_E717_E718_E719),
  (0x72AD, 0xE71A_E71B_E71C_E71D_E71E_E71F_E720_E721_E722_E723_E724_E725),
  (0x72B9, 0xE726_E727_E728_E729_E72A_E72B_E72C_E72D_E72E_E72F_E730_E731),
  (0x72C5, 0xE732_E733_E734_E735_E736_E737_E738_E739_E73A_E73B_E73C_E73D),
  (0x72D1, 0xE73E_E73F_E740_E741_E742_E743_E744_E745_E746_E747_E748_E749),
  (0x72DD, 0xE74A_E74B_E74C_E74D_E74E_E74F_E750_E751_E752_E753_E754_E755),
  (0x72E9, 0xE756_E757_E758_E759_E75A_E75B_E75C_E75D_E75E_E75F_E760_E761),
  (0x72F5, 0xE762_E763_E764_E765_E766_E767_E768_E769_E76A_E76B),
  (0x7341, 0xE76C_E76D_E76E_E76F_E770_E771_E772_E773_E774_E775_E776_E777),
  (0x734D, 0xE778_E779_E77A_E77B_E77C_E77D_E77E_E77F_E780_E781_E782_E783),
  (0x7359, 0xE784_E785_E786_E787_E788_E789_E78A_E78B_E78C_E78D_E78E_E78F),
  (0x7365, 0xE790_E791_E792_E793_E794_E795_E796_E797_E798_E799_E79A_E79B),
  (0x7371, 0xE79C_E79D_E79E_E79F_E7A0_E7A1_E7A2_E7A3_E7A4_E7A5_E7A6_E7A7),
  (0x737D, 0xE7A8_E7A9_E7AA_E7AB_E7AC_E7AD_E7AE_E7AF_E7B0_E7B1_E7B2_E7B3),
  (0x7389, 0xE7B4_E7B5_E7B6_E7B7_E7B8_E7B9_E7BA_E7BB_E7BC_E7BD_E7BE_E7BF),
  (0x7395, 0xE7C0_E7C1_E7C2_E7C3_E7C4_E7C5_E7C6_E7C7_E7C8_E7C9_E7CA_E7CB),
  (0x73A1, 0xE7CC_E7CD_E7CE_E7CF_E7D0_E7D1_E7D2_E7D3_E7D4_E7D5_E7D6_E7D7),
  (0x73AD, 0xE7D8_E7D9_E7DA_E7DB_E7DC_E7DD_E7DE_E7DF_E7E0_E7E1_E7E2_E7E3),
  (0x73B9, 0xE7E4_E7E5_E7E6_E7E7_E7E8_E7E9_E7EA_E7EB_E7EC_E7ED_E7EE_E7EF),
  (0x73C5, 0xE7F0_E7F1_E7F2_E7F3_E7F4_E7F5_E7F6_E7F7_E7F8_E7F9_E7FA_E7FB),
  (0x73D1, 0xE7FC_E7FD_E7FE_E7FF_E800_E801_E802_E803_E804_E805_E806_E807),
  (0x73DD, 0xE808_E809_E80A_E80B_E80C_E80D_E80E_E80F_E810_E811_E812_E813),
  (0x73E9, 0xE814_E815_E816_E817_E818_E819_E81A_E81B_E81C_E81D_E81E_E81F),
  (0x73F5, 0xE820_E821_E822_E823_E824_E825_E826_E827_E828_E829),
  (0x7441, 0xE82A_E82B_E82C_E82D_E82E_E82F_E830_E831_E832_E833_E834_E835),
  (0x744D, 0xE836_E837_E838_E839_E83A_E83B_E83C_E83D_E83E_E83F_E840_E841),
  (0x7459, 0xE842_E843_E844_E845_E846_E847_E848_E849_E84A_E84B_E84C_E84D),
  (0x7465, 0xE84E_E84F_E850_E851_E852_E853_E854_E855_E856_E857_E858_E859),
  (0x7471, 0xE85A_E85B_E85C_E85D_E85E_E85F_E860_E861_E862_E863_E864_E865),
  (0x747D, 0xE866_E867_E868_E869_E86A_E86B_E86C_E86D_E86E_E86F_E870_E871),
  (0x7489, 0xE872_E873_E874_E875_E876_E877_E878_E879_E87A_E87B_E87C_E87D),
  (0x7495, 0xE87E_E87F_E880_E881_E882_E883_E884_E885_E886_E887_E888_E889),
  (0x74A1, 0xE88A_E88B_E88C_E88D_E88E_E88F_E890_E891_E892_E893_E894_E895),
  (0x74AD, 0xE896_E897_E898_E899_E89A_E89B_E89C_E89D_E89E_E89F_E8A0_E8A1),
  (0x74B9, 0xE8A2_E8A3_E8A4_E8A5_E8A6_E8A7_E8A8_E8A9_E8AA_E8AB_E8AC_E8AD),
  (0x74C5, 0xE8AE_E8AF_E8B0_E8B1_E8B2_E8B3_E8B4_E8B5_E8B6_E8B7_E8B8_E8B9),
  (0x74D1, 0xE8BA_E8BB_E8BC_E8BD_E8BE_E8BF_E8C0_E8C1_E8C2_E8C3_E8C4_E8C5),
  (0x74DD, 0xE8C6_E8C7_E8C8_E8C9_E8CA_E8CB_E8CC_E8CD_E8CE_E8CF_E8D0_E8D1),
  (0x74E9, 0xE8D2_E8D3_E8D4_E8D5_E8D6_E8D7_E8D8_E8D9_E8DA_E8DB_E8DC_E8DD),
  (0x74F5, 0xE8DE_E8DF_E8E0_E8E1_E8E2_E8E3_E8E4_E8E5_E8E6_E8E7),
  (0x7541, 0xE8E8_E8E9_E8EA_E8EB_E8EC_E8ED_E8EE_E8EF_E8F0_E8F1_E8F2_E8F3),
  (0x754D, 0xE8F4_E8F5_E8F6_E8F7_E8F8_E8F9_E8FA_E8FB_E8FC_E8FD_E8FE_E8FF),
  (0x7559, 0xE900_E901_E902_E903_E904_E905_E906_E907_E908_E909_E90A_E90B),
  (0x7565, 0xE90C_E90D_E90E_E90F_E910_E911_E912_E913_E914_E915_E916_E917),
  (0x7571, 0xE918_E919_E91A_E91B_E91C_E91D_E91E_E91F_E920_E921_E922_E923),
  (0x757D, 0xE924_E925_E926_E927_E928_E929_E92A_E92B_E92C_E92D_E92E_E92F),
  (0x7589, 0xE930_E931_E932_E933_E934_E935_E936_E937_E938_E939_E93A_E93B),
  (0x7595, 0xE93C_E93D_E93E_E93F_E940_E941_E942_E943_E944_E945_E946_E947),
  (0x75A1, 0xE948_E949_E94A_E94B_E94C_E94D_E94E_E94F_E950_E951_E952_E953),
  (0x75AD, 0xE954_E955_E956_E957_E958_E959_E95A_E95B_E95C_E95D_E95E_E95F),
  (0x75B9, 0xE960_E961_E962_E963_E964_E965_E966_E967_E968_E969_E96A_E96B),
  (0x75C5, 0xE96C_E96D_E96E_E96F_E970_E971_E972_E973_E974_E975_E976_E977),
  (0x75D1, 0xE978_E979_E97A_E97B_E97C_E97D_E97E_E97F_E980_E981_E982_E983),
  (0x75DD, 0xE984_E985_E986_E987_E988_E989_E98A_E98B_E98C_E98D_E98E_E98F),
  (0x75E9, 0xE990_E991_E992_E993_E994_E995_E996_E997_E998_E999_E99A_E99B),
  (0x75F5, 0xE99C_E99D_E99E_E99F_E9A0_E9A1_E9A2_E9A3_E9A4_E9A5),
  (0x7641, 0xE9A6_E9A7_E9A8_E9A9_E9AA_E9AB_E9AC_E9AD_E9AE_E9AF_E9B0_E9B1),
  (0x764D, 0xE9B2_E9B3_E9B4_E9B5_E9B6_E9B7_E9B8_E9B9_E9BA_E9BB_E9BC_E9BD),
  (0x7659, 0xE9BE_E9BF_E9C0_E9C1_E9C2_E9C3_E9C4_E9C5_E9C6_E9C7_E9C8_E9C9),
  (0x7665, 0xE9CA_E9CB_E9CC_E9CD_E9CE_E9CF_E9D0_E9D1_E9D2_E9D3_E9D4_E9D5),
  (0x7671, 0xE9D6_E9D7_E9D8_E9D9_E9DA_E9DB_E9DC_E9DD_E9DE_E9DF_E9E0_E9E1),
  (0x767D, 0xE9E2_E9E3_E9E4_E9E5_E9E6_E9E7_E9E8_E9E9_E9EA_E9EB_E9EC_E9ED),
  (0x7689, 0xE9EE_E9EF_E9F0_E9F1_E9F2_E9F3_E9F4_E9F5_E9F6_E9F7_E9F8_E9F9),
  (0x7695, 0xE9FA_E9FB_E9FC_E9FD_E9FE_E9FF_EA00_EA01_EA02_EA03_EA04_EA05),
  (0x76A1, 0xEA06_EA07_EA08_EA09_EA0A_EA0B_EA0C_EA0D_EA0E_EA0F_EA10_EA11),
  (0x76AD, 0xEA12_EA13_EA14_EA15_EA16_EA17_EA18_EA19_EA1A_EA1B_EA1C_EA1D),
  (0x76B9, 0xEA1E_EA1F_EA20_EA21_EA22_EA23_EA24_EA25_EA26_EA27_EA28_EA29),
  (0x76C5, 0xEA2A_EA2B_EA2C_EA2D_EA2E_EA2F_EA30_EA31_EA32_EA33_EA34_EA35),
  (0x76D1, 0xEA36_EA37_EA38_EA39_EA3A_EA3B_EA3C_EA3D_EA3E_EA3F_EA40_EA41),
  (0x76DD, 0xEA42_EA43_EA44_EA45_EA46_EA47_EA48_EA49_EA4A_EA4B_EA4C_EA4D),
  (0x76E9, 0xEA4E_EA4F_EA50_EA51_EA52_EA53_EA54_EA55_EA56_EA57_EA58_EA59),
  (0x76F5, 0xEA5A_EA5B_EA5C_EA5D_EA5E_EA5F_EA60_EA61_EA62_EA63),
  (0x7741, 0xEA64_EA65_EA66_EA67_EA68_EA69_EA6A_EA6B_EA6C_EA6D_EA6E_EA6F),
  (0x774D, 0xEA70_EA71_EA72_EA73_EA74_EA75_EA76_EA77_EA78_EA79_EA7A_EA7B),
  (0x7759, 0xEA7C_EA7D_EA7E_EA7F_EA80_EA81_EA82_EA83_EA84_EA85_EA86_EA87),
  (0x7765, 0xEA88_EA89_EA8A_EA8B_EA8C_EA8D_EA8E_EA8F_EA90_EA91_EA92_EA93),
  (0x7771, 0xEA94_EA95_EA96_EA97_EA98_EA99_EA9A_EA9B_EA9C_EA9D_EA9E_EA9F),
  (0x777D, 0xEAA0_EAA1_EAA2_EAA3_EAA4_EAA5_EAA6_EAA7_EAA8_EAA9_EAAA_EAAB),
  (0x7789, 0xEAAC_EAAD_EAAE_EAAF_EAB0_EAB1_EAB2_EAB3_EAB4_EAB5_EAB6_EAB7),
  (0x7795, 0xEAB8_EAB9_EABA_EABB_EABC_EABD_EABE_EABF_EAC0_EAC1_EAC2_EAC3),
  (0x77A1, 0xEAC4_EAC5_EAC6_EAC7_EAC8_EAC9_EACA_EACB_EACC_EACD_EACE_EACF),
  (0x77AD, 0xEAD0_EAD1_EAD2_EAD3_EAD4_EAD5_EAD6_EAD7_EAD8_EAD9_EADA_EADB),
  (0x77B9, 0xEADC_EADD_EADE_EADF_EAE0_EAE1_EAE2_EAE3_EAE4_EAE5_EAE6_EAE7),
  (0x77C5, 0xEAE8_EAE9_EAEA_EAEB_EAEC_EAED_EAEE_EAEF_EAF0_EAF1_EAF2_EAF3),
  (0x77D1, 0xEAF4_EAF5_EAF6_EAF7_EAF8_EAF9_EAFA_EAFB_EAFC_EAFD_EAFE_EAFF),
  (0x77DD, 0xEB00_EB01_EB02_EB03_EB04_EB05_EB06_EB07_EB08_EB09_EB0A_EB0B),
  (0x77E9, 0xEB0C_EB0D_EB0E_EB0F_EB10_EB11_EB12_EB13_EB14_EB15_EB16_EB17),
  (0x77F5, 0xEB18_EB19_EB1A_EB1B_EB1C_EB1D_EB1E_EB1F_EB20_EB21),
  (0x7841, 0xEB22_EB23_EB24_EB25_EB26_EB27_EB28_EB29_EB2A_EB2B_EB2C_EB2D),
  (0x784D, 0xEB2E_EB2F_EB30_EB31_EB32_EB33_EB34_EB35_EB36_EB37_EB38_EB39),
  (0x7859, 0xEB3A_EB3B_EB3C_EB3D_EB3E_EB3F_EB40_EB41_EB42_EB43_EB44_EB45),
  (0x7865, 0xEB46_EB47_EB48_EB49_EB4A_EB4B_EB4C_EB4D_EB4E_EB4F_EB50_EB51),
  (0x7871, 0xEB52_EB53_EB54_EB55_EB56_EB57_EB58_EB59_EB5A_EB5B_EB5C_EB5D),
  (0x787D, 0xEB5E_EB5F_EB60_EB61_EB62_EB63_EB64_EB65_EB66_EB67_EB68_EB69),
  (0x7889, 0xEB6A_EB6B_EB6C_EB6D_EB6E_EB6F_EB70_EB71_EB72_EB73_EB74_EB75),
  (0x7895, 0xEB76_EB77_EB78_EB79_EB7A_EB7B_EB7C_EB7D_EB7E_EB7F_EB80_EB81),
  (0x78A1, 0xEB82_EB83_EB84_EB85_EB86_EB87_EB88_EB89_EB8A_EB8B_EB8C_EB8D),
  (0x78AD, 0xEB8E_EB8F_EB90_EB91_EB92_EB93_EB94_EB95_EB96_EB97_EB98_EB99),
  (0x78B9, 0xEB9A_EB9B_EB9C_EB9D_EB9E_EB9F_EBA0_EBA1_EBA2_EBA3_EBA4_EBA5),
  (0x78C5, 0xEBA6_EBA7_EBA8_EBA9_EBAA_EBAB_EBAC_EBAD_EBAE_EBAF_EBB0_EBB1),
  (0x78D1, 0xEBB2_EBB3_EBB4_EBB5_EBB6_EBB7_EBB8_EBB9_EBBA_EBBB_EBBC_EBBD),
  (0x78DD, 0xEBBE_EBBF_EBC0_EBC1_EBC2_EBC3_EBC4_EBC5_EBC6_EBC7_EBC8_EBC9),
  (0x78E9, 0xEBCA_EBCB_EBCC_EBCD_EBCE_EBCF_EBD0_EBD1_EBD2_EBD3_EBD4_EBD5),
  (0x78F5, 0xEBD6_EBD7_EBD8_EBD9_EBDA_EBDB_EBDC_EBDD_EBDE_EBDF),
  (0x7941, 0xEBE0_EBE1_EBE2_EBE3_EBE4_EBE5_EBE6_EBE7_EBE8_EBE9_EBEA_EBEB),
  (0x794D, 0xEBEC_EBED_EBEE_EBEF_EBF0_EBF1_EBF2_EBF3_EBF4_EBF5_EBF6_EBF7),
  (0x7959, 0xEBF8_EBF9_EBFA_EBFB_EBFC_EBFD_EBFE_EBFF_EC00_EC01_EC02_EC03),
  (0x7965, 0xEC04_EC05_EC06_EC07_EC08_EC09_EC0A_EC0B_EC0C_EC0D_EC0E_EC0F),
  (0x7971, 0xEC10_EC11_EC12_EC13_EC14_EC15_EC16_EC17_EC18_EC19_EC1A_EC1B),
  (0x797D, 0xEC1C_EC1D_EC1E_EC1F_EC20_EC21_EC22_EC23_EC24_EC25_EC26_EC27),
  (0x7989, 0xEC28_EC29_EC2A_EC2B_EC2C_EC2D_EC2E_EC2F_EC30_EC31_EC32_EC33),
  (0x7995, 0xEC34_EC35_EC36_EC37_EC38_EC39_EC3A_EC3B_EC3C_EC3D_EC3E_EC3F),
  (0x79A1, 0xEC40_EC41_EC42_EC43_EC44_EC45_EC46_EC47_EC48_EC49_EC4A_EC4B),
  (0x79AD, 0xEC4C_EC4D_EC4E_EC4F_EC50_EC51_EC52_EC53_EC54_EC55_EC56_EC57),
  (0x79B9, 0xEC58_EC59_EC5A_EC5B_EC5C_EC5D_EC5E_EC5F_EC60_EC61_EC62_EC63),
  (0x79C5, 0xEC64_EC65_EC66_EC67_EC68_EC69_EC6A_EC6B_EC6C_EC6D_EC6E_EC6F),
  (0x79D1, 0xEC70_EC71_EC72_EC73_EC74_EC75_EC76_EC77_EC78_EC79_EC7A_EC7B),
  (0x79DD, 0xEC7C_EC7D_EC7E_EC7F_EC80_EC81_EC82_EC83_EC84_EC85_EC86_EC87),
  (0x79E9, 0xEC88_EC89_EC8A_EC8B_EC8C_EC8D_EC8E_EC8F_EC90_EC91_EC92_EC93),
  (0x79F5, 0xEC94_EC95_EC96_EC97_EC98_EC99_EC9A_EC9B_EC9C_EC9D),
  (0x7A41, 0xEC9E_EC9F_ECA0_ECA1_ECA2_ECA3_ECA4_ECA5_ECA6_ECA7_ECA8_ECA9),
  (0x7A4D, 0xECAA_ECAB_ECAC_ECAD_ECAE_ECAF_ECB0_ECB1_ECB2_ECB3_ECB4_ECB5),
  (0x7A59, 0xECB6_ECB7_ECB8_ECB9_ECBA_ECBB_ECBC_ECBD_ECBE_ECBF_ECC0_ECC1),
  (0x7A65, 0xECC2_ECC3_ECC4_ECC5_ECC6_ECC7_ECC8_ECC9_ECCA_ECCB_ECCC_ECCD),
  (0x7A71, 0xECCE_ECCF_ECD0_ECD1_ECD2_ECD3_ECD4_ECD5_ECD6_ECD7_ECD8_ECD9),
  (0x7A7D, 0xECDA_ECDB_ECDC_ECDD_ECDE_ECDF_ECE0_ECE1_ECE2_ECE3_ECE4_ECE5),
  (0x7A89, 0xECE6_ECE7_ECE8_ECE9_ECEA_ECEB_ECEC_ECED_ECEE_ECEF_ECF0_ECF1),
  (0x7A95, 0xECF2_ECF3_ECF4_ECF5_ECF6_ECF7_ECF8_ECF9_ECFA_ECFB_ECFC_ECFD),
  (0x7AA1, 0xECFE_ECFF_ED00_ED01_ED02_ED03_ED04_ED05_ED06_ED07_ED08_ED09),
  (0x7AAD, 0xED0A_ED0B_ED0C_ED0D_ED0E_ED0F_ED10_ED11_ED12_ED13_ED14_ED15),
  (0x7AB9, 0xED16_ED17_ED18_ED19_ED1A_ED1B_ED1C_ED1D_ED1E_ED1F_ED20_ED21),
  (0x7AC5, 0xED22_ED23_ED24_ED25_ED26_ED27_ED28_ED29_ED2A_ED2B_ED2C_ED2D),
  (0x7AD1, 0xED2E_ED2F_ED30_ED31_ED32_ED33_ED34_ED35_ED36_ED37_ED38_ED39),
  (0x7ADD, 0xED3A_ED3B_ED3C_ED3D_ED3E_ED3F_ED40_ED41_ED42_ED43_ED44_ED45),
  (0x7AE9, 0xED46_ED47_ED48_ED49_ED4A_ED4B_ED4C_ED4D_ED4E_ED4F_ED50_ED51),
  (0x7AF5, 0xED52_ED53_ED54_ED55_ED56_ED57_ED58_ED59_ED5A_ED5B),
  (0x7B41, 0xED5C_ED5D_ED5E_ED5F_ED60_ED61_ED62_ED63_ED64_ED65_ED66_ED67),
  (0x7B4D, 0xED68_ED69_ED6A_ED6B_ED6C_ED6D_ED6E_ED6F_ED70_ED71_ED72_ED73),
  (0x7B59, 0xED74_ED75_ED76_ED77_ED78_ED79_ED7A_ED7B_ED7C_ED7D_ED7E_ED7F),
  (0x7B65, 0xED80_ED81_ED82_ED83_ED84_ED85_ED86_ED87_ED88_ED89_ED8A_ED8B),
  (0x7B71, 0xED8C_ED8D_ED8E_ED8F_ED90_ED91_ED92_ED93_ED94_ED95_ED96_ED97),
  (0x7B7D, 0xED98_ED99_ED9A_ED9B_ED9C_ED9D_ED9E_ED9F_EDA0_EDA1_EDA2_EDA3),
  (0x7B89, 0xEDA4_EDA5_EDA6_EDA7_EDA8_EDA9_EDAA_EDAB_EDAC_EDAD_EDAE_EDAF),
  (0x7B95, 0xEDB0_EDB1_EDB2_EDB3_EDB4_EDB5_EDB6_EDB7_EDB8_EDB9_EDBA_EDBB),
  (0x7BA1, 0xEDBC_EDBD_EDBE_EDBF_EDC0_EDC1_EDC2_EDC3_EDC4_EDC5_EDC6_EDC7),
  (0x7BAD, 0xEDC8_EDC9_EDCA_EDCB_EDCC_EDCD_EDCE_EDCF_EDD0_EDD1_EDD2_EDD3),
  (0x7BB9, 0xEDD4_EDD5_EDD6_EDD7_EDD8_EDD9_EDDA_EDDB_EDDC_EDDD_EDDE_EDDF),
  (0x7BC5, 0xEDE0_EDE1_EDE2_EDE3_EDE4_EDE5_EDE6_EDE7_EDE8_EDE9_EDEA_EDEB),
  (0x7BD1, 0xEDEC_EDED_EDEE_EDEF_EDF0_EDF1_EDF2_EDF3_EDF4_EDF5_EDF6_EDF7),
  (0x7BDD, 0xEDF8_EDF9_EDFA_EDFB_EDFC_EDFD_EDFE_EDFF_EE00_EE01_EE02_EE03),
  (0x7BE9, 0xEE04_EE05_EE06_EE07_EE08_EE09_EE0A_EE0B_EE0C_EE0D_EE0E_EE0F),
  (0x7BF5, 0xEE10_EE11_EE12_EE13_EE14_EE15_EE16_EE17_EE18_EE19),
  (0x7C41, 0xEE1A_EE1B_EE1C_EE1D_EE1E_EE1F_EE20_EE21_EE22_EE23_EE24_EE25),
  (0x7C4D, 0xEE26_EE27_EE28_EE29_EE2A_EE2B_EE2C_EE2D_EE2E_EE2F_EE30_EE31),
  (0x7C59, 0xEE32_EE33_EE34_EE35_EE36_EE37_EE38_EE39_EE3A_EE3B_EE3C_EE3D),
  (0x7C65, 0xEE3E_EE3F_EE40_EE41_EE42_EE43_EE44_EE45_EE46_EE47_EE48_EE49),
  (0x7C71, 0xEE4A_EE4B_EE4C_EE4D_EE4E_EE4F_EE50_EE51_EE52_EE53_EE54_EE55),
  (0x7C7D, 0xEE56_EE57_EE58_EE59_EE5A_EE5B_EE5C_EE5D_EE5E_EE5F_EE60_EE61),
  (0x7C89, 0xEE62_EE63_EE64_EE65_EE66_EE67_EE68_EE69_EE6A_EE6B_EE6C_EE6D),
  (0x7C95, 0xEE6E_EE6F_EE70_EE71_EE72_EE73_EE74_EE75_EE76_EE77_EE78_EE79),
  (0x7CA1, 0xEE7A_EE7B_EE7C_EE7D_EE7E_EE7F_EE80_EE81_EE82_EE83_EE84_EE85),
  (0x7CAD, 0xEE86_EE87_EE88_EE89_EE8A_EE8B_EE8C_EE8D_EE8E_EE8F_EE90_EE91),
  (0x7CB9, 0xEE92_EE93_EE94_EE95_EE96_EE97_EE98_EE99_EE9A_EE9B_EE9C_EE9D),
  (0x7CC5, 0xEE9E_EE9F_EEA0_EEA1_EEA2_EEA3_EEA4_EEA5_EEA6_EEA7_EEA8_EEA9),
  (0x7CD1, 0xEEAA_EEAB_EEAC_EEAD_EEAE_EEAF_EEB0_EEB1_EEB2_EEB3_EEB4_EEB5),
  (0x7CDD, 0xEEB6_EEB7_EEB8_EEB9_EEBA_EEBB_EEBC_EEBD_EEBE_EEBF_EEC0_EEC1),
  (0x7CE9, 0xEEC2_EEC3_EEC4_EEC5_EEC6_EEC7_EEC8_EEC9_EECA_EECB_EECC_EECD),
  (0x7CF5, 0xEECE_EECF_EED0_EED1_EED2_EED3_EED4_EED5_EED6_EED7),
  (0x7D41, 0xEED8_EED9_EEDA_EEDB_EEDC_EEDD_EEDE_EEDF_EEE0_EEE1_EEE2_EEE3),
  (0x7D4D, 0xEEE4_EEE5_EEE6_EEE7_EEE8_EEE9_EEEA_EEEB_EEEC_EEED_EEEE_EEEF),
  (0x7D59, 0xEEF0_EEF1_EEF2_EEF3_EEF4_EEF5_EEF6_EEF7_EEF8_EEF9_EEFA_EEFB),
  (0x7D65, 0xEEFC_EEFD_EEFE_EEFF_EF00_EF01_EF02_EF03_EF04_EF05_EF06_EF07),
  (0x7D71, 0xEF08_EF09_EF0A_EF0B_EF0C_EF0D_EF0E_EF0F_EF10_EF11_EF12_EF13),
  (0x7D7D, 0xEF14_EF15_EF16_EF17_EF18_EF19_EF1A_EF1B_EF1C_EF1D_EF1E_EF1F),
  (0x7D89, 0xEF20_EF21_EF22_EF23_EF24_EF25_EF26_EF27_EF28_EF29_EF2A_EF2B),
  (0x7D95, 0xEF2C_EF2D_EF2E_EF2F_EF30_EF31_EF32_EF33_EF34_EF35_EF36_EF37),
  (0x7DA1, 0xEF38_EF39_EF3A_EF3B_EF3C_EF3D_EF3E_EF3F_EF40_EF41_EF42_EF43),
  (0x7DAD, 0xEF44_EF45_EF46_EF47_EF48_EF49_EF4A_EF4B_EF4C_EF4D_EF4E_EF4F),
  (0x7DB9, 0xEF50_EF51_EF52_EF53_EF54_EF55_EF56_EF57_EF58_EF59_EF5A_EF5B),
  (0x7DC5, 0xEF5C_EF5D_EF5E_EF5F_EF60_EF61_EF62_EF63_EF64_EF65_EF66_EF67),
  (0x7DD1, 0xEF68_EF69_EF6A_EF6B_EF6C_EF6D_EF6E_EF6F_EF70_EF71_EF72_EF73),
  (0x7DDD, 0xEF74_EF75_EF76_EF77_EF78_EF79_EF7A_EF7B_EF7C_EF7D_EF7E_EF7F),
  (0x7DE9, 0xEF80_EF81_EF82_EF83_EF84_EF85_EF86_EF87_EF88_EF89_EF8A_EF8B),
  (0x7DF5, 0xEF8C_EF8D_EF8E_EF8F_EF90_EF91_EF92_EF93_EF94_EF95),
  (0x7E41, 0xEF96_EF97_EF98_EF99_EF9A_EF9B_EF9C_EF9D_EF9E_EF9F_EFA0_EFA1),
  (0x7E4D, 0xEFA2_EFA3_EFA4_EFA5_EFA6_EFA7_EFA8_EFA9_EFAA_EFAB_EFAC_EFAD),
  (0x7E59, 0xEFAE_EFAF_EFB0_EFB1_EFB2_EFB3_EFB4_EFB5_EFB6_EFB7_EFB8_EFB9),
  (0x7E65, 0xEFBA_EFBB_EFBC_EFBD_EFBE_EFBF_EFC0_EFC1_EFC2_EFC3_EFC4_EFC5),
  (0x7E71, 0xEFC6_EFC7_EFC8_EFC9_EFCA_EFCB_EFCC_EFCD_EFCE_EFCF_EFD0_EFD1),
  (0x7E7D, 0xEFD2_EFD3_EFD4_EFD5_EFD6_EFD7_EFD8_EFD9_EFDA_EFDB_EFDC_EFDD),
  (0x7E89, 0xEFDE_EFDF_EFE0_EFE1_EFE2_EFE3_EFE4_EFE5_EFE6_EFE7_EFE8_EFE9),
  (0x7E95, 0xEFEA_EFEB_EFEC_EFED_EFEE_EFEF_EFF0_EFF1_EFF2_EFF3_EFF4_EFF5),
  (0x7EA1, 0xEFF6_EFF7_EFF8_EFF9_EFFA_EFFB_EFFC_EFFD_EFFE_EFFF_F000_F001),
  (0x7EAD, 0xF002_F003_F004_F005_F006_F007_F008_F009_F00A_F00B_F00C_F00D),
  (0x7EB9, 0xF00E_F00F_F010_F011_F012_F013_F014_F015_F016_F017_F018_F019),
  (0x7EC5, 0xF01A_F01B_F01C_F01D_F01E_F01F_F020_F021_F022_F023_F024_F025),
  (0x7ED1, 0xF026_F027_F028_F029_F02A_F02B_F02C_F02D_F02E_F02F_F030_F031),
  (0x7EDD, 0xF032_F033_F034_F035_F036_F037_F038_F039_F03A_F03B_F03C_F03D),
  (0x7EE9, 0xF03E_F03F_F040_F041_F042_F043_F044_F045_F046_F047_F048_F049),
  (0x7EF5, 0xF04A_F04B_F04C_F04D_F04E_F04F_F050_F051_F052_F053),
  (0x7F41, 0xF054_F055_F056_F057_F058_F059_F05A_F05B_F05C_F05D_F05E_F05F),
  (0x7F4D, 0xF060_F061_F062_F063_F064_F065_F066_F067_F068_F069_F06A_F06B),
  (0x7F59, 0xF06C_F06D_F06E_F06F_F070_F071_F072_F073_F074_F075_F076_F077),
  (0x7F65, 0xF078_F079_F07A_F07B_F07C_F07D_F07E_F07F_F080_F081_F082_F083),
  (0x7F71, 0xF084_F085_F086_F087_F088_F089_F08A_F08B_F08C_F08D_F08E_F08F),
  (0x7F7D, 0xF090_F091_F092_F093_F094_F095_F096_F097_F098_F099_F09A_F09B),
  (0x7F89, 0xF09C_F09D_F09E_F09F_F0A0_F0A1_F0A2_F0A3_F0A4_F0A5_F0A6_F0A7),
  (0x7F95, 0xF0A8_F0A9_F0AA_F0AB_F0AC_F0AD_F0AE_F0AF_F0B0_F0B1_F0B2_F0B3),
  (0x7FA1, 0xF0B4_F0B5_F0B6_F0B7_F0B8_F0B9_F0BA_F0BB_F0BC_F0BD_F0BE_F0BF),
  (0x7FAD, 0xF0C0_F0C1_F0C2_F0C3_F0C4_F0C5_F0C6_F0C7_F0C8_F0C9_F0CA_F0CB),
  (0x7FB9, 0xF0CC_F0CD_F0CE_F0CF_F0D0_F0D1_F0D2_F0D3_F0D4_F0D5_F0D6_F0D7),
  (0x7FC5, 0xF0D8_F0D9_F0DA_F0DB_F0DC_F0DD_F0DE_F0DF_F0E0_F0E1_F0E2_F0E3),
  (0x7FD1, 0xF0E4_F0E5_F0E6_F0E7_F0E8_F0E9_F0EA_F0EB_F0EC_F0ED_F0EE_F0EF),
  (0x7FDD, 0xF0F0_F0F1_F0F2_F0F3_F0F4_F0F5_F0F6_F0F7_F0F8_F0F9_F0FA_F0FB),
  (0x7FE9, 0xF0FC_F0FD_F0FE_F0FF_F100_F101_F102_F103_F104_F105_F106_F107),
  (0x7FF5, 0xF108_F109_F10A_F10B_F10C_F10D_F10E_F10F_F110_F111)]

/-- The lines of /repo/modules/to/IBM-930.txt: character, code; sorted.  All call the callback. -/
def writes930 : Chart := Chart.wide [
  (0x1, 0x0001_0002_0003_0037_002D_002E_002F_0016_0005_0025_000B_000C),
  (0xD, 0x000D_000E_000F_0010_0011_0012_0013_003C_003D_0032_0026_0018),
  (0x19, 0x0019_003F_0027_001C_001D_001E_001F_0040_005A_007F_007B_00E0),
  (0x25, 0x006C_0050_007D_004D_005D_005C_004E_006B_0060_004B_0061_00F0),
  (0x31, 0x00F1_00F2_00F3_00F4_00F5_00F6_00F7_00F8_00F9_007A_005E_004C),
  (0x3D, 0x007E_006E_006F_007C_00C1_00C2_00C3_00C4_00C5_00C6_00C7_00C8),
  (0x49, 0x00C9_00D1_00D2_00D3_00D4_00D5_00D6_00D7_00D8_00D9_00E2_00E3),
  (0x55, 0x00E4_00E5_00E6_00E7_00E8_00E9_0070_00B2_0080_00B0_006D_0079),
  (0x61, 0x0062_0063_0064_0065_0066_0067_0068_0069_0071_0072_0073_0074),
  (0x6D, 0x0075_0076_0077_0078_008B_009B_00AB_00B3_00B4_00B5_00B6_00B7),
  (0x79, 0x00B8_00B9_00C0_004F_00D0_00A0_0007_0020_0021_0022_0023_0024),
  (0x85, 0x0015_0006_0017_0028_0029_002A_002B_002C_0009_000A_001B_0030),
  (0x91, 0x0031_001A_0033_0034_0035_0036_0008_0038_0039_003A_003B_0004),
  (0x9D, 0x0014_003E_00FF),
  (0xA2, 0x00B1_004A),
  (0xA5, 0x005B_426A_446A_4460),
  (0xAC, 0x005F),
  (0xB0, 0x44ED_444B),
  (0xB4, 0x4450),
  (0xB6, 0x4379),
  (0xD7, 0x447A),
  (0xF7, 0x447B),
  (0x391, 0x4161_4162_4163_4164_4165_4166_4167_4168_4169_416A_416B_416C),
  (0x39D, 0x416D_416E_416F_4170_4171),
  (0x3A3, 0x4172_4173_4174_4175_4176_4177_4178),
  (0x3B1, 0x4141_4142_4143_4144_4145_4146_4147_4148_4149_414A_414B_414C),
  (0x3BD, 0x414D_414E_414F_4150_4151),
  (0x3C3, 0x4152_4153_4154_4155_4156_4157_4158),
  (0x401, 0x41C6),
  (0x410, 0x41C0_41C1_41C2_41C3_41C4_41C5_41C7_41C8_41C9_41CA_41CB_41CC),
  (0x41C, 0x41CD_41CE_41CF_41D0_41D1_41D2_41D3_41D4_41D5_41D6_41D7_41D8),
  (0x428, 0x41D9_41DA_41DB_41DC_41DD_41DE_41DF_41E0_4180_4181_4182_4183),
  (0x434, 0x4184_4185_4187_4188_4189_418A_418B_418C_418D_418E_418F_4190),
  (0x440, 0x4191_4192_4193_4194_4195_4196_4197_4198_4199_419A_419B_419C),
  (0x44C, 0x419D_419E_419F_41A0),
  (0x451, 0x4186),
  (0x2010, 0x445A),
  (0x2014, 0x444A_444A_447C),
  (0x2018, 0x4461_4471),
  (0x201C, 0x4462_4472),
  (0x2020, 0x4377_4378),
  (0x2025, 0x447E_447F),
  (0x2030, 0x4373),
  (0x2032, 0x44EE_44EF),
  (0x203B, 0x446B),
  (0x203E, 0x00A1),
  (0x2103, 0x444E),
  (0x2116, 0x446E),
  (0x2121, 0x446F),
  (0x212B, 0x4372),
  (0x2160, 0x41F1_41F2_41F3_41F4_41F5_41F6_41F7_41F8_41F9_41FA),
  (0x2170, 0x41B1_41B2_41B3_41B4_41B5_41B6_41B7_41B8_41B9_41BA),
  (0x2190, 0x44F1_44F2_44F0_44F3),
  (0x21D2, 0x436E),
  (0x21D4, 0x436F),
  (0x2200, 0x4370),
  (0x2202, 0x434E_4371),
  (0x2207, 0x434F_4364),
  (0x220B, 0x4365),
  (0x2212, 0x4260),
  (0x221A, 0x435F),
  (0x221D, 0x4361_444D),
  (0x2220, 0x434B),
  (0x2225, 0x447C),
  (0x2227, 0x436C_436D_436B_436A_4362_4363),
  (0x2234, 0x4468_4478),
  (0x223D, 0x4360),
  (0x2252, 0x435C),
  (0x2260, 0x444C_435B),
  (0x2266, 0x4467_4477),
  (0x226A, 0x435D_435E),
  (0x2282, 0x4368_4369),
  (0x2286, 0x4366_4367),
  (0x22A5, 0x434C),
  (0x2312, 0x434D),
  (0x2500, 0x437C_43B7_437D_43B8),
  (0x250C, 0x437E),
  (0x250F, 0x43B9_437F),
  (0x2513, 0x43E1_43B1),
  (0x2517, 0x43E3_43B0),
  (0x251B, 0x43E2_43B2_43EE),
  (0x2520, 0x43E9),
  (0x2523, 0x43E4_43B4_43F0),
  (0x2528, 0x43EB),
  (0x252B, 0x43E6_43B3),
  (0x252F, 0x43EA_43EF),
  (0x2533, 0x43E5_43B5),
  (0x2537, 0x43EC_43F1),
  (0x253B, 0x43E7_43B6),
  (0x253F, 0x43ED),
  (0x2542, 0x43F2),
  (0x254B, 0x43E8),
  (0x25A0, 0x44EA_44E9),
  (0x25B2, 0x44E3_44E2),
  (0x25BC, 0x44EC_44EB),
  (0x25C6, 0x44E8_44E7),
  (0x25CB, 0x44E0),
  (0x25CE, 0x44E4_44E1),
  (0x25EF, 0x437A),
  (0x2605, 0x44E6_44E5),
  (0x2640, 0x4479),
  (0x2642, 0x4469),
  (0x266A, 0x4376),
  (0x266D, 0x4375),
  (0x266F, 0x4374),
  (0x3000, 0x4040_4344_4341_445B),
  (0x3005, 0x445D_445E_445F_4464_4474_4465_4475_4342_4343_4442_4443_4466),
  (0x3011, 0x4476_446C_447D_4463_4473),
  (0x301C, 0x43A1),
  (0x3041, 0x4447_4481_4448_4482_4449_4483_4451_4484_4452_4485_4486_44C0),
  (0x304D, 0x4487_44C1_4488_44C2_4489_44C3_448A_44C4_448C_44C5_448D_44C6),
  (0x3059, 0x448E_44C7_448F_44C8_4490_44C9_4491_44CA_4492_44CB_4456_4493),
  (0x3065, 0x44CC_4494_44CD_4495_44CE_4496_4497_4498_4499_449A_449D_44CF),
  (0x3071, 0x44D5_449E_44D0_44D6_449F_44D1_44D7_44A2_44D2_44D8_44A3_44D3),
  (0x307D, 0x44D9_44A4_44A5_44A6_44A7_44A8_4453_44A9_4454_44AA_4455_44AC),
  (0x3089, 0x44AD_44AE_44AF_44BA_44BB_4457_44BC_44DA_44DB_4446_44BD),
  (0x309B, 0x43BE_43BF_44DC_44DD),
  (0x30A1, 0x4347_4381_4348_4382_4349_4383_4351_4384_4352_4385_4386_43C0),
  (0x30AD, 0x4387_43C1_4388_43C2_4389_43C3_438A_43C4_438C_43C5_438D_43C6),
  (0x30B9, 0x438E_43C7_438F_43C8_4390_43C9_4391_43CA_4392_43CB_4356_4393),
  (0x30C5, 0x43CC_4394_43CD_4395_43CE_4396_4397_4398_4399_439A_439D_43CF),
  (0x30D1, 0x43D5_439E_43D0_43D6_439F_43D1_43D7_43A2_43D2_43D8_43A3_43D3),
  (0x30DD, 0x43D9_43A4_43A5_43A6_43A7_43A8_4353_43A9_4354_43AA_4355_43AC),
  (0x30E9, 0x43AD_43AE_43AF_43BA_43BB_4357_43BC_43DA_43DB_4346_43BD_43D4),
  (0x30F5, 0x4359_435A),
  (0x30FB, 0x4345_4358_43DC_43DD),
  (0x3231, 0x446D),
  (0x4E00, 0x4541_4BCE),
  (0x4E03, 0x4547),
  (0x4E07, 0x454D_49D3_4543_455E_455F),
  (0x4E0D, 0x46AF_4789),
  (0x4E10, 0x5642_4DEC),
  (0x4E14, 0x4F97_5643_469B_5775_4D56_50C5),
  (0x4E1E, 0x4F62),
  (0x4E21, 0x4883),
  (0x4E26, 0x487C),
  (0x4E28, 0x5644),
  (0x4E2A, 0x5645),
  (0x4E2D, 0x455C),
  (0x4E31, 0x5646_4CB8),
  (0x4E36, 0x5647),
  (0x4E38, 0x467A_48AB),
  (0x4E3B, 0x4762_54C8),
  (0x4E3F, 0x5648),
  (0x4E42, 0x5649_4B9F),
  (0x4E45, 0x458A),
  (0x4E4B, 0x45D8),
  (0x4E4D, 0x55A9_54A5_4F6C),
  (0x4E55, 0x62D0_564A_4947_564B_4BBD),
  (0x4E5D, 0x4549_4EB5_4749),
  (0x4E62, 0x564C),
  (0x4E71, 0x4BBF),
  (0x4E73, 0x4A98),
  (0x4E7E, 0x4970),
  (0x4E80, 0x47C0),
  (0x4E82, 0x564D),
  (0x4E85, 0x564E_4BB1),
  (0x4E88, 0x47C2_4896_564F_45CE_4542),
  (0x4E8E, 0x5650),
  (0x4E91, 0x499D_4B74),
  (0x4E94, 0x4545_456D),
  (0x4E98, 0x4BE4_50E8),
  (0x4E9B, 0x55DC_4867),
  (0x4E9E, 0x5652_5167_5653_4CCE_5654),
  (0x4EA4, 0x478E_4F7F_4FFA),
  (0x4EA8, 0x4BAC),
  (0x4EAB, 0x4B73_4575_4E52_499C),
  (0x4EB0, 0x5655),
  (0x4EB3, 0x5656),
  (0x4EB6, 0x5657),
  (0x4EBA, 0x4593),
  (0x4EC0, 0x53D9_4776_565C),
  (0x4EC4, 0x565A),
  (0x4EC6, 0x565B_5085),
  (0x4ECA, 0x45E0_484B),
  (0x4ECD, 0x5659_5658_4BE5),
  (0x4ED4, 0x5465_48B5_4755_565E_475D_48A2),
  (0x4EDD, 0x445C_565F_5661),
  (0x4EE1, 0x565D),
  (0x4EE3, 0x459A_49C3_46F6),
  (0x4EED, 0x5660_4D71),
  (0x4EF0, 0x4DED),
  (0x4EF2, 0x4869),
  (0x4EF6, 0x48B2_5341),
  (0x4EFB, 0x4A55_5662),
  (0x4F00, 0x5665_47D2),
  (0x4F03, 0x5666),
  (0x4F09, 0x5663_45B2),
  (0x4F0D, 0x4D99_4E9F_4A83_50F6_4A81),
  (0x4F1A, 0x45BD),
  (0x4F1C, 0x5664_48D9),
  (0x4F2F, 0x49A6_5668),
  (0x4F34, 0x49C9),
  (0x4F36, 0x544A),
  (0x4F38, 0x46F4_566A_508A),
  (0x4F3C, 0x4BBC_5461),
  (0x4F43, 0x4EDF),
  (0x4F46, 0x4EFE_566C),
  (0x4F4D, 0x47C8_48A4_46E0_4576_4CE6),
  (0x4F53, 0x4696),
  (0x4F55, 0x4770_566E_566B),
  (0x4F59, 0x49C1_5667_566F_4594_5669_566D),
  (0x4F69, 0x5679),
  (0x4F6F, 0x567C_567A),
  (0x4F73, 0x4876),
  (0x4F75, 0x4B94_51E2),
  (0x4F7B, 0x5677_5462),
  (0x4F7F, 0x48B6),
  (0x4F83, 0x4F98),
  (0x4F86, 0x567D),
  (0x4F88, 0x5672),
  (0x4F8A, 0x5671_4A46),
  (0x4F8D, 0x4FC2),
  (0x4F8F, 0x5673),
  (0x4F91, 0x4F8D_5670),
  (0x4F94, 0x567B),
  (0x4F96, 0x567E),
  (0x4F98, 0x5676),
  (0x4F9A, 0x5674_48BC),
  (0x4F9D, 0x4A9E),
  (0x4FA0, 0x52EC_475A),
  (0x4FAB, 0x5678),
  (0x4FAD, 0x5675_53B9_53E3),
  (0x4FB5, 0x4F8C_557C),
  (0x4FBF, 0x4B4C),
  (0x4FC2, 0x4851_4A6A_54C7),
  (0x4FC9, 0x5294_4660),
  (0x4FCD, 0x5686_5680),
  (0x4FD0, 0x5685_5683),
  (0x4FD4, 0x567F),
  (0x4FD7, 0x4E97_5681),
  (0x4FDA, 0x5684_5682),
  (0x4FDD, 0x45AA),
  (0x4FDF, 0x53C4_52EC_45A5),
  (0x4FE3, 0x4B4A_5687_5688),
  (0x4FEE, 0x46DE_5696),
  (0x4FF3, 0x4CE1),
  (0x4FF5, 0x4DB1_51F8),
  (0x4FF8, 0x50F9),
  (0x4FFA, 0x4E67),
  (0x4FFE, 0x5695_5694),
  (0x5005, 0x568F_5699),
  (0x5009, 0x45D6),
  (0x500B, 0x49FA),
  (0x500D, 0x4AC4),
  (0x500F, 0x56A1),
  (0x5011, 0x5697_4B6A),
  (0x5014, 0x568C),
  (0x5016, 0x5343),
  (0x5019, 0x4CAE_5689),
  (0x501E, 0x5698_4AD0),
  (0x5021, 0x5690_5691_5569_487D_568E_52F1),
  (0x5028, 0x568B_5692_568D_4D51_5693_4FF9),
  (0x5036, 0x4F63),
  (0x5039, 0x52FA),
  (0x5040, 0x568A),
  (0x5042, 0x56A4_569A),
  (0x5046, 0x56A2_569B_569E_4DFB),
  (0x504F, 0x5049_569D),
  (0x5055, 0x569C_56A0),
  (0x505A, 0x569F),
  (0x505C, 0x4E70),
  (0x5065, 0x4681),
  (0x506C, 0x56A5),
  (0x5070, 0x56A3),
  (0x5072, 0x54D2),
  (0x5074, 0x4943_4F95_50C3),
  (0x5078, 0x56A6),
  (0x507D, 0x5059),
  (0x5080, 0x56A7),
  (0x5085, 0x56AA),
  (0x508D, 0x4EE7),
  (0x5091, 0x4FC3),
  (0x5094, 0x56A8),
  (0x5098, 0x509C_46AC_56A9),
  (0x50AC, 0x4C43_54DA),
  (0x50B2, 0x56AD_56B0_56AB_4B58),
  (0x50B7, 0x4C5B),
  (0x50BE, 0x4A43),
  (0x50C2, 0x56B1),
  (0x50C5, 0x4FC9),
  (0x50C9, 0x56AE_56AF),
  (0x50CD, 0x48EC),
  (0x50CF, 0x4BBA),
  (0x50D1, 0x55AD),
  (0x50D5, 0x4ABB_52D4),
  (0x50D8, 0x56B5),
  (0x50DA, 0x4D82),
  (0x50DE, 0x56B3),
  (0x50E3, 0x56B7),
  (0x50E5, 0x56B4),
  (0x50E7, 0x4E84),
  (0x50ED, 0x56B6_56B8),
  (0x50F4, 0x56B2_56BA),
  (0x50F9, 0x56B9),
  (0x50FB, 0x5578),
  (0x5100, 0x49CA_56BC_56BD),
  (0x5104, 0x454E),
  (0x5109, 0x56BB),
  (0x5112, 0x546F),
  (0x5114, 0x56C0_56BF_56C1),
  (0x5118, 0x5290),
  (0x511A, 0x56BE),
  (0x511F, 0x4AA2),
  (0x5121, 0x56C2),
  (0x512A, 0x47DA),
  (0x5132, 0x54BD),
  (0x5137, 0x56C4),
  (0x513A, 0x56C3_56C6_56C5),
  (0x513F, 0x56C7_56C8_4C91),
  (0x5143, 0x4695_4BE8_48C9_4DF3_555A_47A2_459E_56C9_479E_56CA_4B56_5050),
  (0x5150, 0x469F),
  (0x5152, 0x56CB),
  (0x5154, 0x56CC),
  (0x515A, 0x494B),
  (0x515C, 0x51BE),
  (0x5162, 0x56CD),
  (0x5164, 0x56CE_4665),
  (0x5168, 0x46B1_56CF_56D0_4548_46BB_4546_56D1),
  (0x5171, 0x47B3),
  (0x5175, 0x4649_4F67_47AF_47C9),
  (0x517C, 0x48F4),
  (0x5180, 0x56D2),
  (0x5182, 0x56D3),
  (0x5185, 0x458E_4645),
  (0x5189, 0x56D6_4EA1),
  (0x518C, 0x56D5_48EB),
  (0x518F, 0x56D7_619D_56D8_4F8F_56D9),
  (0x5195, 0x56DA_56DB_527E),
  (0x5199, 0x48C4),
  (0x519D, 0x56DC),
  (0x51A0, 0x4E7B),
  (0x51A2, 0x56DF),
  (0x51A4, 0x56DD_5467_56DE),
  (0x51A8, 0x4878_56E0_56E1_56E2_4BDE),
  (0x51B0, 0x56E6_56E4_56E5_56E3_50C9_56E7_5146_48FC),
  (0x51BD, 0x56E9_56E8),
  (0x51C4, 0x52DC_56EA_4F80),
  (0x51C9, 0x56EB),
  (0x51CB, 0x55F9_5344_4BE6),
  (0x51D6, 0x5777),
  (0x51DB, 0x56EC_6884_4ED9),
  (0x51E0, 0x56ED_4DE1),
  (0x51E6, 0x48E6_558A),
  (0x51E9, 0x56EE_549E),
  (0x51EC, 0x56EF_56F0),
  (0x51F0, 0x56F1_51AC),
  (0x51F5, 0x56F2_51EC),
  (0x51F8, 0x50CF_50E6_459B),
  (0x51FD, 0x4BB6_56F3),
  (0x5200, 0x4C50),
  (0x5203, 0x4F44_56F4),
  (0x5206, 0x45B4_4765_4B9B),
  (0x520A, 0x4CD7_56F5),
  (0x520E, 0x54E3),
  (0x5211, 0x4C52),
  (0x5214, 0x56F6_56F7),
  (0x5217, 0x4BB4),
  (0x521D, 0x474B),
  (0x5224, 0x495C_46DD),
  (0x5227, 0x56F8),
  (0x5229, 0x45BC_56F9),
  (0x522E, 0x56FA),
  (0x5230, 0x4CDD),
  (0x5233, 0x56FB),
  (0x5236, 0x46C4_48CF_4B6B_56FC_4BC0_4BF5),
  (0x5243, 0x5379_56FD),
  (0x5247, 0x474D),
  (0x524A, 0x4A90_56FE_51AE_45AF),
  (0x524F, 0x5741),
  (0x5254, 0x5743),
  (0x5256, 0x5199),
  (0x525B, 0x49C7),
  (0x525D, 0x5481_5742),
  (0x5263, 0x4CD3_4766_5481),
  (0x5269, 0x5748_5745),
  (0x526F, 0x4B4E_4D85_5744_47D6_5746_5747_4BE1),
  (0x527D, 0x574A),
  (0x527F, 0x5749),
  (0x5283, 0x55D6),
  (0x5287, 0x49F0_574C_5185),
  (0x528D, 0x574B),
  (0x5291, 0x574E_574D),
  (0x5294, 0x5580),
  (0x529B, 0x45F7_574F),
  (0x529F, 0x4870_459F),
  (0x52A3, 0x4E68),
  (0x52A6, 0x5750),
  (0x52A9, 0x4671_4A64_54C6_5751_5752),
  (0x52AF, 0x5FAA),
  (0x52B1, 0x4D92),
  (0x52B4, 0x48A9_5754),
  (0x52B9, 0x4978),
  (0x52BC, 0x5753),
  (0x52BE, 0x556A),
  (0x52C0, 0x5756_5755),
  (0x52C3, 0x54B1),
  (0x52C5, 0x4EEF),
  (0x52C7, 0x469C),
  (0x52C9, 0x48CE),
  (0x52CD, 0x5757),
  (0x52D2, 0x53D6),
  (0x52D5, 0x45E4),
  (0x52D7, 0x5392_4B9A_46ED),
  (0x52DB, 0x5758),
  (0x52DD, 0x45B5_5759_4AE1_575C),
  (0x52E2, 0x47EE_575A_499F),
  (0x52E6, 0x575B_4C7E),
  (0x52F2, 0x497A_575D),
  (0x52F5, 0x575E),
  (0x52F8, 0x575F_5760_5470),
  (0x52FE, 0x51E9_5297_5761_4F5B_4ECB),
  (0x5305, 0x4AA8_5762_5763_5764),
  (0x530D, 0x5766),
  (0x530F, 0x5768_5767),
  (0x5315, 0x5769_4590_455A),
  (0x5319, 0x5457_576A),
  (0x531D, 0x51B7),
  (0x5320, 0x4E6B_4D4D),
  (0x5323, 0x576C_576B),
  (0x532A, 0x55ED),
  (0x532F, 0x576D),
  (0x5331, 0x576E),
  (0x5333, 0x576F),
  (0x5338, 0x5770_4FD1_4554_4A87),
  (0x533F, 0x50F1_5771_454A),
  (0x5343, 0x454C),
  (0x5345, 0x5772_5773_4E47_45DF_5774_4790),
  (0x534D, 0x5776),
  (0x5351, 0x53AD_4AF2_4996_47D7),
  (0x5357, 0x4559_48E3),
  (0x535A, 0x45F6),
  (0x535C, 0x51C0),
  (0x535E, 0x5779),
  (0x5360, 0x49EE),
  (0x5366, 0x53DB),
  (0x5369, 0x577A),
  (0x536E, 0x577B_4C82_4799_4B91_577C_4B6D_4AA4_4CF5),
  (0x5377, 0x577D_4E79),
  (0x537B, 0x577E),
  (0x537F, 0x53E2),
  (0x5382, 0x577F),
  (0x5384, 0x5352),
  (0x5393, 0x5780),
  (0x5396, 0x5781),
  (0x5398, 0x4F55),
  (0x539A, 0x4942),
  (0x539F, 0x4574_5782),
  (0x53A5, 0x5784_5783),
  (0x53A8, 0x5178_5367),
  (0x53AD, 0x53B7_5785),
  (0x53B0, 0x5786),
  (0x53B2, 0x5787_4C8E),
  (0x53B6, 0x5788),
  (0x53BB, 0x4ACA),
  (0x53C2, 0x48D2_5789),
  (0x53C8, 0x48F5_50A5_485C_46D4_4B71_47F9_4791),
  (0x53D4, 0x4FA5),
  (0x53D6, 0x46A6_484C),
  (0x53D9, 0x50F5),
  (0x53DB, 0x55B2),
  (0x53DD, 0x578B),
  (0x53DF, 0x578C),
  (0x53E1, 0x5194_53F5_4588_45D4_4C8B),
  (0x53E8, 0x5791_4F71_4E41_4DD5_4F86_5792_5790_47C6_4778_5042_47D9_485A),
  (0x53F6, 0x4F59_48E2_45F0),
  (0x53FA, 0x5793),
  (0x5401, 0x5794),
  (0x5403, 0x55EA_47BA),
  (0x5408, 0x45A0_457E_53D3_55BC_466D_45F3_51AF_50C6_4EB2_46A5),
  (0x541B, 0x47CF),
  (0x541D, 0x579D),
  (0x541F, 0x507A_53E1),
  (0x5426, 0x4C4F),
  (0x5429, 0x579C),
  (0x542B, 0x49CB_5797_5798_579A),
  (0x5436, 0x579B),
  (0x5438, 0x4B98_49C4),
  (0x543B, 0x53E5_5799_5795_47F6),
  (0x5440, 0x5796),
  (0x5442, 0x4B50),
  (0x5446, 0x5073),
  (0x5448, 0x4F56_4AEE_4954),
  (0x544E, 0x579E),
  (0x5451, 0x50B0),
  (0x545F, 0x57A2),
  (0x5468, 0x48A1),
  (0x546A, 0x548D),
  (0x5470, 0x57A5_57A3),
  (0x5473, 0x477F),
  (0x5475, 0x57A0_57AA_57A4),
  (0x547B, 0x57A7_4AF6_49B0),
  (0x5480, 0x57A8),
  (0x5484, 0x57AB),
  (0x5486, 0x57AD),
  (0x548A, 0x57AE_4F50_457A),
  (0x548E, 0x57A1_579F_57AC),
  (0x5492, 0x57A6),
  (0x549C, 0x57A9),
  (0x54A2, 0x57B2),
  (0x54A4, 0x57BC_57B4),
  (0x54A8, 0x57B9_57BD),
  (0x54AB, 0x57BA_57B5),
  (0x54AF, 0x57B1),
  (0x54B2, 0x4CDE_53E9),
  (0x54B8, 0x57B3),
  (0x54BC, 0x57B0_52B1_57BE),
  (0x54C0, 0x4EF9_45D0_57BB),
  (0x54C4, 0x57B6),
  (0x54C7, 0x57AF_57B8_4A6B),
  (0x54D8, 0x57B7),
  (0x54E1, 0x46CB_57C7),
  (0x54E5, 0x57BF_57C1),
  (0x54E8, 0x5568_55F0),
  (0x54ED, 0x57C6_57C5),
  (0x54F2, 0x4747),
  (0x54FA, 0x547C),
  (0x54FD, 0x57C4),
  (0x54FF, 0x57C0),
  (0x5504, 0x4CDB),
  (0x5506, 0x51B8_4F76),
  (0x550F, 0x57C2_4BAB),
  (0x5514, 0x57C3),
  (0x5516, 0x54D4),
  (0x552E, 0x57CC_4BE0),
  (0x5531, 0x4D43),
  (0x5533, 0x57D2),
  (0x5538, 0x57D1_57C8),
  (0x553E, 0x5478),
  (0x5540, 0x57C9),
  (0x5544, 0x5383_57CE_46BE),
  (0x554C, 0x57CB),
  (0x554F, 0x46E4),
  (0x5553, 0x47E4),
  (0x5556, 0x57CF_57D0),
  (0x555C, 0x57CD_57D3_54D4),
  (0x5563, 0x57CA),
  (0x557B, 0x57D8_57DD),
  (0x557E, 0x57D9),
  (0x5580, 0x57D5),
  (0x5583, 0x57DF_46B3),
  (0x5586, 0x57DE_57E1),
  (0x5589, 0x5253_57D6_5558),
  (0x5598, 0x57DA_57D4_52B5),
  (0x559C, 0x45D1_5475_57DB_57D7),
  (0x55A7, 0x4FD3_57E2_57E0_5168_4D6D_4C5F),
  (0x55AE, 0x57DC),
  (0x55B0, 0x4EB9),
  (0x55B6, 0x48D3),
  (0x55C4, 0x57E5_57E3),
  (0x55C7, 0x5858),
  (0x55D4, 0x57E8),
  (0x55DA, 0x52A2),
  (0x55DC, 0x57E6),
  (0x55DF, 0x57E4),
  (0x55E3, 0x4B5E_57E7),
  (0x55F7, 0x57EB),
  (0x55F9, 0x57E9),
  (0x55FD, 0x57EE_57ED),
  (0x5606, 0x5063),
  (0x5609, 0x477E),
  (0x5614, 0x57EA),
  (0x5616, 0x57EC_54EC_50F3),
  (0x561B, 0x57EF),
  (0x5629, 0x52CA),
  (0x562F, 0x57F8),
  (0x5631, 0x50CA_57F3),
  (0x5634, 0x547F),
  (0x5636, 0x57F2),
  (0x5638, 0x57F4),
  (0x5642, 0x529B),
  (0x564C, 0x5062),
  (0x564E, 0x57F0),
  (0x5650, 0x57F1),
  (0x565B, 0x547D),
  (0x5664, 0x57F6),
  (0x5668, 0x45FC),
  (0x566A, 0x57FA_57F5_57F9),
  (0x5674, 0x4E6D),
  (0x5678, 0x55F1),
  (0x567A, 0x5582),
  (0x5680, 0x57FE),
  (0x5686, 0x57F7_55D8),
  (0x568A, 0x5841),
  (0x568F, 0x57FD),
  (0x5694, 0x57FC),
  (0x5699, 0x547D),
  (0x56A0, 0x5842),
  (0x56A2, 0x5190),
  (0x56A5, 0x5843),
  (0x56AE, 0x5844),
  (0x56B4, 0x5846),
  (0x56B6, 0x5845),
  (0x56BC, 0x5849),
  (0x56C0, 0x584C_584A_5848_584B),
  (0x56C8, 0x5847),
  (0x56CA, 0x5190),
  (0x56CE, 0x584D),
  (0x56D1, 0x584F),
  (0x56D3, 0x584E),
  (0x56D7, 0x5850_56D4),
  (0x56DA, 0x5065_4544),
  (0x56DE, 0x46A9),
  (0x56E0, 0x4A49),
  (0x56E3, 0x47F0),
  (0x56EE, 0x5851),
  (0x56F0, 0x4B44),
  (0x56F2, 0x4AFA_47C1),
  (0x56F9, 0x5852_4A94),
  (0x56FD, 0x458F),
  (0x56FF, 0x5853_5266),
  (0x5703, 0x53CF_5854),
  (0x5708, 0x5856_5855),
  (0x570B, 0x51BD),
  (0x570D, 0x5857),
  (0x570F, 0x4F49),
  (0x5712, 0x47E1_54E7),
  (0x5716, 0x585A),
  (0x5718, 0x5859),
  (0x571C, 0x585B),
  (0x571F, 0x4684),
  (0x5726, 0x585C_4782_47CD),
  (0x572D, 0x49E6),
  (0x5730, 0x45C2),
  (0x5737, 0x51D1_585D),
  (0x573B, 0x585F),
  (0x5740, 0x5861),
  (0x5742, 0x45EC),
  (0x5747, 0x49AE),
  (0x574A, 0x4C55),
  (0x574E, 0x585E_5862_4E8D_4EF3),
  (0x5759, 0x5860),
  (0x5761, 0x5865),
  (0x5764, 0x53A6_5863_51C4),
  (0x5769, 0x5398_4949),
  (0x577F, 0x5866),
  (0x5782, 0x4BC9),
  (0x5788, 0x5864_5867),
  (0x578B, 0x46E6),
  (0x5793, 0x5868),
  (0x57A0, 0x5869),
  (0x57A2, 0x5466_47CE_586A),
  (0x57AA, 0x586D),
  (0x57AC, 0x586C),
  (0x57B0, 0x53CD),
  (0x57B3, 0x586B),
  (0x57C0, 0x5871),
  (0x57C3, 0x586E),
  (0x57C6, 0x586F_5873_5870),
  (0x57CB, 0x4EAC),
  (0x57CE, 0x45DB),
  (0x57D2, 0x5874_5875_5872),
  (0x57D6, 0x5876),
  (0x57DC, 0x4DF4),
  (0x57DF, 0x48E9_517E),
  (0x57E3, 0x5879),
  (0x57F4, 0x4F48),
  (0x57F7, 0x4D57),
  (0x57F9, 0x4DAC_46F1),
  (0x57FC, 0x46A3),
  (0x5800, 0x469D),
  (0x5802, 0x497F),
  (0x5805, 0x4AE7_5371),
  (0x580A, 0x5878_587A),
  (0x5815, 0x53B0),
  (0x5819, 0x587B),
  (0x581D, 0x53A7),
  (0x5821, 0x587C),
  (0x5824, 0x4B61),
  (0x582A, 0x4FAC),
  (0x582F, 0x4E53_50A4_49B8),
  (0x5834, 0x45D9_54F6),
  (0x583A, 0x4A7C),
  (0x583D, 0x5880),
  (0x5840, 0x539F_4BEB),
  (0x584A, 0x5053_587D),
  (0x5851, 0x4EC6_5881),
  (0x5854, 0x4CCB),
  (0x5857, 0x486A_52F8_4F6F_4657),
  (0x585E, 0x53C1),
  (0x5861, 0x4F5E_587E),
  (0x5869, 0x4743),
  (0x586B, 0x4F5E),
  (0x5870, 0x5883),
  (0x5872, 0x5886),
  (0x5875, 0x4D89),
  (0x5879, 0x5884),
  (0x587E, 0x5279),
  (0x5883, 0x4A95),
  (0x5885, 0x5885),
  (0x5893, 0x4EBE),
  (0x5897, 0x464D),
  (0x589C, 0x5150),
  (0x589E, 0x588A_5887),
  (0x58A8, 0x4AFC),
  (0x58AB, 0x5888),
  (0x58AE, 0x588B),
  (0x58B2, 0x588C_5289),
  (0x58B8, 0x5889_588D_588E_5552),
  (0x58BE, 0x5488),
  (0x58C1, 0x4B95),
  (0x58C5, 0x588F),
  (0x58C7, 0x4E8E),
  (0x58CA, 0x4EC8),
  (0x58CC, 0x5196),
  (0x58D1, 0x5891),
  (0x58D3, 0x5890),
  (0x58D5, 0x55B9),
  (0x58D7, 0x5892_5894_5893),
  (0x58DC, 0x5896),
  (0x58DE, 0x5895_5897),
  (0x58E4, 0x5898_5899),
  (0x58EB, 0x467D_514F),
  (0x58EE, 0x4C9F_589A_496C_4EB0_4775),
  (0x58F7, 0x589B),
  (0x58F9, 0x589C_5077_589D_589E_5275),
  (0x5902, 0x589F),
  (0x5909, 0x476F_58A0_58A1),
  (0x590F, 0x497E_58A2),
  (0x5915, 0x4AC3_4694),
  (0x5918, 0x52C8_54DD_45FE_58A3_48C8),
  (0x5922, 0x4B8B),
  (0x5925, 0x58A5),
  (0x5927, 0x455B),
  (0x5929, 0x468A_45AB_4573_58A6_58A7_4792),
  (0x5931, 0x4941_58A8),
  (0x5937, 0x5147_58A9),
  (0x593E, 0x58AA),
  (0x5944, 0x52F2),
  (0x5947, 0x4D69_45E6_4DB2),
  (0x594E, 0x518F_4C53_58AC_4C64),
  (0x5953, 0x58AD_5284_58AB),
  (0x5957, 0x5583_58AF),
  (0x595A, 0x58AE_58B0),
  (0x595D, 0x58B1),
  (0x5960, 0x58B4),
  (0x5962, 0x58B3_58B2),
  (0x5965, 0x46E5),
  (0x5967, 0x58B5_4ECA_58B7_4EBB),
  (0x596C, 0x58B6),
  (0x596E, 0x4EDD),
  (0x5973, 0x4699_4D90),
  (0x5978, 0x58B8),
  (0x597D, 0x469E),
  (0x5981, 0x58B9_4BF8_51A2_554D),
  (0x598A, 0x5043),
  (0x598D, 0x58BA),
  (0x5993, 0x5395),
  (0x5996, 0x53D1),
  (0x5999, 0x4A66),
  (0x599B, 0x58BB),
  (0x599D, 0x58BC),
  (0x59A3, 0x58BD_58BE_4D9E),
  (0x59A8, 0x50EC),
  (0x59AC, 0x537F),
  (0x59B2, 0x58BF),
  (0x59B9, 0x4BDC_58C0_49A3),
  (0x59BE, 0x53AF),
  (0x59C6, 0x58C1),
  (0x59C9, 0x4CC1),
  (0x59CB, 0x4990),
  (0x59D0, 0x549C_53F2),
  (0x59D3, 0x4FF1_484F),
  (0x59D9, 0x58C3_58C4),
  (0x59DC, 0x5184),
  (0x59E5, 0x5255_55DE),
  (0x59E8, 0x58C2),
  (0x59EA, 0x558C_4AB3),
  (0x59F6, 0x5179),
  (0x59FB, 0x52B9),
  (0x59FF, 0x4B42),
  (0x5A01, 0x4C65),
  (0x5A03, 0x557A),
  (0x5A09, 0x58CA),
  (0x5A11, 0x58C7),
  (0x5A18, 0x4B54),
  (0x5A1A, 0x58C9),
  (0x5A1C, 0x58C8),
  (0x5A1F, 0x58C6_524C),
  (0x5A25, 0x58C5),
  (0x5A29, 0x549F),
  (0x5A2F, 0x50B5),
  (0x5A35, 0x58CE_58CF),
  (0x5A3C, 0x5498),
  (0x5A40, 0x58CB_50F8),
  (0x5A46, 0x4ECC),
  (0x5A49, 0x58CD),
  (0x5A5A, 0x4A77),
  (0x5A62, 0x58D0),
  (0x5A66, 0x496F),
  (0x5A6A, 0x58D1),
  (0x5A6C, 0x58CC),
  (0x5A7F, 0x5454),
  (0x5A92, 0x4D80),
  (0x5A9A, 0x58D2_4855),
  (0x5ABC, 0x58D3_58D8_58D4),
  (0x5AC1, 0x4E89_58D7),
  (0x5AC9, 0x53E0),
  (0x5ACB, 0x58D6_4EC3),
  (0x5AD0, 0x58D5),
  (0x5AD6, 0x58DD_58DA),
  (0x5AE1, 0x5567),
  (0x5AE3, 0x58D9),
  (0x5AE6, 0x58DB),
  (0x5AE9, 0x58DC),
  (0x5AFA, 0x58DE_58DF),
  (0x5B09, 0x4F8B),
  (0x5B0B, 0x58E1_58E0),
  (0x5B16, 0x58E2),
  (0x5B22, 0x4DE4),
  (0x5B2A, 0x58E4),
  (0x5B2C, 0x52EA),
  (0x5B30, 0x55E8),
  (0x5B32, 0x58E3),
  (0x5B36, 0x58E5),
  (0x5B3E, 0x58E6),
  (0x5B40, 0x58E9),
  (0x5B43, 0x58E7),
  (0x5B45, 0x58E8),
  (0x5B50, 0x4564_58EA),
  (0x5B54, 0x4BD9_58EB_58EC_48F2_4A41),
  (0x5B5A, 0x5258_58EE_4FF2_45F4),
  (0x5B5F, 0x4F83),
  (0x5B63, 0x4AEC_4EAF_58EF_45BE),
  (0x5B69, 0x58F0),
  (0x5B6B, 0x4C5E),
  (0x5B70, 0x58F1_595B),
  (0x5B73, 0x58F2),
  (0x5B75, 0x58F3),
  (0x5B78, 0x58F4),
  (0x5B7A, 0x58F5),
  (0x5B80, 0x58F6),
  (0x5B83, 0x58F7),
  (0x5B85, 0x486F),
  (0x5B87, 0x46D5_46F0_45A8),
  (0x5B8B, 0x524D_48C5_4C75),
  (0x5B8F, 0x46C8),
  (0x5B95, 0x515C),
  (0x5B97, 0x47DD_49A2_4D64_45E7_50AB_4D8B_494D),
  (0x5B9F, 0x45ED),
  (0x5BA2, 0x4ADE_498F_47B8_4F7A_58F8),
  (0x5BAE, 0x4592),
  (0x5BB0, 0x4ED4),
  (0x5BB3, 0x4968_5078_52EF_4686),
  (0x5BB8, 0x58F9_4889),
  (0x5BBF, 0x4882_58FC),
  (0x5BC2, 0x4FE9_58FA_49DF_4A84_4A56_58FB),
  (0x5BC9, 0x58FD),
  (0x5BCC, 0x45AC),
  (0x5BD0, 0x5941),
  (0x5BD2, 0x4B81_55F4_5244),
  (0x5BD8, 0x5942),
  (0x5BDB, 0x47F8),
  (0x5BDD, 0x4B59_5943_4B93),
  (0x5BE1, 0x52B8_5946),
  (0x5BE4, 0x5945_5947_51FC_4FA9_5C7E_4987),
  (0x5BEB, 0x5948_5944),
  (0x5BEE, 0x4C7A),
  (0x5BF0, 0x5949),
  (0x5BF3, 0x594A),
  (0x5BF5, 0x5556_594B),
  (0x5BF8, 0x4B60),
  (0x5BFA, 0x46A0),
  (0x5BFE, 0x4656_46B2),
  (0x5C01, 0x4D76_49FB),
  (0x5C04, 0x498A_594C_4959_594D_594E_5189_4CEF_4D5F),
  (0x5C0D, 0x594F_48AE_455D),
  (0x5C11, 0x484A),
  (0x5C13, 0x5950),
  (0x5C16, 0x53C0),
  (0x5C1A, 0x4871),
  (0x5C1E, 0x5951),
  (0x5C20, 0x5952),
  (0x5C22, 0x5953),
  (0x5C24, 0x53AE),
  (0x5C28, 0x5954),
  (0x5C2D, 0x6880),
  (0x5C31, 0x4BEE),
  (0x5C38, 0x5955_515D_4C6B_49CE_4A86_4FB9_45C8_4CC6_488B_5956),
  (0x5C45, 0x485E_5957),
  (0x5C48, 0x4D94),
  (0x5C4A, 0x4DA7_45E9),
  (0x5C4D, 0x55BA_5958_5443_595A_54B2),
  (0x5C53, 0x5959),
  (0x5C55, 0x48DD),
  (0x5C5B, 0x5443),
  (0x5C5E, 0x476D),
  (0x5C60, 0x53FB_55C0_55C0),
  (0x5C64, 0x4A8E_4CA2),
  (0x5C6C, 0x595C),
  (0x5C6E, 0x595D_4FDD),
  (0x5C71, 0x4565),
  (0x5C76, 0x595E),
  (0x5C79, 0x595F),
  (0x5C8C, 0x5960),
  (0x5C90, 0x474A_525A),
  (0x5C94, 0x5961),
  (0x5CA1, 0x4572),
  (0x5CA6, 0x5967),
  (0x5CA8, 0x54B9_45BF),
  (0x5CAB, 0x5963_50D5),
  (0x5CB1, 0x5262),
  (0x5CB3, 0x4D46),
  (0x5CB6, 0x5965_5966_4748),
  (0x5CBA, 0x5968_5964_596A),
  (0x5CBE, 0x5962),
  (0x5CC5, 0x5969),
  (0x5CC7, 0x596B),
  (0x5CD9, 0x596C),
  (0x5CE0, 0x4F96_51B3),
  (0x5CE8, 0x4F9D_596D_5972),
  (0x5CED, 0x5971),
  (0x5CEF, 0x4AAC_48FE),
  (0x5CF5, 0x5970_456F),
  (0x5CFA, 0x596F_5072),
  (0x5CFD, 0x596E),
  (0x5D07, 0x4C7F),
  (0x5D0B, 0x5973),
  (0x5D0E, 0x457F),
  (0x5D11, 0x5977),
  (0x5D14, 0x514D_5974_5074_54F1_597C_597B_597A_5976),
  (0x5D1F, 0x5975),
  (0x5D22, 0x5979),
  (0x5D27, 0x5978),
  (0x5D29, 0x4F5F),
  (0x5D42, 0x5984),
  (0x5D4B, 0x5983_597D),
  (0x5D4E, 0x5982),
  (0x5D50, 0x498C),
  (0x5D52, 0x597E_597F),
  (0x5D5C, 0x5981),
  (0x5D69, 0x509E),
  (0x5D6C, 0x5985_5987),
  (0x5D6F, 0x4ED3),
  (0x5D73, 0x5986),
  (0x5D76, 0x5988),
  (0x5D82, 0x598B),
  (0x5D84, 0x598A),
  (0x5D87, 0x5989),
  (0x5D8B, 0x47D1_598C),
  (0x5D90, 0x598F),
  (0x5D9D, 0x598E),
  (0x5DA2, 0x598D),
  (0x5DAC, 0x5990),
  (0x5DAE, 0x5991),
  (0x5DB7, 0x5992_5993_5995_4CE8),
  (0x5DBC, 0x5994_4F84),
  (0x5DC9, 0x5996),
  (0x5DCC, 0x49CF_5281),
  (0x5DD0, 0x5997),
  (0x5DD2, 0x5999_5998),
  (0x5DD6, 0x51DF),
  (0x5DDB, 0x599A),
  (0x5DDD, 0x4567_4741),
  (0x5DE1, 0x4D47),
  (0x5DE3, 0x4C67),
  (0x5DE5, 0x456A_485B_4CA3_4A52),
  (0x5DEB, 0x599B),
  (0x5DEE, 0x498B),
  (0x5DF1, 0x47AD_4A4B_4AE6_4E7D_599C),
  (0x5DF7, 0x53CB),
  (0x5DFB, 0x4893),
  (0x5DFD, 0x4E46_4A7D),
  (0x5E02, 0x4553_476B),
  (0x5E06, 0x4F75),
  (0x5E0B, 0x599D_4AB5),
  (0x5E11, 0x59A0),
  (0x5E16, 0x51C7),
  (0x5E19, 0x599F_599E_59A1),
  (0x5E1D, 0x489C),
  (0x5E25, 0x52AF),
  (0x5E2B, 0x4A44),
  (0x5E2D, 0x4B53),
  (0x5E2F, 0x4960_4982),
  (0x5E33, 0x4DC5),
  (0x5E36, 0x59A2_54BE_46EF),
  (0x5E3D, 0x4C85),
  (0x5E40, 0x59A5),
  (0x5E43, 0x59A4_59A3_4A5E),
  (0x5E47, 0x59A6),
  (0x5E4C, 0x496B),
  (0x5E4E, 0x59A7),
  (0x5E54, 0x59A9_4CCA),
  (0x5E57, 0x59A8),
  (0x5E5F, 0x5483),
  (0x5E61, 0x48DE_59AA_4E7F_59AB),
  (0x5E72, 0x4A6F_458D_4560_59AC_59AD),
  (0x5E78, 0x45A9_48DA_59AE_50A2_4DAF_525F_4B57_59AF),
  (0x5E81, 0x4B92),
  (0x5E83, 0x45B7_4850),
  (0x5E87, 0x558D),
  (0x5E8A, 0x4AED),
  (0x5E8F, 0x4D4F),
  (0x5E95, 0x4B64_554F_4854),
  (0x5E9A, 0x515A),
  (0x5E9C, 0x4551),
  (0x5EA0, 0x59B0),
  (0x5EA6, 0x45DE_48B1),
  (0x5EAB, 0x45F8),
  (0x5EAD, 0x48E0),
  (0x5EB5, 0x4EEB_50C1_469A_4C5D),
  (0x5EC1, 0x59B1_59B2_4BC7),
  (0x5EC8, 0x59B3_4EDB_4EA7),
  (0x5ECF, 0x59B5_59B4),
  (0x5ED3, 0x54AD),
  (0x5ED6, 0x536C),
  (0x5EDA, 0x59B7_59B8),
  (0x5EDD, 0x59B6),
  (0x5EDF, 0x55AF_5562_59BA_59B9_50E9),
  (0x5EE8, 0x59BB_59BC),
  (0x5EEC, 0x59BD),
  (0x5EF0, 0x59BE_59BF),
  (0x5EF3, 0x59C0_59C1),
  (0x5EF6, 0x47D0_505B_52D6),
  (0x5EFA, 0x4666_4BAF_5564),
  (0x5EFE, 0x544B_51D9),
  (0x5F01, 0x4B47),
  (0x5F03, 0x59C2_54BF),
  (0x5F09, 0x59C3_50CD_59C4_5641_5651),
  (0x5F0F, 0x468F_50E1_59C5),
  (0x5F13, 0x4B63_51E5_46DA_59C6_54AC_45D3),
  (0x5F1B, 0x5597),
  (0x5F1F, 0x4C9B),
  (0x5F21, 0x59C7),
  (0x5F25, 0x47E6_4E42_536B),
  (0x5F29, 0x59C8),
  (0x5F2D, 0x59C9),
  (0x5F2F, 0x59CA),
  (0x5F31, 0x4B6E),
  (0x5F34, 0x59CB_48BA),
  (0x5F37, 0x46D2_59CC),
  (0x5F3C, 0x52E0),
  (0x5F3E, 0x4AD4),
  (0x5F41, 0x59CD),
  (0x5F45, 0x53C7),
  (0x5F48, 0x59CE),
  (0x5F4A, 0x5385),
  (0x5F4C, 0x59CF),
  (0x5F4E, 0x59D0),
  (0x5F51, 0x59D1),
  (0x5F53, 0x465F),
  (0x5F56, 0x59D2_59D3),
  (0x5F59, 0x59D4),
  (0x5F5C, 0x59D5_59D6),
  (0x5F61, 0x59D7_4690),
  (0x5F66, 0x45E1_59D8),
  (0x5F69, 0x4DCD_5159_4E86_4E88_529C),
  (0x5F70, 0x4964_495E),
  (0x5F73, 0x59D9),
  (0x5F77, 0x59DA),
  (0x5F79, 0x495D),
  (0x5F7C, 0x4772),
  (0x5F7F, 0x59DD_4CEA_4A61_59DC_59DB_4E60_48A3),
  (0x5F87, 0x59E0_59DF),
  (0x5F8A, 0x59DE_4991_45E5),
  (0x5F90, 0x50B3_59E1_4C6C_48FB),
  (0x5F97, 0x47E8_59E4_59E2),
  (0x5F9E, 0x59E3),
  (0x5FA0, 0x59E5_4698),
  (0x5FA8, 0x59E6_4A70_4EF5),
  (0x5FAD, 0x59E7_4B5D),
  (0x5FB3, 0x4654_4C74),
  (0x5FB7, 0x59E8),
  (0x5FB9, 0x48F8),
  (0x5FBC, 0x59E9_55E0),
  (0x5FC3, 0x46E7),
  (0x5FC5, 0x47CA),
  (0x5FCC, 0x5097_4BD7),
  (0x5FD6, 0x59EA_4661_4C45_4EA3),
  (0x5FDC, 0x4895_59F0_59F1),
  (0x5FE0, 0x464F),
  (0x5FE4, 0x59EC),
  (0x5FEB, 0x4C60),
  (0x5FF0, 0x59EF_59EE),
  (0x5FF5, 0x4AAE),
  (0x5FF8, 0x59ED),
  (0x5FFB, 0x59EB),
  (0x5FFD, 0x5056),
  (0x5FFF, 0x59F2),
  (0x600E, 0x59F7_59FD_59F5),
  (0x6012, 0x4CD6),
  (0x6015, 0x59FA_4EF0),
  (0x6019, 0x59F4),
  (0x601B, 0x59F9_509F_46AD),
  (0x6020, 0x5081_59F3),
  (0x6025, 0x47CC_59FC_466E_54DE_59F6_4E71_59FB),
  (0x602F, 0x5542),
  (0x6031, 0x59F8),
  (0x603A, 0x59FE),
  (0x6041, 0x5A42_5256_5A4C),
  (0x6046, 0x5A49),
  (0x604A, 0x5A48_4BCA),
  (0x604D, 0x5A4A),
  (0x6050, 0x4BD5),
  (0x6052, 0x47C7),
  (0x6055, 0x5298),
  (0x6059, 0x5A50_5A41),
  (0x605D, 0x5A44),
  (0x605F, 0x5A47_5A43),
  (0x6062, 0x5594_5A4B_5A4D_4ECE),
  (0x6068, 0x53B8_4C81_5A45_5A4F_5A4E_494E),
  (0x606F, 0x4BB0_5384),
  (0x6075, 0x4643),
  (0x6077, 0x5A46),
  (0x6081, 0x5A52),
  (0x6083, 0x5A53_5A55_5A51),
  (0x6089, 0x5469_5A57_5A5C_4DE3_5544),
  (0x6092, 0x5A5A),
  (0x6094, 0x5091),
  (0x6096, 0x5A58_5A59),
  (0x609A, 0x5A54_5A56),
  (0x609F, 0x4AB1_4DD8),
  (0x60A3, 0x4DEB),
  (0x60A6, 0x4873_5A5B),
  (0x60A9, 0x4BCD_4965),
  (0x60B2, 0x4C9D_5276_53A3_5A64_5554),
  (0x60B8, 0x5A5E),
  (0x60BC, 0x5145_5A62),
  (0x60C5, 0x485F_5A63_4E65),
  (0x60D1, 0x4E78),
  (0x60D3, 0x5A61),
  (0x60D5, 0x5A65),
  (0x60D8, 0x5A66),
  (0x60DA, 0x549D),
  (0x60DC, 0x4ED7),
  (0x60DE, 0x5A5F_4FE0_5A60_5A5D),
  (0x60E3, 0x4B68),
  (0x60E7, 0x554A_506E),
  (0x60F0, 0x54B8_5A73_5A68_48B3_5A6E),
  (0x60F6, 0x5A6B_5A6C),
  (0x60F9, 0x5472_5A6F_5A72),
  (0x6100, 0x5A6D_5282),
  (0x6103, 0x5A70),
  (0x6106, 0x5A6A),
  (0x6108, 0x53C8_5098),
  (0x610D, 0x5A74_5A75_4763),
  (0x6111, 0x5A76),
  (0x6115, 0x5A69),
  (0x611A, 0x52B2_45C6),
  (0x611F, 0x47F7_5A67_5A71),
  (0x6127, 0x5A7B_5A7A),
  (0x612C, 0x5A80),
  (0x6130, 0x5A7E),
  (0x6134, 0x5A81),
  (0x6137, 0x5A79),
  (0x613C, 0x5A7F_5A84_5A7C_51E3),
  (0x6142, 0x5A85),
  (0x6144, 0x5A86),
  (0x6147, 0x5A77_4CBE),
  (0x614A, 0x5A7D_48FD_538E_5A78_4A76),
  (0x6153, 0x5A92),
  (0x6155, 0x52E3),
  (0x6158, 0x5A8A_5A8B_5A8C),
  (0x615D, 0x5A83),
  (0x615F, 0x5A91),
  (0x6162, 0x4DDB_4DD3),
  (0x6165, 0x5A82),
  (0x6167, 0x4EB6_528A),
  (0x616B, 0x5A8D),
  (0x616E, 0x4C49_5A8F_4FAD_5A90),
  (0x6173, 0x5A87_5A8E_5A93_48A8_5A89),
  (0x617E, 0x53F4),
  (0x6182, 0x507C),
  (0x6187, 0x5A88),
  (0x618A, 0x5A99),
  (0x618E, 0x4F4A),
  (0x6190, 0x555B_5A9A),
  (0x6194, 0x5A98),
  (0x6196, 0x5A96),
  (0x6198, 0x5A94_5A95_55CF),
  (0x61A4, 0x4FFC),
  (0x61A7, 0x53C2),
  (0x61A9, 0x5175),
  (0x61AB, 0x5A9B_5A97),
  (0x61AE, 0x5A9C),
  (0x61B2, 0x47BE),
  (0x61B6, 0x4E6C),
  (0x61BA, 0x5AA3),
  (0x61BE, 0x51A5),
  (0x61C3, 0x5AA1),
  (0x61C6, 0x5AA2_4EA4_5AA0_5A9F_5A9E_5AA4_5A9D_5AA6),
  (0x61D0, 0x4EF2),
  (0x61E3, 0x5AA8),
  (0x61E6, 0x5AA7),
  (0x61F2, 0x5153),
  (0x61F4, 0x5AA9),
  (0x61F6, 0x5AAB_5AAA_4DC6),
  (0x61FA, 0x5AAD),
  (0x61FC, 0x5AAF_5AAC_5AB0_5AAE_5AB1),
  (0x6208, 0x5AB2_5AB3_5161),
  (0x620C, 0x5460_5AB4_517F),
  (0x6210, 0x45BA_49DE_4DA0_5AB5_5AB6),
  (0x6216, 0x4D7F),
  (0x621A, 0x5595_5AB7),
  (0x621D, 0x646E_5AB8_54D9),
  (0x6221, 0x5AB9),
  (0x6226, 0x4764),
  (0x622A, 0x5ABA),
  (0x622E, 0x5ABB_4F92_5ABC),
  (0x6232, 0x5ABD_5ABE_5092),
  (0x6238, 0x45CF),
  (0x623B, 0x4C44),
  (0x623F, 0x47DC_458C_5ABF),
  (0x6247, 0x4DCA_655D_50AD),
  (0x624B, 0x45CB),
  (0x624D, 0x49F1_5AC0),
  (0x6253, 0x47EA),
  (0x6255, 0x4981),
  (0x6258, 0x55D5),
  (0x625B, 0x5AC3),
  (0x625E, 0x5AC1),
  (0x6260, 0x5AC4),
  (0x6263, 0x5AC2),
  (0x6268, 0x5AC5),
  (0x626E, 0x54B7),
  (0x6271, 0x4C69),
  (0x6276, 0x4D7A),
  (0x6279, 0x4C76),
  (0x627C, 0x5AC6),
  (0x627E, 0x5ACA_4C48_48F7),
  (0x6282, 0x5AC7_5ACD_4EC0),
  (0x6289, 0x5AC8_4EE3),
  (0x6291, 0x4D66_5AC9_5ACB_5ACE_4751_5ACC_4A67_498D),
  (0x629B, 0x5ADC_4A85),
  (0x629E, 0x4E7E),
  (0x62A6, 0x5ADA),
  (0x62AB, 0x4FA6_5AD3),
  (0x62B1, 0x4C86),
  (0x62B5, 0x4B90),
  (0x62B9, 0x51E0),
  (0x62BB, 0x5AD1_49E1_4D53),
  (0x62C2, 0x5AD9),
  (0x62C5, 0x4AA1_5AD4_5ADB_5AD5_5ADD_5AD8),
  (0x62CC, 0x5345_4FBA),
  (0x62CF, 0x5AD2_53A2_5AD0_4F61_4BDB_5AD7),
  (0x62D7, 0x5ACF_5045_525C),
  (0x62DB, 0x4BFD_5AD6_4EE2),
  (0x62E0, 0x4D77_48E5),
  (0x62EC, 0x4FC5_4EE5_5ADF_5AE4),
  (0x62F1, 0x5AE0),
  (0x62F3, 0x508D),
  (0x62F5, 0x5AE5_4F9E_55B5),
  (0x62FE, 0x4DD7_5AE6),
  (0x6301, 0x46D8_5AE2),
  (0x6307, 0x47B6_5AE3_5489),
  (0x630C, 0x5ADE),
  (0x6311, 0x4FDB),
  (0x6319, 0x4B82),
  (0x631F, 0x55B1),
  (0x6327, 0x5AE1_4F81),
  (0x632B, 0x548F),
  (0x632F, 0x48F6),
  (0x633A, 0x5387),
  (0x633D, 0x52A8_5AE9_5555),
  (0x6349, 0x53A0),
  (0x634C, 0x557D_5AE8),
  (0x634F, 0x5AEA_5AE7),
  (0x6355, 0x4C41),
  (0x6357, 0x5546),
  (0x635C, 0x4DDD),
  (0x6367, 0x5285_4BB3_5AF5),
  (0x636B, 0x5AF4),
  (0x636E, 0x4ED6),
  (0x6372, 0x5493),
  (0x6376, 0x5AEF_4D8F),
  (0x637A, 0x4FC0_54C0),
  (0x6380, 0x5AED),
  (0x6383, 0x4DC3),
  (0x6388, 0x4C61_5AF2),
  (0x638C, 0x4EEC),
  (0x638E, 0x5AEC_5AF1),
  (0x6392, 0x4CFA),
  (0x6396, 0x5AEB),
  (0x6398, 0x4D44),
  (0x639B, 0x4AE3),
  (0x639F, 0x5AF3_55E6_4B4F_4B7F_5AF0),
  (0x63A5, 0x47A8),
  (0x63A7, 0x4CAC_48D5_55D0_4A60_5AEE_5541),
  (0x63B2, 0x4DC1),
  (0x63B4, 0x54CD_5AF6),
  (0x63BB, 0x54A3),
  (0x63BE, 0x5AF7),
  (0x63C0, 0x5AF9),
  (0x63C3, 0x4EFD_5B42),
  (0x63C6, 0x5AFA),
  (0x63C9, 0x5AFD),
  (0x63CF, 0x4BCF_49B9),
  (0x63D2, 0x5AFE),
  (0x63D6, 0x4CF2),
  (0x63DA, 0x4C46_49AA),
  (0x63E1, 0x4D60),
  (0x63E3, 0x5AFC),
  (0x63E9, 0x5AF8),
  (0x63EE, 0x4BF2),
  (0x63F4, 0x4AD5_5AFB_5B41),
  (0x63FA, 0x4F7E),
  (0x6406, 0x5B44),
  (0x640D, 0x4BD8),
  (0x640F, 0x5B4B),
  (0x6413, 0x5B45_54A3),
  (0x6416, 0x5B4C_5B49),
  (0x641C, 0x5B48),
  (0x6426, 0x5B46),
  (0x6428, 0x5B4A),
  (0x642C, 0x4DC8_528F),
  (0x6434, 0x5B43),
  (0x6436, 0x5B47),
  (0x643A, 0x4E49),
  (0x643E, 0x50A3),
  (0x6442, 0x4E8C),
  (0x644E, 0x5B4D),
  (0x6451, 0x54CD),
  (0x6458, 0x4DCB),
  (0x6460, 0x5B50),
  (0x6467, 0x5B4E),
  (0x6469, 0x48D1),
  (0x646F, 0x5B4F),
  (0x6476, 0x5B51),
  (0x6478, 0x55F5),
  (0x647A, 0x51EF),
  (0x6483, 0x4A74),
  (0x6488, 0x5B5A),
  (0x6492, 0x53DE_5B57),
  (0x6495, 0x5B55),
  (0x649A, 0x5348),
  (0x649D, 0x5B53_55DB),
  (0x64A4, 0x4E7A_5B58),
  (0x64A9, 0x5B59),
  (0x64AB, 0x51E1),
  (0x64AD, 0x4E62_4C77),
  (0x64B0, 0x5372),
  (0x64B2, 0x4EC7),
  (0x64B9, 0x5B52),
  (0x64BB, 0x5B56_5B5B),
  (0x64C1, 0x514E_5B62),
  (0x64C5, 0x5B5E),
  (0x64C7, 0x5B5F),
  (0x64CD, 0x499B_5B54),
  (0x64D2, 0x5B5D),
  (0x64D4, 0x5B60),
  (0x64D8, 0x5B61),
  (0x64DA, 0x5B5C),
  (0x64E0, 0x5B65_5B66_5543_5B67),
  (0x64E6, 0x4FD6_5B64),
  (0x64EC, 0x4FCD),
  (0x64EF, 0x5B68),
  (0x64F1, 0x5B63_5B6B),
  (0x64F4, 0x5B69),
  (0x64F6, 0x5B6A),
  (0x64FA, 0x5B6C),
  (0x64FD, 0x5B6E_55F6),
  (0x6500, 0x5B6D),
  (0x6505, 0x5B72),
  (0x6518, 0x5B6F),
  (0x651C, 0x5B70_5B71),
  (0x6522, 0x5B72_5B74_5B73),
  (0x652A, 0x527F_5B75_5B76),
  (0x652F, 0x477B),
  (0x6534, 0x5B77_5B78_5B7A_5B79_5B7B_488F),
  (0x653B, 0x4BC5),
  (0x653E, 0x48AF_45C7),
  (0x6545, 0x4AF7),
  (0x6548, 0x5B7D),
  (0x654D, 0x5B80_5B7E_4647),
  (0x6551, 0x4C5C),
  (0x6555, 0x5B82_5B7F_4B8A_5B81_47A5),
  (0x655D, 0x5B83_51B1),
  (0x6562, 0x4FCF_4AC9),
  (0x6566, 0x49F2),
  (0x656C, 0x47B0),
  (0x6570, 0x46CC),
  (0x6572, 0x5B84),
  (0x6574, 0x477C_4BF3),
  (0x6577, 0x4951_5B85),
  (0x6582, 0x5B86_5B87),
  (0x6587, 0x45CA_58ED_468E),
  (0x658C, 0x519D),
  (0x658E, 0x47DB),
  (0x6590, 0x4B80_52E4),
  (0x6597, 0x4E83),
  (0x6599, 0x464E),
  (0x659B, 0x5B89_4BD1),
  (0x659F, 0x5B8A),
  (0x65A1, 0x5581),
  (0x65A4, 0x54CF_5141),
  (0x65A7, 0x51C2),
  (0x65AB, 0x5B8B_4EFC_4989),
  (0x65AF, 0x4EA5_4587),
  (0x65B7, 0x5B8C),
  (0x65B9, 0x45CD),
  (0x65BC, 0x4DA4_4888),
  (0x65C1, 0x5B8F),
  (0x65C3, 0x5B8D_5B90_4ACF_5B8E),
  (0x65CB, 0x4D7B_5B91),
  (0x65CF, 0x4ADC),
  (0x65D2, 0x5B92),
  (0x65D7, 0x4DAB),
  (0x65D9, 0x5B93),
  (0x65DB, 0x5165),
  (0x65E0, 0x5B95_5B94_4B77),
  (0x65E5, 0x4562_4D9D_4C7B_4D6A_46E9),
  (0x65EC, 0x4D67_47EC),
  (0x65F1, 0x5B96),
  (0x65FA, 0x4FA3_5B9C),
  (0x6600, 0x5B97),
  (0x6602, 0x5B99_5B9B),
  (0x6606, 0x4FE7_46FE),
  (0x6609, 0x5B9D_528E),
  (0x660C, 0x46D1),
  (0x660E, 0x45A6_54E8),
  (0x6613, 0x47E9_4C59_5B98),
  (0x661C, 0x5BA3),
  (0x661E, 0x5BA1_47A9_47AC),
  (0x6624, 0x5BA4_4662),
  (0x6627, 0x559D_48E8),
  (0x662D, 0x45B3_5BA0_4BBB),
  (0x6631, 0x52EB),
  (0x6634, 0x5BA2_5B9F_5193),
  (0x663B, 0x4F9F_4C98),
  (0x663F, 0x5B9E),
  (0x6641, 0x5251_4651_48B0_5BA5),
  (0x6649, 0x5BA6),
  (0x664B, 0x4BB2),
  (0x664F, 0x51EA),
  (0x6652, 0x54C3),
  (0x6657, 0x5BA8),
  (0x6659, 0x5BAB),
  (0x665D, 0x5BAD_5BA9_4FCE),
  (0x6662, 0x5BAC),
  (0x6664, 0x5BAA_5BA7_556D_50A0_51B2_4CB6),
  (0x666E, 0x49F8_4993_5BB0),
  (0x6673, 0x5BAF_4795),
  (0x6676, 0x4AF8),
  (0x667A, 0x46A8),
  (0x6681, 0x4C83),
  (0x6683, 0x5BB1_5BB3),
  (0x6687, 0x4F46_5BB2_4ED1),
  (0x668E, 0x4FAB),
  (0x6691, 0x4FBE),
  (0x6696, 0x4D6C_4BE2_5BB5_5BB4),
  (0x669D, 0x5BB7),
  (0x66A0, 0x5BB6),
  (0x66A2, 0x4CC7),
  (0x66A6, 0x50CC),
  (0x66AB, 0x5093),
  (0x66AE, 0x4AFE),
  (0x66B2, 0x5BB8),
  (0x66B4, 0x4CB2),
  (0x66B8, 0x5BBF_5243),
  (0x66BC, 0x5BBE),
  (0x66BE, 0x5BBD_5BBB),
  (0x66C1, 0x5BBA),
  (0x66C4, 0x5BB9),
  (0x66C7, 0x4C56),
  (0x66C9, 0x5BBC),
  (0x66D6, 0x5BC0),
  (0x66D9, 0x5152_5BC1),
  (0x66DC, 0x4BFE_52A6),
  (0x66E0, 0x51CC),
  (0x66E6, 0x5BC2),
  (0x66E9, 0x5BC3),
  (0x66F0, 0x5BC4),
  (0x66F2, 0x49B6_4EBC_4A6D_5BC5),
  (0x66F7, 0x5BC6_479D_4ED2_5BC7_5397_578D_495F_5166_4BC3_46F5),
  (0x6703, 0x56AC),
  (0x6708, 0x4561_4685),
  (0x670B, 0x4BC4),
  (0x670D, 0x47D4_5BC8_54FD),
  (0x6714, 0x4FA4_55F3_5BCA_486E),
  (0x671B, 0x47BB),
  (0x671D, 0x475C_5BCB_468B),
  (0x6726, 0x5BCD_5BCE_456C),
  (0x672A, 0x49C6_4746_4566_48F9_5BD0),
  (0x6731, 0x4D42),
  (0x6734, 0x4EA2),
  (0x6736, 0x5BD2_5BD3_5BD4),
  (0x673A, 0x4D96),
  (0x673D, 0x50F0),
  (0x673F, 0x5BD1),
  (0x6741, 0x534F),
  (0x6746, 0x5BD5),
  (0x6749, 0x4668),
  (0x674E, 0x4E51_50D0_46BC_4556),
  (0x6753, 0x54C1),
  (0x6756, 0x50F4),
  (0x6759, 0x5BD7),
  (0x675C, 0x525D),
  (0x675E, 0x5BD6_4B4B_5480_475E_51A6_5291_5BD9_4676_5BD8),
  (0x676A, 0x5BDE),
  (0x676D, 0x508B),
  (0x676F, 0x4C63_5BDC_4557_5B9A_5BE0),
  (0x6775, 0x4AA6),
  (0x6777, 0x5280),
  (0x677C, 0x54DF),
  (0x677E, 0x4578_46B4),
  (0x6785, 0x5BDB),
  (0x6787, 0x525E),
  (0x6789, 0x5BDA),
  (0x678B, 0x5BDF_54F2),
  (0x6790, 0x4AE2),
  (0x6795, 0x4F78),
  (0x6797, 0x45A2),
  (0x679A, 0x49D9),
  (0x679C, 0x47B9_4672),
  (0x67A0, 0x4FD2_5BE2_52D0),
  (0x67A6, 0x5BE1),
  (0x67A9, 0x5BDD),
  (0x67AF, 0x5061),
  (0x67B3, 0x54C9_5BE6),
  (0x67B6, 0x4EE8_5BE4_5BE9_5BF2),
  (0x67BB, 0x5BE3),
  (0x67C0, 0x5BF0_55CD),
  (0x67C4, 0x4A7F),
  (0x67C6, 0x5BF4),
  (0x67CA, 0x52D9),
  (0x67CE, 0x5BF1_4980_504A_4EC1),
  (0x67D3, 0x489B_4DEA),
  (0x67D8, 0x4FD8),
  (0x67DA, 0x4EE1),
  (0x67DD, 0x5BED_54F3),
  (0x67E2, 0x5BEE),
  (0x67E4, 0x5BEB),
  (0x67E7, 0x5BEA),
  (0x67E9, 0x5BE8),
  (0x67EC, 0x5BE7),
  (0x67EE, 0x5BEF_5BE5),
  (0x67F1, 0x4BEA),
  (0x67F3, 0x46EA_47A7_51F1),
  (0x67FB, 0x4773),
  (0x67FE, 0x5054_4AC1),
  (0x6801, 0x5BF3_52D1_47D3_45FA_51F1),
  (0x6813, 0x50E3),
  (0x6816, 0x4DCC_479B),
  (0x681E, 0x5BF5),
  (0x6821, 0x48BF_5242),
  (0x6829, 0x52DE_4856_52E2),
  (0x6832, 0x5BFA),
  (0x6834, 0x55DA),
  (0x6838, 0x4B9E_4667),
  (0x683C, 0x47DE_4DE0),
  (0x6840, 0x5BF8_50D6_49AB_4ADA_5BF9),
  (0x6846, 0x5BF6),
  (0x6848, 0x48F1),
  (0x684D, 0x5BF7_5BFB),
  (0x6850, 0x49C0_4879_5BEC_536D_534B),
  (0x6859, 0x5BFD),
  (0x685C, 0x4771_4D88),
  (0x685F, 0x51F3),
  (0x6863, 0x5BFC),
  (0x6867, 0x5046),
  (0x6874, 0x5C4B),
  (0x6876, 0x4E77_5C41),
  (0x687E, 0x5C44_5C42),
  (0x6881, 0x4E44),
  (0x6883, 0x5C48),
  (0x6885, 0x4798),
  (0x688D, 0x5BFE_5BFE_5C45),
  (0x6893, 0x50DA_5C47),
  (0x6897, 0x52CC),
  (0x689B, 0x53BC),
  (0x689D, 0x4E92),
  (0x689F, 0x5C43_52C6),
  (0x68A2, 0x50AC),
  (0x68A6, 0x58A4_52D3_4858),
  (0x68AD, 0x5C46),
  (0x68AF, 0x51E4_4682_5359),
  (0x68B3, 0x5361),
  (0x68B5, 0x5C4C_49AD),
  (0x68B9, 0x5C4A_5C4D),
  (0x68BC, 0x5C49),
  (0x68C4, 0x4EB1),
  (0x68C6, 0x5C60),
  (0x68C8, 0x5386_55CA_5C50_4EF1),
  (0x68CD, 0x5C56),
  (0x68CF, 0x5C5F),
  (0x68D2, 0x4B5A),
  (0x68D4, 0x5C57_5C59),
  (0x68D7, 0x54C2_5C52),
  (0x68DA, 0x4BEF),
  (0x68DF, 0x4EA9_5C5E_5C54),
  (0x68E3, 0x5C5D),
  (0x68E7, 0x5C58),
  (0x68EE, 0x459D_5C5B),
  (0x68F2, 0x5375),
  (0x68F9, 0x5494_55B6),
  (0x6900, 0x5468_5C4F),
  (0x6904, 0x5C5C_4FF7),
  (0x6908, 0x5C51),
  (0x690B, 0x4DFD_5C55_47C5_4BA0_5C4E),
  (0x6912, 0x5C5A),
  (0x6919, 0x4FED_5370_5163_486D),
  (0x6921, 0x5C63_5C61_5C64),
  (0x6925, 0x53FA_5C53),
  (0x6928, 0x5C65),
  (0x692A, 0x5C62),
  (0x6930, 0x5C71),
  (0x6934, 0x54A7),
  (0x6936, 0x5C69),
  (0x6939, 0x52ED),
  (0x693D, 0x5C6F),
  (0x693F, 0x4CBA),
  (0x694A, 0x51D7),
  (0x6953, 0x5295_5C6B_55C5),
  (0x6959, 0x5C70_534C),
  (0x695C, 0x54E2_5C73_5C72),
  (0x6960, 0x4ADF_527C_4D93),
  (0x6968, 0x5C6E),
  (0x696A, 0x5C6C_54A2),
  (0x696D, 0x456B_53EF_4FAE),
  (0x6973, 0x52B3_5C6D_49B7),
  (0x6977, 0x5C68_5C6A_5C67),
  (0x697C, 0x52BA_4761_5C74),
  (0x6981, 0x5C75_4C42),
  (0x698A, 0x4B52),
  (0x698E, 0x49EB),
  (0x6991, 0x5476),
  (0x6994, 0x55C7_5C86),
  (0x6998, 0x5C79),
  (0x699B, 0x4D7E_5C85),
  (0x69A0, 0x5C84),
  (0x69A7, 0x538D),
  (0x69AE, 0x514A),
  (0x69B1, 0x5C80_5C76),
  (0x69B4, 0x53B2),
  (0x69BB, 0x5C82),
  (0x69BE, 0x5C7C_5C77),
  (0x69C1, 0x5C7A),
  (0x69C3, 0x5C83),
  (0x69C7, 0x4DB9),
  (0x69CA, 0x5C7F_4796_4EFA_52DB_5C7D),
  (0x69D0, 0x548C),
  (0x69D3, 0x5C7B),
  (0x69D8, 0x4848_6881),
  (0x69DD, 0x5C81_5C87),
  (0x69E2, 0x5C90),
  (0x69E7, 0x5C8F_5C89),
  (0x69EB, 0x5C94),
  (0x69ED, 0x5C92),
  (0x69F2, 0x5C8E),
  (0x69F9, 0x5C8D),
  (0x69FB, 0x4B5C),
  (0x69FD, 0x4DB7),
  (0x69FF, 0x5C8C),
  (0x6A02, 0x5C8A),
  (0x6A05, 0x53BB),
  (0x6A0A, 0x5C95_494F_5C9D),
  (0x6A12, 0x5C97_5C99_5C93),
  (0x6A17, 0x538B),
  (0x6A19, 0x4966),
  (0x6A1B, 0x5C8B),
  (0x6A1E, 0x5C91_539B),
  (0x6A21, 0x4864_5C96_5C98),
  (0x6A29, 0x48DC_45F2_4B6F),
  (0x6A2E, 0x5C88),
  (0x6A30, 0x5C9A),
  (0x6A35, 0x5585_5C9F),
  (0x6A38, 0x5CA7_46CF_4E69),
  (0x6A3D, 0x4BBE),
  (0x6A44, 0x5C9C),
  (0x6A46, 0x5CA6_5CA1_5CA5),
  (0x6A4B, 0x4589),
  (0x6A58, 0x4BC2_5CA3),
  (0x6A5F, 0x4579),
  (0x6A61, 0x55D4_5CA2),
  (0x6A66, 0x5CA4),
  (0x6A6B, 0x5C9B),
  (0x6A72, 0x5CA8_5CA9),
  (0x6A78, 0x5CA0),
  (0x6A7E, 0x5CAF_4FB2_4FF5),
  (0x6A84, 0x5CAC),
  (0x6A8D, 0x5CAB_55EE),
  (0x6A90, 0x5CAA),
  (0x6A97, 0x5CB0),
  (0x6A9C, 0x4D55),
  (0x6AA0, 0x5C9E),
  (0x6AA2, 0x5CAD_5CAE),
  (0x6AAA, 0x5CB2),
  (0x6AAC, 0x5CB1),
  (0x6AAE, 0x545D),
  (0x6AB3, 0x5CB6),
  (0x6AB8, 0x5CB5),
  (0x6ABB, 0x5CB3),
  (0x6AC1, 0x5CB7_5CB4_528B),
  (0x6AD1, 0x5CBA),
  (0x6AD3, 0x5586),
  (0x6ADA, 0x5CBB_4DA6),
  (0x6ADE, 0x5CB8_5362),
  (0x6AE2, 0x5CB9),
  (0x6AE4, 0x5CBC),
  (0x6AE8, 0x51C5),
  (0x6AEA, 0x5CBF),
  (0x6AFA, 0x5CC2_52EE),
  (0x6B04, 0x4EDE_5CC0),
  (0x6B0A, 0x5CC1),
  (0x6B12, 0x5CC3),
  (0x6B16, 0x5CC4),
  (0x6B1D, 0x55F7),
  (0x6B1F, 0x5CC5_4CB5_4597),
  (0x6B23, 0x4B9D),
  (0x6B27, 0x4AA0),
  (0x6B32, 0x4BF6),
  (0x6B37, 0x5CC7_5CC6_5CC8_517D),
  (0x6B3D, 0x4CF8_4EFB),
  (0x6B43, 0x5CCC),
  (0x6B47, 0x5CCB),
  (0x6B49, 0x5CCD),
  (0x6B4C, 0x46F7),
  (0x6B4E, 0x5487),
  (0x6B50, 0x5CCE),
  (0x6B53, 0x4D4E_5CD0),
  (0x6B59, 0x5CCF),
  (0x6B5B, 0x5CD1),
  (0x6B5F, 0x5CD2),
  (0x6B61, 0x5CD3_48D8_4577_4D4C),
  (0x6B66, 0x45B1),
  (0x6B69, 0x47D8_558E),
  (0x6B6F, 0x4A9F),
  (0x6B73, 0x48E4_4955),
  (0x6B78, 0x5CD4_5CD5),
  (0x6B7B, 0x4999),
  (0x6B7F, 0x5CD6_5CD7),
  (0x6B83, 0x5CD9_5CD8),
  (0x6B86, 0x4F42),
  (0x6B89, 0x53A4_4865_4992),
  (0x6B8D, 0x5CDA),
  (0x6B95, 0x5CDC_4E73),
  (0x6B98, 0x5CDB),
  (0x6B9E, 0x5CDD),
  (0x6BA4, 0x5CDE),
  (0x6BAA, 0x5CDF_5CE0),
  (0x6BAF, 0x5CE1),
  (0x6BB1, 0x5CE2_5CE3_5CE4_5459_47ED),
  (0x6BB7, 0x5CE5),
  (0x6BBA, 0x49E9_50C0_5CE6),
  (0x6BBF, 0x4849_587F),
  (0x6BC5, 0x4A5B_5CE7),
  (0x6BCB, 0x5CE8),
  (0x6BCD, 0x4969_49F5),
  (0x6BD2, 0x4C97_5CE9_474E),
  (0x6BD6, 0x5CEA),
  (0x6BD8, 0x53D7),
  (0x6BDB, 0x46E2),
  (0x6BDF, 0x5CEB),
  (0x6BEB, 0x5CED_5CEC),
  (0x6BEF, 0x5CEF),
  (0x6BF3, 0x5CEE),
  (0x6C08, 0x5CF0),
  (0x6C0F, 0x488E),
  (0x6C11, 0x4756),
  (0x6C13, 0x5CF1_5CF2),
  (0x6C17, 0x45B9),
  (0x6C1B, 0x5CF3),
  (0x6C23, 0x5CF5_5CF4),
  (0x6C34, 0x459C),
  (0x6C37, 0x4CA4_45FB),
  (0x6C3E, 0x556E_5CF6_534D_4D84_49A0),
  (0x6C4E, 0x505E),
  (0x6C50, 0x506A),
  (0x6C55, 0x5CF8),
  (0x6C57, 0x4EC4),
  (0x6C5A, 0x4E82),
  (0x6C5C, 0x5CF9_555E_5CF7_45AD_45E8),
  (0x6C62, 0x5CFA),
  (0x6C68, 0x5D45),
  (0x6C6A, 0x52B4),
  (0x6C6F, 0x5CFE_50D2),
  (0x6C72, 0x50C8_5D46),
  (0x6C7A, 0x47A4),
  (0x6C7D, 0x494C_5D44),
  (0x6C81, 0x5D42_5CFB_55D9),
  (0x6C86, 0x5CFD),
  (0x6C88, 0x4C8F),
  (0x6C8C, 0x5598_5CFC),
  (0x6C90, 0x5D48),
  (0x6C92, 0x5D47_4FF8),
  (0x6C96, 0x47FD),
  (0x6C99, 0x4EAD_5D41_5D43),
  (0x6CA1, 0x5075_4585),
  (0x6CAB, 0x53EC),
  (0x6CAE, 0x5D4D),
  (0x6CB1, 0x5D50),
  (0x6CB3, 0x465A),
  (0x6CB8, 0x4EAA_465C_5D52_4584_46C6_5D4B_5D51_4E6F),
  (0x6CC1, 0x4A58),
  (0x6CC4, 0x5D49_5D4C),
  (0x6CC9, 0x46EE_4DB8),
  (0x6CCC, 0x51FD),
  (0x6CD3, 0x54D7),
  (0x6CD5, 0x464A),
  (0x6CD7, 0x55C6),
  (0x6CD9, 0x5D55_5D4E_5D53),
  (0x6CDD, 0x5D4F),
  (0x6CE1, 0x4E87_46CA_4D4B),
  (0x6CE5, 0x4E56),
  (0x6CE8, 0x4944),
  (0x6CEA, 0x5D56),
  (0x6CEF, 0x5D54_46F3_5D4A),
  (0x6CF3, 0x4F57),
  (0x6D04, 0x5D58),
  (0x6D0B, 0x45DA_5D5E),
  (0x6D12, 0x5D5D),
  (0x6D17, 0x4A4E),
  (0x6D19, 0x52B6),
  (0x6D1B, 0x5450),
  (0x6D1E, 0x4D98_5D57),
  (0x6D25, 0x45DC),
  (0x6D29, 0x50B7_4FD4_5D5A),
  (0x6D32, 0x4B72_5D5C),
  (0x6D35, 0x52AC_5D59),
  (0x6D38, 0x50BC),
  (0x6D3B, 0x47B4),
  (0x6D3D, 0x5D5B_4A72),
  (0x6D41, 0x46FC),
  (0x6D44, 0x4CC9_468D),
  (0x6D59, 0x5D66_5D64),
  (0x6D5C, 0x45EA),
  (0x6D63, 0x5D5F_5D63),
  (0x6D66, 0x466B),
  (0x6D69, 0x46EB_4A9D),
  (0x6D6C, 0x55CC),
  (0x6D6E, 0x4A8C_5D62),
  (0x6D74, 0x4B7E),
  (0x6D77, 0x45A7_4D41_5D65),
  (0x6D85, 0x5D6A),
  (0x6D87, 0x5D60_486B),
  (0x6D8C, 0x4F7D),
  (0x6D8E, 0x5D67),
  (0x6D93, 0x5D61),
  (0x6D95, 0x5D68_5D6B),
  (0x6D99, 0x4DDA),
  (0x6D9B, 0x5D69_5550),
  (0x6DAC, 0x5D72),
  (0x6DAF, 0x4F91),
  (0x6DB2, 0x4A45),
  (0x6DB5, 0x5D6F),
  (0x6DB8, 0x5D73),
  (0x6DBC, 0x4E74),
  (0x6DC0, 0x4A88),
  (0x6DC5, 0x5D7C_5D75_5D71),
  (0x6DCB, 0x52C7_5D78),
  (0x6DCF, 0x5D74),
  (0x6DD1, 0x4ABF_5D7B),
  (0x6DD5, 0x5D82),
  (0x6DD8, 0x55E1_5D7E),
  (0x6DDE, 0x5D77),
  (0x6DE1, 0x4CA5),
  (0x6DE4, 0x5D81),
  (0x6DE6, 0x5D70),
  (0x6DE8, 0x5D79),
  (0x6DEA, 0x5D83_554E_5D76),
  (0x6DEE, 0x5D84),
  (0x6DF1, 0x4777_5D7F_4894),
  (0x6DF5, 0x48EA),
  (0x6DF7, 0x4B46_5D7A_5D6C_5D7D_4A91_5D80),
  (0x6E05, 0x4596),
  (0x6E07, 0x5441_4769_4AC0_5D6D_4892),
  (0x6E13, 0x5198),
  (0x6E15, 0x5164),
  (0x6E19, 0x5D87_50E4_478A),
  (0x6E1D, 0x5D99),
  (0x6E1F, 0x5D92_527A_45D2),
  (0x6E23, 0x5D8C_5D98_4E43_51A0_5D93),
  (0x6E29, 0x4950),
  (0x6E2B, 0x5D8F_4945_5D85_5D6E_48C6),
  (0x6E38, 0x5D9A_5D8A_5D96),
  (0x6E3C, 0x5D95),
  (0x6E3E, 0x5D8B),
  (0x6E43, 0x5D94),
  (0x6E4A, 0x4C88),
  (0x6E4D, 0x5D91_5D97),
  (0x6E56, 0x4D52),
  (0x6E58, 0x5155),
  (0x6E5B, 0x53F3_5D8E),
  (0x6E5F, 0x5D89),
  (0x6E67, 0x4FBD),
  (0x6E6B, 0x5D8D),
  (0x6E6E, 0x5D86_48BD),
  (0x6E72, 0x5D88),
  (0x6E76, 0x5D90),
  (0x6E7E, 0x4D6B_4C90_475B),
  (0x6E82, 0x5D9B),
  (0x6E8C, 0x54FA),
  (0x6E8F, 0x5DA5_47FC),
  (0x6E96, 0x46CE),
  (0x6E98, 0x5D9D),
  (0x6E9C, 0x4DC4_4A4D),
  (0x6E9F, 0x5DA8),
  (0x6EA2, 0x5271),
  (0x6EA5, 0x5376),
  (0x6EAA, 0x5D9C),
  (0x6EAF, 0x5DA0),
  (0x6EB2, 0x5DA2),
  (0x6EB6, 0x48BE_5D9E),
  (0x6EBA, 0x5497),
  (0x6EBD, 0x5D9F),
  (0x6EBF, 0x5DA6),
  (0x6EC2, 0x5DA7),
  (0x6EC4, 0x5DA1_4EE6),
  (0x6EC9, 0x52A9),
  (0x6ECB, 0x4857_5DB3),
  (0x6ED1, 0x4BA2),
  (0x6ED3, 0x524A_5DA3_5DA4),
  (0x6EDD, 0x47A3_4DA1),
  (0x6EEC, 0x5DAB),
  (0x6EEF, 0x5DB1),
  (0x6EF2, 0x5DAF),
  (0x6EF4, 0x4FB7),
  (0x6EF7, 0x5DB7_5DAC),
  (0x6EFE, 0x5DAD_5DB4),
  (0x6F01, 0x4B78_4FBC),
  (0x6F06, 0x4DAE),
  (0x6F09, 0x54D0),
  (0x6F0F, 0x50C4),
  (0x6F11, 0x5575),
  (0x6F13, 0x5DB6_49ED_54A1),
  (0x6F20, 0x508E),
  (0x6F22, 0x4F58_54E0),
  (0x6F2B, 0x4F6E_4E8A),
  (0x6F31, 0x5DB0_5DB2),
  (0x6F38, 0x4D73),
  (0x6F3E, 0x5DB5_5DAE),
  (0x6F41, 0x5DA9),
  (0x6F45, 0x5DAA),
  (0x6F51, 0x54FA),
  (0x6F54, 0x4AC2),
  (0x6F58, 0x5DC3),
  (0x6F5B, 0x5DBD_4DC0),
  (0x6F5F, 0x46C2),
  (0x6F64, 0x4AD2),
  (0x6F66, 0x5DC7),
  (0x6F6D, 0x5DBE_4C93_5DBC_5446),
  (0x6F74, 0x5DBF),
  (0x6F78, 0x5DBA),
  (0x6F7A, 0x5DB9),
  (0x6F7C, 0x5DC2),
  (0x6F80, 0x5DBB_55A0_5DC0),
  (0x6F84, 0x4887),
  (0x6F86, 0x5DB8),
  (0x6F88, 0x5DC1),
  (0x6F8E, 0x5DC5),
  (0x6F91, 0x5DC6),
  (0x6F97, 0x54BA),
  (0x6FA1, 0x5DCB),
  (0x6FA3, 0x5DC9_4E4B),
  (0x6FAA, 0x5DCE),
  (0x6FB1, 0x5589),
  (0x6FB3, 0x5DC8),
  (0x6FB5, 0x5DCA),
  (0x6FB9, 0x5DCC),
  (0x6FC0, 0x4BD0_50BE_5DCF_4ACE),
  (0x6FC6, 0x5DC4),
  (0x6FD4, 0x5DD4_5DD1),
  (0x6FD8, 0x5DD3),
  (0x6FDB, 0x5DCD),
  (0x6FDF, 0x5DD0_5380_507E),
  (0x6FE4, 0x51D2),
  (0x6FEB, 0x55A3_5DD2),
  (0x6FEE, 0x5DD6_4DD4),
  (0x6FF1, 0x5055),
  (0x6FF3, 0x5DE2),
  (0x6FF5, 0x5DD5_6658),
  (0x6FFA, 0x5DDB),
  (0x6FFE, 0x5187),
  (0x7001, 0x5DDD),
  (0x7005, 0x5DD7_5550_5DD8),
  (0x7009, 0x5DD9),
  (0x700B, 0x5DDA),
  (0x700F, 0x5DDE),
  (0x7011, 0x5DDC),
  (0x7015, 0x55D1),
  (0x7018, 0x5DE4),
  (0x701A, 0x5DE0_5DDF),
  (0x701D, 0x52B0_535C_5DE1),
  (0x7026, 0x4FDE_52AE_5DE3),
  (0x702C, 0x465B),
  (0x7030, 0x5DE5),
  (0x7032, 0x5DE7),
  (0x703E, 0x5DE6),
  (0x704C, 0x53EA),
  (0x7051, 0x5DE8),
  (0x7058, 0x4B96),
  (0x7063, 0x5DE9),
  (0x706B, 0x4785),
  (0x706F, 0x4B65_4AF5),
  (0x7078, 0x5473),
  (0x707C, 0x546A_4CBC),
  (0x7085, 0x5DEA),
  (0x7089, 0x497D_4FCB),
  (0x708E, 0x4DAD),
  (0x7092, 0x4FEE),
  (0x7099, 0x5DEB),
  (0x70AB, 0x5DED_5DEE_4861_5DF0_5DEC),
  (0x70B3, 0x52CD),
  (0x70B8, 0x5DEF_4788_49D7_529E),
  (0x70C8, 0x4DD1),
  (0x70CB, 0x5DF2),
  (0x70CF, 0x5099),
  (0x70D9, 0x5DF3),
  (0x70DD, 0x538C),
  (0x70DF, 0x5DF1),
  (0x70F1, 0x5DF7),
  (0x70F9, 0x5587),
  (0x70FD, 0x5DF8),
  (0x7104, 0x5DF6),
  (0x7109, 0x5DF4),
  (0x710F, 0x5DF5),
  (0x7114, 0x53EE),
  (0x7119, 0x5DFA_544F),
  (0x711C, 0x5DF9),
  (0x7121, 0x475F),
  (0x7126, 0x4DE6),
  (0x7130, 0x53EE),
  (0x7136, 0x47EF),
  (0x713C, 0x4983),
  (0x7146, 0x5DFC_5DFD),
  (0x7149, 0x4C6F),
  (0x714C, 0x5E42),
  (0x714E, 0x5490),
  (0x7155, 0x6885_5E43),
  (0x7159, 0x4BDD),
  (0x715C, 0x5DFB),
  (0x7162, 0x5E41),
  (0x7164, 0x54EA_5357_5DFE_4742),
  (0x7169, 0x54A0),
  (0x716C, 0x5E44),
  (0x716E, 0x4C4C),
  (0x717D, 0x5590),
  (0x7184, 0x5E47),
  (0x7188, 0x5E45),
  (0x718A, 0x467F),
  (0x718F, 0x5E46),
  (0x7194, 0x529D_5E48),
  (0x7199, 0x4F68),
  (0x719F, 0x4EBF),
  (0x71A8, 0x54BB),
  (0x71AC, 0x5E4A),
  (0x71B1, 0x47D5),
  (0x71B9, 0x5E4C),
  (0x71BE, 0x5E4D),
  (0x71C1, 0x5E4B),
  (0x71C3, 0x49D5),
  (0x71C8, 0x4EF8_5E50),
  (0x71CE, 0x5E53),
  (0x71D0, 0x4A79),
  (0x71D2, 0x5E4E),
  (0x71D4, 0x5E51_5047),
  (0x71D7, 0x5E52),
  (0x71DF, 0x57FB_5E55),
  (0x71E5, 0x4C66_54CE_5E4F),
  (0x71EC, 0x5E56_54E6_578F),
  (0x71F5, 0x5E54),
  (0x71F9, 0x5E59),
  (0x71FB, 0x5E57_5E58),
  (0x71FE, 0x5E5A_5E5B),
  (0x7206, 0x4AD9),
  (0x720D, 0x5E5C),
  (0x7210, 0x5E5D),
  (0x721B, 0x537C),
  (0x7228, 0x5E5E),
  (0x722A, 0x4C87),
  (0x722C, 0x5E60_5E5F),
  (0x7230, 0x5E61),
  (0x7232, 0x5E62),
  (0x7235, 0x53A9_45CC),
  (0x723A, 0x5096_5E63_5E64_52DD_4C79_5E65_5E66),
  (0x7246, 0x5E67_4767_4ABD),
  (0x724B, 0x5E68_556F),
  (0x7252, 0x55DD),
  (0x7258, 0x5E69_53FC),
  (0x725B, 0x4973),
  (0x725D, 0x55B7),
  (0x725F, 0x4AAF),
  (0x7261, 0x509A_55C4),
  (0x7267, 0x487B),
  (0x7269, 0x4652),
  (0x7272, 0x5158),
  (0x7274, 0x5E6A),
  (0x7279, 0x46A2),
  (0x727D, 0x548A_5E6B),
  (0x7280, 0x5354_5E6C_5E6E),
  (0x7287, 0x5E6D),
  (0x7292, 0x5E6F),
  (0x7296, 0x5E70),
  (0x72A0, 0x4FDC),
  (0x72A2, 0x5E71),
  (0x72A7, 0x5E72),
  (0x72AC, 0x4AC5),
  (0x72AF, 0x4CA7),
  (0x72B1, 0x5E73_5E74),
  (0x72B6, 0x4852),
  (0x72B9, 0x5E79),
  (0x72BE, 0x5E75),
  (0x72C2, 0x4E5A_5E76_5E78),
  (0x72C6, 0x5E77),
  (0x72CE, 0x5E7A),
  (0x72D0, 0x51DB),
  (0x72D2, 0x5E7B),
  (0x72D7, 0x5274),
  (0x72D9, 0x4ECF),
  (0x72DB, 0x50DC),
  (0x72E0, 0x5E7D_5E7E_5E7C),
  (0x72E9, 0x4A7B),
  (0x72EC, 0x4ADB_4C9E),
  (0x72F7, 0x5E80_52FE_5E7F),
  (0x72FC, 0x506F_54D6),
  (0x730A, 0x5E82),
  (0x7316, 0x5E84_5E81),
  (0x731B, 0x4A51_5E83_5E85),
  (0x731F, 0x4E9D),
  (0x7324, 0x5E86_5E8B),
  (0x7329, 0x5E88_49C5_4FD0),
  (0x732E, 0x4F45_5E89),
  (0x7334, 0x5E87),
  (0x7336, 0x504F_53DD),
  (0x733E, 0x5E8C_4C5A),
  (0x7344, 0x4E95_519F),
  (0x734E, 0x5E8E_5E8D),
  (0x7357, 0x5E8F),
  (0x7363, 0x4F65),
  (0x7368, 0x5E92),
  (0x736A, 0x5E91),
  (0x7370, 0x5E93),
  (0x7372, 0x4D61),
  (0x7375, 0x5E96),
  (0x7377, 0x5E94_5E95),
  (0x737A, 0x51CB_5E97),
  (0x7384, 0x4C6E),
  (0x7387, 0x4783),
  (0x7389, 0x45FD),
  (0x738B, 0x49B1),
  (0x7396, 0x4DE9),
  (0x73A9, 0x4E4C),
  (0x73B2, 0x4AF9_5E9A),
  (0x73BB, 0x5E9C),
  (0x73BD, 0x5E99),
  (0x73C0, 0x5E9D),
  (0x73C2, 0x4C9A),
  (0x73C8, 0x5E98_5E9E_5399),
  (0x73CD, 0x4D5D_5E9B),
  (0x73D2, 0x5EA2),
  (0x73D6, 0x5E9F),
  (0x73DE, 0x5EA5),
  (0x73E0, 0x4B99),
  (0x73E3, 0x5EA1),
  (0x73E5, 0x5EA0),
  (0x73EA, 0x4CB9),
  (0x73ED, 0x5066_5EA3),
  (0x73F1, 0x5EA4),
  (0x73F5, 0x5EA8),
  (0x73F8, 0x5EA6),
  (0x73FE, 0x46B7),
  (0x7403, 0x48DB),
  (0x7405, 0x5EA9_45EB_5EA7),
  (0x7409, 0x50F7),
  (0x7422, 0x4E5C),
  (0x7425, 0x5EAC_5EAA),
  (0x7429, 0x5EAD_5EAB),
  (0x742E, 0x5EAE),
  (0x7432, 0x5EAF_5453_4CD8_52A3_529F),
  (0x743A, 0x5EB0),
  (0x743F, 0x5EB2),
  (0x7441, 0x5EB5),
  (0x7455, 0x5EB1),
  (0x7459, 0x5EB4_53F1_4F52_5EB6),
  (0x745E, 0x4B5B_5EB3_508C),
  (0x7462, 0x5EBC_5EB9_5EBB),
  (0x7469, 0x5EB7_5EBA),
  (0x746F, 0x5EBE_5EB8),
  (0x7473, 0x5188),
  (0x7476, 0x6883),
  (0x747E, 0x5EBF),
  (0x7483, 0x528C),
  (0x7489, 0x5EBD),
  (0x748B, 0x504D),
  (0x749E, 0x5EC1_5EC0),
  (0x74A2, 0x5EC2),
  (0x74A7, 0x5EC3),
  (0x74B0, 0x4AB9),
  (0x74BD, 0x5249),
  (0x74CA, 0x5EC4),
  (0x74CF, 0x5EC5),
  (0x74D4, 0x5EC6),
  (0x74DC, 0x4E64),
  (0x74E0, 0x5EC7),
  (0x74E2, 0x5452_5EC8),
  (0x74E6, 0x49C2_5EC9),
  (0x74E9, 0x5ECA),
  (0x74EE, 0x5ECB),
  (0x74F0, 0x5ECC_5ECE_5ECD),
  (0x74F6, 0x4CD4_5ECF_5ED0),
  (0x7501, 0x5ED1),
  (0x7503, 0x5ED3_5ED2_5ED4),
  (0x750C, 0x5ED6_5ED5_5ED7),
  (0x7511, 0x5495),
  (0x7513, 0x5ED8),
  (0x7515, 0x53E6),
  (0x7518, 0x4B55),
  (0x751A, 0x4B66),
  (0x751C, 0x52A7),
  (0x751E, 0x5ED9_4599),
  (0x7523, 0x45C0),
  (0x7525, 0x55D7_5EDA),
  (0x7528, 0x45B6),
  (0x752B, 0x4D58_5EDB),
  (0x752F, 0x58FE_4563_467C_48A0_4967),
  (0x7537, 0x457C_5765),
  (0x753A, 0x4555_4677_5EDC),
  (0x7544, 0x5EDD),
  (0x7546, 0x5EE1),
  (0x7549, 0x5EE0_5EDF_5B7C_47AE_5EDE),
  (0x754F, 0x558F),
  (0x7551, 0x478B),
  (0x7554, 0x4EDC),
  (0x7559, 0x47AB_5EE3_5EE2_4D72_5086),
  (0x7560, 0x49FE),
  (0x7562, 0x559A),
  (0x7564, 0x5EE4_4CF0_51B4_5EE5),
  (0x7569, 0x52FD_48B9_5EE6),
  (0x756D, 0x5EE9),
  (0x756F, 0x5EE7_4AA9),
  (0x7573, 0x4E54_5EE8),
  (0x7576, 0x5EEB_50DD_5EEA),
  (0x757F, 0x50D4),
  (0x7582, 0x5EEC),
  (0x7586, 0x5EED_5EEE),
  (0x7589, 0x5EF0_5EEF_4EA0),
  (0x758E, 0x5171_55B0),
  (0x7591, 0x4CB4),
  (0x7594, 0x5EF1),
  (0x759A, 0x5EF2),
  (0x759D, 0x5EF3),
  (0x75A3, 0x5EF5),
  (0x75A5, 0x5EF4),
  (0x75AB, 0x50CE),
  (0x75B1, 0x5EFD_4D97_5EF7),
  (0x75B5, 0x5EF9),
  (0x75B8, 0x5EFB_54E1),
  (0x75BC, 0x5EFC_5EFA_5142),
  (0x75C2, 0x5EF6_5EF8),
  (0x75C5, 0x49BF),
  (0x75C7, 0x4E4A),
  (0x75CA, 0x5F41),
  (0x75CD, 0x5EFE),
  (0x75D2, 0x5F42),
  (0x75D4, 0x5182_53FD),
  (0x75D8, 0x5549_5F43),
  (0x75DB, 0x4C47),
  (0x75DE, 0x5F45),
  (0x75E2, 0x5174_5F44),
  (0x75E9, 0x54A4),
  (0x75F0, 0x5F4A),
  (0x75F2, 0x5F4C_5F4D_5089),
  (0x75FA, 0x5F4B),
  (0x75FC, 0x5F48),
  (0x75FE, 0x5F46_5F47),
  (0x7601, 0x5F49),
  (0x7609, 0x5F4F),
  (0x760B, 0x5F4E),
  (0x760D, 0x524F),
  (0x761F, 0x5F50_5F52_5F53_5F54),
  (0x7624, 0x5F55),
  (0x7626, 0x54A4_5F51),
  (0x7630, 0x5F57),
  (0x7634, 0x5F56),
  (0x763B, 0x5F58),
  (0x7642, 0x4BB7),
  (0x7646, 0x5F5C_5F59_5F5A),
  (0x764C, 0x5447),
  (0x7652, 0x53AA),
  (0x7656, 0x537E),
  (0x7658, 0x5F5B),
  (0x765C, 0x5F5D),
  (0x7661, 0x5F5E_5F5F),
  (0x7667, 0x5F62_5F60_5F61_5F63),
  (0x766C, 0x5F64),
  (0x7670, 0x5F65),
  (0x7672, 0x5F66),
  (0x7676, 0x5F67),
  (0x7678, 0x539A),
  (0x767A, 0x464B_46E8_5F68_4659_454B),
  (0x7680, 0x5F6A),
  (0x7682, 0x5F69_5F6B_45EF),
  (0x7686, 0x4AB0_4CBB_5F6C),
  (0x768B, 0x5F6D),
  (0x768E, 0x5299),
  (0x7690, 0x52A4),
  (0x7693, 0x4E81),
  (0x7696, 0x5396),
  (0x7699, 0x5F6E_5F6F_5F72_5F70),
  (0x769E, 0x5F71),
  (0x76A6, 0x5F73),
  (0x76AE, 0x49DA),
  (0x76B0, 0x5F74),
  (0x76B4, 0x5F75),
  (0x76B7, 0x6868_5F76_5F77_5F78),
  (0x76BF, 0x4DC7),
  (0x76C2, 0x5F79_53BA),
  (0x76C6, 0x5057),
  (0x76C8, 0x51B5),
  (0x76CA, 0x4774),
  (0x76CD, 0x5F7B),
  (0x76D2, 0x5F7D),
  (0x76D6, 0x5F7C_4D65),
  (0x76DB, 0x4844_5CC9),
  (0x76DE, 0x5F7E_4B84),
  (0x76E1, 0x5F7F),
  (0x76E3, 0x49E3_4890_5F80),
  (0x76E7, 0x53F7),
  (0x76EA, 0x5F81),
  (0x76EE, 0x4675),
  (0x76F2, 0x5080),
  (0x76F4, 0x4674),
  (0x76F8, 0x4678),
  (0x76FB, 0x5F83),
  (0x76FE, 0x5082),
  (0x7701, 0x4847),
  (0x7704, 0x5F86),
  (0x7707, 0x5F85_5F84_52BC),
  (0x770B, 0x4DA2_4552),
  (0x771B, 0x5F8B),
  (0x771E, 0x51CA_4642_4E6A),
  (0x7724, 0x5F87_5F89_5F8A),
  (0x7729, 0x5F88),
  (0x7737, 0x5F8C_5F8D),
  (0x773A, 0x4E5F),
  (0x773C, 0x49A5),
  (0x7740, 0x47AA),
  (0x7746, 0x5F8E_5F8F),
  (0x775A, 0x5F90_5F93),
  (0x7761, 0x526C),
  (0x7763, 0x4A73),
  (0x7765, 0x5F94_4A96),
  (0x7768, 0x5F91),
  (0x776B, 0x5F92),
  (0x7779, 0x5F97),
  (0x777E, 0x5F96_5F95),
  (0x778B, 0x5F99),
  (0x778E, 0x5F98),
  (0x7791, 0x5F9A),
  (0x779E, 0x5F9C),
  (0x77A0, 0x5F9B),
  (0x77A5, 0x5572),
  (0x77AC, 0x4DB0_527D),
  (0x77B0, 0x5F9D),
  (0x77B3, 0x4F9B),
  (0x77B6, 0x5F9E),
  (0x77B9, 0x5F9F),
  (0x77BB, 0x5FA3_5FA1_5FA2),
  (0x77BF, 0x5FA0),
  (0x77C7, 0x5FA4),
  (0x77CD, 0x5FA5),
  (0x77D7, 0x5350),
  (0x77DA, 0x5FA6_50ED_5FA7),
  (0x77E2, 0x46C1_5FA8),
  (0x77E5, 0x45B0),
  (0x77E7, 0x55C9),
  (0x77E9, 0x4E4D),
  (0x77ED, 0x4A82_5FA9_51BB),
  (0x77F3, 0x4580),
  (0x77FC, 0x5FAB),
  (0x7802, 0x495B),
  (0x780C, 0x5FAC),
  (0x7812, 0x5FAD),
  (0x7814, 0x46D3_4CC3),
  (0x7820, 0x5FB0_5FAE),
  (0x7825, 0x4D45_54B4_5248),
  (0x7832, 0x4CC2),
  (0x7834, 0x4ABE),
  (0x783A, 0x50DF),
  (0x783F, 0x5FAF),
  (0x7845, 0x5FB1),
  (0x784E, 0x5FB2),
  (0x785D, 0x4976),
  (0x7864, 0x5FB3),
  (0x786B, 0x4984_4AEF),
  (0x786F, 0x5369),
  (0x7872, 0x52BF),
  (0x7874, 0x5FB4),
  (0x787A, 0x5FB6),
  (0x787C, 0x5FB9),
  (0x7881, 0x4F4E),
  (0x7886, 0x5FB7_5195),
  (0x788C, 0x5FBA_5356_5FB5),
  (0x7891, 0x517B),
  (0x7893, 0x4FB1),
  (0x7895, 0x52D2),
  (0x7897, 0x545B),
  (0x789A, 0x5FB8),
  (0x78A3, 0x5FBB),
  (0x78A7, 0x4DF8),
  (0x78A9, 0x507D_5FBD),
  (0x78AF, 0x5FBE),
  (0x78B5, 0x5FBC),
  (0x78BA, 0x487A),
  (0x78BC, 0x5FC4),
  (0x78BE, 0x5FC3),
  (0x78C1, 0x4A62),
  (0x78C5, 0x5FC5_5FC0),
  (0x78CA, 0x5FC6_5FC1),
  (0x78D0, 0x4B9C_5FBF),
  (0x78D4, 0x5FC2),
  (0x78DA, 0x5FC9),
  (0x78E7, 0x5FC8_49B4),
  (0x78EC, 0x5FC7),
  (0x78EF, 0x48AA),
  (0x78F4, 0x5FCB),
  (0x78FD, 0x5FCA),
  (0x7901, 0x51B0),
  (0x7907, 0x5FCC),
  (0x790E, 0x4C9C),
  (0x7911, 0x5FCD_4DF0),
  (0x7919, 0x5FCE),
  (0x7926, 0x51B9),
  (0x792A, 0x514C_5FD0_5FCF),
  (0x7930, 0x5FD1),
  (0x793A, 0x4853),
  (0x793C, 0x4958),
  (0x793E, 0x4663),
  (0x7940, 0x5FD3_53D2),
  (0x7947, 0x5192_4ED8_4FEB),
  (0x7950, 0x488C),
  (0x7953, 0x555C),
  (0x7955, 0x5FD8_4CDC_5365),
  (0x795A, 0x5FD7),
  (0x795D, 0x4CEB_45A1_5FD6_5FD4),
  (0x7962, 0x4F89),
  (0x7965, 0x49F9),
  (0x7968, 0x4DBF),
  (0x796D, 0x4C71),
  (0x7977, 0x5553),
  (0x797A, 0x52D8),
  (0x797F, 0x5FDA_50E7_4D75),
  (0x7984, 0x50AE_4F87),
  (0x798A, 0x5FDB),
  (0x798D, 0x5286_4BA7_458B),
  (0x7994, 0x5FDC),
  (0x799B, 0x5FDF),
  (0x799D, 0x5FDE),
  (0x79A6, 0x55AA_4FD7),
  (0x79AA, 0x5FE0),
  (0x79AE, 0x54F5),
  (0x79B0, 0x50FA_5553),
  (0x79B3, 0x5FE1),
  (0x79B9, 0x536A_5FE2),
  (0x79BD, 0x555D_5463_53D0_45F1_46C3),
  (0x79C9, 0x5FE3),
  (0x79CB, 0x4658),
  (0x79D1, 0x48ED_4DBA),
  (0x79D5, 0x5FE4),
  (0x79D8, 0x4C70),
  (0x79DF, 0x4D83),
  (0x79E1, 0x54B5),
  (0x79E3, 0x5FE7_508F),
  (0x79E6, 0x4C8A_5FE5),
  (0x79E9, 0x4D9F),
  (0x79EC, 0x5FE6),
  (0x79F0, 0x4BDF),
  (0x79FB, 0x4975),
  (0x7A00, 0x5264),
  (0x7A08, 0x5FE8),
  (0x7A0B, 0x47F4),
  (0x7A0D, 0x5FE9_47C4),
  (0x7A14, 0x47FA),
  (0x7A17, 0x5087_5FEA_5FEB_4DCF),
  (0x7A1C, 0x5296),
  (0x7A1F, 0x5FEC_5366),
  (0x7A2E, 0x4692),
  (0x7A31, 0x5FED_476A),
  (0x7A37, 0x5FEF),
  (0x7A3B, 0x5FF0_4DBE_4FC7_5FEE_4FD5_4E94),
  (0x7A42, 0x48D4_5FF1),
  (0x7A46, 0x52BE),
  (0x7A49, 0x5FF3),
  (0x7A4D, 0x4891_5254_50B8_509B),
  (0x7A57, 0x5FF2),
  (0x7A61, 0x5FF5_5FF4_4E98),
  (0x7A69, 0x5FF6),
  (0x7A6B, 0x4F5C),
  (0x7A70, 0x5FF8),
  (0x7A74, 0x4B86),
  (0x7A76, 0x4986),
  (0x7A79, 0x5FF9_478D),
  (0x7A7D, 0x5FFA),
  (0x7A7F, 0x4E91),
  (0x7A81, 0x4AFD),
  (0x7A83, 0x5169_5499),
  (0x7A88, 0x5FFB),
  (0x7A92, 0x4FB0_4BE9),
  (0x7A95, 0x5FFC_5FFE_6041_5FFD),
  (0x7A9F, 0x50A6),
  (0x7AA9, 0x6042_4A65),
  (0x7AAE, 0x50AA_49A7_6043),
  (0x7AB6, 0x6044),
  (0x7ABA, 0x559E),
  (0x7ABF, 0x6047),
  (0x7AC3, 0x6046_6049_6048),
  (0x7AC7, 0x604A_52F0),
  (0x7ACA, 0x604B_45DD),
  (0x7ACD, 0x604C),
  (0x7ACF, 0x604D),
  (0x7AD1, 0x604F_604E_6051),
  (0x7AD5, 0x6050),
  (0x7AD9, 0x6052_6053),
  (0x7ADC, 0x49E7_6054),
  (0x7ADF, 0x66C1_476E_6055_6056_546B),
  (0x7AE5, 0x4D50_6057_6058),
  (0x7AEA, 0x51C8_605A),
  (0x7AED, 0x605B),
  (0x7AEF, 0x48EF_605C),
  (0x7AF6, 0x4971),
  (0x7AF8, 0x605D_45F5_545C),
  (0x7AFF, 0x5287),
  (0x7B02, 0x605E),
  (0x7B04, 0x54D5),
  (0x7B06, 0x6062),
  (0x7B08, 0x51CF),
  (0x7B0A, 0x6061_6060),
  (0x7B0F, 0x605F),
  (0x7B11, 0x49B5),
  (0x7B18, 0x53E7_6065),
  (0x7B1B, 0x4F41),
  (0x7B1E, 0x6066),
  (0x7B20, 0x47E0),
  (0x7B25, 0x52F4_4FD9),
  (0x7B28, 0x6068),
  (0x7B2C, 0x467E),
  (0x7B33, 0x6063),
  (0x7B35, 0x6067_6064),
  (0x7B39, 0x496E),
  (0x7B45, 0x606C_4AC7),
  (0x7B48, 0x4D9B_46A7),
  (0x7B4B, 0x4B8F_606B_606A),
  (0x7B4F, 0x52F5_6069_4B45_4B7C),
  (0x7B54, 0x49D0),
  (0x7B56, 0x46C9),
  (0x7B5D, 0x606D),
  (0x7B65, 0x5484),
  (0x7B67, 0x5048),
  (0x7B6C, 0x534E),
  (0x7B6E, 0x6073),
  (0x7B70, 0x6071_6072),
  (0x7B74, 0x6070_606E),
  (0x7B7A, 0x606F),
  (0x7B86, 0x559B_4F51),
  (0x7B8B, 0x55A4),
  (0x7B8D, 0x6077),
  (0x7B8F, 0x607B),
  (0x7B92, 0x607A),
  (0x7B94, 0x4EE0_4CCC),
  (0x7B97, 0x4843_6075_607C_6079),
  (0x7B9C, 0x6078_6074_6082_6076),
  (0x7BA1, 0x46F2),
  (0x7BAA, 0x54CA),
  (0x7BAD, 0x518D),
  (0x7BB1, 0x4AFB),
  (0x7BB4, 0x6080),
  (0x7BB8, 0x505C),
  (0x7BC0, 0x47A1_51E8),
  (0x7BC4, 0x49E8),
  (0x7BC6, 0x6081_4FB6),
  (0x7BC9, 0x49A8),
  (0x7BCB, 0x607E_607F),
  (0x7BCF, 0x607D),
  (0x7BDD, 0x6083),
  (0x7BE0, 0x4875),
  (0x7BE4, 0x4AD8_6087_6085),
  (0x7BE9, 0x6084),
  (0x7BED, 0x5444),
  (0x7BF3, 0x608C),
  (0x7BF6, 0x608E_6086),
  (0x7C00, 0x6089),
  (0x7C07, 0x608B),
  (0x7C0D, 0x608D),
  (0x7C11, 0x4F53_578A_608A_6088),
  (0x7C17, 0x517C),
  (0x7C1E, 0x54CA_6092),
  (0x7C21, 0x4BEC),
  (0x7C23, 0x608F),
  (0x7C27, 0x6090),
  (0x7C2A, 0x6091_6094),
  (0x7C37, 0x6093_51AB),
  (0x7C3D, 0x6095_5270_4F4C_6096),
  (0x7C43, 0x6098),
  (0x7C4C, 0x6097_4DFE),
  (0x7C4F, 0x51F2_609A),
  (0x7C54, 0x4F99),
  (0x7C56, 0x6099),
  (0x7C58, 0x609B),
  (0x7C5F, 0x609C_4CEE),
  (0x7C64, 0x52AA_609D),
  (0x7C6C, 0x609E),
  (0x7C73, 0x466F),
  (0x7C75, 0x609F),
  (0x7C7E, 0x4FF0),
  (0x7C81, 0x55E7_4E85_60A0),
  (0x7C89, 0x489E),
  (0x7C8B, 0x4FCC),
  (0x7C8D, 0x53C9),
  (0x7C90, 0x60A1),
  (0x7C92, 0x4CA9),
  (0x7C95, 0x4C4B),
  (0x7C97, 0x4D59_4BF7),
  (0x7C9B, 0x4FC8),
  (0x7C9F, 0x4BFB),
  (0x7CA1, 0x60A5_60A3),
  (0x7CA4, 0x60A2_52AB),
  (0x7CA7, 0x4BD4_60A7),
  (0x7CAB, 0x60A4),
  (0x7CAD, 0x60A6_60AB),
  (0x7CB1, 0x60AA_60A9_60A8),
  (0x7CB9, 0x60AC),
  (0x7CBD, 0x60AE_466C),
  (0x7CC0, 0x51BC),
  (0x7CC2, 0x60B0),
  (0x7CC5, 0x60AF),
  (0x7CCA, 0x5471),
  (0x7CCE, 0x5160),
  (0x7CD2, 0x60B1),
  (0x7CD6, 0x4884),
  (0x7CD8, 0x60B3),
  (0x7CDC, 0x60B4),
  (0x7CDE, 0x5492_518C_514B),
  (0x7CE2, 0x60B2),
  (0x7CE7, 0x4EC5),
  (0x7CEF, 0x60B5),
  (0x7CF2, 0x60B6),
  (0x7CF4, 0x60B7),
  (0x7CF6, 0x60B8),
  (0x7CF8, 0x46C7),
  (0x7CFA, 0x52C2_48FA),
  (0x7CFE, 0x51FE),
  (0x7D00, 0x46DB),
  (0x7D02, 0x60BA),
  (0x7D04, 0x47BD_4B67_60B9),
  (0x7D0A, 0x60BD_4CF9),
  (0x7D0D, 0x49E2),
  (0x7D10, 0x4FB5),
  (0x7D14, 0x47A6_60BC),
  (0x7D17, 0x4F47_4C78_4680_49F3_4FF3_60BB),
  (0x7D20, 0x479F_4877_4CF4),
  (0x7D2B, 0x4AF0_5592),
  (0x7D2E, 0x60C0_5148_4768),
  (0x7D32, 0x60C1_4E59),
  (0x7D35, 0x60C3),
  (0x7D39, 0x4CE4_4CBD),
  (0x7D3F, 0x60C2),
  (0x7D42, 0x49F4_5563_46B9_60BE_60C5),
  (0x7D48, 0x60C4),
  (0x7D4B, 0x60BF_4688),
  (0x7D4E, 0x60C9_60CC_46BF),
  (0x7D56, 0x60C8),
  (0x7D5B, 0x60D0_60C6),
  (0x7D5E, 0x506D),
  (0x7D61, 0x4CE7_4EF7_60CD),
  (0x7D66, 0x4757),
  (0x7D68, 0x60CA),
  (0x7D6E, 0x60CB),
  (0x7D71, 0x4881_5268_60C7),
  (0x7D75, 0x4AE4_4AF3),
  (0x7D79, 0x49F6),
  (0x7D7D, 0x54ED),
  (0x7D89, 0x60CF),
  (0x7D8F, 0x5374),
  (0x7D93, 0x60CE),
  (0x7D99, 0x4A4A_47CB_54EB_5070),
  (0x7D9F, 0x60DC_60DA),
  (0x7DA2, 0x60D8_60D2),
  (0x7DAB, 0x60D7_51A3_4880_60D1_60D9_60DD_48CB_4A53),
  (0x7DB4, 0x4DC9_60D3),
  (0x7DB7, 0x60D4_60DB),
  (0x7DBA, 0x54D3_54A6),
  (0x7DBD, 0x60D6_49DC_489D),
  (0x7DC7, 0x60D5),
  (0x7DCA, 0x4B97_537D),
  (0x7DCF, 0x4793),
  (0x7DD1, 0x48A5_4A9B),
  (0x7DD5, 0x60DE_60E1),
  (0x7DD8, 0x60DF),
  (0x7DDA, 0x4687),
  (0x7DDC, 0x60E8_60E0_60E3),
  (0x7DE0, 0x4A80_60E7),
  (0x7DE4, 0x60E2),
  (0x7DE8, 0x484E_4CFC),
  (0x7DEC, 0x556B),
  (0x7DEF, 0x4E9A),
  (0x7DF2, 0x60E6),
  (0x7DF4, 0x4860),
  (0x7DFB, 0x60E4),
  (0x7E01, 0x4BAA),
  (0x7E04, 0x4859_60E9),
  (0x7E09, 0x60EE_60EA_60E5),
  (0x7E12, 0x60EC),
  (0x7E1B, 0x52E6),
  (0x7E1E, 0x4F6B_60ED),
  (0x7E21, 0x60EB_5BCC_55A8),
  (0x7E26, 0x4E93),
  (0x7E2B, 0x49E4),
  (0x7E2E, 0x49F7),
  (0x7E31, 0x60F2_60F9),
  (0x7E35, 0x60F4),
  (0x7E37, 0x60F8),
  (0x7E39, 0x60F6_60EF_60F5),
  (0x7E3D, 0x60F3_4866),
  (0x7E41, 0x4759),
  (0x7E43, 0x60F7),
  (0x7E46, 0x60F0),
  (0x7E48, 0x60F1),
  (0x7E4A, 0x4868_5373),
  (0x7E4D, 0x52DA),
  (0x7E52, 0x60FD),
  (0x7E54, 0x489A_51D4_60FB),
  (0x7E59, 0x60FE_6141),
  (0x7E5D, 0x60FA_60FC),
  (0x7E61, 0x52DA),
  (0x7E66, 0x60F1_6142),
  (0x7E69, 0x6145_6144_5373),
  (0x7E6D, 0x4D9A),
  (0x7E70, 0x4B69),
  (0x7E79, 0x6143),
  (0x7E7B, 0x6147_6146_6148),
  (0x7E7F, 0x614A),
  (0x7E82, 0x55EB_614B),
  (0x7E88, 0x5278_614C_51BF),
  (0x7E8C, 0x614E),
  (0x7E8E, 0x614D_55FA_5273),
  (0x7E92, 0x614F_6150_6151),
  (0x7E96, 0x6152),
  (0x7E9B, 0x6153_539C),
  (0x7F36, 0x5084),
  (0x7F38, 0x6154),
  (0x7F3A, 0x6155),
  (0x7F45, 0x6156),
  (0x7F47, 0x6157),
  (0x7F4C, 0x6158_54CB_6159),
  (0x7F50, 0x516E_615A),
  (0x7F54, 0x615C_615B),
  (0x7F58, 0x615D),
  (0x7F5F, 0x615E_615F),
  (0x7F67, 0x6161_6160_6162_4C4E_55EF),
  (0x7F6E, 0x468C),
  (0x7F70, 0x4F82),
  (0x7F72, 0x4C99),
  (0x7F75, 0x5579),
  (0x7F77, 0x55A5_6163_5AA5),
  (0x7F82, 0x6164_6166),
  (0x7F85, 0x4DFA_6165_6167_6168),
  (0x7F8A, 0x4AD1),
  (0x7F8C, 0x6169),
  (0x7F8E, 0x457D),
  (0x7F94, 0x616A),
  (0x7F9A, 0x616D),
  (0x7F9D, 0x616C_616B),
  (0x7FA1, 0x616E),
  (0x7FA3, 0x616F_47B1),
  (0x7FA8, 0x5596_4598),
  (0x7FAE, 0x6171_6170),
  (0x7FB2, 0x6172),
  (0x7FB6, 0x6174),
  (0x7FB8, 0x6175_6173),
  (0x7FBD, 0x478F),
  (0x7FC1, 0x4FFB),
  (0x7FC5, 0x6178_6179),
  (0x7FCA, 0x617A),
  (0x7FCC, 0x4D9C),
  (0x7FD2, 0x4A69),
  (0x7FD4, 0x54F9_617B),
  (0x7FE0, 0x4F69_617C),
  (0x7FE6, 0x617D),
  (0x7FE9, 0x617E),
  (0x7FEB, 0x558B),
  (0x7FF0, 0x54B6),
  (0x7FF3, 0x617F),
  (0x7FF9, 0x6180),
  (0x7FFB, 0x51F6_4DB5),
  (0x8000, 0x52A0_4985),
  (0x8003, 0x4760_6181_4670_53DC),
  (0x800B, 0x6182_51E6),
  (0x8010, 0x498E),
  (0x8012, 0x6183),
  (0x8015, 0x499A),
  (0x8017, 0x4FEC_54E4_6184),
  (0x801C, 0x6185),
  (0x8021, 0x6186),
  (0x8028, 0x6187),
  (0x8033, 0x4CAB),
  (0x8036, 0x4E99),
  (0x803B, 0x6189),
  (0x803D, 0x55B8),
  (0x803F, 0x6188),
  (0x8046, 0x618B),
  (0x804A, 0x618A),
  (0x8052, 0x618C),
  (0x8056, 0x4BB5),
  (0x8058, 0x618D),
  (0x805A, 0x5479),
  (0x805E, 0x48BB_618E),
  (0x8061, 0x4B89_618F),
  (0x8068, 0x6190),
  (0x806F, 0x53CA_6193),
  (0x8072, 0x6192_6191_4DA8),
  (0x8076, 0x6194_48D7),
  (0x8079, 0x6195),
  (0x807D, 0x6196_53E4_6197),
  (0x8084, 0x6198_6199_53B6_4B41),
  (0x8089, 0x4A42),
  (0x808B, 0x557F_4E50),
  (0x8093, 0x619A),
  (0x8096, 0x5267),
  (0x8098, 0x526A),
  (0x809A, 0x619B_5292),
  (0x809D, 0x4C8C),
  (0x80A1, 0x4CC5_5382),
  (0x80A5, 0x497B),
  (0x80A9, 0x4B79_4CFB),
  (0x80AC, 0x619E_619C),
  (0x80AF, 0x50EB),
  (0x80B1, 0x52D5_48AC),
  (0x80B4, 0x5451),
  (0x80BA, 0x504E),
  (0x80C3, 0x4DF6_61A3),
  (0x80C6, 0x4E9B),
  (0x80CC, 0x4AB2),
  (0x80CE, 0x5263),
  (0x80D6, 0x5288),
  (0x80D9, 0x61A1_61A4_619F),
  (0x80DD, 0x61A2_50B6),
  (0x80E1, 0x4D63),
  (0x80E4, 0x4EE9_61A0),
  (0x80EF, 0x61A6),
  (0x80F1, 0x61A7),
  (0x80F4, 0x4EAB),
  (0x80F8, 0x4BE3),
  (0x80FC, 0x61B0_474F),
  (0x8102, 0x4874),
  (0x8105, 0x5051_55EC_47E3_5079_61A5_535E),
  (0x811A, 0x4D5C_61A8),
  (0x8123, 0x61A9),
  (0x8129, 0x4C96),
  (0x812F, 0x61AA),
  (0x8131, 0x4AB4),
  (0x8133, 0x4CB3),
  (0x8139, 0x55E9),
  (0x813E, 0x61AD),
  (0x8141, 0x61B0),
  (0x8146, 0x61AC),
  (0x814B, 0x61AB),
  (0x814E, 0x52C4),
  (0x8150, 0x4D62_61AF),
  (0x8153, 0x61AE_5247_4CAF),
  (0x815F, 0x61B4),
  (0x8165, 0x61B3_61B5),
  (0x816B, 0x51CE),
  (0x816E, 0x61B2),
  (0x8170, 0x4BA4_61B1),
  (0x8174, 0x61B6),
  (0x8178, 0x4DB6_4CA0_526F),
  (0x817F, 0x529A_61BA),
  (0x8182, 0x61BB_61B7),
  (0x8188, 0x61B8),
  (0x818A, 0x61B9),
  (0x818F, 0x51D8),
  (0x8193, 0x61BF),
  (0x8195, 0x61BD),
  (0x819A, 0x5191),
  (0x819C, 0x4D8A_5060),
  (0x81A0, 0x61BC),
  (0x81A3, 0x61BE_61C1),
  (0x81A8, 0x4EF6_61C2),
  (0x81B0, 0x61C4),
  (0x81B3, 0x5076),
  (0x81B5, 0x61C0),
  (0x81B8, 0x61C3),
  (0x81BA, 0x61CA),
  (0x81BD, 0x61C7_61C6_535F_61C8),
  (0x81C2, 0x61C9),
  (0x81C6, 0x5474),
  (0x81C8, 0x61C5_61CB),
  (0x81CD, 0x61CC),
  (0x81D1, 0x61CD),
  (0x81D3, 0x4DBD),
  (0x81D8, 0x61CE_61CF_61D0),
  (0x81DF, 0x61D1_61D2),
  (0x81E3, 0x4A47),
  (0x81E5, 0x538A),
  (0x81E7, 0x5173_4CD0),
  (0x81EA, 0x45C3),
  (0x81ED, 0x4DB3),
  (0x81F3, 0x4A48_4C6A),
  (0x81FA, 0x61D3_61D4_4A89),
  (0x81FE, 0x61D5),
  (0x8201, 0x61D6_61D7),
  (0x8205, 0x61D8),
  (0x8207, 0x5358_466A_5778_62BA),
  (0x820C, 0x5094_61D9_4C58),
  (0x8210, 0x61DA),
  (0x8212, 0x61DB),
  (0x8216, 0x61DC_4E5B_4CAA),
  (0x821B, 0x4FC1_4FB8),
  (0x821E, 0x4A63_4BB8),
  (0x8229, 0x61DD_489F_61DE_4956),
  (0x822E, 0x61DF),
  (0x8233, 0x61E1),
  (0x8235, 0x54DB_4B87_53AC_61E0_467B),
  (0x8240, 0x61E2),
  (0x8247, 0x4DFC),
  (0x8258, 0x54AE_61E3_61E4),
  (0x825D, 0x61E5),
  (0x825F, 0x61E6),
  (0x8262, 0x61E8),
  (0x8264, 0x61E7),
  (0x8266, 0x4C4A),
  (0x8268, 0x61E9),
  (0x826A, 0x61EA_61EB),
  (0x826E, 0x55B4_45C4),
  (0x8271, 0x61EC_47C3),
  (0x8276, 0x4D54_61ED_53C5),
  (0x827E, 0x61EE),
  (0x828B, 0x519A),
  (0x828D, 0x61EF),
  (0x8292, 0x61F0),
  (0x8299, 0x4EBD),
  (0x829D, 0x4972),
  (0x829F, 0x61F2),
  (0x82A5, 0x4F7B_4ADD),
  (0x82AB, 0x61F1_61F4_5442),
  (0x82AF, 0x4FE5),
  (0x82B1, 0x46D9),
  (0x82B3, 0x4683),
  (0x82B8, 0x4953_4DD0),
  (0x82BB, 0x61F3),
  (0x82BD, 0x4EBA),
  (0x82C5, 0x4E5D),
  (0x82D1, 0x504B_61F9_5559_52D7),
  (0x82D7, 0x4AB8),
  (0x82D9, 0x6246),
  (0x82DB, 0x5377_6243),
  (0x82DE, 0x6241_61F7),
  (0x82E1, 0x61F5),
  (0x82E3, 0x61F6),
  (0x82E5, 0x46D6_4A5F_54B0),
  (0x82EB, 0x4D5A),
  (0x82F1, 0x45EE),
  (0x82F3, 0x61FB_61FA),
  (0x82F9, 0x61FE_6244_61FD),
  (0x8301, 0x61F8_4646_61FC_547A_4BD3_6242),
  (0x8309, 0x6245),
  (0x830E, 0x4EC9),
  (0x8316, 0x624A_53F6_6252),
  (0x831C, 0x50E2),
  (0x8323, 0x6258),
  (0x8328, 0x474C),
  (0x832B, 0x6251),
  (0x832F, 0x6250),
  (0x8331, 0x624B_547B),
  (0x8334, 0x6249_6247_4977),
  (0x8338, 0x4DF7_624D),
  (0x8340, 0x624C),
  (0x8345, 0x624F_53B3),
  (0x8349, 0x4842_53B3),
  (0x834F, 0x515F_624E),
  (0x8352, 0x46DC),
  (0x8358, 0x4B62),
  (0x8362, 0x6248),
  (0x8373, 0x625F),
  (0x8375, 0x625A),
  (0x8377, 0x4BA1),
  (0x837B, 0x49E0_625D),
  (0x837F, 0x625B),
  (0x8385, 0x6262),
  (0x8387, 0x5486),
  (0x8389, 0x6263_625C),
  (0x838E, 0x6259),
  (0x8393, 0x6260),
  (0x8396, 0x6257),
  (0x839A, 0x6253),
  (0x839E, 0x51EE_6255_6261),
  (0x83A2, 0x6256),
  (0x83A8, 0x6264),
  (0x83AA, 0x6254_54B3),
  (0x83B1, 0x52C9),
  (0x83B5, 0x625E),
  (0x83BD, 0x6275),
  (0x83C1, 0x626E),
  (0x83C5, 0x4753),
  (0x83C7, 0x6267),
  (0x83CA, 0x46D7),
  (0x83CC, 0x4C73),
  (0x83CE, 0x6268),
  (0x83D3, 0x4C51),
  (0x83D6, 0x5180),
  (0x83D8, 0x626C),
  (0x83DC, 0x4BA8),
  (0x83DF, 0x53D4_6270),
  (0x83E9, 0x516A),
  (0x83EB, 0x54E9),
  (0x83EF, 0x4B6C_516D_48CC_6271),
  (0x83F4, 0x6265),
  (0x83F6, 0x6274_6269),
  (0x83FB, 0x6276),
  (0x83FD, 0x626A),
  (0x8403, 0x626B_54F7),
  (0x8407, 0x626F),
  (0x840A, 0x52C9_626D_50DB_6272_5482),
  (0x8413, 0x6266),
  (0x8420, 0x6273),
  (0x8422, 0x54D8),
  (0x8429, 0x494A_6277),
  (0x842C, 0x4B75),
  (0x8431, 0x4F7C),
  (0x8435, 0x6285),
  (0x8438, 0x6284),
  (0x843C, 0x6279_47F2),
  (0x8446, 0x6282),
  (0x8448, 0x627E_45F9),
  (0x844E, 0x559F),
  (0x8457, 0x4A59),
  (0x845B, 0x48DF),
  (0x8461, 0x5547_6278_5071),
  (0x8466, 0x4E72),
  (0x8469, 0x6281),
  (0x846B, 0x627C_4F79_516C_627F_6283),
  (0x8471, 0x544E),
  (0x8475, 0x50D9),
  (0x8477, 0x627B),
  (0x8479, 0x627D_50E0),
  (0x8482, 0x6280),
  (0x8484, 0x627A),
  (0x848B, 0x53F8),
  (0x8490, 0x4F93),
  (0x8494, 0x4FE3),
  (0x8499, 0x5095),
  (0x849C, 0x5259),
  (0x849F, 0x6289),
  (0x84A1, 0x6293),
  (0x84AD, 0x6290),
  (0x84B2, 0x49B2),
  (0x84B4, 0x628A),
  (0x84B8, 0x4ABA_6287),
  (0x84BB, 0x628C_50B9),
  (0x84BF, 0x6288),
  (0x84C1, 0x628F),
  (0x84C4, 0x4C94),
  (0x84C6, 0x6291),
  (0x84C9, 0x5083_6286_4F6D),
  (0x84CD, 0x628B),
  (0x84D0, 0x628E_4F9A),
  (0x84D6, 0x6292),
  (0x84D9, 0x6294_628D),
  (0x84DC, 0x527B),
  (0x84EC, 0x5088),
  (0x84EE, 0x4BF4),
  (0x84F4, 0x6296),
  (0x84FC, 0x518B),
  (0x84FF, 0x6295_52BD),
  (0x8506, 0x629D),
  (0x8511, 0x556C),
  (0x8513, 0x557B_629C_629B),
  (0x8517, 0x6297_6298),
  (0x851A, 0x549A),
  (0x851F, 0x629A),
  (0x8521, 0x54A8),
  (0x8523, 0x53F8),
  (0x8526, 0x4FA1),
  (0x852C, 0x6299_4E8B),
  (0x8535, 0x465E),
  (0x853D, 0x54D1),
  (0x8540, 0x62A0_62A5),
  (0x8543, 0x52F7),
  (0x8548, 0x62A4_53A8_62A6_62A7),
  (0x854E, 0x5565),
  (0x8553, 0x629E),
  (0x8555, 0x62A9),
  (0x8557, 0x5491_62A3_62A1_629F),
  (0x8563, 0x62A2),
  (0x8568, 0x50DE_54F0_51D3_62A8),
  (0x856D, 0x62B0),
  (0x8577, 0x62B6),
  (0x857E, 0x62B7),
  (0x8580, 0x62AA),
  (0x8584, 0x4A92),
  (0x8587, 0x62B4_62AC),
  (0x858A, 0x62AE),
  (0x8590, 0x62B8_62AD),
  (0x8594, 0x62B1),
  (0x8597, 0x4CEC),
  (0x8599, 0x51AD),
  (0x859B, 0x62B2_62B5),
  (0x85A4, 0x62AB),
  (0x85A6, 0x4FBF),
  (0x85A8, 0x62AF_4CF1_545A_4998_46E1),
  (0x85AE, 0x62B3_53F9_62BB),
  (0x85B9, 0x62BF_62BD),
  (0x85C1, 0x4FBB),
  (0x85C9, 0x62BC),
  (0x85CD, 0x4EED),
  (0x85CF, 0x62BE_62C0),
  (0x85D5, 0x62C1),
  (0x85DC, 0x62C4_62C2),
  (0x85E4, 0x4568_62C3),
  (0x85E9, 0x4FF6_4C95),
  (0x85F7, 0x55E2),
  (0x85F9, 0x62C5_53ED_505F),
  (0x85FE, 0x62C9),
  (0x8602, 0x5496),
  (0x8606, 0x4EDA_4CBF),
  (0x860A, 0x62C6_62C8),
  (0x8613, 0x62C7),
  (0x8616, 0x5CBD_5CBE),
  (0x861A, 0x62CB),
  (0x8622, 0x62CA),
  (0x862D, 0x4CA6),
  (0x862F, 0x5F82_62CC),
  (0x863F, 0x62CD),
  (0x864D, 0x62CF_4AAB),
  (0x8650, 0x5260),
  (0x8654, 0x52FB_62D1),
  (0x865A, 0x4F72),
  (0x865C, 0x5250),
  (0x865E, 0x5588_62D2),
  (0x8667, 0x62D3),
  (0x866B, 0x4BCB),
  (0x8671, 0x62D4),
  (0x8679, 0x51B6),
  (0x867B, 0x5144),
  (0x868A, 0x4FAA_62D8_62DA),
  (0x8693, 0x62D5),
  (0x8695, 0x4F5D),
  (0x86A3, 0x62D6_55A2),
  (0x86A9, 0x62D7_62D9_62E3),
  (0x86AF, 0x62DC_62DF),
  (0x86B6, 0x62DB),
  (0x86C4, 0x62DD),
  (0x86C6, 0x62DE_4FEA),
  (0x86C9, 0x62E0),
  (0x86CB, 0x53D8),
  (0x86CD, 0x4DF9_62E1),
  (0x86D4, 0x62E4),
  (0x86D9, 0x55BB),
  (0x86DB, 0x62E9),
  (0x86DE, 0x62E5_62E8),
  (0x86E4, 0x55C2),
  (0x86E9, 0x62E6),
  (0x86EC, 0x62E7_4E66_53A5_4F74),
  (0x86F8, 0x524E_62F3),
  (0x86FB, 0x62EF),
  (0x86FE, 0x5599),
  (0x8700, 0x62ED),
  (0x8702, 0x4ECD_62EE),
  (0x8706, 0x62EB),
  (0x8708, 0x62EC_62F1_62F4),
  (0x870D, 0x62F2),
  (0x8711, 0x62F0_62EA),
  (0x8718, 0x54DC),
  (0x871A, 0x62FA),
  (0x871C, 0x53A1),
  (0x8725, 0x62F8),
  (0x8729, 0x62F9),
  (0x8734, 0x62F5),
  (0x8737, 0x526D),
  (0x873B, 0x62F7),
  (0x873F, 0x62F6),
  (0x8749, 0x53E8),
  (0x874B, 0x52A1_62FD),
  (0x874E, 0x62FE),
  (0x8753, 0x6349),
  (0x8755, 0x5347),
  (0x8757, 0x6342),
  (0x8759, 0x6348),
  (0x875F, 0x62FB_6346),
  (0x8763, 0x634A),
  (0x8766, 0x51C3),
  (0x8768, 0x6343),
  (0x876A, 0x6345),
  (0x876E, 0x6347),
  (0x8774, 0x6341),
  (0x8776, 0x4E6E),
  (0x8778, 0x62FC),
  (0x877F, 0x634B),
  (0x8782, 0x6344),
  (0x878D, 0x48C2),
  (0x879F, 0x634E),
  (0x87A2, 0x634C),
  (0x87AB, 0x6355),
  (0x87AF, 0x634F),
  (0x87B3, 0x6357),
  (0x87BA, 0x51D6_6359),
  (0x87BD, 0x6351),
  (0x87C0, 0x6352),
  (0x87C4, 0x6356),
  (0x87C6, 0x634D_54F4),
  (0x87CB, 0x6350),
  (0x87D0, 0x6353),
  (0x87D2, 0x6358),
  (0x87E0, 0x635C),
  (0x87EC, 0x53E8),
  (0x87EF, 0x635A),
  (0x87F2, 0x635B),
  (0x87F6, 0x6363_6364),
  (0x87F9, 0x5090),
  (0x87FB, 0x51C6),
  (0x87FE, 0x6362),
  (0x8805, 0x55BD),
  (0x8807, 0x635E),
  (0x880D, 0x6361_635D_635F),
  (0x8811, 0x6365),
  (0x8815, 0x6366_6360),
  (0x881F, 0x52A1),
  (0x8821, 0x6368_6367_5351),
  (0x8827, 0x6369),
  (0x8831, 0x636A),
  (0x8836, 0x636B),
  (0x8839, 0x636C),
  (0x883B, 0x636D),
  (0x8840, 0x4B43),
  (0x8842, 0x636E),
  (0x8844, 0x636F),
  (0x8846, 0x4B88),
  (0x884C, 0x45A4_6370),
  (0x8852, 0x6371_486C),
  (0x8857, 0x4BA5),
  (0x8859, 0x6372),
  (0x885B, 0x4780),
  (0x885D, 0x4DA5_6373),
  (0x8861, 0x4BED_6374_4AEA),
  (0x8868, 0x46C0),
  (0x886B, 0x6375),
  (0x8870, 0x4F54),
  (0x8872, 0x637A),
  (0x8875, 0x6378),
  (0x8877, 0x52E9),
  (0x887D, 0x6379_6377_4AA7),
  (0x8881, 0x6376_637B),
  (0x8888, 0x4F6A),
  (0x888B, 0x4A54),
  (0x888D, 0x6382),
  (0x8892, 0x637E),
  (0x8896, 0x4A57_637D),
  (0x8899, 0x6380),
  (0x889E, 0x637C),
  (0x88A2, 0x6381),
  (0x88A4, 0x6383),
  (0x88AB, 0x4B8D),
  (0x88AE, 0x637F),
  (0x88B0, 0x54C5_6386),
  (0x88B4, 0x4F5A_6385),
  (0x88B7, 0x5448),
  (0x88BF, 0x6384),
  (0x88C1, 0x49BD_4F60_6387_6388_4898),
  (0x88CF, 0x49A4),
  (0x88D4, 0x6389_46F8),
  (0x88D8, 0x638A_638B),
  (0x88DC, 0x496A_638C),
  (0x88DF, 0x4F8A),
  (0x88E1, 0x544D),
  (0x88E8, 0x6391),
  (0x88F2, 0x6392_4FA8_5349_6390),
  (0x88F8, 0x4F43_638D),
  (0x88FC, 0x638F_457B_4C8D),
  (0x8902, 0x638E),
  (0x8904, 0x6393),
  (0x8907, 0x4B51),
  (0x890A, 0x6397),
  (0x890C, 0x6394),
  (0x8910, 0x545E),
  (0x8912, 0x51BA_6398),
  (0x891C, 0x51DA_6396_6399),
  (0x8925, 0x639A),
  (0x892A, 0x6395_639B),
  (0x8936, 0x639E),
  (0x8938, 0x63A0),
  (0x893B, 0x639D),
  (0x8941, 0x639C),
  (0x8943, 0x639F_506B),
  (0x894C, 0x63A2_63A1),
  (0x8956, 0x546C),
  (0x895E, 0x63A4_54AF_63A3),
  (0x8964, 0x63A7),
  (0x8966, 0x63A5),
  (0x896A, 0x63A6),
  (0x896D, 0x63A8),
  (0x896F, 0x63A9),
  (0x8972, 0x4DDF),
  (0x8974, 0x63AA),
  (0x8977, 0x63AB),
  (0x897E, 0x63AC_4558),
  (0x8981, 0x4655),
  (0x8983, 0x63AD),
  (0x8986, 0x4DF2_4BFA_63AE),
  (0x898A, 0x63AF_45BB),
  (0x898F, 0x46FB),
  (0x8993, 0x63B0),
  (0x8996, 0x4A50_53EB_63B1),
  (0x899A, 0x4A4C),
  (0x89A1, 0x63B2),
  (0x89A6, 0x63B4_4ED0),
  (0x89A9, 0x63B3_4885),
  (0x89AC, 0x63B5),
  (0x89AF, 0x63B6),
  (0x89B2, 0x63B7_487E),
  (0x89BA, 0x63B8),
  (0x89BD, 0x63BA),
  (0x89BF, 0x63B9_63BB),
  (0x89D2, 0x477D),
  (0x89DA, 0x63BC),
  (0x89DC, 0x5360_63BD),
  (0x89E3, 0x47B7),
  (0x89E6, 0x4CD1_63BE),
  (0x89F4, 0x63BF),
  (0x89F8, 0x63C0),
  (0x8A00, 0x479A),
  (0x8A02, 0x4FC4_63C1),
  (0x8A08, 0x45C9),
  (0x8A0A, 0x50F2),
  (0x8A0C, 0x63C4),
  (0x8A0E, 0x49D2),
  (0x8A10, 0x63C3),
  (0x8A12, 0x63C5_4BC8),
  (0x8A16, 0x63C2_4AB6_4794),
  (0x8A1B, 0x63C6),
  (0x8A1D, 0x63C7),
  (0x8A1F, 0x50EF),
  (0x8A23, 0x54CC),
  (0x8A25, 0x63C8),
  (0x8A2A, 0x4A71),
  (0x8A2D, 0x45E2),
  (0x8A31, 0x4A9A),
  (0x8A33, 0x4BAD_4CDF),
  (0x8A36, 0x63C9_63CB),
  (0x8A3A, 0x4D68_4F66_49BA),
  (0x8A41, 0x63CA),
  (0x8A46, 0x63CE),
  (0x8A48, 0x63CF),
  (0x8A50, 0x5176_55E3_63CD),
  (0x8A54, 0x4F88_49FD),
  (0x8A5B, 0x63CC),
  (0x8A5E, 0x4E90),
  (0x8A60, 0x51C1),
  (0x8A62, 0x63D3_54FB),
  (0x8A66, 0x4948),
  (0x8A69, 0x4CB0),
  (0x8A6B, 0x50D3_63D2_63D1_518E),
  (0x8A70, 0x4B5F_4750_4D8D_4DE7),
  (0x8A79, 0x63D4),
  (0x8A7C, 0x63D0),
  (0x8A82, 0x63D6),
  (0x8A84, 0x63D7_63D5),
  (0x8A87, 0x4EB4),
  (0x8A89, 0x4D8C),
  (0x8A8C, 0x4B76_4A7E),
  (0x8A91, 0x63DA),
  (0x8A93, 0x4FA0),
  (0x8A95, 0x4FA2),
  (0x8A98, 0x4ACB),
  (0x8A9A, 0x63DD),
  (0x8A9E, 0x48E7),
  (0x8AA0, 0x46FD_63D9),
  (0x8AA3, 0x63DE_4D91_63DB_63DC_63DF_63D8),
  (0x8AAC, 0x4952_4A4F),
  (0x8AB0, 0x4B83),
  (0x8AB2, 0x49D6),
  (0x8AB9, 0x55F2),
  (0x8ABC, 0x5265),
  (0x8ABE, 0x63E1_4689),
  (0x8AC2, 0x63E3),
  (0x8AC4, 0x50B2),
  (0x8AC7, 0x4963),
  (0x8ACB, 0x4AE8_63E0_63E2),
  (0x8ACF, 0x4BC1),
  (0x8AD2, 0x5181),
  (0x8AD6, 0x48F3),
  (0x8ADA, 0x63E4_63F2_5570),
  (0x8ADE, 0x63F1_63ED_63EA_63EC_63EB),
  (0x8AE4, 0x63E7),
  (0x8AE6, 0x5246_63E6),
  (0x8AEB, 0x4E96),
  (0x8AED, 0x4E9C_4F9C),
  (0x8AF1, 0x63E8),
  (0x8AF3, 0x63E5),
  (0x8AF6, 0x63EF_63F0_47E2),
  (0x8AFA, 0x55AB),
  (0x8AFE, 0x4FE1),
  (0x8B00, 0x4F4D_54E5_5573),
  (0x8B04, 0x4FE2),
  (0x8B07, 0x63F4),
  (0x8B0C, 0x63F3),
  (0x8B0E, 0x52F9),
  (0x8B10, 0x63F7),
  (0x8B14, 0x63E9),
  (0x8B16, 0x63F6_63F8),
  (0x8B19, 0x497C_63F5_4A6E),
  (0x8B1D, 0x4DBB),
  (0x8B20, 0x63F9_4D7D),
  (0x8B26, 0x63FD),
  (0x8B28, 0x5381),
  (0x8B2B, 0x63FE_55A1),
  (0x8B33, 0x63FA),
  (0x8B39, 0x4D87),
  (0x8B3E, 0x6441),
  (0x8B41, 0x63FB),
  (0x8B49, 0x6446),
  (0x8B4C, 0x6442),
  (0x8B4E, 0x6444_6443),
  (0x8B53, 0x6445),
  (0x8B56, 0x6447),
  (0x8B58, 0x4A75),
  (0x8B5A, 0x6449_6448_4E4F),
  (0x8B5F, 0x644C),
  (0x8B66, 0x4AD7),
  (0x8B6B, 0x644B_644D),
  (0x8B6F, 0x644E_4781_6176_4B7B),
  (0x8B74, 0x644A),
  (0x8B77, 0x49DB),
  (0x8B7D, 0x644F),
  (0x8B7F, 0x6450_6451),
  (0x8B83, 0x516B),
  (0x8B8A, 0x5B88),
  (0x8B8C, 0x6452),
  (0x8B8E, 0x6453),
  (0x8B90, 0x53FE),
  (0x8B92, 0x6455_6456),
  (0x8B96, 0x6457),
  (0x8B99, 0x6454_6458),
  (0x8C37, 0x4581),
  (0x8C3A, 0x6459),
  (0x8C3F, 0x645B),
  (0x8C41, 0x645A),
  (0x8C46, 0x4A99),
  (0x8C48, 0x645C),
  (0x8C4A, 0x4648),
  (0x8C4C, 0x645D),
  (0x8C4E, 0x645E),
  (0x8C50, 0x645F),
  (0x8C55, 0x6460),
  (0x8C5A, 0x4CCF),
  (0x8C61, 0x4994_6461),
  (0x8C6A, 0x4C68_5355_6462),
  (0x8C78, 0x6463_5593_6464),
  (0x8C7C, 0x6465),
  (0x8C82, 0x6466),
  (0x8C85, 0x6468),
  (0x8C89, 0x6467_6469),
  (0x8C8C, 0x5064_646A_646B),
  (0x8C94, 0x646D),
  (0x8C98, 0x646C),
  (0x8C9D, 0x49EA_46B6),
  (0x8CA0, 0x49C8_49AF_4AF1),
  (0x8CA7, 0x4DA3_4AEB_4A5D_6470_49A1_4BD2_646F_6471_4C62_4DEF),
  (0x8CB2, 0x6473_6474_487F),
  (0x8CB6, 0x6476_4974_4AF4),
  (0x8CBB, 0x46D0_507B_6472),
  (0x8CBF, 0x4872_4641_6475_55F8_4B4D_5067),
  (0x8CC7, 0x4650_6477),
  (0x8CCA, 0x4FFD),
  (0x8CCD, 0x6479_6478),
  (0x8CD1, 0x539E),
  (0x8CD3, 0x50D7),
  (0x8CDA, 0x647B_4DEE_4F94),
  (0x8CDE, 0x4AAD),
  (0x8CE0, 0x4F4F),
  (0x8CE2, 0x47E5_647A_5566),
  (0x8CE6, 0x4FA7),
  (0x8CEA, 0x46EC),
  (0x8CED, 0x52C1),
  (0x8CF0, 0x647C),
  (0x8CF4, 0x647D),
  (0x8CFA, 0x647F_6480_4E8F_647E),
  (0x8D04, 0x535A_5574),
  (0x8D07, 0x6481_4C7C),
  (0x8D0A, 0x6482_5584),
  (0x8D0D, 0x6484),
  (0x8D0F, 0x6483_6486),
  (0x8D12, 0x6485_6487_6488),
  (0x8D16, 0x6489),
  (0x8D64, 0x46F9),
  (0x8D66, 0x5151_648A),
  (0x8D6B, 0x53CC),
  (0x8D6D, 0x648B),
  (0x8D70, 0x4AAA_648C),
  (0x8D73, 0x51C9_50EE),
  (0x8D76, 0x648D_48D0),
  (0x8D81, 0x648F),
  (0x8D85, 0x4A78),
  (0x8D8A, 0x46DF),
  (0x8D99, 0x51DE),
  (0x8DA3, 0x4CED),
  (0x8DA8, 0x5561),
  (0x8DB3, 0x46FA),
  (0x8DBA, 0x6492),
  (0x8DBE, 0x6491),
  (0x8DC2, 0x6490),
  (0x8DCB, 0x6498_6496),
  (0x8DCF, 0x6493),
  (0x8DD6, 0x6495),
  (0x8DDA, 0x6494_6497),
  (0x8DDD, 0x4DC2),
  (0x8DDF, 0x649B),
  (0x8DE1, 0x4CCD),
  (0x8DE3, 0x649C),
  (0x8DE8, 0x55CB),
  (0x8DEA, 0x6499_649A),
  (0x8DEF, 0x4784),
  (0x8DF3, 0x50B4),
  (0x8DF5, 0x50D1),
  (0x8DFC, 0x649D),
  (0x8DFF, 0x649F),
  (0x8E08, 0x649E_64A0_4CA8),
  (0x8E0F, 0x4D7C_64A3),
  (0x8E1D, 0x64A1_64A2_64A4),
  (0x8E2A, 0x50FC),
  (0x8E30, 0x64A7),
  (0x8E34, 0x64A8_64A6),
  (0x8E42, 0x64A5),
  (0x8E44, 0x55A7),
  (0x8E47, 0x64AA_64AE_64AB_64A9),
  (0x8E4C, 0x64AC),
  (0x8E50, 0x64AD),
  (0x8E55, 0x64B2),
  (0x8E59, 0x64AF),
  (0x8E5F, 0x5368_64B1),
  (0x8E63, 0x64B3_64B0),
  (0x8E72, 0x64B5),
  (0x8E74, 0x52F6),
  (0x8E76, 0x64B4),
  (0x8E7C, 0x64B7),
  (0x8E81, 0x64B8),
  (0x8E84, 0x64BA_64B9),
  (0x8E87, 0x64B6),
  (0x8E8A, 0x64BC_64BB),
  (0x8E8D, 0x4CA1),
  (0x8E91, 0x64BE),
  (0x8E93, 0x64BD_64BF),
  (0x8E99, 0x64C0),
  (0x8EA1, 0x64C1),
  (0x8EAA, 0x64C2_479C_5044),
  (0x8EAF, 0x5353_537A_64C3),
  (0x8EBE, 0x64C4),
  (0x8EC0, 0x5353),
  (0x8EC5, 0x64C6_64C5),
  (0x8EC8, 0x64C7),
  (0x8ECA, 0x4653_64C8_4DAA_4897),
  (0x8ECF, 0x64C9),
  (0x8ED2, 0x4E55),
  (0x8EDB, 0x64CA),
  (0x8EDF, 0x4CB1),
  (0x8EE2, 0x4752_64CB),
  (0x8EEB, 0x64CE),
  (0x8EF8, 0x4BA6),
  (0x8EFB, 0x64CD_64CC_48A6_64CF),
  (0x8F03, 0x4A5A),
  (0x8F05, 0x64D2),
  (0x8F09, 0x4D6E_64D0),
  (0x8F0C, 0x64D1),
  (0x8F12, 0x64D4_64D5_4A68_64D3),
  (0x8F19, 0x64D7),
  (0x8F1B, 0x515B_64D6_4787),
  (0x8F1F, 0x64D8),
  (0x8F26, 0x64D9),
  (0x8F29, 0x4EF4_48B7),
  (0x8F2F, 0x55A6),
  (0x8F33, 0x64DA),
  (0x8F38, 0x4693_64DC),
  (0x8F3B, 0x64DB),
  (0x8F3E, 0x64DF_506C),
  (0x8F42, 0x64DE),
  (0x8F44, 0x50FE_64DD_64E1),
  (0x8F49, 0x64E0),
  (0x8F4C, 0x64E2_54EE_64E3),
  (0x8F57, 0x64E4),
  (0x8F5C, 0x64E5),
  (0x8F5F, 0x50A9),
  (0x8F61, 0x52E1_64E6_64E7_64E8),
  (0x8F9B, 0x4D5E_64E9),
  (0x8F9E, 0x4D74_64EA),
  (0x8FA3, 0x64EB),
  (0x8FA7, 0x64ED_64EC),
  (0x8FAD, 0x64EE_6149_64EF_47DF_52E5_4845),
  (0x8FB7, 0x64F0),
  (0x8FBA, 0x45D5_47F5_4841),
  (0x8FBF, 0x547E),
  (0x8FC2, 0x55DF),
  (0x8FC4, 0x49CD_5068),
  (0x8FCE, 0x4BA9),
  (0x8FD1, 0x4673),
  (0x8FD4, 0x48D6),
  (0x8FDA, 0x64F2),
  (0x8FE2, 0x64F4),
  (0x8FE5, 0x64F3_535D),
  (0x8FE9, 0x64F6_4E9E_49EF),
  (0x8FED, 0x53DF),
  (0x8FEF, 0x64F5_4A9C),
  (0x8FF4, 0x64F7),
  (0x8FF7, 0x4E58_64FA_64F9_54A9),
  (0x8FFD, 0x49D1),
  (0x9000, 0x4B49_4744),
  (0x9003, 0x4C72),
  (0x9005, 0x64F8_4BFC),
  (0x900B, 0x6544),
  (0x900D, 0x6541_64FD_4BDA_50BB_64FB),
  (0x9013, 0x515E_48F0_64FC_6543_4FB3),
  (0x9019, 0x4FCA_45E3),
  (0x901D, 0x53B1_6542_48CD_45B8_64FE_4DCE_4754),
  (0x9027, 0x6545),
  (0x902E, 0x4F77),
  (0x9031, 0x4AD3_4669),
  (0x9035, 0x5485_6546),
  (0x9038, 0x4AD6_6547),
  (0x903C, 0x55AC),
  (0x903E, 0x654E),
  (0x9041, 0x54F8_4CF7),
  (0x9045, 0x4C6D),
  (0x9047, 0x49EC),
  (0x9049, 0x654D_4A8B_46AB),
  (0x904D, 0x505D_488D_6548_654A_654B_654C_4550_46A4_49BC_654F),
  (0x9058, 0x6550_52F3),
  (0x905C, 0x5455),
  (0x905E, 0x6551),
  (0x9060, 0x46E3_544C),
  (0x9063, 0x4EC2),
  (0x9065, 0x6882),
  (0x9067, 0x6553_6552_49CC),
  (0x906D, 0x5143_5458_6554),
  (0x9072, 0x6557),
  (0x9075, 0x526E_6555_535B_485D),
  (0x907A, 0x4CDA),
  (0x907C, 0x526B_6559),
  (0x907F, 0x4CC4_655B_537B_6558_6045_4DA9),
  (0x9087, 0x5186),
  (0x9089, 0x655A_50EA),
  (0x908F, 0x655C),
  (0x9091, 0x4C92),
  (0x90A3, 0x4846),
  (0x90A6, 0x46C5),
  (0x90A8, 0x51A8),
  (0x90AA, 0x4EB8),
  (0x90AF, 0x655E),
  (0x90B1, 0x655F),
  (0x90B5, 0x6560),
  (0x90B8, 0x4D81),
  (0x90C1, 0x49B3),
  (0x90CA, 0x5052),
  (0x90CE, 0x456E),
  (0x90DB, 0x6563),
  (0x90DE, 0x6564),
  (0x90E1, 0x499E_6561),
  (0x90E4, 0x6562),
  (0x90E8, 0x4595),
  (0x90ED, 0x5162),
  (0x90F5, 0x4CB7),
  (0x90F7, 0x4995),
  (0x90FD, 0x454F),
  (0x9102, 0x6565),
  (0x9112, 0x6568),
  (0x9115, 0x6567),
  (0x9119, 0x6569),
  (0x9127, 0x656B),
  (0x912D, 0x5154),
  (0x9130, 0x656C),
  (0x9132, 0x656A),
  (0x9149, 0x4F73_656D_5548_52BB_47F3_5591),
  (0x9152, 0x4758),
  (0x9154, 0x4E7C),
  (0x9156, 0x656E),
  (0x9158, 0x656F),
  (0x9162, 0x4BAE_6570),
  (0x9165, 0x6571),
  (0x9169, 0x6572_50BD),
  (0x916C, 0x5149),
  (0x9172, 0x6574_6573),
  (0x9175, 0x4D86),
  (0x9177, 0x51EB_4899),
  (0x9182, 0x6577),
  (0x9187, 0x51A9),
  (0x9189, 0x6576),
  (0x918B, 0x6575),
  (0x918D, 0x516F),
  (0x9190, 0x5170),
  (0x9192, 0x5378),
  (0x9197, 0x51FA),
  (0x919C, 0x536F),
  (0x91A2, 0x6578),
  (0x91A4, 0x507F),
  (0x91AA, 0x657B_6579_507F),
  (0x91AF, 0x657A),
  (0x91B1, 0x51FA),
  (0x91B4, 0x657D_657C),
  (0x91B8, 0x50C2),
  (0x91BA, 0x657E),
  (0x91C0, 0x657F_6580),
  (0x91C6, 0x5346_53BF_4D79_5252),
  (0x91CB, 0x6581_476C_45A3_4569_47B5_6582_4586),
  (0x91D6, 0x6587_6585_4FF4),
  (0x91DA, 0x6583_6584_4ACC_4988_6586_6588),
  (0x91E1, 0x6589),
  (0x91E3, 0x4CE3_658D_658F_534A_4BF0),
  (0x91ED, 0x658A_658C),
  (0x91F5, 0x658B_658E),
  (0x91FC, 0x51D0),
  (0x91FF, 0x6592),
  (0x9206, 0x6590),
  (0x920A, 0x6595),
  (0x920D, 0x4E63_538F),
  (0x9210, 0x6593_5269),
  (0x9214, 0x6594_6597),
  (0x921E, 0x6591),
  (0x9229, 0x6598),
  (0x922C, 0x6596),
  (0x9234, 0x45AE),
  (0x9237, 0x55BF),
  (0x9239, 0x65A6_659B),
  (0x923C, 0x659F),
  (0x923F, 0x65A4_659E),
  (0x9244, 0x45D7_659A),
  (0x9248, 0x65A0_659C),
  (0x924B, 0x65A7),
  (0x924E, 0x65A1),
  (0x9250, 0x65A2_65A5),
  (0x9257, 0x6599),
  (0x9259, 0x65A3_65A9_49D4),
  (0x925E, 0x5393),
  (0x9262, 0x4EA8),
  (0x9264, 0x659D),
  (0x9266, 0x4FB4_65A8),
  (0x9271, 0x4863),
  (0x9277, 0x65AC_65AD),
  (0x927E, 0x5183),
  (0x9280, 0x478C),
  (0x9283, 0x4CE2),
  (0x9285, 0x48C0),
  (0x9288, 0x524B),
  (0x9291, 0x4CAD),
  (0x9293, 0x65AF),
  (0x9295, 0x65B1_65AE),
  (0x9298, 0x4DDC),
  (0x929A, 0x4E80_65B0_65AA),
  (0x92A7, 0x65AB),
  (0x92AD, 0x4D48),
  (0x92B7, 0x65BB),
  (0x92B9, 0x65BA),
  (0x92CF, 0x65B3_65B7),
  (0x92D2, 0x5449_65BD),
  (0x92D5, 0x65B9),
  (0x92D7, 0x65B5),
  (0x92D9, 0x65B6),
  (0x92E0, 0x65BC),
  (0x92E4, 0x52C0),
  (0x92E7, 0x65B4),
  (0x92E9, 0x65B2_5363),
  (0x92ED, 0x4D6F),
  (0x92F2, 0x55BE_48C1),
  (0x92F8, 0x51E7_5394_65C2_65C5_46A1),
  (0x92FF, 0x65C9),
  (0x9302, 0x65CE),
  (0x9306, 0x55D2),
  (0x930F, 0x65C0_5390),
  (0x9318, 0x54EF_65C7_65CB),
  (0x931D, 0x65CC_65C8),
  (0x9320, 0x4E57_65C3_65CA_65CD),
  (0x9325, 0x65C1_4B8E),
  (0x9328, 0x53F0),
  (0x932B, 0x5257_4FE6),
  (0x932E, 0x5283_50B1),
  (0x9332, 0x4886),
  (0x9335, 0x65BF),
  (0x933A, 0x65BE_65CF),
  (0x9344, 0x65C4),
  (0x9348, 0x51F7),
  (0x934B, 0x4B48),
  (0x934D, 0x55D3),
  (0x9354, 0x54AA),
  (0x9356, 0x65D4_65D5),
  (0x935B, 0x48C7_52AD),
  (0x9360, 0x65D1),
  (0x936C, 0x4F70),
  (0x936E, 0x65D3),
  (0x9370, 0x65D0),
  (0x9375, 0x4E45),
  (0x937C, 0x65D2),
  (0x937E, 0x53BD),
  (0x938C, 0x4962),
  (0x9394, 0x65DA),
  (0x9396, 0x4D70_5197),
  (0x939A, 0x54FE),
  (0x93A4, 0x65D8),
  (0x93A7, 0x546D),
  (0x93AC, 0x536E_65D9_4C89),
  (0x93B0, 0x65D7),
  (0x93B9, 0x65D6),
  (0x93C3, 0x65E2),
  (0x93C6, 0x65DD),
  (0x93C8, 0x65DB),
  (0x93D0, 0x65E5_5041),
  (0x93D6, 0x65DC_65DE_65E1),
  (0x93DD, 0x65E3_65E4),
  (0x93E1, 0x4A8D),
  (0x93E4, 0x65E6_65E0),
  (0x93E8, 0x65DF),
  (0x93F8, 0x65E8),
  (0x9403, 0x65EC),
  (0x9407, 0x65ED),
  (0x9410, 0x51CD),
  (0x9413, 0x65EA_65E9),
  (0x9418, 0x4CC8_52CF_65E7),
  (0x9421, 0x65EB),
  (0x942B, 0x65EF),
  (0x9431, 0x65F0),
  (0x9435, 0x5156_65EE),
  (0x9438, 0x5388),
  (0x943A, 0x65F1),
  (0x9441, 0x65F2),
  (0x9444, 0x65F5_65F4),
  (0x9448, 0x65F6),
  (0x9451, 0x4E4E_65F3_5241),
  (0x945A, 0x65F8_65F7),
  (0x945E, 0x65FB),
  (0x9460, 0x65F9),
  (0x9462, 0x65FA),
  (0x946A, 0x65FC),
  (0x9470, 0x65FE),
  (0x9475, 0x65FD),
  (0x9477, 0x6641),
  (0x947C, 0x6644_6643_6645_6642),
  (0x9481, 0x6646),
  (0x9577, 0x4583),
  (0x9580, 0x46AA),
  (0x9582, 0x6647_519C),
  (0x9587, 0x6648),
  (0x9589, 0x4B7D_6649_46CD),
  (0x958F, 0x545F),
  (0x9591, 0x4DD9_664A_45C1_664B),
  (0x9596, 0x664C),
  (0x9598, 0x664D_664E),
  (0x95A0, 0x664F),
  (0x95A2, 0x45C5_4AE9_549B_5172),
  (0x95A7, 0x6651_6650),
  (0x95AD, 0x6652),
  (0x95B2, 0x5177),
  (0x95B9, 0x6655),
  (0x95BB, 0x6654_6653),
  (0x95BE, 0x6656),
  (0x95C3, 0x6659),
  (0x95C7, 0x5364),
  (0x95CA, 0x6657),
  (0x95CC, 0x665B_665A),
  (0x95D4, 0x665D_665C_665E),
  (0x95D8, 0x4BCC),
  (0x95DC, 0x665F),
  (0x95E1, 0x6660_6662),
  (0x95E5, 0x6661),
  (0x961C, 0x4786),
  (0x9621, 0x6663),
  (0x9628, 0x6664),
  (0x962A, 0x4591),
  (0x962E, 0x6665_6666),
  (0x9632, 0x47BC),
  (0x963B, 0x4FEF),
  (0x963F, 0x46AE_4FE8),
  (0x9642, 0x6667),
  (0x9644, 0x4B8C),
  (0x964B, 0x666A_6669_49E5),
  (0x964F, 0x6668_48AD),
  (0x965B, 0x5157_666B_666C_5272_666D),
  (0x9662, 0x49D8_4C84_496D_4FFE_666E),
  (0x966A, 0x55C3),
  (0x966C, 0x6671),
  (0x9670, 0x4CD2),
  (0x9672, 0x6670_4E61),
  (0x9675, 0x50C7_4AB7_666F_4961),
  (0x967A, 0x4A6C),
  (0x967D, 0x47BF),
  (0x9685, 0x4BB9_465D),
  (0x9688, 0x4CE5),
  (0x968A, 0x4A93_6673),
  (0x968D, 0x6672_49A9_4E76),
  (0x9694, 0x505A_6676),
  (0x9697, 0x6677_6675_53C3),
  (0x969B, 0x4797_4BF9_6679),
  (0x96A0, 0x4EAE),
  (0x96A3, 0x4CE0),
  (0x96A7, 0x667A_6556),
  (0x96AA, 0x667B),
  (0x96AF, 0x667F_667E_667C_667D),
  (0x96B4, 0x6680),
  (0x96B6, 0x6681_5545_6682_6683),
  (0x96BB, 0x4FDA_4ED5),
  (0x96C0, 0x4F64_51A4),
  (0x96C4, 0x4570_4745_47A0_4C4D),
  (0x96C9, 0x5477),
  (0x96CB, 0x6685_52B7_525B_6684),
  (0x96D1, 0x4A8A),
  (0x96D5, 0x6686_6354),
  (0x96D9, 0x6688),
  (0x96DB, 0x51FB_6687),
  (0x96E2, 0x4997_495A),
  (0x96E8, 0x49DD),
  (0x96EA, 0x49BB_52A5),
  (0x96F0, 0x4F90),
  (0x96F2, 0x4ABC),
  (0x96F6, 0x5069_4BD6),
  (0x96F9, 0x6689),
  (0x96FB, 0x4582),
  (0x9700, 0x47FB),
  (0x9704, 0x668A),
  (0x9706, 0x668B_4DDE_668C),
  (0x970A, 0x4F4B),
  (0x970D, 0x668E_6690_6692),
  (0x9711, 0x6691),
  (0x9713, 0x668F),
  (0x9716, 0x6693),
  (0x9719, 0x668D),
  (0x971C, 0x4DE8),
  (0x971E, 0x4EE4),
  (0x9724, 0x6694),
  (0x9727, 0x4E48),
  (0x972A, 0x6695),
  (0x9730, 0x6696),
  (0x9732, 0x4BC6_6697),
  (0x9738, 0x5BCF_6698),
  (0x973B, 0x6699),
  (0x973D, 0x669A_669B),
  (0x9742, 0x66A0_669E_669D),
  (0x9746, 0x669C),
  (0x9748, 0x669F_66A1),
  (0x974D, 0x66A2),
  (0x974F, 0x66A3),
  (0x9751, 0x66A4_464C),
  (0x9755, 0x66A5_48C3),
  (0x9759, 0x4644),
  (0x975C, 0x66A6),
  (0x975E, 0x48E1),
  (0x9760, 0x66A7_6852_4691),
  (0x9764, 0x66A8),
  (0x9766, 0x66A9),
  (0x9768, 0x66AA_4AA3),
  (0x976B, 0x53B5),
  (0x976D, 0x66AB),
  (0x9771, 0x52CE),
  (0x9774, 0x4DF1),
  (0x9779, 0x66AC_66B0),
  (0x977C, 0x66AE),
  (0x9781, 0x66AF),
  (0x9784, 0x5445_66AD_5277),
  (0x978B, 0x66B1),
  (0x978D, 0x504C),
  (0x978F, 0x66B2_66B3),
  (0x9798, 0x52E7),
  (0x979C, 0x66B4),
  (0x97A0, 0x51ED),
  (0x97A3, 0x66B7),
  (0x97A6, 0x66B6),
  (0x97A8, 0x66B5),
  (0x97AB, 0x63FC),
  (0x97AD, 0x548B),
  (0x97B3, 0x66B8_66B9),
  (0x97C3, 0x66BA),
  (0x97C6, 0x66BB),
  (0x97C8, 0x66BC),
  (0x97CB, 0x66BD),
  (0x97D3, 0x4E75),
  (0x97DC, 0x66BE),
  (0x97ED, 0x66BF_4FDF),
  (0x97F2, 0x66C0_484D),
  (0x97F5, 0x66C2_52FC),
  (0x97FB, 0x5577),
  (0x97FF, 0x4A5C),
  (0x9801, 0x4CD9_4D5B_4946),
  (0x9805, 0x4A97_47B2),
  (0x9808, 0x46B0),
  (0x980C, 0x5456),
  (0x980F, 0x66C3_4D4A_539D_5557_517A),
  (0x9817, 0x55E4_4ACD),
  (0x981A, 0x66C4),
  (0x9821, 0x66C6),
  (0x9824, 0x66C5),
  (0x982C, 0x4EB3_47EB),
  (0x9830, 0x4EB3),
  (0x9834, 0x5576),
  (0x9837, 0x66C7_50FB_66C8),
  (0x983B, 0x53AB_4A7A_66C8),
  (0x9846, 0x51DC),
  (0x984B, 0x66CA_47FE_47F1_548E_66C9),
  (0x9854, 0x48B8_4AE5),
  (0x9857, 0x66CB_4C57),
  (0x985A, 0x55C1_55C1),
  (0x985E, 0x46BA),
  (0x9865, 0x66CC),
  (0x9867, 0x4EEE),
  (0x986B, 0x66CD),
  (0x986F, 0x66CE_66CF_66D0),
  (0x9873, 0x66D2_66D1),
  (0x98A8, 0x47E7),
  (0x98AA, 0x66D3),
  (0x98AF, 0x66D4),
  (0x98B1, 0x66D5),
  (0x98B6, 0x66D6),
  (0x98C3, 0x66D8_66D7),
  (0x98C6, 0x66D9),
  (0x98DB, 0x488A_66DA),
  (0x98DF, 0x46B8),
  (0x98E2, 0x53CE),
  (0x98E9, 0x66DC),
  (0x98EB, 0x66DE),
  (0x98ED, 0x66DB_5CCA_46B5),
  (0x98F2, 0x4BA3),
  (0x98F4, 0x5245),
  (0x98FC, 0x4A8F_4D49_4957),
  (0x9903, 0x66E0),
  (0x9905, 0x50BF),
  (0x9909, 0x54BC_4979),
  (0x990C, 0x50A7),
  (0x9910, 0x55B3),
  (0x9912, 0x66E2_554B_66E3),
  (0x9918, 0x66E4),
  (0x991D, 0x66E1_66E8),
  (0x9920, 0x66EA_66E7),
  (0x9924, 0x66E9),
  (0x9927, 0x66E5_4862),
  (0x992C, 0x66EB),
  (0x992E, 0x66EC),
  (0x993D, 0x66ED_66EE),
  (0x9942, 0x66EF),
  (0x9945, 0x66F1),
  (0x9949, 0x66F0),
  (0x994B, 0x66F3_66F5),
  (0x9950, 0x66F2_66F4_52E8),
  (0x9955, 0x66F6),
  (0x9957, 0x51D5),
  (0x9996, 0x49BE_66F7_66F8_46BD),
  (0x999E, 0x66F9),
  (0x99A5, 0x66FA),
  (0x99A8, 0x4B85),
  (0x99AC, 0x4664_66FB_66FC),
  (0x99B3, 0x52DF_50A1),
  (0x99BC, 0x66FD),
  (0x99C1, 0x55E5),
  (0x99C4, 0x4DE5_49AC_4CFE),
  (0x99C8, 0x4F85),
  (0x99D0, 0x4DF5_6744_49FC),
  (0x99D5, 0x53BE),
  (0x99D8, 0x6743),
  (0x99DB, 0x6741),
  (0x99DD, 0x6742),
  (0x99DF, 0x66FE),
  (0x99E2, 0x6747),
  (0x99ED, 0x6745_6746),
  (0x99F1, 0x6748_6749),
  (0x99F8, 0x674B),
  (0x99FB, 0x674A),
  (0x99FF, 0x4CC0),
  (0x9A01, 0x674C),
  (0x9A05, 0x674E),
  (0x9A0E, 0x5058_674D),
  (0x9A12, 0x4DD2_48B4),
  (0x9A19, 0x674F),
  (0x9A28, 0x53DA),
  (0x9A2B, 0x6750),
  (0x9A30, 0x4E5E),
  (0x9A37, 0x6751),
  (0x9A3E, 0x6756),
  (0x9A40, 0x6752),
  (0x9A42, 0x6754_6755),
  (0x9A45, 0x6753),
  (0x9A4D, 0x6758_6759),
  (0x9A52, 0x53DA),
  (0x9A55, 0x6757),
  (0x9A57, 0x675B),
  (0x9A5A, 0x4CD5_675A),
  (0x9A5F, 0x675C),
  (0x9A62, 0x675D),
  (0x9A64, 0x6760_675F),
  (0x9A69, 0x675E_6761_6762),
  (0x9AA8, 0x4AA5),
  (0x9AAD, 0x6763),
  (0x9AB0, 0x6764),
  (0x9AB8, 0x559C),
  (0x9ABC, 0x6765),
  (0x9AC0, 0x6766),
  (0x9AC4, 0x52C5),
  (0x9ACF, 0x6767),
  (0x9AD1, 0x676A),
  (0x9AD3, 0x6768_6769),
  (0x9AD8, 0x4571_676B),
  (0x9ADC, 0x676C),
  (0x9ADE, 0x676D_676E),
  (0x9AE2, 0x676F_6770),
  (0x9AE6, 0x6771),
  (0x9AEA, 0x4CF6_6773),
  (0x9AED, 0x509D_6774_6772),
  (0x9AF1, 0x6776),
  (0x9AF4, 0x6775),
  (0x9AF7, 0x6777),
  (0x9AFB, 0x6778),
  (0x9B06, 0x6779),
  (0x9B18, 0x677A),
  (0x9B1A, 0x677B),
  (0x9B1F, 0x677C),
  (0x9B22, 0x677D_677E),
  (0x9B25, 0x677F),
  (0x9B27, 0x6780_6781_6782_6783),
  (0x9B2E, 0x6784_6785),
  (0x9B31, 0x6786_6787),
  (0x9B3B, 0x6788_4AC8),
  (0x9B41, 0x52CB_50A8_678A_6789_4DB4),
  (0x9B4D, 0x678B_678C_5389),
  (0x9B51, 0x678D),
  (0x9B54, 0x4DE2),
  (0x9B58, 0x678E),
  (0x9B5A, 0x48EE),
  (0x9B6F, 0x51F4),
  (0x9B72, 0x6791),
  (0x9B74, 0x6790_678F),
  (0x9B83, 0x6794),
  (0x9B8E, 0x4F8E_6793),
  (0x9B91, 0x6795_528D_6792),
  (0x9B96, 0x6796_6797),
  (0x9B9F, 0x6798_6799),
  (0x9BA8, 0x679A),
  (0x9BAA, 0x55CE_4EB7),
  (0x9BAD, 0x5391_4CE9),
  (0x9BB1, 0x679B),
  (0x9BB4, 0x679C),
  (0x9BB9, 0x67A0),
  (0x9BBB, 0x679F),
  (0x9BC0, 0x679D),
  (0x9BC6, 0x67A1),
  (0x9BC9, 0x4FC6_679E),
  (0x9BCF, 0x67A2),
  (0x9BD1, 0x67A3_67A4),
  (0x9BD4, 0x67A8),
  (0x9BD6, 0x4FE4),
  (0x9BDB, 0x50D8),
  (0x9BE1, 0x67A9_67A6_67A5_67A7),
  (0x9BE8, 0x4D78),
  (0x9BF0, 0x5551_67AB_67AC),
  (0x9BF5, 0x67AA),
  (0x9C00, 0x67B1),
  (0x9C04, 0x67AD),
  (0x9C06, 0x67B5),
  (0x9C08, 0x67B6_67B2_67B8),
  (0x9C0C, 0x67B4_5571),
  (0x9C10, 0x5293),
  (0x9C12, 0x67B7_67B3_67B0_67AF),
  (0x9C1B, 0x67AE),
  (0x9C21, 0x67BC),
  (0x9C24, 0x67BB_67BA),
  (0x9C2D, 0x546E_67B9_55C8_67BD),
  (0x9C32, 0x67BF),
  (0x9C39, 0x53D5_51F0_54AB),
  (0x9C3E, 0x67C1),
  (0x9C46, 0x67C0_67BE_5560),
  (0x9C52, 0x53C6),
  (0x9C57, 0x554C),
  (0x9C5A, 0x67C2),
  (0x9C60, 0x67C3),
  (0x9C67, 0x67C4),
  (0x9C76, 0x67C5),
  (0x9C78, 0x67C6),
  (0x9CE5, 0x4779),
  (0x9CE7, 0x67C8),
  (0x9CE9, 0x4D95),
  (0x9CEB, 0x67C7_67C9),
  (0x9CF0, 0x67CA),
  (0x9CF3, 0x4EA6_4B70),
  (0x9CF6, 0x54C4),
  (0x9D03, 0x67CC),
  (0x9D06, 0x67CD_51A1_54FC_67CB),
  (0x9D0E, 0x5464),
  (0x9D12, 0x67D4),
  (0x9D15, 0x67D3),
  (0x9D1B, 0x52C3),
  (0x9D1F, 0x67D2),
  (0x9D23, 0x67D1),
  (0x9D26, 0x67CF),
  (0x9D28, 0x4C54),
  (0x9D2A, 0x67CE_50BA_67D0),
  (0x9D3B, 0x4DD6),
  (0x9D3E, 0x67D8_67D6),
  (0x9D41, 0x67D5),
  (0x9D44, 0x67D7),
  (0x9D46, 0x67D9),
  (0x9D48, 0x67DA),
  (0x9D50, 0x67DF_67DE),
  (0x9D59, 0x67DD),
  (0x9D5C, 0x4BE7_67DB_67DC),
  (0x9D60, 0x50FD_557E),
  (0x9D64, 0x67E0),
  (0x9D6B, 0x67E4_518A),
  (0x9D6F, 0x67E5_67E2),
  (0x9D72, 0x67E1),
  (0x9D7A, 0x67E6),
  (0x9D87, 0x67E3),
  (0x9D89, 0x5342),
  (0x9D8F, 0x4D8E),
  (0x9D9A, 0x67E7),
  (0x9DA4, 0x67E8),
  (0x9DA9, 0x67E9),
  (0x9DAB, 0x67EA),
  (0x9DAF, 0x50E5),
  (0x9DB2, 0x67EB),
  (0x9DB4, 0x477A),
  (0x9DB8, 0x67EF),
  (0x9DBA, 0x67F0_67EE),
  (0x9DC1, 0x67ED_67F3),
  (0x9DC4, 0x67EC),
  (0x9DC6, 0x67F1),
  (0x9DCF, 0x67F2),
  (0x9DD3, 0x67F6),
  (0x9DD7, 0x5464),
  (0x9DD9, 0x67F5),
  (0x9DE6, 0x67F8),
  (0x9DED, 0x67F9),
  (0x9DEF, 0x67FA),
  (0x9DF2, 0x4BF1),
  (0x9DF8, 0x67F7_4B7A_50AF),
  (0x9DFD, 0x67FB),
  (0x9E19, 0x67FE_67FC_67FD),
  (0x9E1E, 0x6841),
  (0x9E75, 0x6842),
  (0x9E78, 0x4C7D_6843),
  (0x9E7C, 0x4C7D_6844),
  (0x9E7F, 0x4697),
  (0x9E81, 0x6845),
  (0x9E88, 0x6846),
  (0x9E8B, 0x6847_6848),
  (0x9E91, 0x684A_51F9_519E),
  (0x9E95, 0x6849),
  (0x9E97, 0x4CF3),
  (0x9E9D, 0x684B),
  (0x9E9F, 0x519B),
  (0x9EA5, 0x684C_4AE0),
  (0x9EA9, 0x53B4_684E),
  (0x9EAD, 0x684F),
  (0x9EB4, 0x5261_555F),
  (0x9EB8, 0x684D_5261_555F_48A7_6850),
  (0x9EBE, 0x6851_4EEA),
  (0x9EC4, 0x4AC6),
  (0x9ECC, 0x6853_55AE_51A7_6854_6855_6856_4679),
  (0x9ED4, 0x6857),
  (0x9ED8, 0x5E90_4DBC),
  (0x9EDB, 0x51DD_6858_685A_6859),
  (0x9EE0, 0x685B),
  (0x9EE5, 0x685C),
  (0x9EE8, 0x685D),
  (0x9EEF, 0x685E),
  (0x9EF4, 0x685F),
  (0x9EF6, 0x6860_6861),
  (0x9EF9, 0x6862),
  (0x9EFB, 0x6863_6864_6865),
  (0x9F07, 0x6866_6867),
  (0x9F0E, 0x51AA),
  (0x9F13, 0x4FAF),
  (0x9F15, 0x6869),
  (0x9F20, 0x50CB_686A),
  (0x9F2C, 0x686B),
  (0x9F3B, 0x4CFD),
  (0x9F3E, 0x686C),
  (0x9F4A, 0x686D_51F5),
  (0x9F4E, 0x686E_686F),
  (0x9F52, 0x6870),
  (0x9F54, 0x6871),
  (0x9F5F, 0x6873_6874_6875_4C80_6872),
  (0x9F66, 0x6876_6877),
  (0x9F6A, 0x6879),
  (0x9F6C, 0x6878),
  (0x9F72, 0x687B),
  (0x9F76, 0x687C_687A),
  (0x9F8D, 0x48CA),
  (0x9F95, 0x687D),
  (0x9F9C, 0x687E_5FF7),
  (0x9FA0, 0x687F),
  (0xE000, 0x6941_6942_6943_6944_6945_6946_6947_6948_6949_694A_694B_694C),
  (0xE00C, 0x694D_694E_694F_6950_6951_6952_6953_6954_6955_6956_6957_6958),
  (0xE018, 0x6959_695A_695B_695C_695D_695E_695F_6960_6961_6962_6963_6964),
  (0xE024, 0x6965_6966_6967_6968_6969_696A_696B_696C_696D_696E_696F_6970),
  (0xE030, 0x6971_6972_6973_6974_6975_6976_6977_6978_6979_697A_697B_697C),
  (0xE03C, 0x697D_697E_697F_6980_6981_6982_6983_6984_6985_6986_6987_6988),
  (0xE048, 0x6989_698A_698B_698C_698D_698E_698F_6990_6991_6992_6993_6994),
  (0xE054, 0x6995_6996_6997_6998_6999_699A_699B_699C_699D_699E_699F_69A0),
  (0xE060, 0x69A1_69A2_69A3_69A4_69A5_69A6_69A7_69A8_69A9_69AA_69AB_69AC),
  (0xE06C, 0x69AD_69AE_69AF_69B0_69B1_69B2_69B3_69B4_69B5_69B6_69B7_69B8),
  (0xE078, 0x69B9_69BA_69BB_69BC_69BD_69BE_69BF_69C0_69C1_69C2_69C3_69C4),
  (0xE084, 0x69C5_69C6_69C7_69C8_69C9_69CA_69CB_69CC_69CD_69CE_69CF_69D0),
  (0xE090, 0x69D1_69D2_69D3_69D4_69D5_69D6_69D7_69D8_69D9_69DA_69DB_69DC),
  (0xE09C, 0x69DD_69DE_69DF_69E0_69E1_69E2_69E3_69E4_69E5_69E6_69E7_69E8),
  (0xE0A8, 0x69E9_69EA_69EB_69EC_69ED_69EE_69EF_69F0_69F1_69F2_69F3_69F4),
  (0xE0B4, 0x69F5_69F6_69F7_69F8_69F9_69FA_69FB_69FC_69FD_69FE_6A41_6A42),
  (0xE0C0, 0x6A43_6A44_6A45_6A46_6A47_6A48_6A49_6A4A_6A4B_6A4C_6A4D_6A4E),
  (0xE0CC, 0x6A4F_6A50_6A51_6A52_6A53_6A54_6A55_6A56_6A57_6A58_6A59_6A5A),
  (0xE0D8, 0x6A5B_6A5C_6A5D_6A5E_6A5F_6A60_6A61_6A62_6A63_6A64_6A65_6A66),
  (0xE0E4, 0x6A67_6A68_6A69_6A6A_6A6B_6A6C_6A6D_6A6E_6A6F_6A70_6A71_6A72),
  (0xE0F0, 0x6A73_6A74_6A75_6A76_6A77_6A78_6A79_6A7A_6A7B_6A7C_6A7D_6A7E),
  (0xE0FC, 0x6A7F_6A80_6A81_6A82_6A83_6A84_6A85_6A86_6A87_6A88_6A89_6A8A),
  (0xE108, 0x6A8B_6A8C_6A8D_6A8E_6A8F_6A90_6A91_6A92_6A93_6A94_6A95_6A96),
  (0xE114, 0x6A97_6A98_6A99_6A9A_6A9B_6A9C_6A9D_6A9E_6A9F_6AA0_6AA1_6AA2),
  (0xE120, 0x6AA3_6AA4_6AA5_6AA6_6AA7_6AA8_6AA9_6AAA_6AAB_6AAC_6AAD_6AAE),
  (0xE12C, 0x6AAF_6AB0_6AB1_6AB2_6AB3_6AB4_6AB5_6AB6_6AB7_6AB8_6AB9_6ABA),
  (0xE138, 0x6ABB_6ABC_6ABD_6ABE_6ABF_6AC0_6AC1_6AC2_6AC3_6AC4_6AC5_6AC6),
  (0xE144, 0x6AC7_6AC8_6AC9_6ACA_6ACB_6ACC_6ACD_6ACE_6ACF_6AD0_6AD1_6AD2),
  (0xE150, 0x6AD3_6AD4_6AD5_6AD6_6AD7_6AD8_6AD9_6ADA_6ADB_6ADC_6ADD_6ADE),
  (0xE15C, 0x6ADF_6AE0_6AE1_6AE2_6AE3_6AE4_6AE5_6AE6_6AE7_6AE8_6AE9_6AEA),
  (0xE168, 0x6AEB_6AEC_6AED_6AEE_6AEF_6AF0_6AF1_6AF2_6AF3_6AF4_6AF5_6AF6),
  (0xE174, 0x6AF7_6AF8_6AF9_6AFA_6AFB_6AFC_6AFD_6AFE_6B41_6B42_6B43_6B44),
  (0xE180, 0x6B45_6B46_6B47_6B48_6B49_6B4A_6B4B_6B4C_6B4D_6B4E_6B4F_6B50),
  (0xE18C, 0x6B51_6B52_6B53_6B54_6B55_6B56_6B57_6B58_6B59_6B5A_6B5B_6B5C),
  (0xE198, 0x6B5D_6B5E_6B5F_6B60_6B61_6B62_6B63_6B64_6B65_6B66_6B67_6B68),
  (0xE1A4, 0x6B69_6B6A_6B6B_6B6C_6B6D_6B6E_6B6F_6B70_6B71_6B72_6B73_6B74),
  (0xE1B0, 0x6B75_6B76_6B77_6B78_6B79_6B7A_6B7B_6B7C_6B7D_6B7E_6B7F_6B80),
  (0xE1BC, 0x6B81_6B82_6B83_6B84_6B85_6B86_6B87_6B88_6B89_6B8A_6B8B_6B8C),
  (0xE1C8, 0x6B8D_6B8E_6B8F_6B90_6B91_6B92_6B93_6B94_6B95_6B96_6B97_6B98),
  (0xE1D4, 0x6B99_6B9A_6B9B_6B9C_6B9D_6B9E_6B9F_6BA0_6BA1_6BA2_6BA3_6BA4),
  (0xE1E0, 0x6BA5_6BA6_6BA7_6BA8_6BA9_6BAA_6BAB_6BAC_6BAD_6BAE_6BAF_6BB0),
  (0xE1EC, 0x6BB1_6BB2_6BB3_6BB4_6BB5_6BB6_6BB7_6BB8_6BB9_6BBA_6BBB_6BBC),
  (0xE1F8, 0x6BBD_6BBE_6BBF_6BC0_6BC1_6BC2_6BC3_6BC4_6BC5_6BC6_6BC7_6BC8),
  (0xE204, 0x6BC9_6BCA_6BCB_6BCC_6BCD_6BCE_6BCF_6BD0_6BD1_6BD2_6BD3_6BD4),
  (0xE210, 0x6BD5_6BD6_6BD7_6BD8_6BD9_6BDA_6BDB_6BDC_6BDD_6BDE_6BDF_6BE0),
  (0xE21C, 0x6BE1_6BE2_6BE3_6BE4_6BE5_6BE6_6BE7_6BE8_6BE9_6BEA_6BEB_6BEC),
  (0xE228, 0x6BED_6BEE_6BEF_6BF0_6BF1_6BF2_6BF3_6BF4_6BF5_6BF6_6BF7_6BF8),
  (0xE234, 0x6BF9_6BFA_6BFB_6BFC_6BFD_6BFE_6C41_6C42_6C43_6C44_6C45_6C46),
  (0xE240, 0x6C47_6C48_6C49_6C4A_6C4B_6C4C_6C4D_6C4E_6C4F_6C50_6C51_6C52),
  (0xE24C, 0x6C53_6C54_6C55_6C56_6C57_6C58_6C59_6C5A_6C5B_6C5C_6C5D_6C5E),
  (0xE258, 0x6C5F_6C60_6C61_6C62_6C63_6C64_6C65_6C66_6C67_6C68_6C69_6C6A),
  (0xE264, 0x6C6B_6C6C_6C6D_6C6E_6C6F_6C70_6C71_6C72_6C73_6C74_6C75_6C76),
  (0xE270, 0x6C77_6C78_6C79_6C7A_6C7B_6C7C_6C7D_6C7E_6C7F_6C80_6C81_6C82),
  (0xE27C, 0x6C83_6C84_6C85_6C86_6C87_6C88_6C89_6C8A_6C8B_6C8C_6C8D_6C8E),
  (0xE288, 0x6C8F_6C90_6C91_6C92_6C93_6C94_6C95_6C96_6C97_6C98_6C99_6C9A),
  (0xE294, 0x6C9B_6C9C_6C9D_6C9E_6C9F_6CA0_6CA1_6CA2_6CA3_6CA4_6CA5_6CA6),
  (0xE2A0, 0x6CA7_6CA8_6CA9_6CAA_6CAB_6CAC_6CAD_6CAE_6CAF_6CB0_6CB1_6CB2),
  (0xE2AC, 0x6CB3_6CB4_6CB5_6CB6_6CB7_6CB8_6CB9_6CBA_6CBB_6CBC_6CBD_6CBE),
  (0xE2B8, 0x6CBF_6CC0_6CC1_6CC2_6CC3_6CC4_6CC5_6CC6_6CC7_6CC8_6CC9_6CCA),
  (0xE2C4, 0x6CCB_6CCC_6CCD_6CCE_6CCF_6CD0_6CD1_6CD2_6CD3_6CD4_6CD5_6CD6),
  (0xE2D0, 0x6CD7_6CD8_6CD9_6CDA_6CDB_6CDC_6CDD_6CDE_6CDF_6CE0_6CE1_6CE2),
  (0xE2DC, 0x6CE3_6CE4_6CE5_6CE6_6CE7_6CE8_6CE9_6CEA_6CEB_6CEC_6CED_6CEE),
  (0xE2E8, 0x6CEF_6CF0_6CF1_6CF2_6CF3_6CF4_6CF5_6CF6_6CF7_6CF8_6CF9_6CFA),
  (0xE2F4, 0x6CFB_6CFC_6CFD_6CFE_6D41_6D42_6D43_6D44_6D45_6D46_6D47_6D48),
  (0xE300, 0x6D49_6D4A_6D4B_6D4C_6D4D_6D4E_6D4F_6D50_6D51_6D52_6D53_6D54),
  (0xE30C, 0x6D55_6D56_6D57_6D58_6D59_6D5A_6D5B_6D5C_6D5D_6D5E_6D5F_6D60),
  (0xE318, 0x6D61_6D62_6D63_6D64_6D65_6D66_6D67_6D68_6D69_6D6A_6D6B_6D6C),
  (0xE324, 0x6D6D_6D6E_6D6F_6D70_6D71_6D72_6D73_6D74_6D75_6D76_6D77_6D78),
  (0xE330, 0x6D79_6D7A_6D7B_6D7C_6D7D_6D7E_6D7F_6D80_6D81_6D82_6D83_6D84),
  (0xE33C, 0x6D85_6D86_6D87_6D88_6D89_6D8A_6D8B_6D8C_6D8D_6D8E_6D8F_6D90),
  (0xE348, 0x6D91_6D92_6D93_6D94_6D95_6D96_6D97_6D98_6D99_6D9A_6D9B_6D9C),
  (0xE354, 0x6D9D_6D9E_6D9F_6DA0_6DA1_6DA2_6DA3_6DA4_6DA5_6DA6_6DA7_6DA8),
  (0xE360, 0x6DA9_6DAA_6DAB_6DAC_6DAD_6DAE_6DAF_6DB0_6DB1_6DB2_6DB3_6DB4),
  (0xE36C, 0x6DB5_6DB6_6DB7_6DB8_6DB9_6DBA_6DBB_6DBC_6DBD_6DBE_6DBF_6DC0),
  (0xE378, 0x6DC1_6DC2_6DC3_6DC4_6DC5_6DC6_6DC7_6DC8_6DC9_6DCA_6DCB_6DCC),
  (0xE384, 0x6DCD_6DCE_6DCF_6DD0_6DD1_6DD2_6DD3_6DD4_6DD5_6DD6_6DD7_6DD8),
  (0xE390, 0x6DD9_6DDA_6DDB_6DDC_6DDD_6DDE_6DDF_6DE0_6DE1_6DE2_6DE3_6DE4),
  (0xE39C, 0x6DE5_6DE6_6DE7_6DE8_6DE9_6DEA_6DEB_6DEC_6DED_6DEE_6DEF_6DF0),
  (0xE3A8, 0x6DF1_6DF2_6DF3_6DF4_6DF5_6DF6_6DF7_6DF8_6DF9_6DFA_6DFB_6DFC),
  (0xE3B4, 0x6DFD_6DFE_6E41_6E42_6E43_6E44_6E45_6E46_6E47_6E48_6E49_6E4A),
  (0xE3C0, 0x6E4B_6E4C_6E4D_6E4E_6E4F_6E50_6E51_6E52_6E53_6E54_6E55_6E56),
  (0xE3CC, 0x6E57_6E58_6E59_6E5A_6E5B_6E5C_6E5D_6E5E_6E5F_6E60_6E61_6E62),
  (0xE3D8, 0x6E63_6E64_6E65_6E66_6E67_6E68_6E69_6E6A_6E6B_6E6C_6E6D_6E6E),
  (0xE3E4, 0x6E6F_6E70_6E71_6E72_6E73_6E74_6E75_6E76_6E77_6E78_6E79_6E7A),
  (0xE3F0, 0x6E7B_6E7C_6E7D_6E7E_6E7F_6E80_6E81_6E82_6E83_6E84_6E85_6E86),
  (0xE3FC, 0x6E87_6E88_6E89_6E8A_6E8B_6E8C_6E8D_6E8E_6E8F_6E90_6E91_6E92),
  (0xE408, 0x6E93_6E94_6E95_6E96_6E97_6E98_6E99_6E9A_6E9B_6E9C_6E9D_6E9E),
  (0xE414, 0x6E9F_6EA0_6EA1_6EA2_6EA3_6EA4_6EA5_6EA6_6EA7_6EA8_6EA9_6EAA),
  (0xE420, 0x6EAB_6EAC_6EAD_6EAE_6EAF_6EB0_6EB1_6EB2_6EB3_6EB4_6EB5_6EB6),
  (0xE42C, 0x6EB7_6EB8_6EB9_6EBA_6EBB_6EBC_6EBD_6EBE_6EBF_6EC0_6EC1_6EC2),
  (0xE438, 0x6EC3_6EC4_6EC5_6EC6_6EC7_6EC8_6EC9_6ECA_6ECB_6ECC_6ECD_6ECE),
  (0xE444, 0x6ECF_6ED0_6ED1_6ED2_6ED3_6ED4_6ED5_6ED6_6ED7_6ED8_6ED9_6EDA),
  (0xE450, 0x6EDB_6EDC_6EDD_6EDE_6EDF_6EE0_6EE1_6EE2_6EE3_6EE4_6EE5_6EE6),
  (0xE45C, 0x6EE7_6EE8_6EE9_6EEA_6EEB_6EEC_6EED_6EEE_6EEF_6EF0_6EF1_6EF2),
  (0xE468, 0x6EF3_6EF4_6EF5_6EF6_6EF7_6EF8_6EF9_6EFA_6EFB_6EFC_6EFD_6EFE),
  (0xE474, 0x6F41_6F42_6F43_6F44_6F45_6F46_6F47_6F48_6F49_6F4A_6F4B_6F4C),
  (0xE480, 0x6F4D_6F4E_6F4F_6F50_6F51_6F52_6F53_6F54_6F55_6F56_6F57_6F58),
  (0xE48C, 0x6F59_6F5A_6F5B_6F5C_6F5D_6F5E_6F5F_6F60_6F61_6F62_6F63_6F64),
  (0xE498, 0x6F65_6F66_6F67_6F68_6F69_6F6A_6F6B_6F6C_6F6D_6F6E_6F6F_6F70),
  (0xE4A4, 0x6F71_6F72_6F73_6F74_6F75_6F76_6F77_6F78_6F79_6F7A_6F7B_6F7C),
  (0xE4B0, 0x6F7D_6F7E_6F7F_6F80_6F81_6F82_6F83_6F84_6F85_6F86_6F87_6F88),
  (0xE4BC, 0x6F89_6F8A_6F8B_6F8C_6F8D_6F8E_6F8F_6F90_6F91_6F92_6F93_6F94),
  (0xE4C8, 0x6F95_6F96_6F97_6F98_6F99_6F9A_6F9B_6F9C_6F9D_6F9E_6F9F_6FA0),
  (0xE4D4, 0x6FA1_6FA2_6FA3_6FA4_6FA5_6FA6_6FA7_6FA8_6FA9_6FAA_6FAB_6FAC),
  (0xE4E0, 0x6FAD_6FAE_6FAF_6FB0_6FB1_6FB2_6FB3_6FB4_6FB5_6FB6_6FB7_6FB8),
  (0xE4EC, 0x6FB9_6FBA_6FBB_6FBC_6FBD_6FBE_6FBF_6FC0_6FC1_6FC2_6FC3_6FC4),
  (0xE4F8, 0x6FC5_6FC6_6FC7_6FC8_6FC9_6FCA_6FCB_6FCC_6FCD_6FCE_6FCF_6FD0),
  (0xE504, 0x6FD1_6FD2_6FD3_6FD4_6FD5_6FD6_6FD7_6FD8_6FD9_6FDA_6FDB_6FDC),
  (0xE510, 0x6FDD_6FDE_6FDF_6FE0_6FE1_6FE2_6FE3_6FE4_6FE5_6FE6_6FE7_6FE8),
  (0xE51C, 0x6FE9_6FEA_6FEB_6FEC_6FED_6FEE_6FEF_6FF0_6FF1_6FF2_6FF3_6FF4),
  (0xE528, 0x6FF5_6FF6_6FF7_6FF8_6FF9_6FFA_6FFB_6FFC_6FFD_6FFE_7041_7042),
  (0xE534, 0x7043_7044_7045_7046_7047_7048_7049_704A_704B_704C_704D_704E),
  (0xE540, 0x704F_7050_7051_7052_7053_7054_7055_7056_7057_7058_7059_705A),
  (0xE54C, 0x705B_705C_705D_705E_705F_7060_7061_7062_7063_7064_7065_7066),
  (0xE558, 0x7067_7068_7069_706A_706B_706C_706D_706E_706F_7070_7071_7072),
  (0xE564, 0x7073_7074_7075_7076_7077_7078_7079_707A_707B_707C_707D_707E),
  (0xE570, 0x707F_7080_7081_7082_7083_7084_7085_7086_7087_7088_7089_708A),
  (0xE57C, 0x708B_708C_708D_708E_708F_7090_7091_7092_7093_7094_7095_7096),
  (0xE588, 0x7097_7098_7099_709A_709B_709C_709D_709E_709F_70A0_70A1_70A2),
  (0xE594, 0x70A3_70A4_70A5_70A6_70A7_70A8_70A9_70AA_70AB_70AC_70AD_70AE),
  (0xE5A0, 0x70AF_70B0_70B1_70B2_70B3_70B4_70B5_70B6_70B7_70B8_70B9_70BA),
  (0xE5AC, 0x70BB_70BC_70BD_70BE_70BF_70C0_70C1_70C2_70C3_70C4_70C5_70C6),
  (0xE5B8, 0x70C7_70C8_70C9_70CA_70CB_70CC_70CD_70CE_70CF_70D0_70D1_70D2),
  (0xE5C4, 0x70D3_70D4_70D5_70D6_70D7_70D8_70D9_70DA_70DB_70DC_70DD_70DE),
  (0xE5D0, 0x70DF_70E0_70E1_70E2_70E3_70E4_70E5_70E6_70E7_70E8_70E9_70EA),
  (0xE5DC, 0x70EB_70EC_70ED_70EE_70EF_70F0_70F1_70F2_70F3_70F4_70F5_70F6),
  (0xE5E8, 0x70F7_70F8_70F9_70FA_70FB_70FC_70FD_70FE_7141_7142_7143_7144),
  (0xE5F4, 0x7145_7146_7147_7148_7149_714A_714B_714C_714D_714E_714F_7150),
  (0xE600, 0x7151_7152_7153_7154_7155_7156_7157_7158_7159_715A_715B_715C),
  (0xE60C, 0x715D_715E_715F_7160_7161_7162_7163_7164_7165_7166_7167_7168),
  (0xE618, 0x7169_716A_716B_716C_716D_716E_716F_7170_7171_7172_7173_7174),
  (0xE624, 0x7175_7176_7177_7178_7179_717A_717B_717C_717D_717E_717F_7180),
  (0xE630, 0x7181_7182_7183_7184_7185_7186_7187_7188_7189_718A_718B_718C),
  (0xE63C, 0x718D_718E_718F_7190_7191_7192_7193_7194_7195_7196_7197_7198),
  (0xE648, 0x7199_719A_719B_719C_719D_719E_719F_71A0_71A1_71A2_71A3_71A4),
  (0xE654, 0x71A5_71A6_71A7_71A8_71A9_71AA_71AB_71AC_71AD_71AE_71AF_71B0),
  (0xE660, 0x71B1_71B2_71B3_71B4_71B5_71B6_71B7_71B8_71B9_71BA_71BB_71BC),
  (0xE66C, 0x71BD_71BE_71BF_71C0_71C1_71C2_71C3_71C4_71C5_71C6_71C7_71C8),
  (0xE678, 0x71C9_71CA_71CB_71CC_71CD_71CE_71CF_71D0_71D1_71D2_71D3_71D4),
  (0xE684, 0x71D5_71D6_71D7_71D8_71D9_71DA_71DB_71DC_71DD_71DE_71DF_71E0),
  (0xE690, 0x71E1_71E2_71E3_71E4_71E5_71E6_71E7_71E8_71E9_71EA_71EB_71EC),
  (0xE69C, 0x71ED_71EE_71EF_71F0_71F1_71F2_71F3_71F4_71F5_71F6_71F7_71F8),
  (0xE6A8, 0x71F9_71FA_71FB_71FC_71FD_71FE_7241_7242_7243_7244_7245_7246),
  (0xE6B4, 0x7247_7248_7249_724A_724B_724C_724D_724E_724F_7250_7251_7252),
  (0xE6C0, 0x7253_7254_7255_7256_7257_7258_7259_725A_725B_725C_725D_725E),
  (0xE6CC, 0x725F_7260_7261_7262_7263_7264_7265_7266_7267_7268_7269_726A),
  (0xE6D8, 0x726B_726C_726D_726E_726F_7270_7271_7272_7273_7274_7275_7276),
  (0xE6E4, 0x7277_7278_7279_727A_727B_727C_727D_727E_727F_7280_7281_7282),
  (0xE6F0, 0x7283_7284_7285_7286_7287_7288_7289_728A_728B_728C_728D_728E),
  (0xE6FC, 0x728F_7290_7291_7292_7293_7294_7295_7296_7297_7298_7299_729A),
  (0xE708, 0x729B_729C_729D_729E_729F_72A0_72A1_72A2_72A3_72A4_72A5_72A6),
  (0xE714, 0x72A7_72A8_72A9_72AA_72AB_72AC_72AD_72AE_72AF_72B0_72B1_72B2),
  (0xE720, 0x72B3_72B4_72B5_72B6_72B7_72B8_72B9_72BA_72BB_72BC_72BD_72BE),
  (0xE72C, 0x72BF_72C0_72C1_72C2_72C3_72C4_72C5_72C6_72C7_72C8_72C9_72CA),
  (0xE738, 0x72CB_72CC_72CD_72CE_72CF_72D0_72D1_72D2_72D3_72D4_72D5_72D6),
  (0xE744, 0x72D7_72D8_72D9_72DA_72DB_72DC_72DD_72DE_72DF_72E0_72E1_72E2),
  (0xE750, 0x72E3_72E4_72E5_72E6_72E7_72E8_72E9_72EA_72EB_72EC_72ED_72EE),
  (0xE75C, 0x72EF_72F0_72F1_72F2_72F3_72F4_72F5_72F6_72F7_72F8_72F9_72FA),
  (0xE768, 0x72FB_72FC_72FD_72FE_7341_7342_7343_7344_7345_7346_7347_7348),
  (0xE774, 0x7349_734A_734B_734C_734D_734E_734F_7350_7351_7352_7353_7354),
  (0xE780, 0x7355_7356_7357_7358_7359_735A_735B_735C_735D_735E_735F_7360),
  (0xE78C, 0x7361_7362_7363_7364_7365_7366_7367_7368_7369_736A_736B_736C),
  (0xE798, 0x736D_736E_736F_7370_7371_7372_7373_7374_7375_7376_7377_7378),
  (0xE7A4, 0x7379_737A_737B_737C_737D_737E_737F_7380_7381_7382_7383_7384),
  (0xE7B0, 0x7385_7386_7387_7388_7389_738A_738B_738C_738D_738E_738F_7390),
  (0xE7BC, 0x7391_7392_7393_7394_7395_7396_7397_7398_7399_739A_739B_739C),
  (0xE7C8, 0x739D_739E_739F_73A0_73A1_73A2_73A3_73A4_73A5_73A6_73A7_73A8),
  (0xE7D4, 0x73A9_73AA_73AB_73AC_73AD_73AE_73AF_73B0_73B1_73B2_73B3_73B4),
  (0xE7E0, 0x73B5_73B6_73B7_73B8_73B9_73BA_73BB_73BC_73BD_73BE_73BF_73C0),
  (0xE7EC, 0x73C1_73C2_73C3_73C4_73C5_73C6_73C7_73C8_73C9_73CA_73CB_73CC),
  (0xE7F8, 0x73CD_73CE_73CF_73D0_73D1_73D2_73D3_73D4_73D5_73D6_73D7_73D8),
  (0xE804, 0x73D9_73DA_73DB_73DC_73DD_73DE_73DF_73E0_73E1_73E2_73E3_73E4),
  (0xE810, 0x73E5_73E6_73E7_73E8_73E9_73EA_73EB_73EC_73ED_73EE_73EF_73F0),
  (0xE81C, 0x73F1_73F2_73F3_73F4_73F5_73F6_73F7_73F8_73F9_73FA_73FB_73FC),
  (0xE828, 0x73FD_73FE_7441_7442_7443_7444_7445_7446_7447_7448_7449_744A),
  (0xE834, 0x744B_744C_744D_744E_744F_7450_7451_7452_7453_7454_7455_7456),
  (0xE840, 0x7457_7458_7459_745A_745B_745C_745D_745E_745F_7460_7461_7462),
  (0xE84C, 0x7463_7464_7465_7466_7467_7468_7469_746A_746B_746C_746D_746E),
  (0xE858, 0x746F_7470_7471_7472_7473_7474_7475_7476_7477_7478_7479_747A),
  (0xE864, 0x747B_747C_747D_747E_747F_7480_7481_7482_7483_7484_7485_7486),
  (0xE870, 0x7487_7488_7489_748A_748B_748C_748D_748E_748F_7490_7491_7492),
  (0xE87C, 0x7493_7494_7495_7496_7497_7498_7499_749A_749B_749C_749D_749E),
  (0xE888, 0x749F_74A0_74A1_74A2_74A3_74A4_74A5_74A6_74A7_74A8_74A9_74AA),
  (0xE894, 0x74AB_74AC_74AD_74AE_74AF_74B0_74B1_74B2_74B3_74B4_74B5_74B6),
  (0xE8A0, 0x74B7_74B8_74B9_74BA_74BB_74BC_74BD_74BE_74BF_74C0_74C1_74C2),
  (0xE8AC, 0x74C3_74C4_74C5_74C6_74C7_74C8_74C9_74CA_74CB_74CC_74CD_74CE),
  (0xE8B8, 0x74CF_74D0_74D1_74D2_74D3_74D4_74D5_74D6_74D7_74D8_74D9_74DA),
  (0xE8C4, 0x74DB_74DC_74DD_74DE_74DF_74E0_74E1_74E2_74E3_74E4_74E5_74E6),
  (0xE8D0, 0x74E7_74E8_74E9_74EA_74EB_74EC_74ED_74EE_74EF_74F0_74F1_74F2),
  (0xE8DC, 0x74F3_74F4_74F5_74F6_74F7_74F8_74F9_74FA_74FB_74FC_74FD_74FE),
  (0xE8E8, 0x7541_7542_7543_7544_7545_7546_7547_7548_7549_754A_754B_754C),
  (0xE8F4, 0x754D_754E_754F_7550_7551_7552_7553_7554_7555_7556_7557_7558),
  (0xE900, 0x7559_755A_755B_755C_755D_755E_755F_7560_7561_7562_7563_7564),
  (0xE90C, 0x7565_7566_7567_7568_7569_756A_756B_756C_756D_756E_756F_7570),
  (0xE918, 0x7571_7572_7573_7574_7575_7576_7577_7578_7579_757A_757B_757C),
  (0xE924, 0x757D_757E_757F_7580_7581_7582_7583_7584_7585_7586_7587_7588),
  (0xE930, 0x7589_758A_758B_758C_758D_758E_758F_7590_7591_7592_7593_7594),
  (0xE93C, 0x7595_7596_7597_7598_7599_759A_759B_759C_759D_759E_759F_75A0),
  (0xE948, 0x75A1_75A2_75A3_75A4_75A5_75A6_75A7_75A8_75A9_75AA_75AB_75AC),
  (0xE954, 0x75AD_75AE_75AF_75B0_75B1_75B2_75B3_75B4_75B5_75B6_75B7_75B8),
  (0xE960, 0x75B9_75BA_75BB_75BC_75BD_75BE_75BF_75C0_75C1_75C2_75C3_75C4),
  (0xE96C, 0x75C5_75C6_75C7_75C8_75C9_75CA_75CB_75CC_75CD_75CE_75CF_75D0),
  (0xE978, 0x75D1_75D2_75D3_75D4_75D5_75D6_75D7_75D8_75D9_75DA_75DB_75DC),
  (0xE984, 0x75DD_75DE_75DF_75E0_75E1_75E2_75E3_75E4_75E5_75E6_75E7_75E8),
  (0xE990, 0x75E9_75EA_75EB_75EC_75ED_75EE_75EF_75F0_75F1_75F2_75F3_75F4),
  (0xE99C, 0x75F5_75F6_75F7_75F8_75F9_75FA_75FB_75FC_75FD_75FE_7641_7642),
  (0xE9A8, 0x7643_7644_7645_7646_7647_7648_7649_764A_764B_764C_764D_764E),
  (0xE9B4, 0x764F_7650_7651_7652_7653_7654_7655_7656_7657_7658_7659_765A),
  (0xE9C0, 0x765B_765C_765D_765E_765F_7660_7661_7662_7663_7664_7665_7666),
  (0xE9CC, 0x7667_7668_7669_766A_766B_766C_766D_766E_766F_7670_7671_7672),
  (0xE9D8, 0x7673_7674_7675_7676_7677_7678_7679_767A_767B_767C_767D_767E),
  (0xE9E4, 0x767F_7680_7681_7682_7683_7684_7685_7686_7687_7688_7689_768A),
  (0xE9F0, 0x768B_768C_768D_768E_768F_7690_7691_7692_7693_7694_7695_7696),
  (0xE9FC, 0x7697_7698_7699_769A_769B_769C_769D_769E_769F_76A0_76A1_76A2),
  (0xEA08, 0x76A3_76A4_76A5_76A6_76A7_76A8_76A9_76AA_76AB_76AC_76AD_76AE),
  (0xEA14, 0x76AF_76B0_76B1_76B2_76B3_76B4_76B5_76B6_76B7_76B8_76B9_76BA),
  (0xEA20, 0x76BB_76BC_76BD_76BE_76BF_76C0_76C1_76C2_76C3_76C4_76C5_76C6),
  (0xEA2C, 0x76C7_76C8_76C9_76CA_76CB_76CC_76CD_76CE_76CF_76D0_76D1_76D2),
  (0xEA38, 0x76D3_76D4_76D5_76D6_76D7_76D8_76D9_76DA_76DB_76DC_76DD_76DE),
  (0xEA44, 0x76DF_76E0_76E1_76E2_76E3_76E4_76E5_76E6_76E7_76E8_76E9_76EA),
  (0xEA50, 0x76EB_76EC_76ED_76EE_76EF_76F0_76F1_76F2_76F3_76F4_76F5_76F6),
  (0xEA5C, 0x76F7_76F8_76F9_76FA_76FB_76FC_76FD_76FE_7741_7742_7743_7744),
  (0xEA68, 0x7745_7746_7747_7748_7749_774A_774B_774C_774D_774E_774F_7750),
  (0xEA74, 0x7751_7752_7753_7754_7755_7756_7757_7758_7759_775A_775B_775C),
  (0xEA80, 0x775D_775E_775F_7760_7761_7762_7763_7764_7765_7766_7767_7768),
  (0xEA8C, 0x7769_776A_776B_776C_776D_776E_776F_7770_7771_7772_7773_7774),
  (0xEA98, 0x7775_7776_7777_7778_7779_777A_777B_777C_777D_777E_777F_7780),
  (0xEAA4, 0x7781_7782_7783_7784_7785_7786_7787_7788_7789_778A_778B_778C),
  (0xEAB0, 0x778D_778E_778F_7790_7791_7792_7793_7794_7795_7796_7797_7798),
  (0xEABC, 0x7799_779A_779B_779C_779D_779E_779F_77A0_77A1_77A2_77A3_77A4),
  (0xEAC8, 0x77A5_77A6_77A7_77A8_77A9_77AA_77AB_77AC_77AD_77AE_77AF_77B0),
  (0xEAD4, 0x77B1_77B2_77B3_77B4_77B5_77B6_77B7_77B8_77B9_77BA_77BB_77BC),
  (0xEAE0, 0x77BD_77BE_77BF_77C0_77C1_77C2_77C3_77C4_77C5_77C6_77C7_77C8),
  (0xEAEC, 0x77C9_77CA_77CB_77CC_77CD_77CE_77CF_77D0_77D1_77D2_77D3_77D4),
  (0xEAF8, 0x77D5_77D6_77D7_77D8_77D9_77DA_77DB_77DC_77DD_77DE_77DF_77E0),
  (0xEB04, 0x77E1_77E2_77E3_77E4_77E5_77E6_77E7_77E8_77E9_77EA_77EB_77EC),
  (0xEB10, 0x77ED_77EE_77EF_77F0_77F1_77F2_77F3_77F4_77F5_77F6_77F7_77F8),
  (0xEB1C, 0x77F9_77FA_77FB_77FC_77FD_77FE_7841_7842_7843_7844_7845_7846),
  (0xEB28, 0x7847_7848_7849_784A_784B_784C_784D_784E_784F_7850_7851_7852),
  (0xEB34, 0x7853_7854_7855_7856_7857_7858_7859_785A_785B_785C_785D_785E),
  (0xEB40, 0x785F_7860_7861_7862_7863_7864_7865_7866_7867_7868_7869_786A),
  (0xEB4C, 0x786B_786C_786D_786E_786F_7870_7871_7872_7873_7874_7875_7876),
  (0xEB58, 0x7877_7878_7879_787A_787B_787C_787D_787E_787F_7880_7881_7882),
  (0xEB64, 0x7883_7884_7885_7886_7887_7888_7889_788A_788B_788C_788D_788E),
  (0xEB70, 0x788F_7890_7891_7892_7893_7894_7895_7896_7897_7898_7899_789A),
  (0xEB7C, 0x789B_789C_789D_789E_789F_78A0_78A1_78A2_78A3_78A4_78A5_78A6),
  (0xEB88, 0x78A7_78A8_78A9_78AA_78AB_78AC_78AD_78AE_78AF_78B0_78B1_78B2),
  (0xEB94, 0x78B3_78B4_78B5_78B6_78B7_78B8_78B9_78BA_78BB_78BC_78BD_78BE),
  (0xEBA0, 0x78BF_78C0_78C1_78C2_78C3_78C4_78C5_78C6_78C7_78C8_78C9_78CA),
  (0xEBAC, 0x78CB_78CC_78CD_78CE_78CF_78D0_78D1_78D2_78D3_78D4_78D5_78D6),
  (0xEBB8, 0x78D7_78D8_78D9_78DA_78DB_78DC_78DD_78DE_78DF_78E0_78E1_78E2),
  (0xEBC4, 0x78E3_78E4_78E5_78E6_78E7_78E8_78E9_78EA_78EB_78EC_78ED_78EE),
  (0xEBD0, 0x78EF_78F0_78F1_78F2_78F3_78F4_78F5_78F6_78F7_78F8_78F9_78FA),
  (0xEBDC, 0x78FB_78FC_78FD_78FE_7941_7942_7943_7944_7945_7946_7947_7948),
  (0xEBE8, 0x7949_794A_794B_794C_794D_794E_794F_7950_7951_7952_7953_7954),
  (0xEBF4, 0x7955_7956_7957_7958_7959_795A_795B_795C_795D_795E_795F_7960),
  (0xEC00, 0x7961_7962_7963_7964_7965_7966_7967_7968_7969_796A_796B_796C),
  (0xEC0C, 0x796D_796E_796F_7970_7971_7972_7973_7974_7975_7976_7977_7978),
  (0xEC18, 0x7979_797A_797B_797C_797D_797E_797F_7980_7981_7982_7983_7984),
  (0xEC24, 0x7985_7986_7987_7988_7989_798A_798B_798C_798D_798E_798F_7990),
  (0xEC30, 0x7991_7992_7993_7994_7995_7996_7997_7998_7999_799A_799B_799C),
  (0xEC3C, 0x799D_799E_799F_79A0_79A1_79A2_79A3_79A4_79A5_79A6_79A7_79A8),
  (0xEC48, 0x79A9_79AA_79AB_79AC_79AD_79AE_79AF_79B0_79B1_79B2_79B3_79B4),
  (0xEC54, 0x79B5_79B6_79B7_79B8_79B9_79BA_79BB_79BC_79BD_79BE_79BF_79C0),
  (0xEC60, 0x79C1_79C2_79C3_79C4_79C5_79C6_79C7_79C8_79C9_79CA_79CB_79CC),
  (0xEC6C, 0x79CD_79CE_79CF_79D0_79D1_79D2_79D3_79D4_79D5_79D6_79D7_79D8),
  (0xEC78, 0x79D9_79DA_79DB_79DC_79DD_79DE_79DF_79E0_79E1_79E2_79E3_79E4),
  (0xEC84, 0x79E5_79E6_79E7_79E8_79E9_79EA_79EB_79EC_79ED_79EE_79EF_79F0),
  (0xEC90, 0x79F1_79F2_79F3_79F4_79F5_79F6_79F7_79F8_79F9_79FA_79FB_79FC),
  (0xEC9C, 0x79FD_79FE_7A41_7A42_7A43_7A44_7A45_7A46_7A47_7A48_7A49_7A4A),
  (0xECA8, 0x7A4B_7A4C_7A4D_7A4E_7A4F_7A50_7A51_7A52_7A53_7A54_7A55_7A56),
  (0xECB4, 0x7A57_7A58_7A59_7A5A_7A5B_7A5C_7A5D_7A5E_7A5F_7A60_7A61_7A62),
  (0xECC0, 0x7A63_7A64_7A65_7A66_7A67_7A68_7A69_7A6A_7A6B_7A6C_7A6D_7A6E),
  (0xECCC, 0x7A6F_7A70_7A71_7A72_7A73_7A74_7A75_7A76_7A77_7A78_7A79_7A7A),
  (0xECD8, 0x7A7B_7A7C_7A7D_7A7E_7A7F_7A80_7A81_7A82_7A83_7A84_7A85_7A86),
  (0xECE4, 0x7A87_7A88_7A89_7A8A_7A8B_7A8C_7A8D_7A8E_7A8F_7A90_7A91_7A92),
  (0xECF0, 0x7A93_7A94_7A95_7A96_7A97_7A98_7A99_7A9A_7A9B_7A9C_7A9D_7A9E),
  (0xECFC, 0x7A9F_7AA0_7AA1_7AA2_7AA3_7AA4_7AA5_7AA6_7AA7_7AA8_7AA9_7AAA),
  (0xED08, 0x7AAB_7AAC_7AAD_7AAE_7AAF_7AB0_7AB1_7AB2_7AB3_7AB4_7AB5_7AB6),
  (0xED14, 0x7AB7_7AB8_7AB9_7ABA_7ABB_7ABC_7ABD_7ABE_7ABF_7AC0_7AC1_7AC2),
  (0xED20, 0x7AC3_7AC4_7AC5_7AC6_7AC7_7AC8_7AC9_7ACA_7ACB_7ACC_7ACD_7ACE),
  (0xED2C, 0x7ACF_7AD0_7AD1_7AD2_7AD3_7AD4_7AD5_7AD6_7AD7_7AD8_7AD9_7ADA),
  (0xED38, 0x7ADB_7ADC_7ADD_7ADE_7ADF_7AE0_7AE1_7AE2_7AE3_7AE4_7AE5_7AE6),
  (0xED44, 0x7AE7_7AE8_7AE9_7AEA_7AEB_7AEC_7AED_7AEE_7AEF_7AF0_7AF1_7AF2),
  (0xED50, 0x7AF3_7AF4_7AF5_7AF6_7AF7_7AF8_7AF9_7AFA_7AFB_7AFC_7AFD_7AFE),
  (0xED5C, 0x7B41_7B42_7B43_7B44_7B45_7B46_7B47_7B48_7B49_7B4A_7B4B_7B4C),
  (0xED68, 0x7B4D_7B4E_7B4F_7B50_7B51_7B52_7B53_7B54_7B55_7B56_7B57_7B58),
  (0xED74, 0x7B59_7B5A_7B5B_7B5C_7B5D_7B5E_7B5F_7B60_7B61_7B62_7B63_7B64),
  (0xED80, 0x7B65_7B66_7B67_7B68_7B69_7B6A_7B6B_7B6C_7B6D_7B6E_7B6F_7B70),
  (0xED8C, 0x7B71_7B72_7B73_7B74_7B75_7B76_7B77_7B78_7B79_7B7A_7B7B_7B7C),
  (0xED98, 0x7B7D_7B7E_7B7F_7B80_7B81_7B82_7B83_7B84_7B85_7B86_7B87_7B88),
  (0xEDA4, 0x7B89_7B8A_7B8B_7B8C_7B8D_7B8E_7B8F_7B90_7B91_7B92_7B93_7B94),
  (0xEDB0, 0x7B95_7B96_7B97_7B98_7B99_7B9A_7B9B_7B9C_7B9D_7B9E_7B9F_7BA0),
  (0xEDBC, 0x7BA1_7BA2_7BA3_7BA4_7BA5_7BA6_7BA7_7BA8_7BA9_7BAA_7BAB_7BAC),
  (0xEDC8, 0x7BAD_7BAE_7BAF_7BB0_7BB1_7BB2_7BB3_7BB4_7BB5_7BB6_7BB7_7BB8),
  (0xEDD4, 0x7BB9_7BBA_7BBB_7BBC_7BBD_7BBE_7BBF_7BC0_7BC1_7BC2_7BC3_7BC4),
  (0xEDE0, 0x7BC5_7BC6_7BC7_7BC8_7BC9_7BCA_7BCB_7BCC_7BCD_7BCE_7BCF_7BD0),
  (0xEDEC, 0x7BD1_7BD2_7BD3_7BD4_7BD5_7BD6_7BD7_7BD8_7BD9_7BDA_7BDB_7BDC),
  (0xEDF8, 0x7BDD_7BDE_7BDF_7BE0_7BE1_7BE2_7BE3_7BE4_7BE5_7BE6_7BE7_7BE8),
  (0xEE04, 0x7BE9_7BEA_7BEB_7BEC_7BED_7BEE_7BEF_7BF0_7BF1_7BF2_7BF3_7BF4),
  (0xEE10, 0x7BF5_7BF6_7BF7_7BF8_7BF9_7BFA_7BFB_7BFC_7BFD_7BFE_7C41_7C42),
  (0xEE1C, 0x7C43_7C44_7C45_7C46_7C47_7C48_7C49_7C4A_7C4B_7C4C_7C4D_7C4E),
  (0xEE28, 0x7C4F_7C50_7C51_7C52_7C53_7C54_7C55_7C56_7C57_7C58_7C59_7C5A),
  (0xEE34, 0x7C5B_7C5C_7C5D_7C5E_7C5F_7C60_7C61_7C62_7C63_7C64_7C65_7C66),
  (0xEE40, 0x7C67_7C68_7C69_7C6A_7C6B_7C6C_7C6D_7C6E_7C6F_7C70_7C71_7C72),
  (0xEE4C, 0x7C73_7C74_7C75_7C76_7C77_7C78_7C79_7C7A_7C7B_7C7C_7C7D_7C7E),
  (0xEE58, 0x7C7F_7C80_7C81_7C82_7C83_7C84_7C85_7C86_7C87_7C88_7C89_7C8A),
  (0xEE64, 0x7C8B_7C8C_7C8D_7C8E_7C8F_7C90_7C91_7C92_7C93_7C94_7C95_7C96),
  (0xEE70, 0x7C97_7C98_7C99_7C9A_7C9B_7C9C_7C9D_7C9E_7C9F_7CA0_7CA1_7CA2),
  (0xEE7C, 0x7CA3_7CA4_7CA5_7CA6_7CA7_7CA8_7CA9_7CAA_7CAB_7CAC_7CAD_7CAE),
  (0xEE88, 0x7CAF_7CB0_7CB1_7CB2_7CB3_7CB4_7CB5_7CB6_7CB7_7CB8_7CB9_7CBA),
  (0xEE94, 0x7CBB_7CBC_7CBD_7CBE_7CBF_7CC0_7CC1_7CC2_7CC3_7CC4_7CC5_7CC6),
  (0xEEA0, 0x7CC7_7CC8_7CC9_7CCA_7CCB_7CCC_7CCD_7CCE_7CCF_7CD0_7CD1_7CD2),
  (0xEEAC, 0x7CD3_7CD4_7CD5_7CD6_7CD7_7CD8_7CD9_7CDA_7CDB_7CDC_7CDD_7CDE),
  (0xEEB8, 0x7CDF_7CE0_7CE1_7CE2_7CE3_7CE4_7CE5_7CE6_7CE7_7CE8_7CE9_7CEA),
  (0xEEC4, 0x7CEB_7CEC_7CED_7CEE_7CEF_7CF0_7CF1_7CF2_7CF3_7CF4_7CF5_7CF6),
  (0xEED0, 0x7CF7_7CF8_7CF9_7CFA_7CFB_7CFC_7CFD_7CFE_7D41_7D42_7D43_7D44),
  (0xEEDC, 0x7D45_7D46_7D47_7D48_7D49_7D4A_7D4B_7D4C_7D4D_7D4E_7D4F_7D50),
  (0xEEE8, 0x7D51_7D52_7D53_7D54_7D55_7D56_7D57_7D58_7D59_7D5A_7D5B_7D5C),
  (0xEEF4, 0x7D5D_7D5E_7D5F_7D60_7D61_7D62_7D63_7D64_7D65_7D66_7D67_7D68),
  (0xEF00, 0x7D69_7D6A_7D6B_7D6C_7D6D_7D6E_7D6F_7D70_7D71_7D72_7D73_7D74),
  (0xEF0C, 0x7D75_7D76_7D77_7D78_7D79_7D7A_7D7B_7D7C_7D7D_7D7E_7D7F_7D80),
  (0xEF18, 0x7D81_7D82_7D83_7D84_7D85_7D86_7D87_7D88_7D89_7D8A_7D8B_7D8C),
  (0xEF24, 0x7D8D_7D8E_7D8F_7D90_7D91_7D92_7D93_7D94_7D95_7D96_7D97_7D98),
  (0xEF30, 0x7D99_7D9A_7D9B_7D9C_7D9D_7D9E_7D9F_7DA0_7DA1_7DA2_7DA3_7DA4),
  (0xEF3C, 0x7DA5_7DA6_7DA7_7DA8_7DA9_7DAA_7DAB_7DAC_7DAD_7DAE_7DAF_7DB0),
  (0xEF48, 0x7DB1_7DB2_7DB3_7DB4_7DB5_7DB6_7DB7_7DB8_7DB9_7DBA_7DBB_7DBC),
  (0xEF54, 0x7DBD_7DBE_7DBF_7DC0_7DC1_7DC2_7DC3_7DC4_7DC5_7DC6_7DC7_7DC8),
  (0xEF60, 0x7DC9_7DCA_7DCB_7DCC_7DCD_7DCE_7DCF_7DD0_7DD1_7DD2_7DD3_7DD4),
  (0xEF6C, 0x7DD5_7DD6_7DD7_7DD8_7DD9_7DDA_7DDB_7DDC_7DDD_7DDE_7DDF_7DE0),
  (0xEF78, 0x7DE1_7DE2_7DE3_7DE4_7DE5_7DE6_7DE7_7DE8_7DE9_7DEA_7DEB_7DEC),
  (0xEF84, 0x7DED_7DEE_7DEF_7DF0_7DF1_7DF2_7DF3_7DF4_7DF5_7DF6_7DF7_7DF8),
  (0xEF90, 0x7DF9_7DFA_7DFB_7DFC_7DFD_7DFE_7E41_7E42_7E43_7E44_7E45_7E46),
  (0xEF9C, 0x7E47_7E48_7E49_7E4A_7E4B_7E4C_7E4D_7E4E_7E4F_7E50_7E51_7E52),
  (0xEFA8, 0x7E53_7E54_7E55_7E56_7E57_7E58_7E59_7E5A_7E5B_7E5C_7E5D_7E5E),
  (0xEFB4, 0x7E5F_7E60_7E61_7E62_7E63_7E64_7E65_7E66_7E67_7E68_7E69_7E6A),
  (0xEFC0, 0x7E6B_7E6C_7E6D_7E6E_7E6F_7E70_7E71_7E72_7E73_7E74_7E75_7E76),
  (0xEFCC, 0x7E77_7E78_7E79_7E7A_7E7B_7E7C_7E7D_7E7E_7E7F_7E80_7E81_7E82),
  (0xEFD8, 0x7E83_7E84_7E85_7E86_7E87_7E88_7E89_7E8A_7E8B_7E8C_7E8D_7E8E),
  (0xEFE4, 0x7E8F_7E90_7E91_7E92_7E93_7E94_7E95_7E96_7E97_7E98_7E99_7E9A),
  (0xEFF0, 0x7E9B_7E9C_7E9D_7E9E_7E9F_7EA0_7EA1_7EA2_7EA3_7EA4_7EA5_7EA6),
  (0xEFFC, 0x7EA7_7EA8_7EA9_7EAA_7EAB_7EAC_7EAD_7EAE_7EAF_7EB0_7EB1_7EB2),
  (0xF008, 0x7EB3_7EB4_7EB5_7EB6_7EB7_7EB8_7EB9_7EBA_7EBB_7EBC_7EBD_7EBE),
  (0xF014, 0x7EBF_7EC0_7EC1_7EC2_7EC3_7EC4_7EC5_7EC6_7EC7_7EC8_7EC9_7ECA),
  (0xF020, 0x7ECB_7ECC_7ECD_7ECE_7ECF_7ED0_7ED1_7ED2_7ED3_7ED4_7ED5_7ED6),
  (0xF02C, 0x7ED7_7ED8_7ED9_7EDA_7EDB_7EDC_7EDD_7EDE_7EDF_7EE0_7EE1_7EE2),
  (0xF038, 0x7EE3_7EE4_7EE5_7EE6_7EE7_7EE8_7EE9_7EEA_7EEB_7EEC_7EED_7EEE),
  (0xF044, 0x7EEF_7EF0_7EF1_7EF2_7EF3_7EF4_7EF5_7EF6_7EF7_7EF8_7EF9_7EFA),
  (0xF050, 0x7EFB_7EFC_7EFD_7EFE_7F41_7F42_7F43_7F44_7F45_7F46_7F47_7F48),
  (0xF05C, 0x7F49_7F4A_7F4B_7F4C_7F4D_7F4E_7F4F_7F50_7F51_7F52_7F53_7F54),
  (0xF068, 0x7F55_7F56_7F57_7F58_7F59_7F5A_7F5B_7F5C_7F5D_7F5E_7F5F_7F60),
  (0xF074, 0x7F61_7F62_7F63_7F64_7F65_7F66_7F67_7F68_7F69_7F6A_7F6B_7F6C),
  (0xF080, 0x7F6D_7F6E_7F6F_7F70_7F71_7F72_7F73_7F74_7F75_7F76_7F77_7F78),
  (0xF08C, 0x7F79_7F7A_7F7B_7F7C_7F7D_7F7E_7F7F_7F80_7F81_7F82_7F83_7F84),
  (0xF098, 0x7F85_7F86_7F87_7F88_7F89_7F8A_7F8B_7F8C_7F8D_7F8E_7F8F_7F90),
  (0xF0A4, 0x7F91_7F92_7F93_7F94_7F95_7F96_7F97_7F98_7F99_7F9A_7F9B_7F9C),
  (0xF0B0, 0x7F9D_7F9E_7F9F_7FA0_7FA1_7FA2_7FA3_7FA4_7FA5_7FA6_7FA7_7FA8),
  (0xF0BC, 0x7FA9_7FAA_7FAB_7FAC_7FAD_7FAE_7FAF_7FB0_7FB1_7FB2_7FB3_7FB4),
  (0xF0C8, 0x7FB5_7FB6_7FB7_7FB8_7FB9_7FBA_7FBB_7FBC_7FBD_7FBE_7FBF_7FC0),
  (0xF0D4, 0x7FC1_7FC2_7FC3_7FC4_7FC5_7FC6_7FC7_7FC8_7FC9_7FCA_7FCB_7FCC),
  (0xF0E0, 0x7FCD_7FCE_7FCF_7FD0_7FD1_7FD2_7FD3_7FD4_7FD5_7FD6_7FD7_7FD8),
  (0xF0EC, 0x7FD9_7FDA_7FDB_7FDC_7FDD_7FDE_7FDF_7FE0_7FE1_7FE2_7FE3_7FE4),
  (0xF0F8, 0x7FE5_7FE6_7FE7_7FE8_7FE9_7FEA_7FEB_7FEC_7FED_7FEE_7FEF_7FF0),
  (0xF104, 0x7FF1_7FF2_7FF3_7FF4_7FF5_7FF6_7FF7_7FF8_7FF9_7FFA_7FFB_7FFC),
  (0xF110, 0x7FFD_7FFE),
  (0xF86F, 0x446E),
  (0xF929, 0x5BC9),
  (0xF9DC, 0x6674),
  (0xFA0E, 0x578E_5877_5882_5980_5BAE_5C66_5C78_5E49_5E8A_5F7A_5FD2_5FD5),
  (0xFA1A, 0x5FD9_5FDD_6059_60AD_6177_62B9_62CE_62E2_63EE_648E_64F1_6549),
  (0xFA26, 0x6566_65B8_65C6_6678_66DD_66DF_66E6_67F4),
  (0xFF01, 0x425A_427F_427B_42E0_426C_4250_427D_424D_425D_425C_424E_426B),
  (0xFF0D, 0x4260_424B_4261_42F0_42F1_42F2_42F3_42F4_42F5_42F6_42F7_42F8),
  (0xFF19, 0x42F9_427A_425E_424C_427E_426E_426F_427C_42C1_42C2_42C3_42C4),
  (0xFF25, 0x42C5_42C6_42C7_42C8_42C9_42D1_42D2_42D3_42D4_42D5_42D6_42D7),
  (0xFF31, 0x42D8_42D9_42E2_42E3_42E4_42E5_42E6_42E7_42E8_42E9_4444_43E0),
  (0xFF3D, 0x4445_4470_426D_4279_4281_4282_4283_4284_4285_4286_4287_4288),
  (0xFF49, 0x4289_4291_4292_4293_4294_4295_4296_4297_4298_4299_42A2_42A3),
  (0xFF55, 0x42A4_42A5_42A6_42A7_42A8_42A9_42C0_424F_42D0_43A1),
  (0xFF61, 0x0041_0042_0043_0044_0045_0046_0047_0048_0049_0051_0052_0053),
  (0xFF6D, 0x0054_0055_0056_0058_0081_0082_0083_0084_0085_0086_0087_0088),
  (0xFF79, 0x0089_008A_008C_008D_008E_008F_0090_0091_0092_0093_0094_0095),
  (0xFF85, 0x0096_0097_0098_0099_009A_009D_009E_009F_00A2_00A3_00A4_00A5),
  (0xFF91, 0x00A6_00A7_00A8_00A9_00AA_00AC_00AD_00AE_00AF_00BA_00BB_00BC),
  (0xFF9D, 0x00BD_00BE_00BF),
  (0xFFE0, 0x434A_424A_425F_42A1_426A_425B)]

/-- The codes of IBM-930 that are not what their character is written as. -/
def lost930 : List Nat := [
  ]

/-- The characters that are written in IBM-930 with the code of another character. -/
def alt930 : List Nat := [
  0x2015, 0x2225, 0x4FE0, 0x5265, 0x555E, 0x5699, 0x56CA, 0x586B, 0x5C5B, 0x5C62, 0x6414, 0x6451, 0x6522, 0x6805, 0x688E, 0x6F51,
  0x7006, 0x7130, 0x7626, 0x79B1, 0x7C1E, 0x7E61, 0x7E66, 0x7E6B, 0x8141, 0x834A, 0x840A, 0x8523, 0x87EC, 0x881F, 0x8EC0, 0x91AC,
  0x91B1, 0x9830, 0x983D, 0x985B, 0x9A52, 0x9DD7, 0x9E7C, 0x9EB9, 0x9EBA, 0xF86F, 0xFF0D, 0xFF5E, 0xFFE4]

/-- IBM-930 -/
def ibm930 : Charset where
  reads := single930 ++ double930
  writes := writes930

/-- The lines of /repo/modules/from/IBM-933.txt with one byte (those that call the callback): code, character; sorted.  Of several lines for one code only the
first is kept, which is the one that counts (C50). -/
def single933 : Chart := Chart.wide [
  (0x1, 0x0001_0002_0003_009C_0009_0086_007F_0097_008D_008E_000B_000C),
  (0xD, 0x000D_000E_000F_0010_0011_0012_0013_009D_0085_0008_0087_0018),
  (0x19, 0x0019_0092_008F_001C_001D_001E_001F_0080_0081_0082_0083_0084),
  (0x25, 0x000A_0017_001B_0088_0089_008A_008B_008C_0005_0006_0007_0090),
  (0x31, 0x0091_0016_0093_0094_0095_0096_0004_0098_0099_009A_009B_0014),
  (0x3D, 0x0015_009E_001A_0020),
  (0x42, 0xFFA0_FFA1_FFA2_FFA3_FFA4_FFA5_FFA6_FFA7_00A2_002E_003C_0028),
  (0x4E, 0x002B_007C_0026),
  (0x52, 0xFFA8_FFA9_FFAA_FFAB_FFAC_FFAD_FFAE_FFAF_0021_0024_002A_0029),
  (0x5E, 0x003B_00AC_002D_002F_FFB0_FFB1_FFB2_FFB3_FFB4_FFB5_FFB6_FFB7),
  (0x6A, 0x00A6_002C_0025_005F_003E_003F_005B),
  (0x72, 0xFFB8_FFB9_FFBA_FFBB_FFBC_FFBD_FFBE_0060_003A_0023_0040_0027),
  (0x7E, 0x003D_0022_005D_0061_0062_0063_0064_0065_0066_0067_0068_0069),
  (0x8A, 0xFFC2_FFC3_FFC4_FFC5_FFC6_FFC7),
  (0x91, 0x006A_006B_006C_006D_006E_006F_0070_0071_0072_FFCA_FFCB_FFCC),
  (0x9D, 0xFFCD_FFCE_FFCF_203E_007E_0073_0074_0075_0076_0077_0078_0079),
  (0xA9, 0x007A_FFD2_FFD3_FFD4_FFD5_FFD6_FFD7_005E),
  (0xB2, 0x005C),
  (0xBA, 0xFFDA_FFDB_FFDC),
  (0xC0, 0x007B_0041_0042_0043_0044_0045_0046_0047_0048_0049),
  (0xD0, 0x007D_004A_004B_004C_004D_004E_004F_0050_0051_0052),
  (0xE0, 0x20A9),
  (0xE2, 0x0053_0054_0055_0056_0057_0058_0059_005A),
  (0xF0, 0x0030_0031_0032_0033_0034_0035_0036_0037_0038_0039),
  (0xFF, 0x009F)]

/-- The lines of /repo/modules/from/IBM-933.txt with two bytes: code, character; sorted.  Of several lines for one code only the
first is kept, which is the one that counts (C50). -/
def double933 : Chart := Chart.wide [
  (0x4040, 0x3000),
  (0x4141, 0x3001_3002_30FB_2025_2026_00A8_3003_2010_2014_2225_FF3C_FFE3),
  (0x414D, 0x2018_2019_201C_201D_3014_3015_3008_3009_300A_300B_300C_300D),
  (0x4159, 0x300E_300F_3010_3011_00B1_00D7_00F7_01C2_2266_2267_221E_2234),
  (0x4165, 0x00B0_2032_2033_2103_212A_FF3E_FFE1_FFE5_3396_3397_2113_33C4),
  (0x4171, 0x339C_339D_339E_338E_338F_00A7_203B_2606_2605_25CB_25CF_25CE),
  (0x417D, 0x25C7_25C6_25A1_25A0_25B3_25B2_25BD_25BC_2192_2190_2191_2193),
  (0x4189, 0x2194_3013_FF3B_FF3D_2260_2264_2265_212B_2642_2640_2220_22A5),
  (0x4195, 0x2312_2202_2207_2261_2252_226A_226B_221A_223D),
  (0x424A, 0xFFE0_FF0E_FF1C_FF08_FF0B_FF5C_FF06),
  (0x425A, 0xFF01_FF04_FF0A_FF09_FF1B_FFE2_FF0D_FF0F),
  (0x426A, 0xFFE4_FF0C_FF05_FF3F_FF1E_FF1F),
  (0x4279, 0xFF40_FF1A_FF03_FF20_FF07_FF1D_FF02),
  (0x4281, 0xFF41_FF42_FF43_FF44_FF45_FF46_FF47_FF48_FF49),
  (0x4291, 0xFF4A_FF4B_FF4C_FF4D_FF4E_FF4F_FF50_FF51_FF52),
  (0x42A1, 0x223C_FF53_FF54_FF55_FF56_FF57_FF58_FF59_FF5A),
  (0x42C0, 0xFF5B_FF21_FF22_FF23_FF24_FF25_FF26_FF27_FF28_FF29),
  (0x42D0, 0xFF5D_FF2A_FF2B_FF2C_FF2D_FF2E_FF2F_FF30_FF31_FF32),
  (0x42E0, 0xFFE6),
  (0x42E2, 0xFF33_FF34_FF35_FF36_FF37_FF38_FF39_FF3A),
  (0x42F0, 0xFF10_FF11_FF12_FF13_FF14_FF15_FF16_FF17_FF18_FF19),
  (0x4341, 0x3165_3166_3167_3168_3169_316A_316B_316C_316D_316E_316F_3170),
  (0x434D, 0x3171_3172_3173_3174_3175_3176_3177_3178_3179_317A_317B_317C),
  (0x4359, 0x317D_317E_317F_3180_3181_3182_3183_3184_3185_3186_3187_3188),
  (0x4365, 0x3189_318A_318B_318C_318D_318E),
  (0x4441, 0x3041_3042_3043_3044_3045_3046_3047_3048_3049_304A_304B_304C),
  (0x444D, 0x304D_304E_304F_3050_3051_3052_3053_3054_3055_3056_3057_3058),
  (0x4459, 0x3059_305A_305B_305C_305D_305E_305F_3060_3061_3062_3063_3064),
  (0x4465, 0x3065_3066_3067_3068_3069_306A_306B_306C_306D_306E_306F_3070),
  (0x4471, 0x3071_3072_3073_3074_3075_3076_3077_3078_3079_307A_307B_307C),
  (0x447D, 0x307D_307E_307F_3080_3081_3082_3083_3084_3085_3086_3087_3088),
  (0x4489, 0x3089_308A_308B_308C_308D_308E_308F_3090_3091_3092_3093),
  (0x4541, 0x30A1_30A2_30A3_30A4_30A5_30A6_30A7_30A8_30A9_30AA_30AB_30AC),
  (0x454D, 0x30AD_30AE_30AF_30B0_30B1_30B2_30B3_30B4_30B5_30B6_30B7_30B8),
  (0x4559, 0x30B9_30BA_30BB_30BC_30BD_30BE_30BF_30C0_30C1_30C2_30C3_30C4),
  (0x4565, 0x30C5_30C6_30C7_30C8_30C9_30CA_30CB_30CC_30CD_30CE_30CF_30D0),
  (0x4571, 0x30D1_30D2_30D3_30D4_30D5_30D6_30D7_30D8_30D9_30DA_30DB_30DC),
  (0x457D, 0x30DD_30DE_30DF_30E0_30E1_30E2_30E3_30E4_30E5_30E6_30E7_30E8),
  (0x4589, 0x30E9_30EA_30EB_30EC_30ED_30EE_30EF_30F0_30F1_30F2_30F3_30F4),
  (0x4595, 0x30F5_30F6),
  (0x4641, 0x2170_2171_2172_2173_2174_2175_2176_2177_2178_2179),
  (0x4650, 0x2160_2161_2162_2163_2164_2165_2166_2167_2168_2169),
  (0x4661, 0x0391_0392_0393_0394_0395_0396_0397_0398_0399_039A_039B_039C),
  (0x466D, 0x039D_039E_039F_03A0_03A1_03A3_03A4_03A5_03A6_03A7_03A8_03A9),
  (0x4681, 0x03B1_03B2_03B3_03B4_03B5_03B6_03B7_03B8_03B9_03BA_03BB_03BC),
  (0x468D, 0x03BD_03BE_03BF_03C0_03C1_03C3_03C4_03C5_03C6_03C7_03C8_03C9),
  (0x4741, 0x2500_2502_250C_2510_2518_2514_251C_252C_2524_2534_253C_2501),
  (0x474D, 0x2503_250F_2513_251B_2517_2523_2533_252B_253B_254B_2520_252F),
  (0x4759, 0x2528_2537_253F_251D_2530_2525_2538_2542_2512_2511_251A_2519),
  (0x4765, 0x2516_2515_250E_250D_251E_251F_2521_2522_2526_2527_2529_252A),
  (0x4771, 0x252D_252E_2531_2532_2535_2536_2539_253A_253D_253E_2540_2541),
  (0x477D, 0x2543_2544_2545_2546_2547_2548_2549_254A),
  (0x4841, 0x3395_3398_33A3_33A4_33A5_33A6_3399_339A_339B_339F_33A0_33A1),
  (0x484D, 0x33A2_33CA_338D_33CF_3388_3389_33C8_33A7_33A8_33B0_33B1_33B2),
  (0x4859, 0x33B3_33B4_33B5_33B6_33B7_33B8_33B9_3380_3381_3382_3383_3384),
  (0x4865, 0x33BA_33BB_33BC_33BD_33BE_33BF_3390_3391_3392_3393_3394_2126),
  (0x4871, 0x33C0_33C1_338A_338B_338C_33D6_33C5_33AD_33AE_33AF_33DB_33A9),
  (0x487D, 0x33AA_33AB_33AC_33DD_33D0_33D3_33C3_33C9_33DC_33C6),
  (0x4941, 0x221D_2235_222B_222C_2208_220B_2286_2287_2282_2283_222A_2229),
  (0x494D, 0x2227_2228_21D2_21D4_2200_2203_00B4_02DC_02C7_02D8_02DD_02DA),
  (0x4959, 0x02D9_00B8_02DB_00A1_00BF_02D0_222E_2211_220F_00A4_2109_2030),
  (0x4965, 0x25C1_25C0_25B7_25B6_2664_2660_2661_2665_2667_2663_2299_25C8),
  (0x4971, 0x25A3_25D0_25D1_2592_25A4_25A5_25A8_25A7_25A6_25A9_2668_260F),
  (0x497D, 0x260E_261C_261E_00B6_2020_2021_2195_2197_2199_2196_2198_266D),
  (0x4989, 0x2669_266A_266C_327F_321C_2116_33C7_2122_33C2_33D8_2121_02BA),
  (0x4A41, 0x0410_0411_0412_0413_0414_0415_0401_0416_0417_0418_0419_041A),
  (0x4A4D, 0x041B_041C_041D_041E_041F_0420_0421_0422_0423_0424_0425_0426),
  (0x4A59, 0x0427_0428_0429_042A_042B_042C_042D_042E_042F_0430_0431_0432),
  (0x4A65, 0x0433_0434_0435_0451_0436_0437_0438_0439_043A_043B_043C_043D),
  (0x4A71, 0x043E_043F_0440_0441_0442_0443_0444_0445_0446_0447_0448_0449),
  (0x4A7D, 0x044A_044B_044C_044D_044E_044F),
  (0x4B41, 0x00C6_00D0_00AA_0126),
  (0x4B46, 0x0132),
  (0x4B48, 0x013F_0141_00D8_0152_00BA_00DE_0166_014A),
  (0x4B51, 0x3260_3261_3262_3263_3264_3265_3266_3267_3268_3269_326A_326B),
  (0x4B5D, 0x326C_326D_326E_326F_3270_3271_3272_3273_3274_3275_3276_3277),
  (0x4B69, 0x3278_3279_327A_327B_24D0_24D1_24D2_24D3_24D4_24D5_24D6_24D7),
  (0x4B75, 0x24D8_24D9_24DA_24DB_24DC_24DD_24DE_24DF_24E0_24E1_24E2_24E3),
  (0x4B81, 0x24E4_24E5_24E6_24E7_24E8_24E9_2460_2461_2462_2463_2464_2465),
  (0x4B8D, 0x2466_2467_2468_2469_246A_246B_246C_246D_246E_00BD_2153_2154),
  (0x4B99, 0x00BC_00BE_215B_215C_215D_215E),
  (0x4BA0, 0x00E6_0111_00F0_0127_0131_0133_0138_0140_0142_00F8_0153_00DF),
  (0x4BAC, 0x00FE_0167_014B_0149_3200_3201_3202_3203_3204_3205_3206_3207),
  (0x4BB8, 0x3208_3209_320A_320B_320C_320D_320E_320F_3210_3211_3212_3213),
  (0x4BC4, 0x3214_3215_3216_3217_3218_3219_321A_321B_249C_249D_249E_249F),
  (0x4BD0, 0x24A0_24A1_24A2_24A3_24A4_24A5_24A6_24A7_24A8_24A9_24AA_24AB),
  (0x4BDC, 0x24AC_24AD_24AE_24AF_24B0_24B1_24B2_24B3_24B4_24B5_2474_2475),
  (0x4BE8, 0x2476_2477_2478_2479_247A_247B_247C_247D_247E_247F_2480_2481),
  (0x4BF4, 0x2482_00B9_00B2_00B3_2074_207F_2081_2082_2083_2084),
  (0x5041, 0x4F3D_4F73_5047_50F9_52A0_53EF_5475_54E5_5609_5AC1_5BB6_6687),
  (0x504D, 0x67EF_67B6_6B4C_7A3C_82DB_8304_8857_8888_8A36_8CC8_8DCF_8EFB),
  (0x5059, 0x8FE6_99D5_523B_5374_5404_F843_606A_64F1_6BBC_73CF_811A_89BA),
  (0x5065, 0x89D2_95A3_520A_58BE_5978_59E6_5E72_5E79_61C7_63C0_6746_6F97),
  (0x5071, 0x764E_770B_7A08_7AFF_7C21_826E_8271_809D_8AEB_9593_4E6B_559D),
  (0x507D, 0x66F7_6E34_78A3_7AED_8910_7FAF_845B_97A8_52D8_574E_582A_5D4C),
  (0x5089, 0x611F_61BE_6562_67D1_6A44_6E1B_7518_75B3_76E3_7D3A_9163_9451),
  (0x5095, 0x9F95_5323_5CAC_7532_80DB_9240_9598_5CA1_525B_59DC_5D17_5EB7),
  (0x50A1, 0x5F3A_5F4A_6177_6C5F_7586_7DB1_8941_7CE0_8154_8591_8B1B_92FC),
  (0x50AD, 0x964D_4ECB_4EF7_500B_51F1_6137_613E_6168_6539_69EA_6F11_75A5),
  (0x50B9, 0x7686_76D6_7B87_82A5_84CB_958B_5BA2_5751_F901_7CB3_7FB9_91B5),
  (0x50C5, 0x53BB_5C45_5DE8_62D2_636E_64DA_6E20_70AC_64E7_8DDD_907D_F902),
  (0x50D1, 0xF844_92F8_4E7E_4EF6_5065_5DFE_5EFA_6106_8654_8E47_9375_9A2B),
  (0x50DD, 0x4E5E_5091_6770_5109_528D_6AA2_77BC_9ED4_52AB_602F_5048_61A9),
  (0x50E9, 0x63ED_64CA_683C_6A84_6FC0_89A1_9694_9ABC_5805_80A9_727D_72AC),
  (0x50F5, 0x7504_7D79_7E6D_898B_8B74_9063_9D51_6F54_6C7A_7D50),
  (0x5141, 0x7F3A_8A23_517C_614A_7B9D_84B9_8B19_938C_4EAC_50BE_52C1_52CD),
  (0x514D, 0x537F_54FD_5883_5E9A_5F91_6176_66BB_6243_64CE_656C_666F_66F4),
  (0x5159, 0x6897_6AA0_6D87_7085_71B2_749F_74CA_754A_75D9_786C_78EC_7ADF),
  (0x5165, 0x7AF6_7D45_7D93_8015_803F_811B_8396_8B66_8F15_9015_93E1_9803),
  (0x5171, 0x9838_9A5A_9BE8_4FC2_5553_5951_5B63_5C46_60B8_6212_6842_68B0),
  (0x517D, 0x6EAA_754C_7678_78CE_F845_7A3D_7CFB_7E6B_7E7C_8A08_8AA1_968E),
  (0x5189, 0x8C3F_96DE_9DC4_53E9_53E4_544A_5471_56FA_59D1_5B64_5EAB_62F7),
  (0x5195, 0x6537_6545_6572_67AF_6772_6CBD_75FC_7690_8831_77BD_7A3F_777E),
  (0x51A1, 0x8003_80A1_818F_82E6_85C1_88B4_8A41_8AA5_F903_8F9C_932E_96C7),
  (0x51AD, 0x9867_9AD8_9F13_54ED_659B_66F2_688F_7A40_8C37_9D60_56F0_5764),
  (0x51B9, 0x5D11_6606_68B1_68CD_6EFE_889E_6C68_F904_9AA8_4F9B_516C_5171),
  (0x51C5, 0x529F_5B54_5DE5_8CA2_606D_6050_62F1_63A7_653B_6831_69D3_7A7A),
  (0x51D1, 0x7B9C_5BE1_6208_679C_74DC_79D1_83D3_874C_8A87_8AB2_904E_9846),
  (0x51DD, 0x5ED3_69E8_85FF_90ED_970D_F905_51A0_5B98_5BEC_6163_68FA_74D8),
  (0x51E9, 0x6B3E_704C_76E5_7BA1_7F50_83C5_89C0_8CAB_95DC_9928_9E1B_522E),
  (0x51F5, 0x605D_62EC_9002_5149_5321_58D9_5EE3_66E0_6D38_72C2),
  (0x5241, 0x73D6_7B50_80F1_945B_5366_639B_7F6B_4E56_5080_584A_58DE_602A),
  (0x524D, 0x6127_62D0_69D0_9B41_5B8F_7D18_80B1_8F5F_4EA4_50D1_54AC_55AC),
  (0x5259, 0x5B0C_5DA0_5DE7_654E_652A_6821_6A4B_72E1_768E_77EF_7D5E_7FF9),
  (0x5265, 0x81A0_854E_86DF_8F03_8F4E_90CA_9278_9903_9A55_9BAB_4E18_4E45),
  (0x5271, 0x4E5D_4EC7_4F5D_4FF1_50B4_5177_52FE_5340_53E3_53E5_548E_5614),
  (0x527D, 0x57A2_5ABE_5AD7_5BC7_5D87_5ED0_61FC_62D8_6551_F846_67B8_67E9),
  (0x5289, 0x69CB_6B50_6BC6_6BEC_6C42_6E9D_7078_72D7_7396_7403_750C_77BF),
  (0x5295, 0x77E9_7A76_7D7F_8CFC_81FC_8205_820A_82DF_8862_89AF_8B33_8EC0),
  (0x52A1, 0x9011_90B1_9264_98B6_99D2_9A45_9CE9_9DD7_9F9C_570B_5C40_63AC),
  (0x52AD, 0x83CA_97A0_9EB4_7A98_7FA4_8ECD_541B_90E1_5800_5C48_6398_7A9F),
  (0x52B9, 0x5BAE_5F13_7A79_7AAE_8EAC_5026_5238_52F8_5377_5708_62F3_6B0A),
  (0x52C5, 0x7737_53A5_8E76_95D5_673A_6AC3_6F70_8A6D_8DEA_8ECC_994B_6B78),
  (0x52D1, 0x8CB4_9B3C_F907_53EB_572D_594E_63C6_73EA_7845_7ABA_8475_7CFE),
  (0x52DD, 0x898F_8D73_9035_95A8_5747_7B60_83CC_921E_F908_6A58_514B_524B),
  (0x52E9, 0x5287_621F_6975_68D8_9699_50C5_52E4_5DF9_61C3_65A4_6839_69FF),
  (0x52F5, 0x6F0C_747E_7B4B_82B9_83EB_89B2_8B39_8FD1_9949_F909),
  (0x5341, 0x4ECA_64D2_6A8E_7434_7981_79BD_887F_887E_895F_F90A_9326_53CA),
  (0x534D, 0x5C8C_6025_6271_6C72_7B08_7D1A_7D66_4E98_5162_77DC_80AF_4F01),
  (0x5359, 0x4F0E_5176_5180_55DC_5668_573B_57FA_5914_5947_5993_5BC4_5C90),
  (0x5365, 0x8C48_5D0E_5E7E_5DF1_5FCC_6280_65D7_65E3_671F_675E_68CB_68C4),
  (0x5371, 0x6A5F_6B3A_6C23_6C7D_6C82_6DC7_7426_742A_74A3_7578_757F_7881),
  (0x537D, 0x78EF_7947_7948_797A_7B95_7D00_7DBA_F847_8006_802D_808C_671E),
  (0x5389, 0x8A18_8B4F_8D77_9321_98E2_9951_9A0E_9A0F_9A65_9C2D_9E92_7DCA),
  (0x5395, 0x4F76_5409_62EE_6854_91D1_F848_55AB_513A_61E6_62CF_62FF_7CEF),
  (0x53A1, 0x90A3_8AFE_6696_7156_96E3_637A_634F_5357_5583_7537_7D0D_56CA),
  (0x53AD, 0x5A18_66E9_4E43_5167_5948_67F0_8010_8FFA_5973_5E74_79CA_5FF5),
  (0x53B9, 0x606C_62C8_637B_4F5E_5BE7_F849_52AA_5974_5B65_5F29_6012_7459),
  (0x53C5, 0x6FC3_81BF_8FB2_60F1_8166_5C3F_F84A_5AE9_8A25_7D10_80FD_5C3C),
  (0x53D1, 0x6CE5_533F_6EBA_591A_8336_4E39_4F46_55AE_5718_58C7_65B7_65E6),
  (0x53DD, 0x6A80_6BB5_6E4D_77ED_7AEF_7C1E_7DDE_86CB_8892_9132_935B_977C),
  (0x53E9, 0x601B_64BB_737A_75B8_9054_95E5_97C3_5556_64D4_66C7_6DE1_6F6D),
  (0x53F5, 0x6FB9_75F0_8043_81BD_8983_8AC7_8B5A_6C93_7B54_8E0F),
  (0x5441, 0x905D_515A_5802_5858_5E62_5510_649E_68E0_7576_7CD6_87F7_9EE8),
  (0x544D, 0x4EE3_5788_5927_5C0D_5CB1_5E36_5F85_6234_64E1_73B3_7893_81FA),
  (0x5459, 0x888B_8CB8_968A_9EDB_5B85_5FB7_60B3_5012_5200_5230_5716_5835),
  (0x5465, 0x5857_5C0E_5C60_5CF6_5EA6_5F92_60BC_6311_6417_6843_68F9_6DD8),
  (0x5471, 0x6E21_6ED4_6FE4_71FE_76DC_7779_79B1_7A3B_8404_83DF_8CED_8DF3),
  (0x547D, 0x8E48_9003_9014_9053_90FD_934D_9676_97DC_6BD2_7006_7258_72A2),
  (0x5489, 0x7368_7763_79BF_7BE4_7E9B_8B80_58A9_60C7_6566_66BE_6C8C_71C9),
  (0x5495, 0x8C5A_9813_5484_4E6D_7A81_4EDD_51AC_51CD_52D5_540C_578C_61A7),
  (0x54A1, 0x6771_6850_68DF_6D1E_6F7C_7AE5_75BC_77B3_8463_80F4_9285_515C),
  (0x54AD, 0x6597_675C_6793_75D8_7AC7_8373_809A_86AA_F95A_8C46_982D_5C6F),
  (0x54B9, 0x81C0_9041_906F_920D_5F97_6A59_6ED5_706F_71C8_767B_7B49_85E4),
  (0x54C5, 0x8B04_9127_9419_9A30_5587_61F6_7669_7F85_863F_87BA_88F8_908F),
  (0x54D1, 0xF95C_6D1B_70D9_7296_73DE_7D61_843D_916A_99F1_4E82_5375_5E71),
  (0x54DD, 0x6B04_6B12_703E_721B_862D_9E1E_524C_57D3_8FA3_5D50_64E5_652C),
  (0x54E9, 0x6B16_6FEB_7C43_7E9C_85CD_8964_89BD_62C9_81D8_881F_5ECA_6717),
  (0x54F5, 0x6994_6D6A_72FC_7405_746F_8782_90DE_4F86_840A_51B7),
  (0x5541, 0x63A0_7565_4EAE_5169_5006_51C9_6881_6DBC_6A11_7CAE_7CB1_7CE7),
  (0x554D, 0x826F_8AD2_8F1B_91CF_9B4E_4FB6_52F5_5442_5EEC_623E_65C5_6ADA),
  (0x5559, 0x6FFE_7658_792A_8182_85DC_616E_8823_8821_9462_95AD_9A62_9A6A),
  (0x5565, 0x9E97_9ECE_529B_6B77_66C6_6ADF_701D_792B_8F62_9742_6190_6200),
  (0x5571, 0x6523_6F23_7149_7DF4_806F_84EE_8F26_9023_934A_51BD_52A3_5217),
  (0x557D, 0x6D0C_70C8_88C2_5EC9_6582_6BAE_6FC2_7C3E_7375_9B23_4EE4_4F36),
  (0x5589, 0x56F9_5DBA_601C_6624_6CE0_73B2_7F9A_7FCE_82D3_86C9_901E_96F6),
  (0x5595, 0x9748_9234_9818_9F61_4F8B_79AE_91B4_96B7_52DE_6488_6AD3_6F66),
  (0x55A1, 0x7210_7018_76E7_8001_826B_8606_865C_8DEF_8F05_8F64_9732_9B6F),
  (0x55AD, 0x9DFA_9E75_6F09_788C_F84B_7DA0_8F46_9304_9E93_9E7F_8AD6_58DF),
  (0x55B9, 0x5F04_6727_7027_74CF_7C60_807E_5121_7262_78CA_7C5F_857E_8A84),
  (0x55C5, 0x8CF4_8CC2_96F7_4E86_50DA_F84C_5BEE_5ED6_71CE_7642_77AD_6599),
  (0x55D1, 0x804A_84FC_907C_9F8D_50C2_58D8_5C62_6A13_6DDA_6F0F_7D2F_7E37),
  (0x55DD, 0x8938_964B_9ACF_5289_67F3_69B4_6D41_6E9C_7409_7460_7559_7624),
  (0x55E9, 0x786B_8B2C_985E_516D_622E_9678_502B_5D19_6DEA_7DB8_8F2A_5F8B),
  (0x55F5, 0x6144_6817_F961_7ABF_9686_808B_52D2_51DB_5EE9_51CC),
  (0x5641, 0x695E_7A1C_7DBE_83F1_9675_4FDA_5229_5398_540F_5C65_60A7_F84D),
  (0x564D, 0x674E_68A8_6F13_7281_72F8_7406_7483_75E2_79BB_7F79_7C6C_87AD),
  (0x5659, 0x88CF_91CC_91D0_96E2_9B51_9BC9_541D_71D0_7498_85FA_8EAA_96A3),
  (0x5665, 0x9C57_9E9F_6797_6DCB_7433_75F3_81E8_9716_5CA6_782C_7ACB_7B20),
  (0x5671, 0x7C92_5ABD_6469_746A_75F2_78E8_87C7_99AC_9B54_9EBB_5BDE_5E55),
  (0x567D, 0x6F20_819C_83AB_5A29_5DD2_5F4E_6162_633D_6669_66FC_6EFF_6F2B),
  (0x5689, 0x7063_779E_842C_8513_883B_8B3E_8F13_93DD_9945_9B18_9C3B_62B9),
  (0x5695, 0x672B_6CAB_896A_977A_4EA1_5984_5FD8_5FD9_671B_7DB2_7F54_8292),
  (0x56A1, 0x832B_83BD_9099_9B4D_57CB_59B9_5A92_5BD0_6627_679A_6885_6BCF),
  (0x56AD, 0x7164_771B_7F75_82FA_8CB7_8CE3_9081_9B45_8108_8109_8C8A_964C),
  (0x56B9, 0x9A40_9EA5_5B5F_6C13_731B_76DF_76F2_840C_51AA_8993_4FDB_514D),
  (0x56C5, 0x52C9_5195_68C9_7704_7720_7DBF_7DEC_9762_9EB5_6EC5_8511_547D),
  (0x56D1, 0x51A5_540D_9CF4_660E_669D_6E9F_76BF_8317_879F_9169_9298_8882),
  (0x56DD, 0x4FAE_52DF_5E3D_59C6_6155_6478_66AE_5192_67D0_6A21_6BCD_6BDB),
  (0x56E9, 0x725F_7261_7738_77DB_8004_8017_8305_8B00_8B28_8C8C_927E_6728),
  (0x56F5, 0x6C90_7267_76EE_7766_7A46_6B7F_6C92_5922_6726_6FDB),
  (0x5741, 0x77C7_8499_536F_5893_5999_5EDF_63CF_6634_6773_6E3A_732B_82D7),
  (0x574D, 0x9328_52D9_5DEB_61CB_620A_62C7_64AB_65E0_6B66_6BCB_7121_755D),
  (0x5759, 0x7E46_821E_8302_856A_8AA3_8CBF_9727_9D61_58A8_9ED8_520E_543B),
  (0x5765, 0x6587_6C76_7D0B_7D0A_868A_9580_554F_805E_52FF_7269_5473_5A9A),
  (0x5771, 0x5C3E_5D4B_9761_5F4C_5FAE_672A_6E3C_7030_7709_7C73_7CDC_7F8E),
  (0x577D, 0x8587_8B0E_8FF7_60B6_610D_61AB_654F_65FC_65FB_6C11_6CEF_739F),
  (0x5789, 0x73C9_9594_95A9_5BC6_871C_8B10_F84E_525D_535A_62CD_640F_64B2),
  (0x5795, 0x6734_6A38_6B02_6CCA_7254_73C0_749E_7B94_7E1B_7C95_818A_8236),
  (0x57A1, 0x8584_8FEB_96F9_99C1_4F34_534A_53CD_53DB_62CC_642C_6500_6591),
  (0x57AD, 0x69C3_6F58_6CEE_73ED_7554_76E4_78FB_792C_7D46_80D6_87E0_822C),
  (0x57B9, 0x8FD4_9812_98EF_52C3_62D4_6F51_64A5_767C_8DCB_91B1_9262_9AEE),
  (0x57C5, 0x9B43_5023_508D_574A_59A8_5C28_5E47_5F77_623F_653E_65B9_65C1),
  (0x57D1, 0x6609_699C_7D21_80AA_8180_822B_82B3_84A1_868C_8A2A_8B17_90A6),
  (0x57DD, 0x9632_9AE3_9B74_9F90_4FF3_500D_F963_57F9_5F98_62DC_6392_676F),
  (0x57E9, 0x6E43_76C3_80DA_80CC_88F5_88F4_8919_8CE0_8F29_914D_966A_4F2F),
  (0x57F5, 0x4F70_5E1B_67CF_6822_767D_767E_9B44_6A0A_F84F_7169),
  (0x5841, 0x756A_F964_7E41_7FFB_8543_85E9_98DC_4F10_7B4F_7F70_95A5_51E1),
  (0x584D, 0x5E06_68B5_6C3E_6C4E_6CDB_72AF_7BC4_8303_6CD5_743A_50FB_5288),
  (0x5859, 0x58C1_64D8_74A7_7656_78A7_8F9F_95E2_9739_F965_535E_5F01_6C74),
  (0x5865, 0x8FAE_8B8A_8FA8_8FAF_F850_908A_99E2_5225_5F46_77A5_9C49_9F08),
  (0x5871, 0x4E19_5002_5175_5C5B_5E77_661E_663A_67C4_70B3_7501_75C5_7ADD),
  (0x587D, 0x79C9_8F27_8FF8_9920_4FDD_5821_5831_5BF6_666E_6B65_6E7A_6D11),
  (0x5889, 0x6F7D_752B_88DC_8913_8B5C_8F14_9D07_9EFC_4F0F_50D5_5310_535C),
  (0x5895, 0x5B93_5FA9_798F_670D_8179_832F_8514_8986_8760_8907_8F3B_99A5),
  (0x58A1, 0x9C12_672C_4E76_4E30_4FF8_5949_5C01_5CF0_5CEF_6367_742B_68D2),
  (0x58AD, 0x70FD_7E2B_8451_84EC_8702_9022_92D2_9CF3_4EC6_4ED8_5085_5256),
  (0x58B9, 0x526F_5426_57E0_592B_5A66_5B75_5BCC_5E9C_F966_6276_6577_65A7),
  (0x58C5, 0x6D6E_6EA5_7236_7C3F_7F36_7B26_7F58_8151_8150_819A_8299_82FB),
  (0x58D1, 0x8709_8A03_8CA0_8CE6_8CFB_8D74_8DBA_90E8_91DC_961C_9644_982B),
  (0x58DD, 0x99D9_9B92_9CE7_5317_5206_5674_F851_58B3_5954_596E_5FFF_61A4),
  (0x58E9, 0x626E_6C7E_711A_76C6_7C89_7CDE_7D1B_82AC_8561_96F0_F967_4F5B),
  (0x58F5, 0xF852_5F17_62C2_9AF4_9EFB_5D29_670B_68DA_787C_7E43),
  (0x5941, 0x9D6C_4E15_5099_5315_532A_5351_5983_59A3_5A62_5E87_60B2_618A),
  (0x594D, 0x6249_6279_6590_F853_69A7_6C98_F968_6CB8_6BD4_6BD8_7435_75FA),
  (0x5959, 0x7765_7812_7891_79D8_7BE6_7DCB_7FE1_80A5_8153_813E_81C2_83F2),
  (0x5965, 0x871A_88E8_8AB9_8B6C_8CBB_8F61_9119_975E_98DB_9AC0_9F3B_5B2A),
  (0x5971, 0x8CD3_5F6C_64EF_658C_6AB3_6BAF_6FF1_7015_725D_860B_8CA7_F854),
  (0x597D, 0x983B_9870_9B22_6191_6C37_8058_9A01_4E4D_4E8B_4E9B_4ED5_4F3C),
  (0x5989, 0x4F3A_820D_4F7F_50FF_53F2_53F8_56DB_5506_55E3_58EB_5962_59D2),
  (0x5995, 0x5A11_5BEB_5BFA_5DF3_5E2B_F855_5F99_601D_6368_8D66_65AF_659C),
  (0x59A1, 0x67FB_68AD_6942_69CE_6C99_6CD7_6E23_7009_90AA_7345_7940_793E),
  (0x59AD, 0x7960_6B7B_7802_79C1_7B25_7BE9_84D1_7D17_7D72_838E_86C7_88DF),
  (0x59B9, 0x8A50_8A5E_8B1D_8CDC_5C04_8FAD_8086_98FC_99DF_524A_F969_69CA),
  (0x59C5, 0x6714_F96A_9460_5098_522A_5C71_6563_6C55_73CA_7523_759D_7B97),
  (0x59D1, 0x849C_9178_6492_6BBA_4E77_85A9_4E09_F96B_6749_68EE_6E17_886B),
  (0x59DD, 0x829F_8518_6B43_63F7_6F81_98AF_9364_970E_4E0A_50B7_50CF_511F),
  (0x59E9, 0x5546_55AA_5617_723D_5B40_5C19_5E8A_5EA0_5EC2_5E38_60F3_76F8),
  (0x59F5, 0x6851_6A61_6BA4_6E58_72C0_7240_7965_7BB1_7FD4_88F3),
  (0x5A41, 0x89F4_8C61_8CDE_8A73_971C_585E_74BD_8CFD_9C13_F96C_7A61_7D22),
  (0x5A4D, 0x8272_7272_751F_7525_F96D_7B19_566C_58FB_5885_5A7F_7280_5DBC),
  (0x5A59, 0x5E8F_5EB6_5F90_6055_6292_654D_6691_66D9_66F8_6816_68F2_745E),
  (0x5A65, 0x7D6E_7DD6_7F72_80E5_8212_85AF_897F_8A93_92E4_901D_9ECD_F856),
  (0x5A71, 0x9F20_5915_596D_F857_5E2D_60DC_6614_6673_6790_6C50_6DC5_6F5F),
  (0x5A7D, 0x77F3_78A9_84C6_91CB_932B_5148_4ED9_50CA_F858_5584_5BA3_5C20),
  (0x5A89, 0x6103_6247_65CB_F859_717D_71F9_79AA_7444_7487_74BF_766C_7DDA),
  (0x5A95, 0x7E55_7FA8_817A_81B3_8239_861A_87EC_8A75_8DE3_9078_9291_F85A),
  (0x5AA1, 0x9BAE_5070_5368_820C_F85B_5C51_6308_6954_6D29_6E2B_859B_8A2D),
  (0x5AAD, 0x8AAA_96EA_6BB2_7E96_87FE_8D0D_66B9_9583_71EE_651D_6D89_F96E),
  (0x5AB9, 0x57CE_59D3_6027_60FA_6210_661F_665F_7329_76DB_7701_7B6C_8056),
  (0x5AC5, 0x8072_8165_8AA0_9192_4E16_52E2_6B72_6D17_7A05_7B39_7D30_F96F),
  (0x5AD1, 0x8CB0_53EC_562F_5851_5C0F_5C11_5BB5_5DE2_6383_6414_6240_662D),
  (0x5ADD, 0x68B3_6CBC_6D88_6EAF_701F_70A4_71D2_7526_758E_758F_7B11_7C2B),
  (0x5AE9, 0x7D20_7D39_8258_852C_856D_8607_8A34_900D_9061_90B5_92B7_9704),
  (0x5AF5, 0x97F6_9A37_4FD7_5C6C_675F_7C9F_7E8C_901F_5B6B_640D),
  (0x5B41, 0x905C_7387_87C0_5B8B_677E_8A1F_8AA6_9001_980C_5237_F970_7051),
  (0x5B4D, 0x7463_788E_9396_8870_91D7_4FEE_53D7_53DF_56DA_55FD_5782_58FD),
  (0x5B59, 0x5AC2_5B88_F85C_5CAB_5E25_620D_6101_624B_6388_641C_6536_6578),
  (0x5B65, 0x666C_6A39_6B8A_71E7_6C34_6D19_6EB2_6F31_72E9_7378_795F_7626),
  (0x5B71, 0x7761_F85D_79C0_7A57_7AEA_7CB9_7D8F_7DAC_7E61_7F9E_8129_8331),
  (0x5B7D, 0x8490_84DA_85EA_8896_8AB0_8F38_9042_9083_916C_9296_92B9_968B),
  (0x5B89, 0x96A8_96D6_9700_9808_9996_9AD3_9B1A_53D4_587E_5919_5B70_5BBF),
  (0x5B95, 0x6DD1_719F_8085_83FD_5FAA_6042_65EC_696F_6B89_6D35_6DF3_73E3),
  (0x5BA1, 0x76FE_77AC_7B4D_7D14_8123_821C_8340_8A62_5DE1_9187_931E_9806),
  (0x5BAD, 0x99B4_9D89_620C_8853_8FF0_5D07_5D27_5D69_745F_819D_8671_8768),
  (0x5BB9, 0x62FE_6FD5_7FD2_8936_8972_4E1E_4E58_50E7_5347_627F_6607_52DD),
  (0x5BC5, 0x7E69_8805_965E_4F8D_5319_557B_5636_59CB_5AA4_F85E_5C38_5C4D),
  (0x5BD1, 0x5E02_5F11_6043_65BD_662F_6642_67BE_67F4_731C_77E2_793A_8996),
  (0x5BDD, 0x7DE6_7FC5_8494_84CD_8A69_8A66_8AE1_8C7A_57F4_5BD4_5F0F_606F),
  (0x5BE9, 0x62ED_690D_6B96_6E5C_7184_8B58_8EFE_98DF_98FE_4F38_4FE1_547B),
  (0x5BF5, 0x5A20_5BB8_613C_65B0_6668_71FC_7533_77E7_795E_7D33),
  (0x5C41, 0x814E_81E3_8398_85AA_8703_8A0A_8EAB_8F9B_F971_8FC5_5931_5BA4),
  (0x5C4D, 0x5BE6_6089_F85F_5BE9_5C0B_5FC3_F972_6C81_6DF1_700B_751A_82AF),
  (0x5C59, 0x4EC0_5341_F973_96D9_6C0F_4E9E_4FC4_5152_5A25_5CE8_6211_7259),
  (0x5C65, 0x82BD_86FE_8859_8A1D_963F_96C5_9913_9D09_9D5D_580A_5CB3_5DBD),
  (0x5C71, 0x6115_60E1_63E1_6A02_6E25_843C_984E_9F77_5B89_5CB8_6309_664F),
  (0x5C7D, 0x6848_773C_96C1_8D0B_978D_9854_9D08_621E_65A1_8B01_8ECB_904F),
  (0x5C89, 0x95BC_5D52_5DD6_5EB5_6697_764C_83F4_8AF3_95C7_9EEF_58D3_62BC),
  (0x5C95, 0x72CE_9D28_4EF0_592E_600F_663B_6B83_79E7_9785_9D26_5393_57C3),
  (0x5CA1, 0x5D16_611B_6B38_6DAF_769A_66D6_788D_7919_827E_54C0_9698_9744),
  (0x5CAD, 0x9749_5384_6396_6DB2_814B_9628_984D_6AFB_7F4C_9DAF_9E1A_4E5F),
  (0x5CB9, 0x503B_51B6_591C_F860_63F6_6930_723A_8036_F974_60F9_91CE_5F31),
  (0x5CC5, 0x7BDB_7C65_7D04_82E5_846F_85E5_8E8D_4F6F_58E4_5B43_6059_63DA),
  (0x5CD1, 0x6518_656D_6698_694A_6A23_6D0B_7001_716C_7A70_75D2_760D_7F8A),
  (0x5CDD, 0x7F98_8944_8B93_91C0_967D_990A_5704_5FA1_6554_65BC_6F01_79A6),
  (0x5CE9, 0x8A9E_99AD_9B5A_9F6C_5104_61B6_6291_6A8D_81C6_5043_5830_5F66),
  (0x5CF5, 0x7109_8A00_8AFA_5B7C_513C_56B4_5944_63A9_6DF9_5DAA),
  (0x5D41, 0x696D_605A_4E88_4F59_5982_6B5F_6C5D_8207_9918_4EA6_57DF_F861),
  (0x5D4D, 0x5F79_6613_75AB_7E79_8B6F_9006_9A5B_56A5_5827_59F8_5A1F_5BB4),
  (0x5D59, 0x5EF6_6350_F991_693D_6CBF_6D93_6D8E_6DF5_6F14_70DF_7136_7159),
  (0x5D65, 0x71C3_71D5_784F_786F_7B75_7DE3_F862_81D9_8815_884D_8B8C_8EDF),
  (0x5D71, 0x925B_9CF6_F99E_6085_6D85_71B1_F9A1_95B1_53AD_5869_67D3_708E),
  (0x5D7D, 0x7130_9E7D_82D2_8276_95BB_995C_9AE5_66C4_71C1_8449_584B_5B30),
  (0x5D89, 0x5F71_6620_668E_6979_69AE_6C38_6CF3_6F41_701B_71DF_745B_F9AE),
  (0x5D95, 0x74D4_76C8_7E93_82F1_8A60_8FCE_502A_5208_53E1_66F3_6FCA_730A),
  (0x5DA1, 0x7768_777F_7FF3_82AE_854B_85DD_8602_88D4_8A63_8B7D_8C6B_92B3),
  (0x5DAD, 0x9713_9810_4E94_4F0D_50B2_5348_5433_55DA_58BA_5967_5A1B_5BE4),
  (0x5DB9, 0x609F_F9B9_65FF_6664_68A7_6C5A_70CF_7352_8708_8AA4_9068_543E),
  (0x5DC5, 0x5C4B_6C83_7344_7389_923A_5ABC_6EAB_7465_761F_7A69_8580_860A),
  (0x5DD1, 0x9C2E_5140_58C5_74EE_7670_64C1_7515_7FC1_9095_96CD_6E26_74E6),
  (0x5DDD, 0x7AA9_86D9_8778_8A1B_81E5_5A49_5B8C_5B9B_6D63_73A9_742C_7897),
  (0x5DE9, 0x7DE9_7FEB_8155_839E_8C4C_962E_9811_66F0_5F80_65FA_6789_6C6A),
  (0x5DF5, 0x738B_502D_6B6A_77EE_5916_5DCD_7325_754F_50E5_51F9),
  (0x5E41, 0x582F_592D_5996_59DA_5DA2_62D7_6416_64FE_66DC_8170_F9BF_6A48),
  (0x5E4D, 0x7464_7A88_7AAF_7E47_7E5E_8000_8558_87EF_8981_8B20_9059_9080),
  (0x5E59, 0x9952_8FB1_617E_6B32_6D74_8925_50AD_52C7_5BB9_5EB8_5197_6995),
  (0x5E65, 0x6E67_6EB6_7194_7462_7528_8073_8202_8338_84C9_86F9_8E0A_9394),
  (0x5E71, 0x93DE_4F51_5076_512A_53C8_53CB_53F3_5401_5B87_5BD3_5C24_4E8E),
  (0x5E7D, 0x611A_6182_725B_76C2_7950_7991_79B9_7FBD_828B_865E_8FC2_9047),
  (0x5E89, 0x90F5_9685_96E8_96E9_65ED_6631_715C_7A36_90C1_980A_4E91_F9C5),
  (0x5E95, 0x6B9E_8018_82B8_904B_9695_96F2_97FB_71A8_851A_9B31_718A_96C4),
  (0x5EA1, 0x5143_539F_54E1_5712_5713_7230_57A3_5A9B_5BC3_6028_613F_63F4),
  (0x5EAD, 0x6E90_733F_7457_82D1_873F_8881_8F45_9060_9662_9858_9D1B_6708),
  (0x5EB9, 0x8D8A_925E_4F4D_5049_50DE_5371_570D_59D4_5C09_5E43_6170_5A01),
  (0x5EC5, 0x6E2D_7232_744B_7DEF_80C3_840E_8466_875F_885B_885E_8B02_9055),
  (0x5ED1, 0x97CB_9B4F_4E73_6538_4F91_5112_516A_5E7C_552F_55A9_56FF_5B7A),
  (0x5EDD, 0x5BA5_5E37_5E7D_5EBE_60A0_60DF_6109_6108_63C4_6709_67D4_67DA),
  (0x5EE9, 0x6961_6CB9_6E38_6FE1_7336_745C_7531_7652_7DAD_81FE_8438_8564),
  (0x5EF5, 0x88D5_8A98_8ADB_8AED_8E42_8E30_904A_903E_907A_9149),
  (0x5F41, 0x91C9_936E_9EDD_6BD3_8089_80B2_9B3B_5141_596B_5C39_6F64_73A7),
  (0x5F4D, 0x80E4_958F_807F_620E_7D68_878D_57A0_6069_6147_6ABC_6BB7_73E2),
  (0x5F59, 0x9280_8ABE_96B1_9F66_4E59_541F_6DEB_852D_9670_98EE_97F3_6339),
  (0x5F65, 0x63D6_6CE3_9091_51DD_61C9_81BA_9DF9_4F9D_501A_5100_7591_77E3),
  (0x5F71, 0x5B9C_610F_61FF_64EC_6BC5_7FA9_8264_87FB_8863_8ABC_8B70_91AB),
  (0x5F7D, 0x4E8C_4EE5_4F0A_5937_59E8_5DF2_8CB3_5F1B_5F5B_6021_F9E0_682E),
  (0x5F89, 0x723E_73E5_7570_75CD_79FB_800C_8033_8351_98F4_990C_9823_7037),
  (0x5F95, 0x7FFC_76CA_7FCA_7FCC_4EBA_4EC1_4EDE_5203_5370_54BD_56E0_59FB),
  (0x5FA1, 0x5BC5_5F15_5FCD_6E6E_8A8D_976D_9777_4E00_4F7E_58F9_65E5_6EA2),
  (0x5FAD, 0x9038_93B0_99B9_4EFB_58EC_598A_59D9_7A14_834F_8CC3_5165_4ECD),
  (0x5FB9, 0x5B55_5269_4ED4_523A_54A8_59C9_59FF_5B50_5B5C_5B57_6063_6148),
  (0x5FC5, 0x6ECB_7099_716E_7386_74F7_75B5_7725_78C1_7CA2_7D2B_8005_8014),
  (0x5FD1, 0x81EA_8517_85C9_89DC_8AEE_8CC7_8D6D_96CC_4F5C_52FA_56BC_65AB),
  (0x5FDD, 0x6628_67DE_707C_70B8_7235_7DBD_828D_914C_96C0_9D72_68E7_6B98),
  (0x5FE9, 0x6F7A_76DE_5C91_66AB_6F5B_6F5C_7BB4_7C2A_8695_8836_96DC_4E08),
  (0x5FF5, 0x4ED7_5320_5834_58BB_596C_5D82_5E33_5E84_5F35_638C),
  (0x6041, 0x66B2_6756_6A1F_6AA3_6B0C_6F3F_58EF_5C07_7246_F9FA_7350_748B),
  (0x604D, 0x7634_7AE0_7CA7_8178_81DF_838A_846C_8523_8594_85CF_88C5_88DD),
  (0x6059, 0x8D13_91AC_9577_969C_518D_54C9_5728_5BB0_624D_6750_683D_6893),
  (0x6065, 0x6ED3_707D_7E94_88C1_8CA1_8F09_9F4B_9F4E_722D_7B8F_8ACD_931A),
  (0x6071, 0x4F4E_4F47_5132_5480_59D0_5E95_62B5_6775_67E2_696E_6A17_6CAE),
  (0x607D, 0x6E1A_72D9_732A_75BD_7BB8_82E7_8457_85F7_86C6_8A5B_8C6C_8CAF),
  (0x6089, 0x8E87_9019_90B8_52E3_5AE1_5BC2_6458_6575_6EF4_72C4_7684_7A4D),
  (0x6095, 0x7B1B_7C4D_7CF4_7E3E_837B_8B2B_8CCA_8D64_8DE1_8E5F_8FEA_8FF9),
  (0x60A1, 0x9069_50B3_5168_5178_524D_526A_56C0_5861_5960_5C08_5C55_5DD3),
  (0x60AD, 0x5EDB_609B_6230_6813_6BBF_6C08_6FB1_714E_7530_7538_7672_78DA),
  (0x60B9, 0x7B8B_7BAD_7BC6_7E8F_7FE6_8A6E_8F3E_8F49_923F_9293_9322_96FB),
  (0x60C5, 0x985A_986B_991E_5207_622A_6298_6D59_7A83_7ACA_7BC0_7D76_5360),
  (0x60D1, 0x5CBE_5E97_6F38_70B9_9EDE_7C98_9711_63A5_647A_6904_8776_4E01),
  (0x60DD, 0x4E95_4EAD_505C_5075_5448_59C3_5E40_5EF7_5F81_5B9A_5EAD_60C5),
  (0x60E9, 0x633A_653F_6574_65CC_6676_6678_6883_6968_6B63_6C40_6DE8_6E1F),
  (0x60F5, 0x753A_775B_7887_798E_7A0B_7A7D_9756_7CBE_8247_8A02),
  (0x6141, 0x8AEA_8C9E_912D_914A_91D8_9266_9320_9706_975C_9802_9F0E_5236),
  (0x614D, 0x5291_557C_5824_5E1D_5F1F_608C_63D0_6662_68AF_6FDF_7445_81CD),
  (0x6159, 0x796D_7B2C_85BA_88FD_8AF8_8E36_8E44_918D_9664_969B_973D_984C),
  (0x6165, 0x9F4A_4FCE_51CB_5146_52A9_F863_5632_566A_5F14_5F6B_63AA_64CD),
  (0x6171, 0x65E9_6641_66FA_66F9_671D_689D_68D7_69FD_6F15_6F6E_7167_71E5),
  (0x617D, 0x722A_7681_773A_7956_795A_79DF_7A20_7A95_7AC8_7B0A_7C97_7CDF),
  (0x6189, 0x7CF6_7D44_7D5B_7E70_8087_85FB_86A4_8A54_8ABF_8D99_8E81_9020),
  (0x6195, 0x906D_91E3_963B_9BDB_9CE5_65CF_7C07_8DB3_93C3_5B58_5C0A_5352),
  (0x61A1, 0x62D9_731D_5027_5B97_5F9E_616B_68D5_6A05_6DD9_742E_7A2E_7D42),
  (0x61AD, 0x7D9C_7E31_816B_8E35_8E64_937E_9418_4F50_5750_5DE6_5EA7_632B),
  (0x61B9, 0x7F6A_4E3B_4F4F_4F8F_505A_5EDA_546A_5468_55FE_594F_5B99_5DDE),
  (0x61C5, 0x665D_6731_67F1_682A_70B7_6CE8_6D32_9152_73E0_7587_851F_7C4C),
  (0x61D1, 0x7D02_7D2C_7DA2_8098_80C4_821F_86DB_8A3B_8A85_8D70_8E8A_8F33),
  (0x61DD, 0x914E_9031_9444_99D0_7AF9_7CA5_4FCA_5101_51C6_57C8_5CFB_6659),
  (0x61E9, 0x6A3D_6D5A_6E96_6FEC_756F_7AE3_8822_9021_9075_96BC_99FF_8301),
  (0x61F5, 0x4E2D_4EF2_8846_91CD_F864_537D_6ADB_696B_6C41_847A),
  (0x6241, 0x589E_618E_62EF_70DD_66FE_7511_75C7_84B8_8A3C_8B49_8D08_4E4B),
  (0x624D, 0x53EA_54AB_5730_5740_5FD7_6301_6307_646F_652F_65E8_667A_679D),
  (0x6259, 0x67B3_6B62_6C60_6F2C_75E3_77E5_7825_7957_7949_7D19_80A2_8102),
  (0x6265, 0x81F3_829D_8718_8A8C_F9FC_8D04_8DBE_9072_76F4_7A19_7A37_7E54),
  (0x6271, 0x8077_8FB0_55D4_5875_632F_6649_699B_6D25_6EB1_73CD_7468_74A1),
  (0x627D, 0x75B9_76E1_771E_778B_79E6_7E09_8A3A_8CD1_8EEB_9032_93AD_9663),
  (0x6289, 0x9673_9707_53F1_7A92_59EA_5AC9_5E19_684E_75BE_79E9_81A3_86ED),
  (0x6295, 0x8CEA_8DCC_8FED_659F_6715_57F7_96C6_7DDD_8F2F_5FB5_61F2_6F84),
  (0x62A1, 0x4E14_501F_7B9A_53C9_55DF_5DEE_5D6F_6B21_6B64_78CB_F9FE_8E49),
  (0x62AD, 0x906E_8ECA_6349_643E_7740_7A84_932F_947F_9F6A_64B0_6FAF_71E6),
  (0x62B9, 0x74A8_74DA_7AC4_7E82_7CB2_7E98_8B9A_8D0A_947D_F865_9910_994C),
  (0x62C5, 0x5239_5BDF_64E6_672D_50ED_53C3_5879_6158_6159_615A_61FA_65AC),
  (0x62D1, 0x7AD9_8B92_5021_5009_5231_5275_5531_5A3C_5EE0_5F70_60B5_655E),
  (0x62DD, 0x660C_6636_66A2_69CD_6C05_6EC4_6F32_7621_7A93_8139_8259_83D6),
  (0x62E9, 0x84BC_50B5_57F0_5F69_63A1_7826_7DB5_83DC_8521_91C7_91F5_518A),
  (0x62F5, 0x67F5_7B56_7C00_8CAC_51C4_59BB_60BD_8655_F9FF_5254),
  (0x6341, 0x5C3A_617D_621A_62D3_64F2_65A5_6ECC_7620_810A_8734_8E91_965F),
  (0x634D, 0x96BB_4EDF_5343_5598_5929_5DDD_64C5_6CC9_6DFA_6FFA_7A7F_821B),
  (0x6359, 0x85A6_8CE4_8E10_9077_91E7_95E1_9621_97C6_51F8_5FB9_54F2_5586),
  (0x6365, 0x64A4_6F88_7DB4_8F4D_9435_50C9_5C16_6CBE_6DFB_751B_77BB_7C37),
  (0x6371, 0x7C64_8AC2_59BE_5E16_6377_7252_758A_776B_8ADC_8CBC_8F12_5EF3),
  (0x637D, 0x6674_6DF8_807D_83C1_873B_8ACB_9751_9BD6_FA00_5243_66FF_6D95),
  (0x6389, 0x6EEF_780C_7DE0_8AE6_902E_905E_9746_9AD4_521D_54E8_5CED_6194),
  (0x6395, 0x6284_62DB_68A2_6912_695A_6A35_7092_7126_785D_7901_790E_79D2),
  (0x63A1, 0x7A0D_7D83_8096_8349_8549_8C82_8D85_9162_918B_91AE_9214_9798),
  (0x63AD, 0x4FC3_56D1_F866_71ED_77D7_8700_89F8_8E85_9AD1_5BF8_5FD6_6751),
  (0x63B9, 0x53E2_585A_5BF5_6031_6460_7E3D_8070_8471_9283_64AE_50AC_5D14),
  (0x63C5, 0x6467_6700_589C_62BD_63A8_690E_6978_F867_6A1E_6E6B_7503_76BA),
  (0x63D1, 0x79CB_7B92_82BB_8429_8DA8_8FFD_9112_914B_919C_9318_9310_96DB),
  (0x63DD, 0x97A6_9C0D_9E81_9EA4_4E11_F868_795D_755C_7AFA_7B51_7BC9_7E2E),
  (0x63E9, 0x8233_84C4_8E74_8EF8_9010_6625_693F_51FA_9EDC_5145_51B2_5FE0),
  (0x63F5, 0x6C96_87F2_885D_8877_60B4_81B5_8403_53D6_5439_5634),
  (0x6441, 0x5A36_5C31_6A47_708A_7FE0_805A_8106_81ED_F869_8DA3_9189_9A5F),
  (0x644D, 0x9DF2_4EC4_5074_60FB_6E2C_5C64_4F88_5024_55E4_5CD9_5DF5_5E5F),
  (0x6459, 0x5FB4_6894_6CBB_6DC4_71BE_75D4_75F4_7661_96C9_7A1A_7DC7_7DFB),
  (0x6465, 0x7F6E_6065_81F4_8F1C_99B3_9D44_9F52_5247_52C5_98ED_89AA_4E03),
  (0x6471, 0x67D2_6F06_4FB5_5BE2_5FF1_6795_6C88_6D78_7827_91DD_937C_87C4),
  (0x647D, 0x79E4_7A31_5FEB_4ED6_553E_58AE_59A5_60F0_6253_6736_6955_8235),
  (0x6489, 0x9640_99DD_502C_5353_5544_FA01_6258_62C6_FA02_64E2_67DD_6A50),
  (0x6495, 0x6FC1_6FEF_7422_8A17_9438_5451_5606_5766_5F48_619A_6B4E_7058),
  (0x64A1, 0x70AD_7DBB_8A95_596A_812B_63A2_803D_8CAA_5854_642D_69BB_5B95),
  (0x64AD, 0x5E11_6E6F_8569_514C_53F0_592A_6020_614B_6B86_6C70_6CF0_7B1E),
  (0x64B9, 0x80CE_82D4_8DC6_90B0_98B1_99C4_FA04_64C7_6FA4_F86A_6491_6504),
  (0x64C5, 0x514E_5410_571F_8A0E_615F_6876_FA05_75DB_7B52_7D71_901A_5806),
  (0x64D1, 0x817F_892A_9000_9839_5078_5957_59AC_6295_900F_9B2A_615D_7279),
  (0x64DD, 0x5A46_5761_5DF4_628A_64AD_6777_6CE2_6D3E_722C_7436_7834_7F77),
  (0x64E9, 0x82AD_8DDB_9817_5742_5224_677F_7248_8CA9_8FA6_74E3_962A_516B),
  (0x64F5, 0x53ED_634C_4F69_5504_6096_6C9B_6D7F_724C_72FD_7A17),
  (0x6541, 0x8C9D_6557_8987_5F6D_6F8E_70F9_81A8_610E_4FBF_504F_6241_7247),
  (0x654D, 0x7BC7_7DE8_7FE9_8759_904D_97AD_8CB6_576A_5E73_840D_8A55_5420),
  (0x6559, 0x5B16_5E63_5EE2_5F0A_6583_80BA_853D_9589_965B_4F48_5305_530D),
  (0x6565, 0x530F_5486_54FA_5703_5E96_5E03_6016_62B1_629B_6355_6CE1_6D66),
  (0x6571, 0x70AE_75B1_7832_80DE_812F_8216_8461_84B2_888D_8912_924B_92EA),
  (0x657D, 0x9784_98FD_9B91_5E45_66B4_7011_7206_4FF5_527D_5F6A_6153_6753),
  (0x6589, 0x6A19_6F02_74E2_7968_8868_8C79_98C4_F86B_54C1_7A1F_99AE_6953),
  (0x6595, 0x8AF7_8C4A_98A8_5F7C_62AB_75B2_76AE_84D6_88AB_907F_5339_5F3C),
  (0x65A1, 0x5FC5_6CCC_7562_758B_7B46_8E55_4E4F_903C_4E0B_4F55_590F_5EC8),
  (0x65AD, 0x6630_6CB3_7455_8766_8377_8CC0_9050_971E_9C15_58D1_5B78_7627),
  (0x65B9, 0x8650_8B14_9DB4_5BD2_6068_608D_65F1_6C57_6F22_6FA3_7F55_7FF0),
  (0x65C5, 0xF86C_9592_9591_9650_97D3_9DF3_5272_8F44_51FD_542B_54B8_5563),
  (0x65D1, 0x558A_6ABB_6DB5_7DD8_8266_9677_5408_54C8_76D2_86E4_95A4_965C),
  (0x65DD, 0x4EA2_4F09_59EE_5DF7_6052_6297_676D_6841_6C86_6E2F_7095_7F38),
  (0x65E9, 0x809B_822A_FA09_9805_4EA5_5055_54B3_595A_5793_5B69_5BB3_5EE8),
  (0x65F5, 0x61C8_6977_6D77_87F9_89E3_8A72_8AE7_9082_99ED_9AB8),
  (0x6641, 0x52BE_6838_5016_5E78_674F_884C_4EAB_5411_56AE_9115_73E6_97FF),
  (0x664D, 0x9909_9957_9999_5653_589F_865B_8A31_61B2_8ED2_737B_6B47_96AA),
  (0x6659, 0x9A57_5955_7200_8D6B_9769_5CF4_5F26_61F8_70AB_73FE_7384_7729),
  (0x6665, 0x7D43_7D62_7E23_8237_8852_FA0A_8CE2_9249_986F_5B51_7A74_8840),
  (0x6671, 0x9801_5ACC_F86D_4FE0_5354_593E_5CFD_633E_6D79_72F9_7BCB_8107),
  (0x667D, 0x8105_83A2_F86E_92CF_9830_4EA8_5211_578B_5F62_5144_7005_70AF),
  (0x6689, 0x73E9_834A_87A2_8861_90A2_93A3_99A8_516E_5F57_60E0_6167_8559),
  (0x6695, 0x91AF_978B_4E4E_4E92_8C6A_547C_58FA_58D5_597D_5F27_660A_6236),
  (0x66A1, 0x6BEB_6D69_6DCF_6E56_6EF8_6F94_6FE9_6FE0_705D_72D0_745A_74E0),
  (0x66AD, 0x7693_769E_795C_7CCA_7E1E_80E1_846B_864E_865F_8774_8B77_6248),
  (0x66B9, 0x9190_93AC_9800_9865_60D1_6216_9177_5A5A_660F_6DF7_6E3E_743F),
  (0x66C5, 0x9B42_5FFD_60DA_7B0F_9DBB_5F18_54C4_6C5E_6CD3_6D2A_9D3B_7D05),
  (0x66D1, 0x8679_8A0C_5316_5B05_6A3A_706B_798D_7575_79BE_548C_82B1_83EF),
  (0x66DD, 0x8A71_9774_8CA8_FA0B_64F4_652B_78BA_78BB_7A6B_944A_4E38_559A),
  (0x66E9, 0x571C_5BA6_5E7B_60A3_61FD_63DB_6853_6B61_6E19_7165_74B0_7D08),
  (0x66F5, 0x9084_9A69_9C25_9B1F_6D3B_6ED1_733E_8C41_95CA_51F0),
  (0x6741, 0x5A93_5FA8_6033_604D_614C_60F6_6643_6CC1_6EC9_714C_7687_7BC1),
  (0x674D, 0x8352_8757_9051_968D_9EC3_56DE_5EFB_5F8A_6062_6094_61F7_6666),
  (0x6759, 0x6703_6A9C_6DEE_6FAE_7070_736A_7E6A_81BE_86D4_8AA8_8CC4_5283),
  (0x6765, 0x7372_6A6B_54EE_5686_56C2_5B5D_6548_66C9_689F_723B_80B4_9175),
  (0x6771, 0x4FAF_5019_539A_540E_543C_5589_55C5_5F8C_673D_7334_9005_7BCC),
  (0x677D, 0x52F3_5864_58CE_6688_7104_718F_71FB_85B0_8A13_85A8_55A7_8431),
  (0x6789, 0x5349_5599_6BC1_5F59_5FBD_63EE_6689_7147_8AF1_8F1D_9EBE_4F11),
  (0x6795, 0x643A_70CB_7566_8667_6064_8B4E_9DF8_51F6_5308_5147_6D36_80F8),
  (0x67A1, 0x9ED1_5FFB_6615_6B23_75D5_5403_5C79_7D07_8FC4_6B20_6B46_6B3D),
  (0x67AD, 0x5438_6070_6D3D_8208_50D6_559C_566B_59EC_5B09_5E0C_66E6_6199),
  (0x67B9, 0x6231_72A7_7199_51DE_71B9_79A7_7A00_7FB2_8A70_9821),
  (0x6841, 0x67B7_73C2_75C2_6164_4F83_67EC_687F_78F5_874E_6221_77B0_90AF),
  (0x684D, 0x9452_5808_757A_7D73_7F8C_8221_9C47_584F_F900_93A7_5580_5028),
  (0x6859, 0x795B_8E1E_9245_6957_8171_6840_5292_9210_8FF2_8188_6289_9257),
  (0x6865, 0x4FD3_501E_5106_5770_61AC_70F1_74A5_583A_68E8_5C3B_66A0_69C1),
  (0x6871, 0x7F94_82FD_83F0_7428_9BE4_73D9_86A3_978F_4E32_8DE8_934B_742F),
  (0x687D, 0x4F8A_709A_5775_8009_92B6_97AB_88D9_828E_6372_6DC3_7357_8568),
  (0x6889, 0xF906_6677_69FB_7AC5_52FB_7547_52A4_5997_6611_82A9_4F0B_57FC),
  (0x6895, 0x7398_7482_7941_7F88_9324_F90B_F90C_5A1C_F90D_F90E_F90F_F910),
  (0x68A1, 0xF911_F912_F913_F914_F915_F916_F917_F918_F919_F91A_F91B_F91C),
  (0x68AD, 0xF91D_F91E_F91F_F920_F921_678F_6960_6E73_F922_F923_F924_F925),
  (0x68B9, 0xF926_F927_8872_F928_F929_F92A_F92B_F92C_F92D_F92E_649A_5BD7),
  (0x68C5, 0xF92F_F930_F931_F932_F933_F934_F935_F936_F937_F938_99D1_F939),
  (0x68D1, 0xF93A_F93B_F93C_F93D_F93E_F93F_F940_F941_F942_F943_F944_F945),
  (0x68DD, 0xF946_F947_F948_F949_F94A_F94B_F94C_F94D_F94E_F94F_F950_F951),
  (0x68E9, 0x677B_F952_F953_F954_F955_F956_F957_F958_F959_4EB6_5F56_6FBE),
  (0x68F5, 0x574D_61BA_6E5B_8541_931F_7553_6207_87B3_576E_5D8B),
  (0x6941, 0x6389_6AC2_89A9_65FD_711E_9017_829A_5D9D_F95B_F95D_F95E_5D0D),
  (0x694D, 0x5FA0_5137_7489_F95F_5CBA_7B2D_8046_6FA7_F960_64C4_6F5E_797F),
  (0x6959, 0x83C9_7028_8CDA_9B27_5A41_763B_851E_93E4_65D2_700F_4F96_51DC),
  (0x6965, 0x550E_6D6C_F962_7FB8_8389_88E1_6F7E_78BC_9088_4E07_534D_551C),
  (0x6971, 0x8309_8F1E_6C94_6927_7791_84C2_6479_7441_82BC_9DA9_7AD7_61AE),
  (0x697D, 0x6959_73F7_5011_96EF_6C95_68B6_6963_6E44_9EF4_5CB7_7DE1_7622),
  (0x6989, 0x76FC_78D0_6E24_678B_6EC2_78C5_7119_5E61_71D4_6A97_8617_68C5),
  (0x6995, 0x9A08_73E4_83E9_8F39_71A2_4E0D_4FEF_5490_5B5A_8240_83A9_5429),
  (0x69A1, 0x6610_8CC1_5F7F_6787_6BD6_6BD7_79D5_7C83_56AC_6D5C_73AD_4FDF),
  (0x69AD, 0x67F6_9E9D_9730_715E_9212_5CE0_55C7_637F_7B6E_5B0B_657E_6E32),
  (0x69B9, 0x7401_9425_994D_6CC4_893B_9F67_5261_965D_5BAC_73F9_7619_7BE0),
  (0x69C5, 0x6D91_8B16_8D16_5DFD_84C0_98E1_609A_6DDE_5CC0_7407_74B2_8B90),
  (0x69D1, 0x96A7_6F5A_7421_74B9_5F87_6812_6A53_84F4_8563_8AC4_9265_5C4E),
  (0x69DD, 0x8C55_7BD2_8755_4F81_85CE_8AF6_555E_83AA_5E44_9102_9354_9C10),
  (0x69E9, 0x9B9F_5535_5CA9_627C_7E0A_F975_F976_84BB_F977_F978_F979_F97A),
  (0x69F5, 0x79B3_F97B_F97C_F97D_F97E_7600_8616_4FFA_5186_F97F),
  (0x6A41, 0xF980_F981_F982_F983_F984_74B5_7916_F985_8245_8339_8F3F_8F5D),
  (0x6A4D, 0xF986_F987_F988_F989_F98A_F98B_F98C_F98D_F98E_F98F_F990_633B),
  (0x6A59, 0x6C87_F992_F993_F994_F995_F996_7E2F_F997_F998_F999_F99A_F99B),
  (0x6A65, 0xF99C_F99D_F99F_F9A0_F9A2_F9A3_F9A4_F9A5_7430_F9A6_F9A7_F9A8),
  (0x6A71, 0xF9A9_F9AA_F9AB_5DB8_F9AC_6E36_6FDA_702F_7150_7370_F9AD_7A4E),
  (0x6A7D, 0xF9AF_F9B0_F9B1_9348_F9B2_9719_F9B3_F9B4_4E42_F9B5_6C6D_7A62),
  (0x6A89, 0xF9B6_F9B7_F9B8_4FC9_5862_61CA_6556_6FB3_71AC_7B7D_9C32_9F07),
  (0x6A95, 0x7E15_9954_7AAA_68A1_6900_7413_8118_5A03_5D6C_F9BA_F9BB_5BE5),
  (0x6AA1, 0xF9BC_F9BD_6493_F9BE_F9C0_71FF_F9C1_F9C2_F9C3_7E1F_4FD1_57C7),
  (0x6AAD, 0x5889_6142_6D8C_752C_F9C4_65F4_7397_7440_7D06_85D5_91EA_52D6),
  (0x6AB9, 0x5F67_682F_6A52_6F90_7189_8553_4E90_5AC4_6C85_6D39_6E72_F9C6),
  (0x6AC5, 0x6690_853F_8918_F9C7_F9C8_F9C9_6962_6D27_F9CA_F9CB_7337_F9CC),
  (0x6AD1, 0xF9CD_F9CE_F9CF_F9D0_F9D1_5809_F9D2_F9D3_F9D4_F9D5_F9D6_8D07),
  (0x6ADD, 0xF9D7_9217_F9D8_F9D9_F9DA_F9DB_701C_F9DC_6905_858F_F9DD_F9DE),
  (0x6AE9, 0xF9DF_F9E1_F9E2_F9E3_F9E4_F9E5_F9E6_8084_82E1_F9E7_F9E8_8CBD),
  (0x6AF5, 0x9087_F9E9_F9EA_F9EB_F9EC_8B1A_F9ED_F9EE_F9EF_7D6A),
  (0x6B41, 0x8335_F9F0_8693_F9F1_F9F2_F9F3_4F5A_6041_F9F4_F9F5_F9F6_5344),
  (0x6B4D, 0xF9F7_F9F8_F9F9_82BF_8328_5B71_81E7_6E3D_7E21_7D35_83F9_96CE),
  (0x6B59, 0x9F5F_540A_F9FB_7FDF_93D1_4F43_4F7A_587C_7420_7551_7B4C_942B),
  (0x6B65, 0x7664_9B8E_67FE_6A89_6DC0_6E5E_701E_70A1_738E_73FD_7D8E_92CC),
  (0x6B71, 0x74AA_96D5_60B0_8E2A_59DD_6E4A_6F8D_5BEF_710C_96CB_7E52_6C9A),
  (0x6B7D, 0x82B7_5507_6422_664B_686D_6B84_755B_7E1D_81FB_852F_8897_4F84),
  (0x6B89, 0x74C6_F9FD_6F57_93F6_4F98_7C12_7D2E_8B96_6134_7316_5BC0_5BE8),
  (0x6B95, 0x501C_8E60_7394_8F1F_7C3D_8A79_581E_527F_8278_82D5_90A8_60A4),
  (0x6BA1, 0x6181_8525_8ACF_939A_9A36_8E59_7443_672E_8D05_53A0_7A49_86A9),
  (0x6BAD, 0x741B_54A4_62D6_99B1_577C_666B_7438_7708_FA03_69CC_95D6_64FA),
  (0x6BB9, 0x9211_9A19_67B0_FA06_82DE_900B_66DD_FA07_98C7_9A43_9642_73CC),
  (0x6BC5, 0x82FE_999D_53A6_701A_929C_9E79_95D4_5AE6_FA08_7023_8347_6AF6),
  (0x6BD1, 0x4FD4_774D_6CEB_73B9_665B_6CC2_6ECE_7050_7192_7469_9008_66B3),
  (0x6BDD, 0x8E4A_5CB5_6667_7425_82A6_84BF_70D8_8B41_5950_6665_5E4C_6130),
  (0x6BE9, 0x6644_69A5_6E5F_6F62_749C_7C27_532F_8334_5B96_9404_6585_6D8D),
  (0x6BF5, 0x6DC6_9A4D_5E3F_7166_73DD_52DB_6684_714A_7098_8A16),
  (0x6C41, 0x7FD5_56CD_6198_665E_71BA),
  (0x8441, 0x3164),
  (0x8444, 0x3133),
  (0x8446, 0x3135_3136),
  (0x844A, 0x313A_313B_313C_313D_313E_313F_3140),
  (0x8454, 0x3144),
  (0x8461, 0x314F),
  (0x8481, 0x3150),
  (0x84A1, 0x3151),
  (0x84C1, 0x3152),
  (0x84E1, 0x3153),
  (0x8541, 0x3154),
  (0x8561, 0x3155),
  (0x8581, 0x3156),
  (0x85A1, 0x3157),
  (0x85C1, 0x3158),
  (0x85E1, 0x3159),
  (0x8641, 0x315A),
  (0x8661, 0x315B),
  (0x8681, 0x315C),
  (0x86A1, 0x315D),
  (0x86C1, 0x315E),
  (0x86E1, 0x315F),
  (0x8741, 0x3160),
  (0x8761, 0x3161),
  (0x8781, 0x3162),
  (0x87A1, 0x3163),
  (0x8841, 0x3131),
  (0x8861, 0xAC00_AC01_AC02),
  (0x8865, 0xAC04),
  (0x8868, 0xAC07_AC08_AC09_AC0A_AC0B),
  (0x8871, 0xAC10),
  (0x8873, 0xAC11_AC12_AC13_AC14_AC15_AC16_AC17),
  (0x887B, 0xAC19_AC1A_AC1B),
  (0x8881, 0xAC1C_AC1D),
  (0x8885, 0xAC20),
  (0x8889, 0xAC24),
  (0x8891, 0xAC2C),
  (0x8893, 0xAC2D),
  (0x8895, 0xAC2F_AC30_AC31),
  (0x88A1, 0xAC38_AC39),
  (0x88A5, 0xAC3C),
  (0x88A9, 0xAC40),
  (0x88B5, 0xAC4B),
  (0x88B7, 0xAC4D),
  (0x88C1, 0xAC54),
  (0x88C5, 0xAC58),
  (0x88C9, 0xAC5C),
  (0x88E1, 0xAC70_AC71),
  (0x88E5, 0xAC74),
  (0x88E8, 0xAC77_AC78_AC79_AC7A),
  (0x88F1, 0xAC80),
  (0x88F3, 0xAC81),
  (0x88F5, 0xAC83_AC84_AC85_AC86_AC87),
  (0x88FB, 0xAC89_AC8A_AC8B),
  (0x8941, 0xAC8C),
  (0x8945, 0xAC90),
  (0x8948, 0xAC93_AC94),
  (0x8951, 0xAC9C),
  (0x8953, 0xAC9D),
  (0x8955, 0xAC9F_ACA0_ACA1),
  (0x8961, 0xACA8_ACA9_ACAA),
  (0x8965, 0xACAC),
  (0x8968, 0xACAF_ACB0),
  (0x8971, 0xACB8),
  (0x8973, 0xACB9),
  (0x8975, 0xACBB_ACBC_ACBD),
  (0x897B, 0xACC1),
  (0x8981, 0xACC4),
  (0x8985, 0xACC8),
  (0x8989, 0xACCC),
  (0x8993, 0xACD5),
  (0x8995, 0xACD7),
  (0x89A1, 0xACE0_ACE1),
  (0x89A5, 0xACE4),
  (0x89A8, 0xACE7_ACE8_ACE9_ACEA),
  (0x89AD, 0xACEC),
  (0x89B0, 0xACEF_ACF0),
  (0x89B3, 0xACF1),
  (0x89B5, 0xACF3),
  (0x89B7, 0xACF5_ACF6),
  (0x89BC, 0xACFA),
  (0x89C1, 0xACFC_ACFD),
  (0x89C5, 0xAD00),
  (0x89C9, 0xAD04),
  (0x89CB, 0xAD06),
  (0x89D1, 0xAD0C),
  (0x89D3, 0xAD0D),
  (0x89D5, 0xAD0F),
  (0x89D7, 0xAD11),
  (0x89E1, 0xAD18_AD19),
  (0x89E5, 0xAD1C),
  (0x89E9, 0xAD20),
  (0x89F1, 0xAD28),
  (0x89F3, 0xAD29),
  (0x89F5, 0xAD2B_AD2C_AD2D),
  (0x8A41, 0xAD34_AD35),
  (0x8A45, 0xAD38),
  (0x8A49, 0xAD3C),
  (0x8A51, 0xAD44),
  (0x8A53, 0xAD45),
  (0x8A55, 0xAD47),
  (0x8A57, 0xAD49),
  (0x8A61, 0xAD50),
  (0x8A65, 0xAD54),
  (0x8A69, 0xAD58),
  (0x8A73, 0xAD61),
  (0x8A75, 0xAD63),
  (0x8A81, 0xAD6C_AD6D),
  (0x8A85, 0xAD70),
  (0x8A88, 0xAD73_AD74_AD75_AD76),
  (0x8A90, 0xAD7B_AD7C),
  (0x8A93, 0xAD7D),
  (0x8A95, 0xAD7F),
  (0x8A97, 0xAD81_AD82),
  (0x8AA1, 0xAD88_AD89),
  (0x8AA5, 0xAD8C),
  (0x8AA9, 0xAD90),
  (0x8AB5, 0xAD9B_AD9C_AD9D),
  (0x8AC1, 0xADA4),
  (0x8AD5, 0xADB7),
  (0x8AE1, 0xADC0_ADC1),
  (0x8AE5, 0xADC4),
  (0x8AE9, 0xADC8),
  (0x8AF1, 0xADD0),
  (0x8AF3, 0xADD1),
  (0x8AF5, 0xADD3),
  (0x8AF7, 0xADD5),
  (0x8B41, 0xADDC),
  (0x8B45, 0xADE0),
  (0x8B49, 0xADE4),
  (0x8B51, 0xADEC),
  (0x8B61, 0xADF8_ADF9),
  (0x8B65, 0xADFC),
  (0x8B68, 0xADFF_AE00_AE01_AE02),
  (0x8B71, 0xAE08),
  (0x8B73, 0xAE09),
  (0x8B75, 0xAE0B),
  (0x8B77, 0xAE0D),
  (0x8B79, 0xAE0F),
  (0x8B7B, 0xAE11),
  (0x8B81, 0xAE14),
  (0x8B95, 0xAE27),
  (0x8BA1, 0xAE30_AE31),
  (0x8BA5, 0xAE34),
  (0x8BA8, 0xAE37_AE38),
  (0x8BAB, 0xAE3A),
  (0x8BAD, 0xAE3C),
  (0x8BB1, 0xAE40),
  (0x8BB3, 0xAE41),
  (0x8BB5, 0xAE43_AE44_AE45_AE46),
  (0x8BBB, 0xAE49_AE4A),
  (0x8C41, 0x3132),
  (0x8C61, 0xAE4C_AE4D_AE4E),
  (0x8C65, 0xAE50),
  (0x8C69, 0xAE54),
  (0x8C6B, 0xAE56),
  (0x8C71, 0xAE5C),
  (0x8C73, 0xAE5D),
  (0x8C75, 0xAE5F_AE60_AE61_AE62),
  (0x8C7B, 0xAE65),
  (0x8C81, 0xAE68_AE69),
  (0x8C85, 0xAE6C),
  (0x8C89, 0xAE70),
  (0x8C91, 0xAE78),
  (0x8C93, 0xAE79),
  (0x8C95, 0xAE7B_AE7C_AE7D),
  (0x8CA1, 0xAE84_AE85),
  (0x8CA9, 0xAE8C),
  (0x8CC1, 0xAEA0),
  (0x8CE1, 0xAEBC_AEBD_AEBE),
  (0x8CE5, 0xAEC0),
  (0x8CE9, 0xAEC4),
  (0x8CF1, 0xAECC),
  (0x8CF3, 0xAECD),
  (0x8CF5, 0xAECF_AED0_AED1),
  (0x8D41, 0xAED8_AED9),
  (0x8D45, 0xAEDC),
  (0x8D51, 0xAEE8),
  (0x8D55, 0xAEEB),
  (0x8D57, 0xAEED),
  (0x8D61, 0xAEF4),
  (0x8D65, 0xAEF8),
  (0x8D69, 0xAEFC),
  (0x8D71, 0xAF04),
  (0x8D75, 0xAF07_AF08),
  (0x8D7B, 0xAF0D),
  (0x8D81, 0xAF10),
  (0x8DA1, 0xAF2C_AF2D),
  (0x8DA5, 0xAF30),
  (0x8DA7, 0xAF32_AF33_AF34),
  (0x8DB1, 0xAF3C),
  (0x8DB3, 0xAF3D),
  (0x8DB5, 0xAF3F),
  (0x8DB7, 0xAF41_AF42_AF43),
  (0x8DC1, 0xAF48_AF49),
  (0x8DC5, 0xAF4C),
  (0x8DC9, 0xAF50),
  (0x8DD1, 0xAF58),
  (0x8DD5, 0xAF5B_AF5C_AF5D),
  (0x8DE1, 0xAF64_AF65),
  (0x8DE5, 0xAF68),
  (0x8DF7, 0xAF79),
  (0x8E41, 0xAF80),
  (0x8E45, 0xAF84),
  (0x8E49, 0xAF88),
  (0x8E51, 0xAF90),
  (0x8E53, 0xAF91),
  (0x8E55, 0xAF93),
  (0x8E57, 0xAF95),
  (0x8E61, 0xAF9C),
  (0x8E78, 0xAFB2),
  (0x8E81, 0xAFB8_AFB9),
  (0x8E85, 0xAFBC),
  (0x8E88, 0xAFBF_AFC0),
  (0x8E90, 0xAFC7_AFC8),
  (0x8E93, 0xAFC9),
  (0x8E95, 0xAFCB),
  (0x8E97, 0xAFCD_AFCE),
  (0x8EA1, 0xAFD4),
  (0x8EA5, 0xAFD8),
  (0x8EA9, 0xAFDC),
  (0x8EB5, 0xAFE7_AFE8_AFE9),
  (0x8EC1, 0xAFF0_AFF1),
  (0x8EC5, 0xAFF4),
  (0x8EC9, 0xAFF8),
  (0x8ED1, 0xB000),
  (0x8ED3, 0xB001),
  (0x8ED6, 0xB004),
  (0x8EE1, 0xB00C_B00D),
  (0x8EE5, 0xB010),
  (0x8EE9, 0xB014),
  (0x8EF1, 0xB01C),
  (0x8EF3, 0xB01D),
  (0x8EF7, 0xB021),
  (0x8F41, 0xB028),
  (0x8F61, 0xB044_B045),
  (0x8F65, 0xB048),
  (0x8F67, 0xB04A),
  (0x8F69, 0xB04C),
  (0x8F6B, 0xB04E),
  (0x8F70, 0xB053_B054),
  (0x8F73, 0xB055),
  (0x8F75, 0xB057),
  (0x8F77, 0xB059),
  (0x8F7B, 0xB05D),
  (0x8F81, 0xB060),
  (0x8FA1, 0xB07C_B07D),
  (0x8FA5, 0xB080),
  (0x8FA9, 0xB084),
  (0x8FB1, 0xB08C),
  (0x8FB3, 0xB08D),
  (0x8FB5, 0xB08F_B090_B091),
  (0x9041, 0x3134),
  (0x9061, 0xB098_B099_B09A),
  (0x9065, 0xB09C),
  (0x9068, 0xB09F_B0A0_B0A1_B0A2),
  (0x9071, 0xB0A8),
  (0x9073, 0xB0A9),
  (0x9075, 0xB0AB_B0AC_B0AD_B0AE_B0AF),
  (0x907B, 0xB0B1),
  (0x907D, 0xB0B3),
  (0x9081, 0xB0B4_B0B5),
  (0x9085, 0xB0B8),
  (0x9088, 0xB0BB_B0BC),
  (0x9091, 0xB0C4),
  (0x9093, 0xB0C5),
  (0x9095, 0xB0C7_B0C8_B0C9),
  (0x90A1, 0xB0D0_B0D1),
  (0x90A5, 0xB0D4),
  (0x90A9, 0xB0D8),
  (0x90B1, 0xB0E0),
  (0x90B7, 0xB0E5),
  (0x90C1, 0xB0EC),
  (0x90E1, 0xB108_B109),
  (0x90E4, 0xB10B_B10C),
  (0x90E8, 0xB10F_B110),
  (0x90EB, 0xB112_B113),
  (0x90F1, 0xB118),
  (0x90F3, 0xB119),
  (0x90F5, 0xB11B_B11C_B11D_B11E),
  (0x90FD, 0xB123),
  (0x9141, 0xB124_B125),
  (0x9145, 0xB128),
  (0x9149, 0xB12C),
  (0x9151, 0xB134),
  (0x9153, 0xB135),
  (0x9155, 0xB137_B138_B139),
  (0x9161, 0xB140_B141),
  (0x9165, 0xB144),
  (0x9168, 0xB147_B148),
  (0x9171, 0xB150),
  (0x9173, 0xB151),
  (0x9175, 0xB153_B154_B155),
  (0x917A, 0xB158_B159),
  (0x9181, 0xB15C),
  (0x9185, 0xB160),
  (0x9195, 0xB16F),
  (0x91A1, 0xB178_B179_B17A),
  (0x91A5, 0xB17C),
  (0x91A9, 0xB180),
  (0x91AB, 0xB182),
  (0x91B1, 0xB188),
  (0x91B3, 0xB189),
  (0x91B5, 0xB18B),
  (0x91B7, 0xB18D),
  (0x91BC, 0xB192_B193),
  (0x91C1, 0xB194),
  (0x91C5, 0xB198),
  (0x91C9, 0xB19C),
  (0x91D5, 0xB1A7_B1A8),
  (0x91E1, 0xB1B0),
  (0x9241, 0xB1CC),
  (0x9245, 0xB1D0),
  (0x9249, 0xB1D4),
  (0x9251, 0xB1DC),
  (0x9253, 0xB1DD),
  (0x9255, 0xB1DF),
  (0x9261, 0xB1E8_B1E9),
  (0x9265, 0xB1EC),
  (0x9269, 0xB1F0),
  (0x9273, 0xB1F9),
  (0x9275, 0xB1FB),
  (0x9277, 0xB1FD),
  (0x9281, 0xB204_B205),
  (0x9285, 0xB208),
  (0x9288, 0xB20B_B20C),
  (0x9291, 0xB214),
  (0x9293, 0xB215),
  (0x9295, 0xB217),
  (0x9297, 0xB219),
  (0x92A1, 0xB220),
  (0x92B5, 0xB233_B234),
  (0x92C1, 0xB23C),
  (0x92E1, 0xB258),
  (0x92E5, 0xB25C),
  (0x92E9, 0xB260),
  (0x92F1, 0xB268),
  (0x92F3, 0xB269),
  (0x9341, 0xB274_B275),
  (0x9349, 0xB27C),
  (0x9351, 0xB284),
  (0x9353, 0xB285),
  (0x9357, 0xB289),
  (0x9361, 0xB290_B291),
  (0x9365, 0xB294),
  (0x9369, 0xB298_B299_B29A),
  (0x9371, 0xB2A0),
  (0x9373, 0xB2A1),
  (0x9375, 0xB2A3),
  (0x9377, 0xB2A5_B2A6_B2A7),
  (0x937C, 0xB2AA),
  (0x9381, 0xB2AC),
  (0x9385, 0xB2B0),
  (0x9389, 0xB2B4),
  (0x9397, 0xB2C1),
  (0x93A1, 0xB2C8_B2C9),
  (0x93A5, 0xB2CC),
  (0x93A9, 0xB2D0_B2D1_B2D2),
  (0x93B1, 0xB2D8),
  (0x93B3, 0xB2D9),
  (0x93B5, 0xB2DB),
  (0x93B7, 0xB2DD),
  (0x93BA, 0xB2E0),
  (0x93BC, 0xB2E2),
  (0x9441, 0x3137),
  (0x9461, 0xB2E4_B2E5_B2E6),
  (0x9465, 0xB2E8),
  (0x9468, 0xB2EB_B2EC_B2ED_B2EE_B2EF),
  (0x9470, 0xB2F3_B2F4),
  (0x9473, 0xB2F5),
  (0x9475, 0xB2F7_B2F8_B2F9_B2FA_B2FB),
  (0x947D, 0xB2FF),
  (0x9481, 0xB300_B301),
  (0x9485, 0xB304),
  (0x9489, 0xB308),
  (0x9491, 0xB310),
  (0x9493, 0xB311),
  (0x9495, 0xB313_B314_B315),
  (0x94A1, 0xB31C),
  (0x94B7, 0xB331),
  (0x94C1, 0xB338),
  (0x94E1, 0xB354_B355_B356),
  (0x94E5, 0xB358),
  (0x94E8, 0xB35B_B35C),
  (0x94EB, 0xB35E_B35F),
  (0x94F1, 0xB364),
  (0x94F3, 0xB365),
  (0x94F5, 0xB367_B368_B369_B36A_B36B),
  (0x94FC, 0xB36E),
  (0x9541, 0xB370_B371),
  (0x9545, 0xB374),
  (0x9549, 0xB378),
  (0x9551, 0xB380),
  (0x9553, 0xB381),
  (0x9555, 0xB383_B384_B385),
  (0x9561, 0xB38C),
  (0x9565, 0xB390),
  (0x9569, 0xB394),
  (0x9571, 0xB39C),
  (0x9576, 0xB3A0_B3A1),
  (0x9581, 0xB3A8),
  (0x9585, 0xB3AC),
  (0x95A1, 0xB3C4_B3C5),
  (0x95A5, 0xB3C8),
  (0x95A8, 0xB3CB_B3CC),
  (0x95AB, 0xB3CE),
  (0x95AD, 0xB3D0),
  (0x95B0, 0xB3D3_B3D4),
  (0x95B3, 0xB3D5),
  (0x95B5, 0xB3D7),
  (0x95B7, 0xB3D9),
  (0x95B9, 0xB3DB),
  (0x95BB, 0xB3DD),
  (0x95C1, 0xB3E0),
  (0x95C5, 0xB3E4),
  (0x95C9, 0xB3E8),
  (0x95E1, 0xB3FC),
  (0x95E5, 0xB400),
  (0x95F5, 0xB40F_B410),
  (0x9641, 0xB418),
  (0x9645, 0xB41C),
  (0x9649, 0xB420),
  (0x9651, 0xB428),
  (0x9653, 0xB429),
  (0x9655, 0xB42B_B42C),
  (0x9661, 0xB434),
  (0x9681, 0xB450_B451),
  (0x9685, 0xB454),
  (0x9688, 0xB457_B458),
  (0x9691, 0xB460),
  (0x9693, 0xB461),
  (0x9695, 0xB463),
  (0x9697, 0xB465),
  (0x96A1, 0xB46C),
  (0x96B5, 0xB47F_B480),
  (0x96C1, 0xB488),
  (0x96D7, 0xB49D),
  (0x96E1, 0xB4A4),
  (0x96E5, 0xB4A8),
  (0x96E9, 0xB4AC),
  (0x96F1, 0xB4B4),
  (0x96F3, 0xB4B5),
  (0x96F5, 0xB4B7),
  (0x96F7, 0xB4B9),
  (0x9741, 0xB4C0_B4C1),
  (0x9745, 0xB4C4),
  (0x9749, 0xB4C8),
  (0x9751, 0xB4D0),
  (0x9757, 0xB4D5),
  (0x9761, 0xB4DC_B4DD),
  (0x9765, 0xB4E0),
  (0x9768, 0xB4E3_B4E4),
  (0x976B, 0xB4E6_B4E7),
  (0x9771, 0xB4EC),
  (0x9773, 0xB4ED),
  (0x9775, 0xB4EF),
  (0x9777, 0xB4F1),
  (0x9781, 0xB4F8),
  (0x97A1, 0xB514_B515),
  (0x97A5, 0xB518),
  (0x97A8, 0xB51B_B51C),
  (0x97B1, 0xB524),
  (0x97B3, 0xB525),
  (0x97B5, 0xB527_B528_B529_B52A),
  (0x97BC, 0xB52E),
  (0x9841, 0x3138),
  (0x9861, 0xB530_B531_B532),
  (0x9865, 0xB534),
  (0x9868, 0xB537_B538),
  (0x9870, 0xB53F_B540),
  (0x9873, 0xB541),
  (0x9875, 0xB543_B544_B545),
  (0x987D, 0xB54B),
  (0x9881, 0xB54C_B54D),
  (0x9885, 0xB550),
  (0x9889, 0xB554),
  (0x9891, 0xB55C),
  (0x9893, 0xB55D),
  (0x9895, 0xB55F_B560_B561),
  (0x98A1, 0xB568),
  (0x98C1, 0xB584),
  (0x98E1, 0xB5A0_B5A1),
  (0x98E5, 0xB5A4),
  (0x98E9, 0xB5A8),
  (0x98EB, 0xB5AA_B5AB),
  (0x98F1, 0xB5B0),
  (0x98F3, 0xB5B1),
  (0x98F5, 0xB5B3_B5B4_B5B5),
  (0x98FD, 0xB5BB),
  (0x9941, 0xB5BC_B5BD),
  (0x9945, 0xB5C0),
  (0x9949, 0xB5C4),
  (0x9951, 0xB5CC),
  (0x9953, 0xB5CD),
  (0x9955, 0xB5CF_B5D0_B5D1),
  (0x9961, 0xB5D8),
  (0x9976, 0xB5EC),
  (0x9981, 0xB5F4),
  (0x99A1, 0xB610_B611),
  (0x99A5, 0xB614),
  (0x99A9, 0xB618),
  (0x99B7, 0xB625),
  (0x99C1, 0xB62C),
  (0x99C9, 0xB634),
  (0x99E1, 0xB648),
  (0x9A41, 0xB664),
  (0x9A45, 0xB668),
  (0x9A61, 0xB680),
  (0x9A81, 0xB69C_B69D),
  (0x9A85, 0xB6A0),
  (0x9A89, 0xB6A4),
  (0x9A90, 0xB6AB_B6AC),
  (0x9A97, 0xB6B1),
  (0x9AA1, 0xB6B8),
  (0x9AC1, 0xB6D4),
  (0x9AE1, 0xB6F0),
  (0x9AE5, 0xB6F4),
  (0x9AE9, 0xB6F8),
  (0x9AF1, 0xB700),
  (0x9AF3, 0xB701),
  (0x9AF7, 0xB705),
  (0x9B41, 0xB70C),
  (0x9B61, 0xB728_B729),
  (0x9B65, 0xB72C),
  (0x9B68, 0xB72F_B730),
  (0x9B71, 0xB738),
  (0x9B73, 0xB739),
  (0x9B75, 0xB73B),
  (0x9B81, 0xB744),
  (0x9B85, 0xB748),
  (0x9B89, 0xB74C),
  (0x9B91, 0xB754),
  (0x9B93, 0xB755),
  (0x9BA1, 0xB760),
  (0x9BA5, 0xB764),
  (0x9BA9, 0xB768),
  (0x9BB1, 0xB770),
  (0x9BB3, 0xB771),
  (0x9BB5, 0xB773),
  (0x9BB7, 0xB775),
  (0x9C41, 0x3139),
  (0x9C61, 0xB77C_B77D),
  (0x9C65, 0xB780),
  (0x9C69, 0xB784),
  (0x9C71, 0xB78C),
  (0x9C73, 0xB78D),
  (0x9C75, 0xB78F_B790_B791_B792),
  (0x9C7C, 0xB796_B797),
  (0x9C81, 0xB798_B799),
  (0x9C85, 0xB79C),
  (0x9C89, 0xB7A0),
  (0x9C91, 0xB7A8),
  (0x9C93, 0xB7A9),
  (0x9C95, 0xB7AB_B7AC_B7AD),
  (0x9CA1, 0xB7B4_B7B5),
  (0x9CA5, 0xB7B8),
  (0x9CB5, 0xB7C7),
  (0x9CB7, 0xB7C9),
  (0x9CC1, 0xB7D0),
  (0x9CE1, 0xB7EC_B7ED),
  (0x9CE5, 0xB7F0),
  (0x9CE9, 0xB7F4),
  (0x9CF1, 0xB7FC),
  (0x9CF3, 0xB7FD),
  (0x9CF5, 0xB7FF_B800_B801),
  (0x9CFD, 0xB807),
  (0x9D41, 0xB808_B809),
  (0x9D45, 0xB80C),
  (0x9D48, 0xB80F_B810),
  (0x9D51, 0xB818),
  (0x9D53, 0xB819),
  (0x9D55, 0xB81B),
  (0x9D57, 0xB81D),
  (0x9D61, 0xB824_B825),
  (0x9D65, 0xB828),
  (0x9D69, 0xB82C),
  (0x9D71, 0xB834),
  (0x9D73, 0xB835),
  (0x9D75, 0xB837_B838_B839),
  (0x9D81, 0xB840),
  (0x9D85, 0xB844),
  (0x9D93, 0xB851),
  (0x9D95, 0xB853),
  (0x9DA1, 0xB85C_B85D),
  (0x9DA5, 0xB860),
  (0x9DA9, 0xB864),
  (0x9DB1, 0xB86C),
  (0x9DB3, 0xB86D),
  (0x9DB5, 0xB86F),
  (0x9DB7, 0xB871),
  (0x9DC1, 0xB878),
  (0x9DC5, 0xB87C),
  (0x9DD7, 0xB88D),
  (0x9DE1, 0xB894),
  (0x9DF6, 0xB8A8),
  (0x9E41, 0xB8B0),
  (0x9E45, 0xB8B4),
  (0x9E49, 0xB8B8),
  (0x9E51, 0xB8C0),
  (0x9E53, 0xB8C1),
  (0x9E55, 0xB8C3),
  (0x9E57, 0xB8C5),
  (0x9E61, 0xB8CC),
  (0x9E65, 0xB8D0),
  (0x9E69, 0xB8D4),
  (0x9E71, 0xB8DC),
  (0x9E73, 0xB8DD),
  (0x9E75, 0xB8DF),
  (0x9E77, 0xB8E1),
  (0x9E81, 0xB8E8_B8E9),
  (0x9E85, 0xB8EC),
  (0x9E89, 0xB8F0),
  (0x9E91, 0xB8F8),
  (0x9E93, 0xB8F9),
  (0x9E95, 0xB8FB),
  (0x9E97, 0xB8FD),
  (0x9EA1, 0xB904),
  (0x9EB5, 0xB917_B918),
  (0x9EC1, 0xB920),
  (0x9EE1, 0xB93C_B93D),
  (0x9EE5, 0xB940),
  (0x9EE9, 0xB944),
  (0x9EF1, 0xB94C),
  (0x9EF5, 0xB94F),
  (0x9EF7, 0xB951),
  (0x9F41, 0xB958_B959),
  (0x9F45, 0xB95C),
  (0x9F49, 0xB960),
  (0x9F51, 0xB968),
  (0x9F53, 0xB969),
  (0x9F55, 0xB96B),
  (0x9F57, 0xB96D),
  (0x9F61, 0xB974_B975),
  (0x9F65, 0xB978),
  (0x9F69, 0xB97C),
  (0x9F71, 0xB984),
  (0x9F73, 0xB985),
  (0x9F75, 0xB987),
  (0x9F77, 0xB989_B98A),
  (0x9F7B, 0xB98D_B98E),
  (0x9F81, 0xB990),
  (0x9FA1, 0xB9AC_B9AD),
  (0x9FA5, 0xB9B0),
  (0x9FA9, 0xB9B4),
  (0x9FB1, 0xB9BC),
  (0x9FB3, 0xB9BD),
  (0x9FB5, 0xB9BF),
  (0x9FB7, 0xB9C1),
  (0xA041, 0x3141),
  (0xA061, 0xB9C8_B9C9),
  (0xA065, 0xB9CC),
  (0xA067, 0xB9CE_B9CF_B9D0_B9D1_B9D2),
  (0xA071, 0xB9D8),
  (0xA073, 0xB9D9),
  (0xA075, 0xB9DB),
  (0xA077, 0xB9DD_B9DE_B9DF),
  (0xA07B, 0xB9E1),
  (0xA07D, 0xB9E3),
  (0xA081, 0xB9E4_B9E5),
  (0xA085, 0xB9E8),
  (0xA089, 0xB9EC),
  (0xA091, 0xB9F4),
  (0xA093, 0xB9F5),
  (0xA095, 0xB9F7_B9F8_B9F9_B9FA_B9FB),
  (0xA0A1, 0xBA00_BA01),
  (0xA0A9, 0xBA08),
  (0xA0B7, 0xBA15),
  (0xA0C1, 0xBA1C),
  (0xA0E1, 0xBA38_BA39),
  (0xA0E5, 0xBA3C),
  (0xA0E9, 0xBA40),
  (0xA0EB, 0xBA42),
  (0xA0F1, 0xBA48),
  (0xA0F3, 0xBA49),
  (0xA0F5, 0xBA4B),
  (0xA0F7, 0xBA4D_BA4E),
  (0xA0FD, 0xBA53),
  (0xA141, 0xBA54_BA55),
  (0xA145, 0xBA58),
  (0xA149, 0xBA5C),
  (0xA151, 0xBA64),
  (0xA153, 0xBA65),
  (0xA155, 0xBA67_BA68_BA69),
  (0xA159, 0xBA6B),
  (0xA15B, 0xBA6D),
  (0xA161, 0xBA70_BA71),
  (0xA165, 0xBA74),
  (0xA169, 0xBA78),
  (0xA171, 0xBA80),
  (0xA175, 0xBA83_BA84_BA85),
  (0xA179, 0xBA87),
  (0xA181, 0xBA8C),
  (0xA1A1, 0xBAA8_BAA9),
  (0xA1A4, 0xBAAB_BAAC),
  (0xA1A8, 0xBAAF_BAB0),
  (0xA1AB, 0xBAB2),
  (0xA1B1, 0xBAB8),
  (0xA1B3, 0xBAB9),
  (0xA1B5, 0xBABB),
  (0xA1B7, 0xBABD),
  (0xA1BD, 0xBAC3),
  (0xA1C1, 0xBAC4),
  (0xA1C5, 0xBAC8),
  (0xA1D6, 0xBAD8_BAD9),
  (0xA1E1, 0xBAE0),
  (0xA241, 0xBAFC),
  (0xA245, 0xBB00),
  (0xA249, 0xBB04),
  (0xA253, 0xBB0D),
  (0xA255, 0xBB0F),
  (0xA257, 0xBB11),
  (0xA261, 0xBB18),
  (0xA265, 0xBB1C),
  (0xA269, 0xBB20),
  (0xA273, 0xBB29),
  (0xA275, 0xBB2B),
  (0xA281, 0xBB34_BB35_BB36),
  (0xA285, 0xBB38),
  (0xA288, 0xBB3B_BB3C_BB3D_BB3E),
  (0xA291, 0xBB44),
  (0xA293, 0xBB45),
  (0xA295, 0xBB47),
  (0xA297, 0xBB49),
  (0xA29B, 0xBB4D),
  (0xA29D, 0xBB4F),
  (0xA2A1, 0xBB50),
  (0xA2A5, 0xBB54),
  (0xA2A9, 0xBB58),
  (0xA2B3, 0xBB61),
  (0xA2B5, 0xBB63),
  (0xA2C1, 0xBB6C),
  (0xA2E1, 0xBB88),
  (0xA2E5, 0xBB8C),
  (0xA2E9, 0xBB90),
  (0xA341, 0xBBA4),
  (0xA345, 0xBBA8),
  (0xA349, 0xBBAC),
  (0xA351, 0xBBB4),
  (0xA355, 0xBBB7),
  (0xA361, 0xBBC0_BBC1),
  (0xA365, 0xBBC4),
  (0xA369, 0xBBC8),
  (0xA371, 0xBBD0),
  (0xA375, 0xBBD3),
  (0xA377, 0xBBD5),
  (0xA381, 0xBBDC),
  (0xA385, 0xBBE0),
  (0xA3A1, 0xBBF8_BBF9),
  (0xA3A5, 0xBBFC),
  (0xA3A8, 0xBBFF_BC00),
  (0xA3AB, 0xBC02),
  (0xA3B1, 0xBC08),
  (0xA3B3, 0xBC09),
  (0xA3B5, 0xBC0B_BC0C_BC0D_BC0E_BC0F),
  (0xA3BB, 0xBC11),
  (0xA441, 0x3142),
  (0xA461, 0xBC14_BC15_BC16_BC17_BC18),
  (0xA468, 0xBC1B_BC1C_BC1D_BC1E_BC1F),
  (0xA471, 0xBC24),
  (0xA473, 0xBC25),
  (0xA475, 0xBC27_BC28_BC29),
  (0xA47B, 0xBC2D),
  (0xA481, 0xBC30_BC31),
  (0xA485, 0xBC34),
  (0xA488, 0xBC37_BC38),
  (0xA491, 0xBC40),
  (0xA493, 0xBC41),
  (0xA495, 0xBC43_BC44_BC45),
  (0xA49B, 0xBC49),
  (0xA4A1, 0xBC4C_BC4D),
  (0xA4A5, 0xBC50),
  (0xA4B1, 0xBC5C),
  (0xA4B3, 0xBC5D),
  (0xA4C1, 0xBC68),
  (0xA4E1, 0xBC84_BC85),
  (0xA4E5, 0xBC88),
  (0xA4E8, 0xBC8B_BC8C),
  (0xA4EB, 0xBC8E),
  (0xA4F1, 0xBC94),
  (0xA4F3, 0xBC95),
  (0xA4F5, 0xBC97_BC98_BC99_BC9A),
  (0xA4FA, 0xBC9C),
  (0xA541, 0xBCA0_BCA1),
  (0xA545, 0xBCA4),
  (0xA548, 0xBCA7_BCA8),
  (0xA551, 0xBCB0),
  (0xA553, 0xBCB1),
  (0xA555, 0xBCB3_BCB4_BCB5),
  (0xA55B, 0xBCB9),
  (0xA561, 0xBCBC_BCBD),
  (0xA565, 0xBCC0),
  (0xA569, 0xBCC4),
  (0xA571, 0xBCCC),
  (0xA573, 0xBCCD),
  (0xA575, 0xBCCF_BCD0_BCD1_BCD2_BCD3_BCD4_BCD5),
  (0xA581, 0xBCD8),
  (0xA585, 0xBCDC),
  (0xA5A1, 0xBCF4_BCF5_BCF6),
  (0xA5A5, 0xBCF8),
  (0xA5A9, 0xBCFC),
  (0xA5B1, 0xBD04),
  (0xA5B3, 0xBD05),
  (0xA5B5, 0xBD07),
  (0xA5B7, 0xBD09),
  (0xA5C1, 0xBD10),
  (0xA5C5, 0xBD14),
  (0xA5D5, 0xBD23_BD24),
  (0xA5E1, 0xBD2C),
  (0xA5F6, 0xBD40),
  (0xA641, 0xBD48_BD49),
  (0xA645, 0xBD4C),
  (0xA649, 0xBD50),
  (0xA651, 0xBD58),
  (0xA653, 0xBD59),
  (0xA661, 0xBD64),
  (0xA665, 0xBD68),
  (0xA681, 0xBD80_BD81),
  (0xA685, 0xBD84),
  (0xA688, 0xBD87_BD88_BD89_BD8A),
  (0xA691, 0xBD90),
  (0xA693, 0xBD91),
  (0xA695, 0xBD93),
  (0xA697, 0xBD95),
  (0xA699, 0xBD97),
  (0xA69B, 0xBD99_BD9A),
  (0xA6A1, 0xBD9C),
  (0xA6A9, 0xBDA4),
  (0xA6B6, 0xBDB0),
  (0xA6BA, 0xBDB4),
  (0xA6C1, 0xBDB8),
  (0xA6E1, 0xBDD4_BDD5),
  (0xA6E5, 0xBDD8),
  (0xA6E9, 0xBDDC),
  (0xA6F7, 0xBDE9),
  (0xA741, 0xBDF0),
  (0xA745, 0xBDF4),
  (0xA749, 0xBDF8),
  (0xA751, 0xBE00),
  (0xA755, 0xBE03),
  (0xA757, 0xBE05),
  (0xA761, 0xBE0C_BE0D),
  (0xA765, 0xBE10),
  (0xA769, 0xBE14),
  (0xA76D, 0xBE18),
  (0xA771, 0xBE1C),
  (0xA773, 0xBE1D),
  (0xA775, 0xBE1F),
  (0xA777, 0xBE21),
  (0xA781, 0xBE28),
  (0xA7A1, 0xBE44_BE45),
  (0xA7A5, 0xBE48),
  (0xA7A8, 0xBE4B_BE4C),
  (0xA7AB, 0xBE4E),
  (0xA7B1, 0xBE54),
  (0xA7B3, 0xBE55),
  (0xA7B5, 0xBE57),
  (0xA7B7, 0xBE59_BE5A_BE5B),
  (0xA841, 0x3143),
  (0xA861, 0xBE60_BE61),
  (0xA865, 0xBE64),
  (0xA869, 0xBE68),
  (0xA86B, 0xBE6A),
  (0xA871, 0xBE70),
  (0xA873, 0xBE71),
  (0xA875, 0xBE73_BE74_BE75),
  (0xA87D, 0xBE7B),
  (0xA881, 0xBE7C_BE7D),
  (0xA885, 0xBE80),
  (0xA889, 0xBE84),
  (0xA891, 0xBE8C),
  (0xA893, 0xBE8D),
  (0xA895, 0xBE8F_BE90_BE91),
  (0xA8A1, 0xBE98_BE99),
  (0xA8A5, 0xBE9C),
  (0xA8B1, 0xBEA8),
  (0xA8C1, 0xBEB4),
  (0xA8E1, 0xBED0_BED1),
  (0xA8E5, 0xBED4),
  (0xA8E8, 0xBED7_BED8),
  (0xA8F1, 0xBEE0),
  (0xA8F5, 0xBEE3_BEE4_BEE5),
  (0xA941, 0xBEEC_BEED),
  (0xA945, 0xBEF0),
  (0xA949, 0xBEF4),
  (0xA955, 0xBEFF),
  (0xA957, 0xBF01),
  (0xA961, 0xBF08_BF09),
  (0xA971, 0xBF18),
  (0xA973, 0xBF19),
  (0xA975, 0xBF1B_BF1C_BF1D),
  (0xA981, 0xBF24),
  (0xA9A1, 0xBF40_BF41),
  (0xA9A5, 0xBF44),
  (0xA9A9, 0xBF48),
  (0xA9B1, 0xBF50),
  (0xA9B3, 0xBF51),
  (0xA9B7, 0xBF55),
  (0xA9C1, 0xBF5C),
  (0xA9E1, 0xBF78),
  (0xAA41, 0xBF94),
  (0xAA61, 0xBFB0),
  (0xAA71, 0xBFC0),
  (0xAA77, 0xBFC5),
  (0xAA81, 0xBFCC_BFCD),
  (0xAA85, 0xBFD0),
  (0xAA89, 0xBFD4_BFD5),
  (0xAA91, 0xBFDC),
  (0xAA93, 0xBFDD),
  (0xAA95, 0xBFDF),
  (0xAA97, 0xBFE1),
  (0xAAA1, 0xBFE8),
  (0xAAC1, 0xC004),
  (0xAAE1, 0xC020),
  (0xAB41, 0xC03C),
  (0xAB57, 0xC051),
  (0xAB61, 0xC058_C059),
  (0xAB65, 0xC05C),
  (0xAB69, 0xC060),
  (0xAB71, 0xC068),
  (0xAB73, 0xC069),
  (0xAB81, 0xC074),
  (0xABA1, 0xC090_C091),
  (0xABA5, 0xC094),
  (0xABA9, 0xC098),
  (0xABB1, 0xC0A0),
  (0xABB3, 0xC0A1),
  (0xABB5, 0xC0A3),
  (0xABB7, 0xC0A5),
  (0xAC41, 0x3145),
  (0xAC61, 0xC0AC_C0AD_C0AE_C0AF_C0B0),
  (0xAC68, 0xC0B3_C0B4_C0B5_C0B6_C0B7),
  (0xAC70, 0xC0BB_C0BC),
  (0xAC73, 0xC0BD),
  (0xAC75, 0xC0BF_C0C0_C0C1),
  (0xAC79, 0xC0C3),
  (0xAC7B, 0xC0C5),
  (0xAC7D, 0xC0C7),
  (0xAC81, 0xC0C8_C0C9),
  (0xAC85, 0xC0CC),
  (0xAC88, 0xC0CF_C0D0),
  (0xAC91, 0xC0D8),
  (0xAC93, 0xC0D9),
  (0xAC95, 0xC0DB_C0DC_C0DD),
  (0xACA1, 0xC0E4_C0E5),
  (0xACA5, 0xC0E8),
  (0xACA9, 0xC0EC),
  (0xACB1, 0xC0F4),
  (0xACB3, 0xC0F5),
  (0xACB5, 0xC0F7),
  (0xACB7, 0xC0F9),
  (0xACC1, 0xC100),
  (0xACC5, 0xC104),
  (0xACC9, 0xC108),
  (0xACD1, 0xC110),
  (0xACD7, 0xC115),
  (0xACE1, 0xC11C_C11D_C11E_C11F_C120),
  (0xACE8, 0xC123_C124_C125_C126_C127),
  (0xACF1, 0xC12C),
  (0xACF3, 0xC12D),
  (0xACF5, 0xC12F_C130_C131),
  (0xACFC, 0xC136),
  (0xAD41, 0xC138_C139),
  (0xAD45, 0xC13C),
  (0xAD48, 0xC13F_C140),
  (0xAD51, 0xC148),
  (0xAD53, 0xC149),
  (0xAD55, 0xC14B_C14C_C14D),
  (0xAD5B, 0xC151),
  (0xAD61, 0xC154_C155),
  (0xAD64, 0xC157_C158),
  (0xAD69, 0xC15C),
  (0xAD71, 0xC164),
  (0xAD73, 0xC165),
  (0xAD75, 0xC167_C168_C169),
  (0xAD81, 0xC170),
  (0xAD85, 0xC174),
  (0xAD89, 0xC178),
  (0xAD97, 0xC185),
  (0xADA1, 0xC18C_C18D_C18E),
  (0xADA5, 0xC190),
  (0xADA8, 0xC193_C194),
  (0xADAB, 0xC196),
  (0xADB1, 0xC19C),
  (0xADB3, 0xC19D),
  (0xADB5, 0xC19F),
  (0xADB7, 0xC1A1),
  (0xADBB, 0xC1A5),
  (0xADC1, 0xC1A8_C1A9),
  (0xADC5, 0xC1AC),
  (0xADC9, 0xC1B0),
  (0xADD5, 0xC1BB),
  (0xADD7, 0xC1BD),
  (0xADE1, 0xC1C4),
  (0xADE5, 0xC1C8),
  (0xADE9, 0xC1CC),
  (0xADF1, 0xC1D4),
  (0xADF5, 0xC1D7_C1D8),
  (0xAE41, 0xC1E0),
  (0xAE45, 0xC1E4),
  (0xAE49, 0xC1E8),
  (0xAE51, 0xC1F0),
  (0xAE53, 0xC1F1),
  (0xAE55, 0xC1F3),
  (0xAE61, 0xC1FC_C1FD),
  (0xAE65, 0xC200),
  (0xAE69, 0xC204),
  (0xAE71, 0xC20C),
  (0xAE73, 0xC20D),
  (0xAE75, 0xC20F),
  (0xAE77, 0xC211),
  (0xAE81, 0xC218_C219),
  (0xAE85, 0xC21C),
  (0xAE88, 0xC21F_C220),
  (0xAE91, 0xC228),
  (0xAE93, 0xC229),
  (0xAE95, 0xC22B),
  (0xAE97, 0xC22D),
  (0xAE99, 0xC22F),
  (0xAE9B, 0xC231_C232),
  (0xAEA1, 0xC234),
  (0xAEB6, 0xC248),
  (0xAEC1, 0xC250_C251),
  (0xAEC5, 0xC254),
  (0xAEC9, 0xC258),
  (0xAED1, 0xC260),
  (0xAED7, 0xC265),
  (0xAEE1, 0xC26C_C26D),
  (0xAEE5, 0xC270),
  (0xAEE9, 0xC274),
  (0xAEF1, 0xC27C),
  (0xAEF3, 0xC27D),
  (0xAEF5, 0xC27F),
  (0xAEF7, 0xC281),
  (0xAF41, 0xC288_C289),
  (0xAF45, 0xC28C),
  (0xAF49, 0xC290),
  (0xAF51, 0xC298),
  (0xAF55, 0xC29B),
  (0xAF57, 0xC29D),
  (0xAF61, 0xC2A4_C2A5),
  (0xAF65, 0xC2A8),
  (0xAF69, 0xC2AC_C2AD),
  (0xAF70, 0xC2B3_C2B4),
  (0xAF73, 0xC2B5),
  (0xAF75, 0xC2B7),
  (0xAF77, 0xC2B9),
  (0xAF81, 0xC2C0),
  (0xAFA1, 0xC2DC_C2DD),
  (0xAFA5, 0xC2E0),
  (0xAFA8, 0xC2E3_C2E4),
  (0xAFAB, 0xC2E6),
  (0xAFB0, 0xC2EB_C2EC),
  (0xAFB3, 0xC2ED),
  (0xAFB5, 0xC2EF),
  (0xAFB7, 0xC2F1),
  (0xAFBC, 0xC2F6),
  (0xB041, 0x3146),
  (0xB061, 0xC2F8_C2F9),
  (0xB064, 0xC2FB_C2FC),
  (0xB069, 0xC300),
  (0xB06B, 0xC302),
  (0xB071, 0xC308),
  (0xB073, 0xC309),
  (0xB075, 0xC30B_C30C_C30D),
  (0xB07D, 0xC313),
  (0xB081, 0xC314_C315),
  (0xB085, 0xC318),
  (0xB089, 0xC31C),
  (0xB091, 0xC324),
  (0xB093, 0xC325),
  (0xB095, 0xC327_C328_C329),
  (0xB0A1, 0xC330),
  (0xB0B5, 0xC343),
  (0xB0B7, 0xC345),
  (0xB0C1, 0xC34C),
  (0xB0E1, 0xC368_C369),
  (0xB0E5, 0xC36C),
  (0xB0E9, 0xC370),
  (0xB0EB, 0xC372),
  (0xB0F1, 0xC378),
  (0xB0F3, 0xC379),
  (0xB0F5, 0xC37B_C37C_C37D),
  (0xB141, 0xC384_C385),
  (0xB145, 0xC388),
  (0xB149, 0xC38C),
  (0xB157, 0xC399),
  (0xB161, 0xC3A0),
  (0xB181, 0xC3BC),
  (0xB185, 0xC3C0),
  (0xB1A1, 0xC3D8_C3D9),
  (0xB1A5, 0xC3DC),
  (0xB1A8, 0xC3DF_C3E0),
  (0xB1AB, 0xC3E2),
  (0xB1B1, 0xC3E8),
  (0xB1B3, 0xC3E9),
  (0xB1B7, 0xC3ED),
  (0xB1C1, 0xC3F4_C3F5),
  (0xB1C5, 0xC3F8),
  (0xB1C9, 0xC3FC),
  (0xB1D6, 0xC408),
  (0xB1E1, 0xC410),
  (0xB1F6, 0xC424),
  (0xB241, 0xC42C),
  (0xB245, 0xC430),
  (0xB249, 0xC434),
  (0xB251, 0xC43C),
  (0xB253, 0xC43D),
  (0xB255, 0xC43F),
  (0xB261, 0xC448),
  (0xB281, 0xC464_C465),
  (0xB285, 0xC468),
  (0xB289, 0xC46C),
  (0xB291, 0xC474),
  (0xB293, 0xC475),
  (0xB295, 0xC477),
  (0xB297, 0xC479),
  (0xB2A1, 0xC480),
  (0xB2B5, 0xC493_C494),
  (0xB2C1, 0xC49C),
  (0xB2E1, 0xC4B8),
  (0xB2E5, 0xC4BC),
  (0xB2FD, 0xC4D3),
  (0xB341, 0xC4D4),
  (0xB357, 0xC4E9),
  (0xB361, 0xC4F0_C4F1),
  (0xB365, 0xC4F4),
  (0xB369, 0xC4F8),
  (0xB36B, 0xC4FA),
  (0xB370, 0xC4FF_C500),
  (0xB373, 0xC501),
  (0xB381, 0xC50C),
  (0xB385, 0xC510),
  (0xB389, 0xC514),
  (0xB391, 0xC51C),
  (0xB3A1, 0xC528_C529),
  (0xB3A5, 0xC52C),
  (0xB3A9, 0xC530),
  (0xB3B1, 0xC538),
  (0xB3B3, 0xC539),
  (0xB3B5, 0xC53B_C53C_C53D),
  (0xB3B9, 0xC53F),
  (0xB441, 0x3147),
  (0xB461, 0xC544_C545),
  (0xB465, 0xC548_C549_C54A),
  (0xB469, 0xC54C_C54D_C54E_C54F),
  (0xB470, 0xC553_C554),
  (0xB473, 0xC555),
  (0xB475, 0xC557_C558_C559),
  (0xB47B, 0xC55D_C55E_C55F),
  (0xB481, 0xC560_C561),
  (0xB485, 0xC564),
  (0xB489, 0xC568),
  (0xB491, 0xC570),
  (0xB493, 0xC571),
  (0xB495, 0xC573_C574_C575),
  (0xB4A1, 0xC57C_C57D),
  (0xB4A5, 0xC580),
  (0xB4A9, 0xC584),
  (0xB4AC, 0xC587),
  (0xB4B1, 0xC58C),
  (0xB4B3, 0xC58D),
  (0xB4B5, 0xC58F_C590_C591),
  (0xB4BB, 0xC595),
  (0xB4BD, 0xC597),
  (0xB4C1, 0xC598),
  (0xB4C5, 0xC59C),
  (0xB4C9, 0xC5A0),
  (0xB4D3, 0xC5A9),
  (0xB4D5, 0xC5AB),
  (0xB4E1, 0xC5B4_C5B5_C5B6),
  (0xB4E5, 0xC5B8_C5B9),
  (0xB4E8, 0xC5BB_C5BC_C5BD_C5BE),
  (0xB4F1, 0xC5C4),
  (0xB4F3, 0xC5C5_C5C6_C5C7_C5C8_C5C9_C5CA),
  (0xB4FA, 0xC5CC),
  (0xB4FC, 0xC5CE),
  (0xB541, 0xC5D0_C5D1),
  (0xB545, 0xC5D4),
  (0xB549, 0xC5D8),
  (0xB551, 0xC5E0),
  (0xB553, 0xC5E1),
  (0xB555, 0xC5E3),
  (0xB557, 0xC5E5),
  (0xB561, 0xC5EC_C5ED_C5EE),
  (0xB565, 0xC5F0_C5F1),
  (0xB568, 0xC5F3_C5F4),
  (0xB56B, 0xC5F6_C5F7),
  (0xB571, 0xC5FC),
  (0xB573, 0xC5FD_C5FE_C5FF_C600_C601),
  (0xB57B, 0xC605_C606_C607),
  (0xB581, 0xC608),
  (0xB585, 0xC60C),
  (0xB589, 0xC610),
  (0xB591, 0xC618),
  (0xB593, 0xC619),
  (0xB595, 0xC61B_C61C_C61D),
  (0xB5A1, 0xC624_C625),
  (0xB5A5, 0xC628),
  (0xB5A8, 0xC62B_C62C_C62D_C62E),
  (0xB5AD, 0xC630),
  (0xB5B0, 0xC633_C634),
  (0xB5B3, 0xC635),
  (0xB5B5, 0xC637),
  (0xB5B7, 0xC639_C63A_C63B),
  (0xB5C1, 0xC640_C641),
  (0xB5C5, 0xC644),
  (0xB5C9, 0xC648),
  (0xB5D1, 0xC650),
  (0xB5D3, 0xC651),
  (0xB5D5, 0xC653_C654_C655),
  (0xB5E1, 0xC65C_C65D),
  (0xB5E5, 0xC660),
  (0xB5F1, 0xC66C),
  (0xB5F5, 0xC66F),
  (0xB5F7, 0xC671),
  (0xB641, 0xC678_C679),
  (0xB645, 0xC67C),
  (0xB649, 0xC680),
  (0xB651, 0xC688),
  (0xB653, 0xC689),
  (0xB655, 0xC68B),
  (0xB657, 0xC68D),
  (0xB661, 0xC694_C695),
  (0xB665, 0xC698),
  (0xB669, 0xC69C),
  (0xB671, 0xC6A4),
  (0xB673, 0xC6A5),
  (0xB675, 0xC6A7),
  (0xB677, 0xC6A9),
  (0xB681, 0xC6B0_C6B1),
  (0xB685, 0xC6B4),
  (0xB688, 0xC6B7_C6B8_C6B9_C6BA),
  (0xB691, 0xC6C0),
  (0xB693, 0xC6C1),
  (0xB695, 0xC6C3),
  (0xB697, 0xC6C5),
  (0xB6A1, 0xC6CC_C6CD),
  (0xB6A5, 0xC6D0),
  (0xB6A9, 0xC6D4),
  (0xB6B1, 0xC6DC),
  (0xB6B3, 0xC6DD),
  (0xB6B5, 0xC6DF_C6E0_C6E1),
  (0xB6C1, 0xC6E8_C6E9),
  (0xB6C5, 0xC6EC),
  (0xB6C9, 0xC6F0),
  (0xB6D1, 0xC6F8),
  (0xB6D3, 0xC6F9),
  (0xB6D7, 0xC6FD),
  (0xB6E1, 0xC704_C705),
  (0xB6E5, 0xC708),
  (0xB6E8, 0xC70B_C70C),
  (0xB6F1, 0xC714),
  (0xB6F3, 0xC715),
  (0xB6F5, 0xC717),
  (0xB6F7, 0xC719),
  (0xB741, 0xC720_C721),
  (0xB745, 0xC724),
  (0xB749, 0xC728),
  (0xB751, 0xC730),
  (0xB753, 0xC731),
  (0xB755, 0xC733),
  (0xB757, 0xC735_C736_C737),
  (0xB761, 0xC73C_C73D),
  (0xB765, 0xC740),
  (0xB769, 0xC744),
  (0xB76F, 0xC74A),
  (0xB771, 0xC74C),
  (0xB773, 0xC74D),
  (0xB775, 0xC74F),
  (0xB777, 0xC751_C752_C753_C754_C755_C756_C757),
  (0xB781, 0xC758),
  (0xB785, 0xC75C),
  (0xB789, 0xC760),
  (0xB791, 0xC768),
  (0xB795, 0xC76B),
  (0xB7A1, 0xC774_C775),
  (0xB7A5, 0xC778),
  (0xB7A8, 0xC77B_C77C_C77D_C77E),
  (0xB7B0, 0xC783_C784),
  (0xB7B3, 0xC785),
  (0xB7B5, 0xC787_C788_C789_C78A),
  (0xB7BC, 0xC78E),
  (0xB841, 0x3148),
  (0xB861, 0xC790_C791),
  (0xB865, 0xC794),
  (0xB867, 0xC796_C797_C798),
  (0xB86B, 0xC79A),
  (0xB871, 0xC7A0),
  (0xB873, 0xC7A1),
  (0xB875, 0xC7A3_C7A4_C7A5_C7A6_C7A7),
  (0xB87C, 0xC7AA),
  (0xB881, 0xC7AC_C7AD),
  (0xB885, 0xC7B0),
  (0xB889, 0xC7B4),
  (0xB891, 0xC7BC),
  (0xB893, 0xC7BD),
  (0xB895, 0xC7BF_C7C0_C7C1),
  (0xB8A1, 0xC7C8_C7C9),
  (0xB8A5, 0xC7CC),
  (0xB8A7, 0xC7CE),
  (0xB8A9, 0xC7D0),
  (0xB8B1, 0xC7D8),
  (0xB8B7, 0xC7DD),
  (0xB8C1, 0xC7E4),
  (0xB8C5, 0xC7E8),
  (0xB8C9, 0xC7EC),
  (0xB8E1, 0xC800_C801),
  (0xB8E5, 0xC804),
  (0xB8E8, 0xC807_C808),
  (0xB8EB, 0xC80A),
  (0xB8F1, 0xC810),
  (0xB8F3, 0xC811),
  (0xB8F5, 0xC813_C814_C815_C816),
  (0xB8FD, 0xC81B),
  (0xB941, 0xC81C_C81D),
  (0xB945, 0xC820),
  (0xB949, 0xC824),
  (0xB951, 0xC82C),
  (0xB953, 0xC82D),
  (0xB955, 0xC82F),
  (0xB957, 0xC831),
  (0xB961, 0xC838_C839),
  (0xB965, 0xC83C),
  (0xB969, 0xC840),
  (0xB971, 0xC848),
  (0xB973, 0xC849),
  (0xB975, 0xC84B_C84C_C84D),
  (0xB981, 0xC854),
  (0xB9A1, 0xC870_C871),
  (0xB9A5, 0xC874),
  (0xB9A9, 0xC878),
  (0xB9AB, 0xC87A),
  (0xB9B1, 0xC880),
  (0xB9B3, 0xC881),
  (0xB9B5, 0xC883),
  (0xB9B7, 0xC885_C886_C887),
  (0xB9BD, 0xC88B),
  (0xB9C1, 0xC88C_C88D),
  (0xB9C5, 0xC890),
  (0xB9C9, 0xC894),
  (0xB9D1, 0xC89C),
  (0xB9D3, 0xC89D),
  (0xB9D5, 0xC89F_C8A0_C8A1),
  (0xB9E1, 0xC8A8),
  (0xB9E5, 0xC8AC),
  (0xB9E9, 0xC8B0),
  (0xB9F1, 0xC8B8),
  (0xB9F6, 0xC8BC_C8BD),
  (0xBA41, 0xC8C4),
  (0xBA45, 0xC8C8),
  (0xBA49, 0xC8CC),
  (0xBA51, 0xC8D4),
  (0xBA53, 0xC8D5),
  (0xBA55, 0xC8D7),
  (0xBA57, 0xC8D9),
  (0xBA61, 0xC8E0_C8E1),
  (0xBA65, 0xC8E4),
  (0xBA69, 0xC8E8),
  (0xBA71, 0xC8F0),
  (0xBA73, 0xC8F1),
  (0xBA77, 0xC8F5),
  (0xBA81, 0xC8FC_C8FD),
  (0xBA85, 0xC900),
  (0xBA89, 0xC904_C905_C906),
  (0xBA91, 0xC90C),
  (0xBA93, 0xC90D),
  (0xBA95, 0xC90F),
  (0xBA97, 0xC911),
  (0xBAA1, 0xC918),
  (0xBAB5, 0xC92B_C92C),
  (0xBAC1, 0xC934),
  (0xBAE1, 0xC950_C951),
  (0xBAE5, 0xC954),
  (0xBAE9, 0xC958),
  (0xBAF1, 0xC960),
  (0xBAF3, 0xC961),
  (0xBAF5, 0xC963),
  (0xBB41, 0xC96C_C96D),
  (0xBB45, 0xC970),
  (0xBB49, 0xC974),
  (0xBB51, 0xC97C),
  (0xBB61, 0xC988_C989),
  (0xBB65, 0xC98C),
  (0xBB69, 0xC990),
  (0xBB71, 0xC998),
  (0xBB73, 0xC999),
  (0xBB75, 0xC99B),
  (0xBB77, 0xC99D),
  (0xBB81, 0xC9A4),
  (0xBBA1, 0xC9C0_C9C1),
  (0xBBA5, 0xC9C4),
  (0xBBA8, 0xC9C7_C9C8),
  (0xBBAB, 0xC9CA),
  (0xBBB1, 0xC9D0),
  (0xBBB3, 0xC9D1),
  (0xBBB5, 0xC9D3_C9D4_C9D5_C9D6),
  (0xBBBB, 0xC9D9_C9DA),
  (0xBC41, 0x3149),
  (0xBC61, 0xC9DC_C9DD),
  (0xBC65, 0xC9E0),
  (0xBC67, 0xC9E2),
  (0xBC69, 0xC9E4),
  (0xBC6C, 0xC9E7),
  (0xBC71, 0xC9EC),
  (0xBC73, 0xC9ED),
  (0xBC75, 0xC9EF_C9F0_C9F1),
  (0xBC81, 0xC9F8_C9F9),
  (0xBC85, 0xC9FC),
  (0xBC89, 0xCA00),
  (0xBC91, 0xCA08),
  (0xBC93, 0xCA09),
  (0xBC95, 0xCA0B_CA0C_CA0D),
  (0xBCA1, 0xCA14),
  (0xBCA5, 0xCA18),
  (0xBCB7, 0xCA29),
  (0xBCC1, 0xCA30),
  (0xBCE1, 0xCA4C_CA4D),
  (0xBCE5, 0xCA50),
  (0xBCE9, 0xCA54),
  (0xBCEC, 0xCA57),
  (0xBCF1, 0xCA5C),
  (0xBCF3, 0xCA5D),
  (0xBCF5, 0xCA5F_CA60_CA61),
  (0xBD41, 0xCA68),
  (0xBD49, 0xCA70),
  (0xBD57, 0xCA7D),
  (0xBD61, 0xCA84),
  (0xBD75, 0xCA97_CA98),
  (0xBD81, 0xCAA0),
  (0xBDA1, 0xCABC_CABD),
  (0xBDA5, 0xCAC0),
  (0xBDA9, 0xCAC4),
  (0xBDB1, 0xCACC),
  (0xBDB3, 0xCACD),
  (0xBDB5, 0xCACF),
  (0xBDB7, 0xCAD1_CAD2_CAD3),
  (0xBDC1, 0xCAD8_CAD9),
  (0xBDC9, 0xCAE0),
  (0xBDD6, 0xCAEC),
  (0xBDE1, 0xCAF4),
  (0xBDF6, 0xCB08),
  (0xBE41, 0xCB10),
  (0xBE45, 0xCB14),
  (0xBE49, 0xCB18),
  (0xBE51, 0xCB20),
  (0xBE53, 0xCB21),
  (0xBE61, 0xCB2C),
  (0xBE77, 0xCB41),
  (0xBE81, 0xCB48_CB49),
  (0xBE85, 0xCB4C),
  (0xBE89, 0xCB50),
  (0xBE91, 0xCB58),
  (0xBE93, 0xCB59),
  (0xBE97, 0xCB5D),
  (0xBEA1, 0xCB64),
  (0xBEB6, 0xCB78_CB79),
  (0xBEC1, 0xCB80),
  (0xBEE1, 0xCB9C),
  (0xBF41, 0xCBB8),
  (0xBF61, 0xCBD4),
  (0xBF71, 0xCBE4),
  (0xBF73, 0xCBE5),
  (0xBF75, 0xCBE7),
  (0xBF77, 0xCBE9),
  (0xBF81, 0xCBF0),
  (0xBFA1, 0xCC0C_CC0D),
  (0xBFA5, 0xCC10),
  (0xBFA9, 0xCC14),
  (0xBFB1, 0xCC1C),
  (0xBFB3, 0xCC1D),
  (0xBFB5, 0xCC1F),
  (0xBFB7, 0xCC21_CC22),
  (0xBFBC, 0xCC26_CC27),
  (0xC041, 0x314A),
  (0xC061, 0xCC28_CC29),
  (0xC065, 0xCC2C),
  (0xC067, 0xCC2E_CC2F_CC30),
  (0xC071, 0xCC38),
  (0xC073, 0xCC39),
  (0xC075, 0xCC3B_CC3C_CC3D_CC3E_CC3F),
  (0xC07C, 0xCC42),
  (0xC081, 0xCC44_CC45),
  (0xC085, 0xCC48),
  (0xC089, 0xCC4C),
  (0xC091, 0xCC54),
  (0xC093, 0xCC55),
  (0xC095, 0xCC57_CC58_CC59),
  (0xC0A1, 0xCC60),
  (0xC0A5, 0xCC64),
  (0xC0A7, 0xCC66),
  (0xC0A9, 0xCC68),
  (0xC0B1, 0xCC70),
  (0xC0B3, 0xCC71),
  (0xC0B7, 0xCC75),
  (0xC0C1, 0xCC7C),
  (0xC0E1, 0xCC98_CC99),
  (0xC0E5, 0xCC9C),
  (0xC0E9, 0xCCA0),
  (0xC0F1, 0xCCA8),
  (0xC0F3, 0xCCA9),
  (0xC0F5, 0xCCAB_CCAC_CCAD),
  (0xC141, 0xCCB4_CCB5),
  (0xC145, 0xCCB8),
  (0xC149, 0xCCBC),
  (0xC151, 0xCCC4),
  (0xC153, 0xCCC5),
  (0xC155, 0xCCC7),
  (0xC157, 0xCCC9),
  (0xC161, 0xCCD0),
  (0xC165, 0xCCD4),
  (0xC175, 0xCCE3_CCE4_CCE5),
  (0xC181, 0xCCEC),
  (0xC185, 0xCCF0),
  (0xC197, 0xCD01),
  (0xC1A1, 0xCD08_CD09),
  (0xC1A5, 0xCD0C),
  (0xC1A9, 0xCD10),
  (0xC1B1, 0xCD18),
  (0xC1B3, 0xCD19),
  (0xC1B5, 0xCD1B),
  (0xC1B7, 0xCD1D),
  (0xC1C1, 0xCD24),
  (0xC1C5, 0xCD28),
  (0xC1C9, 0xCD2C),
  (0xC1D7, 0xCD39),
  (0xC1E1, 0xCD40),
  (0xC241, 0xCD5C),
  (0xC245, 0xCD60),
  (0xC249, 0xCD64),
  (0xC251, 0xCD6C),
  (0xC253, 0xCD6D),
  (0xC255, 0xCD6F),
  (0xC257, 0xCD71),
  (0xC261, 0xCD78),
  (0xC271, 0xCD88),
  (0xC281, 0xCD94_CD95),
  (0xC285, 0xCD98),
  (0xC289, 0xCD9C),
  (0xC291, 0xCDA4),
  (0xC293, 0xCDA5),
  (0xC295, 0xCDA7),
  (0xC297, 0xCDA9),
  (0xC2A1, 0xCDB0),
  (0xC2B5, 0xCDC3_CDC4),
  (0xC2C1, 0xCDCC),
  (0xC2C5, 0xCDD0),
  (0xC2E1, 0xCDE8),
  (0xC2E5, 0xCDEC),
  (0xC2E9, 0xCDF0),
  (0xC2F1, 0xCDF8),
  (0xC2F3, 0xCDF9),
  (0xC2F5, 0xCDFB),
  (0xC2F7, 0xCDFD),
  (0xC341, 0xCE04),
  (0xC345, 0xCE08),
  (0xC349, 0xCE0C),
  (0xC351, 0xCE14),
  (0xC357, 0xCE19),
  (0xC361, 0xCE20_CE21),
  (0xC365, 0xCE24),
  (0xC369, 0xCE28),
  (0xC371, 0xCE30),
  (0xC373, 0xCE31),
  (0xC375, 0xCE33),
  (0xC377, 0xCE35),
  (0xC381, 0xCE3C),
  (0xC3A1, 0xCE58_CE59),
  (0xC3A5, 0xCE5C),
  (0xC3A8, 0xCE5F_CE60_CE61),
  (0xC3B1, 0xCE68),
  (0xC3B3, 0xCE69),
  (0xC3B5, 0xCE6B),
  (0xC3B7, 0xCE6D),
  (0xC441, 0x314B),
  (0xC461, 0xCE74_CE75),
  (0xC465, 0xCE78),
  (0xC468, 0xCE7B_CE7C),
  (0xC471, 0xCE84),
  (0xC473, 0xCE85),
  (0xC475, 0xCE87),
  (0xC477, 0xCE89),
  (0xC481, 0xCE90_CE91),
  (0xC485, 0xCE94),
  (0xC488, 0xCE97_CE98),
  (0xC491, 0xCEA0),
  (0xC493, 0xCEA1),
  (0xC495, 0xCEA3_CEA4_CEA5),
  (0xC49B, 0xCEA9),
  (0xC4A1, 0xCEAC_CEAD),
  (0xC4B7, 0xCEC1),
  (0xC4C1, 0xCEC8),
  (0xC4E1, 0xCEE4_CEE5),
  (0xC4E5, 0xCEE8),
  (0xC4E8, 0xCEEB_CEEC),
  (0xC4F1, 0xCEF4),
  (0xC4F3, 0xCEF5),
  (0xC4F5, 0xCEF7_CEF8_CEF9),
  (0xC4FB, 0xCEFD),
  (0xC541, 0xCF00_CF01),
  (0xC545, 0xCF04),
  (0xC549, 0xCF08),
  (0xC551, 0xCF10),
  (0xC553, 0xCF11),
  (0xC555, 0xCF13),
  (0xC557, 0xCF15),
  (0xC55B, 0xCF19),
  (0xC561, 0xCF1C),
  (0xC565, 0xCF20),
  (0xC569, 0xCF24),
  (0xC571, 0xCF2C),
  (0xC573, 0xCF2D),
  (0xC575, 0xCF2F_CF30_CF31),
  (0xC581, 0xCF38),
  (0xC5A1, 0xCF54_CF55),
  (0xC5A5, 0xCF58),
  (0xC5A9, 0xCF5C),
  (0xC5B1, 0xCF64),
  (0xC5B3, 0xCF65),
  (0xC5B5, 0xCF67),
  (0xC5B7, 0xCF69),
  (0xC5C1, 0xCF70_CF71),
  (0xC5C5, 0xCF74),
  (0xC5C9, 0xCF78),
  (0xC5D1, 0xCF80),
  (0xC5D7, 0xCF85),
  (0xC5E1, 0xCF8C_CF8D),
  (0xC5E5, 0xCF90),
  (0xC5F5, 0xCF9F),
  (0xC5F7, 0xCFA1),
  (0xC641, 0xCFA8),
  (0xC645, 0xCFAC),
  (0xC649, 0xCFB0),
  (0xC657, 0xCFBD),
  (0xC661, 0xCFC4),
  (0xC681, 0xCFE0_CFE1),
  (0xC685, 0xCFE4),
  (0xC689, 0xCFE8),
  (0xC691, 0xCFF0),
  (0xC693, 0xCFF1),
  (0xC695, 0xCFF3),
  (0xC697, 0xCFF5),
  (0xC6A1, 0xCFFC),
  (0xC6A5, 0xD000),
  (0xC6A9, 0xD004),
  (0xC6B7, 0xD011),
  (0xC6C1, 0xD018),
  (0xC6D7, 0xD02D),
  (0xC6E1, 0xD034_D035),
  (0xC6E5, 0xD038),
  (0xC6E9, 0xD03C),
  (0xC6F1, 0xD044),
  (0xC6F3, 0xD045),
  (0xC6F5, 0xD047),
  (0xC6F7, 0xD049),
  (0xC741, 0xD050),
  (0xC745, 0xD054),
  (0xC749, 0xD058),
  (0xC751, 0xD060),
  (0xC761, 0xD06C_D06D),
  (0xC765, 0xD070),
  (0xC769, 0xD074),
  (0xC771, 0xD07C),
  (0xC773, 0xD07D),
  (0xC777, 0xD081),
  (0xC781, 0xD088),
  (0xC7A1, 0xD0A4_D0A5),
  (0xC7A5, 0xD0A8),
  (0xC7A9, 0xD0AC),
  (0xC7B1, 0xD0B4),
  (0xC7B3, 0xD0B5),
  (0xC7B5, 0xD0B7),
  (0xC7B7, 0xD0B9),
  (0xC841, 0x314C),
  (0xC861, 0xD0C0_D0C1),
  (0xC865, 0xD0C4),
  (0xC869, 0xD0C8_D0C9),
  (0xC871, 0xD0D0),
  (0xC873, 0xD0D1),
  (0xC875, 0xD0D3_D0D4_D0D5),
  (0xC881, 0xD0DC_D0DD),
  (0xC885, 0xD0E0),
  (0xC889, 0xD0E4),
  (0xC891, 0xD0EC),
  (0xC893, 0xD0ED),
  (0xC895, 0xD0EF_D0F0_D0F1),
  (0xC8A1, 0xD0F8),
  (0xC8B7, 0xD10D),
  (0xC8C1, 0xD114),
  (0xC8E1, 0xD130_D131),
  (0xC8E5, 0xD134),
  (0xC8E9, 0xD138),
  (0xC8EB, 0xD13A),
  (0xC8F1, 0xD140),
  (0xC8F3, 0xD141),
  (0xC8F5, 0xD143_D144_D145),
  (0xC941, 0xD14C_D14D),
  (0xC945, 0xD150),
  (0xC949, 0xD154),
  (0xC951, 0xD15C),
  (0xC953, 0xD15D),
  (0xC955, 0xD15F_D160_D161),
  (0xC961, 0xD168_D169),
  (0xC965, 0xD16C),
  (0xC976, 0xD17C),
  (0xC981, 0xD184),
  (0xC985, 0xD188),
  (0xC9A1, 0xD1A0_D1A1),
  (0xC9A5, 0xD1A4),
  (0xC9A9, 0xD1A8),
  (0xC9B1, 0xD1B0),
  (0xC9B3, 0xD1B1),
  (0xC9B5, 0xD1B3),
  (0xC9B7, 0xD1B5),
  (0xC9BC, 0xD1BA),
  (0xC9C1, 0xD1BC),
  (0xC9C5, 0xD1C0),
  (0xC9E1, 0xD1D8),
  (0xCA41, 0xD1F4),
  (0xCA45, 0xD1F8),
  (0xCA55, 0xD207),
  (0xCA57, 0xD209),
  (0xCA61, 0xD210),
  (0xCA81, 0xD22C_D22D),
  (0xCA85, 0xD230),
  (0xCA89, 0xD234),
  (0xCA91, 0xD23C),
  (0xCA93, 0xD23D),
  (0xCA95, 0xD23F),
  (0xCA97, 0xD241),
  (0xCAA1, 0xD248),
  (0xCAB6, 0xD25C),
  (0xCAC1, 0xD264),
  (0xCAD5, 0xD277),
  (0xCAE1, 0xD280_D281),
  (0xCAE5, 0xD284),
  (0xCAE9, 0xD288),
  (0xCAF1, 0xD290),
  (0xCAF3, 0xD291),
  (0xCAF5, 0xD293),
  (0xCAF7, 0xD295),
  (0xCB41, 0xD29C),
  (0xCB45, 0xD2A0),
  (0xCB49, 0xD2A4),
  (0xCB51, 0xD2AC),
  (0xCB57, 0xD2B1),
  (0xCB61, 0xD2B8_D2B9),
  (0xCB65, 0xD2BC),
  (0xCB68, 0xD2BF_D2C0),
  (0xCB6B, 0xD2C2),
  (0xCB71, 0xD2C8),
  (0xCB73, 0xD2C9),
  (0xCB75, 0xD2CB),
  (0xCB77, 0xD2CD),
  (0xCB81, 0xD2D4),
  (0xCB85, 0xD2D8),
  (0xCB89, 0xD2DC),
  (0xCB91, 0xD2E4),
  (0xCB93, 0xD2E5),
  (0xCB95, 0xD2E7),
  (0xCBA1, 0xD2F0_D2F1),
  (0xCBA5, 0xD2F4),
  (0xCBA9, 0xD2F8),
  (0xCBB1, 0xD300),
  (0xCBB3, 0xD301),
  (0xCBB5, 0xD303),
  (0xCBB7, 0xD305),
  (0xCBBC, 0xD30A),
  (0xCC41, 0x314D),
  (0xCC61, 0xD30C_D30D_D30E),
  (0xCC65, 0xD310),
  (0xCC69, 0xD314),
  (0xCC6B, 0xD316),
  (0xCC71, 0xD31C),
  (0xCC73, 0xD31D),
  (0xCC75, 0xD31F_D320_D321),
  (0xCC7B, 0xD325_D326),
  (0xCC81, 0xD328_D329),
  (0xCC85, 0xD32C),
  (0xCC89, 0xD330),
  (0xCC91, 0xD338),
  (0xCC93, 0xD339),
  (0xCC95, 0xD33B_D33C_D33D),
  (0xCCA1, 0xD344_D345),
  (0xCCB7, 0xD359),
  (0xCCC1, 0xD360),
  (0xCCE1, 0xD37C_D37D),
  (0xCCE5, 0xD380),
  (0xCCE9, 0xD384),
  (0xCCF1, 0xD38C),
  (0xCCF3, 0xD38D),
  (0xCCF5, 0xD38F_D390_D391),
  (0xCD41, 0xD398_D399),
  (0xCD45, 0xD39C),
  (0xCD49, 0xD3A0),
  (0xCD51, 0xD3A8),
  (0xCD53, 0xD3A9),
  (0xCD55, 0xD3AB),
  (0xCD57, 0xD3AD),
  (0xCD5C, 0xD3B2),
  (0xCD61, 0xD3B4_D3B5),
  (0xCD65, 0xD3B8),
  (0xCD69, 0xD3BC),
  (0xCD71, 0xD3C4),
  (0xCD73, 0xD3C5),
  (0xCD75, 0xD3C7_D3C8_D3C9),
  (0xCD81, 0xD3D0),
  (0xCD89, 0xD3D8),
  (0xCD93, 0xD3E1),
  (0xCD95, 0xD3E3),
  (0xCDA1, 0xD3EC_D3ED),
  (0xCDA5, 0xD3F0),
  (0xCDA9, 0xD3F4),
  (0xCDB1, 0xD3FC),
  (0xCDB3, 0xD3FD),
  (0xCDB5, 0xD3FF),
  (0xCDB7, 0xD401),
  (0xCDC1, 0xD408),
  (0xCDD7, 0xD41D),
  (0xCDE1, 0xD424),
  (0xCE41, 0xD440),
  (0xCE45, 0xD444),
  (0xCE61, 0xD45C),
  (0xCE65, 0xD460),
  (0xCE69, 0xD464),
  (0xCE73, 0xD46D),
  (0xCE75, 0xD46F),
  (0xCE81, 0xD478_D479),
  (0xCE85, 0xD47C),
  (0xCE88, 0xD47F_D480),
  (0xCE8B, 0xD482),
  (0xCE91, 0xD488),
  (0xCE93, 0xD489),
  (0xCE95, 0xD48B),
  (0xCE97, 0xD48D),
  (0xCEA1, 0xD494),
  (0xCEB7, 0xD4A9),
  (0xCEC1, 0xD4B0),
  (0xCEE1, 0xD4CC),
  (0xCEE5, 0xD4D0),
  (0xCEE9, 0xD4D4),
  (0xCEF1, 0xD4DC),
  (0xCEF5, 0xD4DF),
  (0xCF41, 0xD4E8_D4E9),
  (0xCF45, 0xD4EC),
  (0xCF49, 0xD4F0),
  (0xCF51, 0xD4F8),
  (0xCF55, 0xD4FB),
  (0xCF57, 0xD4FD),
  (0xCF61, 0xD504_D505),
  (0xCF65, 0xD508),
  (0xCF69, 0xD50C),
  (0xCF6D, 0xD510),
  (0xCF71, 0xD514),
  (0xCF73, 0xD515),
  (0xCF75, 0xD517),
  (0xCF77, 0xD519),
  (0xCF81, 0xD520),
  (0xCF85, 0xD524),
  (0xCFA1, 0xD53C_D53D),
  (0xCFA5, 0xD540),
  (0xCFA9, 0xD544),
  (0xCFB1, 0xD54C),
  (0xCFB3, 0xD54D),
  (0xCFB5, 0xD54F),
  (0xCFB7, 0xD551),
  (0xD041, 0x314E),
  (0xD061, 0xD558_D559),
  (0xD065, 0xD55C),
  (0xD068, 0xD55F_D560_D561),
  (0xD06E, 0xD565),
  (0xD071, 0xD568),
  (0xD073, 0xD569),
  (0xD075, 0xD56B_D56C_D56D),
  (0xD07B, 0xD571),
  (0xD081, 0xD574_D575),
  (0xD085, 0xD578),
  (0xD089, 0xD57C),
  (0xD091, 0xD584),
  (0xD093, 0xD585),
  (0xD095, 0xD587_D588_D589),
  (0xD0A1, 0xD590),
  (0xD0B7, 0xD5A5),
  (0xD0C1, 0xD5AC),
  (0xD0E1, 0xD5C8_D5C9),
  (0xD0E5, 0xD5CC),
  (0xD0E8, 0xD5CF_D5D0),
  (0xD0EB, 0xD5D2),
  (0xD0F1, 0xD5D8),
  (0xD0F3, 0xD5D9),
  (0xD0F5, 0xD5DB),
  (0xD0F7, 0xD5DD),
  (0xD141, 0xD5E4_D5E5),
  (0xD145, 0xD5E8),
  (0xD149, 0xD5EC),
  (0xD151, 0xD5F4),
  (0xD153, 0xD5F5),
  (0xD155, 0xD5F7),
  (0xD157, 0xD5F9),
  (0xD161, 0xD600_D601),
  (0xD165, 0xD604),
  (0xD169, 0xD608),
  (0xD171, 0xD610),
  (0xD173, 0xD611),
  (0xD175, 0xD613_D614_D615),
  (0xD181, 0xD61C),
  (0xD185, 0xD620),
  (0xD189, 0xD624),
  (0xD191, 0xD62C),
  (0xD193, 0xD62D),
  (0xD1A1, 0xD638_D639),
  (0xD1A5, 0xD63C),
  (0xD1A9, 0xD640),
  (0xD1AE, 0xD645),
  (0xD1B1, 0xD648),
  (0xD1B3, 0xD649),
  (0xD1B5, 0xD64B),
  (0xD1B7, 0xD64D),
  (0xD1BB, 0xD651),
  (0xD1C1, 0xD654_D655),
  (0xD1C5, 0xD658),
  (0xD1C9, 0xD65C),
  (0xD1D5, 0xD667),
  (0xD1D7, 0xD669),
  (0xD1E1, 0xD670_D671),
  (0xD1E5, 0xD674),
  (0xD1F5, 0xD683),
  (0xD1F7, 0xD685),
  (0xD241, 0xD68C_D68D),
  (0xD245, 0xD690),
  (0xD249, 0xD694),
  (0xD253, 0xD69D),
  (0xD255, 0xD69F),
  (0xD257, 0xD6A1),
  (0xD261, 0xD6A8_D6A9),
  (0xD265, 0xD6AC),
  (0xD269, 0xD6B0),
  (0xD271, 0xD6B8),
  (0xD273, 0xD6B9),
  (0xD275, 0xD6BB),
  (0xD281, 0xD6C4_D6C5),
  (0xD285, 0xD6C8),
  (0xD289, 0xD6CC),
  (0xD28E, 0xD6D1),
  (0xD291, 0xD6D4),
  (0xD293, 0xD6D5),
  (0xD295, 0xD6D7),
  (0xD297, 0xD6D9),
  (0xD2A1, 0xD6E0),
  (0xD2A5, 0xD6E4),
  (0xD2A9, 0xD6E8),
  (0xD2B1, 0xD6F0),
  (0xD2B7, 0xD6F5),
  (0xD2C1, 0xD6FC_D6FD),
  (0xD2C5, 0xD700),
  (0xD2C9, 0xD704),
  (0xD2D1, 0xD70C),
  (0xD2D7, 0xD711),
  (0xD2E1, 0xD718_D719),
  (0xD2E5, 0xD71C),
  (0xD2E9, 0xD720),
  (0xD2F1, 0xD728),
  (0xD2F3, 0xD729),
  (0xD2F5, 0xD72B),
  (0xD2F7, 0xD72D),
  (0xD341, 0xD734_D735),
  (0xD345, 0xD738),
  (0xD349, 0xD73C),
  (0xD351, 0xD744),
  (0xD355, 0xD747),
  (0xD357, 0xD749),
  (0xD361, 0xD750_D751),
  (0xD365, 0xD754),
  (0xD367, 0xD756_D757_D758_D759),
  (0xD371, 0xD760),
  (0xD373, 0xD761),
  (0xD375, 0xD763),
  (0xD377, 0xD765),
  (0xD37B, 0xD769),
  (0xD381, 0xD76C_D76D),
  (0xD385, 0xD770),
  (0xD389, 0xD774),
  (0xD391, 0xD77C),
  (0xD393, 0xD77D),
  (0xD397, 0xD781),
  (0xD3A1, 0xD788_D789),
  (0xD3A5, 0xD78C),
  (0xD3A9, 0xD790),
  (0xD3B1, 0xD798),
  (0xD3B3, 0xD799),
  (0xD3B5, 0xD79B),
  (0xD3B7, 0xD79D),
  (0xD441, 0xE000_E001_E002_E003_E004_E005_E006_E007_E008_E009_E00A_E00B),
  (0xD44D, 0xE00C_E00D_E00E_E00F_E010_E011_E012_E013_E014_E015_E016_E017),
  (0xD459, 0xE018_E019_E01A_E01B_E01C_E01D_E01E_E01F_E020_E021_E022_E023),
  (0xD465, 0xE024_E025_E026_E027_E028_E029_E02A_E02B_E02C_E02D_E02E_E02F),
  (0xD471, 0xE030_E031_E032_E033_E034_E035_E036_E037_E038_E039_E03A_E03B),
  (0xD47D, 0xE03C_E03D_E03E),
  (0xD481, 0xE03F_E040_E041_E042_E043_E044_E045_E046_E047_E048_E049_E04A),
  (0xD48D, 0xE04B_E04C_E04D_E04E_E04F_E050_E051_E052_E053_E054_E055_E056),
  (0xD499, 0xE057_E058_E059_E05A_E05B_E05C_E05D_E05E_E05F_E060_E061_E062),
  (0xD4A5, 0xE063_E064_E065_E066_E067_E068_E069_E06A_E06B_E06C_E06D_E06E),
  (0xD4B1, 0xE06F_E070_E071_E072_E073_E074_E075_E076_E077_E078_E079_E07A),
  (0xD4BD, 0xE07B_E07C_E07D_E07E_E07F_E080_E081_E082_E083_E084_E085_E086),
  (0xD4C9, 0xE087_E088_E089_E08A_E08B_E08C_E08D_E08E_E08F_E090_E091_E092),
  (0xD4D5, 0xE093_E094_E095_E096_E097_E098_E099_E09A_E09B_E09C_E09D_E09E),
  (0xD4E1, 0xE09F_E0A0_E0A1_E0A2_E0A3_E0A4_E0A5_E0A6_E0A7_E0A8_E0A9_E0AA),
  (0xD4ED, 0xE0AB_E0AC_E0AD_E0AE_E0AF_E0B0_E0B1_E0B2_E0B3_E0B4_E0B5_E0B6),
  (0xD4F9, 0xE0B7_E0B8_E0B9_E0BA_E0BB),
  (0xD541, 0xE0BC_E0BD_E0BE_E0BF_E0C0_E0C1_E0C2_E0C3_E0C4_E0C5_E0C6_E0C7),
  (0xD54D, 0xE0C8_E0C9_E0CA_E0CB_E0CC_E0CD_E0CE_E0CF_E0D0_E0D1_E0D2_E0D3),
  (0xD559, 0xE0D4_E0D5_E0D6_E0D7_E0D8_E0D9_E0DA_E0DB_E0DC_E0DD_E0DE_E0DF),
  (0xD565, 0xE0E0_E0E1_E0E2_E0E3_E0E4_E0E5_E0E6_E0E7_E0E8_E0E9_E0EA_E0EB),
  (0xD571, 0xE0EC_E0ED_E0EE_E0EF_E0F0_E0F1_E0F2_E0F3_E0F4_E0F5_E0F6_E0F7),
  (0xD57D, 0xE0F8_E0F9_E0FA),
  (0xD581, 0xE0FB_E0FC_E0FD_E0FE_E0FF_E100_E101_E102_E103_E104_E105_E106),
  (0xD58D, 0xE107_E108_E109_E10A_E10B_E10C_E10D_E10E_E10F_E110_E111_E112),
  (0xD599, 0xE113_E114_E115_E116_E117_E118_E119_E11A_E11B_E11C_E11D_E11E),
  (0xD5A5, 0xE11F_E120_E121_E122_E123_E124_E125_E126_E127_E128_E129_E12A),
  (0xD5B1, 0xE12B_E12C_E12D_E12E_E12F_E130_E131_E132_E133_E134_E135_E136),
  (0xD5BD, 0xE137_E138_E139_E13A_E13B_E13C_E13D_E13E_E13F_E140_E141_E142),
  (0xD5C9, 0xE143_E144_E145_E146_E147_E148_E149_E14A_E14B_E14C_E14D_E14E),
  (0xD5D5, 0xE14F_E150_E151_E152_E153_E154_E155_E156_E157_E158_E159_E15A),
  (0xD5E1, 0xE15B_E15C_E15D_E15E_E15F_E160_E161_E162_E163_E164_E165_E166),
  (0xD5ED, 0xE167_E168_E169_E16A_E16B_E16C_E16D_E16E_E16F_E170_E171_E172),
  (0xD5F9, 0xE173_E174_E175_E176_E177),
  (0xD641, 0xE178_E179_E17A_E17B_E17C_E17D_E17E_E17F_E180_E181_E182_E183),
  (0xD64D, 0xE184_E185_E186_E187_E188_E189_E18A_E18B_E18C_E18D_E18E_E18F),
  (0xD659, 0xE190_E191_E192_E193_E194_E195_E196_E197_E198_E199_E19A_E19B),
  (0xD665, 0xE19C_E19D_E19E_E19F_E1A0_E1A1_E1A2_E1A3_E1A4_E1A5_E1A6_E1A7),
  (0xD671, 0xE1A8_E1A9_E1AA_E1AB_E1AC_E1AD_E1AE_E1AF_E1B0_E1B1_E1B2_E1B3),
  (0xD67D, 0xE1B4_E1B5_E1B6),
  (0xD681, 0xE1B7_E1B8_E1B9_E1BA_E1BB_E1BC_E1BD_E1BE_E1BF_E1C0_E1C1_E1C2),
  (0xD68D, 0xE1C3_E1C4_E1C5_E1C6_E1C7_E1C8_E1C9_E1CA_E1CB_E1CC_E1CD_E1CE),
  (0xD699, 0xE1CF_E1D0_E1D1_E1D2_E1D3_E1D4_E1D5_E1D6_E1D7_E1D8_E1D9_E1DA),
  (0xD6A5, 0xE1DB_E1DC_E1DD_E1DE_E1DF_E1E0_E1E1_E1E2_E1E3_E1E4_E1E5_E1E6),
  (0xD6B1, 0xE1E7_E1E8_E1E9_E1EA_E1EB_E1EC_E1ED_E1EE_E1EF_E1F0_E1F1_E1F2),
  (0xD6BD, 0xE1F3_E1F4_E1F5_E1F6_E1F7_E1F8_E1F9_E1FA_E1FB_E1FC_E1FD_E1FE),
  (0xD6C9, 0xE1FF_E200_E201_E202_E203_E204_E205_E206_E207_E208_E209_E20A),
  (0xD6D5, 0xE20B_E20C_E20D_E20E_E20F_E210_E211_E212_E213_E214_E215_E216),
  (0xD6E1, 0xE217_E218_E219_E21A_E21B_E21C_E21D_E21E_E21F_E220_E221_E222),
  (0xD6ED, 0xE223_E224_E225_E226_E227_E228_E229_E22A_E22B_E22C_E22D_E22E),
  (0xD6F9, 0xE22F_E230_E231_E232_E233),
  (0xD741, 0xE234_E235_E236_E237_E238_E239_E23A_E23B_E23C_E23D_E23E_E23F),
  (0xD74D, 0xE240_E241_E242_E243_E244_E245_E246_E247_E248_E249_E24A_E24B),
  (0xD759, 0xE24C_E24D_E24E_E24F_E250_E251_E252_E253_E254_E255_E256_E257),
  (0xD765, 0xE258_E259_E25A_E25B_E25C_E25D_E25E_E25F_E260_E261_E262_E263),
  (0xD771, 0xE264_E265_E266_E267_E268_E269_E26A_E26B_E26C_E26D_E26E_E26F),
  (0xD77D, 0xE270_E271_E272),
  (0xD781, 0xE273_E274_E275_E276_E277_E278_E279_E27A_E27B_E27C_E27D_E27E),
  (0xD78D, 0xE27F_E280_E281_E282_E283_E284_E285_E286_E287_E288_E289_E28A),
  (0xD799, 0xE28B_E28C_E28D_E28E_E28F_E290_E291_E292_E293_E294_E295_E296),
  (0xD7A5, 0xE297_E298_E299_E29A_E29B_E29C_E29D_E29E_E29F_E2A0_E2A1_E2A2),
  (0xD7B1, 0xE2A3_E2A4_E2A5_E2A6_E2A7_E2A8_E2A9_E2AA_E2AB_E2AC_E2AD_E2AE),
  (0xD7BD, 0xE2AF_E2B0_E2B1_E2B2_E2B3_E2B4_E2B5_E2B6_E2B7_E2B8_E2B9_E2BA),
  (0xD7C9, 0xE2BB_E2BC_E2BD_E2BE_E2BF_E2C0_E2C1_E2C2_E2C3_E2C4_E2C5_E2C6),
  (0xD7D5, 0xE2C7_E2C8_E2C9_E2CA_E2CB_E2CC_E2CD_E2CE_E2CF_E2D0_E2D1_E2D2),
  (0xD7E1, 0xE2D3_E2D4_E2D5_E2D6_E2D7_E2D8_E2D9_E2DA_E2DB_E2DC_E2DD_E2DE),
  (0xD7ED, 0xE2DF_E2E0_E2E1_E2E2_E2E3_E2E4_E2E5_E2E6_E2E7_E2E8_E2E9_E2EA),
  (0xD7F9, 0xE2EB_E2EC_E2ED_E2EE_E2EF),
  (0xD841, 0xE2F0_E2F1_E2F2_E2F3_E2F4_E2F5_E2F6_E2F7_E2F8_E2F9_E2FA_E2FB),
  (0xD84D, 0xE2FC_E2FD_E2FE_E2FF_E300_E301_E302_E303_E304_E305_E306_E307),
  (0xD859, 0xE308_E309_E30A_E30B_E30C_E30D_E30E_E30F_E310_E311_E312_E313),
  (0xD865, 0xE314_E315_E316_E317_E318_E319_E31A_E31B_E31C_E31D_E31E_E31F),
  (0xD871, 0xE320_E321_E322_E323_E324_E325_E326_E327_E328_E329_E32A_E32B),
  (0xD87D, 0xE32C_E32D_E32E),
  (0xD881, 0xE32F_E330_E331_E332_E333_E334_E335_E336_E337_E338_E339_E33A),
  (0xD88D, 0xE33B_E33C_E33D_E33E_E33F_E340_E341_E342_E343_E344_E345_E346),
  (0xD899, 0xE347_E348_E349_E34A_E34B_E34C_E34D_E34E_E34F_E350_E351_E352),
  (0xD8A5, 0xE353_E354_E355_E356_E357_E358_E359_E35A_E35B_E35C_E35D_E35E),
  (0xD8B1, 0xE35F_E360_E361_E362_E363_E364_E365_E366_E367_E368_E369_E36A),
  (0xD8BD, 0xE36B_E36C_E36D_E36E_E36F_E370_E371_E372_E373_E374_E375_E376),
  (0xD8C9, 0xE377_E378_E379_E37A_E37B_E37C_E37D_E37E_E37F_E380_E381_E382),
  (0xD8D5, 0xE383_E384_E385_E386_E387_E388_E389_E38A_E38B_E38C_E38D_E38E),
  (0xD8E1, 0xE38F_E390_E391_E392_E393_E394_E395_E396_E397_E398_E399_E39A),
  (0xD8ED, 0xE39B_E39C_E39D_E39E_E39F_E3A0_E3A1_E3A2_E3A3_E3A4_E3A5_E3A6),
  (0xD8F9, 0xE3A7_E3A8_E3A9_E3AA_E3AB),
  (0xD941, 0xE3AC_E3AD_E3AE_E3AF_E3B0_E3B1_E3B2_E3B3_E3B4_E3B5_E3B6_E3B7),
  (0xD94D, 0xE3B8_E3B9_E3BA_E3BB_E3BC_E3BD_E3BE_E3BF_E3C0_E3C1_E3C2_E3C3),
  (0xD959, 0xE3C4_E3C5_E3C6_E3C7_E3C8_E3C9_E3CA_E3CB_E3CC_E3CD_E3CE_E3CF),
  (0xD965, 0xE3D0_E3D1_E3D2_E3D3_E3D4_E3D5_E3D6_E3D7_E3D8_E3D9_E3DA_E3DB),
  (0xD971, 0xE3DC_E3DD_E3DE_E3DF_E3E0_E3E1_E3E2_E3E3_E3E4_E3E5_E3E6_E3E7),
  (0xD97D, 0xE3E8_E3E9_E3EA),
  (0xD981, 0xE3EB_E3EC_E3ED_E3EE_E3EF_E3F0_E3F1_E3F2_E3F3_E3F4_E3F5_E3F6),
  (0xD98D, 0xE3F7_E3F8_E3F9_E3FA_E3FB_E3FC_E3FD_E3FE_E3FF_E400_E401_E402),
  (0xD999, 0xE403_E404_E405_E406_E407_E408_E409_E40A_E40B_E40C_E40D_E40E),
  (0xD9A5, 0xE40F_E410_E411_E412_E413_E414_E415_E416_E417_E418_E419_E41A),
  (0xD9B1, 0xE41B_E41C_E41D_E41E_E41F_E420_E421_E422_E423_E424_E425_E426),
  (0xD9BD, 0xE427_E428_E429_E42A_E42B_E42C_E42D_E42E_E42F_E430_E431_E432),
  (0xD9C9, 0xE433_E434_E435_E436_E437_E438_E439_E43A_E43B_E43C_E43D_E43E),
  (0xD9D5, 0xE43F_E440_E441_E442_E443_E444_E445_E446_E447_E448_E449_E44A),
  (0xD9E1, 0xE44B_E44C_E44D_E44E_E44F_E450_E451_E452_E453_E454_E455_E456),
  (0xD9ED, 0xE457_E458_E459_E45A_E45B_E45C_E45D_E45E_E45F_E460_E461_E462),
  (0xD9F9, 0xE463_E464_E465_E466_E467),
  (0xDA41, 0xE468_E469_E46A_E46B_E46C_E46D_E46E_E46F_E470_E471_E472_E473),
  (0xDA4D, 0xE474_E475_E476_E477_E478_E479_E47A_E47B_E47C_E47D_E47E_E47F),
  (0xDA59, 0xE480_E481_E482_E483_E484_E485_E486_E487_E488_E489_E48A_E48B),
  (0xDA65, 0xE48C_E48D_E48E_E48F_E490_E491_E492_E493_E494_E495_E496_E497),
  (0xDA71, 0xE498_E499_E49A_E49B_E49C_E49D_E49E_E49F_E4A0_E4A1_E4A2_E4A3),
  (0xDA7D, 0xE4A4_E4A5_E4A6),
  (0xDA81, 0xE4A7_E4A8_E4A9_E4AA_E4AB_E4AC_E4AD_E4AE_E4AF_E4B0_E4B1_E4B2),
  (0xDA8D, 0xE4B3_E4B4_E4B5_E4B6_E4B7_E4B8_E4B9_E4BA_E4BB_E4BC_E4BD_E4BE),
  (0xDA99, 0xE4BF_E4C0_E4C1_E4C2_E4C3_E4C4_E4C5_E4C6_E4C7_E4C8_E4C9_E4CA),
  (0xDAA5, 0xE4CB_E4CC_E4CD_E4CE_E4CF_E4D0_E4D1_E4D2_E4D3_E4D4_E4D5_E4D6),
  (0xDAB1, 0xE4D7_E4D8_E4D9_E4DA_E4DB_E4DC_E4DD_E4DE_E4DF_E4E0_E4E1_E4E2),
  (0xDABD, 0xE4E3_E4E4_E4E5_E4E6_E4E7_E4E8_E4E9_E4EA_E4EB_E4EC_E4ED_E4EE),
  (0xDAC9, 0xE4EF_E4F0_E4F1_E4F2_E4F3_E4F4_E4F5_E4F6_E4F7_E4F8_E4F9_E4FA),
  (0xDAD5, 0xE4FB_E4FC_E4FD_E4FE_E4FF_E500_E501_E502_E503_E504_E505_E506),
  (0xDAE1, 0xE507_E508_E509_E50A_E50B_E50C_E50D_E50E_E50F_E510_E511_E512),
  (0xDAED, 0xE513_E514_E515_E516_E517_E518_E519_E51A_E51B_E51C_E51D_E51E),
  (0xDAF9, 0xE51F_E520_E521_E522_E523),
  (0xDB41, 0xE524_E525_E526_E527_E528_E529_E52A_E52B_E52C_E52D_E52E_E52F),
  (0xDB4D, 0xE530_E531_E532_E533_E534_E535_E536_E537_E538_E539_E53A_E53B),
  (0xDB59, 0xE53C_E53D_E53E_E53F_E540_E541_E542_E543_E544_E545_E546_E547),
  (0xDB65, 0xE548_E549_E54A_E54B_E54C_E54D_E54E_E54F_E550_E551_E552_E553),
  (0xDB71, 0xE554_E555_E556_E557_E558_E559_E55A_E55B_E55C_E55D_E55E_E55F),
  (0xDB7D, 0xE560_E561_E562),
  (0xDB81, 0xE563_E564_E565_E566_E567_E568_E569_E56A_E56B_E56C_E56D_E56E),
  (0xDB8D, 0xE56F_E570_E571_E572_E573_E574_E575_E576_E577_E578_E579_E57A),
  (0xDB99, 0xE57B_E57C_E57D_E57E_E57F_E580_E581_E582_E583_E584_E585_E586),
  (0xDBA5, 0xE587_E588_E589_E58A_E58B_E58C_E58D_E58E_E58F_E590_E591_E592),
  (0xDBB1, 0xE593_E594_E595_E596_E597_E598_E599_E59A_E59B_E59C_E59D_E59E),
  (0xDBBD, 0xE59F_E5A0_E5A1_E5A2_E5A3_E5A4_E5A5_E5A6_E5A7_E5A8_E5A9_E5AA),
  (0xDBC9, 0xE5AB_E5AC_E5AD_E5AE_E5AF_E5B0_E5B1_E5B2_E5B3_E5B4_E5B5_E5B6),
  (0xDBD5, 0xE5B7_E5B8_E5B9_E5BA_E5BB_E5BC_E5BD_E5BE_E5BF_E5C0_E5C1_E5C2),
  (0xDBE1, 0xE5C3_E5C4_E5C5_E5C6_E5C7_E5C8_E5C9_E5CA_E5CB_E5CC_E5CD_E5CE),
  (0xDBED, 0xE5CF_E5D0_E5D1_E5D2_E5D3_E5D4_E5D5_E5D6_E5D7_E5D8_E5D9_E5DA),
  (0xDBF9, 0xE5DB_E5DC_E5DD_E5DE_E5DF),
  (0xDC41, 0xE5E0_E5E1_E5E2_E5E3_E5E4_E5E5_E5E6_E5E7_E5E8_E5E9_E5EA_E5EB),
  (0xDC4D, 0xE5EC_E5ED_E5EE_E5EF_E5F0_E5F1_E5F2_E5F3_E5F4_E5F5_E5F6_E5F7),
  (0xDC59, 0xE5F8_E5F9_E5FA_E5FB_E5FC_E5FD_E5FE_E5FF_E600_E601_E602_E603),
  (0xDC65, 0xE604_E605_E606_E607_E608_E609_E60A_E60B_E60C_E60D_E60E_E60F),
  (0xDC71, 0xE610_E611_E612_E613_E614_E615_E616_E617_E618_E619_E61A_E61B),
  (0xDC7D, 0xE61C_E61D_E61E),
  (0xDC81, 0xE61F_E620_E621_E622_E623_E624_E625_E626_E627_E628_E629_E62A),
  (0xDC8D, 0xE62B_E62C_E62D_E62E_E62F_E630_E631_E632_E633_E634_E635_E636),
  (0xDC99, 0xE637_E638_E639_E63A_E63B_E63C_E63D_E63E_E63F_E640_E641_E642),
  (0xDCA5, 0xE643_E644_E645_E646_E647_E648_E649_E64A_E64B_E64C_E64D_E64E),
  (0xDCB1, 0xE64F_E650_E651_E652_E653_E654_E655_E656_E657_E658_E659_E65A),
  (0xDCBD, 0xE65B_E65C_E65D_E65E_E65F_E660_E661_E662_E663_E664_E665_E666),
  (0xDCC9, 0xE667_E668_E669_E66A_E66B_E66C_E66D_E66E_E66F_E670_E671_E672),
  (0xDCD5, 0xE673_E674_E675_E676_E677_E678_E679_E67A_E67B_E67C_E67D_E67E),
  (0xDCE1, 0xE67F_E680_E681_E682_E683_E684_E685_E686_E687_E688_E689_E68A),
  (0xDCED, 0xE68B_E68C_E68D_E68E_E68F_E690_E691_E692_E693_E694_E695_E696),
  (0xDCF9, 0xE697_E698_E699_E69A_E69B),
  (0xDD41, 0xE69C_E69D_E69E_E69F_E6A0_E6A1_E6A2_E6A3_E6A4_E6A5_E6A6_E6A7),
  (0xDD4D, 0xE6A8_E6A9_E6AA_E6AB_E6AC_E6AD_E6AE_E6AF_E6B0_E6B1_E6B2_E6B3),
  (0xDD59, 0xE6B4_E6B5_E6B6_E6B7_E6B8_E6B9_E6BA_E6BB_E6BC_E6BD_E6BE_E6BF),
  (0xDD65, 0xE6C0_E6C1_E6C2_E6C3_E6C4_E6C5_E6C6_E6C7_E6C8_E6C9_E6CA_E6CB),
  (0xDD71, 0xE6CC_E6CD_E6CE_E6CF_E6D0_E6D1_E6D2_E6D3_E6D4_E6D5_E6D6_E6D7),
  (0xDD7D, 0xE6D8_E6D9_E6DA),
  (0xDD81, 0xE6DB_E6DC_E6DD_E6DE_E6DF_E6E0_E6E1_E6E2_E6E3_E6E4_E6E5_E6E6),
  (0xDD8D, 0xE6E7_E6E8_E6E9_E6EA_E6EB_E6EC_E6ED_E6EE_E6EF_E6F0_E6F1_E6F2),
  (0xDD99, 0xE6F3_E6F4_E6F5_E6F6_E6F7_E6F8_E6F9_E6FA_E6FB_E6FC_E6FD_E6FE),
  (0xDDA5, 0xE6FF_E700_E701_E702_E703_E704_E705_E706_E707_E708_E709_E70A),
  (0xDDB1, 0xE70B_E70C_E70D_E70E_E70F_E710_E711_E712_E713_E714_E715_E716),
  (0xDDBD, 0xE717_E718_E719_E71A_E71B_E71C_E71D_E71E_E71F_E720_E721_E722),
  (0xDDC9, 0xE723_E724_E725_E726_E727_E728_E729_E72A_E72B_E72C_E72D_E72E),
  (0xDDD5, 0xE72F_E730_E731_E732_E733_E734_E735_E736_E737_E738_E739_E73A),
  (0xDDE1, 0xE73B_E73C_E73D_E73E_E73F_E740_E741_E742_E743_E744_E745_E746),
  (0xDDED, 0xE747_E748_E749_E74A_E74B_E74C_E74D_E74E_E74F_E750_E751_E752),
  (0xDDF9, 0xE753_E754_E755_E756_E757)]

/-- The lines of /repo/modules/to/IBM-933.txt: character, code; sorted.  All call the callback. -/
def writes933 : Chart := Chart.wide [
  (0x1, 0x0001_0002_0003_0037_002D_002E_002F_0016_0005_0025_000B_000C),
  (0xD, 0x000D_000E_000F_0010_0011_0012_0013_003C_003D_0032_0026_0018),
  (0x19, 0x0019_003F_0027_001C_001D_001E_001F_0040_005A_007F_007B_005B),
  (0x25, 0x006C_0050_007D_004D_005D_005C_004E_006B_0060_004B_0061_00F0),
  (0x31, 0x00F1_00F2_00F3_00F4_00F5_00F6_00F7_00F8_00F9_007A_005E_004C),
  (0x3D, 0x007E_006E_006F_007C_00C1_00C2_00C3_00C4_00C5_00C6_00C7_00C8),
  (0x49, 0x00C9_00D1_00D2_00D3_00D4_00D5_00D6_00D7_00D8_00D9_00E2_00E3),
  (0x55, 0x00E4_00E5_00E6_00E7_00E8_00E9_0070_00B2_0080_00B0_006D_0079),
  (0x61, 0x0081_0082_0083_0084_0085_0086_0087_0088_0089_0091_0092_0093),
  (0x6D, 0x0094_0095_0096_0097_0098_0099_00A2_00A3_00A4_00A5_00A6_00A7),
  (0x79, 0x00A8_00A9_00C0_004F_00D0_00A1_0007_0020_0021_0022_0023_0024),
  (0x85, 0x0015_0006_0017_0028_0029_002A_002B_002C_0009_000A_001B_0030),
  (0x91, 0x0031_001A_0033_0034_0035_0036_0008_0038_0039_003A_003B_0004),
  (0x9D, 0x0014_003E_00FF),
  (0xA1, 0x495C_004A),
  (0xA4, 0x4962),
  (0xA6, 0x006A_4176_4146),
  (0xAA, 0x4B43),
  (0xAC, 0x005F_4148),
  (0xB0, 0x4165_415D_4BF6_4BF7_4953),
  (0xB6, 0x4980_4143_495A_4BF5_4B4C),
  (0xBC, 0x4B99_4B96_4B9A_495D),
  (0xC6, 0x4B41),
  (0xD0, 0x4B42),
  (0xD7, 0x415E_4B4A),
  (0xDE, 0x4B4D_4BAB),
  (0xE6, 0x4BA0),
  (0xF0, 0x4BA2),
  (0xF7, 0x415F_4BA9),
  (0xFE, 0x4BAC),
  (0x111, 0x4BA1),
  (0x126, 0x4B44_4BA3),
  (0x131, 0x4BA4_4B46_4BA5),
  (0x138, 0x4BA6),
  (0x13F, 0x4B48_4BA7_4B49_4BA8),
  (0x149, 0x4BAF_4B4F_4BAE),
  (0x152, 0x4B4B_4BAA),
  (0x166, 0x4B4E_4BAD),
  (0x1C2, 0x4160),
  (0x2BA, 0x4994),
  (0x2C7, 0x4955),
  (0x2D0, 0x495E),
  (0x2D8, 0x4956_4959_4958_495B_4954_4957),
  (0x391, 0x4661_4662_4663_4664_4665_4666_4667_4668_4669_466A_466B_466C),
  (0x39D, 0x466D_466E_466F_4670_4671),
  (0x3A3, 0x4672_4673_4674_4675_4676_4677_4678),
  (0x3B1, 0x4681_4682_4683_4684_4685_4686_4687_4688_4689_468A_468B_468C),
  (0x3BD, 0x468D_468E_468F_4690_4691),
  (0x3C3, 0x4692_4693_4694_4695_4696_4697_4698),
  (0x401, 0x4A47),
  (0x410, 0x4A41_4A42_4A43_4A44_4A45_4A46_4A48_4A49_4A4A_4A4B_4A4C_4A4D),
  (0x41C, 0x4A4E_4A4F_4A50_4A51_4A52_4A53_4A54_4A55_4A56_4A57_4A58_4A59),
  (0x428, 0x4A5A_4A5B_4A5C_4A5D_4A5E_4A5F_4A60_4A61_4A62_4A63_4A64_4A65),
  (0x434, 0x4A66_4A67_4A69_4A6A_4A6B_4A6C_4A6D_4A6E_4A6F_4A70_4A71_4A72),
  (0x440, 0x4A73_4A74_4A75_4A76_4A77_4A78_4A79_4A7A_4A7B_4A7C_4A7D_4A7E),
  (0x44C, 0x4A7F_4A80_4A81_4A82),
  (0x451, 0x4A68),
  (0x2010, 0x4148),
  (0x2014, 0x4149_4149),
  (0x2018, 0x414D_414E),
  (0x201C, 0x414F_4150),
  (0x2020, 0x4981_4982),
  (0x2025, 0x4144_4145),
  (0x2030, 0x4964),
  (0x2032, 0x4166_4167),
  (0x203B, 0x4177),
  (0x203E, 0x00A0),
  (0x2074, 0x4BF8),
  (0x207F, 0x4BF9),
  (0x2081, 0x4BFA_4BFB_4BFC_4BFD),
  (0x20A9, 0x00E0),
  (0x2103, 0x4168),
  (0x2109, 0x4963),
  (0x2113, 0x416F),
  (0x2116, 0x498E),
  (0x2121, 0x4993_4990),
  (0x2126, 0x4870),
  (0x212A, 0x4169_4190),
  (0x2153, 0x4B97_4B98),
  (0x215B, 0x4B9B_4B9C_4B9D_4B9E),
  (0x2160, 0x4650_4651_4652_4653_4654_4655_4656_4657_4658_4659),
  (0x2170, 0x4641_4642_4643_4644_4645_4646_4647_4648_4649_464A),
  (0x2190, 0x4186_4187_4185_4188_4189_4983_4986_4984_4987_4985),
  (0x21D2, 0x494F),
  (0x21D4, 0x4950),
  (0x2200, 0x4951),
  (0x2202, 0x4196_4952),
  (0x2207, 0x4197_4945),
  (0x220B, 0x4946),
  (0x220F, 0x4961),
  (0x2211, 0x4960),
  (0x221A, 0x419C),
  (0x221D, 0x4941_4163),
  (0x2220, 0x4193),
  (0x2225, 0x414A),
  (0x2227, 0x494D_494E_494C_494B_4943_4944),
  (0x222E, 0x495F),
  (0x2234, 0x4164_4942),
  (0x223C, 0x42A1_419D),
  (0x2252, 0x4199),
  (0x2260, 0x418D_4198),
  (0x2264, 0x418E_418F_4161_4162),
  (0x226A, 0x419A_419B),
  (0x2282, 0x4949_494A),
  (0x2286, 0x4947_4948),
  (0x2299, 0x496F),
  (0x22A5, 0x4194),
  (0x2312, 0x4195),
  (0x2460, 0x4B87_4B88_4B89_4B8A_4B8B_4B8C_4B8D_4B8E_4B8F_4B90_4B91_4B92),
  (0x246C, 0x4B93_4B94_4B95),
  (0x2474, 0x4BE6_4BE7_4BE8_4BE9_4BEA_4BEB_4BEC_4BED_4BEE_4BEF_4BF0_4BF1),
  (0x2480, 0x4BF2_4BF3_4BF4),
  (0x249C, 0x4BCC_4BCD_4BCE_4BCF_4BD0_4BD1_4BD2_4BD3_4BD4_4BD5_4BD6_4BD7),
  (0x24A8, 0x4BD8_4BD9_4BDA_4BDB_4BDC_4BDD_4BDE_4BDF_4BE0_4BE1_4BE2_4BE3),
  (0x24B4, 0x4BE4_4BE5),
  (0x24D0, 0x4B6D_4B6E_4B6F_4B70_4B71_4B72_4B73_4B74_4B75_4B76_4B77_4B78),
  (0x24DC, 0x4B79_4B7A_4B7B_4B7C_4B7D_4B7E_4B7F_4B80_4B81_4B82_4B83_4B84),
  (0x24E8, 0x4B85_4B86),
  (0x2500, 0x4741_474C_4742_474D),
  (0x250C, 0x4743_4768_4767_474E_4744_4762_4761_474F_4746_4766_4765_4751),
  (0x2518, 0x4745_4764_4763_4750_4747_475C_4769_476A_4757_476B_476C_4752),
  (0x2524, 0x4749_475E_476D_476E_4759_476F_4770_4754_4748_4771_4772_4758),
  (0x2530, 0x475D_4773_4774_4753_474A_4775_4776_475A_475F_4777_4778_4755),
  (0x253C, 0x474B_4779_477A_475B_477B_477C_4760_477D_477E_477F_4780_4781),
  (0x2548, 0x4782_4783_4784_4756),
  (0x2592, 0x4974),
  (0x25A0, 0x4180_417F),
  (0x25A3, 0x4971_4975_4976_4979_4978_4977_497A),
  (0x25B2, 0x4182_4181),
  (0x25B6, 0x4968_4967),
  (0x25BC, 0x4184_4183),
  (0x25C0, 0x4966_4965),
  (0x25C6, 0x417E_417D_4970_496F),
  (0x25CB, 0x417A),
  (0x25CE, 0x417C_417B_4972_4973),
  (0x2605, 0x4179_4178),
  (0x260E, 0x497D_497C),
  (0x261C, 0x497E),
  (0x261E, 0x497F),
  (0x2640, 0x4192),
  (0x2642, 0x4191),
  (0x2660, 0x496A_496B),
  (0x2663, 0x496E_4969_496C),
  (0x2667, 0x496D_497B_4989_498A),
  (0x266C, 0x498B_4988),
  (0x3000, 0x4040_4141_4142_4147),
  (0x3008, 0x4153_4154_4155_4156_4157_4158_4159_415A_415B_415C),
  (0x3013, 0x418A_4151_4152),
  (0x301C, 0x42A1),
  (0x3041, 0x4441_4442_4443_4444_4445_4446_4447_4448_4449_444A_444B_444C),
  (0x304D, 0x444D_444E_444F_4450_4451_4452_4453_4454_4455_4456_4457_4458),
  (0x3059, 0x4459_445A_445B_445C_445D_445E_445F_4460_4461_4462_4463_4464),
  (0x3065, 0x4465_4466_4467_4468_4469_446A_446B_446C_446D_446E_446F_4470),
  (0x3071, 0x4471_4472_4473_4474_4475_4476_4477_4478_4479_447A_447B_447C),
  (0x307D, 0x447D_447E_447F_4480_4481_4482_4483_4484_4485_4486_4487_4488),
  (0x3089, 0x4489_448A_448B_448C_448D_448E_448F_4490_4491_4492_4493),
  (0x30A1, 0x4541_4542_4543_4544_4545_4546_4547_4548_4549_454A_454B_454C),
  (0x30AD, 0x454D_454E_454F_4550_4551_4552_4553_4554_4555_4556_4557_4558),
  (0x30B9, 0x4559_455A_455B_455C_455D_455E_455F_4560_4561_4562_4563_4564),
  (0x30C5, 0x4565_4566_4567_4568_4569_456A_456B_456C_456D_456E_456F_4570),
  (0x30D1, 0x4571_4572_4573_4574_4575_4576_4577_4578_4579_457A_457B_457C),
  (0x30DD, 0x457D_457E_457F_4580_4581_4582_4583_4584_4585_4586_4587_4588),
  (0x30E9, 0x4589_458A_458B_458C_458D_458E_458F_4590_4591_4592_4593_4594),
  (0x30F5, 0x4595_4596),
  (0x30FB, 0x4143),
  (0x3131, 0x8841_8C41_8444_9041_8446_8447_9441_9841_9C41_844A_844B_844C),
  (0x313D, 0x844D_844E_844F_8450_A041_A441_A841_8454_AC41_B041_B441_B841),
  (0x3149, 0xBC41_C041_C441_C841_CC41_D041_8461_8481_84A1_84C1_84E1_8541),
  (0x3155, 0x8561_8581_85A1_85C1_85E1_8641_8661_8681_86A1_86C1_86E1_8741),
  (0x3161, 0x8761_8781_87A1_8441_4341_4342_4343_4344_4345_4346_4347_4348),
  (0x316D, 0x4349_434A_434B_434C_434D_434E_434F_4350_4351_4352_4353_4354),
  (0x3179, 0x4355_4356_4357_4358_4359_435A_435B_435C_435D_435E_435F_4360),
  (0x3185, 0x4361_4362_4363_4364_4365_4366_4367_4368_4369_436A),
  (0x3200, 0x4BB0_4BB1_4BB2_4BB3_4BB4_4BB5_4BB6_4BB7_4BB8_4BB9_4BBA_4BBB),
  (0x320C, 0x4BBC_4BBD_4BBE_4BBF_4BC0_4BC1_4BC2_4BC3_4BC4_4BC5_4BC6_4BC7),
  (0x3218, 0x4BC8_4BC9_4BCA_4BCB_498D),
  (0x3260, 0x4B51_4B52_4B53_4B54_4B55_4B56_4B57_4B58_4B59_4B5A_4B5B_4B5C),
  (0x326C, 0x4B5D_4B5E_4B5F_4B60_4B61_4B62_4B63_4B64_4B65_4B66_4B67_4B68),
  (0x3278, 0x4B69_4B6A_4B6B_4B6C),
  (0x327F, 0x498C),
  (0x3380, 0x4860_4861_4862_4863_4864),
  (0x3388, 0x4851_4852_4873_4874_4875_484F_4174_4175_486B_486C_486D_486E),
  (0x3394, 0x486F_4841_416D_416E_4842_4847_4848_4849_4171_4172_4173_484A),
  (0x33A0, 0x484B_484C_484D_4843_4844_4845_4846_4854_4855_487C_487D_487E),
  (0x33AC, 0x487F_4878_4879_487A_4856_4857_4858_4859_485A_485B_485C_485D),
  (0x33B8, 0x485E_485F_4865_4866_4867_4868_4869_486A_4871_4872_4991_4883),
  (0x33C4, 0x4170_4877_4886_498F_4853_4884_484E),
  (0x33CF, 0x4850_4881),
  (0x33D3, 0x4882),
  (0x33D6, 0x4876),
  (0x33D8, 0x4992),
  (0x33DB, 0x487B_4885_4880),
  (0x4E00, 0x5FA8_60DC),
  (0x4E03, 0x6470),
  (0x4E07, 0x696E_5FF4_59D7_59E5_65A9),
  (0x4E0D, 0x699A),
  (0x4E11, 0x63E1),
  (0x4E14, 0x62A1_5942_5AC9),
  (0x4E18, 0x526F_5871),
  (0x4E1E, 0x5BBE),
  (0x4E2D, 0x61F5),
  (0x4E30, 0x58A4),
  (0x4E32, 0x6879),
  (0x4E38, 0x66E7_53D6),
  (0x4E3B, 0x61BA),
  (0x4E42, 0x6A85_53AF),
  (0x4E45, 0x5270),
  (0x4E4B, 0x624C),
  (0x4E4D, 0x5984_6697_65A7),
  (0x4E56, 0x5248),
  (0x4E58, 0x5BBF_5F5D),
  (0x4E5D, 0x5271_50DD_5CB8),
  (0x4E6B, 0x507B),
  (0x4E6D, 0x5498),
  (0x4E73, 0x5ED3),
  (0x4E76, 0x58A3_59D5),
  (0x4E7E, 0x50D3),
  (0x4E82, 0x54DA),
  (0x4E86, 0x55C8),
  (0x4E88, 0x5D43),
  (0x4E8B, 0x5985_5F7D),
  (0x4E8E, 0x5E7C),
  (0x4E90, 0x6ABF_5E93_6698),
  (0x4E94, 0x5DAF_60DD),
  (0x4E98, 0x5354),
  (0x4E9B, 0x5986),
  (0x4E9E, 0x5C5E),
  (0x4EA1, 0x5699_65DD),
  (0x4EA4, 0x5255_65ED_5D4A),
  (0x4EA8, 0x6682),
  (0x4EAB, 0x6647_5149_60DE_5543),
  (0x4EB6, 0x68F2),
  (0x4EBA, 0x5F99),
  (0x4EC0, 0x5C59_5F9A),
  (0x4EC4, 0x644E),
  (0x4EC6, 0x58B5_5272),
  (0x4ECA, 0x5341_50AE),
  (0x4ECD, 0x5FB8),
  (0x4ED4, 0x5FBB_5987_6480_5FF5_58B6_5A83),
  (0x4EDD, 0x549A_5F9B_634E),
  (0x4EE3, 0x544D_5587_5F7E),
  (0x4EF0, 0x5C97),
  (0x4EF2, 0x61F6),
  (0x4EF6, 0x50D4_50AF),
  (0x4EFB, 0x5FB0),
  (0x4F01, 0x5358),
  (0x4F09, 0x65DE_5F7F_6893),
  (0x4F0D, 0x5DB0_5359_5891_5848_6794),
  (0x4F2F, 0x57F4),
  (0x4F34, 0x57A5),
  (0x4F36, 0x5588),
  (0x4F38, 0x5BF2),
  (0x4F3A, 0x5989),
  (0x4F3C, 0x5988_5041),
  (0x4F43, 0x6B5E),
  (0x4F46, 0x53D7_6072_6562),
  (0x4F4D, 0x5EBB_6071_61BB_61B4_5E72),
  (0x4F55, 0x65AA),
  (0x4F59, 0x5D44_6B47_58F4_5FD9_5273_53BC),
  (0x4F69, 0x64F7),
  (0x4F6F, 0x5CCC_57F5),
  (0x4F73, 0x5042),
  (0x4F76, 0x5395),
  (0x4F7A, 0x6B5F),
  (0x4F7E, 0x5FA9_598B),
  (0x4F81, 0x69E0),
  (0x4F83, 0x6845_6B88),
  (0x4F86, 0x54FC),
  (0x4F88, 0x6453),
  (0x4F8A, 0x687D_5599),
  (0x4F8D, 0x5BC8),
  (0x4F8F, 0x61BC),
  (0x4F91, 0x5ED5),
  (0x4F96, 0x6963),
  (0x4F98, 0x6B8D),
  (0x4F9B, 0x51C2),
  (0x4F9D, 0x5F6C),
  (0x4FAE, 0x56DD_6771),
  (0x4FB5, 0x6473_5552),
  (0x4FBF, 0x6549),
  (0x4FC2, 0x5174_63AD_5C5F),
  (0x4FC9, 0x6A8C_61E3),
  (0x4FCE, 0x6166),
  (0x4FD1, 0x6AAB),
  (0x4FD3, 0x6865_6BD1),
  (0x4FD7, 0x5AF7),
  (0x4FDA, 0x5646_56C3),
  (0x4FDD, 0x5881),
  (0x4FDF, 0x69AC_6674_5BF3),
  (0x4FEE, 0x5B52_699B),
  (0x4FF1, 0x5274),
  (0x4FF3, 0x57E1),
  (0x4FF5, 0x6584),
  (0x4FF8, 0x58A5),
  (0x4FFA, 0x69FC),
  (0x5002, 0x5872),
  (0x5006, 0x5545),
  (0x5009, 0x62D4),
  (0x500B, 0x50B0),
  (0x500D, 0x57E2),
  (0x5011, 0x697F_5460),
  (0x5016, 0x6643),
  (0x5019, 0x6772_5F6D),
  (0x501C, 0x6B95),
  (0x501E, 0x6866_62A2),
  (0x5021, 0x62D3),
  (0x5023, 0x57C6_6454),
  (0x5026, 0x52BE_61A3_6858),
  (0x502A, 0x5D9B_55EF_648B_5DF6),
  (0x503B, 0x5CB9),
  (0x5043, 0x5CF2),
  (0x5047, 0x5043_50E7_5EBC),
  (0x504F, 0x654A),
  (0x5055, 0x65EE),
  (0x505A, 0x61BD),
  (0x505C, 0x60DF),
  (0x5065, 0x50D5),
  (0x5070, 0x5AA2),
  (0x5074, 0x644F_60E0_5E73),
  (0x5078, 0x64D5),
  (0x5080, 0x5249),
  (0x5085, 0x58B7),
  (0x508D, 0x57C7),
  (0x5091, 0x50DE),
  (0x5098, 0x59C8_5943),
  (0x50AC, 0x63C3_5E5F),
  (0x50B2, 0x5DB1_60A2_5275_62EA),
  (0x50B7, 0x59E6),
  (0x50BE, 0x514A),
  (0x50C2, 0x55D5),
  (0x50C5, 0x52EE),
  (0x50C9, 0x636A_5A84),
  (0x50CF, 0x59E7),
  (0x50D1, 0x5256),
  (0x50D5, 0x5892_67B1),
  (0x50DA, 0x55C9),
  (0x50DE, 0x5EBD),
  (0x50E5, 0x5DFD),
  (0x50E7, 0x5BC0),
  (0x50ED, 0x62C9),
  (0x50F9, 0x5044),
  (0x50FB, 0x5857),
  (0x50FF, 0x598C_5F6E_61E4),
  (0x5104, 0x5CED),
  (0x5106, 0x6867),
  (0x5109, 0x50E0),
  (0x5112, 0x5ED6),
  (0x511F, 0x59E8),
  (0x5121, 0x55BF),
  (0x512A, 0x5E74),
  (0x5132, 0x6073),
  (0x5137, 0x694E),
  (0x513A, 0x539C),
  (0x513C, 0x5CF9),
  (0x5140, 0x5DD2_5F48),
  (0x5143, 0x5EA1_6686_63F2_6168_679E_5A82_51F8),
  (0x514B, 0x52E7_64B0_56C4_64C5),
  (0x5152, 0x5C60),
  (0x515A, 0x5442),
  (0x515C, 0x54AC),
  (0x5162, 0x5355),
  (0x5165, 0x5FB7),
  (0x5167, 0x53B0_60A3_5544_5ED7_64F4_51C3_55EC_6690),
  (0x5171, 0x51C4),
  (0x5175, 0x5873_535A_5276_60A4),
  (0x517C, 0x5143),
  (0x5180, 0x535B),
  (0x5186, 0x69FD),
  (0x518A, 0x62F4),
  (0x518D, 0x605D),
  (0x5192, 0x56E4),
  (0x5195, 0x56C6),
  (0x5197, 0x5E63),
  (0x51A0, 0x51E3),
  (0x51A5, 0x56D1),
  (0x51AA, 0x56C1),
  (0x51AC, 0x549B),
  (0x51B2, 0x63F3),
  (0x51B6, 0x5CBA_54FE),
  (0x51BD, 0x557A),
  (0x51C4, 0x62F9),
  (0x51C6, 0x61E5),
  (0x51C9, 0x5546),
  (0x51CB, 0x6167_55FE_549C),
  (0x51DB, 0x55FC_6964_5F68_67BC),
  (0x51E1, 0x584C),
  (0x51F0, 0x66FE_50B1),
  (0x51F6, 0x679C),
  (0x51F8, 0x6361_5DFE_63F0),
  (0x51FD, 0x65CD),
  (0x5200, 0x5461),
  (0x5203, 0x5F9C),
  (0x5206, 0x58E1_60C8_5D9C),
  (0x520A, 0x5067),
  (0x520E, 0x5763),
  (0x5211, 0x6683),
  (0x5217, 0x557C),
  (0x521D, 0x6391),
  (0x5224, 0x64ED_586C),
  (0x5229, 0x5647_59C9),
  (0x522E, 0x51F4),
  (0x5230, 0x5462_62D5),
  (0x5236, 0x614C_5B4A_52BF_62C5_5FBC_505B),
  (0x5243, 0x6386),
  (0x5247, 0x646C),
  (0x524A, 0x59C2_52E8_54E3_60A5),
  (0x5254, 0x62FE),
  (0x5256, 0x58B8),
  (0x525B, 0x509D),
  (0x525D, 0x5790),
  (0x5261, 0x69BF),
  (0x5269, 0x5FBA_60A6),
  (0x526F, 0x58B9),
  (0x5272, 0x65CB),
  (0x5275, 0x62D6),
  (0x527D, 0x6585),
  (0x527F, 0x6B9C),
  (0x5283, 0x6764),
  (0x5287, 0x52E9_5858_55E0),
  (0x528D, 0x50E1),
  (0x5291, 0x614D_685F),
  (0x529B, 0x5567),
  (0x529F, 0x51C5_5045),
  (0x52A3, 0x557B_688F),
  (0x52A9, 0x6169_53BF_50E5),
  (0x52BE, 0x6641),
  (0x52C1, 0x514B),
  (0x52C3, 0x57BC),
  (0x52C5, 0x646D),
  (0x52C7, 0x5E60),
  (0x52C9, 0x56C5),
  (0x52CD, 0x514C),
  (0x52D2, 0x55FB),
  (0x52D5, 0x549D_6AB8),
  (0x52D8, 0x5085_574E),
  (0x52DB, 0x6BFA),
  (0x52DD, 0x5BC4_559D_56DE),
  (0x52E2, 0x5ACA_608C_52EF),
  (0x52F3, 0x677D),
  (0x52F5, 0x5553),
  (0x52F8, 0x52C0),
  (0x52FA, 0x5FDA_688D),
  (0x52FE, 0x5277_576D),
  (0x5305, 0x6563),
  (0x5308, 0x679D),
  (0x530D, 0x6564),
  (0x530F, 0x6565_5893),
  (0x5315, 0x5944_66D3_58E0),
  (0x5319, 0x5BC9),
  (0x5320, 0x5FF6_51F9),
  (0x5323, 0x5096),
  (0x532A, 0x5945),
  (0x532F, 0x6BEF),
  (0x5339, 0x659F),
  (0x533F, 0x53D2_5278_5C5A),
  (0x5343, 0x634F_6B4C),
  (0x5347, 0x5BC1_5DB2_6789_57A6),
  (0x534D, 0x696F),
  (0x5351, 0x5946_61A0_648C_6675),
  (0x5357, 0x53A8),
  (0x535A, 0x5791),
  (0x535C, 0x5894),
  (0x535E, 0x5862),
  (0x5360, 0x60D0),
  (0x5366, 0x5245),
  (0x5368, 0x5AA3),
  (0x536F, 0x5743_5F9D_5EBE),
  (0x5374, 0x505C_54DB),
  (0x5377, 0x52C1),
  (0x537D, 0x61FA),
  (0x537F, 0x514D),
  (0x5384, 0x5CAE),
  (0x5393, 0x5C9F),
  (0x5398, 0x5648),
  (0x539A, 0x6773),
  (0x539F, 0x5EA2_6BAA),
  (0x53A5, 0x52C6_6BC7),
  (0x53AD, 0x5D79),
  (0x53BB, 0x50C5),
  (0x53C3, 0x62CA),
  (0x53C8, 0x5E75_62A4_534C_5E76),
  (0x53CD, 0x57A7),
  (0x53D4, 0x5B90),
  (0x53D6, 0x63FC_5B53),
  (0x53DB, 0x57A8),
  (0x53DF, 0x5B54),
  (0x53E1, 0x5D9D_63B9_5279_518D_527A),
  (0x53E9, 0x518C_624D_52D4_5AD2_64F5),
  (0x53EF, 0x5046_64B1_628B_598D_5E77),
  (0x53F8, 0x598E),
  (0x5401, 0x5E78),
  (0x5403, 0x67A6_505D),
  (0x5408, 0x65D7_5396_6B5A),
  (0x540C, 0x549E_56D2_6774_5649_64C6_6648),
  (0x541B, 0x52B3),
  (0x541D, 0x565F),
  (0x541F, 0x5F5E_6558),
  (0x5426, 0x58BA),
  (0x5429, 0x69A0),
  (0x542B, 0x65CE),
  (0x5433, 0x5DB3),
  (0x5438, 0x67AD_63FD),
  (0x543B, 0x5764_6775),
  (0x543E, 0x5DC4),
  (0x5442, 0x5554),
  (0x5448, 0x60E1),
  (0x544A, 0x518E),
  (0x5451, 0x649A),
  (0x5468, 0x61C0),
  (0x546A, 0x61BF),
  (0x5471, 0x518F),
  (0x5473, 0x576F),
  (0x5475, 0x5047),
  (0x547B, 0x5BF4_669A_56D0),
  (0x5480, 0x6074),
  (0x5484, 0x5497),
  (0x5486, 0x6566),
  (0x548C, 0x66DA),
  (0x548E, 0x527B),
  (0x5490, 0x699C),
  (0x54A4, 0x6BAE),
  (0x54A8, 0x5FBD),
  (0x54AB, 0x624E_5257),
  (0x54B3, 0x65EF),
  (0x54B8, 0x65CF),
  (0x54BD, 0x5F9E),
  (0x54C0, 0x5CAA_6591),
  (0x54C4, 0x66CB),
  (0x54C8, 0x65D8_605E),
  (0x54E1, 0x5EA3),
  (0x54E5, 0x5048),
  (0x54E8, 0x6392),
  (0x54ED, 0x51B0_6767),
  (0x54F2, 0x6363),
  (0x54FA, 0x6567),
  (0x54FD, 0x514E),
  (0x5504, 0x64F8),
  (0x5506, 0x5990_6B7E),
  (0x550E, 0x6965),
  (0x5510, 0x5446),
  (0x551C, 0x6970),
  (0x552F, 0x5ED9),
  (0x5531, 0x62D7),
  (0x5535, 0x69EA),
  (0x553E, 0x6481),
  (0x5544, 0x648D),
  (0x5546, 0x59E9),
  (0x554F, 0x576B),
  (0x5553, 0x5175),
  (0x5556, 0x53F0),
  (0x555E, 0x69E3),
  (0x5563, 0x65D0),
  (0x557B, 0x5BCA_614E),
  (0x5580, 0x6857),
  (0x5583, 0x53A9_5A86),
  (0x5586, 0x6364_54C9),
  (0x5589, 0x6776_65D1),
  (0x5598, 0x6350_678A_66E8),
  (0x559C, 0x67B2_507C),
  (0x55A7, 0x6787),
  (0x55A9, 0x5EDA_59EA_539B_5258),
  (0x55AE, 0x53D8),
  (0x55C5, 0x6777),
  (0x55C7, 0x69B3),
  (0x55D4, 0x6273),
  (0x55DA, 0x5DB4),
  (0x55DC, 0x535C),
  (0x55DF, 0x62A5),
  (0x55E3, 0x5991_6455),
  (0x55FD, 0x5B56_61C1),
  (0x5606, 0x649B),
  (0x5609, 0x5049),
  (0x5614, 0x527C),
  (0x5617, 0x59EB),
  (0x562F, 0x5AD3),
  (0x5632, 0x616B),
  (0x5634, 0x63FE),
  (0x5636, 0x5BCB),
  (0x5653, 0x6650),
  (0x5668, 0x535D),
  (0x566A, 0x616C_67B3_5A53),
  (0x5674, 0x58E2),
  (0x5686, 0x6768),
  (0x56A5, 0x5D54),
  (0x56AC, 0x69A9),
  (0x56AE, 0x6649),
  (0x56B4, 0x5CFA),
  (0x56BC, 0x5FDB),
  (0x56C0, 0x60A7),
  (0x56C2, 0x6769),
  (0x56CA, 0x53AC),
  (0x56CD, 0x6C42),
  (0x56D1, 0x63AE),
  (0x56DA, 0x5B55_598F),
  (0x56DE, 0x6752),
  (0x56E0, 0x5F9F),
  (0x56F0, 0x51B7),
  (0x56F9, 0x5589_5190),
  (0x56FF, 0x5EDB),
  (0x5703, 0x6568_5CE3),
  (0x5708, 0x52C2),
  (0x570B, 0x52AA),
  (0x570D, 0x5EBF),
  (0x5712, 0x5EA4_5EA5),
  (0x5716, 0x5463),
  (0x5718, 0x53D9),
  (0x571C, 0x66E9),
  (0x571F, 0x64C7),
  (0x5728, 0x605F),
  (0x572D, 0x52D5),
  (0x5730, 0x624F),
  (0x573B, 0x535E),
  (0x5740, 0x6250),
  (0x5742, 0x64EC),
  (0x5747, 0x52E1),
  (0x574A, 0x57C8),
  (0x574D, 0x68F5_5086),
  (0x5750, 0x61B5_50C0),
  (0x5761, 0x64DE),
  (0x5764, 0x51B8),
  (0x5766, 0x649C),
  (0x576A, 0x6554),
  (0x576E, 0x68FD),
  (0x5770, 0x6868),
  (0x5775, 0x687F),
  (0x577C, 0x6BB1),
  (0x5782, 0x5B57),
  (0x5788, 0x544E),
  (0x578B, 0x6684_549F),
  (0x5793, 0x65F1),
  (0x57A0, 0x5F53),
  (0x57A2, 0x527D_5EA7),
  (0x57C3, 0x5CA0),
  (0x57C7, 0x6AAC_61E6),
  (0x57CB, 0x56A5),
  (0x57CE, 0x5AB9),
  (0x57D3, 0x54E4),
  (0x57DF, 0x5D4B_58BB),
  (0x57F0, 0x62EB),
  (0x57F4, 0x5BE5),
  (0x57F7, 0x629A),
  (0x57F9, 0x57E4_535F),
  (0x57FC, 0x6894),
  (0x5800, 0x52B5),
  (0x5802, 0x5443),
  (0x5805, 0x50F1_64D0),
  (0x5808, 0x684E_6AD6_5C6E),
  (0x581E, 0x6B9B),
  (0x5821, 0x5882),
  (0x5824, 0x614F),
  (0x5827, 0x5D55),
  (0x582A, 0x5087),
  (0x582F, 0x5E41_5CF3_5883),
  (0x5834, 0x5FF7_5464),
  (0x583A, 0x686C),
  (0x584A, 0x524A_5D87),
  (0x584F, 0x6854),
  (0x5851, 0x5AD4),
  (0x5854, 0x64A9),
  (0x5857, 0x5465_5444),
  (0x585A, 0x63BA),
  (0x585E, 0x5A46),
  (0x5861, 0x60A8_6A8D),
  (0x5864, 0x677E),
  (0x5869, 0x5D7A),
  (0x5875, 0x6274),
  (0x5879, 0x62CB),
  (0x587C, 0x6B60),
  (0x587E, 0x5B91),
  (0x5883, 0x514F),
  (0x5885, 0x5A55),
  (0x5889, 0x6AAD),
  (0x5893, 0x5744),
  (0x589C, 0x63C7),
  (0x589E, 0x6241_6651),
  (0x58A8, 0x5761_548F),
  (0x58AE, 0x6482),
  (0x58B3, 0x58E4),
  (0x58BA, 0x5DB5_5FF8),
  (0x58BE, 0x5068),
  (0x58C1, 0x5859),
  (0x58C5, 0x5DD3),
  (0x58C7, 0x53DA),
  (0x58CE, 0x677F),
  (0x58D1, 0x65B6),
  (0x58D3, 0x5C93),
  (0x58D5, 0x669C),
  (0x58D8, 0x55D6_51FA),
  (0x58DE, 0x524B_55B8),
  (0x58E4, 0x5CCD),
  (0x58EB, 0x5992_5FB1),
  (0x58EF, 0x6047),
  (0x58F9, 0x5FAA_669B_5A54),
  (0x58FD, 0x5B58),
  (0x590F, 0x65AB),
  (0x5914, 0x5360_5A72_5DF9),
  (0x5919, 0x5B92_53D4),
  (0x591C, 0x5CBB),
  (0x5922, 0x56FC),
  (0x5927, 0x544F),
  (0x5929, 0x6351_64B2_58BC),
  (0x592D, 0x5E42_5C98),
  (0x5931, 0x5C4B),
  (0x5937, 0x5F80),
  (0x593E, 0x6676),
  (0x5944, 0x5CFB),
  (0x5947, 0x5361_53B1_58A6),
  (0x594E, 0x52D6_61C2_6BE5_5176),
  (0x5954, 0x58E5_665A),
  (0x5957, 0x64D6),
  (0x595A, 0x65F0),
  (0x5960, 0x60A9),
  (0x5962, 0x5993),
  (0x5967, 0x5DB6),
  (0x596A, 0x64A4_5F49_5FF9_5A73_58E6),
  (0x5973, 0x53B5_53C0),
  (0x5978, 0x5069),
  (0x597D, 0x669D),
  (0x5982, 0x5D45_5947_569A),
  (0x598A, 0x5FB2),
  (0x5993, 0x5362),
  (0x5996, 0x5E43_6890),
  (0x5999, 0x5745),
  (0x59A3, 0x5948),
  (0x59A5, 0x6483),
  (0x59A8, 0x57C9),
  (0x59AC, 0x64D7),
  (0x59B9, 0x56A6),
  (0x59BB, 0x62FA),
  (0x59BE, 0x6373),
  (0x59C3, 0x60E2),
  (0x59C6, 0x56E0),
  (0x59C9, 0x5FBE),
  (0x59CB, 0x5BCC),
  (0x59D0, 0x6075_5191_5994_5ABA_5EC0),
  (0x59D9, 0x5FB3_5E44),
  (0x59DC, 0x509E_6B75),
  (0x59E6, 0x506A),
  (0x59E8, 0x5F81),
  (0x59EA, 0x628D),
  (0x59EC, 0x67B4),
  (0x59EE, 0x65DF),
  (0x59F8, 0x5D56),
  (0x59FB, 0x5FA0),
  (0x59FF, 0x5FBF),
  (0x5A01, 0x5EC4),
  (0x5A03, 0x6A9C),
  (0x5A11, 0x5995),
  (0x5A18, 0x53AD),
  (0x5A1B, 0x5DB7_689C),
  (0x5A1F, 0x5D57_5BF5),
  (0x5A25, 0x5C61),
  (0x5A29, 0x5680),
  (0x5A36, 0x6441),
  (0x5A3C, 0x62D8),
  (0x5A41, 0x695D),
  (0x5A46, 0x64DD),
  (0x5A49, 0x5DE2),
  (0x5A5A, 0x66C0),
  (0x5A62, 0x5949),
  (0x5A66, 0x58BD),
  (0x5A7F, 0x5A56),
  (0x5A92, 0x56A7_6741),
  (0x5A9A, 0x5770_5EA8),
  (0x5AA4, 0x5BCD),
  (0x5ABC, 0x5DCA_5672_527E),
  (0x5AC1, 0x504A_5B59),
  (0x5AC4, 0x6AC0),
  (0x5AC9, 0x628E),
  (0x5ACC, 0x6672),
  (0x5AD7, 0x527F),
  (0x5AE1, 0x608D),
  (0x5AE6, 0x6BCC),
  (0x5AE9, 0x53CC),
  (0x5B05, 0x66D4),
  (0x5B09, 0x67B5),
  (0x5B0B, 0x69B6_5259),
  (0x5B16, 0x6559),
  (0x5B2A, 0x5970),
  (0x5B30, 0x5D88),
  (0x5B40, 0x59ED),
  (0x5B43, 0x5CCE),
  (0x5B50, 0x5FC0_666E),
  (0x5B54, 0x51C6_5FB9),
  (0x5B57, 0x5FC2_619E),
  (0x5B5A, 0x699D),
  (0x5B5C, 0x5FC1_676A),
  (0x5B5F, 0x56BB),
  (0x5B63, 0x5177_5192_53C1),
  (0x5B69, 0x65F2),
  (0x5B6B, 0x5AFD),
  (0x5B70, 0x5B93_6B52),
  (0x5B75, 0x58BE),
  (0x5B78, 0x65B7),
  (0x5B7A, 0x5EDC),
  (0x5B7C, 0x5CF8),
  (0x5B85, 0x545D),
  (0x5B87, 0x5E79_5B5A_5C79),
  (0x5B8B, 0x5B44_5DE3),
  (0x5B8F, 0x5251),
  (0x5B93, 0x5895),
  (0x5B95, 0x64AC_6BF1_61A4_51E4_61C3_60E6_5DE4_5F71),
  (0x5BA2, 0x50BF_5A87_5C4C_5EDD_66EA),
  (0x5BAC, 0x69C1),
  (0x5BAE, 0x52B9),
  (0x5BB0, 0x6060),
  (0x5BB3, 0x65F3_5D58_5AD7_504B),
  (0x5BB8, 0x5BF6_5E61),
  (0x5BBF, 0x5B94_6B93),
  (0x5BC2, 0x608E_5EA9_5363_5FA1_578C_5280),
  (0x5BCC, 0x58BF),
  (0x5BD0, 0x56A8),
  (0x5BD2, 0x65BC_5E7A_5BE6),
  (0x5BD7, 0x68C4),
  (0x5BDE, 0x567B_62C6),
  (0x5BE1, 0x51D2_6474),
  (0x5BE4, 0x5DB8_6AA0_5C4D_53BD_6B94_5C50),
  (0x5BEB, 0x5996_51E5),
  (0x5BEE, 0x55CB_6B78),
  (0x5BF5, 0x63BB_5884),
  (0x5BF8, 0x63B6),
  (0x5BFA, 0x5997),
  (0x5C01, 0x58A7),
  (0x5C04, 0x59BD),
  (0x5C07, 0x6048_60AA_5EC1_619F_5C51),
  (0x5C0D, 0x5450_5466_5AD5),
  (0x5C11, 0x5AD6),
  (0x5C16, 0x636B),
  (0x5C19, 0x59EE),
  (0x5C20, 0x5A88),
  (0x5C24, 0x5E7B),
  (0x5C28, 0x57CA),
  (0x5C31, 0x6442),
  (0x5C38, 0x5BCF_5F4A_6341_686E_53D0),
  (0x5C3E, 0x5771_53CA_52AB),
  (0x5C45, 0x50C6_5178),
  (0x5C48, 0x52B6),
  (0x5C4B, 0x5DC5),
  (0x5C4D, 0x5BD0_69DC),
  (0x5C51, 0x5AA6),
  (0x5C55, 0x60AB),
  (0x5C5B, 0x5874),
  (0x5C60, 0x5467),
  (0x5C62, 0x55D7),
  (0x5C64, 0x6452_564A),
  (0x5C6C, 0x5AF8),
  (0x5C6F, 0x54B8),
  (0x5C71, 0x59CA),
  (0x5C79, 0x67A7),
  (0x5C8C, 0x534D),
  (0x5C90, 0x5364_5FEB),
  (0x5CA1, 0x509C),
  (0x5CA6, 0x566D),
  (0x5CA9, 0x69EB),
  (0x5CAB, 0x5B5C_5097),
  (0x5CB1, 0x5451),
  (0x5CB3, 0x5C6F),
  (0x5CB5, 0x6BDE),
  (0x5CB7, 0x6986_5C7A),
  (0x5CBA, 0x6951),
  (0x5CBE, 0x60D1),
  (0x5CC0, 0x69CD),
  (0x5CD9, 0x6456),
  (0x5CE0, 0x69B2),
  (0x5CE8, 0x5C62),
  (0x5CED, 0x6393),
  (0x5CEF, 0x58A9_58A8),
  (0x5CF4, 0x665E),
  (0x5CF6, 0x5468),
  (0x5CFB, 0x61E7),
  (0x5CFD, 0x6677),
  (0x5D07, 0x5BB2),
  (0x5D0D, 0x694C_5366),
  (0x5D11, 0x51B9),
  (0x5D14, 0x63C4),
  (0x5D16, 0x5CA1_509F),
  (0x5D19, 0x55F0),
  (0x5D27, 0x5BB3),
  (0x5D29, 0x58FA),
  (0x5D4B, 0x5772_5088),
  (0x5D50, 0x54E6),
  (0x5D52, 0x5C8A),
  (0x5D69, 0x5BB4),
  (0x5D6C, 0x6A9D),
  (0x5D6F, 0x62A7),
  (0x5D82, 0x5FFA),
  (0x5D87, 0x5281),
  (0x5D8B, 0x68FE),
  (0x5D9D, 0x6948),
  (0x5DA0, 0x525A),
  (0x5DA2, 0x5E45),
  (0x5DAA, 0x5CFE),
  (0x5DB8, 0x6A74),
  (0x5DBA, 0x558A),
  (0x5DBC, 0x5A58_5C70),
  (0x5DCD, 0x5DFA),
  (0x5DD2, 0x5681_60AC),
  (0x5DD6, 0x5C8B),
  (0x5DDD, 0x6352_61C4),
  (0x5DE1, 0x5BA9_5AD8),
  (0x5DE5, 0x51C7_61B6_525B_50C7),
  (0x5DEB, 0x574F),
  (0x5DEE, 0x62A6),
  (0x5DF1, 0x5368_5F82_5998_64DF_6457),
  (0x5DF7, 0x65E0),
  (0x5DF9, 0x52F0),
  (0x5DFD, 0x69C8_50D6),
  (0x5E02, 0x5BD1_656A),
  (0x5E06, 0x584D),
  (0x5E0C, 0x67B6),
  (0x5E11, 0x64AD),
  (0x5E16, 0x6374),
  (0x5E19, 0x628F),
  (0x5E1B, 0x57F6),
  (0x5E1D, 0x6150),
  (0x5E25, 0x5B5D),
  (0x5E2B, 0x5999),
  (0x5E2D, 0x5A75),
  (0x5E33, 0x5FFB),
  (0x5E36, 0x5452_5EDE_59F2),
  (0x5E3D, 0x56DF),
  (0x5E3F, 0x6BF7_60E3),
  (0x5E43, 0x5EC2_69E5_6580),
  (0x5E47, 0x57CB),
  (0x5E4C, 0x6BE7),
  (0x5E55, 0x567C),
  (0x5E5F, 0x6458),
  (0x5E61, 0x6990_5445_655A),
  (0x5E71, 0x54DC_506B_6555_53B6),
  (0x5E77, 0x5875_6644_506C),
  (0x5E7B, 0x66EB_5ED8_5EDF_5367),
  (0x5E84, 0x5FFC),
  (0x5E87, 0x594A),
  (0x5E8A, 0x59EF),
  (0x5E8F, 0x5A59),
  (0x5E95, 0x6076_6569_60D2),
  (0x5E9A, 0x5150),
  (0x5E9C, 0x58C0),
  (0x5EA0, 0x59F0),
  (0x5EA6, 0x5469_61B7),
  (0x5EAB, 0x5193),
  (0x5EAD, 0x60E7),
  (0x5EB5, 0x5C8C_5A5A_50A0_5E62),
  (0x5EBE, 0x5EE0),
  (0x5EC2, 0x59F1),
  (0x5EC8, 0x65AC_5580_54F3),
  (0x5ED0, 0x5282),
  (0x5ED3, 0x51DD),
  (0x5ED6, 0x55CC),
  (0x5EDA, 0x61BE_60AD),
  (0x5EDF, 0x5746_62D9),
  (0x5EE2, 0x655B_51FB),
  (0x5EE8, 0x65F4_55FD),
  (0x5EEC, 0x5555),
  (0x5EF3, 0x637C),
  (0x5EF6, 0x5D59_60E4),
  (0x5EFA, 0x50D7_6753),
  (0x5F01, 0x5863),
  (0x5F04, 0x55B9),
  (0x5F0A, 0x655C),
  (0x5F0F, 0x5BE7),
  (0x5F11, 0x5BD2),
  (0x5F13, 0x52BA_616D_5FA2),
  (0x5F17, 0x58F6_66CA),
  (0x5F1B, 0x5F84),
  (0x5F1F, 0x6151),
  (0x5F26, 0x665F_669E),
  (0x5F29, 0x53C2),
  (0x5F31, 0x5CC4),
  (0x5F35, 0x5FFD),
  (0x5F3A, 0x50A1),
  (0x5F3C, 0x65A0),
  (0x5F46, 0x586D),
  (0x5F48, 0x649D),
  (0x5F4A, 0x50A2),
  (0x5F4C, 0x5774),
  (0x5F4E, 0x5682),
  (0x5F56, 0x68F3_6691),
  (0x5F59, 0x678C),
  (0x5F5B, 0x5F85),
  (0x5F62, 0x6685),
  (0x5F66, 0x5CF4_6AB9),
  (0x5F69, 0x62EC_6586_616E_5972_6544),
  (0x5F70, 0x62DA_5D89),
  (0x5F77, 0x57CC),
  (0x5F79, 0x5D4D),
  (0x5F7C, 0x6598),
  (0x5F7F, 0x69A3_5DF1_60E5),
  (0x5F85, 0x5453),
  (0x5F87, 0x69D5),
  (0x5F8A, 0x6754_55F4_6778),
  (0x5F90, 0x5A5B_5151_546A),
  (0x5F97, 0x54BD_57E5_599B),
  (0x5F9E, 0x61A5),
  (0x5FA0, 0x694D_5CE4),
  (0x5FA8, 0x6742_5896_5B99),
  (0x5FAE, 0x5775),
  (0x5FB4, 0x6459_629E),
  (0x5FB7, 0x545E),
  (0x5FB9, 0x6362),
  (0x5FBD, 0x678D),
  (0x5FC3, 0x5C52),
  (0x5FC5, 0x65A1),
  (0x5FCC, 0x5369_5FA3),
  (0x5FD6, 0x63B7_6251_569B_569C),
  (0x5FE0, 0x63F4),
  (0x5FEB, 0x647F),
  (0x5FF1, 0x6475),
  (0x5FF5, 0x53B8),
  (0x5FFB, 0x67A2),
  (0x5FFD, 0x66C6),
  (0x5FFF, 0x58E7),
  (0x600F, 0x5C99),
  (0x6012, 0x53C3),
  (0x6016, 0x656B),
  (0x601B, 0x53E9_558B_599C),
  (0x6020, 0x64B3_5F86),
  (0x6025, 0x534E),
  (0x6027, 0x5ABB_5EAA),
  (0x602A, 0x524C),
  (0x602F, 0x50E6),
  (0x6031, 0x63BC),
  (0x6033, 0x6743),
  (0x6041, 0x6B48_5B9A_5BD3),
  (0x604D, 0x6744),
  (0x6050, 0x51CA),
  (0x6052, 0x65E1),
  (0x6055, 0x5A5C),
  (0x6059, 0x5CCF_5D42),
  (0x605D, 0x51F5),
  (0x6062, 0x6755_5FC3_6799_6466),
  (0x6068, 0x65BD_5F54_505F),
  (0x606C, 0x53B9_51C9),
  (0x606F, 0x5BE8_67AE),
  (0x6085, 0x5D74),
  (0x6089, 0x5C4E),
  (0x608C, 0x6152_65BE),
  (0x6094, 0x6756),
  (0x6096, 0x64F9),
  (0x609A, 0x69CB_60AE),
  (0x609F, 0x5DB9_5EE1),
  (0x60A3, 0x66EC_6BA0),
  (0x60A7, 0x564B),
  (0x60B0, 0x6B73),
  (0x60B2, 0x594B_545F_63F9_62DB_5780),
  (0x60B8, 0x5179),
  (0x60BC, 0x546B_62FB),
  (0x60C5, 0x60E8),
  (0x60C7, 0x5490),
  (0x60D1, 0x66BD),
  (0x60DA, 0x66C7),
  (0x60DC, 0x5A76),
  (0x60DF, 0x5EE2_6692_5C72),
  (0x60F0, 0x6484_53C8),
  (0x60F3, 0x59F3),
  (0x60F6, 0x6746),
  (0x60F9, 0x5CC2_5ABC_6450),
  (0x6101, 0x5B5F),
  (0x6103, 0x5A89),
  (0x6106, 0x50D8),
  (0x6108, 0x5EE4_5EE3),
  (0x610D, 0x5781_6548_5F72),
  (0x6115, 0x5C71),
  (0x611A, 0x5E7D_5CA2),
  (0x611F, 0x5089),
  (0x6127, 0x524D),
  (0x6130, 0x6BE8),
  (0x6134, 0x6B91),
  (0x6137, 0x50B2),
  (0x613C, 0x5BF7),
  (0x613E, 0x50B3_5EAB),
  (0x6142, 0x6AAE),
  (0x6144, 0x55F5),
  (0x6147, 0x5F55_5FC4),
  (0x614A, 0x5144_64B4_6745),
  (0x6153, 0x6587),
  (0x6155, 0x56E1),
  (0x6158, 0x62CC_62CD_62CE),
  (0x615D, 0x64DB),
  (0x615F, 0x64C9),
  (0x6162, 0x5683_51E6_6844),
  (0x6167, 0x6693_50B4),
  (0x616B, 0x61A6),
  (0x616E, 0x555E),
  (0x6170, 0x5EC3),
  (0x6176, 0x5152_50A3),
  (0x617D, 0x6342_5E5B),
  (0x6181, 0x6BA1_5E7E),
  (0x618A, 0x594C),
  (0x618E, 0x6242),
  (0x6190, 0x556F_5980),
  (0x6194, 0x6394),
  (0x6198, 0x6C43_67B8_649E),
  (0x61A4, 0x58E8),
  (0x61A7, 0x54A0),
  (0x61A9, 0x50E8),
  (0x61AB, 0x5782_6869),
  (0x61AE, 0x697C),
  (0x61B2, 0x6654),
  (0x61B6, 0x5CEE),
  (0x61BA, 0x68F6),
  (0x61BE, 0x508A),
  (0x61C3, 0x52F1),
  (0x61C7, 0x506D_65F5_5F69_6A8E_5750),
  (0x61E6, 0x539D),
  (0x61F2, 0x629F),
  (0x61F6, 0x54CA_6757_6660),
  (0x61FA, 0x62CF),
  (0x61FC, 0x5283_66ED),
  (0x61FF, 0x5F73_5570),
  (0x6207, 0x68FB_51D3),
  (0x620A, 0x5751),
  (0x620C, 0x5BAF_5B5E_5F50),
  (0x6210, 0x5ABD_5C63_517A),
  (0x6216, 0x66BE),
  (0x621A, 0x6343),
  (0x621E, 0x5C84_52EA),
  (0x6221, 0x684A),
  (0x622A, 0x60C9),
  (0x622E, 0x55ED),
  (0x6230, 0x60AF_67B9),
  (0x6234, 0x5454),
  (0x6236, 0x66A0),
  (0x623E, 0x5556_57CD_5ADB_654B),
  (0x6243, 0x5154),
  (0x6247, 0x5A8A_66B8_594D),
  (0x624B, 0x5B60),
  (0x624D, 0x6061),
  (0x6253, 0x6485),
  (0x6258, 0x648F),
  (0x626E, 0x58E9),
  (0x6271, 0x534F),
  (0x6276, 0x58C2),
  (0x6279, 0x594E),
  (0x627C, 0x69EC),
  (0x627F, 0x5BC2_536A),
  (0x6284, 0x6395),
  (0x6289, 0x6863_64E0),
  (0x6291, 0x5CEF_5A5D),
  (0x6295, 0x64D8),
  (0x6297, 0x65E2_60CA),
  (0x629B, 0x656D),
  (0x62AB, 0x6599),
  (0x62B1, 0x656C),
  (0x62B5, 0x6077),
  (0x62B9, 0x5694),
  (0x62BC, 0x5C94_63C8),
  (0x62C2, 0x58F7),
  (0x62C6, 0x6490_5752_53BA_54F0),
  (0x62CC, 0x57A9_5792),
  (0x62CF, 0x539E_524E),
  (0x62D2, 0x50C8_6344_57BD),
  (0x62D6, 0x6BAF_5E46_5284_61A1),
  (0x62DB, 0x6396_57E6),
  (0x62EC, 0x51F6_5BE9_5397_6243),
  (0x62F1, 0x51CB),
  (0x62F3, 0x52C3),
  (0x62F7, 0x5194),
  (0x62FE, 0x5BB9_539F),
  (0x6301, 0x6252),
  (0x6307, 0x6253_5AA7_5C7B),
  (0x6311, 0x546C),
  (0x632B, 0x61B8),
  (0x632F, 0x6275),
  (0x6339, 0x5F64_60E9_6A58),
  (0x633D, 0x5684_6678),
  (0x6349, 0x62AF),
  (0x634C, 0x64F6),
  (0x634F, 0x53A7_5D5A),
  (0x6355, 0x656E),
  (0x6367, 0x58AA_599D),
  (0x636E, 0x50C9),
  (0x6372, 0x6885),
  (0x6377, 0x6375),
  (0x637A, 0x53A6_53BB),
  (0x637F, 0x69B4),
  (0x6383, 0x5AD9),
  (0x6388, 0x5B61_6941),
  (0x638C, 0x5FFE),
  (0x6392, 0x57E7),
  (0x6396, 0x5CAF),
  (0x6398, 0x52B7),
  (0x639B, 0x5246),
  (0x63A0, 0x5541_62ED_64A6),
  (0x63A5, 0x60D8),
  (0x63A7, 0x51CC_63C9_5CFC_616F),
  (0x63AC, 0x52AC),
  (0x63C0, 0x506E),
  (0x63C4, 0x5EE5),
  (0x63C6, 0x52D7),
  (0x63CF, 0x5747_6153),
  (0x63D6, 0x5F65),
  (0x63DA, 0x5CD0_66EE),
  (0x63E1, 0x5C73),
  (0x63ED, 0x50E9_678E),
  (0x63F4, 0x5EAC),
  (0x63F6, 0x5CBD_59E0),
  (0x640D, 0x5AFE),
  (0x640F, 0x5793),
  (0x6414, 0x5ADA),
  (0x6416, 0x5E47_546D),
  (0x641C, 0x5B62),
  (0x6422, 0x6B7F),
  (0x642C, 0x57AA_64AA),
  (0x643A, 0x6795),
  (0x643E, 0x62B0),
  (0x6458, 0x608F),
  (0x6460, 0x63BD),
  (0x6467, 0x63C5),
  (0x6469, 0x5673),
  (0x646F, 0x6254),
  (0x6478, 0x56E2_6977_60D9),
  (0x6488, 0x559E),
  (0x6491, 0x64C3_59D3_6AA3),
  (0x649A, 0x68C3),
  (0x649E, 0x5447),
  (0x64A4, 0x6365_57BF),
  (0x64AB, 0x5753),
  (0x64AD, 0x64E1_63C2),
  (0x64B0, 0x62B6),
  (0x64B2, 0x5794),
  (0x64BB, 0x53EA),
  (0x64C1, 0x5DD6),
  (0x64C4, 0x6956_6353),
  (0x64C7, 0x64C0),
  (0x64CA, 0x50EA),
  (0x64CD, 0x6170_5155),
  (0x64D2, 0x5342),
  (0x64D4, 0x53F1),
  (0x64D8, 0x585A),
  (0x64DA, 0x50CA),
  (0x64E1, 0x5455_6492),
  (0x64E5, 0x54E7_62C7_50CD),
  (0x64EC, 0x5F74),
  (0x64EF, 0x5973),
  (0x64F1, 0x5060_6345),
  (0x64F4, 0x66E1),
  (0x64FA, 0x6BB8),
  (0x64FE, 0x5E48),
  (0x6500, 0x57AB),
  (0x6504, 0x64C4),
  (0x6518, 0x5CD1),
  (0x651D, 0x5AB6),
  (0x6523, 0x5571),
  (0x652A, 0x525D_66E2_54E8),
  (0x652F, 0x6255),
  (0x6536, 0x5B63_5195_5ED4_50B5),
  (0x653B, 0x51CD),
  (0x653E, 0x57CE_60EA),
  (0x6545, 0x5196),
  (0x6548, 0x676B),
  (0x654D, 0x5A5E_525C_5783),
  (0x6551, 0x5285),
  (0x6554, 0x5CE5),
  (0x6556, 0x6A8F_6542),
  (0x655E, 0x62DC),
  (0x6562, 0x508B_59CB),
  (0x6566, 0x5491),
  (0x656C, 0x5156_5CD2),
  (0x6572, 0x5197),
  (0x6574, 0x60EB_6090),
  (0x6577, 0x58C3_5B64),
  (0x657E, 0x69B7),
  (0x6582, 0x5581_655D),
  (0x6585, 0x6BF3),
  (0x6587, 0x5765),
  (0x658C, 0x5974),
  (0x6590, 0x594F_57AC),
  (0x6597, 0x54AD),
  (0x6599, 0x55D0),
  (0x659B, 0x51B1_59A0),
  (0x659F, 0x6298),
  (0x65A1, 0x5C85),
  (0x65A4, 0x52F2_6346),
  (0x65A7, 0x58C4),
  (0x65AB, 0x5FDC_62D0),
  (0x65AF, 0x599F_5BF8),
  (0x65B7, 0x53DB),
  (0x65B9, 0x57CF),
  (0x65BC, 0x5CE6_5BD4),
  (0x65C1, 0x57D0),
  (0x65C5, 0x5557),
  (0x65CB, 0x5A8B_60EC),
  (0x65CF, 0x619A),
  (0x65D2, 0x6961),
  (0x65D7, 0x536B),
  (0x65E0, 0x5754),
  (0x65E3, 0x536C),
  (0x65E5, 0x5FAB_53DC),
  (0x65E8, 0x6256_6171),
  (0x65EC, 0x5B9B_5E8D),
  (0x65F1, 0x65BF),
  (0x65F4, 0x6AB2),
  (0x65FA, 0x5DF2_5785_5784_6944),
  (0x65FF, 0x5DBB),
  (0x6606, 0x51BA_5BC3),
  (0x6609, 0x57D1_669F),
  (0x660C, 0x62DD),
  (0x660E, 0x56D4_66C1_69A1_6891),
  (0x6613, 0x5D4E_5A77_67A3),
  (0x661E, 0x5876_5ABE_5D8A),
  (0x6624, 0x558C_63EE),
  (0x6627, 0x56A9_5FDD),
  (0x662D, 0x5ADC),
  (0x662F, 0x5BD5_65AD_5E8E),
  (0x6634, 0x5748),
  (0x6636, 0x62DE),
  (0x663A, 0x5877_5C9A),
  (0x6641, 0x6172_5BD6_6747_6BE9),
  (0x6649, 0x6276),
  (0x664B, 0x6B80),
  (0x664F, 0x5C7C),
  (0x6659, 0x61E8),
  (0x665B, 0x6BD5),
  (0x665D, 0x61C5_6C44_5ABF),
  (0x6662, 0x6154),
  (0x6664, 0x5DBC_6BE6_6758_6BDF_5BF9_5685),
  (0x666B, 0x6BB2_5B65),
  (0x666E, 0x5885_5157),
  (0x6673, 0x5A78_637D),
  (0x6676, 0x60ED_688A_60EE),
  (0x667A, 0x6257),
  (0x6684, 0x6BFB),
  (0x6687, 0x504C_6780_678F),
  (0x668E, 0x5D8B),
  (0x6690, 0x6AC5_5A5F),
  (0x6696, 0x53A3_5C8D_5CD3),
  (0x669D, 0x56D5),
  (0x66A0, 0x686F),
  (0x66A2, 0x62DF),
  (0x66AB, 0x5FEC),
  (0x66AE, 0x56E3),
  (0x66B2, 0x6041_6BDC_6581),
  (0x66B9, 0x5AB3),
  (0x66BB, 0x5153),
  (0x66BE, 0x5492),
  (0x66C4, 0x5D84),
  (0x66C6, 0x5569_53F2),
  (0x66C9, 0x676C),
  (0x66D6, 0x5CA6),
  (0x66D9, 0x5A60),
  (0x66DC, 0x5E49_6BBF),
  (0x66E0, 0x51FC),
  (0x66E6, 0x67B7),
  (0x66E9, 0x53AE),
  (0x66F0, 0x5DF0),
  (0x66F2, 0x51B2_5D9E_5158),
  (0x66F7, 0x507D_5A61_6174_6173),
  (0x66FC, 0x5686),
  (0x66FE, 0x6245_6387_63C6),
  (0x6703, 0x6759),
  (0x6708, 0x5EB8_5EE6),
  (0x670B, 0x58FB),
  (0x670D, 0x5898),
  (0x6714, 0x59C5_6299),
  (0x6717, 0x54F4),
  (0x671B, 0x569D),
  (0x671D, 0x6175_5388_536D),
  (0x6726, 0x56FD_55BA_56F4),
  (0x672A, 0x5776_5695_58A2_62C8_6BA8),
  (0x6731, 0x61C6),
  (0x6734, 0x5795),
  (0x6736, 0x6486),
  (0x673A, 0x52C9),
  (0x673D, 0x6779),
  (0x6746, 0x506F),
  (0x6749, 0x59D9),
  (0x674E, 0x564D_6645_6062_63B8),
  (0x6753, 0x6588),
  (0x6756, 0x6042),
  (0x675C, 0x54AE),
  (0x675E, 0x536E_5AF9),
  (0x676D, 0x65E3),
  (0x676F, 0x57E8_50DF_54A1_5199_5749),
  (0x6775, 0x6078),
  (0x6777, 0x64E2),
  (0x677B, 0x68E9),
  (0x677E, 0x5B45_64EE),
  (0x6787, 0x69A4),
  (0x6789, 0x5DF3),
  (0x678B, 0x698C),
  (0x678F, 0x68B2_5A79),
  (0x6793, 0x54AF),
  (0x6795, 0x6476),
  (0x6797, 0x5667),
  (0x679A, 0x56AA),
  (0x679C, 0x51D4_6258),
  (0x67AF, 0x5198_6BBB),
  (0x67B3, 0x6259),
  (0x67B6, 0x504E_6841_5287),
  (0x67BE, 0x5BD7),
  (0x67C4, 0x5878),
  (0x67CF, 0x57F7_56E5_508C_6471_5D7B_5EE7),
  (0x67DA, 0x5EE8),
  (0x67DD, 0x6493_5FDE),
  (0x67E2, 0x6079),
  (0x67E9, 0x5288),
  (0x67EC, 0x6846),
  (0x67EF, 0x504D_53B2_61C7),
  (0x67F3, 0x55E1_5BD8_62F5_69AD),
  (0x67FB, 0x59A1),
  (0x67FE, 0x6B67),
  (0x6812, 0x69D6_60B0),
  (0x6816, 0x5A62_55F6),
  (0x6821, 0x525E_57F8),
  (0x682A, 0x61C8),
  (0x682E, 0x5F88_6ABA),
  (0x6831, 0x51CE),
  (0x6838, 0x6642_52F3),
  (0x683C, 0x50EB_6063),
  (0x6840, 0x685E_65E4_517B_546E),
  (0x6848, 0x5C7D),
  (0x684E, 0x6290),
  (0x6850, 0x54A2_59F5),
  (0x6853, 0x66EF_5398),
  (0x686D, 0x6B81),
  (0x6876, 0x64CA),
  (0x687F, 0x6847),
  (0x6881, 0x5547),
  (0x6883, 0x60EF),
  (0x6885, 0x56AB),
  (0x688F, 0x51B3),
  (0x6893, 0x6064_645A),
  (0x6897, 0x5159),
  (0x689D, 0x6176),
  (0x689F, 0x676D),
  (0x68A1, 0x6A98_6397),
  (0x68A7, 0x5DBD_564E),
  (0x68AD, 0x59A2),
  (0x68AF, 0x6155_517C_51BB),
  (0x68B3, 0x5ADD),
  (0x68B5, 0x584E_6982),
  (0x68C4, 0x5370_6994),
  (0x68C9, 0x56C7),
  (0x68CB, 0x536F),
  (0x68CD, 0x51BC),
  (0x68D2, 0x58AC),
  (0x68D5, 0x61A7),
  (0x68D7, 0x6177_52EC),
  (0x68DA, 0x58FC),
  (0x68DF, 0x54A3_5448),
  (0x68E7, 0x5FE7_686D),
  (0x68EE, 0x59DA),
  (0x68F2, 0x5A63),
  (0x68F9, 0x546F_51E7),
  (0x6900, 0x6A99),
  (0x6904, 0x60DA_6AE5),
  (0x690D, 0x5BEA_63CA),
  (0x6912, 0x6398),
  (0x6927, 0x6974),
  (0x6930, 0x5CBE),
  (0x693D, 0x5D5C),
  (0x693F, 0x63EF),
  (0x6942, 0x59A3),
  (0x694A, 0x5CD4),
  (0x6953, 0x6594_5AA8_6487),
  (0x6957, 0x685C),
  (0x6959, 0x697D_6399),
  (0x695E, 0x5641),
  (0x6960, 0x68B3_5EE9_6ACB_6983),
  (0x6968, 0x60F0),
  (0x696B, 0x61FC),
  (0x696D, 0x5D41_607A_5B9C),
  (0x6975, 0x52EB),
  (0x6977, 0x65F6_63CB_5D8C),
  (0x6994, 0x54F5_5E64),
  (0x699B, 0x6277_57D2),
  (0x69A5, 0x6BEA),
  (0x69A7, 0x5951),
  (0x69AE, 0x5D8D),
  (0x69B4, 0x55E2),
  (0x69BB, 0x64AB),
  (0x69C1, 0x6870),
  (0x69C3, 0x57AD),
  (0x69CA, 0x59C4_5289_6BB6_62E0_59A4),
  (0x69D0, 0x524F),
  (0x69D3, 0x51CF),
  (0x69E8, 0x51DE),
  (0x69EA, 0x50B6),
  (0x69FB, 0x688B),
  (0x69FD, 0x6178),
  (0x69FF, 0x52F4),
  (0x6A02, 0x5C74),
  (0x6A05, 0x61A8),
  (0x6A0A, 0x57FC),
  (0x6A11, 0x5549),
  (0x6A13, 0x55D8),
  (0x6A17, 0x607B),
  (0x6A19, 0x6589),
  (0x6A1E, 0x63CD_6043),
  (0x6A21, 0x56E6),
  (0x6A23, 0x5CD5),
  (0x6A35, 0x639A),
  (0x6A38, 0x5796_5B66_66D5),
  (0x6A3D, 0x61E9),
  (0x6A44, 0x508D),
  (0x6A47, 0x6443_5E4C),
  (0x6A4B, 0x525F),
  (0x6A50, 0x6494),
  (0x6A52, 0x6ABB_69D7),
  (0x6A58, 0x52E6_54BE),
  (0x6A5F, 0x5371),
  (0x6A61, 0x59F6),
  (0x6A6B, 0x6766),
  (0x6A80, 0x53DD),
  (0x6A84, 0x50EC),
  (0x6A89, 0x6B68),
  (0x6A8D, 0x5CF0_5343),
  (0x6A97, 0x6992),
  (0x6A9C, 0x675A),
  (0x6AA0, 0x515A),
  (0x6AA2, 0x50E2_6044),
  (0x6AB3, 0x5975),
  (0x6ABB, 0x65D2_5F56),
  (0x6AC2, 0x6942_52CA),
  (0x6AD3, 0x559F),
  (0x6ADA, 0x5558_61FB),
  (0x6ADF, 0x556A),
  (0x6AF6, 0x6BD0),
  (0x6AFB, 0x5CB4),
  (0x6B02, 0x5797),
  (0x6B04, 0x54DD),
  (0x6B0A, 0x52C4),
  (0x6B0C, 0x6045),
  (0x6B12, 0x54DE),
  (0x6B16, 0x54E9),
  (0x6B20, 0x67AA_62A8),
  (0x6B23, 0x67A4),
  (0x6B32, 0x5E5C),
  (0x6B38, 0x5CA3),
  (0x6B3A, 0x5372),
  (0x6B3D, 0x67AC_51E9),
  (0x6B43, 0x59DF),
  (0x6B46, 0x67AB_6657),
  (0x6B4C, 0x504F),
  (0x6B4E, 0x649F),
  (0x6B50, 0x528A),
  (0x6B5F, 0x5D46),
  (0x6B61, 0x66F0_625A_60F1_62A9_5886_5755),
  (0x6B6A, 0x5DF7),
  (0x6B72, 0x5ACB),
  (0x6B77, 0x5568_52D0),
  (0x6B7B, 0x59AE),
  (0x6B7F, 0x56FA),
  (0x6B83, 0x5C9B_6B82),
  (0x6B86, 0x64B5),
  (0x6B89, 0x5B9D_5B67),
  (0x6B96, 0x5BEB),
  (0x6B98, 0x5FE8),
  (0x6B9E, 0x5E95),
  (0x6BA4, 0x59F7),
  (0x6BAE, 0x5582_5976),
  (0x6BB2, 0x5AAF),
  (0x6BB5, 0x53DE),
  (0x6BB7, 0x5F57),
  (0x6BBA, 0x59D4),
  (0x6BBC, 0x5061),
  (0x6BBF, 0x60B1),
  (0x6BC1, 0x678B),
  (0x6BC5, 0x5F75_528B),
  (0x6BCB, 0x5756),
  (0x6BCD, 0x56E7),
  (0x6BCF, 0x56AC),
  (0x6BD2, 0x5485_5F44_5955),
  (0x6BD6, 0x69A5_69A6_5956),
  (0x6BDB, 0x56E8),
  (0x6BEB, 0x66A1_528C),
  (0x6C05, 0x62E1),
  (0x6C08, 0x60B2),
  (0x6C0F, 0x5C5D),
  (0x6C11, 0x5786),
  (0x6C13, 0x56BC),
  (0x6C23, 0x5373),
  (0x6C34, 0x5B69),
  (0x6C37, 0x5981_5D8E),
  (0x6C3E, 0x584F),
  (0x6C40, 0x60F2_61FD_528D),
  (0x6C4E, 0x5850),
  (0x6C50, 0x5A7A),
  (0x6C55, 0x59CC),
  (0x6C57, 0x65C0),
  (0x6C5A, 0x5DBE),
  (0x6C5D, 0x5D47_66CC_50A4_625B),
  (0x6C68, 0x51BF),
  (0x6C6A, 0x5DF4),
  (0x6C6D, 0x6A87),
  (0x6C70, 0x64B6),
  (0x6C72, 0x5350),
  (0x6C74, 0x5864),
  (0x6C76, 0x5766),
  (0x6C7A, 0x50FD),
  (0x6C7D, 0x5374_58EA),
  (0x6C81, 0x5C54_5375_5DC6),
  (0x6C85, 0x6AC1_65E5_6A59_6477),
  (0x6C8C, 0x5493),
  (0x6C90, 0x56F5),
  (0x6C92, 0x56FB_53FC_6973_6981_63F5),
  (0x6C98, 0x5952_59A5_6B7C_64FA),
  (0x6CAB, 0x5696),
  (0x6CAE, 0x607C),
  (0x6CB3, 0x65AE),
  (0x6CB8, 0x5954_5EEA),
  (0x6CBB, 0x645B_5ADE_519A_636C_5D5D),
  (0x6CC1, 0x6748_6BD6),
  (0x6CC4, 0x69BC),
  (0x6CC9, 0x6354_5798),
  (0x6CCC, 0x65A2),
  (0x6CD3, 0x66CD),
  (0x6CD5, 0x5855),
  (0x6CD7, 0x59A6),
  (0x6CDB, 0x5851),
  (0x6CE0, 0x558D_656F_64E3_5F66),
  (0x6CE5, 0x53D1),
  (0x6CE8, 0x61CA),
  (0x6CEB, 0x6BD3),
  (0x6CEE, 0x57AF_5787_64B7),
  (0x6CF3, 0x5D8F),
  (0x6D0B, 0x5CD6_557D),
  (0x6D11, 0x5888),
  (0x6D17, 0x5ACC),
  (0x6D19, 0x5B6A),
  (0x6D1B, 0x54D2),
  (0x6D1E, 0x54A4),
  (0x6D25, 0x6278),
  (0x6D27, 0x6ACC),
  (0x6D29, 0x5AA9_66CE),
  (0x6D32, 0x61CB),
  (0x6D35, 0x5B9E_679F),
  (0x6D38, 0x51FD_6AC2),
  (0x6D3B, 0x66F9),
  (0x6D3D, 0x67AF_64E4),
  (0x6D41, 0x55E3),
  (0x6D59, 0x60CB_61EA),
  (0x6D5C, 0x69AA),
  (0x6D63, 0x5DE5),
  (0x6D66, 0x6570),
  (0x6D69, 0x66A2_54F6),
  (0x6D6C, 0x6966),
  (0x6D6E, 0x58C5),
  (0x6D74, 0x5E5D),
  (0x6D77, 0x65F7_6478_6679),
  (0x6D7F, 0x64FB),
  (0x6D85, 0x5D75),
  (0x6D87, 0x515B_5ADF_5AB7),
  (0x6D8C, 0x6AAF_6BF4_5D5F),
  (0x6D91, 0x69C5),
  (0x6D93, 0x5D5E),
  (0x6D95, 0x6388),
  (0x6DAF, 0x5CA4),
  (0x6DB2, 0x5CB0),
  (0x6DB5, 0x65D3),
  (0x6DBC, 0x5548),
  (0x6DC0, 0x6B69),
  (0x6DC3, 0x6886_645C_5A7B_6BF5_5376),
  (0x6DCB, 0x5668),
  (0x6DCF, 0x66A3),
  (0x6DD1, 0x5B95),
  (0x6DD8, 0x5470_61A9_55D9),
  (0x6DDE, 0x69CC),
  (0x6DE1, 0x53F3),
  (0x6DE8, 0x60F3),
  (0x6DEA, 0x55F1_5F5F),
  (0x6DEE, 0x675B),
  (0x6DF1, 0x5C55),
  (0x6DF3, 0x5B9F),
  (0x6DF5, 0x5D60),
  (0x6DF7, 0x66C2_637E_5CFD_6355_636D),
  (0x6E17, 0x59DB),
  (0x6E19, 0x66F1_607D_508E),
  (0x6E1F, 0x60F4_50CB_5471),
  (0x6E23, 0x59A7_698B_5C75_5DDB),
  (0x6E2B, 0x5AAA_6451_5EC5),
  (0x6E2F, 0x65E6),
  (0x6E32, 0x69B8),
  (0x6E34, 0x507E),
  (0x6E36, 0x6A76),
  (0x6E38, 0x5EEB),
  (0x6E3A, 0x574A),
  (0x6E3C, 0x5777_6B54_66C3),
  (0x6E43, 0x57E9_6984),
  (0x6E4A, 0x6B76),
  (0x6E4D, 0x53DF),
  (0x6E56, 0x66A4),
  (0x6E58, 0x59F8),
  (0x6E5B, 0x68F7_5BEC),
  (0x6E5E, 0x6B6A_6BEB),
  (0x6E67, 0x5E65),
  (0x6E6B, 0x63CE),
  (0x6E6E, 0x5FA4_64AE),
  (0x6E72, 0x6AC3_68B4),
  (0x6E7A, 0x5887),
  (0x6E90, 0x5EAD),
  (0x6E96, 0x61EB),
  (0x6E9C, 0x55E4_528E),
  (0x6E9F, 0x56D6),
  (0x6EA2, 0x5FAC),
  (0x6EA5, 0x58C6),
  (0x6EAA, 0x517D_5DCB),
  (0x6EAF, 0x5AE0),
  (0x6EB1, 0x6279_5B6B),
  (0x6EB6, 0x5E66),
  (0x6EBA, 0x53D3),
  (0x6EC2, 0x698D),
  (0x6EC4, 0x62E2_56CE),
  (0x6EC9, 0x6749),
  (0x6ECB, 0x5FC5_6347),
  (0x6ECE, 0x6BD7),
  (0x6ED1, 0x66FA),
  (0x6ED3, 0x6065_5472_54BF),
  (0x6EEF, 0x6389),
  (0x6EF4, 0x6091),
  (0x6EF8, 0x66A5),
  (0x6EFE, 0x51BD_5687),
  (0x6F01, 0x5CE7_658A),
  (0x6F06, 0x6472),
  (0x6F09, 0x55AF),
  (0x6F0C, 0x52F5),
  (0x6F0F, 0x55DA),
  (0x6F11, 0x50B7),
  (0x6F13, 0x564F_5D61_6179),
  (0x6F20, 0x567D),
  (0x6F22, 0x65C1_5572),
  (0x6F2B, 0x5688_625C),
  (0x6F31, 0x5B6C_62E3),
  (0x6F38, 0x60D3),
  (0x6F3F, 0x6046),
  (0x6F41, 0x5D90),
  (0x6F51, 0x57BE),
  (0x6F54, 0x50FC),
  (0x6F57, 0x6B8B_57AE),
  (0x6F5A, 0x69D2_5FED_5FEE),
  (0x6F5E, 0x6957_5A7C),
  (0x6F62, 0x6BEC),
  (0x6F64, 0x5F4B),
  (0x6F66, 0x55A0),
  (0x6F6D, 0x53F4_617A),
  (0x6F70, 0x52CB),
  (0x6F7A, 0x5FE9),
  (0x6F7C, 0x54A5_5889_696B),
  (0x6F81, 0x59E1),
  (0x6F84, 0x62A0),
  (0x6F88, 0x6366),
  (0x6F8D, 0x6B77_6545),
  (0x6F90, 0x6ABC),
  (0x6F94, 0x66A6),
  (0x6F97, 0x5070),
  (0x6FA3, 0x65C2_64C1),
  (0x6FA7, 0x6954),
  (0x6FAE, 0x675C_62B7),
  (0x6FB1, 0x60B3),
  (0x6FB3, 0x6A90),
  (0x6FB9, 0x53F5),
  (0x6FBE, 0x68F4),
  (0x6FC0, 0x50ED_6495_5583_53C5),
  (0x6FCA, 0x5D9F),
  (0x6FD5, 0x5BBA),
  (0x6FDA, 0x6A77_56FE),
  (0x6FDF, 0x6156_66A8_5EEC),
  (0x6FE4, 0x5473),
  (0x6FE9, 0x66A7),
  (0x6FEB, 0x54EA_61EC),
  (0x6FEF, 0x6496),
  (0x6FF1, 0x5977),
  (0x6FFA, 0x6356),
  (0x6FFE, 0x5559),
  (0x7001, 0x5CD7),
  (0x7005, 0x6687_5486),
  (0x7009, 0x59A8),
  (0x700B, 0x5C56),
  (0x700F, 0x6962),
  (0x7011, 0x6582),
  (0x7015, 0x5978),
  (0x7018, 0x55A2),
  (0x701A, 0x6BC8_5D91_6AE3_556B_6B6B_5AE1),
  (0x7023, 0x6BCE),
  (0x7027, 0x55BB_695A),
  (0x702F, 0x6A78_5778),
  (0x7037, 0x5F94),
  (0x703E, 0x54DF),
  (0x704C, 0x51EA),
  (0x7050, 0x6BD8_5B4C),
  (0x7058, 0x64A0),
  (0x705D, 0x66A9),
  (0x7063, 0x5689),
  (0x706B, 0x66D6),
  (0x706F, 0x54C0_675D),
  (0x7078, 0x528F),
  (0x707C, 0x5FDF_6066),
  (0x7085, 0x515C),
  (0x708A, 0x6444),
  (0x708E, 0x5D7C),
  (0x7092, 0x639B),
  (0x7095, 0x65E7),
  (0x7098, 0x6BFD_5FC6_687E),
  (0x70A1, 0x6B6C),
  (0x70A4, 0x5AE2),
  (0x70AB, 0x6661_50CC_64A1_6571_6688),
  (0x70B3, 0x5879),
  (0x70B7, 0x61C9_5FE0_60D4),
  (0x70C8, 0x557E),
  (0x70CB, 0x6796),
  (0x70CF, 0x5DBF),
  (0x70D8, 0x6BE3_54D3),
  (0x70DD, 0x6244),
  (0x70DF, 0x5D62),
  (0x70F1, 0x686A),
  (0x70F9, 0x6546),
  (0x70FD, 0x58AD),
  (0x7104, 0x6781),
  (0x7109, 0x5CF5),
  (0x710C, 0x6B79),
  (0x7119, 0x698F_58EB),
  (0x711E, 0x6945),
  (0x7121, 0x5757),
  (0x7126, 0x639C),
  (0x7130, 0x5D7D),
  (0x7136, 0x5D63),
  (0x7147, 0x6790),
  (0x7149, 0x5573_6BFC),
  (0x714C, 0x674A),
  (0x714E, 0x60B4),
  (0x7150, 0x6A79),
  (0x7156, 0x53A4),
  (0x7159, 0x5D64),
  (0x715C, 0x5E8F),
  (0x715E, 0x69B0),
  (0x7164, 0x56AD_66F2_6BF8_617B),
  (0x7169, 0x57FE),
  (0x716C, 0x5CD8),
  (0x716E, 0x5FC7),
  (0x717D, 0x5A8D),
  (0x7184, 0x5BED),
  (0x7189, 0x6ABD_5E9F),
  (0x718F, 0x6782),
  (0x7192, 0x6BD9),
  (0x7194, 0x5E67),
  (0x7199, 0x67BB),
  (0x719F, 0x5B96),
  (0x71A2, 0x6999),
  (0x71A8, 0x5E9C),
  (0x71AC, 0x6A91),
  (0x71B1, 0x5D76_515D),
  (0x71B9, 0x67BD_6C45),
  (0x71BE, 0x645D),
  (0x71C1, 0x5D85),
  (0x71C3, 0x5D65),
  (0x71C8, 0x54C1_5494),
  (0x71CE, 0x55CD),
  (0x71D0, 0x5660),
  (0x71D2, 0x5AE3),
  (0x71D4, 0x6991_5D66),
  (0x71DF, 0x5D92),
  (0x71E5, 0x617C_62B8_5B68),
  (0x71ED, 0x63B0_5AB5),
  (0x71F9, 0x5A8E),
  (0x71FB, 0x6783_5BFA),
  (0x71FE, 0x5474_6AA6_665B),
  (0x7206, 0x6583),
  (0x7210, 0x55A1),
  (0x721B, 0x54E0),
  (0x722A, 0x617D),
  (0x722C, 0x64E5_606D),
  (0x7230, 0x5EA6),
  (0x7232, 0x5EC6),
  (0x7235, 0x5FE1_58C7),
  (0x723A, 0x5CBF_676E),
  (0x723D, 0x59EC_5F89),
  (0x7240, 0x59FA),
  (0x7246, 0x6049_654C_64EF),
  (0x724C, 0x64FC),
  (0x7252, 0x6376),
  (0x7254, 0x5799),
  (0x7258, 0x5487_5C64),
  (0x725B, 0x5E7F),
  (0x725D, 0x5979),
  (0x725F, 0x56E9),
  (0x7261, 0x56EA_55C0),
  (0x7267, 0x56F6),
  (0x7269, 0x576E),
  (0x7272, 0x5A4E),
  (0x7279, 0x64DC),
  (0x727D, 0x50F3),
  (0x7280, 0x5A57_5650),
  (0x7296, 0x54D4),
  (0x72A2, 0x5488),
  (0x72A7, 0x67BA),
  (0x72AC, 0x50F4),
  (0x72AF, 0x5852),
  (0x72C0, 0x59F9),
  (0x72C2, 0x51FE),
  (0x72C4, 0x6092),
  (0x72CE, 0x5C95),
  (0x72D0, 0x66AA),
  (0x72D7, 0x5290),
  (0x72D9, 0x607E),
  (0x72E1, 0x5260),
  (0x72E9, 0x5B6D),
  (0x72F8, 0x5651_667A),
  (0x72FC, 0x54F7_64FD),
  (0x730A, 0x5DA0),
  (0x7316, 0x6B92),
  (0x731B, 0x56BD_5BD9_61A2),
  (0x7325, 0x5DFB),
  (0x7329, 0x5AC0_607F_574B),
  (0x7334, 0x677A),
  (0x7336, 0x5EED_6ACF),
  (0x733E, 0x66FB_5EAE),
  (0x7344, 0x5DC7_59AA),
  (0x7350, 0x604B),
  (0x7352, 0x5DC0),
  (0x7357, 0x6887),
  (0x7368, 0x5489),
  (0x736A, 0x675E),
  (0x7370, 0x6A7A),
  (0x7372, 0x6765),
  (0x7375, 0x5585),
  (0x7378, 0x5B6E),
  (0x737A, 0x53EB_6656),
  (0x7384, 0x6663),
  (0x7386, 0x5FC8_5B42),
  (0x7389, 0x5DC8),
  (0x738B, 0x5DF5),
  (0x738E, 0x6B6D),
  (0x7394, 0x6B97),
  (0x7396, 0x5291_6AB3_6895),
  (0x739F, 0x5788),
  (0x73A7, 0x5F4C),
  (0x73A9, 0x5DE6),
  (0x73AD, 0x69AB),
  (0x73B2, 0x558E_5456),
  (0x73B9, 0x6BD4),
  (0x73C0, 0x579A),
  (0x73C2, 0x6842),
  (0x73C9, 0x5789_59CD),
  (0x73CC, 0x6BC4_627A),
  (0x73CF, 0x5062),
  (0x73D6, 0x5241),
  (0x73D9, 0x6876),
  (0x73DD, 0x6BF9_54D5),
  (0x73E0, 0x61CD),
  (0x73E2, 0x5F58_5BA0_6996_5F8A_664B),
  (0x73E9, 0x6689_52D8),
  (0x73ED, 0x57B0),
  (0x73F7, 0x697E),
  (0x73F9, 0x69C2),
  (0x73FD, 0x6B6E_6662),
  (0x7401, 0x69B9),
  (0x7403, 0x5292),
  (0x7405, 0x54F8_5652_69CE),
  (0x7409, 0x55E5),
  (0x7413, 0x6A9A),
  (0x741B, 0x6BAD),
  (0x7420, 0x6B61_69D3_6497),
  (0x7425, 0x6BE0_5377),
  (0x7428, 0x6874),
  (0x742A, 0x5378_58AB_5DE7),
  (0x742E, 0x61AA_687C_6A6D),
  (0x7433, 0x5669_5344_5957_64E6),
  (0x7438, 0x6BB3),
  (0x743A, 0x5856),
  (0x743F, 0x66C4_6AB4_6978),
  (0x7443, 0x6BA7_5A90_6157),
  (0x744B, 0x5EC7),
  (0x7455, 0x65AF),
  (0x7457, 0x5EAF),
  (0x7459, 0x53C4_66AB_5D93_5EEE),
  (0x745E, 0x5A64_5BB5_55E6),
  (0x7462, 0x5E68_5B4D_5E4D_5DCC),
  (0x7468, 0x627B_6BDA_5674),
  (0x746F, 0x54F9),
  (0x747E, 0x52F6),
  (0x7482, 0x6896_5653),
  (0x7487, 0x5A91),
  (0x7489, 0x694F),
  (0x748B, 0x604C),
  (0x7498, 0x5661),
  (0x749C, 0x6BED),
  (0x749E, 0x579B_515E),
  (0x74A1, 0x627C),
  (0x74A3, 0x5379),
  (0x74A5, 0x686B),
  (0x74A7, 0x585B_62B9),
  (0x74AA, 0x6B71),
  (0x74B0, 0x66F3),
  (0x74B2, 0x69CF),
  (0x74B5, 0x6A46),
  (0x74B9, 0x69D4),
  (0x74BD, 0x5A47),
  (0x74BF, 0x5A92),
  (0x74C6, 0x6B89),
  (0x74CA, 0x515F),
  (0x74CF, 0x55BC),
  (0x74D4, 0x5D95),
  (0x74D8, 0x51E8),
  (0x74DA, 0x62BA),
  (0x74DC, 0x51D5),
  (0x74E0, 0x66AC),
  (0x74E2, 0x658B_64F2),
  (0x74E6, 0x5DDC),
  (0x74EE, 0x5DD4),
  (0x74F7, 0x5FC9),
  (0x7501, 0x587A),
  (0x7503, 0x63CF_50F5),
  (0x750C, 0x5293),
  (0x7511, 0x6246),
  (0x7515, 0x5DD7),
  (0x7518, 0x508F),
  (0x751A, 0x5C57_636E),
  (0x751F, 0x5A4F),
  (0x7523, 0x59CE),
  (0x7525, 0x5A50_5AE4),
  (0x7528, 0x5E69),
  (0x752B, 0x588A_6AB0),
  (0x7530, 0x60B5_5EEF_5098_5BFB),
  (0x7537, 0x53AA_60B6),
  (0x753A, 0x60F5),
  (0x7547, 0x688E),
  (0x754A, 0x5160),
  (0x754C, 0x517E),
  (0x754F, 0x5DFC),
  (0x7551, 0x6B62),
  (0x7553, 0x68FA_57B1),
  (0x7559, 0x55E7),
  (0x755B, 0x6B83_63E4_5758),
  (0x7562, 0x65A3),
  (0x7565, 0x5542_6797),
  (0x756A, 0x5841),
  (0x756F, 0x61ED_5F8B),
  (0x7575, 0x66D8_5449),
  (0x7578, 0x537A),
  (0x757A, 0x684F),
  (0x757F, 0x537B),
  (0x7586, 0x50A5_61CE),
  (0x758A, 0x6377_65A4),
  (0x758E, 0x5AE5_5AE6),
  (0x7591, 0x5F6F),
  (0x759D, 0x59CF),
  (0x75A5, 0x50B8),
  (0x75AB, 0x5D4F),
  (0x75B1, 0x6572_659A_5090),
  (0x75B5, 0x5FCA),
  (0x75B8, 0x53EC_627D),
  (0x75BC, 0x54A7_6080_6291),
  (0x75C2, 0x6843),
  (0x75C5, 0x587B),
  (0x75C7, 0x6247),
  (0x75CD, 0x5F8C),
  (0x75D2, 0x5CDA),
  (0x75D4, 0x645E_67A5),
  (0x75D8, 0x54B0_5161),
  (0x75DB, 0x64CC),
  (0x75E2, 0x5654_625D),
  (0x75F0, 0x53F6),
  (0x75F2, 0x5675_566A_645F),
  (0x75FA, 0x5958),
  (0x75FC, 0x519B),
  (0x7600, 0x69FA),
  (0x760D, 0x5CDB),
  (0x7619, 0x69C3),
  (0x761F, 0x5DCD_6348_62E4_6988),
  (0x7624, 0x55E8),
  (0x7626, 0x5B70_65B8),
  (0x7634, 0x604D),
  (0x763B, 0x695E),
  (0x7642, 0x55CE),
  (0x764C, 0x5C8E),
  (0x764E, 0x5071),
  (0x7652, 0x5EF0),
  (0x7656, 0x585C),
  (0x7658, 0x555A),
  (0x7661, 0x6460),
  (0x7664, 0x6B65),
  (0x7669, 0x54CB),
  (0x766C, 0x5A93),
  (0x7670, 0x5DD5),
  (0x7672, 0x60B7),
  (0x7678, 0x517F),
  (0x767B, 0x54C2_57C0_57F9_57FA),
  (0x7681, 0x617E),
  (0x7684, 0x6093),
  (0x7686, 0x50B9_674B),
  (0x768E, 0x5261),
  (0x7690, 0x519C),
  (0x7693, 0x66AD),
  (0x769A, 0x5CA5),
  (0x769E, 0x66AE),
  (0x76AE, 0x659B),
  (0x76BA, 0x63D0),
  (0x76BF, 0x56D7),
  (0x76C2, 0x5E80_57EA),
  (0x76C6, 0x58EC),
  (0x76C8, 0x5D96),
  (0x76CA, 0x5F96),
  (0x76D2, 0x65D9),
  (0x76D6, 0x50BA),
  (0x76DB, 0x5AC1_5475),
  (0x76DE, 0x5FEA_56BE),
  (0x76E1, 0x627E),
  (0x76E3, 0x5091_57B2_51EB),
  (0x76E7, 0x55A3),
  (0x76EE, 0x56F7),
  (0x76F2, 0x56BF),
  (0x76F4, 0x626D),
  (0x76F8, 0x59F4),
  (0x76FC, 0x6989),
  (0x76FE, 0x5BA1),
  (0x7701, 0x5AC2),
  (0x7704, 0x56C8),
  (0x7708, 0x6BB4_5779),
  (0x770B, 0x5072),
  (0x771B, 0x56AE),
  (0x771E, 0x627F),
  (0x7720, 0x56C9),
  (0x7725, 0x5FCB),
  (0x7729, 0x6664),
  (0x7737, 0x52C5_56EB),
  (0x773A, 0x617F),
  (0x773C, 0x5C7E),
  (0x7740, 0x62B1),
  (0x774D, 0x6BD2),
  (0x775B, 0x60F6),
  (0x7761, 0x5B71),
  (0x7763, 0x548A),
  (0x7765, 0x5959_56F8),
  (0x7768, 0x5DA1),
  (0x776B, 0x6378),
  (0x7779, 0x5476),
  (0x777E, 0x51A0_5DA2),
  (0x778B, 0x6280),
  (0x7791, 0x6975),
  (0x779E, 0x568A),
  (0x77A5, 0x586E),
  (0x77AC, 0x5BA2_55CF),
  (0x77B0, 0x684B),
  (0x77B3, 0x54A8),
  (0x77BB, 0x636F_50E3_519E),
  (0x77BF, 0x5294),
  (0x77C7, 0x5741),
  (0x77D7, 0x63B1),
  (0x77DB, 0x56EC_5356),
  (0x77E2, 0x5BDA_5F70),
  (0x77E5, 0x625E),
  (0x77E7, 0x5BFC),
  (0x77E9, 0x5295),
  (0x77ED, 0x53E0_5DF8_5262),
  (0x77F3, 0x5A7D),
  (0x7802, 0x59AF),
  (0x780C, 0x638A),
  (0x7812, 0x595A),
  (0x7825, 0x625F_62EE_6479),
  (0x782C, 0x566E),
  (0x7832, 0x6573),
  (0x7834, 0x64E7),
  (0x7845, 0x52D9),
  (0x784F, 0x5D67),
  (0x785D, 0x639D),
  (0x786B, 0x55E9_5162),
  (0x786F, 0x5D68),
  (0x787C, 0x58FD),
  (0x7881, 0x537C),
  (0x7887, 0x60F7),
  (0x788C, 0x55B0_5CA7_5B4E),
  (0x7891, 0x595B),
  (0x7893, 0x5457),
  (0x7897, 0x5DE8),
  (0x78A3, 0x507F),
  (0x78A7, 0x585D),
  (0x78A9, 0x5A7E),
  (0x78BA, 0x66E3_66E4_696C),
  (0x78C1, 0x5FCC),
  (0x78C5, 0x698E),
  (0x78CA, 0x55C1_62AA),
  (0x78CE, 0x5180),
  (0x78D0, 0x698A),
  (0x78DA, 0x60B8),
  (0x78E8, 0x5676),
  (0x78EC, 0x5163),
  (0x78EF, 0x537D),
  (0x78F5, 0x6848),
  (0x78FB, 0x57B3),
  (0x7901, 0x639E),
  (0x790E, 0x639F),
  (0x7916, 0x6A47),
  (0x7919, 0x5CA8),
  (0x792A, 0x555B_556C_57B4),
  (0x793A, 0x5BDB),
  (0x793E, 0x59AC),
  (0x7940, 0x59AB_6897),
  (0x7947, 0x537E_537F_6261),
  (0x7950, 0x5E81),
  (0x7956, 0x6180_6260),
  (0x795A, 0x6181_6859_66AF_63E3_5BFD_5B6F_59AD),
  (0x7965, 0x59FB),
  (0x7968, 0x658C),
  (0x796D, 0x6159),
  (0x797A, 0x5380),
  (0x797F, 0x6958),
  (0x7981, 0x5345),
  (0x798D, 0x66D7_60F8_5897),
  (0x7991, 0x5E82),
  (0x79A6, 0x5CE8_67BE),
  (0x79AA, 0x5A8F),
  (0x79AE, 0x559A),
  (0x79B1, 0x5477),
  (0x79B3, 0x69F5),
  (0x79B9, 0x5E83),
  (0x79BB, 0x5655),
  (0x79BD, 0x5346_66D9_548B_5B73_59B0),
  (0x79C9, 0x587D_53B7_63D1),
  (0x79D1, 0x51D6_63A0),
  (0x79D5, 0x69A7),
  (0x79D8, 0x595C),
  (0x79DF, 0x6182),
  (0x79E4, 0x647D),
  (0x79E6, 0x6281_5C9C),
  (0x79E9, 0x6292),
  (0x79FB, 0x5F8D),
  (0x7A00, 0x67BF),
  (0x7A05, 0x5ACD),
  (0x7A08, 0x5073),
  (0x7A0B, 0x60F9),
  (0x7A0D, 0x63A1),
  (0x7A14, 0x5FB4),
  (0x7A17, 0x64FE),
  (0x7A19, 0x626E_6462),
  (0x7A1C, 0x5642),
  (0x7A1F, 0x6592_6183),
  (0x7A2E, 0x61AB),
  (0x7A31, 0x647E),
  (0x7A36, 0x5E90_626F),
  (0x7A3B, 0x5478_5050_5182),
  (0x7A3F, 0x519F_51B4),
  (0x7A46, 0x56F9),
  (0x7A49, 0x6BAB),
  (0x7A4D, 0x6094_6A7C),
  (0x7A57, 0x5B74),
  (0x7A61, 0x5A4B_6A88),
  (0x7A69, 0x5DCE),
  (0x7A6B, 0x66E5),
  (0x7A70, 0x5CD9),
  (0x7A74, 0x666F),
  (0x7A76, 0x5296),
  (0x7A79, 0x52BB_51D0),
  (0x7A7D, 0x60FA),
  (0x7A7F, 0x6357),
  (0x7A81, 0x5499),
  (0x7A83, 0x60CC_62B2),
  (0x7A88, 0x5E4E),
  (0x7A92, 0x628C_62E5),
  (0x7A95, 0x6184),
  (0x7A98, 0x52B0),
  (0x7A9F, 0x52B8),
  (0x7AA9, 0x5DDD_6A97),
  (0x7AAE, 0x52BC_5E4F),
  (0x7ABA, 0x52DA),
  (0x7ABF, 0x55F8),
  (0x7AC4, 0x62BB_688C),
  (0x7AC7, 0x54B1_6185),
  (0x7ACA, 0x60CD_566F),
  (0x7AD7, 0x697B),
  (0x7AD9, 0x62D1),
  (0x7ADD, 0x587C),
  (0x7ADF, 0x5164_604E),
  (0x7AE3, 0x61EE),
  (0x7AE5, 0x54A6),
  (0x7AEA, 0x5B75),
  (0x7AED, 0x5080),
  (0x7AEF, 0x53E1),
  (0x7AF6, 0x5165),
  (0x7AF9, 0x61E1_63E5),
  (0x7AFF, 0x5074),
  (0x7B08, 0x5351),
  (0x7B0A, 0x6186),
  (0x7B0F, 0x66C8),
  (0x7B11, 0x5AE7),
  (0x7B19, 0x5A52),
  (0x7B1B, 0x6095),
  (0x7B1E, 0x64B8),
  (0x7B20, 0x5670),
  (0x7B25, 0x59B1_58CA),
  (0x7B2C, 0x615A_6952),
  (0x7B39, 0x5ACE),
  (0x7B46, 0x65A5),
  (0x7B49, 0x54C3),
  (0x7B4B, 0x52F7_6B63_5BA3),
  (0x7B4F, 0x5849_5242_63E6_64CD),
  (0x7B54, 0x53FD),
  (0x7B56, 0x62F6),
  (0x7B60, 0x52E2),
  (0x7B6C, 0x5AC3),
  (0x7B6E, 0x69B5),
  (0x7B75, 0x5D69),
  (0x7B7D, 0x6A92),
  (0x7B87, 0x50BB),
  (0x7B8B, 0x60B9),
  (0x7B8F, 0x606E),
  (0x7B92, 0x63D2),
  (0x7B94, 0x579C_5381),
  (0x7B97, 0x59D0),
  (0x7B9A, 0x62A3),
  (0x7B9C, 0x51D1_5145),
  (0x7BA1, 0x51EC),
  (0x7BAD, 0x60BA),
  (0x7BB1, 0x59FC),
  (0x7BB4, 0x5FEF),
  (0x7BB8, 0x6081),
  (0x7BC0, 0x60CE_674C),
  (0x7BC4, 0x5853),
  (0x7BC6, 0x60BB_654D),
  (0x7BC9, 0x63E7),
  (0x7BCB, 0x667B_677C),
  (0x7BD2, 0x69DE),
  (0x7BDB, 0x5CC5),
  (0x7BE0, 0x69C4),
  (0x7BE4, 0x548C),
  (0x7BE6, 0x595D),
  (0x7BE9, 0x59B2),
  (0x7C00, 0x62F7),
  (0x7C07, 0x619B),
  (0x7C12, 0x6B8E),
  (0x7C1E, 0x53E2),
  (0x7C21, 0x5075),
  (0x7C27, 0x6BEE),
  (0x7C2A, 0x5FF0_5AE8),
  (0x7C37, 0x6370),
  (0x7C3D, 0x6B99_5584_58C8),
  (0x7C43, 0x54EB),
  (0x7C4C, 0x61D0_6096),
  (0x7C5F, 0x55C2_55BD),
  (0x7C64, 0x6371_5CC6),
  (0x7C6C, 0x5657),
  (0x7C73, 0x577A),
  (0x7C83, 0x69A8),
  (0x7C89, 0x58ED),
  (0x7C92, 0x5671),
  (0x7C95, 0x579E),
  (0x7C97, 0x6187_60D6),
  (0x7C9F, 0x5AFA),
  (0x7CA2, 0x5FCD),
  (0x7CA5, 0x61E2),
  (0x7CA7, 0x604F),
  (0x7CAE, 0x554A),
  (0x7CB1, 0x554B_62BD_50C2),
  (0x7CB9, 0x5B76),
  (0x7CBE, 0x60FC),
  (0x7CCA, 0x66B0),
  (0x7CD6, 0x544A),
  (0x7CDC, 0x577B),
  (0x7CDE, 0x58EE_6188_50A8),
  (0x7CE7, 0x554C),
  (0x7CEF, 0x53A0),
  (0x7CF4, 0x6097),
  (0x7CF6, 0x6189),
  (0x7CFB, 0x5183),
  (0x7CFE, 0x52DC),
  (0x7D00, 0x5382),
  (0x7D02, 0x61D1),
  (0x7D04, 0x5CC7_66D0_6AB5_67A8_66F4),
  (0x7D0A, 0x5768_5767),
  (0x7D0D, 0x53AB),
  (0x7D10, 0x53CE),
  (0x7D14, 0x5BA4),
  (0x7D17, 0x59B4_5252_6262_5352_58EF),
  (0x7D20, 0x5AE9_57D3_5A4C),
  (0x7D2B, 0x5FCE_61D2),
  (0x7D2E, 0x6B8F_55DB_5ACF),
  (0x7D33, 0x5BFE),
  (0x7D35, 0x6B56),
  (0x7D39, 0x5AEA_5092),
  (0x7D42, 0x61AC_6665_618A_5166_57B5),
  (0x7D50, 0x50FE),
  (0x7D5B, 0x618B),
  (0x7D5E, 0x5263),
  (0x7D61, 0x54D6_6666),
  (0x7D66, 0x5353),
  (0x7D68, 0x5F51),
  (0x7D6A, 0x6AFE),
  (0x7D6E, 0x5A65),
  (0x7D71, 0x64CE_59B5_6850),
  (0x7D76, 0x60CF),
  (0x7D79, 0x50F6),
  (0x7D7F, 0x5297),
  (0x7D83, 0x63A2),
  (0x7D8E, 0x6B6F_5B77),
  (0x7D93, 0x5167),
  (0x7D9C, 0x61AD),
  (0x7DA0, 0x55B2),
  (0x7DA2, 0x61D3),
  (0x7DAC, 0x5B78_5EF1),
  (0x7DB1, 0x50A6_569E),
  (0x7DB4, 0x6367_62EF),
  (0x7DB8, 0x55F2),
  (0x7DBA, 0x5383_64A2),
  (0x7DBD, 0x5FE2_5643_56CA),
  (0x7DC7, 0x6463),
  (0x7DCA, 0x5394_595E),
  (0x7DD6, 0x5A66),
  (0x7DD8, 0x65D4),
  (0x7DDA, 0x5A94),
  (0x7DDD, 0x629C_53E3),
  (0x7DE0, 0x638B_6987),
  (0x7DE3, 0x5D6A),
  (0x7DE6, 0x5BDD),
  (0x7DE8, 0x654E_5DE9),
  (0x7DEC, 0x56CB),
  (0x7DEF, 0x5EC8),
  (0x7DF4, 0x5574),
  (0x7DFB, 0x6464),
  (0x7E09, 0x6282_69ED),
  (0x7E15, 0x6A95),
  (0x7E1B, 0x579D),
  (0x7E1D, 0x6B84_66B1_6AAA),
  (0x7E21, 0x6B55),
  (0x7E23, 0x6667),
  (0x7E2B, 0x58AE),
  (0x7E2E, 0x63E8_6A5F),
  (0x7E31, 0x61AE),
  (0x7E37, 0x55DC),
  (0x7E3D, 0x63BE_6098),
  (0x7E41, 0x5843),
  (0x7E43, 0x58FE),
  (0x7E46, 0x5759_5E50),
  (0x7E52, 0x6B7B),
  (0x7E54, 0x6270_5A95),
  (0x7E5E, 0x5E51),
  (0x7E61, 0x5B79),
  (0x7E69, 0x5BC5_675F_5184),
  (0x7E6D, 0x50F7),
  (0x7E70, 0x618C),
  (0x7E79, 0x5D50),
  (0x7E7C, 0x5185),
  (0x7E82, 0x62BC),
  (0x7E8C, 0x5AFB),
  (0x7E8F, 0x60BC),
  (0x7E93, 0x5D97_6067),
  (0x7E96, 0x5AB0),
  (0x7E98, 0x62BE),
  (0x7E9B, 0x548D_54EC),
  (0x7F36, 0x58C9),
  (0x7F38, 0x65E8),
  (0x7F3A, 0x5141),
  (0x7F4C, 0x5CB5),
  (0x7F50, 0x51ED),
  (0x7F54, 0x569F_65C3),
  (0x7F58, 0x58CB),
  (0x7F6A, 0x61B9_5247),
  (0x7F6E, 0x6465),
  (0x7F70, 0x584A),
  (0x7F72, 0x5A67),
  (0x7F75, 0x56AF),
  (0x7F77, 0x64E8),
  (0x7F79, 0x5656),
  (0x7F85, 0x54CC),
  (0x7F88, 0x6898),
  (0x7F8A, 0x5CDC),
  (0x7F8C, 0x6851),
  (0x7F8E, 0x577C),
  (0x7F94, 0x6871),
  (0x7F98, 0x5CDD),
  (0x7F9A, 0x558F),
  (0x7F9E, 0x5B7A),
  (0x7FA4, 0x52B1),
  (0x7FA8, 0x5A96_5F76),
  (0x7FAF, 0x5082),
  (0x7FB2, 0x67C0),
  (0x7FB8, 0x6968_50C3),
  (0x7FBD, 0x5E84),
  (0x7FC1, 0x5DD8),
  (0x7FC5, 0x5BDE),
  (0x7FCA, 0x5F97),
  (0x7FCC, 0x5F98),
  (0x7FCE, 0x5590),
  (0x7FD2, 0x5BBB),
  (0x7FD4, 0x59FD_6C41),
  (0x7FDF, 0x6B5C_6445_595F),
  (0x7FE6, 0x60BD),
  (0x7FE9, 0x654F),
  (0x7FEB, 0x5DEA),
  (0x7FF0, 0x65C4),
  (0x7FF3, 0x5DA3),
  (0x7FF9, 0x5264),
  (0x7FFB, 0x5844_5F95),
  (0x8000, 0x5E52_55A4),
  (0x8003, 0x51A1_56ED_5FCF_5385),
  (0x8009, 0x6880),
  (0x800C, 0x5F8E),
  (0x8010, 0x53B3),
  (0x8014, 0x5FD0_5168),
  (0x8017, 0x56EE_5E96),
  (0x802D, 0x5386),
  (0x8033, 0x5F8F),
  (0x8036, 0x5CC0),
  (0x803D, 0x64A7),
  (0x803F, 0x5169),
  (0x8043, 0x53F7),
  (0x8046, 0x6953),
  (0x804A, 0x55D1),
  (0x8056, 0x5AC4),
  (0x8058, 0x5982),
  (0x805A, 0x6446),
  (0x805E, 0x576C),
  (0x806F, 0x5575_63BF),
  (0x8072, 0x5AC5_5E6A),
  (0x8077, 0x6271),
  (0x807D, 0x637F_55BE_5F4F),
  (0x8084, 0x6AF0_5B97_59BF_618D),
  (0x8089, 0x5F45),
  (0x808B, 0x55FA_5387),
  (0x8096, 0x63A3),
  (0x8098, 0x61D4),
  (0x809A, 0x54B3_65E9),
  (0x809D, 0x5078),
  (0x80A1, 0x51A2_6263),
  (0x80A5, 0x5960),
  (0x80A9, 0x50F2_57D4),
  (0x80AF, 0x5357),
  (0x80B1, 0x5253_5F46),
  (0x80B4, 0x676F),
  (0x80BA, 0x655E),
  (0x80C3, 0x5EC9_61D5),
  (0x80CC, 0x57EC),
  (0x80CE, 0x64B9),
  (0x80D6, 0x57B6),
  (0x80DA, 0x57EB_5099),
  (0x80DE, 0x6574),
  (0x80E1, 0x66B2),
  (0x80E4, 0x5F4D_5A68),
  (0x80F1, 0x5243),
  (0x80F4, 0x54AA),
  (0x80F8, 0x67A0),
  (0x80FD, 0x53CF),
  (0x8102, 0x6264),
  (0x8105, 0x667D_6447_667C_56B5_56B6_6349),
  (0x8118, 0x6A9B),
  (0x811A, 0x5063_516A),
  (0x8123, 0x5BA5),
  (0x8129, 0x5B7B),
  (0x812B, 0x64A5),
  (0x812F, 0x6575),
  (0x8139, 0x62E6),
  (0x813E, 0x5962),
  (0x814B, 0x5CB1),
  (0x814E, 0x5C41),
  (0x8150, 0x58CD_58CC),
  (0x8153, 0x5961_50A9_5DEB),
  (0x8165, 0x5AC6_53C9),
  (0x816B, 0x61AF),
  (0x8170, 0x5E4A_685D),
  (0x8178, 0x6050_5899_5A97),
  (0x817F, 0x64D1_57D5),
  (0x8182, 0x555C),
  (0x8188, 0x6862),
  (0x818A, 0x579F),
  (0x818F, 0x51A3),
  (0x819A, 0x58CE),
  (0x819C, 0x567E_5BB6),
  (0x81A0, 0x5265),
  (0x81A3, 0x6293),
  (0x81A8, 0x6547),
  (0x81B3, 0x5A98),
  (0x81B5, 0x63FA),
  (0x81BA, 0x5F6A),
  (0x81BD, 0x53F8_6760_53C6_54B9),
  (0x81C2, 0x5963),
  (0x81C6, 0x5CF1),
  (0x81CD, 0x6158),
  (0x81D8, 0x54F1_5D6C),
  (0x81DF, 0x6051),
  (0x81E3, 0x5C42),
  (0x81E5, 0x5DE1),
  (0x81E7, 0x6B53_566B),
  (0x81EA, 0x5FD1),
  (0x81ED, 0x6448),
  (0x81F3, 0x6265_6467),
  (0x81FA, 0x5458_6B85_5299),
  (0x81FE, 0x5EF2),
  (0x8202, 0x5E6B),
  (0x8205, 0x529A),
  (0x8207, 0x5D48_67B0),
  (0x820A, 0x529B),
  (0x820C, 0x5AA4_598A),
  (0x8212, 0x5A69),
  (0x8216, 0x6576),
  (0x821B, 0x6358_5BA6),
  (0x821E, 0x575A_61D6),
  (0x8221, 0x6852),
  (0x822A, 0x65EA_57D6_57B8),
  (0x8233, 0x63E9),
  (0x8235, 0x6488_57A0_6668),
  (0x8239, 0x5A99),
  (0x8240, 0x699E),
  (0x8245, 0x6A49),
  (0x8247, 0x60FD),
  (0x8258, 0x5AEB_62E7),
  (0x8264, 0x5F77),
  (0x8266, 0x65D5),
  (0x826B, 0x55A5),
  (0x826E, 0x5076_554D),
  (0x8271, 0x5077_5A4D),
  (0x8276, 0x5D80),
  (0x8278, 0x6B9D),
  (0x827E, 0x5CA9),
  (0x828B, 0x5E85),
  (0x828D, 0x5FE3_6884),
  (0x8292, 0x56A0),
  (0x8299, 0x58CF_6947),
  (0x829D, 0x6266),
  (0x829F, 0x59DD),
  (0x82A5, 0x50BC_6BE1),
  (0x82A9, 0x6892),
  (0x82AC, 0x58F0_64E9_5DA4_5C58),
  (0x82B1, 0x66DB),
  (0x82B3, 0x57D7),
  (0x82B7, 0x6B7D_5E97_52F8),
  (0x82BB, 0x63D3_6979_5C65),
  (0x82BF, 0x6B50),
  (0x82D1, 0x5EB0_5D7F_5591_64BA_6B9E),
  (0x82D7, 0x574C),
  (0x82DB, 0x5051),
  (0x82DE, 0x6BBD_529C),
  (0x82E1, 0x6AF1),
  (0x82E5, 0x5CC8_51A4_6082),
  (0x82F1, 0x5D98),
  (0x82FA, 0x56B0_58D0),
  (0x82FD, 0x6872_6BC5),
  (0x8301, 0x61F4_575B_5854_5052_56EF),
  (0x8309, 0x6971),
  (0x8317, 0x56D8),
  (0x8328, 0x6B51),
  (0x832B, 0x56A1),
  (0x832F, 0x589A),
  (0x8331, 0x5B7C),
  (0x8334, 0x6BF0_6B41_53D5),
  (0x8338, 0x5E6C_6A4A),
  (0x8340, 0x5BA7),
  (0x8347, 0x6BCF),
  (0x8349, 0x63A4_668A),
  (0x834F, 0x5FB5),
  (0x8351, 0x5F90_674D),
  (0x8373, 0x54B2),
  (0x8377, 0x65B1),
  (0x837B, 0x6099),
  (0x8389, 0x6969_6052),
  (0x838E, 0x59B6),
  (0x8396, 0x516B),
  (0x8398, 0x5C43),
  (0x839E, 0x5DEC),
  (0x83A2, 0x667E),
  (0x83A9, 0x699F_69E4_567F),
  (0x83BD, 0x56A2),
  (0x83C1, 0x6380),
  (0x83C5, 0x51EE),
  (0x83C9, 0x6959_52AD),
  (0x83CC, 0x52E3),
  (0x83D3, 0x51D7),
  (0x83D6, 0x62E8),
  (0x83DC, 0x62F0),
  (0x83DF, 0x547A),
  (0x83E9, 0x6997),
  (0x83EB, 0x52F9),
  (0x83EF, 0x66DC_6873_5644_5964),
  (0x83F4, 0x5C8F),
  (0x83F9, 0x6B57),
  (0x83FD, 0x5B98),
  (0x8403, 0x63FB_5479),
  (0x840A, 0x54FD),
  (0x840C, 0x56C0_6556_5ECA),
  (0x8429, 0x63D4),
  (0x842C, 0x568B),
  (0x8431, 0x6788),
  (0x8438, 0x5EF3),
  (0x843C, 0x5C76_54D7),
  (0x8449, 0x5D86),
  (0x8451, 0x58AF),
  (0x8457, 0x6083),
  (0x845B, 0x5083),
  (0x8461, 0x6577),
  (0x8463, 0x54A9),
  (0x8466, 0x5ECB),
  (0x846B, 0x66B3_6053),
  (0x846F, 0x5CC9),
  (0x8471, 0x63C0),
  (0x8475, 0x52DB),
  (0x847A, 0x61FE),
  (0x8490, 0x5B7D),
  (0x8494, 0x5BDF),
  (0x8499, 0x5742),
  (0x849C, 0x59D1),
  (0x84A1, 0x57D8),
  (0x84B2, 0x6578),
  (0x84B8, 0x6248_5146),
  (0x84BB, 0x69F0_62E9),
  (0x84BF, 0x6BE2_69C9),
  (0x84C2, 0x6976),
  (0x84C4, 0x63EA),
  (0x84C6, 0x5A7F),
  (0x84C9, 0x5E6D),
  (0x84CB, 0x50BD),
  (0x84CD, 0x5BE0),
  (0x84D1, 0x59B3),
  (0x84D6, 0x659C),
  (0x84DA, 0x5B7E),
  (0x84EC, 0x58B0),
  (0x84EE, 0x5576),
  (0x84F4, 0x69D8),
  (0x84FC, 0x55D2),
  (0x8511, 0x56CF),
  (0x8513, 0x568C_589B),
  (0x8517, 0x5FD2_59DE),
  (0x851A, 0x5E9D),
  (0x851E, 0x695F_61CF),
  (0x8521, 0x62F1),
  (0x8523, 0x6054),
  (0x8525, 0x6BA2),
  (0x852C, 0x5AEC_5F60),
  (0x852F, 0x6B86),
  (0x853D, 0x655F),
  (0x853F, 0x6AC6),
  (0x8541, 0x68F8),
  (0x8543, 0x5845),
  (0x8549, 0x63A5),
  (0x854B, 0x5DA5),
  (0x854E, 0x5266),
  (0x8553, 0x6ABE),
  (0x8558, 0x5E53_6694),
  (0x8561, 0x58F1),
  (0x8563, 0x69D9_5EF4),
  (0x8568, 0x6888_64AF_575C),
  (0x856D, 0x5AED),
  (0x857E, 0x55C3),
  (0x8580, 0x5DCF),
  (0x8584, 0x57A1),
  (0x8587, 0x577D),
  (0x858F, 0x6AE6),
  (0x8591, 0x50AA),
  (0x8594, 0x6055),
  (0x859B, 0x5AAB),
  (0x85A6, 0x6359),
  (0x85A8, 0x6786_59D6_5C44),
  (0x85AF, 0x5A6A_6784),
  (0x85BA, 0x615B),
  (0x85C1, 0x51A5),
  (0x85C9, 0x5FD3),
  (0x85CD, 0x54ED_69E1_6056),
  (0x85D5, 0x6AB6),
  (0x85DC, 0x555D_5DA6),
  (0x85E4, 0x54C4_5CCA),
  (0x85E9, 0x5846_5B7F),
  (0x85F7, 0x6084),
  (0x85FA, 0x5662_618E),
  (0x85FF, 0x51DF),
  (0x8602, 0x5DA7),
  (0x8606, 0x55A6_5AEE),
  (0x860A, 0x5DD0_597A),
  (0x8616, 0x69FB_6993),
  (0x861A, 0x5A9A),
  (0x862D, 0x54E1),
  (0x863F, 0x54CD),
  (0x864E, 0x66B4),
  (0x8650, 0x65B9),
  (0x8654, 0x50D9_62FC),
  (0x865B, 0x6652_55A7),
  (0x865E, 0x5E86_66B5),
  (0x8667, 0x6798),
  (0x8671, 0x5BB7),
  (0x8679, 0x66D1),
  (0x868A, 0x5769),
  (0x868C, 0x57D9),
  (0x8693, 0x6B43),
  (0x8695, 0x5FF1),
  (0x86A3, 0x6877_618F),
  (0x86A9, 0x6BAC_54B4),
  (0x86C6, 0x6085_59B7),
  (0x86C9, 0x5592),
  (0x86CB, 0x53E4),
  (0x86D4, 0x6761),
  (0x86D9, 0x5DDE),
  (0x86DB, 0x61D7),
  (0x86DF, 0x5267),
  (0x86E4, 0x65DA),
  (0x86ED, 0x6294),
  (0x86F9, 0x5E6E),
  (0x86FE, 0x5C66),
  (0x8700, 0x63B2),
  (0x8702, 0x58B1_5C45),
  (0x8708, 0x5DC1_58D1),
  (0x8718, 0x6267),
  (0x871A, 0x5965),
  (0x871C, 0x578D),
  (0x8734, 0x634A),
  (0x873B, 0x6381),
  (0x873F, 0x5EB1),
  (0x874C, 0x51D8),
  (0x874E, 0x6849),
  (0x8755, 0x69DF),
  (0x8757, 0x674E),
  (0x8759, 0x6550),
  (0x875F, 0x5ECC_589D),
  (0x8766, 0x65B0),
  (0x8768, 0x5BB8),
  (0x8774, 0x66B6),
  (0x8776, 0x60DB),
  (0x8778, 0x5DDF),
  (0x8782, 0x54FA),
  (0x878D, 0x5F52),
  (0x879F, 0x56D9),
  (0x87A2, 0x668B),
  (0x87AD, 0x5658),
  (0x87B3, 0x68FC),
  (0x87BA, 0x54CE),
  (0x87C0, 0x5B43),
  (0x87C4, 0x647C),
  (0x87C7, 0x5677),
  (0x87E0, 0x57B7),
  (0x87EC, 0x5A9B),
  (0x87EF, 0x5E54),
  (0x87F2, 0x63F6),
  (0x87F7, 0x544B),
  (0x87F9, 0x65F8),
  (0x87FB, 0x5F78),
  (0x87FE, 0x5AB1),
  (0x8805, 0x5BC6),
  (0x8815, 0x5D6D),
  (0x881F, 0x54F2),
  (0x8821, 0x5560_61EF_555F),
  (0x8831, 0x519D),
  (0x8836, 0x5FF2),
  (0x883B, 0x568D),
  (0x8840, 0x6670),
  (0x8846, 0x61F7),
  (0x884C, 0x6646_5D6E),
  (0x8852, 0x6669_5BB0),
  (0x8857, 0x5053),
  (0x8859, 0x5C67),
  (0x885B, 0x5ECD),
  (0x885D, 0x63F7_5ECE),
  (0x8861, 0x668C_529D_5F79),
  (0x8868, 0x658D),
  (0x886B, 0x59DC),
  (0x8870, 0x5B50),
  (0x8872, 0x68BB),
  (0x8877, 0x63F8),
  (0x887E, 0x5348_5347),
  (0x8881, 0x5EB2_56DC),
  (0x8888, 0x5054),
  (0x888B, 0x5459),
  (0x888D, 0x6579),
  (0x8892, 0x53E5),
  (0x8896, 0x5B80_6B87),
  (0x889E, 0x51BE),
  (0x88AB, 0x659D),
  (0x88B4, 0x51A6),
  (0x88C1, 0x6068_557F),
  (0x88C5, 0x6057),
  (0x88CF, 0x5659),
  (0x88D4, 0x5DA8_5EF5),
  (0x88D9, 0x6883),
  (0x88DC, 0x588B_6058),
  (0x88DF, 0x59B8),
  (0x88E1, 0x696A),
  (0x88E8, 0x5966),
  (0x88F3, 0x59FE_57EE_57ED),
  (0x88F8, 0x54CF),
  (0x88FD, 0x615C),
  (0x8907, 0x589E),
  (0x8910, 0x5081),
  (0x8912, 0x657A_588C),
  (0x8918, 0x6AC7_57EF),
  (0x8925, 0x5E5E),
  (0x892A, 0x64D2),
  (0x8936, 0x5BBC),
  (0x8938, 0x55DD),
  (0x893B, 0x69BD),
  (0x8941, 0x50A7),
  (0x8944, 0x5CDE),
  (0x895F, 0x5349),
  (0x8964, 0x54EE),
  (0x896A, 0x5697),
  (0x8972, 0x5BBD),
  (0x897F, 0x5A6B),
  (0x8981, 0x5E55),
  (0x8983, 0x53F9),
  (0x8986, 0x589C_6543),
  (0x898B, 0x50F8),
  (0x898F, 0x52DD),
  (0x8993, 0x56C2),
  (0x8996, 0x5BDC),
  (0x89A1, 0x50EE),
  (0x89A9, 0x6943_646F),
  (0x89AF, 0x529E),
  (0x89B2, 0x52FA),
  (0x89BA, 0x5064),
  (0x89BD, 0x54EF),
  (0x89C0, 0x51EF),
  (0x89D2, 0x5065),
  (0x89DC, 0x5FD4),
  (0x89E3, 0x65F9),
  (0x89F4, 0x5A41),
  (0x89F8, 0x63B3),
  (0x8A00, 0x5CF6),
  (0x8A02, 0x60FE_58D2),
  (0x8A08, 0x5186),
  (0x8A0A, 0x5C46),
  (0x8A0C, 0x66D2),
  (0x8A0E, 0x64C8),
  (0x8A13, 0x6785),
  (0x8A16, 0x6BFE_6498_5389),
  (0x8A1B, 0x5DE0),
  (0x8A1D, 0x5C68),
  (0x8A1F, 0x5B46),
  (0x8A23, 0x5142),
  (0x8A25, 0x53CD),
  (0x8A2A, 0x57DA),
  (0x8A2D, 0x5AAC),
  (0x8A31, 0x6653),
  (0x8A34, 0x5AEF),
  (0x8A36, 0x5055),
  (0x8A3A, 0x6283_61D8_6249),
  (0x8A41, 0x51A7),
  (0x8A50, 0x59B9),
  (0x8A54, 0x6190_6557),
  (0x8A5B, 0x6086),
  (0x8A5E, 0x59BA),
  (0x8A60, 0x5D99),
  (0x8A62, 0x5BA8_5DA9),
  (0x8A66, 0x5BE2),
  (0x8A69, 0x5BE1),
  (0x8A6D, 0x52CC_60BE),
  (0x8A70, 0x67C1_66DD_65FA_5A44),
  (0x8A75, 0x5A9C),
  (0x8A79, 0x6B9A),
  (0x8A84, 0x55C4_61D9),
  (0x8A87, 0x51D9),
  (0x8A8C, 0x6268_5FA5),
  (0x8A93, 0x5A6C),
  (0x8A95, 0x64A3),
  (0x8A98, 0x5EF6),
  (0x8A9E, 0x5CE9),
  (0x8AA0, 0x5AC7_5187),
  (0x8AA3, 0x575D_5DC2_51A8_5B47),
  (0x8AA8, 0x6762),
  (0x8AAA, 0x5AAD),
  (0x8AB0, 0x5B81),
  (0x8AB2, 0x51DA),
  (0x8AB9, 0x5967),
  (0x8ABC, 0x5F7A),
  (0x8ABE, 0x5F5A_6191),
  (0x8AC2, 0x6372),
  (0x8AC4, 0x69DA),
  (0x8AC7, 0x53FA),
  (0x8ACB, 0x6382),
  (0x8ACD, 0x606F),
  (0x8ACF, 0x6BA3),
  (0x8AD2, 0x554E),
  (0x8AD6, 0x55B7),
  (0x8ADB, 0x5EF7_6379),
  (0x8AE1, 0x5BE3),
  (0x8AE6, 0x638C_65FB),
  (0x8AEA, 0x6141_5079),
  (0x8AED, 0x5EF8_5FD5),
  (0x8AF1, 0x6791),
  (0x8AF3, 0x5C90),
  (0x8AF6, 0x69E2_6595_615D),
  (0x8AFA, 0x5CF7),
  (0x8AFE, 0x53A2),
  (0x8B00, 0x56F0_5C86_5ECF),
  (0x8B04, 0x54C5),
  (0x8B0E, 0x577E),
  (0x8B10, 0x578E),
  (0x8B14, 0x65BA),
  (0x8B16, 0x69C6_57DB),
  (0x8B19, 0x5147_6AFA_50AB),
  (0x8B1D, 0x59BB),
  (0x8B20, 0x5E56),
  (0x8B28, 0x56F1),
  (0x8B2B, 0x609A_55EA),
  (0x8B33, 0x529F),
  (0x8B39, 0x52FB),
  (0x8B3E, 0x568E),
  (0x8B41, 0x6BE4),
  (0x8B49, 0x624A),
  (0x8B4E, 0x679A_538A),
  (0x8B58, 0x5BEE),
  (0x8B5A, 0x53FB),
  (0x8B5C, 0x588D),
  (0x8B66, 0x516C),
  (0x8B6C, 0x5968),
  (0x8B6F, 0x5D51_5F7B),
  (0x8B74, 0x50F9),
  (0x8B77, 0x66B7),
  (0x8B7D, 0x5DAA),
  (0x8B80, 0x548E),
  (0x8B8A, 0x5866),
  (0x8B8C, 0x5D6F),
  (0x8B90, 0x69D0),
  (0x8B92, 0x62D2_5CDF),
  (0x8B96, 0x6B90),
  (0x8B9A, 0x62BF),
  (0x8C37, 0x51B5),
  (0x8C3F, 0x5189),
  (0x8C41, 0x66FC),
  (0x8C46, 0x54B6),
  (0x8C48, 0x5365),
  (0x8C4A, 0x6596),
  (0x8C4C, 0x5DED),
  (0x8C55, 0x69DD),
  (0x8C5A, 0x5495),
  (0x8C61, 0x5A42),
  (0x8C6A, 0x6699_5DAB_6087),
  (0x8C79, 0x658E_5BE4),
  (0x8C82, 0x63A6),
  (0x8C8A, 0x56B7),
  (0x8C8C, 0x56F2),
  (0x8C9D, 0x6541_6142),
  (0x8CA0, 0x58D3_6069_51C8),
  (0x8CA7, 0x597B_66DF_64F0_64A8_51F0_62F8),
  (0x8CAF, 0x6088_5AD1),
  (0x8CB3, 0x5F83_52D1),
  (0x8CB6, 0x6553_56B1_545A),
  (0x8CBB, 0x5969_637A_6AF4),
  (0x8CBF, 0x575E_65B2_69A2_55C6_5FB6_6763),
  (0x8CC7, 0x5FD6_5056),
  (0x8CCA, 0x609B),
  (0x8CD1, 0x6284),
  (0x8CD3, 0x5971),
  (0x8CDA, 0x695B),
  (0x8CDC, 0x59BC),
  (0x8CDE, 0x5A43),
  (0x8CE0, 0x57F0),
  (0x8CE2, 0x666B_56B2_635A),
  (0x8CE6, 0x58D4),
  (0x8CEA, 0x6295),
  (0x8CED, 0x547B),
  (0x8CF4, 0x55C5),
  (0x8CFB, 0x58D5_5298_5A48),
  (0x8D04, 0x626A_6BA9),
  (0x8D07, 0x6ADC_624B),
  (0x8D0A, 0x62C0_5C80),
  (0x8D0D, 0x5AB2),
  (0x8D13, 0x6059),
  (0x8D16, 0x69C7),
  (0x8D64, 0x609C),
  (0x8D66, 0x599E),
  (0x8D6B, 0x665C),
  (0x8D6D, 0x5FD7),
  (0x8D70, 0x61DA),
  (0x8D73, 0x52DE_58D6),
  (0x8D77, 0x538B),
  (0x8D85, 0x63A7),
  (0x8D8A, 0x5EB9),
  (0x8D99, 0x6192),
  (0x8DA3, 0x644A),
  (0x8DA8, 0x63D5),
  (0x8DB3, 0x619C),
  (0x8DBA, 0x58D7),
  (0x8DBE, 0x626B),
  (0x8DC6, 0x64BB),
  (0x8DCB, 0x57C1_6296),
  (0x8DCF, 0x5057),
  (0x8DDB, 0x64EA),
  (0x8DDD, 0x50CE),
  (0x8DE1, 0x609D),
  (0x8DE3, 0x5A9D),
  (0x8DE8, 0x687A),
  (0x8DEA, 0x52CD),
  (0x8DEF, 0x55A8),
  (0x8DF3, 0x547C),
  (0x8E0A, 0x5E6F),
  (0x8E0F, 0x53FE_635B),
  (0x8E1E, 0x685A),
  (0x8E2A, 0x6B74),
  (0x8E30, 0x5EFA),
  (0x8E35, 0x61B0_615E),
  (0x8E42, 0x5EF9),
  (0x8E44, 0x615F),
  (0x8E47, 0x50DA_547D_62AC_6BDD),
  (0x8E55, 0x65A6),
  (0x8E59, 0x6BA6),
  (0x8E5F, 0x609E_6B96),
  (0x8E64, 0x61B1),
  (0x8E74, 0x63EB),
  (0x8E76, 0x52C7),
  (0x8E81, 0x6193),
  (0x8E85, 0x63B4),
  (0x8E87, 0x6089),
  (0x8E8A, 0x61DB),
  (0x8E8D, 0x5CCB),
  (0x8E91, 0x634B),
  (0x8EAA, 0x5663_5C47_52BD),
  (0x8EC0, 0x52A0),
  (0x8ECA, 0x62AE_5C87_52CE_52B2),
  (0x8ED2, 0x6655),
  (0x8EDF, 0x5D70),
  (0x8EEB, 0x6285),
  (0x8EF8, 0x63EC),
  (0x8EFB, 0x5058),
  (0x8EFE, 0x5BEF),
  (0x8F03, 0x5268),
  (0x8F05, 0x55A9),
  (0x8F09, 0x606A),
  (0x8F12, 0x637B_568F_588E_516D),
  (0x8F1B, 0x554F_6468_6792_6972_6B98),
  (0x8F26, 0x5577_587E),
  (0x8F29, 0x57F1_55F3),
  (0x8F2F, 0x629D),
  (0x8F33, 0x61DC),
  (0x8F38, 0x5B82_6998),
  (0x8F3B, 0x589F),
  (0x8F3E, 0x60BF_6A4B),
  (0x8F44, 0x65CC_5EB3_55B3),
  (0x8F49, 0x60C0),
  (0x8F4D, 0x6368_5269),
  (0x8F5D, 0x6A4C),
  (0x8F5F, 0x5254),
  (0x8F61, 0x596A_556D),
  (0x8F64, 0x55AA),
  (0x8F9B, 0x5C48_51AA),
  (0x8F9F, 0x585E),
  (0x8FA3, 0x54E5),
  (0x8FA6, 0x64F1),
  (0x8FA8, 0x5867),
  (0x8FAD, 0x59BE_5865_5868_6272_5E5A_53C7),
  (0x8FC2, 0x5E87),
  (0x8FC4, 0x67A9_5C4A),
  (0x8FCE, 0x5D9A),
  (0x8FD1, 0x52FC),
  (0x8FD4, 0x57B9),
  (0x8FE6, 0x5059),
  (0x8FEA, 0x609F_57A2),
  (0x8FED, 0x6297),
  (0x8FF0, 0x5BB1),
  (0x8FF2, 0x6861),
  (0x8FF7, 0x577F_587F_60A0_53B4),
  (0x8FFD, 0x63D6),
  (0x9000, 0x64D3_5B48_51F7_547E),
  (0x9005, 0x677B_5D52),
  (0x9008, 0x6BDB),
  (0x900B, 0x6BBE),
  (0x900D, 0x5AF0),
  (0x900F, 0x64D9_63ED_52A1),
  (0x9014, 0x547F_516E),
  (0x9017, 0x6946),
  (0x9019, 0x608A_64CF),
  (0x901D, 0x5A6E_5593_5AFC_6194_61F0_58B2_5578),
  (0x902E, 0x638D),
  (0x9031, 0x61DE_6286),
  (0x9035, 0x52DF),
  (0x9038, 0x5FAD),
  (0x903C, 0x65A8),
  (0x903E, 0x5EFC),
  (0x9041, 0x54BA_5B83),
  (0x9047, 0x5E88),
  (0x904A, 0x5EFB_5E98),
  (0x904D, 0x6551_51DB_5C88_65B3_674F),
  (0x9053, 0x5480_53ED_5ED0),
  (0x9059, 0x5E57),
  (0x905C, 0x5B41_5441_638E),
  (0x9060, 0x5EB4_5AF1),
  (0x9063, 0x50FA),
  (0x9068, 0x5DC3_60A1),
  (0x906D, 0x6195_62AD_54BB),
  (0x9072, 0x626C),
  (0x9075, 0x61F1),
  (0x9077, 0x635C_5A9E),
  (0x907A, 0x5EFD),
  (0x907C, 0x55D3_50CF),
  (0x907F, 0x659E_5E58_56B3_65FC_5B84_66F5),
  (0x9087, 0x6AF5_696D),
  (0x908A, 0x586A),
  (0x908F, 0x54D0),
  (0x9091, 0x5F67),
  (0x9095, 0x5DD9),
  (0x9099, 0x56A3),
  (0x90A2, 0x668D_53A1),
  (0x90A6, 0x57DC),
  (0x90A8, 0x6B9F),
  (0x90AA, 0x59A9),
  (0x90AF, 0x684C_64BC_52A2),
  (0x90B5, 0x5AF2),
  (0x90B8, 0x608B),
  (0x90C1, 0x5E91),
  (0x90CA, 0x526A),
  (0x90DE, 0x54FB),
  (0x90E1, 0x52B4),
  (0x90E8, 0x58D8),
  (0x90ED, 0x51E0),
  (0x90F5, 0x5E89),
  (0x90FD, 0x5481),
  (0x9102, 0x69E6),
  (0x9112, 0x63D7),
  (0x9115, 0x664A),
  (0x9119, 0x596B),
  (0x9127, 0x54C6),
  (0x912D, 0x6143),
  (0x9132, 0x53E6),
  (0x9149, 0x5EFE_6144_63D8_5FE4_57F2_61DD),
  (0x9152, 0x61CC),
  (0x9162, 0x63A8_5093),
  (0x9169, 0x56DA_54D8),
  (0x916C, 0x5B85),
  (0x9175, 0x6770),
  (0x9177, 0x66BF_59D2),
  (0x9187, 0x5BAA),
  (0x9189, 0x644B),
  (0x918B, 0x63A9),
  (0x918D, 0x6160),
  (0x9190, 0x66B9),
  (0x9192, 0x5AC8),
  (0x919C, 0x63D9),
  (0x91AB, 0x5F7C_605A),
  (0x91AE, 0x63AA_6695),
  (0x91B1, 0x57C2),
  (0x91B4, 0x559B_50C4),
  (0x91C0, 0x5CE0),
  (0x91C7, 0x62F2),
  (0x91C9, 0x5F41),
  (0x91CB, 0x5A80_565A_61F8_5CC3_5550_565B_5399),
  (0x91D7, 0x5B51_6145),
  (0x91DC, 0x58D9_647A),
  (0x91E3, 0x6196),
  (0x91E7, 0x635D),
  (0x91EA, 0x6AB7),
  (0x91F5, 0x62F3),
  (0x920D, 0x54BC),
  (0x9210, 0x6860_6BB9_69B1),
  (0x9214, 0x63AB),
  (0x9217, 0x6ADE),
  (0x921E, 0x52E4),
  (0x9234, 0x5596),
  (0x923A, 0x5DC9),
  (0x923F, 0x60C1_509A),
  (0x9245, 0x685B),
  (0x9249, 0x666C),
  (0x924B, 0x657B),
  (0x9257, 0x6864),
  (0x925B, 0x5D71),
  (0x925E, 0x5EBA),
  (0x9262, 0x57C3),
  (0x9264, 0x52A3_69DB_6146),
  (0x9278, 0x526B),
  (0x927E, 0x56F3),
  (0x9280, 0x5F59),
  (0x9283, 0x63C1),
  (0x9285, 0x54AB),
  (0x9291, 0x5A9F),
  (0x9293, 0x60C2),
  (0x9296, 0x5B86),
  (0x9298, 0x56DB),
  (0x929C, 0x6BC9),
  (0x92B3, 0x5DAC),
  (0x92B6, 0x6881_5AF3),
  (0x92B9, 0x5B87),
  (0x92CC, 0x6B70),
  (0x92CF, 0x6680),
  (0x92D2, 0x58B3),
  (0x92E4, 0x5A6D),
  (0x92EA, 0x657C),
  (0x92F8, 0x50D2),
  (0x92FC, 0x50AC),
  (0x9304, 0x55B4),
  (0x9310, 0x63DB),
  (0x9318, 0x63DA),
  (0x931A, 0x6070),
  (0x931E, 0x5BAB_68F9_6147_538C_60C3),
  (0x9324, 0x6899),
  (0x9326, 0x534B),
  (0x9328, 0x574D),
  (0x932B, 0x5A81),
  (0x932E, 0x51AB_62B3),
  (0x9348, 0x6A80),
  (0x934A, 0x5579_687B),
  (0x934D, 0x5482),
  (0x9354, 0x69E7),
  (0x935B, 0x53E7),
  (0x9364, 0x59E3),
  (0x936E, 0x5F42),
  (0x9375, 0x50DB),
  (0x937C, 0x647B),
  (0x937E, 0x61B2),
  (0x938C, 0x5148),
  (0x9394, 0x5E70),
  (0x9396, 0x5B4F),
  (0x939A, 0x6BA4),
  (0x93A3, 0x668E),
  (0x93A7, 0x6856),
  (0x93AC, 0x66BA_6287),
  (0x93B0, 0x5FAE),
  (0x93C3, 0x619D),
  (0x93D1, 0x6B5D),
  (0x93DD, 0x5690_5E71),
  (0x93E1, 0x516F),
  (0x93E4, 0x6960),
  (0x93F6, 0x6B8C),
  (0x9404, 0x6BF2),
  (0x9418, 0x61B3_54C7),
  (0x9425, 0x69BA),
  (0x942B, 0x6B64),
  (0x9435, 0x6369),
  (0x9438, 0x6499),
  (0x9444, 0x61DF),
  (0x944A, 0x66E6),
  (0x9451, 0x5094_684D),
  (0x945B, 0x5244),
  (0x9460, 0x59C7),
  (0x9462, 0x5561),
  (0x947D, 0x62C1),
  (0x947F, 0x62B4),
  (0x9577, 0x605B),
  (0x9580, 0x576A),
  (0x9583, 0x5AB4),
  (0x9589, 0x6560),
  (0x958B, 0x50BE),
  (0x958F, 0x5F4E),
  (0x9591, 0x65C7_65C6_507A_578A),
  (0x9598, 0x509B),
  (0x95A3, 0x5066_65DB_584B),
  (0x95A8, 0x52E0_578B),
  (0x95AD, 0x5562),
  (0x95B1, 0x5D78),
  (0x95BB, 0x5D81_5C89),
  (0x95C7, 0x5C91),
  (0x95CA, 0x66FD),
  (0x95D4, 0x6BCB_52C8_6BB7),
  (0x95DC, 0x51F1),
  (0x95E1, 0x635E_585F),
  (0x95E5, 0x53EE),
  (0x961C, 0x58DA),
  (0x9621, 0x635F),
  (0x9628, 0x5CB2),
  (0x962A, 0x64F3),
  (0x962E, 0x5DEE),
  (0x9632, 0x57DD),
  (0x963B, 0x6197),
  (0x963F, 0x5C69_6489),
  (0x9642, 0x6BC3),
  (0x9644, 0x58DB),
  (0x964B, 0x55DE_56B8_50AD),
  (0x9650, 0x65C8),
  (0x965B, 0x6561_65DC_69C0_5BC7_634C),
  (0x9662, 0x5EB5_6288_6161),
  (0x966A, 0x57F3),
  (0x9670, 0x5F61),
  (0x9673, 0x6289),
  (0x9675, 0x5645_5483_65D6_55EE),
  (0x967D, 0x5CE1),
  (0x9685, 0x5E8A_55F9),
  (0x968A, 0x545B_5B88),
  (0x968D, 0x6750_5188),
  (0x9694, 0x50EF_5E99),
  (0x9698, 0x5CAB_52ED),
  (0x969B, 0x6162_605C),
  (0x96A3, 0x5664),
  (0x96A7, 0x69D1_5B89),
  (0x96AA, 0x6658),
  (0x96B1, 0x5F5B),
  (0x96B7, 0x559C),
  (0x96BB, 0x634D_61F2),
  (0x96C0, 0x5FE5_5C7F),
  (0x96C4, 0x5EA0_5C6A_629B_51AC),
  (0x96C9, 0x6461),
  (0x96CB, 0x6B7A_5FD8_5DDA_6B58),
  (0x96D5, 0x6B72_5B8A),
  (0x96D9, 0x5C5C),
  (0x96DB, 0x63DC_5FF3),
  (0x96DE, 0x518A),
  (0x96E2, 0x565C_53A5),
  (0x96E8, 0x5E8B_5E8C_5AAE),
  (0x96EF, 0x6980_58F2),
  (0x96F2, 0x5E9A),
  (0x96F6, 0x5594_55C7),
  (0x96F9, 0x57A3),
  (0x96FB, 0x60C4),
  (0x9700, 0x5B8B),
  (0x9704, 0x5AF4),
  (0x9706, 0x6148_628A),
  (0x970D, 0x51E1_59E4),
  (0x9711, 0x60D7),
  (0x9713, 0x5DAD),
  (0x9716, 0x566C),
  (0x9719, 0x6A82),
  (0x971C, 0x5A45),
  (0x971E, 0x65B4),
  (0x9727, 0x575F),
  (0x9730, 0x69AF),
  (0x9732, 0x55AB),
  (0x9739, 0x5860),
  (0x973D, 0x6163),
  (0x9742, 0x556E),
  (0x9744, 0x5CAC),
  (0x9746, 0x638F),
  (0x9748, 0x5595_5CAD),
  (0x9751, 0x6383),
  (0x9756, 0x60FB),
  (0x975C, 0x6149),
  (0x975E, 0x596C),
  (0x9761, 0x5773_56CC),
  (0x9769, 0x665D),
  (0x976D, 0x5FA6),
  (0x9774, 0x66DE),
  (0x9777, 0x5FA7),
  (0x977A, 0x5698),
  (0x977C, 0x53E8),
  (0x9784, 0x657D_5C9D),
  (0x978B, 0x6696),
  (0x978D, 0x5C81),
  (0x978F, 0x6878),
  (0x9798, 0x63AC),
  (0x97A0, 0x52AE),
  (0x97A6, 0x63DD),
  (0x97A8, 0x5084),
  (0x97AB, 0x6882),
  (0x97AD, 0x6552),
  (0x97C3, 0x53EF),
  (0x97C6, 0x6360),
  (0x97CB, 0x5ED1),
  (0x97D3, 0x65C9),
  (0x97DC, 0x5484),
  (0x97F3, 0x5F63),
  (0x97F6, 0x5AF5),
  (0x97FB, 0x5E9B),
  (0x97FF, 0x664C_66BB_6671_614A_5170),
  (0x9805, 0x65EC_5BAC),
  (0x9808, 0x5B8C),
  (0x980A, 0x5E92),
  (0x980C, 0x5B49),
  (0x9810, 0x5DAE_5DEF_57BA_5496),
  (0x9817, 0x64EB_5597),
  (0x9821, 0x67C2),
  (0x9823, 0x5F93),
  (0x982B, 0x58DC),
  (0x982D, 0x54B7),
  (0x9830, 0x6681),
  (0x9838, 0x5171_64D4),
  (0x983B, 0x597D),
  (0x9846, 0x51DC),
  (0x984C, 0x6164_5CB3_5C77),
  (0x9854, 0x5C82),
  (0x9858, 0x5EB6),
  (0x985A, 0x60C5),
  (0x985E, 0x55EB),
  (0x9865, 0x66BC),
  (0x9867, 0x51AD),
  (0x986B, 0x60C6),
  (0x986F, 0x666D_597E),
  (0x98A8, 0x6597),
  (0x98AF, 0x59E2),
  (0x98B1, 0x64BD),
  (0x98B6, 0x52A4),
  (0x98C4, 0x658F),
  (0x98C7, 0x6BC1),
  (0x98DB, 0x596D_5847),
  (0x98DF, 0x5BF0),
  (0x98E1, 0x69CA_538D),
  (0x98ED, 0x646E_5F62_57BB),
  (0x98F4, 0x5F91),
  (0x98FC, 0x59C0_657E_5BF1),
  (0x9903, 0x526C),
  (0x9909, 0x664D_5CE2),
  (0x990C, 0x5F92),
  (0x9910, 0x62C3),
  (0x9913, 0x5C6B),
  (0x9918, 0x5D49),
  (0x991E, 0x60C7),
  (0x9920, 0x5880),
  (0x9928, 0x51F2),
  (0x9945, 0x5691),
  (0x9949, 0x52FD),
  (0x994B, 0x52CF_62C4_69BB),
  (0x9951, 0x538E_5E59),
  (0x9954, 0x6A96),
  (0x9957, 0x664E),
  (0x995C, 0x5D82),
  (0x9996, 0x5B8D),
  (0x9999, 0x664F),
  (0x999D, 0x6BC6),
  (0x99A5, 0x58A0),
  (0x99A8, 0x668F),
  (0x99AC, 0x5678_5CEA_6593),
  (0x99B1, 0x6BB0),
  (0x99B3, 0x6469_5BAD),
  (0x99B9, 0x5FAF),
  (0x99C1, 0x57A4),
  (0x99C4, 0x64BE),
  (0x99D0, 0x61E0_68CF_52A5),
  (0x99D5, 0x505A),
  (0x99D9, 0x58DD),
  (0x99DD, 0x648A),
  (0x99DF, 0x59C1),
  (0x99E2, 0x586B),
  (0x99ED, 0x65FD),
  (0x99F1, 0x54D9),
  (0x99FF, 0x61F3),
  (0x9A01, 0x5983),
  (0x9A08, 0x6995),
  (0x9A0E, 0x538F_5390),
  (0x9A19, 0x6BBA),
  (0x9A2B, 0x50DC),
  (0x9A30, 0x54C8),
  (0x9A36, 0x6BA5_5AF6),
  (0x9A40, 0x56B9),
  (0x9A43, 0x6BC2),
  (0x9A45, 0x52A6),
  (0x9A4D, 0x6BF6),
  (0x9A55, 0x526D),
  (0x9A57, 0x6659),
  (0x9A5A, 0x5172_5D53),
  (0x9A5F, 0x644C),
  (0x9A62, 0x5563),
  (0x9A65, 0x5391),
  (0x9A69, 0x66F6_5564),
  (0x9AA8, 0x51C1),
  (0x9AB8, 0x65FE),
  (0x9ABC, 0x50F0),
  (0x9AC0, 0x596E),
  (0x9ACF, 0x55DF),
  (0x9AD1, 0x63B5),
  (0x9AD3, 0x5B8E_6390),
  (0x9AD8, 0x51AE),
  (0x9AE3, 0x57DE),
  (0x9AE5, 0x5D83),
  (0x9AEE, 0x57C4),
  (0x9AF4, 0x58F8),
  (0x9B18, 0x5692),
  (0x9B1A, 0x5B8F),
  (0x9B1F, 0x66F8),
  (0x9B22, 0x597F_5586),
  (0x9B27, 0x695C),
  (0x9B2A, 0x64DA),
  (0x9B31, 0x5E9E),
  (0x9B3B, 0x5F47_52D2),
  (0x9B41, 0x5250_66C5_57C5_57FB_56B4),
  (0x9B4D, 0x56A4_5551_5ED2),
  (0x9B51, 0x565D),
  (0x9B54, 0x5679),
  (0x9B5A, 0x5CEB),
  (0x9B6F, 0x55AC),
  (0x9B74, 0x57DF),
  (0x9B8E, 0x6B66),
  (0x9B91, 0x657F_58DE),
  (0x9B9F, 0x69E9),
  (0x9BAB, 0x526E),
  (0x9BAE, 0x5AA1),
  (0x9BC9, 0x565E),
  (0x9BD6, 0x6384),
  (0x9BDB, 0x6198),
  (0x9BE4, 0x6875),
  (0x9BE8, 0x5173),
  (0x9C0D, 0x63DE),
  (0x9C10, 0x69E8),
  (0x9C12, 0x58A1_5A49),
  (0x9C15, 0x65B5),
  (0x9C25, 0x66F7),
  (0x9C2D, 0x5392_5DD1),
  (0x9C32, 0x6A93),
  (0x9C3B, 0x5693),
  (0x9C47, 0x6853),
  (0x9C49, 0x586F),
  (0x9C57, 0x5665),
  (0x9CE5, 0x6199),
  (0x9CE7, 0x58DF),
  (0x9CE9, 0x52A7),
  (0x9CF3, 0x58B4_56D3),
  (0x9CF6, 0x5D72),
  (0x9D07, 0x588F_5C83_5C6C),
  (0x9D1B, 0x5EB7),
  (0x9D26, 0x5C9E),
  (0x9D28, 0x5C96),
  (0x9D3B, 0x66CF),
  (0x9D44, 0x646A),
  (0x9D51, 0x50FB),
  (0x9D5D, 0x5C6D),
  (0x9D60, 0x51B6_5760),
  (0x9D6C, 0x5941),
  (0x9D72, 0x5FE6),
  (0x9D89, 0x5BAE),
  (0x9DA9, 0x697A),
  (0x9DAF, 0x5CB6),
  (0x9DB4, 0x65BB),
  (0x9DBB, 0x66C9),
  (0x9DC4, 0x518B),
  (0x9DD7, 0x52A8),
  (0x9DF2, 0x644D_65CA),
  (0x9DF8, 0x679B_5F6B_55AD),
  (0x9E1A, 0x5CB7_51F3),
  (0x9E1E, 0x54E2),
  (0x9E75, 0x55AE),
  (0x9E79, 0x6BCA),
  (0x9E7D, 0x5D7E),
  (0x9E7F, 0x55B6),
  (0x9E81, 0x63DF),
  (0x9E92, 0x5393_55B5),
  (0x9E97, 0x5565),
  (0x9E9D, 0x69AE),
  (0x9E9F, 0x5666),
  (0x9EA4, 0x63E0_56BA),
  (0x9EB4, 0x52AF_56CD),
  (0x9EBB, 0x567A),
  (0x9EBE, 0x6793),
  (0x9EC3, 0x6751),
  (0x9ECD, 0x5A6F_5566),
  (0x9ED1, 0x67A1),
  (0x9ED4, 0x50E4),
  (0x9ED8, 0x5762),
  (0x9EDB, 0x545C_63F1_5F43_60D5),
  (0x9EE8, 0x544C),
  (0x9EEF, 0x5C92),
  (0x9EF4, 0x6985),
  (0x9EFB, 0x58F9_5890),
  (0x9F07, 0x6A94_5870),
  (0x9F0E, 0x614B),
  (0x9F13, 0x51AF),
  (0x9F20, 0x5A71),
  (0x9F3B, 0x596F),
  (0x9F4A, 0x6165_606B),
  (0x9F4E, 0x606C),
  (0x9F52, 0x646B),
  (0x9F5F, 0x6B59),
  (0x9F61, 0x5598),
  (0x9F66, 0x5F5C_69BE),
  (0x9F6A, 0x62B5),
  (0x9F6C, 0x5CEC),
  (0x9F77, 0x5C78),
  (0x9F8D, 0x55D4),
  (0x9F90, 0x57E0),
  (0x9F95, 0x5095),
  (0x9F9C, 0x52A9),
  (0xAC00, 0x8861_8862_8863),
  (0xAC04, 0x8865),
  (0xAC07, 0x8868_8869_886A_886B_886C),
  (0xAC10, 0x8871_8873_8874_8875_8876_8877_8878_8879),
  (0xAC19, 0x887B_887C_887D_8881_8882),
  (0xAC20, 0x8885),
  (0xAC24, 0x8889),
  (0xAC2C, 0x8891_8893),
  (0xAC2F, 0x8895_8896_8897),
  (0xAC38, 0x88A1_88A2),
  (0xAC3C, 0x88A5),
  (0xAC40, 0x88A9),
  (0xAC4B, 0x88B5),
  (0xAC4D, 0x88B7),
  (0xAC54, 0x88C1),
  (0xAC58, 0x88C5),
  (0xAC5C, 0x88C9),
  (0xAC70, 0x88E1_88E2),
  (0xAC74, 0x88E5),
  (0xAC77, 0x88E8_88E9_88EA_88EB),
  (0xAC80, 0x88F1_88F3),
  (0xAC83, 0x88F5_88F6_88F7_88F8_88F9),
  (0xAC89, 0x88FB_88FC_88FD_8941),
  (0xAC90, 0x8945),
  (0xAC93, 0x8948_8949),
  (0xAC9C, 0x8951_8953),
  (0xAC9F, 0x8955_8956_8957),
  (0xACA8, 0x8961_8962_8963),
  (0xACAC, 0x8965),
  (0xACAF, 0x8968_8969),
  (0xACB8, 0x8971_8973),
  (0xACBB, 0x8975_8976_8977),
  (0xACC1, 0x897B),
  (0xACC4, 0x8981),
  (0xACC8, 0x8985),
  (0xACCC, 0x8989),
  (0xACD5, 0x8993),
  (0xACD7, 0x8995),
  (0xACE0, 0x89A1_89A2),
  (0xACE4, 0x89A5),
  (0xACE7, 0x89A8_89A9_89AA_89AB),
  (0xACEC, 0x89AD),
  (0xACEF, 0x89B0_89B1_89B3),
  (0xACF3, 0x89B5),
  (0xACF5, 0x89B7_89B8),
  (0xACFA, 0x89BC),
  (0xACFC, 0x89C1_89C2),
  (0xAD00, 0x89C5),
  (0xAD04, 0x89C9),
  (0xAD06, 0x89CB),
  (0xAD0C, 0x89D1_89D3),
  (0xAD0F, 0x89D5),
  (0xAD11, 0x89D7),
  (0xAD18, 0x89E1_89E2),
  (0xAD1C, 0x89E5),
  (0xAD20, 0x89E9),
  (0xAD28, 0x89F1_89F3),
  (0xAD2B, 0x89F5_89F6_89F7),
  (0xAD34, 0x8A41_8A42),
  (0xAD38, 0x8A45),
  (0xAD3C, 0x8A49),
  (0xAD44, 0x8A51_8A53),
  (0xAD47, 0x8A55),
  (0xAD49, 0x8A57),
  (0xAD50, 0x8A61),
  (0xAD54, 0x8A65),
  (0xAD58, 0x8A69),
  (0xAD61, 0x8A73),
  (0xAD63, 0x8A75),
  (0xAD6C, 0x8A81_8A82),
  (0xAD70, 0x8A85),
  (0xAD73, 0x8A88_8A89_8A8A_8A8B),
  (0xAD7B, 0x8A90_8A91_8A93),
  (0xAD7F, 0x8A95),
  (0xAD81, 0x8A97_8A98),
  (0xAD88, 0x8AA1_8AA2),
  (0xAD8C, 0x8AA5),
  (0xAD90, 0x8AA9),
  (0xAD9B, 0x8AB5_8AB6_8AB7),
  (0xADA4, 0x8AC1),
  (0xADB7, 0x8AD5),
  (0xADC0, 0x8AE1_8AE2),
  (0xADC4, 0x8AE5),
  (0xADC8, 0x8AE9),
  (0xADD0, 0x8AF1_8AF3),
  (0xADD3, 0x8AF5),
  (0xADD5, 0x8AF7),
  (0xADDC, 0x8B41),
  (0xADE0, 0x8B45),
  (0xADE4, 0x8B49),
  (0xADEC, 0x8B51),
  (0xADF8, 0x8B61_8B62),
  (0xADFC, 0x8B65),
  (0xADFF, 0x8B68_8B69_8B6A_8B6B),
  (0xAE08, 0x8B71_8B73),
  (0xAE0B, 0x8B75),
  (0xAE0D, 0x8B77),
  (0xAE0F, 0x8B79),
  (0xAE11, 0x8B7B),
  (0xAE14, 0x8B81),
  (0xAE27, 0x8B95),
  (0xAE30, 0x8BA1_8BA2),
  (0xAE34, 0x8BA5),
  (0xAE37, 0x8BA8_8BA9),
  (0xAE3A, 0x8BAB),
  (0xAE3C, 0x8BAD),
  (0xAE40, 0x8BB1_8BB3),
  (0xAE43, 0x8BB5_8BB6_8BB7_8BB8),
  (0xAE49, 0x8BBB_8BBC),
  (0xAE4C, 0x8C61_8C62_8C63),
  (0xAE50, 0x8C65),
  (0xAE54, 0x8C69),
  (0xAE56, 0x8C6B),
  (0xAE5C, 0x8C71_8C73),
  (0xAE5F, 0x8C75_8C76_8C77_8C78),
  (0xAE65, 0x8C7B),
  (0xAE68, 0x8C81_8C82),
  (0xAE6C, 0x8C85),
  (0xAE70, 0x8C89),
  (0xAE78, 0x8C91_8C93),
  (0xAE7B, 0x8C95_8C96_8C97),
  (0xAE84, 0x8CA1_8CA2),
  (0xAE8C, 0x8CA9),
  (0xAEA0, 0x8CC1),
  (0xAEBC, 0x8CE1_8CE2_8CE3),
  (0xAEC0, 0x8CE5),
  (0xAEC4, 0x8CE9),
  (0xAECC, 0x8CF1_8CF3),
  (0xAECF, 0x8CF5_8CF6_8CF7),
  (0xAED8, 0x8D41_8D42),
  (0xAEDC, 0x8D45),
  (0xAEE8, 0x8D51),
  (0xAEEB, 0x8D55),
  (0xAEED, 0x8D57),
  (0xAEF4, 0x8D61),
  (0xAEF8, 0x8D65),
  (0xAEFC, 0x8D69),
  (0xAF04, 0x8D71),
  (0xAF07, 0x8D75_8D76),
  (0xAF0D, 0x8D7B),
  (0xAF10, 0x8D81),
  (0xAF2C, 0x8DA1_8DA2),
  (0xAF30, 0x8DA5),
  (0xAF32, 0x8DA7_8DA8_8DA9),
  (0xAF3C, 0x8DB1_8DB3),
  (0xAF3F, 0x8DB5),
  (0xAF41, 0x8DB7_8DB8_8DB9),
  (0xAF48, 0x8DC1_8DC2),
  (0xAF4C, 0x8DC5),
  (0xAF50, 0x8DC9),
  (0xAF58, 0x8DD1),
  (0xAF5B, 0x8DD5_8DD6_8DD7),
  (0xAF64, 0x8DE1_8DE2),
  (0xAF68, 0x8DE5),
  (0xAF79, 0x8DF7),
  (0xAF80, 0x8E41),
  (0xAF84, 0x8E45),
  (0xAF88, 0x8E49),
  (0xAF90, 0x8E51_8E53),
  (0xAF93, 0x8E55),
  (0xAF95, 0x8E57),
  (0xAF9C, 0x8E61),
  (0xAFB2, 0x8E78),
  (0xAFB8, 0x8E81_8E82),
  (0xAFBC, 0x8E85),
  (0xAFBF, 0x8E88_8E89),
  (0xAFC7, 0x8E90_8E91_8E93),
  (0xAFCB, 0x8E95),
  (0xAFCD, 0x8E97_8E98),
  (0xAFD4, 0x8EA1),
  (0xAFD8, 0x8EA5),
  (0xAFDC, 0x8EA9),
  (0xAFE7, 0x8EB5_8EB6_8EB7),
  (0xAFF0, 0x8EC1_8EC2),
  (0xAFF4, 0x8EC5),
  (0xAFF8, 0x8EC9),
  (0xB000, 0x8ED1_8ED3),
  (0xB004, 0x8ED6),
  (0xB00C, 0x8EE1_8EE2),
  (0xB010, 0x8EE5),
  (0xB014, 0x8EE9),
  (0xB01C, 0x8EF1_8EF3),
  (0xB021, 0x8EF7),
  (0xB028, 0x8F41),
  (0xB044, 0x8F61_8F62),
  (0xB048, 0x8F65),
  (0xB04A, 0x8F67),
  (0xB04C, 0x8F69),
  (0xB04E, 0x8F6B),
  (0xB053, 0x8F70_8F71_8F73),
  (0xB057, 0x8F75),
  (0xB059, 0x8F77),
  (0xB05D, 0x8F7B),
  (0xB060, 0x8F81),
  (0xB07C, 0x8FA1_8FA2),
  (0xB080, 0x8FA5),
  (0xB084, 0x8FA9),
  (0xB08C, 0x8FB1_8FB3),
  (0xB08F, 0x8FB5_8FB6_8FB7),
  (0xB098, 0x9061_9062_9063),
  (0xB09C, 0x9065),
  (0xB09F, 0x9068_9069_906A_906B),
  (0xB0A8, 0x9071_9073),
  (0xB0AB, 0x9075_9076_9077_9078_9079),
  (0xB0B1, 0x907B),
  (0xB0B3, 0x907D_9081_9082),
  (0xB0B8, 0x9085),
  (0xB0BB, 0x9088_9089),
  (0xB0C4, 0x9091_9093),
  (0xB0C7, 0x9095_9096_9097),
  (0xB0D0, 0x90A1_90A2),
  (0xB0D4, 0x90A5),
  (0xB0D8, 0x90A9),
  (0xB0E0, 0x90B1),
  (0xB0E5, 0x90B7),
  (0xB0EC, 0x90C1),
  (0xB108, 0x90E1_90E2),
  (0xB10B, 0x90E4_90E5),
  (0xB10F, 0x90E8_90E9),
  (0xB112, 0x90EB_90EC),
  (0xB118, 0x90F1_90F3),
  (0xB11B, 0x90F5_90F6_90F7_90F8),
  (0xB123, 0x90FD_9141_9142),
  (0xB128, 0x9145),
  (0xB12C, 0x9149),
  (0xB134, 0x9151_9153),
  (0xB137, 0x9155_9156_9157),
  (0xB140, 0x9161_9162),
  (0xB144, 0x9165),
  (0xB147, 0x9168_9169),
  (0xB150, 0x9171_9173),
  (0xB153, 0x9175_9176_9177),
  (0xB158, 0x917A_917B),
  (0xB15C, 0x9181),
  (0xB160, 0x9185),
  (0xB16F, 0x9195),
  (0xB178, 0x91A1_91A2_91A3),
  (0xB17C, 0x91A5),
  (0xB180, 0x91A9),
  (0xB182, 0x91AB),
  (0xB188, 0x91B1_91B3),
  (0xB18B, 0x91B5),
  (0xB18D, 0x91B7),
  (0xB192, 0x91BC_91BD_91C1),
  (0xB198, 0x91C5),
  (0xB19C, 0x91C9),
  (0xB1A7, 0x91D5_91D6),
  (0xB1B0, 0x91E1),
  (0xB1CC, 0x9241),
  (0xB1D0, 0x9245),
  (0xB1D4, 0x9249),
  (0xB1DC, 0x9251_9253),
  (0xB1DF, 0x9255),
  (0xB1E8, 0x9261_9262),
  (0xB1EC, 0x9265),
  (0xB1F0, 0x9269),
  (0xB1F9, 0x9273),
  (0xB1FB, 0x9275),
  (0xB1FD, 0x9277),
  (0xB204, 0x9281_9282),
  (0xB208, 0x9285),
  (0xB20B, 0x9288_9289),
  (0xB214, 0x9291_9293),
  (0xB217, 0x9295),
  (0xB219, 0x9297),
  (0xB220, 0x92A1),
  (0xB233, 0x92B5_92B6),
  (0xB23C, 0x92C1),
  (0xB258, 0x92E1),
  (0xB25C, 0x92E5),
  (0xB260, 0x92E9),
  (0xB268, 0x92F1_92F3),
  (0xB274, 0x9341_9342),
  (0xB27C, 0x9349),
  (0xB284, 0x9351_9353),
  (0xB289, 0x9357),
  (0xB290, 0x9361_9362),
  (0xB294, 0x9365),
  (0xB298, 0x9369_936A_936B),
  (0xB2A0, 0x9371_9373),
  (0xB2A3, 0x9375),
  (0xB2A5, 0x9377_9378_9379),
  (0xB2AA, 0x937C),
  (0xB2AC, 0x9381),
  (0xB2B0, 0x9385),
  (0xB2B4, 0x9389),
  (0xB2C1, 0x9397),
  (0xB2C8, 0x93A1_93A2),
  (0xB2CC, 0x93A5),
  (0xB2D0, 0x93A9_93AA_93AB),
  (0xB2D8, 0x93B1_93B3),
  (0xB2DB, 0x93B5),
  (0xB2DD, 0x93B7),
  (0xB2E0, 0x93BA),
  (0xB2E2, 0x93BC),
  (0xB2E4, 0x9461_9462_9463),
  (0xB2E8, 0x9465),
  (0xB2EB, 0x9468_9469_946A_946B_946C),
  (0xB2F3, 0x9470_9471_9473),
  (0xB2F7, 0x9475_9476_9477_9478_9479),
  (0xB2FF, 0x947D_9481_9482),
  (0xB304, 0x9485),
  (0xB308, 0x9489),
  (0xB310, 0x9491_9493),
  (0xB313, 0x9495_9496_9497),
  (0xB31C, 0x94A1),
  (0xB331, 0x94B7),
  (0xB338, 0x94C1),
  (0xB354, 0x94E1_94E2_94E3),
  (0xB358, 0x94E5),
  (0xB35B, 0x94E8_94E9),
  (0xB35E, 0x94EB_94EC),
  (0xB364, 0x94F1_94F3),
  (0xB367, 0x94F5_94F6_94F7_94F8_94F9),
  (0xB36E, 0x94FC),
  (0xB370, 0x9541_9542),
  (0xB374, 0x9545),
  (0xB378, 0x9549),
  (0xB380, 0x9551_9553),
  (0xB383, 0x9555_9556_9557),
  (0xB38C, 0x9561),
  (0xB390, 0x9565),
  (0xB394, 0x9569),
  (0xB39C, 0x9571),
  (0xB3A0, 0x9576_9577),
  (0xB3A8, 0x9581),
  (0xB3AC, 0x9585),
  (0xB3C4, 0x95A1_95A2),
  (0xB3C8, 0x95A5),
  (0xB3CB, 0x95A8_95A9),
  (0xB3CE, 0x95AB),
  (0xB3D0, 0x95AD),
  (0xB3D3, 0x95B0_95B1_95B3),
  (0xB3D7, 0x95B5),
  (0xB3D9, 0x95B7),
  (0xB3DB, 0x95B9),
  (0xB3DD, 0x95BB),
  (0xB3E0, 0x95C1),
  (0xB3E4, 0x95C5),
  (0xB3E8, 0x95C9),
  (0xB3FC, 0x95E1),
  (0xB400, 0x95E5),
  (0xB40F, 0x95F5_95F6),
  (0xB418, 0x9641),
  (0xB41C, 0x9645),
  (0xB420, 0x9649),
  (0xB428, 0x9651_9653),
  (0xB42B, 0x9655_9656),
  (0xB434, 0x9661),
  (0xB450, 0x9681_9682),
  (0xB454, 0x9685),
  (0xB457, 0x9688_9689),
  (0xB460, 0x9691_9693),
  (0xB463, 0x9695),
  (0xB465, 0x9697),
  (0xB46C, 0x96A1),
  (0xB47F, 0x96B5_96B6),
  (0xB488, 0x96C1),
  (0xB49D, 0x96D7),
  (0xB4A4, 0x96E1),
  (0xB4A8, 0x96E5),
  (0xB4AC, 0x96E9),
  (0xB4B4, 0x96F1_96F3),
  (0xB4B7, 0x96F5),
  (0xB4B9, 0x96F7),
  (0xB4C0, 0x9741_9742),
  (0xB4C4, 0x9745),
  (0xB4C8, 0x9749),
  (0xB4D0, 0x9751),
  (0xB4D5, 0x9757),
  (0xB4DC, 0x9761_9762),
  (0xB4E0, 0x9765),
  (0xB4E3, 0x9768_9769),
  (0xB4E6, 0x976B_976C),
  (0xB4EC, 0x9771_9773),
  (0xB4EF, 0x9775),
  (0xB4F1, 0x9777),
  (0xB4F8, 0x9781),
  (0xB514, 0x97A1_97A2),
  (0xB518, 0x97A5),
  (0xB51B, 0x97A8_97A9),
  (0xB524, 0x97B1_97B3),
  (0xB527, 0x97B5_97B6_97B7_97B8),
  (0xB52E, 0x97BC),
  (0xB530, 0x9861_9862_9863),
  (0xB534, 0x9865),
  (0xB537, 0x9868_9869),
  (0xB53F, 0x9870_9871_9873),
  (0xB543, 0x9875_9876_9877),
  (0xB54B, 0x987D_9881_9882),
  (0xB550, 0x9885),
  (0xB554, 0x9889),
  (0xB55C, 0x9891_9893),
  (0xB55F, 0x9895_9896_9897),
  (0xB568, 0x98A1),
  (0xB584, 0x98C1),
  (0xB5A0, 0x98E1_98E2),
  (0xB5A4, 0x98E5),
  (0xB5A8, 0x98E9),
  (0xB5AA, 0x98EB_98EC),
  (0xB5B0, 0x98F1_98F3),
  (0xB5B3, 0x98F5_98F6_98F7),
  (0xB5BB, 0x98FD_9941_9942),
  (0xB5C0, 0x9945),
  (0xB5C4, 0x9949),
  (0xB5CC, 0x9951_9953),
  (0xB5CF, 0x9955_9956_9957),
  (0xB5D8, 0x9961),
  (0xB5EC, 0x9976),
  (0xB5F4, 0x9981),
  (0xB610, 0x99A1_99A2),
  (0xB614, 0x99A5),
  (0xB618, 0x99A9),
  (0xB625, 0x99B7),
  (0xB62C, 0x99C1),
  (0xB634, 0x99C9),
  (0xB648, 0x99E1),
  (0xB664, 0x9A41),
  (0xB668, 0x9A45),
  (0xB680, 0x9A61),
  (0xB69C, 0x9A81_9A82),
  (0xB6A0, 0x9A85),
  (0xB6A4, 0x9A89),
  (0xB6AB, 0x9A90_9A91),
  (0xB6B1, 0x9A97),
  (0xB6B8, 0x9AA1),
  (0xB6D4, 0x9AC1),
  (0xB6F0, 0x9AE1),
  (0xB6F4, 0x9AE5),
  (0xB6F8, 0x9AE9),
  (0xB700, 0x9AF1_9AF3),
  (0xB705, 0x9AF7),
  (0xB70C, 0x9B41),
  (0xB728, 0x9B61_9B62),
  (0xB72C, 0x9B65),
  (0xB72F, 0x9B68_9B69),
  (0xB738, 0x9B71_9B73),
  (0xB73B, 0x9B75),
  (0xB744, 0x9B81),
  (0xB748, 0x9B85),
  (0xB74C, 0x9B89),
  (0xB754, 0x9B91_9B93),
  (0xB760, 0x9BA1),
  (0xB764, 0x9BA5),
  (0xB768, 0x9BA9),
  (0xB770, 0x9BB1_9BB3),
  (0xB773, 0x9BB5),
  (0xB775, 0x9BB7),
  (0xB77C, 0x9C61_9C62),
  (0xB780, 0x9C65),
  (0xB784, 0x9C69),
  (0xB78C, 0x9C71_9C73),
  (0xB78F, 0x9C75_9C76_9C77_9C78),
  (0xB796, 0x9C7C_9C7D_9C81_9C82),
  (0xB79C, 0x9C85),
  (0xB7A0, 0x9C89),
  (0xB7A8, 0x9C91_9C93),
  (0xB7AB, 0x9C95_9C96_9C97),
  (0xB7B4, 0x9CA1_9CA2),
  (0xB7B8, 0x9CA5),
  (0xB7C7, 0x9CB5),
  (0xB7C9, 0x9CB7),
  (0xB7D0, 0x9CC1),
  (0xB7EC, 0x9CE1_9CE2),
  (0xB7F0, 0x9CE5),
  (0xB7F4, 0x9CE9),
  (0xB7FC, 0x9CF1_9CF3),
  (0xB7FF, 0x9CF5_9CF6_9CF7),
  (0xB807, 0x9CFD_9D41_9D42),
  (0xB80C, 0x9D45),
  (0xB80F, 0x9D48_9D49),
  (0xB818, 0x9D51_9D53),
  (0xB81B, 0x9D55),
  (0xB81D, 0x9D57),
  (0xB824, 0x9D61_9D62),
  (0xB828, 0x9D65),
  (0xB82C, 0x9D69),
  (0xB834, 0x9D71_9D73),
  (0xB837, 0x9D75_9D76_9D77),
  (0xB840, 0x9D81),
  (0xB844, 0x9D85),
  (0xB851, 0x9D93),
  (0xB853, 0x9D95),
  (0xB85C, 0x9DA1_9DA2),
  (0xB860, 0x9DA5),
  (0xB864, 0x9DA9),
  (0xB86C, 0x9DB1_9DB3),
  (0xB86F, 0x9DB5),
  (0xB871, 0x9DB7),
  (0xB878, 0x9DC1),
  (0xB87C, 0x9DC5),
  (0xB88D, 0x9DD7),
  (0xB894, 0x9DE1),
  (0xB8A8, 0x9DF6),
  (0xB8B0, 0x9E41),
  (0xB8B4, 0x9E45),
  (0xB8B8, 0x9E49),
  (0xB8C0, 0x9E51_9E53),
  (0xB8C3, 0x9E55),
  (0xB8C5, 0x9E57),
  (0xB8CC, 0x9E61),
  (0xB8D0, 0x9E65),
  (0xB8D4, 0x9E69),
  (0xB8DC, 0x9E71_9E73),
  (0xB8DF, 0x9E75),
  (0xB8E1, 0x9E77),
  (0xB8E8, 0x9E81_9E82),
  (0xB8EC, 0x9E85),
  (0xB8F0, 0x9E89),
  (0xB8F8, 0x9E91_9E93),
  (0xB8FB, 0x9E95),
  (0xB8FD, 0x9E97),
  (0xB904, 0x9EA1),
  (0xB917, 0x9EB5_9EB6),
  (0xB920, 0x9EC1),
  (0xB93C, 0x9EE1_9EE2),
  (0xB940, 0x9EE5),
  (0xB944, 0x9EE9),
  (0xB94C, 0x9EF1),
  (0xB94F, 0x9EF5),
  (0xB951, 0x9EF7),
  (0xB958, 0x9F41_9F42),
  (0xB95C, 0x9F45),
  (0xB960, 0x9F49),
  (0xB968, 0x9F51_9F53),
  (0xB96B, 0x9F55),
  (0xB96D, 0x9F57),
  (0xB974, 0x9F61_9F62),
  (0xB978, 0x9F65),
  (0xB97C, 0x9F69),
  (0xB984, 0x9F71_9F73),
  (0xB987, 0x9F75),
  (0xB989, 0x9F77_9F78),
  (0xB98D, 0x9F7B_9F7C),
  (0xB990, 0x9F81),
  (0xB9AC, 0x9FA1_9FA2),
  (0xB9B0, 0x9FA5),
  (0xB9B4, 0x9FA9),
  (0xB9BC, 0x9FB1_9FB3),
  (0xB9BF, 0x9FB5),
  (0xB9C1, 0x9FB7),
  (0xB9C8, 0xA061_A062),
  (0xB9CC, 0xA065),
  (0xB9CE, 0xA067_A068_A069_A06A_A06B),
  (0xB9D8, 0xA071_A073),
  (0xB9DB, 0xA075),
  (0xB9DD, 0xA077_A078_A079),
  (0xB9E1, 0xA07B),
  (0xB9E3, 0xA07D_A081_A082),
  (0xB9E8, 0xA085),
  (0xB9EC, 0xA089),
  (0xB9F4, 0xA091_A093),
  (0xB9F7, 0xA095_A096_A097_A098_A099),
  (0xBA00, 0xA0A1_A0A2),
  (0xBA08, 0xA0A9),
  (0xBA15, 0xA0B7),
  (0xBA1C, 0xA0C1),
  (0xBA38, 0xA0E1_A0E2),
  (0xBA3C, 0xA0E5),
  (0xBA40, 0xA0E9),
  (0xBA42, 0xA0EB),
  (0xBA48, 0xA0F1_A0F3),
  (0xBA4B, 0xA0F5),
  (0xBA4D, 0xA0F7_A0F8),
  (0xBA53, 0xA0FD_A141_A142),
  (0xBA58, 0xA145),
  (0xBA5C, 0xA149),
  (0xBA64, 0xA151_A153),
  (0xBA67, 0xA155_A156_A157),
  (0xBA6B, 0xA159),
  (0xBA6D, 0xA15B),
  (0xBA70, 0xA161_A162),
  (0xBA74, 0xA165),
  (0xBA78, 0xA169),
  (0xBA80, 0xA171),
  (0xBA83, 0xA175_A176_A177),
  (0xBA87, 0xA179),
  (0xBA8C, 0xA181),
  (0xBAA8, 0xA1A1_A1A2),
  (0xBAAB, 0xA1A4_A1A5),
  (0xBAAF, 0xA1A8_A1A9),
  (0xBAB2, 0xA1AB),
  (0xBAB8, 0xA1B1_A1B3),
  (0xBABB, 0xA1B5),
  (0xBABD, 0xA1B7),
  (0xBAC3, 0xA1BD_A1C1),
  (0xBAC8, 0xA1C5),
  (0xBAD8, 0xA1D6_A1D7),
  (0xBAE0, 0xA1E1),
  (0xBAFC, 0xA241),
  (0xBB00, 0xA245),
  (0xBB04, 0xA249),
  (0xBB0D, 0xA253),
  (0xBB0F, 0xA255),
  (0xBB11, 0xA257),
  (0xBB18, 0xA261),
  (0xBB1C, 0xA265),
  (0xBB20, 0xA269),
  (0xBB29, 0xA273),
  (0xBB2B, 0xA275),
  (0xBB34, 0xA281_A282_A283),
  (0xBB38, 0xA285),
  (0xBB3B, 0xA288_A289_A28A_A28B),
  (0xBB44, 0xA291_A293),
  (0xBB47, 0xA295),
  (0xBB49, 0xA297),
  (0xBB4D, 0xA29B),
  (0xBB4F, 0xA29D_A2A1),
  (0xBB54, 0xA2A5),
  (0xBB58, 0xA2A9),
  (0xBB61, 0xA2B3),
  (0xBB63, 0xA2B5),
  (0xBB6C, 0xA2C1),
  (0xBB88, 0xA2E1),
  (0xBB8C, 0xA2E5),
  (0xBB90, 0xA2E9),
  (0xBBA4, 0xA341),
  (0xBBA8, 0xA345),
  (0xBBAC, 0xA349),
  (0xBBB4, 0xA351),
  (0xBBB7, 0xA355),
  (0xBBC0, 0xA361_A362),
  (0xBBC4, 0xA365),
  (0xBBC8, 0xA369),
  (0xBBD0, 0xA371),
  (0xBBD3, 0xA375),
  (0xBBD5, 0xA377),
  (0xBBDC, 0xA381),
  (0xBBE0, 0xA385),
  (0xBBF8, 0xA3A1_A3A2),
  (0xBBFC, 0xA3A5),
  (0xBBFF, 0xA3A8_A3A9),
  (0xBC02, 0xA3AB),
  (0xBC08, 0xA3B1_A3B3),
  (0xBC0B, 0xA3B5_A3B6_A3B7_A3B8_A3B9),
  (0xBC11, 0xA3BB),
  (0xBC14, 0xA461_A462_A463_A464_A465),
  (0xBC1B, 0xA468_A469_A46A_A46B_A46C),
  (0xBC24, 0xA471_A473),
  (0xBC27, 0xA475_A476_A477),
  (0xBC2D, 0xA47B),
  (0xBC30, 0xA481_A482),
  (0xBC34, 0xA485),
  (0xBC37, 0xA488_A489),
  (0xBC40, 0xA491_A493),
  (0xBC43, 0xA495_A496_A497),
  (0xBC49, 0xA49B),
  (0xBC4C, 0xA4A1_A4A2),
  (0xBC50, 0xA4A5),
  (0xBC5C, 0xA4B1_A4B3),
  (0xBC68, 0xA4C1),
  (0xBC84, 0xA4E1_A4E2),
  (0xBC88, 0xA4E5),
  (0xBC8B, 0xA4E8_A4E9),
  (0xBC8E, 0xA4EB),
  (0xBC94, 0xA4F1_A4F3),
  (0xBC97, 0xA4F5_A4F6_A4F7_A4F8),
  (0xBC9C, 0xA4FA),
  (0xBCA0, 0xA541_A542),
  (0xBCA4, 0xA545),
  (0xBCA7, 0xA548_A549),
  (0xBCB0, 0xA551_A553),
  (0xBCB3, 0xA555_A556_A557),
  (0xBCB9, 0xA55B),
  (0xBCBC, 0xA561_A562),
  (0xBCC0, 0xA565),
  (0xBCC4, 0xA569),
  (0xBCCC, 0xA571_A573),
  (0xBCCF, 0xA575_A576_A577_A578_A579_A57A_A57B),
  (0xBCD8, 0xA581),
  (0xBCDC, 0xA585),
  (0xBCF4, 0xA5A1_A5A2_A5A3),
  (0xBCF8, 0xA5A5),
  (0xBCFC, 0xA5A9),
  (0xBD04, 0xA5B1_A5B3),
  (0xBD07, 0xA5B5),
  (0xBD09, 0xA5B7),
  (0xBD10, 0xA5C1),
  (0xBD14, 0xA5C5),
  (0xBD23, 0xA5D5_A5D6),
  (0xBD2C, 0xA5E1),
  (0xBD40, 0xA5F6),
  (0xBD48, 0xA641_A642),
  (0xBD4C, 0xA645),
  (0xBD50, 0xA649),
  (0xBD58, 0xA651_A653),
  (0xBD64, 0xA661),
  (0xBD68, 0xA665),
  (0xBD80, 0xA681_A682),
  (0xBD84, 0xA685),
  (0xBD87, 0xA688_A689_A68A_A68B),
  (0xBD90, 0xA691_A693),
  (0xBD93, 0xA695),
  (0xBD95, 0xA697),
  (0xBD97, 0xA699),
  (0xBD99, 0xA69B_A69C),
  (0xBD9C, 0xA6A1),
  (0xBDA4, 0xA6A9),
  (0xBDB0, 0xA6B6),
  (0xBDB4, 0xA6BA),
  (0xBDB8, 0xA6C1),
  (0xBDD4, 0xA6E1_A6E2),
  (0xBDD8, 0xA6E5),
  (0xBDDC, 0xA6E9),
  (0xBDE9, 0xA6F7),
  (0xBDF0, 0xA741),
  (0xBDF4, 0xA745),
  (0xBDF8, 0xA749),
  (0xBE00, 0xA751),
  (0xBE03, 0xA755),
  (0xBE05, 0xA757),
  (0xBE0C, 0xA761_A762),
  (0xBE10, 0xA765),
  (0xBE14, 0xA769),
  (0xBE18, 0xA76D),
  (0xBE1C, 0xA771_A773),
  (0xBE1F, 0xA775),
  (0xBE21, 0xA777),
  (0xBE28, 0xA781),
  (0xBE44, 0xA7A1_A7A2),
  (0xBE48, 0xA7A5),
  (0xBE4B, 0xA7A8_A7A9),
  (0xBE4E, 0xA7AB),
  (0xBE54, 0xA7B1_A7B3),
  (0xBE57, 0xA7B5),
  (0xBE59, 0xA7B7_A7B8_A7B9),
  (0xBE60, 0xA861_A862),
  (0xBE64, 0xA865),
  (0xBE68, 0xA869),
  (0xBE6A, 0xA86B),
  (0xBE70, 0xA871_A873),
  (0xBE73, 0xA875_A876_A877),
  (0xBE7B, 0xA87D_A881_A882),
  (0xBE80, 0xA885),
  (0xBE84, 0xA889),
  (0xBE8C, 0xA891_A893),
  (0xBE8F, 0xA895_A896_A897),
  (0xBE98, 0xA8A1_A8A2),
  (0xBE9C, 0xA8A5),
  (0xBEA8, 0xA8B1),
  (0xBEB4, 0xA8C1),
  (0xBED0, 0xA8E1_A8E2),
  (0xBED4, 0xA8E5),
  (0xBED7, 0xA8E8_A8E9),
  (0xBEE0, 0xA8F1),
  (0xBEE3, 0xA8F5_A8F6_A8F7),
  (0xBEEC, 0xA941_A942),
  (0xBEF0, 0xA945),
  (0xBEF4, 0xA949),
  (0xBEFF, 0xA955),
  (0xBF01, 0xA957),
  (0xBF08, 0xA961_A962),
  (0xBF18, 0xA971_A973),
  (0xBF1B, 0xA975_A976_A977),
  (0xBF24, 0xA981),
  (0xBF40, 0xA9A1_A9A2),
  (0xBF44, 0xA9A5),
  (0xBF48, 0xA9A9),
  (0xBF50, 0xA9B1_A9B3),
  (0xBF55, 0xA9B7),
  (0xBF5C, 0xA9C1),
  (0xBF78, 0xA9E1),
  (0xBF94, 0xAA41),
  (0xBFB0, 0xAA61),
  (0xBFC0, 0xAA71),
  (0xBFC5, 0xAA77),
  (0xBFCC, 0xAA81_AA82),
  (0xBFD0, 0xAA85),
  (0xBFD4, 0xAA89_AA8A),
  (0xBFDC, 0xAA91_AA93),
  (0xBFDF, 0xAA95),
  (0xBFE1, 0xAA97),
  (0xBFE8, 0xAAA1),
  (0xC004, 0xAAC1),
  (0xC020, 0xAAE1),
  (0xC03C, 0xAB41),
  (0xC051, 0xAB57),
  (0xC058, 0xAB61_AB62),
  (0xC05C, 0xAB65),
  (0xC060, 0xAB69),
  (0xC068, 0xAB71_AB73),
  (0xC074, 0xAB81),
  (0xC090, 0xABA1_ABA2),
  (0xC094, 0xABA5),
  (0xC098, 0xABA9),
  (0xC0A0, 0xABB1_ABB3),
  (0xC0A3, 0xABB5),
  (0xC0A5, 0xABB7),
  (0xC0AC, 0xAC61_AC62_AC63_AC64_AC65),
  (0xC0B3, 0xAC68_AC69_AC6A_AC6B_AC6C),
  (0xC0BB, 0xAC70_AC71_AC73),
  (0xC0BF, 0xAC75_AC76_AC77),
  (0xC0C3, 0xAC79),
  (0xC0C5, 0xAC7B),
  (0xC0C7, 0xAC7D_AC81_AC82),
  (0xC0CC, 0xAC85),
  (0xC0CF, 0xAC88_AC89),
  (0xC0D8, 0xAC91_AC93),
  (0xC0DB, 0xAC95_AC96_AC97),
  (0xC0E4, 0xACA1_ACA2),
  (0xC0E8, 0xACA5),
  (0xC0EC, 0xACA9),
  (0xC0F4, 0xACB1_ACB3),
  (0xC0F7, 0xACB5),
  (0xC0F9, 0xACB7),
  (0xC100, 0xACC1),
  (0xC104, 0xACC5),
  (0xC108, 0xACC9),
  (0xC110, 0xACD1),
  (0xC115, 0xACD7),
  (0xC11C, 0xACE1_ACE2_ACE3_ACE4_ACE5),
  (0xC123, 0xACE8_ACE9_ACEA_ACEB_ACEC),
  (0xC12C, 0xACF1_ACF3),
  (0xC12F, 0xACF5_ACF6_ACF7),
  (0xC136, 0xACFC),
  (0xC138, 0xAD41_AD42),
  (0xC13C, 0xAD45),
  (0xC13F, 0xAD48_AD49),
  (0xC148, 0xAD51_AD53),
  (0xC14B, 0xAD55_AD56_AD57),
  (0xC151, 0xAD5B),
  (0xC154, 0xAD61_AD62),
  (0xC157, 0xAD64_AD65),
  (0xC15C, 0xAD69),
  (0xC164, 0xAD71_AD73),
  (0xC167, 0xAD75_AD76_AD77),
  (0xC170, 0xAD81),
  (0xC174, 0xAD85),
  (0xC178, 0xAD89),
  (0xC185, 0xAD97),
  (0xC18C, 0xADA1_ADA2_ADA3),
  (0xC190, 0xADA5),
  (0xC193, 0xADA8_ADA9),
  (0xC196, 0xADAB),
  (0xC19C, 0xADB1_ADB3),
  (0xC19F, 0xADB5),
  (0xC1A1, 0xADB7),
  (0xC1A5, 0xADBB),
  (0xC1A8, 0xADC1_ADC2),
  (0xC1AC, 0xADC5),
  (0xC1B0, 0xADC9),
  (0xC1BB, 0xADD5),
  (0xC1BD, 0xADD7),
  (0xC1C4, 0xADE1),
  (0xC1C8, 0xADE5),
  (0xC1CC, 0xADE9),
  (0xC1D4, 0xADF1),
  (0xC1D7, 0xADF5_ADF6),
  (0xC1E0, 0xAE41),
  (0xC1E4, 0xAE45),
  (0xC1E8, 0xAE49),
  (0xC1F0, 0xAE51_AE53),
  (0xC1F3, 0xAE55),
  (0xC1FC, 0xAE61_AE62),
  (0xC200, 0xAE65),
  (0xC204, 0xAE69),
  (0xC20C, 0xAE71_AE73),
  (0xC20F, 0xAE75),
  (0xC211, 0xAE77),
  (0xC218, 0xAE81_AE82),
  (0xC21C, 0xAE85),
  (0xC21F, 0xAE88_AE89),
  (0xC228, 0xAE91_AE93),
  (0xC22B, 0xAE95),
  (0xC22D, 0xAE97),
  (0xC22F, 0xAE99),
  (0xC231, 0xAE9B_AE9C),
  (0xC234, 0xAEA1),
  (0xC248, 0xAEB6),
  (0xC250, 0xAEC1_AEC2),
  (0xC254, 0xAEC5),
  (0xC258, 0xAEC9),
  (0xC260, 0xAED1),
  (0xC265, 0xAED7),
  (0xC26C, 0xAEE1_AEE2),
  (0xC270, 0xAEE5),
  (0xC274, 0xAEE9),
  (0xC27C, 0xAEF1_AEF3),
  (0xC27F, 0xAEF5),
  (0xC281, 0xAEF7),
  (0xC288, 0xAF41_AF42),
  (0xC28C, 0xAF45),
  (0xC290, 0xAF49),
  (0xC298, 0xAF51),
  (0xC29B, 0xAF55),
  (0xC29D, 0xAF57),
  (0xC2A4, 0xAF61_AF62),
  (0xC2A8, 0xAF65),
  (0xC2AC, 0xAF69_AF6A),
  (0xC2B3, 0xAF70_AF71_AF73),
  (0xC2B7, 0xAF75),
  (0xC2B9, 0xAF77),
  (0xC2C0, 0xAF81),
  (0xC2DC, 0xAFA1_AFA2),
  (0xC2E0, 0xAFA5),
  (0xC2E3, 0xAFA8_AFA9),
  (0xC2E6, 0xAFAB),
  (0xC2EB, 0xAFB0_AFB1_AFB3),
  (0xC2EF, 0xAFB5),
  (0xC2F1, 0xAFB7),
  (0xC2F6, 0xAFBC),
  (0xC2F8, 0xB061_B062),
  (0xC2FB, 0xB064_B065),
  (0xC300, 0xB069),
  (0xC302, 0xB06B),
  (0xC308, 0xB071_B073),
  (0xC30B, 0xB075_B076_B077),
  (0xC313, 0xB07D_B081_B082),
  (0xC318, 0xB085),
  (0xC31C, 0xB089),
  (0xC324, 0xB091_B093),
  (0xC327, 0xB095_B096_B097),
  (0xC330, 0xB0A1),
  (0xC343, 0xB0B5),
  (0xC345, 0xB0B7),
  (0xC34C, 0xB0C1),
  (0xC368, 0xB0E1_B0E2),
  (0xC36C, 0xB0E5),
  (0xC370, 0xB0E9),
  (0xC372, 0xB0EB),
  (0xC378, 0xB0F1_B0F3),
  (0xC37B, 0xB0F5_B0F6_B0F7),
  (0xC384, 0xB141_B142),
  (0xC388, 0xB145),
  (0xC38C, 0xB149),
  (0xC399, 0xB157),
  (0xC3A0, 0xB161),
  (0xC3BC, 0xB181),
  (0xC3C0, 0xB185),
  (0xC3D8, 0xB1A1_B1A2),
  (0xC3DC, 0xB1A5),
  (0xC3DF, 0xB1A8_B1A9),
  (0xC3E2, 0xB1AB),
  (0xC3E8, 0xB1B1_B1B3),
  (0xC3ED, 0xB1B7),
  (0xC3F4, 0xB1C1_B1C2),
  (0xC3F8, 0xB1C5),
  (0xC3FC, 0xB1C9),
  (0xC408, 0xB1D6),
  (0xC410, 0xB1E1),
  (0xC424, 0xB1F6),
  (0xC42C, 0xB241),
  (0xC430, 0xB245),
  (0xC434, 0xB249),
  (0xC43C, 0xB251_B253),
  (0xC43F, 0xB255),
  (0xC448, 0xB261),
  (0xC464, 0xB281_B282),
  (0xC468, 0xB285),
  (0xC46C, 0xB289),
  (0xC474, 0xB291_B293),
  (0xC477, 0xB295),
  (0xC479, 0xB297),
  (0xC480, 0xB2A1),
  (0xC493, 0xB2B5_B2B6),
  (0xC49C, 0xB2C1),
  (0xC4B8, 0xB2E1),
  (0xC4BC, 0xB2E5),
  (0xC4D3, 0xB2FD_B341),
  (0xC4E9, 0xB357),
  (0xC4F0, 0xB361_B362),
  (0xC4F4, 0xB365),
  (0xC4F8, 0xB369),
  (0xC4FA, 0xB36B),
  (0xC4FF, 0xB370_B371_B373),
  (0xC50C, 0xB381),
  (0xC510, 0xB385),
  (0xC514, 0xB389),
  (0xC51C, 0xB391),
  (0xC528, 0xB3A1_B3A2),
  (0xC52C, 0xB3A5),
  (0xC530, 0xB3A9),
  (0xC538, 0xB3B1_B3B3),
  (0xC53B, 0xB3B5_B3B6_B3B7),
  (0xC53F, 0xB3B9),
  (0xC544, 0xB461_B462),
  (0xC548, 0xB465_B466_B467),
  (0xC54C, 0xB469_B46A_B46B_B46C),
  (0xC553, 0xB470_B471_B473),
  (0xC557, 0xB475_B476_B477),
  (0xC55D, 0xB47B_B47C_B47D_B481_B482),
  (0xC564, 0xB485),
  (0xC568, 0xB489),
  (0xC570, 0xB491_B493),
  (0xC573, 0xB495_B496_B497),
  (0xC57C, 0xB4A1_B4A2),
  (0xC580, 0xB4A5),
  (0xC584, 0xB4A9),
  (0xC587, 0xB4AC),
  (0xC58C, 0xB4B1_B4B3),
  (0xC58F, 0xB4B5_B4B6_B4B7),
  (0xC595, 0xB4BB),
  (0xC597, 0xB4BD_B4C1),
  (0xC59C, 0xB4C5),
  (0xC5A0, 0xB4C9),
  (0xC5A9, 0xB4D3),
  (0xC5AB, 0xB4D5),
  (0xC5B4, 0xB4E1_B4E2_B4E3),
  (0xC5B8, 0xB4E5_B4E6),
  (0xC5BB, 0xB4E8_B4E9_B4EA_B4EB),
  (0xC5C4, 0xB4F1_B4F3_B4F4_B4F5_B4F6_B4F7_B4F8),
  (0xC5CC, 0xB4FA),
  (0xC5CE, 0xB4FC),
  (0xC5D0, 0xB541_B542),
  (0xC5D4, 0xB545),
  (0xC5D8, 0xB549),
  (0xC5E0, 0xB551_B553),
  (0xC5E3, 0xB555),
  (0xC5E5, 0xB557),
  (0xC5EC, 0xB561_B562_B563),
  (0xC5F0, 0xB565_B566),
  (0xC5F3, 0xB568_B569),
  (0xC5F6, 0xB56B_B56C),
  (0xC5FC, 0xB571_B573_B574_B575_B576_B577),
  (0xC605, 0xB57B_B57C_B57D_B581),
  (0xC60C, 0xB585),
  (0xC610, 0xB589),
  (0xC618, 0xB591_B593),
  (0xC61B, 0xB595_B596_B597),
  (0xC624, 0xB5A1_B5A2),
  (0xC628, 0xB5A5),
  (0xC62B, 0xB5A8_B5A9_B5AA_B5AB),
  (0xC630, 0xB5AD),
  (0xC633, 0xB5B0_B5B1_B5B3),
  (0xC637, 0xB5B5),
  (0xC639, 0xB5B7_B5B8_B5B9),
  (0xC640, 0xB5C1_B5C2),
  (0xC644, 0xB5C5),
  (0xC648, 0xB5C9),
  (0xC650, 0xB5D1_B5D3),
  (0xC653, 0xB5D5_B5D6_B5D7),
  (0xC65C, 0xB5E1_B5E2),
  (0xC660, 0xB5E5),
  (0xC66C, 0xB5F1),
  (0xC66F, 0xB5F5),
  (0xC671, 0xB5F7),
  (0xC678, 0xB641_B642),
  (0xC67C, 0xB645),
  (0xC680, 0xB649),
  (0xC688, 0xB651_B653),
  (0xC68B, 0xB655),
  (0xC68D, 0xB657),
  (0xC694, 0xB661_B662),
  (0xC698, 0xB665),
  (0xC69C, 0xB669),
  (0xC6A4, 0xB671_B673),
  (0xC6A7, 0xB675),
  (0xC6A9, 0xB677),
  (0xC6B0, 0xB681_B682),
  (0xC6B4, 0xB685),
  (0xC6B7, 0xB688_B689_B68A_B68B),
  (0xC6C0, 0xB691_B693),
  (0xC6C3, 0xB695),
  (0xC6C5, 0xB697),
  (0xC6CC, 0xB6A1_B6A2),
  (0xC6D0, 0xB6A5),
  (0xC6D4, 0xB6A9),
  (0xC6DC, 0xB6B1_B6B3),
  (0xC6DF, 0xB6B5_B6B6_B6B7),
  (0xC6E8, 0xB6C1_B6C2),
  (0xC6EC, 0xB6C5),
  (0xC6F0, 0xB6C9),
  (0xC6F8, 0xB6D1_B6D3),
  (0xC6FD, 0xB6D7),
  (0xC704, 0xB6E1_B6E2),
  (0xC708, 0xB6E5),
  (0xC70B, 0xB6E8_B6E9),
  (0xC714, 0xB6F1_B6F3),
  (0xC717, 0xB6F5),
  (0xC719, 0xB6F7),
  (0xC720, 0xB741_B742),
  (0xC724, 0xB745),
  (0xC728, 0xB749),
  (0xC730, 0xB751_B753),
  (0xC733, 0xB755),
  (0xC735, 0xB757_B758_B759),
  (0xC73C, 0xB761_B762),
  (0xC740, 0xB765),
  (0xC744, 0xB769),
  (0xC74A, 0xB76F),
  (0xC74C, 0xB771_B773),
  (0xC74F, 0xB775),
  (0xC751, 0xB777_B778_B779_B77A_B77B_B77C_B77D_B781),
  (0xC75C, 0xB785),
  (0xC760, 0xB789),
  (0xC768, 0xB791),
  (0xC76B, 0xB795),
  (0xC774, 0xB7A1_B7A2),
  (0xC778, 0xB7A5),
  (0xC77B, 0xB7A8_B7A9_B7AA_B7AB),
  (0xC783, 0xB7B0_B7B1_B7B3),
  (0xC787, 0xB7B5_B7B6_B7B7_B7B8),
  (0xC78E, 0xB7BC),
  (0xC790, 0xB861_B862),
  (0xC794, 0xB865),
  (0xC796, 0xB867_B868_B869),
  (0xC79A, 0xB86B),
  (0xC7A0, 0xB871_B873),
  (0xC7A3, 0xB875_B876_B877_B878_B879),
  (0xC7AA, 0xB87C),
  (0xC7AC, 0xB881_B882),
  (0xC7B0, 0xB885),
  (0xC7B4, 0xB889),
  (0xC7BC, 0xB891_B893),
  (0xC7BF, 0xB895_B896_B897),
  (0xC7C8, 0xB8A1_B8A2),
  (0xC7CC, 0xB8A5),
  (0xC7CE, 0xB8A7),
  (0xC7D0, 0xB8A9),
  (0xC7D8, 0xB8B1),
  (0xC7DD, 0xB8B7),
  (0xC7E4, 0xB8C1),
  (0xC7E8, 0xB8C5),
  (0xC7EC, 0xB8C9),
  (0xC800, 0xB8E1_B8E2),
  (0xC804, 0xB8E5),
  (0xC807, 0xB8E8_B8E9),
  (0xC80A, 0xB8EB),
  (0xC810, 0xB8F1_B8F3),
  (0xC813, 0xB8F5_B8F6_B8F7_B8F8),
  (0xC81B, 0xB8FD_B941_B942),
  (0xC820, 0xB945),
  (0xC824, 0xB949),
  (0xC82C, 0xB951_B953),
  (0xC82F, 0xB955),
  (0xC831, 0xB957),
  (0xC838, 0xB961_B962),
  (0xC83C, 0xB965),
  (0xC840, 0xB969),
  (0xC848, 0xB971_B973),
  (0xC84B, 0xB975_B976_B977),
  (0xC854, 0xB981),
  (0xC870, 0xB9A1_B9A2),
  (0xC874, 0xB9A5),
  (0xC878, 0xB9A9),
  (0xC87A, 0xB9AB),
  (0xC880, 0xB9B1_B9B3),
  (0xC883, 0xB9B5),
  (0xC885, 0xB9B7_B9B8_B9B9),
  (0xC88B, 0xB9BD_B9C1_B9C2),
  (0xC890, 0xB9C5),
  (0xC894, 0xB9C9),
  (0xC89C, 0xB9D1_B9D3),
  (0xC89F, 0xB9D5_B9D6_B9D7),
  (0xC8A8, 0xB9E1),
  (0xC8AC, 0xB9E5),
  (0xC8B0, 0xB9E9),
  (0xC8B8, 0xB9F1),
  (0xC8BC, 0xB9F6_B9F7),
  (0xC8C4, 0xBA41),
  (0xC8C8, 0xBA45),
  (0xC8CC, 0xBA49),
  (0xC8D4, 0xBA51_BA53),
  (0xC8D7, 0xBA55),
  (0xC8D9, 0xBA57),
  (0xC8E0, 0xBA61_BA62),
  (0xC8E4, 0xBA65),
  (0xC8E8, 0xBA69),
  (0xC8F0, 0xBA71_BA73),
  (0xC8F5, 0xBA77),
  (0xC8FC, 0xBA81_BA82),
  (0xC900, 0xBA85),
  (0xC904, 0xBA89_BA8A_BA8B),
  (0xC90C, 0xBA91_BA93),
  (0xC90F, 0xBA95),
  (0xC911, 0xBA97),
  (0xC918, 0xBAA1),
  (0xC92B, 0xBAB5_BAB6),
  (0xC934, 0xBAC1),
  (0xC950, 0xBAE1_BAE2),
  (0xC954, 0xBAE5),
  (0xC958, 0xBAE9),
  (0xC960, 0xBAF1_BAF3),
  (0xC963, 0xBAF5),
  (0xC96C, 0xBB41_BB42),
  (0xC970, 0xBB45),
  (0xC974, 0xBB49),
  (0xC97C, 0xBB51),
  (0xC988, 0xBB61_BB62),
  (0xC98C, 0xBB65),
  (0xC990, 0xBB69),
  (0xC998, 0xBB71_BB73),
  (0xC99B, 0xBB75),
  (0xC99D, 0xBB77),
  (0xC9A4, 0xBB81),
  (0xC9C0, 0xBBA1_BBA2),
  (0xC9C4, 0xBBA5),
  (0xC9C7, 0xBBA8_BBA9),
  (0xC9CA, 0xBBAB),
  (0xC9D0, 0xBBB1_BBB3),
  (0xC9D3, 0xBBB5_BBB6_BBB7_BBB8),
  (0xC9D9, 0xBBBB_BBBC),
  (0xC9DC, 0xBC61_BC62),
  (0xC9E0, 0xBC65),
  (0xC9E2, 0xBC67),
  (0xC9E4, 0xBC69),
  (0xC9E7, 0xBC6C),
  (0xC9EC, 0xBC71_BC73),
  (0xC9EF, 0xBC75_BC76_BC77),
  (0xC9F8, 0xBC81_BC82),
  (0xC9FC, 0xBC85),
  (0xCA00, 0xBC89),
  (0xCA08, 0xBC91_BC93),
  (0xCA0B, 0xBC95_BC96_BC97),
  (0xCA14, 0xBCA1),
  (0xCA18, 0xBCA5),
  (0xCA29, 0xBCB7),
  (0xCA30, 0xBCC1),
  (0xCA4C, 0xBCE1_BCE2),
  (0xCA50, 0xBCE5),
  (0xCA54, 0xBCE9),
  (0xCA57, 0xBCEC),
  (0xCA5C, 0xBCF1_BCF3),
  (0xCA5F, 0xBCF5_BCF6_BCF7),
  (0xCA68, 0xBD41),
  (0xCA70, 0xBD49),
  (0xCA7D, 0xBD57),
  (0xCA84, 0xBD61),
  (0xCA97, 0xBD75_BD76),
  (0xCAA0, 0xBD81),
  (0xCABC, 0xBDA1_BDA2),
  (0xCAC0, 0xBDA5),
  (0xCAC4, 0xBDA9),
  (0xCACC, 0xBDB1_BDB3),
  (0xCACF, 0xBDB5),
  (0xCAD1, 0xBDB7_BDB8_BDB9),
  (0xCAD8, 0xBDC1_BDC2),
  (0xCAE0, 0xBDC9),
  (0xCAEC, 0xBDD6),
  (0xCAF4, 0xBDE1),
  (0xCB08, 0xBDF6),
  (0xCB10, 0xBE41),
  (0xCB14, 0xBE45),
  (0xCB18, 0xBE49),
  (0xCB20, 0xBE51_BE53),
  (0xCB2C, 0xBE61),
  (0xCB41, 0xBE77),
  (0xCB48, 0xBE81_BE82),
  (0xCB4C, 0xBE85),
  (0xCB50, 0xBE89),
  (0xCB58, 0xBE91_BE93),
  (0xCB5D, 0xBE97),
  (0xCB64, 0xBEA1),
  (0xCB78, 0xBEB6_BEB7),
  (0xCB80, 0xBEC1),
  (0xCB9C, 0xBEE1),
  (0xCBB8, 0xBF41),
  (0xCBD4, 0xBF61),
  (0xCBE4, 0xBF71_BF73),
  (0xCBE7, 0xBF75),
  (0xCBE9, 0xBF77),
  (0xCBF0, 0xBF81),
  (0xCC0C, 0xBFA1_BFA2),
  (0xCC10, 0xBFA5),
  (0xCC14, 0xBFA9),
  (0xCC1C, 0xBFB1_BFB3),
  (0xCC1F, 0xBFB5),
  (0xCC21, 0xBFB7_BFB8),
  (0xCC26, 0xBFBC_BFBD_C061_C062),
  (0xCC2C, 0xC065),
  (0xCC2E, 0xC067_C068_C069),
  (0xCC38, 0xC071_C073),
  (0xCC3B, 0xC075_C076_C077_C078_C079),
  (0xCC42, 0xC07C),
  (0xCC44, 0xC081_C082),
  (0xCC48, 0xC085),
  (0xCC4C, 0xC089),
  (0xCC54, 0xC091_C093),
  (0xCC57, 0xC095_C096_C097),
  (0xCC60, 0xC0A1),
  (0xCC64, 0xC0A5),
  (0xCC66, 0xC0A7),
  (0xCC68, 0xC0A9),
  (0xCC70, 0xC0B1_C0B3),
  (0xCC75, 0xC0B7),
  (0xCC7C, 0xC0C1),
  (0xCC98, 0xC0E1_C0E2),
  (0xCC9C, 0xC0E5),
  (0xCCA0, 0xC0E9),
  (0xCCA8, 0xC0F1_C0F3),
  (0xCCAB, 0xC0F5_C0F6_C0F7),
  (0xCCB4, 0xC141_C142),
  (0xCCB8, 0xC145),
  (0xCCBC, 0xC149),
  (0xCCC4, 0xC151_C153),
  (0xCCC7, 0xC155),
  (0xCCC9, 0xC157),
  (0xCCD0, 0xC161),
  (0xCCD4, 0xC165),
  (0xCCE3, 0xC175_C176_C177),
  (0xCCEC, 0xC181),
  (0xCCF0, 0xC185),
  (0xCD01, 0xC197),
  (0xCD08, 0xC1A1_C1A2),
  (0xCD0C, 0xC1A5),
  (0xCD10, 0xC1A9),
  (0xCD18, 0xC1B1_C1B3),
  (0xCD1B, 0xC1B5),
  (0xCD1D, 0xC1B7),
  (0xCD24, 0xC1C1),
  (0xCD28, 0xC1C5),
  (0xCD2C, 0xC1C9),
  (0xCD39, 0xC1D7),
  (0xCD40, 0xC1E1),
  (0xCD5C, 0xC241),
  (0xCD60, 0xC245),
  (0xCD64, 0xC249),
  (0xCD6C, 0xC251_C253),
  (0xCD6F, 0xC255),
  (0xCD71, 0xC257),
  (0xCD78, 0xC261),
  (0xCD88, 0xC271),
  (0xCD94, 0xC281_C282),
  (0xCD98, 0xC285),
  (0xCD9C, 0xC289),
  (0xCDA4, 0xC291_C293),
  (0xCDA7, 0xC295),
  (0xCDA9, 0xC297),
  (0xCDB0, 0xC2A1),
  (0xCDC3, 0xC2B5_C2B6),
  (0xCDCC, 0xC2C1),
  (0xCDD0, 0xC2C5),
  (0xCDE8, 0xC2E1),
  (0xCDEC, 0xC2E5),
  (0xCDF0, 0xC2E9),
  (0xCDF8, 0xC2F1_C2F3),
  (0xCDFB, 0xC2F5),
  (0xCDFD, 0xC2F7),
  (0xCE04, 0xC341),
  (0xCE08, 0xC345),
  (0xCE0C, 0xC349),
  (0xCE14, 0xC351),
  (0xCE19, 0xC357),
  (0xCE20, 0xC361_C362),
  (0xCE24, 0xC365),
  (0xCE28, 0xC369),
  (0xCE30, 0xC371_C373),
  (0xCE33, 0xC375),
  (0xCE35, 0xC377),
  (0xCE3C, 0xC381),
  (0xCE58, 0xC3A1_C3A2),
  (0xCE5C, 0xC3A5),
  (0xCE5F, 0xC3A8_C3A9_C3AA),
  (0xCE68, 0xC3B1_C3B3),
  (0xCE6B, 0xC3B5),
  (0xCE6D, 0xC3B7),
  (0xCE74, 0xC461_C462),
  (0xCE78, 0xC465),
  (0xCE7B, 0xC468_C469),
  (0xCE84, 0xC471_C473),
  (0xCE87, 0xC475),
  (0xCE89, 0xC477),
  (0xCE90, 0xC481_C482),
  (0xCE94, 0xC485),
  (0xCE97, 0xC488_C489),
  (0xCEA0, 0xC491_C493),
  (0xCEA3, 0xC495_C496_C497),
  (0xCEA9, 0xC49B),
  (0xCEAC, 0xC4A1_C4A2),
  (0xCEC1, 0xC4B7),
  (0xCEC8, 0xC4C1),
  (0xCEE4, 0xC4E1_C4E2),
  (0xCEE8, 0xC4E5),
  (0xCEEB, 0xC4E8_C4E9),
  (0xCEF4, 0xC4F1_C4F3),
  (0xCEF7, 0xC4F5_C4F6_C4F7),
  (0xCEFD, 0xC4FB),
  (0xCF00, 0xC541_C542),
  (0xCF04, 0xC545),
  (0xCF08, 0xC549),
  (0xCF10, 0xC551_C553),
  (0xCF13, 0xC555),
  (0xCF15, 0xC557),
  (0xCF19, 0xC55B),
  (0xCF1C, 0xC561),
  (0xCF20, 0xC565),
  (0xCF24, 0xC569),
  (0xCF2C, 0xC571_C573),
  (0xCF2F, 0xC575_C576_C577),
  (0xCF38, 0xC581),
  (0xCF54, 0xC5A1_C5A2),
  (0xCF58, 0xC5A5),
  (0xCF5C, 0xC5A9),
  (0xCF64, 0xC5B1_C5B3),
  (0xCF67, 0xC5B5),
  (0xCF69, 0xC5B7),
  (0xCF70, 0xC5C1_C5C2),
  (0xCF74, 0xC5C5),
  (0xCF78, 0xC5C9),
  (0xCF80, 0xC5D1),
  (0xCF85, 0xC5D7),
  (0xCF8C, 0xC5E1_C5E2),
  (0xCF90, 0xC5E5),
  (0xCF9F, 0xC5F5),
  (0xCFA1, 0xC5F7),
  (0xCFA8, 0xC641),
  (0xCFAC, 0xC645),
  (0xCFB0, 0xC649),
  (0xCFBD, 0xC657),
  (0xCFC4, 0xC661),
  (0xCFE0, 0xC681_C682),
  (0xCFE4, 0xC685),
  (0xCFE8, 0xC689),
  (0xCFF0, 0xC691_C693),
  (0xCFF3, 0xC695),
  (0xCFF5, 0xC697),
  (0xCFFC, 0xC6A1),
  (0xD000, 0xC6A5),
  (0xD004, 0xC6A9),
  (0xD011, 0xC6B7),
  (0xD018, 0xC6C1),
  (0xD02D, 0xC6D7),
  (0xD034, 0xC6E1_C6E2),
  (0xD038, 0xC6E5),
  (0xD03C, 0xC6E9),
  (0xD044, 0xC6F1_C6F3),
  (0xD047, 0xC6F5),
  (0xD049, 0xC6F7),
  (0xD050, 0xC741),
  (0xD054, 0xC745),
  (0xD058, 0xC749),
  (0xD060, 0xC751),
  (0xD06C, 0xC761_C762),
  (0xD070, 0xC765),
  (0xD074, 0xC769),
  (0xD07C, 0xC771_C773),
  (0xD081, 0xC777),
  (0xD088, 0xC781),
  (0xD0A4, 0xC7A1_C7A2),
  (0xD0A8, 0xC7A5),
  (0xD0AC, 0xC7A9),
  (0xD0B4, 0xC7B1_C7B3),
  (0xD0B7, 0xC7B5),
  (0xD0B9, 0xC7B7),
  (0xD0C0, 0xC861_C862),
  (0xD0C4, 0xC865),
  (0xD0C8, 0xC869_C86A),
  (0xD0D0, 0xC871_C873),
  (0xD0D3, 0xC875_C876_C877),
  (0xD0DC, 0xC881_C882),
  (0xD0E0, 0xC885),
  (0xD0E4, 0xC889),
  (0xD0EC, 0xC891_C893),
  (0xD0EF, 0xC895_C896_C897),
  (0xD0F8, 0xC8A1),
  (0xD10D, 0xC8B7),
  (0xD114, 0xC8C1),
  (0xD130, 0xC8E1_C8E2),
  (0xD134, 0xC8E5),
  (0xD138, 0xC8E9),
  (0xD13A, 0xC8EB),
  (0xD140, 0xC8F1_C8F3),
  (0xD143, 0xC8F5_C8F6_C8F7),
  (0xD14C, 0xC941_C942),
  (0xD150, 0xC945),
  (0xD154, 0xC949),
  (0xD15C, 0xC951_C953),
  (0xD15F, 0xC955_C956_C957),
  (0xD168, 0xC961_C962),
  (0xD16C, 0xC965),
  (0xD17C, 0xC976),
  (0xD184, 0xC981),
  (0xD188, 0xC985),
  (0xD1A0, 0xC9A1_C9A2),
  (0xD1A4, 0xC9A5),
  (0xD1A8, 0xC9A9),
  (0xD1B0, 0xC9B1_C9B3),
  (0xD1B3, 0xC9B5),
  (0xD1B5, 0xC9B7),
  (0xD1BA, 0xC9BC),
  (0xD1BC, 0xC9C1),
  (0xD1C0, 0xC9C5),
  (0xD1D8, 0xC9E1),
  (0xD1F4, 0xCA41),
  (0xD1F8, 0xCA45),
  (0xD207, 0xCA55),
  (0xD209, 0xCA57),
  (0xD210, 0xCA61),
  (0xD22C, 0xCA81_CA82),
  (0xD230, 0xCA85),
  (0xD234, 0xCA89),
  (0xD23C, 0xCA91_CA93),
  (0xD23F, 0xCA95),
  (0xD241, 0xCA97),
  (0xD248, 0xCAA1),
  (0xD25C, 0xCAB6),
  (0xD264, 0xCAC1),
  (0xD277, 0xCAD5),
  (0xD280, 0xCAE1_CAE2),
  (0xD284, 0xCAE5),
  (0xD288, 0xCAE9),
  (0xD290, 0xCAF1_CAF3),
  (0xD293, 0xCAF5),
  (0xD295, 0xCAF7),
  (0xD29C, 0xCB41),
  (0xD2A0, 0xCB45),
  (0xD2A4, 0xCB49),
  (0xD2AC, 0xCB51),
  (0xD2B1, 0xCB57),
  (0xD2B8, 0xCB61_CB62),
  (0xD2BC, 0xCB65),
  (0xD2BF, 0xCB68_CB69),
  (0xD2C2, 0xCB6B),
  (0xD2C8, 0xCB71_CB73),
  (0xD2CB, 0xCB75),
  (0xD2CD, 0xCB77),
  (0xD2D4, 0xCB81),
  (0xD2D8, 0xCB85),
  (0xD2DC, 0xCB89),
  (0xD2E4, 0xCB91_CB93),
  (0xD2E7, 0xCB95),
  (0xD2F0, 0xCBA1_CBA2),
  (0xD2F4, 0xCBA5),
  (0xD2F8, 0xCBA9),
  (0xD300, 0xCBB1_CBB3),
  (0xD303, 0xCBB5),
  (0xD305, 0xCBB7),
  (0xD30A, 0xCBBC),
  (0xD30C, 0xCC61_CC62_CC63),
  (0xD310, 0xCC65),
  (0xD314, 0xCC69),
  (0xD316, 0xCC6B),
  (0xD31C, 0xCC71_CC73),
  (0xD31F, 0xCC75_CC76_CC77),
  (0xD325, 0xCC7B_CC7C),
  (0xD328, 0xCC81_CC82),
  (0xD32C, 0xCC85),
  (0xD330, 0xCC89),
  (0xD338, 0xCC91_CC93),
  (0xD33B, 0xCC95_CC96_CC97),
  (0xD344, 0xCCA1_CCA2),
  (0xD359, 0xCCB7),
  (0xD360, 0xCCC1),
  (0xD37C, 0xCCE1_CCE2),
  (0xD380, 0xCCE5),
  (0xD384, 0xCCE9),
  (0xD38C, 0xCCF1_CCF3),
  (0xD38F, 0xCCF5_CCF6_CCF7),
  (0xD398, 0xCD41_CD42),
  (0xD39C, 0xCD45),
  (0xD3A0, 0xCD49),
  (0xD3A8, 0xCD51_CD53),
  (0xD3AB, 0xCD55),
  (0xD3AD, 0xCD57),
  (0xD3B2, 0xCD5C),
  (0xD3B4, 0xCD61_CD62),
  (0xD3B8, 0xCD65),
  (0xD3BC, 0xCD69),
  (0xD3C4, 0xCD71_CD73),
  (0xD3C7, 0xCD75_CD76_CD77),
  (0xD3D0, 0xCD81),
  (0xD3D8, 0xCD89),
  (0xD3E1, 0xCD93),
  (0xD3E3, 0xCD95),
  (0xD3EC, 0xCDA1_CDA2),
  (0xD3F0, 0xCDA5),
  (0xD3F4, 0xCDA9),
  (0xD3FC, 0xCDB1_CDB3),
  (0xD3FF, 0xCDB5),
  (0xD401, 0xCDB7),
  (0xD408, 0xCDC1),
  (0xD41D, 0xCDD7),
  (0xD424, 0xCDE1),
  (0xD440, 0xCE41),
  (0xD444, 0xCE45),
  (0xD45C, 0xCE61),
  (0xD460, 0xCE65),
  (0xD464, 0xCE69),
  (0xD46D, 0xCE73),
  (0xD46F, 0xCE75),
  (0xD478, 0xCE81_CE82),
  (0xD47C, 0xCE85),
  (0xD47F, 0xCE88_CE89),
  (0xD482, 0xCE8B),
  (0xD488, 0xCE91_CE93),
  (0xD48B, 0xCE95),
  (0xD48D, 0xCE97),
  (0xD494, 0xCEA1),
  (0xD4A9, 0xCEB7),
  (0xD4B0, 0xCEC1),
  (0xD4CC, 0xCEE1),
  (0xD4D0, 0xCEE5),
  (0xD4D4, 0xCEE9),
  (0xD4DC, 0xCEF1),
  (0xD4DF, 0xCEF5),
  (0xD4E8, 0xCF41_CF42),
  (0xD4EC, 0xCF45),
  (0xD4F0, 0xCF49),
  (0xD4F8, 0xCF51),
  (0xD4FB, 0xCF55),
  (0xD4FD, 0xCF57),
  (0xD504, 0xCF61_CF62),
  (0xD508, 0xCF65),
  (0xD50C, 0xCF69),
  (0xD510, 0xCF6D),
  (0xD514, 0xCF71_CF73),
  (0xD517, 0xCF75),
  (0xD519, 0xCF77),
  (0xD520, 0xCF81),
  (0xD524, 0xCF85),
  (0xD53C, 0xCFA1_CFA2),
  (0xD540, 0xCFA5),
  (0xD544, 0xCFA9),
  (0xD54C, 0xCFB1_CFB3),
  (0xD54F, 0xCFB5),
  (0xD551, 0xCFB7),
  (0xD558, 0xD061_D062),
  (0xD55C, 0xD065),
  (0xD55F, 0xD068_D069_D06A),
  (0xD565, 0xD06E),
  (0xD568, 0xD071_D073),
  (0xD56B, 0xD075_D076_D077),
  (0xD571, 0xD07B),
  (0xD574, 0xD081_D082),
  (0xD578, 0xD085),
  (0xD57C, 0xD089),
  (0xD584, 0xD091_D093),
  (0xD587, 0xD095_D096_D097),
  (0xD590, 0xD0A1),
  (0xD5A5, 0xD0B7),
  (0xD5AC, 0xD0C1),
  (0xD5C8, 0xD0E1_D0E2),
  (0xD5CC, 0xD0E5),
  (0xD5CF, 0xD0E8_D0E9),
  (0xD5D2, 0xD0EB),
  (0xD5D8, 0xD0F1_D0F3),
  (0xD5DB, 0xD0F5),
  (0xD5DD, 0xD0F7),
  (0xD5E4, 0xD141_D142),
  (0xD5E8, 0xD145),
  (0xD5EC, 0xD149),
  (0xD5F4, 0xD151_D153),
  (0xD5F7, 0xD155),
  (0xD5F9, 0xD157),
  (0xD600, 0xD161_D162),
  (0xD604, 0xD165),
  (0xD608, 0xD169),
  (0xD610, 0xD171_D173),
  (0xD613, 0xD175_D176_D177),
  (0xD61C, 0xD181),
  (0xD620, 0xD185),
  (0xD624, 0xD189),
  (0xD62C, 0xD191_D193),
  (0xD638, 0xD1A1_D1A2),
  (0xD63C, 0xD1A5),
  (0xD640, 0xD1A9),
  (0xD645, 0xD1AE),
  (0xD648, 0xD1B1_D1B3),
  (0xD64B, 0xD1B5),
  (0xD64D, 0xD1B7),
  (0xD651, 0xD1BB),
  (0xD654, 0xD1C1_D1C2),
  (0xD658, 0xD1C5),
  (0xD65C, 0xD1C9),
  (0xD667, 0xD1D5),
  (0xD669, 0xD1D7),
  (0xD670, 0xD1E1_D1E2),
  (0xD674, 0xD1E5),
  (0xD683, 0xD1F5),
  (0xD685, 0xD1F7),
  (0xD68C, 0xD241_D242),
  (0xD690, 0xD245),
  (0xD694, 0xD249),
  (0xD69D, 0xD253),
  (0xD69F, 0xD255),
  (0xD6A1, 0xD257),
  (0xD6A8, 0xD261_D262),
  (0xD6AC, 0xD265),
  (0xD6B0, 0xD269),
  (0xD6B8, 0xD271_D273),
  (0xD6BB, 0xD275),
  (0xD6C4, 0xD281_D282),
  (0xD6C8, 0xD285),
  (0xD6CC, 0xD289),
  (0xD6D1, 0xD28E),
  (0xD6D4, 0xD291_D293),
  (0xD6D7, 0xD295),
  (0xD6D9, 0xD297),
  (0xD6E0, 0xD2A1),
  (0xD6E4, 0xD2A5),
  (0xD6E8, 0xD2A9),
  (0xD6F0, 0xD2B1),
  (0xD6F5, 0xD2B7),
  (0xD6FC, 0xD2C1_D2C2),
  (0xD700, 0xD2C5),
  (0xD704, 0xD2C9),
  (0xD70C, 0xD2D1),
  (0xD711, 0xD2D7),
  (0xD718, 0xD2E1_D2E2),
  (0xD71C, 0xD2E5),
  (0xD720, 0xD2E9),
  (0xD728, 0xD2F1_D2F3),
  (0xD72B, 0xD2F5),
  (0xD72D, 0xD2F7),
  (0xD734, 0xD341_D342),
  (0xD738, 0xD345),
  (0xD73C, 0xD349),
  (0xD744, 0xD351),
  (0xD747, 0xD355),
  (0xD749, 0xD357),
  (0xD750, 0xD361_D362),
  (0xD754, 0xD365),
  (0xD756, 0xD367_D368_D369_D36A),
  (0xD760, 0xD371_D373),
  (0xD763, 0xD375),
  (0xD765, 0xD377),
  (0xD769, 0xD37B),
  (0xD76C, 0xD381_D382),
  (0xD770, 0xD385),
  (0xD774, 0xD389),
  (0xD77C, 0xD391_D393),
  (0xD781, 0xD397),
  (0xD788, 0xD3A1_D3A2),
  (0xD78C, 0xD3A5),
  (0xD790, 0xD3A9),
  (0xD798, 0xD3B1_D3B3),
  (0xD79B, 0xD3B5),
  (0xD79D, 0xD3B7),
  (0xE000, 0xD441_D442_D443_D444_D445_D446_D447_D448_D449_D44A_D44B_D44C),
  (0xE00C, 0xD44D_D44E_D44F_D450_D451_D452_D453_D454_D455_D456_D457_D458),
  (0xE018, 0xD459_D45A_D45B_D45C_D45D_D45E_D45F_D460_D461_D462_D463_D464),
  (0xE024, 0xD465_D466_D467_D468_D469_D46A_D46B_D46C_D46D_D46E_D46F_D470),
  (0xE030, 0xD471_D472_D473_D474_D475_D476_D477_D478_D479_D47A_D47B_D47C),
  (0xE03C, 0xD47D_D47E_D47F_D481_D482_D483_D484_D485_D486_D487_D488_D489),
  (0xE048, 0xD48A_D48B_D48C_D48D_D48E_D48F_D490_D491_D492_D493_D494_D495),
  (0xE054, 0xD496_D497_D498_D499_D49A_D49B_D49C_D49D_D49E_D49F_D4A0_D4A1),
  (0xE060, 0xD4A2_D4A3_D4A4_D4A5_D4A6_D4A7_D4A8_D4A9_D4AA_D4AB_D4AC_D4AD),
  (0xE06C, 0xD4AE_D4AF_D4B0_D4B1_D4B2_D4B3_D4B4_D4B5_D4B6_D4B7_D4B8_D4B9),
  (0xE078, 0xD4BA_D4BB_D4BC_D4BD_D4BE_D4BF_D4C0_D4C1_D4C2_D4C3_D4C4_D4C5),
  (0xE084, 0xD4C6_D4C7_D4C8_D4C9_D4CA_D4CB_D4CC_D4CD_D4CE_D4CF_D4D0_D4D1),
  (0xE090, 0xD4D2_D4D3_D4D4_D4D5_D4D6_D4D7_D4D8_D4D9_D4DA_D4DB_D4DC_D4DD),
  (0xE09C, 0xD4DE_D4DF_D4E0_D4E1_D4E2_D4E3_D4E4_D4E5_D4E6_D4E7_D4E8_D4E9),
  (0xE0A8, 0xD4EA_D4EB_D4EC_D4ED_D4EE_D4EF_D4F0_D4F1_D4F2_D4F3_D4F4_D4F5),
  (0xE0B4, 0xD4F6_D4F7_D4F8_D4F9_D4FA_D4FB_D4FC_D4FD_D541_D542_D543_D544),
  (0xE0C0, 0xD545_D546_D547_D548_D549_D54A_D54B_D54C_D54D_D54E_D54F_D550),
  (0xE0CC, 0xD551_D552_D553_D554_D555_D556_D557_D558_D559_D55A_D55B_D55C),
  (0xE0D8, 0xD55D_D55E_D55F_D560_D561_D562_D563_D564_D565_D566_D567_D568),
  (0xE0E4, 0xD569_D56A_D56B_D56C_D56D_D56E_D56F_D570_D571_D572_D573_D574),
  (0xE0F0, 0xD575_D576_D577_D578_D579_D57A_D57B_D57C_D57D_D57E_D57F_D581),
  (0xE0FC, 0xD582_D583_D584_D585_D586_D587_D588_D589_D58A_D58B_D58C_D58D),
  (0xE108, 0xD58E_D58F_D590_D591_D592_D593_D594_D595_D596_D597_D598_D599),
  (0xE114, 0xD59A_D59B_D59C_D59D_D59E_D59F_D5A0_D5A1_D5A2_D5A3_D5A4_D5A5),
  (0xE120, 0xD5A6_D5A7_D5A8_D5A9_D5AA_D5AB_D5AC_D5AD_D5AE_D5AF_D5B0_D5B1),
  (0xE12C, 0xD5B2_D5B3_D5B4_D5B5_D5B6_D5B7_D5B8_D5B9_D5BA_D5BB_D5BC_D5BD),
  (0xE138, 0xD5BE_D5BF_D5C0_D5C1_D5C2_D5C3_D5C4_D5C5_D5C6_D5C7_D5C8_D5C9),
  (0xE144, 0xD5CA_D5CB_D5CC_D5CD_D5CE_D5CF_D5D0_D5D1_D5D2_D5D3_D5D4_D5D5),
  (0xE150, 0xD5D6_D5D7_D5D8_D5D9_D5DA_D5DB_D5DC_D5DD_D5DE_D5DF_D5E0_D5E1),
  (0xE15C, 0xD5E2_D5E3_D5E4_D5E5_D5E6_D5E7_D5E8_D5E9_D5EA_D5EB_D5EC_D5ED),
  (0xE168, 0xD5EE_D5EF_D5F0_D5F1_D5F2_D5F3_D5F4_D5F5_D5F6_D5F7_D5F8_D5F9),
  (0xE174, 0xD5FA_D5FB_D5FC_D5FD_D641_D642_D643_D644_D645_D646_D647_D648),
  (0xE180, 0xD649_D64A_D64B_D64C_D64D_D64E_D64F_D650_D651_D652_D653_D654),
  (0xE18C, 0xD655_D656_D657_D658_D659_D65A_D65B_D65C_D65D_D65E_D65F_D660),
  (0xE198, 0xD661_D662_D663_D664_D665_D666_D667_D668_D669_D66A_D66B_D66C),
  (0xE1A4, 0xD66D_D66E_D66F_D670_D671_D672_D673_D674_D675_D676_D677_D678),
  (0xE1B0, 0xD679_D67A_D67B_D67C_D67D_D67E_D67F_D681_D682_D683_D684_D685),
  (0xE1BC, 0xD686_D687_D688_D689_D68A_D68B_D68C_D68D_D68E_D68F_D690_D691),
  (0xE1C8, 0xD692_D693_D694_D695_D696_D697_D698_D699_D69A_D69B_D69C_D69D),
  (0xE1D4, 0xD69E_D69F_D6A0_D6A1_D6A2_D6A3_D6A4_D6A5_D6A6_D6A7_D6A8_D6A9),
  (0xE1E0, 0xD6AA_D6AB_D6AC_D6AD_D6AE_D6AF_D6B0_D6B1_D6B2_D6B3_D6B4_D6B5),
  (0xE1EC, 0xD6B6_D6B7_D6B8_D6B9_D6BA_D6BB_D6BC_D6BD_D6BE_D6BF_D6C0_D6C1),
  (0xE1F8, 0xD6C2_D6C3_D6C4_D6C5_D6C6_D6C7_D6C8_D6C9_D6CA_D6CB_D6CC_D6CD),
  (0xE204, 0xD6CE_D6CF_D6D0_D6D1_D6D2_D6D3_D6D4_D6D5_D6D6_D6D7_D6D8_D6D9),
  (0xE210, 0xD6DA_D6DB_D6DC_D6DD_D6DE_D6DF_D6E0_D6E1_D6E2_D6E3_D6E4_D6E5),
  (0xE21C, 0xD6E6_D6E7_D6E8_D6E9_D6EA_D6EB_D6EC_D6ED_D6EE_D6EF_D6F0_D6F1),
  (0xE228, 0xD6F2_D6F3_D6F4_D6F5_D6F6_D6F7_D6F8_D6F9_D6FA_D6FB_D6FC_D6FD),
  (0xE234, 0xD741_D742_D743_D744_D745_D746_D747_D748_D749_D74A_D74B_D74C),
  (0xE240, 0xD74D_D74E_D74F_D750_D751_D752_D753_D754_D755_D756_D757_D758),
  (0xE24C, 0xD759_D75A_D75B_D75C_D75D_D75E_D75F_D760_D761_D762_D763_D764),
  (0xE258, 0xD765_D766_D767_D768_D769_D76A_D76B_D76C_D76D_D76E_D76F_D770),
  (0xE264, 0xD771_D772_D773_D774_D775_D776_D777_D778_D779_D77A_D77B_D77C),
  (0xE270, 0xD77D_D77E_D77F_D781_D782_D783_D784_D785_D786_D787_D788_D789),
  (0xE27C, 0xD78A_D78B_D78C_D78D_D78E_D78F_D790_D791_D792_D793_D794_D795),
  (0xE288, 0xD796_D797_D798_D799_D79A_D79B_D79C_D79D_D79E_D79F_D7A0_D7A1),
  (0xE294, 0xD7A2_D7A3_D7A4_D7A5_D7A6_D7A7_D7A8_D7A9_D7AA_D7AB_D7AC_D7AD),
  (0xE2A0, 0xD7AE_D7AF_D7B0_D7B1_D7B2_D7B3_D7B4_D7B5_D7B6_D7B7_D7B8_D7B9),
  (0xE2AC, 0xD7BA_D7BB_D7BC_D7BD_D7BE_D7BF_D7C0_D7C1_D7C2_D7C3_D7C4_D7C5),
  (0xE2B8, 0xD7C6_D7C7_D7C8_D7C9_D7CA_D7CB_D7CC_D7CD_D7CE_D7CF_D7D0_D7D1),
  (0xE2C4, 0xD7D2_D7D3_D7D4_D7D5_D7D6_D7D7_D7D8_D7D9_D7DA_D7DB_D7DC_D7DD),
  (0xE2D0, 0xD7DE_D7DF_D7E0_D7E1_D7E2_D7E3_D7E4_D7E5_D7E6_D7E7_D7E8_D7E9),
  (0xE2DC, 0xD7EA_D7EB_D7EC_D7ED_D7EE_D7EF_D7F0_D7F1_D7F2_D7F3_D7F4_D7F5),
  (0xE2E8, 0xD7F6_D7F7_D7F8_D7F9_D7FA_D7FB_D7FC_D7FD_D841_D842_D843_D844),
  (0xE2F4, 0xD845_D846_D847_D848_D849_D84A_D84B_D84C_D84D_D84E_D84F_D850),
  (0xE300, 0xD851_D852_D853_D854_D855_D856_D857_D858_D859_D85A_D85B_D85C),
  (0xE30C, 0xD85D_D85E_D85F_D860_D861_D862_D863_D864_D865_D866_D867_D868),
  (0xE318, 0xD869_D86A_D86B_D86C_D86D_D86E_D86F_D870_D871_D872_D873_D874),
  (0xE324, 0xD875_D876_D877_D878_D879_D87A_D87B_D87C_D87D_D87E_D87F_D881),
  (0xE330, 0xD882_D883_D884_D885_D886_D887_D888_D889_D88A_D88B_D88C_D88D),
  (0xE33C, 0xD88E_D88F_D890_D891_D892_D893_D894_D895_D896_D897_D898_D899),
  (0xE348, 0xD89A_D89B_D89C_D89D_D89E_D89F_D8A0_D8A1_D8A2_D8A3_D8A4_D8A5),
  (0xE354, 0xD8A6_D8A7_D8A8_D8A9_D8AA_D8AB_D8AC_D8AD_D8AE_D8AF_D8B0_D8B1),
  (0xE360, 0xD8B2_D8B3_D8B4_D8B5_D8B6_D8B7_D8B8_D8B9_D8BA_D8BB_D8BC_D8BD),
  (0xE36C, 0xD8BE_D8BF_D8C0_D8C1_D8C2_D8C3_D8C4_D8C5_D8C6_D8C7_D8C8_D8C9),
  (0xE378, 0xD8CA_D8CB_D8CC_D8CD_D8CE_D8CF_D8D0_D8D1_D8D2_D8D3_D8D4_D8D5),
  (0xE384, 0xD8D6_D8D7_D8D8_D8D9_D8DA_D8DB_D8DC_D8DD_D8DE_D8DF_D8E0_D8E1),
  (0xE390, 0xD8E2_D8E3_D8E4_D8E5_D8E6_D8E7_D8E8_D8E9_D8EA_D8EB_D8EC_D8ED),
  (0xE39C, 0xD8EE_D8EF_D8F0_D8F1_D8F2_D8F3_D8F4_D8F5_D8F6_D8F7_D8F8_D8F9),
  (0xE3A8, 0xD8FA_D8FB_D8FC_D8FD_D941_D942_D943_D944_D945_D946_D947_D948),
  (0xE3B4, 0xD949_D94A_D94B_D94C_D94D_D94E_D94F_D950_D951_D952_D953_D954),
  (0xE3C0, 0xD955_D956_D957_D958_D959_D95A_D95B_D95C_D95D_D95E_D95F_D960),
  (0xE3CC, 0xD961_D962_D963_D964_D965_D966_D967_D968_D969_D96A_D96B_D96C),
  (0xE3D8, 0xD96D_D96E_D96F_D970_D971_D972_D973_D974_D975_D976_D977_D978),
  (0xE3E4, 0xD979_D97A_D97B_D97C_D97D_D97E_D97F_D981_D982_D983_D984_D985),
  (0xE3F0, 0xD986_D987_D988_D989_D98A_D98B_D98C_D98D_D98E_D98F_D990_D991),
  (0xE3FC, 0xD992_D993_D994_D995_D996_D997_D998_D999_D99A_D99B_D99C_D99D),
  (0xE408, 0xD99E_D99F_D9A0_D9A1_D9A2_D9A3_D9A4_D9A5_D9A6_D9A7_D9A8_D9A9),
  (0xE414, 0xD9AA_D9AB_D9AC_D9AD_D9AE_D9AF_D9B0_D9B1_D9B2_D9B3_D9B4_D9B5),
  (0xE420, 0xD9B6_D9B7_D9B8_D9B9_D9BA_D9BB_D9BC_D9BD_D9BE_D9BF_D9C0_D9C1),
  (0xE42C, 0xD9C2_D9C3_D9C4_D9C5_D9C6_D9C7_D9C8_D9C9_D9CA_D9CB_D9CC_D9CD),
  (0xE438, 0xD9CE_D9CF_D9D0_D9D1_D9D2_D9D3_D9D4_D9D5_D9D6_D9D7_D9D8_D9D9),
  (0xE444, 0xD9DA_D9DB_D9DC_D9DD_D9DE_D9DF_D9E0_D9E1_D9E2_D9E3_D9E4_D9E5),
  (0xE450, 0xD9E6_D9E7_D9E8_D9E9_D9EA_D9EB_D9EC_D9ED_D9EE_D9EF_D9F0_D9F1),
  (0xE45C, 0xD9F2_D9F3_D9F4_D9F5_D9F6_D9F7_D9F8_D9F9_D9FA_D9FB_D9FC_D9FD),
  (0xE468, 0xDA41_DA42_DA43_DA44_DA45_DA46_DA47_DA48_DA49_DA4A_DA4B_DA4C),
  (0xE474, 0xDA4D_DA4E_DA4F_DA50_DA51_DA52_DA53_DA54_DA55_DA56_DA57_DA58),
  (0xE480, 0xDA59_DA5A_DA5B_DA5C_DA5D_DA5E_DA5F_DA60_DA61_DA62_DA63_DA64),
  (0xE48C, 0xDA65_DA66_DA67_DA68_DA69_DA6A_DA6B_DA6C_DA6D_DA6E_DA6F_DA70),
  (0xE498, 0xDA71_DA72_DA73_DA74_DA75_DA76_DA77_DA78_DA79_DA7A_DA7B_DA7C),
  (0xE4A4, 0xDA7D_DA7E_DA7F_DA81_DA82_DA83_DA84_DA85_DA86_DA87_DA88_DA89),
  (0xE4B0, 0xDA8A_DA8B_DA8C_DA8D_DA8E_DA8F_DA90_DA91_DA92_DA93_DA94_DA95),
  (0xE4BC, 0xDA96_DA97_DA98_DA99_DA9A_DA9B_DA9C_DA9D_DA9E_DA9F_DAA0_DAA1),
  (0xE4C8, 0xDAA2_DAA3_DAA4_DAA5_DAA6_DAA7_DAA8_DAA9_DAAA_DAAB_DAAC_DAAD),
  (0xE4D4, 0xDAAE_DAAF_DAB0_DAB1_DAB2_DAB3_DAB4_DAB5_DAB6_DAB7_DAB8_DAB9),
  (0xE4E0, 0xDABA_DABB_DABC_DABD_DABE_DABF_DAC0_DAC1_DAC2_DAC3_DAC4_DAC5),
  (0xE4EC, 0xDAC6_DAC7_DAC8_DAC9_DACA_DACB_DACC_DACD_DACE_DACF_DAD0_DAD1),
  (0xE4F8, 0xDAD2_DAD3_DAD4_DAD5_DAD6_DAD7_DAD8_DAD9_DADA_DADB_DADC_DADD),
  (0xE504, 0xDADE_DADF_DAE0_DAE1_DAE2_DAE3_DAE4_DAE5_DAE6_DAE7_DAE8_DAE9),
  (0xE510, 0xDAEA_DAEB_DAEC_DAED_DAEE_DAEF_DAF0_DAF1_DAF2_DAF3_DAF4_DAF5),
  (0xE51C, 0xDAF6_DAF7_DAF8_DAF9_DAFA_DAFB_DAFC_DAFD_DB41_DB42_DB43_DB44),
  (0xE528, 0xDB45_DB46_DB47_DB48_DB49_DB4A_DB4B_DB4C_DB4D_DB4E_DB4F_DB50),
  (0xE534, 0xDB51_DB52_DB53_DB54_DB55_DB56_DB57_DB58_DB59_DB5A_DB5B_DB5C),
  (0xE540, 0xDB5D_DB5E_DB5F_DB60_DB61_DB62_DB63_DB64_DB65_DB66_DB67_DB68),
  (0xE54C, 0xDB69_DB6A_DB6B_DB6C_DB6D_DB6E_DB6F_DB70_DB71_DB72_DB73_DB74),
  (0xE558, 0xDB75_DB76_DB77_DB78_DB79_DB7A_DB7B_DB7C_DB7D_DB7E_DB7F_DB81),
  (0xE564, 0xDB82_DB83_DB84_DB85_DB86_DB87_DB88_DB89_DB8A_DB8B_DB8C_DB8D),
  (0xE570, 0xDB8E_DB8F_DB90_DB91_DB92_DB93_DB94_DB95_DB96_DB97_DB98_DB99),
  (0xE57C, 0xDB9A_DB9B_DB9C_DB9D_DB9E_DB9F_DBA0_DBA1_DBA2_DBA3_DBA4_DBA5),
  (0xE588, 0xDBA6_DBA7_DBA8_DBA9_DBAA_DBAB_DBAC_DBAD_DBAE_DBAF_DBB0_DBB1),
  (0xE594, 0xDBB2_DBB3_DBB4_DBB5_DBB6_DBB7_DBB8_DBB9_DBBA_DBBB_DBBC_DBBD),
  (0xE5A0, 0xDBBE_DBBF_DBC0_DBC1_DBC2_DBC3_DBC4_DBC5_DBC6_DBC7_DBC8_DBC9),
  (0xE5AC, 0xDBCA_DBCB_DBCC_DBCD_DBCE_DBCF_DBD0_DBD1_DBD2_DBD3_DBD4_DBD5),
  (0xE5B8, 0xDBD6_DBD7_DBD8_DBD9_DBDA_DBDB_DBDC_DBDD_DBDE_DBDF_DBE0_DBE1),
  (0xE5C4, 0xDBE2_DBE3_DBE4_DBE5_DBE6_DBE7_DBE8_DBE9_DBEA_DBEB_DBEC_DBED),
  (0xE5D0, 0xDBEE_DBEF_DBF0_DBF1_DBF2_DBF3_DBF4_DBF5_DBF6_DBF7_DBF8_DBF9),
  (0xE5DC, 0xDBFA_DBFB_DBFC_DBFD_DC41_DC42_DC43_DC44_DC45_DC46_DC47_DC48),
  (0xE5E8, 0xDC49_DC4A_DC4B_DC4C_DC4D_DC4E_DC4F_DC50_DC51_DC52_DC53_DC54),
  (0xE5F4, 0xDC55_DC56_DC57_DC58_DC59_DC5A_DC5B_DC5C_DC5D_DC5E_DC5F_DC60),
  (0xE600, 0xDC61_DC62_DC63_DC64_DC65_DC66_DC67_DC68_DC69_DC6A_DC6B_DC6C),
  (0xE60C, 0xDC6D_DC6E_DC6F_DC70_DC71_DC72_DC73_DC74_DC75_DC76_DC77_DC78),
  (0xE618, 0xDC79_DC7A_DC7B_DC7C_DC7D_DC7E_DC7F_DC81_DC82_DC83_DC84_DC85),
  (0xE624, 0xDC86_DC87_DC88_DC89_DC8A_DC8B_DC8C_DC8D_DC8E_DC8F_DC90_DC91),
  (0xE630, 0xDC92_DC93_DC94_DC95_DC96_DC97_DC98_DC99_DC9A_DC9B_DC9C_DC9D),
  (0xE63C, 0xDC9E_DC9F_DCA0_DCA1_DCA2_DCA3_DCA4_DCA5_DCA6_DCA7_DCA8_DCA9),
  (0xE648, 0xDCAA_DCAB_DCAC_DCAD_DCAE_DCAF_DCB0_DCB1_DCB2_DCB3_DCB4_DCB5),
  (0xE654, 0xDCB6_DCB7_DCB8_DCB9_DCBA_DCBB_DCBC_DCBD_DCBE_DCBF_DCC0_DCC1),
  (0xE660, 0xDCC2_DCC3_DCC4_DCC5_DCC6_DCC7_DCC8_DCC9_DCCA_DCCB_DCCC_DCCD),
  (0xE66C, 0xDCCE_DCCF_DCD0_DCD1_DCD2_DCD3_DCD4_DCD5_DCD6_DCD7_DCD8_DCD9),
  (0xE678, 0xDCDA_DCDB_DCDC_DCDD_DCDE_DCDF_DCE0_DCE1_DCE2_DCE3_DCE4_DCE5),
  (0xE684, 0xDCE6_DCE7_DCE8_DCE9_DCEA_DCEB_DCEC_DCED_DCEE_DCEF_DCF0_DCF1),
  (0xE690, 0xDCF2_DCF3_DCF4_DCF5_DCF6_DCF7_DCF8_DCF9_DCFA_DCFB_DCFC_DCFD),
  (0xE69C, 0xDD41_DD42_DD43_DD44_DD45_DD46_DD47_DD48_DD49_DD4A_DD4B_DD4C),
  (0xE6A8, 0xDD4D_DD4E_DD4F_DD50_DD51_DD52_DD53_DD54_DD55_DD56_DD57_DD58),
  (0xE6B4, 0xDD59_DD5A_DD5B_DD5C_DD5D_DD5E_DD5F_DD60_DD61_DD62_DD63_DD64),
  (0xE6C0, 0xDD65_DD66_DD67_DD68_DD69_DD6A_DD6B_DD6C_DD6D_DD6E_DD6F_DD70),
  (0xE6CC, 0xDD71_DD72_DD73_DD74_DD75_DD76_DD77_DD78_DD79_DD7A_DD7B_DD7C),
  (0xE6D8, 0xDD7D_DD7E_DD7F_DD81_DD82_DD83_DD84_DD85_DD86_DD87_DD88_DD89),
  (0xE6E4, 0xDD8A_DD8B_DD8C_DD8D_DD8E_DD8F_DD90_DD91_DD92_DD93_DD94_DD95),
  (0xE6F0, 0xDD96_DD97_DD98_DD99_DD9A_DD9B_DD9C_DD9D_DD9E_DD9F_DDA0_DDA1),
  (0xE6FC, 0xDDA2_DDA3_DDA4_DDA5_DDA6_DDA7_DDA8_DDA9_DDAA_DDAB_DDAC_DDAD),
  (0xE708, 0xDDAE_DDAF_DDB0_DDB1_DDB2_DDB3_DDB4_DDB5_DDB6_DDB7_DDB8_DDB9),
  (0xE714, 0xDDBA_DDBB_DDBC_DDBD_DDBE_DDBF_DDC0_DDC1_DDC2_DDC3_DDC4_DDC5),
  (0xE720, 0xDDC6_DDC7_DDC8_DDC9_DDCA_DDCB_DDCC_DDCD_DDCE_DDCF_DDD0_DDD1),
  (0xE72C, 0xDDD2_DDD3_DDD4_DDD5_DDD6_DDD7_DDD8_DDD9_DDDA_DDDB_DDDC_DDDD),
  (0xE738, 0xDDDE_DDDF_DDE0_DDE1_DDE2_DDE3_DDE4_DDE5_DDE6_DDE7_DDE8_DDE9),
  (0xE744, 0xDDEA_DDEB_DDEC_DDED_DDEE_DDEF_DDF0_DDF1_DDF2_DDF3_DDF4_DDF5),
  (0xE750, 0xDDF6_DDF7_DDF8_DDF9_DDFA_DDFB_DDFC_DDFD),
  (0xF843, 0x505E_50D1_5181_5286_5384_539A_53BE_53CB_55B1_55CA_564C_578F),
  (0xF84F, 0x57FD_5869_58E3_58F5_5950_597C_599A_5A70_5A74_5A85_5A8C_5AA0),
  (0xF85B, 0x5AA5_5B5B_5B72_5BCE_5C4F_5CBC_5D4C_5D6B_616A_61F9_62C2_63AF),
  (0xF867, 0x63CC_63E2_6449_64C2_6590_65C5_6673_667F),
  (0xF900, 0x6855_50C1_50D0_51A9_51C0_51E2_6889_52D3_52E5_52FE_534A_689A),
  (0xF90C, 0x689B_689D_689E_689F_68A0_68A1_68A2_68A3_68A4_68A5_68A6_68A7),
  (0xF918, 0x68A8_68A9_68AA_68AB_68AC_68AD_68AE_68AF_68B0_68B1_68B5_68B6),
  (0xF924, 0x68B7_68B8_68B9_68BA_68BC_68BD_68BE_68BF_68C0_68C1_68C2_68C5),
  (0xF930, 0x68C6_68C7_68C8_68C9_68CA_68CB_68CC_68CD_68CE_68D0_68D1_68D2),
  (0xF93C, 0x68D3_68D4_68D5_68D6_68D7_68D8_68D9_68DA_68DB_68DC_68DD_68DE),
  (0xF948, 0x68DF_68E0_68E1_68E2_68E3_68E4_68E5_68E6_68E7_68E8_68EA_68EB),
  (0xF954, 0x68EC_68ED_68EE_68EF_68F0_68F1_54B5_6949_54D1_694A_694B_6950),
  (0xF960, 0x6955_55F7_6967_57E3_5842_5861_58C1_58F3_5953_59C3_59C6_59D8),
  (0xF96C, 0x5A4A_5A51_5AB8_5AD0_5B4B_5C49_5C53_5C5B_5CC1_69EE_69EF_69F1),
  (0xF978, 0x69F2_69F3_69F4_69F6_69F7_69F8_69F9_69FE_6A41_6A42_6A43_6A44),
  (0xF984, 0x6A45_6A48_6A4D_6A4E_6A4F_6A50_6A51_6A52_6A53_6A54_6A55_6A56),
  (0xF990, 0x6A57_5D5B_6A5A_6A5B_6A5C_6A5D_6A5E_6A60_6A61_6A62_6A63_6A64),
  (0xF99C, 0x6A65_6A66_5D73_6A67_6A68_5D77_6A69_6A6A_6A6B_6A6C_6A6E_6A6F),
  (0xF9A8, 0x6A70_6A71_6A72_6A73_6A75_6A7B_5D94_6A7D_6A7E_6A7F_6A81_6A83),
  (0xF9B4, 0x6A84_6A86_6A89_6A8A_6A8B_5DBA_6A9E_6A9F_6AA1_6AA2_6AA4_5E4B),
  (0xF9C0, 0x6AA5_6AA7_6AA8_6AA9_6AB1_5E94_6AC4_6AC8_6AC9_6ACA_6ACD_6ACE),
  (0xF9CC, 0x6AD0_6AD1_6AD2_6AD3_6AD4_6AD5_6AD7_6AD8_6AD9_6ADA_6ADB_6ADD),
  (0xF9D8, 0x6ADF_6AE0_6AE1_6AE2_6AE4_6AE7_6AE8_6AE9_5F87_6AEA_6AEB_6AEC),
  (0xF9E4, 0x6AED_6AEE_6AEF_6AF2_6AF3_6AF6_6AF7_6AF8_6AF9_6AFB_6AFC_6AFD),
  (0xF9F0, 0x6B42_6B44_6B45_6B46_6B49_6B4A_6B4B_6B4D_6B4E_6B4F_604A_6B5B),
  (0xF9FC, 0x6269_6B8A_62AB_62FD_6385_648E_6491_6BB5_64BF_64CB_6BBC_6BC0),
  (0xFA08, 0x6BCD_65EB_666A_66E0),
  (0xFF01, 0x425A_427F_427B_425B_426C_4250_427D_424D_425D_425C_424E_426B),
  (0xFF0D, 0x4260_424B_4261_42F0_42F1_42F2_42F3_42F4_42F5_42F6_42F7_42F8),
  (0xFF19, 0x42F9_427A_425E_424C_427E_426E_426F_427C_42C1_42C2_42C3_42C4),
  (0xFF25, 0x42C5_42C6_42C7_42C8_42C9_42D1_42D2_42D3_42D4_42D5_42D6_42D7),
  (0xFF31, 0x42D8_42D9_42E2_42E3_42E4_42E5_42E6_42E7_42E8_42E9_418B_414B),
  (0xFF3D, 0x418C_416A_426D_4279_4281_4282_4283_4284_4285_4286_4287_4288),
  (0xFF49, 0x4289_4291_4292_4293_4294_4295_4296_4297_4298_4299_42A2_42A3),
  (0xFF55, 0x42A4_42A5_42A6_42A7_42A8_42A9_42C0_424F_42D0_4954),
  (0xFFA0, 0x0042_0043_0044_0045_0046_0047_0048_0049_0052_0053_0054_0055),
  (0xFFAC, 0x0056_0057_0058_0059_0062_0063_0064_0065_0066_0067_0068_0069),
  (0xFFB8, 0x0072_0073_0074_0075_0076_0077_0078),
  (0xFFC2, 0x008A_008B_008C_008D_008E_008F),
  (0xFFCA, 0x009A_009B_009C_009D_009E_009F),
  (0xFFD2, 0x00AA_00AB_00AC_00AD_00AE_00AF),
  (0xFFDA, 0x00BA_00BB_00BC),
  (0xFFE0, 0x424A_416B_425F_414C_426A_416C_42E0)]

/-- The codes of IBM-933 that are not what their character is written as. -/
def lost933 : List Nat := [
  ]

/-- The characters that are written in IBM-933 with the code of another character. -/
def alt933 : List Nat := [
  0xAD, 0xB7, 0x2015, 0x25C9, 0x301C, 0xFF5E]

/-- IBM-933 -/
def ibm933 : Charset where
  reads := single933 ++ double933
  writes := writes933

/-- The lines of /repo/modules/from/IBM-935.txt with one byte (those that call the callback): code, character; sorted.  Of several lines for one code only the
first is kept, which is the one that counts (C50). -/
def single935 : Chart := Chart.wide [
  (0x1, 0x0001_0002_0003_009C_0009_0086_007F_0097_008D_008E_000B_000C),
  (0xD, 0x000D_000E_000F_0010_0011_0012_0013_009D_0085_0008_0087_0018),
  (0x19, 0x0019_0092_008F_001C_001D_001E_001F_0080_0081_0082_0083_0084),
  (0x25, 0x000A_0017_001B_0088_0089_008A_008B_008C_0005_0006_0007_0090),
  (0x31, 0x0091_0016_0093_0094_0095_0096_0004_0098_0099_009A_009B_0014),
  (0x3D, 0x0015_009E_001A_0020),
  (0x4A, 0x00A3_002E_003C_0028_002B_007C_0026),
  (0x5A, 0x0021_00A5_002A_0029_003B_00AC_002D_002F),
  (0x6A, 0x00A6_002C_0025_005F_003E_003F),
  (0x79, 0x0060_003A_0023_0040_0027_003D_0022),
  (0x81, 0x0061_0062_0063_0064_0065_0066_0067_0068_0069),
  (0x91, 0x006A_006B_006C_006D_006E_006F_0070_0071_0072),
  (0xA0, 0x007E_203E_0073_0074_0075_0076_0077_0078_0079_007A),
  (0xB0, 0x005E),
  (0xB2, 0x005C),
  (0xBA, 0x005B_005D),
  (0xC0, 0x007B_0041_0042_0043_0044_0045_0046_0047_0048_0049),
  (0xD0, 0x007D_004A_004B_004C_004D_004E_004F_0050_0051_0052),
  (0xE0, 0x0024),
  (0xE2, 0x0053_0054_0055_0056_0057_0058_0059_005A),
  (0xF0, 0x0030_0031_0032_0033_0034_0035_0036_0037_0038_0039),
  (0xFF, 0x009F)]

/-- The lines of /repo/modules/from/IBM-935.txt with two bytes: code, character; sorted.  Of several lines for one code only the
first is kept, which is the one that counts (C50). -/
def double935 : Chart := Chart.wide [
  (0x4040, 0x3000),
  (0x4141, 0x03B1_03B2_03B3_03B4_03B5_03B6_03B7_03B8_03B9_03BA_03BB_03BC),
  (0x414D, 0x03BD_03BE_03BF_03C0_03C1_03C3_03C4_03C5_03C6_03C7_03C8_03C9),
  (0x4161, 0x0391_0392_0393_0394_0395_0396_0397_0398_0399_039A_039B_039C),
  (0x416D, 0x039D_039E_039F_03A0_03A1_03A3_03A4_03A5_03A6_03A7_03A8_03A9),
  (0x4180, 0x0430_0431_0432_0433_0434_0435_0451_0436_0437_0438_0439_043A),
  (0x418C, 0x043B_043C_043D_043E_043F_0440_0441_0442_0443_0444_0445_0446),
  (0x4198, 0x0447_0448_0449_044A_044B_044C_044D_044E_044F),
  (0x41B1, 0x2170_2171_2172_2173_2174_2175_2176_2177_2178_2179),
  (0x41C0, 0x0410_0411_0412_0413_0414_0415_0401_0416_0417_0418_0419_041A),
  (0x41CC, 0x041B_041C_041D_041E_041F_0420_0421_0422_0423_0424_0425_0426),
  (0x41D8, 0x0427_0428_0429_042A_042B_042C_042D_042E_042F),
  (0x41F1, 0x2160_2161_2162_2163_2164_2165_2166_2167_2168_2169_216A_216B),
  (0x424A, 0xFFE1_FF0E_FF1C_FF08_FF0B_FF5C_FF06),
  (0x425A, 0xFF01_FFE5_FF0A_FF09_FF1B_FFE2_FF0D_FF0F),
  (0x426A, 0xFFE4_FF0C_FF05_FF3F_FF1E_FF1F),
  (0x4279, 0xFF40_FF1A_FF03_FF20_FF07_FF1D_FF02),
  (0x4281, 0xFF41_FF42_FF43_FF44_FF45_FF46_FF47_FF48_FF49),
  (0x4291, 0xFF4A_FF4B_FF4C_FF4D_FF4E_FF4F_FF50_FF51_FF52),
  (0x42A1, 0xFFE3_FF53_FF54_FF55_FF56_FF57_FF58_FF59_FF5A),
  (0x42C0, 0xFF5B_FF21_FF22_FF23_FF24_FF25_FF26_FF27_FF28_FF29),
  (0x42D0, 0xFF5D_FF2A_FF2B_FF2C_FF2D_FF2E_FF2F_FF30_FF31_FF32),
  (0x42E0, 0xFF04),
  (0x42E2, 0xFF33_FF34_FF35_FF36_FF37_FF38_FF39_FF3A),
  (0x42F0, 0xFF10_FF11_FF12_FF13_FF14_FF15_FF16_FF17_FF18_FF19),
  (0x4341, 0x3002_300C_300D_3001_30FB_30F2_30A1_30A3_30A5_FFE0),
  (0x4351, 0x30A7_30A9_30E3_30E5_30E7_30C3_30EE_30FC_30F5_30F6_F83D),
  (0x4381, 0x30A2_30A4_30A6_30A8_30AA_30AB_30AD_30AF_30B1_30B3),
  (0x438C, 0x30B5_30B7_30B9_30BB_30BD_30BF_30C1_30C4_30C6_30C8_30CA_30CB),
  (0x4398, 0x30CC_30CD_30CE),
  (0x439D, 0x30CF_30D2_30D5),
  (0x43A1, 0xFF5E_30D8_30DB_30DE_30DF_30E0_30E1_30E2_30E4_30E6),
  (0x43AC, 0x30E8_30E9_30EA_30EB),
  (0x43BA, 0x30EC_30ED_30EF_30F3_309B_309C_30AC_30AE_30B0_30B2_30B4_30B6),
  (0x43C6, 0x30B8_30BA_30BC_30BE_30C0_30C2_30C5_30C7_30C9_30D0_30D3_30D6),
  (0x43D2, 0x30D9_30DC_30F4_30D1_30D4_30D7_30DA_30DD_30F0_30F1_30FD_30FE),
  (0x43E0, 0xFF3C),
  (0x4442, 0x300E_300F_FF3B_FF3D_3092_3041_3043_3045_2014_00B1_2260_221E),
  (0x444E, 0x2103),
  (0x4450, 0x00B4_3047_3049_3083_3085_3087_3063_308E),
  (0x445A, 0x2010_3003_F83E_3005_3006_3007_00A8_2018_201C_3014_3008_300A),
  (0x4466, 0x3010_2264_2234_2642_00A7_203B_3012_3231_2116_2121_FF3E_2019),
  (0x4472, 0x201D_3015_3009_300B_3011_2265_2235_2640_00D7_00F7_2016_3013),
  (0x447E, 0x2025_2026),
  (0x4481, 0x3042_3044_3046_3048_304A_304B_304D_304F_3051_3053),
  (0x448C, 0x3055_3057_3059_305B_305D_305F_3061_3064_3066_3068_306A_306B),
  (0x4498, 0x306C_306D_306E),
  (0x449D, 0x306F_3072_3075),
  (0x44A2, 0x3078_307B_307E_307F_3080_3081_3082_3084_3086),
  (0x44AC, 0x3088_3089_308A_308B),
  (0x44BA, 0x308C_308D_308F_3093),
  (0x44C0, 0x304C_304E_3050_3052_3054_3056_3058_305A_305C_305E_3060_3062),
  (0x44CC, 0x3065_3067_3069_3070_3073_3076_3079_307C),
  (0x44D5, 0x3071_3074_3077_307A_307D_3090_3091_309D_309E),
  (0x44E0, 0x25CB_25CF_25B3_25B2_25CE_2606_2605_25C7_25C6_25A1_25A0_25BD),
  (0x44EC, 0x25BC_00B0_2032_2033_2192_2190_2191_2193),
  (0x4545, 0x02C9_02C7),
  (0x455B, 0x3016_3017),
  (0x4562, 0x2236_2227_2228_2211_220F_222A_2229_2208_2237_221A_22A5_2225),
  (0x456E, 0x2220_2312_2299_222B_222E_2261_224C_2248_223D_221D),
  (0x4579, 0x226E_226F),
  (0x4588, 0x00A4),
  (0x458B, 0x2030),
  (0x45B1, 0x2488_2489_248A_248B_248C_248D_248E_248F_2490_2491_2492_2493),
  (0x45BD, 0x2494_2495_2496_2497_2498_2499_249A_249B_2474_2475_2476_2477),
  (0x45C9, 0x2478_2479_247A_247B_247C_247D_247E_247F_2480_2481_2482_2483),
  (0x45D5, 0x2484_2485_2486_2487),
  (0x45E1, 0x2460_2461_2462_2463_2464_2465_2466_2467_2468_2469),
  (0x45F1, 0x3220_3221_3222_3223_3224_3225_3226_3227_3228_3229),
  (0x4641, 0x0101_00E1_01CE_00E0_0113_00E9_011B_00E8_012B_00ED_01D0_00EC),
  (0x464D, 0x014D_00F3_01D2_00F2_016B_00FA_01D4_00F9_01D6_01D8_01DA_01DC),
  (0x4659, 0x00FC_00EA),
  (0x4665, 0x3105_3106_3107_3108_3109_310A_310B_310C_310D_310E_310F_3110),
  (0x4671, 0x3111_3112_3113_3114_3115_3116_3117_3118_3119_311A_311B_311C),
  (0x467D, 0x311D_311E_311F_3120_3121_3122_3123_3124_3125_3126_3127_3128),
  (0x4689, 0x3129),
  (0x46A4, 0x2500_2501_2502_2503_2504_2505_2506_2507_2508_2509_250A_250B),
  (0x46B0, 0x250C_250D_250E_250F_2510_2511_2512_2513_2514_2515_2516_2517),
  (0x46BC, 0x2518_2519_251A_251B_251C_251D_251E_251F_2520_2521_2522_2523),
  (0x46C8, 0x2524_2525_2526_2527_2528_2529_252A_252B_252C_252D_252E_252F),
  (0x46D4, 0x2530_2531_2532_2533_2534_2535_2536_2537_2538_2539_253A_253B),
  (0x46E0, 0x253C_253D_253E_253F_2540_2541_2542_2543_2544_2545_2546_2547),
  (0x46EC, 0x2548_2549_254A_254B),
  (0x48A0, 0x554A_963F_57C3_6328_54CE_5509_54C0_7691_764C_853C_77EE_827E),
  (0x48AC, 0x788D_7231_9698_978D_6C28_5B89_4FFA_6309_6697_5CB8_80FA_6848),
  (0x48B8, 0x80AE_6602_76CE_51F9_6556_71AC_7FF1_8884_50B2_5965_61CA_6FB3),
  (0x48C4, 0x82AD_634C_6252_53ED_5427_7B06_516B_75A4_5DF4_62D4_8DCB_9776),
  (0x48D0, 0x628A_8019_575D_9738_7F62_7238_767D_67CF_767E_6446_4F70_8D25),
  (0x48DC, 0x62DC_7A17_6591_73ED_642C_6273_822C_9881_677F_7248_626E_62CC),
  (0x48E8, 0x4F34_74E3_534A_529E_7ECA_90A6_5E2E_6886_699C_8180_7ED1_68D2),
  (0x48F4, 0x78C5_868C_9551_508D_8C24_82DE_80DE_5305_8912_5265),
  (0x4941, 0x8584_96F9_4FDD_5821_9971_5B9D_62B1_62A5_66B4_8C79_9C8D_7206),
  (0x494D, 0x676F_7891_60B2_5351_5317_8F88_80CC_8D1D_94A1_500D_72C8_5907),
  (0x4959, 0x60EB_7119_88AB_5954_82EF_672C_7B28_5D29_7EF7_752D_6CF5_8E66),
  (0x4965, 0x8FF8_903C_9F3B_6BD4_9119_7B14_5F7C_78A7_84D6_853D_6BD5_6BD9),
  (0x4971, 0x6BD6_5E01_5E87_75F9_95ED_655D_5F0A_5FC5_8F9F_58C1_81C2_907F),
  (0x497D, 0x965B_97AD_8FB9),
  (0x4981, 0x7F16_8D2C_6241_4FBF_53D8_535E_8FA8_8FA9_8FAB_904D_6807_5F6A),
  (0x498D, 0x8198_8868_9CD6_618B_522B_762A_5F6C_658C_6FD2_6EE8_5BBE_6448),
  (0x4999, 0x5175_51B0_67C4_4E19_79C9_997C_70B3_75C5_5E76_73BB_83E0_64AD),
  (0x49A5, 0x62E8_94B5_6CE2_535A_52C3_640F_94C2_7B94_4F2F_5E1B_8236_8116),
  (0x49B1, 0x818A_6E24_6CCA_9A73_6355_535C_54FA_8865_57E0_4E0D_5E03_6B65),
  (0x49BD, 0x7C3F_90E8_6016_64E6_731C_88C1_6750_624D_8D22_776C_8E29_91C7),
  (0x49C9, 0x5F69_83DC_8521_9910_53C2_8695_6B8B_60ED_60E8_707F_82CD_8231),
  (0x49D5, 0x4ED3_6CA7_85CF_64CD_7CD9_69FD_66F9_8349_5395_7B56_4FA7_518C),
  (0x49E1, 0x6D4B_5C42_8E6D_63D2_53C9_832C_8336_67E5_78B4_643D_5BDF_5C94),
  (0x49ED, 0x5DEE_8BE7_62C6_67F4_8C7A_6400_63BA_8749_998B_8C17_7F20_94F2),
  (0x49F9, 0x4EA7_9610_98A4_660C_7316),
  (0x4A41, 0x573A_5C1D_5E38_957F_507F_80A0_5382_655E_7545_5531_5021_8D85),
  (0x4A4D, 0x6284_949E_671D_5632_6F6E_5DE2_5435_7092_8F66_626F_64A4_63A3),
  (0x4A59, 0x5F7B_6F88_90F4_81E3_8FB0_5C18_6668_5FF1_6C89_9648_8D81_886C),
  (0x4A65, 0x6491_79F0_57CE_6A59_6210_5448_4E58_7A0B_60E9_6F84_8BDA_627F),
  (0x4A71, 0x901E_9A8B_79E4_5403_75F4_6301_5319_6C60_8FDF_5F1B_9A70_803B),
  (0x4A7D, 0x9F7F_4F88_5C3A),
  (0x4A81, 0x8D64_7FC5_65A5_70BD_5145_51B2_866B_5D07_5BA0_62BD_916C_7574),
  (0x4A8D, 0x8E0C_7A20_6101_7B79_4EC7_7EF8_7785_4E11_81ED_521D_51FA_6A71),
  (0x4A99, 0x53A8_8E87_9504_96CF_6EC1_9664_695A_7840_50A8_77D7_6410_89E6),
  (0x4AA5, 0x5904_63E3_5DDD_7A7F_693D_4F20_8239_5598_4E32_75AE_7A97_5E62),
  (0x4AB1, 0x5E8A_95EF_521B_5439_708A_6376_9524_5782_6625_693F_9187_5507),
  (0x4ABD, 0x6DF3_7EAF_8822_6233_7EF0_75B5_8328_78C1_96CC_8F9E_6148_74F7),
  (0x4AC9, 0x8BCD_6B64_523A_8D50_6B21_806A_8471_56F1_5306_4ECE_4E1B_51D1),
  (0x4AD5, 0x7C97_918B_7C07_4FC3_8E7F_7BE1_7A9C_6467_5D14_50AC_8106_7601),
  (0x4AE1, 0x7CB9_6DEC_7FE0_6751_5B58_5BF8_78CB_64AE_6413_63AA_632B_9519),
  (0x4AED, 0x642D_8FBE_7B54_7629_6253_5927_5446_6B79_50A3_6234_5E26_6B86),
  (0x4AF9, 0x4EE3_8D37_888B_5F85_902E),
  (0x4B41, 0x6020_803D_62C5_4E39_5355_90F8_63B8_80C6_65E6_6C2E_4F46_60EE),
  (0x4B4D, 0x6DE1_8BDE_5F39_86CB_5F53_6321_515A_8361_6863_5200_6363_8E48),
  (0x4B59, 0x5012_5C9B_7977_5BFC_5230_7A3B_60BC_9053_76D7_5FB7_5F97_7684),
  (0x4B65, 0x8E6C_706F_767B_7B49_77AA_51F3_9093_5824_4F4E_6EF4_8FEA_654C),
  (0x4B71, 0x7B1B_72C4_6DA4_7FDF_5AE1_62B5_5E95_5730_8482_7B2C_5E1D_5F1F),
  (0x4B7D, 0x9012_7F14_98A0),
  (0x4B81, 0x6382_6EC7_7898_70B9_5178_975B_57AB_7535_4F43_7538_5E97_60E6),
  (0x4B8D, 0x5960_6DC0_6BBF_7889_53FC_96D5_51CB_5201_6389_540A_9493_8C03),
  (0x4B99, 0x8DCC_7239_789F_8776_8FED_8C0D_53E0_4E01_76EF_53EE_9489_9876),
  (0x4BA5, 0x9F0E_952D_5B9A_8BA2_4E22_4E1C_51AC_8463_61C2_52A8_680B_4F97),
  (0x4BB1, 0x606B_51BB_6D1E_515C_6296_6597_9661_8C46_9017_75D8_90FD_7763),
  (0x4BBD, 0x6BD2_728A_72EC_8BFB_5835_7779_8D4C_675C_9540_809A_5EA6_6E21),
  (0x4BC9, 0x5992_7AEF_77ED_953B_6BB5_65AD_7F0E_5806_5151_961F_5BF9_58A9),
  (0x4BD5, 0x5428_8E72_6566_987F_56E4_949D_76FE_9041_6387_54C6_591A_593A),
  (0x4BE1, 0x579B_8EB2_6735_8DFA_8235_5241_60F0_5815_86FE_5CE8_9E45_4FC4),
  (0x4BED, 0x989D_8BB9_5A25_6076_5384_627C_904F_9102_997F_6069_800C_513F),
  (0x4BF9, 0x8033_5C14_9975_6D31_4E8C),
  (0x4C41, 0x8D30_53D1_7F5A_7B4F_4F10_4E4F_9600_6CD5_73D0_85E9_5E06_756A),
  (0x4C4D, 0x7FFB_6A0A_77FE_9492_7E41_51E1_70E6_53CD_8FD4_8303_8D29_72AF),
  (0x4C59, 0x996D_6CDB_574A_82B3_65B9_80AA_623F_9632_59A8_4EFF_8BBF_7EBA),
  (0x4C65, 0x653E_83F2_975E_5561_98DE_80A5_532A_8BFD_5420_80BA_5E9F_6CB8),
  (0x4C71, 0x8D39_82AC_915A_5429_6C1B_5206_7EB7_575F_711A_6C7E_7C89_594B),
  (0x4C7D, 0x4EFD_5FFF_6124),
  (0x4C81, 0x7CAA_4E30_5C01_67AB_8702_5CF0_950B_98CE_75AF_70FD_9022_51AF),
  (0x4C8D, 0x7F1D_8BBD_5949_51E4_4F5B_5426_592B_6577_80A4_5B75_6276_62C2),
  (0x4C99, 0x8F90_5E45_6C1F_7B26_4F0F_4FD8_670D_6D6E_6DAA_798F_88B1_5F17),
  (0x4CA5, 0x752B_629A_8F85_4FEF_91DC_65A7_812F_8151_5E9C_8150_8D74_526F),
  (0x4CB1, 0x8986_8D4B_590D_5085_4ED8_961C_7236_8179_8D1F_5BCC_8BA3_9644),
  (0x4CBD, 0x5987_7F1A_5490_5676_560E_8BE5_6539_6982_9499_76D6_6E89_5E72),
  (0x4CC9, 0x7518_6746_67D1_7AFF_809D_8D76_611F_79C6_6562_8D63_5188_521A),
  (0x4CD5, 0x94A2_7F38_809B_7EB2_5C97_6E2F_6760_7BD9_768B_9AD8_818F_7F94),
  (0x4CE1, 0x7CD5_641E_9550_7A3F_544A_54E5_6B4C_6401_6208_9E3D_80F3_7599),
  (0x4CED, 0x5272_9769_845B_683C_86E4_9601_9694_94EC_4E2A_5404_7ED9_6839),
  (0x4CF9, 0x8DDF_8015_66F4_5E9A_7FB9),
  (0x4D41, 0x57C2_803F_6897_5DE5_653B_529F_606D_9F9A_4F9B_8EAC_516C_5BAB),
  (0x4D4D, 0x5F13_5DE9_6C5E_62F1_8D21_5171_94A9_52FE_6C9F_82DF_72D7_57A2),
  (0x4D59, 0x6784_8D2D_591F_8F9C_83C7_5495_7B8D_4F30_6CBD_5B64_59D1_9F13),
  (0x4D65, 0x53E4_86CA_9AA8_8C37_80A1_6545_987E_56FA_96C7_522E_74DC_5250),
  (0x4D71, 0x5BE1_6302_8902_4E56_62D0_602A_68FA_5173_5B98_51A0_89C2_7BA1),
  (0x4D7D, 0x9986_7F50_60EF),
  (0x4D81, 0x704C_8D2F_5149_5E7F_901B_7470_89C4_572D_7845_5F52_9F9F_95FA),
  (0x4D8D, 0x8F68_9B3C_8BE1_7678_6842_67DC_8DEA_8D35_523D_8F8A_6EDA_68CD),
  (0x4D99, 0x9505_90ED_56FD_679C_88F9_8FC7_54C8_9AB8_5B69_6D77_6C26_4EA5),
  (0x4DA5, 0x5BB3_9A87_9163_61A8_90AF_97E9_542B_6DB5_5BD2_51FD_558A_7F55),
  (0x4DB1, 0x7FF0_64BC_634D_65F1_61BE_608D_710A_6C57_6C49_592F_676D_822A),
  (0x4DBD, 0x58D5_568E_8C6A_6BEB_90DD_597D_8017_53F7_6D69_5475_559D_8377),
  (0x4DC9, 0x83CF_6838_79BE_548C_4F55_5408_76D2_8C89_9602_6CB3_6DB8_8D6B),
  (0x4DD5, 0x8910_9E64_8D3A_563F_9ED1_75D5_5F88_72E0_6068_54FC_4EA8_6A2A),
  (0x4DE1, 0x8861_6052_8F70_54C4_70D8_8679_9E3F_6D2A_5B8F_5F18_7EA2_5589),
  (0x4DED, 0x4FAF_7334_543C_539A_5019_540E_547C_4E4E_5FFD_745A_58F6_846B),
  (0x4DF9, 0x80E1_8774_72D0_7CCA_6E56),
  (0x4E41, 0x5F27_864E_552C_62A4_4E92_6CAA_6237_82B1_54D7_534E_733E_6ED1),
  (0x4E4D, 0x753B_5212_5316_8BDD_69D0_5F8A_6000_6DEE_574F_6B22_73AF_6853),
  (0x4E59, 0x8FD8_7F13_6362_60A3_5524_75EA_8C62_7115_6DA3_5BA6_5E7B_8352),
  (0x4E65, 0x614C_9EC4_78FA_8757_7C27_7687_51F0_60F6_714C_6643_5E4C_604D),
  (0x4E71, 0x8C0E_7070_6325_8F89_5FBD_6062_86D4_56DE_6BC1_6094_6167_5349),
  (0x4E7D, 0x60E0_6666_8D3F),
  (0x4E81, 0x79FD_4F1A_70E9_6C47_8BB3_8BF2_7ED8_8364_660F_5A5A_9B42_6D51),
  (0x4E8D, 0x6DF7_8C41_6D3B_4F19_706B_83B7_6216_60D1_970D_8D27_7978_51FB),
  (0x4E99, 0x573E_57FA_673A_7578_7A3D_79EF_7B95_808C_9965_8FF9_6FC0_8BA5),
  (0x4EA5, 0x9E21_59EC_7EE9_7F09_5409_6781_68D8_8F91_7C4D_96C6_53CA_6025),
  (0x4EB1, 0x75BE_6C72_5373_5AC9_7EA7_6324_51E0_810A_5DF1_84DF_6280_5180),
  (0x4EBD, 0x5B63_4F0E_796D_5242_60B8_6D4E_5BC4_5BC2_8BA1_8BB0_65E2_5FCC),
  (0x4EC9, 0x9645_5993_7EE7_7EAA_5609_67B7_5939_4F73_5BB6_52A0_835A_988A),
  (0x4ED5, 0x8D3E_7532_94BE_5047_7A3C_4EF7_67B6_9A7E_5AC1_6B7C_76D1_575A),
  (0x4EE1, 0x5C16_7B3A_95F4_714E_517C_80A9_8270_5978_7F04_8327_68C0_67EC),
  (0x4EED, 0x78B1_7877_62E3_6361_7B80_4FED_526A_51CF_8350_69DB_9274_8DF5),
  (0x4EF9, 0x8D31_89C1_952E_7BAD_4EF6),
  (0x4F41, 0x5065_8230_5251_996F_6E10_6E85_6DA7_5EFA_50F5_59DC_5C06_6D46),
  (0x4F4D, 0x6C5F_7586_848B_6868_5956_8BB2_5320_9171_964D_8549_6912_7901),
  (0x4F59, 0x7126_80F6_4EA4_90CA_6D47_9A84_5A07_56BC_6405_94F0_77EB_4FA5),
  (0x4F65, 0x811A_72E1_89D2_997A_7F34_7EDE_527F_6559_9175_8F7F_8F83_53EB),
  (0x4F71, 0x7A96_63ED_63A5_7686_79F8_8857_9636_622A_52AB_8282_6854_6770),
  (0x4F7D, 0x6377_776B_7AED),
  (0x4F81, 0x6D01_7ED3_89E3_59D0_6212_85C9_82A5_754C_501F_4ECB_75A5_8BEB),
  (0x4F8D, 0x5C4A_5DFE_7B4B_65A4_91D1_4ECA_6D25_895F_7D27_9526_4EC5_8C28),
  (0x4F99, 0x8FDB_9773_664B_7981_8FD1_70EC_6D78_5C3D_52B2_8346_5162_830E),
  (0x4FA5, 0x775B_6676_9CB8_4EAC_60CA_7CBE_7CB3_7ECF_4E95_8B66_666F_9888),
  (0x4FB1, 0x9759_5883_656C_955C_5F84_75C9_9756_7ADF_7ADE_51C0_70AF_7A98),
  (0x4FBD, 0x63EA_7A76_7EA0_7396_97ED_4E45_7078_4E5D_9152_53A9_6551_65E7),
  (0x4FC9, 0x81FC_8205_548E_5C31_759A_97A0_62D8_72D9_75BD_5C45_9A79_83CA),
  (0x4FD5, 0x5C40_5480_77E9_4E3E_6CAE_805A_62D2_636E_5DE8_5177_8DDD_8E1E),
  (0x4FE1, 0x952F_4FF1_53E5_60E7_70AC_5267_6350_9E43_5A1F_5026_7737_5377),
  (0x4FED, 0x7EE2_6485_652B_6289_6398_5014_7235_89C9_51B3_8BC0_7EDD_5747),
  (0x4FF9, 0x83CC_94A7_519B_541B_5CFB),
  (0x5041, 0x4FCA_7AE3_6D5A_90E1_9A8F_5580_5496_5361_54AF_5F00_63E9_6977),
  (0x504D, 0x51EF_6168_520A_582A_52D8_574E_780D_770B_5EB7_6177_7CE0_625B),
  (0x5059, 0x6297_4EA2_7095_8003_62F7_70E4_9760_5777_82DB_67EF_68F5_78D5),
  (0x5065, 0x9897_79D1_58F3_54B3_53EF_6E34_514B_523B_5BA2_8BFE_80AF_5543),
  (0x5071, 0x57A6_6073_5751_542D_7A7A_6050_5B54_63A7_62A0_53E3_6263_5BC7),
  (0x507D, 0x67AF_54ED_7A9F),
  (0x5081, 0x82E6_9177_5E93_88E4_5938_57AE_630E_8DE8_80EF_5757_7B77_4FA9),
  (0x508D, 0x5FEB_5BBD_6B3E_5321_7B50_72C2_6846_77FF_7736_65F7_51B5_4E8F),
  (0x5099, 0x76D4_5CBF_7AA5_8475_594E_9B41_5080_9988_6127_6E83_5764_6606),
  (0x50A5, 0x6346_56F0_62EC_6269_5ED3_9614_5783_62C9_5587_8721_814A_8FA3),
  (0x50B1, 0x5566_83B1_6765_8D56_84DD_5A6A_680F_62E6_7BEE_9611_5170_6F9C),
  (0x50BD, 0x8C30_63FD_89C8_61D2_7F06_70C2_6EE5_7405_6994_72FC_5ECA_90CE),
  (0x50C9, 0x6717_6D6A_635E_52B3_7262_8001_4F6C_59E5_916A_70D9_6D9D_52D2),
  (0x50D5, 0x4E50_96F7_956D_857E_78CA_7D2F_5121_5792_64C2_808B_7C7B_6CEA),
  (0x50E1, 0x68F1_695E_51B7_5398_68A8_7281_9ECE_7BF1_72F8_79BB_6F13_7406),
  (0x50ED, 0x674E_91CC_9CA4_793C_8389_8354_540F_6817_4E3D_5389_52B1_783E),
  (0x50F9, 0x5386_5229_5088_4F8B_4FD0),
  (0x5141, 0x75E2_7ACB_7C92_6CA5_96B6_529B_7483_54E9_4FE9_8054_83B2_8FDE),
  (0x514D, 0x9570_5EC9_601C_6D9F_5E18_655B_8138_94FE_604B_70BC_7EC3_7CAE),
  (0x5159, 0x51C9_6881_7CB1_826F_4E24_8F86_91CF_667E_4EAE_8C05_64A9_804A),
  (0x5165, 0x50DA_7597_71CE_5BE5_8FBD_6F66_4E86_6482_9563_5ED6_6599_5217),
  (0x5171, 0x88C2_70C8_52A3_730E_7433_6797_78F7_9716_4E34_90BB_9CDE_6DCB),
  (0x517D, 0x51DB_8D41_541D),
  (0x5181, 0x62CE_73B2_83F1_96F6_9F84_94C3_4F36_7F9A_51CC_7075_9675_5CAD),
  (0x518D, 0x9886_53E6_4EE4_6E9C_7409_69B4_786B_998F_7559_5218_7624_6D41),
  (0x5199, 0x67F3_516D_9F99_804B_5499_7B3C_7ABF_9686_5784_62E2_9647_697C),
  (0x51A5, 0x5A04_6402_7BD3_6F0F_964B_82A6_5362_9885_5E90_7089_63B3_5364),
  (0x51B1, 0x864F_9C81_9E93_788C_9732_8DEF_8D42_9E7F_6F5E_7984_5F55_9646),
  (0x51BD, 0x622E_9A74_5415_94DD_4FA3_65C5_5C65_5C61_7F15_8651_6C2F_5F8B),
  (0x51C9, 0x7387_6EE4_7EFF_5CE6_631B_5B6A_6EE6_5375_4E71_63A0_7565_62A1),
  (0x51D5, 0x8F6E_4F26_4ED1_6CA6_7EB6_8BBA_841D_87BA_7F57_903B_9523_7BA9),
  (0x51E1, 0x9AA1_88F8_843D_6D1B_9A86_7EDC_5988_9EBB_739B_7801_8682_9A6C),
  (0x51ED, 0x9A82_561B_5417_57CB_4E70_9EA6_5356_8FC8_8109_7792_9992_86EE),
  (0x51F9, 0x6EE1_8513_66FC_6162_6F2B),
  (0x5241, 0x8C29_8292_832B_76F2_6C13_5FD9_83BD_732B_8305_951A_6BDB_77DB),
  (0x524D, 0x94C6_536F_8302_5192_5E3D_8C8C_8D38_4E48_73AB_679A_6885_9176),
  (0x5259, 0x9709_7164_6CA1_7709_5A92_9541_6BCF_7F8E_6627_5BD0_59B9_5A9A),
  (0x5265, 0x95E8_95F7_4EEC_840C_8499_6AAC_76DF_9530_731B_68A6_5B5F_772F),
  (0x5271, 0x919A_9761_7CDC_8FF7_8C1C_5F25_7C73_79D8_89C5_6CCC_871C_5BC6),
  (0x527D, 0x5E42_68C9_7720),
  (0x5281, 0x7EF5_5195_514D_52C9_5A29_7F05_9762_82D7_63CF_7784_85D0_79D2),
  (0x528D, 0x6E3A_5E99_5999_8511_706D_6C11_62BF_76BF_654F_60AF_95FD_660E),
  (0x5299, 0x879F_9E23_94ED_540D_547D_8C2C_6478_6479_8611_6A21_819C_78E8),
  (0x52A5, 0x6469_9B54_62B9_672B_83AB_58A8_9ED8_6CAB_6F20_5BDE_964C_8C0B),
  (0x52B1, 0x725F_67D0_62C7_7261_4EA9_59C6_6BCD_5893_66AE_5E55_52DF_6155),
  (0x52BD, 0x6728_76EE_7766_7267_7A46_62FF_54EA_5450_94A0_90A3_5A1C_7EB3),
  (0x52C9, 0x6C16_4E43_5976_8010_5948_5357_7537_96BE_56CA_6320_8111_607C),
  (0x52D5, 0x95F9_6DD6_5462_9981_5185_5AE9_80FD_59AE_9713_502A_6CE5_5C3C),
  (0x52E1, 0x62DF_4F60_533F_817B_9006_6EBA_852B_62C8_5E74_78BE_64B5_637B),
  (0x52ED, 0x5FF5_5A18_917F_9E1F_5C3F_634F_8042_5B7D_556E_954A_954D_6D85),
  (0x52F9, 0x60A8_67E0_72DE_51DD_5B81),
  (0x5341, 0x62E7_6CDE_725B_626D_94AE_7EBD_8113_6D53_519C_5F04_5974_52AA),
  (0x534D, 0x6012_5973_6696_8650_759F_632A_61E6_7CEF_8BFA_54E6_6B27_9E25),
  (0x5359, 0x6BB4_85D5_5455_5076_6CA4_556A_8DB4_722C_5E15_6015_7436_62CD),
  (0x5365, 0x6392_724C_5F98_6E43_6D3E_6500_6F58_76D8_78D0_76FC_7554_5224),
  (0x5371, 0x53DB_4E53_5E9E_65C1_802A_80D6_629B_5486_5228_70AE_888D_8DD1),
  (0x537D, 0x6CE1_5478_80DA),
  (0x5381, 0x57F9_88F4_8D54_966A_914D_4F69_6C9B_55B7_76C6_7830_62A8_70F9),
  (0x538D, 0x6F8E_5F6D_84EC_68DA_787C_7BF7_81A8_670B_9E4F_6367_78B0_576F),
  (0x5399, 0x7812_9739_6279_62AB_5288_7435_6BD7_5564_813E_75B2_76AE_5339),
  (0x53A5, 0x75DE_50FB_5C41_8B6C_7BC7_504F_7247_9A97_98D8_6F02_74E2_7968),
  (0x53B1, 0x6487_77A5_62FC_9891_8D2B_54C1_8058_4E52_576A_82F9_840D_5E73),
  (0x53BD, 0x51ED_74F6_8BC4_5C4F_5761_6CFC_9887_5A46_7834_9B44_8FEB_7C95),
  (0x53C9, 0x5256_6251_94FA_4EC6_8386_8461_83E9_84B2_57D4_6734_5703_666E),
  (0x53D5, 0x6D66_8C31_66DD_7011_671F_6B3A_6816_621A_59BB_4E03_51C4_6F06),
  (0x53E1, 0x67D2_6C8F_5176_68CB_5947_6B67_7566_5D0E_8110_9F50_65D7_7948),
  (0x53ED, 0x7941_9A91_8D77_5C82_4E5E_4F01_542F_5951_780C_5668_6C14_8FC4),
  (0x53F9, 0x5F03_6C7D_6CE3_8BAB_6390),
  (0x5441, 0x6070_6D3D_7275_6266_948E_94C5_5343_8FC1_7B7E_4EDF_8C26_4E7E),
  (0x544D, 0x9ED4_94B1_94B3_524D_6F5C_9063_6D45_8C34_5811_5D4C_6B20_6B49),
  (0x5459, 0x67AA_545B_8154_7F8C_5899_8537_5F3A_62A2_6A47_9539_6572_6084),
  (0x5465, 0x6865_77A7_4E54_4FA8_5DE7_9798_64AC_7FD8_5CED_4FCF_7A8D_5207),
  (0x5471, 0x8304_4E14_602F_7A83_94A6_4FB5_4EB2_79E6_7434_52E4_82B9_64D2),
  (0x547D, 0x79BD_5BDD_6C81),
  (0x5481, 0x9752_8F7B_6C22_503E_537F_6E05_64CE_6674_6C30_60C5_9877_8BF7),
  (0x548D, 0x5E86_743C_7A77_79CB_4E18_90B1_7403_6C42_56DA_914B_6CC5_8D8B),
  (0x5499, 0x533A_86C6_66F2_8EAF_5C48_9A71_6E20_53D6_5A36_9F8B_8DA3_53BB),
  (0x54A5, 0x5708_98A7_6743_919B_6CC9_5168_75CA_62F3_72AC_5238_529D_7F3A),
  (0x54B1, 0x7094_7638_5374_9E4A_69B7_786E_96C0_88D9_7FA4_7136_71C3_5189),
  (0x54BD, 0x67D3_74E4_58E4_6518_56B7_8BA9_9976_6270_7ED5_60F9_70ED_58EC),
  (0x54C9, 0x4EC1_4EBA_5FCD_97E7_4EFB_8BA4_5203_598A_7EAB_6254_4ECD_65E5),
  (0x54D5, 0x620E_8338_84C9_8363_878D_7194_6EB6_5BB9_7ED2_5197_63C9_67D4),
  (0x54E1, 0x8089_8339_8815_5112_5B7A_5982_8FB1_4E73_6C5D_5165_8925_8F6F),
  (0x54ED, 0x962E_854A_745E_9510_95F0_6DA6_82E5_5F31_6492_6D12_8428_816E),
  (0x54F9, 0x9CC3_585E_8D5B_4E09_53C1),
  (0x5541, 0x4F1E_6563_6851_55D3_4E27_6414_9A9A_626B_5AC2_745F_8272_6DA9),
  (0x554D, 0x68EE_50E7_838E_7802_6740_5239_6C99_7EB1_50BB_5565_715E_7B5B),
  (0x5559, 0x6652_73CA_82EB_6749_5C71_5220_717D_886B_95EA_9655_64C5_8D61),
  (0x5565, 0x81B3_5584_6C55_6247_7F2E_5892_4F24_5546_8D4F_664C_4E0A_5C1A),
  (0x5571, 0x88F3_68A2_634E_7A0D_70E7_828D_52FA_97F6_5C11_54E8_90B5_7ECD),
  (0x557D, 0x5962_8D4A_86C7),
  (0x5581, 0x820C_820D_8D66_6444_5C04_6151_6D89_793E_8BBE_7837_7533_547B),
  (0x558D, 0x4F38_8EAB_6DF1_5A20_7EC5_795E_6C88_5BA1_5A76_751A_80BE_614E),
  (0x5599, 0x6E17_58F0_751F_7525_7272_5347_7EF3_7701_76DB_5269_80DC_5723),
  (0x55A5, 0x5E08_5931_72EE_65BD_6E7F_8BD7_5C38_8671_5341_77F3_62FE_65F6),
  (0x55B1, 0x4EC0_98DF_8680_5B9E_8BC6_53F2_77E2_4F7F_5C4E_9A76_59CB_5F0F),
  (0x55BD, 0x793A_58EB_4E16_67FF_4E8B_62ED_8A93_901D_52BF_662F_55DC_566C),
  (0x55C9, 0x9002_4ED5_4F8D_91CA_9970_6C0F_5E02_6043_5BA4_89C6_8BD5_6536),
  (0x55D5, 0x624B_9996_5B88_5BFF_6388_552E_53D7_7626_517D_852C_67A2_68B3),
  (0x55E1, 0x6B8A_6292_8F93_53D4_8212_6DD1_758F_4E66_8D4E_5B70_719F_85AF),
  (0x55ED, 0x6691_66D9_7F72_8700_9ECD_9F20_5C5E_672F_8FF0_6811_675F_620D),
  (0x55F9, 0x7AD6_5885_5EB6_6570_6F31),
  (0x5641, 0x6055_5237_800D_6454_8870_7529_5E05_6813_62F4_971C_53CC_723D),
  (0x564D, 0x8C01_6C34_7761_7A0E_542E_77AC_987A_821C_8BF4_7855_6714_70C1),
  (0x5659, 0x65AF_6495_5636_601D_79C1_53F8_4E1D_6B7B_8086_5BFA_55E3_56DB),
  (0x5665, 0x4F3A_4F3C_9972_5DF3_677E_8038_6002_9882_9001_5B8B_8BBC_8BF5),
  (0x5671, 0x641C_8258_64DE_55FD_82CF_9165_4FD7_7D20_901F_7C9F_50F3_5851),
  (0x567D, 0x6EAF_5BBF_8BC9),
  (0x5681, 0x8083_9178_849C_7B97_867D_968B_968F_7EE5_9AD3_788E_5C81_7A57),
  (0x568D, 0x9042_96A7_795F_5B59_635F_7B0B_84D1_68AD_5506_7F29_7410_7D22),
  (0x5699, 0x9501_6240_584C_4ED6_5B83_5979_5854_736D_631E_8E4B_8E0F_80CE),
  (0x56A5, 0x82D4_62AC_53F0_6CF0_915E_592A_6001_6C70_574D_644A_8D2A_762B),
  (0x56B1, 0x6EE9_575B_6A80_75F0_6F6D_8C2D_8C08_5766_6BEF_8892_78B3_63A2),
  (0x56BD, 0x53F9_70AD_6C64_5858_642A_5802_68E0_819B_5510_7CD6_5018_8EBA),
  (0x56C9, 0x6DCC_8D9F_70EB_638F_6D9B_6ED4_7EE6_8404_6843_9003_6DD8_9676),
  (0x56D5, 0x8BA8_5957_7279_85E4_817E_75BC_8A8A_68AF_5254_8E22_9511_63D0),
  (0x56E1, 0x9898_8E44_557C_4F53_66FF_568F_60D5_6D95_5243_5C49_5929_6DFB),
  (0x56ED, 0x586B_7530_751C_606C_8214_8146_6311_6761_8FE2_773A_8DF3_8D34),
  (0x56F9, 0x94C1_5E16_5385_542C_70C3),
  (0x5741, 0x6C40_5EF7_505C_4EAD_5EAD_633A_8247_901A_6850_916E_77B3_540C),
  (0x574D, 0x94DC_5F64_7AE5_6876_6345_7B52_7EDF_75DB_5077_6295_5934_900F),
  (0x5759, 0x51F8_79C3_7A81_56FE_5F92_9014_6D82_5C60_571F_5410_5154_6E4D),
  (0x5765, 0x56E2_63A8_9893_817F_8715_892A_9000_541E_5C6F_81C0_62D6_6258),
  (0x5771, 0x8131_9E35_9640_9A6E_9A7C_692D_59A5_62D3_553E_6316_54C7_86D9),
  (0x577D, 0x6D3C_5A03_74E6),
  (0x5781, 0x889C_6B6A_5916_8C4C_5F2F_6E7E_73A9_987D_4E38_70F7_5B8C_7897),
  (0x578D, 0x633D_665A_7696_60CB_5B9B_5A49_4E07_8155_6C6A_738B_4EA1_6789),
  (0x5799, 0x7F51_5F80_65FA_671B_5FD8_5984_5A01_5DCD_5FAE_5371_97E6_8FDD),
  (0x57A5, 0x6845_56F4_552F_60DF_4E3A_6F4D_7EF4_82C7_840E_59D4_4F1F_4F2A),
  (0x57B1, 0x5C3E_7EAC_672A_851A_5473_754F_80C3_5582_9B4F_4F4D_6E2D_8C13),
  (0x57BD, 0x5C09_6170_536B_761F_6E29_868A_6587_95FB_7EB9_543B_7A33_7D0A),
  (0x57C9, 0x95EE_55E1_7FC1_74EE_631D_8717_6DA1_7A9D_6211_65A1_5367_63E1),
  (0x57D5, 0x6C83_5DEB_545C_94A8_4E4C_6C61_8BEC_5C4B_65E0_829C_68A7_543E),
  (0x57E1, 0x5434_6BCB_6B66_4E94_6342_5348_821E_4F0D_4FAE_575E_620A_96FE),
  (0x57ED, 0x6664_7269_52FF_52A1_609F_8BEF_6614_7199_6790_897F_7852_77FD),
  (0x57F9, 0x6670_563B_5438_9521_727A),
  (0x5841, 0x7A00_606F_5E0C_6089_819D_5915_60DC_7184_70EF_6EAA_6C50_7280),
  (0x584D, 0x6A84_88AD_5E2D_4E60_5AB3_559C_94E3_6D17_7CFB_9699_620F_7EC6),
  (0x5859, 0x778E_867E_5323_971E_8F96_6687_5CE1_4FA0_72ED_4E0B_53A6_590F),
  (0x5865, 0x5413_6380_9528_5148_4ED9_9C9C_7EA4_54B8_8D24_8854_8237_95F2),
  (0x5871, 0x6D8E_5F26_5ACC_663E_9669_73B0_732E_53BF_817A_9985_7FA1_5BAA),
  (0x587D, 0x9677_9650_7EBF),
  (0x5881, 0x76F8_53A2_9576_9999_7BB1_8944_6E58_4E61_7FD4_7965_8BE6_60F3),
  (0x588D, 0x54CD_4EAB_9879_5DF7_6A61_50CF_5411_8C61_8427_785D_9704_524A),
  (0x5899, 0x54EE_56A3_9500_6D88_5BB5_6DC6_6653_5C0F_5B5D_6821_8096_5578),
  (0x58A5, 0x7B11_6548_6954_4E9B_6B47_874E_978B_534F_631F_643A_90AA_659C),
  (0x58B1, 0x80C1_8C10_5199_68B0_5378_87F9_61C8_6CC4_6CFB_8C22_5C51_85AA),
  (0x58BD, 0x82AF_950C_6B23_8F9B_65B0_5FFB_5FC3_4FE1_8845_661F_8165_7329),
  (0x58C9, 0x60FA_5174_5211_578B_5F62_90A2_884C_9192_5E78_674F_6027_59D3),
  (0x58D5, 0x5144_51F6_80F8_5308_6C79_96C4_718A_4F11_4FEE_7F9E_673D_55C5),
  (0x58E1, 0x9508_79C0_8896_7EE3_589F_620C_9700_865A_5618_987B_5F90_8BB8),
  (0x58ED, 0x84C4_9157_53D9_65ED_5E8F_755C_6064_7D6E_5A7F_7EEA_7EED_8F69),
  (0x58F9, 0x55A7_5BA3_60AC_65CB_7384),
  (0x5941, 0x9009_7663_7729_7EDA_9774_859B_5B66_7A74_96EA_8840_52CB_718F),
  (0x594D, 0x5FAA_65EC_8BE2_5BFB_9A6F_5DE1_6B89_6C5B_8BAD_8BAF_900A_8FC5),
  (0x5959, 0x538B_62BC_9E26_9E2D_5440_4E2B_82BD_7259_869C_5D16_8859_6DAF),
  (0x5965, 0x96C5_54D1_4E9A_8BB6_7109_54BD_9609_70DF_6DF9_76D0_4E25_7814),
  (0x5971, 0x8712_5CA9_5EF6_8A00_989C_960E_708E_6CBF_5944_63A9_773C_884D),
  (0x597D, 0x6F14_8273_5830),
  (0x5981, 0x71D5_538C_781A_96C1_5501_5F66_7130_5BB4_8C1A_9A8C_6B83_592E),
  (0x598D, 0x9E2F_79E7_6768_626C_4F6F_75A1_7F8A_6D0B_9633_6C27_4EF0_75D2),
  (0x5999, 0x517B_6837_6F3E_9080_8170_5996_7476_6447_5C27_9065_7A91_8C23),
  (0x59A5, 0x59DA_54AC_8200_836F_8981_8000_6930_564E_8036_7237_91CE_51B6),
  (0x59B1, 0x4E5F_9875_6396_4E1A_53F6_66F3_814B_591C_6DB2_4E00_58F9_533B),
  (0x59BD, 0x63D6_94F1_4F9D_4F0A_8863_9890_5937_9057_79FB_4EEA_80F0_7591),
  (0x59C9, 0x6C82_5B9C_59E8_5F5D_6905_8681_501A_5DF2_4E59_77E3_4EE5_827A),
  (0x59D5, 0x6291_6613_9091_5C79_4EBF_5F79_81C6_9038_8084_75AB_4EA6_88D4),
  (0x59E1, 0x610F_6BC5_5FC6_4E49_76CA_6EA2_8BE3_8BAE_8C0A_8BD1_5F02_7FFC),
  (0x59ED, 0x7FCC_7ECE_8335_836B_56E0_6BB7_97F3_9634_59FB_541F_94F6_6DEB),
  (0x59F9, 0x5BC5_996E_5C39_5F15_9690),
  (0x5A41, 0x5370_82F1_6A31_5A74_9E70_5E94_7F28_83B9_8424_8425_8367_8747),
  (0x5A4D, 0x8FCE_8D62_76C8_5F71_9896_786C_6620_54DF_62E5_4F63_81C3_75C8),
  (0x5A59, 0x5EB8_96CD_8E0A_86F9_548F_6CF3_6D8C_6C38_607F_52C7_7528_5E7D),
  (0x5A65, 0x4F18_60A0_5FE7_5C24_7531_90AE_94C0_72B9_6CB9_6E38_9149_6709),
  (0x5A71, 0x53CB_53F3_4F51_91C9_8BF1_53C8_5E7C_8FC2_6DE4_4E8E_76C2_6986),
  (0x5A7D, 0x865E_611A_8206),
  (0x5A81, 0x4F59_4FDE_903E_9C7C_6109_6E1D_6E14_9685_4E88_5A31_96E8_4E0E),
  (0x5A8D, 0x5C7F_79B9_5B87_8BED_7FBD_7389_57DF_828B_90C1_5401_9047_55BB),
  (0x5A99, 0x5CEA_5FA1_6108_6B32_72F1_80B2_8A89_6D74_5BD3_88D5_9884_8C6B),
  (0x5AA5, 0x9A6D_9E33_6E0A_51A4_5143_57A3_8881_539F_63F4_8F95_56ED_5458),
  (0x5AB1, 0x5706_733F_6E90_7F18_8FDC_82D1_613F_6028_9662_66F0_7EA6_8D8A),
  (0x5ABD, 0x8DC3_94A5_5CB3_7CA4_6708_60A6_9605_8018_4E91_90E7_5300_9668),
  (0x5AC9, 0x5141_8FD0_8574_915D_6655_97F5_5B55_531D_7838_6742_683D_54C9),
  (0x5AD5, 0x707E_5BB0_8F7D_518D_5728_54B1_6512_6682_8D5E_8D43_810F_846C),
  (0x5AE1, 0x906D_7CDF_51FF_85FB_67A3_65E9_6FA1_86A4_8E81_566A_9020_7682),
  (0x5AED, 0x7076_71E5_8D23_62E9_5219_6CFD_8D3C_600E_589E_618E_66FE_8D60),
  (0x5AF9, 0x624E_55B3_6E23_672D_8F67),
  (0x5B41, 0x94E1_95F8_7728_6805_69A8_548B_4E4D_70B8_8BC8_6458_658B_5B85),
  (0x5B4D, 0x7A84_503A_5BE8_77BB_6BE1_8A79_7C98_6CBE_76CF_65A9_8F97_5D2D),
  (0x5B59, 0x5C55_8638_6808_5360_6218_7AD9_6E5B_7EFD_6A1F_7AE0_5F70_6F33),
  (0x5B65, 0x5F20_638C_6DA8_6756_4E08_5E10_8D26_4ED7_80C0_7634_969C_62DB),
  (0x5B71, 0x662D_627E_6CBC_8D75_7167_7F69_5146_8087_53EC_906E_6298_54F2),
  (0x5B7D, 0x86F0_8F99_8005),
  (0x5B81, 0x9517_8517_8FD9_6D59_73CD_659F_771F_7504_7827_81FB_8D1E_9488),
  (0x5B8D, 0x4FA6_6795_75B9_8BCA_9707_632F_9547_9635_84B8_6323_7741_5F81),
  (0x5B99, 0x72F0_4E89_6014_6574_62EF_6B63_653F_5E27_75C7_90D1_8BC1_829D),
  (0x5BA5, 0x679D_652F_5431_8718_77E5_80A2_8102_6C41_4E4B_7EC7_804C_76F4),
  (0x5BB1, 0x690D_6B96_6267_503C_4F84_5740_6307_6B62_8DBE_53EA_65E8_7EB8),
  (0x5BBD, 0x5FD7_631A_63B7_81F3_81F4_7F6E_5E1C_5CD9_5236_667A_79E9_7A1A),
  (0x5BC9, 0x8D28_7099_75D4_6EDE_6CBB_7A92_4E2D_76C5_5FE0_949F_8877_7EC8),
  (0x5BD5, 0x79CD_80BF_91CD_4EF2_4F17_821F_5468_5DDE_6D32_8BCC_7CA5_8F74),
  (0x5BE1, 0x8098_5E1A_5492_76B1_5B99_663C_9AA4_73E0_682A_86DB_6731_732A),
  (0x5BED, 0x8BF8_8BDB_9010_7AF9_70DB_716E_62C4_77A9_5631_4E3B_8457_67F1),
  (0x5BF9, 0x52A9_86C0_8D2E_94F8_7B51),
  (0x5C41, 0x4F4F_6CE8_795D_9A7B_6293_722A_62FD_4E13_7816_8F6C_64B0_8D5A),
  (0x5C4D, 0x7BC6_6869_5E84_88C5_5986_649E_58EE_72B6_690E_9525_8FFD_8D58),
  (0x5C59, 0x5760_7F00_8C06_51C6_6349_62D9_5353_684C_7422_8301_914C_5544),
  (0x5C65, 0x7740_707C_6D4A_5179_54A8_8D44_59FF_6ECB_6DC4_5B5C_7D2B_4ED4),
  (0x5C71, 0x7C7D_6ED3_5B50_81EA_6E0D_5B57_9B03_68D5_8E2A_5B97_7EFC_603B),
  (0x5C7D, 0x7EB5_90B9_8D70),
  (0x5C81, 0x594F_63CD_79DF_8DB3_5352_65CF_7956_8BC5_963B_7EC4_94BB_7E82),
  (0x5C8D, 0x5634_9189_6700_7F6A_5C0A_9075_6628_5DE6_4F50_67DE_505A_4F5C),
  (0x5C99, 0x5750_5EA7),
  (0x5CA0, 0x4E8D_4E0C_5140_4E10_5EFF_5345_4E15_4E98_4E1E_9B32_5B6C_5669),
  (0x5CAC, 0x4E28_79BA_4E3F_5315_4E47_592D_723B_536E_6C10_56DF_80E4_9997),
  (0x5CB8, 0x6BD3_777E_9F17_4E36_4E9F_9F10_4E5C_4E69_4E93_8288_5B5B_556C),
  (0x5CC4, 0x560F_4EC4_538D_539D_53A3_53A5_53AE_9765_8D5D_531A_53F5_5326),
  (0x5CD0, 0x532E_533E_8D5C_5366_5363_5202_5208_520E_522D_5233_523F_5240),
  (0x5CDC, 0x524C_525E_5261_525C_84AF_527D_5282_5281_5290_5293_5182_7F54),
  (0x5CE8, 0x4EBB_4EC3_4EC9_4EC2_4EE8_4EE1_4EEB_4EDE_4F1B_4EF3_4F22_4F64),
  (0x5CF4, 0x4EF5_4F25_4F27_4F09_4F2B_4F5E_4F67_6538_4F5A_4F5D),
  (0x5D41, 0x4F5F_4F57_4F32_4F3D_4F76_4F74_4F91_4F89_4F83_4F8F_4F7E_4F7B),
  (0x5D4D, 0x4FAA_4F7C_4FAC_4F94_4FE6_4FE8_4FEA_4FC5_4FDA_4FE3_4FDC_4FD1),
  (0x5D59, 0x4FDF_4FF8_5029_504C_4FF3_502C_500F_502E_502D_4FFE_501C_500C),
  (0x5D65, 0x5025_5028_507E_5043_5055_5048_504E_506C_507B_50A5_50A7_50A9),
  (0x5D71, 0x50BA_50D6_5106_50ED_50EC_50E6_50EE_5107_510B_4EDD_6C3D_4F58),
  (0x5D7D, 0x4F65_4FCE_9FA0),
  (0x5D81, 0x6C46_7C74_516E_5DFD_9EC9_9998_5181_5914_52F9_530D_8A07_5310),
  (0x5D8D, 0x51EB_5919_5155_4EA0_5156_4EB3_886E_88A4_4EB5_8114_88D2_7980),
  (0x5D99, 0x5B34_8803_7FB8_51AB_51B1_51BD_51BC_51C7_5196_51A2_51A5_8BA0),
  (0x5DA5, 0x8BA6_8BA7_8BAA_8BB4_8BB5_8BB7_8BC2_8BC3_8BCB_8BCF_8BCE_8BD2),
  (0x5DB1, 0x8BD3_8BD4_8BD6_8BD8_8BD9_8BDC_8BDF_8BE0_8BE4_8BE8_8BE9_8BEE),
  (0x5DBD, 0x8BF0_8BF3_8BF6_8BF9_8BFC_8BFF_8C00_8C02_8C04_8C07_8C0C_8C0F),
  (0x5DC9, 0x8C11_8C12_8C14_8C15_8C16_8C19_8C1B_8C18_8C1D_8C1F_8C20_8C21),
  (0x5DD5, 0x8C25_8C27_8C2A_8C2B_8C2E_8C2F_8C32_8C33_8C35_8C36_5369_537A),
  (0x5DE1, 0x961D_9622_9621_9631_962A_963D_963C_9642_9649_9654_965F_9667),
  (0x5DED, 0x966C_9672_9674_9688_968D_9697_96B0_9097_909B_909D_9099_90AC),
  (0x5DF9, 0x90A1_90B4_90B3_90B6_90BA),
  (0x5E41, 0x90B8_90B0_90CF_90C5_90BE_90D0_90C4_90C7_90D3_90E6_90E2_90DC),
  (0x5E4D, 0x90D7_90DB_90EB_90EF_90FE_9104_9122_911E_9123_9131_912F_9139),
  (0x5E59, 0x9143_9146_520D_5942_52A2_52AC_52AD_52BE_54FF_52D0_52D6_52F0),
  (0x5E65, 0x53DF_71EE_77CD_5EF4_51F5_51FC_9B2F_53B6_5F01_755A_5DEF_574C),
  (0x5E71, 0x57A9_57A1_587E_58BC_58C5_58D1_5729_572C_572A_5733_5739_572E),
  (0x5E7D, 0x572F_575C_573B),
  (0x5E81, 0x5742_5769_5785_576B_5786_577C_577B_5768_576D_5776_5773_57AD),
  (0x5E8D, 0x57A4_578C_57B2_57CF_57A7_57B4_5793_57A0_57D5_57D8_57DA_57D9),
  (0x5E99, 0x57D2_57B8_57F4_57EF_57F8_57E4_57DD_580B_580D_57FD_57ED_5800),
  (0x5EA5, 0x581E_5819_5844_5820_5865_586C_5881_5889_589A_5880_99A8_9F19),
  (0x5EB1, 0x61FF_8279_827D_827F_828F_828A_82A8_8284_828E_8291_8297_8299),
  (0x5EBD, 0x82AB_82B8_82BE_82B0_82C8_82CA_82E3_8298_82B7_82AE_82CB_82CC),
  (0x5EC9, 0x82C1_82A9_82B4_82A1_82AA_829F_82C4_82CE_82A4_82E1_8309_82F7),
  (0x5ED5, 0x82E4_830F_8307_82DC_82F4_82D2_82D8_830C_82FB_82D3_8311_831A),
  (0x5EE1, 0x8306_8314_8315_82E0_82D5_831C_8351_835B_835C_8308_8392_833C),
  (0x5EED, 0x8334_8331_839B_835E_832F_834F_8347_8343_835F_8340_8317_8360),
  (0x5EF9, 0x832D_833A_8333_8366_8365),
  (0x5F41, 0x8368_831B_8369_836C_836A_836D_836E_83B0_8378_83B3_83B4_83A0),
  (0x5F4D, 0x83AA_8393_839C_8385_837C_83B6_83A9_837D_83B8_837B_8398_839E),
  (0x5F59, 0x83A8_83BA_83BC_83C1_8401_83E5_83D8_5807_8418_840B_83DD_83FD),
  (0x5F65, 0x83D6_841C_8438_8411_8406_83D4_83DF_840F_8403_83F8_83F9_83EA),
  (0x5F71, 0x83C5_83C0_8426_83F0_83E1_845C_8451_845A_8459_8473_8487_8488),
  (0x5F7D, 0x847A_8489_8478),
  (0x5F81, 0x843C_8446_8469_8476_848C_848E_8431_846D_84C1_84CD_84D0_84E6),
  (0x5F8D, 0x84BD_84D3_84CA_84BF_84BA_84E0_84A1_84B9_84B4_8497_84E5_84E3),
  (0x5F99, 0x850C_750D_8538_84F0_8539_851F_853A_8556_853B_84FF_84FC_8559),
  (0x5FA5, 0x8548_8568_8564_855E_857A_77A2_8543_8572_857B_85A4_85A8_8587),
  (0x5FB1, 0x858F_8579_85AE_859C_8585_85B9_85B7_85B0_85D3_85C1_85DC_85FF),
  (0x5FBD, 0x8627_8605_8629_8616_863C_5EFE_5F08_593C_5941_8037_5955_595A),
  (0x5FC9, 0x5958_530F_5C22_5C25_5C2C_5C34_624C_626A_629F_62BB_62CA_62DA),
  (0x5FD5, 0x62D7_62EE_6322_62F6_6339_634B_6343_63AD_63F6_6371_637A_638E),
  (0x5FE1, 0x63B4_636D_63AC_638A_6369_63AE_63BC_63F2_63F8_63E0_63FF_63C4),
  (0x5FED, 0x63DE_63CE_6452_63C6_63BE_6445_6441_640B_641B_6420_640C_6426),
  (0x5FF9, 0x6421_645E_6484_646D_6496),
  (0x6041, 0x647A_64B7_64B8_6499_64BA_64C0_64D0_64D7_64E4_64E2_6509_6525),
  (0x604D, 0x652E_5F0B_5FD2_7519_5F11_535F_53F1_53FD_53E9_53E8_53FB_5412),
  (0x6059, 0x5416_5406_544B_5452_5453_5454_5456_5443_5421_5457_5459_5423),
  (0x6065, 0x5432_5482_5494_5477_5471_5464_549A_549B_5484_5476_5466_549D),
  (0x6071, 0x54D0_54AD_54C2_54B4_54D2_54A7_54A6_54D3_54D4_5472_54A3_54D5),
  (0x607D, 0x54BB_54BF_54CC),
  (0x6081, 0x54D9_54DA_54DC_54A9_54AA_54A4_54DD_54CF_54DE_551B_54E7_5520),
  (0x608D, 0x54FD_5514_54F3_5522_5523_550F_5511_5527_552A_5567_558F_55B5),
  (0x6099, 0x5549_556D_5541_5555_553F_5550_553C_5537_5556_5575_5576_5577),
  (0x60A5, 0x5533_5530_555C_558B_55D2_5583_55B1_55B9_5588_5581_559F_557E),
  (0x60B1, 0x55D6_5591_557B_55DF_55BD_55BE_5594_5599_55EA_55F7_55C9_561F),
  (0x60BD, 0x55D1_55EB_55EC_55D4_55E6_55DD_55C4_55EF_55E5_55F2_55F3_55CC),
  (0x60C9, 0x55CD_55E8_55F5_55E4_8F94_561E_5608_560C_5601_5624_5623_55FE),
  (0x60D5, 0x5600_5627_562D_5658_5639_5657_562C_564D_5662_5659_565C_564C),
  (0x60E1, 0x5654_5686_5664_5671_566B_567B_567C_5685_5693_56AF_56D4_56D7),
  (0x60ED, 0x56DD_56E1_56F5_56EB_56F9_56FF_5704_570A_5709_571C_5E0F_5E19),
  (0x60F9, 0x5E14_5E11_5E31_5E3B_5E3C),
  (0x6141, 0x5E37_5E44_5E54_5E5B_5E5E_5E61_5C8C_5C7A_5C8D_5C90_5C96_5C88),
  (0x614D, 0x5C98_5C99_5C91_5C9A_5C9C_5CB5_5CA2_5CBD_5CAC_5CAB_5CB1_5CA3),
  (0x6159, 0x5CC1_5CB7_5CC4_5CD2_5CE4_5CCB_5CE5_5D02_5D03_5D27_5D26_5D2E),
  (0x6165, 0x5D24_5D1E_5D06_5D1B_5D58_5D3E_5D34_5D3D_5D6C_5D5B_5D6F_5D5D),
  (0x6171, 0x5D6B_5D4B_5D4A_5D69_5D74_5D82_5D99_5D9D_8C73_5DB7_5DC5_5F73),
  (0x617D, 0x5F77_5F82_5F87),
  (0x6181, 0x5F89_5F8C_5F95_5F99_5F9C_5FA8_5FAD_5FB5_5FBC_8862_5F61_72AD),
  (0x618D, 0x72B0_72B4_72B7_72B8_72C3_72C1_72CE_72CD_72D2_72E8_72EF_72E9),
  (0x6199, 0x72F2_72F4_72F7_7301_72F3_7303_72FA_72FB_7317_7313_7321_730A),
  (0x61A5, 0x731E_731D_7315_7322_7339_7325_732C_7338_7331_7350_734D_7357),
  (0x61B1, 0x7360_736C_736F_737E_821B_5925_98E7_5924_5902_9963_9967_9968),
  (0x61BD, 0x9969_996A_996B_996C_9974_9977_997D_9980_9984_9987_998A_998D),
  (0x61C9, 0x9990_9991_9993_9994_9995_5E80_5E91_5E8B_5E96_5EA5_5EA0_5EB9),
  (0x61D5, 0x5EB5_5EBE_5EB3_8D53_5ED2_5ED1_5EDB_5EE8_5EEA_81BA_5FC4_5FC9),
  (0x61E1, 0x5FD6_5FCF_6003_5FEE_6004_5FE1_5FE4_5FFE_6005_6006_5FEA_5FED),
  (0x61ED, 0x5FF8_6019_6035_6026_601B_600F_600D_6029_602B_600A_603F_6021),
  (0x61F9, 0x6078_6079_607B_607A_6042),
  (0x6241, 0x606A_607D_6096_609A_60AD_609D_6083_6092_608C_609B_60EC_60BB),
  (0x624D, 0x60B1_60DD_60D8_60C6_60DA_60B4_6120_6126_6115_6123_60F4_6100),
  (0x6259, 0x610E_612B_614A_6175_61AC_6194_61A7_61B7_61D4_61F5_5FDD_96B3),
  (0x6265, 0x95E9_95EB_95F1_95F3_95F5_95F6_95FC_95FE_9603_9604_9606_9608),
  (0x6271, 0x960A_960B_960C_960D_960F_9612_9615_9616_9617_9619_961A_4E2C),
  (0x627D, 0x723F_6215_6C35),
  (0x6281, 0x6C54_6C5C_6C4A_6CA3_6C85_6C90_6C94_6C8C_6C68_6C69_6C74_6C76),
  (0x628D, 0x6C86_6CA9_6CD0_6CD4_6CAD_6CF7_6CF8_6CF1_6CD7_6CB2_6CE0_6CD6),
  (0x6299, 0x6CFA_6CEB_6CEE_6CB1_6CD3_6CEF_6CFE_6D39_6D27_6D0C_6D43_6D48),
  (0x62A5, 0x6D07_6D04_6D19_6D0E_6D2B_6D4D_6D2E_6D35_6D1A_6D4F_6D52_6D54),
  (0x62B1, 0x6D33_6D91_6D6F_6D9E_6DA0_6D5E_6D93_6D94_6D5C_6D60_6D7C_6D63),
  (0x62BD, 0x6E1A_6DC7_6DC5_6DDE_6E0E_6DBF_6DE0_6E11_6DE6_6DDD_6DD9_6E16),
  (0x62C9, 0x6DAB_6E0C_6DAE_6E2B_6E6E_6E4E_6E6B_6EB2_6E5F_6E86_6E53_6E54),
  (0x62D5, 0x6E32_6E25_6E44_6EDF_6EB1_6E98_6EE0_6F2D_6EE2_6EA5_6EA7_6EBD),
  (0x62E1, 0x6EBB_6EB7_6ED7_6EB4_6ECF_6E8F_6EC2_6E9F_6F62_6F46_6F47_6F24),
  (0x62ED, 0x6F15_6EF9_6F2F_6F36_6F4B_6F74_6F2A_6F09_6F29_6F89_6F8D_6F8C),
  (0x62F9, 0x6F78_6F72_6F7C_6F7A_6FD1),
  (0x6341, 0x6FC9_6FA7_6FB9_6FB6_6FC2_6FE1_6FEE_6FDE_6FE0_6FEF_701A_7023),
  (0x634D, 0x701B_7039_7035_704F_705E_5B80_5B84_5B95_5B93_5BA5_5BB8_752F),
  (0x6359, 0x9A9E_6434_5BE4_5BEE_8930_5BF0_8E47_8B07_8FB6_8FD3_8FD5_8FE5),
  (0x6365, 0x8FEE_8FE4_8FE9_8FE6_8FF3_8FE8_9005_9004_900B_9026_9011_900D),
  (0x6371, 0x9016_9021_9035_9036_902D_902F_9044_9051_9052_9050_9068_9058),
  (0x637D, 0x9062_905B_66B9),
  (0x6381, 0x9074_907D_9082_9088_9083_908B_5F50_5F57_5F56_5F58_5C3B_54AB),
  (0x638D, 0x5C50_5C59_5B71_5C63_5C66_7FBC_5F2A_5F29_5F2D_8274_5F3C_9B3B),
  (0x6399, 0x5C6E_5981_5983_598D_59A9_59AA_59A3_5997_59CA_59AB_599E_59A4),
  (0x63A5, 0x59D2_59B2_59AF_59D7_59BE_5A05_5A06_59DD_5A08_59E3_59D8_59F9),
  (0x63B1, 0x5A0C_5A09_5A32_5A34_5A11_5A23_5A13_5A40_5A67_5A4A_5A55_5A3C),
  (0x63BD, 0x5A62_5A75_80EC_5AAA_5A9B_5A77_5A7A_5ABE_5AEB_5AB2_5AD2_5AD4),
  (0x63C9, 0x5AB8_5AE0_5AE3_5AF1_5AD6_5AE6_5AD8_5ADC_5B09_5B17_5B16_5B32),
  (0x63D5, 0x5B37_5B40_5C15_5C1C_5B5A_5B65_5B73_5B51_5B53_5B62_9A75_9A77),
  (0x63E1, 0x9A78_9A7A_9A7F_9A7D_9A80_9A81_9A85_9A88_9A8A_9A90_9A92_9A93),
  (0x63ED, 0x9A96_9A98_9A9B_9A9C_9A9D_9A9F_9AA0_9AA2_9AA3_9AA5_9AA7_7E9F),
  (0x63F9, 0x7EA1_7EA3_7EA5_7EA8_7EA9),
  (0x6441, 0x7EAD_7EB0_7EBE_7EC0_7EC1_7EC2_7EC9_7ECB_7ECC_7ED0_7ED4_7ED7),
  (0x644D, 0x7EDB_7EE0_7EE1_7EE8_7EEB_7EEE_7EEF_7EF1_7EF2_7F0D_7EF6_7EFA),
  (0x6459, 0x7EFB_7EFE_7F01_7F02_7F03_7F07_7F08_7F0B_7F0C_7F0F_7F11_7F12),
  (0x6465, 0x7F17_7F19_7F1C_7F1B_7F1F_7F21_7F22_7F23_7F24_7F25_7F26_7F27),
  (0x6471, 0x7F2A_7F2B_7F2C_7F2D_7F2F_7F30_7F31_7F32_7F33_7F35_5E7A_757F),
  (0x647D, 0x5DDB_753E_9095),
  (0x6481, 0x738E_7391_73AE_73A2_739F_73CF_73C2_73D1_73B7_73B3_73C0_73C9),
  (0x648D, 0x73C8_73E5_73D9_987C_740A_73E9_73E7_73DE_73BA_73F2_740F_742A),
  (0x6499, 0x745B_7426_7425_7428_7430_742E_742C_741B_741A_7441_745C_7457),
  (0x64A5, 0x7455_7459_7477_746D_747E_749C_748E_7480_7481_7487_748B_749E),
  (0x64B1, 0x74A8_74A9_7490_74A7_74D2_74BA_97EA_97EB_97EC_674C_6753_675E),
  (0x64BD, 0x6748_6769_67A5_6787_676A_6773_6798_67A7_6775_67A8_679E_67AD),
  (0x64C9, 0x678B_6777_677C_67F0_6809_67D8_680A_67E9_67B0_680C_67D9_67B5),
  (0x64D5, 0x67DA_67B3_67DD_6800_67C3_67B8_67E2_680E_67C1_67FD_6832_6833),
  (0x64E1, 0x6860_6861_684E_6862_6844_6864_6883_681D_6855_6866_6841_6867),
  (0x64ED, 0x6840_683E_684A_6849_6829_68B5_688F_6874_6877_6893_686B_68C2),
  (0x64F9, 0x696E_68FC_691F_6920_68F9),
  (0x6541, 0x6924_68F0_690B_6901_6957_68E3_6910_6971_6939_6960_6942_695D),
  (0x654D, 0x6984_696B_6980_6998_6978_6934_69CC_6987_6988_69CE_6989_6966),
  (0x6559, 0x6963_6979_699B_69A7_69BB_69AB_69AD_69D4_69B1_69C1_69CA_69DF),
  (0x6565, 0x6995_69E0_698D_69FF_6A2F_69ED_6A17_6A18_6A65_69F2_6A44_6A3E),
  (0x6571, 0x6AA0_6A50_6A5B_6A35_6A8E_6A79_6A3D_6A28_6A58_6A7C_6A91_6A90),
  (0x657D, 0x6AA9_6A97_6AAB),
  (0x6581, 0x7337_7352_6B81_6B82_6B87_6B84_6B92_6B93_6B8D_6B9A_6B9B_6BA1),
  (0x658D, 0x6BAA_8F6B_8F6D_8F71_8F72_8F73_8F75_8F76_8F78_8F77_8F79_8F7A),
  (0x6599, 0x8F7C_8F7E_8F81_8F82_8F84_8F87_8F8B_8F8D_8F8E_8F8F_8F98_8F9A),
  (0x65A5, 0x8ECE_620B_6217_621B_621F_6222_6221_6225_6224_622C_81E7_74EF),
  (0x65B1, 0x74F4_74FF_750F_7511_7513_6534_65EE_65EF_65F0_660A_6619_6772),
  (0x65BD, 0x6603_6615_6600_7085_66F7_661D_6634_6631_6636_6635_8006_665F),
  (0x65C9, 0x6654_6641_664F_6656_6661_6657_6677_6684_668C_66A7_669D_66BE),
  (0x65D5, 0x66DB_66DC_66E6_66E9_8D32_8D33_8D36_8D3B_8D3D_8D40_8D45_8D46),
  (0x65E1, 0x8D48_8D49_8D47_8D4D_8D55_8D59_89C7_89CA_89CB_89CC_89CE_89CF),
  (0x65ED, 0x89D0_89D1_726E_729F_725D_7266_726F_727E_727F_7284_728B_728D),
  (0x65F9, 0x728F_7292_6308_6332_63B0),
  (0x6641, 0x643F_64D8_8004_6BEA_6BF3_6BFD_6BF5_6BF9_6C05_6C07_6C06_6C0D),
  (0x664D, 0x6C15_6C18_6C19_6C1A_6C21_6C29_6C24_6C2A_6C32_6535_6555_656B),
  (0x6659, 0x724D_7252_7256_7230_8662_5216_809F_809C_8093_80BC_670A_80BD),
  (0x6665, 0x80B1_80AB_80AD_80B4_80B7_80E7_80E8_80E9_80EA_80DB_80C2_80C4),
  (0x6671, 0x80D9_80CD_80D7_6710_80DD_80EB_80F1_80F4_80ED_810D_810E_80F2),
  (0x667D, 0x80FC_6715_8112),
  (0x6681, 0x8C5A_8136_811E_812C_8118_8132_8148_814C_8153_8174_8159_815A),
  (0x668D, 0x8171_8160_8169_817C_817D_816D_8167_584D_5AB5_8188_8182_8191),
  (0x6699, 0x6ED5_81A3_81AA_81CC_6726_81CA_81BB_81C1_81A6_6B24_6B37_6B39),
  (0x66A5, 0x6B43_6B46_6B59_98D1_98D2_98D3_98D5_98D9_98DA_6BB3_5F40_6BC2),
  (0x66B1, 0x89F3_6590_9F51_6593_65BC_65C6_65C4_65C3_65CC_65CE_65D2_65D6),
  (0x66BD, 0x7080_709C_7096_709D_70BB_70C0_70B7_70AB_70B1_70E8_70CA_7110),
  (0x66C9, 0x7113_7116_712F_7131_7173_715C_7168_7145_7172_714A_7178_717A),
  (0x66D5, 0x7198_71B3_71B5_71A8_71A0_71E0_71D4_71E7_71F9_721D_7228_706C),
  (0x66E1, 0x7118_7166_71B9_623E_623D_6243_6248_6249_793B_7940_7946_7949),
  (0x66ED, 0x795B_795C_7953_795A_7962_7957_7960_796F_7967_797A_7985_798A),
  (0x66F9, 0x799A_79A7_79B3_5FD1_5FD0),
  (0x6741, 0x603C_605D_605A_6067_6041_6059_6063_60AB_6106_610D_615D_61A9),
  (0x674D, 0x619D_61CB_61D1_6206_8080_807F_6C93_6CF6_6DFC_77F6_77F8_7800),
  (0x6759, 0x7809_7817_7818_7811_65AB_782D_781C_781D_7839_783A_783B_781F),
  (0x6765, 0x783C_7825_782C_7823_7829_784E_786D_7856_7857_7826_7850_7847),
  (0x6771, 0x784C_786A_789B_7893_789A_7887_789C_78A1_78A3_78B2_78B9_78A5),
  (0x677D, 0x78D4_78D9_78C9),
  (0x6781, 0x78EC_78F2_7905_78F4_7913_7924_791E_7934_9F9B_9EF9_9EFB_9EFC),
  (0x678D, 0x76F1_7704_770D_76F9_7707_7708_771A_7722_7719_772D_7726_7735),
  (0x6799, 0x7738_7750_7751_7747_7743_775A_7768_7762_7765_777F_778D_777D),
  (0x67A5, 0x7780_778C_7791_779F_77A0_77B0_77B5_77BD_753A_7540_754E_754B),
  (0x67B1, 0x7548_755B_7572_7579_7583_7F58_7F61_7F5F_8A48_7F68_7F74_7F71),
  (0x67BD, 0x7F79_7F81_7F7E_76CD_76E5_8832_9485_9486_9487_948B_948A_948C),
  (0x67C9, 0x948D_948F_9490_9494_9497_9495_949A_949B_949C_94A3_94A4_94AB),
  (0x67D5, 0x94AA_94AD_94AC_94AF_94B0_94B2_94B4_94B6_94B7_94B8_94B9_94BA),
  (0x67E1, 0x94BC_94BD_94BF_94C4_94C8_94C9_94CA_94CB_94CC_94CD_94CE_94D0),
  (0x67ED, 0x94D1_94D2_94D5_94D6_94D7_94D9_94D8_94DB_94DE_94DF_94E0_94E2),
  (0x67F9, 0x94E4_94E5_94E7_94E8_94EA),
  (0x6841, 0x94E9_94EB_94EE_94EF_94F3_94F4_94F5_94F7_94F9_94FC_94FD_94FF),
  (0x684D, 0x9503_9502_9506_9507_9509_950A_950D_950E_950F_9512_9513_9514),
  (0x6859, 0x9515_9516_9518_951B_951D_951E_951F_9522_952A_952B_9529_952C),
  (0x6865, 0x9531_9532_9534_9536_9537_9538_953C_953E_953F_9542_9535_9544),
  (0x6871, 0x9545_9546_9549_954C_954E_954F_9552_9553_9554_9556_9557_9558),
  (0x687D, 0x9559_955B_955E),
  (0x6881, 0x955F_955D_9561_9562_9564_9565_9566_9567_9568_9569_956A_956B),
  (0x688D, 0x956C_956F_9571_9572_9573_953A_77E7_77EC_96C9_79D5_79ED_79E3),
  (0x6899, 0x79EB_7A06_5D47_7A03_7A02_7A1E_7A14_7A39_7A37_7A51_9ECF_99A5),
  (0x68A5, 0x7A70_7688_768E_7693_7699_76A4_74DE_74E0_752C_9E20_9E22_9E28),
  (0x68B1, 0x9E29_9E2A_9E2B_9E2C_9E32_9E31_9E36_9E38_9E37_9E39_9E3A_9E3E),
  (0x68BD, 0x9E41_9E42_9E44_9E46_9E47_9E48_9E49_9E4B_9E4C_9E4E_9E51_9E55),
  (0x68C9, 0x9E57_9E5A_9E5B_9E5C_9E5E_9E63_9E66_9E67_9E68_9E69_9E6A_9E6B),
  (0x68D5, 0x9E6C_9E71_9E6D_9E73_7592_7594_7596_75A0_759D_75AC_75A3_75B3),
  (0x68E1, 0x75B4_75B8_75C4_75B1_75B0_75C3_75C2_75D6_75CD_75E3_75E8_75E6),
  (0x68ED, 0x75E4_75EB_75E7_7603_75F1_75FC_75FF_7610_7600_7605_760C_7617),
  (0x68F9, 0x760A_7625_7618_7615_7619),
  (0x6941, 0x761B_763C_7622_7620_7640_762D_7630_763F_7635_7643_763E_7633),
  (0x694D, 0x764D_765E_7654_765C_7656_766B_766F_7FCA_7AE6_7A78_7A79_7A80),
  (0x6959, 0x7A86_7A88_7A95_7AA6_7AA0_7AAC_7AA8_7AAD_7AB3_8864_8869_8872),
  (0x6965, 0x887D_887F_8882_88A2_88C6_88B7_88BC_88C9_88E2_88CE_88E3_88E5),
  (0x6971, 0x88F1_891A_88FC_88E8_88FE_88F0_8921_8919_8913_891B_890A_8934),
  (0x697D, 0x892B_8936_8941),
  (0x6981, 0x8966_897B_758B_80E5_76B2_76B4_77DC_8012_8014_8016_801C_8020),
  (0x698D, 0x8022_8025_8026_8027_8029_8028_8031_800B_8035_8043_8046_804D),
  (0x6999, 0x8052_8069_8071_8983_9878_9880_9883_9889_988C_988D_988F_9894),
  (0x69A5, 0x989A_989B_989E_989F_98A1_98A2_98A5_98A6_864D_8654_866C_866E),
  (0x69B1, 0x867F_867A_867C_867B_86A8_868D_868B_86AC_869D_86A7_86A3_86AA),
  (0x69BD, 0x8693_86A9_86B6_86C4_86B5_86CE_86B0_86BA_86B1_86AF_86C9_86CF),
  (0x69C9, 0x86B4_86E9_86F1_86F2_86ED_86F3_86D0_8713_86DE_86F4_86DF_86D8),
  (0x69D5, 0x86D1_8703_8707_86F8_8708_870A_870D_8709_8723_873B_871E_8725),
  (0x69E1, 0x872E_871A_873E_8748_8734_8731_8729_8737_873F_8782_8722_877D),
  (0x69ED, 0x877E_877B_8760_8770_874C_876E_878B_8753_8763_877C_8764_8759),
  (0x69F9, 0x8765_8793_87AF_87A8_87D2),
  (0x6A41, 0x87C6_8788_8785_87AD_8797_8783_87AB_87E5_87AC_87B5_87B3_87CB),
  (0x6A4D, 0x87D3_87BD_87D1_87C0_87CA_87DB_87EA_87E0_87EE_8816_8813_87FE),
  (0x6A59, 0x880A_881B_8821_8839_883C_7F36_7F42_7F44_7F45_8210_7AFA_7AFD),
  (0x6A65, 0x7B08_7B03_7B04_7B15_7B0A_7B2B_7B0F_7B47_7B38_7B2A_7B19_7B2E),
  (0x6A71, 0x7B31_7B20_7B25_7B24_7B33_7B3E_7B1E_7B58_7B5A_7B45_7B75_7B4C),
  (0x6A7D, 0x7B5D_7B60_7B6E),
  (0x6A81, 0x7B7B_7B62_7B72_7B71_7B90_7BA6_7BA7_7BB8_7BAC_7B9D_7BA8_7B85),
  (0x6A8D, 0x7BAA_7B9C_7BA2_7BAB_7BB4_7BD1_7BC1_7BCC_7BDD_7BDA_7BE5_7BE6),
  (0x6A99, 0x7BEA_7C0C_7BFE_7BFC_7C0F_7C16_7C0B_7C1F_7C2A_7C26_7C38_7C41),
  (0x6AA5, 0x7C40_81FE_8201_8202_8204_81EC_8844_8221_8222_8223_822D_822F),
  (0x6AB1, 0x8228_822B_8238_823B_8233_8234_823E_8244_8249_824B_824F_825A),
  (0x6ABD, 0x825F_8268_887E_8885_8888_88D8_88DF_895E_7F9D_7F9F_7FA7_7FAF),
  (0x6AC9, 0x7FB0_7FB2_7C7C_6549_7C91_7C9D_7C9C_7C9E_7CA2_7CB2_7CBC_7CBD),
  (0x6AD5, 0x7CC1_7CC7_7CCC_7CCD_7CC8_7CC5_7CD7_7CE8_826E_66A8_7FBF_7FCE),
  (0x6AE1, 0x7FD5_7FE5_7FE1_7FE6_7FE9_7FEE_7FF3_7CF8_7D77_7DA6_7DAE_7E47),
  (0x6AED, 0x7E9B_9EB8_9EB4_8D73_8D84_8D94_8D91_8DB1_8D67_8D6D_8C47_8C49),
  (0x6AF9, 0x914A_9150_914E_914F_9164),
  (0x6B41, 0x9162_9161_9170_9169_916F_917D_917E_9172_9174_9179_918C_9185),
  (0x6B4D, 0x9190_918D_9191_91A2_91A3_91AA_91AD_91AE_91AF_91B5_91B4_91BA),
  (0x6B59, 0x8C55_9E7E_8DB8_8DEB_8E05_8E59_8E69_8DB5_8DBF_8DBC_8DBA_8DC4),
  (0x6B65, 0x8DD6_8DD7_8DDA_8DDE_8DCE_8DCF_8DDB_8DC6_8DEC_8DF7_8DF8_8DE3),
  (0x6B71, 0x8DF9_8DFB_8DE4_8E09_8DFD_8E14_8E1D_8E1F_8E2C_8E2E_8E23_8E2F),
  (0x6B7D, 0x8E3A_8E40_8E39),
  (0x6B81, 0x8E35_8E3D_8E31_8E49_8E41_8E42_8E51_8E52_8E4A_8E70_8E76_8E7C),
  (0x6B8D, 0x8E6F_8E74_8E85_8E8F_8E94_8E90_8E9C_8E9E_8C78_8C82_8C8A_8C85),
  (0x6B99, 0x8C98_8C94_659B_89D6_89DE_89DA_89DC_89E5_89EB_89EF_8A3E_8B26),
  (0x6BA5, 0x9753_96E9_96F3_96EF_9706_9701_9708_970F_970E_972A_972D_9730),
  (0x6BB1, 0x973E_9F80_9F83_9F85_9F86_9F87_9F88_9F89_9F8A_9F8C_9EFE_9F0B),
  (0x6BBD, 0x9F0D_96B9_96BC_96BD_96CE_96D2_77BF_96E0_928E_92AE_92C8_933E),
  (0x6BC9, 0x936A_93CA_938F_943E_946B_9C7F_9C82_9C85_9C86_9C87_9C88_7A23),
  (0x6BD5, 0x9C8B_9C8E_9C90_9C91_9C92_9C94_9C95_9C9A_9C9B_9C9E_9C9F_9CA0),
  (0x6BE1, 0x9CA1_9CA2_9CA3_9CA5_9CA6_9CA7_9CA8_9CA9_9CAB_9CAD_9CAE_9CB0),
  (0x6BED, 0x9CB1_9CB2_9CB3_9CB4_9CB5_9CB6_9CB7_9CBA_9CBB_9CBC_9CBD_9CC4),
  (0x6BF9, 0x9CC5_9CC6_9CC7_9CCA_9CCB),
  (0x6C41, 0x9CCC_9CCD_9CCE_9CCF_9CD0_9CD3_9CD4_9CD5_9CD7_9CD8_9CD9_9CDC),
  (0x6C4D, 0x9CDD_9CDF_9CE2_977C_9785_9791_9792_9794_97AF_97AB_97A3_97B2),
  (0x6C59, 0x97B4_9AB1_9AB0_9AB7_9E58_9AB6_9ABA_9ABC_9AC1_9AC0_9AC5_9AC2),
  (0x6C65, 0x9ACB_9ACC_9AD1_9B45_9B43_9B47_9B49_9B48_9B4D_9B51_98E8_990D),
  (0x6C71, 0x992E_9955_9954_9ADF_9AE1_9AE6_9AEF_9AEB_9AFB_9AED_9AF9_9B08),
  (0x6C7D, 0x9B0F_9B13_9B1F),
  (0x6C81, 0x9B23_9EBD_9EBE_7E3B_9E82_9E87_9E88_9E8B_9E92_93D6_9E9D_9E9F),
  (0x6C8D, 0x9EDB_9EDC_9EDD_9EE0_9EDF_9EE2_9EE9_9EE7_9EE5_9EEA_9EEF_9F22),
  (0x6C99, 0x9F2C_9F2F_9F39_9F37_9F3D_9F3E_9F44),
  (0x7641, 0xE000_E001_E002_E003_E004_E005_E006_E007_E008_E009_E00A_E00B),
  (0x764D, 0xE00C_E00D_E00E_E00F_E010_E011_E012_E013_E014_E015_E016_E017),
  (0x7659, 0xE018_E019_E01A_E01B_E01C_E01D_E01E_E01F_E020_E021_E022_E023),
  (0x7665, 0xE024_E025_E026_E027_E028_E029_E02A_E02B_E02C_E02D_E02E_E02F),
  (0x7671, 0xE030_E031_E032_E033_E034_E035_E036_E037_E038_E039_E03A_E03B),
  (0x767D, 0xE03C_E03D_E03E),
  (0x7681, 0xE03F_E040_E041_E042_E043_E044_E045_E046_E047_E048_E049_E04A),
  (0x768D, 0xE04B_E04C_E04D_E04E_E04F_E050_E051_E052_E053_E054_E055_E056),
  (0x7699, 0xE057_E058_E059_E05A_E05B_E05C_E05D_E05E_E05F_E060_E061_E062),
  (0x76A5, 0xE063_E064_E065_E066_E067_E068_E069_E06A_E06B_E06C_E06D_E06E),
  (0x76B1, 0xE06F_E070_E071_E072_E073_E074_E075_E076_E077_E078_E079_E07A),
  (0x76BD, 0xE07B_E07C_E07D_E07E_E07F_E080_E081_E082_E083_E084_E085_E086),
  (0x76C9, 0xE087_E088_E089_E08A_E08B_E08C_E08D_E08E_E08F_E090_E091_E092),
  (0x76D5, 0xE093_E094_E095_E096_E097_E098_E099_E09A_E09B_E09C_E09D_E09E),
  (0x76E1, 0xE09F_E0A0_E0A1_E0A2_E0A3_E0A4_E0A5_E0A6_E0A7_E0A8_E0A9_E0AA),
  (0x76ED, 0xE0AB_E0AC_E0AD_E0AE_E0AF_E0B0_E0B1_E0B2_E0B3_E0B4_E0B5_E0B6),
  (0x76F9, 0xE0B7_E0B8_E0B9_E0BA_E0BB),
  (0x7741, 0xE0BC_E0BD_E0BE_E0BF_E0C0_E0C1_E0C2_E0C3_E0C4_E0C5_E0C6_E0C7),
  (0x774D, 0xE0C8_E0C9_E0CA_E0CB_E0CC_E0CD_E0CE_E0CF_E0D0_E0D1_E0D2_E0D3),
  (0x7759, 0xE0D4_E0D5_E0D6_E0D7_E0D8_E0D9_E0DA_E0DB_E0DC_E0DD_E0DE_E0DF),
  (0x7765, 0xE0E0_E0E1_E0E2_E0E3_E0E4_E0E5_E0E6_E0E7_E0E8_E0E9_E0EA_E0EB),
  (0x7771, 0xE0EC_E0ED_E0EE_E0EF_E0F0_E0F1_E0F2_E0F3_E0F4_E0F5_E0F6_E0F7),
  (0x777D, 0xE0F8_E0F9_E0FA),
  (0x7781, 0xE0FB_E0FC_E0FD_E0FE_E0FF_E100_E101_E102_E103_E104_E105_E106),
  (0x778D, 0xE107_E108_E109_E10A_E10B_E10C_E10D_E10E_E10F_E110_E111_E112),
  (0x7799, 0xE113_E114_E115_E116_E117_E118_E119_E11A_E11B_E11C_E11D_E11E),
  (0x77A5, 0xE11F_E120_E121_E122_E123_E124_E125_E126_E127_E128_E129_E12A),
  (0x77B1, 0xE12B_E12C_E12D_E12E_E12F_E130_E131_E132_E133_E134_E135_E136),
  (0x77BD, 0xE137_E138_E139_E13A_E13B_E13C_E13D_E13E_E13F_E140_E141_E142),
  (0x77C9, 0xE143_E144_E145_E146_E147_E148_E149_E14A_E14B_E14C_E14D_E14E),
  (0x77D5, 0xE14F_E150_E151_E152_E153_E154_E155_E156_E157_E158_E159_E15A),
  (0x77E1, 0xE15B_E15C_E15D_E15E_E15F_E160_E161_E162_E163_E164_E165_E166),
  (0x77ED, 0xE167_E168_E169_E16A_E16B_E16C_E16D_E16E_E16F_E170_E171_E172),
  (0x77F9, 0xE173_E174_E175_E176_E177),
  (0x7841, 0xE178_E179_E17A_E17B_E17C_E17D_E17E_E17F_E180_E181_E182_E183),
  (0x784D, 0xE184_E185_E186_E187_E188_E189_E18A_E18B_E18C_E18D_E18E_E18F),
  (0x7859, 0xE190_E191_E192_E193_E194_E195_E196_E197_E198_E199_E19A_E19B),
  (0x7865, 0xE19C_E19D_E19E_E19F_E1A0_E1A1_E1A2_E1A3_E1A4_E1A5_E1A6_E1A7),
  (0x7871, 0xE1A8_E1A9_E1AA_E1AB_E1AC_E1AD_E1AE_E1AF_E1B0_E1B1_E1B2_E1B3),
  (0x787D, 0xE1B4_E1B5_E1B6),
  (0x7881, 0xE1B7_E1B8_E1B9_E1BA_E1BB_E1BC_E1BD_E1BE_E1BF_E1C0_E1C1_E1C2),
  (0x788D, 0xE1C3_E1C4_E1C5_E1C6_E1C7_E1C8_E1C9_E1CA_E1CB_E1CC_E1CD_E1CE),
  (0x7899, 0xE1CF_E1D0_E1D1_E1D2_E1D3_E1D4_E1D5_E1D6_E1D7_E1D8_E1D9_E1DA),
  (0x78A5, 0xE1DB_E1DC_E1DD_E1DE_E1DF_E1E0_E1E1_E1E2_E1E3_E1E4_E1E5_E1E6),
  (0x78B1, 0xE1E7_E1E8_E1E9_E1EA_E1EB_E1EC_E1ED_E1EE_E1EF_E1F0_E1F1_E1F2),
  (0x78BD, 0xE1F3_E1F4_E1F5_E1F6_E1F7_E1F8_E1F9_E1FA_E1FB_E1FC_E1FD_E1FE),
  (0x78C9, 0xE1FF_E200_E201_E202_E203_E204_E205_E206_E207_E208_E209_E20A),
  (0x78D5, 0xE20B_E20C_E20D_E20E_E20F_E210_E211_E212_E213_E214_E215_E216),
  (0x78E1, 0xE217_E218_E219_E21A_E21B_E21C_E21D_E21E_E21F_E220_E221_E222),
  (0x78ED, 0xE223_E224_E225_E226_E227_E228_E229_E22A_E22B_E22C_E22D_E22E),
  (0x78F9, 0xE22F_E230_E231_E232_E233),
  (0x7941, 0xE234_E235_E236_E237_E238_E239_E23A_E23B_E23C_E23D_E23E_E23F),
  (0x794D, 0xE240_E241_E242_E243_E244_E245_E246_E247_E248_E249_E24A_E24B),
  (0x7959, 0xE24C_E24D_E24E_E24F_E250_E251_E252_E253_E254_E255_E256_E257),
  (0x7965, 0xE258_E259_E25A_E25B_E25C_E25D_E25E_E25F_E260_E261_E262_E263),
  (0x7971, 0xE264_E265_E266_E267_E268_E269_E26A_E26B_E26C_E26D_E26E_E26F),
  (0x797D, 0xE270_E271_E272),
  (0x7981, 0xE273_E274_E275_E276_E277_E278_E279_E27A_E27B_E27C_E27D_E27E),
  (0x798D, 0xE27F_E280_E281_E282_E283_E284_E285_E286_E287_E288_E289_E28A),
  (0x7999, 0xE28B_E28C_E28D_E28E_E28F_E290_E291_E292_E293_E294_E295_E296),
  (0x79A5, 0xE297_E298_E299_E29A_E29B_E29C_E29D_E29E_E29F_E2A0_E2A1_E2A2),
  (0x79B1, 0xE2A3_E2A4_E2A5_E2A6_E2A7_E2A8_E2A9_E2AA_E2AB_E2AC_E2AD_E2AE),
  (0x79BD, 0xE2AF_E2B0_E2B1_E2B2_E2B3_E2B4_E2B5_E2B6_E2B7_E2B8_E2B9_E2BA),
  (0x79C9, 0xE2BB_E2BC_E2BD_E2BE_E2BF_E2C0_E2C1_E2C2_E2C3_E2C4_E2C5_E2C6),
  (0x79D5, 0xE2C7_E2C8_E2C9_E2CA_E2CB_E2CC_E2CD_E2CE_E2CF_E2D0_E2D1_E2D2),
  (0x79E1, 0xE2D3_E2D4_E2D5_E2D6_E2D7_E2D8_E2D9_E2DA_E2DB_E2DC_E2DD_E2DE),
  (0x79ED, 0xE2DF_E2E0_E2E1_E2E2_E2E3_E2E4_E2E5_E2E6_E2E7_E2E8_E2E9_E2EA),
  (0x79F9, 0xE2EB_E2EC_E2ED_E2EE_E2EF),
  (0x7A41, 0xE2F0_E2F1_E2F2_E2F3_E2F4_E2F5_E2F6_E2F7_E2F8_E2F9_E2FA_E2FB),
  (0x7A4D, 0xE2FC_E2FD_E2FE_E2FF_E300_E301_E302_E303_E304_E305_E306_E307),
  (0x7A59, 0xE308_E309_E30A_E30B_E30C_E30D_E30E_E30F_E310_E311_E312_E313),
  (0x7A65, 0xE314_E315_E316_E317_E318_E319_E31A_E31B_E31C_E31D_E31E_E31F),
  (0x7A71, 0xE320_E321_E322_E323_E324_E325_E326_E327_E328_E329_E32A_E32B),
  (0x7A7D, 0xE32C_E32D_E32E),
  (0x7A81, 0xE32F_E330_E331_E332_E333_E334_E335_E336_E337_E338_E339_E33A),
  (0x7A8D, 0xE33B_E33C_E33D_E33E_E33F_E340_E341_E342_E343_E344_E345_E346),
  (0x7A99, 0xE347_E348_E349_E34A_E34B_E34C_E34D_E34E_E34F_E350_E351_E352),
  (0x7AA5, 0xE353_E354_E355_E356_E357_E358_E359_E35A_E35B_E35C_E35D_E35E),
  (0x7AB1, 0xE35F_E360_E361_E362_E363_E364_E365_E366_E367_E368_E369_E36A),
  (0x7ABD, 0xE36B_E36C_E36D_E36E_E36F_E370_E371_E372_E373_E374_E375_E376),
  (0x7AC9, 0xE377_E378_E379_E37A_E37B_E37C_E37D_E37E_E37F_E380_E381_E382),
  (0x7AD5, 0xE383_E384_E385_E386_E387_E388_E389_E38A_E38B_E38C_E38D_E38E),
  (0x7AE1, 0xE38F_E390_E391_E392_E393_E394_E395_E396_E397_E398_E399_E39A),
  (0x7AED, 0xE39B_E39C_E39D_E39E_E39F_E3A0_E3A1_E3A2_E3A3_E3A4_E3A5_E3A6),
  (0x7AF9, 0xE3A7_E3A8_E3A9_E3AA_E3AB),
  (0x7B41, 0xE3AC_E3AD_E3AE_E3AF_E3B0_E3B1_E3B2_E3B3_E3B4_E3B5_E3B6_E3B7),
  (0x7B4D, 0xE3B8_E3B9_E3BA_E3BB_E3BC_E3BD_E3BE_E3BF_E3C0_E3C1_E3C2_E3C3),
  (0x7B59, 0xE3C4_E3C5_E3C6_E3C7_E3C8_E3C9_E3CA_E3CB_E3CC_E3CD_E3CE_E3CF),
  (0x7B65, 0xE3D0_E3D1_E3D2_E3D3_E3D4_E3D5_E3D6_E3D7_E3D8_E3D9_E3DA_E3DB),
  (0x7B71, 0xE3DC_E3DD_E3DE_E3DF_E3E0_E3E1_E3E2_E3E3_E3E4_E3E5_E3E6_E3E7),
  (0x7B7D, 0xE3E8_E3E9_E3EA),
  (0x7B81, 0xE3EB_E3EC_E3ED_E3EE_E3EF_E3F0_E3F1_E3F2_E3F3_E3F4_E3F5_E3F6),
  (0x7B8D, 0xE3F7_E3F8_E3F9_E3FA_E3FB_E3FC_E3FD_E3FE_E3FF_E400_E401_E402),
  (0x7B99, 0xE403_E404_E405_E406_E407_E408_E409_E40A_E40B_E40C_E40D_E40E),
  (0x7BA5, 0xE40F_E410_E411_E412_E413_E414_E415_E416_E417_E418_E419_E41A),
  (0x7BB1, 0xE41B_E41C_E41D_E41E_E41F_E420_E421_E422_E423_E424_E425_E426),
  (0x7BBD, 0xE427_E428_E429_E42A_E42B_E42C_E42D_E42E_E42F_E430_E431_E432),
  (0x7BC9, 0xE433_E434_E435_E436_E437_E438_E439_E43A_E43B_E43C_E43D_E43E),
  (0x7BD5, 0xE43F_E440_E441_E442_E443_E444_E445_E446_E447_E448_E449_E44A),
  (0x7BE1, 0xE44B_E44C_E44D_E44E_E44F_E450_E451_E452_E453_E454_E455_E456),
  (0x7BED, 0xE457_E458_E459_E45A_E45B_E45C_E45D_E45E_E45F_E460_E461_E462),
  (0x7BF9, 0xE463_E464_E465_E466_E467),
  (0x7C41, 0xE468_E469_E46A_E46B_E46C_E46D_E46E_E46F_E470_E471_E472_E473),
  (0x7C4D, 0xE474_E475_E476_E477_E478_E479_E47A_E47B_E47C_E47D_E47E_E47F),
  (0x7C59, 0xE480_E481_E482_E483_E484_E485_E486_E487_E488_E489_E48A_E48B),
  (0x7C65, 0xE48C_E48D_E48E_E48F_E490_E491_E492_E493_E494_E495_E496_E497),
  (0x7C71, 0xE498_E499_E49A_E49B_E49C_E49D_E49E_E49F_E4A0_E4A1_E4A2_E4A3),
  (0x7C7D, 0xE4A4_E4A5_E4A6),
  (0x7C81, 0xE4A7_E4A8_E4A9_E4AA_E4AB_E4AC_E4AD_E4AE_E4AF_E4B0_E4B1_E4B2),
  (0x7C8D, 0xE4B3_E4B4_E4B5_E4B6_E4B7_E4B8_E4B9_E4BA_E4BB_E4BC_E4BD_E4BE),
  (0x7C99, 0xE4BF_E4C0_E4C1_E4C2_E4C3_E4C4_E4C5_E4C6_E4C7_E4C8_E4C9_E4CA),
  (0x7CA5, 0xE4CB_E4CC_E4CD_E4CE_E4CF_E4D0_E4D1_E4D2_E4D3_E4D4_E4D5_E4D6),
  (0x7CB1, 0xE4D7_E4D8_E4D9_E4DA_E4DB_E4DC_E4DD_E4DE_E4DF_E4E0_E4E1_E4E2),
  (0x7CBD, 0xE4E3_E4E4_E4E5_E4E6_E4E7_E4E8_E4E9_E4EA_E4EB_E4EC_E4ED_E4EE),
  (0x7CC9, 0xE4EF_E4F0_E4F1_E4F2_E4F3_E4F4_E4F5_E4F6_E4F7_E4F8_E4F9_E4FA),
  (0x7CD5, 0xE4FB_E4FC_E4FD_E4FE_E4FF_E500_E501_E502_E503_E504_E505_E506),
  (0x7CE1, 0xE507_E508_E509_E50A_E50B_E50C_E50D_E50E_E50F_E510_E511_E512),
  (0x7CED, 0xE513_E514_E515_E516_E517_E518_E519_E51A_E51B_E51C_E51D_E51E),
  (0x7CF9, 0xE51F_E520_E521_E522_E523),
  (0x7D41, 0xE524_E525_E526_E527_E528_E529_E52A_E52B_E52C_E52D_E52E_E52F),
  (0x7D4D, 0xE530_E531_E532_E533_E534_E535_E536_E537_E538_E539_E53A_E53B),
  (0x7D59, 0xE53C_E53D_E53E_E53F_E540_E541_E542_E543_E544_E545_E546_E547),
  (0x7D65, 0xE548_E549_E54A_E54B_E54C_E54D_E54E_E54F_E550_E551_E552_E553),
  (0x7D71, 0xE554_E555_E556_E557_E558_E559_E55A_E55B_E55C_E55D_E55E_E55F),
  (0x7D7D, 0xE560_E561_E562),
  (0x7D81, 0xE563_E564_E565_E566_E567_E568_E569_E56A_E56B_E56C_E56D_E56E),
  (0x7D8D, 0xE56F_E570_E571_E572_E573_E574_E575_E576_E577_E578_E579_E57A),
  (0x7D99, 0xE57B_E57C_E57D_E57E_E57F_E580_E581_E582_E583_E584_E585_E586),
  (0x7DA5, 0xE587_E588_E589_E58A_E58B_E58C_E58D_E58E_E58F_E590_E591_E592),
  (0x7DB1, 0xE593_E594_E595_E596_E597_E598_E599_E59A_E59B_E59C_E59D_E59E),
  (0x7DBD, 0xE59F_E5A0_E5A1_E5A2_E5A3_E5A4_E5A5_E5A6_E5A7_E5A8_E5A9_E5AA),
  (0x7DC9, 0xE5AB_E5AC_E5AD_E5AE_E5AF_E5B0_E5B1_E5B2_E5B3_E5B4_E5B5_E5B6),
  (0x7DD5, 0xE5B7_E5B8_E5B9_E5BA_E5BB_E5BC_E5BD_E5BE_E5BF_E5C0_E5C1_E5C2),
  (0x7DE1, 0xE5C3_E5C4_E5C5_E5C6_E5C7_E5C8_E5C9_E5CA_E5CB_E5CC_E5CD_E5CE),
  (0x7DED, 0xE5CF_E5D0_E5D1_E5D2_E5D3_E5D4_E5D5_E5D6_E5D7_E5D8_E5D9_E5DA),
  (0x7DF9, 0xE5DB_E5DC_E5DD_E5DE_E5DF),
  (0x7E41, 0xE5E0_E5E1_E5E2_E5E3_E5E4_E5E5_E5E6_E5E7_E5E8_E5E9_E5EA_E5EB),
  (0x7E4D, 0xE5EC_E5ED_E5EE_E5EF_E5F0_E5F1_E5F2_E5F3_E5F4_E5F5_E5F6_E5F7),
  (0x7E59, 0xE5F8_E5F9_E5FA_E5FB_E5FC_E5FD_E5FE_E5FF_E600_E601_E602_E603),
  (0x7E65, 0xE604_E605_E606_E607_E608_E609_E60A_E60B_E60C_E60D_E60E_E60F),
  (0x7E71, 0xE610_E611_E612_E613_E614_E615_E616_E617_E618_E619_E61A_E61B),
  (0x7E7D, 0xE61C_E61D_E61E),
  (0x7E81, 0xE61F_E620_E621_E622_E623_E624_E625_E626_E627_E628_E629_E62A),
  (0x7E8D, 0xE62B_E62C_E62D_E62E_E62F_E630_E631_E632_E633_E634_E635_E636),
  (0x7E99, 0xE637_E638_E639_E63A_E63B_E63C_E63D_E63E_E63F_E640_E641_E642),
  (0x7EA5, 0xE643_E644_E645_E646_E647_E648_E649_E64A_E64B_E64C_E64D_E64E),
  (0x7EB1, 0xE64F_E650_E651_E652_E653_E654_E655_E656_E657_E658_E659_E65A),
  (0x7EBD, 0xE65B_E65C_E65D_E65E_E65F_E660_E661_E662_E663_E664_E665_E666),
  (0x7EC9, 0xE667_E668_E669_E66A_E66B_E66C_E66D_E66E_E66F_E670_E671_E672),
  (0x7ED5, 0xE673_E674_E675_E676_E677_E678_E679_E67A_E67B_E67C_E67D_E67E),
  (0x7EE1, 0xE67F_E680_E681_E682_E683_E684_E685_E686_E687_E688_E689_E68A),
  (0x7EED, 0xE68B_E68C_E68D_E68E_E68F_E690_E691_E692_E693_E694_E695_E696),
  (0x7EF9, 0xE697_E698_E699_E69A_E69B),
  (0x7F41, 0xE69C_E69D_E69E_E69F_E6A0_E6A1_E6A2_E6A3_E6A4_E6A5_E6A6_E6A7),
  (0x7F4D, 0xE6A8_E6A9_E6AA_E6AB_E6AC_E6AD_E6AE_E6AF_E6B0_E6B1_E6B2_E6B3),
  (0x7F59, 0xE6B4_E6B5_E6B6_E6B7_E6B8_E6B9_E6BA_E6BB_E6BC_E6BD_E6BE_E6BF),
  (0x7F65, 0xE6C0_E6C1_E6C2_E6C3_E6C4_E6C5_E6C6_E6C7_E6C8_E6C9_E6CA_E6CB),
  (0x7F71, 0xE6CC_E6CD_E6CE_E6CF_E6D0_E6D1_E6D2_E6D3_E6D4_E6D5_E6D6_E6D7),
  (0x7F7D, 0xE6D8_E6D9_E6DA),
  (0x7F81, 0xE6DB_E6DC_E6DD_E6DE_E6DF_E6E0_E6E1_E6E2_E6E3_E6E4_E6E5_E6E6),
  (0x7F8D, 0xE6E7_E6E8_E6E9_E6EA_E6EB_E6EC_E6ED_E6EE_E6EF_E6F0_E6F1_E6F2),
  (0x7F99, 0xE6F3_E6F4_E6F5_E6F6_E6F7_E6F8_E6F9_E6FA_E6FB_E6FC_E6FD_E6FE),
  (0x7FA5, 0xE6FF_E700_E701_E702_E703_E704_E705_E706_E707_E708_E709_E70A),
  (0x7FB1, 0xE70B_E70C_E70D_E70E_E70F_E710_E711_E712_E713_E714_E715_E716),
  (0x7FBD, 0xE717_E718_E719_E71A_E71B_E71C_E71D_E71E_E71F_E720_E721_E722),
  (0x7FC9, 0xE723_E724_E725_E726_E727_E728_E729_E72A_E72B_E72C_E72D_E72E),
  (0x7FD5, 0xE72F_E730_E731_E732_E733_E734_E735_E736_E737_E738_E739_E73A),
  (0x7FE1, 0xE73B_E73C_E73D_E73E_E73F_E740_E741_E742_E743_E744_E745_E746),
  (0x7FED, 0xE747_E748_E749_E74A_E74B_E74C_E74D_E74E_E74F_E750_E751_E752),
  (0x7FF9, 0xE753_E754_E755_E756_E757)]

/-- The lines of /repo/modules/to/IBM-935.txt: character, code; sorted.  All call the callback. -/
def writes935 : Chart := Chart.wide [
  (0x1, 0x0001_0002_0003_0037_002D_002E_002F_0016_0005_0025_000B_000C),
  (0xD, 0x000D_000E_000F_0010_0011_0012_0013_003C_003D_0032_0026_0018),
  (0x19, 0x0019_003F_0027_001C_001D_001E_001F_0040_005A_007F_007B_00E0),
  (0x25, 0x006C_0050_007D_004D_005D_005C_004E_006B_0060_004B_0061_00F0),
  (0x31, 0x00F1_00F2_00F3_00F4_00F5_00F6_00F7_00F8_00F9_007A_005E_004C),
  (0x3D, 0x007E_006E_006F_007C_00C1_00C2_00C3_00C4_00C5_00C6_00C7_00C8),
  (0x49, 0x00C9_00D1_00D2_00D3_00D4_00D5_00D6_00D7_00D8_00D9_00E2_00E3),
  (0x55, 0x00E4_00E5_00E6_00E7_00E8_00E9_00BA_00B2_00BB_00B0_006D_0079),
  (0x61, 0x0081_0082_0083_0084_0085_0086_0087_0088_0089_0091_0092_0093),
  (0x6D, 0x0094_0095_0096_0097_0098_0099_00A2_00A3_00A4_00A5_00A6_00A7),
  (0x79, 0x00A8_00A9_00C0_004F_00D0_00A0_0007_0020_0021_0022_0023_0024),
  (0x85, 0x0015_0006_0017_0028_0029_002A_002B_002C_0009_000A_001B_0030),
  (0x91, 0x0031_001A_0033_0034_0035_0036_0008_0038_0039_003A_003B_0004),
  (0x9D, 0x0014_003E_00FF),
  (0xA3, 0x004A_4588_005B_006A_446A_4460),
  (0xAC, 0x005F),
  (0xB0, 0x44ED_444B),
  (0xB4, 0x4450),
  (0xB7, 0x4345),
  (0xD7, 0x447A),
  (0xE0, 0x4644_4642),
  (0xE8, 0x4648_4646_465A),
  (0xEC, 0x464C_464A),
  (0xF2, 0x4650_464E),
  (0xF7, 0x447B),
  (0xF9, 0x4654_4652),
  (0xFC, 0x4659),
  (0x101, 0x4641),
  (0x113, 0x4645),
  (0x11B, 0x4647),
  (0x12B, 0x4649),
  (0x14D, 0x464D),
  (0x16B, 0x4651),
  (0x1CE, 0x4643),
  (0x1D0, 0x464B),
  (0x1D2, 0x464F),
  (0x1D4, 0x4653),
  (0x1D6, 0x4655),
  (0x1D8, 0x4656),
  (0x1DA, 0x4657),
  (0x1DC, 0x4658),
  (0x2C7, 0x4546),
  (0x2C9, 0x4545),
  (0x391, 0x4161_4162_4163_4164_4165_4166_4167_4168_4169_416A_416B_416C),
  (0x39D, 0x416D_416E_416F_4170_4171),
  (0x3A3, 0x4172_4173_4174_4175_4176_4177_4178),
  (0x3B1, 0x4141_4142_4143_4144_4145_4146_4147_4148_4149_414A_414B_414C),
  (0x3BD, 0x414D_414E_414F_4150_4151),
  (0x3C3, 0x4152_4153_4154_4155_4156_4157_4158),
  (0x401, 0x41C6),
  (0x410, 0x41C0_41C1_41C2_41C3_41C4_41C5_41C7_41C8_41C9_41CA_41CB_41CC),
  (0x41C, 0x41CD_41CE_41CF_41D0_41D1_41D2_41D3_41D4_41D5_41D6_41D7_41D8),
  (0x428, 0x41D9_41DA_41DB_41DC_41DD_41DE_41DF_41E0_4180_4181_4182_4183),
  (0x434, 0x4184_4185_4187_4188_4189_418A_418B_418C_418D_418E_418F_4190),
  (0x440, 0x4191_4192_4193_4194_4195_4196_4197_4198_4199_419A_419B_419C),
  (0x44C, 0x419D_419E_419F_41A0),
  (0x451, 0x4186),
  (0x2010, 0x445A),
  (0x2014, 0x444A_444A_447C),
  (0x2018, 0x4461_4471),
  (0x201C, 0x4462_4472),
  (0x2025, 0x447E_447F),
  (0x2030, 0x458B),
  (0x2032, 0x44EE_44EF),
  (0x203B, 0x446B),
  (0x203E, 0x00A1),
  (0x2103, 0x444E),
  (0x2116, 0x446E),
  (0x2121, 0x446F),
  (0x2160, 0x41F1_41F2_41F3_41F4_41F5_41F6_41F7_41F8_41F9_41FA_41FB_41FC),
  (0x2170, 0x41B1_41B2_41B3_41B4_41B5_41B6_41B7_41B8_41B9_41BA),
  (0x2190, 0x44F1_44F2_44F0_44F3),
  (0x2208, 0x4569),
  (0x220F, 0x4566),
  (0x2211, 0x4565),
  (0x221A, 0x456B),
  (0x221D, 0x4577_444D),
  (0x2220, 0x456E),
  (0x2225, 0x456D),
  (0x2227, 0x4563_4564_4568_4567_4571),
  (0x222E, 0x4572),
  (0x2234, 0x4468_4478_4562_456A),
  (0x223D, 0x4576),
  (0x2248, 0x4575),
  (0x224C, 0x4574),
  (0x2260, 0x444C_4573),
  (0x2264, 0x4467_4477),
  (0x226E, 0x4579_457A),
  (0x2299, 0x4570),
  (0x22A5, 0x456C),
  (0x2312, 0x456F),
  (0x2460, 0x45E1_45E2_45E3_45E4_45E5_45E6_45E7_45E8_45E9_45EA),
  (0x2474, 0x45C5_45C6_45C7_45C8_45C9_45CA_45CB_45CC_45CD_45CE_45CF_45D0),
  (0x2480, 0x45D1_45D2_45D3_45D4_45D5_45D6_45D7_45D8_45B1_45B2_45B3_45B4),
  (0x248C, 0x45B5_45B6_45B7_45B8_45B9_45BA_45BB_45BC_45BD_45BE_45BF_45C0),
  (0x2498, 0x45C1_45C2_45C3_45C4),
  (0x2500, 0x46A4_46A5_46A6_46A7_46A8_46A9_46AA_46AB_46AC_46AD_46AE_46AF),
  (0x250C, 0x46B0_46B1_46B2_46B3_46B4_46B5_46B6_46B7_46B8_46B9_46BA_46BB),
  (0x2518, 0x46BC_46BD_46BE_46BF_46C0_46C1_46C2_46C3_46C4_46C5_46C6_46C7),
  (0x2524, 0x46C8_46C9_46CA_46CB_46CC_46CD_46CE_46CF_46D0_46D1_46D2_46D3),
  (0x2530, 0x46D4_46D5_46D6_46D7_46D8_46D9_46DA_46DB_46DC_46DD_46DE_46DF),
  (0x253C, 0x46E0_46E1_46E2_46E3_46E4_46E5_46E6_46E7_46E8_46E9_46EA_46EB),
  (0x2548, 0x46EC_46ED_46EE_46EF),
  (0x25A0, 0x44EA_44E9),
  (0x25B2, 0x44E3_44E2),
  (0x25BC, 0x44EC_44EB),
  (0x25C6, 0x44E8_44E7),
  (0x25CB, 0x44E0),
  (0x25CE, 0x44E4_44E1),
  (0x2605, 0x44E6_44E5),
  (0x2640, 0x4479),
  (0x2642, 0x4469),
  (0x3000, 0x4040_4344_4341_445B),
  (0x3005, 0x445D_445E_445F_4464_4474_4465_4475_4342_4343_4442_4443_4466),
  (0x3011, 0x4476_446C_447D_4463_4473_455B_455C),
  (0x3041, 0x4447_4481_4448_4482_4449_4483_4451_4484_4452_4485_4486_44C0),
  (0x304D, 0x4487_44C1_4488_44C2_4489_44C3_448A_44C4_448C_44C5_448D_44C6),
  (0x3059, 0x448E_44C7_448F_44C8_4490_44C9_4491_44CA_4492_44CB_4456_4493),
  (0x3065, 0x44CC_4494_44CD_4495_44CE_4496_4497_4498_4499_449A_449D_44CF),
  (0x3071, 0x44D5_449E_44D0_44D6_449F_44D1_44D7_44A2_44D2_44D8_44A3_44D3),
  (0x307D, 0x44D9_44A4_44A5_44A6_44A7_44A8_4453_44A9_4454_44AA_4455_44AC),
  (0x3089, 0x44AD_44AE_44AF_44BA_44BB_4457_44BC_44DA_44DB_4446_44BD),
  (0x309B, 0x43BE_43BF_44DC_44DD),
  (0x30A1, 0x4347_4381_4348_4382_4349_4383_4351_4384_4352_4385_4386_43C0),
  (0x30AD, 0x4387_43C1_4388_43C2_4389_43C3_438A_43C4_438C_43C5_438D_43C6),
  (0x30B9, 0x438E_43C7_438F_43C8_4390_43C9_4391_43CA_4392_43CB_4356_4393),
  (0x30C5, 0x43CC_4394_43CD_4395_43CE_4396_4397_4398_4399_439A_439D_43CF),
  (0x30D1, 0x43D5_439E_43D0_43D6_439F_43D1_43D7_43A2_43D2_43D8_43A3_43D3),
  (0x30DD, 0x43D9_43A4_43A5_43A6_43A7_43A8_4353_43A9_4354_43AA_4355_43AC),
  (0x30E9, 0x43AD_43AE_43AF_43BA_43BB_4357_43BC_43DA_43DB_4346_43BD_43D4),
  (0x30F5, 0x4359_435A),
  (0x30FB, 0x4345_4358_43DC_43DD),
  (0x3105, 0x4665_4666_4667_4668_4669_466A_466B_466C_466D_466E_466F_4670),
  (0x3111, 0x4671_4672_4673_4674_4675_4676_4677_4678_4679_467A_467B_467C),
  (0x311D, 0x467D_467E_467F_4680_4681_4682_4683_4684_4685_4686_4687_4688),
  (0x3129, 0x4689),
  (0x3220, 0x45F1_45F2_45F3_45F4_45F5_45F6_45F7_45F8_45F9_45FA),
  (0x3231, 0x446D),
  (0x4E00, 0x59BA_4BA0),
  (0x4E03, 0x53DE),
  (0x4E07, 0x5793_5B69_54FC_556F_5862_5CA1_49BA_5A8C),
  (0x4E10, 0x5CA3_4A94),
  (0x4E13, 0x5C48_5472_5CA6_55BF),
  (0x4E18, 0x5491_499C_59B4_4AD3_4BAA_565F_5CA8),
  (0x4E22, 0x4BA9),
  (0x4E24, 0x515D_596F),
  (0x4E27, 0x5545_5CAC),
  (0x4E2A, 0x4CF5_595E_627C_5BCF),
  (0x4E30, 0x4C82),
  (0x4E32, 0x4AAD),
  (0x4E34, 0x5179),
  (0x4E36, 0x5CBB),
  (0x4E38, 0x5789_4B44_57A9_5BF6),
  (0x4E3D, 0x50F5_4FD8_5CAE),
  (0x4E43, 0x52CA),
  (0x4E45, 0x4FC2),
  (0x4E47, 0x5CB0_5254_59E4),
  (0x4E4B, 0x5BAD_57D9_5B47_4DF4_4C46_50D5),
  (0x4E52, 0x53B8_5372_5467),
  (0x4E56, 0x4D74),
  (0x4E58, 0x4A6B_59D1),
  (0x4E5C, 0x5CBE_4FC4_53F1_59B1_5850_5888),
  (0x4E66, 0x55E8),
  (0x4E69, 0x5CBF),
  (0x4E70, 0x51F1_51D1),
  (0x4E73, 0x54E8),
  (0x4E7E, 0x544C),
  (0x4E86, 0x516B),
  (0x4E88, 0x5A89_5B9A),
  (0x4E8B, 0x55C1_4BFD_5CA0_5A7A_5098),
  (0x4E91, 0x5AC5_4E45_5CC0_57E4_4FAD),
  (0x4E98, 0x5CA7),
  (0x4E9A, 0x5967_58A8),
  (0x4E9F, 0x5CBC_5D90_5797_505A),
  (0x4EA4, 0x4F5B_4DA4_59DF_49F9_4DDF_52B5),
  (0x4EAB, 0x588E_4FA8_5744_5161),
  (0x4EB2, 0x5477_5D92),
  (0x4EB5, 0x5D95),
  (0x4EBA, 0x54CA_5CE8),
  (0x4EBF, 0x59D9_55B1_54C9_5CEB_5CE9_5CC5_4F97_53CC_4A91),
  (0x4EC9, 0x5CEA_4F92_4F8A),
  (0x4ECD, 0x54D3_4AD2),
  (0x4ED1, 0x51D7),
  (0x4ED3, 0x49D5_5C70_55CA_569C_5B6C_4CB5_5869),
  (0x4EDD, 0x5D7A_5CEF_544A),
  (0x4EE1, 0x5CED),
  (0x4EE3, 0x4AF9_518F_59D3),
  (0x4EE8, 0x5CEC),
  (0x4EEA, 0x59C6_5CEE_5267),
  (0x4EF0, 0x5997),
  (0x4EF2, 0x5BD8_5CF1),
  (0x4EF5, 0x5CF4_4EFD_4EDA),
  (0x4EFB, 0x54CD),
  (0x4EFD, 0x4C7D),
  (0x4EFF, 0x4C62),
  (0x4F01, 0x53F2),
  (0x4F09, 0x5CF7_59C0),
  (0x4F0D, 0x57E8_4EBE_4C9D_4C45_58DC),
  (0x4F17, 0x5BD9_5A65_4E90_4E82_5CF0),
  (0x4F1E, 0x5541_57AF_4AAA),
  (0x4F22, 0x5CF2),
  (0x4F24, 0x556B_5CF5_51D6_5CF6),
  (0x4F2A, 0x57B0_5CF8),
  (0x4F2F, 0x49AD_4D60),
  (0x4F32, 0x5D43),
  (0x4F34, 0x48E8),
  (0x4F36, 0x5187),
  (0x4F38, 0x558D),
  (0x4F3A, 0x5665),
  (0x4F3C, 0x5666_5D44),
  (0x4F43, 0x4B89),
  (0x4F46, 0x4B4B),
  (0x4F4D, 0x57BA_4B6D_5C41_5C95_5A73),
  (0x4F53, 0x56E4),
  (0x4F55, 0x4DCD),
  (0x4F57, 0x5D42_5D7C_5A81_5CFC_4C91_5C98_5CFD_5CF9_5D41_52E2),
  (0x4F63, 0x5A56_5CF3_5D7D),
  (0x4F67, 0x5CFA),
  (0x4F69, 0x5386),
  (0x4F6C, 0x50CF),
  (0x4F6F, 0x5991_48DA),
  (0x4F73, 0x4ED0_5D46),
  (0x4F76, 0x5D45),
  (0x4F7B, 0x5D4C_5D4E),
  (0x4F7E, 0x5D4B_55B8),
  (0x4F83, 0x5D49_5BB5),
  (0x4F88, 0x4A7E_5D48),
  (0x4F8B, 0x50FC),
  (0x4F8D, 0x55CB),
  (0x4F8F, 0x5D4A),
  (0x4F91, 0x5D47),
  (0x4F94, 0x5D50),
  (0x4F97, 0x4BB0),
  (0x4F9B, 0x4D49),
  (0x4F9D, 0x59BF),
  (0x4FA0, 0x5860),
  (0x4FA3, 0x51C1),
  (0x4FA5, 0x4F64_5B8D_49DF_5468_508C_5D4D),
  (0x4FAC, 0x5D4F),
  (0x4FAE, 0x57E9_4DED),
  (0x4FB5, 0x5476),
  (0x4FBF, 0x4984),
  (0x4FC3, 0x4AD8_4BEC_5D54),
  (0x4FCA, 0x5041),
  (0x4FCE, 0x5D7E_546E_50FD_5D58),
  (0x4FD7, 0x5677_4C9E),
  (0x4FDA, 0x5D55),
  (0x4FDC, 0x5D57_4943_5A82_5D59),
  (0x4FE1, 0x58C4),
  (0x4FE3, 0x5D56),
  (0x4FE6, 0x5D51),
  (0x4FE8, 0x5D52_5149_5D53),
  (0x4FED, 0x4EF2_58DD_4CA8),
  (0x4FF1, 0x4FE2),
  (0x4FF3, 0x5D5D),
  (0x4FF8, 0x5D5A),
  (0x4FFA, 0x48B2),
  (0x4FFE, 0x5D62),
  (0x500C, 0x5D64_4956),
  (0x500F, 0x5D5F),
  (0x5012, 0x4B59),
  (0x5014, 0x4FF2),
  (0x5018, 0x56C7_4DF1_59CF),
  (0x501C, 0x5D63),
  (0x501F, 0x4F89),
  (0x5021, 0x4A4B),
  (0x5025, 0x5D65_4FEA),
  (0x5028, 0x5D66_5D5B_52DE),
  (0x502C, 0x5D5E_5D61_5D60),
  (0x503A, 0x5B4E),
  (0x503C, 0x5BB4),
  (0x503E, 0x5484),
  (0x5043, 0x5D68),
  (0x5047, 0x4ED8_5D6A),
  (0x504C, 0x5D5C),
  (0x504E, 0x5D6B_53AA),
  (0x5055, 0x5D69),
  (0x505A, 0x5C97),
  (0x505C, 0x5743),
  (0x5065, 0x4F41),
  (0x506C, 0x5D6C),
  (0x5076, 0x535C_5755),
  (0x507B, 0x5D6D),
  (0x507E, 0x5D67_4A45_509F),
  (0x5085, 0x4CB4),
  (0x5088, 0x50FB),
  (0x508D, 0x48F7),
  (0x50A3, 0x4AF5),
  (0x50A5, 0x5D6E),
  (0x50A7, 0x5D6F_4AA1_5D70),
  (0x50AC, 0x4ADE),
  (0x50B2, 0x48C0),
  (0x50BA, 0x5D71_5555),
  (0x50CF, 0x5892),
  (0x50D6, 0x5D72),
  (0x50DA, 0x5165),
  (0x50E6, 0x5D76_554E),
  (0x50EC, 0x5D75_5D74_5D77),
  (0x50F3, 0x567B),
  (0x50F5, 0x4F49),
  (0x50FB, 0x53A6),
  (0x5106, 0x5D73_5D78),
  (0x510B, 0x5D79),
  (0x5112, 0x54E4),
  (0x5121, 0x50DB),
  (0x513F, 0x4BF8_5CA2_5AC9),
  (0x5143, 0x5AA9_58D5_4A85_5B77),
  (0x5148, 0x5868_4D83),
  (0x514B, 0x506B),
  (0x514D, 0x5283),
  (0x5151, 0x4BD1),
  (0x5154, 0x5763_5D8F_5D91),
  (0x515A, 0x4B53),
  (0x515C, 0x4BB4),
  (0x5162, 0x4FA3),
  (0x5165, 0x54EA),
  (0x5168, 0x54AA),
  (0x516B, 0x48CA_4D4B_519A_5D83),
  (0x5170, 0x50BB_4D52),
  (0x5173, 0x4D78_58CA_4999_53E3_4FDE_4B85_5C68),
  (0x517B, 0x5999_4EE5_55DD),
  (0x5180, 0x4EBC_5D87_5CE6),
  (0x5185, 0x52D9),
  (0x5188, 0x4CD3_54BC),
  (0x518C, 0x49E0_5AD8),
  (0x5192, 0x5250),
  (0x5195, 0x5282_5DA1_54DE),
  (0x5199, 0x58B3),
  (0x519B, 0x4FFB_5349),
  (0x51A0, 0x4D7A),
  (0x51A2, 0x5DA2),
  (0x51A4, 0x5AA8_5DA3),
  (0x51AB, 0x5D9C_4BAB),
  (0x51AF, 0x4C8C_499A_5D9D_4A86_4FF5),
  (0x51B5, 0x5097_59B0_50E3),
  (0x51BB, 0x4BB2_5D9F_5D9E),
  (0x51C0, 0x4FBA),
  (0x51C4, 0x53DF),
  (0x51C6, 0x5C5C_5DA0),
  (0x51C9, 0x5159),
  (0x51CB, 0x4B93_5189),
  (0x51CF, 0x4EF4),
  (0x51D1, 0x4AD4),
  (0x51DB, 0x517D),
  (0x51DD, 0x52FC),
  (0x51E0, 0x4EB7_4C52),
  (0x51E4, 0x4C90),
  (0x51EB, 0x5D8D),
  (0x51ED, 0x53BD),
  (0x51EF, 0x504D_4E6B),
  (0x51F3, 0x4B6A),
  (0x51F5, 0x5E69_58D6),
  (0x51F8, 0x5759_48BB_4A97_4E98_5E6A_4DAE),
  (0x51FF, 0x5AE3_4B56_4B94_5CD5_54CF),
  (0x5206, 0x4C76_5470_5CD6),
  (0x520A, 0x504F),
  (0x520D, 0x5E5B_5CD7),
  (0x5211, 0x58CB_4E4E),
  (0x5216, 0x665E_5170_5196_5AF1_4CD4_4AB3),
  (0x521D, 0x4A96),
  (0x5220, 0x555E),
  (0x5224, 0x5370),
  (0x5228, 0x5379_50FA),
  (0x522B, 0x4991),
  (0x522D, 0x5CD8_4D6E),
  (0x5230, 0x4B5D),
  (0x5233, 0x5CD9),
  (0x5236, 0x5BC5_5642_54AE_5552_4ACB_506C),
  (0x523D, 0x4D95),
  (0x523F, 0x5CDA_5CDB_4BE6_4EC0_56E9),
  (0x524A, 0x5898),
  (0x524C, 0x5CDC_5450),
  (0x5250, 0x4D70_4F43),
  (0x5254, 0x56DD),
  (0x5256, 0x53C9),
  (0x525C, 0x5CDF),
  (0x525E, 0x5CDD),
  (0x5261, 0x5CDE),
  (0x5265, 0x48FD),
  (0x5267, 0x4FE6),
  (0x5269, 0x55A2_4EF3),
  (0x526F, 0x4CB0),
  (0x5272, 0x4CED),
  (0x527D, 0x5CE1),
  (0x527F, 0x4F6B),
  (0x5281, 0x5CE3_5CE2),
  (0x5288, 0x539D),
  (0x5290, 0x5CE4),
  (0x5293, 0x5CE5),
  (0x529B, 0x5146),
  (0x529D, 0x54AF_48EB_4D46_4ED2_57F0_5E5D_5173),
  (0x52A8, 0x4BAE_5BF9_534C_4F79_5E5E_5E5F),
  (0x52B1, 0x50F7_4FA1_50CC),
  (0x52BE, 0x5E60_55C5),
  (0x52C3, 0x49A9),
  (0x52C7, 0x5A62),
  (0x52C9, 0x5284),
  (0x52CB, 0x594B),
  (0x52D0, 0x5E62),
  (0x52D2, 0x50D4),
  (0x52D6, 0x5E63),
  (0x52D8, 0x5051),
  (0x52DF, 0x52BB),
  (0x52E4, 0x547A),
  (0x52F0, 0x5E64),
  (0x52F9, 0x5D89_5577),
  (0x52FE, 0x4D54_57EF_5AC7),
  (0x5305, 0x48FB_4AD1),
  (0x5308, 0x58D8),
  (0x530D, 0x5D8A),
  (0x530F, 0x5FCA_5D8C),
  (0x5315, 0x5CAF_4E4F_4951),
  (0x5319, 0x4A77_5CCD),
  (0x531D, 0x5AD0),
  (0x5320, 0x4F53_5090),
  (0x5323, 0x585B),
  (0x5326, 0x5CCF),
  (0x532A, 0x4C6B),
  (0x532E, 0x5CD0),
  (0x5339, 0x53A4_5499_59BC),
  (0x533E, 0x5CD1_52E3),
  (0x5341, 0x55AD),
  (0x5343, 0x5447),
  (0x5345, 0x5CA5),
  (0x5347, 0x559E_57E6_4E7C_48EA),
  (0x534E, 0x4E4A_58AC),
  (0x5351, 0x4950_5C85_5C5F),
  (0x5355, 0x4B45_51F3_52CE),
  (0x535A, 0x49A8),
  (0x535C, 0x49B6),
  (0x535E, 0x4986_6052_5B5C_5048_51AB_5CD4_51B0),
  (0x5366, 0x5CD3_57D3),
  (0x5369, 0x5DDF),
  (0x536B, 0x57BF),
  (0x536E, 0x5CB3_524E_5A41_57A2),
  (0x5373, 0x4EB3_54B3_51D0),
  (0x5377, 0x4FEC_58B5),
  (0x537A, 0x5DE0),
  (0x537F, 0x5485),
  (0x5382, 0x4A47),
  (0x5384, 0x4BF1_56FB_50F9),
  (0x5389, 0x50F6),
  (0x538B, 0x5959_5982_5CC6),
  (0x5395, 0x49DD),
  (0x5398, 0x50E4),
  (0x539A, 0x4DF0),
  (0x539D, 0x5CC7),
  (0x539F, 0x5AAC),
  (0x53A2, 0x5882_5CC8),
  (0x53A5, 0x5CC9_5863),
  (0x53A8, 0x4A99_4FC6),
  (0x53AE, 0x5CCA),
  (0x53B6, 0x5E6C),
  (0x53BB, 0x54A4),
  (0x53BF, 0x5878),
  (0x53C1, 0x54FD_49CD),
  (0x53C8, 0x5A76_49E5_4EAF_5A71_564B_4C54),
  (0x53D1, 0x4C42),
  (0x53D4, 0x55E4),
  (0x53D6, 0x54A0_55DB_4985_58EF),
  (0x53DB, 0x5371),
  (0x53DF, 0x5E65_4B9F),
  (0x53E3, 0x507A_4D65_4FE3_518E),
  (0x53E8, 0x6056_6055_5BBA_4F70_5B79_48C7_4BA2_5069_56A7_6053_55B6_5A72),
  (0x53F5, 0x5CCE_59B5_4DC4_565E_56BD),
  (0x53FB, 0x6057_4B91_6054),
  (0x5401, 0x5A96),
  (0x5403, 0x4A74_4CF6),
  (0x5406, 0x605A),
  (0x5408, 0x4DCE_4EA9_4B96),
  (0x540C, 0x574C_529C_4DF2_50F3_5762_5893_6058_5865),
  (0x5415, 0x51BF_6059_51EF),
  (0x541B, 0x4FFC),
  (0x541D, 0x517F_576C_59F6_4C6D_6061),
  (0x5423, 0x6064),
  (0x5426, 0x4C92_48C8_4BD5_4C74),
  (0x542B, 0x4DAB_56FC_5074_5651_53F3),
  (0x5431, 0x5BA7_6065),
  (0x5434, 0x57E1_4A53),
  (0x5438, 0x57FB_4AB4),
  (0x543B, 0x57C6_4DEF),
  (0x543E, 0x57E0),
  (0x5440, 0x595D),
  (0x5443, 0x6060),
  (0x5446, 0x4AF3),
  (0x5448, 0x4A6A),
  (0x544A, 0x4CE5_605B),
  (0x5450, 0x52C4),
  (0x5452, 0x605C_605D_605E_535B_605F_6062_5AB0_6063),
  (0x545B, 0x545A_57D7),
  (0x5462, 0x52D7),
  (0x5464, 0x606A),
  (0x5466, 0x606F),
  (0x5468, 0x5BDB),
  (0x5471, 0x6069_607A_57B5),
  (0x5475, 0x4DC6_606E_6068_537E),
  (0x547B, 0x558C_4DF3_529D),
  (0x5480, 0x4FD6),
  (0x5482, 0x6066),
  (0x5484, 0x606D),
  (0x5486, 0x5378),
  (0x548B, 0x5B46_4DCC),
  (0x548E, 0x4FCB_5A5D_4CBF),
  (0x5492, 0x5BE3),
  (0x5494, 0x6067_4D5E_5047),
  (0x5499, 0x519D_606B_606C),
  (0x549D, 0x6070),
  (0x54A3, 0x607B_6086),
  (0x54A6, 0x6077_6076_5C69_6084_6085_638C_59A6_6072),
  (0x54AF, 0x5049),
  (0x54B1, 0x5ADA),
  (0x54B3, 0x5068_6074),
  (0x54B8, 0x586C),
  (0x54BB, 0x607D),
  (0x54BD, 0x596A),
  (0x54BF, 0x607E_48A6_53B6_6073),
  (0x54C4, 0x4DE4),
  (0x54C6, 0x4BDE_577B_4D9F_5AD4),
  (0x54CC, 0x607F_588D_48A4_6088_6071_5966_6075_6078_6079_607C),
  (0x54D7, 0x4E49),
  (0x54D9, 0x6081_6082),
  (0x54DC, 0x6083_6087_6089_5A54),
  (0x54E5, 0x4CE6_5356_608B_557A_5148_52C3),
  (0x54ED, 0x507E_5899),
  (0x54F2, 0x5B7C_608F),
  (0x54FA, 0x49B7),
  (0x54FC, 0x4DDE_608D),
  (0x54FF, 0x5E61),
  (0x5501, 0x5985),
  (0x5506, 0x5695_4ABC),
  (0x5509, 0x48A5),
  (0x550F, 0x6092_56C5_6093),
  (0x5514, 0x608E),
  (0x551B, 0x608A),
  (0x5520, 0x608C),
  (0x5522, 0x6090_6091_4E5D),
  (0x5527, 0x6094),
  (0x552A, 0x6095),
  (0x552C, 0x4E43),
  (0x552E, 0x55DA_57A7_60A6_4A4A),
  (0x5533, 0x60A5),
  (0x5537, 0x60A0),
  (0x553C, 0x609F),
  (0x553E, 0x5779_609D),
  (0x5541, 0x609B),
  (0x5543, 0x5070_5C64),
  (0x5546, 0x556C),
  (0x5549, 0x6099_48A0),
  (0x5550, 0x609E),
  (0x5555, 0x609C_60A1),
  (0x555C, 0x60A7),
  (0x5561, 0x4C68),
  (0x5564, 0x53A0_5556_50B1_6096),
  (0x556A, 0x535E),
  (0x556C, 0x5CC3_609A_52F5),
  (0x5575, 0x60A2_60A3_60A4_58A4),
  (0x557B, 0x60B3_56E3),
  (0x557E, 0x60B0),
  (0x5580, 0x5046_60AE_57B8_60AA_5566),
  (0x5587, 0x50AD_60AD_4DEC_4DAF_60A8),
  (0x558F, 0x6097),
  (0x5591, 0x60B2),
  (0x5594, 0x60B7),
  (0x5598, 0x4AAC_60B8),
  (0x559C, 0x5852_4DC7),
  (0x559F, 0x60AF),
  (0x55A7, 0x58F9),
  (0x55B1, 0x60AB),
  (0x55B3, 0x5AFA),
  (0x55B5, 0x6098),
  (0x55B7, 0x5388),
  (0x55B9, 0x60AC),
  (0x55BB, 0x5A98),
  (0x55BD, 0x60B5_60B6),
  (0x55C4, 0x60C3_58E0),
  (0x55C9, 0x60BB),
  (0x55CC, 0x60C8_60C9),
  (0x55D1, 0x60BD_60A9_5544_60C0),
  (0x55D6, 0x60B1),
  (0x55DC, 0x55C7_60C2),
  (0x55DF, 0x60B4),
  (0x55E1, 0x57CA),
  (0x55E3, 0x5663_60CC_60C5_60C1),
  (0x55E8, 0x60CA),
  (0x55EA, 0x60B9_60BE_60BF),
  (0x55EF, 0x60C4),
  (0x55F2, 0x60C6_60C7),
  (0x55F5, 0x60CB),
  (0x55F7, 0x60BA),
  (0x55FD, 0x5674_60D4),
  (0x5600, 0x60D5_60D1),
  (0x5608, 0x60CF_4ECD),
  (0x560C, 0x60D0),
  (0x560E, 0x4CC1_5CC4),
  (0x5618, 0x58E9),
  (0x561B, 0x51EE),
  (0x561E, 0x60CE_60BC),
  (0x5623, 0x60D3_60D2),
  (0x5627, 0x60D6),
  (0x562C, 0x60DB_60D7),
  (0x5631, 0x5BF5_4A50),
  (0x5634, 0x5C8D),
  (0x5636, 0x565B),
  (0x5639, 0x60D9),
  (0x563B, 0x57FA),
  (0x563F, 0x4DD8),
  (0x564C, 0x60E0_60DC_59AC),
  (0x5654, 0x60E1),
  (0x5657, 0x60DA_60D8_60DE),
  (0x565C, 0x60DF),
  (0x5662, 0x60DD),
  (0x5664, 0x60E3),
  (0x5668, 0x53F6_5CAB_5AEA_60E5_55C8),
  (0x5671, 0x60E4),
  (0x5676, 0x4CC0),
  (0x567B, 0x60E6_60E7),
  (0x5685, 0x60E8_60E2),
  (0x568E, 0x4DBE_56E6),
  (0x5693, 0x60E9),
  (0x56A3, 0x589A),
  (0x56AF, 0x60EA),
  (0x56B7, 0x54C1),
  (0x56BC, 0x4F60),
  (0x56CA, 0x52D1),
  (0x56D4, 0x60EB),
  (0x56D7, 0x60EC),
  (0x56DA, 0x5495_5664),
  (0x56DD, 0x60ED_4E78_5CB5_59F1_60EE_5765),
  (0x56E4, 0x4BD9),
  (0x56EB, 0x60F0),
  (0x56ED, 0x5AAF),
  (0x56F0, 0x50A6_4AD0),
  (0x56F4, 0x57A6_60EF),
  (0x56F9, 0x60F1_4D6C),
  (0x56FD, 0x4D9B_575C_60F2),
  (0x5703, 0x53D3_60F3),
  (0x5706, 0x5AB1),
  (0x5708, 0x54A5_60F5_60F4),
  (0x571C, 0x60F6),
  (0x571F, 0x5761),
  (0x5723, 0x55A4),
  (0x5728, 0x5AD9_5E77_5E79),
  (0x572C, 0x5E78_4D88_5E7C_5E7D_4B78),
  (0x5733, 0x5E7A),
  (0x5739, 0x5E7B_4A41_5E7F),
  (0x573E, 0x4E99),
  (0x5740, 0x5BB6),
  (0x5742, 0x5E81),
  (0x5747, 0x4FF8),
  (0x574A, 0x4C5B),
  (0x574C, 0x5E70_56AD_5052_4E55_5C99_5073),
  (0x5757, 0x508A),
  (0x575A, 0x4EE0_56B2_5E7E_48D2_57EA_4C78_5C59_53C1),
  (0x5764, 0x50A3),
  (0x5766, 0x56B8),
  (0x5768, 0x5E88_5E82_53B9_5E84),
  (0x576D, 0x5E89),
  (0x576F, 0x5398),
  (0x5773, 0x5E8B),
  (0x5776, 0x5E8A_5060),
  (0x577B, 0x5E87_5E86),
  (0x5782, 0x4AB8_50AB_51A1_5E83_5E85),
  (0x578B, 0x58CC_5E8E),
  (0x5792, 0x50DC_5E93),
  (0x579B, 0x4BE1),
  (0x57A0, 0x5E94_5E72_4D58_5AAA_5E8D),
  (0x57A6, 0x5071_5E91),
  (0x57A9, 0x5E71),
  (0x57AB, 0x4B87),
  (0x57AD, 0x5E8C_5086),
  (0x57B2, 0x5E8F),
  (0x57B4, 0x5E92),
  (0x57B8, 0x5E9A),
  (0x57C2, 0x4D41_48A2),
  (0x57CB, 0x51F0),
  (0x57CE, 0x4A67_5E90),
  (0x57D2, 0x5E99),
  (0x57D4, 0x53D1_5E95),
  (0x57D8, 0x5E96_5E98_5E97),
  (0x57DD, 0x5E9F),
  (0x57DF, 0x5A93_49B9),
  (0x57E4, 0x5E9E),
  (0x57ED, 0x5EA3),
  (0x57EF, 0x5E9C),
  (0x57F4, 0x5E9B),
  (0x57F8, 0x5E9D_5381_4E9A),
  (0x57FD, 0x5EA2),
  (0x5800, 0x5EA4),
  (0x5802, 0x56C2),
  (0x5806, 0x4BD0_5F60),
  (0x580B, 0x5EA0),
  (0x580D, 0x5EA1),
  (0x5811, 0x5455),
  (0x5815, 0x4BE8),
  (0x5819, 0x5EA6),
  (0x581E, 0x5EA5),
  (0x5820, 0x5EA8_4944),
  (0x5824, 0x4B6C),
  (0x582A, 0x5050),
  (0x5830, 0x597F),
  (0x5835, 0x4BC1),
  (0x5844, 0x5EA7),
  (0x584C, 0x569B_6694),
  (0x5851, 0x567C),
  (0x5854, 0x569F),
  (0x5858, 0x56C0),
  (0x585E, 0x54FA),
  (0x5865, 0x5EA9),
  (0x586B, 0x56ED_5EAA),
  (0x587E, 0x5E73),
  (0x5880, 0x5EAE_5EAB),
  (0x5883, 0x4FB2),
  (0x5885, 0x55FA),
  (0x5889, 0x5EAC),
  (0x5892, 0x556A_52B8),
  (0x5899, 0x545D_5EAD),
  (0x589E, 0x5AF5_58E5),
  (0x58A8, 0x52AA_4BD4),
  (0x58BC, 0x5E74),
  (0x58C1, 0x497A),
  (0x58C5, 0x5E75),
  (0x58D1, 0x5E76),
  (0x58D5, 0x4DBD),
  (0x58E4, 0x54BF),
  (0x58EB, 0x55BE_54C8),
  (0x58EE, 0x5C53),
  (0x58F0, 0x559A),
  (0x58F3, 0x5067),
  (0x58F6, 0x4DF7),
  (0x58F9, 0x59BB),
  (0x5902, 0x61B9),
  (0x5904, 0x4AA5),
  (0x5907, 0x4958),
  (0x590D, 0x4CB3),
  (0x590F, 0x5864),
  (0x5914, 0x5D88_5846_5783),
  (0x5919, 0x5D8E_4BDF),
  (0x591C, 0x59B8),
  (0x591F, 0x4D5B),
  (0x5924, 0x61B8_61B6),
  (0x5927, 0x4AF2),
  (0x5929, 0x56EB_56AA_4C93),
  (0x592D, 0x5CB1_598C_4DBA),
  (0x5931, 0x55A6),
  (0x5934, 0x5757),
  (0x5937, 0x59C3_5085_4ECF_4BE0),
  (0x593C, 0x5FC4),
  (0x5941, 0x5FC5_5E5C),
  (0x5944, 0x5979),
  (0x5947, 0x53E5_52CD_4C8F),
  (0x594B, 0x4C7C),
  (0x594E, 0x509D_5C81),
  (0x5951, 0x53F4),
  (0x5954, 0x495C_5FC7_4F51_56D6_5FC9),
  (0x595A, 0x5FC8),
  (0x5960, 0x4B8D),
  (0x5962, 0x557D),
  (0x5965, 0x48C1),
  (0x5973, 0x534E_534B),
  (0x5976, 0x52CB),
  (0x5978, 0x4EE8_569E),
  (0x597D, 0x4DC2),
  (0x5981, 0x639A_54E6_639B_579E),
  (0x5986, 0x5C51_4CBD_51E7),
  (0x598A, 0x54D0),
  (0x598D, 0x639C),
  (0x5992, 0x4BC9_4ECA),
  (0x5996, 0x599E_63A0),
  (0x5999, 0x528F),
  (0x599E, 0x63A3),
  (0x59A3, 0x639F_63A4_5777),
  (0x59A8, 0x4C61_639D_639E_63A2),
  (0x59AE, 0x52DC_63A7),
  (0x59B2, 0x63A6),
  (0x59B9, 0x5263),
  (0x59BB, 0x53DD),
  (0x59BE, 0x63A9),
  (0x59C6, 0x52B6),
  (0x59CA, 0x63A1_55BB),
  (0x59D0, 0x4F84_4D63_63A5_58D4_57AE),
  (0x59D7, 0x63A8_63AF),
  (0x59DA, 0x59A5),
  (0x59DC, 0x4F4A_63AC),
  (0x59E3, 0x63AE),
  (0x59E5, 0x50D0),
  (0x59E8, 0x59CB),
  (0x59EC, 0x4EA6),
  (0x59F9, 0x63B0),
  (0x59FB, 0x59F5),
  (0x59FF, 0x5C6B),
  (0x5A01, 0x579F),
  (0x5A03, 0x577E_51A5_63AA_63AB_4F5F_63AD_63B2),
  (0x5A0C, 0x63B1),
  (0x5A11, 0x63B5),
  (0x5A13, 0x63B7),
  (0x5A18, 0x52EE),
  (0x5A1C, 0x52C7),
  (0x5A1F, 0x4FE9_5590),
  (0x5A23, 0x63B6),
  (0x5A25, 0x4BEF),
  (0x5A29, 0x5285),
  (0x5A31, 0x5A8A_63B3),
  (0x5A34, 0x63B4),
  (0x5A36, 0x54A1),
  (0x5A3C, 0x63BC),
  (0x5A40, 0x63B8),
  (0x5A46, 0x53C4),
  (0x5A49, 0x5792_63BA),
  (0x5A55, 0x63BB),
  (0x5A5A, 0x4E8A),
  (0x5A62, 0x63BD),
  (0x5A67, 0x63B9),
  (0x5A6A, 0x50B6),
  (0x5A74, 0x5A44_63BE_5595_63C2),
  (0x5A7A, 0x63C3),
  (0x5A7F, 0x58F5),
  (0x5A92, 0x525D),
  (0x5A9A, 0x5264_63C1),
  (0x5AAA, 0x63C0),
  (0x5AB2, 0x63C6_5851),
  (0x5AB5, 0x6695),
  (0x5AB8, 0x63C9),
  (0x5ABE, 0x63C4),
  (0x5AC1, 0x4EDD_5549),
  (0x5AC9, 0x4EB4),
  (0x5ACC, 0x5873),
  (0x5AD2, 0x63C7),
  (0x5AD4, 0x63C8),
  (0x5AD6, 0x63CD),
  (0x5AD8, 0x63CF),
  (0x5ADC, 0x63D0),
  (0x5AE0, 0x63CA_4B75),
  (0x5AE3, 0x63CB),
  (0x5AE6, 0x63CE),
  (0x5AE9, 0x52DA),
  (0x5AEB, 0x63C5),
  (0x5AF1, 0x63CC),
  (0x5B09, 0x63D1),
  (0x5B16, 0x63D3_63D2),
  (0x5B32, 0x63D4),
  (0x5B34, 0x5D99),
  (0x5B37, 0x63D5),
  (0x5B40, 0x63D6),
  (0x5B50, 0x5C73_63DC),
  (0x5B53, 0x63DD_5077_5ACF),
  (0x5B57, 0x5C76_4AE5_5690_63D9_5CC2_5C6E_58A1),
  (0x5B5F, 0x526F),
  (0x5B62, 0x63DE_4EBD_4D62_63DA_5947),
  (0x5B69, 0x4DA1_51CE),
  (0x5B6C, 0x5CAA),
  (0x5B70, 0x55EA_638F),
  (0x5B73, 0x63DB),
  (0x5B75, 0x4C96),
  (0x5B7A, 0x54E5),
  (0x5B7D, 0x52F4),
  (0x5B80, 0x6352_52FD),
  (0x5B83, 0x569D_6353_5B4C),
  (0x5B87, 0x5A8F_55D7_48B1),
  (0x5B8B, 0x566E_578B),
  (0x5B8F, 0x4DE9),
  (0x5B93, 0x6355),
  (0x5B95, 0x6354),
  (0x5B97, 0x5C7A_4D79_5BE5_4BA7_5791_59CA_4946_55B4),
  (0x5BA0, 0x4A89_5594_506D_58FA_55D1_6356_4E62),
  (0x5BAA, 0x587C_4D4C),
  (0x5BB0, 0x5AD6),
  (0x5BB3, 0x4DA5_5988_589D_4ED1),
  (0x5BB8, 0x6357_54DC),
  (0x5BBD, 0x508E_4997_567E),
  (0x5BC2, 0x4EC4),
  (0x5BC4, 0x4EC3_59F9_527C_507C),
  (0x5BCC, 0x4CBA),
  (0x5BD0, 0x5262),
  (0x5BD2, 0x4DAD_5AA1),
  (0x5BDD, 0x547E_52AE_49EB),
  (0x5BE1, 0x4D71),
  (0x5BE4, 0x635B_5168),
  (0x5BE8, 0x5B4F),
  (0x5BEE, 0x635C),
  (0x5BF0, 0x635E),
  (0x5BF8, 0x4AE6_4BD3_5662_5950_4B5C),
  (0x5BFF, 0x55D8),
  (0x5C01, 0x4C83),
  (0x5C04, 0x5585),
  (0x5C06, 0x4F4B),
  (0x5C09, 0x57BD_5C91),
  (0x5C0F, 0x58A0),
  (0x5C11, 0x5579),
  (0x5C14, 0x4BFA_63D7_4EE1),
  (0x5C18, 0x4A5E),
  (0x5C1A, 0x5570),
  (0x5C1C, 0x63D8_4A42),
  (0x5C22, 0x5FCB),
  (0x5C24, 0x5A68_5FCC),
  (0x5C27, 0x59A1),
  (0x5C2C, 0x5FCD),
  (0x5C31, 0x4FCC),
  (0x5C34, 0x5FCE),
  (0x5C38, 0x55AB_59FB_4A7F_638B_52E0_4FA0_57B1_52F1_4FD5_53A7_49E2),
  (0x5C45, 0x4FD2),
  (0x5C48, 0x549D_56EA_4F8D_57DC),
  (0x5C4E, 0x55B9_53C0_638D_58BB),
  (0x5C55, 0x5B59),
  (0x5C59, 0x638E),
  (0x5C5E, 0x55F3),
  (0x5C60, 0x5760_51C4),
  (0x5C63, 0x6390),
  (0x5C65, 0x51C3_6391),
  (0x5C6E, 0x6399_576D),
  (0x5C71, 0x555D),
  (0x5C79, 0x59D8_6148),
  (0x5C7F, 0x5A8D),
  (0x5C81, 0x568B_53F0),
  (0x5C88, 0x614C),
  (0x5C8C, 0x6147_6149),
  (0x5C90, 0x614A_614F),
  (0x5C94, 0x49EC),
  (0x5C96, 0x614B_4CD9_614D_614E_6150_4B5A_6151),
  (0x5CA2, 0x6153_6158),
  (0x5CA9, 0x5972),
  (0x5CAB, 0x6156_6155_518C),
  (0x5CB1, 0x6157),
  (0x5CB3, 0x5ABF),
  (0x5CB5, 0x6152),
  (0x5CB7, 0x615A_48B5),
  (0x5CBD, 0x6154),
  (0x5CBF, 0x509A),
  (0x5CC1, 0x6159),
  (0x5CC4, 0x615B),
  (0x5CCB, 0x615E),
  (0x5CD2, 0x615C),
  (0x5CD9, 0x5BC4),
  (0x5CE1, 0x585F),
  (0x5CE4, 0x615D_615F_51CC),
  (0x5CE8, 0x4BEA),
  (0x5CEA, 0x5A99),
  (0x5CED, 0x546D),
  (0x5CF0, 0x4C86),
  (0x5CFB, 0x4FFD),
  (0x5D02, 0x6160_6161),
  (0x5D06, 0x6167_4A88),
  (0x5D0E, 0x53E8),
  (0x5D14, 0x4ADD),
  (0x5D16, 0x5962),
  (0x5D1B, 0x6168),
  (0x5D1E, 0x6166),
  (0x5D24, 0x6165),
  (0x5D26, 0x6163_6162),
  (0x5D29, 0x4960),
  (0x5D2D, 0x5B58_6164),
  (0x5D34, 0x616B),
  (0x5D3D, 0x616C_616A),
  (0x5D47, 0x689B),
  (0x5D4A, 0x6173_6172_5456),
  (0x5D58, 0x6169),
  (0x5D5B, 0x616E),
  (0x5D5D, 0x6170),
  (0x5D69, 0x6174),
  (0x5D6B, 0x6171_616D),
  (0x5D6F, 0x616F),
  (0x5D74, 0x6175),
  (0x5D82, 0x6176),
  (0x5D99, 0x6177),
  (0x5D9D, 0x6178),
  (0x5DB7, 0x617A),
  (0x5DC5, 0x617B),
  (0x5DCD, 0x57A0),
  (0x5DDB, 0x647D),
  (0x5DDD, 0x4AA7_5BDC),
  (0x5DE1, 0x5952_4A52),
  (0x5DE5, 0x4D44_5C94_5469_4FDD_4D4E),
  (0x5DEB, 0x57D6),
  (0x5DEE, 0x49ED_5E6F),
  (0x5DF1, 0x4EB9_59D0_5668_48CC),
  (0x5DF7, 0x5890),
  (0x5DFD, 0x5D84_4F8E),
  (0x5E01, 0x4972_55CF_49BB),
  (0x5E05, 0x5647_4C4B),
  (0x5E08, 0x55A5),
  (0x5E0C, 0x5843),
  (0x5E0F, 0x60F7_5B6A_60FA),
  (0x5E14, 0x60F9_5361_56FA),
  (0x5E18, 0x5151_60F8_5BE2_49AE_5BC3_4B7B),
  (0x5E26, 0x4AF7_5BA0),
  (0x5E2D, 0x584F_48EE),
  (0x5E31, 0x60FB),
  (0x5E37, 0x6141_4A43),
  (0x5E3B, 0x60FC_60FD_5251),
  (0x5E42, 0x527D),
  (0x5E44, 0x6142_4C9A),
  (0x5E4C, 0x4E6F),
  (0x5E54, 0x6143_52BA),
  (0x5E5B, 0x6144),
  (0x5E5E, 0x6145),
  (0x5E61, 0x6146_4AB0),
  (0x5E72, 0x4CC8_53BC_52E9),
  (0x5E76, 0x49A1),
  (0x5E78, 0x58D1),
  (0x5E7A, 0x647B_4E63_5A77_5A64),
  (0x5E7F, 0x4D84_61CE),
  (0x5E84, 0x5C4F),
  (0x5E86, 0x548D_4973),
  (0x5E8A, 0x4AB1_61D0),
  (0x5E8F, 0x58F1_51AD_61CF),
  (0x5E93, 0x5083_5A46_4B77_61D1_4B8B),
  (0x5E99, 0x528E_4CFC),
  (0x5E9C, 0x4CAD),
  (0x5E9E, 0x5373_4C6F_61D3),
  (0x5EA5, 0x61D2_4BC7_5C9A),
  (0x5EAD, 0x5745),
  (0x5EB3, 0x61D7),
  (0x5EB5, 0x61D5_55FB_5055_5A59_61D4),
  (0x5EBE, 0x61D6),
  (0x5EC9, 0x514E_50C7),
  (0x5ED1, 0x61DA_61D9_50A9),
  (0x5ED6, 0x516E),
  (0x5EDB, 0x61DB),
  (0x5EE8, 0x61DC),
  (0x5EEA, 0x61DD),
  (0x5EF4, 0x5E68),
  (0x5EF6, 0x5973_5742),
  (0x5EFA, 0x4F48),
  (0x5EFE, 0x5FC2_5CA4_504A_5E6D_59EB_53F9_534A),
  (0x5F08, 0x5FC3),
  (0x5F0A, 0x4977_604E),
  (0x5F0F, 0x55BC),
  (0x5F11, 0x6051),
  (0x5F13, 0x4D4D),
  (0x5F15, 0x59FC),
  (0x5F17, 0x4CA4_4DEA),
  (0x5F1B, 0x4A7A),
  (0x5F1F, 0x4B7C_5B65),
  (0x5F25, 0x5276_5872_4E41),
  (0x5F29, 0x6394_6393),
  (0x5F2D, 0x6395),
  (0x5F2F, 0x5785),
  (0x5F31, 0x54F4),
  (0x5F39, 0x4B4F_545F),
  (0x5F3C, 0x6397),
  (0x5F40, 0x66AF),
  (0x5F50, 0x6387),
  (0x5F52, 0x4D8A_4B51),
  (0x5F55, 0x51BB_6389_6388_638A),
  (0x5F5D, 0x59CC),
  (0x5F61, 0x618B_58CD),
  (0x5F64, 0x574E),
  (0x5F66, 0x5986),
  (0x5F69, 0x49C9_498C),
  (0x5F6C, 0x4993_538E),
  (0x5F70, 0x5B63_5A50),
  (0x5F73, 0x617C),
  (0x5F77, 0x617D),
  (0x5F79, 0x59DA),
  (0x5F7B, 0x4A59_496B),
  (0x5F80, 0x579A_5B98_617E),
  (0x5F84, 0x4FB5_4AFC),
  (0x5F87, 0x617F_4DDB_6181_4E52_51C8_6182),
  (0x5F90, 0x58EB),
  (0x5F92, 0x575D),
  (0x5F95, 0x6183),
  (0x5F97, 0x4B63_5367_6184),
  (0x5F9C, 0x6185),
  (0x5FA1, 0x5A9A),
  (0x5FA8, 0x6186),
  (0x5FAA, 0x594D),
  (0x5FAD, 0x6187_57A1),
  (0x5FB5, 0x6188),
  (0x5FB7, 0x4B62),
  (0x5FBC, 0x6189_4E75),
  (0x5FC3, 0x58C3_61DF_4978_59E3),
  (0x5FC9, 0x61E0),
  (0x5FCC, 0x4EC8_54CB),
  (0x5FCF, 0x61E2_66FD_66FC_604F),
  (0x5FD6, 0x61E1_5BBD_579D_5246),
  (0x5FDD, 0x6263),
  (0x5FE0, 0x5BD1_61E6),
  (0x5FE4, 0x61E7),
  (0x5FE7, 0x5A67),
  (0x5FEA, 0x61EB_508D),
  (0x5FED, 0x61EC_61E4),
  (0x5FF1, 0x4A60),
  (0x5FF5, 0x52ED),
  (0x5FF8, 0x61ED),
  (0x5FFB, 0x58C2),
  (0x5FFD, 0x4DF5_61E8_4C7E_4E53_56AB_566B_61E3_61E5_61E9_61EA),
  (0x600A, 0x61F6),
  (0x600D, 0x61F3_5AF4_61F2),
  (0x6012, 0x534D),
  (0x6014, 0x5B9B_5362_49BF),
  (0x6019, 0x61EE),
  (0x601B, 0x61F1_514F_565C),
  (0x6020, 0x4B41_61F8),
  (0x6025, 0x4EB0_61F0_58D3_5AB8_61F4_4D76_61F5),
  (0x602F, 0x5473),
  (0x6035, 0x61EF),
  (0x603B, 0x5C7C_6741),
  (0x603F, 0x61F7),
  (0x6041, 0x6745_61FD_55D0),
  (0x604B, 0x5155),
  (0x604D, 0x4E70),
  (0x6050, 0x5076),
  (0x6052, 0x4DE2),
  (0x6055, 0x5641),
  (0x6059, 0x6746_6743),
  (0x605D, 0x6742),
  (0x6062, 0x4E76_6747_58F3),
  (0x6067, 0x6744_4DDD_4BF6_6241_4BB1_56F0_4D47),
  (0x606F, 0x5842_5441),
  (0x6073, 0x5072),
  (0x6076, 0x4BF0),
  (0x6078, 0x61F9_61FA_61FC_61FB_52D4_6242),
  (0x607F, 0x5A61),
  (0x6083, 0x6247_5464),
  (0x6089, 0x5844),
  (0x608C, 0x6249_4DB6),
  (0x6092, 0x6248),
  (0x6094, 0x4E7A),
  (0x6096, 0x6243),
  (0x609A, 0x6244_624A),
  (0x609D, 0x6246),
  (0x609F, 0x57F1_5A66),
  (0x60A3, 0x4E5C),
  (0x60A6, 0x5AC2),
  (0x60A8, 0x52F9),
  (0x60AB, 0x6748_58FB_6245),
  (0x60AF, 0x5296),
  (0x60B1, 0x624D_494F),
  (0x60B4, 0x6252),
  (0x60B8, 0x4EC1),
  (0x60BB, 0x624C_4B5F),
  (0x60C5, 0x548A_6250),
  (0x60CA, 0x4FA9_5790),
  (0x60D1, 0x4E94),
  (0x60D5, 0x56E7),
  (0x60D8, 0x624F),
  (0x60DA, 0x6251),
  (0x60DC, 0x5847_624E),
  (0x60DF, 0x57A8_4E7D),
  (0x60E6, 0x4B8C_4FE4_49D1_4A6D),
  (0x60EB, 0x4959_624B_49D0_4B4C_4D7F_4BE7),
  (0x60F3, 0x588C_6257),
  (0x60F6, 0x4E6C),
  (0x60F9, 0x54C6_58C9),
  (0x6100, 0x6258_4A8F),
  (0x6106, 0x6749),
  (0x6108, 0x5A9B_5A85),
  (0x610D, 0x674A_6259_59E1),
  (0x6115, 0x6255),
  (0x611A, 0x5A7E),
  (0x611F, 0x4CCF_6253),
  (0x6123, 0x6256_4C7F),
  (0x6126, 0x6254_50A1),
  (0x612B, 0x625A),
  (0x613F, 0x5AB7),
  (0x6148, 0x4AC7),
  (0x614A, 0x625B),
  (0x614C, 0x4E65),
  (0x614E, 0x5598),
  (0x6151, 0x5586),
  (0x6155, 0x52BC),
  (0x615D, 0x674B),
  (0x6162, 0x51FC),
  (0x6167, 0x4E7B_504E),
  (0x6170, 0x57BE),
  (0x6175, 0x625C),
  (0x6177, 0x5056),
  (0x618B, 0x4990),
  (0x618E, 0x5AF6),
  (0x6194, 0x625E),
  (0x619D, 0x674D),
  (0x61A7, 0x625F_4DA8_674C),
  (0x61AC, 0x625D),
  (0x61B7, 0x6260),
  (0x61BE, 0x4DB5),
  (0x61C2, 0x4BAD),
  (0x61C8, 0x58B7),
  (0x61CA, 0x48C2_674E),
  (0x61D1, 0x674F_50C0),
  (0x61D4, 0x6261),
  (0x61E6, 0x5353),
  (0x61F5, 0x6262),
  (0x61FF, 0x5EB1),
  (0x6206, 0x6750),
  (0x6208, 0x4CE9),
  (0x620A, 0x57EB_65A6_58E6_55F8_54D5_5857_4A69_57D1_4F85),
  (0x6215, 0x627E_4E93_65A7_5B5D),
  (0x621A, 0x53DC_65A8),
  (0x621F, 0x65A9),
  (0x6221, 0x65AB_65AA),
  (0x6224, 0x65AD_65AC),
  (0x622A, 0x4F78),
  (0x622C, 0x65AE),
  (0x622E, 0x51BD),
  (0x6233, 0x4AC0_4AF6),
  (0x6237, 0x4E47),
  (0x623D, 0x66E5_66E4_4C5F_569A_4983),
  (0x6243, 0x66E6),
  (0x6247, 0x5568_66E7_66E8),
  (0x624B, 0x55D5_5FCF_49C4_5AF9),
  (0x6251, 0x53CA_48C6_4AF1_54D2),
  (0x6258, 0x5770),
  (0x625B, 0x5058),
  (0x6263, 0x507B),
  (0x6266, 0x5444_5BB3),
  (0x6269, 0x50A8_5FD0_5548_5990_5344_48E6_4A56_54C4),
  (0x6273, 0x48E1),
  (0x6276, 0x4C97),
  (0x6279, 0x539B),
  (0x627C, 0x4BF2),
  (0x627E, 0x5B72_4A70_4EBB),
  (0x6284, 0x4A4D),
  (0x6289, 0x4FF0_48D0),
  (0x6291, 0x59D5_55E2_5C45),
  (0x6295, 0x5756_4BB5_5059_5B7B),
  (0x629A, 0x4CA6_5377),
  (0x629F, 0x5FD1_5079_51D4_5460),
  (0x62A4, 0x4E44_4948),
  (0x62A8, 0x538B),
  (0x62AB, 0x539C_56A6),
  (0x62B1, 0x4947),
  (0x62B5, 0x4B76),
  (0x62B9, 0x52A7),
  (0x62BB, 0x5FD2_595A_4A8A),
  (0x62BF, 0x5293),
  (0x62C2, 0x4C98),
  (0x62C4, 0x5BF3_4B43_49EF_52B3_52E8_50AC_5FD3),
  (0x62CC, 0x48E7_5364_5181),
  (0x62D0, 0x4D75),
  (0x62D2, 0x4FDB_5778_48CD),
  (0x62D6, 0x576F_5FD5_4FCF_5C5E_5FD4_5B70_48DC),
  (0x62DF, 0x52E1),
  (0x62E2, 0x51A2_4EEF),
  (0x62E5, 0x5A55_50B8_5341_49A5_5AF0),
  (0x62EC, 0x50A7_55C2_5FD6_5B9D),
  (0x62F1, 0x4D50),
  (0x62F3, 0x54AC_5649),
  (0x62F6, 0x5FD8_505D),
  (0x62FC, 0x53B3_5C47_55AF_52C2),
  (0x6301, 0x4A76_4D72),
  (0x6307, 0x5BB7_65FB_48B3),
  (0x630E, 0x5087),
  (0x6311, 0x56F3),
  (0x6316, 0x577A),
  (0x631A, 0x5BBE_51CD),
  (0x631D, 0x57CD_56A1_58AD_52D2_4B52_5FD7_5B96_4EB6_4E73),
  (0x6328, 0x48A3),
  (0x632A, 0x5352_4AEB),
  (0x632F, 0x5B92),
  (0x6332, 0x65FC),
  (0x6339, 0x5FD9_5746),
  (0x633D, 0x578D),
  (0x6342, 0x57E5_5FDB),
  (0x6345, 0x5751_50A5),
  (0x6349, 0x5C5D),
  (0x634B, 0x5FDA_48C5_4DB3_5573_52F2_4FE7),
  (0x6355, 0x49B5),
  (0x635E, 0x50CB_5691),
  (0x6361, 0x4EF0_4E5B_4B57),
  (0x6367, 0x5396),
  (0x6369, 0x5FE5),
  (0x636D, 0x5FE2_4FDC),
  (0x6371, 0x5FDE),
  (0x6376, 0x4AB6_4F7D),
  (0x637A, 0x5FDF_52EC),
  (0x6380, 0x5866),
  (0x6382, 0x4B81),
  (0x6387, 0x4BDD_55D9_4B95_5FE4),
  (0x638C, 0x5B66),
  (0x638E, 0x5FE0_56CC_53FD),
  (0x6392, 0x5365),
  (0x6396, 0x59B3),
  (0x6398, 0x4FF1),
  (0x63A0, 0x51D2),
  (0x63A2, 0x56BC_4A58),
  (0x63A5, 0x4F73),
  (0x63A7, 0x5078_5766_597A_4AEA),
  (0x63AC, 0x5FE3_5FDC_5FE6),
  (0x63B0, 0x65FD),
  (0x63B3, 0x51AF_5FE1),
  (0x63B7, 0x5BBF_4B47),
  (0x63BA, 0x49F3),
  (0x63BC, 0x5FE7),
  (0x63BE, 0x5FF1),
  (0x63C4, 0x5FEC),
  (0x63C6, 0x5FF0),
  (0x63C9, 0x54DF),
  (0x63CD, 0x5C82_5FEE_5289_56E0),
  (0x63D2, 0x49E4),
  (0x63D6, 0x59BD),
  (0x63DE, 0x5FED),
  (0x63E0, 0x5FEA_57D4),
  (0x63E3, 0x4AA6),
  (0x63E9, 0x504B_4FBD),
  (0x63ED, 0x4F72),
  (0x63F2, 0x5FE8),
  (0x63F4, 0x5AAD),
  (0x63F6, 0x5FDD),
  (0x63F8, 0x5FE9),
  (0x63FD, 0x50BE),
  (0x63FF, 0x5FEB_49F2_4CE8_51A6),
  (0x6405, 0x4F61),
  (0x640B, 0x5FF4_5FF7),
  (0x640F, 0x49AA_4AA3),
  (0x6413, 0x4AE9_5546),
  (0x641B, 0x5FF5_5671),
  (0x641E, 0x4CE2),
  (0x6420, 0x5FF6_5FF9),
  (0x6426, 0x5FF8),
  (0x642A, 0x56C1),
  (0x642C, 0x48E0_4AED),
  (0x6434, 0x635A),
  (0x643A, 0x58AE),
  (0x643D, 0x49EA),
  (0x643F, 0x6641),
  (0x6441, 0x5FF3),
  (0x6444, 0x5584_5FF2_48D9_59A0_4998),
  (0x644A, 0x56AE),
  (0x6452, 0x5FEF),
  (0x6454, 0x5644),
  (0x6458, 0x5B4A),
  (0x645E, 0x5FFA),
  (0x6467, 0x4ADC),
  (0x6469, 0x52A5),
  (0x646D, 0x5FFC),
  (0x6478, 0x529F_52A0_6041),
  (0x6482, 0x516C),
  (0x6484, 0x5FFB_4FEE),
  (0x6487, 0x53B1),
  (0x6491, 0x4A65_54F5),
  (0x6495, 0x565A_5FFD),
  (0x6499, 0x6044),
  (0x649E, 0x5C52),
  (0x64A4, 0x4A57),
  (0x64A9, 0x5163),
  (0x64AC, 0x546B_49A4_4AE8),
  (0x64B0, 0x5C4B),
  (0x64B5, 0x52EB),
  (0x64B7, 0x6042_6043),
  (0x64BA, 0x6045),
  (0x64BC, 0x4DB2),
  (0x64C0, 0x6046),
  (0x64C2, 0x50DD),
  (0x64C5, 0x5563),
  (0x64CD, 0x49D8_5487),
  (0x64D0, 0x6047),
  (0x64D2, 0x547C),
  (0x64D7, 0x6048_6642),
  (0x64DE, 0x5673),
  (0x64E2, 0x604A),
  (0x64E4, 0x6049),
  (0x64E6, 0x49C0),
  (0x6500, 0x536A),
  (0x6509, 0x604B),
  (0x6512, 0x5ADB),
  (0x6518, 0x54C0),
  (0x6525, 0x604C),
  (0x652B, 0x4FEF),
  (0x652E, 0x604D_5BA6),
  (0x6534, 0x65B6_6656_55D4),
  (0x6538, 0x5CFB_4CC3),
  (0x653B, 0x4D45),
  (0x653E, 0x4C65_5B9F),
  (0x6545, 0x4D6A),
  (0x6548, 0x58A6_6ACC),
  (0x654C, 0x4B70),
  (0x654F, 0x5295),
  (0x6551, 0x4FC7),
  (0x6555, 0x6657_48BC),
  (0x6559, 0x4F6C),
  (0x655B, 0x5152),
  (0x655D, 0x4976_4A48),
  (0x6562, 0x4CD1_5542),
  (0x6566, 0x4BD7),
  (0x656B, 0x6658_4FB3),
  (0x6570, 0x55FC),
  (0x6572, 0x5463),
  (0x6574, 0x5B9C),
  (0x6577, 0x4C94),
  (0x6587, 0x57C3),
  (0x658B, 0x5B4B_4994),
  (0x6590, 0x66B2_48DE),
  (0x6593, 0x66B4),
  (0x6597, 0x4BB6),
  (0x6599, 0x516F),
  (0x659B, 0x6B9B_58B0),
  (0x659F, 0x5B86),
  (0x65A1, 0x57D2),
  (0x65A4, 0x4F90_4A83),
  (0x65A7, 0x4CAA),
  (0x65A9, 0x5B56),
  (0x65AB, 0x675D),
  (0x65AD, 0x4BCE),
  (0x65AF, 0x5659_58C1),
  (0x65B9, 0x4C5D),
  (0x65BC, 0x66B5_55A8),
  (0x65C1, 0x5374),
  (0x65C3, 0x66B8_66B7_51C2_66B6),
  (0x65CB, 0x58FC_66B9),
  (0x65CE, 0x66BA_5C86),
  (0x65D2, 0x66BB),
  (0x65D6, 0x66BC_53EB),
  (0x65E0, 0x57DD),
  (0x65E2, 0x4EC7),
  (0x65E5, 0x54D4_4B49_4FC8_5BBB_5AE6),
  (0x65EC, 0x594E_58F0_65B7_65B8_65B9_4DB4),
  (0x65F6, 0x55B0_5096),
  (0x65FA, 0x579B),
  (0x6600, 0x65BF),
  (0x6602, 0x48B9_65BD),
  (0x6606, 0x50A4),
  (0x660A, 0x65BA),
  (0x660C, 0x49FC),
  (0x660E, 0x5298_4E89),
  (0x6613, 0x59D6_57F3_65BE),
  (0x6619, 0x65BB),
  (0x661D, 0x65C2),
  (0x661F, 0x58C6_5A53),
  (0x6625, 0x4AB9),
  (0x6627, 0x5261_5C93),
  (0x662D, 0x5B71),
  (0x662F, 0x55C6),
  (0x6631, 0x65C4),
  (0x6634, 0x65C3_65C6_65C5),
  (0x663C, 0x5BE6),
  (0x663E, 0x5874),
  (0x6641, 0x65CA),
  (0x6643, 0x4E6E),
  (0x664B, 0x4F9B_556E),
  (0x664F, 0x65CB),
  (0x6652, 0x5559_589F_65C9_5ACD_65CC_65CE),
  (0x665A, 0x578E),
  (0x665F, 0x65C8),
  (0x6661, 0x65CD),
  (0x6664, 0x57ED),
  (0x6666, 0x4E7E),
  (0x6668, 0x4A5F),
  (0x666E, 0x53D4_4FAF_57F9),
  (0x6674, 0x5488),
  (0x6676, 0x4FA6_65CF),
  (0x667A, 0x5BC6),
  (0x667E, 0x5160),
  (0x6682, 0x5ADC),
  (0x6684, 0x65D0),
  (0x6687, 0x585E),
  (0x668C, 0x65D1),
  (0x6691, 0x55ED),
  (0x6696, 0x534F_48B4),
  (0x669D, 0x65D3),
  (0x66A7, 0x65D2_6ADE),
  (0x66AE, 0x52B9),
  (0x66B4, 0x4949),
  (0x66B9, 0x637F),
  (0x66BE, 0x65D4),
  (0x66D9, 0x55EE),
  (0x66DB, 0x65D5_65D6_53D7),
  (0x66E6, 0x65D7),
  (0x66E9, 0x65D8),
  (0x66F0, 0x5ABA),
  (0x66F2, 0x549B_59B6_4CFB),
  (0x66F7, 0x65C1),
  (0x66F9, 0x49DB),
  (0x66FC, 0x51FB),
  (0x66FE, 0x5AF7_56E5_5C8F),
  (0x6708, 0x5AC1_5A70_6663_5394),
  (0x670D, 0x4C9F),
  (0x6710, 0x6674),
  (0x6714, 0x5657_667E),
  (0x6717, 0x50C9),
  (0x671B, 0x579C),
  (0x671D, 0x4A4F),
  (0x671F, 0x53D9),
  (0x6726, 0x669D),
  (0x6728, 0x52BD),
  (0x672A, 0x57B3_52A8_495E_5AFC),
  (0x672F, 0x55F4),
  (0x6731, 0x5BEB),
  (0x6734, 0x53D2_4BE3),
  (0x673A, 0x4E9B),
  (0x673D, 0x58DF),
  (0x6740, 0x5551),
  (0x6742, 0x5AD2_54A7),
  (0x6746, 0x4CCA),
  (0x6748, 0x64BD_555C),
  (0x674C, 0x64BA),
  (0x674E, 0x50ED_58D2_49C3_4AE4),
  (0x6753, 0x64BB),
  (0x6756, 0x5B68),
  (0x675C, 0x4BC4),
  (0x675E, 0x64BC_55F7_4CDB_56F4),
  (0x6765, 0x50B3),
  (0x6768, 0x598F_64BE_64C1),
  (0x676D, 0x4DBB),
  (0x676F, 0x494D_4F7C),
  (0x6772, 0x65BC_64C2),
  (0x6775, 0x64C5),
  (0x6777, 0x64CA),
  (0x677C, 0x64CB),
  (0x677E, 0x5669_48E4),
  (0x6781, 0x4EAA),
  (0x6784, 0x4D59),
  (0x6787, 0x64C0),
  (0x6789, 0x5798),
  (0x678B, 0x64C9),
  (0x6790, 0x57F5),
  (0x6795, 0x5B8E),
  (0x6797, 0x5176_64C3),
  (0x679A, 0x5256),
  (0x679C, 0x4D9C_5BA5_64C7),
  (0x67A2, 0x55DF_5AE5),
  (0x67A5, 0x64BF),
  (0x67A7, 0x64C4_64C6),
  (0x67AA, 0x5459_4C84),
  (0x67AD, 0x64C8),
  (0x67AF, 0x507D_64D1),
  (0x67B3, 0x64D6),
  (0x67B5, 0x64D4_4EDB_4ECE_64DA),
  (0x67C1, 0x64DD),
  (0x67C3, 0x64D9_499B),
  (0x67CF, 0x48D7_52B2_4CCB_53E1_54BD_54E0),
  (0x67D8, 0x64CE_64D3_64D5),
  (0x67DC, 0x4D92_64D7_5C96),
  (0x67E0, 0x52FA),
  (0x67E2, 0x64DB),
  (0x67E5, 0x49E8),
  (0x67E9, 0x64D0),
  (0x67EC, 0x4EEC),
  (0x67EF, 0x5062_64CC_5BF8),
  (0x67F3, 0x5199_49F0),
  (0x67FD, 0x64DE),
  (0x67FF, 0x55C0_64D8),
  (0x6805, 0x5B44),
  (0x6807, 0x498B_5B5B_64CD_64CF_4BAF_64D2),
  (0x680E, 0x64DC_50B7),
  (0x6811, 0x55F6),
  (0x6813, 0x5648),
  (0x6816, 0x53DB_50F4),
  (0x681D, 0x64E8),
  (0x6821, 0x58A2),
  (0x6829, 0x64F1_5BE9),
  (0x6832, 0x64DF_64E0),
  (0x6837, 0x599A_4DCA_4CF8),
  (0x683C, 0x4CF0_5AD3_64EE),
  (0x6840, 0x64ED_64EB_4D91_56D1_64E5_57A5_5093),
  (0x6848, 0x48B7_64F0_64EF),
  (0x684C, 0x5C60),
  (0x684E, 0x64E3),
  (0x6850, 0x5749_5543),
  (0x6853, 0x4E58_4F7B_64E9),
  (0x6860, 0x64E1_64E2_64E4_4B55_64E6_5465_64EA_64EC_4F50_5C4E),
  (0x686B, 0x64F7),
  (0x6874, 0x64F4),
  (0x6876, 0x5750_64F5),
  (0x6881, 0x515A),
  (0x6883, 0x64E7),
  (0x6885, 0x5257_48EF),
  (0x688F, 0x64F3),
  (0x6893, 0x64F6),
  (0x6897, 0x4D43),
  (0x68A2, 0x5572),
  (0x68A6, 0x526E_57DF_50E5),
  (0x68AD, 0x5694),
  (0x68AF, 0x56DC_58B4),
  (0x68B3, 0x55E0),
  (0x68B5, 0x64F2),
  (0x68C0, 0x4EEB),
  (0x68C2, 0x64F8),
  (0x68C9, 0x527E),
  (0x68CB, 0x53E4),
  (0x68CD, 0x4D98),
  (0x68D2, 0x48F3),
  (0x68D5, 0x5C78),
  (0x68D8, 0x4EAB),
  (0x68DA, 0x5390),
  (0x68E0, 0x56C3),
  (0x68E3, 0x6546),
  (0x68EE, 0x554D),
  (0x68F0, 0x6542_50E1),
  (0x68F5, 0x5063),
  (0x68F9, 0x64FD_4D77),
  (0x68FC, 0x64FA),
  (0x6901, 0x6544),
  (0x6905, 0x59CD),
  (0x690B, 0x6543),
  (0x690D, 0x5BB1_5C55),
  (0x6910, 0x6547),
  (0x6912, 0x4F57),
  (0x691F, 0x64FB_64FC),
  (0x6924, 0x6541),
  (0x692D, 0x5776),
  (0x6930, 0x59AB),
  (0x6934, 0x6552),
  (0x6939, 0x6549),
  (0x693D, 0x4AA9),
  (0x693F, 0x4ABA),
  (0x6942, 0x654B),
  (0x6954, 0x58A7),
  (0x6957, 0x6545),
  (0x695A, 0x4A9F),
  (0x695D, 0x654C_50E2),
  (0x6960, 0x654A),
  (0x6963, 0x6559),
  (0x6966, 0x6558),
  (0x696B, 0x654E),
  (0x696E, 0x64F9),
  (0x6971, 0x6548),
  (0x6977, 0x504C_6551_655A),
  (0x697C, 0x51A4),
  (0x6980, 0x654F),
  (0x6982, 0x4CC4),
  (0x6984, 0x654D),
  (0x6986, 0x5A7C_6554_6555_6557),
  (0x698D, 0x6567),
  (0x6994, 0x50C5_6565),
  (0x6998, 0x6550),
  (0x699B, 0x655B_48F0),
  (0x69A7, 0x655C_5B45),
  (0x69AB, 0x655E),
  (0x69AD, 0x655F),
  (0x69B1, 0x6561),
  (0x69B4, 0x5192),
  (0x69B7, 0x54B5),
  (0x69BB, 0x655D),
  (0x69C1, 0x6562),
  (0x69CA, 0x6563),
  (0x69CC, 0x6553),
  (0x69CE, 0x6556),
  (0x69D0, 0x4E51),
  (0x69D4, 0x6560),
  (0x69DB, 0x4EF6),
  (0x69DF, 0x6564_6566),
  (0x69ED, 0x656A),
  (0x69F2, 0x656E),
  (0x69FD, 0x49DA),
  (0x69FF, 0x6568),
  (0x6A0A, 0x4C4E),
  (0x6A17, 0x656B_656C),
  (0x6A1F, 0x5B61),
  (0x6A21, 0x52A2),
  (0x6A28, 0x6578),
  (0x6A2A, 0x4DE0),
  (0x6A2F, 0x6569),
  (0x6A31, 0x5A43),
  (0x6A35, 0x6574),
  (0x6A3D, 0x6577_6570),
  (0x6A44, 0x656F),
  (0x6A47, 0x5461),
  (0x6A50, 0x6572),
  (0x6A58, 0x6579_4A68),
  (0x6A5B, 0x6573),
  (0x6A61, 0x5891),
  (0x6A65, 0x656D),
  (0x6A71, 0x4A98),
  (0x6A79, 0x6576),
  (0x6A7C, 0x657A),
  (0x6A80, 0x56B3),
  (0x6A84, 0x584D),
  (0x6A8E, 0x6575),
  (0x6A90, 0x657C_657B),
  (0x6A97, 0x657E),
  (0x6AA0, 0x6571),
  (0x6AA9, 0x657D),
  (0x6AAB, 0x657F_526A),
  (0x6B20, 0x5457_4ACD_4E56_58BF_66A2),
  (0x6B27, 0x5357),
  (0x6B32, 0x5A9C),
  (0x6B37, 0x66A3),
  (0x6B39, 0x66A4_53DA),
  (0x6B3E, 0x508F),
  (0x6B43, 0x66A5),
  (0x6B46, 0x66A6_58A9),
  (0x6B49, 0x5458),
  (0x6B4C, 0x4CE7),
  (0x6B59, 0x66A7),
  (0x6B62, 0x5BB8_5B9E_4ACA_49BC_57E3_53E6),
  (0x6B6A, 0x5782),
  (0x6B79, 0x4AF4),
  (0x6B7B, 0x5660_4EDE),
  (0x6B81, 0x6583_6584_598B_6586),
  (0x6B86, 0x4AF8_6585),
  (0x6B89, 0x5953_55E1_49CF),
  (0x6B8D, 0x6589),
  (0x6B92, 0x6587_6588),
  (0x6B96, 0x5BB2),
  (0x6B9A, 0x658A_658B),
  (0x6BA1, 0x658C),
  (0x6BAA, 0x658D),
  (0x6BB3, 0x66AE_5359_4BCD),
  (0x6BB7, 0x59F2),
  (0x6BBF, 0x4B8F),
  (0x6BC1, 0x4E79_66B0),
  (0x6BC5, 0x59E2),
  (0x6BCB, 0x57E2),
  (0x6BCD, 0x52B7),
  (0x6BCF, 0x525F),
  (0x6BD2, 0x4BBD_5CB8_4968_496F_4971_539F),
  (0x6BD9, 0x4970),
  (0x6BDB, 0x524B),
  (0x6BE1, 0x5B51),
  (0x6BEA, 0x6644_4DC0),
  (0x6BEF, 0x56B9),
  (0x6BF3, 0x6645),
  (0x6BF5, 0x6647),
  (0x6BF9, 0x6648),
  (0x6BFD, 0x6646),
  (0x6C05, 0x6649_664B_664A),
  (0x6C0D, 0x664C),
  (0x6C0F, 0x55CE_5CB4_5292),
  (0x6C13, 0x5245_53F7_664D_52C9),
  (0x6C18, 0x664E_664F_6650_4C75),
  (0x6C1F, 0x4C9B),
  (0x6C21, 0x6651_5483),
  (0x6C24, 0x6653),
  (0x6C26, 0x4DA3_5996_48B0_6652_6654),
  (0x6C2E, 0x4B4A_51C7_5489),
  (0x6C32, 0x6655),
  (0x6C34, 0x564E_627F),
  (0x6C38, 0x5A60),
  (0x6C3D, 0x5D7B),
  (0x6C40, 0x5741_5BAC_5494),
  (0x6C46, 0x5D81_4E84),
  (0x6C49, 0x4DB9_6283),
  (0x6C50, 0x584B),
  (0x6C54, 0x6281_5567),
  (0x6C57, 0x4DB8),
  (0x6C5B, 0x5954_6282_54E9_4D4F_4F4D_4A78_57DA),
  (0x6C64, 0x56BF),
  (0x6C68, 0x6289_628A_5795),
  (0x6C70, 0x56AC),
  (0x6C72, 0x4EB2),
  (0x6C74, 0x628B),
  (0x6C76, 0x628C),
  (0x6C79, 0x58D9),
  (0x6C7D, 0x53FA_4C7A),
  (0x6C81, 0x547F_59C9_57D5),
  (0x6C85, 0x6285_628D),
  (0x6C88, 0x5593_4A61),
  (0x6C8C, 0x6288),
  (0x6C8F, 0x53E2_6286),
  (0x6C93, 0x6753_6287),
  (0x6C99, 0x5553),
  (0x6C9B, 0x5387),
  (0x6C9F, 0x4D55),
  (0x6CA1, 0x525B),
  (0x6CA3, 0x6284_535D_5144_51D8_49D6),
  (0x6CA9, 0x628E_4E46_52AC),
  (0x6CAD, 0x6291_4FD9),
  (0x6CB1, 0x629C_6296_4DD2),
  (0x6CB8, 0x4C70_5A6D),
  (0x6CBB, 0x5BCD_5B73_4D61_5B54_5978),
  (0x6CC4, 0x58B8_5497),
  (0x6CC9, 0x54A9_49B3),
  (0x6CCC, 0x527A),
  (0x6CD0, 0x628F),
  (0x6CD3, 0x629D_6290_4C48_6298_6295),
  (0x6CDB, 0x4C5A),
  (0x6CDE, 0x5342),
  (0x6CE0, 0x6297_537D_49A7_53FB),
  (0x6CE5, 0x52DF),
  (0x6CE8, 0x5C42),
  (0x6CEA, 0x50E0_629A),
  (0x6CEE, 0x629B_629E_56A8_6294),
  (0x6CF3, 0x5A5E),
  (0x6CF5, 0x4963_6754_6292_6293),
  (0x6CFA, 0x6299_58B9_53C2_5AF2_629F),
  (0x6D01, 0x4F81),
  (0x6D04, 0x62A6),
  (0x6D07, 0x62A5),
  (0x6D0B, 0x5994_62A2),
  (0x6D0E, 0x62A8),
  (0x6D12, 0x54F6),
  (0x6D17, 0x5854),
  (0x6D19, 0x62A7_62AD_51E4),
  (0x6D1E, 0x4BB3),
  (0x6D25, 0x4F93),
  (0x6D27, 0x62A1),
  (0x6D2A, 0x4DE8_62A9),
  (0x6D2E, 0x62AB),
  (0x6D31, 0x4BFC_5BDD_62B1),
  (0x6D35, 0x62AC),
  (0x6D39, 0x62A0),
  (0x6D3B, 0x4E8F_577D_5442_5369),
  (0x6D41, 0x5198),
  (0x6D43, 0x62A3),
  (0x6D45, 0x5453_4F4C_4F5D_62A4),
  (0x6D4A, 0x5C67_49E1),
  (0x6D4D, 0x62AA_4EC2_62AE),
  (0x6D51, 0x4E8C_62AF_5348_62B0),
  (0x6D59, 0x5B84_5043),
  (0x6D5C, 0x62B9),
  (0x6D5E, 0x62B6),
  (0x6D60, 0x62BA),
  (0x6D63, 0x62BC),
  (0x6D66, 0x53D5),
  (0x6D69, 0x4DC5_50CA),
  (0x6D6E, 0x4CA0_62B3),
  (0x6D74, 0x5AA0),
  (0x6D77, 0x4DA2_4F9F),
  (0x6D7C, 0x62BB),
  (0x6D82, 0x575F),
  (0x6D85, 0x52F8),
  (0x6D88, 0x589C_5587),
  (0x6D8C, 0x5A5F),
  (0x6D8E, 0x5871),
  (0x6D91, 0x62B2),
  (0x6D93, 0x62B7_62B8_56E8),
  (0x6D9B, 0x56CD),
  (0x6D9D, 0x50D3_62B4_5150_62B5_57CF),
  (0x6DA3, 0x4E61_4B73),
  (0x6DA6, 0x54F2_4F47_5B67_554C_4CA1_62C9),
  (0x6DAE, 0x62CB_5964),
  (0x6DB2, 0x59B9),
  (0x6DB5, 0x4DAC),
  (0x6DB8, 0x4DD3),
  (0x6DBF, 0x62C2_4B8E),
  (0x6DC4, 0x5C6D_62BF_589E_62BE),
  (0x6DCB, 0x517C_56C9),
  (0x6DD1, 0x55E6),
  (0x6DD6, 0x52D6),
  (0x6DD8, 0x56D3_62C7),
  (0x6DDD, 0x62C6_62C0),
  (0x6DE0, 0x62C3_4B4D),
  (0x6DE4, 0x5A79),
  (0x6DE6, 0x62C5),
  (0x6DEB, 0x59F8_4AE2),
  (0x6DEE, 0x4E54),
  (0x6DF1, 0x558F),
  (0x6DF3, 0x4ABD),
  (0x6DF7, 0x4E8D),
  (0x6DF9, 0x596D),
  (0x6DFB, 0x56EC_6755),
  (0x6E05, 0x5486),
  (0x6E0A, 0x5AA7),
  (0x6E0C, 0x62CA_5C75_62C1),
  (0x6E10, 0x4F45_62C4),
  (0x6E14, 0x5A87),
  (0x6E16, 0x62C8_5599),
  (0x6E1A, 0x62BD),
  (0x6E1D, 0x5A86),
  (0x6E20, 0x549F_4BC8),
  (0x6E23, 0x5AFB_49B2_62D6),
  (0x6E29, 0x57C1),
  (0x6E2B, 0x62CC),
  (0x6E2D, 0x57BB),
  (0x6E2F, 0x4CDA),
  (0x6E32, 0x62D5),
  (0x6E34, 0x506A),
  (0x6E38, 0x5A6E),
  (0x6E3A, 0x528D),
  (0x6E43, 0x5368_62D7),
  (0x6E4D, 0x5764_62CE),
  (0x6E53, 0x62D3_62D4),
  (0x6E56, 0x4DFD),
  (0x6E58, 0x5887),
  (0x6E5B, 0x5B5F),
  (0x6E5F, 0x62D1),
  (0x6E6B, 0x62CF),
  (0x6E6E, 0x62CD),
  (0x6E7E, 0x5786_55A9),
  (0x6E83, 0x50A2),
  (0x6E85, 0x4F46_62D2),
  (0x6E89, 0x4CC7),
  (0x6E8F, 0x62E6_5AB3),
  (0x6E98, 0x62DA),
  (0x6E9C, 0x5190),
  (0x6E9F, 0x62E8),
  (0x6EA2, 0x59E6),
  (0x6EA5, 0x62DE),
  (0x6EA7, 0x62DF),
  (0x6EAA, 0x584A),
  (0x6EAF, 0x567D),
  (0x6EB1, 0x62D9_62D0),
  (0x6EB4, 0x62E4),
  (0x6EB6, 0x54DB_62E2),
  (0x6EBA, 0x52E6_62E1),
  (0x6EBD, 0x62E0),
  (0x6EC1, 0x4A9D_62E7),
  (0x6EC7, 0x4B82),
  (0x6ECB, 0x5C6C),
  (0x6ECF, 0x62E5),
  (0x6ED1, 0x4E4C),
  (0x6ED3, 0x5C72_56CE_6699),
  (0x6ED7, 0x62E3),
  (0x6EDA, 0x4D97),
  (0x6EDE, 0x5BCC_62D8_62DB_51F9_62DD),
  (0x6EE4, 0x51CA_50C3_51CF),
  (0x6EE8, 0x4996_56B1),
  (0x6EF4, 0x4B6E),
  (0x6EF9, 0x62EE),
  (0x6F02, 0x53AE),
  (0x6F06, 0x53E0),
  (0x6F09, 0x62F4),
  (0x6F0F, 0x51A8),
  (0x6F13, 0x50EB_597D_62ED),
  (0x6F20, 0x52AD),
  (0x6F24, 0x62EC),
  (0x6F29, 0x62F5_62F3_51FD),
  (0x6F2D, 0x62DC),
  (0x6F2F, 0x62EF),
  (0x6F31, 0x55FD),
  (0x6F33, 0x5B64),
  (0x6F36, 0x62F0),
  (0x6F3E, 0x599B),
  (0x6F46, 0x62EA_62EB),
  (0x6F4B, 0x62F1),
  (0x6F4D, 0x57AA),
  (0x6F58, 0x536B),
  (0x6F5C, 0x5451),
  (0x6F5E, 0x51B9),
  (0x6F62, 0x62E9),
  (0x6F66, 0x516A),
  (0x6F6D, 0x56B5_4A51),
  (0x6F72, 0x62FA),
  (0x6F74, 0x62F2),
  (0x6F78, 0x62F9),
  (0x6F7A, 0x62FC),
  (0x6F7C, 0x62FB),
  (0x6F84, 0x4A6E),
  (0x6F88, 0x4A5A_62F6),
  (0x6F8C, 0x62F8_62F7_538D),
  (0x6F9C, 0x50BC),
  (0x6FA1, 0x5AE7),
  (0x6FA7, 0x6342),
  (0x6FB3, 0x48C3),
  (0x6FB6, 0x6344),
  (0x6FB9, 0x6343),
  (0x6FC0, 0x4EA3),
  (0x6FC2, 0x6345),
  (0x6FC9, 0x6341),
  (0x6FD1, 0x62FD_4995),
  (0x6FDE, 0x6348),
  (0x6FE0, 0x6349_6346),
  (0x6FEE, 0x6347_634A),
  (0x7011, 0x53D8),
  (0x701A, 0x634B_634D),
  (0x7023, 0x634C),
  (0x7035, 0x634F),
  (0x7039, 0x634E),
  (0x704C, 0x4D81),
  (0x704F, 0x6350),
  (0x705E, 0x6351),
  (0x706B, 0x4E91_66E0_5291),
  (0x706F, 0x4B66_4E72),
  (0x7075, 0x518A_5AED),
  (0x7078, 0x4FC3),
  (0x707C, 0x5C66),
  (0x707E, 0x5AD5_49D2_66BD),
  (0x7085, 0x65C0),
  (0x7089, 0x51AE_4AB5),
  (0x708E, 0x5977),
  (0x7092, 0x4A54),
  (0x7094, 0x54B1_505B_66BF),
  (0x7099, 0x5BCA),
  (0x709C, 0x66BE_66C0),
  (0x70AB, 0x66C4_4FE5_56BE_537A_4FBB),
  (0x70B1, 0x66C5),
  (0x70B3, 0x499F),
  (0x70B7, 0x66C3_5B48_4B84),
  (0x70BB, 0x66C1_5156_4A84),
  (0x70C0, 0x66C2_5658_50C2_56FD),
  (0x70C8, 0x5172),
  (0x70CA, 0x66C7),
  (0x70D8, 0x4DE5_50D2),
  (0x70DB, 0x5BF1),
  (0x70DF, 0x596C),
  (0x70E4, 0x505E),
  (0x70E6, 0x4C53_5575_66C6_4E83),
  (0x70EB, 0x56CB_4F9E_54C7),
  (0x70EF, 0x5849),
  (0x70F7, 0x578A),
  (0x70F9, 0x538C),
  (0x70FD, 0x4C8A),
  (0x7109, 0x5969_4DB7),
  (0x7110, 0x66C8),
  (0x7113, 0x66C9),
  (0x7115, 0x4E60_66CA),
  (0x7118, 0x66E1_495A_4C79),
  (0x7126, 0x4F59),
  (0x712F, 0x66CB_5987_66CC),
  (0x7136, 0x54BA),
  (0x7145, 0x66D0),
  (0x714A, 0x66D2),
  (0x714C, 0x4E6D),
  (0x714E, 0x4EE4),
  (0x715C, 0x66CE),
  (0x715E, 0x5557),
  (0x7164, 0x525A),
  (0x7166, 0x66E2_5B75_66CF),
  (0x716E, 0x5BF2),
  (0x7172, 0x66D1_66CD),
  (0x7178, 0x66D3),
  (0x717A, 0x66D4),
  (0x717D, 0x555F),
  (0x7184, 0x5848),
  (0x718A, 0x58DB),
  (0x718F, 0x594C),
  (0x7194, 0x54DA),
  (0x7198, 0x66D5_57F4),
  (0x719F, 0x55EB_66D9),
  (0x71A8, 0x66D8),
  (0x71AC, 0x48BD),
  (0x71B3, 0x66D6),
  (0x71B5, 0x66D7),
  (0x71B9, 0x66E3),
  (0x71C3, 0x54BB),
  (0x71CE, 0x5167),
  (0x71D4, 0x66DB_5981),
  (0x71E0, 0x66DA),
  (0x71E5, 0x5AEE),
  (0x71E7, 0x66DC),
  (0x71EE, 0x5E66),
  (0x71F9, 0x66DD),
  (0x7206, 0x494C),
  (0x721D, 0x66DE),
  (0x7228, 0x66DF),
  (0x722A, 0x5C46),
  (0x722C, 0x5360),
  (0x7230, 0x665C_48AD),
  (0x7235, 0x4FF3_4CB7_59AE_48D5_4B9A),
  (0x723B, 0x5CB2),
  (0x723D, 0x564C),
  (0x723F, 0x627D),
  (0x7247, 0x53AB_48E5),
  (0x724C, 0x5366_6659),
  (0x7252, 0x665A),
  (0x7256, 0x665B),
  (0x7259, 0x5960),
  (0x725B, 0x5343),
  (0x725D, 0x65F1),
  (0x725F, 0x52B1),
  (0x7261, 0x52B4_50CD),
  (0x7266, 0x65F2_52C0),
  (0x7269, 0x57EE),
  (0x726E, 0x65EF_65F3),
  (0x7272, 0x559D),
  (0x7275, 0x5443),
  (0x7279, 0x56D7_57FD),
  (0x727E, 0x65F4_65F5_584C_50E6),
  (0x7284, 0x65F6),
  (0x728A, 0x4BBE_65F7),
  (0x728D, 0x65F8),
  (0x728F, 0x65F9),
  (0x7292, 0x65FA),
  (0x729F, 0x65F0),
  (0x72AC, 0x54AD_618C),
  (0x72AF, 0x4C58_618D),
  (0x72B4, 0x618E),
  (0x72B6, 0x5C54_618F_6190_5A6C),
  (0x72C1, 0x6192_5092_6191_4B72),
  (0x72C8, 0x4957),
  (0x72CD, 0x6194_6193),
  (0x72D0, 0x4DFB),
  (0x72D2, 0x6195),
  (0x72D7, 0x4D57),
  (0x72D9, 0x4FD0),
  (0x72DE, 0x52FB),
  (0x72E0, 0x4DDC_4F66),
  (0x72E8, 0x6196_6198),
  (0x72EC, 0x4BBF_5861_55A7_6197_5B99_5A9D_6199_619D_619A),
  (0x72F7, 0x619B_50E9),
  (0x72FA, 0x619F_61A0_50C6),
  (0x7301, 0x619C),
  (0x7303, 0x619E),
  (0x730A, 0x61A4),
  (0x730E, 0x5174),
  (0x7313, 0x61A2),
  (0x7315, 0x61A7_49FD_61A1),
  (0x731B, 0x526D_49C1_61A6_61A5),
  (0x7321, 0x61A3_61A8),
  (0x7325, 0x61AA),
  (0x7329, 0x58C8_5BEC_5248_61AB),
  (0x732E, 0x5877),
  (0x7331, 0x61AD),
  (0x7334, 0x4DEE),
  (0x7337, 0x6581_61AC_61A9),
  (0x733E, 0x4E4B_5AB2),
  (0x734D, 0x61AF),
  (0x7350, 0x61AE),
  (0x7352, 0x6582),
  (0x7357, 0x61B0),
  (0x7360, 0x61B1),
  (0x736C, 0x61B2_56A0),
  (0x736F, 0x61B3),
  (0x737E, 0x61B4),
  (0x7384, 0x58FD),
  (0x7387, 0x51C9),
  (0x7389, 0x5A92),
  (0x738B, 0x5796),
  (0x738E, 0x6481),
  (0x7391, 0x6482),
  (0x7396, 0x4FC0),
  (0x739B, 0x51E9),
  (0x739F, 0x6485),
  (0x73A2, 0x6484),
  (0x73A9, 0x5787),
  (0x73AB, 0x5255),
  (0x73AE, 0x6483_4E57_5876),
  (0x73B2, 0x5182_648A),
  (0x73B7, 0x6489),
  (0x73BA, 0x6495_49A2),
  (0x73C0, 0x648B),
  (0x73C2, 0x6487),
  (0x73C8, 0x648D_648C_555A),
  (0x73CD, 0x5B85),
  (0x73CF, 0x6486_4C49_6488),
  (0x73D9, 0x648F),
  (0x73DE, 0x6494),
  (0x73E0, 0x5BE8),
  (0x73E5, 0x648E),
  (0x73E7, 0x6493),
  (0x73E9, 0x6492),
  (0x73ED, 0x48DF),
  (0x73F2, 0x6496),
  (0x7403, 0x5493),
  (0x7405, 0x50C4_50EC),
  (0x7409, 0x5191_6491),
  (0x740F, 0x6497_5697),
  (0x741A, 0x64A1_64A0),
  (0x7422, 0x5C61),
  (0x7425, 0x649B_649A),
  (0x7428, 0x649C),
  (0x742A, 0x6498),
  (0x742C, 0x649F),
  (0x742E, 0x649E),
  (0x7430, 0x649D),
  (0x7433, 0x5175_5479_539E_5363),
  (0x743C, 0x548E),
  (0x7441, 0x64A2),
  (0x7455, 0x64A5),
  (0x7457, 0x64A4),
  (0x7459, 0x64A6_4DF6_6499_64A3),
  (0x745E, 0x54EF_554A),
  (0x746D, 0x64A8),
  (0x7470, 0x4D86),
  (0x7476, 0x599F_64A7),
  (0x747E, 0x64A9),
  (0x7480, 0x64AC_64AD),
  (0x7483, 0x5147),
  (0x7487, 0x64AE),
  (0x748B, 0x64AF),
  (0x748E, 0x64AB),
  (0x7490, 0x64B3),
  (0x749C, 0x64AA),
  (0x749E, 0x64B0),
  (0x74A7, 0x64B4_64B1_64B2),
  (0x74BA, 0x64B6),
  (0x74D2, 0x64B5),
  (0x74DC, 0x4D6F),
  (0x74DE, 0x68AB),
  (0x74E0, 0x68AC),
  (0x74E2, 0x53AF_48E9_54BE),
  (0x74E6, 0x577F),
  (0x74EE, 0x57CC_65B0),
  (0x74F4, 0x65B1),
  (0x74F6, 0x53BE_4AC8),
  (0x74FF, 0x65B2),
  (0x7504, 0x5B88),
  (0x750D, 0x5F9A),
  (0x750F, 0x65B3),
  (0x7511, 0x65B4),
  (0x7513, 0x65B5),
  (0x7518, 0x4CC9_6050_5596),
  (0x751C, 0x56EF),
  (0x751F, 0x559B),
  (0x7525, 0x559C),
  (0x7528, 0x5A63_5646),
  (0x752B, 0x4CA5_68AD_4962),
  (0x752F, 0x6358_56EE_5A69_4ED6_558B),
  (0x7535, 0x4B88),
  (0x7537, 0x52CF_4B8A),
  (0x753A, 0x67AD_4E4D),
  (0x753E, 0x647E),
  (0x7540, 0x67AE),
  (0x7545, 0x4A49),
  (0x7548, 0x67B1),
  (0x754B, 0x67B0_4F88),
  (0x754E, 0x67AF_57B6),
  (0x7554, 0x536F),
  (0x7559, 0x5195_5E6E_67B2_58F2),
  (0x7565, 0x51D3_53E7),
  (0x756A, 0x4C4C),
  (0x7572, 0x67B3),
  (0x7574, 0x4A8C),
  (0x7578, 0x4E9C_67B4),
  (0x757F, 0x647C),
  (0x7583, 0x67B5),
  (0x7586, 0x4F4E),
  (0x758B, 0x6983),
  (0x758F, 0x55E7),
  (0x7591, 0x59C8_68D9),
  (0x7594, 0x68DA),
  (0x7596, 0x68DB_5166),
  (0x7599, 0x4CEC_4FCD),
  (0x759D, 0x68DD),
  (0x759F, 0x5351_68DC_5992),
  (0x75A3, 0x68DF_48CB_4F8B),
  (0x75AB, 0x59DE_68DE),
  (0x75AE, 0x4AAE_4C89_68E5_68E4_53A2_68E0_68E1_4AC2),
  (0x75B8, 0x68E2_5B8F),
  (0x75BC, 0x56DA_4FD1_4EB1),
  (0x75C2, 0x68E7_68E6_68E3_49A0),
  (0x75C7, 0x5BA1_5A58_4FB6_54AB),
  (0x75CD, 0x68E9),
  (0x75D2, 0x5998),
  (0x75D4, 0x5BCB_4DDA_68E8),
  (0x75D8, 0x4BBA),
  (0x75DB, 0x5754),
  (0x75DE, 0x53A5),
  (0x75E2, 0x5141_68EA_68ED),
  (0x75E6, 0x68EC_68EF_68EB),
  (0x75EA, 0x4E5E_68EE),
  (0x75F0, 0x56B4_68F1),
  (0x75F4, 0x4A75),
  (0x75F9, 0x4974),
  (0x75FC, 0x68F2),
  (0x75FF, 0x68F3_68F5_4AE0),
  (0x7603, 0x68F0),
  (0x7605, 0x68F6),
  (0x760A, 0x68F9),
  (0x760C, 0x68F7),
  (0x7610, 0x68F4),
  (0x7615, 0x68FC),
  (0x7617, 0x68F8_68FB_68FD),
  (0x761B, 0x6941),
  (0x761F, 0x57C0_6944),
  (0x7622, 0x6943),
  (0x7624, 0x5197_68FA_55DC),
  (0x7629, 0x4AF0_4992_56B0),
  (0x762D, 0x6946),
  (0x7630, 0x6947),
  (0x7633, 0x694C_5B6E_6949),
  (0x7638, 0x54B2),
  (0x763C, 0x6942),
  (0x763E, 0x694B_6948_6945),
  (0x7643, 0x694A),
  (0x764C, 0x48A8_694D),
  (0x7654, 0x694F),
  (0x7656, 0x6951),
  (0x765C, 0x6950),
  (0x765E, 0x694E),
  (0x7663, 0x5942),
  (0x766B, 0x6952),
  (0x766F, 0x6953),
  (0x7678, 0x4D90),
  (0x767B, 0x4B67),
  (0x767D, 0x48D6_48D8),
  (0x7682, 0x5AEC),
  (0x7684, 0x4B64),
  (0x7686, 0x4F74_4E6A_68A6),
  (0x768B, 0x4CDD),
  (0x768E, 0x68A7),
  (0x7691, 0x48A7),
  (0x7693, 0x68A8),
  (0x7696, 0x578F),
  (0x7699, 0x68A9),
  (0x76A4, 0x68AA),
  (0x76AE, 0x53A3),
  (0x76B1, 0x5BE4_6985),
  (0x76B4, 0x6986),
  (0x76BF, 0x5294),
  (0x76C2, 0x5A7B),
  (0x76C5, 0x5BD0_5389),
  (0x76C8, 0x5A4F),
  (0x76CA, 0x59E5),
  (0x76CD, 0x67C0_48BA_5B55_596E_4EDF_4DCF),
  (0x76D4, 0x5099),
  (0x76D6, 0x4CC6_4B61_536C),
  (0x76DB, 0x55A1),
  (0x76DF, 0x526B),
  (0x76E5, 0x67C1),
  (0x76EE, 0x52BE_4BA1),
  (0x76F1, 0x678D_5244),
  (0x76F4, 0x5BB0),
  (0x76F8, 0x5881_6790),
  (0x76FC, 0x536E),
  (0x76FE, 0x4BDB),
  (0x7701, 0x55A0),
  (0x7704, 0x678E),
  (0x7707, 0x6791_6792_525C),
  (0x770B, 0x5054),
  (0x770D, 0x678F),
  (0x7719, 0x6795_6793),
  (0x771F, 0x5B87_527F),
  (0x7722, 0x6794),
  (0x7726, 0x6797),
  (0x7728, 0x5B43_5943),
  (0x772D, 0x6796),
  (0x772F, 0x5270),
  (0x7735, 0x6798_5095_4FEB_6799),
  (0x773A, 0x56F6),
  (0x773C, 0x597B),
  (0x7740, 0x5C65_5B97),
  (0x7743, 0x679D),
  (0x7747, 0x679C),
  (0x7750, 0x679A_679B),
  (0x775A, 0x679E_4FA5),
  (0x7761, 0x564F_67A0_4BBC),
  (0x7765, 0x67A1_52BF),
  (0x7768, 0x679F),
  (0x776B, 0x4F7E_49C6),
  (0x7779, 0x4BC2),
  (0x777D, 0x67A4_5CB9_67A2_67A5),
  (0x7784, 0x528A_4A93),
  (0x778C, 0x67A6_67A3_5859),
  (0x7791, 0x67A7_51F6),
  (0x779F, 0x67A8_67A9),
  (0x77A2, 0x5FAA),
  (0x77A5, 0x53B2),
  (0x77A7, 0x5466),
  (0x77A9, 0x5BF4_4B69),
  (0x77AC, 0x5652),
  (0x77B0, 0x67AA),
  (0x77B3, 0x574B),
  (0x77B5, 0x67AB),
  (0x77BB, 0x5B50),
  (0x77BD, 0x67AC),
  (0x77BF, 0x6BC3),
  (0x77CD, 0x5E67),
  (0x77D7, 0x4AA2),
  (0x77DB, 0x524C_6987),
  (0x77E2, 0x55B7_59D2),
  (0x77E5, 0x5BA9),
  (0x77E7, 0x6893),
  (0x77E9, 0x4FD7),
  (0x77EB, 0x4F63_6894_4BCB_48AA),
  (0x77F3, 0x55AE),
  (0x77F6, 0x6756),
  (0x77F8, 0x6757),
  (0x77FD, 0x57F8_4C4F_5094_6758_51EA_5550),
  (0x7809, 0x6759),
  (0x780C, 0x53F5_5053),
  (0x7811, 0x675C_5399),
  (0x7814, 0x5970),
  (0x7816, 0x5C49_675A_675B),
  (0x781A, 0x5983),
  (0x781C, 0x675F_6760),
  (0x781F, 0x6764),
  (0x7823, 0x6768),
  (0x7825, 0x6766_676E_5B89),
  (0x7829, 0x6769),
  (0x782C, 0x6767_675E),
  (0x7830, 0x538A),
  (0x7834, 0x53C5),
  (0x7837, 0x558A_5AD1_6761_6762_6763_6765),
  (0x783E, 0x50F8),
  (0x7840, 0x4AA0),
  (0x7845, 0x4D89),
  (0x7847, 0x6770),
  (0x784C, 0x6771),
  (0x784E, 0x676A),
  (0x7850, 0x676F),
  (0x7852, 0x57F7),
  (0x7855, 0x5656_676C_676D),
  (0x785D, 0x5896),
  (0x786A, 0x6772_5193_5A52_676B_54B6),
  (0x7877, 0x4EEE),
  (0x787C, 0x5391),
  (0x7887, 0x6776),
  (0x7889, 0x4B90),
  (0x788C, 0x51B4_48AC_568A),
  (0x7891, 0x494E),
  (0x7893, 0x6774),
  (0x7897, 0x578C_4B83),
  (0x789A, 0x6775_6773_6777),
  (0x789F, 0x4B9B),
  (0x78A1, 0x6778),
  (0x78A3, 0x6779),
  (0x78A5, 0x677C),
  (0x78A7, 0x496C),
  (0x78B0, 0x5397_4EED_677A_56BB_49E9),
  (0x78B9, 0x677B),
  (0x78BE, 0x52EA),
  (0x78C1, 0x4AC4),
  (0x78C5, 0x48F4),
  (0x78C9, 0x677F_50D9_4AE7),
  (0x78D0, 0x536D),
  (0x78D4, 0x677D_5064),
  (0x78D9, 0x677E),
  (0x78E8, 0x52A4),
  (0x78EC, 0x6781),
  (0x78F2, 0x6782),
  (0x78F4, 0x6784),
  (0x78F7, 0x5177),
  (0x78FA, 0x4E67),
  (0x7901, 0x4F58),
  (0x7905, 0x6783),
  (0x7913, 0x6785),
  (0x791E, 0x6787),
  (0x7924, 0x6786),
  (0x7934, 0x6788),
  (0x793A, 0x55BD_66E9_50F0),
  (0x793E, 0x5588),
  (0x7940, 0x66EA_53ED),
  (0x7946, 0x66EB),
  (0x7948, 0x53EC_66EC),
  (0x7953, 0x66EF),
  (0x7956, 0x5C87_66F2),
  (0x795A, 0x66F0_66ED_66EE_5C43_5592_568F_66F3),
  (0x7962, 0x66F1),
  (0x7965, 0x588A),
  (0x7967, 0x66F5_53B0),
  (0x796D, 0x4EBF),
  (0x796F, 0x66F4),
  (0x7977, 0x4B5B_4E97),
  (0x797A, 0x66F6),
  (0x7980, 0x5D98_4F9C),
  (0x7984, 0x51BA_66F7),
  (0x798A, 0x66F8),
  (0x798F, 0x4CA2),
  (0x799A, 0x66F9),
  (0x79A7, 0x66FA),
  (0x79B3, 0x66FB),
  (0x79B9, 0x5A8E_5CAD_50EA),
  (0x79BD, 0x547D_4DCB),
  (0x79C0, 0x58E2_565D),
  (0x79C3, 0x575A),
  (0x79C6, 0x4CD0),
  (0x79C9, 0x499D),
  (0x79CB, 0x5490),
  (0x79CD, 0x5BD5),
  (0x79D1, 0x5066_528C),
  (0x79D5, 0x6896),
  (0x79D8, 0x5278),
  (0x79DF, 0x5C83),
  (0x79E3, 0x6898_4A73),
  (0x79E6, 0x5478_598E),
  (0x79E9, 0x5BC7),
  (0x79EB, 0x6899),
  (0x79ED, 0x6897),
  (0x79EF, 0x4E9E_4A66),
  (0x79F8, 0x4F75),
  (0x79FB, 0x59C5),
  (0x79FD, 0x4E81),
  (0x7A00, 0x5841),
  (0x7A02, 0x689D_689C),
  (0x7A06, 0x689A),
  (0x7A0B, 0x4A6C),
  (0x7A0D, 0x5574_5650),
  (0x7A14, 0x689F),
  (0x7A17, 0x48DD),
  (0x7A1A, 0x5BC8),
  (0x7A1E, 0x689E),
  (0x7A20, 0x4A8E),
  (0x7A23, 0x6BD4),
  (0x7A33, 0x57C7),
  (0x7A37, 0x68A1),
  (0x7A39, 0x68A0),
  (0x7A3B, 0x4B5E_4ED9_4E9D),
  (0x7A3F, 0x4CE4),
  (0x7A46, 0x52C1),
  (0x7A51, 0x68A2),
  (0x7A57, 0x568C),
  (0x7A70, 0x68A5),
  (0x7A74, 0x5948),
  (0x7A76, 0x4FBE_548F_6956_6957_5075),
  (0x7A7F, 0x4AA8_6958_575B),
  (0x7A83, 0x5474_5B4D),
  (0x7A86, 0x6959),
  (0x7A88, 0x695A),
  (0x7A8D, 0x546F),
  (0x7A91, 0x59A3_5BCE),
  (0x7A95, 0x695B_4F71_4AAF_4FBC),
  (0x7A9C, 0x4ADB_57D0),
  (0x7A9F, 0x507F_695D),
  (0x7AA5, 0x509B_695C),
  (0x7AA8, 0x695F),
  (0x7AAC, 0x695E_6960),
  (0x7AB3, 0x6961),
  (0x7ABF, 0x519F),
  (0x7ACB, 0x5142),
  (0x7AD6, 0x55F9),
  (0x7AD9, 0x5B5E),
  (0x7ADE, 0x4FB9_4FB8_5B62),
  (0x7AE3, 0x5042),
  (0x7AE5, 0x574F_6955),
  (0x7AED, 0x4F7F),
  (0x7AEF, 0x4BCA),
  (0x7AF9, 0x5BF0_6A63),
  (0x7AFD, 0x6A64),
  (0x7AFF, 0x4CCC),
  (0x7B03, 0x6A66_6A67),
  (0x7B06, 0x48C9),
  (0x7B08, 0x6A65),
  (0x7B0A, 0x6A69_5692),
  (0x7B0F, 0x6A6B),
  (0x7B11, 0x58A5),
  (0x7B14, 0x496A_6A68),
  (0x7B19, 0x6A6F),
  (0x7B1B, 0x4B71),
  (0x7B1E, 0x6A77),
  (0x7B20, 0x6A72),
  (0x7B24, 0x6A74_6A73_4C9C),
  (0x7B28, 0x495F),
  (0x7B2A, 0x6A6E_6A6A_4B7A),
  (0x7B2E, 0x6A70),
  (0x7B31, 0x6A71),
  (0x7B33, 0x6A75),
  (0x7B38, 0x6A6D),
  (0x7B3A, 0x4EE2),
  (0x7B3C, 0x519E),
  (0x7B3E, 0x6A76),
  (0x7B45, 0x6A7A),
  (0x7B47, 0x6A6C),
  (0x7B49, 0x4B68),
  (0x7B4B, 0x4F8F_6A7C),
  (0x7B4F, 0x4C44_5091_5BFD_5752),
  (0x7B54, 0x4AEF),
  (0x7B56, 0x49DE),
  (0x7B58, 0x6A78),
  (0x7B5A, 0x6A79_5558),
  (0x7B5D, 0x6A7D),
  (0x7B60, 0x6A7E),
  (0x7B62, 0x6A82),
  (0x7B6E, 0x6A7F),
  (0x7B71, 0x6A84_6A83),
  (0x7B75, 0x6A7B),
  (0x7B77, 0x508B),
  (0x7B79, 0x4A90),
  (0x7B7B, 0x6A81),
  (0x7B7E, 0x5449),
  (0x7B80, 0x4EF1),
  (0x7B85, 0x6A8C),
  (0x7B8D, 0x4D5F),
  (0x7B90, 0x6A85),
  (0x7B94, 0x49AC_4E9F),
  (0x7B97, 0x5684),
  (0x7B9C, 0x6A8E_6A8A),
  (0x7BA1, 0x4D7C_6A8F),
  (0x7BA6, 0x6A86_6A87_6A8B_51E0_6A8D_6A90_6A89_4EFC),
  (0x7BB1, 0x5885),
  (0x7BB4, 0x6A91),
  (0x7BB8, 0x6A88),
  (0x7BC1, 0x6A93),
  (0x7BC6, 0x5C4D_53A9),
  (0x7BCC, 0x6A94),
  (0x7BD1, 0x6A92),
  (0x7BD3, 0x51A7),
  (0x7BD9, 0x4CDC_6A96),
  (0x7BDD, 0x6A95),
  (0x7BE1, 0x4ADA),
  (0x7BE5, 0x6A97_6A98),
  (0x7BEA, 0x6A99),
  (0x7BEE, 0x50B9),
  (0x7BF1, 0x50E8),
  (0x7BF7, 0x5392),
  (0x7BFC, 0x6A9C),
  (0x7BFE, 0x6A9B),
  (0x7C07, 0x4AD7),
  (0x7C0B, 0x6A9F_6A9A),
  (0x7C0F, 0x6A9D),
  (0x7C16, 0x6A9E),
  (0x7C1F, 0x6AA0),
  (0x7C26, 0x6AA2_4E69),
  (0x7C2A, 0x6AA1),
  (0x7C38, 0x6AA3),
  (0x7C3F, 0x49BD_6AA5_6AA4),
  (0x7C4D, 0x4EAD),
  (0x7C73, 0x5277_5D82),
  (0x7C7B, 0x50DF_6ACB_5C71),
  (0x7C89, 0x4C7B),
  (0x7C91, 0x6ACD_5143),
  (0x7C95, 0x53C8),
  (0x7C97, 0x4AD5_5B53),
  (0x7C9C, 0x6ACF_6ACE_6AD0_567A),
  (0x7CA2, 0x6AD1),
  (0x7CA4, 0x5AC0_5BDF),
  (0x7CAA, 0x4C81),
  (0x7CAE, 0x5158),
  (0x7CB1, 0x515B_6AD2_4FAB),
  (0x7CB9, 0x4AE1),
  (0x7CBC, 0x6AD3_6AD4_4FAA),
  (0x7CC1, 0x6AD5),
  (0x7CC5, 0x6ADA),
  (0x7CC7, 0x6AD6_6AD9),
  (0x7CCA, 0x4DFC),
  (0x7CCC, 0x6AD7_6AD8),
  (0x7CD5, 0x4CE1_56C6_6ADB),
  (0x7CD9, 0x49D9),
  (0x7CDC, 0x5273),
  (0x7CDF, 0x5AE2_5057),
  (0x7CE8, 0x6ADC),
  (0x7CEF, 0x5354),
  (0x7CF8, 0x6AE8),
  (0x7CFB, 0x5855),
  (0x7D0A, 0x57C8),
  (0x7D20, 0x5678),
  (0x7D22, 0x5698),
  (0x7D27, 0x4F95),
  (0x7D2B, 0x5C6F),
  (0x7D2F, 0x50DA),
  (0x7D6E, 0x58F4),
  (0x7D77, 0x6AE9),
  (0x7DA6, 0x6AEA),
  (0x7DAE, 0x6AEB),
  (0x7E3B, 0x6C84),
  (0x7E41, 0x4C51),
  (0x7E47, 0x6AEC),
  (0x7E82, 0x5C8C),
  (0x7E9B, 0x6AED),
  (0x7E9F, 0x63F8_4FBF_63F9_4DEB_63FA_586B_63FB_5ABB_4EB5_63FC_63FD_4ECC),
  (0x7EAB, 0x54D1_57B2_6441),
  (0x7EAF, 0x4ABE_6442_5554_4CD8_52C8),
  (0x7EB5, 0x5C7D_51D9_4C77_5BBC_57C5_4C64),
  (0x7EBD, 0x5346_6443_587F_6444_6445_6446_5157_5C8A_5591_5858_5BAE_5BD4),
  (0x7EC9, 0x6447_48EC_6448_6449_557C_59EE_4FAC_644A_48F2_54DD_4F82_644B),
  (0x7ED5, 0x54C5),
  (0x7ED7, 0x644C_4E87_4CF7_5944_644D_51E6_4FF7_4F6A_5753_644E_644F_4FED),
  (0x7EE3, 0x58E4),
  (0x7EE5, 0x5688_56CF_4ECB_6450_4EA7_58F6_6451),
  (0x7EED, 0x58F7_6452_6453_4AC1_6454_6455_559F_57AB_5281_6457_4961_4A92),
  (0x7EFA, 0x6458_6459_5C7B_5B60_645A_51CB_5C5A_645B_645C_645D_4EE9_5286),
  (0x7F06, 0x50C1_645E_645F_4EA8),
  (0x7F0B, 0x6460_6461_6456_4BCF_6462),
  (0x7F11, 0x6463_6464_4E5A_4B7E_51C5_4981_6465_5AB4_6466_4CBE_6468_6467),
  (0x7F1D, 0x4C8D),
  (0x7F1F, 0x6469_49F7_646A_646B_646C_646D_646E_646F_6470_5A47_5696_6471),
  (0x7F2B, 0x6472_6473_6474_5569_6475_6476_6477_6478_6479_4F69_647A_6A5E),
  (0x7F38, 0x4CD6),
  (0x7F3A, 0x54B0),
  (0x7F42, 0x6A5F),
  (0x7F44, 0x6A60_6A61),
  (0x7F50, 0x4D7E_5799),
  (0x7F54, 0x5CE7_4DB0),
  (0x7F57, 0x51DD_67B6),
  (0x7F5A, 0x4C43),
  (0x7F5F, 0x67B8),
  (0x7F61, 0x67B7_48D4),
  (0x7F68, 0x67BA_5B76_5C90),
  (0x7F6E, 0x5BC2),
  (0x7F71, 0x67BC_55EF),
  (0x7F74, 0x67BB),
  (0x7F79, 0x67BD),
  (0x7F7E, 0x67BF),
  (0x7F81, 0x67BE),
  (0x7F8A, 0x5993),
  (0x7F8C, 0x545C),
  (0x7F8E, 0x5260),
  (0x7F94, 0x4CE0),
  (0x7F9A, 0x5188),
  (0x7F9D, 0x6AC5_58DE_6AC6),
  (0x7FA1, 0x587B),
  (0x7FA4, 0x54B9),
  (0x7FA7, 0x6AC7),
  (0x7FAF, 0x6AC8_6AC9),
  (0x7FB2, 0x6ACA),
  (0x7FB8, 0x5D9B_4CFD),
  (0x7FBC, 0x6392_5A91),
  (0x7FBF, 0x6ADF),
  (0x7FC1, 0x57CB),
  (0x7FC5, 0x4A82),
  (0x7FCA, 0x6954),
  (0x7FCC, 0x59ED),
  (0x7FCE, 0x6AE0),
  (0x7FD4, 0x5889_6AE1),
  (0x7FD8, 0x546C),
  (0x7FDF, 0x4B74_4AE3_6AE3),
  (0x7FE5, 0x6AE2_6AE4),
  (0x7FE9, 0x6AE5),
  (0x7FEE, 0x6AE6),
  (0x7FF0, 0x4DB1_48BE),
  (0x7FF3, 0x6AE7),
  (0x7FFB, 0x4C4D_59EC),
  (0x8000, 0x59AA_50CE),
  (0x8003, 0x505C_6643_5B7F_65C7),
  (0x800B, 0x6994_4BF7_5643),
  (0x8010, 0x52CC),
  (0x8012, 0x6988),
  (0x8014, 0x6989_4CFA_698A_4DC3_5AC4_48D1),
  (0x801C, 0x698B),
  (0x8020, 0x698C),
  (0x8022, 0x698D),
  (0x8025, 0x698E_698F_6990_6992_6991_5375),
  (0x8031, 0x6993),
  (0x8033, 0x4BF9),
  (0x8035, 0x6995_59AD_5FC6_566A),
  (0x803B, 0x4A7C),
  (0x803D, 0x4B42),
  (0x803F, 0x4D42),
  (0x8042, 0x52F3_6996),
  (0x8046, 0x6997),
  (0x804A, 0x5164_519C_5BAF_6998),
  (0x8052, 0x6999),
  (0x8054, 0x514A),
  (0x8058, 0x53B7),
  (0x805A, 0x4FDA),
  (0x8069, 0x699A_4ACE),
  (0x8071, 0x699B),
  (0x807F, 0x6752_6751),
  (0x8083, 0x5681_59DD),
  (0x8086, 0x5661_5B78),
  (0x8089, 0x54E1),
  (0x808B, 0x50DE_4EA0),
  (0x8093, 0x6661),
  (0x8096, 0x58A3),
  (0x8098, 0x5BE1),
  (0x809A, 0x4BC6_4CD7_6660_4CCD),
  (0x809F, 0x665F_4A46_4D69_5BAA),
  (0x80A4, 0x4C95_4C6A),
  (0x80A9, 0x4EE6_4C5E_6666),
  (0x80AD, 0x6667_48B8_506F),
  (0x80B1, 0x6665_5A9E),
  (0x80B4, 0x6668),
  (0x80B7, 0x6669),
  (0x80BA, 0x4C6E),
  (0x80BC, 0x6662_6664_5597_5BD6_5B6D_58B1_666F_57B7_6670),
  (0x80C6, 0x4B48),
  (0x80CC, 0x4953_6672_56A4),
  (0x80D6, 0x5376_6673),
  (0x80D9, 0x6671_537F_666E_55A3_6675_48FA),
  (0x80E1, 0x4DF9),
  (0x80E4, 0x5CB6_6984),
  (0x80E7, 0x666A_666B_666C_666D_6676_63BF_6679),
  (0x80EF, 0x5089_59C7_6677_667C_4CEB_6678),
  (0x80F6, 0x4F5A),
  (0x80F8, 0x58D7),
  (0x80FA, 0x48B6),
  (0x80FC, 0x667D_52DB),
  (0x8102, 0x5BAB),
  (0x8106, 0x4ADF),
  (0x8109, 0x51F5_4EB8),
  (0x810D, 0x667A_667B_5ADF_53E9_52D3_667F_5347_5D96),
  (0x8116, 0x49B0),
  (0x8118, 0x6685),
  (0x811A, 0x4F65),
  (0x811E, 0x6683),
  (0x812C, 0x6684),
  (0x812F, 0x4CAB),
  (0x8131, 0x5771_6686),
  (0x8136, 0x6682),
  (0x8138, 0x5153),
  (0x813E, 0x53A1),
  (0x8146, 0x56F2),
  (0x8148, 0x6687),
  (0x814A, 0x50AF_59B7_6688),
  (0x8150, 0x4CAE_4CAC),
  (0x8153, 0x6689_545B_5794),
  (0x8159, 0x668B_668C),
  (0x8160, 0x668E),
  (0x8165, 0x58C7),
  (0x8167, 0x6693),
  (0x8169, 0x668F),
  (0x816D, 0x6692_54F8),
  (0x8170, 0x599D_668D),
  (0x8174, 0x668A),
  (0x8179, 0x4CB8_5879_52E4_6690_6691_56D9_5768_48F1),
  (0x8182, 0x6697),
  (0x8188, 0x6696),
  (0x818A, 0x49B1),
  (0x818F, 0x4CDF),
  (0x8191, 0x6698),
  (0x8198, 0x498D),
  (0x819B, 0x56C4_52A3_5845),
  (0x81A3, 0x669A),
  (0x81A6, 0x66A1),
  (0x81A8, 0x5393),
  (0x81AA, 0x669B),
  (0x81B3, 0x5565),
  (0x81BA, 0x61DE_669F),
  (0x81C0, 0x576E_66A0_497B_5A57),
  (0x81C6, 0x59DB),
  (0x81CA, 0x669E),
  (0x81CC, 0x669C),
  (0x81E3, 0x4A5C),
  (0x81E7, 0x65AF),
  (0x81EA, 0x5C74),
  (0x81EC, 0x6AAA_4A95),
  (0x81F3, 0x5BC0_5BC1),
  (0x81FB, 0x5B8A_4FC9),
  (0x81FE, 0x6AA6),
  (0x8200, 0x59A7_6AA7_6AA8),
  (0x8204, 0x6AA9_4FCA_5A7F),
  (0x820C, 0x5581_5582),
  (0x8210, 0x6A62),
  (0x8212, 0x55E5),
  (0x8214, 0x56F1),
  (0x821B, 0x61B5_5654),
  (0x821E, 0x57E7_5BDA),
  (0x8221, 0x6AAC_6AAD_6AAE),
  (0x8228, 0x6AB1),
  (0x822A, 0x4DBC_6AB2_48E2_6AAF),
  (0x822F, 0x6AB0_4F42_49D4),
  (0x8233, 0x6AB5_6AB6_4BE5_49AF_586F_6AB3_4AAB),
  (0x823B, 0x6AB4),
  (0x823E, 0x6AB7),
  (0x8244, 0x6AB8),
  (0x8247, 0x5747),
  (0x8249, 0x6AB9),
  (0x824B, 0x6ABA),
  (0x824F, 0x6ABB),
  (0x8258, 0x5672),
  (0x825A, 0x6ABC),
  (0x825F, 0x6ABD),
  (0x8268, 0x6ABE),
  (0x826E, 0x6ADD_515C_4EE7),
  (0x8272, 0x554B_597E_6396),
  (0x8279, 0x5EB2_59D4),
  (0x827D, 0x5EB3_48AB_5EB4),
  (0x8282, 0x4F7A),
  (0x8284, 0x5EB8),
  (0x8288, 0x5CC1),
  (0x828A, 0x5EB6_5A94),
  (0x828D, 0x5576_5EB9_5EB5),
  (0x8291, 0x5EBA_5242),
  (0x8297, 0x5EBB_5EC4_5EBC),
  (0x829C, 0x57DE_5BA4),
  (0x829F, 0x5ECE),
  (0x82A1, 0x5ECC),
  (0x82A4, 0x5ED1_4F87_51AA),
  (0x82A8, 0x5EB7_5ECA_5ECD_5EBD_4C72_48C4_5EC6_58BD_5EC0_4E48),
  (0x82B3, 0x4C5C_5ECB),
  (0x82B7, 0x5EC5_5EBE_547B),
  (0x82BD, 0x595F_5EBF),
  (0x82C1, 0x5EC9),
  (0x82C4, 0x5ECF),
  (0x82C7, 0x57AC_5EC1),
  (0x82CA, 0x5EC2_5EC7_5EC8_49D3_5ED0_5675),
  (0x82D1, 0x5AB6_5EDA_5EDE_56A5_5EE5),
  (0x82D7, 0x5288_5EDB),
  (0x82DB, 0x5061_5ED8),
  (0x82DE, 0x48F9_4D56_5EE4_5ED2),
  (0x82E3, 0x5EC3_5ED5_54F3_5081),
  (0x82EB, 0x555B),
  (0x82EF, 0x495D),
  (0x82F1, 0x5A42),
  (0x82F4, 0x5ED9),
  (0x82F7, 0x5ED4),
  (0x82F9, 0x53BA),
  (0x82FB, 0x5EDD),
  (0x8301, 0x5C62_524F_4C56_5471_5249_5EE1_5ED7_5EEA_5ED3),
  (0x830C, 0x5EDC),
  (0x830E, 0x4FA4_5ED6),
  (0x8311, 0x5EDF),
  (0x8314, 0x5EE2_5EE3),
  (0x8317, 0x5EF7),
  (0x831A, 0x5EE0_5F42_5EE6),
  (0x8327, 0x4EEA_4AC3),
  (0x832B, 0x5243_49E6_5EF9),
  (0x832F, 0x5EF1),
  (0x8331, 0x5EEE),
  (0x8333, 0x5EFB_5EED_59EF_49E7),
  (0x8338, 0x54D6_54E2_5EFA),
  (0x833C, 0x5EEC),
  (0x8340, 0x5EF6),
  (0x8343, 0x5EF4),
  (0x8346, 0x4FA2_5EF3),
  (0x8349, 0x49DC),
  (0x834F, 0x5EF2_4EF5_5EE7_4E64),
  (0x8354, 0x50F2),
  (0x835A, 0x4ED3_5EE8_5EE9),
  (0x835E, 0x5EF0_5EF5_5EF8_4B54),
  (0x8363, 0x54D8_4E88_5EFD_5EFC_5A4B_5F41_5F43_5F45_59F0_5F44_5F46_5F47),
  (0x836F, 0x59A8),
  (0x8377, 0x4DC8_5F49),
  (0x837B, 0x5F56_5F51_5F54),
  (0x8385, 0x5F50_53CD),
  (0x8389, 0x50F1),
  (0x838E, 0x554F),
  (0x8392, 0x5EEB_5F4E),
  (0x8398, 0x5F57),
  (0x839B, 0x5EEF_5F4F),
  (0x839E, 0x5F58),
  (0x83A0, 0x5F4C),
  (0x83A8, 0x5F59_5F53_5F4D_52A9),
  (0x83B0, 0x5F48_50B2_514B_5F4A_5F4B),
  (0x83B6, 0x5F52_4E92_5F55_5A48_5F5A),
  (0x83BC, 0x5F5B_5247),
  (0x83C0, 0x5F72_5F5C),
  (0x83C5, 0x5F71),
  (0x83C7, 0x4D5D),
  (0x83CA, 0x4FD4),
  (0x83CC, 0x4FF9),
  (0x83CF, 0x4DC9),
  (0x83D4, 0x5F6A),
  (0x83D6, 0x5F65),
  (0x83D8, 0x5F5F),
  (0x83DC, 0x49CA_5F63),
  (0x83DF, 0x5F6B_49A3_5F75),
  (0x83E5, 0x5F5E),
  (0x83E9, 0x53CF_5F70),
  (0x83F0, 0x5F74_5183_4C66),
  (0x83F8, 0x5F6E_5F6F),
  (0x83FD, 0x5F64),
  (0x8401, 0x5F5D),
  (0x8403, 0x5F6D_56D0),
  (0x8406, 0x5F69),
  (0x840B, 0x5F62_5268_53BB_57AD_5F6C),
  (0x8411, 0x5F68),
  (0x8418, 0x5F61),
  (0x841C, 0x5F66_51DB),
  (0x8424, 0x5A49_5A4A_5F73_5895_54F7),
  (0x8431, 0x5F87),
  (0x8438, 0x5F67),
  (0x843C, 0x5F81_51E3),
  (0x8446, 0x5F82),
  (0x8451, 0x5F77),
  (0x8457, 0x5BF7),
  (0x8459, 0x5F79_5F78_4CEF_5F76),
  (0x8461, 0x53CE),
  (0x8463, 0x4BAC),
  (0x8469, 0x5F83),
  (0x846B, 0x4DF8_5AE0_5F88),
  (0x8471, 0x4ACF),
  (0x8473, 0x5F7A),
  (0x8475, 0x509C_5F84),
  (0x8478, 0x5F7F),
  (0x847A, 0x5F7D),
  (0x8482, 0x4B79),
  (0x8487, 0x5F7B_5F7C_5F7E),
  (0x848B, 0x4F4F_5F85),
  (0x848E, 0x5F86),
  (0x8497, 0x5F96),
  (0x8499, 0x5269),
  (0x849C, 0x5683),
  (0x84A1, 0x5F93),
  (0x84AF, 0x5CE0),
  (0x84B2, 0x53D0),
  (0x84B4, 0x5F95),
  (0x84B8, 0x5B95_5F94_5F91),
  (0x84BD, 0x5F8D),
  (0x84BF, 0x5F90),
  (0x84C1, 0x5F89),
  (0x84C4, 0x58ED),
  (0x84C9, 0x54D7_5F8F),
  (0x84CD, 0x5F8A),
  (0x84D0, 0x5F8B_5693),
  (0x84D3, 0x5F8E),
  (0x84D6, 0x496D),
  (0x84DD, 0x50B5),
  (0x84DF, 0x4EBA_5F92),
  (0x84E3, 0x5F98),
  (0x84E5, 0x5F97_5F8C),
  (0x84EC, 0x538F),
  (0x84F0, 0x5F9C),
  (0x84FC, 0x5FA3),
  (0x84FF, 0x5FA2),
  (0x850C, 0x5F99),
  (0x8511, 0x5290),
  (0x8513, 0x51FA),
  (0x8517, 0x5B82),
  (0x851A, 0x57B4),
  (0x851F, 0x5F9E),
  (0x8521, 0x49CB),
  (0x852B, 0x52E7_55DE),
  (0x8537, 0x545E_5F9B_5F9D_5F9F_5FA1_48A9_496E),
  (0x8543, 0x5FAB),
  (0x8548, 0x5FA5_4F56_54EE),
  (0x8556, 0x5FA0),
  (0x8559, 0x5FA4),
  (0x855E, 0x5FA8),
  (0x8564, 0x5FA7),
  (0x8568, 0x5FA6),
  (0x8572, 0x5FAC),
  (0x8574, 0x5ACB),
  (0x8579, 0x5FB2_5FA9_5FAD),
  (0x857E, 0x50D8),
  (0x8584, 0x4941_5FB5),
  (0x8587, 0x5FB0),
  (0x858F, 0x5FB1),
  (0x859B, 0x5946_5FB4),
  (0x85A4, 0x5FAE),
  (0x85A8, 0x5FAF),
  (0x85AA, 0x58BC),
  (0x85AE, 0x5FB3_55EC_5FB8),
  (0x85B7, 0x5FB7),
  (0x85B9, 0x5FB6),
  (0x85C1, 0x5FBA),
  (0x85C9, 0x4F86),
  (0x85CF, 0x49D7_528B),
  (0x85D3, 0x5FB9),
  (0x85D5, 0x535A),
  (0x85DC, 0x5FBB),
  (0x85E4, 0x56D8),
  (0x85E9, 0x4C4A),
  (0x85FB, 0x5AE4),
  (0x85FF, 0x5FBC),
  (0x8605, 0x5FBE),
  (0x8611, 0x52A1),
  (0x8616, 0x5FC0),
  (0x8627, 0x5FBD),
  (0x8629, 0x5FBF),
  (0x8638, 0x5B5A),
  (0x863C, 0x5FC1),
  (0x864D, 0x69AD_4E42_51B1_5350_51C6),
  (0x8654, 0x69AE),
  (0x865A, 0x58E8),
  (0x865E, 0x5A7D),
  (0x8662, 0x665D),
  (0x866B, 0x4A87_69AF),
  (0x866E, 0x69B0),
  (0x8671, 0x55AC),
  (0x8679, 0x4DE6_69B2_69B4_69B3_5685_585A_69B1_55B3_59CE_51EB),
  (0x868A, 0x57C2_69B7_48F5_69B6),
  (0x8693, 0x69BD),
  (0x8695, 0x49CE),
  (0x869C, 0x5961_69B9),
  (0x86A3, 0x69BB_5AE8),
  (0x86A7, 0x69BA_69B5_69BE_69BC),
  (0x86AC, 0x69B8),
  (0x86AF, 0x69C6_69C3_69C5),
  (0x86B4, 0x69C9_69C1_69BF),
  (0x86BA, 0x69C4),
  (0x86C0, 0x5BFA),
  (0x86C4, 0x69C0),
  (0x86C6, 0x549A_557F),
  (0x86C9, 0x69C7_4D66_4B50),
  (0x86CE, 0x69C2_69C8_69CF_69D5),
  (0x86D4, 0x4E77),
  (0x86D8, 0x69D4_577C),
  (0x86DB, 0x5BEA),
  (0x86DE, 0x69D1_69D3),
  (0x86E4, 0x4CF1),
  (0x86E9, 0x69CA),
  (0x86ED, 0x69CD_51F8),
  (0x86F0, 0x5B7D_69CB_69CC_69CE_69D2),
  (0x86F8, 0x69D8_5A5C),
  (0x86FE, 0x4BE9),
  (0x8700, 0x55F0),
  (0x8702, 0x4C85_69D6),
  (0x8707, 0x69D7_69D9_69DC_69DA),
  (0x870D, 0x69DB),
  (0x8712, 0x5971_69D0),
  (0x8715, 0x5769),
  (0x8717, 0x57CE_5BA8),
  (0x871A, 0x69E2),
  (0x871C, 0x527B),
  (0x871E, 0x69DF),
  (0x8721, 0x50AE_69EB_69DD),
  (0x8725, 0x69E0),
  (0x8729, 0x69E7),
  (0x872E, 0x69E1),
  (0x8731, 0x69E6),
  (0x8734, 0x69E5),
  (0x8737, 0x69E8),
  (0x873B, 0x69DE),
  (0x873E, 0x69E3_69E9),
  (0x8747, 0x5A4C_69E4_49F4),
  (0x874C, 0x69F1),
  (0x874E, 0x58AA),
  (0x8753, 0x69F4),
  (0x8757, 0x4E68),
  (0x8759, 0x69F8),
  (0x8760, 0x69EF),
  (0x8763, 0x69F5_69F7_69F9),
  (0x876E, 0x69F2),
  (0x8770, 0x69F0),
  (0x8774, 0x4DFA),
  (0x8776, 0x4B9C),
  (0x877B, 0x69EE_69F6_69EC_69ED),
  (0x8782, 0x69EA_6A46),
  (0x8785, 0x6A43),
  (0x8788, 0x6A42),
  (0x878B, 0x69F3),
  (0x878D, 0x54D9),
  (0x8793, 0x69FA),
  (0x8797, 0x6A45),
  (0x879F, 0x5299),
  (0x87A8, 0x69FC),
  (0x87AB, 0x6A47_6A49_6A44),
  (0x87AF, 0x69FB),
  (0x87B3, 0x6A4B),
  (0x87B5, 0x6A4A),
  (0x87BA, 0x51DC),
  (0x87BD, 0x6A4E),
  (0x87C0, 0x6A50),
  (0x87C6, 0x6A41),
  (0x87CA, 0x6A51_6A4C),
  (0x87D1, 0x6A4F_69FD_6A4D),
  (0x87DB, 0x6A52),
  (0x87E0, 0x6A54),
  (0x87E5, 0x6A48),
  (0x87EA, 0x6A53),
  (0x87EE, 0x6A55),
  (0x87F9, 0x58B6),
  (0x87FE, 0x6A58),
  (0x8803, 0x5D9A),
  (0x880A, 0x6A59),
  (0x8813, 0x6A57),
  (0x8815, 0x54E3_6A56),
  (0x881B, 0x6A5A),
  (0x8821, 0x6A5B_4ABF),
  (0x8832, 0x67C2),
  (0x8839, 0x6A5C),
  (0x883C, 0x6A5D),
  (0x8840, 0x594A),
  (0x8844, 0x6AAB_58C5),
  (0x884C, 0x58CF_597C),
  (0x8854, 0x586E),
  (0x8857, 0x4F76),
  (0x8859, 0x5963),
  (0x8861, 0x4DE1_618A_59C1_6962_49B8),
  (0x8868, 0x498E_6963),
  (0x886B, 0x5560_4A64),
  (0x886E, 0x5D93),
  (0x8870, 0x5645),
  (0x8872, 0x6964),
  (0x8877, 0x5BD3),
  (0x887D, 0x6965_6ABF_6966),
  (0x8881, 0x5AAB_6967),
  (0x8884, 0x48BF_6AC0),
  (0x8888, 0x6AC1),
  (0x888B, 0x4AFB),
  (0x888D, 0x537B),
  (0x8892, 0x56BA),
  (0x8896, 0x58E3),
  (0x889C, 0x5781),
  (0x88A2, 0x6968),
  (0x88A4, 0x5D94),
  (0x88AB, 0x495B),
  (0x88AD, 0x584E),
  (0x88B1, 0x4CA3),
  (0x88B7, 0x696A),
  (0x88BC, 0x696B),
  (0x88C1, 0x49C2_5171),
  (0x88C5, 0x5C50_6969),
  (0x88C9, 0x696C),
  (0x88CE, 0x696E),
  (0x88D2, 0x5D97),
  (0x88D4, 0x59E0_5AA2),
  (0x88D8, 0x6AC2_54B8),
  (0x88DF, 0x6AC3),
  (0x88E2, 0x696D_696F_5084_6970),
  (0x88E8, 0x6974),
  (0x88F0, 0x6976_6971),
  (0x88F3, 0x5571_5382),
  (0x88F8, 0x51E2_4D9D),
  (0x88FC, 0x6973),
  (0x88FE, 0x6975),
  (0x8902, 0x4D73),
  (0x890A, 0x697B),
  (0x8910, 0x4DD5),
  (0x8912, 0x48FC_6979),
  (0x8919, 0x6978_6972_697A),
  (0x8921, 0x6977),
  (0x8925, 0x54EB),
  (0x892A, 0x576A_697D),
  (0x8930, 0x635D),
  (0x8934, 0x697C),
  (0x8936, 0x697E),
  (0x8941, 0x697F),
  (0x8944, 0x5886),
  (0x895E, 0x6AC4_4F94),
  (0x8966, 0x6981),
  (0x897B, 0x6982),
  (0x897F, 0x57F6),
  (0x8981, 0x59A9),
  (0x8983, 0x699C),
  (0x8986, 0x4CB1),
  (0x89C1, 0x4EFA_4D7B),
  (0x89C4, 0x4D87_5279_55D2_65E7_50BF_4FF4_65E8_65E9_65EA),
  (0x89CE, 0x65EB_65EC_65ED_65EE_4F67),
  (0x89D6, 0x6B9C),
  (0x89DA, 0x6B9E),
  (0x89DC, 0x6B9F),
  (0x89DE, 0x6B9D),
  (0x89E3, 0x4F83),
  (0x89E5, 0x6BA0_4AA4),
  (0x89EB, 0x6BA1),
  (0x89EF, 0x6BA2),
  (0x89F3, 0x66B1),
  (0x8A00, 0x5974),
  (0x8A07, 0x5D8B),
  (0x8A3E, 0x6BA3),
  (0x8A48, 0x67B9),
  (0x8A79, 0x5B52),
  (0x8A89, 0x5A9F_56DB),
  (0x8A93, 0x55C3),
  (0x8B07, 0x6360),
  (0x8B26, 0x6BA4),
  (0x8B66, 0x4FAE),
  (0x8B6C, 0x53A8),
  (0x8BA0, 0x5DA4_4EC5_4BA8_4CBB_54CE_4EA4_5DA5_5DA6_56D5_54C2_5DA7_53FC),
  (0x8BAD, 0x5955_59E8_5956_4EC6),
  (0x8BB2, 0x4F52_4E85_5DA8_5DA9_5968_5DAA_58EC_4BEE_51DA),
  (0x8BBC, 0x566F_4C8E_5589_4C63_4FF6_5BA3_5DAB_5DAC_53BF_5C88_55B5),
  (0x8BC8, 0x5B49_567F_5B90_5DAD_5BDE_4AC9_5DAF_5DAE),
  (0x8BD1, 0x59EA_5DB0_5DB1_5DB2_55D3_5DB3_55AA_5DB4_5DB5_4A6F_5BEE_5DB6),
  (0x8BDD, 0x4E50_4B4E_5DB7_5DB8_4D8F_594F_59E7_5DB9_4CC2_588B_49EE_5DBA),
  (0x8BE9, 0x5DBB),
  (0x8BEB, 0x4F8C_57DB_5A90_5DBC_57F2_5DBD_5A75_4E86_5DBE_5655_5670_5DBF),
  (0x8BF7, 0x548C_5BED_5DC0_5355_4BC0_5DC1_4C6C_506E_5DC2_5DC3_564D_5DC4),
  (0x8C03, 0x4B98_5DC5_5162_5C5B_5DC6_56B7),
  (0x8C0A, 0x59E9_52B0_5DC7_4B9E_4E71_5DC8_58B2_5DC9_5DCA_57BC_5DCB_5DCC),
  (0x8C16, 0x5DCD_49F6_5DD0_5DCE_5989_5DCF_5275_5DD1),
  (0x8C1F, 0x5DD2_5DD3_5DD4_58BA_59A4_48F8_5DD5_544B_5DD6_4F98_5241_5DD7),
  (0x8C2B, 0x5DD8_529E_56B6_5DD9_5DDA_50BD_53D6_5DDB_5DDC_5454_5DDD_5DDE),
  (0x8C37, 0x4D68),
  (0x8C41, 0x4E8E),
  (0x8C46, 0x4BB8_6AF7),
  (0x8C49, 0x6AF8),
  (0x8C4C, 0x5784),
  (0x8C55, 0x6B59),
  (0x8C5A, 0x6681),
  (0x8C61, 0x5894_4E5F),
  (0x8C6A, 0x4DBF_5AA4),
  (0x8C73, 0x6179),
  (0x8C78, 0x6B95_494A_49F1),
  (0x8C82, 0x6B96),
  (0x8C85, 0x6B98),
  (0x8C89, 0x4DD0_6B97),
  (0x8C8C, 0x5252),
  (0x8C94, 0x6B9A),
  (0x8C98, 0x6B99),
  (0x8D1D, 0x4954_5B8B_4CB9),
  (0x8D21, 0x4D51_49C5_5AEF_586D_48DB_5B6B_4E96_5BC9_4C57_56AF_53B5_4982),
  (0x8D2D, 0x4D5A_5BFB_4D82_4C41_4EF9_65D9_65DA_56F8_4D94_65DB_4AFA_5253),
  (0x8D39, 0x4C71_4DD7_65DC_5AF3_65DD_4ED5_4E7F_65DE_517E_51B7_5ADE_5C6A),
  (0x8D45, 0x65DF_65E0_65E3_65E1_65E2_557E_4CB2_4BC3_65E4_55E9_556D_4ACC),
  (0x8D53, 0x61D8_5383_65E5_50B4),
  (0x8D58, 0x5C58_65E6_5C4C_54FB_5CD2_5CCC_5ADD),
  (0x8D60, 0x5AF8_5564_5A4E_4CD2_4A81),
  (0x8D66, 0x5583_6AF5),
  (0x8D6B, 0x4DD4),
  (0x8D6D, 0x6AF6),
  (0x8D70, 0x5C7F),
  (0x8D73, 0x6AF0_4CAF_5B74_4CCE_53EF),
  (0x8D81, 0x4A63),
  (0x8D84, 0x6AF1_4A4C),
  (0x8D8A, 0x5ABC_5498),
  (0x8D91, 0x6AF3),
  (0x8D94, 0x6AF2),
  (0x8D9F, 0x56CA),
  (0x8DA3, 0x54A3),
  (0x8DB1, 0x6AF4),
  (0x8DB3, 0x5C84_535F_6B60),
  (0x8DB8, 0x6B5B),
  (0x8DBA, 0x6B63),
  (0x8DBC, 0x6B62),
  (0x8DBE, 0x5BB9_6B61),
  (0x8DC3, 0x5ABD_6B64),
  (0x8DC6, 0x6B6C),
  (0x8DCB, 0x48CE_4B99),
  (0x8DCE, 0x6B69_6B6A),
  (0x8DD1, 0x537C),
  (0x8DD6, 0x6B65_6B66),
  (0x8DDA, 0x6B67_6B6B),
  (0x8DDD, 0x4FDF_6B68_4CF9),
  (0x8DE3, 0x6B70_6B73),
  (0x8DE8, 0x5088),
  (0x8DEA, 0x4D93_6B5C_6B6D),
  (0x8DEF, 0x51B6),
  (0x8DF3, 0x56F7),
  (0x8DF5, 0x4EF8),
  (0x8DF7, 0x6B6E_6B6F_6B71_4BE4_6B72),
  (0x8DFD, 0x6B75),
  (0x8E05, 0x6B5D),
  (0x8E09, 0x6B74_5A5B),
  (0x8E0C, 0x4A8D),
  (0x8E0F, 0x56A3),
  (0x8E14, 0x6B76),
  (0x8E1D, 0x6B77_4FE0_6B78),
  (0x8E22, 0x56DE_6B7B),
  (0x8E29, 0x49C7_5C79),
  (0x8E2C, 0x6B79),
  (0x8E2E, 0x6B7A_6B7C),
  (0x8E31, 0x6B83),
  (0x8E35, 0x6B81),
  (0x8E39, 0x6B7F_6B7D),
  (0x8E3D, 0x6B82),
  (0x8E40, 0x6B7E_6B85_6B86),
  (0x8E44, 0x56E2),
  (0x8E47, 0x635F_4B58_6B84_6B89_56A2),
  (0x8E51, 0x6B87_6B88),
  (0x8E59, 0x6B5E),
  (0x8E66, 0x4964),
  (0x8E69, 0x6B5F),
  (0x8E6C, 0x4B65_49E3),
  (0x8E6F, 0x6B8D_6B8A),
  (0x8E72, 0x4BD6),
  (0x8E74, 0x6B8E),
  (0x8E76, 0x6B8B),
  (0x8E7C, 0x6B8C),
  (0x8E7F, 0x4AD9),
  (0x8E81, 0x5AE9),
  (0x8E85, 0x6B8F),
  (0x8E87, 0x4A9A),
  (0x8E8F, 0x6B90_6B92),
  (0x8E94, 0x6B91),
  (0x8E9C, 0x6B93),
  (0x8E9E, 0x6B94),
  (0x8EAB, 0x558E_4D4A),
  (0x8EAF, 0x549C),
  (0x8EB2, 0x4BE2),
  (0x8EBA, 0x56C8),
  (0x8ECE, 0x65A5),
  (0x8F66, 0x4A55_5AFD_4D8D_58F8),
  (0x8F6B, 0x658E_5C4A_658F_51D5_54EC_4DE3_6590_6591_6592_5BE0_6593_6594),
  (0x8F77, 0x6596_6595_6597_6598_5482_6599_5AD7_659A_4F6E),
  (0x8F81, 0x659B_659C_4F6F_659D_4CA7_515E_659E_4952_4E74_4D96_659F),
  (0x8F8D, 0x65A0_65A1_65A2_4C99_4EAC),
  (0x8F93, 0x55E3_60CD_5AAE_585D_5B57_65A3_5B7E_65A4_58C0_4D5C),
  (0x8F9E, 0x4AC6_4979),
  (0x8FA3, 0x50B0),
  (0x8FA8, 0x4987_4988),
  (0x8FAB, 0x4989),
  (0x8FB0, 0x4A5D_54E7),
  (0x8FB6, 0x6361),
  (0x8FB9, 0x497F),
  (0x8FBD, 0x5169_4AEE),
  (0x8FC1, 0x5448_5A78),
  (0x8FC4, 0x53F8_5958),
  (0x8FC7, 0x4D9E_51F4),
  (0x8FCE, 0x5A4D),
  (0x8FD0, 0x5ACA_4F9D),
  (0x8FD3, 0x6362_4C55_6363),
  (0x8FD8, 0x4E59_5B83),
  (0x8FDB, 0x4F99_5AB5_57A4_514C_4A79),
  (0x8FE2, 0x56F5),
  (0x8FE4, 0x6366_6364_6368),
  (0x8FE8, 0x636A_6367_4B6F_53C7),
  (0x8FED, 0x4B9D_6365),
  (0x8FF0, 0x55F5),
  (0x8FF3, 0x6369),
  (0x8FF7, 0x5274_4965_4EA2),
  (0x8FFD, 0x5C57),
  (0x9000, 0x576B_566D_55C9_56D2_636C_636B_52E5),
  (0x9009, 0x5941_5957_636D),
  (0x900D, 0x6370),
  (0x900F, 0x5758_5BEF_636F_4B7D),
  (0x9014, 0x575E),
  (0x9016, 0x6371_4BB9),
  (0x901A, 0x5748_4D85),
  (0x901D, 0x55C4_4A71_5679_5AEB_6372_4C8B),
  (0x9026, 0x636E),
  (0x902D, 0x6375_4AFD_6376),
  (0x9035, 0x6373_6374),
  (0x9038, 0x59DC),
  (0x903B, 0x51DE_4966),
  (0x903E, 0x5A83),
  (0x9041, 0x4BDC_568D),
  (0x9044, 0x6377),
  (0x9047, 0x5A97),
  (0x904D, 0x498A),
  (0x904F, 0x4BF3_637A_6378_6379_4B60),
  (0x9057, 0x59C4_637C),
  (0x905B, 0x637E),
  (0x9062, 0x637D_5452),
  (0x9065, 0x59A2),
  (0x9068, 0x637B),
  (0x906D, 0x5AE1_5B7A),
  (0x9074, 0x6381_5C92),
  (0x907D, 0x6382),
  (0x907F, 0x497C_599C),
  (0x9082, 0x6383_6385),
  (0x9088, 0x6384),
  (0x908B, 0x6386),
  (0x9091, 0x59D7),
  (0x9093, 0x4B6B),
  (0x9095, 0x647F),
  (0x9097, 0x5DF4),
  (0x9099, 0x5DF7),
  (0x909B, 0x5DF5),
  (0x909D, 0x5DF6),
  (0x90A1, 0x5DF9_58CE_52C6),
  (0x90A6, 0x48ED),
  (0x90AA, 0x58AF),
  (0x90AC, 0x5DF8),
  (0x90AE, 0x5A6A_4DA9_5E42_5492),
  (0x90B3, 0x5DFB_5DFA_557B_5DFC),
  (0x90B8, 0x5E41_5C7E_5DFD_517A),
  (0x90BE, 0x5E45),
  (0x90C1, 0x5A95),
  (0x90C4, 0x5E47_5E44),
  (0x90C7, 0x5E48),
  (0x90CA, 0x4F5C),
  (0x90CE, 0x50C8_5E43_5E46_5BA2),
  (0x90D3, 0x5E49),
  (0x90D7, 0x5E4D),
  (0x90DB, 0x5E4E_5E4C_4DC1),
  (0x90E1, 0x5044_5E4B),
  (0x90E6, 0x5E4A_5AC6_49BE),
  (0x90EB, 0x5E4F),
  (0x90ED, 0x4D9A),
  (0x90EF, 0x5E50),
  (0x90F4, 0x4A5B),
  (0x90F8, 0x4B46),
  (0x90FD, 0x4BBB_5E51),
  (0x9102, 0x4BF4),
  (0x9104, 0x5E52),
  (0x9119, 0x4969),
  (0x911E, 0x5E54),
  (0x9122, 0x5E53_5E55),
  (0x912F, 0x5E57),
  (0x9131, 0x5E56),
  (0x9139, 0x5E58),
  (0x9143, 0x5E59),
  (0x9146, 0x5E5A),
  (0x9149, 0x5A6F_6AF9_5496_5C63_5385_6AFB_6AFC_6AFA),
  (0x9152, 0x4FC5),
  (0x9157, 0x58EE),
  (0x915A, 0x4C73),
  (0x915D, 0x5ACC_56A9),
  (0x9161, 0x6B42_6B41_4DA7_6AFD_5676),
  (0x9169, 0x6B44_50D1),
  (0x916C, 0x4A8B),
  (0x916E, 0x574A_6B45_6B43_4F54_6B48),
  (0x9174, 0x6B49_4F6D_5258_5082_5682_6B4A),
  (0x917D, 0x6B46_6B47_52EF),
  (0x9185, 0x6B4C),
  (0x9187, 0x4ABB),
  (0x9189, 0x5C8E),
  (0x918B, 0x4AD6_6B4B_6B4E),
  (0x9190, 0x6B4D_6B4F_58D0),
  (0x919A, 0x5271_54A8),
  (0x91A2, 0x6B50_6B51),
  (0x91AA, 0x6B52),
  (0x91AD, 0x6B53_6B54_6B55),
  (0x91B4, 0x6B57_6B56),
  (0x91BA, 0x6B58),
  (0x91C7, 0x49C8),
  (0x91C9, 0x5A74_55CC),
  (0x91CC, 0x50EE_5BD7_59AF_515F),
  (0x91D1, 0x4F91),
  (0x91DC, 0x4CA9),
  (0x9274, 0x4EF7),
  (0x928E, 0x6BC5),
  (0x92AE, 0x6BC6),
  (0x92C8, 0x6BC7),
  (0x933E, 0x6BC8),
  (0x936A, 0x6BC9),
  (0x938F, 0x6BCB),
  (0x93CA, 0x6BCA),
  (0x93D6, 0x6C8A),
  (0x943E, 0x6BCC),
  (0x946B, 0x6BCD),
  (0x9485, 0x67C3_67C4_67C5_5B8C_4BA3_67C7_67C6_67C8_67C9_5445_67CA_67CB),
  (0x9492, 0x4C50_4B97_67CC_67CE),
  (0x9497, 0x67CD),
  (0x9499, 0x4CC5_67CF_67D0_67D1_4BDA_4A4E_5BD2_52C5_4955_4CD5_67D2_67D3),
  (0x94A5, 0x5ABE_5475_4FFA_57D8_4D53_67D5_67D4_67D7_67D6_5345_67D8_67D9),
  (0x94B1, 0x544E_67DA_544F_67DB_49A6_67DC_67DD_67DE_67DF_67E0_5C8B_67E1),
  (0x94BD, 0x67E2_4ED7_67E3_5A6B_56F9_49AB_5186_67E4_5446_524D),
  (0x94C8, 0x67E5_67E6_67E7_67E8_67E9_67EA_67EB),
  (0x94D0, 0x67EC_67ED_67EE),
  (0x94D5, 0x67EF_67F0_67F1_67F3_67F2),
  (0x94DB, 0x67F4_574D_51C0_67F5_67F6_67F7_5B41_67F8_5853_67F9_67FA),
  (0x94E7, 0x67FB_67FC_6841_67FD_6842_4CF4_529B_6843_6844_4F62_59BE_49F8),
  (0x94F3, 0x6845_6846_6847_59F7_6848_5BFC_6849_53CB),
  (0x94FC, 0x684A_684B_5154_684C_589B_5699_684E_684D_4A9B_4D99_684F_6850),
  (0x9508, 0x58E1_6851_6852_4C87_58BE_6853_6854_6855_54F0_56DF_6856_6857),
  (0x9514, 0x6858_6859_685A_5B81_685B_4AEC_524A_685C),
  (0x951D, 0x685D_685E_685F),
  (0x9521, 0x57FC_6860_51DF_4AB7_5C56_4F96),
  (0x9528, 0x5867_6863_6861_6862_6864_4BA6_4EFB_4FE1_526C_6865_6866),
  (0x9534, 0x6867_686F_6868_6869_686A_5462_6892_4BCC_686B),
  (0x953E, 0x686C_686D_4BC5_525E_686E),
  (0x9544, 0x6870_6871_6872_5B93),
  (0x9549, 0x6873_52F6),
  (0x954C, 0x6874_52F7_6875_6876_4CE3_48F6_6877_6878_6879),
  (0x9556, 0x687A_687B_687C_687D),
  (0x955B, 0x687E_4FB4_6882_687F_6881),
  (0x9561, 0x6883_6884_516D_6885_6886_6887_6888_6889_688A_688B_688C_688D),
  (0x956D, 0x50D7),
  (0x956F, 0x688E_514D_688F_6890_6891),
  (0x9576, 0x5883),
  (0x957F, 0x4A44),
  (0x95E8, 0x5265_6265_5561_6266),
  (0x95ED, 0x4975_57C9_4AB2_54F1_6267_5870_6268_4EE3_6269_626A_5266_5B42),
  (0x95F9, 0x52D5_4D8C_57C4_626B_5297_626C),
  (0x9600, 0x4C47_4CF2_4DD1_626D_626E_5AC3_626F),
  (0x9608, 0x6270_596B_6271_6272_6273_6274_5976_6275_49FA_50BA_6276),
  (0x9614, 0x50AA_6277_6278_6279),
  (0x9619, 0x627A_627B),
  (0x961C, 0x4CB6_5DE1),
  (0x961F, 0x4BD2),
  (0x9621, 0x5DE3_5DE2),
  (0x962A, 0x5DE5),
  (0x962E, 0x54ED),
  (0x9631, 0x5DE4_4C60_5995_59F4_5B94_4F77),
  (0x963B, 0x5C89_5DE7_5DE6),
  (0x963F, 0x48A1_5773),
  (0x9642, 0x5DE8),
  (0x9644, 0x4CBC_4EC9_51BC_51A3_4A62_5DE9),
  (0x964B, 0x51A9_52AF_4F55),
  (0x9650, 0x587E),
  (0x9654, 0x5DEA_5562),
  (0x965B, 0x497D),
  (0x965F, 0x5DEB),
  (0x9661, 0x4BB7_5AB9),
  (0x9664, 0x4A9E),
  (0x9667, 0x5DEC_5AC8_5875_5384),
  (0x966C, 0x5DED),
  (0x9672, 0x5DEE),
  (0x9674, 0x5DEF_518B_56D4_587D),
  (0x9685, 0x5A88_51A0),
  (0x9688, 0x5DF0),
  (0x968B, 0x5686),
  (0x968D, 0x5DF1),
  (0x968F, 0x5687_59FD),
  (0x9694, 0x4CF3),
  (0x9697, 0x5DF2_48AE_5856),
  (0x969C, 0x5B6F),
  (0x96A7, 0x568E),
  (0x96B0, 0x5DF3),
  (0x96B3, 0x6264),
  (0x96B6, 0x5145),
  (0x96B9, 0x6BBE),
  (0x96BC, 0x6BBF_6BC0_52D0),
  (0x96C0, 0x54B7_5984),
  (0x96C4, 0x58DA_5965_4EAE_4D6D),
  (0x96C9, 0x6895),
  (0x96CC, 0x4AC5_5A5A_6BC1_4A9C),
  (0x96D2, 0x6BC2),
  (0x96D5, 0x4B92),
  (0x96E0, 0x6BC4),
  (0x96E8, 0x5A8B_6BA6_5949),
  (0x96EF, 0x6BA8),
  (0x96F3, 0x6BA7),
  (0x96F6, 0x5184_50D6),
  (0x96F9, 0x4942),
  (0x96FE, 0x57EC),
  (0x9700, 0x58E7_6BAA),
  (0x9704, 0x5897),
  (0x9706, 0x6BA9_5B91_6BAB_5259),
  (0x970D, 0x4E95_6BAD_6BAC),
  (0x9713, 0x52DD),
  (0x9716, 0x5178),
  (0x971C, 0x564A),
  (0x971E, 0x585C),
  (0x972A, 0x6BAE),
  (0x972D, 0x6BAF),
  (0x9730, 0x6BB0),
  (0x9732, 0x51B5),
  (0x9738, 0x48D3_539A),
  (0x973E, 0x6BB1),
  (0x9752, 0x5481_6BA5),
  (0x9756, 0x4FB7),
  (0x9759, 0x4FB1),
  (0x975B, 0x4B86),
  (0x975E, 0x4C67),
  (0x9760, 0x505F_5272_5287),
  (0x9765, 0x5CCB),
  (0x9769, 0x4CEE),
  (0x9773, 0x4F9A_5945),
  (0x9776, 0x48CF),
  (0x977C, 0x6C50),
  (0x9785, 0x6C51),
  (0x978B, 0x58AB),
  (0x978D, 0x48AF),
  (0x9791, 0x6C52_6C53),
  (0x9794, 0x6C54),
  (0x9798, 0x546A),
  (0x97A0, 0x4FCE),
  (0x97A3, 0x6C57),
  (0x97AB, 0x6C56),
  (0x97AD, 0x497E),
  (0x97AF, 0x6C55),
  (0x97B2, 0x6C58),
  (0x97B4, 0x6C59),
  (0x97E6, 0x57A3_54CC),
  (0x97E9, 0x4DAA_64B7_64B8_64B9_4FC1),
  (0x97F3, 0x59F3),
  (0x97F5, 0x5ACE_5578),
  (0x9875, 0x59B2_4BA4_548B_699D_588F_5653_58EA_6490_5788_4D6B_4BD8_699E),
  (0x9881, 0x48E3_566C_699F_5AA3_51AC_518D_53C3_4FB0_69A0_4ED4),
  (0x988C, 0x69A1_69A2),
  (0x988F, 0x69A3_59C2_53B4),
  (0x9893, 0x5767_69A4),
  (0x9896, 0x5A51_5065_56E1),
  (0x989A, 0x69A5_69A6_5975_4BED_69A7_69A8_4B7F_69A9_69AA),
  (0x98A4, 0x49FB_69AB_69AC_54A6),
  (0x98CE, 0x4C88),
  (0x98D1, 0x66A8_66A9_66AA),
  (0x98D5, 0x66AB),
  (0x98D8, 0x53AD_66AC_66AD),
  (0x98DE, 0x4C69_55B2),
  (0x98E7, 0x61B7_6C6F),
  (0x990D, 0x6C70),
  (0x9910, 0x49CC),
  (0x992E, 0x6C71),
  (0x9954, 0x6C73_6C72),
  (0x9963, 0x61BA),
  (0x9965, 0x4EA1),
  (0x9967, 0x61BB_61BC_61BD_61BE_61BF_61C0_4C59_59FA_4F44_55CD_4945_5667),
  (0x9974, 0x61C1_4BFB_54C3_61C2),
  (0x997A, 0x4F68),
  (0x997C, 0x499E_61C3),
  (0x997F, 0x4BF5_61C4_52D8),
  (0x9984, 0x61C5_587A_4D7D_61C6_50A0),
  (0x998A, 0x61C7_49F5),
  (0x998D, 0x61C8),
  (0x998F, 0x5194_61C9_61CA_51F7_61CB_61CC_61CD_55D6_5CB7_5D86_5884),
  (0x99A5, 0x68A4),
  (0x99A8, 0x5EAF),
  (0x9A6C, 0x51EC_5AA5_5774_5951_4A7B_549E),
  (0x9A73, 0x49B4_51BE_63DF_55BA_63E0_63E1_4FD3_63E2_5C44_5775_63E4_4EDC),
  (0x9A7F, 0x63E3_63E5_63E6_51ED),
  (0x9A84, 0x4F5E_63E7_51E5_4DA6_63E8),
  (0x9A8A, 0x63E9_4A72_598A),
  (0x9A8F, 0x5045_63EA_53EE_63EB_63EC),
  (0x9A96, 0x63ED_53AC_63EE),
  (0x9A9A, 0x5547_63EF_63F0_63F1_6359_63F2_63F3_51E1_63F4_63F5_5BE7_63F6),
  (0x9AA7, 0x63F7_4D67),
  (0x9AB0, 0x6C5B_6C5A),
  (0x9AB6, 0x6C5E_6C5C_4DA0),
  (0x9ABA, 0x6C5F),
  (0x9ABC, 0x6C60),
  (0x9AC0, 0x6C62_6C61_6C64),
  (0x9AC5, 0x6C63),
  (0x9ACB, 0x6C65_6C66),
  (0x9AD1, 0x6C67),
  (0x9AD3, 0x5689),
  (0x9AD8, 0x4CDE),
  (0x9ADF, 0x6C74),
  (0x9AE1, 0x6C75),
  (0x9AE6, 0x6C76),
  (0x9AEB, 0x6C78),
  (0x9AED, 0x6C7A),
  (0x9AEF, 0x6C77),
  (0x9AF9, 0x6C7B),
  (0x9AFB, 0x6C79),
  (0x9B03, 0x5C77),
  (0x9B08, 0x6C7C),
  (0x9B0F, 0x6C7D),
  (0x9B13, 0x6C7E),
  (0x9B1F, 0x6C7F),
  (0x9B23, 0x6C81),
  (0x9B2F, 0x5E6B),
  (0x9B32, 0x5CA9),
  (0x9B3B, 0x6398_4D8E),
  (0x9B41, 0x509E_4E8B_6C69_53C6_6C68),
  (0x9B47, 0x6C6A_6C6C_6C6B),
  (0x9B4D, 0x6C6D),
  (0x9B4F, 0x57B9),
  (0x9B51, 0x6C6E),
  (0x9B54, 0x52A6),
  (0x9C7C, 0x5A84),
  (0x9C7F, 0x6BCE),
  (0x9C81, 0x51B2_6BCF),
  (0x9C85, 0x6BD0_6BD1_6BD2_6BD3),
  (0x9C8B, 0x6BD5),
  (0x9C8D, 0x494B_6BD6),
  (0x9C90, 0x6BD7_6BD8_6BD9),
  (0x9C94, 0x6BDA_6BDB),
  (0x9C9A, 0x6BDC_6BDD_586A),
  (0x9C9E, 0x6BDE_6BDF_6BE0_6BE1_6BE2_6BE3_50EF_6BE4_6BE5_6BE6_6BE7_6BE8),
  (0x9CAB, 0x6BE9),
  (0x9CAD, 0x6BEA_6BEB),
  (0x9CB0, 0x6BEC_6BED_6BEE_6BEF_6BF0_6BF1_6BF2_6BF3_4FA7),
  (0x9CBA, 0x6BF4_6BF5_6BF6_6BF7),
  (0x9CC3, 0x54F9_6BF8_6BF9_6BFA_6BFB),
  (0x9CCA, 0x6BFC_6BFD_6C41_6C42_6C43_6C44_6C45),
  (0x9CD3, 0x6C46_6C47_6C48_498F_6C49_6C4A_6C4B),
  (0x9CDC, 0x6C4C_6C4D_517B_6C4E),
  (0x9CE2, 0x6C4F),
  (0x9E1F, 0x52F0_68AE_4EA5_68AF_529A),
  (0x9E25, 0x5358_595B),
  (0x9E28, 0x68B0_68B1_68B2_68B3_68B4_595C),
  (0x9E2F, 0x598D),
  (0x9E31, 0x68B6_68B5_5AA6),
  (0x9E35, 0x5772_68B7_68B9_68B8_68BA_68BB),
  (0x9E3D, 0x4CEA_68BC_4DE7),
  (0x9E41, 0x68BD_68BE_4FE8_68BF_4BEB_68C0_68C1_68C2_68C3_54B4_68C4_68C5),
  (0x9E4E, 0x68C6_5395),
  (0x9E51, 0x68C7),
  (0x9E55, 0x68C8),
  (0x9E57, 0x68C9_6C5D),
  (0x9E5A, 0x68CA_68CB_68CC),
  (0x9E5E, 0x68CD),
  (0x9E63, 0x68CE_4DD6),
  (0x9E66, 0x68CF_68D0_68D1_68D2_68D3_68D4_68D5_68D7),
  (0x9E70, 0x5A45_68D6),
  (0x9E73, 0x68D8),
  (0x9E7E, 0x6B5A_51B8),
  (0x9E82, 0x6C85),
  (0x9E87, 0x6C86_6C87),
  (0x9E8B, 0x6C88),
  (0x9E92, 0x6C89_51B3),
  (0x9E9D, 0x6C8B),
  (0x9E9F, 0x6C8C),
  (0x9EA6, 0x51F2),
  (0x9EB4, 0x6AEF),
  (0x9EB8, 0x6AEE),
  (0x9EBB, 0x51E8),
  (0x9EBD, 0x6C82_6C83),
  (0x9EC4, 0x4E66),
  (0x9EC9, 0x5D85),
  (0x9ECD, 0x55F1_50E7_68A3),
  (0x9ED1, 0x4DD9),
  (0x9ED4, 0x544D),
  (0x9ED8, 0x52AB),
  (0x9EDB, 0x6C8D_6C8E_6C8F),
  (0x9EDF, 0x6C91_6C90),
  (0x9EE2, 0x6C92),
  (0x9EE5, 0x6C95),
  (0x9EE7, 0x6C94),
  (0x9EE9, 0x6C93_6C96),
  (0x9EEF, 0x6C97),
  (0x9EF9, 0x678A),
  (0x9EFB, 0x678B_678C),
  (0x9EFE, 0x6BBB),
  (0x9F0B, 0x6BBC),
  (0x9F0D, 0x6BBD_4BA5),
  (0x9F10, 0x5CBD),
  (0x9F13, 0x4D64),
  (0x9F17, 0x5CBA),
  (0x9F19, 0x5EB0),
  (0x9F20, 0x55F2),
  (0x9F22, 0x6C98),
  (0x9F2C, 0x6C99),
  (0x9F2F, 0x6C9A),
  (0x9F37, 0x6C9C),
  (0x9F39, 0x6C9B),
  (0x9F3B, 0x4967),
  (0x9F3D, 0x6C9D_6C9E),
  (0x9F44, 0x6C9F),
  (0x9F50, 0x53EA_66B3),
  (0x9F7F, 0x4A7D_6BB2),
  (0x9F83, 0x6BB3_5185_6BB4_6BB5_6BB6_6BB7_6BB8_6BB9_54A2_6BBA),
  (0x9F99, 0x519B_4D48_6789),
  (0x9F9F, 0x4D8B_5D7F),
  (0xE000, 0x7641_7642_7643_7644_7645_7646_7647_7648_7649_764A_764B_764C),
  (0xE00C, 0x764D_764E_764F_7650_7651_7652_7653_7654_7655_7656_7657_7658),
  (0xE018, 0x7659_765A_765B_765C_765D_765E_765F_7660_7661_7662_7663_7664),
  (0xE024, 0x7665_7666_7667_7668_7669_766A_766B_766C_766D_766E_766F_7670),
  (0xE030, 0x7671_7672_7673_7674_7675_7676_7677_7678_7679_767A_767B_767C),
  (0xE03C, 0x767D_767E_767F_7681_7682_7683_7684_7685_7686_7687_7688_7689),
  (0xE048, 0x768A_768B_768C_768D_768E_768F_7690_7691_7692_7693_7694_7695),
  (0xE054, 0x7696_7697_7698_7699_769A_769B_769C_769D_769E_769F_76A0_76A1),
  (0xE060, 0x76A2_76A3_76A4_76A5_76A6_76A7_76A8_76A9_76AA_76AB_76AC_76AD),
  (0xE06C, 0x76AE_76AF_76B0_76B1_76B2_76B3_76B4_76B5_76B6_76B7_76B8_76B9),
  (0xE078, 0x76BA_76BB_76BC_76BD_76BE_76BF_76C0_76C1_76C2_76C3_76C4_76C5),
  (0xE084, 0x76C6_76C7_76C8_76C9_76CA_76CB_76CC_76CD_76CE_76CF_76D0_76D1),
  (0xE090, 0x76D2_76D3_76D4_76D5_76D6_76D7_76D8_76D9_76DA_76DB_76DC_76DD),
  (0xE09C, 0x76DE_76DF_76E0_76E1_76E2_76E3_76E4_76E5_76E6_76E7_76E8_76E9),
  (0xE0A8, 0x76EA_76EB_76EC_76ED_76EE_76EF_76F0_76F1_76F2_76F3_76F4_76F5),
  (0xE0B4, 0x76F6_76F7_76F8_76F9_76FA_76FB_76FC_76FD_7741_7742_7743_7744),
  (0xE0C0, 0x7745_7746_7747_7748_7749_774A_774B_774C_774D_774E_774F_7750),
  (0xE0CC, 0x7751_7752_7753_7754_7755_7756_7757_7758_7759_775A_775B_775C),
  (0xE0D8, 0x775D_775E_775F_7760_7761_7762_7763_7764_7765_7766_7767_7768),
  (0xE0E4, 0x7769_776A_776B_776C_776D_776E_776F_7770_7771_7772_7773_7774),
  (0xE0F0, 0x7775_7776_7777_7778_7779_777A_777B_777C_777D_777E_777F_7781),
  (0xE0FC, 0x7782_7783_7784_7785_7786_7787_7788_7789_778A_778B_778C_778D),
  (0xE108, 0x778E_778F_7790_7791_7792_7793_7794_7795_7796_7797_7798_7799),
  (0xE114, 0x779A_779B_779C_779D_779E_779F_77A0_77A1_77A2_77A3_77A4_77A5),
  (0xE120, 0x77A6_77A7_77A8_77A9_77AA_77AB_77AC_77AD_77AE_77AF_77B0_77B1),
  (0xE12C, 0x77B2_77B3_77B4_77B5_77B6_77B7_77B8_77B9_77BA_77BB_77BC_77BD),
  (0xE138, 0x77BE_77BF_77C0_77C1_77C2_77C3_77C4_77C5_77C6_77C7_77C8_77C9),
  (0xE144, 0x77CA_77CB_77CC_77CD_77CE_77CF_77D0_77D1_77D2_77D3_77D4_77D5),
  (0xE150, 0x77D6_77D7_77D8_77D9_77DA_77DB_77DC_77DD_77DE_77DF_77E0_77E1),
  (0xE15C, 0x77E2_77E3_77E4_77E5_77E6_77E7_77E8_77E9_77EA_77EB_77EC_77ED),
  (0xE168, 0x77EE_77EF_77F0_77F1_77F2_77F3_77F4_77F5_77F6_77F7_77F8_77F9),
  (0xE174, 0x77FA_77FB_77FC_77FD_7841_7842_7843_7844_7845_7846_7847_7848),
  (0xE180, 0x7849_784A_784B_784C_784D_784E_784F_7850_7851_7852_7853_7854),
  (0xE18C, 0x7855_7856_7857_7858_7859_785A_785B_785C_785D_785E_785F_7860),
  (0xE198, 0x7861_7862_7863_7864_7865_7866_7867_7868_7869_786A_786B_786C),
  (0xE1A4, 0x786D_786E_786F_7870_7871_7872_7873_7874_7875_7876_7877_7878),
  (0xE1B0, 0x7879_787A_787B_787C_787D_787E_787F_7881_7882_7883_7884_7885),
  (0xE1BC, 0x7886_7887_7888_7889_788A_788B_788C_788D_788E_788F_7890_7891),
  (0xE1C8, 0x7892_7893_7894_7895_7896_7897_7898_7899_789A_789B_789C_789D),
  (0xE1D4, 0x789E_789F_78A0_78A1_78A2_78A3_78A4_78A5_78A6_78A7_78A8_78A9),
  (0xE1E0, 0x78AA_78AB_78AC_78AD_78AE_78AF_78B0_78B1_78B2_78B3_78B4_78B5),
  (0xE1EC, 0x78B6_78B7_78B8_78B9_78BA_78BB_78BC_78BD_78BE_78BF_78C0_78C1),
  (0xE1F8, 0x78C2_78C3_78C4_78C5_78C6_78C7_78C8_78C9_78CA_78CB_78CC_78CD),
  (0xE204, 0x78CE_78CF_78D0_78D1_78D2_78D3_78D4_78D5_78D6_78D7_78D8_78D9),
  (0xE210, 0x78DA_78DB_78DC_78DD_78DE_78DF_78E0_78E1_78E2_78E3_78E4_78E5),
  (0xE21C, 0x78E6_78E7_78E8_78E9_78EA_78EB_78EC_78ED_78EE_78EF_78F0_78F1),
  (0xE228, 0x78F2_78F3_78F4_78F5_78F6_78F7_78F8_78F9_78FA_78FB_78FC_78FD),
  (0xE234, 0x7941_7942_7943_7944_7945_7946_7947_7948_7949_794A_794B_794C),
  (0xE240, 0x794D_794E_794F_7950_7951_7952_7953_7954_7955_7956_7957_7958),
  (0xE24C, 0x7959_795A_795B_795C_795D_795E_795F_7960_7961_7962_7963_7964),
  (0xE258, 0x7965_7966_7967_7968_7969_796A_796B_796C_796D_796E_796F_7970),
  (0xE264, 0x7971_7972_7973_7974_7975_7976_7977_7978_7979_797A_797B_797C),
  (0xE270, 0x797D_797E_797F_7981_7982_7983_7984_7985_7986_7987_7988_7989),
  (0xE27C, 0x798A_798B_798C_798D_798E_798F_7990_7991_7992_7993_7994_7995),
  (0xE288, 0x7996_7997_7998_7999_799A_799B_799C_799D_799E_799F_79A0_79A1),
  (0xE294, 0x79A2_79A3_79A4_79A5_79A6_79A7_79A8_79A9_79AA_79AB_79AC_79AD),
  (0xE2A0, 0x79AE_79AF_79B0_79B1_79B2_79B3_79B4_79B5_79B6_79B7_79B8_79B9),
  (0xE2AC, 0x79BA_79BB_79BC_79BD_79BE_79BF_79C0_79C1_79C2_79C3_79C4_79C5),
  (0xE2B8, 0x79C6_79C7_79C8_79C9_79CA_79CB_79CC_79CD_79CE_79CF_79D0_79D1),
  (0xE2C4, 0x79D2_79D3_79D4_79D5_79D6_79D7_79D8_79D9_79DA_79DB_79DC_79DD),
  (0xE2D0, 0x79DE_79DF_79E0_79E1_79E2_79E3_79E4_79E5_79E6_79E7_79E8_79E9),
  (0xE2DC, 0x79EA_79EB_79EC_79ED_79EE_79EF_79F0_79F1_79F2_79F3_79F4_79F5),
  (0xE2E8, 0x79F6_79F7_79F8_79F9_79FA_79FB_79FC_79FD_7A41_7A42_7A43_7A44),
  (0xE2F4, 0x7A45_7A46_7A47_7A48_7A49_7A4A_7A4B_7A4C_7A4D_7A4E_7A4F_7A50),
  (0xE300, 0x7A51_7A52_7A53_7A54_7A55_7A56_7A57_7A58_7A59_7A5A_7A5B_7A5C),
  (0xE30C, 0x7A5D_7A5E_7A5F_7A60_7A61_7A62_7A63_7A64_7A65_7A66_7A67_7A68),
  (0xE318, 0x7A69_7A6A_7A6B_7A6C_7A6D_7A6E_7A6F_7A70_7A71_7A72_7A73_7A74),
  (0xE324, 0x7A75_7A76_7A77_7A78_7A79_7A7A_7A7B_7A7C_7A7D_7A7E_7A7F_7A81),
  (0xE330, 0x7A82_7A83_7A84_7A85_7A86_7A87_7A88_7A89_7A8A_7A8B_7A8C_7A8D),
  (0xE33C, 0x7A8E_7A8F_7A90_7A91_7A92_7A93_7A94_7A95_7A96_7A97_7A98_7A99),
  (0xE348, 0x7A9A_7A9B_7A9C_7A9D_7A9E_7A9F_7AA0_7AA1_7AA2_7AA3_7AA4_7AA5),
  (0xE354, 0x7AA6_7AA7_7AA8_7AA9_7AAA_7AAB_7AAC_7AAD_7AAE_7AAF_7AB0_7AB1),
  (0xE360, 0x7AB2_7AB3_7AB4_7AB5_7AB6_7AB7_7AB8_7AB9_7ABA_7ABB_7ABC_7ABD),
  (0xE36C, 0x7ABE_7ABF_7AC0_7AC1_7AC2_7AC3_7AC4_7AC5_7AC6_7AC7_7AC8_7AC9),
  (0xE378, 0x7ACA_7ACB_7ACC_7ACD_7ACE_7ACF_7AD0_7AD1_7AD2_7AD3_7AD4_7AD5),
  (0xE384, 0x7AD6_7AD7_7AD8_7AD9_7ADA_7ADB_7ADC_7ADD_7ADE_7ADF_7AE0_7AE1),
  (0xE390, 0x7AE2_7AE3_7AE4_7AE5_7AE6_7AE7_7AE8_7AE9_7AEA_7AEB_7AEC_7AED),
  (0xE39C, 0x7AEE_7AEF_7AF0_7AF1_7AF2_7AF3_7AF4_7AF5_7AF6_7AF7_7AF8_7AF9),
  (0xE3A8, 0x7AFA_7AFB_7AFC_7AFD_7B41_7B42_7B43_7B44_7B45_7B46_7B47_7B48),
  (0xE3B4, 0x7B49_7B4A_7B4B_7B4C_7B4D_7B4E_7B4F_7B50_7B51_7B52_7B53_7B54),
  (0xE3C0, 0x7B55_7B56_7B57_7B58_7B59_7B5A_7B5B_7B5C_7B5D_7B5E_7B5F_7B60),
  (0xE3CC, 0x7B61_7B62_7B63_7B64_7B65_7B66_7B67_7B68_7B69_7B6A_7B6B_7B6C),
  (0xE3D8, 0x7B6D_7B6E_7B6F_7B70_7B71_7B72_7B73_7B74_7B75_7B76_7B77_7B78),
  (0xE3E4, 0x7B79_7B7A_7B7B_7B7C_7B7D_7B7E_7B7F_7B81_7B82_7B83_7B84_7B85),
  (0xE3F0, 0x7B86_7B87_7B88_7B89_7B8A_7B8B_7B8C_7B8D_7B8E_7B8F_7B90_7B91),
  (0xE3FC, 0x7B92_7B93_7B94_7B95_7B96_7B97_7B98_7B99_7B9A_7B9B_7B9C_7B9D),
  (0xE408, 0x7B9E_7B9F_7BA0_7BA1_7BA2_7BA3_7BA4_7BA5_7BA6_7BA7_7BA8_7BA9),
  (0xE414, 0x7BAA_7BAB_7BAC_7BAD_7BAE_7BAF_7BB0_7BB1_7BB2_7BB3_7BB4_7BB5),
  (0xE420, 0x7BB6_7BB7_7BB8_7BB9_7BBA_7BBB_7BBC_7BBD_7BBE_7BBF_7BC0_7BC1),
  (0xE42C, 0x7BC2_7BC3_7BC4_7BC5_7BC6_7BC7_7BC8_7BC9_7BCA_7BCB_7BCC_7BCD),
  (0xE438, 0x7BCE_7BCF_7BD0_7BD1_7BD2_7BD3_7BD4_7BD5_7BD6_7BD7_7BD8_7BD9),
  (0xE444, 0x7BDA_7BDB_7BDC_7BDD_7BDE_7BDF_7BE0_7BE1_7BE2_7BE3_7BE4_7BE5),
  (0xE450, 0x7BE6_7BE7_7BE8_7BE9_7BEA_7BEB_7BEC_7BED_7BEE_7BEF_7BF0_7BF1),
  (0xE45C, 0x7BF2_7BF3_7BF4_7BF5_7BF6_7BF7_7BF8_7BF9_7BFA_7BFB_7BFC_7BFD),
  (0xE468, 0x7C41_7C42_7C43_7C44_7C45_7C46_7C47_7C48_7C49_7C4A_7C4B_7C4C),
  (0xE474, 0x7C4D_7C4E_7C4F_7C50_7C51_7C52_7C53_7C54_7C55_7C56_7C57_7C58),
  (0xE480, 0x7C59_7C5A_7C5B_7C5C_7C5D_7C5E_7C5F_7C60_7C61_7C62_7C63_7C64),
  (0xE48C, 0x7C65_7C66_7C67_7C68_7C69_7C6A_7C6B_7C6C_7C6D_7C6E_7C6F_7C70),
  (0xE498, 0x7C71_7C72_7C73_7C74_7C75_7C76_7C77_7C78_7C79_7C7A_7C7B_7C7C),
  (0xE4A4, 0x7C7D_7C7E_7C7F_7C81_7C82_7C83_7C84_7C85_7C86_7C87_7C88_7C89),
  (0xE4B0, 0x7C8A_7C8B_7C8C_7C8D_7C8E_7C8F_7C90_7C91_7C92_7C93_7C94_7C95),
  (0xE4BC, 0x7C96_7C97_7C98_7C99_7C9A_7C9B_7C9C_7C9D_7C9E_7C9F_7CA0_7CA1),
  (0xE4C8, 0x7CA2_7CA3_7CA4_7CA5_7CA6_7CA7_7CA8_7CA9_7CAA_7CAB_7CAC_7CAD),
  (0xE4D4, 0x7CAE_7CAF_7CB0_7CB1_7CB2_7CB3_7CB4_7CB5_7CB6_7CB7_7CB8_7CB9),
  (0xE4E0, 0x7CBA_7CBB_7CBC_7CBD_7CBE_7CBF_7CC0_7CC1_7CC2_7CC3_7CC4_7CC5),
  (0xE4EC, 0x7CC6_7CC7_7CC8_7CC9_7CCA_7CCB_7CCC_7CCD_7CCE_7CCF_7CD0_7CD1),
  (0xE4F8, 0x7CD2_7CD3_7CD4_7CD5_7CD6_7CD7_7CD8_7CD9_7CDA_7CDB_7CDC_7CDD),
  (0xE504, 0x7CDE_7CDF_7CE0_7CE1_7CE2_7CE3_7CE4_7CE5_7CE6_7CE7_7CE8_7CE9),
  (0xE510, 0x7CEA_7CEB_7CEC_7CED_7CEE_7CEF_7CF0_7CF1_7CF2_7CF3_7CF4_7CF5),
  (0xE51C, 0x7CF6_7CF7_7CF8_7CF9_7CFA_7CFB_7CFC_7CFD_7D41_7D42_7D43_7D44),
  (0xE528, 0x7D45_7D46_7D47_7D48_7D49_7D4A_7D4B_7D4C_7D4D_7D4E_7D4F_7D50),
  (0xE534, 0x7D51_7D52_7D53_7D54_7D55_7D56_7D57_7D58_7D59_7D5A_7D5B_7D5C),
  (0xE540, 0x7D5D_7D5E_7D5F_7D60_7D61_7D62_7D63_7D64_7D65_7D66_7D67_7D68),
  (0xE54C, 0x7D69_7D6A_7D6B_7D6C_7D6D_7D6E_7D6F_7D70_7D71_7D72_7D73_7D74),
  (0xE558, 0x7D75_7D76_7D77_7D78_7D79_7D7A_7D7B_7D7C_7D7D_7D7E_7D7F_7D81),
  (0xE564, 0x7D82_7D83_7D84_7D85_7D86_7D87_7D88_7D89_7D8A_7D8B_7D8C_7D8D),
  (0xE570, 0x7D8E_7D8F_7D90_7D91_7D92_7D93_7D94_7D95_7D96_7D97_7D98_7D99),
  (0xE57C, 0x7D9A_7D9B_7D9C_7D9D_7D9E_7D9F_7DA0_7DA1_7DA2_7DA3_7DA4_7DA5),
  (0xE588, 0x7DA6_7DA7_7DA8_7DA9_7DAA_7DAB_7DAC_7DAD_7DAE_7DAF_7DB0_7DB1),
  (0xE594, 0x7DB2_7DB3_7DB4_7DB5_7DB6_7DB7_7DB8_7DB9_7DBA_7DBB_7DBC_7DBD),
  (0xE5A0, 0x7DBE_7DBF_7DC0_7DC1_7DC2_7DC3_7DC4_7DC5_7DC6_7DC7_7DC8_7DC9),
  (0xE5AC, 0x7DCA_7DCB_7DCC_7DCD_7DCE_7DCF_7DD0_7DD1_7DD2_7DD3_7DD4_7DD5),
  (0xE5B8, 0x7DD6_7DD7_7DD8_7DD9_7DDA_7DDB_7DDC_7DDD_7DDE_7DDF_7DE0_7DE1),
  (0xE5C4, 0x7DE2_7DE3_7DE4_7DE5_7DE6_7DE7_7DE8_7DE9_7DEA_7DEB_7DEC_7DED),
  (0xE5D0, 0x7DEE_7DEF_7DF0_7DF1_7DF2_7DF3_7DF4_7DF5_7DF6_7DF7_7DF8_7DF9),
  (0xE5DC, 0x7DFA_7DFB_7DFC_7DFD_7E41_7E42_7E43_7E44_7E45_7E46_7E47_7E48),
  (0xE5E8, 0x7E49_7E4A_7E4B_7E4C_7E4D_7E4E_7E4F_7E50_7E51_7E52_7E53_7E54),
  (0xE5F4, 0x7E55_7E56_7E57_7E58_7E59_7E5A_7E5B_7E5C_7E5D_7E5E_7E5F_7E60),
  (0xE600, 0x7E61_7E62_7E63_7E64_7E65_7E66_7E67_7E68_7E69_7E6A_7E6B_7E6C),
  (0xE60C, 0x7E6D_7E6E_7E6F_7E70_7E71_7E72_7E73_7E74_7E75_7E76_7E77_7E78),
  (0xE618, 0x7E79_7E7A_7E7B_7E7C_7E7D_7E7E_7E7F_7E81_7E82_7E83_7E84_7E85),
  (0xE624, 0x7E86_7E87_7E88_7E89_7E8A_7E8B_7E8C_7E8D_7E8E_7E8F_7E90_7E91),
  (0xE630, 0x7E92_7E93_7E94_7E95_7E96_7E97_7E98_7E99_7E9A_7E9B_7E9C_7E9D),
  (0xE63C, 0x7E9E_7E9F_7EA0_7EA1_7EA2_7EA3_7EA4_7EA5_7EA6_7EA7_7EA8_7EA9),
  (0xE648, 0x7EAA_7EAB_7EAC_7EAD_7EAE_7EAF_7EB0_7EB1_7EB2_7EB3_7EB4_7EB5),
  (0xE654, 0x7EB6_7EB7_7EB8_7EB9_7EBA_7EBB_7EBC_7EBD_7EBE_7EBF_7EC0_7EC1),
  (0xE660, 0x7EC2_7EC3_7EC4_7EC5_7EC6_7EC7_7EC8_7EC9_7ECA_7ECB_7ECC_7ECD),
  (0xE66C, 0x7ECE_7ECF_7ED0_7ED1_7ED2_7ED3_7ED4_7ED5_7ED6_7ED7_7ED8_7ED9),
  (0xE678, 0x7EDA_7EDB_7EDC_7EDD_7EDE_7EDF_7EE0_7EE1_7EE2_7EE3_7EE4_7EE5),
  (0xE684, 0x7EE6_7EE7_7EE8_7EE9_7EEA_7EEB_7EEC_7EED_7EEE_7EEF_7EF0_7EF1),
  (0xE690, 0x7EF2_7EF3_7EF4_7EF5_7EF6_7EF7_7EF8_7EF9_7EFA_7EFB_7EFC_7EFD),
  (0xE69C, 0x7F41_7F42_7F43_7F44_7F45_7F46_7F47_7F48_7F49_7F4A_7F4B_7F4C),
  (0xE6A8, 0x7F4D_7F4E_7F4F_7F50_7F51_7F52_7F53_7F54_7F55_7F56_7F57_7F58),
  (0xE6B4, 0x7F59_7F5A_7F5B_7F5C_7F5D_7F5E_7F5F_7F60_7F61_7F62_7F63_7F64),
  (0xE6C0, 0x7F65_7F66_7F67_7F68_7F69_7F6A_7F6B_7F6C_7F6D_7F6E_7F6F_7F70),
  (0xE6CC, 0x7F71_7F72_7F73_7F74_7F75_7F76_7F77_7F78_7F79_7F7A_7F7B_7F7C),
  (0xE6D8, 0x7F7D_7F7E_7F7F_7F81_7F82_7F83_7F84_7F85_7F86_7F87_7F88_7F89),
  (0xE6E4, 0x7F8A_7F8B_7F8C_7F8D_7F8E_7F8F_7F90_7F91_7F92_7F93_7F94_7F95),
  (0xE6F0, 0x7F96_7F97_7F98_7F99_7F9A_7F9B_7F9C_7F9D_7F9E_7F9F_7FA0_7FA1),
  (0xE6FC, 0x7FA2_7FA3_7FA4_7FA5_7FA6_7FA7_7FA8_7FA9_7FAA_7FAB_7FAC_7FAD),
  (0xE708, 0x7FAE_7FAF_7FB0_7FB1_7FB2_7FB3_7FB4_7FB5_7FB6_7FB7_7FB8_7FB9),
  (0xE714, 0x7FBA_7FBB_7FBC_7FBD_7FBE_7FBF_7FC0_7FC1_7FC2_7FC3_7FC4_7FC5),
  (0xE720, 0x7FC6_7FC7_7FC8_7FC9_7FCA_7FCB_7FCC_7FCD_7FCE_7FCF_7FD0_7FD1),
  (0xE72C, 0x7FD2_7FD3_7FD4_7FD5_7FD6_7FD7_7FD8_7FD9_7FDA_7FDB_7FDC_7FDD),
  (0xE738, 0x7FDE_7FDF_7FE0_7FE1_7FE2_7FE3_7FE4_7FE5_7FE6_7FE7_7FE8_7FE9),
  (0xE744, 0x7FEA_7FEB_7FEC_7FED_7FEE_7FEF_7FF0_7FF1_7FF2_7FF3_7FF4_7FF5),
  (0xE750, 0x7FF6_7FF7_7FF8_7FF9_7FFA_7FFB_7FFC_7FFD),
  (0xF83D, 0x435B_445C),
  (0xFF01, 0x425A_427F_427B_42E0_426C_4250_427D_424D_425D_425C_424E_426B),
  (0xFF0D, 0x4260_424B_4261_42F0_42F1_42F2_42F3_42F4_42F5_42F6_42F7_42F8),
  (0xFF19, 0x42F9_427A_425E_424C_427E_426E_426F_427C_42C1_42C2_42C3_42C4),
  (0xFF25, 0x42C5_42C6_42C7_42C8_42C9_42D1_42D2_42D3_42D4_42D5_42D6_42D7),
  (0xFF31, 0x42D8_42D9_42E2_42E3_42E4_42E5_42E6_42E7_42E8_42E9_4444_43E0),
  (0xFF3D, 0x4445_4470_426D_4279_4281_4282_4283_4284_4285_4286_4287_4288),
  (0xFF49, 0x4289_4291_4292_4293_4294_4295_4296_4297_4298_4299_42A2_42A3),
  (0xFF55, 0x42A4_42A5_42A6_42A7_42A8_42A9_42C0_424F_42D0_43A1),
  (0xFFE0, 0x434A_424A_425F_42A1_426A_425B)]

/-- The codes of IBM-935 that are not what their character is written as. -/
def lost935 : List Nat := [
  ]

/-- The characters that are written in IBM-935 with the code of another character. -/
def alt935 : List Nat := [
  0xB7, 0x2015]

/-- IBM-935 -/
def ibm935 : Charset where
  reads := single935 ++ double935
  writes := writes935

/-- The lines of /repo/modules/from/IBM-937.txt with one byte (those that call the callback): code, character; sorted.  Of several lines for one code only the
first is kept, which is the one that counts (C50). -/
def single937 : Chart := Chart.wide [
  (0x1, 0x0001_0002_0003_009C_0009_0086_007F_0097_008D_008E_000B_000C),
  (0xD, 0x000D_000E_000F_0010_0011_0012_0013_009D_0085_0008_0087_0018),
  (0x19, 0x0019_0092_008F_001C_001D_001E_001F_0080_0081_0082_0083_0084),
  (0x25, 0x000A_0017_001B_0088_0089_008A_008B_008C_0005_0006_0007_0090),
  (0x31, 0x0091_0016_0093_0094_0095_0096_0004_0098_0099_009A_009B_0014),
  (0x3D, 0x0015_009E_001A_0020),
  (0x4A, 0x00A2_002E_003C_0028_002B_007C_0026),
  (0x5A, 0x0021_0024_002A_0029_003B_00AC_002D_002F),
  (0x6A, 0x00A6_002C_0025_005F_003E_003F),
  (0x79, 0x0060_003A_0023_0040_0027_003D_0022),
  (0x81, 0x0061_0062_0063_0064_0065_0066_0067_0068_0069),
  (0x91, 0x006A_006B_006C_006D_006E_006F_0070_0071_0072),
  (0xA1, 0x007E_0073_0074_0075_0076_0077_0078_0079_007A),
  (0xB0, 0x005E),
  (0xBA, 0x005B_005D),
  (0xC0, 0x007B_0041_0042_0043_0044_0045_0046_0047_0048_0049),
  (0xD0, 0x007D_004A_004B_004C_004D_004E_004F_0050_0051_0052),
  (0xE0, 0x005C),
  (0xE2, 0x0053_0054_0055_0056_0057_0058_0059_005A),
  (0xF0, 0x0030_0031_0032_0033_0034_0035_0036_0037_0038_0039),
  (0xFF, 0x009F)]

/-- The lines of /repo/modules/from/IBM-937.txt with two bytes: code, character; sorted.  Of several lines for one code only the
first is kept, which is the one that counts (C50). -/
def double937 : Chart := Chart.wide [
  (0x4040, 0x3000),
  (0x4141, 0x03B1_03B2_03B3_03B4_03B5_03B6_03B7_03B8_03B9_03BA_03BB_03BC),
  (0x414D, 0x03BD_03BE_03BF_03C0_03C1_03C3_03C4_03C5_03C6_03C7_03C8_03C9),
  (0x4161, 0x0391_0392_0393_0394_0395_0396_0397_0398_0399_039A_039B_039C),
  (0x416D, 0x039D_039E_039F_03A0_03A1_03A3_03A4_03A5_03A6_03A7_03A8_03A9),
  (0x4180, 0x0430_0431_0432_0433_0434_0435_0451_0436_0437_0438_0439_043A),
  (0x418C, 0x043B_043C_043D_043E_043F_0440_0441_0442_0443_0444_0445_0446),
  (0x4198, 0x0447_0448_0449_044A_044B_044C_044D_044E_044F),
  (0x41B1, 0x2170_2171_2172_2173_2174_2175_2176_2177_2178_2179),
  (0x41C0, 0x0410_0411_0412_0413_0414_0415_0401_0416_0417_0418_0419_041A),
  (0x41CC, 0x041B_041C_041D_041E_041F_0420_0421_0422_0423_0424_0425_0426),
  (0x41D8, 0x0427_0428_0429_042A_042B_042C_042D_042E_042F),
  (0x41F1, 0x2160_2161_2162_2163_2164_2165_2166_2167_2168_2169),
  (0x424A, 0xFFE1_FF0E_FF1C_FF08_FF0B_2223_FF06),
  (0x425A, 0xFF01_FFE5_273D_FF09_FF1B_FFE2_FF0D_FF0F),
  (0x426A, 0xFFE4_FF0C_FF05_FF3F_FF1E_FF1F),
  (0x4279, 0x2035_FF1A_FF03_FF20_FF07_FF1D_FF02),
  (0x4281, 0xFF41_FF42_FF43_FF44_FF45_FF46_FF47_FF48_FF49),
  (0x4291, 0xFF4A_FF4B_FF4C_FF4D_FF4E_FF4F_FF50_FF51_FF52),
  (0x42A1, 0x203E_FF53_FF54_FF55_FF56_FF57_FF58_FF59_FF5A),
  (0x42C0, 0xFF5B_FF21_FF22_FF23_FF24_FF25_FF26_FF27_FF28_FF29),
  (0x42D0, 0xFF5D_FF2A_FF2B_FF2C_FF2D_FF2E_FF2F_FF30_FF31_FF32),
  (0x42E0, 0xFF04),
  (0x42E2, 0xFF33_FF34_FF35_FF36_FF37_FF38_FF39_FF3A),
  (0x42F0, 0xFF10_FF11_FF12_FF13_FF14_FF15_FF16_FF17_FF18_FF19),
  (0x4341, 0x3002_300C_300D_3001_2027_30F2_30A1_30A3_30A5_FFE0),
  (0x434D, 0x2312_2202_2207),
  (0x4351, 0x30A7_30A9_30E3_30E5_30E7_30C3_30EE_30FC_30F5_30F6),
  (0x435D, 0x226A_226B),
  (0x4360, 0x223D_221D),
  (0x4363, 0x222C_2208_220B_2286_2287_2282_2283),
  (0x436C, 0x2227_2228_21D2_21D4_2200_2203_212B_2030_266F_266D_266A_2020),
  (0x4378, 0x2021_00B6_25EF),
  (0x4381, 0x30A2_30A4_30A6_30A8_30AA_30AB_30AD_30AF_30B1_30B3),
  (0x438C, 0x30B5_30B7_30B9_30BB_30BD_30BF_30C1_30C4_30C6_30C8_30CA_30CB),
  (0x4398, 0x30CC_30CD_30CE),
  (0x439D, 0x30CF_30D2_30D5),
  (0x43A1, 0x223C_30D8_30DB_30DE_30DF_30E0_30E1_30E2_30E4_30E6),
  (0x43AC, 0x30E8_30E9_30EA_30EB),
  (0x43B7, 0x2501_2503_250F_30EC_30ED_30EF_30F3_309B_309C_30AC_30AE_30B0),
  (0x43C3, 0x30B2_30B4_30B6_30B8_30BA_30BC_30BE_30C0_30C2_30C5_30C7_30C9),
  (0x43CF, 0x30D0_30D3_30D6_30D9_30DC_30F4_30D1_30D4_30D7_30DA_30DD_30F0),
  (0x43DB, 0x30F1_30FD_30FE),
  (0x43E0, 0xFF3C_2513_251B_2517_2523_2533_252B_253B_254B_2520_252F_2528),
  (0x43EC, 0x2537_253F_251D_2530_2525_2538_2542),
  (0x4442, 0x300E_300F_FF3B_FF3D_3092_3041_3043_3045_2013_00B1_2260_221E),
  (0x444E, 0x2103),
  (0x4450, 0x2032_3047_3049_3083_3085_3087_3063_308E),
  (0x445A, 0x2010_02BA_F83E_3005_3006_3007_00A8_2018_201C_3014_3008_300A),
  (0x4466, 0x3010_2266_2234_2642_00A7_203B_3012_3231_2116_2121_FF3E_2019),
  (0x4472, 0x201D_3015_3009_300B_3011_2267_2235_2640_00D7_00F7_2225_3013),
  (0x447E, 0x2025_2026),
  (0x4481, 0x3042_3044_3046_3048_304A_304B_304D_304F_3051_3053),
  (0x448C, 0x3055_3057_3059_305B_305D_305F_3061_3064_3066_3068_306A_306B),
  (0x4498, 0x306C_306D_306E),
  (0x449D, 0x306F_3072_3075),
  (0x44A2, 0x3078_307B_307E_307F_3080_3081_3082_3084_3086),
  (0x44AC, 0x3088_3089_308A_308B),
  (0x44BA, 0x308C_308D_308F_3093),
  (0x44C0, 0x304C_304E_3050_3052_3054_3056_3058_305A_305C_305E_3060_3062),
  (0x44CC, 0x3065_3067_3069_3070_3073_3076_3079_307C),
  (0x44D5, 0x3071_3074_3077_307A_307D_3090_3091_309D_309E),
  (0x44E0, 0x25CB_25CF_25B3_25B2_25CE_2606_2605_25C7_25C6_25A1_25A0_25BD),
  (0x44EC, 0x25BC_00B0_00B4_2033_2192_2190_2191_2193),
  (0x4541, 0x3021_3022_3023_3024_3025_3026_3027_3028_3029_5341_5344_5345),
  (0x4551, 0x02C9_02CA_02C7_02CB_02D9_3105_3106_3107_3108_3109_310A_310B),
  (0x455D, 0x310C_310D_310E_310F_3110_3111_3112_3113_3114_3115_3116_3117),
  (0x4569, 0x3118_3119_311A_311B_311C_311D_311E_311F_3120_3121_3122_3123),
  (0x4575, 0x3124_3125_3126_3127_3128_3129),
  (0x4641, 0x2460_2461_2462_2463_2464_2465_2466_2467_2468_2469),
  (0x4651, 0x2474_2475_2476_2477_2478_2479_247A_247B_247C_247D),
  (0x4660, 0x2581_2582_2583_2584_2585_2586_2587_2588_258F_258E_258D_258C),
  (0x466C, 0x258B_258A_2589_253C_2534_252C_2524_251C_2594_2500_2502_2595),
  (0x4678, 0x250C_2510_2514_2518_256D_256E_2570_256F),
  (0x4681, 0x2550_255E_256A_2561_25E2_25E3_25E5_25E4_2571_2572_2573),
  (0x46A0, 0xFE41_FE42_FE43_FE44_FE3B_FE3C),
  (0x46A7, 0xFE31_F83F_F840_F841_F842_FE35_FE36_FE37_FE38_FE39_FE3A_FE3D),
  (0x46B3, 0xFE3E_FE3F_FE40_FE33_2574_FF0A_3003_32A3_2105_FE34_FE4F_FE49),
  (0x46BF, 0xFE4A_FE4D_FE4E_FE4B_FE4C_FE61_221A_2252_2261_2229_222A_22A5),
  (0x46CB, 0x2220_221F_22BF_33D2_33D1_222B_222E_2295_2299_2196_2197_2199),
  (0x46D7, 0x2198),
  (0x46DA, 0x2215_2109_33D5_339C_339D_339E_33CE_33A1_338E_338F_33C4_00B7),
  (0x46E9, 0x301D_301E),
  (0x46EE, 0x21E7_21B8_21B9_5159_515B_515E_515D_5161_5163_55E7_74E9_7CCE),
  (0x4741, 0xFE30_FE50_FE51_FE52_FE54_FE55_FE56_FE57_FE32_FE58_FE59_FE5A),
  (0x474D, 0xFE5B_FE5C_FE5D_FE5E_FFE3_02CD_FE5F_FE60_FE62_FE63_FE64_FE65),
  (0x4759, 0xFE66_FE68_FE69_FE6A_FE6B),
  (0x4781, 0x2400_2401_2402_2403_2404_2405_2406_2407_2408_2409_240A_240B),
  (0x478D, 0x240C_240D_240E_240F_2410_2411_2412_2413_2414_2415_2416_2417),
  (0x4799, 0x2418_2419_241A_241B_241C_241D_241E_241F_2421),
  (0x4841, 0x4E00_4E28_4E36_4E3F_4E59_4E85_4E8C_4EA0_4EBA_513F_5165_516B),
  (0x484D, 0x5182_5196_51AB_51E0_51F5_5200_529B_52F9_5315_531A_5338_5341),
  (0x4859, 0x535C_5369_5382_53B6_53C8_53E3_56D7_571F_58EB_590A_5915_5927),
  (0x4865, 0x5973_5B50_5B80_5BF8_5C0F_5C22_5C38_5C6E_5C71_5DDB_5DE5_5DF1),
  (0x4871, 0x5DFE_5E72_5E7A_5E7F_5EF4_5EFE_5F0B_5F13_5F50_5F61_5F73_5FC3),
  (0x487D, 0x6208_6236_624B),
  (0x4881, 0x652F_6534_6587_6597_65A4_65B9_65E0_65E5_66F0_6708_6728_6B20),
  (0x488D, 0x6B62_6B79_6BB3_6BCB_6BD4_6BDB_6C0F_6C14_6C34_706B_722A_7236),
  (0x4899, 0x723B_723F_7247_7259_725B_72AC_7384_7389_74DC_74E6_7518_751F),
  (0x48A5, 0x7528_7530_758B_7592_7676_767D_76AE_76BF_76EE_77DB_77E2_77F3),
  (0x48B1, 0x793A_79B8_79BE_7A74_7ACB_7AF9_7C73_7CF8_7F36_7F51_7F8A_7FBD),
  (0x48BD, 0x8001_800C_8012_8033_807F_8089_81E3_81EA_81F3_81FC_820C_821B),
  (0x48C9, 0x821F_826E_8272_8278_864D_866B_8840_884C_8863_897E_898B_89D2),
  (0x48D5, 0x8A00_8C37_8C46_8C55_8C78_8C9D_8D64_8D70_8DB3_8EAB_8ECA_8F9B),
  (0x48E1, 0x8FB0_8FB5_9091_9149_91C6_91CC_91D1_9577_9580_961C_96B6_96B9),
  (0x48ED, 0x96E8_9752_975E_9762_9769_97CB_97ED_97F3_9801_98A8_98DB_98DF),
  (0x48F9, 0x9996_9999_99AC_9AA8_9AD8),
  (0x4941, 0x9ADF_9B25_9B2F_9B32_9B3C_9B5A_9CE5_9E75_9E7F_9EA5_9EBB_9EC3),
  (0x494D, 0x9ECD_9ED1_9EF9_9EFD_9F0E_9F13_9F20_9F3B_9F4A_9F52_9F8D_9F9C),
  (0x4959, 0x9FA0),
  (0x4C41, 0x4E00_4E59_4E01_4E03_4E43_4E5D_4E86_4E8C_4EBA_513F_5165_516B),
  (0x4C4D, 0x51E0_5200_5201_529B_5315_5341_535C_53C8_4E09_4E0B_4E08_4E0A),
  (0x4C59, 0x4E2B_4E38_51E1_4E45_4E48_4E5F_4E5E_4E8E_4EA1_5140_5203_52FA),
  (0x4C65, 0x5343_53C9_53E3_571F_58EB_5915_5927_5973_5B50_5B51_5B53_5BF8),
  (0x4C71, 0x5C0F_5C22_5C38_5C71_5DDD_5DE5_5DF1_5DF2_5DF3_5DFE_5E72_5EFE),
  (0x4C7D, 0x5F0B_5F13_624D),
  (0x4C81, 0x4E11_4E10_4E0D_4E2D_4E30_4E39_4E4B_5C39_4E88_4E91_4E95_4E92),
  (0x4C8D, 0x4E94_4EA2_4EC1_4EC0_4EC3_4EC6_4EC7_4ECD_4ECA_4ECB_4EC4_5143),
  (0x4C99, 0x5141_5167_516D_516E_516C_5197_51F6_5206_5207_5208_52FB_52FE),
  (0x4CA5, 0x52FF_5316_5339_5348_5347_5345_535E_5384_53CB_53CA_53CD_58EC),
  (0x4CB1, 0x5929_592B_592A_592D_5B54_5C11_5C24_5C3A_5C6F_5DF4_5E7B_5EFF),
  (0x4CBD, 0x5F14_5F15_5FC3_6208_6236_624B_624E_652F_6587_6597_65A4_65B9),
  (0x4CC9, 0x65E5_66F0_6708_6728_6B20_6B62_6B79_6BCB_6BD4_6BDB_6C0F_6C34),
  (0x4CD5, 0x706B_722A_7236_723B_7247_7259_725B_72AC_738B_4E19_4E16_4E15),
  (0x4CE1, 0x4E14_4E18_4E3B_4E4D_4E4F_4E4E_4EE5_4ED8_4ED4_4ED5_4ED6_4ED7),
  (0x4CED, 0x4EE3_4EE4_4ED9_4EDE_5145_5144_5189_518A_51AC_51F9_51FA_51F8),
  (0x4CF9, 0x520A_52A0_529F_5305_5306),
  (0x4D41, 0x5317_531D_4EDF_534A_5349_5361_5360_536F_536E_53BB_53EF_53E4),
  (0x4D4D, 0x53F3_53EC_53EE_53E9_53E8_53FC_53F8_53F5_53EB_53E6_53EA_53F2),
  (0x4D59, 0x53F1_53F0_53E5_53ED_53FB_56DB_56DA_5916_592E_5931_5974_5976),
  (0x4D65, 0x5B55_5B83_5C3C_5DE8_5DE7_5DE6_5E02_5E03_5E73_5E7C_5F01_5F18),
  (0x4D71, 0x5F17_5FC5_620A_6253_6254_6252_6251_65A5_65E6_672E_672C_672A),
  (0x4D7D, 0x672B_672D_6B63),
  (0x4D81, 0x6BCD_6C11_6C10_6C38_6C41_6C40_6C3E_72AF_7384_7389_74DC_74E6),
  (0x4D8D, 0x7518_751F_7528_7529_7530_7531_7532_7533_758B_767D_76AE_76BF),
  (0x4D99, 0x76EE_77DB_77E2_77F3_793A_79BE_7A74_7ACB_4E1E_4E1F_4E52_4E53),
  (0x4DA5, 0x4E69_4E99_4EA4_4EA6_4EA5_4EFF_4F09_4F19_4F0A_4F15_4F0D_4F10),
  (0x4DB1, 0x4F11_4F0F_4EF2_4EF6_4EFB_4EF0_4EF3_4EFD_4F01_4F0B_5149_5147),
  (0x4DBD, 0x5146_5148_5168_5171_518D_51B0_5217_5211_5212_520E_5216_52A3),
  (0x4DC9, 0x5308_5321_5320_5370_5371_5409_540F_540C_540A_5410_5401_540B),
  (0x4DD5, 0x5404_5411_540D_5408_5403_540E_5406_5412_56E0_56DE_56DD_5733),
  (0x4DE1, 0x5730_5728_572D_572C_572F_5729_5919_591A_5937_5938_5984_5978),
  (0x4DED, 0x5983_597D_5979_5982_5981_5B57_5B58_5B87_5B88_5B85_5B89_5BFA),
  (0x4DF9, 0x5C16_5C79_5DDE_5E06_5E76),
  (0x4E41, 0x5E74_5F0F_5F1B_5FD9_5FD6_620E_620C_620D_6210_6263_625B_6258),
  (0x4E4D, 0x6536_65E9_65E8_65EC_65ED_66F2_66F3_6709_673D_6734_6731_6735),
  (0x4E59, 0x6B21_6B64_6B7B_6C16_6C5D_6C57_6C59_6C5F_6C60_6C50_6C55_6C61),
  (0x4E65, 0x6C5B_6C4D_6C4E_7070_725F_725D_767E_7AF9_7C73_7CF8_7F36_7F8A),
  (0x4E71, 0x7FBD_8001_8003_800C_8012_8033_807F_8089_808B_808C_81E3_81EA),
  (0x4E7D, 0x81F3_81FC_820C),
  (0x4E81, 0x821B_821F_826E_8272_827E_866B_8840_884C_8863_897F_9621_4E32),
  (0x4E8D, 0x4EA8_4F4D_4F4F_4F47_4F57_4F5E_4F34_4F5B_4F55_4F30_4F50_4F51),
  (0x4E99, 0x4F3D_4F3A_4F38_4F43_4F54_4F3C_4F46_4F63_4F5C_4F60_4F2F_4F4E),
  (0x4EA5, 0x4F36_4F59_4F5D_4F48_4F5A_514C_514B_514D_5175_51B6_51B7_5225),
  (0x4EB1, 0x5224_5229_522A_5228_52AB_52A9_52AA_52AC_5323_5373_5375_541D),
  (0x4EBD, 0x542D_541E_543E_5426_544E_5427_5446_5443_5433_5448_5442_541B),
  (0x4EC9, 0x5429_544A_5439_543B_5438_542E_5435_5436_5420_543C_5440_5431),
  (0x4ED5, 0x542B_541F_542C_56EA_56F0_56E4_56EB_574A_5751_5740_574D_5747),
  (0x4EE1, 0x574E_573E_5750_574F_573B_58EF_593E_599D_5992_59A8_599E_59A3),
  (0x4EED, 0x5999_5996_598D_59A4_5993_598A_59A5_5B5D_5B5C_5B5A_5B5B_5B8C),
  (0x4EF9, 0x5B8B_5B8F_5C2C_5C40_5C41),
  (0x4F41, 0x5C3F_5C3E_5C90_5C91_5C94_5C8C_5DEB_5E0C_5E8F_5E87_5E8A_5EF7),
  (0x4F4D, 0x5F04_5F1F_5F64_5F62_5F77_5F79_5FD8_5FCC_5FD7_5FCD_5FF1_5FEB),
  (0x4F59, 0x5FF8_5FEA_6212_6211_6284_6297_6296_6280_6276_6289_626D_628A),
  (0x4F65, 0x627C_627E_6279_6273_6292_626F_6298_626E_6295_6293_6291_6286),
  (0x4F71, 0x6539_653B_6538_65F1_66F4_675F_674E_674F_6750_6751_675C_6756),
  (0x4F7D, 0x675E_6749_6746),
  (0x4F81, 0x6760_6753_6757_6B65_6BCF_6C42_6C5E_6C99_6C81_6C88_6C89_6C85),
  (0x4F8D, 0x6C9B_6C6A_6C7A_6C90_6C70_6C8C_6C68_6C96_6C92_6C7D_6C83_6C72),
  (0x4F99, 0x6C7E_6C74_6C86_6C76_6C8D_6C94_6C98_6C82_7076_707C_707D_7078),
  (0x4FA5, 0x7262_7261_7260_72C4_72C2_7396_752C_752B_7537_7538_7682_76EF),
  (0x4FB1, 0x77E3_79C1_79C0_79BF_7A76_7CFB_7F55_8096_8093_809D_8098_809B),
  (0x4FBD, 0x809A_80B2_826F_8292_828B_828D_898B_89D2_8A00_8C37_8C46_8C55),
  (0x4FC9, 0x8C9D_8D64_8D70_8DB3_8EAB_8ECA_8F9B_8FB0_8FC2_8FC6_8FC5_8FC4),
  (0x4FD5, 0x5DE1_9091_90A2_90AA_90A6_90A3_9149_91C6_91CC_9632_962E_9631),
  (0x4FE1, 0x962A_962C_4E26_4E56_4E73_4E8B_4E9B_4E9E_4EAB_4EAC_4F6F_4F9D),
  (0x4FED, 0x4F8D_4F73_4F7F_4F6C_4F9B_4F8B_4F86_4F83_4F70_4F75_4F88_4F69),
  (0x4FF9, 0x4F7B_4F96_4F7E_4F8F_4F91),
  (0x5041, 0x4F7A_5154_5152_5155_5169_5177_5176_5178_51BD_51FD_523B_5238),
  (0x504D, 0x5237_523A_5230_522E_5236_5241_52BE_52BB_5352_5354_5353_5351),
  (0x5059, 0x5366_5377_5378_5379_53D6_53D4_53D7_5473_5475_5496_5478_5495),
  (0x5065, 0x5480_547B_5477_5484_5492_5486_547C_5490_5471_5476_548C_549A),
  (0x5071, 0x5462_5468_548B_547D_548E_56FA_5783_5777_576A_5769_5761_5766),
  (0x507D, 0x5764_577C_591C),
  (0x5081, 0x5949_5947_5948_5944_5954_59BE_59BB_59D4_59B9_59AE_59D1_59C6),
  (0x508D, 0x59D0_59CD_59CB_59D3_59CA_59AF_59B3_59D2_59C5_5B5F_5B64_5B63),
  (0x5099, 0x5B97_5B9A_5B98_5B9C_5B99_5B9B_5C1A_5C48_5C45_5C46_5CB7_5CA1),
  (0x50A5, 0x5CB8_5CA9_5CAB_5CB1_5CB3_5E18_5E1A_5E16_5E15_5E1B_5E11_5E78),
  (0x50B1, 0x5E9A_5E97_5E9C_5E95_5E96_5EF6_5F26_5F27_5F29_5F80_5F81_5F7F),
  (0x50BD, 0x5F7C_5FDD_5FE0_5FFD_5FF5_5FFF_600F_6014_602F_6035_6016_602A),
  (0x50C9, 0x6015_6021_6027_6029_602B_601B_6216_6215_623F_623E_6240_627F),
  (0x50D5, 0x62C9_62CC_62C4_62BF_62C2_62B9_62D2_62DB_62AB_62D3_62D4_62CB),
  (0x50E1, 0x62C8_62A8_62BD_62BC_62D0_62D9_62C7_62CD_62B5_62DA_62B1_62D8),
  (0x50ED, 0x62D6_62D7_62C6_62AC_62CE_653E_65A7_65BC_65FA_6614_6613_660C),
  (0x50F9, 0x6606_6602_660E_6600_660F),
  (0x5141, 0x6615_660A_6607_670D_670B_676D_678B_6795_6771_679C_6773_6777),
  (0x514D, 0x6787_679D_6797_676F_6770_677F_6789_677E_6790_6775_679A_6793),
  (0x5159, 0x677C_676A_6772_6B23_6B66_6B67_6B7F_6C13_6C1B_6CE3_6CE8_6CF3),
  (0x5165, 0x6CB1_6CCC_6CE5_6CB3_6CBD_6CBE_6CBC_6CE2_6CAB_6CD5_6CD3_6CB8),
  (0x5171, 0x6CC4_6CB9_6CC1_6CAE_6CD7_6CC5_6CF1_6CBF_6CBB_6CE1_6CDB_6CCA),
  (0x517D, 0x6CAC_6CEF_6CDC),
  (0x5181, 0x6CD6_6CE0_7095_708E_7092_708A_7099_722C_722D_7238_7248_7267),
  (0x518D, 0x7269_72C0_72CE_72D9_72D7_72D0_73A9_73A8_739F_73AB_73A5_753D),
  (0x5199, 0x759D_7599_759A_7684_76C2_76F2_76F4_77E5_77FD_793E_7940_7941),
  (0x51A5, 0x79C9_79C8_7A7A_7A79_7AFA_7CFE_7F54_7F8C_7F8B_8005_80BA_80A5),
  (0x51B1, 0x80A2_80B1_80A1_80AB_80A9_80B4_80AA_80AF_81E5_81FE_820D_82B3),
  (0x51BD, 0x829D_8299_82AD_82BD_829F_82B9_82B1_82AC_82A5_82AF_82B8_82A3),
  (0x51C9, 0x82B0_82BE_82B7_864E_8671_521D_8868_8ECB_8FCE_8FD4_8FD1_90B5),
  (0x51D5, 0x90B8_90B1_90B6_91C7_91D1_9577_9580_961C_9640_963F_963B_9644),
  (0x51E1, 0x9642_96B9_96E8_9752_975E_4E9F_4EAD_4EAE_4FE1_4FB5_4FAF_4FBF),
  (0x51ED, 0x4FE0_4FD1_4FCF_4FDD_4FC3_4FB6_4FD8_4FDF_4FCA_4FD7_4FAE_4FD0),
  (0x51F9, 0x4FC4_4FC2_4FDA_4FCE_4FDE),
  (0x5241, 0x4FB7_5157_5192_5191_51A0_524E_5243_524A_524D_524C_524B_5247),
  (0x524D, 0x52C7_52C9_52C3_52C1_530D_5357_537B_539A_53DB_54AC_54C0_54A8),
  (0x5259, 0x54CE_54C9_54B8_54A6_54B3_54C7_54C2_54BD_54AA_54C1_54C4_54C8),
  (0x5265, 0x54AF_54AB_54B1_54BB_54A9_54A7_54BF_56FF_5782_578B_57A0_57A3),
  (0x5271, 0x57A2_57CE_57AE_5793_5955_5951_594F_594E_5950_59DC_59D8_59FF),
  (0x527D, 0x59E3_59E8_5A03),
  (0x5281, 0x59E5_59EA_59DA_59E6_5A01_59FB_5B69_5BA3_5BA6_5BA4_5BA2_5BA5),
  (0x528D, 0x5C01_5C4E_5C4F_5C4D_5C4B_5CD9_5CD2_5DF7_5E1D_5E25_5E1F_5E7D),
  (0x5299, 0x5EA0_5EA6_5EFA_5F08_5F2D_5F65_5F88_5F85_5F8A_5F8B_5F87_5F8C),
  (0x52A5, 0x5F89_6012_601D_6020_6025_600E_6028_604D_6070_6068_6062_6046),
  (0x52B1, 0x6043_606C_606B_606A_6064_6241_62DC_6316_6309_62FC_62ED_6301),
  (0x52BD, 0x62EE_62FD_6307_62F1_62F7_62EF_62EC_62FE_62F4_6311_6302_653F),
  (0x52C9, 0x6545_65AB_65BD_65E2_6625_662D_6620_6627_662F_661F_6628_6631),
  (0x52D5, 0x6624_66F7_67FF_67D3_67F1_67D4_67D0_67EC_67B6_67AF_67F5_67E9),
  (0x52E1, 0x67EF_67C4_67D1_67B4_67DA_67E5_67B8_67CF_67DE_67F3_67B0_67D9),
  (0x52ED, 0x67E2_67DD_67D2_6B6A_6B83_6B86_6BB5_6BD2_6BD7_6C1F_6CC9_6D0B),
  (0x52F9, 0x6D32_6D2A_6D41_6D25_6D0C),
  (0x5341, 0x6D31_6D1E_6D17_6D3B_6D3D_6D3E_6D36_6D1B_6CF5_6D39_6D27_6D38),
  (0x534D, 0x6D29_6D2E_6D35_6D0E_6D2B_70AB_70BA_70B3_70AC_70AF_70AD_70B8),
  (0x5359, 0x70AE_70A4_7230_7272_726F_7274_72E9_72E0_72E1_73B7_73CA_73BB),
  (0x5365, 0x73B2_73CD_73C0_73B3_751A_752D_754F_754C_754E_754B_75AB_75A4),
  (0x5371, 0x75A5_75A2_75A3_7678_7686_7687_7688_76C8_76C6_76C3_76C5_7701),
  (0x537D, 0x76F9_76F8_7709),
  (0x5381, 0x770B_76FE_76FC_7707_77DC_7802_7814_780C_780D_7946_7949_7948),
  (0x538D, 0x7947_79B9_79BA_79D1_79D2_79CB_7A7F_7A81_7AFF_7AFD_7C7D_7D02),
  (0x5399, 0x7D05_7D00_7D09_7D07_7D04_7D06_7F38_7F8E_7FBF_8004_8010_800D),
  (0x53A5, 0x8011_8036_80D6_80E5_80DA_80C3_80C4_80CC_80E1_80DB_80CE_80DE),
  (0x53B1, 0x80E4_80DD_81F4_8222_82E7_8303_8305_82E3_82DB_82E6_8304_82E5),
  (0x53BD, 0x8302_8309_82D2_82D7_82F1_8301_82DC_82D4_82D1_82DE_82D3_82DF),
  (0x53C9, 0x82EF_8306_8650_8679_867B_867A_884D_886B_8981_89D4_8A08_8A02),
  (0x53D5, 0x8A03_8C9E_8CA0_8D74_8D73_8DB4_8ECD_8ECC_8FF0_8FE6_8FE2_8FEA),
  (0x53E1, 0x8FE5_8FED_8FEB_8FE4_8FE8_90CA_90CE_90C1_90C3_914B_914A_91CD),
  (0x53ED, 0x9582_9650_964B_964C_964D_9762_9769_97CB_97ED_97F3_9801_98A8),
  (0x53F9, 0x98DB_98DF_9996_9999_4E58),
  (0x5441, 0x4EB3_500C_500D_5023_4FEF_5026_5025_4FF8_5029_5016_5006_503C),
  (0x544D, 0x501F_501A_5012_5011_4FFA_5000_5014_5028_4FF1_5021_500B_5019),
  (0x5459, 0x5018_4FF3_4FEE_502D_502A_4FFE_502B_5009_517C_51A4_51A5_51A2),
  (0x5465, 0x51CD_51CC_51C6_51CB_5256_525C_5254_525B_525D_532A_537F_539F),
  (0x5471, 0x539D_53DF_54E8_5510_5501_5537_54FC_54E5_54F2_5506_54FA_5514),
  (0x547D, 0x54E9_54ED_54E1),
  (0x5481, 0x5509_54EE_54EA_54E6_5527_5507_54FD_550F_5703_5704_57C2_57D4),
  (0x548D, 0x57CB_57C3_5809_590F_5957_5958_595A_5A11_5A18_5A1C_5A1F_5A1B),
  (0x5499, 0x5A13_59EC_5A20_5A23_5A29_5A25_5A0C_5A09_5B6B_5C58_5BB0_5BB3),
  (0x54A5, 0x5BB6_5BB4_5BAE_5BB5_5BB9_5BB8_5C04_5C51_5C55_5C50_5CED_5CFD),
  (0x54B1, 0x5CFB_5CEA_5CE8_5CF0_5CF6_5D01_5CF4_5DEE_5E2D_5E2B_5EAB_5EAD),
  (0x54BD, 0x5EA7_5F31_5F92_5F91_5F90_6059_6063_6065_6050_6055_606D_6069),
  (0x54C9, 0x606F_6084_609F_609A_608D_6094_608C_6085_6096_6247_62F3_6308),
  (0x54D5, 0x62FF_634E_633E_632F_6355_6342_6346_634F_6349_633A_6350_633D),
  (0x54E1, 0x632A_632B_6328_634D_634C_6548_6549_6599_65C1_65C5_6642_6649),
  (0x54ED, 0x664F_6643_6652_664C_6645_6641_66F8_6714_6715_6717_6821_6838),
  (0x54F9, 0x6848_6846_6853_6839_6842),
  (0x5541, 0x6854_6829_68B3_6817_684C_6851_683D_67F4_6850_6840_683C_6843),
  (0x554D, 0x682A_6845_6813_6818_6841_6B8A_6B89_6BB7_6C23_6C27_6C28_6C26),
  (0x5559, 0x6C24_6CF0_6D6A_6D95_6D88_6D87_6D66_6D78_6D77_6D59_6D93_6D6C),
  (0x5565, 0x6D89_6D6E_6D5A_6D74_6D69_6D8C_6D8A_6D79_6D85_6D65_6D94_70CA),
  (0x5571, 0x70D8_70E4_70D9_70C8_70CF_7239_7279_72FC_72F9_72FD_72F8_72F7),
  (0x557D, 0x7386_73ED_7409),
  (0x5581, 0x73EE_73E0_73EA_73DE_7554_755D_755C_755A_7559_75BE_75C5_75C7),
  (0x558D, 0x75B2_75B3_75BD_75BC_75B9_75C2_75B8_768B_76B0_76CA_76CD_76CE),
  (0x5599, 0x7729_771F_7720_7728_77E9_7830_7827_7838_781D_7834_7837_7825),
  (0x55A5, 0x782D_7820_781F_7832_7955_7950_7960_795F_7956_795E_795D_7957),
  (0x55B1, 0x795A_79E4_79E3_79E7_79DF_79E6_79E9_79D8_7A84_7A88_7AD9_7B06),
  (0x55BD, 0x7B11_7C89_7D21_7D17_7D0B_7D0A_7D20_7D22_7D14_7D10_7D15_7D1A),
  (0x55C9, 0x7D1C_7D0D_7D19_7D1B_7F3A_7F5F_7F94_7FC5_7FC1_8006_8018_8015),
  (0x55D5, 0x8019_8017_803D_803F_80F1_8102_80F0_8105_80ED_80F4_8106_80F8),
  (0x55E1, 0x80F3_8108_80FD_810A_80FC_80EF_81ED_81EC_8200_8210_822A_822B),
  (0x55ED, 0x8228_822C_82BB_832B_8352_8354_834A_8338_8350_8349_8335_8334),
  (0x55F9, 0x834F_8332_8339_8336_8317),
  (0x5641, 0x8340_8331_8328_8343_8654_868A_86AA_8693_86A4_86A9_868C_86A3),
  (0x564D, 0x869C_8870_8877_8881_8882_887D_8879_8A18_8A10_8A0E_8A0C_8A15),
  (0x5659, 0x8A0A_8A17_8A13_8A16_8A0F_8A11_8C48_8C7A_8C79_8CA1_8CA2_8D77),
  (0x5665, 0x8EAC_8ED2_8ED4_8ECF_8FB1_9001_9006_8FF7_9000_8FFA_8FF4_9003),
  (0x5671, 0x8FFD_9005_8FF8_9095_90E1_90DD_90E2_9152_914D_914C_91D8_91DD),
  (0x567D, 0x91D7_91DC_91D9),
  (0x5681, 0x9583_9662_9663_9661_965B_965D_9664_9658_965E_96BB_98E2_99AC),
  (0x568D, 0x9AA8_9AD8_9B25_9B32_9B3C_4E7E_507A_507D_505C_5047_5043_504C),
  (0x5699, 0x505A_5049_5065_5076_504E_5055_5075_5074_5077_504F_500F_506F),
  (0x56A5, 0x506D_515C_5195_51F0_526A_526F_52D2_52D9_52D8_52D5_5310_530F),
  (0x56B1, 0x5319_533F_5340_533E_53C3_66FC_5546_556A_5566_5544_555E_5561),
  (0x56BD, 0x5543_554A_5531_5556_554F_5555_552F_5564_5538_552E_555C_552C),
  (0x56C9, 0x5563_5533_5541_5557_5708_570B_5709_57DF_5805_580A_5806_57E0),
  (0x56D5, 0x57E4_57FA_5802_5835_57F7_57F9_5920_5962_5A36_5A41_5A49_5A66),
  (0x56E1, 0x5A6A_5A40_5A3C_5A62_5A5A_5A46_5A4A_5B70_5BC7_5BC5_5BC4_5BC2),
  (0x56ED, 0x5BBF_5BC6_5C09_5C08_5C07_5C60_5C5C_5C5D_5D07_5D06_5D0E_5D1B),
  (0x56F9, 0x5D16_5D22_5D11_5D29_5D14),
  (0x5741, 0x5D19_5D24_5D27_5D17_5DE2_5E38_5E36_5E33_5E37_5EB7_5EB8_5EB6),
  (0x574D, 0x5EB5_5EBE_5F35_5F37_5F57_5F6C_5F69_5F6B_5F97_5F99_5F9E_5F98),
  (0x5759, 0x5FA1_5FA0_5F9C_607F_60A3_6089_60A0_60A8_60CB_60B4_60E6_60BD),
  (0x5765, 0x60C5_60BB_60B5_60DC_60BC_60D8_60D5_60C6_60DF_60B8_60DA_60C7),
  (0x5771, 0x621A_621B_6248_63A0_63A7_6372_6396_63A2_63A5_6377_6367_6398),
  (0x577D, 0x63AA_6371_63A9),
  (0x5781, 0x6389_6383_639B_636B_63A8_6384_6388_6399_63A1_63AC_6392_638F),
  (0x578D, 0x6380_637B_6369_6368_637A_655D_6556_6551_6559_6557_555F_654F),
  (0x5799, 0x6558_6555_6554_659C_659B_65AC_65CF_65CB_65CC_65CE_665D_665A),
  (0x57A5, 0x6664_6668_6666_665E_66F9_52D7_671B_6881_68AF_68A2_6893_68B5),
  (0x57B1, 0x687F_6876_68B1_68A7_6897_68B0_6883_68C4_68AD_6886_6885_6894),
  (0x57BD, 0x689D_68A8_689F_68A1_6882_6B32_6BBA_6BEB_6BEC_6C2B_6D8E_6DBC),
  (0x57C9, 0x6DF3_6DD9_6DB2_6DE1_6DCC_6DE4_6DFB_6DFA_6E05_6DC7_6DCB_6DAF),
  (0x57D5, 0x6DD1_6DAE_6DDE_6DF9_6DB8_6DF7_6DF5_6DC5_6DD2_6E1A_6DB5_6DDA),
  (0x57E1, 0x6DEB_6DD8_6DEA_6DF1_6DEE_6DE8_6DC6_6DC4_6DAA_6DEC_6DBF_6DE6),
  (0x57ED, 0x70F9_7109_710A_70FD_70EF_723D_727D_7281_731C_731B_7316_7313),
  (0x57F9, 0x7319_7387_7405_740A_7403),
  (0x5841, 0x7406_73FE_740D_74E0_74F6_74F7_751C_7522_7565_7566_7562_7570),
  (0x584D, 0x758F_75D4_75D5_75B5_75CA_75CD_768E_76D4_76D2_76DB_7737_773E),
  (0x5859, 0x773C_7736_7738_773A_786B_7843_784E_7965_7968_796D_79FB_7A92),
  (0x5865, 0x7A95_7B20_7B28_7B1B_7B2C_7B26_7B19_7B1E_7B2E_7C92_7C97_7C95),
  (0x5871, 0x7D46_7D43_7D71_7D2E_7D39_7D3C_7D40_7D30_7D33_7D44_7D2F_7D42),
  (0x587D, 0x7D32_7D31_7F3D),
  (0x5881, 0x7F9E_7F9A_7FCC_7FCE_7FD2_801C_804A_8046_812F_8116_8123_812B),
  (0x588D, 0x8129_8130_8124_8202_8235_8237_8236_8239_838E_839E_8398_8378),
  (0x5899, 0x83A2_8396_83BD_83AB_8392_838A_8393_8389_83A0_8377_837B_837C),
  (0x58A5, 0x8386_83A7_8655_5F6A_86C7_86C0_86B6_86C4_86B5_86C6_86CB_86B1),
  (0x58B1, 0x86AF_86C9_8853_889E_8888_88AB_8892_8896_888D_888B_8993_898F),
  (0x58BD, 0x8A2A_8A1D_8A23_8A25_8A31_8A2D_8A1F_8A1B_8A22_8C49_8C5A_8CA9),
  (0x58C9, 0x8CAC_8CAB_8CA8_8CAA_8CA7_8D67_8D66_8DBE_8DBA_8EDB_8EDF_9019),
  (0x58D5, 0x900D_901A_9017_9023_901F_901D_9010_9015_901E_9020_900F_9022),
  (0x58E1, 0x9016_901B_9014_90E8_90ED_90FD_9157_91CE_91F5_91E6_91E3_91E7),
  (0x58ED, 0x91ED_91E9_9589_966A_9675_9673_9678_9670_9674_9676_9677_966C),
  (0x58F9, 0x96C0_96EA_96E9_7AE0_7ADF),
  (0x5941, 0x9802_9803_9B5A_9CE5_9E75_9E7F_9EA5_9EBB_50A2_508D_5085_5099),
  (0x594D, 0x5091_5080_5096_5098_509A_6700_51F1_5272_5274_5275_5269_52DE),
  (0x5959, 0x52DD_52DB_535A_53A5_557B_5580_55A7_557C_558A_559D_5598_5582),
  (0x5965, 0x559C_55AA_5594_5587_558B_5583_55B3_55AE_559F_553E_55B2_559A),
  (0x5971, 0x55BB_55AC_55B1_557E_5589_55AB_5599_570D_582F_582A_5834_5824),
  (0x597D, 0x5830_5831_5821),
  (0x5981, 0x581D_5820_58F9_58FA_5960_5A77_5A9A_5A7F_5A92_5A9B_5AA7_5B73),
  (0x598D, 0x5B71_5BD2_5BCC_5BD3_5BD0_5C0A_5C0B_5C31_5D4C_5D50_5D34_5D47),
  (0x5999, 0x5DFD_5E45_5E3D_5E40_5E43_5E7E_5ECA_5EC1_5EC2_5EC4_5F3C_5F6D),
  (0x59A5, 0x5FA9_5FAA_5FA8_60D1_60E1_60B2_60B6_60E0_611C_6123_60FA_6115),
  (0x59B1, 0x60F0_60FB_60F4_6168_60F1_610E_60F6_6109_6100_6112_621F_6249),
  (0x59BD, 0x63A3_638C_63CF_63C0_63E9_63C9_63C6_63CD_63D2_63E3_63D0_63E1),
  (0x59C9, 0x63D6_63ED_63EE_6376_63F4_63EA_63DB_6452_63DA_63F9_655E_6566),
  (0x59D5, 0x6562_6563_6591_6590_65AF_666E_6670_6674_6676_666F_6691_667A),
  (0x59E1, 0x667E_6677_66FE_66FF_671F_671D_68FA_68D5_68E0_68D8_68D7_6905),
  (0x59ED, 0x68DF_68F5_68EE_68E7_68F9_68D2_68F2_68E3_68CB_68CD_690D_6912),
  (0x59F9, 0x690E_68C9_68DA_696E_68FB),
  (0x5A41, 0x6B3E_6B3A_6B3D_6B98_6B96_6BBC_6BEF_6C2E_6C2F_6C2C_6E2F_6E38),
  (0x5A4D, 0x6E54_6E21_6E32_6E67_6E4A_6E20_6E25_6E23_6E1B_6E5B_6E58_6E24),
  (0x5A59, 0x6E56_6E6E_6E2D_6E26_6E6F_6E34_6E4D_6E3A_6E2C_6E43_6E1D_6E3E),
  (0x5A65, 0x6ECB_6E89_6E19_6E4E_6E63_6E44_6E72_6E69_6E5F_7119_711A_7126),
  (0x5A71, 0x7130_7121_7136_716E_711C_724C_7284_7280_7336_7325_7334_7329),
  (0x5A7D, 0x743A_742A_7433),
  (0x5A81, 0x7422_7425_7435_7436_7434_742F_741B_7426_7428_7525_7526_756B),
  (0x5A8D, 0x756A_75E2_75DB_75E3_75D9_75D8_75DE_75E0_767B_767C_7696_7693),
  (0x5A99, 0x76B4_76DC_774F_77ED_785D_786C_786F_7A0D_7A08_7A0B_7A05_7A00),
  (0x5AA5, 0x7A98_7A97_7A96_7AE5_7AE3_7B49_7B56_7B46_7B50_7B52_7B54_7B4D),
  (0x5AB1, 0x7B4B_7B4F_7B51_7C9F_7CA5_7D5E_7D50_7D68_7D55_7D2B_7D6E_7D72),
  (0x5ABD, 0x7D61_7D66_7D62_7D70_7D73_5584_7FD4_7FD5_800B_8052_8085_8155),
  (0x5AC9, 0x8154_814B_8151_814E_8139_8146_813E_814C_8153_8174_8212_821C),
  (0x5AD5, 0x83E9_8403_83F8_840D_83E0_83C5_840B_83C1_83EF_83F1_83F4_8457),
  (0x5AE1, 0x840A_83F0_840C_83CC_83FD_83F2_83CA_8438_840E_8404_83DC_8407),
  (0x5AED, 0x83D4_83DF_865B_86DF_86D9_86ED_86D4_86DB_86E4_86D0_86DE_8857),
  (0x5AF9, 0x88C1_88C2_88B1_8983_8996),
  (0x5B41, 0x8A3B_8A60_8A55_8A5E_8A3C_8A41_8A54_8A5B_8A50_8A46_8A34_8A3A),
  (0x5B4D, 0x8A36_8A56_8C61_8C82_8CAF_8CBC_8CB3_8CBD_8CC1_8CBB_8CC0_8CB4),
  (0x5B59, 0x8CB7_8CB6_8CBF_8CB8_8D8A_8D85_8D81_8DCE_8DDD_8DCB_8DDA_8DD1),
  (0x5B65, 0x8DCC_8DDB_8DC6_8EFB_8EF8_8EFC_8F9C_902E_9035_9031_9038_9032),
  (0x5B71, 0x9036_9102_90F5_9109_90FE_9163_9165_91CF_9214_9215_9223_9209),
  (0x5B7D, 0x921E_920D_9210),
  (0x5B81, 0x9207_9211_9594_958F_958B_9591_9593_9592_958E_968A_968E_968B),
  (0x5B8D, 0x967D_9685_9686_968D_9672_9684_96C1_96C5_96C4_96C6_96C7_96EF),
  (0x5B99, 0x96F2_97CC_9805_9806_9808_98E7_98EA_98EF_98E9_98F2_98ED_99AE),
  (0x5BA5, 0x99AD_9EC3_9ECD_9ED1_4E82_50AD_50B5_50B2_50B3_50C5_50BE_50AC),
  (0x5BB1, 0x50B7_50BB_50AF_50C7_527F_5277_527D_52DF_52E6_52E4_52E2_52E3),
  (0x5BBD, 0x532F_55DF_55E8_55D3_55E6_55CE_55DC_55C7_55D1_55E3_55E4_55EF),
  (0x5BC9, 0x55DA_55E1_55C5_55C6_55E5_55C9_5712_5713_585E_5851_5858_5857),
  (0x5BD5, 0x585A_5854_586B_584C_586D_584A_5862_5852_584B_5967_5AC1_5AC9),
  (0x5BE1, 0x5ACC_5ABE_5ABD_5ABC_5AB3_5AC2_5AB2_5D69_5D6F_5E4C_5E79_5EC9),
  (0x5BED, 0x5EC8_5F12_5F59_5FAC_5FAE_611A_610F_6148_611F_60F3_611B_60F9),
  (0x5BF9, 0x6101_6108_614E_614C_6144),
  (0x5C41, 0x614D_613E_6134_6127_610D_6106_6137_6221_6222_6413_643E_641E),
  (0x5C4D, 0x642A_642D_643D_642C_640F_641C_6414_640D_6436_6416_6417_6406),
  (0x5C59, 0x656C_659F_65B0_6697_6689_6687_6688_6696_6684_6698_668D_6703),
  (0x5C65, 0x6994_696D_695A_6977_6960_6954_6975_6930_6982_694A_6968_696B),
  (0x5C71, 0x695E_6953_6979_6986_695D_6963_695B_6B47_6B72_6BC0_6BBF_6BD3),
  (0x5C7D, 0x6BFD_6EA2_6EAF),
  (0x5C81, 0x6ED3_6EB6_6EC2_6E90_6E9D_6EC7_6EC5_6EA5_6E98_6EBC_6EBA_6EAB),
  (0x5C8D, 0x6ED1_6E96_6E9C_6EC4_6ED4_6EAA_6EA7_6EB4_714E_7159_7169_7164),
  (0x5C99, 0x7149_7167_715C_716C_7166_714C_7165_715E_7146_7168_7156_723A),
  (0x5CA5, 0x7252_7337_7345_733F_733E_746F_745A_7455_745F_745E_7441_743F),
  (0x5CB1, 0x7459_745B_745C_7576_7578_7600_75F0_7601_75F2_75F1_75FA_75FF),
  (0x5CBD, 0x75F4_75F3_76DE_76DF_775B_776B_7766_775E_7763_7779_776A_776C),
  (0x5CC9, 0x775C_7765_7768_7762_77EE_788E_78B0_7897_7898_788C_7889_787C),
  (0x5CD5, 0x7891_7893_787F_797A_797F_7981_842C_79BD_7A1C_7A1A_7A20_7A14),
  (0x5CE1, 0x7A1F_7A1E_7A9F_7AA0_7B77_7BC0_7B60_7B6E_7B67_7CB1_7CB3_7CB5),
  (0x5CED, 0x7D93_7D79_7D91_7D81_7D8F_7D5B_7F6E_7F69_7F6A_7F72_7FA9_7FA8),
  (0x5CF9, 0x7FA4_8056_8058_8086_8084),
  (0x5D41, 0x8171_8170_8178_8165_816E_8173_816B_8179_817A_8166_8205_8247),
  (0x5D4D, 0x8482_8477_843D_8431_8475_8466_846B_8449_846C_845B_843C_8435),
  (0x5D59, 0x8461_8463_8469_846D_8446_865E_865C_865F_86F9_8713_8708_8707),
  (0x5D65, 0x8700_86FE_86FB_8702_8703_8706_870A_8859_88DF_88D4_88D9_88DC),
  (0x5D71, 0x88D8_88DD_88E1_88CA_88D5_88D2_899C_89E3_8A6B_8A72_8A73_8A66),
  (0x5D7D, 0x8A69_8A70_8A87),
  (0x5D81, 0x8A7C_8A63_8AA0_8A71_8A85_8A6D_8A62_8A6E_8A6C_8A79_8A7B_8A3E),
  (0x5D8D, 0x8A68_8C62_8C8A_8C89_8CCA_8CC7_8CC8_8CC4_8CB2_8CC3_8CC2_8CC5),
  (0x5D99, 0x8DE1_8DDF_8DE8_8DEF_8DF3_8DFA_8DEA_8DE4_8DE6_8EB2_8F03_8F09),
  (0x5DA5, 0x8EFE_8F0A_8F9F_8FB2_904B_904A_9053_9042_9054_903C_9055_9050),
  (0x5DB1, 0x9047_904F_904E_904D_9051_903E_9041_9112_9117_916C_916A_9169),
  (0x5DBD, 0x91C9_9237_9257_9238_923D_9240_923E_925B_924B_9264_9251_9234),
  (0x5DC9, 0x9249_924D_9245_9239_923F_925A_9598_9698_9694_9695_96CD_96CB),
  (0x5DD5, 0x96C9_96CA_96F7_96FB_96F9_96F6_9756_9774_9776_9810_9811_9813),
  (0x5DE1, 0x980A_9812_980C_98FC_98F4_98FD_98FE_99B3_99B1_99B4_9AE1_9CE9),
  (0x5DED, 0x9E82_9F0E_9F13_9F20_50E7_50EE_50E5_50D6_50ED_50DA_50D5_50CF),
  (0x5DF9, 0x50D1_50F1_50CE_50E9_5162),
  (0x5E41, 0x51F3_5283_5282_5331_53AD_55FE_5600_561B_5617_55FD_5614_5606),
  (0x5E4D, 0x5609_560D_560E_55F7_5616_561F_5608_5610_55F6_5718_5716_5875),
  (0x5E59, 0x587E_5883_5893_588A_5879_5885_587D_58FD_5925_5922_5924_596A),
  (0x5E65, 0x5969_5AE1_5AE6_5AE9_5AD7_5AD6_5AD8_5AE3_5B75_5BDE_5BE7_5BE1),
  (0x5E71, 0x5BE5_5BE6_5BE8_5BE2_5BE4_5BDF_5C0D_5C62_5D84_5D87_5E5B_5E63),
  (0x5E7D, 0x5E55_5E57_5E54),
  (0x5E81, 0x5ED3_5ED6_5F0A_5F46_5F70_5FB9_6147_613F_614B_6177_6162_6163),
  (0x5E8D, 0x615F_615A_6158_6175_622A_6487_6458_6454_64A4_6478_645F_647A),
  (0x5E99, 0x6451_6467_6434_646D_647B_6572_65A1_65D7_65D6_66A2_66A8_669D),
  (0x5EA5, 0x699C_69A8_6995_69C1_69AE_69D3_69CB_699B_69B7_69BB_69AB_69B4),
  (0x5EB1, 0x69D0_69CD_69AD_69CC_69A6_69C3_69A3_6B49_6B4C_6C33_6F33_6F14),
  (0x5EBD, 0x6EFE_6F13_6EF4_6F29_6F3E_6F20_6F2C_6F0F_6F02_6F22_6EFF_6EEF),
  (0x5EC9, 0x6F06_6F31_6F38_6F32_6F23_6F15_6F2B_6F2F_6F88_6F2A_6EEC_6F01),
  (0x5ED5, 0x6EF2_6ECC_6EF7_7194_7199_717D_718A_7184_7192_723E_7292_7296),
  (0x5EE1, 0x7344_7350_7464_7463_746A_7470_746D_7504_7591_7627_760D_760B),
  (0x5EED, 0x7609_7613_76E1_76E3_7784_777D_777F_7761_78C1_789F_78A7_78B3),
  (0x5EF9, 0x78A9_78A3_798E_798F_798D),
  (0x5F41, 0x7A2E_7A31_7AAA_7AA9_7AED_7AEF_7BA1_7B95_7B8B_7B75_7B97_7B9D),
  (0x5F4D, 0x7B94_7B8F_7BB8_7B87_7B84_7CB9_7CBD_7CBE_7DBB_7DB0_7D9C_7DBD),
  (0x5F59, 0x7DBE_7DA0_7DCA_7DB4_7DB2_7DB1_7DBA_7DA2_7DBF_7DB5_7DB8_7DAD),
  (0x5F65, 0x7DD2_7DC7_7DAC_7F70_7FE0_7FE1_7FDF_805E_805A_8087_8150_8180),
  (0x5F71, 0x818F_8188_818A_817F_8182_81E7_81FA_8207_8214_821E_824B_84C9),
  (0x5F7D, 0x84BF_84C6_84C4),
  (0x5F81, 0x8499_849E_84B2_849C_84CB_84B8_84C0_84D3_8490_84BC_84D1_84CA),
  (0x5F8D, 0x873F_871C_873B_8722_8725_8734_8718_8755_8737_8729_88F3_8902),
  (0x5F99, 0x88F4_88F9_88F8_88FD_88E8_891A_88EF_8AA6_8A8C_8A9E_8AA3_8A8D),
  (0x5FA5, 0x8AA1_8A93_8AA4_8AAA_8AA5_8AA8_8A98_8A91_8A9A_8AA7_8C6A_8C8D),
  (0x5FB1, 0x8C8C_8CD3_8CD1_8CD2_8D6B_8D99_8D95_8DFC_8F14_8F12_8F15_8F13),
  (0x5FBD, 0x8FA3_9060_9058_905C_9063_9059_905E_9062_905D_905B_9119_9118),
  (0x5FC9, 0x911E_9175_9178_9177_9174_9278_9280_9285_9298_9296_927B_9293),
  (0x5FD5, 0x929C_92A8_927C_9291_95A1_95A8_95A9_95A3_95A5_95A4_9699_969C),
  (0x5FE1, 0x969B_96CC_96D2_9700_977C_9785_97F6_9817_9818_98AF_98B1_9903),
  (0x5FED, 0x9905_990C_9909_99C1_9AAF_9AB0_9AE6_9B41_9B42_9CF4_9CF6_9CF3),
  (0x5FF9, 0x9EBC_9F3B_9F4A_5104_5100),
  (0x6041, 0x50FB_50F5_50F9_5102_5108_5109_5105_51DC_5287_5288_5289_528D),
  (0x604D, 0x528A_52F0_53B2_562E_563B_5639_5632_563F_5634_5629_5653_564E),
  (0x6059, 0x5657_5674_5636_562F_5630_5880_589F_589E_58B3_589C_58AE_58A9),
  (0x6065, 0x58A6_596D_5B09_5AFB_5B0B_5AF5_5B0C_5B08_5BEE_5BEC_5BE9_5BEB),
  (0x6071, 0x5C64_5C65_5D9D_5D94_5E62_5E5F_5E61_5EE2_5EDA_5EDF_5EDD_5EE3),
  (0x607D, 0x5EE0_5F48_5F71),
  (0x6081, 0x5FB7_5FB5_6176_6167_616E_615D_6155_6182_617C_6170_616B_617E),
  (0x608D, 0x61A7_6190_61AB_618E_61AC_619A_61A4_6194_61AE_622E_6469_646F),
  (0x6099, 0x6479_649E_64B2_6488_6490_64B0_64A5_6493_6495_64A9_6492_64AE),
  (0x60A5, 0x64AD_64AB_649A_64AC_6499_64A2_64B3_6575_6577_6578_66AE_66AB),
  (0x60B1, 0x66B4_66B1_6A23_6A1F_69E8_6A01_6A1E_6A19_69FD_6A21_6A13_6A0A),
  (0x60BD, 0x69F3_6A02_6A05_69ED_6A11_6B50_6B4E_6BA4_6BC5_6BC6_6F3F_6F7C),
  (0x60C9, 0x6F84_6F51_6F66_6F54_6F86_6F6D_6F5B_6F78_6F6E_6F8E_6F7A_6F70),
  (0x60D5, 0x6F64_6F97_6F58_6ED5_6F6F_6F60_6F5F_719F_71AC_71B1_71A8_7256),
  (0x60E1, 0x729B_734E_7357_7469_748B_7483_747E_7480_757F_7620_7629_761F),
  (0x60ED, 0x7624_7626_7621_7622_769A_76BA_76E4_778E_7787_778C_7791_778B),
  (0x60F9, 0x78CB_78C5_78BA_78CA_78BE),
  (0x6141, 0x78D5_78BC_78D0_7A3F_7A3C_7A40_7A3D_7A37_7A3B_7AAF_7AAE_7BAD),
  (0x614D, 0x7BB1_7BC4_7BB4_7BC6_7BC7_7BC1_7BA0_7BCC_7CCA_7DE0_7DF4_7DEF),
  (0x6159, 0x7DFB_7DD8_7DEC_7DDD_7DE8_7DE3_7DDA_7DDE_7DE9_7D9E_7DD9_7DF2),
  (0x6165, 0x7DF9_7F75_7F77_7FAF_7FE9_8026_819B_819C_819D_81A0_819A_8198),
  (0x6171, 0x8517_853D_851A_84EE_852C_852D_8513_8511_8523_8521_8514_84EC),
  (0x617D, 0x8525_84FF_8506),
  (0x6181, 0x8782_8774_8776_8760_8766_8778_8768_8759_8757_874C_8753_885B),
  (0x618D, 0x885D_8910_8907_8912_8913_8915_890A_8ABC_8AD2_8AC7_8AC4_8A95),
  (0x6199, 0x8ACB_8AF8_8AB2_8AC9_8AC2_8ABF_8AB0_8AD6_8ACD_8AB6_8AB9_8ADB),
  (0x61A5, 0x8C4C_8C4E_8C6C_8CE0_8CDE_8CE6_8CE4_8CEC_8CED_8CE2_8CE3_8CDC),
  (0x61B1, 0x8CEA_8CE1_8D6D_8D9F_8DA3_8E2B_8E10_8E1D_8E22_8E0F_8E29_8E1F),
  (0x61BD, 0x8E21_8E1E_8EBA_8F1D_8F1B_8F1F_8F29_8F26_8F2A_8F1C_8F1E_8F25),
  (0x61C9, 0x9069_906E_9068_906D_9077_9130_912D_9127_9131_9187_9189_918B),
  (0x61D5, 0x9183_92C5_92BB_92B7_92EA_92AC_92E4_92C1_92B3_92BC_92D2_92C7),
  (0x61E1, 0x92F0_92B2_95AD_95B1_9704_9706_9707_9709_9760_978D_978B_978F),
  (0x61ED, 0x9821_982B_981C_98B3_990A_9913_9912_9918_99DD_99D0_99DF_99DB),
  (0x61F9, 0x99D1_99D5_99D2_99D9_9AB7),
  (0x6241, 0x9AEE_9AEF_9B27_9B45_9B44_9B77_9B6F_9D06_9D09_9D03_9EA9_9EBE),
  (0x624D, 0x9ECE_58A8_9F52_5112_5118_5114_5110_5115_5180_51AA_51DD_5291),
  (0x6259, 0x5293_52F3_5659_566B_5679_5669_5664_5678_566A_5668_5665_5671),
  (0x6265, 0x566F_566C_5662_5676_58C1_58BE_58C7_58C5_596E_5B1D_5B34_5B78),
  (0x6271, 0x5BF0_5C0E_5F4A_61B2_6191_61A9_618A_61CD_61B6_61BE_61CA_61C8),
  (0x627D, 0x6230_64C5_64C1),
  (0x6281, 0x64CB_64BB_64BC_64DA_64C4_64C7_64C2_64CD_64BF_64D2_64D4_64BE),
  (0x628D, 0x6574_66C6_66C9_66B9_66C4_66C7_66B8_6A3D_6A38_6A3A_6A59_6A6B),
  (0x6299, 0x6A58_6A39_6A44_6A62_6A61_6A4B_6A47_6A35_6A5F_6A48_6B59_6B77),
  (0x62A5, 0x6C05_6FC2_6FB1_6FA1_6FC3_6FA4_6FC1_6FA7_6FB3_6FC0_6FB9_6FB6),
  (0x62B1, 0x6FA6_6FA0_6FB4_71BE_71C9_71D0_71D2_71C8_71D5_71B9_71CE_71D9),
  (0x62BD, 0x71DC_71C3_71C4_7368_749C_74A3_7498_749F_749E_74E2_750C_750D),
  (0x62C9, 0x7634_7638_763A_76E7_76E5_77A0_779E_779F_77A5_78E8_78DA_78EC),
  (0x62D5, 0x78E7_79A6_7A4D_7A4E_7A46_7A4C_7A4B_7ABA_7BD9_7C11_7BC9_7BE4),
  (0x62E1, 0x7BDB_7BE1_7BE9_7BE6_7CD5_7CD6_7E0A_7E11_7E08_7E1B_7E23_7E1E),
  (0x62ED, 0x7E1D_7E09_7E10_7F79_7FB2_7FF0_7FF1_7FEE_8028_81B3_81A9_81A8),
  (0x62F9, 0x81FB_8208_8258_8259_854A),
  (0x6341, 0x8559_8548_8568_8569_8543_8549_856D_856A_855E_8783_879F_879E),
  (0x634D, 0x87A2_878D_8861_892A_8932_8925_892B_8921_89AA_89A6_8AE6_8AFA),
  (0x6359, 0x8AEB_8AF1_8B00_8ADC_8AE7_8AEE_8AFE_8B01_8B02_8AF7_8AED_8AF3),
  (0x6365, 0x8AF6_8AFC_8C6B_8C6D_8C93_8CF4_8E44_8E31_8E34_8E42_8E39_8E35),
  (0x6371, 0x8F3B_8F2F_8F38_8F33_8FA8_8FA6_9075_9074_9078_9072_907C_907A),
  (0x637D, 0x9134_9192_9320),
  (0x6381, 0x9336_92F8_9333_932F_9322_92FC_932B_9304_931A_9310_9326_9321),
  (0x638D, 0x9315_932E_9319_95BB_96A7_96A8_96AA_96D5_970E_9711_9716_970D),
  (0x6399, 0x9713_970F_975B_975C_9766_9798_9830_9838_983B_9837_982D_9839),
  (0x63A5, 0x9824_9910_9928_991E_991B_9921_991A_99ED_99E2_99F1_9AB8_9ABC),
  (0x63B1, 0x9AFB_9AED_9B28_9B91_9D15_9D23_9D26_9D28_9D12_9D1B_9ED8_9ED4),
  (0x63BD, 0x9F8D_9F9C_512A_511F_5121_5132_52F5_568E_5680_5690_5685_5687),
  (0x63C9, 0x568F_58D5_58D3_58D1_58CE_5B30_5B2A_5B24_5B7A_5C37_5C68_5DBC),
  (0x63D5, 0x5DBA_5DBD_5DB8_5E6B_5F4C_5FBD_61C9_61C2_61C7_61E6_61CB_6232),
  (0x63E1, 0x6234_64CE_64CA_64D8_64E0_64F0_64E6_64EC_64F1_64E2_64ED_6582),
  (0x63ED, 0x6583_66D9_66D6_6A80_6A94_6A84_6AA2_6A9C_6ADB_6AA3_6A7E_6A97),
  (0x63F9, 0x6A90_6AA0_6B5C_6BAE_6BDA),
  (0x6441, 0x6C08_6FD8_6FF1_6FDF_6FE0_6FDB_6FE4_6FEB_6FEF_6F80_6FEC_6FE1),
  (0x644D, 0x6FE9_6FD5_6FEE_6FF0_71E7_71DF_71EE_71E6_71E5_71ED_71EC_71F4),
  (0x6459, 0x71E0_7235_7246_7370_7372_74A9_74B0_74A6_74A8_7646_7642_764C),
  (0x6465, 0x76EA_77B3_77AA_77B0_77AC_77A7_77AD_77EF_78F7_78FA_78F4_78EF),
  (0x6471, 0x7901_79A7_79AA_7A57_7ABF_7C07_7C0D_7BFE_7BF7_7C0C_7BE0_7CE0),
  (0x647D, 0x7CDC_7CDE_7CE2),
  (0x6481, 0x7CDF_7CD9_7CDD_7E2E_7E3E_7E46_7E37_7E32_7E43_7E2B_7E3D_7E31),
  (0x648D, 0x7E45_7E41_7E34_7E39_7E48_7E35_7E3F_7E2F_7F44_7FF3_7FFC_8071),
  (0x6499, 0x8072_8070_806F_8073_81C6_81C3_81BA_81C2_81C0_81BF_81BD_81C9),
  (0x64A5, 0x81BE_81E8_8209_8271_85AA_8584_857E_859C_8591_8594_85AF_859B),
  (0x64B1, 0x8587_85A8_858A_8667_87C0_87D1_87B3_87D2_87C6_87AB_87BB_87BA),
  (0x64BD, 0x87C8_87CB_893B_8936_8944_8938_893D_89AC_8B0E_8B17_8B19_8B1B),
  (0x64C9, 0x8B0A_8B20_8B1D_8B04_8B10_8C41_8C3F_8C73_8CFA_8CFD_8CFC_8CF8),
  (0x64D5, 0x8CFB_8DA8_8E49_8E4B_8E48_8E4A_8F44_8F3E_8F42_8F45_8F3F_907F),
  (0x64E1, 0x907D_9084_9081_9082_9080_9139_91A3_919E_919C_934D_9382_9328),
  (0x64ED, 0x9375_934A_9365_934B_9318_937E_936C_935B_9370_935A_9354_95CA),
  (0x64F9, 0x95CB_95CC_95C8_95C6_96B1),
  (0x6541, 0x96B8_96D6_971C_971E_97A0_97D3_9846_98B6_9935_9A01_99FF_9BAE),
  (0x654D, 0x9BAB_9BAA_9BAD_9D3B_9D3F_9E8B_9ECF_9EDE_9EDC_9EDD_9EDB_9F3E),
  (0x6559, 0x9F4B_53E2_5695_56AE_58D9_58D8_5B38_5F5D_61E3_6233_64F4_64F2),
  (0x6565, 0x64FE_6506_64FA_64FB_64F7_65B7_66DC_6726_6AB3_6AAC_6AC3_6ABB),
  (0x6571, 0x6AB8_6AC2_6AAE_6AAF_6B5F_6B78_6BAF_7009_700B_6FFE_7006_6FFA),
  (0x657D, 0x7011_700F_71FB),
  (0x6581, 0x71FC_71FE_71F8_7377_7375_74A7_74BF_7515_7656_7658_7652_77BD),
  (0x658D, 0x77BF_77BB_77BC_790E_79AE_7A61_7A62_7A60_7AC4_7AC5_7C2B_7C27),
  (0x6599, 0x7C2A_7C1E_7C23_7C21_7CE7_7E54_7E55_7E5E_7E5A_7E61_7E52_7E59),
  (0x65A5, 0x7F48_7FF9_7FFB_8077_8076_81CD_81CF_820A_85CF_85A9_85CD_85D0),
  (0x65B1, 0x85C9_85B0_85BA_85B9_85A6_87EF_87EC_87F2_87E0_8986_89B2_89F4),
  (0x65BD, 0x8B28_8B39_8B2C_8B2B_8C50_8D05_8E59_8E63_8E66_8E64_8E5F_8E55),
  (0x65C9, 0x8EC0_8F49_8F4D_9087_9083_9088_91AB_91AC_91D0_9394_938A_9396),
  (0x65D5, 0x93A2_93B3_93AE_93AC_93B0_9398_939A_9397_95D4_95D6_95D0_95D5),
  (0x65E1, 0x96E2_96DC_96D9_96DB_96DE_9724_97A3_97A6_97AD_97F9_984D_984F),
  (0x65ED, 0x984C_984E_9853_98BA_993E_993F_993D_992E_99A5_9A0E_9AC1_9B03),
  (0x65F9, 0x9B06_9B4F_9B4E_9B4D_9BCA),
  (0x6641, 0x9BC9_9BFD_9BC8_9BC0_9D51_9D5D_9D60_9EE0_9F15_9F2C_5133_56A5),
  (0x664D, 0x58DE_58DF_58E2_5BF5_9F90_5EEC_61F2_61F7_61F6_61F5_6500_650F),
  (0x6659, 0x66E0_66DD_6AE5_6ADD_6ADA_6AD3_701B_701F_7028_701A_701D_7015),
  (0x6665, 0x7018_7206_720D_7258_72A2_7378_737A_74BD_74CA_74E3_7587_7586),
  (0x6671, 0x765F_7661_77C7_7919_79B1_7A6B_7A69_7C3E_7C3F_7C38_7C3D_7C37),
  (0x667D, 0x7C40_7E6B_7E6D),
  (0x6681, 0x7E79_7E69_7E6A_7F85_7E73_7FB6_7FB9_7FB8_81D8_85E9_85DD_85EA),
  (0x668D, 0x85D5_85E4_85E5_85F7_87FB_8805_880D_87F9_87FE_8960_895F_8956),
  (0x6699, 0x895E_8B41_8B5C_8B58_8B49_8B5A_8B4E_8B4F_8B46_8B59_8D08_8D0A),
  (0x66A5, 0x8E7C_8E72_8E87_8E76_8E6C_8E7A_8E74_8F54_8F4E_8FAD_908A_908B),
  (0x66B1, 0x91B1_91AE_93E1_93D1_93DF_93C3_93C8_93DC_93DD_93D6_93E2_93CD),
  (0x66BD, 0x93D8_93E4_93D7_93E8_95DC_96B4_96E3_972A_9727_9761_97DC_97FB),
  (0x66C9, 0x985E_9858_985B_98BC_9945_9949_9A16_9A19_9B0D_9BE8_9BE7_9BD6),
  (0x66D5, 0x9BDB_9D89_9D61_9D72_9D6A_9D6C_9E92_9E97_9E93_9EB4_52F8_56A8),
  (0x66E1, 0x56B7_56B6_56B4_56BC_58E4_5B40_5B43_5B7D_5BF6_5DC9_61F8_61FA),
  (0x66ED, 0x6518_6514_6519_66E6_6727_6AEC_703E_7030_7032_7210_737B_74CF),
  (0x66F9, 0x7662_7665_7926_792A_792C),
  (0x6741, 0x792B_7AC7_7AF6_7C4C_7C43_7C4D_7CEF_7CF0_8FAE_7E7D_7E7C_7E82),
  (0x674D, 0x7F4C_8000_81DA_8266_85FB_85F9_8611_85FA_8606_860B_8607_860A),
  (0x6759, 0x8814_8815_8964_89BA_89F8_8B70_8B6C_8B66_8B6F_8B5F_8B6B_8D0F),
  (0x6765, 0x8D0D_8E89_8E81_8E85_8E82_91B4_91CB_9418_9403_93FD_95E1_9730),
  (0x6771, 0x98C4_9952_9951_99A8_9A2B_9A30_9A37_9A35_9C13_9C0D_9E79_9EB5),
  (0x677D, 0x9EE8_9F2F_9F5F),
  (0x6781, 0x9F63_9F61_5137_5138_56C1_56C0_56C2_5914_5C6C_5DCD_61FC_61FE),
  (0x678D, 0x651D_651C_6595_66E9_6AFB_6B04_6AFA_6BB2_704C_721B_72A7_74D6),
  (0x6799, 0x74D4_7669_77D3_7C50_7E8F_7E8C_7FBC_8617_862D_861A_8823_8822),
  (0x67A5, 0x8821_881F_896A_896C_89BD_8B74_8B77_8B7D_8D13_8E8A_8E8D_8E8B),
  (0x67B1, 0x8F5F_8FAF_91BA_942E_9433_9435_943A_9438_9432_942B_95E2_9738),
  (0x67BD, 0x9739_9732_97FF_9867_9865_9957_9A45_9A43_9A40_9A3E_9ACF_9B54),
  (0x67C9, 0x9B51_9C2D_9C25_9DAF_9DB4_9DC2_9DB8_9E9D_9EEF_9F19_9F5C_9F66),
  (0x67D5, 0x9F67_513C_513B_56C8_56CA_56C9_5B7F_5DD4_5DD2_5F4E_61FF_6524),
  (0x67E1, 0x6B0A_6B61_7051_7058_7380_74E4_758A_766E_766C_79B3_7C60_7C5F),
  (0x67ED, 0x807E_807D_81DF_8972_896F_89FC_8B80_8D16_8D17_8E91_8E93_8F61),
  (0x67F9, 0x9148_9444_9451_9452_973D),
  (0x6841, 0x973E_97C3_97C1_986B_9955_9A55_9A4D_9AD2_9B1A_9C49_9C31_9C3E),
  (0x684D, 0x9C3B_9DD3_9DD7_9F34_9F6C_9F6A_9F94_56CC_5DD6_6200_6523_652B),
  (0x6859, 0x652A_66EC_6B10_74DA_7ACA_7C64_7C63_7C65_7E93_7E96_7E94_81E2),
  (0x6865, 0x8638_863F_8831_8B8A_9090_908F_9463_9460_9464_9768_986F_995C),
  (0x6871, 0x9A5A_9A5B_9A57_9AD3_9AD4_9AD1_9C54_9C57_9C56_9DE5_9E9F_9EF4),
  (0x687D, 0x56D1_58E9_652C),
  (0x6881, 0x705E_7671_7672_77D7_7F50_7F88_8836_8839_8862_8B93_8B92_8B96),
  (0x688D, 0x8277_8D1B_91C0_946A_9742_9748_9744_97C6_9870_9A5F_9B22_9B58),
  (0x6899, 0x9C5F_9DF9_9DFA_9E7C_9E7D_9F07_9F77_9F72_5EF3_6B16_7063_7C6C),
  (0x68A5, 0x7C6E_883B_89C0_8EA1_91C1_9472_9470_9871_995E_9AD6_9B23_9ECC),
  (0x68B1, 0x7064_77DA_8B9A_9477_97C9_9A62_9A65_7E9C_8B9C_8EAA_91C5_947D),
  (0x68BD, 0x947E_947C_9C77_9C78_9EF7_8C54_947F_9E1A_7228_9A6A_9B31_9E1B),
  (0x68C9, 0x9E1E_7C72_6491),
  (0x6941, 0x4E42_4E5C_51F5_531A_5382_4E07_4E0C_4E47_4E8D_56D7_FA0C_5C6E),
  (0x694D, 0x5F73_4E0F_5187_4E0E_4E2E_4E93_4EC2_4EC9_4EC8_5198_52FC_536C),
  (0x6959, 0x53B9_5720_5903_592C_5C10_5DFF_65E1_6BB3_6BCC_6C14_723F_4E31),
  (0x6965, 0x4E3C_4EE8_4EDC_4EE9_4EE1_4EDD_4EDA_520C_531C_534C_5722_5723),
  (0x6971, 0x5917_592F_5B81_5B84_5C12_5C3B_5C74_5C73_5E04_5E80_5E82_5FC9),
  (0x697D, 0x6209_6250_6C15),
  (0x6981, 0x6C36_6C43_6C3F_6C3B_72AE_72B0_738A_79B8_808A_961E_4F0E_4F18),
  (0x698D, 0x4F2C_4EF5_4F14_4EF1_4F00_4EF7_4F08_4F1D_4F02_4F05_4F22_4F13),
  (0x6999, 0x4F04_4EF4_4F12_51B1_5213_5209_5210_52A6_5322_531F_534D_538A),
  (0x69A5, 0x5407_56E1_56DF_572E_572A_5734_593C_5980_597C_5985_597B_597E),
  (0x69B1, 0x5977_597F_5B56_5C15_5C25_5C7C_5C7A_5C7B_5C7E_5DDF_5E75_5E84),
  (0x69BD, 0x5F02_5F1A_5F74_5FD5_5FD4_5FCF_6265_625C_625E_6264_6261_6266),
  (0x69C9, 0x6262_6259_6260_625A_65EF_65EE_673E_6739_6738_673B_673A_673F),
  (0x69D5, 0x673C_6733_6C18_6C46_6C52_6C5C_6C4F_6C4A_6C54_6C4B_6C4C_7071),
  (0x69E1, 0x725E_72B4_72B5_738E_752A_767F_7A75_7F51_8278_827C_8280_827D),
  (0x69ED, 0x827F_864D_897E_9099_9097_9098_909B_9094_9622_9624_9620_9623),
  (0x69F9, 0x4F56_4F3B_4F62_4F49_4F53),
  (0x6A41, 0x4F64_4F3E_4F67_4F52_4F5F_4F41_4F58_4F2D_4F33_4F3F_4F61_518F),
  (0x6A4D, 0x51B9_521C_521E_5221_52AD_52AE_5309_5363_5372_538E_538F_5430),
  (0x6A59, 0x5437_542A_5454_5445_5419_541C_5425_5418_543D_544F_5441_5428),
  (0x6A65, 0x5424_5447_56EE_56E7_56E5_5741_5745_574C_5749_574B_5752_5906),
  (0x6A71, 0x5940_59A6_5998_59A0_5997_598E_59A2_5990_598F_59A7_59A1_5B8E),
  (0x6A7D, 0x5B92_5C28_5C2A),
  (0x6A81, 0x5C8D_5C8F_5C88_5C8B_5C89_5C92_5C8A_5C86_5C93_5C95_5DE0_5E0A),
  (0x6A8D, 0x5E0E_5E8B_5E89_5E8C_5E88_5E8D_5F05_5F1D_5F78_5F76_5FD2_5FD1),
  (0x6A99, 0x5FD0_5FED_5FE8_5FEE_5FF3_5FE1_5FE4_5FE3_5FFA_5FEF_5FF7_5FFB),
  (0x6AA5, 0x6000_5FF4_623A_6283_628C_628E_628F_6294_6287_6271_627B_627A),
  (0x6AB1, 0x6270_6281_6288_6277_627D_6272_6274_6537_65F0_65F4_65F3_65F2),
  (0x6ABD, 0x65F5_6745_6747_6759_6755_674C_6748_675D_674D_675A_674B_6BD0),
  (0x6AC9, 0x6C19_6C1A_6C78_6C67_6C6B_6C84_6C8B_6C8F_6C71_6C6F_6C69_6C9A),
  (0x6AD5, 0x6C6D_6C87_6C95_6C9C_6C66_6C73_6C65_6C7B_6C8E_7074_707A_7263),
  (0x6AE1, 0x72BF_72BD_72C3_72C6_72C1_72BA_72C5_7395_7397_7393_7394_7392),
  (0x6AED, 0x753A_7539_7594_7595_7681_793D_8034_8095_8099_8090_8092_809C),
  (0x6AF9, 0x8290_828F_8285_828E_8291),
  (0x6B41, 0x8293_828A_8283_8284_8C78_8FC9_8FBF_909F_90A1_90A5_909E_90A7),
  (0x6B4D, 0x90A0_9630_9628_962F_962D_4E33_4F98_4F7C_4F85_4F7D_4F80_4F87),
  (0x6B59, 0x4F76_4F74_4F89_4F84_4F77_4F4C_4F97_4F6A_4F9A_4F79_4F81_4F78),
  (0x6B65, 0x4F90_4F9C_4F94_4F9E_4F92_4F82_4F95_4F6B_4F6E_519E_51BC_51BE),
  (0x6B71, 0x5235_5232_5233_5246_5231_52BC_530A_530B_533C_5392_5394_5487),
  (0x6B7D, 0x547F_5481_5491),
  (0x6B81, 0x5482_5488_546B_547A_547E_5465_546C_5474_5466_548D_546F_5461),
  (0x6B8D, 0x5460_5498_5463_5467_5464_56F7_56F9_576F_5772_576D_576B_5771),
  (0x6B99, 0x5770_5776_5780_5775_577B_5773_5774_5762_5768_577D_590C_5945),
  (0x6BA5, 0x59B5_59BA_59CF_59CE_59B2_59CC_59C1_59B6_59BC_59C3_59D6_59B1),
  (0x6BB1, 0x59BD_59C0_59C8_59B4_59C7_5B62_5B65_5B93_5B95_5C44_5C47_5CAE),
  (0x6BBD, 0x5CA4_5CA0_5CB5_5CAF_5CA8_5CAC_5C9F_5CA3_5CAD_5CA2_5CAA_5CA7),
  (0x6BC9, 0x5C9D_5CA5_5CB6_5CB0_5CA6_5E17_5E14_5E19_5F28_5F22_5F23_5F24),
  (0x6BD5, 0x5F54_5F82_5F7E_5F7D_5FDE_5FE5_602D_6026_6019_6032_600B_6034),
  (0x6BE1, 0x600A_6017_6033_601A_601E_602C_6022_600D_6010_602E_6013_6011),
  (0x6BED, 0x600C_6009_601C_6214_623D_62AD_62B4_62D1_62BE_62AA_62B6_62CA),
  (0x6BF9, 0x62AE_62B3_62AF_62BB_62A9),
  (0x6C41, 0x62B0_62B8_653D_65A8_65BB_6609_65FC_6604_6612_6608_65FB_6603),
  (0x6C4D, 0x660B_660D_6605_65FD_6611_6610_66F6_670A_6785_676C_678E_6792),
  (0x6C59, 0x6776_677B_6798_6786_6784_6774_678D_678C_677A_679F_6791_6799),
  (0x6C65, 0x6783_677D_6781_6778_6779_6794_6B25_6B80_6B7E_6BDE_6C1D_6C93),
  (0x6C71, 0x6CEC_6CEB_6CEE_6CD9_6CB6_6CD4_6CAD_6CE7_6CB7_6CD0_6CC2_6CBA),
  (0x6C7D, 0x6CC3_6CC6_6CED),
  (0x6C81, 0x6CF2_6CD2_6CDD_6CB4_6C8A_6C9D_6C80_6CDE_6CC0_6D30_6CCD_6CC7),
  (0x6C8D, 0x6CB0_6CF9_6CCF_6CE9_6CD1_7094_7098_7085_7093_7086_7084_7091),
  (0x6C99, 0x7096_7082_709A_7083_726A_72D6_72CB_72D8_72C9_72DC_72D2_72D4),
  (0x6CA5, 0x72DA_72CC_72D1_73A4_73A1_73AD_73A6_73A2_73A0_73AC_739D_74DD),
  (0x6CB1, 0x74E8_753F_7540_753E_758C_7598_76AF_76F3_76F1_76F0_76F5_77F8),
  (0x6CBD, 0x77FC_77F9_77FB_77FA_77F7_7942_793F_79C5_7A78_7A7B_7AFB_7C75),
  (0x6CC9, 0x7CFD_8035_808F_80AE_80A3_80B8_80B5_80AD_8220_82A0_82C0_82AB),
  (0x6CD5, 0x829A_8298_829B_82B5_82A7_82AE_82BC_829E_82BA_82B4_82A8_82A1),
  (0x6CE1, 0x82A9_82C2_82A4_82C3_82B6_82A2_8670_866F_866D_866E_8C56_8FD2),
  (0x6CED, 0x8FCB_8FD3_8FCD_8FD6_8FD5_8FD7_90B2_90B4_90AF_90B3_90B0_9639),
  (0x6CF9, 0x963D_963C_963A_9643_4FCD),
  (0x6D41, 0x4FC5_4FD3_4FB2_4FC9_4FCB_4FC1_4FD4_4FDC_4FD9_4FBB_4FB3_4FDB),
  (0x6D4D, 0x4FC7_4FD6_4FBA_4FC0_4FB9_4FEC_5244_5249_52C0_52C2_533D_537C),
  (0x6D59, 0x5397_5396_5399_5398_54BA_54A1_54AD_54A5_54CF_54C3_830D_54B7),
  (0x6D65, 0x54AE_54D6_54B6_54C5_54C6_54A0_5470_54BC_54A2_54BE_5472_54DE),
  (0x6D71, 0x54B0_57B5_579E_579F_57A4_578C_5797_579D_579B_5794_5798_578F),
  (0x6D7D, 0x5799_57A5_579A),
  (0x6D81, 0x5795_58F4_590D_5953_59E1_59DE_59EE_5A00_59F1_59DD_59FA_59FD),
  (0x6D8D, 0x59FC_59F6_59E4_59F2_59F7_59DB_59E9_59F3_59F5_59E0_59FE_59F4),
  (0x6D99, 0x59ED_5BA8_5C4C_5CD0_5CD8_5CCC_5CD7_5CCB_5CDB_5CDE_5CDA_5CC9),
  (0x6DA5, 0x5CC7_5CCA_5CD6_5CD3_5CD4_5CCF_5CC8_5CC6_5CCE_5CDF_5CF8_5DF9),
  (0x6DB1, 0x5E21_5E22_5E23_5E20_5E24_5EB0_5EA4_5EA2_5E9B_5EA3_5EA5_5F07),
  (0x6DBD, 0x5F2E_5F56_5F86_6037_6039_6054_6072_605E_6045_6053_6047_6049),
  (0x6DC9, 0x605B_604C_6040_6042_605F_6024_6044_6058_6066_606E_6242_6243),
  (0x6DD5, 0x62CF_630D_630B_62F5_630E_6303_62EB_62F9_630F_630C_62F8_62F6),
  (0x6DE1, 0x6300_6313_6314_62FA_6315_62FB_62F0_6541_6543_65AA_65BF_6636),
  (0x6DED, 0x6621_6632_6635_661C_6626_6622_6633_662B_663A_661D_6634_6639),
  (0x6DF9, 0x662E_670F_6710_67C1_67F2),
  (0x6E41, 0x67C8_67BA_67DC_67BB_67F8_67D8_67C0_67B7_67C5_67EB_67E4_67DF),
  (0x6E4D, 0x67B5_67CD_67B3_67F7_67F6_67EE_67E3_67C2_67B9_67CE_67E7_67F0),
  (0x6E59, 0x67B2_67FC_67C6_67ED_67CC_67AE_67E6_67DB_67FA_67C9_67CA_67C3),
  (0x6E65, 0x67EA_67CB_6B28_6B82_6B84_6BB6_6BD6_6BD8_6BE0_6C20_6C21_6D28),
  (0x6E71, 0x6D34_6D2D_6D1F_6D3C_6D3F_6D12_6D0A_6CDA_6D33_6D04_6D19_6D3A),
  (0x6E7D, 0x6D1A_6D11_6D00),
  (0x6E81, 0x6D1D_6D42_6D01_6D18_6D37_6D03_6D0F_6D40_6D07_6D20_6D2C_6D08),
  (0x6E8D, 0x6D22_6D09_6D10_70B7_709F_70BE_70B1_70B0_70A1_70B4_70B5_70A9),
  (0x6E99, 0x7241_7249_724A_726C_7270_7273_726E_72CA_72E4_72E8_72EB_72DF),
  (0x6EA5, 0x72EA_72E6_72E3_7385_73CC_73C2_73C8_73C5_73B9_73B6_73B5_73B4),
  (0x6EB1, 0x73EB_73BF_73C7_73BE_73C3_73C6_73B8_73CB_74EC_74EE_752E_7547),
  (0x6EBD, 0x7548_75A7_75AA_7679_76C4_7708_7703_7704_7705_770A_76F7_76FB),
  (0x6EC9, 0x76FA_77E7_77E8_7806_7811_7812_7805_7810_780F_780E_7809_7803),
  (0x6ED5, 0x7813_794A_794C_794B_7945_7944_79D5_79CD_79CF_79D6_79CE_7A80),
  (0x6EE1, 0x7A7E_7AD1_7B00_7B01_7C7A_7C78_7C79_7C7F_7C80_7C81_7D03_7D08),
  (0x6EED, 0x7D01_7F58_7F91_7F8D_7FBE_8007_800E_800F_8014_8037_80D8_80C7),
  (0x6EF9, 0x80E0_80D1_80C8_80C2_80D0),
  (0x6F41, 0x80C5_80E3_80D9_80DC_80CA_80D5_80C9_80CF_80D7_80E6_80CD_81FF),
  (0x6F4D, 0x8221_8294_82D9_82FE_82F9_8307_82E8_8300_82D5_833A_82EB_82D6),
  (0x6F59, 0x82F4_82EC_82E1_82F2_82F5_830C_82FB_82F6_82F0_82EA_82E4_82E0),
  (0x6F65, 0x82FA_82F3_82ED_8677_8674_867C_8673_8841_884E_8867_886A_8869),
  (0x6F71, 0x89D3_8A04_8A07_8D72_8FE3_8FE1_8FEE_8FE0_90F1_90BD_90BF_90D5),
  (0x6F7D, 0x90C5_90BE_90C7),
  (0x6F81, 0x90CB_90C8_91D4_91D3_9654_964F_9651_9653_964A_964E_501E_5005),
  (0x6F8D, 0x5007_5013_5022_5030_501B_4FF5_4FF4_5033_5037_502C_4FF6_4FF7),
  (0x6F99, 0x5017_501C_5020_5027_5035_502F_5031_500E_515A_5194_5193_51CA),
  (0x6FA5, 0x51C4_51C5_51C8_51CE_5261_525A_5252_525E_525F_5255_5262_52CD),
  (0x6FB1, 0x530E_539E_5526_54E2_5517_5512_54E7_54F3_54E4_551A_54FF_5504),
  (0x6FBD, 0x5508_54EB_5511_5505_54F1_550A_54FB_54F7_54F8_54E0_550E_5503),
  (0x6FC9, 0x550B_5701_5702_57CC_5832_57D5_57D2_57BA_57C6_57BD_57BC_57B8),
  (0x6FD5, 0x57B6_57BF_57C7_57D0_57B9_57C1_590E_594A_5A19_5A16_5A2D_5A2E),
  (0x6FE1, 0x5A15_5A0F_5A17_5A0A_5A1E_5A33_5B6C_5BA7_5BAD_5BAC_5C03_5C56),
  (0x6FED, 0x5C54_5CEC_5CFF_5CEE_5CF1_5CF7_5D00_5CF9_5E29_5E28_5EA8_5EAE),
  (0x6FF9, 0x5EAA_5EAC_5F33_5F30_5F67),
  (0x7041, 0x605D_605A_6067_6041_60A2_6088_6080_6092_6081_609D_6083_6095),
  (0x704D, 0x609B_6097_6087_609C_608E_6219_6246_62F2_6310_6356_632C_6344),
  (0x7059, 0x6345_6336_6343_63E4_6339_634B_634A_633C_6329_6341_6334_6358),
  (0x7065, 0x6354_6359_632D_6347_6333_635A_6351_6338_6357_6340_6348_654A),
  (0x7071, 0x6546_65C6_65C3_65C4_65C2_664A_665F_6647_6651_6712_6713_681F),
  (0x707D, 0x681A_6849_6832),
  (0x7081, 0x6833_683B_684B_684F_6816_6831_681C_6835_682B_682D_682F_684E),
  (0x708D, 0x6844_6834_681D_6812_6814_6826_6828_682E_684D_683A_6825_6820),
  (0x7099, 0x6B2C_6B2F_6B2D_6B31_6B34_6B6D_8082_6B88_6BE6_6BE4_6BE8_6BE3),
  (0x70A5, 0x6BE2_6BE7_6C25_6D7A_6D63_6D64_6D76_6D0D_6D61_6D92_6D58_6D62),
  (0x70B1, 0x6D6D_6D6F_6D91_6D8D_6DEF_6D7F_6D86_6D5E_6D67_6D60_6D97_6D70),
  (0x70BD, 0x6D7C_6D5F_6D82_6D98_6D2F_6D68_6D8B_6D7E_6D80_6D84_6D16_6D83),
  (0x70C9, 0x6D7B_6D7D_6D75_6D90_70DC_70D3_70D1_70DD_70CB_7F39_70E2_70D7),
  (0x70D5, 0x70D2_70DE_70E0_70D4_70CD_70C5_70C6_70C7_70DA_70CE_70E1_7242),
  (0x70E1, 0x7278_7277_7276_7300_72FA_72F4_72FE_72F6_72F3_72FB_7301_73D3),
  (0x70ED, 0x73D9_73E5_73D6_73BC_73E7_73E3_73E9_73DC_73D2_73DB_73D4_73DD),
  (0x70F9, 0x73DA_73D7_73D8_73E8_74DE),
  (0x7141, 0x74DF_74F4_74F5_7521_755B_755F_75B0_75C1_75BB_75C4_75C0_75BF),
  (0x714D, 0x75B6_75BA_768A_76C9_771D_771B_7710_7713_7712_7723_7711_7715),
  (0x7159, 0x7719_771A_7722_7727_7823_782C_7822_7835_782F_7828_782E_782B),
  (0x7165, 0x7821_7829_7833_782A_7831_7954_795B_794F_795C_7953_7952_7951),
  (0x7171, 0x79EB_79EC_79E0_79EE_79ED_79EA_79DC_79DE_79DD_7A86_7A89_7A85),
  (0x717D, 0x7A8B_7A8C_7A8A),
  (0x7181, 0x7A87_7AD8_7B10_7B04_7B13_7B05_7B0F_7B08_7B0A_7B0E_7B09_7B12),
  (0x718D, 0x7C84_7C91_7C8A_7C8C_7C88_7C8D_7C85_7D1E_7D1D_7D11_7D0E_7D18),
  (0x7199, 0x7D16_7D13_7D1F_7D12_7D0F_7D0C_7F5C_7F61_7F5E_7F60_7F5D_7F5B),
  (0x71A5, 0x7F96_7F92_7FC3_7FC2_7FC0_8016_803E_8039_80FA_80F2_80F9_80F5),
  (0x71B1, 0x8101_80FB_8100_8201_822F_8225_8333_832D_8344_8319_8351_8325),
  (0x71BD, 0x8356_833F_8341_8326_831C_8322_8342_834E_831B_832A_8308_833C),
  (0x71C9, 0x834D_8316_8324_8320_8337_832F_8329_8347_8345_834C_8353_831E),
  (0x71D5, 0x832C_834B_8327_8348_8653_8652_86A2_86A8_8696_868D_8691_869E),
  (0x71E1, 0x8687_8697_8686_868B_869A_8685_86A5_8699_86A1_86A7_8695_8698),
  (0x71ED, 0x868E_869D_8690_8694_8843_8844_886D_8875_8876_8872_8880_8871),
  (0x71F9, 0x887F_886F_8883_887E_8874),
  (0x7241, 0x887C_8A12_8C47_8C57_8C7B_8CA4_8CA3_8D76_8D78_8DB5_8DB7_8DB6),
  (0x724D, 0x8ED1_8ED3_8FFE_8FF5_9002_8FFF_8FFB_9004_8FFC_8FF6_90D6_90E0),
  (0x7259, 0x90D9_90DA_90E3_90DF_90E5_90D8_90DB_90D7_90DC_90E4_9150_914E),
  (0x7265, 0x914F_91D5_91E2_91DA_965C_965F_96BC_98E3_9ADF_9B2F_4E7F_5070),
  (0x7271, 0x506A_5061_505E_5060_5053_504B_505D_5072_5048_504D_5041_505B),
  (0x727D, 0x504A_5062_5015),
  (0x7281, 0x5045_505F_5069_506B_5063_5064_5046_5040_506E_5073_5057_5051),
  (0x728D, 0x51D0_526B_526D_526C_526E_52D6_52D3_532D_539C_5575_5576_553C),
  (0x7299, 0x554D_5550_5534_552A_5551_5562_5536_5535_5530_5552_5545_550C),
  (0x72A5, 0x5532_5565_554E_5539_5548_552D_553B_5540_554B_570A_5707_57FB),
  (0x72B1, 0x5814_57E2_57F6_57DC_57F4_5800_57ED_57FD_5808_57F8_580B_57F3),
  (0x72BD, 0x57CF_5807_57EE_57E3_57F2_57E5_57EC_57E1_580E_57FC_5810_57E7),
  (0x72C9, 0x5801_580C_57F1_57E9_57F0_580D_5804_595C_5A60_5A58_5A55_5A67),
  (0x72D5, 0x5A5E_5A38_5A35_5A6D_5A50_5A5F_5A65_5A6C_5A53_5A64_5A57_5A43),
  (0x72E1, 0x5A5D_5A52_5A44_5A5B_5A48_5A8E_5A3E_5A4D_5A39_5A4C_5A70_5A69),
  (0x72ED, 0x5A47_5A51_5A56_5A42_5A5C_5B72_5B6E_5BC1_5BC0_5C59_5D1E_5D0B),
  (0x72F9, 0x5D1D_5D1A_5D20_5D0C_5D28),
  (0x7341, 0x5D0D_5D26_5D25_5D0F_5D30_5D12_5D23_5D1F_5D2E_5E3E_5E34_5EB1),
  (0x734D, 0x5EB4_5EB9_5EB2_5EB3_5F36_5F38_5F9B_5F96_5F9F_608A_6090_6086),
  (0x7359, 0x60BE_60B0_60BA_60D3_60D4_60CF_60E4_60D9_60DD_60C8_60B1_60DB),
  (0x7365, 0x60B7_60CA_60BF_60C3_60CD_60C0_6332_6365_638A_6382_637D_63BD),
  (0x7371, 0x639E_63AD_639D_6397_63AB_638E_636F_6387_6390_636E_63AF_6375),
  (0x737D, 0x639C_636D_63AE),
  (0x7381, 0x637C_63A4_633B_639F_6378_6385_6381_6391_638D_6370_6553_65CD),
  (0x738D, 0x6665_6661_665B_6659_665C_6662_6718_6879_6887_6890_689C_686D),
  (0x7399, 0x686E_68AE_68AB_6956_686F_68A3_68AC_68A9_6875_6874_68B2_688F),
  (0x73A5, 0x6877_6892_687C_686B_6872_68AA_6880_6871_687E_689B_6896_688B),
  (0x73B1, 0x68A0_6889_68A4_6878_687B_6891_688C_688A_687D_6B36_6B33_6B37),
  (0x73BD, 0x6B38_6B91_6B8F_6B8D_6B8E_6B8C_6C2A_6DC0_6DAB_6DB4_6DB3_6E74),
  (0x73C9, 0x6DAC_6DE9_6DE2_6DB7_6DF6_6DD4_6E00_6DC8_6DE0_6DDF_6DD6_6DBE),
  (0x73D5, 0x6DE5_6DDC_6DDD_6DDB_6DF4_6DCA_6DBD_6DED_6DF0_6DBA_6DD5_6DC2),
  (0x73E1, 0x6DCF_6DC9_6DD0_6DF2_6DD3_6DFD_6DD7_6DCD_6DE3_6DBB_70FA_710D),
  (0x73ED, 0x70F7_7117_70F4_710C_70F0_7104_70F3_7110_70FC_70FF_7106_7113),
  (0x73F9, 0x7100_70F8_70F6_710B_7102),
  (0x7441, 0x710E_727E_727B_727C_727F_731D_7317_7307_7311_7318_730A_7308),
  (0x744D, 0x72FF_730F_731E_7388_73F6_73F8_73F5_7404_7401_73FD_7407_7400),
  (0x7459, 0x73FA_73FC_73FF_740C_740B_73F4_7408_7564_7563_75CE_75D2_75CF),
  (0x7465, 0x75CB_75CC_75D1_75D0_768F_7689_76D3_7739_772F_772D_7731_7732),
  (0x7471, 0x7734_7733_773D_7725_773B_7735_7848_7852_7849_784D_784A_784C),
  (0x747D, 0x7826_7845_7850),
  (0x7481, 0x7964_7967_7969_796A_7963_796B_7961_79BB_79FA_79F8_79F6_79F7),
  (0x748D, 0x7A8F_7A94_7A90_7B35_7B47_7B34_7B25_7B30_7B22_7B24_7B33_7B18),
  (0x7499, 0x7B2A_7B1D_7B31_7B2B_7B2D_7B2F_7B32_7B38_7B1A_7B23_7C94_7C98),
  (0x74A5, 0x7C96_7CA3_7D35_7D3D_7D38_7D36_7D3A_7D45_7D2C_7D29_7D41_7D47),
  (0x74B1, 0x7D3E_7D3F_7D4A_7D3B_7D28_7F63_7F95_7F9C_7F9D_7F9B_7FCA_7FCB),
  (0x74BD, 0x7FCD_7FD0_7FD1_7FC7_7FCF_7FC9_801F_801E_801B_8047_8043_8048),
  (0x74C9, 0x8118_8125_8119_811B_812D_811F_812C_811E_8121_8115_8127_811D),
  (0x74D5, 0x8122_8211_8238_8233_823A_8234_8232_8274_8390_83A3_83A8_838D),
  (0x74E1, 0x837A_8373_83A4_8374_838F_8381_8395_8399_8375_8394_83A9_837D),
  (0x74ED, 0x8383_838C_839D_839B_83AA_838B_837E_83A5_83AF_8388_8397_83B0),
  (0x74F9, 0x837F_83A6_8387_83AE_8376),
  (0x7541, 0x839A_8659_8656_86BF_86B7_86C2_86C1_86C5_86BA_86B0_86C8_86B9),
  (0x754D, 0x86B3_86B8_86CC_86B4_86BB_86BC_86C3_86BD_86BE_8852_8889_8895),
  (0x7559, 0x88A8_88A2_88AA_889A_8891_88A1_889F_8898_88A7_8899_889B_8897),
  (0x7565, 0x88A4_88AC_888C_8893_888E_8982_89D6_89D9_89D5_8A30_8A27_8A2C),
  (0x7571, 0x8A1E_8C39_8C3B_8C5C_8C5D_8C7D_8CA5_8D7D_8D7B_8D79_8DBC_8DC2),
  (0x757D, 0x8DB9_8DBF_8DC1),
  (0x7581, 0x8ED8_8EDE_8EDD_8EDC_8ED7_8EE0_8EE1_9024_900B_9011_901C_900C),
  (0x758D, 0x9021_90EF_90EA_90F0_90F4_90F2_90F3_90D4_90EB_90EC_90E9_9156),
  (0x7599, 0x9158_915A_9153_9155_91EC_91F4_91F1_91F3_91F8_91E4_91F9_91EA),
  (0x75A5, 0x91EB_91F7_91E8_91EE_957A_9586_9588_967C_966D_966B_9671_966F),
  (0x75B1, 0x96BF_976A_9804_98E5_9997_509B_5095_5094_509E_508B_50A3_5083),
  (0x75BD, 0x508C_508E_509D_5068_509C_5092_5082_5087_515F_51D4_5312_5311),
  (0x75C9, 0x53A4_53A7_5591_55A8_55A5_55AD_5577_5645_55A2_5593_5588_558F),
  (0x75D5, 0x55B5_5581_55A3_5592_55A4_557D_558C_55A6_557F_5595_55A1_558E),
  (0x75E1, 0x570C_5829_5837_5819_581E_5827_5823_5828_57F5_5848_5825_581C),
  (0x75ED, 0x581B_5833_583F_5836_582E_5839_5838_582D_582C_583B_5961_5AAF),
  (0x75F9, 0x5A94_5A9F_5A7A_5AA2_5A9E),
  (0x7641, 0x5A78_5AA6_5A7C_5AA5_5AAC_5A95_5AAE_5A37_5A84_5A8A_5A97_5A83),
  (0x764D, 0x5A8B_5AA9_5A7B_5A7D_5A8C_5A9C_5A8F_5A93_5A9D_5BEA_5BCD_5BCB),
  (0x7659, 0x5BD4_5BD1_5BCA_5BCE_5C0C_5C30_5D37_5D43_5D6B_5D41_5D4B_5D3F),
  (0x7665, 0x5D35_5D51_5D4E_5D55_5D33_5D3A_5D52_5D3D_5D31_5D59_5D42_5D39),
  (0x7671, 0x5D49_5D38_5D3C_5D32_5D36_5D40_5D45_5E44_5E41_5F58_5FA6_5FA5),
  (0x767D, 0x5FAB_60C9_60B9),
  (0x7681, 0x60CC_60E2_60CE_60C4_6114_60F2_610A_6116_6105_60F5_6113_60F8),
  (0x768D, 0x60FC_60FE_60C1_6103_6118_611D_6110_60FF_6104_610B_624A_6394),
  (0x7699, 0x63B1_63B0_63CE_63E5_63E8_63EF_63C3_649D_63F3_63CA_63E0_63F6),
  (0x76A5, 0x63D5_63F2_63F5_6461_63DF_63BE_63DD_63DC_63C4_63D8_63D3_63C2),
  (0x76B1, 0x63C7_63CC_63CB_63C8_63F0_63D7_63D9_6532_6567_656A_6564_655C),
  (0x76BD, 0x6568_6565_658C_659D_659E_65AE_65D0_65D2_667C_666C_667B_6680),
  (0x76C9, 0x6671_6679_666A_6672_6701_690C_68D3_6904_68DC_692A_68EC_68EA),
  (0x76D5, 0x68F1_690F_68D6_68F7_68EB_68E4_68F6_6913_6910_68F3_68E1_6907),
  (0x76E1, 0x68CC_6908_6970_68B4_6911_68EF_68C6_6914_68F8_68D0_68FD_68FC),
  (0x76ED, 0x68E8_690B_690A_6917_68CE_68C8_68DD_68DE_68E6_68F4_68D1_6906),
  (0x76F9, 0x68D4_68E9_6915_6925_68C7),
  (0x7741, 0x6B39_6B3B_6B3F_6B3C_6B94_6B97_6B99_6B95_6BBD_6BF0_6BF2_6BF3),
  (0x774D, 0x6C30_6DFC_6E46_6E47_6E1F_6E49_6E88_6E3C_6E3D_6E45_6E62_6E2B),
  (0x7759, 0x6E3F_6E41_6E5D_6E73_6E1C_6E33_6E4B_6E40_6E51_6E3B_6E03_6E2E),
  (0x7765, 0x6E5E_6E68_6E5C_6E61_6E31_6E28_6E60_6E71_6E6B_6E39_6E22_6E30),
  (0x7771, 0x6E53_6E65_6E27_6E78_6E64_6E77_6E55_6E79_6E52_6E66_6E35_6E36),
  (0x777D, 0x6E5A_7120_711E),
  (0x7781, 0x712F_70FB_712E_7131_7123_7125_7122_7132_711F_7128_713A_711B),
  (0x778D, 0x724B_725A_7288_7289_7286_7285_728B_7312_730B_7330_7322_7331),
  (0x7799, 0x7333_7327_7332_732D_7326_7323_7335_730C_742E_742C_7430_742B),
  (0x77A5, 0x7416_741A_7421_742D_7431_7424_7423_741D_7429_7420_7432_74FB),
  (0x77B1, 0x752F_756F_756C_75E7_75DA_75E1_75E6_75DD_75DF_75E4_75D7_7695),
  (0x77BD, 0x7692_76DA_7746_7747_7744_774D_7745_774A_774E_774B_774C_77DE),
  (0x77C9, 0x77EC_7860_7864_7865_785C_786D_7871_786A_786E_7870_7869_7868),
  (0x77D5, 0x785E_7862_7974_7973_7972_7970_7A02_7A0A_7A03_7A0C_7A04_7A99),
  (0x77E1, 0x7AE6_7AE4_7B4A_7B3B_7B44_7B48_7B4C_7B4E_7B40_7B58_7B45_7CA2),
  (0x77ED, 0x7C9E_7CA8_7CA1_7D58_7D6F_7D63_7D53_7D56_7D67_7D6A_7D4F_7D6D),
  (0x77F9, 0x7D5C_7D6B_7D52_7D54_7D69),
  (0x7841, 0x7D51_7D5F_7D4E_7F3E_7F3F_7F65_7F66_7FA2_7FA0_7FA1_7FD7_8051),
  (0x784D, 0x804F_8050_80FE_80D4_8143_814A_8152_814F_8147_813D_814D_813A),
  (0x7859, 0x81E6_81EE_81F7_81F8_81F9_8204_823C_823D_823F_8275_833B_83CF),
  (0x7865, 0x83F9_8423_83C0_83E8_8412_83E7_83E4_83FC_83F6_8410_83C6_83C8),
  (0x7871, 0x83EB_83E3_83BF_8401_83DD_83E5_83D8_83FF_83E1_83CB_83CE_83D6),
  (0x787D, 0x83F5_83C9_8409),
  (0x7881, 0x840F_83DE_8411_8406_83C2_83F3_83D5_83FA_83C7_83D1_83EA_8413),
  (0x788D, 0x83C3_83EC_83EE_83C4_83FB_83D7_83E2_841B_83DB_83FE_86D8_86E2),
  (0x7899, 0x86E6_86D3_86E3_86DA_86EA_86DD_86EB_86DC_86EC_86E9_86D7_86E8),
  (0x78A5, 0x86D1_8848_8856_8855_88BA_88D7_88B9_88B8_88C0_88BE_88B6_88BC),
  (0x78B1, 0x88B7_88BD_88B2_8901_88C9_8995_8998_8997_89DD_89DA_89DB_8A4E),
  (0x78BD, 0x8A4D_8A39_8A59_8A40_8A57_8A58_8A44_8A45_8A52_8A48_8A51_8A4A),
  (0x78C9, 0x8A4C_8A4F_8C5F_8C81_8C80_8CBA_8CBE_8CB0_8CB9_8CB5_8D84_8D80),
  (0x78D5, 0x8D89_8DD8_8DD3_8DCD_8DC7_8DD6_8DDC_8DCF_8DD5_8DD9_8DC8_8DD7),
  (0x78E1, 0x8DC5_8EEF_8EF7_8EFA_8EF9_8EE6_8EEE_8EE5_8EF5_8EE7_8EE8_8EF6),
  (0x78ED, 0x8EEB_8EF1_8EEC_8EF4_8EE9_902D_9034_902F_9106_912C_9104_90FF),
  (0x78F9, 0x90FC_9108_90F9_90FB_9101),
  (0x7941, 0x9100_9107_9105_9103_9161_9164_915F_9162_9160_9201_920A_9225),
  (0x794D, 0x9203_921A_9226_920F_920C_9200_9212_91FF_91FD_9206_9204_9227),
  (0x7959, 0x9202_921C_9224_9219_9217_9205_9216_957B_958D_958C_9590_9687),
  (0x7965, 0x967E_9688_9689_9683_9680_96C2_96C8_96C3_96F1_96F0_976C_9770),
  (0x7971, 0x976E_9807_98A9_98EB_9CE6_9EF9_4E83_4E84_4EB6_50BD_50BF_50C6),
  (0x797D, 0x50AE_50C4_50CA),
  (0x7981, 0x50B4_50C8_50C2_50B0_50C1_50BA_50B1_50CB_50C9_50B6_50B8_51D7),
  (0x798D, 0x527A_5278_527B_527C_55C3_55DB_55CC_55D0_55CB_55CA_55DD_55C0),
  (0x7999, 0x55D4_55C4_55E9_55BF_55D2_558D_55CF_55D5_55E2_55D6_55C8_55F2),
  (0x79A5, 0x55CD_55D9_55C2_5714_5853_5868_5864_584F_584D_5849_586F_5855),
  (0x79B1, 0x584E_585D_5859_5865_585B_583D_5863_5871_58FC_5AC7_5AC4_5ACB),
  (0x79BD, 0x5ABA_5AB8_5AB1_5AB5_5AB0_5ABF_5AC8_5ABB_5AC6_5AB7_5AC0_5ACA),
  (0x79C9, 0x5AB4_5AB6_5ACD_5AB9_5A90_5BD6_5BD8_5BD9_5C1F_5C33_5D71_5D63),
  (0x79D5, 0x5D4A_5D65_5D72_5D6C_5D5E_5D68_5D67_5D62_5DF0_5E4F_5E4E_5E4A),
  (0x79E1, 0x5E4D_5E4B_5EC5_5ECC_5EC6_5ECB_5EC7_5F40_5FAF_5FAD_60F7_6149),
  (0x79ED, 0x614A_612B_6145_6136_6132_612E_6146_612F_614F_6129_6140_6220),
  (0x79F9, 0x9168_6223_6225_6224_63C5),
  (0x7A41, 0x63F1_63EB_6410_6412_6409_6420_6424_6433_6443_641F_6415_6418),
  (0x7A4D, 0x6439_6437_6422_6423_640C_6426_6430_6428_6441_6435_642F_640A),
  (0x7A59, 0x641A_6440_6425_6427_640B_63E7_641B_642E_6421_640E_656F_6592),
  (0x7A65, 0x65D3_6686_668C_6695_6690_668B_668A_6699_6694_6678_6720_6966),
  (0x7A71, 0x695F_6938_694E_6962_6971_693F_6945_696A_6939_6942_6957_6959),
  (0x7A7D, 0x697A_6948_6949),
  (0x7A81, 0x6935_696C_6933_693D_6965_68F0_6978_6934_6969_6940_696F_6944),
  (0x7A8D, 0x6976_6958_6941_6974_694C_693B_694B_6937_695C_694F_6951_6932),
  (0x7A99, 0x6952_692F_697B_693C_6B46_6B45_6B43_6B42_6B48_6B41_6B9B_FA0D),
  (0x7AA5, 0x6BFB_6BFC_6BF9_6BF7_6BF8_6E9B_6ED6_6EC8_6E8F_6EC0_6E9F_6E93),
  (0x7AB1, 0x6E94_6EA0_6EB1_6EB9_6EC6_6ED2_6EBD_6EC1_6E9E_6EC9_6EB7_6EB0),
  (0x7ABD, 0x6ECD_6EA6_6ECF_6EB2_6EBE_6EC3_6EDC_6ED8_6E99_6E92_6E8E_6E8D),
  (0x7AC9, 0x6EA4_6EA1_6EBF_6EB3_6ED0_6ECA_6E97_6EAE_6EA3_7147_7154_7152),
  (0x7AD5, 0x7163_7160_7141_715D_7162_7172_7178_716A_7161_7142_7158_7143),
  (0x7AE1, 0x714B_7170_715F_7150_7153_7144_714D_715A_724F_728D_728C_7291),
  (0x7AED, 0x7290_728E_733C_7342_733B_733A_7340_734A_7349_7444_744A_744B),
  (0x7AF9, 0x7452_7451_7457_7440_744F),
  (0x7B41, 0x7450_744E_7442_7446_744D_7454_74E1_74FF_74FE_74FD_751D_7579),
  (0x7B4D, 0x7577_6983_75EF_760F_7603_75F7_75FE_75FC_75F9_75F8_7610_75FB),
  (0x7B59, 0x75F6_75ED_75F5_75FD_7699_76B5_76DD_7755_775F_7760_7752_7756),
  (0x7B65, 0x775A_7769_7767_7754_7759_776D_77E0_7887_789A_7894_788F_7884),
  (0x7B71, 0x7895_7885_7886_78A1_7883_7879_7899_7880_7896_787B_797C_7982),
  (0x7B7D, 0x797D_7979_7A11),
  (0x7B81, 0x7A18_7A19_7A12_7A17_7A15_7A22_7A13_7A1B_7A10_7AA3_7AA2_7A9E),
  (0x7B8D, 0x7AEB_7B66_7B64_7B6D_7B74_7B69_7B72_7B65_7B73_7B71_7B70_7B61),
  (0x7B99, 0x7B78_7B76_7B63_7CB2_7CB4_7CAF_7D88_7D86_7D80_7D8D_7D7F_7D85),
  (0x7BA5, 0x7D7A_7D8E_7D7B_7D83_7D7C_7D8C_7D94_7D84_7D7D_7D92_7F6D_7F6B),
  (0x7BB1, 0x7F67_7F68_7F6C_7FA6_7FA5_7FA7_7FDB_7FDC_8021_8164_8160_8177),
  (0x7BBD, 0x815C_8169_815B_8162_8172_6721_815E_8176_8167_816F_8144_8161),
  (0x7BC9, 0x821D_8249_8244_8240_8242_8245_84F1_843F_8456_8476_8479_848F),
  (0x7BD5, 0x848D_8465_8451_8440_8486_8467_8430_844D_847D_845A_8459_8474),
  (0x7BE1, 0x8473_845D_8507_845E_8437_843A_8434_847A_8443_8478_8432_8445),
  (0x7BED, 0x8429_83D9_844B_842F_8442_842D_845F_8470_8439_844E_844C_8452),
  (0x7BF9, 0x846F_84C5_848E_843B_8447),
  (0x7C41, 0x8436_8433_8468_847E_8444_842B_8460_8454_846E_8450_870B_8704),
  (0x7C4D, 0x86F7_870C_86FA_86D6_86F5_874D_86F8_870E_8709_8701_86F6_870D),
  (0x7C59, 0x8705_88D6_88CB_88CD_88CE_88DE_88DB_88DA_88CC_88D0_8985_899B),
  (0x7C65, 0x89DF_89E5_89E4_89E1_89E0_89E2_89DC_89E6_8A76_8A86_8A7F_8A61),
  (0x7C71, 0x8A3F_8A77_8A82_8A84_8A75_8A83_8A81_8A74_8A7A_8C3C_8C4B_8C4A),
  (0x7C7D, 0x8C65_8C64_8C66),
  (0x7C81, 0x8C86_8C84_8C85_8CCC_8D68_8D69_8D91_8D8C_8D8E_8D8F_8D8D_8D93),
  (0x7C8D, 0x8D94_8D90_8D92_8DF0_8DE0_8DEC_8DF1_8DEE_8DD0_8DE9_8DE3_8DE2),
  (0x7C99, 0x8DE7_8DF2_8DEB_8DF4_8F06_8EFF_8F01_8F00_8F05_8F07_8F08_8F02),
  (0x7CA5, 0x8F0B_9052_903F_9044_9049_903D_9110_910D_910F_9111_9116_9114),
  (0x7CB1, 0x910B_910E_916E_916F_9248_9252_9230_923A_9266_9233_9265_925E),
  (0x7CBD, 0x9283_922E_924A_9246_926D_926C_924F_9260_9267_926F_9236_9261),
  (0x7CC9, 0x9270_9231_9254_9263_9250_9272_924E_9253_924C_9256_9232_959F),
  (0x7CD5, 0x959C_959E_959B_9692_9693_9691_9697_96CE_96FA_96FD_96F8_96F5),
  (0x7CE1, 0x9773_9777_9778_9772_980F_980D_980E_98AC_98F6_98F9_99AF_99B2),
  (0x7CED, 0x99B0_99B5_9AAD_9AAB_9B5B_9CEA_9CED_9CE7_9E80_9EFD_50E6_50D4),
  (0x7CF9, 0x50D7_50E8_50F3_50DB_50EA),
  (0x7D41, 0x50DD_50E4_50D3_50EC_50F0_50EF_50E3_50E0_51D8_5280_5281_52E9),
  (0x7D4D, 0x52EB_5330_53AC_5627_5615_560C_5612_55FC_560F_561C_5601_5613),
  (0x7D59, 0x5602_55FA_561D_5604_55FF_55F9_5889_587C_5890_5898_5886_5881),
  (0x7D65, 0x587F_5874_588B_587A_5887_5891_588E_5876_5882_5888_587B_5894),
  (0x7D71, 0x588F_58FE_596B_5ADC_5AEE_5AE5_5AD5_5AEA_5ADA_5AED_5AEB_5AF3),
  (0x7D7D, 0x5AE2_5AE0_5ADB),
  (0x7D81, 0x5AEC_5ADE_5ADD_5AD9_5AE8_5ADF_5B77_5BE0_5BE3_5C63_5D82_5D80),
  (0x7D8D, 0x5D7D_5D86_5D7A_5D81_5D77_5D8A_5D89_5D88_5D7E_5D7C_5D8D_5D79),
  (0x7D99, 0x5D7F_5E58_5E59_5E53_5ED8_5ED1_5ED7_5ECE_5EDC_5ED5_5ED9_5ED2),
  (0x7DA5, 0x5ED4_5F44_5F43_5F6F_5FB6_612C_6128_6141_615E_6171_6173_6152),
  (0x7DB1, 0x6153_6172_616C_6180_6174_6154_617A_615B_6165_613B_616A_6161),
  (0x7DBD, 0x6156_6229_6227_622B_642B_644D_645B_645D_6474_6476_6472_6473),
  (0x7DC9, 0x647D_6475_6466_64A6_644E_6482_645E_645C_644B_6453_6460_6450),
  (0x7DD5, 0x647F_643F_646C_646B_6459_6465_6477_6573_65A0_66A1_66A0_669F),
  (0x7DE1, 0x6705_6704_6722_69B1_69B6_69C9_69A0_69CE_6996_69B0_69AC_69BC),
  (0x7DED, 0x6991_6999_698E_69A7_698D_69A9_69BE_69AF_69BF_69C4_69BD_69A4),
  (0x7DF9, 0x69D4_69B9_69CA_699A_69CF),
  (0x7E41, 0x69B3_6993_69AA_69A1_699E_69D9_6997_6990_69C2_69B5_69A5_69C6),
  (0x7E4D, 0x6B4A_6B4D_6B4B_6B9E_6B9F_6BA0_6BC3_6BC4_6BFE_6ECE_6EF5_6EF1),
  (0x7E59, 0x6F03_6F25_6EF8_6F37_6EFB_6F2E_6F09_6F4E_6F19_6F1A_6F27_6F18),
  (0x7E65, 0x6F3B_6F12_6EED_6F0A_6F36_6F73_6EF9_6EEE_6F2D_6F40_6F30_6F3C),
  (0x7E71, 0x6F35_6EEB_6F07_6F0E_6F43_6F05_6EFD_6EF6_6F39_6F1C_6EFC_6F3A),
  (0x7E7D, 0x6F1F_6F0D_6F1E),
  (0x7E81, 0x6F08_6F21_7187_7190_7189_7180_7185_7182_718F_717B_7186_7181),
  (0x7E8D, 0x7197_7244_7253_7297_7295_7293_7343_734D_7351_734C_7462_7473),
  (0x7E99, 0x7471_7475_7472_7467_746E_7500_7502_7503_757D_7590_7616_7608),
  (0x7EA5, 0x760C_7615_7611_760A_7614_76B8_7781_777C_7785_7782_776E_7780),
  (0x7EB1, 0x776F_777E_7783_78B2_78AA_78B4_78AD_78A8_787E_78AB_789E_78A5),
  (0x7EBD, 0x78A0_78AC_78A2_78A4_7998_798A_798B_7996_7995_7994_7993_7997),
  (0x7EC9, 0x7988_7992_7990_7A2B_7A4A_7A30_7A2F_7A28_7A26_7AA8_7AAB_7AAC),
  (0x7ED5, 0x7AEE_7B88_7B9C_7B8A_7B91_7B90_7B96_7B8D_7B8C_7B9B_7B8E_7B85),
  (0x7EE1, 0x7B98_5284_7B99_7BA4_7B82_7CBB_7CBF_7CBC_7CBA_7DA7_7DB7_7DC2),
  (0x7EED, 0x7DA3_7DAA_7DC1_7DC0_7DC5_7D9D_7DCE_7DC4_7DC6_7DCB_7DCC_7DAF),
  (0x7EF9, 0x7DB9_7D96_7DBC_7D9F_7DA6),
  (0x7F41, 0x7DAE_7DA9_7DA1_7DC9_7F73_7FE2_7FE3_7FE5_7FDE_8024_805D_805C),
  (0x7F4D, 0x8189_8186_8183_8187_818D_818C_818B_8215_8497_84A4_84A1_849F),
  (0x7F59, 0x84BA_84CE_84C2_84AC_84AE_84AB_84B9_84B4_84C1_84CD_84AA_849A),
  (0x7F65, 0x84B1_84D0_849D_84A7_84BB_84A2_8494_84C7_84CC_849B_84A9_84AF),
  (0x7F71, 0x84A8_84D6_8498_84B6_84CF_84A0_84D7_84D4_84D2_84DB_84B0_8491),
  (0x7F7D, 0x8661_8733_8723),
  (0x7F81, 0x8728_876B_8740_872E_871E_8721_8719_871B_8743_872C_8741_873E),
  (0x7F8D, 0x8746_8720_8732_872A_872D_873C_8712_873A_8731_8735_8742_8726),
  (0x7F99, 0x8727_8738_8724_871A_8730_8711_88F7_88E7_88F1_88F2_88FA_88FE),
  (0x7FA5, 0x88EE_88FC_88F6_88FB_88F0_88EC_88EB_899D_89A1_899F_899E_89E9),
  (0x7FB1, 0x89EB_89E8_8AAB_8A99_8A8B_8A92_8A8F_8A96_8C3D_8C68_8C69_8CD5),
  (0x7FBD, 0x8CCF_8CD7_8D96_8E09_8E02_8DFF_8E0D_8DFD_8E0A_8E03_8E07_8E06),
  (0x7FC9, 0x8E05_8DFE_8E00_8E04_8F10_8F11_8F0E_8F0D_9123_911C_9120_9122),
  (0x7FD5, 0x911F_911D_911A_9124_9121_911B_917A_9172_9179_9173_92A5_92A4),
  (0x7FE1, 0x9276_929B_927A_92A0_9294_92AA_928D_92A6_929A_92AB_9279_9297),
  (0x7FED, 0x927F_92A3_92EE_928E_9282_9295_92A2_927D_9288_92A1_928A_9286),
  (0x7FF9, 0x928C_9299_92A7_927E_9287),
  (0x8041, 0x92A9_929D_928B_922D_969E_96A1_96FF_9758_977D_977A_977E_9783),
  (0x804D, 0x9780_9782_977B_9784_9781_977F_97CE_97CD_9816_98AD_98AE_9902),
  (0x8059, 0x9900_9907_999D_999C_99C3_99B9_99BB_99BA_99C2_99BD_99C7_9AB1),
  (0x8065, 0x9AE3_9AE7_9B3E_9B3F_9B60_9B61_9B5F_9CF1_9CF2_9CF5_9EA7_50FF),
  (0x8071, 0x5103_5130_50F8_5106_5107_50F6_50FE_510B_510C_50FD_510A_528B),
  (0x807D, 0x528C_52F1_52EF),
  (0x8081, 0x5648_5642_564C_5635_5641_564A_5649_5646_5658_565A_5640_5633),
  (0x808D, 0x563D_562C_563E_5638_562A_563A_571A_58AB_589D_58B1_58A0_58A3),
  (0x8099, 0x58AF_58AC_58A5_58A1_58FF_5AFF_5AF4_5AFD_5AF7_5AF6_5B03_5AF8),
  (0x80A5, 0x5B02_5AF9_5B01_5B07_5B05_5B0F_5C67_5D99_5D97_5D9F_5D92_5DA2),
  (0x80B1, 0x5D93_5D95_5DA0_5D9C_5DA1_5D9A_5D9E_5E69_5E5D_5E60_5E5C_7DF3),
  (0x80BD, 0x5EDB_5EDE_5EE1_5F49_5FB2_618B_6183_6179_61B1_61B0_61A2_6189),
  (0x80C9, 0x619B_6193_61AF_61AD_619F_6192_61AA_61A1_618D_6166_61B3_622D),
  (0x80D5, 0x646E_6470_6496_64A0_6485_6497_649C_648F_648B_648A_648C_64A3),
  (0x80E1, 0x649F_6468_64B1_6498_6576_657A_6579_657B_65B2_65B3_66B5_66B0),
  (0x80ED, 0x66A9_66B2_66B7_66AA_66AF_6A00_6A06_6A17_69E5_69F8_6A15_69F1),
  (0x80F9, 0x69E4_6A20_69FF_69EC_69E2),
  (0x8141, 0x6A1B_6A1D_69FE_6A27_69F2_69EE_6A14_69F7_69E7_6A40_6A08_69E6),
  (0x814D, 0x69FB_6A0D_69FC_69EB_6A09_6A04_6A18_6A25_6A0F_69F6_6A26_6A07),
  (0x8159, 0x69F4_6A16_6B51_6BA5_6BA3_6BA2_6BA6_6C01_6C00_6BFF_6C02_6F41),
  (0x8165, 0x6F26_6F7E_6F87_6FC6_6F92_6F8D_6F89_6F8C_6F62_6F4F_6F85_6F5A),
  (0x8171, 0x6F96_6F76_6F6C_6F82_6F55_6F72_6F52_6F50_6F57_6F94_6F93_6F5D),
  (0x817D, 0x6F00_6F61_6F6B),
  (0x8181, 0x6F7D_6F67_6F90_6F53_6F8B_6F69_6F7F_6F95_6F63_6F77_6F6A_6F7B),
  (0x818D, 0x71B2_71AF_719B_71B0_71A0_719A_71A9_71B5_719D_71A5_719E_71A4),
  (0x8199, 0x71A1_71AA_719C_71A7_71B3_7298_729A_7358_7352_735E_735F_7360),
  (0x81A5, 0x735D_735B_7361_735A_7359_7362_7487_7489_748A_7486_7481_747D),
  (0x81B1, 0x7485_7488_747C_7479_7508_7507_757E_7625_761E_7619_761D_761C),
  (0x81BD, 0x7623_761A_7628_761B_769C_769D_769E_769B_778D_778F_7789_7788),
  (0x81C9, 0x78CD_78BB_78CF_78CC_78D1_78CE_78D4_78C8_78C3_78C4_78C9_799A),
  (0x81D5, 0x79A1_79A0_799C_79A2_799B_6B76_7A39_7AB2_7AB4_7AB3_7BB7_7BCB),
  (0x81E1, 0x7BBE_7BAC_7BCE_7BAF_7BB9_7BCA_7BB5_7CC5_7CC8_7CCC_7CCB_7DF7),
  (0x81ED, 0x7DDB_7DEA_7DE7_7DD7_7DE1_7E03_7DFA_7DE6_7DF6_7DF1_7DF0_7DEE),
  (0x81F9, 0x7DDF_7F76_7FAC_7FB0_7FAD),
  (0x8241, 0x7FED_7FEB_7FEA_7FEC_7FE6_7FE8_8064_8067_81A3_819F_819E_8195),
  (0x824D, 0x81A2_8199_8197_8216_824F_8253_8252_8250_824E_8251_8524_853B),
  (0x8259, 0x850F_8500_8529_850E_8509_850D_851F_850A_8527_851C_84FB_852B),
  (0x8265, 0x84FA_8508_850C_84F4_852A_84F2_8515_84F7_84EB_84F3_84FC_8512),
  (0x8271, 0x84EA_84E9_8516_84FE_8528_851D_852E_8502_84FD_851E_84F6_8531),
  (0x827D, 0x8526_84E7_84E8),
  (0x8281, 0x84F0_84EF_84F9_8518_8520_8530_850B_8519_852F_8662_8756_8763),
  (0x828D, 0x8764_8777_87E1_8773_8758_8754_875B_8752_8761_875A_8751_875E),
  (0x8299, 0x876D_876A_8750_874E_875F_875D_876F_876C_877A_876E_875C_8765),
  (0x82A5, 0x874F_877B_8775_8762_8767_8769_885A_8905_890C_8914_890B_8917),
  (0x82B1, 0x8918_8919_8906_8916_8911_890E_8909_89A2_89A4_89A3_89ED_89F0),
  (0x82BD, 0x89EC_8ACF_8AC6_8AB8_8AD3_8AD1_8AD4_8AD5_8ABB_8AD7_8ABE_8AC0),
  (0x82C9, 0x8AC5_8AD8_8AC3_8ABA_8ABD_8AD9_8C3E_8C4D_8C8F_8CE5_8CDF_8CD9),
  (0x82D5, 0x8CE8_8CDA_8CDD_8CE7_8DA0_8D9C_8DA1_8D9B_8E20_8E23_8E25_8E24),
  (0x82E1, 0x8E2E_8E15_8E1B_8E16_8E11_8E19_8E26_8E27_8E14_8E12_8E18_8E13),
  (0x82ED, 0x8E1C_8E17_8E1A_8F2C_8F24_8F18_8F1A_8F20_8F23_8F16_8F17_9073),
  (0x82F9, 0x9070_906F_9067_906B_912F),
  (0x8341, 0x912B_9129_912A_9132_9126_912E_9185_9186_918A_9181_9182_9184),
  (0x834D, 0x9180_92D0_92C3_92C4_92C0_92D9_92B6_92CF_92F1_92DF_92D8_92E9),
  (0x8359, 0x92D7_92DD_92CC_92EF_92C2_92E8_92CA_92C8_92CE_92E6_92CD_92D5),
  (0x8365, 0x92C9_92E0_92DE_92E7_92D1_92D3_92B5_92E1_92C6_92B4_957C_95AC),
  (0x8371, 0x95AB_95AE_95B0_96A4_96A2_96D3_9705_9708_9702_975A_978A_978E),
  (0x837D, 0x9788_97D0_97CF),
  (0x8381, 0x981E_981D_9826_9829_9828_9820_981B_9827_98B2_9908_98FA_9911),
  (0x838D, 0x9914_9916_9917_9915_99DC_99CD_99CF_99D3_99D4_99CE_99C9_99D6),
  (0x8399, 0x99D8_99CB_99D7_99CC_9AB3_9AEC_9AEB_9AF3_9AF2_9AF1_9B46_9B43),
  (0x83A5, 0x9B67_9B74_9B71_9B66_9B76_9B75_9B70_9B68_9B64_9B6C_9CFC_9CFA),
  (0x83B1, 0x9CFD_9CFF_9CF7_9D07_9D00_9CF9_9CFB_9D08_9D05_9D04_9E83_9ED3),
  (0x83BD, 0x9F0F_9F10_511C_5113_5117_511A_5111_51DE_5334_53E1_5670_5660),
  (0x83C9, 0x566E_5673_5666_5663_566D_5672_565E_5677_571C_571B_58C8_58BD),
  (0x83D5, 0x58C9_58BF_58BA_58C2_58BC_58C6_5B17_5B19_5B1B_5B21_5B14_5B13),
  (0x83E1, 0x5B10_5B16_5B28_5B1A_5B20_5B1E_5BEF_5DAC_5DB1_5DA9_5DA7_5DB5),
  (0x83ED, 0x5DB0_5DAE_5DAA_5DA8_5DB2_5DAD_5DAF_5DB4_5E67_5E68_5E66_5E6F),
  (0x83F9, 0x5EE9_5EE7_5EE6_5EE8_5EE5),
  (0x8441, 0x5F4B_5FBC_619D_61A8_6196_61C5_61B4_61C6_61C1_61CC_61BA_61BF),
  (0x844D, 0x61B8_618C_64D7_64D6_64D0_64CF_64C9_64BD_6489_64C3_64DB_64F3),
  (0x8459, 0x64D9_6533_657F_657C_65A2_66C8_66BE_66C0_66CA_66CB_66CF_66BD),
  (0x8465, 0x66BB_66BA_66CC_6723_6A34_6A66_6A49_6A67_6A32_6A68_6A3E_6A5D),
  (0x8471, 0x6A6D_6A76_6A5B_6A51_6A28_6A5A_6A3B_6A3F_6A41_6A6A_6A64_6A50),
  (0x847D, 0x6A4F_6A54_6A6F),
  (0x8481, 0x6A69_6A60_6A3C_6A5E_6A56_6A55_6A4D_6A4E_6A46_6B55_6B54_6B56),
  (0x848D, 0x6BA7_6BAA_6BAB_6BC8_6BC7_6C04_6C03_6C06_6FAD_6FCB_6FA3_6FC7),
  (0x8499, 0x6FBC_6FCE_6FC8_6F5E_6FC4_6FBD_6F9E_6FCA_6FA8_7004_6FA5_6FAE),
  (0x84A5, 0x6FBA_6FAC_6FAA_6FCF_6FBF_6FB8_6FA2_6FC9_6FAB_6FCD_6FAF_6FB2),
  (0x84B1, 0x6FB0_71C5_71C2_71BF_71B8_71D6_71C0_71C1_71CB_71D4_71CA_71C7),
  (0x84BD, 0x71CF_71BD_71D8_71BC_71C6_71DA_71DB_729D_729E_7369_7366_7367),
  (0x84C9, 0x736C_7365_736B_736A_747F_749A_74A0_7494_7492_7495_74A1_750B),
  (0x84D5, 0x7580_762F_762D_7631_763D_7633_763C_7635_7632_7630_76BB_76E6),
  (0x84E1, 0x779A_779D_77A1_779C_779B_77A2_77A3_7795_7799_7797_78DD_78E9),
  (0x84ED, 0x78E5_78EA_78DE_78E3_78DB_78E1_78E2_78ED_78DF_78E0_79A4_7A44),
  (0x84F9, 0x7A48_7A47_7AB6_7AB8_7AB5),
  (0x8541, 0x7AB1_7AB7_7BDE_7BE3_7BE7_7BDD_7BD5_7BE5_7BDA_7BE8_7BF9_7BD4),
  (0x854D, 0x7BEA_7BE2_7BDC_7BEB_7BD8_7BDF_7CD2_7CD4_7CD7_7CD0_7CD1_7E12),
  (0x8559, 0x7E21_7E17_7E0C_7E1F_7E20_7E13_7E0E_7E1C_7E15_7E1A_7E22_7E0B),
  (0x8565, 0x7E0F_7E16_7E0D_7E14_7E25_7E24_7F43_7F7B_7F7C_7F7A_7FB1_7FEF),
  (0x8571, 0x802A_8029_806C_81B1_81A6_81AE_81B9_81B5_81AB_81B0_81AC_81B4),
  (0x857D, 0x81B2_81B7_81A7),
  (0x8581, 0x81F2_8255_8256_8257_8556_8545_856B_854D_8553_8561_8558_8540),
  (0x858D, 0x8546_8564_8541_8562_8544_8551_8547_8563_853E_855B_8571_854E),
  (0x8599, 0x856E_8575_8555_8567_8560_858C_8566_855D_8554_8565_856C_8663),
  (0x85A5, 0x8665_8664_879B_878F_8797_8793_8792_8788_8781_8796_8798_8779),
  (0x85B1, 0x8787_87A3_8785_8790_8791_879D_8784_8794_879C_879A_8789_891E),
  (0x85BD, 0x8926_8930_892D_892E_8927_8931_8922_8929_8923_892F_892C_891F),
  (0x85C9, 0x89F1_8AE0_8AE2_8AF2_8AF4_8AF5_8ADD_8B14_8AE4_8ADF_8AF0_8AC8),
  (0x85D5, 0x8ADE_8AE1_8AE8_8AFF_8AEF_8AFB_8C91_8C92_8C90_8CF5_8CEE_8CF1),
  (0x85E1, 0x8CF0_8CF3_8D6C_8D6E_8DA5_8DA7_8E33_8E3E_8E38_8E40_8E45_8E36),
  (0x85ED, 0x8E3C_8E3D_8E41_8E30_8E3F_8EBD_8F36_8F2E_8F35_8F32_8F39_8F37),
  (0x85F9, 0x8F34_9076_9079_907B_9086),
  (0x8641, 0x90FA_9133_9135_9136_9193_9190_9191_918D_918F_9327_931E_9308),
  (0x864D, 0x931F_9306_930F_937A_9338_933C_931B_9323_9312_9301_9346_932D),
  (0x8659, 0x930E_930D_92CB_931D_92FA_9325_9313_92F9_92F7_9334_9302_9324),
  (0x8665, 0x92FF_9329_9339_9335_932A_9314_930C_930B_92FE_9309_9300_92FB),
  (0x8671, 0x9316_95BC_95CD_95BE_95B9_95BA_95B6_95BF_95B5_95BD_96A9_96D4),
  (0x867D, 0x970B_9712_9710),
  (0x8681, 0x9799_9797_9794_97F0_97F8_9835_982F_9832_9924_991F_9927_9929),
  (0x868D, 0x999E_99EE_99EC_99E5_99E4_99F0_99E3_99EA_99E9_99E7_9AB9_9ABF),
  (0x8699, 0x9AB4_9ABB_9AF6_9AFA_9AF9_9AF7_9B33_9B80_9B85_9B87_9B7C_9B7E),
  (0x86A5, 0x9B7B_9B82_9B93_9B92_9B90_9B7A_9B95_9B7D_9B88_9D25_9D17_9D20),
  (0x86B1, 0x9D1E_9D14_9D29_9D1D_9D18_9D22_9D10_9D19_9D1F_9E88_9E86_9E87),
  (0x86BD, 0x9EAE_9EAD_9ED5_9ED6_9EFA_9F12_9F3D_5126_5125_5122_5124_5120),
  (0x86C9, 0x5129_52F4_5693_568C_568D_5686_5684_5683_567E_5682_567F_5681),
  (0x86D5, 0x58D6_58D4_58CF_58D2_5B2D_5B25_5B32_5B23_5B2C_5B27_5B26_5B2F),
  (0x86E1, 0x5B2E_5B7B_5BF1_5BF2_5DB7_5E6C_5E6A_5FBE_5FBB_61C3_61B5_61BC),
  (0x86ED, 0x61E7_61E0_61E5_61E4_61E8_61DE_64EF_64E9_64E3_64EB_64E4_64E8),
  (0x86F9, 0x6581_6580_65B6_65DA_66D2),
  (0x8741, 0x6A8D_6A96_6A81_6AA5_6A89_6A9F_6A9B_6AA1_6A9E_6A87_6A93_6A8E),
  (0x874D, 0x6A95_6A83_6AA8_6AA4_6A91_6A7F_6AA6_6A9A_6A85_6A8C_6A92_6B5B),
  (0x8759, 0x6BAD_6C09_6FCC_6FA9_6FF4_6FD4_6FE3_6FDC_6FED_6FE7_6FE6_6FDE),
  (0x8765, 0x6FF2_6FDD_6FE2_6FE8_71E1_71F1_71E8_71F2_71E4_71F0_71E2_7373),
  (0x8771, 0x736E_736F_7497_74B2_74AB_7490_74AA_74AD_74B1_74A5_74AF_7510),
  (0x877D, 0x7511_7512_750F),
  (0x8781, 0x7584_7643_7648_7649_7647_76A4_76E9_77B5_77AB_77B2_77B7_77B6),
  (0x878D, 0x77B4_77B1_77A8_77F0_78F3_78FD_7902_78FB_78FC_78F2_7905_78F9),
  (0x8799, 0x78FE_7904_79AB_79A8_7A5C_7A5B_7A56_7A58_7A54_7A5A_7ABE_7AC0),
  (0x87A5, 0x7AC1_7C05_7C0F_7BF2_7C00_7BFF_7BFB_7C0E_7BF4_7C0B_7BF3_7C02),
  (0x87B1, 0x7C09_7C03_7C01_7BF8_7BFD_7C06_7BF0_7BF1_7C10_7C0A_7CE8_7E2D),
  (0x87BD, 0x7E3C_7E42_7E33_9848_7E38_7E2A_7E49_7E40_7E47_7E29_7E4C_7E30),
  (0x87C9, 0x7E3B_7E36_7E44_7E3A_7F45_7F7F_7F7E_7F7D_7FF4_7FF2_802C_81BB),
  (0x87D5, 0x81C4_81CC_81CA_81C5_81C7_81BC_81E9_825B_825A_825C_8583_8580),
  (0x87E1, 0x858F_85A7_8595_85A0_858B_85A3_857B_85A4_859A_859E_8577_857C),
  (0x87ED, 0x8589_85A1_857A_8578_8557_858E_8596_8586_858D_8599_859D_8581),
  (0x87F9, 0x85A2_8582_8588_8585_8579),
  (0x8841, 0x8576_8598_8590_859F_8668_87BE_87AA_87AD_87C5_87B0_87AC_87B9),
  (0x884D, 0x87B5_87BC_87AE_87C9_87C3_87C2_87CC_87B7_87AF_87C4_87CA_87B4),
  (0x8859, 0x87B6_87BF_87B8_87BD_87DE_87B2_8935_8933_893C_893E_8941_8952),
  (0x8865, 0x8937_8942_89AD_89AF_89AE_89F2_89F3_8B1E_8B18_8B16_8B11_8B05),
  (0x8871, 0x8B0B_8B22_8B0F_8B12_8B15_8B07_8B0D_8B08_8B06_8B1C_8B13_8B1A),
  (0x887D, 0x8C4F_8C70_8C72),
  (0x8881, 0x8C71_8C6F_8C95_8C94_8CF9_8D6F_8E4E_8E4D_8E53_8E50_8E4C_8E47),
  (0x888D, 0x8F43_8F40_9085_907E_9138_919A_91A2_919B_9199_919F_91A1_919D),
  (0x8899, 0x91A0_93A1_9383_93AF_9364_9356_9347_937C_9358_935C_9376_9349),
  (0x88A5, 0x9350_9351_9360_936D_938F_934C_936A_9379_9357_9355_9352_934F),
  (0x88B1, 0x9371_9377_937B_9361_935E_9363_9367_9380_934E_9359_95C7_95C0),
  (0x88BD, 0x95C9_95C3_95C5_95B7_96AE_96B0_96AC_9720_971F_9718_971D_9719),
  (0x88C9, 0x979A_97A1_979C_979E_979D_97D5_97D4_97F1_9841_9844_984A_9849),
  (0x88D5, 0x9845_9843_9925_992B_992C_992A_9933_9932_992F_992D_9931_9930),
  (0x88E1, 0x9998_99A3_99A1_9A02_99FA_99F4_99F7_99F9_99F8_99F6_99FB_99FD),
  (0x88ED, 0x99FE_99FC_9A03_9ABE_9AFE_9AFD_9B01_9AFC_9B48_9B9A_9BA8_9B9E),
  (0x88F9, 0x9B9B_9BA6_9BA1_9BA5_9BA4),
  (0x8941, 0x9B86_9BA2_9BA0_9BAF_9D33_9D41_9D67_9D36_9D2E_9D2F_9D31_9D38),
  (0x894D, 0x9D30_9D45_9D42_9D43_9D3E_9D37_9D40_9D3D_7FF5_9D2D_9E8A_9E89),
  (0x8959, 0x9E8D_9EB0_9EC8_9EDA_9EFB_9EFF_9F24_9F23_9F22_9F54_9FA0_5131),
  (0x8965, 0x512D_512E_5698_569C_5697_569A_569D_5699_5970_5B3C_5C69_5C6A),
  (0x8971, 0x5DC0_5E6D_5E6E_61D8_61DF_61ED_61EE_61F1_61EA_61F0_61EB_61D6),
  (0x897D, 0x61E9_64FF_6504),
  (0x8981, 0x64FD_64F8_6501_6503_64FC_6594_65DB_66DA_66DB_66D8_6AC5_6AB9),
  (0x898D, 0x6ABD_6AE1_6AC6_6ABA_6AB6_6AB7_6AC7_6AB4_6AAD_6B5E_6BC9_6C0B),
  (0x8999, 0x7007_700C_700D_7001_7005_7014_700E_6FFF_7000_6FFB_7026_6FFC),
  (0x89A5, 0x6FF7_700A_7201_71FF_71F9_7203_71FD_7376_74B8_74C0_74B5_74C1),
  (0x89B1, 0x74BE_74B6_74BB_74C2_7514_7513_765C_7664_7659_7650_7653_7657),
  (0x89BD, 0x765A_76A6_76BD_76EC_77C2_77BA_78FF_790C_7913_7914_7909_7910),
  (0x89C9, 0x7912_7911_79AD_79AC_7A5F_7C1C_7C29_7C19_7C20_7C1F_7C2D_7C1D),
  (0x89D5, 0x7C26_7C28_7C22_7C25_7C30_7E5C_7E50_7E56_7E63_7E58_7E62_7E5F),
  (0x89E1, 0x7E51_7E60_7E57_7E53_7FB5_7FB3_7FF7_7FF8_8075_81D1_81D2_81D0),
  (0x89ED, 0x825F_825E_85B4_85C6_85C0_85C3_85C2_85B3_85B5_85BD_85C7_85C4),
  (0x89F9, 0x85BF_85CB_85CE_85C8_85C5),
  (0x8A41, 0x85B1_85B6_85D2_8624_85B8_85B7_85BE_8669_87E7_87E6_87E2_87DB),
  (0x8A4D, 0x87EB_87EA_87E5_87DF_87F3_87E4_87D4_87DC_87D3_87ED_87D8_87E3),
  (0x8A59, 0x87A4_87D7_87D9_8801_87F4_87E8_87DD_8953_894B_894F_894C_8946),
  (0x8A65, 0x8950_8951_8949_8B2A_8B27_8B23_8B33_8B30_8B35_8B47_8B2F_8B3C),
  (0x8A71, 0x8B3E_8B31_8B25_8B37_8B26_8B36_8B2E_8B24_8B3B_8B3D_8B3A_8C42),
  (0x8A7D, 0x8C75_8C99_8C98),
  (0x8A81, 0x8C97_8CFE_8D04_8D02_8D00_8E5C_8E62_8E60_8E57_8E56_8E5E_8E65),
  (0x8A8D, 0x8E67_8E5B_8E5A_8E61_8E5D_8E69_8E54_8F46_8F47_8F48_8F4B_9128),
  (0x8A99, 0x913A_913B_913E_91A8_91A5_91A7_91AF_91AA_93B5_938C_9392_93B7),
  (0x8AA5, 0x939B_939D_9389_93A7_938E_93AA_939E_93A6_9395_9388_9399_939F),
  (0x8AB1, 0x938D_93B1_9391_93B2_93A4_93A8_93B4_93A3_93A5_95D2_95D3_95D1),
  (0x8ABD, 0x96B3_96D7_96DA_5DC2_96DF_96D8_96DD_9723_9722_9725_97AC_97AE),
  (0x8AC9, 0x97A8_97AB_97A4_97AA_97A2_97A5_97D7_97D9_97D6_97D8_97FA_9850),
  (0x8AD5, 0x9851_9852_98B8_9941_993C_993A_9A0F_9A0B_9A09_9A0D_9A04_9A11),
  (0x8AE1, 0x9A0A_9A05_9A07_9A06_9AC0_9ADC_9B08_9B04_9B05_9B29_9B35_9B4A),
  (0x8AED, 0x9B4C_9B4B_9BC7_9BC6_9BC3_9BBF_9BC1_9BB5_9BB8_9BD3_9BB6_9BC4),
  (0x8AF9, 0x9BB9_9BBD_9D5C_9D53_9D4F),
  (0x8B41, 0x9D4A_9D5B_9D4B_9D59_9D56_9D4C_9D57_9D52_9D54_9D5F_9D58_9D5A),
  (0x8B4D, 0x9E8E_9E8C_9EDF_9F01_9F00_9F16_9F25_9F2B_9F2A_9F29_9F28_9F4C),
  (0x8B59, 0x9F55_5134_5135_5296_52F7_53B4_56AB_56AD_56A6_56A7_56AA_56AC),
  (0x8B65, 0x58DA_58DD_58DB_5912_5B3D_5B3E_5B3F_5DC3_5E70_5FBF_61FB_6507),
  (0x8B71, 0x6510_650D_6509_650C_650E_6584_65DE_65DD_66DE_6AE7_6AE0_6ACC),
  (0x8B7D, 0x6AD1_6AD9_6ACB),
  (0x8B81, 0x6ADF_6ADC_6AD0_6AEB_6ACF_6ACD_6ADE_6B60_6BB0_6C0C_7019_7027),
  (0x8B8D, 0x7020_7016_702B_7021_7022_7023_7029_7017_7024_701C_702A_720C),
  (0x8B99, 0x720A_7207_7202_7205_72A5_72A6_72A4_72A3_72A1_74CB_74C5_74B7),
  (0x8BA5, 0x74C3_7516_7660_77C9_77CA_77C4_77F1_791D_791B_7921_791C_7917),
  (0x8BB1, 0x791E_79B0_7A67_7A68_7C33_7C3C_7C39_7C2C_7C3B_7CEC_7CEA_7E76),
  (0x8BBD, 0x7E75_7E78_7E70_7E77_7E6F_7E7A_7E72_7E74_7E68_7F4B_7F4A_7F83),
  (0x8BC9, 0x7F86_7FB7_7FFD_7FFE_8078_81D7_81D5_8264_8261_8263_85EB_85F1),
  (0x8BD5, 0x85ED_85D9_85E1_85E8_85DA_85D7_85EC_85F2_85F8_85D8_85DF_85E3),
  (0x8BE1, 0x85DC_85D1_85F0_85E6_85EF_85DE_85E2_8800_87FA_8803_87F6_87F7),
  (0x8BED, 0x8809_880C_880B_8806_87FC_8808_87FF_880A_8802_8962_895A_895B),
  (0x8BF9, 0x8957_8961_895C_8958_895D),
  (0x8C41, 0x8959_8988_89B7_89B6_89F6_8B50_8B48_8B4A_8B40_8B53_8B56_8B54),
  (0x8C4D, 0x8B4B_8B55_8B51_8B42_8B52_8B57_8C43_8C77_8C76_8C9A_8D06_8D07),
  (0x8C59, 0x8D09_8DAC_8DAA_8DAD_8DAB_8E6D_8E78_8E73_8E6A_8E6F_8E7B_8EC2),
  (0x8C65, 0x8F52_8F51_8F4F_8F50_8F53_8FB4_9140_913F_91B0_91AD_93DE_93C7),
  (0x8C71, 0x93CF_93C2_93DA_93D0_93F9_93EC_93CC_93D9_93A9_93E6_93CA_93D4),
  (0x8C7D, 0x93EE_93E3_93D5),
  (0x8C81, 0x93C4_93CE_93C0_93D2_93E7_957D_95DA_95DB_96E1_9729_972B_972C),
  (0x8C8D, 0x9728_9726_97B3_97B7_97B6_97DD_97DE_97DF_985C_9859_985D_9857),
  (0x8C99, 0x98BF_98BD_98BB_98BE_9948_9947_9943_99A6_99A7_9A1A_9A15_9A25),
  (0x8CA5, 0x9A1D_9A24_9A1B_9A22_9A20_9A27_9A23_9A1E_9A1C_9A14_9AC2_9B0B),
  (0x8CB1, 0x9B0A_9B0E_9B0C_9B37_9BEA_9BEB_9BE0_9BDE_9BE4_9BE6_9BE2_9BF0),
  (0x8CBD, 0x9BD4_9BD7_9BEC_9BDC_9BD9_9BE5_9BD5_9BE1_9BDA_9D77_9D81_9D8A),
  (0x8CC9, 0x9D84_9D88_9D71_9D80_9D78_9D86_9D8B_9D8C_9D7D_9D6B_9D74_9D75),
  (0x8CD5, 0x9D70_9D69_9D85_9D73_9D7B_9D82_9D6F_9D79_9D7F_9D87_9D68_9E94),
  (0x8CE1, 0x9E91_9EC0_9EFC_9F2D_9F40_9F41_9F4D_9F56_9F57_9F58_5337_56B2),
  (0x8CED, 0x56B5_56B3_58E3_5B45_5DC6_5DC7_5EEE_5EEF_5FC0_5FC1_61F9_6517),
  (0x8CF9, 0x6516_6515_6513_65DF_66E8),
  (0x8D41, 0x66E3_66E4_6AF3_6AF0_6AEA_6AE8_6AF9_6AF1_6AEE_6AEF_703C_7035),
  (0x8D4D, 0x702F_7037_7034_7031_7042_7038_703F_703A_7039_7040_703B_7033),
  (0x8D59, 0x7041_7213_7214_72A8_737D_737C_74BA_76AB_76AA_76BE_76ED_77CC),
  (0x8D65, 0x77CE_77CF_77CD_77F2_7925_7923_7927_7928_7924_7929_79B2_7A6E),
  (0x8D71, 0x7A6C_7A6D_7AF7_7C49_7C48_7C4A_7C47_7C45_7CEE_7E7B_7E7E_7E81),
  (0x8D7D, 0x7E80_7FBA_7FFF),
  (0x8D81, 0x8079_81DB_81D9_820B_8268_8269_8622_85FF_8601_85FE_861B_8600),
  (0x8D8D, 0x85F6_8604_8609_8605_860C_85FD_8819_8810_8811_8817_8813_8816),
  (0x8D99, 0x8963_8966_89B9_89F7_8B60_8B6A_8B5D_8B68_8B63_8B65_8B67_8B6D),
  (0x8DA5, 0x8DAE_8E86_8E88_8E84_8F59_8F56_8F57_8F55_8F58_8F5A_908D_9143),
  (0x8DB1, 0x9141_91B7_91B5_91B2_91B3_940B_9413_93FB_9420_940F_9414_93FE),
  (0x8DBD, 0x9415_9410_9428_9419_940D_93F5_9400_93F7_9407_940E_9416_9412),
  (0x8DC9, 0x93FA_9409_93F8_940A_93FF_93FC_940C_93F6_9411_9406_95DE_95E0),
  (0x8DD5, 0x95DF_972E_972F_97B9_97BB_97FD_97FE_9860_9862_9863_985F_98C1),
  (0x8DE1, 0x98C2_9950_994E_9959_994C_994B_9953_9A32_9A34_9A31_9A2C_9A2A),
  (0x8DED, 0x9A36_9A29_9A2E_9A38_9A2D_9AC7_9ACA_9AC6_9B10_9B12_9B11_9C0B),
  (0x8DF9, 0x9C08_9BF7_9C05_9C12_9BF8),
  (0x8E41, 0x9C40_9C07_9C0E_9C06_9C17_9C14_9C09_9D9F_9D99_9DA4_9D9D_9D92),
  (0x8E4D, 0x9D98_9D90_9D9B_9DA0_9D94_9D9C_9DAA_9D97_9DA1_9D9A_9DA2_9DA8),
  (0x8E59, 0x9D9E_9DA3_9DBF_9DA9_9D96_9DA6_9DA7_9E99_9E9B_9E9A_9EE5_9EE4),
  (0x8E65, 0x9EE7_9EE6_9F30_9F2E_9F5B_9F60_9F5E_9F5D_9F59_9F91_513A_5139),
  (0x8E71, 0x5298_5297_56C3_56BD_56BE_5B48_5B47_5DCB_5DCF_5EF1_61FD_651B),
  (0x8E7D, 0x6B02_6AFC_6B03),
  (0x8E81, 0x6AF8_6B00_7043_7044_704A_7048_7049_7045_7046_721D_721A_7219),
  (0x8E8D, 0x737E_7517_766A_77D0_792D_7931_792F_7C54_7C53_7CF2_7E8A_7E87),
  (0x8E99, 0x7E88_7E8B_7E86_7E8D_7F4D_7FBB_8030_81DD_8618_862A_8626_861F),
  (0x8EA5, 0x8623_861C_8619_8627_862E_8621_8620_8629_861E_8625_8829_881D),
  (0x8EB1, 0x881B_8820_8824_881C_882B_884A_896D_8969_896E_896B_89FA_8B79),
  (0x8EBD, 0x8B78_8B45_8B7A_8B7B_8D10_8D14_8DAF_8E8E_8E8C_8F5E_8F5B_8F5D),
  (0x8EC9, 0x9146_9144_9145_91B9_943F_943B_9436_9429_943D_943C_9430_9439),
  (0x8ED5, 0x942A_9437_942C_9440_9431_95E5_95E4_95E3_9735_973A_97BF_97E1),
  (0x8EE1, 0x9864_98C9_98C6_98C0_9958_9956_9A39_9A3D_9A46_9A44_9A42_9A41),
  (0x8EED, 0x9A3A_9A3F_9ACD_9B15_9B17_9B18_9B16_9B3A_9B52_9C2B_9C1D_9C1C),
  (0x8EF9, 0x9C2C_9C23_9C28_9C29_9C24),
  (0x8F41, 0x9C21_9DB7_9DB6_9DBC_9DC1_9DC7_9DCA_9DCF_9DBE_9DC5_9DC3_9DBB),
  (0x8F4D, 0x9DB5_9DCE_9DB9_9DBA_9DAC_9DC8_9DB1_9DAD_9DCC_9DB3_9DCD_9DB2),
  (0x8F59, 0x9E7A_9E9C_9EEB_9EEE_9EED_9F1B_9F18_9F1A_9F31_9F4E_9F65_9F64),
  (0x8F65, 0x9F92_4EB9_56C6_56C5_56CB_5971_5B4B_5B4C_5DD5_5DD1_5EF2_6521),
  (0x8F71, 0x6520_6526_6522_6B0B_6B08_6B09_6C0D_7055_7056_7057_7052_721E),
  (0x8F7D, 0x721F_72A9_737F),
  (0x8F81, 0x74D8_74D5_74D9_74D7_766D_76AD_7935_79B4_7A70_7A71_7C57_7C5C),
  (0x8F8D, 0x7C59_7C5B_7C5A_7CF4_7CF1_7E91_7F4F_7F87_81DE_826B_8634_8635),
  (0x8F99, 0x8633_862C_8632_8636_882C_8828_8826_882A_8825_8971_89BF_89BE),
  (0x8FA5, 0x89FB_8B7E_8B84_8B82_8B86_8B85_8B7F_8D15_8E95_8E94_8E9A_8E92),
  (0x8FB1, 0x8E90_8E96_8E97_8F60_8F62_9147_944C_9450_944A_944B_944F_9447),
  (0x8FBD, 0x9445_9448_9449_9446_973F_97E3_986A_9869_98CB_9954_995B_9A4E),
  (0x8FC9, 0x9A53_9A54_9A4C_9A4F_9A48_9A4A_9A49_9A52_9A50_9AD0_9B19_9B2B),
  (0x8FD5, 0x9B3B_9B56_9B55_9C46_9C48_9C3F_9C44_9C39_9C33_9C41_9C3C_9C37),
  (0x8FE1, 0x9C34_9C32_9C3D_9C36_9DDB_9DD2_9DDE_9DDA_9DCB_9DD0_9DDC_9DD1),
  (0x8FED, 0x9DDF_9DE9_9DD9_9DD8_9DD6_9DF5_9DD5_9DDD_9EB6_9EF0_9F35_9F33),
  (0x8FF9, 0x9F32_9F42_9F6B_9F95_9FA2),
  (0x9041, 0x513D_5299_58E8_58E7_5972_5B4D_5DD8_882F_5F4F_6201_6203_6204),
  (0x904D, 0x6529_6525_6596_66EB_6B11_6B12_6B0F_6BCA_705B_705A_7222_7382),
  (0x9059, 0x7381_7383_7670_77D4_7C67_7C66_7E95_826C_863A_8640_8639_863C),
  (0x9065, 0x8631_863B_863E_8830_8832_882E_8833_8976_8974_8973_89FE_8B8C),
  (0x9071, 0x8B8E_8B8B_8B88_8C45_8D19_8E98_8F64_8F63_91BC_9462_9455_945D),
  (0x907D, 0x9457_945E_97C4),
  (0x9081, 0x97C5_9800_9A56_9A59_9B1E_9B1F_9B20_9C52_9C58_9C50_9C4A_9C4D),
  (0x908D, 0x9C4B_9C55_9C59_9C4C_9C4E_9DFB_9DF7_9DEF_9DE3_9DEB_9DF8_9DE4),
  (0x9099, 0x9DF6_9DE1_9DEE_9DE6_9DF2_9DF0_9DE2_9DEC_9DF4_9DF3_9DE8_9DED),
  (0x90A5, 0x9EC2_9ED0_9EF2_9EF3_9F06_9F1C_9F38_9F37_9F36_9F43_9F4F_9F71),
  (0x90B1, 0x9F70_9F6E_9F6F_56D3_56CD_5B4E_5C6D_652D_66ED_66EE_6B13_705F),
  (0x90BD, 0x7061_705D_7060_7223_74DB_74E5_77D5_7938_79B7_79B6_7C6A_7E97),
  (0x90C9, 0x7F89_826D_8643_8838_8837_8835_884B_8B94_8B95_8E9E_8E9F_8EA0),
  (0x90D5, 0x8E9D_91BE_91BD_91C2_946B_9468_9469_96E5_9746_9743_9747_97C7),
  (0x90E1, 0x97E5_9A5E_9AD5_9B59_9C63_9C67_9C66_9C62_9C5E_9C60_9E02_9DFE),
  (0x90ED, 0x9E07_9E03_9E06_9E05_9E00_9E01_9E09_9DFF_9DFD_9E04_9EA0_9F1E),
  (0x90F9, 0x9F46_9F74_9F75_9F76_56D4),
  (0x9141, 0x652E_65B8_6B18_6B19_6B17_6B1A_7062_7226_72AA_77D8_77D9_7939),
  (0x914D, 0x7C69_7C6B_7CF6_7E9A_7E98_7E9B_7E99_81E0_81E1_8646_8647_8648),
  (0x9159, 0x8979_897A_897C_897B_89FF_8B98_8B99_8EA5_8EA4_8EA3_946E_946D),
  (0x9165, 0x946F_9471_9473_9749_9872_995F_9C68_9C6E_9C6D_9E0B_9E0D_9E10),
  (0x9171, 0x9E0F_9E12_9E11_9EA1_9EF5_9F09_9F47_9F78_9F7B_9F7A_9F79_571E),
  (0x917D, 0x7066_7C6F_883C),
  (0x9181, 0x8DB2_8EA6_91C3_9474_9478_9476_9475_9A60_9C74_9C73_9C71_9C75),
  (0x918D, 0x9E14_9E13_9EF6_9F0A_9FA4_7068_7065_7CF7_866A_883E_883D_883F),
  (0x9199, 0x8B9E_8C9C_8EA9_8EC9_974B_9873_9874_98CC_9961_99AB_9A64_9A66),
  (0x91A5, 0x9A67_9B24_9E15_9E17_9F48_6207_6B1E_7227_864C_8EA8_9482_9480),
  (0x91B1, 0x9481_9A69_9A68_9B2E_9E19_7229_864B_8B9F_9483_9C79_9EB7_7675),
  (0x91BD, 0x9A6B_9C7A_9E1D_7069_706A_9EA4_9F7E_9F49_9F98_691E_6EB8),
  (0xC241, 0xE000_E001_E002_E003_E004_E005_E006_E007_E008_E009_E00A_E00B),
  (0xC24D, 0xE00C_E00D_E00E_E00F_E010_E011_E012_E013_E014_E015_E016_E017),
  (0xC259, 0xE018_E019_E01A_E01B_E01C_E01D_E01E_E01F_E020_E021_E022_E023),
  (0xC265, 0xE024_E025_E026_E027_E028_E029_E02A_E02B_E02C_E02D_E02E_E02F),
  (0xC271, 0xE030_E031_E032_E033_E034_E035_E036_E037_E038_E039_E03A_E03B),
  (0xC27D, 0xE03C_E03D_E03E),
  (0xC281, 0xE03F_E040_E041_E042_E043_E044_E045_E046_E047_E048_E049_E04A),
  (0xC28D, 0xE04B_E04C_E04D_E04E_E04F_E050_E051_E052_E053_E054_E055_E056),
  (0xC299, 0xE057_E058_E059_E05A_E05B_E05C_E05D_E05E_E05F_E060_E061_E062),
  (0xC2A5, 0xE063_E064_E065_E066_E067_E068_E069_E06A_E06B_E06C_E06D_E06E),
  (0xC2B1, 0xE06F_E070_E071_E072_E073_E074_E075_E076_E077_E078_E079_E07A),
  (0xC2BD, 0xE07B_E07C_E07D_E07E_E07F_E080_E081_E082_E083_E084_E085_E086),
  (0xC2C9, 0xE087_E088_E089_E08A_E08B_E08C_E08D_E08E_E08F_E090_E091_E092),
  (0xC2D5, 0xE093_E094_E095_E096_E097_E098_E099_E09A_E09B_E09C_E09D_E09E),
  (0xC2E1, 0xE09F_E0A0_E0A1_E0A2_E0A3_E0A4_E0A5_E0A6_E0A7_E0A8_E0A9_E0AA),
  (0xC2ED, 0xE0AB_E0AC_E0AD_E0AE_E0AF_E0B0_E0B1_E0B2_E0B3_E0B4_E0B5_E0B6),
  (0xC2F9, 0xE0B7_E0B8_E0B9_E0BA_E0BB),
  (0xC341, 0xE0BC_E0BD_E0BE_E0BF_E0C0_E0C1_E0C2_E0C3_E0C4_E0C5_E0C6_E0C7),
  (0xC34D, 0xE0C8_E0C9_E0CA_E0CB_E0CC_E0CD_E0CE_E0CF_E0D0_E0D1_E0D2_E0D3),
  (0xC359, 0xE0D4_E0D5_E0D6_E0D7_E0D8_E0D9_E0DA_E0DB_E0DC_E0DD_E0DE_E0DF),
  (0xC365, 0xE0E0_E0E1_E0E2_E0E3_E0E4_E0E5_E0E6_E0E7_E0E8_E0E9_E0EA_E0EB),
  (0xC371, 0xE0EC_E0ED_E0EE_E0EF_E0F0_E0F1_E0F2_E0F3_E0F4_E0F5_E0F6_E0F7),
  (0xC37D, 0xE0F8_E0F9_E0FA),
  (0xC381, 0xE0FB_E0FC_E0FD_E0FE_E0FF_E100_E101_E102_E103_E104_E105_E106),
  (0xC38D, 0xE107_E108_E109_E10A_E10B_E10C_E10D_E10E_E10F_E110_E111_E112),
  (0xC399, 0xE113_E114_E115_E116_E117_E118_E119_E11A_E11B_E11C_E11D_E11E),
  (0xC3A5, 0xE11F_E120_E121_E122_E123_E124_E125_E126_E127_E128_E129_E12A),
  (0xC3B1, 0xE12B_E12C_E12D_E12E_E12F_E130_E131_E132_E133_E134_E135_E136),
  (0xC3BD, 0xE137_E138_E139_E13A_E13B_E13C_E13D_E13E_E13F_E140_E141_E142),
  (0xC3C9, 0xE143_E144_E145_E146_E147_E148_E149_E14A_E14B_E14C_E14D_E14E),
  (0xC3D5, 0xE14F_E150_E151_E152_E153_E154_E155_E156_E157_E158_E159_E15A),
  (0xC3E1, 0xE15B_E15C_E15D_E15E_E15F_E160_E161_E162_E163_E164_E165_E166),
  (0xC3ED, 0xE167_E168_E169_E16A_E16B_E16C_E16D_E16E_E16F_E170_E171_E172),
  (0xC3F9, 0xE173_E174_E175_E176_E177),
  (0xC441, 0xE178_E179_E17A_E17B_E17C_E17D_E17E_E17F_E180_E181_E182_E183),
  (0xC44D, 0xE184_E185_E186_E187_E188_E189_E18A_E18B_E18C_E18D_E18E_E18F),
  (0xC459, 0xE190_E191_E192_E193_E194_E195_E196_E197_E198_E199_E19A_E19B),
  (0xC465, 0xE19C_E19D_E19E_E19F_E1A0_E1A1_E1A2_E1A3_E1A4_E1A5_E1A6_E1A7),
  (0xC471, 0xE1A8_E1A9_E1AA_E1AB_E1AC_E1AD_E1AE_E1AF_E1B0_E1B1_E1B2_E1B3),
  (0xC47D, 0xE1B4_E1B5_E1B6),
  (0xC481, 0xE1B7_E1B8_E1B9_E1BA_E1BB_E1BC_E1BD_E1BE_E1BF_E1C0_E1C1_E1C2),
  (0xC48D, 0xE1C3_E1C4_E1C5_E1C6_E1C7_E1C8_E1C9_E1CA_E1CB_E1CC_E1CD_E1CE),
  (0xC499, 0xE1CF_E1D0_E1D1_E1D2_E1D3_E1D4_E1D5_E1D6_E1D7_E1D8_E1D9_E1DA),
  (0xC4A5, 0xE1DB_E1DC_E1DD_E1DE_E1DF_E1E0_E1E1_E1E2_E1E3_E1E4_E1E5_E1E6),
  (0xC4B1, 0xE1E7_E1E8_E1E9_E1EA_E1EB_E1EC_E1ED_E1EE_E1EF_E1F0_E1F1_E1F2),
  (0xC4BD, 0xE1F3_E1F4_E1F5_E1F6_E1F7_E1F8_E1F9_E1FA_E1FB_E1FC_E1FD_E1FE),
  (0xC4C9, 0xE1FF_E200_E201_E202_E203_E204_E205_E206_E207_E208_E209_E20A),
  (0xC4D5, 0xE20B_E20C_E20D_E20E_E20F_E210_E211_E212_E213_E214_E215_E216),
  (0xC4E1, 0xE217_E218_E219_E21A_E21B_E21C_E21D_E21E_E21F_E220_E221_E222),
  (0xC4ED, 0xE223_E224_E225_E226_E227_E228_E229_E22A_E22B_E22C_E22D_E22E),
  (0xC4F9, 0xE22F_E230_E231_E232_E233),
  (0xC541, 0xE234_E235_E236_E237_E238_E239_E23A_E23B_E23C_E23D_E23E_E23F),
  (0xC54D, 0xE240_E241_E242_E243_E244_E245_E246_E247_E248_E249_E24A_E24B),
  (0xC559, 0xE24C_E24D_E24E_E24F_E250_E251_E252_E253_E254_E255_E256_E257),
  (0xC565, 0xE258_E259_E25A_E25B_E25C_E25D_E25E_E25F_E260_E261_E262_E263),
  (0xC571, 0xE264_E265_E266_E267_E268_E269_E26A_E26B_E26C_E26D_E26E_E26F),
  (0xC57D, 0xE270_E271_E272),
  (0xC581, 0xE273_E274_E275_E276_E277_E278_E279_E27A_E27B_E27C_E27D_E27E),
  (0xC58D, 0xE27F_E280_E281_E282_E283_E284_E285_E286_E287_E288_E289_E28A),
  (0xC599, 0xE28B_E28C_E28D_E28E_E28F_E290_E291_E292_E293_E294_E295_E296),
  (0xC5A5, 0xE297_E298_E299_E29A_E29B_E29C_E29D_E29E_E29F_E2A0_E2A1_E2A2),
  (0xC5B1, 0xE2A3_E2A4_E2A5_E2A6_E2A7_E2A8_E2A9_E2AA_E2AB_E2AC_E2AD_E2AE),
  (0xC5BD, 0xE2AF_E2B0_E2B1_E2B2_E2B3_E2B4_E2B5_E2B6_E2B7_E2B8_E2B9_E2BA),
  (0xC5C9, 0xE2BB_E2BC_E2BD_E2BE_E2BF_E2C0_E2C1_E2C2_E2C3_E2C4_E2C5_E2C6),
  (0xC5D5, 0xE2C7_E2C8_E2C9_E2CA_E2CB_E2CC_E2CD_E2CE_E2CF_E2D0_E2D1_E2D2),
  (0xC5E1, 0xE2D3_E2D4_E2D5_E2D6_E2D7_E2D8_E2D9_E2DA_E2DB_E2DC_E2DD_E2DE),
  (0xC5ED, 0xE2DF_E2E0_E2E1_E2E2_E2E3_E2E4_E2E5_E2E6_E2E7_E2E8_E2E9_E2EA),
  (0xC5F9, 0xE2EB_E2EC_E2ED_E2EE_E2EF),
  (0xC641, 0xE2F0_E2F1_E2F2_E2F3_E2F4_E2F5_E2F6_E2F7_E2F8_E2F9_E2FA_E2FB),
  (0xC64D, 0xE2FC_E2FD_E2FE_E2FF_E300_E301_E302_E303_E304_E305_E306_E307),
  (0xC659, 0xE308_E309_E30A_E30B_E30C_E30D_E30E_E30F_E310_E311_E312_E313),
  (0xC665, 0xE314_E315_E316_E317_E318_E319_E31A_E31B_E31C_E31D_E31E_E31F),
  (0xC671, 0xE320_E321_E322_E323_E324_E325_E326_E327_E328_E329_E32A_E32B),
  (0xC67D, 0xE32C_E32D_E32E),
  (0xC681, 0xE32F_E330_E331_E332_E333_E334_E335_E336_E337_E338_E339_E33A),
  (0xC68D, 0xE33B_E33C_E33D_E33E_E33F_E340_E341_E342_E343_E344_E345_E346),
  (0xC699, 0xE347_E348_E349_E34A_E34B_E34C_E34D_E34E_E34F_E350_E351_E352),
  (0xC6A5, 0xE353_E354_E355_E356_E357_E358_E359_E35A_E35B_E35C_E35D_E35E),
  (0xC6B1, 0xE35F_E360_E361_E362_E363_E364_E365_E366_E367_E368_E369_E36A),
  (0xC6BD, 0xE36B_E36C_E36D_E36E_E36F_E370_E371_E372_E373_E374_E375_E376),
  (0xC6C9, 0xE377_E378_E379_E37A_E37B_E37C_E37D_E37E_E37F_E380_E381_E382),
  (0xC6D5, 0xE383_E384_E385_E386_E387_E388_E389_E38A_E38B_E38C_E38D_E38E),
  (0xC6E1, 0xE38F_E390_E391_E392_E393_E394_E395_E396_E397_E398_E399_E39A),
  (0xC6ED, 0xE39B_E39C_E39D_E39E_E39F_E3A0_E3A1_E3A2_E3A3_E3A4_E3A5_E3A6),
  (0xC6F9, 0xE3A7_E3A8_E3A9_E3AA_E3AB),
  (0xC741, 0xE3AC_E3AD_E3AE_E3AF_E3B0_E3B1_E3B2_E3B3_E3B4_E3B5_E3B6_E3B7),
  (0xC74D, 0xE3B8_E3B9_E3BA_E3BB_E3BC_E3BD_E3BE_E3BF_E3C0_E3C1_E3C2_E3C3),
  (0xC759, 0xE3C4_E3C5_E3C6_E3C7_E3C8_E3C9_E3CA_E3CB_E3CC_E3CD_E3CE_E3CF),
  (0xC765, 0xE3D0_E3D1_E3D2_E3D3_E3D4_E3D5_E3D6_E3D7_E3D8_E3D9_E3DA_E3DB),
  (0xC771, 0xE3DC_E3DD_E3DE_E3DF_E3E0_E3E1_E3E2_E3E3_E3E4_E3E5_E3E6_E3E7),
  (0xC77D, 0xE3E8_E3E9_E3EA),
  (0xC781, 0xE3EB_E3EC_E3ED_E3EE_E3EF_E3F0_E3F1_E3F2_E3F3_E3F4_E3F5_E3F6),
  (0xC78D, 0xE3F7_E3F8_E3F9_E3FA_E3FB_E3FC_E3FD_E3FE_E3FF_E400_E401_E402),
  (0xC799, 0xE403_E404_E405_E406_E407_E408_E409_E40A_E40B_E40C_E40D_E40E),
  (0xC7A5, 0xE40F_E410_E411_E412_E413_E414_E415_E416_E417_E418_E419_E41A),
  (0xC7B1, 0xE41B_E41C_E41D_E41E_E41F_E420_E421_E422_E423_E424_E425_E426),
  (0xC7BD, 0xE427_E428_E429_E42A_E42B_E42C_E42D_E42E_E42F_E430_E431_E432),
  (0xC7C9, 0xE433_E434_E435_E436_E437_E438_E439_E43A_E43B_E43C_E43D_E43E),
  (0xC7D5, 0xE43F_E440_E441_E442_E443_E444_E445_E446_E447_E448_E449_E44A),
  (0xC7E1, 0xE44B_E44C_E44D_E44E_E44F_E450_E451_E452_E453_E454_E455_E456),
  (0xC7ED, 0xE457_E458_E459_E45A_E45B_E45C_E45D_E45E_E45F_E460_E461_E462),
  (0xC7F9, 0xE463_E464_E465_E466_E467),
  (0xC841, 0xE468_E469_E46A_E46B_E46C_E46D_E46E_E46F_E470_E471_E472_E473),
  (0xC84D, 0xE474_E475_E476_E477_E478_E479_E47A_E47B_E47C_E47D_E47E_E47F),
  (0xC859, 0xE480_E481_E482_E483_E484_E485_E486_E487_E488_E489_E48A_E48B),
  (0xC865, 0xE48C_E48D_E48E_E48F_E490_E491_E492_E493_E494_E495_E496_E497),
  (0xC871, 0xE498_E499_E49A_E49B_E49C_E49D_E49E_E49F_E4A0_E4A1_E4A2_E4A3),
  (0xC87D, 0xE4A4_E4A5_E4A6),
  (0xC881, 0xE4A7_E4A8_E4A9_E4AA_E4AB_E4AC_E4AD_E4AE_E4AF_E4B0_E4B1_E4B2),
  (0xC88D, 0xE4B3_E4B4_E4B5_E4B6_E4B7_E4B8_E4B9_E4BA_E4BB_E4BC_E4BD_E4BE),
  (0xC899, 0xE4BF_E4C0_E4C1_E4C2_E4C3_E4C4_E4C5_E4C6_E4C7_E4C8_E4C9_E4CA),
  (0xC8A5, 0xE4CB_E4CC_E4CD_E4CE_E4CF_E4D0_E4D1_E4D2_E4D3_E4D4_E4D5_E4D6),
  (0xC8B1, 0xE4D7_E4D8_E4D9_E4DA_E4DB_E4DC_E4DD_E4DE_E4DF_E4E0_E4E1_E4E2),
  (0xC8BD, 0xE4E3_E4E4_E4E5_E4E6_E4E7_E4E8_E4E9_E4EA_E4EB_E4EC_E4ED_E4EE),
  (0xC8C9, 0xE4EF_E4F0_E4F1_E4F2_E4F3_E4F4_E4F5_E4F6_E4F7_E4F8_E4F9_E4FA),
  (0xC8D5, 0xE4FB_E4FC_E4FD_E4FE_E4FF_E500_E501_E502_E503_E504_E505_E506),
  (0xC8E1, 0xE507_E508_E509_E50A_E50B_E50C_E50D_E50E_E50F_E510_E511_E512),
  (0xC8ED, 0xE513_E514_E515_E516_E517_E518_E519_E51A_E51B_E51C_E51D_E51E),
  (0xC8F9, 0xE51F_E520_E521_E522_E523),
  (0xC941, 0xE524_E525_E526_E527_E528_E529_E52A_E52B_E52C_E52D_E52E_E52F),
  (0xC94D, 0xE530_E531_E532_E533_E534_E535_E536_E537_E538_E539_E53A_E53B),
  (0xC959, 0xE53C_E53D_E53E_E53F_E540_E541_E542_E543_E544_E545_E546_E547),
  (0xC965, 0xE548_E549_E54A_E54B_E54C_E54D_E54E_E54F_E550_E551_E552_E553),
  (0xC971, 0xE554_E555_E556_E557_E558_E559_E55A_E55B_E55C_E55D_E55E_E55F),
  (0xC97D, 0xE560_E561_E562),
  (0xC981, 0xE563_E564_E565_E566_E567_E568_E569_E56A_E56B_E56C_E56D_E56E),
  (0xC98D, 0xE56F_E570_E571_E572_E573_E574_E575_E576_E577_E578_E579_E57A),
  (0xC999, 0xE57B_E57C_E57D_E57E_E57F_E580_E581_E582_E583_E584_E585_E586),
  (0xC9A5, 0xE587_E588_E589_E58A_E58B_E58C_E58D_E58E_E58F_E590_E591_E592),
  (0xC9B1, 0xE593_E594_E595_E596_E597_E598_E599_E59A_E59B_E59C_E59D_E59E),
  (0xC9BD, 0xE59F_E5A0_E5A1_E5A2_E5A3_E5A4_E5A5_E5A6_E5A7_E5A8_E5A9_E5AA),
  (0xC9C9, 0xE5AB_E5AC_E5AD_E5AE_E5AF_E5B0_E5B1_E5B2_E5B3_E5B4_E5B5_E5B6),
  (0xC9D5, 0xE5B7_E5B8_E5B9_E5BA_E5BB_E5BC_E5BD_E5BE_E5BF_E5C0_E5C1_E5C2),
  (0xC9E1, 0xE5C3_E5C4_E5C5_E5C6_E5C7_E5C8_E5C9_E5CA_E5CB_E5CC_E5CD_E5CE),
  (0xC9ED, 0xE5CF_E5D0_E5D1_E5D2_E5D3_E5D4_E5D5_E5D6_E5D7_E5D8_E5D9_E5DA),
  (0xC9F9, 0xE5DB_E5DC_E5DD_E5DE_E5DF),
  (0xCA41, 0xE5E0_E5E1_E5E2_E5E3_E5E4_E5E5_E5E6_E5E7_E5E8_E5E9_E5EA_E5EB),
  (0xCA4D, 0xE5EC_E5ED_E5EE_E5EF_E5F0_E5F1_E5F2_E5F3_E5F4_E5F5_E5F6_E5F7),
  (0xCA59, 0xE5F8_E5F9_E5FA_E5FB_E5FC_E5FD_E5FE_E5FF_E600_E601_E602_E603),
  (0xCA65, 0xE604_E605_E606_E607_E608_E609_E60A_E60B_E60C_E60D_E60E_E60F),
  (0xCA71, 0xE610_E611_E612_E613_E614_E615_E616_E617_E618_E619_E61A_E61B),
  (0xCA7D, 0xE61C_E61D_E61E),
  (0xCA81, 0xE61F_E620_E621_E622_E623_E624_E625_E626_E627_E628_E629_E62A),
  (0xCA8D, 0xE62B_E62C_E62D_E62E_E62F_E630_E631_E632_E633_E634_E635_E636),
  (0xCA99, 0xE637_E638_E639_E63A_E63B_E63C_E63D_E63E_E63F_E640_E641_E642),
  (0xCAA5, 0xE643_E644_E645_E646_E647_E648_E649_E64A_E64B_E64C_E64D_E64E),
  (0xCAB1, 0xE64F_E650_E651_E652_E653_E654_E655_E656_E657_E658_E659_E65A),
  (0xCABD, 0xE65B_E65C_E65D_E65E_E65F_E660_E661_E662_E663_E664_E665_E666),
  (0xCAC9, 0xE667_E668_E669_E66A_E66B_E66C_E66D_E66E_E66F_E670_E671_E672),
  (0xCAD5, 0xE673_E674_E675_E676_E677_E678_E679_E67A_E67B_E67C_E67D_E67E),
  (0xCAE1, 0xE67F_E680_E681_E682_E683_E684_E685_E686_E687_E688_E689_E68A),
  (0xCAED, 0xE68B_E68C_E68D_E68E_E68F_E690_E691_E692_E693_E694_E695_E696),
  (0xCAF9, 0xE697_E698_E699_E69A_E69B),
  (0xCB41, 0xE69C_E69D_E69E_E69F_E6A0_E6A1_E6A2_E6A3_E6A4_E6A5_E6A6_E6A7),
  (0xCB4D, 0xE6A8_E6A9_E6AA_E6AB_E6AC_E6AD_E6AE_E6AF_E6B0_E6B1_E6B2_E6B3),
  (0xCB59, 0xE6B4_E6B5_E6B6_E6B7_E6B8_E6B9_E6BA_E6BB_E6BC_E6BD_E6BE_E6BF),
  (0xCB65, 0xE6C0_E6C1_E6C2_E6C3_E6C4_E6C5_E6C6_E6C7_E6C8_E6C9_E6CA_E6CB),
  (0xCB71, 0xE6CC_E6CD_E6CE_E6CF_E6D0_E6D1_E6D2_E6D3_E6D4_E6D5_E6D6_E6D7),
  (0xCB7D, 0xE6D8_E6D9_E6DA),
  (0xCB81, 0xE6DB_E6DC_E6DD_E6DE_E6DF_E6E0_E6E1_E6E2_E6E3_E6E4_E6E5_E6E6),
  (0xCB8D, 0xE6E7_E6E8_E6E9_E6EA_E6EB_E6EC_E6ED_E6EE_E6EF_E6F0_E6F1_E6F2),
  (0xCB99, 0xE6F3_E6F4_E6F5_E6F6_E6F7_E6F8_E6F9_E6FA_E6FB_E6FC_E6FD_E6FE),
  (0xCBA5, 0xE6FF_E700_E701_E702_E703_E704_E705_E706_E707_E708_E709_E70A),
  (0xCBB1, 0xE70B_E70C_E70D_E70E_E70F_E710_E711_E712_E713_E714_E715_E716),
  (0xCBBD, 0xE717_E718_E719_E71A_E71B_E71C_E71D_E71E_E71F_E720_E721_E722),
  (0xCBC9, 0xE723_E724_E725_E726_E727_E728_E729_E72A_E72B_E72C_E72D_E72E),
  (0xCBD5, 0xE72F_E730_E731_E732_E733_E734_E735_E736_E737_E738_E739_E73A),
  (0xCBE1, 0xE73B_E73C_E73D_E73E_E73F_E740_E741_E742_E743_E744_E745_E746),
  (0xCBED, 0xE747_E748_E749_E74A_E74B_E74C_E74D_E74E_E74F_E750_E751_E752),
  (0xCBF9, 0xE753_E754_E755_E756_E757),
  (0xCC41, 0xE758_E759_E75A_E75B_E75C_E75D_E75E_E75F_E760_E761_E762_E763),
  (0xCC4D, 0xE764_E765_E766_E767_E768_E769_E76A_E76B_E76C_E76D_E76E_E76F),
  (0xCC59, 0xE770_E771_E772_E773_E774_E775_E776_E777_E778_E779_E77A_E77B),
  (0xCC65, 0xE77C_E77D_E77E_E77F_E780_E781_E782_E783_E784_E785_E786_E787),
  (0xCC71, 0xE788_E789_E78A_E78B_E78C_E78D_E78E_E78F_E790_E791_E792_E793),
  (0xCC7D, 0xE794_E795_E796),
  (0xCC81, 0xE797_E798_E799_E79A_E79B_E79C_E79D_E79E_E79F_E7A0_E7A1_E7A2),
  (0xCC8D, 0xE7A3_E7A4_E7A5_E7A6_E7A7_E7A8_E7A9_E7AA_E7AB_E7AC_E7AD_E7AE),
  (0xCC99, 0xE7AF_E7B0_E7B1_E7B2_E7B3_E7B4_E7B5_E7B6_E7B7_E7B8_E7B9_E7BA),
  (0xCCA5, 0xE7BB_E7BC_E7BD_E7BE_E7BF_E7C0_E7C1_E7C2_E7C3_E7C4_E7C5_E7C6),
  (0xCCB1, 0xE7C7_E7C8_E7C9_E7CA_E7CB_E7CC_E7CD_E7CE_E7CF_E7D0_E7D1_E7D2),
  (0xCCBD, 0xE7D3_E7D4_E7D5_E7D6_E7D7_E7D8_E7D9_E7DA_E7DB_E7DC_E7DD_E7DE),
  (0xCCC9, 0xE7DF_E7E0_E7E1_E7E2_E7E3_E7E4_E7E5_E7E6_E7E7_E7E8_E7E9_E7EA),
  (0xCCD5, 0xE7EB_E7EC_E7ED_E7EE_E7EF_E7F0_E7F1_E7F2_E7F3_E7F4_E7F5_E7F6),
  (0xCCE1, 0xE7F7_E7F8_E7F9_E7FA_E7FB_E7FC_E7FD_E7FE_E7FF_E800_E801_E802),
  (0xCCED, 0xE803_E804_E805_E806_E807_E808_E809_E80A_E80B_E80C_E80D_E80E),
  (0xCCF9, 0xE80F_E810_E811_E812_E813),
  (0xCD41, 0xE814_E815_E816_E817_E818_E819_E81A_E81B_E81C_E81D_E81E_E81F),
  (0xCD4D, 0xE820_E821_E822_E823_E824_E825_E826_E827_E828_E829_E82A_E82B),
  (0xCD59, 0xE82C_E82D_E82E_E82F_E830_E831_E832_E833_E834_E835_E836_E837),
  (0xCD65, 0xE838_E839_E83A_E83B_E83C_E83D_E83E_E83F_E840_E841_E842_E843),
  (0xCD71, 0xE844_E845_E846_E847_E848_E849_E84A_E84B_E84C_E84D_E84E_E84F),
  (0xCD7D, 0xE850_E851_E852),
  (0xCD81, 0xE853_E854_E855_E856_E857_E858_E859_E85A_E85B_E85C_E85D_E85E),
  (0xCD8D, 0xE85F_E860_E861_E862_E863_E864_E865_E866_E867_E868_E869_E86A),
  (0xCD99, 0xE86B_E86C_E86D_E86E_E86F_E870_E871_E872_E873_E874_E875_E876),
  (0xCDA5, 0xE877_E878_E879_E87A_E87B_E87C_E87D_E87E_E87F_E880_E881_E882),
  (0xCDB1, 0xE883_E884_E885_E886_E887_E888_E889_E88A_E88B_E88C_E88D_E88E),
  (0xCDBD, 0xE88F_E890_E891_E892_E893_E894_E895_E896_E897_E898_E899_E89A),
  (0xCDC9, 0xE89B_E89C_E89D_E89E_E89F_E8A0_E8A1_E8A2_E8A3_E8A4_E8A5_E8A6),
  (0xCDD5, 0xE8A7_E8A8_E8A9_E8AA_E8AB_E8AC_E8AD_E8AE_E8AF_E8B0_E8B1_E8B2),
  (0xCDE1, 0xE8B3_E8B4_E8B5_E8B6_E8B7_E8B8_E8B9_E8BA_E8BB_E8BC_E8BD_E8BE),
  (0xCDED, 0xE8BF_E8C0_E8C1_E8C2_E8C3_E8C4_E8C5_E8C6_E8C7_E8C8_E8C9_E8CA),
  (0xCDF9, 0xE8CB_E8CC_E8CD_E8CE_E8CF),
  (0xCE41, 0xE8D0_E8D1_E8D2_E8D3_E8D4_E8D5_E8D6_E8D7_E8D8_E8D9_E8DA_E8DB),
  (0xCE4D, 0xE8DC_E8DD_E8DE_E8DF_E8E0_E8E1_E8E2_E8E3_E8E4_E8E5_E8E6_E8E7),
  (0xCE59, 0xE8E8_E8E9_E8EA_E8EB_E8EC_E8ED_E8EE_E8EF_E8F0_E8F1_E8F2_E8F3),
  (0xCE65, 0xE8F4_E8F5_E8F6_E8F7_E8F8_E8F9_E8FA_E8FB_E8FC_E8FD_E8FE_E8FF),
  (0xCE71, 0xE900_E901_E902_E903_E904_E905_E906_E907_E908_E909_E90A_E90B),
  (0xCE7D, 0xE90C_E90D_E90E),
  (0xCE81, 0xE90F_E910_E911_E912_E913_E914_E915_E916_E917_E918_E919_E91A),
  (0xCE8D, 0xE91B_E91C_E91D_E91E_E91F_E920_E921_E922_E923_E924_E925_E926),
  (0xCE99, 0xE927_E928_E929_E92A_E92B_E92C_E92D_E92E_E92F_E930_E931_E932),
  (0xCEA5, 0xE933_E934_E935_E936_E937_E938_E939_E93A_E93B_E93C_E93D_E93E),
  (0xCEB1, 0xE93F_E940_E941_E942_E943_E944_E945_E946_E947_E948_E949_E94A),
  (0xCEBD, 0xE94B_E94C_E94D_E94E_E94F_E950_E951_E952_E953_E954_E955_E956),
  (0xCEC9, 0xE957_E958_E959_E95A_E95B_E95C_E95D_E95E_E95F_E960_E961_E962),
  (0xCED5, 0xE963_E964_E965_E966_E967_E968_E969_E96A_E96B_E96C_E96D_E96E),
  (0xCEE1, 0xE96F_E970_E971_E972_E973_E974_E975_E976_E977_E978_E979_E97A),
  (0xCEED, 0xE97B_E97C_E97D_E97E_E97F_E980_E981_E982_E983_E984_E985_E986),
  (0xCEF9, 0xE987_E988_E989_E98A_E98B),
  (0xCF41, 0xE98C_E98D_E98E_E98F_E990_E991_E992_E993_E994_E995_E996_E997),
  (0xCF4D, 0xE998_E999_E99A_E99B_E99C_E99D_E99E_E99F_E9A0_E9A1_E9A2_E9A3),
  (0xCF59, 0xE9A4_E9A5_E9A6_E9A7_E9A8_E9A9_E9AA_E9AB_E9AC_E9AD_E9AE_E9AF),
  (0xCF65, 0xE9B0_E9B1_E9B2_E9B3_E9B4_E9B5_E9B6_E9B7_E9B8_E9B9_E9BA_E9BB),
  (0xCF71, 0xE9BC_E9BD_E9BE_E9BF_E9C0_E9C1_E9C2_E9C3_E9C4_E9C5_E9C6_E9C7),
  (0xCF7D, 0xE9C8_E9C9_E9CA),
  (0xCF81, 0xE9CB_E9CC_E9CD_E9CE_E9CF_E9D0_E9D1_E9D2_E9D3_E9D4_E9D5_E9D6),
  (0xCF8D, 0xE9D7_E9D8_E9D9_E9DA_E9DB_E9DC_E9DD_E9DE_E9DF_E9E0_E9E1_E9E2),
  (0xCF99, 0xE9E3_E9E4_E9E5_E9E6_E9E7_E9E8_E9E9_E9EA_E9EB_E9EC_E9ED_E9EE),
  (0xCFA5, 0xE9EF_E9F0_E9F1_E9F2_E9F3_E9F4_E9F5_E9F6_E9F7_E9F8_E9F9_E9FA),
  (0xCFB1, 0xE9FB_E9FC_E9FD_E9FE_E9FF_EA00_EA01_EA02_EA03_EA04_EA05_EA06),
  (0xCFBD, 0xEA07_EA08_EA09_EA0A_EA0B_EA0C_EA0D_EA0E_EA0F_EA10_EA11_EA12),
  (0xCFC9, 0xEA13_EA14_EA15_EA16_EA17_EA18_EA19_EA1A_EA1B_EA1C_EA1D_EA1E),
  (0xCFD5, 0xEA1F_EA20_EA21_EA22_EA23_EA24_EA25_EA26_EA27_EA28_EA29_EA2A),
  (0xCFE1, 0xEA2B_EA2C_EA2D_EA2E_EA2F_EA30_EA31_EA32_EA33_EA34_EA35_EA36),
  (0xCFED, 0xEA37_EA38_EA39_EA3A_EA3B_EA3C_EA3D_EA3E_EA3F_EA40_EA41_EA42),
  (0xCFF9, 0xEA43_EA44_EA45_EA46_EA47),
  (0xD041, 0xEA48_EA49_EA4A_EA4B_EA4C_EA4D_EA4E_EA4F_EA50_EA51_EA52_EA53),
  (0xD04D, 0xEA54_EA55_EA56_EA57_EA58_EA59_EA5A_EA5B_EA5C_EA5D_EA5E_EA5F),
  (0xD059, 0xEA60_EA61_EA62_EA63_EA64_EA65_EA66_EA67_EA68_EA69_EA6A_EA6B),
  (0xD065, 0xEA6C_EA6D_EA6E_EA6F_EA70_EA71_EA72_EA73_EA74_EA75_EA76_EA77),
  (0xD071, 0xEA78_EA79_EA7A_EA7B_EA7C_EA7D_EA7E_EA7F_EA80_EA81_EA82_EA83),
  (0xD07D, 0xEA84_EA85_EA86),
  (0xD081, 0xEA87_EA88_EA89_EA8A_EA8B_EA8C_EA8D_EA8E_EA8F_EA90_EA91_EA92),
  (0xD08D, 0xEA93_EA94_EA95_EA96_EA97_EA98_EA99_EA9A_EA9B_EA9C_EA9D_EA9E),
  (0xD099, 0xEA9F_EAA0_EAA1_EAA2_EAA3_EAA4_EAA5_EAA6_EAA7_EAA8_EAA9_EAAA),
  (0xD0A5, 0xEAAB_EAAC_EAAD_EAAE_EAAF_EAB0_EAB1_EAB2_EAB3_EAB4_EAB5_EAB6),
  (0xD0B1, 0xEAB7_EAB8_EAB9_EABA_EABB_EABC_EABD_EABE_EABF_EAC0_EAC1_EAC2),
  (0xD0BD, 0xEAC3_EAC4_EAC5_EAC6_EAC7_EAC8_EAC9_EACA_EACB_EACC_EACD_EACE),
  (0xD0C9, 0xEACF_EAD0_EAD1_EAD2_EAD3_EAD4_EAD5_EAD6_EAD7_EAD8_EAD9_EADA),
  (0xD0D5, 0xEADB_EADC_EADD_EADE_EADF_EAE0_EAE1_EAE2_EAE3_EAE4_EAE5_EAE6),
  (0xD0E1, 0xEAE7_EAE8_EAE9_EAEA_EAEB_EAEC_EAED_EAEE_EAEF_EAF0_EAF1_EAF2),
  (0xD0ED, 0xEAF3_EAF4_EAF5_EAF6_EAF7_EAF8_EAF9_EAFA_EAFB_EAFC_EAFD_EAFE),
  (0xD0F9, 0xEAFF_EB00_EB01_EB02_EB03),
  (0xD141, 0xEB04_EB05_EB06_EB07_EB08_EB09_EB0A_EB0B_EB0C_EB0D_EB0E_EB0F),
  (0xD14D, 0xEB10_EB11_EB12_EB13_EB14_EB15_EB16_EB17_EB18_EB19_EB1A_EB1B),
  (0xD159, 0xEB1C_EB1D_EB1E_EB1F_EB20_EB21_EB22_EB23_EB24_EB25_EB26_EB27),
  (0xD165, 0xEB28_EB29_EB2A_EB2B_EB2C_EB2D_EB2E_EB2F_EB30_EB31_EB32_EB33),
  (0xD171, 0xEB34_EB35_EB36_EB37_EB38_EB39_EB3A_EB3B_EB3C_EB3D_EB3E_EB3F),
  (0xD17D, 0xEB40_EB41_EB42),
  (0xD181, 0xEB43_EB44_EB45_EB46_EB47_EB48_EB49_EB4A_EB4B_EB4C_EB4D_EB4E),
  (0xD18D, 0xEB4F_EB50_EB51_EB52_EB53_EB54_EB55_EB56_EB57_EB58_EB59_EB5A),
  (0xD199, 0xEB5B_EB5C_EB5D_EB5E_EB5F_EB60_EB61_EB62_EB63_EB64_EB65_EB66),
  (0xD1A5, 0xEB67_EB68_EB69_EB6A_EB6B_EB6C_EB6D_EB6E_EB6F_EB70_EB71_EB72),
  (0xD1B1, 0xEB73_EB74_EB75_EB76_EB77_EB78_EB79_EB7A_EB7B_EB7C_EB7D_EB7E),
  (0xD1BD, 0xEB7F_EB80_EB81_EB82_EB83_EB84_EB85_EB86_EB87_EB88_EB89_EB8A),
  (0xD1C9, 0xEB8B_EB8C_EB8D_EB8E_EB8F_EB90_EB91_EB92_EB93_EB94_EB95_EB96),
  (0xD1D5, 0xEB97_EB98_EB99_EB9A_EB9B_EB9C_EB9D_EB9E_EB9F_EBA0_EBA1_EBA2),
  (0xD1E1, 0xEBA3_EBA4_EBA5_EBA6_EBA7_EBA8_EBA9_EBAA_EBAB_EBAC_EBAD_EBAE),
  (0xD1ED, 0xEBAF_EBB0_EBB1_EBB2_EBB3_EBB4_EBB5_EBB6_EBB7_EBB8_EBB9_EBBA),
  (0xD1F9, 0xEBBB_EBBC_EBBD_EBBE_EBBF),
  (0xD241, 0xEBC0_EBC1_EBC2_EBC3_EBC4_EBC5_EBC6_EBC7_EBC8_EBC9_EBCA_EBCB),
  (0xD24D, 0xEBCC_EBCD_EBCE_EBCF_EBD0_EBD1_EBD2_EBD3_EBD4_EBD5_EBD6_EBD7),
  (0xD259, 0xEBD8_EBD9_EBDA_EBDB_EBDC_EBDD_EBDE_EBDF_EBE0_EBE1_EBE2_EBE3),
  (0xD265, 0xEBE4_EBE5_EBE6_EBE7_EBE8_EBE9_EBEA_EBEB_EBEC_EBED_EBEE_EBEF),
  (0xD271, 0xEBF0_EBF1_EBF2_EBF3_EBF4_EBF5_EBF6_EBF7_EBF8_EBF9_EBFA_EBFB),
  (0xD27D, 0xEBFC_EBFD_EBFE),
  (0xD281, 0xEBFF_EC00_EC01_EC02_EC03_EC04_EC05_EC06_EC07_EC08_EC09_EC0A),
  (0xD28D, 0xEC0B_EC0C_EC0D_EC0E_EC0F_EC10_EC11_EC12_EC13_EC14_EC15_EC16),
  (0xD299, 0xEC17_EC18_EC19_EC1A_EC1B_EC1C_EC1D_EC1E_EC1F_EC20_EC21_EC22),
  (0xD2A5, 0xEC23_EC24_EC25_EC26_EC27_EC28_EC29_EC2A_EC2B_EC2C_EC2D_EC2E),
  (0xD2B1, 0xEC2F_EC30_EC31_EC32_EC33_EC34_EC35_EC36_EC37_EC38_EC39_EC3A),
  (0xD2BD, 0xEC3B_EC3C_EC3D_EC3E_EC3F_EC40_EC41_EC42_EC43_EC44_EC45_EC46),
  (0xD2C9, 0xEC47_EC48_EC49_EC4A_EC4B_EC4C_EC4D_EC4E_EC4F_EC50_EC51_EC52),
  (0xD2D5, 0xEC53_EC54_EC55_EC56_EC57_EC58_EC59_EC5A_EC5B_EC5C_EC5D_EC5E),
  (0xD2E1, 0xEC5F_EC60_EC61_EC62_EC63_EC64_EC65_EC66_EC67_EC68_EC69_EC6A),
  (0xD2ED, 0xEC6B_EC6C_EC6D_EC6E_EC6F_EC70_EC71_EC72_EC73_EC74_EC75_EC76),
  (0xD2F9, 0xEC77_EC78_EC79_EC7A_EC7B),
  (0xD341, 0xEC7C_EC7D_EC7E_EC7F_EC80_EC81_EC82_EC83_EC84_EC85_EC86_EC87),
  (0xD34D, 0xEC88_EC89_EC8A_EC8B_EC8C_EC8D_EC8E_EC8F_EC90_EC91_EC92_EC93),
  (0xD359, 0xEC94_EC95_EC96_EC97_EC98_EC99_EC9A_EC9B_EC9C_EC9D_EC9E_EC9F),
  (0xD365, 0xECA0_ECA1_ECA2_ECA3_ECA4_ECA5_ECA6_ECA7_ECA8_ECA9_ECAA_ECAB),
  (0xD371, 0xECAC_ECAD_ECAE_ECAF_ECB0_ECB1_ECB2_ECB3_ECB4_ECB5_ECB6_ECB7),
  (0xD37D, 0xECB8_ECB9_ECBA),
  (0xD381, 0xECBB_ECBC_ECBD_ECBE_ECBF_ECC0_ECC1_ECC2_ECC3_ECC4_ECC5_ECC6),
  (0xD38D, 0xECC7_ECC8_ECC9_ECCA_ECCB_ECCC_ECCD_ECCE_ECCF_ECD0_ECD1_ECD2),
  (0xD399, 0xECD3_ECD4_ECD5_ECD6_ECD7_ECD8_ECD9_ECDA_ECDB_ECDC_ECDD_ECDE),
  (0xD3A5, 0xECDF_ECE0_ECE1_ECE2_ECE3_ECE4_ECE5_ECE6_ECE7_ECE8_ECE9_ECEA),
  (0xD3B1, 0xECEB_ECEC_ECED_ECEE_ECEF_ECF0_ECF1_ECF2_ECF3_ECF4_ECF5_ECF6),
  (0xD3BD, 0xECF7_ECF8_ECF9_ECFA_ECFB_ECFC_ECFD_ECFE_ECFF_ED00_ED01_ED02),
  (0xD3C9, 0xED03_ED04_ED05_ED06_ED07_ED08_ED09_ED0A_ED0B_ED0C_ED0D_ED0E),
  (0xD3D5, 0xED0F_ED10_ED11_ED12_ED13_ED14_ED15_ED16_ED17_ED18_ED19_ED1A),
  (0xD3E1, 0xED1B_ED1C_ED1D_ED1E_ED1F_ED20_ED21_ED22_ED23_ED24_ED25_ED26),
  (0xD3ED, 0xED27_ED28_ED29_ED2A_ED2B_ED2C_ED2D_ED2E_ED2F_ED30_ED31_ED32),
  (0xD3F9, 0xED33_ED34_ED35_ED36_ED37),
  (0xD441, 0xED38_ED39_ED3A_ED3B_ED3C_ED3D_ED3E_ED3F_ED40_ED41_ED42_ED43),
  (0xD44D, 0xED44_ED45_ED46_ED47_ED48_ED49_ED4A_ED4B_ED4C_ED4D_ED4E_ED4F),
  (0xD459, 0xED50_ED51_ED52_ED53_ED54_ED55_ED56_ED57_ED58_ED59_ED5A_ED5B),
  (0xD465, 0xED5C_ED5D_ED5E_ED5F_ED60_ED61_ED62_ED63_ED64_ED65_ED66_ED67),
  (0xD471, 0xED68_ED69_ED6A_ED6B_ED6C_ED6D_ED6E_ED6F_ED70_ED71_ED72_ED73),
  (0xD47D, 0xED74_ED75_ED76),
  (0xD481, 0xED77_ED78_ED79_ED7A_ED7B_ED7C_ED7D_ED7E_ED7F_ED80_ED81_ED82),
  (0xD48D, 0xED83_ED84_ED85_ED86_ED87_ED88_ED89_ED8A_ED8B_ED8C_ED8D_ED8E),
  (0xD499, 0xED8F_ED90_ED91_ED92_ED93_ED94_ED95_ED96_ED97_ED98_ED99_ED9A),
  (0xD4A5, 0xED9B_ED9C_ED9D_ED9E_ED9F_EDA0_EDA1_EDA2_EDA3_EDA4_EDA5_EDA6),
  (0xD4B1, 0xEDA7_EDA8_EDA9_EDAA_EDAB_EDAC_EDAD_EDAE_EDAF_EDB0_EDB1_EDB2),
  (0xD4BD, 0xEDB3_EDB4_EDB5_EDB6_EDB7_EDB8_EDB9_EDBA_EDBB_EDBC_EDBD_EDBE),
  (0xD4C9, 0xEDBF_EDC0_EDC1_EDC2_EDC3_EDC4_EDC5_EDC6_EDC7_EDC8_EDC9_EDCA),
  (0xD4D5, 0xEDCB_EDCC_EDCD_EDCE_EDCF_EDD0_EDD1_EDD2_EDD3_EDD4_EDD5_EDD6),
  (0xD4E1, 0xEDD7_EDD8_EDD9_EDDA_EDDB_EDDC_EDDD_EDDE_EDDF_EDE0_EDE1_EDE2),
  (0xD4ED, 0xEDE3_EDE4_EDE5_EDE6_EDE7_EDE8_EDE9_EDEA_EDEB_EDEC_EDED_EDEE),
  (0xD4F9, 0xEDEF_EDF0_EDF1_EDF2_EDF3),
  (0xD541, 0xEDF4_EDF5_EDF6_EDF7_EDF8_EDF9_EDFA_EDFB_EDFC_EDFD_EDFE_EDFF),
  (0xD54D, 0xEE00_EE01_EE02_EE03_EE04_EE05_EE06_EE07_EE08_EE09_EE0A_EE0B),
  (0xD559, 0xEE0C_EE0D_EE0E_EE0F_EE10_EE11_EE12_EE13_EE14_EE15_EE16_EE17),
  (0xD565, 0xEE18_EE19_EE1A_EE1B_EE1C_EE1D_EE1E_EE1F_EE20_EE21_EE22_EE23),
  (0xD571, 0xEE24_EE25_EE26_EE27_EE28_EE29_EE2A_EE2B_EE2C_EE2D_EE2E_EE2F),
  (0xD57D, 0xEE30_EE31_EE32),
  (0xD581, 0xEE33_EE34_EE35_EE36_EE37_EE38_EE39_EE3A_EE3B_EE3C_EE3D_EE3E),
  (0xD58D, 0xEE3F_EE40_EE41_EE42_EE43_EE44_EE45_EE46_EE47_EE48_EE49_EE4A),
  (0xD599, 0xEE4B_EE4C_EE4D_EE4E_EE4F_EE50_EE51_EE52_EE53_EE54_EE55_EE56),
  (0xD5A5, 0xEE57_EE58_EE59_EE5A_EE5B_EE5C_EE5D_EE5E_EE5F_EE60_EE61_EE62),
  (0xD5B1, 0xEE63_EE64_EE65_EE66_EE67_EE68_EE69_EE6A_EE6B_EE6C_EE6D_EE6E),
  (0xD5BD, 0xEE6F_EE70_EE71_EE72_EE73_EE74_EE75_EE76_EE77_EE78_EE79_EE7A),
  (0xD5C9, 0xEE7B_EE7C_EE7D_EE7E_EE7F_EE80_EE81_EE82_EE83_EE84_EE85_EE86),
  (0xD5D5, 0xEE87_EE88_EE89_EE8A_EE8B_EE8C_EE8D_EE8E_EE8F_EE90_EE91_EE92),
  (0xD5E1, 0xEE93_EE94_EE95_EE96_EE97_EE98_EE99_EE9A_EE9B_EE9C_EE9D_EE9E),
  (0xD5ED, 0xEE9F_EEA0_EEA1_EEA2_EEA3_EEA4_EEA5_EEA6_EEA7_EEA8_EEA9_EEAA),
  (0xD5F9, 0xEEAB_EEAC_EEAD_EEAE_EEAF),
  (0xD641, 0xEEB0_EEB1_EEB2_EEB3_EEB4_EEB5_EEB6_EEB7_EEB8_EEB9_EEBA_EEBB),
  (0xD64D, 0xEEBC_EEBD_EEBE_EEBF_EEC0_EEC1_EEC2_EEC3_EEC4_EEC5_EEC6_EEC7),
  (0xD659, 0xEEC8_EEC9_EECA_EECB_EECC_EECD_EECE_EECF_EED0_EED1_EED2_EED3),
  (0xD665, 0xEED4_EED5_EED6_EED7_EED8_EED9_EEDA_EEDB_EEDC_EEDD_EEDE_EEDF),
  (0xD671, 0xEEE0_EEE1_EEE2_EEE3_EEE4_EEE5_EEE6_EEE7_EEE8_EEE9_EEEA_EEEB),
  (0xD67D, 0xEEEC_EEED_EEEE),
  (0xD681, 0xEEEF_EEF0_EEF1_EEF2_EEF3_EEF4_EEF5_EEF6_EEF7_EEF8_EEF9_EEFA),
  (0xD68D, 0xEEFB_EEFC_EEFD_EEFE_EEFF_EF00_EF01_EF02_EF03_EF04_EF05_EF06),
  (0xD699, 0xEF07_EF08_EF09_EF0A_EF0B_EF0C_EF0D_EF0E_EF0F_EF10_EF11_EF12),
  (0xD6A5, 0xEF13_EF14_EF15_EF16_EF17_EF18_EF19_EF1A_EF1B_EF1C_EF1D_EF1E),
  (0xD6B1, 0xEF1F_EF20_EF21_EF22_EF23_EF24_EF25_EF26_EF27_EF28_EF29_EF2A),
  (0xD6BD, 0xEF2B_EF2C_EF2D_EF2E_EF2F_EF30_EF31_EF32_EF33_EF34_EF35_EF36),
  (0xD6C9, 0xEF37_EF38_EF39_EF3A_EF3B_EF3C_EF3D_EF3E_EF3F_EF40_EF41_EF42),
  (0xD6D5, 0xEF43_EF44_EF45_EF46_EF47_EF48_EF49_EF4A_EF4B_EF4C_EF4D_EF4E),
  (0xD6E1, 0xEF4F_EF50_EF51_EF52_EF53_EF54_EF55_EF56_EF57_EF58_EF59_EF5A),
  (0xD6ED, 0xEF5B_EF5C_EF5D_EF5E_EF5F_EF60_EF61_EF62_EF63_EF64_EF65_EF66),
  (0xD6F9, 0xEF67_EF68_EF69_EF6A_EF6B),
  (0xD741, 0xEF6C_EF6D_EF6E_EF6F_EF70_EF71_EF72_EF73_EF74_EF75_EF76_EF77),
  (0xD74D, 0xEF78_EF79_EF7A_EF7B_EF7C_EF7D_EF7E_EF7F_EF80_EF81_EF82_EF83),
  (0xD759, 0xEF84_EF85_EF86_EF87_EF88_EF89_EF8A_EF8B_EF8C_EF8D_EF8E_EF8F),
  (0xD765, 0xEF90_EF91_EF92_EF93_EF94_EF95_EF96_EF97_EF98_EF99_EF9A_EF9B),
  (0xD771, 0xEF9C_EF9D_EF9E_EF9F_EFA0_EFA1_EFA2_EFA3_EFA4_EFA5_EFA6_EFA7),
  (0xD77D, 0xEFA8_EFA9_EFAA),
  (0xD781, 0xEFAB_EFAC_EFAD_EFAE_EFAF_EFB0_EFB1_EFB2_EFB3_EFB4_EFB5_EFB6),
  (0xD78D, 0xEFB7_EFB8_EFB9_EFBA_EFBB_EFBC_EFBD_EFBE_EFBF_EFC0_EFC1_EFC2),
  (0xD799, 0xEFC3_EFC4_EFC5_EFC6_EFC7_EFC8_EFC9_EFCA_EFCB_EFCC_EFCD_EFCE),
  (0xD7A5, 0xEFCF_EFD0_EFD1_EFD2_EFD3_EFD4_EFD5_EFD6_EFD7_EFD8_EFD9_EFDA),
  (0xD7B1, 0xEFDB_EFDC_EFDD_EFDE_EFDF_EFE0_EFE1_EFE2_EFE3_EFE4_EFE5_EFE6),
  (0xD7BD, 0xEFE7_EFE8_EFE9_EFEA_EFEB_EFEC_EFED_EFEE_EFEF_EFF0_EFF1_EFF2),
  (0xD7C9, 0xEFF3_EFF4_EFF5_EFF6_EFF7_EFF8_EFF9_EFFA_EFFB_EFFC_EFFD_EFFE),
  (0xD7D5, 0xEFFF_F000_F001_F002_F003_F004_F005_F006_F007_F008_F009_F00A),
  (0xD7E1, 0xF00B_F00C_F00D_F00E_F00F_F010_F011_F012_F013_F014_F015_F016),
  (0xD7ED, 0xF017_F018_F019_F01A_F01B_F01C_F01D_F01E_F01F_F020_F021_F022),
  (0xD7F9, 0xF023_F024_F025_F026_F027),
  (0xD841, 0xF028_F029_F02A_F02B_F02C_F02D_F02E_F02F_F030_F031_F032_F033),
  (0xD84D, 0xF034_F035_F036_F037_F038_F039_F03A_F03B_F03C_F03D_F03E_F03F),
  (0xD859, 0xF040_F041_F042_F043_F044_F045_F046_F047_F048_F049_F04A_F04B),
  (0xD865, 0xF04C_F04D_F04E_F04F_F050_F051_F052_F053_F054_F055_F056_F057),
  (0xD871, 0xF058_F059_F05A_F05B_F05C_F05D_F05E_F05F_F060_F061_F062_F063),
  (0xD87D, 0xF064_F065_F066),
  (0xD881, 0xF067_F068_F069_F06A_F06B_F06C_F06D_F06E_F06F_F070_F071_F072),
  (0xD88D, 0xF073_F074_F075_F076_F077_F078_F079_F07A_F07B_F07C_F07D_F07E),
  (0xD899, 0xF07F_F080_F081_F082_F083_F084_F085_F086_F087_F088_F089_F08A),
  (0xD8A5, 0xF08B_F08C_F08D_F08E_F08F_F090_F091_F092_F093_F094_F095_F096),
  (0xD8B1, 0xF097_F098_F099_F09A_F09B_F09C_F09D_F09E_F09F_F0A0_F0A1_F0A2),
  (0xD8BD, 0xF0A3_F0A4_F0A5_F0A6_F0A7_F0A8_F0A9_F0AA_F0AB_F0AC_F0AD_F0AE),
  (0xD8C9, 0xF0AF_F0B0_F0B1_F0B2_F0B3_F0B4_F0B5_F0B6_F0B7_F0B8_F0B9_F0BA),
  (0xD8D5, 0xF0BB_F0BC_F0BD_F0BE_F0BF_F0C0_F0C1_F0C2_F0C3_F0C4_F0C5_F0C6),
  (0xD8E1, 0xF0C7_F0C8_F0C9_F0CA_F0CB_F0CC_F0CD_F0CE_F0CF_F0D0_F0D1_F0D2),
  (0xD8ED, 0xF0D3_F0D4_F0D5_F0D6_F0D7_F0D8_F0D9_F0DA_F0DB_F0DC_F0DD_F0DE),
  (0xD8F9, 0xF0DF_F0E0_F0E1_F0E2_F0E3),
  (0xD941, 0xF0E4_F0E5_F0E6_F0E7_F0E8_F0E9_F0EA_F0EB_F0EC_F0ED_F0EE_F0EF),
  (0xD94D, 0xF0F0_F0F1_F0F2_F0F3_F0F4_F0F5_F0F6_F0F7_F0F8_F0F9_F0FA_F0FB),
  (0xD959, 0xF0FC_F0FD_F0FE_F0FF_F100_F101_F102_F103_F104_F105_F106_F107),
  (0xD965, 0xF108_F109_F10A_F10B_F10C_F10D_F10E_F10F_F110_F111_F112_F113),
  (0xD971, 0xF114_F115_F116_F117_F118_F119_F11A_F11B_F11C_F11D_F11E_F11F),
  (0xD97D, 0xF120_F121_F122),
  (0xD981, 0xF123_F124_F125_F126_F127_F128_F129_F12A_F12B_F12C_F12D_F12E),
  (0xD98D, 0xF12F_F130_F131_F132_F133_F134_F135_F136_F137_F138_F139_F13A),
  (0xD999, 0xF13B_F13C_F13D_F13E_F13F_F140_F141_F142_F143_F144_F145_F146),
  (0xD9A5, 0xF147_F148_F149_F14A_F14B_F14C_F14D_F14E_F14F_F150_F151_F152),
  (0xD9B1, 0xF153_F154_F155_F156_F157_F158_F159_F15A_F15B_F15C_F15D_F15E),
  (0xD9BD, 0xF15F_F160_F161_F162_F163_F164_F165_F166_F167_F168_F169_F16A),
  (0xD9C9, 0xF16B_F16C_F16D_F16E_F16F_F170_F171_F172_F173_F174_F175_F176),
  (0xD9D5, 0xF177_F178_F179_F17A_F17B_F17C_F17D_F17E_F17F_F180_F181_F182),
  (0xD9E1, 0xF183_F184_F185_F186_F187_F188_F189_F18A_F18B_F18C_F18D_F18E),
  (0xD9ED, 0xF18F_F190_F191_F192_F193_F194_F195_F196_F197_F198_F199_F19A),
  (0xD9F9, 0xF19B_F19C_F19D_F19E_F19F),
  (0xDA41, 0xF1A0_F1A1_F1A2_F1A3_F1A4_F1A5_F1A6_F1A7_F1A8_F1A9_F1AA_F1AB),
  (0xDA4D, 0xF1AC_F1AD_F1AE_F1AF_F1B0_F1B1_F1B2_F1B3_F1B4_F1B5_F1B6_F1B7),
  (0xDA59, 0xF1B8_F1B9_F1BA_F1BB_F1BC_F1BD_F1BE_F1BF_F1C0_F1C1_F1C2_F1C3),
  (0xDA65, 0xF1C4_F1C5_F1C6_F1C7_F1C8_F1C9_F1CA_F1CB_F1CC_F1CD_F1CE_F1CF),
  (0xDA71, 0xF1D0_F1D1_F1D2_F1D3_F1D4_F1D5_F1D6_F1D7_F1D8_F1D9_F1DA_F1DB),
  (0xDA7D, 0xF1DC_F1DD_F1DE),
  (0xDA81, 0xF1DF_F1E0_F1E1_F1E2_F1E3_F1E4_F1E5_F1E6_F1E7_F1E8_F1E9_F1EA),
  (0xDA8D, 0xF1EB_F1EC_F1ED_F1EE_F1EF_F1F0_F1F1_F1F2_F1F3_F1F4_F1F5_F1F6),
  (0xDA99, 0xF1F7_F1F8_F1F9_F1FA_F1FB_F1FC_F1FD_F1FE_F1FF_F200_F201_F202),
  (0xDAA5, 0xF203_F204_F205_F206_F207_F208_F209_F20A_F20B_F20C_F20D_F20E),
  (0xDAB1, 0xF20F_F210_F211_F212_F213_F214_F215_F216_F217_F218_F219_F21A),
  (0xDABD, 0xF21B_F21C_F21D_F21E_F21F_F220_F221_F222_F223_F224_F225_F226),
  (0xDAC9, 0xF227_F228_F229_F22A_F22B_F22C_F22D_F22E_F22F_F230_F231_F232),
  (0xDAD5, 0xF233_F234_F235_F236_F237_F238_F239_F23A_F23B_F23C_F23D_F23E),
  (0xDAE1, 0xF23F_F240_F241_F242_F243_F244_F245_F246_F247_F248_F249_F24A),
  (0xDAED, 0xF24B_F24C_F24D_F24E_F24F_F250_F251_F252_F253_F254_F255_F256),
  (0xDAF9, 0xF257_F258_F259_F25A_F25B),
  (0xDB41, 0xF25C_F25D_F25E_F25F_F260_F261_F262_F263_F264_F265_F266_F267),
  (0xDB4D, 0xF268_F269_F26A_F26B_F26C_F26D_F26E_F26F_F270_F271_F272_F273),
  (0xDB59, 0xF274_F275_F276_F277_F278_F279_F27A_F27B_F27C_F27D_F27E_F27F),
  (0xDB65, 0xF280_F281_F282_F283_F284_F285_F286_F287_F288_F289_F28A_F28B),
  (0xDB71, 0xF28C_F28D_F28E_F28F_F290_F291_F292_F293_F294_F295_F296_F297),
  (0xDB7D, 0xF298_F299_F29A),
  (0xDB81, 0xF29B_F29C_F29D_F29E_F29F_F2A0_F2A1_F2A2_F2A3_F2A4_F2A5_F2A6),
  (0xDB8D, 0xF2A7_F2A8_F2A9_F2AA_F2AB_F2AC_F2AD_F2AE_F2AF_F2B0_F2B1_F2B2),
  (0xDB99, 0xF2B3_F2B4_F2B5_F2B6_F2B7_F2B8_F2B9_F2BA_F2BB_F2BC_F2BD_F2BE),
  (0xDBA5, 0xF2BF_F2C0_F2C1_F2C2_F2C3_F2C4_F2C5_F2C6_F2C7_F2C8_F2C9_F2CA),
  (0xDBB1, 0xF2CB_F2CC_F2CD_F2CE_F2CF_F2D0_F2D1_F2D2_F2D3_F2D4_F2D5_F2D6),
  (0xDBBD, 0xF2D7_F2D8_F2D9_F2DA_F2DB_F2DC_F2DD_F2DE_F2DF_F2E0_F2E1_F2E2),
  (0xDBC9, 0xF2E3_F2E4_F2E5_F2E6_F2E7_F2E8_F2E9_F2EA_F2EB_F2EC_F2ED_F2EE),
  (0xDBD5, 0xF2EF_F2F0_F2F1_F2F2_F2F3_F2F4_F2F5_F2F6_F2F7_F2F8_F2F9_F2FA),
  (0xDBE1, 0xF2FB_F2FC_F2FD_F2FE_F2FF_F300_F301_F302_F303_F304_F305_F306),
  (0xDBED, 0xF307_F308_F309_F30A_F30B_F30C_F30D_F30E_F30F_F310_F311_F312),
  (0xDBF9, 0xF313_F314_F315_F316_F317),
  (0xDC41, 0xF318_F319_F31A_F31B_F31C_F31D_F31E_F31F_F320_F321_F322_F323),
  (0xDC4D, 0xF324_F325_F326_F327_F328_F329_F32A_F32B_F32C_F32D_F32E_F32F),
  (0xDC59, 0xF330_F331_F332_F333_F334_F335_F336_F337_F338_F339_F33A_F33B),
  (0xDC65, 0xF33C_F33D_F33E_F33F_F340_F341_F342_F343_F344_F345_F346_F347),
  (0xDC71, 0xF348_F349_F34A_F34B_F34C_F34D_F34E_F34F_F350_F351_F352_F353),
  (0xDC7D, 0xF354_F355_F356),
  (0xDC81, 0xF357_F358_F359_F35A_F35B_F35C_F35D_F35E_F35F_F360_F361_F362),
  (0xDC8D, 0xF363_F364_F365_F366_F367_F368_F369_F36A_F36B_F36C_F36D_F36E),
  (0xDC99, 0xF36F_F370_F371_F372_F373_F374_F375_F376_F377_F378_F379_F37A),
  (0xDCA5, 0xF37B_F37C_F37D_F37E_F37F_F380_F381_F382_F383_F384_F385_F386),
  (0xDCB1, 0xF387_F388_F389_F38A_F38B_F38C_F38D_F38E_F38F_F390_F391_F392),
  (0xDCBD, 0xF393_F394_F395_F396_F397_F398_F399_F39A_F39B_F39C_F39D_F39E),
  (0xDCC9, 0xF39F_F3A0_F3A1_F3A2_F3A3_F3A4_F3A5_F3A6_F3A7_F3A8_F3A9_F3AA),
  (0xDCD5, 0xF3AB_F3AC_F3AD_F3AE_F3AF_F3B0_F3B1_F3B2_F3B3_F3B4_F3B5_F3B6),
  (0xDCE1, 0xF3B7_F3B8_F3B9_F3BA_F3BB_F3BC_F3BD_F3BE_F3BF_F3C0_F3C1_F3C2),
  (0xDCED, 0xF3C3_F3C4_F3C5_F3C6_F3C7_F3C8_F3C9_F3CA_F3CB_F3CC_F3CD_F3CE),
  (0xDCF9, 0xF3CF_F3D0_F3D1_F3D2_F3D3),
  (0xDD41, 0xF3D4_F3D5_F3D6_F3D7_F3D8_F3D9_F3DA_F3DB_F3DC_F3DD_F3DE_F3DF),
  (0xDD4D, 0xF3E0_F3E1_F3E2_F3E3_F3E4_F3E5_F3E6_F3E7_F3E8_F3E9_F3EA_F3EB),
  (0xDD59, 0xF3EC_F3ED_F3EE_F3EF_F3F0_F3F1_F3F2_F3F3_F3F4_F3F5_F3F6_F3F7),
  (0xDD65, 0xF3F8_F3F9_F3FA_F3FB_F3FC_F3FD_F3FE_F3FF_F400_F401_F402_F403),
  (0xDD71, 0xF404_F405_F406_F407_F408_F409_F40A_F40B_F40C_F40D_F40E_F40F),
  (0xDD7D, 0xF410_F411_F412),
  (0xDD81, 0xF413_F414_F415_F416_F417_F418_F419_F41A_F41B_F41C_F41D_F41E),
  (0xDD8D, 0xF41F_F420_F421_F422_F423_F424_F425_F426_F427_F428_F429_F42A),
  (0xDD99, 0xF42B_F42C_F42D_F42E_F42F_F430_F431_F432_F433_F434_F435_F436),
  (0xDDA5, 0xF437_F438_F439_F43A_F43B_F43C_F43D_F43E_F43F_F440_F441_F442),
  (0xDDB1, 0xF443_F444_F445_F446_F447_F448_F449_F44A_F44B_F44C_F44D_F44E),
  (0xDDBD, 0xF44F_F450_F451_F452_F453_F454_F455_F456_F457_F458_F459_F45A),
  (0xDDC9, 0xF45B_F45C_F45D_F45E_F45F_F460_F461_F462_F463_F464_F465_F466),
  (0xDDD5, 0xF467_F468_F469_F46A_F46B_F46C_F46D_F46E_F46F_F470_F471_F472),
  (0xDDE1, 0xF473_F474_F475_F476_F477_F478_F479_F47A_F47B_F47C_F47D_F47E),
  (0xDDED, 0xF47F_F480_F481_F482_F483_F484_F485_F486_F487_F488_F489_F48A),
  (0xDDF9, 0xF48B_F48C_F48D_F48E_F48F),
  (0xDE41, 0xF490_F491_F492_F493_F494_F495_F496_F497_F498_F499_F49A_F49B),
  (0xDE4D, 0xF49C_F49D_F49E_F49F_F4A0_F4A1_F4A2_F4A3_F4A4_F4A5_F4A6_F4A7),
  (0xDE59, 0xF4A8_F4A9_F4AA_F4AB_F4AC_F4AD_F4AE_F4AF_F4B0_F4B1_F4B2_F4B3),
  (0xDE65, 0xF4B4_F4B5_F4B6_F4B7_F4B8_F4B9_F4BA_F4BB_F4BC_F4BD_F4BE_F4BF),
  (0xDE71, 0xF4C0_F4C1_F4C2_F4C3_F4C4_F4C5_F4C6_F4C7_F4C8_F4C9_F4CA_F4CB),
  (0xDE7D, 0xF4CC_F4CD_F4CE),
  (0xDE81, 0xF4CF_F4D0_F4D1_F4D2_F4D3_F4D4_F4D5_F4D6_F4D7_F4D8_F4D9_F4DA),
  (0xDE8D, 0xF4DB_F4DC_F4DD_F4DE_F4DF_F4E0_F4E1_F4E2_F4E3_F4E4_F4E5_F4E6),
  (0xDE99, 0xF4E7_F4E8_F4E9_F4EA_F4EB_F4EC_F4ED_F4EE_F4EF_F4F0_F4F1_F4F2),
  (0xDEA5, 0xF4F3_F4F4_F4F5_F4F6_F4F7_F4F8_F4F9_F4FA_F4FB_F4FC_F4FD_F4FE),
  (0xDEB1, 0xF4FF_F500_F501_F502_F503_F504_F505_F506_F507_F508_F509_F50A),
  (0xDEBD, 0xF50B_F50C_F50D_F50E_F50F_F510_F511_F512_F513_F514_F515_F516),
  (0xDEC9, 0xF517_F518_F519_F51A_F51B_F51C_F51D_F51E_F51F_F520_F521_F522),
  (0xDED5, 0xF523_F524_F525_F526_F527_F528_F529_F52A_F52B_F52C_F52D_F52E),
  (0xDEE1, 0xF52F_F530_F531_F532_F533_F534_F535_F536_F537_F538_F539_F53A),
  (0xDEED, 0xF53B_F53C_F53D_F53E_F53F_F540_F541_F542_F543_F544_F545_F546),
  (0xDEF9, 0xF547_F548_F549_F54A_F54B),
  (0xDF41, 0xF54C_F54D_F54E_F54F_F550_F551_F552_F553_F554_F555_F556_F557),
  (0xDF4D, 0xF558_F559_F55A_F55B_F55C_F55D_F55E_F55F_F560_F561_F562_F563),
  (0xDF59, 0xF564_F565_F566_F567_F568_F569_F56A_F56B_F56C_F56D_F56E_F56F),
  (0xDF65, 0xF570_F571_F572_F573_F574_F575_F576_F577_F578_F579_F57A_F57B),
  (0xDF71, 0xF57C_F57D_F57E_F57F_F580_F581_F582_F583_F584_F585_F586_F587),
  (0xDF7D, 0xF588_F589_F58A),
  (0xDF81, 0xF58B_F58C_F58D_F58E_F58F_F590_F591_F592_F593_F594_F595_F596),
  (0xDF8D, 0xF597_F598_F599_F59A_F59B_F59C_F59D_F59E_F59F_F5A0_F5A1_F5A2),
  (0xDF99, 0xF5A3_F5A4_F5A5_F5A6_F5A7_F5A8_F5A9_F5AA_F5AB_F5AC_F5AD_F5AE),
  (0xDFA5, 0xF5AF_F5B0_F5B1_F5B2_F5B3_F5B4_F5B5_F5B6_F5B7_F5B8_F5B9_F5BA),
  (0xDFB1, 0xF5BB_F5BC_F5BD_F5BE_F5BF_F5C0_F5C1_F5C2_F5C3_F5C4_F5C5_F5C6),
  (0xDFBD, 0xF5C7_F5C8_F5C9_F5CA_F5CB_F5CC_F5CD_F5CE_F5CF_F5D0_F5D1_F5D2),
  (0xDFC9, 0xF5D3_F5D4_F5D5_F5D6_F5D7_F5D8_F5D9_F5DA_F5DB_F5DC_F5DD_F5DE),
  (0xDFD5, 0xF5DF_F5E0_F5E1_F5E2_F5E3_F5E4_F5E5_F5E6_F5E7_F5E8_F5E9_F5EA),
  (0xDFE1, 0xF5EB_F5EC_F5ED_F5EE_F5EF_F5F0_F5F1_F5F2_F5F3_F5F4_F5F5_F5F6),
  (0xDFED, 0xF5F7_F5F8_F5F9_F5FA_F5FB_F5FC_F5FD_F5FE_F5FF_F600_F601_F602),
  (0xDFF9, 0xF603_F604_F605_F606_F607),
  (0xE041, 0xF608_F609_F60A_F60B_F60C_F60D_F60E_F60F_F610_F611_F612_F613),
  (0xE04D, 0xF614_F615_F616_F617_F618_F619_F61A_F61B_F61C_F61D_F61E_F61F),
  (0xE059, 0xF620_F621_F622_F623_F624_F625_F626_F627_F628_F629_F62A_F62B),
  (0xE065, 0xF62C_F62D_F62E_F62F_F630_F631_F632_F633_F634_F635_F636_F637),
  (0xE071, 0xF638_F639_F63A_F63B_F63C_F63D_F63E_F63F_F640_F641_F642_F643),
  (0xE07D, 0xF644_F645_F646),
  (0xE081, 0xF647_F648_F649_F64A_F64B_F64C_F64D_F64E_F64F_F650_F651_F652),
  (0xE08D, 0xF653_F654_F655_F656_F657_F658_F659_F65A_F65B_F65C_F65D_F65E),
  (0xE099, 0xF65F_F660_F661_F662_F663_F664_F665_F666_F667_F668_F669_F66A),
  (0xE0A5, 0xF66B_F66C_F66D_F66E_F66F_F670_F671_F672_F673_F674_F675_F676),
  (0xE0B1, 0xF677_F678_F679_F67A_F67B_F67C_F67D_F67E_F67F_F680_F681_F682),
  (0xE0BD, 0xF683_F684_F685_F686_F687_F688_F689_F68A_F68B_F68C_F68D_F68E),
  (0xE0C9, 0xF68F_F690_F691_F692_F693_F694_F695_F696_F697_F698_F699_F69A),
  (0xE0D5, 0xF69B_F69C_F69D_F69E_F69F_F6A0_F6A1_F6A2_F6A3_F6A4_F6A5_F6A6),
  (0xE0E1, 0xF6A7_F6A8_F6A9_F6AA_F6AB_F6AC_F6AD_F6AE_F6AF_F6B0_F6B1_F6B2),
  (0xE0ED, 0xF6B3_F6B4_F6B5_F6B6_F6B7_F6B8_F6B9_F6BA_F6BB_F6BC_F6BD_F6BE),
  (0xE0F9, 0xF6BF_F6C0_F6C1_F6C2_F6C3),
  (0xE141, 0xF6C4_F6C5_F6C6_F6C7_F6C8_F6C9_F6CA_F6CB_F6CC_F6CD_F6CE_F6CF),
  (0xE14D, 0xF6D0_F6D1_F6D2_F6D3_F6D4_F6D5_F6D6_F6D7_F6D8_F6D9_F6DA_F6DB),
  (0xE159, 0xF6DC_F6DD_F6DE_F6DF_F6E0_F6E1_F6E2_F6E3_F6E4_F6E5_F6E6_F6E7),
  (0xE165, 0xF6E8_F6E9_F6EA_F6EB_F6EC_F6ED_F6EE_F6EF_F6F0_F6F1_F6F2_F6F3),
  (0xE171, 0xF6F4_F6F5_F6F6_F6F7_F6F8_F6F9_F6FA_F6FB_F6FC_F6FD_F6FE_F6FF),
  (0xE17D, 0xF700_F701_F702),
  (0xE181, 0xF703_F704_F705_F706_F707_F708_F709_F70A_F70B_F70C_F70D_F70E),
  (0xE18D, 0xF70F_F710_F711_F712_F713_F714_F715_F716_F717_F718_F719_F71A),
  (0xE199, 0xF71B_F71C_F71D_F71E_F71F_F720_F721_F722_F723_F724_F725_F726),
  (0xE1A5, 0xF727_F728_F729_F72A_F72B_F72C_F72D_F72E_F72F_F730_F731_F732),
  (0xE1B1, 0xF733_F734_F735_F736_F737_F738_F739_F73A_F73B_F73C_F73D_F73E),
  (0xE1BD, 0xF73F_F740_F741_F742_F743_F744_F745_F746_F747_F748_F749_F74A),
  (0xE1C9, 0xF74B_F74C_F74D_F74E_F74F_F750_F751_F752_F753_F754_F755_F756),
  (0xE1D5, 0xF757_F758_F759_F75A_F75B_F75C_F75D_F75E_F75F_F760_F761_F762),
  (0xE1E1, 0xF763_F764_F765_F766_F767_F768_F769_F76A_F76B_F76C_F76D_F76E),
  (0xE1ED, 0xF76F_F770_F771_F772_F773_F774_F775_F776_F777_F778_F779_F77A),
  (0xE1F9, 0xF77B_F77C_F77D_F77E_F77F),
  (0xE241, 0xF780_F781_F782_F783_F784_F785_F786_F787_F788_F789_F78A_F78B),
  (0xE24D, 0xF78C_F78D_F78E_F78F_F790_F791_F792_F793_F794_F795_F796_F797),
  (0xE259, 0xF798_F799_F79A_F79B_F79C_F79D_F79E_F79F_F7A0_F7A1_F7A2_F7A3),
  (0xE265, 0xF7A4_F7A5_F7A6_F7A7_F7A8_F7A9_F7AA_F7AB_F7AC_F7AD_F7AE_F7AF),
  (0xE271, 0xF7B0_F7B1_F7B2_F7B3_F7B4_F7B5_F7B6_F7B7_F7B8_F7B9_F7BA_F7BB),
  (0xE27D, 0xF7BC_F7BD_F7BE),
  (0xE281, 0xF7BF_F7C0_F7C1_F7C2_F7C3_F7C4_F7C5_F7C6_F7C7_F7C8_F7C9_F7CA),
  (0xE28D, 0xF7CB_F7CC_F7CD_F7CE_F7CF_F7D0_F7D1_F7D2_F7D3_F7D4_F7D5_F7D6),
  (0xE299, 0xF7D7_F7D8_F7D9_F7DA_F7DB_F7DC_F7DD_F7DE_F7DF_F7E0_F7E1_F7E2),
  (0xE2A5, 0xF7E3_F7E4_F7E5_F7E6_F7E7_F7E8_F7E9_F7EA_F7EB_F7EC_F7ED_F7EE),
  (0xE2B1, 0xF7EF_F7F0_F7F1_F7F2_F7F3_F7F4_F7F5_F7F6_F7F7_F7F8_F7F9_F7FA),
  (0xE2BD, 0xF7FB_F7FC_F7FD_F7FE_F7FF_F800_F801_F802_F803_F804_F805_F806),
  (0xE2C9, 0xF807_F808_F809_F80A_F80B_F80C_F80D_F80E_F80F_F810_F811_F812),
  (0xE2D5, 0xF813_F814_F815_F816_F817_F818_F819_F81A_F81B_F81C_F81D_F81E),
  (0xE2E1, 0xF81F_F820_F821_F822_F823_F824_F825_F826_F827_F828_F829_F82A),
  (0xE2ED, 0xF82B_F82C_F82D_F82E_F82F_F830_F831_F832_F833_F834_F835_F836),
  (0xE2F9, 0xF837_F838_F839_F83A_F83B)]

/-- The lines of /repo/modules/to/IBM-937.txt: character, code; sorted.  All call the callback. -/
def writes937 : Chart := Chart.wide [
  (0x1, 0x0001_0002_0003_0037_002D_002E_002F_0016_0005_0025_000B_000C),
  (0xD, 0x000D_000E_000F_0010_0011_0012_0013_003C_003D_0032_0026_0018),
  (0x19, 0x0019_003F_0027_001C_001D_001E_001F_0040_005A_007F_007B_005B),
  (0x25, 0x006C_0050_007D_004D_005D_005C_004E_006B_0060_004B_0061_00F0),
  (0x31, 0x00F1_00F2_00F3_00F4_00F5_00F6_00F7_00F8_00F9_007A_005E_004C),
  (0x3D, 0x007E_006E_006F_007C_00C1_00C2_00C3_00C4_00C5_00C6_00C7_00C8),
  (0x49, 0x00C9_00D1_00D2_00D3_00D4_00D5_00D6_00D7_00D8_00D9_00E2_00E3),
  (0x55, 0x00E4_00E5_00E6_00E7_00E8_00E9_00BA_00E0_00BB_00B0_006D_0079),
  (0x61, 0x0081_0082_0083_0084_0085_0086_0087_0088_0089_0091_0092_0093),
  (0x6D, 0x0094_0095_0096_0097_0098_0099_00A2_00A3_00A4_00A5_00A6_00A7),
  (0x79, 0x00A8_00A9_00C0_004F_00D0_00A1_0007_0020_0021_0022_0023_0024),
  (0x85, 0x0015_0006_0017_0028_0029_002A_002B_002C_0009_000A_001B_0030),
  (0x91, 0x0031_001A_0033_0034_0035_0036_0008_0038_0039_003A_003B_0004),
  (0x9D, 0x0014_003E_00FF),
  (0xA2, 0x004A),
  (0xA6, 0x006A_446A_4460),
  (0xAC, 0x005F),
  (0xAF, 0x42A1_44ED_444B),
  (0xB4, 0x44EE),
  (0xB6, 0x4379_46E5),
  (0xD7, 0x447A),
  (0xF7, 0x447B),
  (0x2BA, 0x445B),
  (0x2C7, 0x4553),
  (0x2C9, 0x4551_4552_4554),
  (0x2CD, 0x4752),
  (0x2D9, 0x4555),
  (0x391, 0x4161_4162_4163_4164_4165_4166_4167_4168_4169_416A_416B_416C),
  (0x39D, 0x416D_416E_416F_4170_4171),
  (0x3A3, 0x4172_4173_4174_4175_4176_4177_4178),
  (0x3B1, 0x4141_4142_4143_4144_4145_4146_4147_4148_4149_414A_414B_414C),
  (0x3BD, 0x414D_414E_414F_4150_4151),
  (0x3C3, 0x4152_4153_4154_4155_4156_4157_4158),
  (0x401, 0x41C6),
  (0x410, 0x41C0_41C1_41C2_41C3_41C4_41C5_41C7_41C8_41C9_41CA_41CB_41CC),
  (0x41C, 0x41CD_41CE_41CF_41D0_41D1_41D2_41D3_41D4_41D5_41D6_41D7_41D8),
  (0x428, 0x41D9_41DA_41DB_41DC_41DD_41DE_41DF_41E0_4180_4181_4182_4183),
  (0x434, 0x4184_4185_4187_4188_4189_418A_418B_418C_418D_418E_418F_4190),
  (0x440, 0x4191_4192_4193_4194_4195_4196_4197_4198_4199_419A_419B_419C),
  (0x44C, 0x419D_419E_419F_41A0),
  (0x451, 0x4186),
  (0x2010, 0x445A),
  (0x2013, 0x444A_444A),
  (0x2018, 0x4461_4471),
  (0x201C, 0x4462_4472),
  (0x2020, 0x4377_4378),
  (0x2025, 0x447E_447F_4345),
  (0x2030, 0x4373),
  (0x2032, 0x4450_44EF),
  (0x2035, 0x4279),
  (0x203B, 0x446B),
  (0x203E, 0x42A1),
  (0x2103, 0x444E),
  (0x2105, 0x46BB),
  (0x2109, 0x46DB),
  (0x2116, 0x446E),
  (0x2121, 0x446F),
  (0x212B, 0x4372),
  (0x2160, 0x41F1_41F2_41F3_41F4_41F5_41F6_41F7_41F8_41F9_41FA),
  (0x2170, 0x41B1_41B2_41B3_41B4_41B5_41B6_41B7_41B8_41B9_41BA),
  (0x2190, 0x44F1_44F2_44F0_44F3),
  (0x2196, 0x46D4_46D5_46D7_46D6),
  (0x21B8, 0x46EF_46F0),
  (0x21D2, 0x436E),
  (0x21D4, 0x436F),
  (0x21E7, 0x46EE),
  (0x2200, 0x4370),
  (0x2202, 0x434E_4371),
  (0x2207, 0x434F_4364),
  (0x220B, 0x4365),
  (0x2215, 0x46DA),
  (0x221A, 0x46C5),
  (0x221D, 0x4361_444D_46CC_46CB),
  (0x2223, 0x424F),
  (0x2225, 0x447C),
  (0x2227, 0x436C_436D_46C8_46C9_46D0_4363),
  (0x222E, 0x46D1),
  (0x2234, 0x4468_4478),
  (0x223C, 0x43A1_4360),
  (0x2252, 0x46C6),
  (0x2260, 0x444C_46C7),
  (0x2266, 0x4467_4477),
  (0x226A, 0x435D_435E),
  (0x2282, 0x4368_4369),
  (0x2286, 0x4366_4367),
  (0x2295, 0x46D2),
  (0x2299, 0x46D3),
  (0x22A5, 0x46CA),
  (0x22BF, 0x46CD),
  (0x2312, 0x434D),
  (0x2400, 0x4781_4782_4783_4784_4785_4786_4787_4788_4789_478A_478B_478C),
  (0x240C, 0x478D_478E_478F_4790_4791_4792_4793_4794_4795_4796_4797_4798),
  (0x2418, 0x4799_479A_479B_479C_479D_479E_479F_47A0),
  (0x2421, 0x47A1),
  (0x2460, 0x4641_4642_4643_4644_4645_4646_4647_4648_4649_464A),
  (0x2474, 0x4651_4652_4653_4654_4655_4656_4657_4658_4659_465A),
  (0x2500, 0x4675_43B7_4676_43B8),
  (0x250C, 0x4678),
  (0x250F, 0x43B9_4679),
  (0x2513, 0x43E1_467A),
  (0x2517, 0x43E3_467B),
  (0x251B, 0x43E2_4673_43EE),
  (0x2520, 0x43E9),
  (0x2523, 0x43E4_4672_43F0),
  (0x2528, 0x43EB),
  (0x252B, 0x43E6_4671),
  (0x252F, 0x43EA_43EF),
  (0x2533, 0x43E5_4670),
  (0x2537, 0x43EC_43F1),
  (0x253B, 0x43E7_466F),
  (0x253F, 0x43ED),
  (0x2542, 0x43F2),
  (0x254B, 0x43E8),
  (0x2550, 0x4681),
  (0x255E, 0x4682),
  (0x2561, 0x4684),
  (0x256A, 0x4683),
  (0x256D, 0x467C_467D_467F_467E_4689_468A_468B_46B7),
  (0x2581, 0x4660_4661_4662_4663_4664_4665_4666_4667_466E_466D_466C_466B),
  (0x258D, 0x466A_4669_4668),
  (0x2594, 0x4674_4677),
  (0x25A0, 0x44EA_44E9),
  (0x25B2, 0x44E3_44E2),
  (0x25BC, 0x44EC_44EB),
  (0x25C6, 0x44E8_44E7),
  (0x25CB, 0x44E0),
  (0x25CE, 0x44E4_44E1),
  (0x25E2, 0x4685_4686_4688_4687),
  (0x25EF, 0x437A),
  (0x2605, 0x44E6_44E5),
  (0x2640, 0x4479),
  (0x2642, 0x4469),
  (0x266A, 0x4376),
  (0x266D, 0x4375),
  (0x266F, 0x4374),
  (0x273D, 0x425C),
  (0x3000, 0x4040_4344_4341_46B9),
  (0x3005, 0x445D_445E_445F_4464_4474_4465_4475_4342_4343_4442_4443_4466),
  (0x3011, 0x4476_446C_447D_4463_4473),
  (0x301D, 0x46E9_46EA),
  (0x3021, 0x4541_4542_4543_4544_4545_4546_4547_4548_4549),
  (0x3041, 0x4447_4481_4448_4482_4449_4483_4451_4484_4452_4485_4486_44C0),
  (0x304D, 0x4487_44C1_4488_44C2_4489_44C3_448A_44C4_448C_44C5_448D_44C6),
  (0x3059, 0x448E_44C7_448F_44C8_4490_44C9_4491_44CA_4492_44CB_4456_4493),
  (0x3065, 0x44CC_4494_44CD_4495_44CE_4496_4497_4498_4499_449A_449D_44CF),
  (0x3071, 0x44D5_449E_44D0_44D6_449F_44D1_44D7_44A2_44D2_44D8_44A3_44D3),
  (0x307D, 0x44D9_44A4_44A5_44A6_44A7_44A8_4453_44A9_4454_44AA_4455_44AC),
  (0x3089, 0x44AD_44AE_44AF_44BA_44BB_4457_44BC_44DA_44DB_4446_44BD),
  (0x309B, 0x43BE_43BF_44DC_44DD),
  (0x30A1, 0x4347_4381_4348_4382_4349_4383_4351_4384_4352_4385_4386_43C0),
  (0x30AD, 0x4387_43C1_4388_43C2_4389_43C3_438A_43C4_438C_43C5_438D_43C6),
  (0x30B9, 0x438E_43C7_438F_43C8_4390_43C9_4391_43CA_4392_43CB_4356_4393),
  (0x30C5, 0x43CC_4394_43CD_4395_43CE_4396_4397_4398_4399_439A_439D_43CF),
  (0x30D1, 0x43D5_439E_43D0_43D6_439F_43D1_43D7_43A2_43D2_43D8_43A3_43D3),
  (0x30DD, 0x43D9_43A4_43A5_43A6_43A7_43A8_4353_43A9_4354_43AA_4355_43AC),
  (0x30E9, 0x43AD_43AE_43AF_43BA_43BB_4357_43BC_43DA_43DB_4346_43BD_43D4),
  (0x30F5, 0x4359_435A),
  (0x30FC, 0x4358_43DC_43DD),
  (0x3105, 0x4556_4557_4558_4559_455A_455B_455C_455D_455E_455F_4560_4561),
  (0x3111, 0x4562_4563_4564_4565_4566_4567_4568_4569_456A_456B_456C_456D),
  (0x311D, 0x456E_456F_4570_4571_4572_4573_4574_4575_4576_4577_4578_4579),
  (0x3129, 0x457A),
  (0x3231, 0x446D),
  (0x32A3, 0x46BA),
  (0x338E, 0x46E2_46E3),
  (0x339C, 0x46DD_46DE_46DF),
  (0x33A1, 0x46E1),
  (0x33C4, 0x46E4),
  (0x33CE, 0x46E0),
  (0x33D1, 0x46CF_46CE),
  (0x33D5, 0x46DC),
  (0x4E00, 0x4C41_4C43),
  (0x4E03, 0x4C44),
  (0x4E07, 0x6946_4C57_4C55_4C58_4C56_6947_4C83_6950_694E_4C82_4C81),
  (0x4E14, 0x4CE1_4CE0_4CDF),
  (0x4E18, 0x4CE2_4CDE),
  (0x4E1E, 0x4DA1_4DA2),
  (0x4E26, 0x4FE3),
  (0x4E28, 0x4842),
  (0x4E2B, 0x4C59),
  (0x4E2D, 0x4C84_6951),
  (0x4E30, 0x4C85_6964_4E8C_6B52),
  (0x4E36, 0x4843),
  (0x4E38, 0x4C5A_4C86),
  (0x4E3B, 0x4CE3_6965),
  (0x4E3F, 0x4844),
  (0x4E42, 0x6941_4C45),
  (0x4E45, 0x4C5C),
  (0x4E47, 0x6948_4C5D),
  (0x4E4B, 0x4C87),
  (0x4E4D, 0x4CE4_4CE6_4CE5),
  (0x4E52, 0x4DA3_4DA4),
  (0x4E56, 0x4FE4),
  (0x4E58, 0x53FD_4C42),
  (0x4E5C, 0x6942_4C46_4C5F_4C5E),
  (0x4E69, 0x4DA5),
  (0x4E73, 0x4FE5),
  (0x4E7E, 0x5692_726F),
  (0x4E82, 0x5BA9_7977_7978_4846_4C47),
  (0x4E88, 0x4C89),
  (0x4E8B, 0x4FE6_4C48_6949_4C60),
  (0x4E91, 0x4C8A_4C8C_6952_4C8D_4C8B),
  (0x4E99, 0x4DA6),
  (0x4E9B, 0x4FE7),
  (0x4E9E, 0x4FE8_51E6_4848_4C61_4C8E),
  (0x4EA4, 0x4DA7_4DA9_4DA8),
  (0x4EA8, 0x4E8D),
  (0x4EAB, 0x4FE9_4FEA_51E7_51E8),
  (0x4EB3, 0x5441),
  (0x4EB6, 0x7979),
  (0x4EB9, 0x8F66_4C49),
  (0x4EC0, 0x4C90_4C8F_6953_4C91_4C97),
  (0x4EC6, 0x4C92_4C93_6955_6954_4C95_4C96),
  (0x4ECD, 0x4C94),
  (0x4ED4, 0x4CE9_4CEA_4CEB_4CEC_4CE8_4CEF_696B),
  (0x4EDC, 0x6967_696A_4CF0_4D43),
  (0x4EE1, 0x6969),
  (0x4EE3, 0x4CED_4CEE_4CE7),
  (0x4EE8, 0x6966_6968),
  (0x4EF0, 0x4DB6_6990_4DB3_4DB7_699A_698E_4DB4_6992),
  (0x4EFB, 0x4DB5),
  (0x4EFD, 0x4DB8),
  (0x4EFF, 0x4DAA_6991_4DB9_6995),
  (0x4F04, 0x6999_6996),
  (0x4F08, 0x6993_4DAB_4DAD_4DBA),
  (0x4F0D, 0x4DAF_698B_4DB2_4DB0_4DB1_699B_6998_698F_4DAE),
  (0x4F18, 0x698C_4DAC),
  (0x4F1D, 0x6994),
  (0x4F22, 0x6997),
  (0x4F2C, 0x698D_6A48),
  (0x4F2F, 0x4EA3_4E96),
  (0x4F33, 0x6A49_4E93),
  (0x4F36, 0x4EA5),
  (0x4F38, 0x4E9B),
  (0x4F3A, 0x4E9A_69FA_4E9E_4E99_6A42_6A4A),
  (0x4F41, 0x6A46),
  (0x4F43, 0x4E9C),
  (0x4F46, 0x4E9F_4E90_4EA8_69FC),
  (0x4F4C, 0x6B5E_4E8E_4EA4_4E8F_4E97_4E98_6A44_69FD_4E9D_4E95_69F9_4E91),
  (0x4F58, 0x6A47_4EA6_4EA9_4E94_4EA1_4EA7_4E92_6A45_4EA2_6A4B_69FB_4EA0),
  (0x4F64, 0x6A41),
  (0x4F67, 0x6A43),
  (0x4F69, 0x4FF8_6B60_6B6C_4FF0),
  (0x4F6E, 0x6B6D_4FEB_4FF5),
  (0x4F73, 0x4FEE_6B5A_4FF6_6B59_6B5D_6B64_6B62_5041_4FF9_6B54_6B56_4FFB),
  (0x4F7F, 0x4FEF_6B57_6B63_6B6A_4FF4_6B5C_6B55_4FF3_6B58_4FF7_6B5B),
  (0x4F8B, 0x4FF2),
  (0x4F8D, 0x4FED),
  (0x4F8F, 0x4FFC_6B65_4FFD_6B69),
  (0x4F94, 0x6B67_6B6B_4FFA_6B5F_6B53),
  (0x4F9A, 0x6B61_4FF1_6B66_4FEC_6B68),
  (0x4FAE, 0x51F7_51EB),
  (0x4FB2, 0x6D43_6D4B),
  (0x4FB5, 0x51EA_51F2_5241),
  (0x4FB9, 0x6D51_6D4F_6D4A),
  (0x4FBF, 0x51EC_6D50_6D46_51FA_51F1_51F9_6D41),
  (0x4FC7, 0x6D4D),
  (0x4FC9, 0x6D44_51F5_6D45),
  (0x4FCD, 0x6CFD_51FC_51EF_51F8_51EE),
  (0x4FD3, 0x6D42_6D47),
  (0x4FD6, 0x6D4E_51F6_51F3_6D49_51FB_6D4C_6D48_51F0_51FD_51F4_51ED_51E9),
  (0x4FEC, 0x6D52),
  (0x4FEE, 0x545B_5445),
  (0x4FF1, 0x5455),
  (0x4FF3, 0x545A_6F93_6F92_6F97_6F98_5448),
  (0x4FFA, 0x5451),
  (0x4FFE, 0x545E),
  (0x5000, 0x5452),
  (0x5005, 0x6F8C_544B_6F8D),
  (0x5009, 0x5460),
  (0x500B, 0x5457_5442_5443_6FA0_56A3),
  (0x5011, 0x5450_544F_6F8E_5453_727F_544A_6F99_5459_5458_544E_6F91_6F9A),
  (0x501E, 0x6F8B_544D_6F9B_5456_6F8F_5444),
  (0x5025, 0x5447_5446_6F9C_5454_5449_545D_545F_6F96_545C),
  (0x502F, 0x6F9E_6F90_6F9F),
  (0x5033, 0x6F94),
  (0x5035, 0x6F9D),
  (0x5037, 0x6F95),
  (0x503C, 0x544C),
  (0x5040, 0x7288_727B),
  (0x5043, 0x5697),
  (0x5045, 0x7281_7287_5696_7279_569A_727D_7276_5698_727A_569D_56A2),
  (0x5051, 0x728C),
  (0x5053, 0x7275),
  (0x5055, 0x569E),
  (0x5057, 0x728B),
  (0x505A, 0x5699_727C_5695_7277_7273_7282_7274_7272_727E_7285_7286_569B),
  (0x5068, 0x75C0_7283_7271_7284),
  (0x506D, 0x56A5_7289_56A4_7270),
  (0x5072, 0x7278_728A_56A0_569F_569C_56A1),
  (0x507A, 0x5693),
  (0x507D, 0x5694),
  (0x5080, 0x594E),
  (0x5082, 0x75C3_75BC),
  (0x5085, 0x594B),
  (0x5087, 0x75C4),
  (0x508B, 0x75BA_75BD_594A_75BE),
  (0x5091, 0x594D_75C2),
  (0x5094, 0x75B8_75B7_594F),
  (0x5098, 0x5950_594C_5951_75B6_75C1_75BF_75B9),
  (0x50A2, 0x5949_75BB),
  (0x50AC, 0x5BB0_5BAA_797D_5BB3_7984_7987_5BAC_5BAD_7981_5BAB_798A_5BB1),
  (0x50B8, 0x798B),
  (0x50BA, 0x7986_5BB2),
  (0x50BD, 0x797A_5BAF_797B),
  (0x50C1, 0x7985_7983),
  (0x50C4, 0x797E_5BAE_797C_5BB4_7982_7989_797F_7988),
  (0x50CE, 0x5DFB_5DF8),
  (0x50D1, 0x5DF9),
  (0x50D3, 0x7D43_7CF8_5DF7_5DF4_7CF9),
  (0x50DA, 0x5DF6_7CFC),
  (0x50DD, 0x7D41),
  (0x50E0, 0x7D48),
  (0x50E3, 0x7D47_7D42_5DF3_7CF7_5DF1_7CFA_5DFC_7CFD),
  (0x50EC, 0x7D44_5DF5_5DF2_7D46_7D45_5DFA),
  (0x50F3, 0x7CFB),
  (0x50F5, 0x6042_8076),
  (0x50F8, 0x8073_6043),
  (0x50FB, 0x6041),
  (0x50FD, 0x807A_8077_8070_5FFD),
  (0x5102, 0x6044_8071_5FFC_6047_8074_8075_6045_6046_807B_8078_8079),
  (0x5110, 0x6253_83C3_6250_83C0_6252_6254),
  (0x5117, 0x83C1_6251),
  (0x511A, 0x83C2),
  (0x511C, 0x83BF),
  (0x511F, 0x63C0_86C8_63C1_86C6),
  (0x5124, 0x86C7_86C5_86C4),
  (0x5129, 0x86C9_63BF),
  (0x512D, 0x8965_8966),
  (0x5130, 0x8072_8964_63C2_664B_8B5A_8B5B),
  (0x5137, 0x6783_6784_8E70_8E6F_67D7_67D6_9041),
  (0x513F, 0x4C4A_4C62_4C99),
  (0x5143, 0x4C98_4CF2_4CF1_4DBD_4DBC_4DBE_4DBB),
  (0x514B, 0x4EAB_4EAA_4EAC),
  (0x5152, 0x5043),
  (0x5154, 0x5042_5044),
  (0x5157, 0x5242),
  (0x5159, 0x46F1_6FA1_46F2_56A6_46F4_46F3_75C5),
  (0x5161, 0x46F5_5DFD_46F6),
  (0x5165, 0x4C4B),
  (0x5167, 0x4C9A_4DBF_5045),
  (0x516B, 0x4C4C_4C9D_4C9B_4C9C),
  (0x5171, 0x4DC0),
  (0x5175, 0x4EAD_5047_5046_5048),
  (0x517C, 0x5461),
  (0x5180, 0x6255),
  (0x5182, 0x484D),
  (0x5187, 0x694F),
  (0x5189, 0x4CF3_4CF4),
  (0x518D, 0x4DC1),
  (0x518F, 0x6A4C),
  (0x5191, 0x5244_5243_6FA3_6FA2_56A7_484E_4C9E_6956),
  (0x519E, 0x6B6E),
  (0x51A0, 0x5245),
  (0x51A2, 0x5464),
  (0x51A4, 0x5462_5463),
  (0x51AA, 0x6256_484F_4CF5),
  (0x51B0, 0x4DC2_699C),
  (0x51B6, 0x4EAE_4EAF),
  (0x51B9, 0x6A4D),
  (0x51BC, 0x6B6F_5049_6B70),
  (0x51C4, 0x6FA5_6FA6_5467),
  (0x51C8, 0x6FA7),
  (0x51CA, 0x6FA4_5468_5466_5465_6FA8),
  (0x51D0, 0x728D),
  (0x51D4, 0x75C6),
  (0x51D7, 0x798C_7D49),
  (0x51DC, 0x6048_6257_83C4),
  (0x51E0, 0x4C4D_4C5B),
  (0x51F0, 0x56A8_5953),
  (0x51F3, 0x5E41),
  (0x51F5, 0x6943_4C9F),
  (0x51F8, 0x4CF8_4CF6_4CF7),
  (0x51FD, 0x504A),
  (0x5200, 0x4C4E_4C4F),
  (0x5203, 0x4C63),
  (0x5206, 0x4CA0_4CA1_4CA2_699E_4CF9),
  (0x520C, 0x696C),
  (0x520E, 0x4DC6),
  (0x5210, 0x699F_4DC4_4DC5_699D),
  (0x5216, 0x4DC7_4DC3),
  (0x521C, 0x6A4E_51CE_6A4F),
  (0x5221, 0x6A50),
  (0x5224, 0x4EB1_4EB0),
  (0x5228, 0x4EB4_4EB2_4EB3),
  (0x522E, 0x5050),
  (0x5230, 0x504F_6B75_6B72_6B73),
  (0x5235, 0x6B71_5051_504D_504C),
  (0x523A, 0x504E_504B),
  (0x5241, 0x5052),
  (0x5243, 0x5247_6D53),
  (0x5246, 0x6B74_524C),
  (0x5249, 0x6D54_5248_524B_524A_5249_5246),
  (0x5252, 0x6FAB),
  (0x5254, 0x546B_6FAE_5469),
  (0x525A, 0x6FAA_546C_546A_546D_6FAC_6FAD),
  (0x5261, 0x6FA9_6FAF),
  (0x5269, 0x5957_56A9_728E_7290_728F_7291_56AA),
  (0x5272, 0x5954),
  (0x5274, 0x5955_5956),
  (0x5277, 0x5BB6_798E),
  (0x527A, 0x798D_798F_7990_5BB7),
  (0x527F, 0x5BB5_7D4A_7D4B_5E43_5E42_7EE2),
  (0x5287, 0x6049_604A_604B_604D_807C_807D_604C),
  (0x5291, 0x6258),
  (0x5293, 0x6259),
  (0x5296, 0x8B5C_8E72_8E71_9042),
  (0x529B, 0x4C50),
  (0x529F, 0x4CFB_4CFA),
  (0x52A3, 0x4DC8),
  (0x52A6, 0x69A0),
  (0x52A9, 0x4EB6_4EB7_4EB5_4EB8_6A51_6A52),
  (0x52BB, 0x5054_6B76),
  (0x52BE, 0x5053),
  (0x52C0, 0x6D55_5250_6D56_524F),
  (0x52C7, 0x524D),
  (0x52C9, 0x524E),
  (0x52CD, 0x6FB0),
  (0x52D2, 0x56AB_7293),
  (0x52D5, 0x56AE_7292_57AA_56AD_56AC),
  (0x52DB, 0x595A),
  (0x52DD, 0x5959_5958_5BB8),
  (0x52E2, 0x5BBB_5BBC_5BBA),
  (0x52E6, 0x5BB9),
  (0x52E9, 0x7D4C),
  (0x52EB, 0x7D4D),
  (0x52EF, 0x807F_604E_807E),
  (0x52F3, 0x625A_86CA_63C3),
  (0x52F7, 0x8B5D_66DF_4854_4C64_4CA3_6957),
  (0x52FE, 0x4CA4_4CA5),
  (0x5305, 0x4CFC_4CFD),
  (0x5308, 0x4DC9_6A53_6B77_6B78),
  (0x530D, 0x5251_6FB1_56B0_56AF_75C8_75C7),
  (0x5315, 0x4C51_4CA6_4D41),
  (0x5319, 0x56B1_6944),
  (0x531C, 0x696D_4D42),
  (0x531F, 0x69A2_4DCB_4DCA_69A1_4EB9),
  (0x532A, 0x546E),
  (0x532D, 0x7294),
  (0x532F, 0x5BBD_7D4E_5E44),
  (0x5334, 0x83C5),
  (0x5337, 0x8CEB_4857_4CA7),
  (0x533C, 0x6B79_6D57_56B4_56B2_56B3_4C52),
  (0x5343, 0x4C65_454B_4CAA),
  (0x5347, 0x4CA9_4CA8_4D45_4D44),
  (0x534C, 0x696E_69A3),
  (0x5351, 0x5058_5055_5057_5056),
  (0x5357, 0x5252),
  (0x535A, 0x595B),
  (0x535C, 0x4C53),
  (0x535E, 0x4CAB),
  (0x5360, 0x4D47_4D46),
  (0x5363, 0x6A54),
  (0x5366, 0x5059),
  (0x5369, 0x485A),
  (0x536C, 0x6958),
  (0x536E, 0x4D49_4D48_4DCC_4DCD_6A55_4EBA),
  (0x5375, 0x4EBB),
  (0x5377, 0x505A_505B_505C),
  (0x537B, 0x5253_6D58),
  (0x537F, 0x546F),
  (0x5382, 0x6945),
  (0x5384, 0x4CAC),
  (0x538A, 0x69A4),
  (0x538E, 0x6A56_6A57),
  (0x5392, 0x6B7A),
  (0x5394, 0x6B7B),
  (0x5396, 0x6D5A_6D59_6D5C_6D5B_5254),
  (0x539C, 0x7295_5471_6FB2_5470),
  (0x53A4, 0x75C9_595C),
  (0x53A7, 0x75CA),
  (0x53AC, 0x7D4F_5E45),
  (0x53B2, 0x604F),
  (0x53B4, 0x8B5E),
  (0x53B6, 0x485C),
  (0x53B9, 0x6959),
  (0x53BB, 0x4D4A),
  (0x53C3, 0x56B5),
  (0x53C8, 0x4C54_4C66_4CAE_4CAD),
  (0x53CD, 0x4CAF),
  (0x53D4, 0x505E),
  (0x53D6, 0x505D_505F),
  (0x53DB, 0x5255),
  (0x53DF, 0x5472),
  (0x53E1, 0x83C6_655A_4C67_4D4C_4D5B_4D56),
  (0x53E8, 0x4D51_4D50_4D57_4D55_4D4E_4D5C_4D4F_4D4B_4D5A_4D59_4D58_4D4D),
  (0x53F5, 0x4D54),
  (0x53F8, 0x4D53),
  (0x53FB, 0x4D5D_4D52),
  (0x5401, 0x4DD3),
  (0x5403, 0x4DD9_4DD5),
  (0x5406, 0x4DDB_69A5_4DD8_4DCE_4DD1_4DD4_4DD0_4DD7_4DDA_4DCF_4DD2_4DD6),
  (0x5412, 0x4DDC),
  (0x5418, 0x6A60_6A5D),
  (0x541B, 0x4EC8_6A5E_4EBC_4EBE_4ED6_4ED1),
  (0x5424, 0x6A65_6A5F_4EC0_4EC2_6A64_4EC9_6A5A_4ED5_4ED7_4EBD_4ECE),
  (0x5430, 0x6A58_4ED4),
  (0x5433, 0x4EC5),
  (0x5435, 0x4ECF_4ED0_6A59_4ECD_4ECB),
  (0x543B, 0x4ECC_4ED2_6A61_4EBF),
  (0x5440, 0x4ED3_6A63_4EC7_4EC4),
  (0x5445, 0x6A5C_4EC3_6A66_4EC6),
  (0x544A, 0x4ECA),
  (0x544E, 0x4EC1_6A62),
  (0x5454, 0x6A5B),
  (0x5460, 0x6B8D_6B8C_5071_6B8F_6B91_6B86_6B89_6B90_5072),
  (0x546B, 0x6B83_6B87),
  (0x546F, 0x6B8B_6D6B_506D_6D6F_5060_6B88_5061_506E_5067_5063),
  (0x547A, 0x6B84_5066_506B_5074_6B85_6B7D_5065_6B7E_6B81),
  (0x5484, 0x5068),
  (0x5486, 0x506A_6B7C_6B82),
  (0x548B, 0x5073_506F_6B8A_5075),
  (0x5490, 0x506C_6B7F_5069),
  (0x5495, 0x5064_5062),
  (0x5498, 0x6B8E),
  (0x549A, 0x5070),
  (0x54A0, 0x6D6A_6D5E_6D6D),
  (0x54A5, 0x6D60_525C_526A_5258_5269_5261_5266_5256_6D5F_6D65_5265_6D71),
  (0x54B1, 0x5267),
  (0x54B3, 0x525D),
  (0x54B6, 0x6D67_6D64_525B),
  (0x54BA, 0x6D5D_5268_6D6C_5260_6D6E_526B_5257_5262_525F_6D62_5263_6D68),
  (0x54C6, 0x6D69_525E_5264_525A),
  (0x54CE, 0x5259_6D61),
  (0x54D6, 0x6D66),
  (0x54DE, 0x6D70),
  (0x54E0, 0x6FC6_547F_6FB4),
  (0x54E4, 0x6FB9_5478_5484_6FB7_5473_547D_5483_6FBE),
  (0x54ED, 0x547E_5482),
  (0x54F1, 0x6FC1_5479_6FB8),
  (0x54F7, 0x6FC4_6FC5),
  (0x54FA, 0x547B_6FC3_5477_5487),
  (0x54FF, 0x6FBB),
  (0x5501, 0x5475),
  (0x5503, 0x6FC8_6FBC_6FC0_547A_5486_6FBD_5481_6FC2_6FC9_72A4),
  (0x550E, 0x6FC7_5488_5474_6FBF_6FB6),
  (0x5514, 0x547C),
  (0x5517, 0x6FB5),
  (0x551A, 0x6FBA),
  (0x5526, 0x6FB3_5485),
  (0x552A, 0x729C),
  (0x552C, 0x56C8_72AA_56C6_56C3_72A1_56BF_72A5_56CA_729B_72A0_729F_5476),
  (0x5538, 0x56C5_72A8),
  (0x553B, 0x72AB_7298),
  (0x553E, 0x596E),
  (0x5540, 0x72AC_56CB),
  (0x5543, 0x56BD_56BA_72A3_56B7),
  (0x5548, 0x72A9),
  (0x554A, 0x56BE_72AD),
  (0x554D, 0x7299_72A7_56C1_729A_729D_72A2),
  (0x5555, 0x56C2_56C0_56CC),
  (0x555C, 0x56C7),
  (0x555E, 0x56BB_5797),
  (0x5561, 0x56BC_729E_56C9_56C4_72A6_56B9),
  (0x556A, 0x56B8),
  (0x5575, 0x7296_7297_75CF),
  (0x557B, 0x595D_5960_75DA_5974_75DD_595E_75D6_5964_596A_5AC2),
  (0x5587, 0x5968_75D3_5975_5961_5969_75DB_799E_75E0_75D4),
  (0x5591, 0x75CB_75D8_75D2_5967_75DE),
  (0x5598, 0x5963_5977_5970),
  (0x559C, 0x5965_5962),
  (0x559F, 0x596D),
  (0x55A1, 0x75DF_75D1_75D7_75D9_75CD_75DC_595F_75CC),
  (0x55AA, 0x5966_5976_5972_75CE_596C),
  (0x55B1, 0x5973_596F_596B),
  (0x55B5, 0x75D5),
  (0x55BB, 0x5971),
  (0x55BF, 0x799C_7998),
  (0x55C2, 0x79A7_7991_799A_5BCB_5BCC_5BC4_79A3_5BCE_7996_7995_7993_79A5),
  (0x55CE, 0x5BC2_799F_7994_5BC5_799D_5BC0_7999_79A0_79A2),
  (0x55D9, 0x79A6_5BC9_7992_5BC3_7997),
  (0x55DF, 0x5BBE),
  (0x55E1, 0x5BCA_79A1_5BC6_5BC7_5BCD_5BC1_46F7_5BBF_799B),
  (0x55EF, 0x5BC8),
  (0x55F2, 0x79A4),
  (0x55F6, 0x5E55_5E50),
  (0x55F9, 0x7D5E_7D5A),
  (0x55FC, 0x7D54_5E4A_5E46_7D5D_5E47_7D57_7D59),
  (0x5604, 0x7D5C),
  (0x5606, 0x5E4C),
  (0x5608, 0x5E53_5E4D),
  (0x560C, 0x7D52_5E4E_5E4F_7D55_5E54),
  (0x5612, 0x7D53_7D58_5E4B_7D51_5E51_5E49),
  (0x561B, 0x5E48_7D56_7D5B),
  (0x561F, 0x5E52),
  (0x5627, 0x7D50),
  (0x5629, 0x6056_8091),
  (0x562C, 0x808E),
  (0x562E, 0x6050_605C_605D),
  (0x5632, 0x6053_808C_6055_8084_605B),
  (0x5638, 0x8090_6052_8092_6051),
  (0x563D, 0x808D_808F_6054_808B_8085_8082),
  (0x5645, 0x75D0_8088),
  (0x5648, 0x8081_8087_8086),
  (0x564C, 0x8083),
  (0x564E, 0x6058),
  (0x5653, 0x6057),
  (0x5657, 0x6059_8089_625B_808A),
  (0x565E, 0x83CF),
  (0x5660, 0x83C8),
  (0x5662, 0x6267_83CC_625F_6263_83CB),
  (0x5668, 0x6262_625E_6261_625C_6266_83CD_83C9_6265_83C7_6264_83CE_83CA),
  (0x5674, 0x605A),
  (0x5676, 0x6268_83D0_6260_625D),
  (0x567E, 0x86D1_86D3_63C5_86D4_86D2_86D0_86CF_63C7_86CE_63C8),
  (0x568C, 0x86CC_86CD_63C4_63C9_63C6),
  (0x5693, 0x86CB),
  (0x5695, 0x655B),
  (0x5697, 0x8969_8967_896C_896A),
  (0x569C, 0x8968_896B),
  (0x56A5, 0x664C_8B61_8B62_66E0),
  (0x56AA, 0x8B63_8B5F_8B64_8B60_655C),
  (0x56B2, 0x8CEC_8CEE_66E3_8CED_66E2_66E1),
  (0x56BC, 0x66E4_8E74_8E75),
  (0x56C0, 0x6786_6785_6787_8E73),
  (0x56C5, 0x8F68_8F67),
  (0x56C8, 0x67D8_67DA_67D9_8F69_6854_90B5),
  (0x56D1, 0x687D),
  (0x56D3, 0x90B4_90FD),
  (0x56D7, 0x694A),
  (0x56DA, 0x4D5F_4D5E),
  (0x56DD, 0x4DDF_4DDE_69A7_4DDD_69A6),
  (0x56E4, 0x4EDA_6A69),
  (0x56E7, 0x6A68),
  (0x56EA, 0x4ED8_4EDB),
  (0x56EE, 0x6A67),
  (0x56F0, 0x4ED9),
  (0x56F7, 0x6B92),
  (0x56F9, 0x6B93_5076),
  (0x56FF, 0x526C),
  (0x5701, 0x6FCA_6FCB_5489_548A),
  (0x5707, 0x72AF_56CD_56CF_72AE_56CE_75E1_5978),
  (0x5712, 0x5BCF_5BD0_79A8),
  (0x5716, 0x5E57),
  (0x5718, 0x5E56),
  (0x571A, 0x8093_83D2_83D1),
  (0x571E, 0x917C_4C68_695A),
  (0x5722, 0x696F_6970),
  (0x5728, 0x4DE2_4DE6_69A9),
  (0x572C, 0x4DE4_4DE3_69A8_4DE5_4DE1),
  (0x5733, 0x4DE0_69AA),
  (0x573B, 0x4EE5),
  (0x573E, 0x4EE2),
  (0x5740, 0x4EDE_6A6A),
  (0x5745, 0x6A6B),
  (0x5747, 0x4EE0),
  (0x5749, 0x6A6D_4EDC_6A6E_6A6C_4EDF_4EE1_4EE4_4EE3_4EDD_6A6F),
  (0x5761, 0x507B_6BA0),
  (0x5764, 0x507D),
  (0x5766, 0x507C),
  (0x5768, 0x6BA1_507A_5079_6B97),
  (0x576D, 0x6B96),
  (0x576F, 0x6B94_6B99_6B98_6B95_6B9E_6B9F_6B9C_6B9A_5078),
  (0x577B, 0x6B9D_507E_6BA2),
  (0x5780, 0x6B9B),
  (0x5782, 0x526D_5077),
  (0x578B, 0x526E_6D76),
  (0x578F, 0x6D7C),
  (0x5793, 0x5274_6D7A_6D81),
  (0x5797, 0x6D77_6D7B_6D7D_6D7F_6D79),
  (0x579D, 0x6D78_6D73_6D74_526F),
  (0x57A2, 0x5271_5270_6D75_6D7E),
  (0x57AE, 0x5273),
  (0x57B5, 0x6D72_6FD5),
  (0x57B8, 0x6FD4_6FD9_6FD0),
  (0x57BC, 0x6FD3_6FD2),
  (0x57BF, 0x6FD6),
  (0x57C1, 0x6FDA_548B_548E),
  (0x57C6, 0x6FD1_6FD7),
  (0x57CB, 0x548D_6FCC),
  (0x57CE, 0x5272_72BD_6FD8),
  (0x57D2, 0x6FCF),
  (0x57D4, 0x548C_6FCE),
  (0x57DC, 0x72B4),
  (0x57DF, 0x56D0_56D4_72C4_72B2_72C0_56D5_72C2),
  (0x57E7, 0x72C8),
  (0x57E9, 0x72CC),
  (0x57EC, 0x72C3_72B7_72BF),
  (0x57F0, 0x72CD_72CB_72C1_72BC_72B5_75E9_72B3_56D9_72BA_56DA_56D6_72B0),
  (0x57FC, 0x72C6_72B8),
  (0x5800, 0x72B6_72C9_56D7),
  (0x5804, 0x72CF_56D1_56D3_72BE_72B9_548F_56D2_72BB_72CA_72CE_72C5),
  (0x5810, 0x72C7),
  (0x5814, 0x72B1),
  (0x5819, 0x75E4),
  (0x581B, 0x75ED_75EC_5981_75E5),
  (0x5820, 0x5982_597F),
  (0x5823, 0x75E7_597C_75EB),
  (0x5827, 0x75E6_75E8_75E2_597A),
  (0x582C, 0x75F5_75F4_75F1_5979_597D_597E_6FCD_75EE_597B_56D8_75F0_75E3),
  (0x5838, 0x75F3_75F2),
  (0x583B, 0x75F6),
  (0x583D, 0x79B6),
  (0x583F, 0x75EF),
  (0x5848, 0x75EA_79AE_5BDA_5BDD_5BD8_79AD_79B1_79AC),
  (0x5851, 0x5BD2_5BDC_79A9_5BD6_79B0),
  (0x5857, 0x5BD4_5BD3_79B3_5BD5_79B5),
  (0x585D, 0x79B2_5BD1),
  (0x5862, 0x5BDB_79B7_79AB_79B4),
  (0x5868, 0x79AA),
  (0x586B, 0x5BD7),
  (0x586D, 0x5BD9),
  (0x586F, 0x79AF),
  (0x5871, 0x79B8),
  (0x5874, 0x7D66_5E58_7D6C),
  (0x5879, 0x5E5D_7D68_7D6F_7D60_5E5F_5E59_7D65_605E_7D64_7D6D_5E5A),
  (0x5885, 0x5E5E_7D63_7D69_7D6E_7D5F_5E5C_7D67),
  (0x588E, 0x7D6B_7D71_7D61_7D6A),
  (0x5893, 0x5E5B_7D70),
  (0x5898, 0x7D62),
  (0x589C, 0x6062_8095_6060_605F_8097_809C),
  (0x58A3, 0x8098),
  (0x58A5, 0x809B_6065),
  (0x58A8, 0x624E_6064),
  (0x58AB, 0x8094_809A),
  (0x58AE, 0x6063_8099),
  (0x58B1, 0x8096),
  (0x58B3, 0x6061),
  (0x58BA, 0x83D7),
  (0x58BC, 0x83D9_83D4_626A_83D6),
  (0x58C1, 0x6269_83D8),
  (0x58C5, 0x626C_83DA_626B_83D3_83D5),
  (0x58CE, 0x63CD_86D7),
  (0x58D1, 0x63CC_86D8_63CB_86D6_63CA_86D5),
  (0x58D8, 0x655E_655D_8B65_8B67),
  (0x58DD, 0x8B66_664D_664E),
  (0x58E2, 0x664F_8CEF_66E5),
  (0x58E7, 0x9044_9043_687E),
  (0x58EB, 0x4C69_4CB0),
  (0x58EF, 0x4EE6),
  (0x58F4, 0x6D82),
  (0x58F9, 0x5983_5984),
  (0x58FC, 0x79B9_5E60_7D72_809D),
  (0x5903, 0x695B),
  (0x5906, 0x6A70),
  (0x590A, 0x4862),
  (0x590C, 0x6BA3_6D83_6FDB_5490),
  (0x5912, 0x8B68),
  (0x5914, 0x6788_4C6A_4D60_6971),
  (0x5919, 0x4DE7_4DE8),
  (0x591C, 0x507F),
  (0x5920, 0x56DB),
  (0x5922, 0x5E62),
  (0x5924, 0x5E63_5E61),
  (0x5927, 0x4C6B),
  (0x5929, 0x4CB1_4CB3_4CB2_695C_4CB4_4D61_6972),
  (0x5931, 0x4D62),
  (0x5937, 0x4DE9_4DEA),
  (0x593C, 0x69AB),
  (0x593E, 0x4EE7),
  (0x5940, 0x6A71),
  (0x5944, 0x5084_6BA4),
  (0x5947, 0x5082_5083_5081_6FDC),
  (0x594E, 0x5278_5277_5279_5276),
  (0x5953, 0x6D84_5085_5275),
  (0x5957, 0x5491_5492),
  (0x595A, 0x5493),
  (0x595C, 0x72D0),
  (0x5960, 0x5985_75F7_56DC),
  (0x5967, 0x5BDE),
  (0x5969, 0x5E65_5E64_7D73),
  (0x596D, 0x6066_626D),
  (0x5970, 0x896D_8F6A_9045_4C6C_4D63),
  (0x5976, 0x4D64_69B1_4DEC_4DEF),
  (0x597B, 0x69AF_69AD_4DEE_69B0_69B2_69AC_4DF1_4DF0_4DED_4DEB_69AE),
  (0x598A, 0x4EF2),
  (0x598D, 0x4EEF_6A76_6A79_6A78),
  (0x5992, 0x4EE9_4EF1),
  (0x5996, 0x4EEE_6A75_6A73_4EED),
  (0x599D, 0x4EE8_4EEB),
  (0x59A0, 0x6A74_6A7B_6A77_4EEC_4EF0_4EF3_6A72_6A7A_4EEA),
  (0x59AE, 0x508A_5092),
  (0x59B1, 0x6BB0_6BA9_5093_6BB4_6BA5_6BAC),
  (0x59B9, 0x5089_6BA6_5087_6BAD_6BB1_5086),
  (0x59C0, 0x6BB2_6BAB),
  (0x59C3, 0x6BAE),
  (0x59C5, 0x5095_508C_6BB5_6BB3),
  (0x59CA, 0x5091_508F_6BAA_508E_6BA8_6BA7_508D_508B_5094_5090_5088),
  (0x59D6, 0x6BAF),
  (0x59D8, 0x527B),
  (0x59DA, 0x5283_6D92_527A_6D8A_6D86),
  (0x59E0, 0x6D96_6D85),
  (0x59E3, 0x527D_6D8F_5281_5284),
  (0x59E8, 0x527E_6D93_5282),
  (0x59EC, 0x549A_6D99_6D87),
  (0x59F1, 0x6D89_6D90_6D94_6D98_6D95_6D8E_6D91),
  (0x59FA, 0x6D8B_5286_6D8D_6D8C_6D97_527C_6D88_5285),
  (0x5A03, 0x527F),
  (0x5A09, 0x54A0_6FE4),
  (0x5A0C, 0x549F),
  (0x5A0F, 0x6FE2),
  (0x5A11, 0x5494),
  (0x5A13, 0x5499),
  (0x5A15, 0x6FE1_6FDE_6FE3_5495_6FDD),
  (0x5A1B, 0x5498_5496),
  (0x5A1E, 0x6FE5_5497_549B),
  (0x5A23, 0x549C),
  (0x5A25, 0x549E),
  (0x5A29, 0x549D),
  (0x5A2D, 0x6FDF_6FE0),
  (0x5A33, 0x6FE6),
  (0x5A35, 0x72D7_56DD_7648_72D6_72E9),
  (0x5A3C, 0x56E3),
  (0x5A3E, 0x72E7),
  (0x5A40, 0x56E2_56DE_72F0_72E0_72E3),
  (0x5A46, 0x56E6_72ED_72E5_56DF_56E7),
  (0x5A4C, 0x72EA_72E8),
  (0x5A50, 0x72D9_72EE_72E2_72DD),
  (0x5A55, 0x72D3_72EF_72DF_72D2),
  (0x5A5A, 0x56E5_72E4_72F1_72E1_72D5_72DA_72D1),
  (0x5A62, 0x56E4),
  (0x5A64, 0x72DE_72DB_56E0_72D4),
  (0x5A69, 0x72EC_56E1),
  (0x5A6C, 0x72DC_72D8),
  (0x5A70, 0x72EB),
  (0x5A77, 0x5986_7641),
  (0x5A7A, 0x75FB_764F_7643_7650),
  (0x5A7F, 0x5988),
  (0x5A83, 0x764C_7649),
  (0x5A8A, 0x764A_764D_7651),
  (0x5A8E, 0x72E6_7653_79CD),
  (0x5A92, 0x5989_7654_75F9_7646),
  (0x5A97, 0x764B),
  (0x5A9A, 0x5987_598A_7652_7655_75FD_75FA),
  (0x5AA2, 0x75FC),
  (0x5AA5, 0x7644_7642_598B),
  (0x5AA9, 0x764E),
  (0x5AAC, 0x7645),
  (0x5AAE, 0x7647_75F8_79C1_79BF_5BE7_5BE5_79C9_79C0_79CA_79C6_79BE_79CC),
  (0x5ABA, 0x79BD_79C4_5BE4_5BE3_5BE2_79C2_79C7_5BDF_5BE6),
  (0x5AC4, 0x79BB),
  (0x5AC6, 0x79C5_79BA_79C3_5BE0_79C8_79BC_5BE1_79CB),
  (0x5AD5, 0x7D77_5E6A_5E69_5E6B_7D84_7D79_7D7F_7D74_7D83_7D82_7D86_7D7E),
  (0x5AE1, 0x5E66_7D7D_5E6C),
  (0x5AE5, 0x7D76_5E67),
  (0x5AE8, 0x7D85_5E68_7D78_7D7B_7D81_7D7A_7D75),
  (0x5AF3, 0x7D7C_809F_606A_80A2_80A1_80A4_80A6),
  (0x5AFB, 0x6068),
  (0x5AFD, 0x80A0),
  (0x5AFF, 0x809E),
  (0x5B01, 0x80A7_80A5_80A3),
  (0x5B05, 0x80A9),
  (0x5B07, 0x80A8_606C_6067),
  (0x5B0B, 0x6069_606B),
  (0x5B0F, 0x80AA_83E1),
  (0x5B13, 0x83E0_83DF),
  (0x5B16, 0x83E2_83DB),
  (0x5B19, 0x83DC_83E4_83DD),
  (0x5B1D, 0x626E_83E6),
  (0x5B20, 0x83E5_83DE),
  (0x5B23, 0x86DC_63D0_86DA_86DF_86DE_83E3),
  (0x5B2A, 0x63CF),
  (0x5B2C, 0x86DD_86D9_86E1_86E0_63CE),
  (0x5B32, 0x86DB),
  (0x5B34, 0x626F),
  (0x5B38, 0x655F),
  (0x5B3C, 0x896E_8B69_8B6A_8B6B_66E6),
  (0x5B43, 0x66E7),
  (0x5B45, 0x8CF0),
  (0x5B47, 0x8E77_8E76),
  (0x5B4B, 0x8F6B_8F6C_9046_90B6),
  (0x5B50, 0x4C6D_4C6E),
  (0x5B53, 0x4C6F_4CB5_4D65_69B3_4DF2_4DF3),
  (0x5B5A, 0x4EF6_4EF7_4EF5_4EF4),
  (0x5B5F, 0x5096),
  (0x5B62, 0x6BB6_5098_5097_6BB7),
  (0x5B69, 0x5287),
  (0x5B6B, 0x54A1_6FE7),
  (0x5B6E, 0x72F3),
  (0x5B70, 0x56E8_598D_72F2_598C),
  (0x5B75, 0x5E6D),
  (0x5B77, 0x7D87_6270),
  (0x5B7A, 0x63D1_86E2),
  (0x5B7D, 0x66E8),
  (0x5B7F, 0x67DB_4867_6973),
  (0x5B83, 0x4D66_6974_4DF6),
  (0x5B87, 0x4DF4_4DF5_4DF7),
  (0x5B8B, 0x4EF9_4EF8),
  (0x5B8E, 0x6A7C_4EFA),
  (0x5B92, 0x6A7D_6BB8),
  (0x5B95, 0x6BB9),
  (0x5B97, 0x5099_509B_509D_509A_509E_509C),
  (0x5BA2, 0x528B_5288_528A_528C_5289_6FE8_6D9A),
  (0x5BAC, 0x6FEA_6FE9_54A7),
  (0x5BB0, 0x54A3),
  (0x5BB3, 0x54A4_54A6_54A8_54A5),
  (0x5BB8, 0x54AA_54A9),
  (0x5BBF, 0x56ED_72F5_72F4_56EC),
  (0x5BC4, 0x56EB_56EA_56EE_56E9),
  (0x5BCA, 0x765B_7658_598F_7657_765C),
  (0x5BD0, 0x5991_765A_598E_5990_7659),
  (0x5BD6, 0x79CE),
  (0x5BD8, 0x79CF_79D0),
  (0x5BDE, 0x5E6E_5E76_7D88_5E70_5E74_7D89_5E75_5E71_5E72_5E6F_5E73_606F),
  (0x5BEA, 0x7656_6070_606E),
  (0x5BEE, 0x606D_83E7_6271_86E3_86E4),
  (0x5BF5, 0x6650_66E9),
  (0x5BF8, 0x4C70),
  (0x5BFA, 0x4DF8),
  (0x5C01, 0x528D),
  (0x5C03, 0x6FEB_54AB),
  (0x5C07, 0x56F1_56F0_56EF_5992_5993_765D_5E77_6272_4C71_695D_4CB6_6975),
  (0x5C15, 0x69B4_4DF9),
  (0x5C1A, 0x509F),
  (0x5C1F, 0x79D1),
  (0x5C22, 0x4C72),
  (0x5C24, 0x4CB7_69B5),
  (0x5C28, 0x6A7E),
  (0x5C2A, 0x6A7F),
  (0x5C2C, 0x4EFB),
  (0x5C30, 0x765E_5994),
  (0x5C33, 0x79D2),
  (0x5C37, 0x63D2_4C73_4C88_4CB8_6976_4D67),
  (0x5C3E, 0x4F42_4F41_4EFC_4EFD),
  (0x5C44, 0x6BBA_50A1_50A2_6BBB_50A0),
  (0x5C4B, 0x5291_6D9B_5290_528E_528F_54AE_54AC),
  (0x5C54, 0x6FED_54AD_6FEC),
  (0x5C58, 0x54A2_72F6),
  (0x5C5C, 0x56F3_56F4),
  (0x5C60, 0x56F2),
  (0x5C62, 0x5E78_7D8A_6071_6072),
  (0x5C67, 0x80AB_63D3_896F_8970),
  (0x5C6C, 0x6789_90B7_694C_4CB9),
  (0x5C71, 0x4C74),
  (0x5C73, 0x6978_6977),
  (0x5C79, 0x4DFA_69B7_69B8_69B6),
  (0x5C7E, 0x69B9),
  (0x5C86, 0x6A88),
  (0x5C88, 0x6A83_6A85_6A87_6A84_4F46_6A81),
  (0x5C8F, 0x6A82_4F43_4F44_6A86_6A89_4F45_6A8A),
  (0x5C9D, 0x6BC9),
  (0x5C9F, 0x6BC3_6BBE_50A4_6BC6_6BC4_6BBD_6BCA_6BCD_6BC8_6BC1_50A6_6BC7),
  (0x5CAB, 0x50A7_6BC2_6BC5_6BBC_6BC0_6BCC_50A8),
  (0x5CB3, 0x50A9),
  (0x5CB5, 0x6BBF_6BCB_50A3_50A5),
  (0x5CC6, 0x6DAC_6DA5_6DAB_6DA4_6DA6_6DA0_6D9E),
  (0x5CCE, 0x6DAD_6DAA_6D9C),
  (0x5CD2, 0x5293_6DA8_6DA9),
  (0x5CD6, 0x6DA7_6D9F_6D9D_5292_6DA3_6DA1),
  (0x5CDE, 0x6DA2_6DAE),
  (0x5CE8, 0x54B3),
  (0x5CEA, 0x54B2),
  (0x5CEC, 0x6FEE_54AF_6FF0),
  (0x5CF0, 0x54B4_6FF1),
  (0x5CF4, 0x54B7),
  (0x5CF6, 0x54B5_6FF2_6DAF_6FF4),
  (0x5CFB, 0x54B1),
  (0x5CFD, 0x54B0),
  (0x5CFF, 0x6FEF_6FF3_54B6),
  (0x5D06, 0x56F6_56F5),
  (0x5D0B, 0x72F8_72FC_7341_56F7_7344),
  (0x5D11, 0x56FB_7346),
  (0x5D14, 0x56FD),
  (0x5D16, 0x56F9_5744),
  (0x5D19, 0x5741_72FA_56F8),
  (0x5D1D, 0x72F9_72F7_7348_72FB),
  (0x5D22, 0x56FA_7347_5742_7343_7342_5743_72FD_56FC),
  (0x5D2E, 0x7349),
  (0x5D30, 0x7345_766D_7674_7669_5997_7665_7675_765F_7672_7670_766A),
  (0x5D3C, 0x7673_766C),
  (0x5D3F, 0x7664_7676_7662_766F_7660),
  (0x5D45, 0x7677),
  (0x5D47, 0x5998),
  (0x5D49, 0x7671_79D5_7663_5995),
  (0x5D4E, 0x7667),
  (0x5D50, 0x5996_7666_766B),
  (0x5D55, 0x7668),
  (0x5D59, 0x766E),
  (0x5D5E, 0x79D9),
  (0x5D62, 0x79DC_79D4),
  (0x5D65, 0x79D6),
  (0x5D67, 0x79DB_79DA_5BE8),
  (0x5D6B, 0x7661_79D8),
  (0x5D6F, 0x5BE9),
  (0x5D71, 0x79D3_79D7),
  (0x5D77, 0x7D91),
  (0x5D79, 0x7D98_7D8F),
  (0x5D7C, 0x7D96_7D8D_7D95_7D99_7D8C_7D90_7D8B),
  (0x5D84, 0x5E79),
  (0x5D86, 0x7D8E_5E7A_7D94_7D93_7D92),
  (0x5D8D, 0x7D97),
  (0x5D92, 0x80AF_80B1_6074_80B2),
  (0x5D97, 0x80AD),
  (0x5D99, 0x80AC_80B6),
  (0x5D9C, 0x80B4_6073_80B7_80AE_80B3_80B5_80B0),
  (0x5DA7, 0x83EB_83F0_83EA_83EF),
  (0x5DAC, 0x83E8_83F2_83EE_83F3_83ED_83E9_83F1),
  (0x5DB4, 0x83F4_83EC),
  (0x5DB7, 0x86E5_63D7),
  (0x5DBA, 0x63D5),
  (0x5DBC, 0x63D4_63D6),
  (0x5DC0, 0x8971),
  (0x5DC2, 0x8AC0_8B6C),
  (0x5DC6, 0x8CF1_8CF2),
  (0x5DC9, 0x66EA),
  (0x5DCB, 0x8E78),
  (0x5DCD, 0x678A),
  (0x5DCF, 0x8E79),
  (0x5DD1, 0x8F6E_67DD),
  (0x5DD4, 0x67DC_8F6D_6855),
  (0x5DD8, 0x9047),
  (0x5DDB, 0x486E),
  (0x5DDD, 0x4C75_4DFB_69BA_6A8B_4FD5_5745),
  (0x5DE5, 0x4C76_4D6A_4D69_4D68),
  (0x5DEB, 0x4F47),
  (0x5DEE, 0x54B8),
  (0x5DF0, 0x79DD_4C77_4C78_4C79_4CBA),
  (0x5DF7, 0x5294),
  (0x5DF9, 0x6DB0),
  (0x5DFD, 0x5999_4C7A_695E),
  (0x5E02, 0x4D6B_4D6C_6979),
  (0x5E06, 0x4DFC),
  (0x5E0A, 0x6A8C),
  (0x5E0C, 0x4F48),
  (0x5E0E, 0x6A8D),
  (0x5E11, 0x50AF),
  (0x5E14, 0x6BCF_50AD_50AC_6BCE_50AA_6BD0_50AB_50AE),
  (0x5E1D, 0x5295),
  (0x5E1F, 0x5297_6DB4_6DB1_6DB2_6DB3_6DB5_5296),
  (0x5E28, 0x6FF6_6FF5),
  (0x5E2B, 0x54BA),
  (0x5E2D, 0x54B9),
  (0x5E33, 0x5748_734B),
  (0x5E36, 0x5747_5749_5746),
  (0x5E3D, 0x599B_734A),
  (0x5E40, 0x599C_7679),
  (0x5E43, 0x599D_7678_599A),
  (0x5E4A, 0x79E0_79E2_5BEA_79E1_79DF_79DE),
  (0x5E53, 0x7D9C_5E7F_5E7D),
  (0x5E57, 0x5E7E_7D9A_7D9B),
  (0x5E5B, 0x5E7B_80BB_80B9),
  (0x5E5F, 0x6076_80BA_6077_6075_5E7C),
  (0x5E66, 0x83F7_83F5_83F6_80B8_86E7_63D8_86E6_8972_8973_83F8_8B6D),
  (0x5E72, 0x4C7B_4D6D_4E41_69BB_4DFD),
  (0x5E78, 0x50B0_5BEB_4873_4CBB_4D6E_5298_599E_4874_697A),
  (0x5E82, 0x697B),
  (0x5E84, 0x69BC),
  (0x5E87, 0x4F4A_6A91_6A8F_4F4B_6A8E_6A90_6A92),
  (0x5E8F, 0x4F49),
  (0x5E95, 0x50B4_50B5_50B2),
  (0x5E9A, 0x50B1_6DB9_50B3),
  (0x5EA0, 0x5299),
  (0x5EA2, 0x6DB8_6DBA_6DB7_6DBB_529A_54BD_6FF7),
  (0x5EAA, 0x6FF9_54BB_6FFA_54BC_6FF8),
  (0x5EB0, 0x6DB6_734C_734F_7350_734D_574D_574C_574A_574B_734E),
  (0x5EBE, 0x574E),
  (0x5EC1, 0x59A0_59A1),
  (0x5EC4, 0x59A2_79E3_79E5_79E7_5BED_5BEC_599F_79E6_79E4),
  (0x5ECE, 0x7DA0),
  (0x5ED1, 0x7D9E_7DA4_5E81_7DA5_7DA2_5E82_7D9F_7D9D_7DA3_6079_80BD_7DA1),
  (0x5EDD, 0x607B_80BE_607A_607D_80BF_6078_607C),
  (0x5EE5, 0x83FD_83FB_83FA_83FC_83F9),
  (0x5EEC, 0x6652),
  (0x5EEE, 0x8CF3_8CF4),
  (0x5EF1, 0x8E7A_8F6F_68A1_4875),
  (0x5EF6, 0x50B6_4F4C),
  (0x5EFA, 0x529B),
  (0x5EFE, 0x4C7C_4CBC),
  (0x5F01, 0x4D6F_69BD),
  (0x5F04, 0x4F4D_6A93),
  (0x5F07, 0x6DBC_529C),
  (0x5F0A, 0x5E83_4C7D),
  (0x5F0F, 0x4E42),
  (0x5F12, 0x5BEE_4C7E_4CBD_4CBE),
  (0x5F17, 0x4D71_4D70),
  (0x5F1A, 0x69BE_4E43),
  (0x5F1D, 0x6A94),
  (0x5F1F, 0x4F4E),
  (0x5F22, 0x6BD2_6BD3_6BD4),
  (0x5F26, 0x50B7_50B8_6BD1_50B9),
  (0x5F2D, 0x529D_6DBD),
  (0x5F30, 0x6FFC_54BE),
  (0x5F33, 0x6FFB),
  (0x5F35, 0x574F_7351_5750_7352),
  (0x5F3C, 0x59A3),
  (0x5F40, 0x79E8),
  (0x5F43, 0x7DA7_7DA6),
  (0x5F46, 0x5E84),
  (0x5F48, 0x607E_80C0_6273_8441_63D9),
  (0x5F4E, 0x67DE_9049_4879),
  (0x5F54, 0x6BD5),
  (0x5F56, 0x6DBE_5751_767A_5BEF),
  (0x5F5D, 0x6560_6560),
  (0x5F61, 0x487A_4F50),
  (0x5F64, 0x4F4F_529E),
  (0x5F67, 0x6FFD),
  (0x5F69, 0x5753_58A8_5754_5752_59A4),
  (0x5F6F, 0x7DA8_5E85_607F),
  (0x5F73, 0x694D_69BF),
  (0x5F76, 0x6A96_4F51_6A95_4F52),
  (0x5F7C, 0x50BD_6BD8_6BD7_50BC_50BA_50BB_6BD6),
  (0x5F85, 0x52A0_6DBF_52A3_529F_52A5_52A1_52A2_52A4),
  (0x5F90, 0x54C1_54C0_54BF),
  (0x5F96, 0x7354_5755_5758_5756),
  (0x5F9B, 0x7353_575B),
  (0x5F9E, 0x5757_7355_575A_5759),
  (0x5FA5, 0x767C_767B),
  (0x5FA8, 0x59A7_59A5_59A6_767D_5BF0_79EA_5BF1_79E9),
  (0x5FB2, 0x80C1),
  (0x5FB5, 0x6082_7DA9_6081),
  (0x5FB9, 0x5E86),
  (0x5FBB, 0x86E9_8442_63DA_86E8_8B6E_8CF5_8CF6),
  (0x5FC3, 0x4CBF),
  (0x5FC5, 0x4D72),
  (0x5FC9, 0x697C),
  (0x5FCC, 0x4F54_4F56),
  (0x5FCF, 0x69C2_6A99_6A98_6A97),
  (0x5FD4, 0x69C1_69C0_4E45_4F55_4F53_4E44),
  (0x5FDD, 0x50BE_6BD9),
  (0x5FE0, 0x50BF_6A9E),
  (0x5FE3, 0x6AA0_6A9F_6BDA),
  (0x5FE8, 0x6A9B),
  (0x5FEA, 0x4F5A_4F58),
  (0x5FED, 0x6A9A_6A9C_6AA2),
  (0x5FF1, 0x4F57),
  (0x5FF3, 0x6A9D_6AA6_50C1),
  (0x5FF7, 0x6AA3_4F59),
  (0x5FFA, 0x6AA1_6AA4),
  (0x5FFD, 0x50C0),
  (0x5FFF, 0x50C2_6AA5),
  (0x6009, 0x6BEE_6BE1_6BDF_6BED_6BE8_52AA_50C3_6BE9_6BEC_52A6_6BEB_50C4),
  (0x6015, 0x50C9_50C7_6BE2),
  (0x6019, 0x6BDD_6BE4_50CE_6BEF_52A7_6BE5),
  (0x6020, 0x52A8_50CA_6BE7),
  (0x6024, 0x6DCE_52A9_6BDC_50CB_52AB_50CC_50C8_50CD_6BE6_6BDB_6BEA_50C5),
  (0x6032, 0x6BDE_6BE3_6BE0_50C6),
  (0x6037, 0x6DC0),
  (0x6039, 0x6DC1),
  (0x6040, 0x6DCB_7044_6DCC_52B1_6DCF_6DC5_52B0_6DC7),
  (0x6049, 0x6DC8),
  (0x604C, 0x6DCA_52AC),
  (0x6050, 0x54C5),
  (0x6053, 0x6DC6_6DC2_54C6),
  (0x6058, 0x6DD0_54C2_7042_6DC9),
  (0x605D, 0x7041_6DC4_6DCD),
  (0x6062, 0x52AF_54C3_52B5_54C4_6DD1_7043_52AE_54C8_52B4_52B3_52B2_54C7),
  (0x606E, 0x6DD2_54C9_52AD),
  (0x6072, 0x6DC3),
  (0x607F, 0x575C_7047_7049),
  (0x6083, 0x704B_54CA_54D0_7358_704F_7046_575E_7356),
  (0x608C, 0x54CF_54CD_7051),
  (0x6090, 0x7357),
  (0x6092, 0x7048),
  (0x6094, 0x54CE_704C_54D1_704E),
  (0x609A, 0x54CC_704D_7050_704A),
  (0x609F, 0x54CB_575F),
  (0x60A2, 0x7045_575D),
  (0x60A8, 0x5760),
  (0x60B0, 0x735A_7363_59AA),
  (0x60B4, 0x5762_5767_59AB_7365_576E_767F_735B_5766_5769_5764_7359_7367),
  (0x60C0, 0x736A_768F),
  (0x60C3, 0x7368_7684_5765_576C_5770_7362_767E_7366_5761_7681_7369_7683),
  (0x60CF, 0x735E),
  (0x60D1, 0x59A8),
  (0x60D3, 0x735C_735D_576B),
  (0x60D8, 0x576A_7360_576F_7364_5768_7361),
  (0x60DF, 0x576D_59AC_59A9_7682),
  (0x60E4, 0x735F),
  (0x60E6, 0x5763),
  (0x60F0, 0x59B1_59B5_7686_5BF6_59B3_768A_59B7_79EB_768C_5BF8_59AF_59B2),
  (0x60FC, 0x768D),
  (0x60FE, 0x768E_7694_59B9_5BF9),
  (0x6103, 0x7690_7695_7689_5C46),
  (0x6108, 0x5BFA_59B8_7687_7696),
  (0x610D, 0x5C45_59B6_5BF3_7693),
  (0x6112, 0x59BA_768B_7685_59B0_7688),
  (0x6118, 0x7691),
  (0x611A, 0x5BF2_5BF7_59AD_7692),
  (0x611F, 0x5BF5),
  (0x6123, 0x59AE),
  (0x6127, 0x5C44_7DAB_79F6),
  (0x612B, 0x79EE_7DAA),
  (0x612E, 0x79F2_79F4),
  (0x6132, 0x79F1),
  (0x6134, 0x5C43),
  (0x6136, 0x79F0_5C47),
  (0x613B, 0x7DBA),
  (0x613E, 0x5C42_5E88_79F7_7DAC),
  (0x6144, 0x5BFD_79EF_79F3_5E87_5BF4_79EC_79ED_5E89_5BFC_5C41_5BFB_79F5),
  (0x6152, 0x7DB0_7DB1_7DB6_6087_7DBD),
  (0x6158, 0x5E8F),
  (0x615A, 0x5E8E_7DB8),
  (0x615D, 0x6086_7DAD_5E8D),
  (0x6161, 0x7DBC_5E8B_5E8C),
  (0x6165, 0x7DB9_80D2_6084_59B4),
  (0x616A, 0x7DBB_608B_7DB3),
  (0x616E, 0x6085),
  (0x6170, 0x608A_7DAE_7DB2_7DAF_7DB5_5E90_6083_5E8A),
  (0x6179, 0x80C4_7DB7),
  (0x617C, 0x6089),
  (0x617E, 0x608C),
  (0x6180, 0x7DB4),
  (0x6182, 0x6088_80C3),
  (0x6189, 0x80C8_6277_80C2_844E_80D1_6090),
  (0x6190, 0x608E_6275_80CE_80CA_6094),
  (0x6196, 0x8445),
  (0x619A, 0x6092_80C9),
  (0x619D, 0x8443),
  (0x619F, 0x80CD),
  (0x61A1, 0x80D0_80C7),
  (0x61A4, 0x6093),
  (0x61A7, 0x608D_8444_6276_80CF_608F_6091_80CC_6095_80CB_80C6_80C5_6274),
  (0x61B3, 0x80D3_8447_86EB_6279),
  (0x61B8, 0x844D),
  (0x61BA, 0x844B),
  (0x61BC, 0x86EC),
  (0x61BE, 0x627A_844C),
  (0x61C1, 0x8449_63DC_86EA),
  (0x61C5, 0x8446_8448_63DD_627C_63DB_627B_63DF_844A_6278),
  (0x61D6, 0x897C),
  (0x61D8, 0x8974),
  (0x61DE, 0x86F2_8975_86EE),
  (0x61E3, 0x6561_86F0_86EF_63DE_86ED_86F1_897D_8979_897B),
  (0x61ED, 0x8976_8977),
  (0x61F0, 0x897A_8978_6653),
  (0x61F5, 0x6656_6655_6654_66EB_8CF7_66EC_8B6F_678B_8E7B_678C_67DF_6856),
  (0x6201, 0x904A),
  (0x6203, 0x904B_904C),
  (0x6207, 0x91AA_4CC0_697D_4D73),
  (0x620C, 0x4E47_4E48_4E46),
  (0x6210, 0x4E49_4F5C_4F5B),
  (0x6214, 0x6BF0_50D0_50CF),
  (0x6219, 0x7052_5771_5772),
  (0x621F, 0x59BB_79F8_5C48_5C49_79FA_79FC_79FB),
  (0x6227, 0x7DBF),
  (0x6229, 0x7DBE_5E91_7DC0),
  (0x622D, 0x80D4_6096),
  (0x6230, 0x627D),
  (0x6232, 0x63E0_6562_63E1),
  (0x6236, 0x4CC1),
  (0x623A, 0x6AA7),
  (0x623D, 0x6BF1_50D2_50D1_50D3_52B6_6DD3_6DD4),
  (0x6246, 0x7053_54D2_5773_59BC_7697_4CC2),
  (0x624D, 0x4C7F_4CC3),
  (0x6250, 0x697E_4D77_4D76_4D74_4D75),
  (0x6258, 0x4E4C_69CA_69CC_4E4B_69C4),
  (0x625E, 0x69C5),
  (0x6260, 0x69CB_69C7_69C9_4E4A_69C6_69C3_69C8),
  (0x626D, 0x4F63_4F6C_4F6A_6AB1_6AAE_6AB6_4F68_6AB7),
  (0x6276, 0x4F61_6AB4),
  (0x6279, 0x4F67_6AB0_6AAF_4F65_6AB5_4F66_50D4_4F60_6AB2),
  (0x6283, 0x6AA8_4F5D),
  (0x6286, 0x4F70_6AAD_6AB3_4F62_4F64),
  (0x628C, 0x6AA9),
  (0x628E, 0x6AAA_6AAB),
  (0x6291, 0x4F6F_4F69_4F6E_6AAC_4F6D_4F5F_4F5E_4F6B),
  (0x62A8, 0x50E2_6BFD_6BF6_50DD_50F0_6BF2_6BF9_6BFB_6C41_50EB),
  (0x62B3, 0x6BFA_6BF3_50E9_6BF7),
  (0x62B8, 0x6C42_50DA),
  (0x62BB, 0x6BFC_50E4_50E3_6BF5_50D8),
  (0x62C2, 0x50D9),
  (0x62C4, 0x50D7),
  (0x62C6, 0x50EF_50E7_50E1_50D5_6BF8_50E0_50D6_50E8_50F1_6DD5_50E5_6BF4),
  (0x62D2, 0x50DB_50DE_50DF),
  (0x62D6, 0x50ED_50EE_50EC_50E6_50EA_50DC_52B7),
  (0x62EB, 0x6DDB_52C3_52BB_52BD_52C2_6DE7_52C0_7054_54D3_52C5_6DD8_6DE0),
  (0x62F7, 0x52C1_6DDF_6DDC_6DE4_6DE6_52BA_52BE_52C4_54D5_6DE1_52BC_52C7),
  (0x6303, 0x6DDA),
  (0x6307, 0x52BF_54D4_52B9),
  (0x630B, 0x6DD7_6DDE_6DD6_6DD9_6DDD_7055_52C6),
  (0x6313, 0x6DE2_6DE3_6DE5_52B8),
  (0x6328, 0x54E3_7061_54E1_54E2_7057_7067),
  (0x632F, 0x54D8),
  (0x6332, 0x736B_7069_7063),
  (0x6336, 0x705A),
  (0x6338, 0x706C_705D_54DE_7383_7060_54E0_54D7),
  (0x6340, 0x706E_7062_54DA_705B_7058_7059_54DB_7068_706F_54DD_705F_705E),
  (0x634C, 0x54E5_54E4_54D6_54DC_54DF_706B),
  (0x6354, 0x7065_54D9_7056_706D_7064_7066_706A),
  (0x6365, 0x736C),
  (0x6367, 0x577B_5790_578F),
  (0x636B, 0x5784),
  (0x636D, 0x737E_737A_7377_738A_577E_5776),
  (0x6375, 0x737C_59CC_577A_7385),
  (0x637A, 0x5791_578E_7381_736F),
  (0x6380, 0x578D_7387_736E_5782_5786_7386),
  (0x6387, 0x7378_5787_5781_736D),
  (0x638C, 0x59BE_7389_7376_578C_7379_7388_578B),
  (0x6394, 0x7698),
  (0x6396, 0x5777_7374_577C_5788),
  (0x639B, 0x5783_737D_7373_7371_7384_5774_5789_5778_59BD_7382_5779),
  (0x63A7, 0x5775_5785_577F_577D_7375_578A_7372_737F_737B_769A_7699),
  (0x63BD, 0x7370_76AA),
  (0x63C0, 0x59C0),
  (0x63C2, 0x76B0_769F_76AD_79FD_59C3_76B1_76B4_59C2_76A2_76B3_76B2_59C4),
  (0x63CE, 0x769B_59BF_59C7),
  (0x63D2, 0x59C5_76AF),
  (0x63D5, 0x76A5_59C9_76B6_76AE_76B7_59D1_59CF_76AC_76AB),
  (0x63DF, 0x76A9_76A3_59C8),
  (0x63E3, 0x59C6_705C_769C),
  (0x63E7, 0x7A5E_769D_59C1_59CE_7A42),
  (0x63ED, 0x59CA_59CB_769E_76B5_7A41_76A6_76A1_59CD_76A7_76A4),
  (0x63F9, 0x59D2),
  (0x6406, 0x5C58),
  (0x6409, 0x7A45_7A58_7A5D_7A51_5C54_7A62_5C51_7A43),
  (0x6412, 0x7A44_5C4A_5C53_7A4B_5C56_5C57_7A4C),
  (0x641A, 0x7A59_7A5F_5C52),
  (0x641E, 0x5C4C_7A4A_7A46_7A61_7A4F_7A50_7A47_7A5B_7A52_7A5C_7A54),
  (0x642A, 0x5C4D_7DC1_5C50_5C4E_7A60_7A57_7A53),
  (0x6433, 0x7A48_5E9B_7A56_5C55_7A4E),
  (0x6439, 0x7A4D),
  (0x643D, 0x5C4F_5C4B_7DD6_7A5A_7A55),
  (0x6443, 0x7A49),
  (0x644B, 0x7DD1),
  (0x644D, 0x7DC2_7DCD),
  (0x6450, 0x7DD4_5E99_59D0_7DD2_5E94),
  (0x6458, 0x5E93_7DD9),
  (0x645B, 0x7DC3_7DD0_7DC4_7DCF_5E97_7DD3_76A8),
  (0x6465, 0x7DDA_7DCB_5E9A_80E2_6097),
  (0x646B, 0x7DD8_7DD7_5E9C_80D5_6098_80D6),
  (0x6472, 0x7DC7_7DC8_7DC5_7DCA_7DC6_7DDB_5E96_6099_5E98_5E9D),
  (0x647D, 0x7DC9),
  (0x647F, 0x7DD5),
  (0x6482, 0x7DCE),
  (0x6485, 0x80D9),
  (0x6487, 0x5E92_609C_8455_80DE_80DD_80DF),
  (0x648F, 0x80DC_609D_68CB_60A3_60A0),
  (0x6495, 0x60A1_80D7_80DA_80E4_60A9_60A7),
  (0x649C, 0x80DB_76A0_609A_80E1_80D8),
  (0x64A2, 0x60AA_80E0_5E95_609F_7DCC),
  (0x64A9, 0x60A2),
  (0x64AB, 0x60A6_60A8_60A5_60A4),
  (0x64B0, 0x609E_80E3_609B_60AB),
  (0x64BB, 0x6282_6283_8454_628C_6289),
  (0x64C1, 0x627F_6287_8456_6285_627E),
  (0x64C7, 0x6286),
  (0x64C9, 0x8453_63E3_6281),
  (0x64CD, 0x6288_63E2_8452_8451),
  (0x64D2, 0x628A),
  (0x64D4, 0x628B),
  (0x64D6, 0x8450_844F_63E4_8459_6284_8457),
  (0x64E0, 0x63E5),
  (0x64E2, 0x63EA_86F5_86F7),
  (0x64E6, 0x63E7),
  (0x64E8, 0x86F8_86F4),
  (0x64EB, 0x86F6_63E8_63EB),
  (0x64EF, 0x86F3_63E6_63E9_6564_8458_6563),
  (0x64F7, 0x6569_8982),
  (0x64FA, 0x6567_6568_8985_8981_6565_897E_6657_8983),
  (0x6503, 0x8984_897F),
  (0x6506, 0x6566_8B70),
  (0x6509, 0x8B73),
  (0x650C, 0x8B74_8B72_8B75_6658_8B71),
  (0x6513, 0x8CFB_66EE_8CFA_8CF9_8CF8_66ED_66EF),
  (0x651B, 0x8E7C_678E_678D),
  (0x6520, 0x8F71_8F70_8F73_6857_67E0_904E_8F72),
  (0x6529, 0x904D_6859_6858_687F_90B8_9141_4CC4),
  (0x6532, 0x76B8_845A_4882),
  (0x6536, 0x4E4D_6AB8_4F73_4F71),
  (0x653B, 0x4F72),
  (0x653D, 0x6C43_50F2_52C8),
  (0x6541, 0x6DE8),
  (0x6543, 0x6DE9),
  (0x6545, 0x52C9_7071),
  (0x6548, 0x54E6_54E7_7070),
  (0x654F, 0x5798),
  (0x6551, 0x5794),
  (0x6553, 0x738B_579B_579A_5793_5796_5799_5795),
  (0x655C, 0x76BC_5792_59D3),
  (0x6562, 0x59D5_59D6_76BB_76BE_59D4_76B9_76BD),
  (0x656A, 0x76BA),
  (0x656C, 0x5C59),
  (0x656F, 0x7A63),
  (0x6572, 0x5E9E_7DDC_628D_60AC_80E5_60AD_60AE_80E7_80E6_80E8_845C),
  (0x657F, 0x845B_86FA_86F9_63EC_63ED_8B76),
  (0x6587, 0x4CC5),
  (0x658C, 0x76BF),
  (0x6590, 0x59D8_59D7_7A64),
  (0x6594, 0x8986_678F_904F_4CC6),
  (0x6599, 0x54E8),
  (0x659B, 0x579D_579C_76C0_76C1_5C5A_7DDD_5E9F_845D),
  (0x65A4, 0x4CC7_4D78),
  (0x65A7, 0x50F3_6C44),
  (0x65AA, 0x6DEA_52CA_579E),
  (0x65AE, 0x76C2_59D9_5C5B),
  (0x65B2, 0x80E9_80EA),
  (0x65B6, 0x86FB_656A_9142_4CC8),
  (0x65BB, 0x6C45_50F4_52CB),
  (0x65BF, 0x6DEB),
  (0x65C1, 0x54E9_7075_7073_7074_54EA_7072),
  (0x65CB, 0x57A0_57A1_738C_57A2_579F_76C3),
  (0x65D2, 0x76C4_7A65),
  (0x65D6, 0x5EA1_5EA0),
  (0x65DA, 0x86FC_8987),
  (0x65DD, 0x8B78_8B77_8CFC_4887_695F_52CC),
  (0x65E5, 0x4CC9_4D79),
  (0x65E8, 0x4E4F_4E4E),
  (0x65EC, 0x4E50_4E51_69CE_69CD_6AB9_4F74_6ABC_6ABB_6ABA_6ABD),
  (0x65FA, 0x50F5_6C4B_6C47_6C50),
  (0x6600, 0x50FC),
  (0x6602, 0x50FA_6C4C_6C48_6C4F_50F9_5143_6C4A_6C46_5142_6C4D_50F8_6C4E),
  (0x660E, 0x50FB_50FD_6C52_6C51_6C49_50F7_50F6_5141),
  (0x661C, 0x6DF0_6DF6),
  (0x661F, 0x52D2_52CF_6DED_6DF2),
  (0x6624, 0x52D5_52CD_6DF1_52D0_52D3),
  (0x662B, 0x6DF4),
  (0x662D, 0x52CE_6DF9_52D1),
  (0x6631, 0x52D4_6DEE_6DF3_6DF7_6DEF_6DEC),
  (0x6639, 0x6DF8_6DF5),
  (0x6641, 0x54F2_54EB_54EE),
  (0x6645, 0x54F1),
  (0x6647, 0x7078),
  (0x6649, 0x54EC_7076),
  (0x664C, 0x54F0),
  (0x664F, 0x54ED),
  (0x6651, 0x7079_54EF),
  (0x6659, 0x7390_57A4_738F_7391_57A3_57A8_7077),
  (0x6661, 0x738E_7392),
  (0x6664, 0x57A5_738D_57A7),
  (0x6668, 0x57A6),
  (0x666A, 0x76CB),
  (0x666C, 0x76C6),
  (0x666E, 0x59DA_59DE_59DB_76C9_76CC),
  (0x6674, 0x59DC),
  (0x6676, 0x59DD_59E2_7A6E_76CA_59E0_76C7_76C5),
  (0x667E, 0x59E1),
  (0x6680, 0x76C8),
  (0x6684, 0x5C61),
  (0x6686, 0x7A66_5C5E_5C5F_5C5D_7A6B_7A6A_7A67_5C63),
  (0x6690, 0x7A69_59DF),
  (0x6694, 0x7A6D_7A68_5C60_5C5C_5C62_7A6C),
  (0x669D, 0x5EA4),
  (0x669F, 0x7DE0_7DDF_7DDE_5EA2),
  (0x66A8, 0x5EA3_80ED_80F0_60B0),
  (0x66AE, 0x60AF_80F1_80EC_60B2_80EE),
  (0x66B4, 0x60B1_80EB),
  (0x66B7, 0x80EF_6293_6290_8466_8465),
  (0x66BD, 0x8464_845F),
  (0x66C0, 0x8460),
  (0x66C4, 0x6291),
  (0x66C6, 0x628E_6292_845E_628F_8461_8462_8467),
  (0x66CF, 0x8463),
  (0x66D2, 0x86FD),
  (0x66D6, 0x63EF),
  (0x66D8, 0x898A_63EE_8988_8989_656B_665A_8B79),
  (0x66E0, 0x6659),
  (0x66E3, 0x8D41_8D42),
  (0x66E6, 0x66F0),
  (0x66E8, 0x8CFD_6790),
  (0x66EB, 0x9050_685A_90B9_90BA),
  (0x66F0, 0x4CCA),
  (0x66F2, 0x4E52_4E53_4F75),
  (0x66F6, 0x6C53_52D6_54F3_57A9),
  (0x66FC, 0x56B6),
  (0x66FE, 0x59E3_59E4_5952_76CD),
  (0x6703, 0x5C64_7DE2_7DE1),
  (0x6708, 0x4CCB_4E54_6C54_5145),
  (0x670D, 0x5144),
  (0x670F, 0x6DFA_6DFB),
  (0x6712, 0x707A_707B_54F4_54F5),
  (0x6717, 0x54F6_7393),
  (0x671B, 0x57AB),
  (0x671D, 0x59E6),
  (0x671F, 0x59E5_7A6F_7BC2_7DE3_8468),
  (0x6726, 0x656C_66F1_4CCC),
  (0x672A, 0x4D7C_4D7D_4D7B_4D7E_4D7A),
  (0x6731, 0x4E57),
  (0x6733, 0x69D6_4E56_4E58),
  (0x6738, 0x69D1_69D0_69D3_69D2_69D5_4E55_69CF_69D4),
  (0x6745, 0x6ABE_4F7F_6ABF_6AC3_4F7E),
  (0x674B, 0x6AC7_6AC2_6AC5_4F77_4F78_4F79_4F7A),
  (0x6753, 0x4F82),
  (0x6755, 0x6AC1_4F7C_4F83),
  (0x6759, 0x6AC0_6AC6),
  (0x675C, 0x4F7B_6AC4_4F7D_4F76_4F81),
  (0x676A, 0x515A),
  (0x676C, 0x6C56_5146),
  (0x676F, 0x5150_5151_5149_515B_514B_6C5E_5156_6C59_514C_6C68_6C69_6C61),
  (0x677B, 0x6C5A_5159_6C66_5154_5152),
  (0x6781, 0x6C67),
  (0x6783, 0x6C65_6C5D_6C55_6C5C_514D),
  (0x6789, 0x5153),
  (0x678B, 0x5147_6C60_6C5F_6C57),
  (0x6790, 0x5155_6C63_6C58_5158_6C6A_5148),
  (0x6797, 0x514F_6C5B_6C64_5157),
  (0x679C, 0x514A_514E),
  (0x679F, 0x6C62),
  (0x67AE, 0x6E5E_52DE_52EB),
  (0x67B2, 0x6E59_6E4F_52E4_6E4D_52DD_6E48_52E7_6E55_6E42_6E44),
  (0x67C0, 0x6E47_6DFC_6E54_6E64_52E2_6E49_6E5B),
  (0x67C8, 0x6E41_6E62_6E63_6E66_6E5D_6E4E_6E56_52E8_52DB_52E3_52EF_52D8),
  (0x67D4, 0x52DA),
  (0x67D8, 0x6E46_52EC_52E5_6E60_6E43_52EE_52E9_6E4C),
  (0x67E2, 0x52ED_6E53_6E4B_52E6_6E5F_6E57),
  (0x67E9, 0x52E0_6E65_6E4A_52DC_6E5C_6E52_52E1_6E58_52D9_6DFD_52EA_5548),
  (0x67F5, 0x52DF_6E51_6E50_6E45),
  (0x67FA, 0x6E61),
  (0x67FC, 0x6E5A),
  (0x67FF, 0x52D7),
  (0x6812, 0x7090_554F_7091),
  (0x6816, 0x7085_5544_5550),
  (0x681A, 0x707D),
  (0x681C, 0x7087_708F),
  (0x681F, 0x707C_7098_54F7),
  (0x6825, 0x7097_7092),
  (0x6828, 0x7093_5542_554D_7089),
  (0x682D, 0x708A_7094_708B),
  (0x6831, 0x7086_707F_7081_708E_7088),
  (0x6838, 0x54F8_54FC_7096_7082_554B_5547),
  (0x6840, 0x554A_5551_54FD_554C_708D_554E_54FA),
  (0x6848, 0x54F9_707E),
  (0x684B, 0x7083_5545_7095_708C_7084_5549_5546),
  (0x6853, 0x54FB_5541),
  (0x686B, 0x73A8),
  (0x686D, 0x7398_7399_739D),
  (0x6871, 0x73AC_73A9),
  (0x6874, 0x73A2_73A1_57B2_73A5_73B4_7394),
  (0x687B, 0x73B5_73A7_73B9_73AD_57B1_73AB_57AC_57C1_57B7),
  (0x6885, 0x57BB_57BA_7395),
  (0x6889, 0x73B2_73B8_73B0_73B7),
  (0x688F, 0x73A4_7396_73B6_73A6_57AF_57BC),
  (0x6896, 0x73AF_57B5),
  (0x689B, 0x73AE_7397_57BD),
  (0x689F, 0x57BF_73B1_57C0_57AE_739E_73B3),
  (0x68A7, 0x57B4_57BE_73A0_73AA_739B_739F_57B9_739A_57AD_57B6_57B3_73A3),
  (0x68B3, 0x5543_76E4_57B0),
  (0x68C4, 0x57B8),
  (0x68C6, 0x76E7_76FD_76F2_59FA),
  (0x68CB, 0x59F5_76E1_59F6_76F1),
  (0x68D0, 0x76EA_76F7_59F2_76CF_76F9_59E8_76D7_59EB_59EA),
  (0x68DA, 0x59FB),
  (0x68DC, 0x76D1_76F3_76F4_59ED_59E9_76DF),
  (0x68E3, 0x59F4_76DA),
  (0x68E6, 0x76F5_59F0_76ED_76FA_76D4_76D9_76D3),
  (0x68EE, 0x59EF_76E6_7A86_76D5_59F3_76DE_76F6_59EE_76DB_76D8_76E9_59F1),
  (0x68FA, 0x59E7_59FD_76EC_76EB),
  (0x6904, 0x76D0_59EC_76F8_76E0_76E2),
  (0x690A, 0x76EF_76EE_76CE_59F7_59F9_76D6_76DD_76E5_59F8_76DC_76E8_76FB),
  (0x6917, 0x76F0),
  (0x691E, 0x91C6),
  (0x6925, 0x76FC),
  (0x692A, 0x76D2),
  (0x692F, 0x7A9A_5C6C),
  (0x6932, 0x7A98_7A83_7A88_7A81),
  (0x6937, 0x7A94_7A72_7A79),
  (0x693B, 0x7A92_7A9C_7A84),
  (0x693F, 0x7A76_7A8A_7A8F_7A7A),
  (0x6944, 0x7A8C_7A77),
  (0x6948, 0x7A7E_7A7F_5C6E_7A93_7A91),
  (0x694E, 0x7A73_7A96),
  (0x6951, 0x7A97_7A99_5C72_5C6A),
  (0x6956, 0x739C_7A7B_7A8E_7A7C_5C67_5C77_7A95_5C75_5C71_7A71_5C69),
  (0x6962, 0x7A74_5C76),
  (0x6965, 0x7A85_7A70),
  (0x6968, 0x5C6F_7A89_7A78_5C70_7A82_5C66_59FC_7A8B_76E3_7A75),
  (0x6974, 0x7A90_5C6B_7A8D_5C68_7A87_5C73_7A7D_7A9B),
  (0x6982, 0x5C6D_7B4E),
  (0x6986, 0x5C74),
  (0x698D, 0x7DF1_7DEF),
  (0x6990, 0x7E48_7DED),
  (0x6993, 0x7E42_5C65_5EA7_7DE9_7E47),
  (0x6999, 0x7DEE_7DFC_5EAC_5EA5),
  (0x699E, 0x7E45),
  (0x69A0, 0x7DE7_7E44),
  (0x69A3, 0x5EB7_7DF8_7E4B_5EB5_7DF0_5EA6_7DF2_7E43_5EAF_7DEB_5EB3_5EA9),
  (0x69AF, 0x7DF4_7DEA_7DE4),
  (0x69B3, 0x7E41_5EB0_7E4A_7DE5_5EAD),
  (0x69B9, 0x7DFA),
  (0x69BB, 0x5EAE_7DEC_7DF7_7DF3_7DF5),
  (0x69C1, 0x5EA8_7E49_5EB6_7DF6),
  (0x69C6, 0x7E4C),
  (0x69C9, 0x7DE6_7DFB_5EAB_5EB4_5EB2_7DE8_7DFD_5EB1),
  (0x69D3, 0x5EAA_7DF9),
  (0x69D9, 0x7E46),
  (0x69E2, 0x80FD),
  (0x69E4, 0x80F9_80F5_814C_8149_60B5),
  (0x69EB, 0x8150_80FC_60C0_8146),
  (0x69F1, 0x80F8_8145_60BD_8159),
  (0x69F6, 0x8156_8148_80F6),
  (0x69FB, 0x814D_814F_60B9_8143_80FB_80F2_60B6_60BE),
  (0x6A04, 0x8152_60BF_80F3_8158_814B_8151_60BC),
  (0x6A0D, 0x814E),
  (0x6A0F, 0x8155),
  (0x6A11, 0x60C1),
  (0x6A13, 0x60BB_8147_80F7_815A_80F4_8153_60B8),
  (0x6A1B, 0x8141),
  (0x6A1D, 0x8142_60B7_60B4_80FA_60BA),
  (0x6A23, 0x60B3),
  (0x6A25, 0x8154_8157_8144_8475),
  (0x6A32, 0x846D),
  (0x6A34, 0x8469_62A0),
  (0x6A38, 0x6295_629A_6296_8477_8483_6294_846F_8478_814A_8479),
  (0x6A44, 0x629B),
  (0x6A46, 0x8489_629F_62A2_846B),
  (0x6A4B, 0x629E),
  (0x6A4D, 0x8487_8488_847D_847C_8474),
  (0x6A54, 0x847E_8486_8485),
  (0x6A58, 0x6299_6297_8476_8473),
  (0x6A5D, 0x8470_8484_62A1_8482_629D_629C),
  (0x6A64, 0x847B),
  (0x6A66, 0x846A_846C_846E_8481_847A_6298),
  (0x6A6D, 0x8471),
  (0x6A6F, 0x847F),
  (0x6A76, 0x8472),
  (0x6A7E, 0x63F7_8752_63F0_8743),
  (0x6A83, 0x874E_63F2_8755),
  (0x6A87, 0x874A),
  (0x6A89, 0x8745),
  (0x6A8C, 0x8756_8741_874C),
  (0x6A90, 0x63F9_8751_8757_874B_63F1_874D_8742_63F8),
  (0x6A9A, 0x8754_8747_63F4),
  (0x6A9E, 0x8749_8746_63FA_8748_63F3_63F6_8750_8744_8753),
  (0x6AA8, 0x874F),
  (0x6AAC, 0x656E_8995_6573_6574),
  (0x6AB3, 0x656D_8994),
  (0x6AB6, 0x8991_8992_6571_898C_8990_6570),
  (0x6ABD, 0x898D),
  (0x6AC2, 0x6572_656F),
  (0x6AC5, 0x898B_898F_8993),
  (0x6ACB, 0x8B7F_8B7C_8B86),
  (0x6ACF, 0x8B85_8B83_8B7D),
  (0x6AD3, 0x665E),
  (0x6AD9, 0x8B7E_665D_63F5_8B82_665C_8B87_8B81_8B7B_898E),
  (0x6AE5, 0x665B),
  (0x6AE7, 0x8B7A_8D46),
  (0x6AEA, 0x8D45_8B84_66F2),
  (0x6AEE, 0x8D49_8D4A_8D44_8D48),
  (0x6AF3, 0x8D43),
  (0x6AF8, 0x8E81_8D47_6793_6791_8E7E),
  (0x6B00, 0x8E82),
  (0x6B02, 0x8E7D_8E7F_6792),
  (0x6B08, 0x8F75_8F76_67E1_8F74),
  (0x6B0F, 0x9053_685B_9051_9052_90BB),
  (0x6B16, 0x68A2_9145_9143_9144_9146),
  (0x6B1E, 0x91AB),
  (0x6B20, 0x4CCD_4E59),
  (0x6B23, 0x515C),
  (0x6B25, 0x6C6B),
  (0x6B28, 0x6E67),
  (0x6B2C, 0x7099_709B),
  (0x6B2F, 0x709A),
  (0x6B31, 0x709C_57C2_73BB_709D),
  (0x6B36, 0x73BA_73BC_73BD_7741_5A42_7742_7744_5A43_5A41_7743),
  (0x6B41, 0x7AA2_7AA0_7A9F),
  (0x6B45, 0x7A9E_7A9D_5C78_7AA1_5EB8_7E4D_7E4F_5EB9_7E4E_60C3),
  (0x6B50, 0x60C2_815B),
  (0x6B54, 0x848B_848A_848C),
  (0x6B59, 0x62A3),
  (0x6B5B, 0x8758_63FB),
  (0x6B5E, 0x8996_6575_8B88_67E2_4CCE_4D7F_4E5A_4F84_515D_515E),
  (0x6B6A, 0x52F0),
  (0x6B6D, 0x709E),
  (0x6B72, 0x5C79),
  (0x6B76, 0x81DA_62A4_6576_4CCF),
  (0x6B7B, 0x4E5B),
  (0x6B7E, 0x6C6D_515F_6C6C),
  (0x6B82, 0x6E68_52F1_6E69),
  (0x6B86, 0x52F2),
  (0x6B88, 0x70A0_5553_5552),
  (0x6B8C, 0x73C2_73C0_73C1_73BF),
  (0x6B91, 0x73BE),
  (0x6B94, 0x7745_7748_5A45_7746_5A44_7747),
  (0x6B9B, 0x7AA3),
  (0x6B9E, 0x7E50_7E51_7E52),
  (0x6BA2, 0x815E_815D_60C4_815C_815F_848D),
  (0x6BAA, 0x848E_848F),
  (0x6BAD, 0x8759_63FC_6577_8B89),
  (0x6BB2, 0x6794_6960),
  (0x6BB5, 0x52F3_6E6A_5554),
  (0x6BBA, 0x57C3),
  (0x6BBC, 0x5A46_7749),
  (0x6BBF, 0x5C7B_5C7A),
  (0x6BC3, 0x7E53_7E54_60C5_60C6_8491_8490_8997_9054_4CD0_6961_4D81),
  (0x6BCF, 0x4F85_6AC8),
  (0x6BD2, 0x52F4_5C7C_4CD1),
  (0x6BD6, 0x6E6B_52F5_6E6C),
  (0x6BDA, 0x63FD_4CD2),
  (0x6BDE, 0x6C6E),
  (0x6BE0, 0x6E6D),
  (0x6BE2, 0x70A5_70A4_70A2),
  (0x6BE6, 0x70A1_70A6_70A3),
  (0x6BEB, 0x57C4_57C5),
  (0x6BEF, 0x5A47_774A),
  (0x6BF2, 0x774B_774C),
  (0x6BF7, 0x7AA8_7AA9_7AA7),
  (0x6BFB, 0x7AA5_7AA6_5C7D_7E55_8162_8161_8160_8163_8493_8492_62A5_8494),
  (0x6C08, 0x6441_875A),
  (0x6C0B, 0x8998_8B8A_8F77),
  (0x6C0F, 0x4CD3_4D83_4D82),
  (0x6C13, 0x5160_6962_697F_4E5C),
  (0x6C18, 0x69D7_6AC9_6ACA_5161),
  (0x6C1D, 0x6C6F),
  (0x6C1F, 0x52F6_6E6E_6E6F),
  (0x6C23, 0x5555_5559_70A7_5558_5556_5557),
  (0x6C2A, 0x73C3_57C6_5A4A),
  (0x6C2E, 0x5A48_5A49_774D),
  (0x6C33, 0x5EBA_4CD4),
  (0x6C36, 0x6981),
  (0x6C38, 0x4D84),
  (0x6C3B, 0x6984),
  (0x6C3E, 0x4D87_6983_4D86_4D85_4F86_6982),
  (0x6C46, 0x69D8),
  (0x6C4A, 0x69DC_69DE_69DF_4E66_4E67_69DB_4E62),
  (0x6C52, 0x69D9),
  (0x6C54, 0x69DD_4E63),
  (0x6C57, 0x4E5E),
  (0x6C59, 0x4E5F),
  (0x6C5B, 0x4E65_69DA_4E5D_4F87_4E60_4E61_4E64),
  (0x6C65, 0x6ADB_6AD9_6ACC_4F93_6AD3_4F8E_6ACD),
  (0x6C6D, 0x6AD5),
  (0x6C6F, 0x6AD2_4F91_6AD1_4F98_6ADA_4F9A),
  (0x6C76, 0x4F9C),
  (0x6C78, 0x6ACB),
  (0x6C7A, 0x4F8F_6ADC),
  (0x6C7D, 0x4F96_4F99),
  (0x6C80, 0x6C87_4F89_4FA0_4F97_6ACE_4F8C_4F9B_6AD6_4F8A_4F8B_6C85_6ACF),
  (0x6C8C, 0x4F92_4F9D_6ADD_6AD0_4F90),
  (0x6C92, 0x4F95_6C70_4F9E_6AD7_4F94),
  (0x6C98, 0x4F9F_4F88_6AD4_4F8D_6AD8_6C86),
  (0x6CAB, 0x516D_517D_6C77_5174),
  (0x6CB0, 0x6C8D_5165),
  (0x6CB3, 0x5168_6C84),
  (0x6CB6, 0x6C75_6C79_5170_5172_6C7C_5179_516B_5169_516A_5178_6C89_5173),
  (0x6CC2, 0x6C7B_6C7D_5171_5176_6C7E_6C8C),
  (0x6CC9, 0x52F7_517C),
  (0x6CCC, 0x5166_6C8B),
  (0x6CCF, 0x6C8F_6C7A_6C91_6C82_516F_6C76_516E_5181_5175),
  (0x6CD9, 0x6C74_6E78_517B_517F_6C83_6C88),
  (0x6CE0, 0x5182_517A_516C_5162),
  (0x6CE5, 0x5167),
  (0x6CE7, 0x6C78_5163_6C90),
  (0x6CEB, 0x6C72_6C71_6C7F_6C73_517E_555A_5177_6C81_5164),
  (0x6CF5, 0x5349),
  (0x6CF9, 0x6C8E),
  (0x6D00, 0x6E7F_6E83),
  (0x6D03, 0x6E86_6E7A),
  (0x6D07, 0x6E89_6E8C_6E8E_6E77_52F8_52FD_70AC_5350_6E87_6E8F_6E7E_6E76),
  (0x6D16, 0x70C7_5343_6E84_6E7B_6E7D_5348),
  (0x6D1D, 0x6E81_5342_6E73_6E8A),
  (0x6D22, 0x6E8D),
  (0x6D25, 0x52FC),
  (0x6D27, 0x534B_6E70_534D_52FA_5351_6E8B_6E72_534E_70C1_6C8A_5341_52F9),
  (0x6D33, 0x6E79_6E71_534F_5347_6E85_534C_534A_6E7C_5344_6E74_5345_5346),
  (0x6D3F, 0x6E75_6E88_52FB_6E82),
  (0x6D58, 0x70AF_5562_5567),
  (0x6D5E, 0x70B8_70BE_70BA_70AD_70B0_70A9_70AA_556E_555F_70B9_70C2_5569),
  (0x6D6A, 0x555B),
  (0x6D6C, 0x5564_70B1_5566_70B2_70BC),
  (0x6D74, 0x5568_70CB_70AB_5561_5560_556C_70A8_70C9_70BD_70CA_70C4_70B6),
  (0x6D80, 0x70C5),
  (0x6D82, 0x70BF_70C8_70C6_556D_70B7_555E_555D_5565_556B_70C3_556A_70B4),
  (0x6D8E, 0x57C7),
  (0x6D90, 0x70CC_70B3_70AE_5563_556F_555C),
  (0x6D97, 0x70BB_70C0),
  (0x6DAA, 0x57E9_73C5_73C9),
  (0x6DAE, 0x57D6_57D4),
  (0x6DB2, 0x57CB_73C7_73C6_57DF),
  (0x6DB7, 0x73CC_57D9),
  (0x6DBA, 0x73DE_73EA_57C8_73DB_73D4_57EB_73C4),
  (0x6DC2, 0x73E0),
  (0x6DC4, 0x57E8_57DC_57E7_57D2_73D0_73E2_73DA_57D3_57CD_73E8),
  (0x6DCF, 0x73E1_73E3_57D5_57DD_73E5_73CE_73DF_73D3_73E7_57E2_57CA_57E0),
  (0x6DDB, 0x73D8_73D6_73D7_57D7_73D2_73D1_57CC_73CB_73E9_57CE_73D5_57EC),
  (0x6DE8, 0x57E6_73CA_57E3_57E1_57EA_73DC_57E5_70B5_73DD_57E4_73E4_57C9),
  (0x6DF4, 0x73D9_57DB_73CD_57DA),
  (0x6DF9, 0x57D8_57D0_57CF_774E_73E6),
  (0x6E00, 0x73CF),
  (0x6E03, 0x7763),
  (0x6E05, 0x57D1),
  (0x6E19, 0x5A67_57DE_5A55_775D_5A63),
  (0x6E1F, 0x7751_5A52_5A4E_776F_5A54_5A58_5A53_5A5C_7773_776A),
  (0x6E2B, 0x7758_5A61_5A5B_7764_5A4B_7770_7769_5A4F_775E_5A5E_777B_777C),
  (0x6E38, 0x5A4C_776E_5A60_7762_7754_7755_5A64_7759_7760_775A),
  (0x6E43, 0x5A62_5A6A_7756_774F_7750),
  (0x6E49, 0x7752_5A51_775F),
  (0x6E4D, 0x5A5F_5A68),
  (0x6E51, 0x7761_7779_7771_5A4D_7777_5A59),
  (0x6E58, 0x5A57),
  (0x6E5A, 0x777D_5A56_7767_775B_7765_5A6D_776B_7768_7757_5A69_7775_7772),
  (0x6E66, 0x777A_5A50_7766_5A6C),
  (0x6E6B, 0x776D),
  (0x6E6E, 0x5A5A_5A5D),
  (0x6E71, 0x776C_5A6B_775C_73C8),
  (0x6E77, 0x7776_7774_7778),
  (0x6E88, 0x7753_5A66),
  (0x6E8D, 0x7AC8_7AC7_7AAD_5C84),
  (0x6E92, 0x7AC6_7AB0_7AB1),
  (0x6E96, 0x5C8E_7ACF_5C89_7AC5),
  (0x6E9B, 0x7AAA_5C8F_5C85_7AB9_7AAF_7AB2_7ACA_5C7E_7AD1_7AC9_5C88_7ABE),
  (0x6EA7, 0x5C93),
  (0x6EAA, 0x5C92_5C8C),
  (0x6EAE, 0x7AD0_5C7F_7ABC_7AB3_7AC0_7ACC_5C94),
  (0x6EB6, 0x5C82_7ABB_91C7_7AB4_5C8B),
  (0x6EBC, 0x5C8A_7AB7_7AC1_7ACB_7AAE_7AB8_5C83_7AC2_5C90_5C87_7AB5_5C86),
  (0x6EC8, 0x7AAC_7ABA_7ACE_5A65_5ED6_7ABD_7E56_7ABF_7ACD_5C8D_7AB6_5C81),
  (0x6ED4, 0x5C91_60D8_7AAB),
  (0x6ED8, 0x7AC4),
  (0x6EDC, 0x7AC3),
  (0x6EEB, 0x7E72_5ED3_7E67_7E6C_5EC8),
  (0x6EF1, 0x7E58_5ED5),
  (0x6EF4, 0x5EBF_7E57_7E78_5ED7_7E5B_7E6B),
  (0x6EFB, 0x7E5D_7E7B_7E77_5EBD_5EC7_817D_5ED4_5EC5_7E59),
  (0x6F05, 0x7E76_5EC9_7E73_7E81_7E5F_7E68),
  (0x6F0D, 0x7E7E_7E74_5EC4),
  (0x6F12, 0x7E66_5EBE_5EBC_5ECE),
  (0x6F18, 0x7E64_7E61_7E62),
  (0x6F1C, 0x7E7A),
  (0x6F1E, 0x7E7F_7E7D_5EC2_7E82_5EC6_5ECD),
  (0x6F25, 0x7E5A_8165_7E63),
  (0x6F29, 0x5EC0_5ED2_5ECF_5EC3_7E6D_7E5E_5ED0_7E6F_5ECA_5ECC_5EBB),
  (0x6F35, 0x7E71_7E69_7E5C_5ECB_7E79_7E7C_7E65_7E70),
  (0x6F3E, 0x5EC1_60C7_7E6E_8164),
  (0x6F43, 0x7E75),
  (0x6F4E, 0x7E60_816E_8178_60CA_8177_8184_60CC_8175),
  (0x6F57, 0x8179_60D7),
  (0x6F5A, 0x8170_60CF),
  (0x6F5D, 0x817C_849C_60DB_60DA_817E_816D_8189_60D5),
  (0x6F66, 0x60CB_8182),
  (0x6F69, 0x8186_818B_817F_8173_60CE_60D1_60D9_60D4),
  (0x6F72, 0x8176_7E6A),
  (0x6F76, 0x8172_818A_60D0),
  (0x6F7A, 0x60D3_818C_60C8_8181_8166_8187_644A),
  (0x6F82, 0x8174),
  (0x6F84, 0x60C9_816F_60CD_8167_5ED1_816B),
  (0x6F8B, 0x8185_816C_816A_60D2),
  (0x6F90, 0x8183),
  (0x6F92, 0x8169_817B_817A_8188_8171_60D6),
  (0x6F9E, 0x849F),
  (0x6FA0, 0x62B2_62A8_84AB_8497_62AA_84A3_62B1_62AC_84A1_875C_84A7_84AD),
  (0x6FAC, 0x84A6_8495_84A4_84AF_84B1_62A7_84B0_62AD_62B3),
  (0x6FB6, 0x62B0),
  (0x6FB8, 0x84AA_62AF_84A5),
  (0x6FBC, 0x8499_849E),
  (0x6FBF, 0x84A9_62AE_62AB_62A6_62A9_849D),
  (0x6FC6, 0x8168_8498_849B_84AC_84A0_8496_875B_84AE_849A_84A8),
  (0x6FD4, 0x875E_644E),
  (0x6FD8, 0x6442),
  (0x6FDB, 0x6446_8760_8766_8764_6444_6445_644C_8767_875F_6447),
  (0x6FE6, 0x8763_8762_8768_644D),
  (0x6FEB, 0x6448_644B_8761_644F_6449_6450_6443_8765),
  (0x6FF4, 0x875D),
  (0x6FF7, 0x89A5),
  (0x6FFA, 0x657C_89A2_89A4),
  (0x6FFE, 0x657A_89A0_89A1_899C),
  (0x7004, 0x84A2_899D_657B_8999),
  (0x7009, 0x6578_89A6_6579_899A_899B_899F_657E),
  (0x7011, 0x657D),
  (0x7014, 0x899E_6664_8B8E_8B94_6665_8B8B_6662_665F_8B96_6663),
  (0x701F, 0x6660_8B8D_8B90_8B91_8B92_8B95),
  (0x7026, 0x89A3_8B8C_6661_8B93_8B97_8B8F),
  (0x702F, 0x8D4D_66F4_8D50_66F5_8D58_8D4F_8D4C),
  (0x7037, 0x8D4E_8D52_8D55_8D54_8D57_8D4B),
  (0x703E, 0x66F3_8D53_8D56_8D59_8D51_8E83_8E84_8E88_8E89),
  (0x7048, 0x8E86_8E87_8E85),
  (0x704C, 0x6795),
  (0x7051, 0x67E3_8F7B),
  (0x7055, 0x8F78_8F79_8F7A_67E4),
  (0x705A, 0x9056_9055),
  (0x705D, 0x90BE_6881_90BC_90BF_90BD_9147_68A3_68B1_9193_917D),
  (0x7068, 0x9192_91C0_91C1_4CD5),
  (0x7070, 0x4E68_69E0),
  (0x7074, 0x6ADE),
  (0x7076, 0x4FA1),
  (0x7078, 0x4FA4),
  (0x707A, 0x6ADF),
  (0x707C, 0x4FA2_4FA3),
  (0x7082, 0x6C9A_6C9C_6C97_6C94_6C96),
  (0x708A, 0x5186),
  (0x708E, 0x5184),
  (0x7091, 0x6C98_5185_6C95_6C92_5183_6C99),
  (0x7098, 0x6C93_5187_6C9B),
  (0x709F, 0x6E91),
  (0x70A1, 0x6E95),
  (0x70A4, 0x535A),
  (0x70A9, 0x6E98),
  (0x70AB, 0x5352_5355_5357_5359_5356_6E94_6E93),
  (0x70B3, 0x5354_6E96_6E97),
  (0x70B7, 0x6E90_5358),
  (0x70BA, 0x5353),
  (0x70BE, 0x6E92),
  (0x70C5, 0x70DA_70DB_70DC_5574),
  (0x70CA, 0x5570_70D1),
  (0x70CD, 0x70D9_70DE_5575),
  (0x70D1, 0x70CF_70D5_70CE_70D8),
  (0x70D7, 0x70D4_5571_5573_70DD),
  (0x70DC, 0x70CD_70D0_70D6),
  (0x70E0, 0x70D7_70DF_70D3),
  (0x70E4, 0x5572),
  (0x70EF, 0x57F1_73F1),
  (0x70F3, 0x73F3_73EF),
  (0x70F6, 0x73FB_73ED_73FA_57ED_73EB_7782_73F5_57F0),
  (0x70FF, 0x73F6_73F9),
  (0x7102, 0x73FD),
  (0x7104, 0x73F2),
  (0x7106, 0x73F7),
  (0x7109, 0x57EE_57EF_73FC_73F0_73EC_7441),
  (0x7110, 0x73F4),
  (0x7113, 0x73F8),
  (0x7117, 0x73EE),
  (0x7119, 0x5A6E_5A6F_778C_5A75),
  (0x711E, 0x777F_7789_777E_5A72_7787_7785),
  (0x7125, 0x7786_5A70),
  (0x7128, 0x778A),
  (0x712E, 0x7783_7781_5A71_7784_7788),
  (0x7136, 0x5A73),
  (0x713A, 0x778B),
  (0x7141, 0x7AD7_7ADE_7AE0_7AE6),
  (0x7146, 0x5CA1_7AD2),
  (0x7149, 0x5C99),
  (0x714B, 0x7AE1_5C9E_7AE7_5C95),
  (0x7150, 0x7AE4),
  (0x7152, 0x7AD4_7AE5_7AD3),
  (0x7156, 0x5CA3),
  (0x7158, 0x7ADF_5C96_7AE8),
  (0x715C, 0x5C9B_7AD8_5CA0_7AE3_7AD6_7ADD_7AD9_7AD5_5C98_5C9F_5C9D_5C9A),
  (0x7168, 0x5CA2_5C97_7ADC),
  (0x716C, 0x5C9C),
  (0x716E, 0x5A74),
  (0x7170, 0x7AE2),
  (0x7172, 0x7ADA),
  (0x7178, 0x7ADB),
  (0x717B, 0x7E8A),
  (0x717D, 0x5EDA),
  (0x7180, 0x7E86_7E8C_7E88),
  (0x7184, 0x5EDC_7E87_7E8B_7E83),
  (0x7189, 0x7E85_5EDB),
  (0x718F, 0x7E89_7E84),
  (0x7192, 0x5EDD),
  (0x7194, 0x5ED8),
  (0x7197, 0x7E8D),
  (0x7199, 0x5ED9_8192_818F_819B_8195_8197_60DC_8191_8199),
  (0x71A4, 0x8198_8196),
  (0x71A7, 0x819C_60DF_8193_819A),
  (0x71AC, 0x60DD),
  (0x71AF, 0x818E_8190_60DE_818D_819D),
  (0x71B5, 0x8194),
  (0x71B8, 0x84B5_62BA),
  (0x71BC, 0x84C0_84BE_62B4_84B4_84B7_84B8_84B3_62BE_62BF_84B2_84C1_84BC),
  (0x71C8, 0x62B8_62B5_84BB_84B9),
  (0x71CE, 0x62BB_84BD_62B6),
  (0x71D2, 0x62B7),
  (0x71D4, 0x84BA_62B9_84B6),
  (0x71D8, 0x84BF_62BC_84C2_84C3_62BD),
  (0x71DF, 0x6452_6459_8769_876F),
  (0x71E4, 0x876D_6455_6454_6451_876B),
  (0x71EC, 0x6457_6456_6453),
  (0x71F0, 0x876E_876A_876C),
  (0x71F4, 0x6458),
  (0x71F8, 0x6583_89A9),
  (0x71FB, 0x657F_6581_89AB_6582_89A8),
  (0x7201, 0x89A7_8B9B_89AA),
  (0x7205, 0x8B9C_6666_8B9A),
  (0x720A, 0x8B99),
  (0x720C, 0x8B98_6667),
  (0x7210, 0x66F6),
  (0x7213, 0x8D5A_8D5B),
  (0x7219, 0x8E8C_8E8B_6796),
  (0x721D, 0x8E8A_8F7C_8F7D),
  (0x7222, 0x9057_90C0),
  (0x7226, 0x9148_91AC_68C5_91B6_4CD6),
  (0x722C, 0x5188_5189),
  (0x7230, 0x535B),
  (0x7235, 0x645A_4CD7),
  (0x7238, 0x518A_5576_5CA4_4CD8),
  (0x723D, 0x57F2_5EDE_6963),
  (0x7241, 0x6E99_70E0),
  (0x7244, 0x7E8E),
  (0x7246, 0x645B_4CD9_518B_6E9A_6E9B_778D_5A76),
  (0x724F, 0x7AE9),
  (0x7252, 0x5CA5_7E8F),
  (0x7256, 0x60E0),
  (0x7258, 0x6668_4CDA_778E_4CDB),
  (0x725D, 0x4E6A_69E1_4E69_4FA7_4FA6_4FA5_6AE0),
  (0x7267, 0x518C),
  (0x7269, 0x518D_6C9D),
  (0x726C, 0x6E9C),
  (0x726E, 0x6E9F_535D_6E9D),
  (0x7272, 0x535C_6E9E_535E),
  (0x7276, 0x70E3_70E2_70E1_5577),
  (0x727B, 0x7443_7444_57F3_7442_7445_5A78_57F4),
  (0x7284, 0x5A77_7792_7791),
  (0x7288, 0x778F_7790),
  (0x728B, 0x7793_7AEB_7AEA_7AEE),
  (0x7290, 0x7AED_7AEC_5EDF_7E92),
  (0x7295, 0x7E91_5EE0_7E90_819E),
  (0x729A, 0x819F_60E1),
  (0x729D, 0x84C4_84C5),
  (0x72A1, 0x8BA1_6669_8BA0_8B9F_8B9D_8B9E_6797_8D5C_8F7E_9149),
  (0x72AC, 0x4CDC),
  (0x72AE, 0x6985_4D88_6986),
  (0x72B4, 0x69E2_69E3),
  (0x72BA, 0x6AE6),
  (0x72BD, 0x6AE2),
  (0x72BF, 0x6AE1_518E_6AE5_4FA9_6AE3_4FA8_6AE7_6AE4),
  (0x72C9, 0x6CA1_6EA0_6C9F_6CA6),
  (0x72CE, 0x518F),
  (0x72D0, 0x5192_6CA7_6CA3),
  (0x72D4, 0x6CA4),
  (0x72D6, 0x6C9E_5191_6CA0_5190_6CA5),
  (0x72DC, 0x6CA2),
  (0x72DF, 0x6EA4_5360_5361),
  (0x72E3, 0x6EA7_6EA1),
  (0x72E6, 0x6EA6),
  (0x72E8, 0x6EA2_535F_6EA5_6EA3),
  (0x72F3, 0x70E9_70E6),
  (0x72F6, 0x70E8_557C_557B_5579_70E5_70EA_5578_557A_70E7_744D_70E4_70EB),
  (0x7307, 0x7448_744C),
  (0x730A, 0x744B_7795_77A0),
  (0x730F, 0x744E),
  (0x7311, 0x7449_7794_57F8),
  (0x7316, 0x57F7_7447_744A_57F9),
  (0x731B, 0x57F6_57F5_7446_744F),
  (0x7322, 0x7797_779E),
  (0x7325, 0x5A7A_779D_779A),
  (0x7329, 0x5A7C),
  (0x732D, 0x779C),
  (0x7330, 0x7796_7798_779B_7799_5A7B_779F_5A79_5CA6),
  (0x733A, 0x7AF2_7AF1_7AEF),
  (0x733E, 0x5CA9_5CA8_7AF3),
  (0x7342, 0x7AF0_7E93_5EE1_5CA7),
  (0x7349, 0x7AF5_7AF4),
  (0x734C, 0x7E96_7E94_60E2),
  (0x7350, 0x5EE2_7E95_81A1),
  (0x7357, 0x60E3_81A0_81A9_81A8_81A6),
  (0x735D, 0x81A5_81A2_81A3_81A4_81A7_81AA),
  (0x7365, 0x84CA_84C7_84C8_62C0_84C6_84CC_84CB_84C9),
  (0x736E, 0x8771_8772_645C),
  (0x7372, 0x645D_8770),
  (0x7375, 0x6585_89AC_6584_666A),
  (0x737A, 0x666B_66F7_8D5E_8D5D_8E8D_8F7F_67E5_9059_9058_905A_4D89_6EA8),
  (0x7386, 0x557D_57FA_7450_4D8A_6987_4CDD),
  (0x738E, 0x69E4),
  (0x7392, 0x6AEC_6AEA_6AEB_6AE8_4FAA_6AE9),
  (0x739D, 0x6CAF),
  (0x739F, 0x5195_6CAD_6CA9_6CAC),
  (0x73A4, 0x6CA8_5197_6CAB),
  (0x73A8, 0x5194_5193),
  (0x73AB, 0x5196_6CAE_6CAA),
  (0x73B2, 0x5365_5368_6EB0_6EAF_6EAE_5362_6EB7_6EAD),
  (0x73BB, 0x5364_70F0),
  (0x73BE, 0x6EB4_6EB2_5367),
  (0x73C2, 0x6EAA_6EB5),
  (0x73C5, 0x6EAC_6EB6_6EB3_6EAB),
  (0x73CA, 0x5363_6EB8_6EA9_5366),
  (0x73D2, 0x70F5_70EC_70F7),
  (0x73D6, 0x70EF_70FA_70FB_70ED_70F9_70F6_70F4_70F8_5584),
  (0x73E0, 0x5582),
  (0x73E3, 0x70F2),
  (0x73E5, 0x70EE),
  (0x73E7, 0x70F1_70FC_70F3_5583_6EB1),
  (0x73ED, 0x557E_5581),
  (0x73F4, 0x745E_7453_7451),
  (0x73F8, 0x7452),
  (0x73FA, 0x7459),
  (0x73FC, 0x745A_7456_5842_745B_7458_7455),
  (0x7403, 0x57FD_7454_57FB_5841_7457_745F_557F_57FC_745D_745C_5843),
  (0x7416, 0x77A5),
  (0x741A, 0x77A6_5A87),
  (0x741D, 0x77AC),
  (0x7420, 0x77AE_77A7_5A81_77AB_77AA_5A82_5A88),
  (0x7428, 0x5A89_77AD_5A7E_77A4_77A2_77A8_77A1_5A86_77A3_77A9_77AF_5A7F),
  (0x7434, 0x5A85_5A83_5A84),
  (0x743A, 0x5A7D),
  (0x743F, 0x5CB0_7AFC_5CAF_7B43),
  (0x7444, 0x7AF6),
  (0x7446, 0x7B44),
  (0x744A, 0x7AF7_7AF8),
  (0x744D, 0x7B45_7B42_7AFD_7B41_7AFA_7AF9),
  (0x7454, 0x7B46_5CAC),
  (0x7457, 0x7AFB),
  (0x7459, 0x5CB1_5CAB_5CB2_5CB3),
  (0x745E, 0x5CAE_5CAD),
  (0x7462, 0x7E97_5EE4_5EE3),
  (0x7467, 0x7E9C),
  (0x7469, 0x60E4_5EE5),
  (0x746D, 0x5EE7_7E9D_5CAA_5EE6_7E99_7E9B_7E98),
  (0x7475, 0x7E9A),
  (0x7479, 0x81B4),
  (0x747C, 0x81B3_81B0_60E7_84CD_60E8_81AF),
  (0x7483, 0x60E6),
  (0x7485, 0x81B1_81AE_81AB_81B2_81AC_81AD_60E5),
  (0x7490, 0x8776),
  (0x7492, 0x84D1),
  (0x7494, 0x84D0_84D2),
  (0x7497, 0x8773_62C3),
  (0x749A, 0x84CE),
  (0x749C, 0x62C1),
  (0x749E, 0x62C5_62C4_84CF_84D3),
  (0x74A3, 0x62C2),
  (0x74A5, 0x877A_6460_6586_6461_645E_8777_8775),
  (0x74AD, 0x8778),
  (0x74AF, 0x877B_645F_8779_8774),
  (0x74B5, 0x89AF_89B2_8BA4_89AD),
  (0x74BA, 0x8D5F_89B3),
  (0x74BD, 0x666C_89B1_6587_89AE_89B0_89B4_8BA5),
  (0x74C5, 0x8BA3),
  (0x74CA, 0x666D_8BA2),
  (0x74CF, 0x66F8),
  (0x74D4, 0x6799_8F82_6798_8F84_8F81_8F83_685C_90C1_4D8B_6CB0_70FD_7141),
  (0x74E0, 0x5844_7B47_62C6_666E_67E6_90C2_4D8C),
  (0x74E8, 0x6CB1_46F8),
  (0x74EC, 0x6EB9),
  (0x74EE, 0x6EBA),
  (0x74F4, 0x7142_7143_5845_5846),
  (0x74FB, 0x77B0),
  (0x74FD, 0x7B4A_7B49_7B48_7E9E),
  (0x7502, 0x7E9F_7EA0_5EE8),
  (0x7507, 0x81B6_81B5),
  (0x750B, 0x84D4_62C7_62C8),
  (0x750F, 0x877F_877C_877D_877E_89B6_89B5_6588_8BA6_8E8E_4D8D),
  (0x751A, 0x5369),
  (0x751C, 0x5847_7B4B),
  (0x751F, 0x4D8E),
  (0x7521, 0x7144_5848),
  (0x7525, 0x5A8A_5A8B),
  (0x7528, 0x4D8F_4D90_69E5_4FAC_4FAB_536A_6EBB_77B1_4D91_4D92_4D93_4D94),
  (0x7537, 0x4FAD_4FAE_6AEE_6AED),
  (0x753D, 0x5198_6CB4_6CB2_6CB3),
  (0x7547, 0x6EBC_6EBD),
  (0x754B, 0x536E_536C),
  (0x754E, 0x536D_536B),
  (0x7554, 0x5585),
  (0x7559, 0x5589_5588_7145_5587_5586),
  (0x755F, 0x7146),
  (0x7562, 0x584B_7461_7460_5849_584A),
  (0x756A, 0x5A8D_5A8C_77B3),
  (0x756F, 0x77B2_584C),
  (0x7576, 0x5CB4_7B4D_5CB5_7B4C),
  (0x757D, 0x7EA1_81B7_60E9_84D5),
  (0x7584, 0x8781),
  (0x7586, 0x6670_666F),
  (0x758A, 0x67E7_4D95_6CB5),
  (0x758F, 0x584D_7EA2_5EE9_48A8),
  (0x7594, 0x6AEF_6AF0),
  (0x7598, 0x6CB6_519A_519B),
  (0x759D, 0x5199),
  (0x75A2, 0x5372_5373_5370_5371),
  (0x75A7, 0x6EBE),
  (0x75AA, 0x6EBF_536F),
  (0x75B0, 0x7147),
  (0x75B2, 0x558D_558E),
  (0x75B5, 0x5850_714D),
  (0x75B8, 0x5593_5591_714E_7149_5590_558F_558A_714C_714B_7148_5592),
  (0x75C4, 0x714A_558B),
  (0x75C7, 0x558C),
  (0x75CA, 0x5851_7465_7466_5852_7462_7464_7468_7467_7463),
  (0x75D4, 0x584E_584F),
  (0x75D7, 0x77BB_5A92_5A91_77B5_5A8F),
  (0x75DD, 0x77B8_5A93_77B9_5A94_77B6_5A8E_5A90_77BA),
  (0x75E6, 0x77B7_77B4),
  (0x75ED, 0x7B5A),
  (0x75EF, 0x7B4F_5CB7_5CBA_5CB9_5CBE_5CBD_7B5B_7B59_7B52_7B56_7B55_5CBB),
  (0x75FB, 0x7B58_7B54_7B5C_7B53_5CBC_5CB6_5CB8),
  (0x7603, 0x7B51),
  (0x7608, 0x7EA4_5EED_7EA8_5EEC_7EA5_5EEB),
  (0x760F, 0x7B50_7B57_7EA7),
  (0x7613, 0x5EEE_7EA9_7EA6_7EA3),
  (0x7619, 0x81BA_81BE_81C0_81BC_81BB_81B9_60EC_60EA_60EF_60F0_81BD_60ED),
  (0x7625, 0x81B8_60EE_5EEA_81BF_60EB),
  (0x762D, 0x84D7),
  (0x762F, 0x84D6_84DE_84D8_84DD_84DA_62C9_84DC),
  (0x7638, 0x62CA),
  (0x763A, 0x62CB),
  (0x763C, 0x84DB_84D9),
  (0x7642, 0x6463_8782),
  (0x7646, 0x6462_8785_8783_8784),
  (0x764C, 0x6464),
  (0x7650, 0x89BA),
  (0x7652, 0x658B_89BB),
  (0x7656, 0x6589_89BC_658A_89B9_89BD),
  (0x765C, 0x89B7),
  (0x765F, 0x6671_8BA7_6672_66F9),
  (0x7664, 0x89B8_66FA),
  (0x7669, 0x679A_8E8F),
  (0x766C, 0x67E9_8F85_67E8),
  (0x7670, 0x905B_6882_6883),
  (0x7675, 0x91BC_48A9),
  (0x7678, 0x5374_6EC0),
  (0x767B, 0x5A95_5A96_4D96_4E6B_69E6),
  (0x7681, 0x6AF1_4FAF),
  (0x7684, 0x519C),
  (0x7686, 0x5375_5376_5377_746A_714F_5594),
  (0x768E, 0x5853_7469),
  (0x7692, 0x77BD_5A98),
  (0x7695, 0x77BC_5A97),
  (0x7699, 0x7B5D_60F1_81C4_81C1_81C2_81C3),
  (0x76A4, 0x8786),
  (0x76A6, 0x89BE),
  (0x76AA, 0x8D61_8D60),
  (0x76AD, 0x8F86_4D97_6CB7_5595),
  (0x76B4, 0x5A99_7B5E),
  (0x76B8, 0x7EAA),
  (0x76BA, 0x60F2_84DF),
  (0x76BD, 0x89BF_8D62_4D98),
  (0x76C2, 0x519D_537A_6EC1_537B_5379),
  (0x76C8, 0x5378_7150_5596),
  (0x76CD, 0x5597_5598),
  (0x76D2, 0x5855_746B_5854),
  (0x76DA, 0x77BE_5856_5A9A_7B5F_5CBF_5CC0),
  (0x76E1, 0x5EEF),
  (0x76E3, 0x5EF0_60F3_62CD_84E0_62CC),
  (0x76E9, 0x8787_6465),
  (0x76EC, 0x89C0_8D63_4D99_4FB0_6CBA_6CB9_519E_6CB8_519F_6CBB),
  (0x76F7, 0x6EC7_537E_537D_6EC9_6EC8_5383),
  (0x76FE, 0x5382),
  (0x7701, 0x537C),
  (0x7703, 0x6EC3_6EC4_6EC5),
  (0x7707, 0x5384_6EC2_537F_6EC6_5381),
  (0x7710, 0x7153_7157_7155_7154),
  (0x7715, 0x7158),
  (0x7719, 0x7159_715A_7152),
  (0x771D, 0x7151),
  (0x771F, 0x559A_559B),
  (0x7722, 0x715B_7156),
  (0x7725, 0x7474),
  (0x7727, 0x715C_559C_5599),
  (0x772D, 0x746E),
  (0x772F, 0x746D),
  (0x7731, 0x746F_7470_7472_7471_7476_585A_5857_585B_746C_585C_7475_5859),
  (0x773D, 0x7473_5858),
  (0x7744, 0x77C1_77C3_77BF_77C0),
  (0x774A, 0x77C4_77C6_77C7_77C2_77C5_5A9B),
  (0x7752, 0x7B63),
  (0x7754, 0x7B68_7B60_7B64),
  (0x7759, 0x7B69_7B65_5CC1_5CC9),
  (0x775E, 0x5CC4_7B61_7B62_5EF4_5CCC_5CC5),
  (0x7765, 0x5CCA_5CC3_7B67_5CCB_7B66_5CC7_5CC2_5CC8_7B6A_7EAF_7EB1),
  (0x7779, 0x5CC6),
  (0x777C, 0x7EAC_5EF2_7EB2_5EF3_7EB0_7EAB_7EAE_7EB3_5EF1_7EAD),
  (0x7787, 0x60F5_81C8_81C7),
  (0x778B, 0x60F8_60F6_81C5_60F4_81C6),
  (0x7791, 0x60F7),
  (0x7795, 0x84E8),
  (0x7797, 0x84EA),
  (0x7799, 0x84E9_84E1_84E5_84E4_84E2_62CF_62D0_62CE_84E3_84E6_84E7),
  (0x77A5, 0x62D1),
  (0x77A7, 0x646A_878F),
  (0x77AA, 0x6467_8789_6469_646B),
  (0x77B0, 0x6468_878E_878A_6466_878D_8788_878C_878B),
  (0x77BA, 0x89C2_658E_658F_658C),
  (0x77BF, 0x658D),
  (0x77C2, 0x89C1),
  (0x77C4, 0x8BAA),
  (0x77C7, 0x6673),
  (0x77C9, 0x8BA8_8BA9),
  (0x77CC, 0x8D64_8D67_8D65_8D66_8E90),
  (0x77D3, 0x679B_905C_90C3),
  (0x77D7, 0x6884_914A_914B_68B2_4D9A_5385),
  (0x77DE, 0x77C8),
  (0x77E0, 0x7B6B),
  (0x77E2, 0x4D9B_4FB1),
  (0x77E5, 0x51A0),
  (0x77E7, 0x6ECA_6ECB_559D),
  (0x77EC, 0x77C9_5A9C_5CCD_646C_8790_8BAB_8D68_4D9C),
  (0x77F7, 0x6CC1_6CBC_6CBE_6CC0_6CBF_6CBD_51A1),
  (0x7802, 0x5386_6ED4),
  (0x7805, 0x6ECF_6ECC),
  (0x7809, 0x6ED3),
  (0x780C, 0x5388_5389_6ED2_6ED1_6ED0_6ECD_6ECE_6ED5_5387),
  (0x781D, 0x55A1),
  (0x781F, 0x55A7_55A6_7165_715F_715D),
  (0x7825, 0x55A4_747D_559F_7162_7166_7168_7164_715E_55A5_7163_7161_559E),
  (0x7831, 0x7169_55A8_7167_55A2_7160),
  (0x7837, 0x55A3_55A0),
  (0x7843, 0x585E),
  (0x7845, 0x747E),
  (0x7848, 0x7477_7479_747B),
  (0x784C, 0x747C_747A_585F),
  (0x7850, 0x747F),
  (0x7852, 0x7478),
  (0x785C, 0x77CD_5A9D_77D5),
  (0x7860, 0x77CA),
  (0x7862, 0x77D6),
  (0x7864, 0x77CB_77CC),
  (0x7868, 0x77D4_77D3_77D0_585D_5A9E_77CE_77D1_5A9F_77D2_77CF),
  (0x7879, 0x7B76),
  (0x787B, 0x7B7A_5CD4),
  (0x787E, 0x7EB9_5CD7_7B78),
  (0x7883, 0x7B75_7B70_7B72_7B73_7B6C),
  (0x7889, 0x5CD3),
  (0x788C, 0x5CD2),
  (0x788E, 0x5CCE_7B6F),
  (0x7891, 0x5CD5),
  (0x7893, 0x5CD6_7B6E_7B71_7B79_5CD0_5CD1_7B77_7B6D),
  (0x789E, 0x7EBB_5EF6_7EBD_7B74_7EBF_5EFA_7EC0_7EBC),
  (0x78A7, 0x5EF7_7EB8_5EF9_7EB5_7EBA_7EBE_7EB7),
  (0x78B0, 0x5CCF),
  (0x78B2, 0x7EB4_5EF8_7EB6),
  (0x78BA, 0x60FB_81CA_6142),
  (0x78BE, 0x60FD),
  (0x78C1, 0x5EF5),
  (0x78C3, 0x81D1_81D2_60FA),
  (0x78C8, 0x81D0_81D3_60FC_60F9_81CC_81C9_81CE_81CB_6143_81CD),
  (0x78D4, 0x81CF_6141),
  (0x78DA, 0x62D3_84F1),
  (0x78DD, 0x84EB_84EF_84F5_84F6_84F2_84F3_84F0),
  (0x78E5, 0x84ED),
  (0x78E7, 0x62D5_62D2_84EC_84EE),
  (0x78EC, 0x62D4_84F4),
  (0x78EF, 0x6470),
  (0x78F2, 0x8796_8791_646F),
  (0x78F7, 0x646D),
  (0x78F9, 0x8798_646E_8794_8795_8792_8799_89C3),
  (0x7901, 0x6471_8793),
  (0x7904, 0x879A_8797),
  (0x7909, 0x89C7),
  (0x790C, 0x89C4),
  (0x790E, 0x6590),
  (0x7910, 0x89C8_89CA_89C9_89C5_89C6),
  (0x7917, 0x8BB0),
  (0x7919, 0x6674),
  (0x791B, 0x8BAD_8BAF_8BAC_8BB1),
  (0x7921, 0x8BAE),
  (0x7923, 0x8D6A_8D6D_8D69_66FB_8D6B_8D6C_8D6E_66FC_6741_66FD_8E91),
  (0x792F, 0x8E93),
  (0x7931, 0x8E92),
  (0x7935, 0x8F87),
  (0x7938, 0x90C4_914C_4D9D),
  (0x793D, 0x6AF2_51A2_6CC3_51A3_51A4_6CC2),
  (0x7944, 0x6EDA_6ED9_538A_538D_538C_538B_6ED6_6ED8_6ED7),
  (0x794F, 0x716C_55AA_7170_716F_716E_716A_55A9_55AD_55B0),
  (0x795A, 0x55B1_716B_716D_55AF_55AE_55AC_55AB_7487),
  (0x7963, 0x7485_7481_5860),
  (0x7967, 0x7482_5861_7483_7484_7486),
  (0x796D, 0x5862),
  (0x7970, 0x77DA),
  (0x7972, 0x77D9_77D8_77D7),
  (0x7979, 0x7B7E_5CD8),
  (0x797C, 0x7B7B_7B7D),
  (0x797F, 0x5CD9),
  (0x7981, 0x5CDA_7B7C),
  (0x7988, 0x7EC9),
  (0x798A, 0x7EC2_7EC3),
  (0x798D, 0x5EFD_5EFB_5EFC_7ECB),
  (0x7992, 0x7ECA_7EC7_7EC6_7EC5_7EC4_7EC8_7EC1),
  (0x799A, 0x81D4_81D9_81D7),
  (0x79A0, 0x81D6_81D5_81D8),
  (0x79A4, 0x84F7),
  (0x79A6, 0x62D6_6472_879C),
  (0x79AA, 0x6473_879B_89CC_89CB_6591),
  (0x79B0, 0x8BB2_6675_8D6F_67EA_8F88),
  (0x79B6, 0x90C6_90C5_6988_538E_538F_7488),
  (0x79BD, 0x5CDC_4D9E_4FB4_4FB3_4FB2),
  (0x79C5, 0x6CC4),
  (0x79C8, 0x51A6_51A5),
  (0x79CB, 0x5392),
  (0x79CD, 0x6EDC_6EDF_6EDD),
  (0x79D1, 0x5390_5391),
  (0x79D5, 0x6EDB_6EDE),
  (0x79D8, 0x55B8),
  (0x79DC, 0x7177_7179_7178_55B5_7173),
  (0x79E3, 0x55B3_55B2),
  (0x79E6, 0x55B6_55B4),
  (0x79E9, 0x55B7_7176_7171_7172_7175_7174),
  (0x79F6, 0x748B_748C_748A),
  (0x79FA, 0x7489_5863),
  (0x7A00, 0x5AA4),
  (0x7A02, 0x77DB_77DD_77DF_5AA3),
  (0x7A08, 0x5AA1),
  (0x7A0A, 0x77DC_5AA2_77DE_5AA0),
  (0x7A10, 0x7B89_7B7F_7B83_7B87_5CE0_7B85),
  (0x7A17, 0x7B84_7B81_7B82_5CDE_7B88_5CDD),
  (0x7A1E, 0x5CE2_5CE1_5CDF),
  (0x7A22, 0x7B86),
  (0x7A26, 0x7ED1),
  (0x7A28, 0x7ED0),
  (0x7A2B, 0x7ECC),
  (0x7A2E, 0x5F41_7ECF_7ECE_5F42),
  (0x7A37, 0x6148),
  (0x7A39, 0x81DB),
  (0x7A3B, 0x6149_6145_6147),
  (0x7A3F, 0x6144_6146),
  (0x7A44, 0x84F8),
  (0x7A46, 0x62D9_84FA_84F9),
  (0x7A4A, 0x7ECD_62DB_62DA_62D7_62D8),
  (0x7A54, 0x87A1),
  (0x7A56, 0x879F_6474_87A0),
  (0x7A5A, 0x87A2_879E_879D),
  (0x7A5F, 0x89CD_6594_6592_6593),
  (0x7A67, 0x8BB3_8BB4_6677),
  (0x7A6B, 0x6676_8D71_8D72_8D70),
  (0x7A70, 0x8F89_8F8A),
  (0x7A74, 0x4D9F_69E7_4FB5),
  (0x7A78, 0x6CC5_51A8_51A7_6CC6),
  (0x7A7E, 0x6EE1_5393_6EE0_5394),
  (0x7A84, 0x55B9_717C_717A_7181_55BA_717B_717F_717D_717E),
  (0x7A8F, 0x748D_748F),
  (0x7A92, 0x5864),
  (0x7A94, 0x748E_5865_5AA7_5AA6_5AA5_77E0),
  (0x7A9E, 0x7B8C_5CE3_5CE4),
  (0x7AA2, 0x7B8B_7B8A),
  (0x7AA8, 0x7ED2_5F44_5F43_7ED3_7ED4),
  (0x7AAE, 0x614B_614A),
  (0x7AB1, 0x8541_81DC_81DE_81DD_84FD_84FB_8542_84FC),
  (0x7ABA, 0x62DC),
  (0x7ABE, 0x87A3_6475_87A4_87A5),
  (0x7AC4, 0x6595_6596),
  (0x7AC7, 0x6742),
  (0x7ACA, 0x685D_4DA0),
  (0x7AD1, 0x6EE2),
  (0x7AD8, 0x7182_55BB),
  (0x7ADF, 0x58FD_58FC),
  (0x7AE3, 0x5AA9_77E2_5AA8_77E1),
  (0x7AEB, 0x7B8D),
  (0x7AED, 0x5F45_7ED5_5F46),
  (0x7AF6, 0x6743_8D73),
  (0x7AF9, 0x4E6C_51A9_6CC7),
  (0x7AFD, 0x5396),
  (0x7AFF, 0x5395_6EE3_6EE4),
  (0x7B04, 0x7184_7186_55BC),
  (0x7B08, 0x7188_718B_7189),
  (0x7B0E, 0x718A_7187_7183_55BD_718C_7185),
  (0x7B18, 0x7498_586B_74A1_5868),
  (0x7B1D, 0x749A_586C),
  (0x7B20, 0x5866),
  (0x7B22, 0x7495_74A2_7496_7493_586A),
  (0x7B28, 0x5867),
  (0x7B2A, 0x7499_749C_5869_749D_586D_749E_7494_749B_749F_7497_7492_7490),
  (0x7B38, 0x74A0),
  (0x7B3B, 0x77E4),
  (0x7B40, 0x77E9),
  (0x7B44, 0x77E5_77EB_5AAC_7491_77E6_5AAA_77E3_5AB1_77E7_5AB0_77E8_5AB2),
  (0x7B50, 0x5AAD_5AB3_5AAE),
  (0x7B54, 0x5AAF),
  (0x7B56, 0x5AAB),
  (0x7B58, 0x77EA),
  (0x7B60, 0x5CE7_7B98),
  (0x7B63, 0x7B9B_7B8F_7B94_7B8E_5CE9),
  (0x7B69, 0x7B92),
  (0x7B6D, 0x7B90_5CE8),
  (0x7B70, 0x7B97_7B96_7B93_7B95_7B91_5F4A_7B9A_5CE5_7B99),
  (0x7B82, 0x7EE5),
  (0x7B84, 0x5F51_7EE0),
  (0x7B87, 0x5F50_7ED6),
  (0x7B8A, 0x7ED8_5F49_7EDD_7EDC_7EDF_5F4E_7EDA_7ED9),
  (0x7B94, 0x5F4D_5F48_7EDB_5F4B_7EE1_7EE3),
  (0x7B9B, 0x7EDE_7ED7_5F4C),
  (0x7BA0, 0x6153_5F47),
  (0x7BA4, 0x7EE4),
  (0x7BAC, 0x81E2_614C),
  (0x7BAF, 0x81E4),
  (0x7BB1, 0x614D),
  (0x7BB4, 0x614F_81E7),
  (0x7BB7, 0x81DF_5F4F_81E5),
  (0x7BBE, 0x81E1),
  (0x7BC0, 0x5CE6_6152),
  (0x7BC4, 0x614E),
  (0x7BC6, 0x6150_6151),
  (0x7BC9, 0x62DF_81E6_81E0_6154),
  (0x7BCE, 0x81E3),
  (0x7BD4, 0x854C_8547),
  (0x7BD8, 0x8551_62DD_8549_62E1_854F_8546_8543_8552_647B_62E2_854E_8544),
  (0x7BE4, 0x62E0_8548_62E4_8545_854A_62E3_854D_8550),
  (0x7BF0, 0x87B7_87B8_87A8_87AF_87AD),
  (0x7BF7, 0x6479_87B4_854B),
  (0x7BFB, 0x87AB),
  (0x7BFD, 0x87B5_6478_87AA_87A9_87B3_87B0_87B2),
  (0x7C05, 0x87A6_87B6_6476),
  (0x7C09, 0x87B1_87BA_87AE_647A_6477_87AC_87A7_87B9_62DE),
  (0x7C19, 0x89D0),
  (0x7C1C, 0x89CE_89D4_659A_89D2_89D1_659C_89D7_659B),
  (0x7C25, 0x89D8_89D5_6598_89D6_89CF_6599_6597_8BB8_89D3),
  (0x7C30, 0x89D9),
  (0x7C33, 0x8BB5),
  (0x7C37, 0x667C_667A_8BB7),
  (0x7C3B, 0x8BB9_8BB6_667B_6678_6679_667D),
  (0x7C43, 0x6745),
  (0x7C45, 0x8D78),
  (0x7C47, 0x8D77_8D75_8D74_8D76),
  (0x7C4C, 0x6744_6746),
  (0x7C50, 0x679C),
  (0x7C53, 0x8E95_8E94),
  (0x7C57, 0x8F8B),
  (0x7C59, 0x8F8D_8F8F_8F8E_8F8C),
  (0x7C5F, 0x67EC_67EB),
  (0x7C63, 0x685F_685E_6860_905E_905D),
  (0x7C69, 0x914D_90C7_914E_68A4),
  (0x7C6E, 0x68A5_917E),
  (0x7C72, 0x68CA_4E6D),
  (0x7C75, 0x6CC8),
  (0x7C78, 0x6EE6_6EE7_6EE5),
  (0x7C7D, 0x5397),
  (0x7C7F, 0x6EE8_6EE9_6EEA),
  (0x7C84, 0x718D_7193),
  (0x7C88, 0x7191_55BE_718F),
  (0x7C8C, 0x7190_7192),
  (0x7C91, 0x718E_586E),
  (0x7C94, 0x74A3_5870_74A5_586F_74A4),
  (0x7C9E, 0x77ED_5AB4),
  (0x7CA1, 0x77EF_77EC_74A6),
  (0x7CA5, 0x5AB5),
  (0x7CA8, 0x77EE),
  (0x7CAF, 0x7B9E),
  (0x7CB1, 0x5CEA_7B9C_5CEB_7B9D_5CEC),
  (0x7CB9, 0x5F52_7EE9_7EE6_7EE8_5F53_5F54_7EE7),
  (0x7CC5, 0x81E8),
  (0x7CC8, 0x81E9),
  (0x7CCA, 0x6155_81EB_81EA),
  (0x7CCE, 0x46F9),
  (0x7CD0, 0x8556_8557_8553),
  (0x7CD4, 0x8554_62E5_62E6_8555),
  (0x7CD9, 0x6482),
  (0x7CDC, 0x647D_6483_647E_6481_647C),
  (0x7CE2, 0x647F),
  (0x7CE7, 0x659D_87BB),
  (0x7CEA, 0x8BBB),
  (0x7CEC, 0x8BBA),
  (0x7CEE, 0x8D79_6747_6748_8F91_8E96),
  (0x7CF4, 0x8F90),
  (0x7CF6, 0x914F_9194_4E6E),
  (0x7CFB, 0x4FB6),
  (0x7CFD, 0x6CC9_51AA),
  (0x7D00, 0x539A_6EED_5398_6EEB_539D_5399_539E_539C_6EEC_539B_55C2_55C1),
  (0x7D0C, 0x719E_55CA_7197_719D_55C6_7196_719C_719A_55C5_55C7_7199_55C0),
  (0x7D18, 0x7198_55CB_55C8_55CC_55C9_7195_7194_719B_55C3_55BF_55C4),
  (0x7D28, 0x74B5_74AE),
  (0x7D2B, 0x5ABA_74AD),
  (0x7D2E, 0x5874_587B_5878_587E_587D_5879),
  (0x7D35, 0x74A7_74AA),
  (0x7D38, 0x74A9_5875_74AB_74B4_5876_74A8_74B1_74B2_5877_74AF_587C_5872),
  (0x7D44, 0x587A_74AC_5871_74B0),
  (0x7D4A, 0x74B3),
  (0x7D4E, 0x7843_77F7_5AB7_7841_77FB_77F3_77FC_5AB9_77F4),
  (0x7D58, 0x77F0),
  (0x7D5B, 0x5CF2_77F9),
  (0x7D5E, 0x5AB6_7842),
  (0x7D61, 0x5ABD_5ABF_77F2),
  (0x7D66, 0x5ABE_77F5_5AB8_77FD_77F6_77FA),
  (0x7D6D, 0x77F8_5ABB_77F1_5AC0_5873_5ABC_5AC1),
  (0x7D79, 0x5CEE_7BA5_7BA7_7BA9_7BAD),
  (0x7D7F, 0x7BA3_7BA1_5CF0),
  (0x7D83, 0x7BA8_7BAC_7BA4_7BA0),
  (0x7D88, 0x7B9F),
  (0x7D8C, 0x7BAA_7BA2_7BA6_5CF1),
  (0x7D91, 0x5CEF_7BAE_5CED_7BAB),
  (0x7D96, 0x7EFA),
  (0x7D9C, 0x5F57_7EF2_6162_7EFC_5F5A_7F43_5F60_7EED),
  (0x7DA6, 0x7EFD_7EEA),
  (0x7DA9, 0x7F42_7EEE),
  (0x7DAC, 0x5F67_5F64_7F41_7EF8_5F56_5F5E_5F5D),
  (0x7DB4, 0x5F5C_5F62),
  (0x7DB7, 0x7EEB_5F63_7EF9_5F5F_5F55_7EFB_5F58_5F59_5F61_7EF0_7EEF_7EEC),
  (0x7DC4, 0x7EF4_7EF1_7EF5_5F66),
  (0x7DC9, 0x7F44_5F5B_7EF6_7EF7),
  (0x7DCE, 0x7EF3),
  (0x7DD2, 0x5F65),
  (0x7DD7, 0x81F0_615A_6163_615F_81ED),
  (0x7DDD, 0x615C_6160_81F9_6156_81F1),
  (0x7DE3, 0x615E),
  (0x7DE6, 0x81F4_81EF_615D_6161_81EE),
  (0x7DEC, 0x615B),
  (0x7DEE, 0x81F8_6158_81F7_81F6_6164_80BC_6157),
  (0x7DF6, 0x81F5_81EC),
  (0x7DF9, 0x6165_81F3_6159),
  (0x7E03, 0x81F2),
  (0x7E08, 0x62E9_62EE_62E7_8564_855B_8567_855F_8565_62EF_62E8_8558_855E),
  (0x7E14, 0x8568_8561_8566_855A),
  (0x7E1A, 0x8562_62EA_8560_62ED_62EC_855C_855D_8559_8563_62EB_856A_8569),
  (0x7E29, 0x87C6_87C2_648A),
  (0x7E2D, 0x87BC_6484_6494_87C8_648C_6488_87BF_648F_6492_87CA_6487_87C1),
  (0x7E39, 0x6490_87CC_87C9_87BD_648B_6485_6493_87C4_648E_87BE_6489_87CB),
  (0x7E45, 0x648D_6486_87C5_6491_87C3),
  (0x7E4C, 0x87C7),
  (0x7E50, 0x89DB_89E1_65A3_89E4_659E_659F_89DC_89E3_89DE_65A4_65A1),
  (0x7E5C, 0x89DA),
  (0x7E5E, 0x65A0_89E0_89E2_65A2_89DF_89DD),
  (0x7E68, 0x8BC5_6682_6683_667E),
  (0x7E6D, 0x667F),
  (0x7E6F, 0x8BC1_8BBF),
  (0x7E72, 0x8BC3_6685_8BC4_8BBD_8BBC_8BC0_8BBE_6681_8BC2_8D7A_674B_674A),
  (0x7E7E, 0x8D7B),
  (0x7E80, 0x8D7D_8D7C_674C),
  (0x7E86, 0x8E9B_8E98_8E99),
  (0x7E8A, 0x8E97_8E9A_679E_8E9C),
  (0x7E8F, 0x679D),
  (0x7E91, 0x8F92),
  (0x7E93, 0x6861_6863_905F_6862_90C8_9151_9153_9150_9152_68B8),
  (0x7F36, 0x4E6F),
  (0x7F38, 0x539F_70D2_55CD),
  (0x7F3D, 0x587F_7844_7845),
  (0x7F43, 0x856B_6495_87CD),
  (0x7F48, 0x65A5),
  (0x7F4A, 0x8BC7_8BC6_674D_8E9D),
  (0x7F4F, 0x8F93_6885_69E8),
  (0x7F54, 0x51AB_4FB7),
  (0x7F58, 0x6EEE),
  (0x7F5B, 0x71A4_719F_71A3_71A1_55CE_71A2_71A0),
  (0x7F63, 0x74B6),
  (0x7F65, 0x7846_7847_7BB1_7BB2_5CF4_5CF5_7BB0_7BB3_7BAF_5CF3),
  (0x7F70, 0x5F68),
  (0x7F72, 0x5CF6_7F45),
  (0x7F75, 0x6166_81FA_6167),
  (0x7F79, 0x62F0_856E_856C_856D_87D0_87CF_87CE),
  (0x7F83, 0x8BC8),
  (0x7F85, 0x6684_8BC9_8F94_6886_90C9_4E70_51AD_51AC_6EF0_53A0),
  (0x7F91, 0x6EEF_71A6),
  (0x7F94, 0x55CF_74B7_71A5),
  (0x7F9A, 0x5882_74BA_74B8_74B9_5881),
  (0x7FA0, 0x7849_784A_7848),
  (0x7FA4, 0x5CF9_7BB5_7BB4_7BB6_5CF8_5CF7),
  (0x7FAC, 0x81FB_81FD),
  (0x7FAF, 0x6168_81FC_856F_62F1_89E6),
  (0x7FB5, 0x89E5_6686_8BCA_6688_6687_8D7E_8E9E_679F_4E71_6EF1_53A1_71A9),
  (0x7FC1, 0x55D1_71A8_71A7),
  (0x7FC5, 0x55D0),
  (0x7FC7, 0x74C0),
  (0x7FC9, 0x74C2_74BB_74BC_5883_74BD_5884_74C1_74BE_74BF_5885),
  (0x7FD4, 0x5AC3_5AC4),
  (0x7FD7, 0x784B),
  (0x7FDB, 0x7BB7_7BB8),
  (0x7FDE, 0x7F49_5F6B_5F69_5F6A_7F46_7F47),
  (0x7FE5, 0x7F48_8245),
  (0x7FE8, 0x8246_6169_8243_8242_8244_8241_62F4_8570_62F2_62F3_87D2_6496),
  (0x7FF4, 0x87D1_8955),
  (0x7FF7, 0x89E7_89E8_65A6),
  (0x7FFB, 0x65A7_6497_8BCB_8BCC_8D7F_674E_4E72),
  (0x8003, 0x4E73_53A2_51AE_55D2_6EF2),
  (0x800B, 0x5AC5_4E74_53A4_6EF3_6EF4_53A3_53A5_4E75),
  (0x8014, 0x6EF5_55D4_71AA_55D6_55D3_55D5),
  (0x801B, 0x74C5_5886),
  (0x801E, 0x74C4_74C3),
  (0x8021, 0x7BB9),
  (0x8024, 0x7F4A),
  (0x8026, 0x616A),
  (0x8028, 0x62F5_8572_8571),
  (0x802C, 0x87D3),
  (0x8030, 0x8E9F),
  (0x8033, 0x4E76_6AF3_6CCA_53A6_6EF6),
  (0x8039, 0x71AC),
  (0x803D, 0x55D7_71AB_55D8),
  (0x8043, 0x74C7),
  (0x8046, 0x5888_74C6_74C8),
  (0x804A, 0x5887),
  (0x804F, 0x784D_784E_784C_5AC6),
  (0x8056, 0x5CFA),
  (0x8058, 0x5CFB),
  (0x805A, 0x5F6D),
  (0x805C, 0x7F4C_7F4B_5F6C),
  (0x8064, 0x8247),
  (0x8067, 0x8248),
  (0x806C, 0x8573),
  (0x806F, 0x649B_649A_6498_6499_649C),
  (0x8075, 0x89E9_65A9_65A8_8BCD_8D81),
  (0x807D, 0x67EE_67ED_4E77),
  (0x8082, 0x709F),
  (0x8084, 0x5CFD_5AC7_5CFC_5F6E),
  (0x8089, 0x4E78_6989_4E79_4E7A),
  (0x808F, 0x6CCB_6AF6),
  (0x8092, 0x6AF7_4FB9),
  (0x8095, 0x6AF4_4FB8),
  (0x8098, 0x4FBB_6AF5_4FBD_4FBC_6AF8_4FBA),
  (0x80A1, 0x51B3_51B1_6CCD),
  (0x80A5, 0x51B0),
  (0x80A9, 0x51B5_51B7_51B4),
  (0x80AD, 0x6CD0_6CCC_51B8),
  (0x80B1, 0x51B2_4FBE),
  (0x80B4, 0x51B6_6CCF),
  (0x80B8, 0x6CCE),
  (0x80BA, 0x51AF),
  (0x80C2, 0x6EFC_53AA_53AB_6F41),
  (0x80C7, 0x6EF8_6EFB_6F47_6F45),
  (0x80CC, 0x53AC_6F4B_53AF_6F48_6EFD_6EFA),
  (0x80D4, 0x7850_6F46_53A7_6F49_6EF7_6F43_53A9_53AE_6F44_53B2_53B0),
  (0x80E0, 0x6EF9_53AD),
  (0x80E3, 0x6F42_53B1_53A8_6F4A),
  (0x80ED, 0x55DD),
  (0x80EF, 0x55E6_55DB_55D9_71AE_55E1_55DE_71B0),
  (0x80F8, 0x55E0_71AF_71AD_71B2_55E5_55E3_784F),
  (0x8100, 0x71B3_71B1_55DA),
  (0x8105, 0x55DC_55DF),
  (0x8108, 0x55E2),
  (0x810A, 0x55E4),
  (0x8115, 0x74D2_588A),
  (0x8118, 0x74C9_74CB),
  (0x811B, 0x74CC),
  (0x811D, 0x74D4_74D0_74CE),
  (0x8121, 0x74D1_74D5_588B_588F_74CA),
  (0x8127, 0x74D3),
  (0x8129, 0x588D),
  (0x812B, 0x588C_74CF_74CD),
  (0x812F, 0x5889_588E),
  (0x8139, 0x5ACD_7858),
  (0x813D, 0x7856_5ACF),
  (0x8143, 0x7851_7BC7),
  (0x8146, 0x5ACE_7855),
  (0x814A, 0x7852_5ACA_5AD0_7857_5ACC_7854_5F6F_5ACB_7853_5AD1_5AC9_5AC8),
  (0x815B, 0x7BBF_7BBD),
  (0x815E, 0x7BC3),
  (0x8160, 0x7BBB_7BC8_7BC0),
  (0x8164, 0x7BBA_5D44_5D4A_7BC5),
  (0x8169, 0x7BBE),
  (0x816B, 0x5D47),
  (0x816E, 0x5D45_7BC6_5D42_5D41_7BC1_5D46_5AD2),
  (0x8176, 0x7BC4_7BBC_5D43_5D48_5D49),
  (0x817F, 0x5F74_5F70),
  (0x8182, 0x5F75_7F4F),
  (0x8186, 0x7F4E_7F50_5F72_7F4D_5F73_7F53_7F52_7F51),
  (0x818F, 0x5F71),
  (0x8195, 0x824C),
  (0x8197, 0x824F_6170_824E_616F_616B_616C_616D_824B_824A_616E),
  (0x81A2, 0x824D_8249),
  (0x81A6, 0x8575_857F_62F8_62F7),
  (0x81AB, 0x8579_857B),
  (0x81AE, 0x8576),
  (0x81B0, 0x857A_8574_857D_62F6_857C_8578),
  (0x81B7, 0x857E),
  (0x81B9, 0x8577_649F_87D4_87DA_64A3_64A5_64A2_64A1),
  (0x81C2, 0x64A0_649E_87D5_87D8_649D_87D9),
  (0x81C9, 0x64A4_87D7),
  (0x81CC, 0x87D6_65AA),
  (0x81CF, 0x65AB_89EC_89EA_89EB),
  (0x81D5, 0x8BCF),
  (0x81D7, 0x8BCE_6689_8D83_674F_8D82),
  (0x81DD, 0x8EA0_8F95_67EF_9154_9155_6864_4E7B),
  (0x81E5, 0x51B9_7859_5F76_64A6_87DB_4E7C),
  (0x81EC, 0x55E8_55E7_785A),
  (0x81F2, 0x8581_4E7D_53B3),
  (0x81F7, 0x785B_785C_785D_5F77_62F9_4E7E),
  (0x81FE, 0x51BA_6F4C_55E9_71B4_5890),
  (0x8204, 0x785E_5D4B),
  (0x8207, 0x5F78_62FA_64A7_65AC_8D84_4E7F_51BB),
  (0x8210, 0x55EA_74D6_5AD3),
  (0x8214, 0x5F79_7F54_8250),
  (0x821B, 0x4E81_5AD4_7BC9_5F7A_4E82_6CD1_6F4D_53B4),
  (0x8225, 0x71B6),
  (0x8228, 0x55ED),
  (0x822A, 0x55EB_55EC_55EE),
  (0x822F, 0x71B5),
  (0x8232, 0x74DB_74D8_74DA_5891_5893_5892_74D7_5894_74D9),
  (0x823C, 0x785F_7860),
  (0x823F, 0x7861_7BCC),
  (0x8242, 0x7BCD),
  (0x8244, 0x7BCB_7BCE),
  (0x8247, 0x5D4C),
  (0x8249, 0x7BCA),
  (0x824B, 0x5F7B),
  (0x824E, 0x8255_8251_8254_8256_8253_8252),
  (0x8255, 0x8582_8583_8584_62FB_62FC_87DD_87DC_87DE),
  (0x825E, 0x89EE_89ED),
  (0x8261, 0x8BD1),
  (0x8263, 0x8BD2_8BD0),
  (0x8266, 0x6750),
  (0x8268, 0x8D85_8D86),
  (0x826B, 0x8F96_9060_90CA_4E83_4FBF),
  (0x8271, 0x64A8_4E84),
  (0x8274, 0x74DC_7862),
  (0x8277, 0x688D_69E9),
  (0x827C, 0x69EA_69EC_4E85_69ED_69EB),
  (0x8283, 0x6B43_6B44_6AFB),
  (0x828A, 0x6B42_4FC1),
  (0x828D, 0x4FC2_6AFC_6AFA_6AF9_6AFD_4FC0_6B41_6F4E),
  (0x8298, 0x6CD6_51BE_6CD5_6CD7),
  (0x829D, 0x51BD_6CDC_51C1_6CD2_6CE0_6CE6_51C8_6CE3_51C5),
  (0x82A7, 0x6CD9_6CDF_6CE1),
  (0x82AB, 0x6CD4_51C4_51BF_6CDA_51C6_51C9_51C3),
  (0x82B3, 0x51BC_6CDE_6CD8_6CE5_51CB_51C7_51C2_6CDD_55EF_6CDB_51C0_51CA),
  (0x82C0, 0x6CD3),
  (0x82C2, 0x6CE2_6CE4),
  (0x82D1, 0x53C5_53BF_53C7_53C4_6F55_6F58_53C0),
  (0x82D9, 0x6F4F),
  (0x82DB, 0x53B9_53C3),
  (0x82DE, 0x53C6_53C8_6F64_6F5B),
  (0x82E3, 0x53B8_6F63_53BC_53BA_53B5_6F53),
  (0x82EA, 0x6F62_6F57_6F5A_6F67),
  (0x82EF, 0x53C9_6F61_53C1_6F5C_6F66_6F59_6F5D_6F60),
  (0x82F9, 0x6F51_6F65_6F5F),
  (0x82FE, 0x6F50),
  (0x8300, 0x6F54_53C2_53BD_53B6_53BB_53B7_53CA_6F52_71C7_53BE),
  (0x830C, 0x6F5E_6D63),
  (0x8316, 0x71CA_55FD),
  (0x8319, 0x71BA),
  (0x831B, 0x71C5_71C1),
  (0x831E, 0x71D4),
  (0x8320, 0x71CC),
  (0x8322, 0x71C2),
  (0x8324, 0x71CB_71BC_71C0_71D7_5643_71CF_71C6_55F0_71D5_71B8),
  (0x832F, 0x71CE),
  (0x8331, 0x5642_55FA_71B7_55F8_55F7_55FC_71CD_55F4_55FB_6F56_7863_71C8),
  (0x833F, 0x71BE_5641_71BF_71C3_5644_71B9_71D1),
  (0x8347, 0x71D0_71D8_55F6_55F3_71D6_71D2_71C9_71C4_55F9_55F5_71BB_55F1),
  (0x8353, 0x71D3_55F2),
  (0x8356, 0x71BD),
  (0x8373, 0x74E2_74E4_74E9_74FD_58A2_5898),
  (0x837A, 0x74E1_58A3_58A4_74EC_74F3_74F9),
  (0x8381, 0x74E6),
  (0x8383, 0x74ED),
  (0x8386, 0x58A5_74FB_74F6_58A0_589E_74F2_74EE_74E0_5895_74E5_74DD),
  (0x8392, 0x589D_589F_74EA_74E7_589A_74F7_5897_74E8_7541_74F0),
  (0x839D, 0x74EF_5896),
  (0x83A0, 0x58A1),
  (0x83A2, 0x5899_74DE_74E3_74F4_74FA_58A6_74DF_74EB_74F1_589C),
  (0x83AE, 0x74FC_74F5_74F8),
  (0x83BD, 0x589B),
  (0x83BF, 0x7873_7867_5ADC_7885_788D_7890_5ADA_786F_7889_7870_787E_5AE7),
  (0x83CB, 0x787A_5AE4),
  (0x83CE, 0x787B_7864),
  (0x83D1, 0x788A),
  (0x83D4, 0x5AED_7887_787C_7892_7877_7BEE),
  (0x83DB, 0x7895_5AEB_7875_7882_5AEE_5AD9_7879_7893_7872_786B_7876),
  (0x83E7, 0x786A_7868_5AD5_788B_7871_788E),
  (0x83EE, 0x788F_5ADD_5AE2_5ADE_5AE6_7886_5ADF_787D_786D),
  (0x83F8, 0x5AD7_7865_7888_7891_786C_5AE5_7896_7878),
  (0x8401, 0x7874),
  (0x8403, 0x5AD6_5AEA),
  (0x8406, 0x7884_5AEC),
  (0x8409, 0x787F_5AE1_5ADB_5AE3_5AD8_5AE9_7881_786E_7883_7869_788C),
  (0x841B, 0x7894),
  (0x8423, 0x7866),
  (0x8429, 0x7BED),
  (0x842B, 0x7C46_5CDB_7BF2),
  (0x842F, 0x7BF0_7BDB_5D50_7BEB_7C42_7BE7_5D58_7C41_7BE5_5AE8_7BF5_7BE6),
  (0x843B, 0x7BFC_5D57_5D4F),
  (0x843F, 0x7BD0_7BD8),
  (0x8442, 0x7BF1_7BE9_7C45_7BEC_5D5D_7BFD),
  (0x8449, 0x5D54),
  (0x844B, 0x7BEF_7BF7_7BDC_7BF6),
  (0x8450, 0x7C4A_7BD7_7BF8),
  (0x8454, 0x7C48),
  (0x8456, 0x7BD1_5AE0),
  (0x8459, 0x7BDF_7BDE_5D56),
  (0x845D, 0x7BE2_7BE4_7BF3_7C47_5D59),
  (0x8463, 0x5D5A),
  (0x8465, 0x7BD6_5D52_7BDA_7C43_5D5B),
  (0x846B, 0x5D53_5D55_5D5C_7C49_7BF9_7BF4),
  (0x8473, 0x7BE1_7BE0_5D51_7BD2_5D4E_7BEA_7BD3_7BE8),
  (0x847D, 0x7BDD_7C44),
  (0x8482, 0x5D4D),
  (0x8486, 0x7BD9),
  (0x848D, 0x7BD5_7BFB_7BD4_5F89_7F7C),
  (0x8494, 0x7F6B),
  (0x8497, 0x7F55_7F73_5F81_7F64_7F6E_5F84_7F67_5F82_7F58_7F76_7F57_7F6A),
  (0x84A4, 0x7F56),
  (0x84A7, 0x7F68_7F71_7F6F_7F63_7F5E_7F5C),
  (0x84AE, 0x7F5D_7F70_7F7B_7F65_5F83),
  (0x84B4, 0x7F60),
  (0x84B6, 0x7F74),
  (0x84B8, 0x5F86_7F5F_7F59_7F69_5F8A),
  (0x84BF, 0x5F7D_5F87_7F61_7F5B),
  (0x84C4, 0x5F7F_7BFA_5F7E_7F6C),
  (0x84C9, 0x5F7C_5F8C_5F85_7F6D_7F62_7F5A_7F75_7F66_5F8B_7F79_5F88_7F78),
  (0x84D6, 0x7F72_7F77),
  (0x84DB, 0x7F7A),
  (0x84E7, 0x827E_827F_8272_8271_826D_617C),
  (0x84EE, 0x6174_8282_8281_7BCF_826A_826E_8268),
  (0x84F6, 0x827B_826C),
  (0x84F9, 0x8283_8265_8263_826F_8279_8274_617E_825A),
  (0x8502, 0x8278),
  (0x8506, 0x617F_7BE3_8266_825D_8260_8287_8267_825E_825C_8259),
  (0x8511, 0x6178_8270_6177_617B_826B_8273_6171_8284_8288_6173),
  (0x851C, 0x8262_8276_827A_825F_8285_617A),
  (0x8523, 0x6179_8257_617D_827D_8261_8275_825B_8269_8264_6175_6176_8277),
  (0x852F, 0x8289_8286_827C),
  (0x853B, 0x8258),
  (0x853D, 0x6172_8595),
  (0x8540, 0x858C_858F),
  (0x8543, 0x6345_8591_8586_858D_8593_6342_6346_62FD),
  (0x854D, 0x8588_8598),
  (0x8551, 0x8592),
  (0x8553, 0x8589_85A1_859B_8585_87F1_858B_6341),
  (0x855B, 0x8596),
  (0x855D, 0x85A0_6349),
  (0x8560, 0x859D_858A_8590_8594_858E_85A2_859F_859C_6343_6344_6348_8587),
  (0x856C, 0x85A3_6347_8599),
  (0x8571, 0x8597),
  (0x8575, 0x859A_8841_87EB_87F0_87FD_87EF_87E7_87EC),
  (0x857E, 0x64AB),
  (0x8580, 0x87E0_87F8_87FA_87DF_64AA_87FC_87F4_64B1_87FB_87ED_64B3_87E5),
  (0x858C, 0x859E_87F5_87F2_87E1_8843_64AD),
  (0x8594, 0x64AE_87E3_87F3),
  (0x8598, 0x8842_87F6_87E9_64B0_64AC_87F7_87EA_8844_87E4_87EE_87F9_87E6),
  (0x85A4, 0x87E8),
  (0x85A6, 0x65B5_87E2_64B2_65AE_64A9),
  (0x85AF, 0x64AF_65B2_8A41),
  (0x85B3, 0x89F4_89EF_89F5_8A42_8A46_8A45_65B4_65B3),
  (0x85BD, 0x89F6_8A47_89F9_89F1),
  (0x85C2, 0x89F3_89F2_89F8_89FD_89F0_89F7_89FC_65B1),
  (0x85CB, 0x89FA),
  (0x85CD, 0x65AF_89FB_65AD_65B0_8BE2_8A43),
  (0x85D5, 0x668D),
  (0x85D7, 0x8BDA_8BDE_8BD6_8BD9),
  (0x85DC, 0x8BE1_668B_8BE6_8BDF),
  (0x85E1, 0x8BD7_8BE7_8BE0_668E_668F_8BE4),
  (0x85E8, 0x8BD8_668A_668C_8BD3_8BDB_8BD5),
  (0x85EF, 0x8BE5_8BE3_8BD4_8BDC),
  (0x85F6, 0x8D8D_6690_8BDD_6752_6754_6751),
  (0x85FD, 0x8D92_8D8A_8D88_8D8C_8D89),
  (0x8604, 0x8D8E_8D90_6755_6757),
  (0x8609, 0x8D8F_6758_6756_8D91),
  (0x8611, 0x6753),
  (0x8617, 0x67A0_8EA1_8EA7_67A2_8D8B_8EA6),
  (0x861E, 0x8EAD_8EA4_8EAB_8EAA_8D87_8EA5_8A44_8EAE_8EA3_8EA8),
  (0x8629, 0x8EAC_8EA2),
  (0x862C, 0x8F9A_67A1_8EA9),
  (0x8631, 0x9065_8F9B_8F99_8F97_8F98_8F9C),
  (0x8638, 0x6865_9063_9061_9066_9064),
  (0x863E, 0x9067_6866_9062),
  (0x8643, 0x90CB),
  (0x8646, 0x9156_9157_9158),
  (0x864B, 0x91B7_91AD_69EE_51CC),
  (0x8650, 0x53CB),
  (0x8652, 0x71DA_71D9_5645_58A7_7543),
  (0x8659, 0x7542),
  (0x865B, 0x5AEF_5D5F),
  (0x865E, 0x5D5E_5D60),
  (0x8661, 0x7F7D_828A_85A4_85A6_85A5),
  (0x8667, 0x64B4_8845_8A48_9195_4E86),
  (0x866D, 0x6CE9_6CEA_6CE8_6CE7_51CD),
  (0x8673, 0x6F6B_6F69),
  (0x8677, 0x6F68),
  (0x8679, 0x53CC_53CE_53CD_6F6A),
  (0x8685, 0x71E6_71E3_71E1),
  (0x868A, 0x5646_71E4_564B_71DE_71ED),
  (0x8690, 0x71EF_71DF),
  (0x8693, 0x5648_71F0_71EB_71DD_71E2_71EC_71E8_71E5),
  (0x869C, 0x564D_71EE_71E0),
  (0x86A1, 0x71E9_71DB_564C_5649_71E7),
  (0x86A7, 0x71EA_71DC_564A_5647),
  (0x86AF, 0x58B1_754A_58B0),
  (0x86B3, 0x754D_7550_58AD_58AB_7545_754E_754C_7549_7551_7552_7554_7555),
  (0x86BF, 0x7544_58AA_7547_7546_7553_58AC_7548_58AE_58A9_754B_58B2),
  (0x86CB, 0x58AF_754F),
  (0x86D0, 0x5AF6_78A5),
  (0x86D3, 0x789A_5AF3),
  (0x86D6, 0x7C50_78A3_7897_5AF1_789C_5AF4_78A0_789E_5AF7_5AF0),
  (0x86E2, 0x7898_789B_5AF5),
  (0x86E6, 0x7899),
  (0x86E8, 0x78A4_78A2_789D_789F_78A1_5AF2),
  (0x86F5, 0x7C51_7C57_7C4D_7C53_5D61_7C4F_5D67),
  (0x86FE, 0x5D66),
  (0x8700, 0x5D65_7C56_5D68_5D69_7C4C_7C59_5D6A_5D64_5D63_7C55_5D6B_7C4B),
  (0x870C, 0x7C4E_7C58_7C54),
  (0x8711, 0x7F9E_7F93_5D62),
  (0x8718, 0x5F93_7F87_7F9C_7F88_5F8E),
  (0x871E, 0x7F85),
  (0x8720, 0x7F8E_7F86_5F90_7F7F_7F9B_5F91_7F98_7F99_7F81_5F96_7F90),
  (0x872C, 0x7F8A_7F91_7F84),
  (0x8730, 0x7F9D_7F95_7F8F_7F7E_5F92_7F96),
  (0x8737, 0x5F95_7F9A),
  (0x873A, 0x7F94_5F8F_7F92),
  (0x873E, 0x7F8C_5F8D_7F83_7F8B_7F97_7F89),
  (0x8746, 0x7F8D),
  (0x874C, 0x618A_7C52_829C_82A5_829B_8297_8294_618B_8292_5F94_828B_6189),
  (0x8758, 0x8291_6188_8296_8293_82A3_829E_8298_829D_6184_8295_82A8_828C),
  (0x8764, 0x828D_82A4_6185_82A9_6187_82AA_829A_7F82_82A0_8299_82A2_829F),
  (0x8773, 0x8290_6182_82A7_6183_828E_6186_85B0_82A1_82A6),
  (0x8781, 0x85AD_6181_634A_85B7_85B3),
  (0x8787, 0x85B1_85AC_85BB),
  (0x878D, 0x634E),
  (0x878F, 0x85A8_85B4_85B5_85AB_85AA_85B8),
  (0x8796, 0x85AE_85A9_85AF),
  (0x879A, 0x85BA_85A7_85B9_85B6_634C_634B),
  (0x87A2, 0x634D_85B2_8A59),
  (0x87AA, 0x8847_64BA_884B_8848_884F_8855_884A),
  (0x87B2, 0x885E_64B7_8858_884D_8859_8854_885B_884C_64BC_64BB_884E_885C),
  (0x87BE, 0x8846_885A_64B5),
  (0x87C2, 0x8852_8851_8856_8849_64B9),
  (0x87C8, 0x64BD_8850_8857_64BE_8853),
  (0x87D1, 0x64B6_64B8_8A55_8A53),
  (0x87D7, 0x8A5A_8A57_8A5B),
  (0x87DB, 0x8A4C_8A54_8A5F_885D_8A50_65B9_828F_8A4B_8A58_8A52_8A4F_8A4A),
  (0x87E7, 0x8A49_8A5E),
  (0x87EA, 0x8A4E_8A4D_65B7_8A56),
  (0x87EF, 0x65B6),
  (0x87F2, 0x65B8_8A51_8A5D),
  (0x87F6, 0x8BEB_8BEC),
  (0x87F9, 0x6694_8BE9_6691_8BF1),
  (0x87FE, 0x6695_8BF3_8BE8_8A5C_8BF5_8BEA),
  (0x8805, 0x6692_8BF0),
  (0x8808, 0x8BF2_8BED_8BF4_8BEF_8BEE_6693),
  (0x8810, 0x8D94_8D95),
  (0x8813, 0x8D97_6759_675A_8D98_8D96),
  (0x8819, 0x8D93),
  (0x881B, 0x8EB1_8EB4_8EB0),
  (0x881F, 0x67A6_8EB2_67A5_67A4_67A3_8EB3_8FA1_8F9F),
  (0x8828, 0x8F9E_8EAF_8FA0_8EB5_8F9D),
  (0x882E, 0x906A_9048_9068_6867_9069_906B),
  (0x8835, 0x90CE_6887_90CD_90CC_6888),
  (0x883B, 0x68A6_917F_9197_9196_9198_4E87_6F6C),
  (0x8843, 0x71F1_71F2),
  (0x8848, 0x78A6),
  (0x884A, 0x8EB6_90CF_4E88_53CF_6F6D),
  (0x8852, 0x7556_58B3),
  (0x8855, 0x78A8_78A7_5AF8),
  (0x8859, 0x5D6C_82AB_618C),
  (0x885D, 0x618D),
  (0x8861, 0x634F_6889_4E89),
  (0x8867, 0x6F6E_51CF_6F70_6F6F_53D0),
  (0x886D, 0x71F3),
  (0x886F, 0x71FA_564E_71F8_71F6),
  (0x8874, 0x71FD_71F4_71F5_564F),
  (0x8879, 0x5653),
  (0x887C, 0x7241_5652_71FC_71F9_71F7_5650_5651_71FB),
  (0x8888, 0x58B5_7557),
  (0x888B, 0x58BA_7567_58B9_7569),
  (0x8891, 0x755D_58B7_7568),
  (0x8895, 0x7558_58B8_7564_7560_7562_755C_7563),
  (0x889E, 0x58B4_755F),
  (0x88A1, 0x755E_755A),
  (0x88A4, 0x7565),
  (0x88A7, 0x7561_7559),
  (0x88AA, 0x755B_58B6_7566),
  (0x88B1, 0x5AFB_78B3),
  (0x88B6, 0x78AF_78B1_78AC_78AB_78A9),
  (0x88BC, 0x78B0_78B2_78AE),
  (0x88C0, 0x78AD_5AF9_5AFA),
  (0x88C9, 0x78B5_5D74_7C5B_7C61_7C5C_7C5D),
  (0x88D0, 0x7C62),
  (0x88D2, 0x5D76),
  (0x88D4, 0x5D6E_5D75_7C5A_78AA_5D71_5D6F_7C60_7C5F_5D70_5D72_7C5E_5D6D),
  (0x88E1, 0x5D73),
  (0x88E7, 0x7FA0_5F9D),
  (0x88EB, 0x7FAB_7FAA),
  (0x88EE, 0x7FA5_5F9F_7FA9_7FA1_7FA2_5F97_5F99),
  (0x88F6, 0x7FA7_7F9F_5F9B_5F9A_7FA3_7FA8_7FA6_5F9C_7FA4),
  (0x8901, 0x78B4_5F98),
  (0x8905, 0x82AC_82B3_618F),
  (0x8909, 0x82B7_6193_82AF_82AD),
  (0x890E, 0x82B6),
  (0x8910, 0x618E_82B5_6190_6191_82AE_6192_82B4_82B0_82B1_82B2_5F9E),
  (0x891E, 0x85BC_85C8),
  (0x8921, 0x6354_85C3_85C5),
  (0x8925, 0x6352_85BD_85C1),
  (0x8929, 0x85C4_6350_6353_85C7_85BF_85C0_85C6_85BE_85C2_6351_8860),
  (0x8935, 0x885F_64C0_8865_64C2),
  (0x893B, 0x64BF_8861_64C3_8862),
  (0x8941, 0x8863_8866),
  (0x8944, 0x64C1),
  (0x8946, 0x8A64),
  (0x8949, 0x8A67),
  (0x894B, 0x8A61_8A63),
  (0x894F, 0x8A62_8A65_8A66_8864_8A60),
  (0x8956, 0x6698_8BF9_8BFC_8C41_8BF7_8BF8_8BFB_8BFD_6699_6697_6696_8BFA),
  (0x8962, 0x8BF6_8D99_675B),
  (0x8966, 0x8D9A),
  (0x8969, 0x8EB8_67A7_8EBA_67A8_8EB7_8EB9_67F1),
  (0x8971, 0x8FA2_67F0_906E_906D),
  (0x8976, 0x906C),
  (0x8979, 0x9159_915A_915C_915B),
  (0x897E, 0x69EF_4E8A),
  (0x8981, 0x53D1_756A_5AFC),
  (0x8985, 0x7C63_65BA),
  (0x8988, 0x8C42),
  (0x898B, 0x4FC3),
  (0x898F, 0x58BC),
  (0x8993, 0x58BB),
  (0x8995, 0x78B6_5AFD_78B8_78B7),
  (0x899B, 0x7C64_5D77_7FAC_7FAF_7FAE),
  (0x89A1, 0x7FAD_82B8_82BA_82B9),
  (0x89A6, 0x6356),
  (0x89AA, 0x6355),
  (0x89AC, 0x64C4_8867_8869_8868),
  (0x89B2, 0x65BB),
  (0x89B6, 0x8C44_8C43),
  (0x89B9, 0x8D9B_675C),
  (0x89BD, 0x67A9_8FA4_8FA3_68A7),
  (0x89D2, 0x4FC4_6F71_53D2_756D_756B),
  (0x89D9, 0x756C_78BA_78BB_7C6B_78B9),
  (0x89DF, 0x7C65_7C69_7C68_7C6A_5D78_7C67_7C66_7C6C),
  (0x89E8, 0x7FB2_7FB0),
  (0x89EB, 0x7FB1_82BD_82BB),
  (0x89F0, 0x82BC_85C9_886A_886B_65BC),
  (0x89F6, 0x8C45_8D9C_675D),
  (0x89FA, 0x8EBB_8FA5_67F2),
  (0x89FE, 0x906F_915D_4FC5),
  (0x8A02, 0x53D4_53D5_6F72),
  (0x8A07, 0x6F73_53D3),
  (0x8A0A, 0x5659),
  (0x8A0C, 0x5657),
  (0x8A0E, 0x5656_565D_5655_565E_7242_565B),
  (0x8A15, 0x5658_565C_565A_5654),
  (0x8A1B, 0x58C4),
  (0x8A1D, 0x58BE_7571_58C3),
  (0x8A22, 0x58C5_58BF),
  (0x8A25, 0x58C0),
  (0x8A27, 0x756F),
  (0x8A2A, 0x58BD),
  (0x8A2C, 0x7570_58C2),
  (0x8A30, 0x756E_58C1),
  (0x8A34, 0x5B4B),
  (0x8A36, 0x5B4D),
  (0x8A39, 0x78BE_5B4C_5B41_5B45),
  (0x8A3E, 0x5D8C_7C71_78C0_5B46),
  (0x8A44, 0x78C3_78C4_5B4A),
  (0x8A48, 0x78C6),
  (0x8A4A, 0x78C8),
  (0x8A4C, 0x78C9_78BD_78BC_78CA_5B49_78C7_78C5),
  (0x8A54, 0x5B47_5B43_5B4E_78C1_78C2_78BF),
  (0x8A5B, 0x5B48),
  (0x8A5E, 0x5B44),
  (0x8A60, 0x5B42_7C70_5D87_5D82),
  (0x8A66, 0x5D7C),
  (0x8A68, 0x5D8D_5D7D),
  (0x8A6B, 0x5D79_5D89_5D86_5D88),
  (0x8A70, 0x5D7E_5D84_5D7A_5D7B_7C78_7C75_7C6D_7C72),
  (0x8A79, 0x5D8A_7C79_5D8B_5D81),
  (0x8A7F, 0x7C6F),
  (0x8A81, 0x7C77_7C73_7C76_7C74_5D85_7C6E_5D7F),
  (0x8A8B, 0x7FB5_5FA1_5FA4),
  (0x8A8F, 0x7FB7),
  (0x8A91, 0x5FAC_7FB6_5FA6),
  (0x8A95, 0x6198_7FB8),
  (0x8A98, 0x5FAB_7FB4_5FAD),
  (0x8A9E, 0x5FA2),
  (0x8AA0, 0x5D83_5FA5),
  (0x8AA3, 0x5FA3_5FA7_5FA9_5FA0_5FAE_5FAA),
  (0x8AAA, 0x5FA8_7FB3),
  (0x8AB0, 0x619F),
  (0x8AB2, 0x619B),
  (0x8AB6, 0x61A2),
  (0x8AB8, 0x82C0_61A3_82CC_82C5_6194_82CD_82C7_619E_82C8),
  (0x8AC2, 0x619D_82CB_6197_82C9_82BF_6196_85D4_619C),
  (0x8ACB, 0x6199),
  (0x8ACD, 0x61A1),
  (0x8ACF, 0x82BE),
  (0x8AD1, 0x82C2_6195_82C1_82C3_82C4_61A0_82C6_82CA_82CE),
  (0x8ADB, 0x61A4_635C_85CF_85D5_85D2_85CA_85D6_85CB),
  (0x8AE4, 0x85D1),
  (0x8AE6, 0x6357_635D_85D7),
  (0x8AEB, 0x6359),
  (0x8AED, 0x6363_635E_85D9_85D3_635A_85CC_6364_85CD_85CE_6365_6362_619A),
  (0x8AFA, 0x6358_85DA_6366),
  (0x8AFE, 0x635F_85D8_635B_6360_6361),
  (0x8B04, 0x64CC_8870_8879_8876_8878),
  (0x8B0A, 0x64C9_8871),
  (0x8B0D, 0x8877_64C5_8873_64CD_886F_8874_887B_85D0_8875_886E_64C6_886D),
  (0x8B19, 0x64C7_887C_64C8_887A_64CB_886C),
  (0x8B20, 0x64CA),
  (0x8B22, 0x8872_8A6A_8A78_8A73_8A75_8A69_65BD),
  (0x8B2A, 0x8A68_65C0_65BF),
  (0x8B2E, 0x8A77_8A6F_8A6C_8A72),
  (0x8B33, 0x8A6B),
  (0x8B35, 0x8A6D_8A76_8A74),
  (0x8B39, 0x65BE_8A7B_8A79_8A70_8A7A_8A71),
  (0x8B40, 0x8C49_669A_8C50),
  (0x8B45, 0x8EBE_66A1_8A6E_8C47_669D_8C48_8C4D),
  (0x8B4E, 0x669F_66A0_8C46_8C4F_8C51_8C4A_8C4C_8C4E_8C4B_8C52_669C_66A2),
  (0x8B5A, 0x669E),
  (0x8B5C, 0x669B_8D9F),
  (0x8B5F, 0x6762_8D9D),
  (0x8B63, 0x8DA1),
  (0x8B65, 0x8DA2_6760_8DA3_8DA0),
  (0x8B6A, 0x8D9E_6763_675F_8DA4),
  (0x8B6F, 0x6761_675E),
  (0x8B74, 0x67AA),
  (0x8B77, 0x67AB_8EBD_8EBC_8EBF_8EC0),
  (0x8B7D, 0x67AC_8FA6_8FAB_67F3),
  (0x8B82, 0x8FA8),
  (0x8B84, 0x8FA7_8FAA_8FA9),
  (0x8B88, 0x9073),
  (0x8B8A, 0x6868_9072_9070),
  (0x8B8E, 0x9071),
  (0x8B92, 0x688B_688A_90D0_90D1_688C),
  (0x8B98, 0x915E_915F_68B3),
  (0x8B9C, 0x68B9),
  (0x8B9E, 0x9199_91B8),
  (0x8C37, 0x4FC6),
  (0x8C39, 0x7572),
  (0x8C3B, 0x7573_7C7A_7FB9_82CF_64CF),
  (0x8C41, 0x64CE_8A7C_8C53),
  (0x8C45, 0x9074_4FC7_7243_565F_58C6_7C7C_7C7B_61A5_82D0_61A6_887D_65C1),
  (0x8C54, 0x68C2_4FC8_6CEB_7244),
  (0x8C5A, 0x58C7),
  (0x8C5C, 0x7574_7575),
  (0x8C5F, 0x78CB),
  (0x8C61, 0x5B4F_5D8E),
  (0x8C64, 0x7C7E_7C7D_7C7F),
  (0x8C68, 0x7FBA_7FBB_5FAF_6367_61A7_6368),
  (0x8C6F, 0x8882_887E_8881_887F_64D0),
  (0x8C75, 0x8A7D_8C55_8C54_6B45_5661_5660_7245),
  (0x8C7D, 0x7576),
  (0x8C80, 0x78CD_78CC_5B50),
  (0x8C84, 0x7C82_7C83_7C81),
  (0x8C89, 0x5D90_5D8F),
  (0x8C8C, 0x5FB1_5FB0),
  (0x8C8F, 0x82D1_85DD_85DB_85DC_6369_8884_8883),
  (0x8C97, 0x8A81_8A7F_8A7E_8C56),
  (0x8C9C, 0x919A_4FC9_53D6),
  (0x8CA0, 0x53D7_5662_5663_7247_7246_7577),
  (0x8CA7, 0x58CD_58CB_58C8_58CC_58CA_58C9),
  (0x8CAF, 0x5B51_78D0),
  (0x8CB2, 0x5D95_5B53_5B58_78D2_5B5A_5B59_5B5C_78D1_78CE_5B56_5B52_5B54),
  (0x8CBE, 0x78CF_5B5B_5B57_5B55_5D97_5D96_5D94_5D98),
  (0x8CC7, 0x5D92_5D93),
  (0x8CCA, 0x5D91),
  (0x8CCC, 0x7C84),
  (0x8CCF, 0x7FBD),
  (0x8CD1, 0x5FB3_5FB4_5FB2),
  (0x8CD5, 0x7FBC),
  (0x8CD7, 0x7FBE),
  (0x8CD9, 0x82D4_82D6),
  (0x8CDC, 0x61B0_82D7_61A9_82D3_61A8_61B2_61AE_61AF_61AB_82D2_61AA_82D8),
  (0x8CE8, 0x82D5),
  (0x8CEA, 0x61B1),
  (0x8CEC, 0x61AC_61AD_85DF),
  (0x8CF0, 0x85E1_85E0),
  (0x8CF3, 0x85E2_636A_85DE),
  (0x8CF8, 0x64D4_8885_64D1_64D5_64D3_64D2_8A82),
  (0x8D00, 0x8A85),
  (0x8D02, 0x8A84),
  (0x8D04, 0x8A83_65C2_8C57_8C58_66A3_8C59_66A4),
  (0x8D0D, 0x6765),
  (0x8D0F, 0x6764_8EC1),
  (0x8D13, 0x67AD_8EC2_8FAC_67F4_67F5),
  (0x8D19, 0x9075),
  (0x8D1B, 0x688E),
  (0x8D64, 0x4FCA),
  (0x8D66, 0x58CF_58CE_7C85_7C86),
  (0x8D6B, 0x5FB5_85E3_61B3_85E4_8886_4FCB),
  (0x8D72, 0x6F74_53D9_53D8),
  (0x8D76, 0x7248_5664_7249_757A),
  (0x8D7B, 0x7579),
  (0x8D7D, 0x7578),
  (0x8D80, 0x78D4_5B5F),
  (0x8D84, 0x78D3_5B5E),
  (0x8D89, 0x78D5_5B5D),
  (0x8D8C, 0x7C88_7C8B_7C89_7C8A_7C8E_7C87_7C8F_7C8C_7C8D_5FB7_7FBF),
  (0x8D99, 0x5FB6),
  (0x8D9B, 0x82DC_82DA),
  (0x8D9F, 0x61B4_82D9_82DB),
  (0x8DA3, 0x61B5),
  (0x8DA5, 0x85E5),
  (0x8DA7, 0x85E6_64D6),
  (0x8DAA, 0x8C5B_8C5D_8C5A_8C5C_8DA5_8EC3),
  (0x8DB2, 0x9181_4FCC_53DA_724A_724C_724B),
  (0x8DB9, 0x757D_58D1),
  (0x8DBC, 0x757B),
  (0x8DBE, 0x58D0_757E),
  (0x8DC1, 0x757F_757C),
  (0x8DC5, 0x78E1_5B67_78D9_78DF),
  (0x8DCB, 0x5B62_5B65_78D8_5B60_78DC_7C95_5B64),
  (0x8DD3, 0x78D7),
  (0x8DD5, 0x78DD_78DA_78E0_78D6_78DE_5B63_5B66_78DB_5B61),
  (0x8DDF, 0x5D9A_7C91_5D99_7C98_7C97_5DA0),
  (0x8DE6, 0x5DA1_7C99_5D9B_7C96_5D9F_7C9B_7C92),
  (0x8DEE, 0x7C94_5D9C_7C90_7C93_7C9A_5D9D_7C9C),
  (0x8DFA, 0x5D9E),
  (0x8DFC, 0x5FB8_7FC4_7FCA_7FC2_7FCB),
  (0x8E02, 0x7FC1_7FC6_7FCC_7FC9_7FC8_7FC7),
  (0x8E09, 0x7FC0_7FC5),
  (0x8E0D, 0x7FC3),
  (0x8E0F, 0x61BA_61B7_82E5_82EA_82EC_82E9_82E2_82E4_82EE_82EB_82E6_82EF),
  (0x8E1B, 0x82E3_82ED_61B8_61BE_61BC_82DD_61BD_61B9_82DE_82E0_82DF_82E7),
  (0x8E27, 0x82E8),
  (0x8E29, 0x61BB),
  (0x8E2B, 0x61B6),
  (0x8E2E, 0x82E1),
  (0x8E30, 0x85F0_636C),
  (0x8E33, 0x85E7_636D_6370_85EC),
  (0x8E38, 0x85E9_636F),
  (0x8E3C, 0x85ED_85EE_85E8_85F1_85EA_85EF_636E),
  (0x8E44, 0x636B_85EB),
  (0x8E47, 0x888C_64D9_64D7_64DA_64D8_888B_8888_8887),
  (0x8E50, 0x888A),
  (0x8E53, 0x8889_8A93_65C8_8A8A_8A89),
  (0x8E59, 0x65C3_8A8F_8A8E_8A86_8A91_8A8B_65C7_8A88_8A90_8A87_65C4_65C6),
  (0x8E65, 0x8A8C_65C5_8A8D),
  (0x8E69, 0x8A92_8C61),
  (0x8E6C, 0x66A9_8C5E),
  (0x8E6F, 0x8C62),
  (0x8E72, 0x66A6_8C60_66AB),
  (0x8E76, 0x66A8),
  (0x8E78, 0x8C5F),
  (0x8E7A, 0x66AA_8C63_66A5),
  (0x8E81, 0x6767_6769),
  (0x8E84, 0x8DA8_6768_8DA6_66A7_8DA7_6766_67AE_67B0_8EC5_67AF_8EC4),
  (0x8E90, 0x8FB1_67F6_8FB0_67F7_8FAE_8FAD_8FB2_8FB3_9076),
  (0x8E9A, 0x8FAF),
  (0x8E9D, 0x90D5_90D2_90D3_90D4_68A8),
  (0x8EA3, 0x9162_9161_9160_9182),
  (0x8EA8, 0x91AE_919B_68BA_4FCD_5665),
  (0x8EB2, 0x5DA2),
  (0x8EBA, 0x61BF),
  (0x8EBD, 0x85F2),
  (0x8EC0, 0x65C9),
  (0x8EC2, 0x8C64),
  (0x8EC9, 0x919C_4FCE_51D0_53DC_53DB),
  (0x8ECF, 0x5668),
  (0x8ED1, 0x724D_5666_724E_5667),
  (0x8ED7, 0x7585_7581),
  (0x8EDB, 0x58D2_7584_7583_7582_58D3_7586_7587),
  (0x8EE5, 0x78E8_78E6_78EA_78EB_78F1),
  (0x8EEB, 0x78ED_78EF),
  (0x8EEE, 0x78E7_78E2),
  (0x8EF1, 0x78EE),
  (0x8EF4, 0x78F0_78E9_78EC_78E3_5B69_78E5_78E4_5B68_5B6A),
  (0x8EFE, 0x5DA5_7C9E_7CA0_7C9F_7CA4_5DA3),
  (0x8F05, 0x7CA1_7C9D_7CA2_7CA3_5DA4_5DA6_7CA5),
  (0x8F0D, 0x7FD0_7FCF),
  (0x8F10, 0x7FCD_7FCE_5FBA_5FBC_5FB9_5FBB_82F6_82F7_82F2),
  (0x8F1A, 0x82F3_61C1_61C6_61C0_61C7_61C2_82F4),
  (0x8F23, 0x82F5_82F1_61C8_61C4),
  (0x8F29, 0x61C3_61C5),
  (0x8F2C, 0x82F0),
  (0x8F2E, 0x85F4_6372),
  (0x8F32, 0x85F6_6374_85F9_85F5_85F3_85F8_6373_85F7),
  (0x8F3B, 0x6371),
  (0x8F3E, 0x64DC_64DF_888E),
  (0x8F42, 0x64DD_888D_64DB_64DE_8A94_8A95_8A96_65CA),
  (0x8F4B, 0x8A97),
  (0x8F4D, 0x65CB_66AD_8C67_8C68_8C66_8C65_8C69_66AC_8DAC_8DAA_8DAB_8DAD),
  (0x8F59, 0x8DA9_8DAE_8EC7),
  (0x8F5D, 0x8EC8_8EC6_67B1_8FB4_67F8_8FB5_9078_9077),
  (0x8F9B, 0x4FCF_5B6B),
  (0x8F9F, 0x5DA7),
  (0x8FA3, 0x5FBD),
  (0x8FA6, 0x6376),
  (0x8FA8, 0x6375),
  (0x8FAD, 0x66AE_6749_67B2_4FD0_5669_5DA8),
  (0x8FB4, 0x8C6A_48E2),
  (0x8FBF, 0x6B47),
  (0x8FC2, 0x4FD1),
  (0x8FC4, 0x4FD4_4FD3_4FD2),
  (0x8FC9, 0x6B46),
  (0x8FCB, 0x6CED),
  (0x8FCD, 0x6CEF_51D1),
  (0x8FD1, 0x51D3_6CEC_6CEE_51D2_6CF1_6CF0_6CF2),
  (0x8FE0, 0x6F78_6F76_53DF_6F75_53E4_53E1_53DE),
  (0x8FE8, 0x53E5),
  (0x8FEA, 0x53E0_53E3),
  (0x8FED, 0x53E2_6F77),
  (0x8FF0, 0x53DD),
  (0x8FF4, 0x566F_7250_7256_566C_5673),
  (0x8FFA, 0x566E_7253_7255_5671_724F_7252_566D_566A_7251_5670_7254_5672),
  (0x9006, 0x566B),
  (0x900B, 0x7589_758C_58D5),
  (0x900F, 0x58DF_58DB_758A),
  (0x9014, 0x58E3_58DC_58E1_58D7),
  (0x9019, 0x58D4_58D6_58E2_758B_58DA_58DD_58D9_58DE_758D_58E0_58D8_7588),
  (0x902D, 0x78F2_5B6C_78F4),
  (0x9031, 0x5B6E_5B70),
  (0x9034, 0x78F3_5B6D_5B71),
  (0x9038, 0x5B6F),
  (0x903C, 0x5DAE_7CAA_5DB6_7CA7),
  (0x9041, 0x5DB7_5DAC),
  (0x9044, 0x7CA8),
  (0x9047, 0x5DB1),
  (0x9049, 0x7CA9_5DAA_5DA9),
  (0x904D, 0x5DB4_5DB3_5DB2_5DB0_5DB5_7CA6_5DAB_5DAD_5DAF),
  (0x9058, 0x5FBF_5FC2),
  (0x905B, 0x5FC6_5FC0_5FC5_5FC3),
  (0x9060, 0x5FBE),
  (0x9062, 0x5FC4_5FC1),
  (0x9067, 0x82FB_61CB_61C9),
  (0x906B, 0x82FC),
  (0x906D, 0x61CC_61CA_82FA_82F9),
  (0x9072, 0x637A_82F8_6378_6377_85FA_61CD_6379_85FB_637C_85FC_637B_64E1),
  (0x907E, 0x8890_64E0_64E5_64E3_64E4_65CD_64E2_888F_85FD_65CC_65CE),
  (0x908A, 0x66AF_66B0),
  (0x908D, 0x8DAF),
  (0x908F, 0x686A_6869_4FD6),
  (0x9094, 0x69F4_5674),
  (0x9097, 0x69F1_69F2_69F0),
  (0x909B, 0x69F3),
  (0x909E, 0x6B4B_6B48_6B4D_6B49_4FD7_4FDA),
  (0x90A5, 0x6B4A_4FD9_6B4C),
  (0x90AA, 0x4FD8),
  (0x90AF, 0x6CF5_6CF7_51D6_6CF3_6CF6_6CF4_51D4_51D7),
  (0x90B8, 0x51D5),
  (0x90BD, 0x6F7A_6F7E_6F7B),
  (0x90C1, 0x53E8),
  (0x90C3, 0x53E9),
  (0x90C5, 0x6F7D),
  (0x90C7, 0x6F7F_6F82),
  (0x90CA, 0x53E6_6F81),
  (0x90CE, 0x53E7),
  (0x90D4, 0x7594_6F7C_7257_7260_725E_7259_725A_725F_7261_5676),
  (0x90DF, 0x725C_7258_5675_5677_725B_7262_725D),
  (0x90E8, 0x58E4_7597_758F_7595_7596_58E5),
  (0x90EF, 0x758E_7590_6F79_7592_7593_7591_5B73),
  (0x90F9, 0x78FB_8641_78FC_78F9_58E6_5B75_78F8_7941_78FD_5B72_7944_78F7),
  (0x9105, 0x7943_78F5_7942_78FA_5B74),
  (0x910B, 0x7CB1),
  (0x910D, 0x7CAC_7CB2_7CAD_7CAB_7CAE_5DB8),
  (0x9114, 0x7CB0),
  (0x9116, 0x7CAF_5DB9_5FC8_5FC7_7FD7_7FDA_7FD2_7FD6_5FC9_7FD5_7FD3_7FD9),
  (0x9122, 0x7FD4_7FD1_7FD8),
  (0x9126, 0x8345_61D0_8A98_8342_8343_8341_78F6_61CF_8346_82FD_61CE_61D1),
  (0x9132, 0x8344_8642_637D_8643_8644),
  (0x9138, 0x8891_64E6_8A99_8A9A),
  (0x913E, 0x8A9B_8C6C_8C6B_8DB1),
  (0x9143, 0x8DB0_8ECA_8ECB_8EC9_8FB6_67F9_4FDB_53EB_53EA_567A_5679_7264),
  (0x914F, 0x7265_7263),
  (0x9152, 0x5678_759B),
  (0x9155, 0x759C_7598_58E7_7599),
  (0x915A, 0x759A),
  (0x915F, 0x7947_7949_7945_7948_5B76_7946_5B77),
  (0x9168, 0x79F9_5DBC_5DBB),
  (0x916C, 0x5DBA),
  (0x916E, 0x7CB3_7CB4),
  (0x9172, 0x7FDC_7FDE_5FCD_5FCA),
  (0x9177, 0x5FCC_5FCB_7FDD_7FDB),
  (0x9180, 0x834D_834A_834B_61D5_834C_8347_8348_61D2),
  (0x9189, 0x61D3_8349_61D4),
  (0x918D, 0x8648),
  (0x918F, 0x8649_8646_8647_637E_8645),
  (0x9199, 0x8895_8892_8894_64E9_8898_64E8_8896_8899_8897_8893_64E7),
  (0x91A5, 0x8A9D),
  (0x91A7, 0x8A9E_8A9C),
  (0x91AA, 0x8AA0_65CF_65D0_8C6E_66B2_8A9F_8C6D_66B1_8DB4_8DB5_676A_8DB3),
  (0x91B7, 0x8DB2),
  (0x91B9, 0x8ECC_67B3),
  (0x91BC, 0x9079_90D7_90D6),
  (0x91C0, 0x688F_68A9_90D8_9183),
  (0x91C5, 0x68BB_4FDC_51D8),
  (0x91C9, 0x5DBD),
  (0x91CB, 0x676B_4FDD_53EC_58E8_5B78_65D1_51D9),
  (0x91D3, 0x6F84_6F83_7266),
  (0x91D7, 0x567D_567B_567F_7268),
  (0x91DC, 0x567E_567C),
  (0x91E2, 0x7267_58EB_75A2),
  (0x91E6, 0x58EA_58EC_75A7_58EE_75A4_75A5_759D_58ED_75A8),
  (0x91F1, 0x759F),
  (0x91F3, 0x75A0_759E_58E9),
  (0x91F7, 0x75A6_75A1_75A3),
  (0x91FD, 0x7955),
  (0x91FF, 0x7954_7952_794A_7959_794D_7957_795E_7956_5B81),
  (0x9209, 0x5B7C_794B),
  (0x920C, 0x7951_5B7E),
  (0x920F, 0x7950_5B7F_5B82_7953),
  (0x9214, 0x5B79_5B7A_795F_795D),
  (0x9219, 0x795C_794E),
  (0x921C, 0x795A),
  (0x921E, 0x5B7D),
  (0x9223, 0x5B7B_795B_794C_794F_7958),
  (0x922D, 0x8044_7CBE),
  (0x9230, 0x7CB7_7CCA_7CD3_7CBA_5DC8),
  (0x9236, 0x7CC7_5DBE_5DC0_5DCC_7CB8),
  (0x923D, 0x5DC1_5DC3_5DCD_5DC2),
  (0x9245, 0x5DCB_7CC0),
  (0x9248, 0x7CB5_5DC9_7CBF_5DC5_7CD1_5DCA_7CCF_7CC3_7CCD_5DC7_7CB6_7CD0),
  (0x9254, 0x7CCB),
  (0x9256, 0x7CD2_5DBF),
  (0x925A, 0x5DCE_5DC4),
  (0x925E, 0x7CBC),
  (0x9260, 0x7CC4_7CC8),
  (0x9263, 0x7CCC_5DC6_7CBB_7CB9_7CC5),
  (0x926C, 0x7CC2_7CC1),
  (0x926F, 0x7CC6_7CC9),
  (0x9272, 0x7CCE),
  (0x9276, 0x7FE1),
  (0x9278, 0x5FCE_7FEB_7FE3_5FD3_5FD7_7FF4_7FFC_7FED_5FCF),
  (0x9282, 0x7FF1_7CBD),
  (0x9285, 0x5FD0_7FF8_7FFD_7FF5),
  (0x928A, 0x7FF7_8043_7FF9_7FE7_7FF0),
  (0x9291, 0x5FD8),
  (0x9293, 0x5FD4_7FE5_7FF2_5FD2_7FEC_5FD1_7FFA_7FE9_7FE2_5FD5_8042),
  (0x92A0, 0x7FE4_7FF6_7FF3_7FEE_7FE0_7FDF_7FE8_7FFB_5FD6_8041_7FE6_7FEA),
  (0x92AC, 0x61DA),
  (0x92B2, 0x61E2_61DD_836E_836B_8353_61D8),
  (0x92BB, 0x61D7_61DE),
  (0x92C0, 0x8351_61DC_835D_834F_8350_61D6_836D_61E0_8360_8365_835F_865B),
  (0x92CC, 0x835B_8363_8361_8354_834E_8369_61DF_836A),
  (0x92D5, 0x8364),
  (0x92D7, 0x8359_8357_8352),
  (0x92DD, 0x835A_8367_8356_8366_836C),
  (0x92E4, 0x61DB),
  (0x92E6, 0x8362_8368_835E_8358_61D9),
  (0x92EE, 0x7FEF_835C_61E1_8355),
  (0x92F7, 0x8661_6382_8660_865D_8670_6386),
  (0x92FE, 0x866D_8665_866F_8656_8663),
  (0x9304, 0x6388),
  (0x9306, 0x864E),
  (0x9308, 0x864C_866E),
  (0x930B, 0x866C_866B_865A_8659_864F_638A),
  (0x9312, 0x8655_865F_866A_638D_8671),
  (0x9318, 0x64F1_638F_6389_8653),
  (0x931D, 0x865C_864B_864D_637F_638C_6385_8654_8664_865E_638B_864A_64EC),
  (0x9329, 0x8666_8669_6387),
  (0x932D, 0x8658_638E_6384),
  (0x9333, 0x6383_8662_8668_6381),
  (0x9338, 0x8651_8667),
  (0x933C, 0x8652),
  (0x9346, 0x8657_889F),
  (0x9349, 0x88A4_64EE_64F0_88AA_64EA_88B9_88B0_88A5_88A6_88AF),
  (0x9354, 0x64F7_88AE_889E_88AD_88A1_88BA_64F6_64F4_88A2),
  (0x935E, 0x88B5),
  (0x9360, 0x88A7_88B4),
  (0x9363, 0x88B6_889D_64EF),
  (0x9367, 0x88B7),
  (0x936A, 0x88AB),
  (0x936C, 0x64F3_88A8),
  (0x9370, 0x64F5_88B1),
  (0x9375, 0x64ED_88A3_88B2),
  (0x9379, 0x88AC_8650_88B3_88A0),
  (0x937E, 0x64F2),
  (0x9380, 0x88B8),
  (0x9382, 0x64EB_889B),
  (0x9388, 0x8AAE_8AA7_65D3),
  (0x938C, 0x8AA2_8AB1_8AA9_88A9),
  (0x9391, 0x8AB3_8AA3),
  (0x9394, 0x65D2_8AAD_65D4_65DC_65DA_8AAF_65DB_8AA5),
  (0x939D, 0x8AA6_8AAB_8AB0),
  (0x93A1, 0x889A_65D5_8AB8_8AB5_8AB9_8AAC_8AA8_8AB6_8C79_8AAA),
  (0x93AC, 0x65D8),
  (0x93AE, 0x65D7_889C_65D9_8AB2_8AB4_65D6_8AB7_8AA1),
  (0x93B7, 0x8AA4),
  (0x93C0, 0x8C83),
  (0x93C2, 0x8C72_66B6_8C81),
  (0x93C7, 0x8C70_66B7),
  (0x93CA, 0x8C7B),
  (0x93CC, 0x8C77_66BC_8C82_8C71_8C74_66B4_8C84),
  (0x93D4, 0x8C7C_8C7F_66BA_66BF_66BD_8C78_8C73),
  (0x93DC, 0x66B8_66B9_8C6F_66B5),
  (0x93E1, 0x66B3_66BB_8C7E_66BE),
  (0x93E6, 0x8C7A_8C85_66C0),
  (0x93EC, 0x8C76),
  (0x93EE, 0x8C7D),
  (0x93F5, 0x8DC2_8DD0_8DC4_8DCB_8C75_8DC9_8DB8_8DCE_676E_8DBC_8DCD_8DC3),
  (0x9403, 0x676D),
  (0x9406, 0x8DD2_8DC5),
  (0x9409, 0x8DCA_8DCC_8DB6_8DCF_8DC1_8DC6_8DBA_8DBE_8DD1_8DC8_8DB7_8DBB),
  (0x9415, 0x8DBD_8DC7),
  (0x9418, 0x676C_8DC0),
  (0x9420, 0x8DB9),
  (0x9428, 0x8DBF_8ED0_8ED5_67BA_8ED7),
  (0x942E, 0x67B4),
  (0x9430, 0x8ED3_8ED9_67B9_67B5),
  (0x9435, 0x67B6_8ECF_8ED6_67B8_8ED4_67B7_8ECE_8ED2_8ED1),
  (0x943F, 0x8ECD_8ED8),
  (0x9444, 0x67FA_8FBD_8FC0_8FBC_8FBE_8FBF_8FB9_8FBA_8FB7),
  (0x944F, 0x8FBB_8FB8_67FB_67FC),
  (0x9455, 0x907B),
  (0x9457, 0x907D),
  (0x945D, 0x907C_907E),
  (0x9460, 0x686C),
  (0x9462, 0x907A_686B_686D),
  (0x9468, 0x90DA_90DB_6890_90D9),
  (0x946D, 0x9164_9163_9165_68AB_9166_68AA_9167_9184_9187_9186_68B4_9185),
  (0x947C, 0x68BE_68BC_68BD_68C3_91B0_91B1_91AF_91B9),
  (0x9577, 0x51DA),
  (0x957A, 0x75A9_7960_836F_8C86),
  (0x9580, 0x51DB),
  (0x9582, 0x53ED_5681),
  (0x9586, 0x75AA),
  (0x9588, 0x75AB_58EF),
  (0x958B, 0x5B85_7962_7961_5B89_5B84_7963_5B86_5B88_5B87_5B83),
  (0x9598, 0x5DCF),
  (0x959B, 0x7CD7_7CD5),
  (0x959E, 0x7CD6_7CD4),
  (0x95A1, 0x5FD9),
  (0x95A3, 0x5FDC_5FDE_5FDD),
  (0x95A8, 0x5FDA_5FDB),
  (0x95AB, 0x8371_8370_61E3_8372),
  (0x95B0, 0x8373_61E4),
  (0x95B5, 0x8679_8677_88C0),
  (0x95B9, 0x8675_8676_6390_8672_867A_8674_8678_88BC),
  (0x95C3, 0x88BE),
  (0x95C5, 0x88BF_64FC_88BB_64FB_88BD_64F8_64F9_64FA_8673),
  (0x95D0, 0x65DF_8ABC_8ABA_8ABB_65DD_65E0_65DE),
  (0x95DA, 0x8C87_8C88_66C1),
  (0x95DE, 0x8DD3_8DD5_8DD4_676F_67BB_8EDC_8EDB_8EDA),
  (0x961C, 0x51DC),
  (0x961E, 0x698A),
  (0x9620, 0x69F7_4E8B_69F5_69F8_69F6),
  (0x9628, 0x6B4F),
  (0x962A, 0x4FE1),
  (0x962C, 0x4FE2_6B51_4FDF_6B50_6B4E_4FE0_4FDE),
  (0x9639, 0x6CF8_6CFB_51DF_6CFA_6CF9),
  (0x963F, 0x51DE_51DD),
  (0x9642, 0x51E1_6CFC_51E0),
  (0x964A, 0x6F89_53EF_53F0_53F1_6F8A_6F86_53EE_6F87),
  (0x9653, 0x6F88_6F85),
  (0x9658, 0x5688),
  (0x965B, 0x5685_7269_5686_5689_726A),
  (0x9661, 0x5684_5682_5683_5687),
  (0x966A, 0x58F0_75AE_58F8_75AD),
  (0x966F, 0x75B0_58F4_75AF_5B91_58F2_58F5_58F1_58F6_58F7_58F3),
  (0x967C, 0x75AC_5B8D_7965),
  (0x9680, 0x7969),
  (0x9683, 0x7968_5B92_5B8E_5B8F_7964_7966_7967_5B8A_5B8C),
  (0x968D, 0x5B90_5B8B),
  (0x9691, 0x7CDA_7CD8_7CD9_5DD1_5DD2),
  (0x9697, 0x7CDB_5DD0_5FDF),
  (0x969B, 0x5FE1_5FE0),
  (0x969E, 0x8045),
  (0x96A1, 0x8046_8375),
  (0x96A4, 0x8374),
  (0x96A7, 0x6391_6392_867B_6393),
  (0x96AC, 0x88C3),
  (0x96AE, 0x88C1),
  (0x96B0, 0x88C2_64FD),
  (0x96B3, 0x8ABD_66C2),
  (0x96B6, 0x48EB),
  (0x96B8, 0x6541_51E2),
  (0x96BB, 0x568A_726B),
  (0x96BF, 0x75B1_58F9_5B93_796A_796C_5B95_5B94_5B96_5B97_796B_5DD5_5DD6),
  (0x96CB, 0x5DD4_5FE2_5DD3_7CDC),
  (0x96D2, 0x5FE3_8376_867C_6394_6542_8ABE_8AC2_65E3_8ABF_65E4_65E2_8AC3),
  (0x96DE, 0x65E5_8AC1),
  (0x96E1, 0x8C89_65E1_66C3),
  (0x96E5, 0x90DC),
  (0x96E8, 0x51E3_58FB_58FA),
  (0x96EF, 0x5B98_796E_796D_5B99),
  (0x96F5, 0x7CE0_5DDA_5DD7_7CDF_5DD9_7CDD_5DD8),
  (0x96FD, 0x7CDE),
  (0x96FF, 0x8047_5FE4),
  (0x9702, 0x8379),
  (0x9704, 0x61E5_8377_61E6_61E7_8378_61E8),
  (0x970B, 0x867D),
  (0x970D, 0x6398_6395_639A_867F_6396_867E_6399),
  (0x9716, 0x6397),
  (0x9718, 0x88C6_88C8),
  (0x971C, 0x6543_88C7_6544_88C5_88C4),
  (0x9722, 0x8AC5_8AC4_65E6_8AC6_8C8E_66C5_8C8D_8C8A_66C4_8C8B_8C8C),
  (0x972E, 0x8DD6_8DD7_6770),
  (0x9732, 0x67BE),
  (0x9735, 0x8EDD),
  (0x9738, 0x67BC_67BD_8EDE),
  (0x973D, 0x67FD_6841_8FC1),
  (0x9742, 0x6891_90DE_6893),
  (0x9746, 0x90DD_90DF_6892_9168),
  (0x974B, 0x919D),
  (0x9752, 0x51E4),
  (0x9756, 0x5DDB),
  (0x9758, 0x8048),
  (0x975A, 0x837A_639B_639C),
  (0x975E, 0x51E5),
  (0x9760, 0x61E9_66C6_53F2),
  (0x9766, 0x639D),
  (0x9768, 0x686E_53F3_75B2),
  (0x976C, 0x796F),
  (0x976E, 0x7971),
  (0x9770, 0x7970),
  (0x9772, 0x7CE4_7CE1_5DDC),
  (0x9776, 0x5DDD_7CE2_7CE3),
  (0x977A, 0x804A_804F_5FE5_8049_804B_8052_804D_8051_804E_804C_8050_5FE6),
  (0x9788, 0x837D),
  (0x978A, 0x837B_61EB),
  (0x978D, 0x61EA_837C_61EC),
  (0x9794, 0x8683),
  (0x9797, 0x8682_639E_8681_88C9),
  (0x979C, 0x88CB_88CD_88CC),
  (0x97A0, 0x6545_88CA_8ACD_65E7_8ACB_8ACE_65E8),
  (0x97A8, 0x8AC9),
  (0x97AA, 0x8ACC_8ACA_8AC7_65E9_8AC8),
  (0x97B3, 0x8C8F),
  (0x97B6, 0x8C91_8C90),
  (0x97B9, 0x8DD8),
  (0x97BB, 0x8DD9),
  (0x97BF, 0x8EDF),
  (0x97C1, 0x6843),
  (0x97C3, 0x6842_907F_9081_6894_90E0),
  (0x97C9, 0x68B5),
  (0x97CB, 0x53F4_5B9A_8054_8053_837F_837E),
  (0x97D3, 0x6546_88CF_88CE_8AD1_8ACF_8AD2_8AD0),
  (0x97DC, 0x66C7_8C92_8C93_8C94),
  (0x97E1, 0x8EE0),
  (0x97E3, 0x8FC2),
  (0x97E5, 0x90E1),
  (0x97ED, 0x53F5),
  (0x97F0, 0x8684_88D0),
  (0x97F3, 0x53F6),
  (0x97F6, 0x5FE7),
  (0x97F8, 0x8685_65EA_8AD3_66C8),
  (0x97FD, 0x8DDA_8DDB_67BF_9082_53F7_5941_5942_75B3_5B9B_5B9C_7972_5B9D),
  (0x980A, 0x5DE1),
  (0x980C, 0x5DE3_7CE6_7CE7_7CE5_5DDE_5DDF_5DE2_5DE0),
  (0x9816, 0x8055_5FE8_5FE9),
  (0x981B, 0x8387_61EF_8382_8381),
  (0x9820, 0x8386_61ED),
  (0x9824, 0x63A5),
  (0x9826, 0x8383_8388_8385_8384),
  (0x982B, 0x61EE),
  (0x982D, 0x63A3),
  (0x982F, 0x8687_639F),
  (0x9832, 0x8688),
  (0x9835, 0x8686),
  (0x9837, 0x63A2_63A0_63A4),
  (0x983B, 0x63A1),
  (0x9841, 0x88D1),
  (0x9843, 0x88D6_88D2_88D5_6547),
  (0x9848, 0x87C0_88D4_88D3),
  (0x984C, 0x65ED_65EB_65EE_65EC_8AD4_8AD5_8AD6_65EF),
  (0x9857, 0x8C98_66CA_8C96),
  (0x985B, 0x66CB_8C95_8C97_66C9_8DDF_8DDC),
  (0x9862, 0x8DDD_8DDE_8EE1_67C1),
  (0x9867, 0x67C0),
  (0x9869, 0x8FC4_8FC3_6844),
  (0x986F, 0x686F_6895_68AC_9169_919E_919F),
  (0x98A8, 0x53F8_7973),
  (0x98AC, 0x7CE8_8056_8057_5FEA),
  (0x98B1, 0x5FEB_8389_61F0),
  (0x98B6, 0x6548),
  (0x98B8, 0x8AD7),
  (0x98BA, 0x65F0_8C9B_66CC_8C9A_8C9C_8C99_8EE4_8DE0_8DE1),
  (0x98C4, 0x6771),
  (0x98C6, 0x8EE3),
  (0x98C9, 0x8EE2),
  (0x98CB, 0x8FC5_91A0),
  (0x98DB, 0x53F9),
  (0x98DF, 0x53FA),
  (0x98E2, 0x568B_726C),
  (0x98E5, 0x75B4),
  (0x98E7, 0x5B9E),
  (0x98E9, 0x5BA1_5B9F_7974),
  (0x98ED, 0x5BA3),
  (0x98EF, 0x5BA0),
  (0x98F2, 0x5BA2),
  (0x98F4, 0x5DE5),
  (0x98F6, 0x7CE9),
  (0x98F9, 0x7CEA_838B),
  (0x98FC, 0x5DE4_5DE6_5DE7),
  (0x9900, 0x8059),
  (0x9902, 0x8058_5FEC),
  (0x9905, 0x5FED),
  (0x9907, 0x805A_838A_5FEF_61F1),
  (0x990C, 0x5FEE),
  (0x9910, 0x63A6_838C_61F3_61F2_838D_8390_838E_838F_61F4),
  (0x991A, 0x63AB_63A9),
  (0x991E, 0x63A8_868A),
  (0x9921, 0x63AA),
  (0x9924, 0x8689_88D7),
  (0x9927, 0x868B_63A7_868C_88DA_88D8_88D9_88DE_65F4_88DD_88E0_88DF_88DC),
  (0x9933, 0x88DB),
  (0x9935, 0x6549),
  (0x993A, 0x8ADA),
  (0x993C, 0x8AD9_65F3_65F1_65F2),
  (0x9941, 0x8AD8),
  (0x9943, 0x8C9F),
  (0x9945, 0x66CD),
  (0x9947, 0x8C9E_8C9D_66CE),
  (0x994B, 0x8DE6_8DE5),
  (0x994E, 0x8DE3),
  (0x9950, 0x8DE2_6773_6772_8DE7_8FC6_6845_8EE6_67C2_8EE5_8DE4),
  (0x995B, 0x8FC7_6870),
  (0x995E, 0x68AD_916A),
  (0x9961, 0x91A1),
  (0x9996, 0x53FB_75B5_88E1_53FC),
  (0x999C, 0x805C_805B_868D),
  (0x99A1, 0x88E3),
  (0x99A3, 0x88E2),
  (0x99A5, 0x65F5_8CA0_8CA1_6774),
  (0x99AB, 0x91A2_568C_5BA5_5BA4_7CEB_7CED_5DE9_7CEC_5DE8_5DEA_7CEE),
  (0x99B9, 0x805E_8060_805F),
  (0x99BD, 0x8062),
  (0x99C1, 0x5FF0_8061_805D),
  (0x99C7, 0x8063),
  (0x99C9, 0x8397),
  (0x99CB, 0x839A_839C_8392_8396_8393_61F6_61F9_61FB_8394_8395_61FA_8398),
  (0x99D7, 0x839B_8399_61FC),
  (0x99DB, 0x61F8_8391_61F5),
  (0x99DF, 0x61F7),
  (0x99E2, 0x63AD_8693_8691_8690),
  (0x99E7, 0x8696),
  (0x99E9, 0x8695_8694),
  (0x99EC, 0x868F_63AC_868E),
  (0x99F0, 0x8692_63AE),
  (0x99F4, 0x88E6),
  (0x99F6, 0x88EA_88E7_88E9_88E8_88E5_88EB_88EE_88EC_88ED_654B),
  (0x9A01, 0x654A_88E4_88EF_8ADF_8AE2_8AE4_8AE3),
  (0x9A09, 0x8ADD_8AE1_8ADC),
  (0x9A0D, 0x8ADE_65F6_8ADB),
  (0x9A11, 0x8AE0),
  (0x9A14, 0x8CAE_8CA3_66CF),
  (0x9A19, 0x66D0_8CA2_8CA7_8CAD_8CA5_8CAC),
  (0x9A20, 0x8CA9),
  (0x9A22, 0x8CA8_8CAB_8CA6_8CA4),
  (0x9A27, 0x8CAA),
  (0x9A29, 0x8DEE_8DEC_6775_8DEB_8DF1_8DEF),
  (0x9A30, 0x6776_8DEA_8DE8),
  (0x9A34, 0x8DE9_6778_8DED_6777_8DF0_8EE7_8EED),
  (0x9A3D, 0x8EE8_67C6_8EEE_67C5_8EEC_8EEB_67C4_8EEA_67C3_8EE9),
  (0x9A48, 0x8FCD_8FCF_8FCE),
  (0x9A4C, 0x8FCB_6847_8FC8_8FCC_8FD1),
  (0x9A52, 0x8FD0_8FC9_8FCA_6846_9083_6873),
  (0x9A59, 0x9084_6871_6872),
  (0x9A5E, 0x90E2_6896_9188),
  (0x9A62, 0x68B6),
  (0x9A64, 0x91A3_68B7_91A4_91A5_91B3_91B2_68C6_91BD),
  (0x9AA8, 0x568D),
  (0x9AAB, 0x7CF0),
  (0x9AAD, 0x7CEF),
  (0x9AAF, 0x5FF1_5FF2_8064),
  (0x9AB3, 0x839D_8699),
  (0x9AB7, 0x61FD_63AF_8697),
  (0x9ABB, 0x869A_63B0),
  (0x9ABE, 0x88F0_8698_8AE5_65F7_8CAF),
  (0x9AC6, 0x8DF4_8DF2),
  (0x9ACA, 0x8DF3),
  (0x9ACD, 0x8EEF),
  (0x9ACF, 0x67C7_8FD2_6876_6848_6874_6875_90E3_68AE),
  (0x9AD8, 0x568E),
  (0x9ADC, 0x8AE6),
  (0x9ADF, 0x726D),
  (0x9AE1, 0x5DEB),
  (0x9AE3, 0x8065),
  (0x9AE6, 0x5FF3_8066),
  (0x9AEB, 0x839F_839E_63B2_6241_6242),
  (0x9AF1, 0x83A2_83A1_83A0),
  (0x9AF6, 0x869B_869E),
  (0x9AF9, 0x869D_869C_63B1_88F4_88F2_88F1),
  (0x9B01, 0x88F3),
  (0x9B03, 0x65F8_8AE8_8AE9_65F9),
  (0x9B08, 0x8AE7),
  (0x9B0A, 0x8CB1_8CB0_8CB3_66D1_8CB2),
  (0x9B10, 0x8DF5_8DF7_8DF6),
  (0x9B15, 0x8EF0_8EF3_8EF1_8EF2_8FD3_6849),
  (0x9B1E, 0x9085_9086_9087),
  (0x9B22, 0x6897_68AF_91A6_568F),
  (0x9B27, 0x6243_63B3_8AEA),
  (0x9B2B, 0x8FD4),
  (0x9B2E, 0x91B4_726E),
  (0x9B31, 0x68C7_5690_869F),
  (0x9B35, 0x8AEB),
  (0x9B37, 0x8CB4),
  (0x9B3A, 0x8EF4_8FD5_5691),
  (0x9B3E, 0x8067_8068),
  (0x9B41, 0x5FF4_5FF5_83A4_6245_6244_83A3),
  (0x9B48, 0x88F5),
  (0x9B4A, 0x8AEC_8AEE_8AED_65FC_65FB_65FA),
  (0x9B51, 0x67C9_8EF5),
  (0x9B54, 0x67C8_8FD7_8FD6),
  (0x9B58, 0x6898_90E4_5943_7CF1),
  (0x9B5F, 0x806B_8069_806A),
  (0x9B64, 0x83AD),
  (0x9B66, 0x83A8_83A5_83AC),
  (0x9B6C, 0x83AE),
  (0x9B6F, 0x6247_83AB_83A7),
  (0x9B74, 0x83A6_83AA_83A9_6246),
  (0x9B7A, 0x86AA_86A5_86A3_86AC_86A4),
  (0x9B80, 0x86A0),
  (0x9B82, 0x86A6),
  (0x9B85, 0x86A1_8941_86A2_86AD),
  (0x9B90, 0x86A9_63B4_86A8_86A7),
  (0x9B95, 0x86AB),
  (0x9B9A, 0x88F6_88F9),
  (0x9B9E, 0x88F8),
  (0x9BA0, 0x8943_88FB_8942),
  (0x9BA4, 0x88FD_88FC_88FA),
  (0x9BA8, 0x88F7),
  (0x9BAA, 0x654E_654D),
  (0x9BAD, 0x654F_654C_8944),
  (0x9BB5, 0x8AF4_8AF7),
  (0x9BB8, 0x8AF5_8AF9),
  (0x9BBD, 0x8AFA),
  (0x9BBF, 0x8AF2_6644_8AF3),
  (0x9BC3, 0x8AF1_8AF8),
  (0x9BC6, 0x8AF0_8AEF_6643_6641_65FD),
  (0x9BD3, 0x8AF6_8CBD_8CC3_66D4_8CBE),
  (0x9BD9, 0x8CC1_8CC5_66D5_8CC0),
  (0x9BDE, 0x8CB8),
  (0x9BE0, 0x8CB7_8CC4_8CBB),
  (0x9BE4, 0x8CB9_8CC2_8CBA_66D3_66D2),
  (0x9BEA, 0x8CB5_8CB6_8CBF),
  (0x9BF0, 0x8CBC),
  (0x9BF7, 0x8DFA_8DFD),
  (0x9BFD, 0x6642),
  (0x9C05, 0x8DFB_8E44_8E42_8DF9_8E47),
  (0x9C0B, 0x8DF8),
  (0x9C0D, 0x677A_8E43),
  (0x9C12, 0x8DFC_6779_8E46),
  (0x9C17, 0x8E45),
  (0x9C1C, 0x8EF8_8EF7),
  (0x9C21, 0x8F41),
  (0x9C23, 0x8EFA_8EFD_67CB),
  (0x9C28, 0x8EFB_8EFC),
  (0x9C2B, 0x8EF6_8EF9_67CA),
  (0x9C31, 0x684B_8FE2_8FDD_8FE1),
  (0x9C36, 0x8FE4_8FE0),
  (0x9C39, 0x8FDC),
  (0x9C3B, 0x684D_8FDF_8FE3_684C_8FDA_8E41_8FDE),
  (0x9C44, 0x8FDB),
  (0x9C46, 0x8FD8),
  (0x9C48, 0x8FD9_684A_908B_908D_9090_908C_9091),
  (0x9C50, 0x908A),
  (0x9C52, 0x9088),
  (0x9C54, 0x6877_908E_6879_6878_9089_908F),
  (0x9C5E, 0x90E9_6899_90EA),
  (0x9C62, 0x90E8_90E5),
  (0x9C66, 0x90E7_90E6_916B),
  (0x9C6D, 0x916D_916C),
  (0x9C71, 0x918B),
  (0x9C73, 0x918A_9189_918C),
  (0x9C77, 0x68BF_68C0_91BA_91BE),
  (0x9CE5, 0x5944_7975_7CF4),
  (0x9CE9, 0x5DEC_7CF2),
  (0x9CED, 0x7CF3),
  (0x9CF1, 0x806C_806D_5FF8_5FF6_806E_5FF7_83B3),
  (0x9CF9, 0x83B6_83B0_83B7_83AF_83B1),
  (0x9CFF, 0x83B2_83B5),
  (0x9D03, 0x624A_83BA_83B9_6248_83B4_83B8_6249),
  (0x9D10, 0x86B7),
  (0x9D12, 0x63B9),
  (0x9D14, 0x86B2_63B5),
  (0x9D17, 0x86AF_86B5_86B8),
  (0x9D1B, 0x63BA),
  (0x9D1D, 0x86B4_86B1_86B9_86B0),
  (0x9D22, 0x86B6_63B6),
  (0x9D25, 0x86AE_63B7),
  (0x9D28, 0x63B8_86B3),
  (0x9D2D, 0x8956_8949_894A_894D_894B),
  (0x9D33, 0x8945),
  (0x9D36, 0x8948_8952_894C),
  (0x9D3B, 0x6550),
  (0x9D3D, 0x8954_8951_6551_8953_8946_894F_8950),
  (0x9D45, 0x894E),
  (0x9D4A, 0x8B41_8B43_8B46),
  (0x9D4F, 0x8AFD),
  (0x9D51, 0x6645_8B48_8AFC_8B49),
  (0x9D56, 0x8B45_8B47_8B4B_8B44_8B4C_8B42_8AFB_6646),
  (0x9D5F, 0x8B4A_6647_66D7),
  (0x9D67, 0x8947_8CDF_8CD6_66D9_8CD2_66DA),
  (0x9D6F, 0x8CDB_8CD5_8CCB_66D8_8CD8_8CD3_8CD4),
  (0x9D77, 0x8CC6_8CCD_8CDC),
  (0x9D7B, 0x8CD9),
  (0x9D7D, 0x8CD1),
  (0x9D7F, 0x8CDD_8CCC_8CC7_8CDA),
  (0x9D84, 0x8CC9_8CD7_8CCE_8CDE_8CCA_66D6_8CC8_8CCF_8CD0),
  (0x9D90, 0x8E4E),
  (0x9D92, 0x8E4C),
  (0x9D94, 0x8E51),
  (0x9D96, 0x8E5D_8E54_8E4D_8E49_8E56_8E4F_8E52_8E4B_8E59_8E48_8E50_8E55),
  (0x9DA2, 0x8E57_8E5A_8E4A),
  (0x9DA6, 0x8E5E_8E5F_8E58_8E5C_8E53),
  (0x9DAC, 0x8F51_8F54),
  (0x9DAF, 0x67CC),
  (0x9DB1, 0x8F53_8F58_8F56_67CD_8F4D_8F43_8F42_67CF_8F4F_8F50_8F4C_8F44),
  (0x9DBE, 0x8F49_8E5B),
  (0x9DC1, 0x8F45_67CE_8F4B),
  (0x9DC5, 0x8F4A),
  (0x9DC7, 0x8F46_8F52),
  (0x9DCA, 0x8F47_8FE9_8F55_8F57_8F4E_8F48_8FEA_8FEC_8FE6_684E),
  (0x9DD5, 0x8FF3_8FF1_684F_8FF0_8FEF_8FE8_8FE5_8FEB_8FF4_8FE7_8FED),
  (0x9DE1, 0x909A_909F_9095_9098_687A_909C),
  (0x9DE8, 0x90A3_8FEE),
  (0x9DEB, 0x9096_90A0_90A4_909B_9094_909E),
  (0x9DF2, 0x909D_90A2_90A1_8FF2_9099_9093_9097_689A_689B_9092),
  (0x9DFD, 0x90F5_90EC_90F4_90F1_90F2_90EB_90EE_90F6_90F0_90EF_90ED),
  (0x9E09, 0x90F3),
  (0x9E0B, 0x916E),
  (0x9E0D, 0x916F),
  (0x9E0F, 0x9171_9170_9173_9172_918E_918D_91A7),
  (0x9E17, 0x91A8),
  (0x9E19, 0x91B5_68C4_68C8),
  (0x9E1D, 0x91BF_68C9),
  (0x9E75, 0x5945),
  (0x9E79, 0x677B_8F59),
  (0x9E7C, 0x689C_689D),
  (0x9E7F, 0x5946_7CF5),
  (0x9E82, 0x5DED_83BB),
  (0x9E86, 0x86BB_86BC_86BA_8958_8957_6552_8B4E_8959_8B4D),
  (0x9E91, 0x8CE1_66DB_66DD_8CE0),
  (0x9E97, 0x66DC),
  (0x9E99, 0x8E60_8E62_8E61_8F5A_67D0),
  (0x9E9F, 0x687B_90F7_9174),
  (0x9EA4, 0x91C2_5947),
  (0x9EA7, 0x806F),
  (0x9EA9, 0x624B),
  (0x9EAD, 0x86BE_86BD),
  (0x9EB0, 0x895A),
  (0x9EB4, 0x66DE_677C_8FF5_91BB),
  (0x9EBB, 0x5948_5FF9),
  (0x9EBE, 0x624C),
  (0x9EC0, 0x8CE2),
  (0x9EC2, 0x90A5_5BA6),
  (0x9EC8, 0x895B),
  (0x9ECC, 0x68B0_5BA7_624D_6553_90A6_5BA8),
  (0x9ED3, 0x83BC_63BC_86BF_86C0),
  (0x9ED8, 0x63BB),
  (0x9EDA, 0x895C_6557_6555_6556_6554_8B4F_6648),
  (0x9EE4, 0x8E64_8E63_8E66_8E65_677D),
  (0x9EEB, 0x8F5B),
  (0x9EED, 0x8F5D_8F5C_67D1_8FF6),
  (0x9EF2, 0x90A7_90A8_687C_9175_918F_68C1),
  (0x9EF9, 0x7976_86C1_895D_8CE3_7CF6),
  (0x9EFF, 0x895E_8B51_8B50),
  (0x9F06, 0x90A9_689E),
  (0x9F09, 0x9176_9190),
  (0x9F0E, 0x5DEE_83BD_83BE),
  (0x9F12, 0x86C2_5DEF),
  (0x9F15, 0x6649_8B52),
  (0x9F18, 0x8F5F_67D2_8F60_8F5E_90AA),
  (0x9F1E, 0x90F8),
  (0x9F20, 0x5DF0),
  (0x9F22, 0x8961_8960_895F_8B53),
  (0x9F28, 0x8B57_8B56_8B55_8B54_664A_8CE4_8E68_677E_8E67_8F61_8FF9_8FF8),
  (0x9F34, 0x6850_8FF7_90AD_90AC_90AB),
  (0x9F3B, 0x5FFA),
  (0x9F3D, 0x86C3_6558),
  (0x9F40, 0x8CE5_8CE6_8FFA_90AE),
  (0x9F46, 0x90F9_9177_91A9_91C4_5FFB_6559_8B58_8CE7_8F62_90AF),
  (0x9F52, 0x624F),
  (0x9F54, 0x8962_8B59_8CE8_8CE9_8CEA_8E6D),
  (0x9F5B, 0x8E69_67D3_8E6C_8E6B_677F_8E6A_6782),
  (0x9F63, 0x6781_8F64_8F63_67D4_67D5),
  (0x9F6A, 0x6852_8FFB_6851),
  (0x9F6E, 0x90B2_90B3_90B1_90B0_68A0),
  (0x9F74, 0x90FA_90FB_90FC_689F_9178_917B_917A_9179),
  (0x9F7E, 0x91C3),
  (0x9F8D, 0x63BD),
  (0x9F90, 0x6651_8E6E_8F65),
  (0x9F94, 0x6853_8FFC),
  (0x9F98, 0x91C5),
  (0x9F9C, 0x63BE),
  (0x9FA0, 0x8963),
  (0x9FA2, 0x8FFD),
  (0x9FA4, 0x9191),
  (0xE000, 0xC241_C242_C243_C244_C245_C246_C247_C248_C249_C24A_C24B_C24C),
  (0xE00C, 0xC24D_C24E_C24F_C250_C251_C252_C253_C254_C255_C256_C257_C258),
  (0xE018, 0xC259_C25A_C25B_C25C_C25D_C25E_C25F_C260_C261_C262_C263_C264),
  (0xE024, 0xC265_C266_C267_C268_C269_C26A_C26B_C26C_C26D_C26E_C26F_C270),
  (0xE030, 0xC271_C272_C273_C274_C275_C276_C277_C278_C279_C27A_C27B_C27C),
  (0xE03C, 0xC27D_C27E_C27F_C281_C282_C283_C284_C285_C286_C287_C288_C289),
  (0xE048, 0xC28A_C28B_C28C_C28D_C28E_C28F_C290_C291_C292_C293_C294_C295),
  (0xE054, 0xC296_C297_C298_C299_C29A_C29B_C29C_C29D_C29E_C29F_C2A0_C2A1),
  (0xE060, 0xC2A2_C2A3_C2A4_C2A5_C2A6_C2A7_C2A8_C2A9_C2AA_C2AB_C2AC_C2AD),
  (0xE06C, 0xC2AE_C2AF_C2B0_C2B1_C2B2_C2B3_C2B4_C2B5_C2B6_C2B7_C2B8_C2B9),
  (0xE078, 0xC2BA_C2BB_C2BC_C2BD_C2BE_C2BF_C2C0_C2C1_C2C2_C2C3_C2C4_C2C5),
  (0xE084, 0xC2C6_C2C7_C2C8_C2C9_C2CA_C2CB_C2CC_C2CD_C2CE_C2CF_C2D0_C2D1),
  (0xE090, 0xC2D2_C2D3_C2D4_C2D5_C2D6_C2D7_C2D8_C2D9_C2DA_C2DB_C2DC_C2DD),
  (0xE09C, 0xC2DE_C2DF_C2E0_C2E1_C2E2_C2E3_C2E4_C2E5_C2E6_C2E7_C2E8_C2E9),
  (0xE0A8, 0xC2EA_C2EB_C2EC_C2ED_C2EE_C2EF_C2F0_C2F1_C2F2_C2F3_C2F4_C2F5),
  (0xE0B4, 0xC2F6_C2F7_C2F8_C2F9_C2FA_C2FB_C2FC_C2FD_C341_C342_C343_C344),
  (0xE0C0, 0xC345_C346_C347_C348_C349_C34A_C34B_C34C_C34D_C34E_C34F_C350),
  (0xE0CC, 0xC351_C352_C353_C354_C355_C356_C357_C358_C359_C35A_C35B_C35C),
  (0xE0D8, 0xC35D_C35E_C35F_C360_C361_C362_C363_C364_C365_C366_C367_C368),
  (0xE0E4, 0xC369_C36A_C36B_C36C_C36D_C36E_C36F_C370_C371_C372_C373_C374),
  (0xE0F0, 0xC375_C376_C377_C378_C379_C37A_C37B_C37C_C37D_C37E_C37F_C381),
  (0xE0FC, 0xC382_C383_C384_C385_C386_C387_C388_C389_C38A_C38B_C38C_C38D),
  (0xE108, 0xC38E_C38F_C390_C391_C392_C393_C394_C395_C396_C397_C398_C399),
  (0xE114, 0xC39A_C39B_C39C_C39D_C39E_C39F_C3A0_C3A1_C3A2_C3A3_C3A4_C3A5),
  (0xE120, 0xC3A6_C3A7_C3A8_C3A9_C3AA_C3AB_C3AC_C3AD_C3AE_C3AF_C3B0_C3B1),
  (0xE12C, 0xC3B2_C3B3_C3B4_C3B5_C3B6_C3B7_C3B8_C3B9_C3BA_C3BB_C3BC_C3BD),
  (0xE138, 0xC3BE_C3BF_C3C0_C3C1_C3C2_C3C3_C3C4_C3C5_C3C6_C3C7_C3C8_C3C9),
  (0xE144, 0xC3CA_C3CB_C3CC_C3CD_C3CE_C3CF_C3D0_C3D1_C3D2_C3D3_C3D4_C3D5),
  (0xE150, 0xC3D6_C3D7_C3D8_C3D9_C3DA_C3DB_C3DC_C3DD_C3DE_C3DF_C3E0_C3E1),
  (0xE15C, 0xC3E2_C3E3_C3E4_C3E5_C3E6_C3E7_C3E8_C3E9_C3EA_C3EB_C3EC_C3ED),
  (0xE168, 0xC3EE_C3EF_C3F0_C3F1_C3F2_C3F3_C3F4_C3F5_C3F6_C3F7_C3F8_C3F9),
  (0xE174, 0xC3FA_C3FB_C3FC_C3FD_C441_C442_C443_C444_C445_C446_C447_C448),
  (0xE180, 0xC449_C44A_C44B_C44C_C44D_C44E_C44F_C450_C451_C452_C453_C454),
  (0xE18C, 0xC455_C456_C457_C458_C459_C45A_C45B_C45C_C45D_C45E_C45F_C460),
  (0xE198, 0xC461_C462_C463_C464_C465_C466_C467_C468_C469_C46A_C46B_C46C),
  (0xE1A4, 0xC46D_C46E_C46F_C470_C471_C472_C473_C474_C475_C476_C477_C478),
  (0xE1B0, 0xC479_C47A_C47B_C47C_C47D_C47E_C47F_C481_C482_C483_C484_C485),
  (0xE1BC, 0xC486_C487_C488_C489_C48A_C48B_C48C_C48D_C48E_C48F_C490_C491),
  (0xE1C8, 0xC492_C493_C494_C495_C496_C497_C498_C499_C49A_C49B_C49C_C49D),
  (0xE1D4, 0xC49E_C49F_C4A0_C4A1_C4A2_C4A3_C4A4_C4A5_C4A6_C4A7_C4A8_C4A9),
  (0xE1E0, 0xC4AA_C4AB_C4AC_C4AD_C4AE_C4AF_C4B0_C4B1_C4B2_C4B3_C4B4_C4B5),
  (0xE1EC, 0xC4B6_C4B7_C4B8_C4B9_C4BA_C4BB_C4BC_C4BD_C4BE_C4BF_C4C0_C4C1),
  (0xE1F8, 0xC4C2_C4C3_C4C4_C4C5_C4C6_C4C7_C4C8_C4C9_C4CA_C4CB_C4CC_C4CD),
  (0xE204, 0xC4CE_C4CF_C4D0_C4D1_C4D2_C4D3_C4D4_C4D5_C4D6_C4D7_C4D8_C4D9),
  (0xE210, 0xC4DA_C4DB_C4DC_C4DD_C4DE_C4DF_C4E0_C4E1_C4E2_C4E3_C4E4_C4E5),
  (0xE21C, 0xC4E6_C4E7_C4E8_C4E9_C4EA_C4EB_C4EC_C4ED_C4EE_C4EF_C4F0_C4F1),
  (0xE228, 0xC4F2_C4F3_C4F4_C4F5_C4F6_C4F7_C4F8_C4F9_C4FA_C4FB_C4FC_C4FD),
  (0xE234, 0xC541_C542_C543_C544_C545_C546_C547_C548_C549_C54A_C54B_C54C),
  (0xE240, 0xC54D_C54E_C54F_C550_C551_C552_C553_C554_C555_C556_C557_C558),
  (0xE24C, 0xC559_C55A_C55B_C55C_C55D_C55E_C55F_C560_C561_C562_C563_C564),
  (0xE258, 0xC565_C566_C567_C568_C569_C56A_C56B_C56C_C56D_C56E_C56F_C570),
  (0xE264, 0xC571_C572_C573_C574_C575_C576_C577_C578_C579_C57A_C57B_C57C),
  (0xE270, 0xC57D_C57E_C57F_C581_C582_C583_C584_C585_C586_C587_C588_C589),
  (0xE27C, 0xC58A_C58B_C58C_C58D_C58E_C58F_C590_C591_C592_C593_C594_C595),
  (0xE288, 0xC596_C597_C598_C599_C59A_C59B_C59C_C59D_C59E_C59F_C5A0_C5A1),
  (0xE294, 0xC5A2_C5A3_C5A4_C5A5_C5A6_C5A7_C5A8_C5A9_C5AA_C5AB_C5AC_C5AD),
  (0xE2A0, 0xC5AE_C5AF_C5B0_C5B1_C5B2_C5B3_C5B4_C5B5_C5B6_C5B7_C5B8_C5B9),
  (0xE2AC, 0xC5BA_C5BB_C5BC_C5BD_C5BE_C5BF_C5C0_C5C1_C5C2_C5C3_C5C4_C5C5),
  (0xE2B8, 0xC5C6_C5C7_C5C8_C5C9_C5CA_C5CB_C5CC_C5CD_C5CE_C5CF_C5D0_C5D1),
  (0xE2C4, 0xC5D2_C5D3_C5D4_C5D5_C5D6_C5D7_C5D8_C5D9_C5DA_C5DB_C5DC_C5DD),
  (0xE2D0, 0xC5DE_C5DF_C5E0_C5E1_C5E2_C5E3_C5E4_C5E5_C5E6_C5E7_C5E8_C5E9),
  (0xE2DC, 0xC5EA_C5EB_C5EC_C5ED_C5EE_C5EF_C5F0_C5F1_C5F2_C5F3_C5F4_C5F5),
  (0xE2E8, 0xC5F6_C5F7_C5F8_C5F9_C5FA_C5FB_C5FC_C5FD_C641_C642_C643_C644),
  (0xE2F4, 0xC645_C646_C647_C648_C649_C64A_C64B_C64C_C64D_C64E_C64F_C650),
  (0xE300, 0xC651_C652_C653_C654_C655_C656_C657_C658_C659_C65A_C65B_C65C),
  (0xE30C, 0xC65D_C65E_C65F_C660_C661_C662_C663_C664_C665_C666_C667_C668),
  (0xE318, 0xC669_C66A_C66B_C66C_C66D_C66E_C66F_C670_C671_C672_C673_C674),
  (0xE324, 0xC675_C676_C677_C678_C679_C67A_C67B_C67C_C67D_C67E_C67F_C681),
  (0xE330, 0xC682_C683_C684_C685_C686_C687_C688_C689_C68A_C68B_C68C_C68D),
  (0xE33C, 0xC68E_C68F_C690_C691_C692_C693_C694_C695_C696_C697_C698_C699),
  (0xE348, 0xC69A_C69B_C69C_C69D_C69E_C69F_C6A0_C6A1_C6A2_C6A3_C6A4_C6A5),
  (0xE354, 0xC6A6_C6A7_C6A8_C6A9_C6AA_C6AB_C6AC_C6AD_C6AE_C6AF_C6B0_C6B1),
  (0xE360, 0xC6B2_C6B3_C6B4_C6B5_C6B6_C6B7_C6B8_C6B9_C6BA_C6BB_C6BC_C6BD),
  (0xE36C, 0xC6BE_C6BF_C6C0_C6C1_C6C2_C6C3_C6C4_C6C5_C6C6_C6C7_C6C8_C6C9),
  (0xE378, 0xC6CA_C6CB_C6CC_C6CD_C6CE_C6CF_C6D0_C6D1_C6D2_C6D3_C6D4_C6D5),
  (0xE384, 0xC6D6_C6D7_C6D8_C6D9_C6DA_C6DB_C6DC_C6DD_C6DE_C6DF_C6E0_C6E1),
  (0xE390, 0xC6E2_C6E3_C6E4_C6E5_C6E6_C6E7_C6E8_C6E9_C6EA_C6EB_C6EC_C6ED),
  (0xE39C, 0xC6EE_C6EF_C6F0_C6F1_C6F2_C6F3_C6F4_C6F5_C6F6_C6F7_C6F8_C6F9),
  (0xE3A8, 0xC6FA_C6FB_C6FC_C6FD_C741_C742_C743_C744_C745_C746_C747_C748),
  (0xE3B4, 0xC749_C74A_C74B_C74C_C74D_C74E_C74F_C750_C751_C752_C753_C754),
  (0xE3C0, 0xC755_C756_C757_C758_C759_C75A_C75B_C75C_C75D_C75E_C75F_C760),
  (0xE3CC, 0xC761_C762_C763_C764_C765_C766_C767_C768_C769_C76A_C76B_C76C),
  (0xE3D8, 0xC76D_C76E_C76F_C770_C771_C772_C773_C774_C775_C776_C777_C778),
  (0xE3E4, 0xC779_C77A_C77B_C77C_C77D_C77E_C77F_C781_C782_C783_C784_C785),
  (0xE3F0, 0xC786_C787_C788_C789_C78A_C78B_C78C_C78D_C78E_C78F_C790_C791),
  (0xE3FC, 0xC792_C793_C794_C795_C796_C797_C798_C799_C79A_C79B_C79C_C79D),
  (0xE408, 0xC79E_C79F_C7A0_C7A1_C7A2_C7A3_C7A4_C7A5_C7A6_C7A7_C7A8_C7A9),
  (0xE414, 0xC7AA_C7AB_C7AC_C7AD_C7AE_C7AF_C7B0_C7B1_C7B2_C7B3_C7B4_C7B5),
  (0xE420, 0xC7B6_C7B7_C7B8_C7B9_C7BA_C7BB_C7BC_C7BD_C7BE_C7BF_C7C0_C7C1),
  (0xE42C, 0xC7C2_C7C3_C7C4_C7C5_C7C6_C7C7_C7C8_C7C9_C7CA_C7CB_C7CC_C7CD),
  (0xE438, 0xC7CE_C7CF_C7D0_C7D1_C7D2_C7D3_C7D4_C7D5_C7D6_C7D7_C7D8_C7D9),
  (0xE444, 0xC7DA_C7DB_C7DC_C7DD_C7DE_C7DF_C7E0_C7E1_C7E2_C7E3_C7E4_C7E5),
  (0xE450, 0xC7E6_C7E7_C7E8_C7E9_C7EA_C7EB_C7EC_C7ED_C7EE_C7EF_C7F0_C7F1),
  (0xE45C, 0xC7F2_C7F3_C7F4_C7F5_C7F6_C7F7_C7F8_C7F9_C7FA_C7FB_C7FC_C7FD),
  (0xE468, 0xC841_C842_C843_C844_C845_C846_C847_C848_C849_C84A_C84B_C84C),
  (0xE474, 0xC84D_C84E_C84F_C850_C851_C852_C853_C854_C855_C856_C857_C858),
  (0xE480, 0xC859_C85A_C85B_C85C_C85D_C85E_C85F_C860_C861_C862_C863_C864),
  (0xE48C, 0xC865_C866_C867_C868_C869_C86A_C86B_C86C_C86D_C86E_C86F_C870),
  (0xE498, 0xC871_C872_C873_C874_C875_C876_C877_C878_C879_C87A_C87B_C87C),
  (0xE4A4, 0xC87D_C87E_C87F_C881_C882_C883_C884_C885_C886_C887_C888_C889),
  (0xE4B0, 0xC88A_C88B_C88C_C88D_C88E_C88F_C890_C891_C892_C893_C894_C895),
  (0xE4BC, 0xC896_C897_C898_C899_C89A_C89B_C89C_C89D_C89E_C89F_C8A0_C8A1),
  (0xE4C8, 0xC8A2_C8A3_C8A4_C8A5_C8A6_C8A7_C8A8_C8A9_C8AA_C8AB_C8AC_C8AD),
  (0xE4D4, 0xC8AE_C8AF_C8B0_C8B1_C8B2_C8B3_C8B4_C8B5_C8B6_C8B7_C8B8_C8B9),
  (0xE4E0, 0xC8BA_C8BB_C8BC_C8BD_C8BE_C8BF_C8C0_C8C1_C8C2_C8C3_C8C4_C8C5),
  (0xE4EC, 0xC8C6_C8C7_C8C8_C8C9_C8CA_C8CB_C8CC_C8CD_C8CE_C8CF_C8D0_C8D1),
  (0xE4F8, 0xC8D2_C8D3_C8D4_C8D5_C8D6_C8D7_C8D8_C8D9_C8DA_C8DB_C8DC_C8DD),
  (0xE504, 0xC8DE_C8DF_C8E0_C8E1_C8E2_C8E3_C8E4_C8E5_C8E6_C8E7_C8E8_C8E9),
  (0xE510, 0xC8EA_C8EB_C8EC_C8ED_C8EE_C8EF_C8F0_C8F1_C8F2_C8F3_C8F4_C8F5),
  (0xE51C, 0xC8F6_C8F7_C8F8_C8F9_C8FA_C8FB_C8FC_C8FD_C941_C942_C943_C944),
  (0xE528, 0xC945_C946_C947_C948_C949_C94A_C94B_C94C_C94D_C94E_C94F_C950),
  (0xE534, 0xC951_C952_C953_C954_C955_C956_C957_C958_C959_C95A_C95B_C95C),
  (0xE540, 0xC95D_C95E_C95F_C960_C961_C962_C963_C964_C965_C966_C967_C968),
  (0xE54C, 0xC969_C96A_C96B_C96C_C96D_C96E_C96F_C970_C971_C972_C973_C974),
  (0xE558, 0xC975_C976_C977_C978_C979_C97A_C97B_C97C_C97D_C97E_C97F_C981),
  (0xE564, 0xC982_C983_C984_C985_C986_C987_C988_C989_C98A_C98B_C98C_C98D),
  (0xE570, 0xC98E_C98F_C990_C991_C992_C993_C994_C995_C996_C997_C998_C999),
  (0xE57C, 0xC99A_C99B_C99C_C99D_C99E_C99F_C9A0_C9A1_C9A2_C9A3_C9A4_C9A5),
  (0xE588, 0xC9A6_C9A7_C9A8_C9A9_C9AA_C9AB_C9AC_C9AD_C9AE_C9AF_C9B0_C9B1),
  (0xE594, 0xC9B2_C9B3_C9B4_C9B5_C9B6_C9B7_C9B8_C9B9_C9BA_C9BB_C9BC_C9BD),
  (0xE5A0, 0xC9BE_C9BF_C9C0_C9C1_C9C2_C9C3_C9C4_C9C5_C9C6_C9C7_C9C8_C9C9),
  (0xE5AC, 0xC9CA_C9CB_C9CC_C9CD_C9CE_C9CF_C9D0_C9D1_C9D2_C9D3_C9D4_C9D5),
  (0xE5B8, 0xC9D6_C9D7_C9D8_C9D9_C9DA_C9DB_C9DC_C9DD_C9DE_C9DF_C9E0_C9E1),
  (0xE5C4, 0xC9E2_C9E3_C9E4_C9E5_C9E6_C9E7_C9E8_C9E9_C9EA_C9EB_C9EC_C9ED),
  (0xE5D0, 0xC9EE_C9EF_C9F0_C9F1_C9F2_C9F3_C9F4_C9F5_C9F6_C9F7_C9F8_C9F9),
  (0xE5DC, 0xC9FA_C9FB_C9FC_C9FD_CA41_CA42_CA43_CA44_CA45_CA46_CA47_CA48),
  (0xE5E8, 0xCA49_CA4A_CA4B_CA4C_CA4D_CA4E_CA4F_CA50_CA51_CA52_CA53_CA54),
  (0xE5F4, 0xCA55_CA56_CA57_CA58_CA59_CA5A_CA5B_CA5C_CA5D_CA5E_CA5F_CA60),
  (0xE600, 0xCA61_CA62_CA63_CA64_CA65_CA66_CA67_CA68_CA69_CA6A_CA6B_CA6C),
  (0xE60C, 0xCA6D_CA6E_CA6F_CA70_CA71_CA72_CA73_CA74_CA75_CA76_CA77_CA78),
  (0xE618, 0xCA79_CA7A_CA7B_CA7C_CA7D_CA7E_CA7F_CA81_CA82_CA83_CA84_CA85),
  (0xE624, 0xCA86_CA87_CA88_CA89_CA8A_CA8B_CA8C_CA8D_CA8E_CA8F_CA90_CA91),
  (0xE630, 0xCA92_CA93_CA94_CA95_CA96_CA97_CA98_CA99_CA9A_CA9B_CA9C_CA9D),
  (0xE63C, 0xCA9E_CA9F_CAA0_CAA1_CAA2_CAA3_CAA4_CAA5_CAA6_CAA7_CAA8_CAA9),
  (0xE648, 0xCAAA_CAAB_CAAC_CAAD_CAAE_CAAF_CAB0_CAB1_CAB2_CAB3_CAB4_CAB5),
  (0xE654, 0xCAB6_CAB7_CAB8_CAB9_CABA_CABB_CABC_CABD_CABE_CABF_CAC0_CAC1),
  (0xE660, 0xCAC2_CAC3_CAC4_CAC5_CAC6_CAC7_CAC8_CAC9_CACA_CACB_CACC_CACD),
  (0xE66C, 0xCACE_CACF_CAD0_CAD1_CAD2_CAD3_CAD4_CAD5_CAD6_CAD7_CAD8_CAD9),
  (0xE678, 0xCADA_CADB_CADC_CADD_CADE_CADF_CAE0_CAE1_CAE2_CAE3_CAE4_CAE5),
  (0xE684, 0xCAE6_CAE7_CAE8_CAE9_CAEA_CAEB_CAEC_CAED_CAEE_CAEF_CAF0_CAF1),
  (0xE690, 0xCAF2_CAF3_CAF4_CAF5_CAF6_CAF7_CAF8_CAF9_CAFA_CAFB_CAFC_CAFD),
  (0xE69C, 0xCB41_CB42_CB43_CB44_CB45_CB46_CB47_CB48_CB49_CB4A_CB4B_CB4C),
  (0xE6A8, 0xCB4D_CB4E_CB4F_CB50_CB51_CB52_CB53_CB54_CB55_CB56_CB57_CB58),
  (0xE6B4, 0xCB59_CB5A_CB5B_CB5C_CB5D_CB5E_CB5F_CB60_CB61_CB62_CB63_CB64),
  (0xE6C0, 0xCB65_CB66_CB67_CB68_CB69_CB6A_CB6B_CB6C_CB6D_CB6E_CB6F_CB70),
  (0xE6CC, 0xCB71_CB72_CB73_CB74_CB75_CB76_CB77_CB78_CB79_CB7A_CB7B_CB7C),
  (0xE6D8, 0xCB7D_CB7E_CB7F_CB81_CB82_CB83_CB84_CB85_CB86_CB87_CB88_CB89),
  (0xE6E4, 0xCB8A_CB8B_CB8C_CB8D_CB8E_CB8F_CB90_CB91_CB92_CB93_CB94_CB95),
  (0xE6F0, 0xCB96_CB97_CB98_CB99_CB9A_CB9B_CB9C_CB9D_CB9E_CB9F_CBA0_CBA1),
  (0xE6FC, 0xCBA2_CBA3_CBA4_CBA5_CBA6_CBA7_CBA8_CBA9_CBAA_CBAB_CBAC_CBAD),
  (0xE708, 0xCBAE_CBAF_CBB0_CBB1_CBB2_CBB3_CBB4_CBB5_CBB6_CBB7_CBB8_CBB9),
  (0xE714, 0xCBBA_CBBB_CBBC_CBBD_CBBE_CBBF_CBC0_CBC1_CBC2_CBC3_CBC4_CBC5),
  (0xE720, 0xCBC6_CBC7_CBC8_CBC9_CBCA_CBCB_CBCC_CBCD_CBCE_CBCF_CBD0_CBD1),
  (0xE72C, 0xCBD2_CBD3_CBD4_CBD5_CBD6_CBD7_CBD8_CBD9_CBDA_CBDB_CBDC_CBDD),
  (0xE738, 0xCBDE_CBDF_CBE0_CBE1_CBE2_CBE3_CBE4_CBE5_CBE6_CBE7_CBE8_CBE9),
  (0xE744, 0xCBEA_CBEB_CBEC_CBED_CBEE_CBEF_CBF0_CBF1_CBF2_CBF3_CBF4_CBF5),
  (0xE750, 0xCBF6_CBF7_CBF8_CBF9_CBFA_CBFB_CBFC_CBFD_CC41_CC42_CC43_CC44),
  (0xE75C, 0xCC45_CC46_CC47_CC48_CC49_CC4A_CC4B_CC4C_CC4D_CC4E_CC4F_CC50),
  (0xE768, 0xCC51_CC52_CC53_CC54_CC55_CC56_CC57_CC58_CC59_CC5A_CC5B_CC5C),
  (0xE774, 0xCC5D_CC5E_CC5F_CC60_CC61_CC62_CC63_CC64_CC65_CC66_CC67_CC68),
  (0xE780, 0xCC69_CC6A_CC6B_CC6C_CC6D_CC6E_CC6F_CC70_CC71_CC72_CC73_CC74),
  (0xE78C, 0xCC75_CC76_CC77_CC78_CC79_CC7A_CC7B_CC7C_CC7D_CC7E_CC7F_CC81),
  (0xE798, 0xCC82_CC83_CC84_CC85_CC86_CC87_CC88_CC89_CC8A_CC8B_CC8C_CC8D),
  (0xE7A4, 0xCC8E_CC8F_CC90_CC91_CC92_CC93_CC94_CC95_CC96_CC97_CC98_CC99),
  (0xE7B0, 0xCC9A_CC9B_CC9C_CC9D_CC9E_CC9F_CCA0_CCA1_CCA2_CCA3_CCA4_CCA5),
  (0xE7BC, 0xCCA6_CCA7_CCA8_CCA9_CCAA_CCAB_CCAC_CCAD_CCAE_CCAF_CCB0_CCB1),
  (0xE7C8, 0xCCB2_CCB3_CCB4_CCB5_CCB6_CCB7_CCB8_CCB9_CCBA_CCBB_CCBC_CCBD),
  (0xE7D4, 0xCCBE_CCBF_CCC0_CCC1_CCC2_CCC3_CCC4_CCC5_CCC6_CCC7_CCC8_CCC9),
  (0xE7E0, 0xCCCA_CCCB_CCCC_CCCD_CCCE_CCCF_CCD0_CCD1_CCD2_CCD3_CCD4_CCD5),
  (0xE7EC, 0xCCD6_CCD7_CCD8_CCD9_CCDA_CCDB_CCDC_CCDD_CCDE_CCDF_CCE0_CCE1),
  (0xE7F8, 0xCCE2_CCE3_CCE4_CCE5_CCE6_CCE7_CCE8_CCE9_CCEA_CCEB_CCEC_CCED),
  (0xE804, 0xCCEE_CCEF_CCF0_CCF1_CCF2_CCF3_CCF4_CCF5_CCF6_CCF7_CCF8_CCF9),
  (0xE810, 0xCCFA_CCFB_CCFC_CCFD_CD41_CD42_CD43_CD44_CD45_CD46_CD47_CD48),
  (0xE81C, 0xCD49_CD4A_CD4B_CD4C_CD4D_CD4E_CD4F_CD50_CD51_CD52_CD53_CD54),
  (0xE828, 0xCD55_CD56_CD57_CD58_CD59_CD5A_CD5B_CD5C_CD5D_CD5E_CD5F_CD60),
  (0xE834, 0xCD61_CD62_CD63_CD64_CD65_CD66_CD67_CD68_CD69_CD6A_CD6B_CD6C),
  (0xE840, 0xCD6D_CD6E_CD6F_CD70_CD71_CD72_CD73_CD74_CD75_CD76_CD77_CD78),
  (0xE84C, 0xCD79_CD7A_CD7B_CD7C_CD7D_CD7E_CD7F_CD81_CD82_CD83_CD84_CD85),
  (0xE858, 0xCD86_CD87_CD88_CD89_CD8A_CD8B_CD8C_CD8D_CD8E_CD8F_CD90_CD91),
  (0xE864, 0xCD92_CD93_CD94_CD95_CD96_CD97_CD98_CD99_CD9A_CD9B_CD9C_CD9D),
  (0xE870, 0xCD9E_CD9F_CDA0_CDA1_CDA2_CDA3_CDA4_CDA5_CDA6_CDA7_CDA8_CDA9),
  (0xE87C, 0xCDAA_CDAB_CDAC_CDAD_CDAE_CDAF_CDB0_CDB1_CDB2_CDB3_CDB4_CDB5),
  (0xE888, 0xCDB6_CDB7_CDB8_CDB9_CDBA_CDBB_CDBC_CDBD_CDBE_CDBF_CDC0_CDC1),
  (0xE894, 0xCDC2_CDC3_CDC4_CDC5_CDC6_CDC7_CDC8_CDC9_CDCA_CDCB_CDCC_CDCD),
  (0xE8A0, 0xCDCE_CDCF_CDD0_CDD1_CDD2_CDD3_CDD4_CDD5_CDD6_CDD7_CDD8_CDD9),
  (0xE8AC, 0xCDDA_CDDB_CDDC_CDDD_CDDE_CDDF_CDE0_CDE1_CDE2_CDE3_CDE4_CDE5),
  (0xE8B8, 0xCDE6_CDE7_CDE8_CDE9_CDEA_CDEB_CDEC_CDED_CDEE_CDEF_CDF0_CDF1),
  (0xE8C4, 0xCDF2_CDF3_CDF4_CDF5_CDF6_CDF7_CDF8_CDF9_CDFA_CDFB_CDFC_CDFD),
  (0xE8D0, 0xCE41_CE42_CE43_CE44_CE45_CE46_CE47_CE48_CE49_CE4A_CE4B_CE4C),
  (0xE8DC, 0xCE4D_CE4E_CE4F_CE50_CE51_CE52_CE53_CE54_CE55_CE56_CE57_CE58),
  (0xE8E8, 0xCE59_CE5A_CE5B_CE5C_CE5D_CE5E_CE5F_CE60_CE61_CE62_CE63_CE64),
  (0xE8F4, 0xCE65_CE66_CE67_CE68_CE69_CE6A_CE6B_CE6C_CE6D_CE6E_CE6F_CE70),
  (0xE900, 0xCE71_CE72_CE73_CE74_CE75_CE76_CE77_CE78_CE79_CE7A_CE7B_CE7C),
  (0xE90C, 0xCE7D_CE7E_CE7F_CE81_CE82_CE83_CE84_CE85_CE86_CE87_CE88_CE89),
  (0xE918, 0xCE8A_CE8B_CE8C_CE8D_CE8E_CE8F_CE90_CE91_CE92_CE93_CE94_CE95),
  (0xE924, 0xCE96_CE97_CE98_CE99_CE9A_CE9B_CE9C_CE9D_CE9E_CE9F_CEA0_CEA1),
  (0xE930, 0xCEA2_CEA3_CEA4_CEA5_CEA6_CEA7_CEA8_CEA9_CEAA_CEAB_CEAC_CEAD),
  (0xE93C, 0xCEAE_CEAF_CEB0_CEB1_CEB2_CEB3_CEB4_CEB5_CEB6_CEB7_CEB8_CEB9),
  (0xE948, 0xCEBA_CEBB_CEBC_CEBD_CEBE_CEBF_CEC0_CEC1_CEC2_CEC3_CEC4_CEC5),
  (0xE954, 0xCEC6_CEC7_CEC8_CEC9_CECA_CECB_CECC_CECD_CECE_CECF_CED0_CED1),
  (0xE960, 0xCED2_CED3_CED4_CED5_CED6_CED7_CED8_CED9_CEDA_CEDB_CEDC_CEDD),
  (0xE96C, 0xCEDE_CEDF_CEE0_CEE1_CEE2_CEE3_CEE4_CEE5_CEE6_CEE7_CEE8_CEE9),
  (0xE978, 0xCEEA_CEEB_CEEC_CEED_CEEE_CEEF_CEF0_CEF1_CEF2_CEF3_CEF4_CEF5),
  (0xE984, 0xCEF6_CEF7_CEF8_CEF9_CEFA_CEFB_CEFC_CEFD_CF41_CF42_CF43_CF44),
  (0xE990, 0xCF45_CF46_CF47_CF48_CF49_CF4A_CF4B_CF4C_CF4D_CF4E_CF4F_CF50),
  (0xE99C, 0xCF51_CF52_CF53_CF54_CF55_CF56_CF57_CF58_CF59_CF5A_CF5B_CF5C),
  (0xE9A8, 0xCF5D_CF5E_CF5F_CF60_CF61_CF62_CF63_CF64_CF65_CF66_CF67_CF68),
  (0xE9B4, 0xCF69_CF6A_CF6B_CF6C_CF6D_CF6E_CF6F_CF70_CF71_CF72_CF73_CF74),
  (0xE9C0, 0xCF75_CF76_CF77_CF78_CF79_CF7A_CF7B_CF7C_CF7D_CF7E_CF7F_CF81),
  (0xE9CC, 0xCF82_CF83_CF84_CF85_CF86_CF87_CF88_CF89_CF8A_CF8B_CF8C_CF8D),
  (0xE9D8, 0xCF8E_CF8F_CF90_CF91_CF92_CF93_CF94_CF95_CF96_CF97_CF98_CF99),
  (0xE9E4, 0xCF9A_CF9B_CF9C_CF9D_CF9E_CF9F_CFA0_CFA1_CFA2_CFA3_CFA4_CFA5),
  (0xE9F0, 0xCFA6_CFA7_CFA8_CFA9_CFAA_CFAB_CFAC_CFAD_CFAE_CFAF_CFB0_CFB1),
  (0xE9FC, 0xCFB2_CFB3_CFB4_CFB5_CFB6_CFB7_CFB8_CFB9_CFBA_CFBB_CFBC_CFBD),
  (0xEA08, 0xCFBE_CFBF_CFC0_CFC1_CFC2_CFC3_CFC4_CFC5_CFC6_CFC7_CFC8_CFC9),
  (0xEA14, 0xCFCA_CFCB_CFCC_CFCD_CFCE_CFCF_CFD0_CFD1_CFD2_CFD3_CFD4_CFD5),
  (0xEA20, 0xCFD6_CFD7_CFD8_CFD9_CFDA_CFDB_CFDC_CFDD_CFDE_CFDF_CFE0_CFE1),
  (0xEA2C, 0xCFE2_CFE3_CFE4_CFE5_CFE6_CFE7_CFE8_CFE9_CFEA_CFEB_CFEC_CFED),
  (0xEA38, 0xCFEE_CFEF_CFF0_CFF1_CFF2_CFF3_CFF4_CFF5_CFF6_CFF7_CFF8_CFF9),
  (0xEA44, 0xCFFA_CFFB_CFFC_CFFD_D041_D042_D043_D044_D045_D046_D047_D048),
  (0xEA50, 0xD049_D04A_D04B_D04C_D04D_D04E_D04F_D050_D051_D052_D053_D054),
  (0xEA5C, 0xD055_D056_D057_D058_D059_D05A_D05B_D05C_D05D_D05E_D05F_D060),
  (0xEA68, 0xD061_D062_D063_D064_D065_D066_D067_D068_D069_D06A_D06B_D06C),
  (0xEA74, 0xD06D_D06E_D06F_D070_D071_D072_D073_D074_D075_D076_D077_D078),
  (0xEA80, 0xD079_D07A_D07B_D07C_D07D_D07E_D07F_D081_D082_D083_D084_D085),
  (0xEA8C, 0xD086_D087_D088_D089_D08A_D08B_D08C_D08D_D08E_D08F_D090_D091),
  (0xEA98, 0xD092_D093_D094_D095_D096_D097_D098_D099_D09A_D09B_D09C_D09D),
  (0xEAA4, 0xD09E_D09F_D0A0_D0A1_D0A2_D0A3_D0A4_D0A5_D0A6_D0A7_D0A8_D0A9),
  (0xEAB0, 0xD0AA_D0AB_D0AC_D0AD_D0AE_D0AF_D0B0_D0B1_D0B2_D0B3_D0B4_D0B5),
  (0xEABC, 0xD0B6_D0B7_D0B8_D0B9_D0BA_D0BB_D0BC_D0BD_D0BE_D0BF_D0C0_D0C1),
  (0xEAC8, 0xD0C2_D0C3_D0C4_D0C5_D0C6_D0C7_D0C8_D0C9_D0CA_D0CB_D0CC_D0CD),
  (0xEAD4, 0xD0CE_D0CF_D0D0_D0D1_D0D2_D0D3_D0D4_D0D5_D0D6_D0D7_D0D8_D0D9),
  (0xEAE0, 0xD0DA_D0DB_D0DC_D0DD_D0DE_D0DF_D0E0_D0E1_D0E2_D0E3_D0E4_D0E5),
  (0xEAEC, 0xD0E6_D0E7_D0E8_D0E9_D0EA_D0EB_D0EC_D0ED_D0EE_D0EF_D0F0_D0F1),
  (0xEAF8, 0xD0F2_D0F3_D0F4_D0F5_D0F6_D0F7_D0F8_D0F9_D0FA_D0FB_D0FC_D0FD),
  (0xEB04, 0xD141_D142_D143_D144_D145_D146_D147_D148_D149_D14A_D14B_D14C),
  (0xEB10, 0xD14D_D14E_D14F_D150_D151_D152_D153_D154_D155_D156_D157_D158),
  (0xEB1C, 0xD159_D15A_D15B_D15C_D15D_D15E_D15F_D160_D161_D162_D163_D164),
  (0xEB28, 0xD165_D166_D167_D168_D169_D16A_D16B_D16C_D16D_D16E_D16F_D170),
  (0xEB34, 0xD171_D172_D173_D174_D175_D176_D177_D178_D179_D17A_D17B_D17C),
  (0xEB40, 0xD17D_D17E_D17F_D181_D182_D183_D184_D185_D186_D187_D188_D189),
  (0xEB4C, 0xD18A_D18B_D18C_D18D_D18E_D18F_D190_D191_D192_D193_D194_D195),
  (0xEB58, 0xD196_D197_D198_D199_D19A_D19B_D19C_D19D_D19E_D19F_D1A0_D1A1),
  (0xEB64, 0xD1A2_D1A3_D1A4_D1A5_D1A6_D1A7_D1A8_D1A9_D1AA_D1AB_D1AC_D1AD),
  (0xEB70, 0xD1AE_D1AF_D1B0_D1B1_D1B2_D1B3_D1B4_D1B5_D1B6_D1B7_D1B8_D1B9),
  (0xEB7C, 0xD1BA_D1BB_D1BC_D1BD_D1BE_D1BF_D1C0_D1C1_D1C2_D1C3_D1C4_D1C5),
  (0xEB88, 0xD1C6_D1C7_D1C8_D1C9_D1CA_D1CB_D1CC_D1CD_D1CE_D1CF_D1D0_D1D1),
  (0xEB94, 0xD1D2_D1D3_D1D4_D1D5_D1D6_D1D7_D1D8_D1D9_D1DA_D1DB_D1DC_D1DD),
  (0xEBA0, 0xD1DE_D1DF_D1E0_D1E1_D1E2_D1E3_D1E4_D1E5_D1E6_D1E7_D1E8_D1E9),
  (0xEBAC, 0xD1EA_D1EB_D1EC_D1ED_D1EE_D1EF_D1F0_D1F1_D1F2_D1F3_D1F4_D1F5),
  (0xEBB8, 0xD1F6_D1F7_D1F8_D1F9_D1FA_D1FB_D1FC_D1FD_D241_D242_D243_D244),
  (0xEBC4, 0xD245_D246_D247_D248_D249_D24A_D24B_D24C_D24D_D24E_D24F_D250),
  (0xEBD0, 0xD251_D252_D253_D254_D255_D256_D257_D258_D259_D25A_D25B_D25C),
  (0xEBDC, 0xD25D_D25E_D25F_D260_D261_D262_D263_D264_D265_D266_D267_D268),
  (0xEBE8, 0xD269_D26A_D26B_D26C_D26D_D26E_D26F_D270_D271_D272_D273_D274),
  (0xEBF4, 0xD275_D276_D277_D278_D279_D27A_D27B_D27C_D27D_D27E_D27F_D281),
  (0xEC00, 0xD282_D283_D284_D285_D286_D287_D288_D289_D28A_D28B_D28C_D28D),
  (0xEC0C, 0xD28E_D28F_D290_D291_D292_D293_D294_D295_D296_D297_D298_D299),
  (0xEC18, 0xD29A_D29B_D29C_D29D_D29E_D29F_D2A0_D2A1_D2A2_D2A3_D2A4_D2A5),
  (0xEC24, 0xD2A6_D2A7_D2A8_D2A9_D2AA_D2AB_D2AC_D2AD_D2AE_D2AF_D2B0_D2B1),
  (0xEC30, 0xD2B2_D2B3_D2B4_D2B5_D2B6_D2B7_D2B8_D2B9_D2BA_D2BB_D2BC_D2BD),
  (0xEC3C, 0xD2BE_D2BF_D2C0_D2C1_D2C2_D2C3_D2C4_D2C5_D2C6_D2C7_D2C8_D2C9),
  (0xEC48, 0xD2CA_D2CB_D2CC_D2CD_D2CE_D2CF_D2D0_D2D1_D2D2_D2D3_D2D4_D2D5),
  (0xEC54, 0xD2D6_D2D7_D2D8_D2D9_D2DA_D2DB_D2DC_D2DD_D2DE_D2DF_D2E0_D2E1),
  (0xEC60, 0xD2E2_D2E3_D2E4_D2E5_D2E6_D2E7_D2E8_D2E9_D2EA_D2EB_D2EC_D2ED),
  (0xEC6C, 0xD2EE_D2EF_D2F0_D2F1_D2F2_D2F3_D2F4_D2F5_D2F6_D2F7_D2F8_D2F9),
  (0xEC78, 0xD2FA_D2FB_D2FC_D2FD_D341_D342_D343_D344_D345_D346_D347_D348),
  (0xEC84, 0xD349_D34A_D34B_D34C_D34D_D34E_D34F_D350_D351_D352_D353_D354),
  (0xEC90, 0xD355_D356_D357_D358_D359_D35A_D35B_D35C_D35D_D35E_D35F_D360),
  (0xEC9C, 0xD361_D362_D363_D364_D365_D366_D367_D368_D369_D36A_D36B_D36C),
  (0xECA8, 0xD36D_D36E_D36F_D370_D371_D372_D373_D374_D375_D376_D377_D378),
  (0xECB4, 0xD379_D37A_D37B_D37C_D37D_D37E_D37F_D381_D382_D383_D384_D385),
  (0xECC0, 0xD386_D387_D388_D389_D38A_D38B_D38C_D38D_D38E_D38F_D390_D391),
  (0xECCC, 0xD392_D393_D394_D395_D396_D397_D398_D399_D39A_D39B_D39C_D39D),
  (0xECD8, 0xD39E_D39F_D3A0_D3A1_D3A2_D3A3_D3A4_D3A5_D3A6_D3A7_D3A8_D3A9),
  (0xECE4, 0xD3AA_D3AB_D3AC_D3AD_D3AE_D3AF_D3B0_D3B1_D3B2_D3B3_D3B4_D3B5),
  (0xECF0, 0xD3B6_D3B7_D3B8_D3B9_D3BA_D3BB_D3BC_D3BD_D3BE_D3BF_D3C0_D3C1),
  (0xECFC, 0xD3C2_D3C3_D3C4_D3C5_D3C6_D3C7_D3C8_D3C9_D3CA_D3CB_D3CC_D3CD),
  (0xED08, 0xD3CE_D3CF_D3D0_D3D1_D3D2_D3D3_D3D4_D3D5_D3D6_D3D7_D3D8_D3D9),
  (0xED14, 0xD3DA_D3DB_D3DC_D3DD_D3DE_D3DF_D3E0_D3E1_D3E2_D3E3_D3E4_D3E5),
  (0xED20, 0xD3E6_D3E7_D3E8_D3E9_D3EA_D3EB_D3EC_D3ED_D3EE_D3EF_D3F0_D3F1),
  (0xED2C, 0xD3F2_D3F3_D3F4_D3F5_D3F6_D3F7_D3F8_D3F9_D3FA_D3FB_D3FC_D3FD),
  (0xED38, 0xD441_D442_D443_D444_D445_D446_D447_D448_D449_D44A_D44B_D44C),
  (0xED44, 0xD44D_D44E_D44F_D450_D451_D452_D453_D454_D455_D456_D457_D458),
  (0xED50, 0xD459_D45A_D45B_D45C_D45D_D45E_D45F_D460_D461_D462_D463_D464),
  (0xED5C, 0xD465_D466_D467_D468_D469_D46A_D46B_D46C_D46D_D46E_D46F_D470),
  (0xED68, 0xD471_D472_D473_D474_D475_D476_D477_D478_D479_D47A_D47B_D47C),
  (0xED74, 0xD47D_D47E_D47F_D481_D482_D483_D484_D485_D486_D487_D488_D489),
  (0xED80, 0xD48A_D48B_D48C_D48D_D48E_D48F_D490_D491_D492_D493_D494_D495),
  (0xED8C, 0xD496_D497_D498_D499_D49A_D49B_D49C_D49D_D49E_D49F_D4A0_D4A1),
  (0xED98, 0xD4A2_D4A3_D4A4_D4A5_D4A6_D4A7_D4A8_D4A9_D4AA_D4AB_D4AC_D4AD),
  (0xEDA4, 0xD4AE_D4AF_D4B0_D4B1_D4B2_D4B3_D4B4_D4B5_D4B6_D4B7_D4B8_D4B9),
  (0xEDB0, 0xD4BA_D4BB_D4BC_D4BD_D4BE_D4BF_D4C0_D4C1_D4C2_D4C3_D4C4_D4C5),
  (0xEDBC, 0xD4C6_D4C7_D4C8_D4C9_D4CA_D4CB_D4CC_D4CD_D4CE_D4CF_D4D0_D4D1),
  (0xEDC8, 0xD4D2_D4D3_D4D4_D4D5_D4D6_D4D7_D4D8_D4D9_D4DA_D4DB_D4DC_D4DD),
  (0xEDD4, 0xD4DE_D4DF_D4E0_D4E1_D4E2_D4E3_D4E4_D4E5_D4E6_D4E7_D4E8_D4E9),
  (0xEDE0, 0xD4EA_D4EB_D4EC_D4ED_D4EE_D4EF_D4F0_D4F1_D4F2_D4F3_D4F4_D4F5),
  (0xEDEC, 0xD4F6_D4F7_D4F8_D4F9_D4FA_D4FB_D4FC_D4FD_D541_D542_D543_D544),
  (0xEDF8, 0xD545_D546_D547_D548_D549_D54A_D54B_D54C_D54D_D54E_D54F_D550),
  (0xEE04, 0xD551_D552_D553_D554_D555_D556_D557_D558_D559_D55A_D55B_D55C),
  (0xEE10, 0xD55D_D55E_D55F_D560_D561_D562_D563_D564_D565_D566_D567_D568),
  (0xEE1C, 0xD569_D56A_D56B_D56C_D56D_D56E_D56F_D570_D571_D572_D573_D574),
  (0xEE28, 0xD575_D576_D577_D578_D579_D57A_D57B_D57C_D57D_D57E_D57F_D581),
  (0xEE34, 0xD582_D583_D584_D585_D586_D587_D588_D589_D58A_D58B_D58C_D58D),
  (0xEE40, 0xD58E_D58F_D590_D591_D592_D593_D594_D595_D596_D597_D598_D599),
  (0xEE4C, 0xD59A_D59B_D59C_D59D_D59E_D59F_D5A0_D5A1_D5A2_D5A3_D5A4_D5A5),
  (0xEE58, 0xD5A6_D5A7_D5A8_D5A9_D5AA_D5AB_D5AC_D5AD_D5AE_D5AF_D5B0_D5B1),
  (0xEE64, 0xD5B2_D5B3_D5B4_D5B5_D5B6_D5B7_D5B8_D5B9_D5BA_D5BB_D5BC_D5BD),
  (0xEE70, 0xD5BE_D5BF_D5C0_D5C1_D5C2_D5C3_D5C4_D5C5_D5C6_D5C7_D5C8_D5C9),
  (0xEE7C, 0xD5CA_D5CB_D5CC_D5CD_D5CE_D5CF_D5D0_D5D1_D5D2_D5D3_D5D4_D5D5),
  (0xEE88, 0xD5D6_D5D7_D5D8_D5D9_D5DA_D5DB_D5DC_D5DD_D5DE_D5DF_D5E0_D5E1),
  (0xEE94, 0xD5E2_D5E3_D5E4_D5E5_D5E6_D5E7_D5E8_D5E9_D5EA_D5EB_D5EC_D5ED),
  (0xEEA0, 0xD5EE_D5EF_D5F0_D5F1_D5F2_D5F3_D5F4_D5F5_D5F6_D5F7_D5F8_D5F9),
  (0xEEAC, 0xD5FA_D5FB_D5FC_D5FD_D641_D642_D643_D644_D645_D646_D647_D648),
  (0xEEB8, 0xD649_D64A_D64B_D64C_D64D_D64E_D64F_D650_D651_D652_D653_D654),
  (0xEEC4, 0xD655_D656_D657_D658_D659_D65A_D65B_D65C_D65D_D65E_D65F_D660),
  (0xEED0, 0xD661_D662_D663_D664_D665_D666_D667_D668_D669_D66A_D66B_D66C),
  (0xEEDC, 0xD66D_D66E_D66F_D670_D671_D672_D673_D674_D675_D676_D677_D678),
  (0xEEE8, 0xD679_D67A_D67B_D67C_D67D_D67E_D67F_D681_D682_D683_D684_D685),
  (0xEEF4, 0xD686_D687_D688_D689_D68A_D68B_D68C_D68D_D68E_D68F_D690_D691),
  (0xEF00, 0xD692_D693_D694_D695_D696_D697_D698_D699_D69A_D69B_D69C_D69D),
  (0xEF0C, 0xD69E_D69F_D6A0_D6A1_D6A2_D6A3_D6A4_D6A5_D6A6_D6A7_D6A8_D6A9),
  (0xEF18, 0xD6AA_D6AB_D6AC_D6AD_D6AE_D6AF_D6B0_D6B1_D6B2_D6B3_D6B4_D6B5),
  (0xEF24, 0xD6B6_D6B7_D6B8_D6B9_D6BA_D6BB_D6BC_D6BD_D6BE_D6BF_D6C0_D6C1),
  (0xEF30, 0xD6C2_D6C3_D6C4_D6C5_D6C6_D6C7_D6C8_D6C9_D6CA_D6CB_D6CC_D6CD),
  (0xEF3C, 0xD6CE_D6CF_D6D0_D6D1_D6D2_D6D3_D6D4_D6D5_D6D6_D6D7_D6D8_D6D9),
  (0xEF48, 0xD6DA_D6DB_D6DC_D6DD_D6DE_D6DF_D6E0_D6E1_D6E2_D6E3_D6E4_D6E5),
  (0xEF54, 0xD6E6_D6E7_D6E8_D6E9_D6EA_D6EB_D6EC_D6ED_D6EE_D6EF_D6F0_D6F1),
  (0xEF60, 0xD6F2_D6F3_D6F4_D6F5_D6F6_D6F7_D6F8_D6F9_D6FA_D6FB_D6FC_D6FD),
  (0xEF6C, 0xD741_D742_D743_D744_D745_D746_D747_D748_D749_D74A_D74B_D74C),
  (0xEF78, 0xD74D_D74E_D74F_D750_D751_D752_D753_D754_D755_D756_D757_D758),
  (0xEF84, 0xD759_D75A_D75B_D75C_D75D_D75E_D75F_D760_D761_D762_D763_D764),
  (0xEF90, 0xD765_D766_D767_D768_D769_D76A_D76B_D76C_D76D_D76E_D76F_D770),
  (0xEF9C, 0xD771_D772_D773_D774_D775_D776_D777_D778_D779_D77A_D77B_D77C),
  (0xEFA8, 0xD77D_D77E_D77F_D781_D782_D783_D784_D785_D786_D787_D788_D789),
  (0xEFB4, 0xD78A_D78B_D78C_D78D_D78E_D78F_D790_D791_D792_D793_D794_D795),
  (0xEFC0, 0xD796_D797_D798_D799_D79A_D79B_D79C_D79D_D79E_D79F_D7A0_D7A1),
  (0xEFCC, 0xD7A2_D7A3_D7A4_D7A5_D7A6_D7A7_D7A8_D7A9_D7AA_D7AB_D7AC_D7AD),
  (0xEFD8, 0xD7AE_D7AF_D7B0_D7B1_D7B2_D7B3_D7B4_D7B5_D7B6_D7B7_D7B8_D7B9),
  (0xEFE4, 0xD7BA_D7BB_D7BC_D7BD_D7BE_D7BF_D7C0_D7C1_D7C2_D7C3_D7C4_D7C5),
  (0xEFF0, 0xD7C6_D7C7_D7C8_D7C9_D7CA_D7CB_D7CC_D7CD_D7CE_D7CF_D7D0_D7D1),
  (0xEFFC, 0xD7D2_D7D3_D7D4_D7D5_D7D6_D7D7_D7D8_D7D9_D7DA_D7DB_D7DC_D7DD),
  (0xF008, 0xD7DE_D7DF_D7E0_D7E1_D7E2_D7E3_D7E4_D7E5_D7E6_D7E7_D7E8_D7E9),
  (0xF014, 0xD7EA_D7EB_D7EC_D7ED_D7EE_D7EF_D7F0_D7F1_D7F2_D7F3_D7F4_D7F5),
  (0xF020, 0xD7F6_D7F7_D7F8_D7F9_D7FA_D7FB_D7FC_D7FD_D841_D842_D843_D844),
  (0xF02C, 0xD845_D846_D847_D848_D849_D84A_D84B_D84C_D84D_D84E_D84F_D850),
  (0xF038, 0xD851_D852_D853_D854_D855_D856_D857_D858_D859_D85A_D85B_D85C),
  (0xF044, 0xD85D_D85E_D85F_D860_D861_D862_D863_D864_D865_D866_D867_D868),
  (0xF050, 0xD869_D86A_D86B_D86C_D86D_D86E_D86F_D870_D871_D872_D873_D874),
  (0xF05C, 0xD875_D876_D877_D878_D879_D87A_D87B_D87C_D87D_D87E_D87F_D881),
  (0xF068, 0xD882_D883_D884_D885_D886_D887_D888_D889_D88A_D88B_D88C_D88D),
  (0xF074, 0xD88E_D88F_D890_D891_D892_D893_D894_D895_D896_D897_D898_D899),
  (0xF080, 0xD89A_D89B_D89C_D89D_D89E_D89F_D8A0_D8A1_D8A2_D8A3_D8A4_D8A5),
  (0xF08C, 0xD8A6_D8A7_D8A8_D8A9_D8AA_D8AB_D8AC_D8AD_D8AE_D8AF_D8B0_D8B1),
  (0xF098, 0xD8B2_D8B3_D8B4_D8B5_D8B6_D8B7_D8B8_D8B9_D8BA_D8BB_D8BC_D8BD),
  (0xF0A4, 0xD8BE_D8BF_D8C0_D8C1_D8C2_D8C3_D8C4_D8C5_D8C6_D8C7_D8C8_D8C9),
  (0xF0B0, 0xD8CA_D8CB_D8CC_D8CD_D8CE_D8CF_D8D0_D8D1_D8D2_D8D3_D8D4_D8D5),
  (0xF0BC, 0xD8D6_D8D7_D8D8_D8D9_D8DA_D8DB_D8DC_D8DD_D8DE_D8DF_D8E0_D8E1),
  (0xF0C8, 0xD8E2_D8E3_D8E4_D8E5_D8E6_D8E7_D8E8_D8E9_D8EA_D8EB_D8EC_D8ED),
  (0xF0D4, 0xD8EE_D8EF_D8F0_D8F1_D8F2_D8F3_D8F4_D8F5_D8F6_D8F7_D8F8_D8F9),
  (0xF0E0, 0xD8FA_D8FB_D8FC_D8FD_D941_D942_D943_D944_D945_D946_D947_D948),
  (0xF0EC, 0xD949_D94A_D94B_D94C_D94D_D94E_D94F_D950_D951_D952_D953_D954),
  (0xF0F8, 0xD955_D956_D957_D958_D959_D95A_D95B_D95C_D95D_D95E_D95F_D960),
  (0xF104, 0xD961_D962_D963_D964_D965_D966_D967_D968_D969_D96A_D96B_D96C),
  (0xF110, 0xD96D_D96E_D96F_D970_D971_D972_D973_D974_D975_D976_D977_D978),
  (0xF11C, 0xD979_D97A_D97B_D97C_D97D_D97E_D97F_D981_D982_D983_D984_D985),
  (0xF128, 0xD986_D987_D988_D989_D98A_D98B_D98C_D98D_D98E_D98F_D990_D991),
  (0xF134, 0xD992_D993_D994_D995_D996_D997_D998_D999_D99A_D99B_D99C_D99D),
  (0xF140, 0xD99E_D99F_D9A0_D9A1_D9A2_D9A3_D9A4_D9A5_D9A6_D9A7_D9A8_D9A9),
  (0xF14C, 0xD9AA_D9AB_D9AC_D9AD_D9AE_D9AF_D9B0_D9B1_D9B2_D9B3_D9B4_D9B5),
  (0xF158, 0xD9B6_D9B7_D9B8_D9B9_D9BA_D9BB_D9BC_D9BD_D9BE_D9BF_D9C0_D9C1),
  (0xF164, 0xD9C2_D9C3_D9C4_D9C5_D9C6_D9C7_D9C8_D9C9_D9CA_D9CB_D9CC_D9CD),
  (0xF170, 0xD9CE_D9CF_D9D0_D9D1_D9D2_D9D3_D9D4_D9D5_D9D6_D9D7_D9D8_D9D9),
  (0xF17C, 0xD9DA_D9DB_D9DC_D9DD_D9DE_D9DF_D9E0_D9E1_D9E2_D9E3_D9E4_D9E5),
  (0xF188, 0xD9E6_D9E7_D9E8_D9E9_D9EA_D9EB_D9EC_D9ED_D9EE_D9EF_D9F0_D9F1),
  (0xF194, 0xD9F2_D9F3_D9F4_D9F5_D9F6_D9F7_D9F8_D9F9_D9FA_D9FB_D9FC_D9FD),
  (0xF1A0, 0xDA41_DA42_DA43_DA44_DA45_DA46_DA47_DA48_DA49_DA4A_DA4B_DA4C),
  (0xF1AC, 0xDA4D_DA4E_DA4F_DA50_DA51_DA52_DA53_DA54_DA55_DA56_DA57_DA58),
  (0xF1B8, 0xDA59_DA5A_DA5B_DA5C_DA5D_DA5E_DA5F_DA60_DA61_DA62_DA63_DA64),
  (0xF1C4, 0xDA65_DA66_DA67_DA68_DA69_DA6A_DA6B_DA6C_DA6D_DA6E_DA6F_DA70),
  (0xF1D0, 0xDA71_DA72_DA73_DA74_DA75_DA76_DA77_DA78_DA79_DA7A_DA7B_DA7C),
  (0xF1DC, 0xDA7D_DA7E_DA7F_DA81_DA82_DA83_DA84_DA85_DA86_DA87_DA88_DA89),
  (0xF1E8, 0xDA8A_DA8B_DA8C_DA8D_DA8E_DA8F_DA90_DA91_DA92_DA93_DA94_DA95),
  (0xF1F4, 0xDA96_DA97_DA98_DA99_DA9A_DA9B_DA9C_DA9D_DA9E_DA9F_DAA0_DAA1),
  (0xF200, 0xDAA2_DAA3_DAA4_DAA5_DAA6_DAA7_DAA8_DAA9_DAAA_DAAB_DAAC_DAAD),
  (0xF20C, 0xDAAE_DAAF_DAB0_DAB1_DAB2_DAB3_DAB4_DAB5_DAB6_DAB7_DAB8_DAB9),
  (0xF218, 0xDABA_DABB_DABC_DABD_DABE_DABF_DAC0_DAC1_DAC2_DAC3_DAC4_DAC5),
  (0xF224, 0xDAC6_DAC7_DAC8_DAC9_DACA_DACB_DACC_DACD_DACE_DACF_DAD0_DAD1),
  (0xF230, 0xDAD2_DAD3_DAD4_DAD5_DAD6_DAD7_DAD8_DAD9_DADA_DADB_DADC_DADD),
  (0xF23C, 0xDADE_DADF_DAE0_DAE1_DAE2_DAE3_DAE4_DAE5_DAE6_DAE7_DAE8_DAE9),
  (0xF248, 0xDAEA_DAEB_DAEC_DAED_DAEE_DAEF_DAF0_DAF1_DAF2_DAF3_DAF4_DAF5),
  (0xF254, 0xDAF6_DAF7_DAF8_DAF9_DAFA_DAFB_DAFC_DAFD_DB41_DB42_DB43_DB44),
  (0xF260, 0xDB45_DB46_DB47_DB48_DB49_DB4A_DB4B_DB4C_DB4D_DB4E_DB4F_DB50),
  (0xF26C, 0xDB51_DB52_DB53_DB54_DB55_DB56_DB57_DB58_DB59_DB5A_DB5B_DB5C),
  (0xF278, 0xDB5D_DB5E_DB5F_DB60_DB61_DB62_DB63_DB64_DB65_DB66_DB67_DB68),
  (0xF284, 0xDB69_DB6A_DB6B_DB6C_DB6D_DB6E_DB6F_DB70_DB71_DB72_DB73_DB74),
  (0xF290, 0xDB75_DB76_DB77_DB78_DB79_DB7A_DB7B_DB7C_DB7D_DB7E_DB7F_DB81),
  (0xF29C, 0xDB82_DB83_DB84_DB85_DB86_DB87_DB88_DB89_DB8A_DB8B_DB8C_DB8D),
  (0xF2A8, 0xDB8E_DB8F_DB90_DB91_DB92_DB93_DB94_DB95_DB96_DB97_DB98_DB99),
  (0xF2B4, 0xDB9A_DB9B_DB9C_DB9D_DB9E_DB9F_DBA0_DBA1_DBA2_DBA3_DBA4_DBA5),
  (0xF2C0, 0xDBA6_DBA7_DBA8_DBA9_DBAA_DBAB_DBAC_DBAD_DBAE_DBAF_DBB0_DBB1),
  (0xF2CC, 0xDBB2_DBB3_DBB4_DBB5_DBB6_DBB7_DBB8_DBB9_DBBA_DBBB_DBBC_DBBD),
  (0xF2D8, 0xDBBE_DBBF_DBC0_DBC1_DBC2_DBC3_DBC4_DBC5_DBC6_DBC7_DBC8_DBC9),
  (0xF2E4, 0xDBCA_DBCB_DBCC_DBCD_DBCE_DBCF_DBD0_DBD1_DBD2_DBD3_DBD4_DBD5),
  (0xF2F0, 0xDBD6_DBD7_DBD8_DBD9_DBDA_DBDB_DBDC_DBDD_DBDE_DBDF_DBE0_DBE1),
  (0xF2FC, 0xDBE2_DBE3_DBE4_DBE5_DBE6_DBE7_DBE8_DBE9_DBEA_DBEB_DBEC_DBED),
  (0xF308, 0xDBEE_DBEF_DBF0_DBF1_DBF2_DBF3_DBF4_DBF5_DBF6_DBF7_DBF8_DBF9),
  (0xF314, 0xDBFA_DBFB_DBFC_DBFD_DC41_DC42_DC43_DC44_DC45_DC46_DC47_DC48),
  (0xF320, 0xDC49_DC4A_DC4B_DC4C_DC4D_DC4E_DC4F_DC50_DC51_DC52_DC53_DC54),
  (0xF32C, 0xDC55_DC56_DC57_DC58_DC59_DC5A_DC5B_DC5C_DC5D_DC5E_DC5F_DC60),
  (0xF338, 0xDC61_DC62_DC63_DC64_DC65_DC66_DC67_DC68_DC69_DC6A_DC6B_DC6C),
  (0xF344, 0xDC6D_DC6E_DC6F_DC70_DC71_DC72_DC73_DC74_DC75_DC76_DC77_DC78),
  (0xF350, 0xDC79_DC7A_DC7B_DC7C_DC7D_DC7E_DC7F_DC81_DC82_DC83_DC84_DC85),
  (0xF35C, 0xDC86_DC87_DC88_DC89_DC8A_DC8B_DC8C_DC8D_DC8E_DC8F_DC90_DC91),
  (0xF368, 0xDC92_DC93_DC94_DC95_DC96_DC97_DC98_DC99_DC9A_DC9B_DC9C_DC9D),
  (0xF374, 0xDC9E_DC9F_DCA0_DCA1_DCA2_DCA3_DCA4_DCA5_DCA6_DCA7_DCA8_DCA9),
  (0xF380, 0xDCAA_DCAB_DCAC_DCAD_DCAE_DCAF_DCB0_DCB1_DCB2_DCB3_DCB4_DCB5),
  (0xF38C, 0xDCB6_DCB7_DCB8_DCB9_DCBA_DCBB_DCBC_DCBD_DCBE_DCBF_DCC0_DCC1),
  (0xF398, 0xDCC2_DCC3_DCC4_DCC5_DCC6_DCC7_DCC8_DCC9_DCCA_DCCB_DCCC_DCCD),
  (0xF3A4, 0xDCCE_DCCF_DCD0_DCD1_DCD2_DCD3_DCD4_DCD5_DCD6_DCD7_DCD8_DCD9),
  (0xF3B0, 0xDCDA_DCDB_DCDC_DCDD_DCDE_DCDF_DCE0_DCE1_DCE2_DCE3_DCE4_DCE5),
  (0xF3BC, 0xDCE6_DCE7_DCE8_DCE9_DCEA_DCEB_DCEC_DCED_DCEE_DCEF_DCF0_DCF1),
  (0xF3C8, 0xDCF2_DCF3_DCF4_DCF5_DCF6_DCF7_DCF8_DCF9_DCFA_DCFB_DCFC_DCFD),
  (0xF3D4, 0xDD41_DD42_DD43_DD44_DD45_DD46_DD47_DD48_DD49_DD4A_DD4B_DD4C),
  (0xF3E0, 0xDD4D_DD4E_DD4F_DD50_DD51_DD52_DD53_DD54_DD55_DD56_DD57_DD58),
  (0xF3EC, 0xDD59_DD5A_DD5B_DD5C_DD5D_DD5E_DD5F_DD60_DD61_DD62_DD63_DD64),
  (0xF3F8, 0xDD65_DD66_DD67_DD68_DD69_DD6A_DD6B_DD6C_DD6D_DD6E_DD6F_DD70),
  (0xF404, 0xDD71_DD72_DD73_DD74_DD75_DD76_DD77_DD78_DD79_DD7A_DD7B_DD7C),
  (0xF410, 0xDD7D_DD7E_DD7F_DD81_DD82_DD83_DD84_DD85_DD86_DD87_DD88_DD89),
  (0xF41C, 0xDD8A_DD8B_DD8C_DD8D_DD8E_DD8F_DD90_DD91_DD92_DD93_DD94_DD95),
  (0xF428, 0xDD96_DD97_DD98_DD99_DD9A_DD9B_DD9C_DD9D_DD9E_DD9F_DDA0_DDA1),
  (0xF434, 0xDDA2_DDA3_DDA4_DDA5_DDA6_DDA7_DDA8_DDA9_DDAA_DDAB_DDAC_DDAD),
  (0xF440, 0xDDAE_DDAF_DDB0_DDB1_DDB2_DDB3_DDB4_DDB5_DDB6_DDB7_DDB8_DDB9),
  (0xF44C, 0xDDBA_DDBB_DDBC_DDBD_DDBE_DDBF_DDC0_DDC1_DDC2_DDC3_DDC4_DDC5),
  (0xF458, 0xDDC6_DDC7_DDC8_DDC9_DDCA_DDCB_DDCC_DDCD_DDCE_DDCF_DDD0_DDD1),
  (0xF464, 0xDDD2_DDD3_DDD4_DDD5_DDD6_DDD7_DDD8_DDD9_DDDA_DDDB_DDDC_DDDD),
  (0xF470, 0xDDDE_DDDF_DDE0_DDE1_DDE2_DDE3_DDE4_DDE5_DDE6_DDE7_DDE8_DDE9),
  (0xF47C, 0xDDEA_DDEB_DDEC_DDED_DDEE_DDEF_DDF0_DDF1_DDF2_DDF3_DDF4_DDF5),
  (0xF488, 0xDDF6_DDF7_DDF8_DDF9_DDFA_DDFB_DDFC_DDFD_DE41_DE42_DE43_DE44),
  (0xF494, 0xDE45_DE46_DE47_DE48_DE49_DE4A_DE4B_DE4C_DE4D_DE4E_DE4F_DE50),
  (0xF4A0, 0xDE51_DE52_DE53_DE54_DE55_DE56_DE57_DE58_DE59_DE5A_DE5B_DE5C),
  (0xF4AC, 0xDE5D_DE5E_DE5F_DE60_DE61_DE62_DE63_DE64_DE65_DE66_DE67_DE68),
  (0xF4B8, 0xDE69_DE6A_DE6B_DE6C_DE6D_DE6E_DE6F_DE70_DE71_DE72_DE73_DE74),
  (0xF4C4, 0xDE75_DE76_DE77_DE78_DE79_DE7A_DE7B_DE7C_DE7D_DE7E_DE7F_DE81),
  (0xF4D0, 0xDE82_DE83_DE84_DE85_DE86_DE87_DE88_DE89_DE8A_DE8B_DE8C_DE8D),
  (0xF4DC, 0xDE8E_DE8F_DE90_DE91_DE92_DE93_DE94_DE95_DE96_DE97_DE98_DE99),
  (0xF4E8, 0xDE9A_DE9B_DE9C_DE9D_DE9E_DE9F_DEA0_DEA1_DEA2_DEA3_DEA4_DEA5),
  (0xF4F4, 0xDEA6_DEA7_DEA8_DEA9_DEAA_DEAB_DEAC_DEAD_DEAE_DEAF_DEB0_DEB1),
  (0xF500, 0xDEB2_DEB3_DEB4_DEB5_DEB6_DEB7_DEB8_DEB9_DEBA_DEBB_DEBC_DEBD),
  (0xF50C, 0xDEBE_DEBF_DEC0_DEC1_DEC2_DEC3_DEC4_DEC5_DEC6_DEC7_DEC8_DEC9),
  (0xF518, 0xDECA_DECB_DECC_DECD_DECE_DECF_DED0_DED1_DED2_DED3_DED4_DED5),
  (0xF524, 0xDED6_DED7_DED8_DED9_DEDA_DEDB_DEDC_DEDD_DEDE_DEDF_DEE0_DEE1),
  (0xF530, 0xDEE2_DEE3_DEE4_DEE5_DEE6_DEE7_DEE8_DEE9_DEEA_DEEB_DEEC_DEED),
  (0xF53C, 0xDEEE_DEEF_DEF0_DEF1_DEF2_DEF3_DEF4_DEF5_DEF6_DEF7_DEF8_DEF9),
  (0xF548, 0xDEFA_DEFB_DEFC_DEFD_DF41_DF42_DF43_DF44_DF45_DF46_DF47_DF48),
  (0xF554, 0xDF49_DF4A_DF4B_DF4C_DF4D_DF4E_DF4F_DF50_DF51_DF52_DF53_DF54),
  (0xF560, 0xDF55_DF56_DF57_DF58_DF59_DF5A_DF5B_DF5C_DF5D_DF5E_DF5F_DF60),
  (0xF56C, 0xDF61_DF62_DF63_DF64_DF65_DF66_DF67_DF68_DF69_DF6A_DF6B_DF6C),
  (0xF578, 0xDF6D_DF6E_DF6F_DF70_DF71_DF72_DF73_DF74_DF75_DF76_DF77_DF78),
  (0xF584, 0xDF79_DF7A_DF7B_DF7C_DF7D_DF7E_DF7F_DF81_DF82_DF83_DF84_DF85),
  (0xF590, 0xDF86_DF87_DF88_DF89_DF8A_DF8B_DF8C_DF8D_DF8E_DF8F_DF90_DF91),
  (0xF59C, 0xDF92_DF93_DF94_DF95_DF96_DF97_DF98_DF99_DF9A_DF9B_DF9C_DF9D),
  (0xF5A8, 0xDF9E_DF9F_DFA0_DFA1_DFA2_DFA3_DFA4_DFA5_DFA6_DFA7_DFA8_DFA9),
  (0xF5B4, 0xDFAA_DFAB_DFAC_DFAD_DFAE_DFAF_DFB0_DFB1_DFB2_DFB3_DFB4_DFB5),
  (0xF5C0, 0xDFB6_DFB7_DFB8_DFB9_DFBA_DFBB_DFBC_DFBD_DFBE_DFBF_DFC0_DFC1),
  (0xF5CC, 0xDFC2_DFC3_DFC4_DFC5_DFC6_DFC7_DFC8_DFC9_DFCA_DFCB_DFCC_DFCD),
  (0xF5D8, 0xDFCE_DFCF_DFD0_DFD1_DFD2_DFD3_DFD4_DFD5_DFD6_DFD7_DFD8_DFD9),
  (0xF5E4, 0xDFDA_DFDB_DFDC_DFDD_DFDE_DFDF_DFE0_DFE1_DFE2_DFE3_DFE4_DFE5),
  (0xF5F0, 0xDFE6_DFE7_DFE8_DFE9_DFEA_DFEB_DFEC_DFED_DFEE_DFEF_DFF0_DFF1),
  (0xF5FC, 0xDFF2_DFF3_DFF4_DFF5_DFF6_DFF7_DFF8_DFF9_DFFA_DFFB_DFFC_DFFD),
  (0xF608, 0xE041_E042_E043_E044_E045_E046_E047_E048_E049_E04A_E04B_E04C),
  (0xF614, 0xE04D_E04E_E04F_E050_E051_E052_E053_E054_E055_E056_E057_E058),
  (0xF620, 0xE059_E05A_E05B_E05C_E05D_E05E_E05F_E060_E061_E062_E063_E064),
  (0xF62C, 0xE065_E066_E067_E068_E069_E06A_E06B_E06C_E06D_E06E_E06F_E070),
  (0xF638, 0xE071_E072_E073_E074_E075_E076_E077_E078_E079_E07A_E07B_E07C),
  (0xF644, 0xE07D_E07E_E07F_E081_E082_E083_E084_E085_E086_E087_E088_E089),
  (0xF650, 0xE08A_E08B_E08C_E08D_E08E_E08F_E090_E091_E092_E093_E094_E095),
  (0xF65C, 0xE096_E097_E098_E099_E09A_E09B_E09C_E09D_E09E_E09F_E0A0_E0A1),
  (0xF668, 0xE0A2_E0A3_E0A4_E0A5_E0A6_E0A7_E0A8_E0A9_E0AA_E0AB_E0AC_E0AD),
  (0xF674, 0xE0AE_E0AF_E0B0_E0B1_E0B2_E0B3_E0B4_E0B5_E0B6_E0B7_E0B8_E0B9),
  (0xF680, 0xE0BA_E0BB_E0BC_E0BD_E0BE_E0BF_E0C0_E0C1_E0C2_E0C3_E0C4_E0C5),
  (0xF68C, 0xE0C6_E0C7_E0C8_E0C9_E0CA_E0CB_E0CC_E0CD_E0CE_E0CF_E0D0_E0D1),
  (0xF698, 0xE0D2_E0D3_E0D4_E0D5_E0D6_E0D7_E0D8_E0D9_E0DA_E0DB_E0DC_E0DD),
  (0xF6A4, 0xE0DE_E0DF_E0E0_E0E1_E0E2_E0E3_E0E4_E0E5_E0E6_E0E7_E0E8_E0E9),
  (0xF6B0, 0xE0EA_E0EB_E0EC_E0ED_E0EE_E0EF_E0F0_E0F1_E0F2_E0F3_E0F4_E0F5),
  (0xF6BC, 0xE0F6_E0F7_E0F8_E0F9_E0FA_E0FB_E0FC_E0FD_E141_E142_E143_E144),
  (0xF6C8, 0xE145_E146_E147_E148_E149_E14A_E14B_E14C_E14D_E14E_E14F_E150),
  (0xF6D4, 0xE151_E152_E153_E154_E155_E156_E157_E158_E159_E15A_E15B_E15C),
  (0xF6E0, 0xE15D_E15E_E15F_E160_E161_E162_E163_E164_E165_E166_E167_E168),
  (0xF6EC, 0xE169_E16A_E16B_E16C_E16D_E16E_E16F_E170_E171_E172_E173_E174),
  (0xF6F8, 0xE175_E176_E177_E178_E179_E17A_E17B_E17C_E17D_E17E_E17F_E181),
  (0xF704, 0xE182_E183_E184_E185_E186_E187_E188_E189_E18A_E18B_E18C_E18D),
  (0xF710, 0xE18E_E18F_E190_E191_E192_E193_E194_E195_E196_E197_E198_E199),
  (0xF71C, 0xE19A_E19B_E19C_E19D_E19E_E19F_E1A0_E1A1_E1A2_E1A3_E1A4_E1A5),
  (0xF728, 0xE1A6_E1A7_E1A8_E1A9_E1AA_E1AB_E1AC_E1AD_E1AE_E1AF_E1B0_E1B1),
  (0xF734, 0xE1B2_E1B3_E1B4_E1B5_E1B6_E1B7_E1B8_E1B9_E1BA_E1BB_E1BC_E1BD),
  (0xF740, 0xE1BE_E1BF_E1C0_E1C1_E1C2_E1C3_E1C4_E1C5_E1C6_E1C7_E1C8_E1C9),
  (0xF74C, 0xE1CA_E1CB_E1CC_E1CD_E1CE_E1CF_E1D0_E1D1_E1D2_E1D3_E1D4_E1D5),
  (0xF758, 0xE1D6_E1D7_E1D8_E1D9_E1DA_E1DB_E1DC_E1DD_E1DE_E1DF_E1E0_E1E1),
  (0xF764, 0xE1E2_E1E3_E1E4_E1E5_E1E6_E1E7_E1E8_E1E9_E1EA_E1EB_E1EC_E1ED),
  (0xF770, 0xE1EE_E1EF_E1F0_E1F1_E1F2_E1F3_E1F4_E1F5_E1F6_E1F7_E1F8_E1F9),
  (0xF77C, 0xE1FA_E1FB_E1FC_E1FD_E241_E242_E243_E244_E245_E246_E247_E248),
  (0xF788, 0xE249_E24A_E24B_E24C_E24D_E24E_E24F_E250_E251_E252_E253_E254),
  (0xF794, 0xE255_E256_E257_E258_E259_E25A_E25B_E25C_E25D_E25E_E25F_E260),
  (0xF7A0, 0xE261_E262_E263_E264_E265_E266_E267_E268_E269_E26A_E26B_E26C),
  (0xF7AC, 0xE26D_E26E_E26F_E270_E271_E272_E273_E274_E275_E276_E277_E278),
  (0xF7B8, 0xE279_E27A_E27B_E27C_E27D_E27E_E27F_E281_E282_E283_E284_E285),
  (0xF7C4, 0xE286_E287_E288_E289_E28A_E28B_E28C_E28D_E28E_E28F_E290_E291),
  (0xF7D0, 0xE292_E293_E294_E295_E296_E297_E298_E299_E29A_E29B_E29C_E29D),
  (0xF7DC, 0xE29E_E29F_E2A0_E2A1_E2A2_E2A3_E2A4_E2A5_E2A6_E2A7_E2A8_E2A9),
  (0xF7E8, 0xE2AA_E2AB_E2AC_E2AD_E2AE_E2AF_E2B0_E2B1_E2B2_E2B3_E2B4_E2B5),
  (0xF7F4, 0xE2B6_E2B7_E2B8_E2B9_E2BA_E2BB_E2BC_E2BD_E2BE_E2BF_E2C0_E2C1),
  (0xF800, 0xE2C2_E2C3_E2C4_E2C5_E2C6_E2C7_E2C8_E2C9_E2CA_E2CB_E2CC_E2CD),
  (0xF80C, 0xE2CE_E2CF_E2D0_E2D1_E2D2_E2D3_E2D4_E2D5_E2D6_E2D7_E2D8_E2D9),
  (0xF818, 0xE2DA_E2DB_E2DC_E2DD_E2DE_E2DF_E2E0_E2E1_E2E2_E2E3_E2E4_E2E5),
  (0xF824, 0xE2E6_E2E7_E2E8_E2E9_E2EA_E2EB_E2EC_E2ED_E2EE_E2EF_E2F0_E2F1),
  (0xF830, 0xE2F2_E2F3_E2F4_E2F5_E2F6_E2F7_E2F8_E2F9_E2FA_E2FB_E2FC_E2FD),
  (0xF83E, 0x445C_46A8_46A9_46AA_46AB),
  (0xFA0C, 0x694B_7AA4),
  (0xFE30, 0x4741_46A7_4749_46B6_46BC_46AC_46AD_46AE_46AF_46B0_46B1_46A4),
  (0xFE3C, 0x46A5_46B2_46B3_46B4_46B5_46A0_46A1_46A2_46A3),
  (0xFE49, 0x46BE_46BF_46C2_46C3_46C0_46C1_46BD_4742_4743_4744),
  (0xFE54, 0x4745_4746_4747_4748_474A_474B_474C_474D_474E_474F_4750_4753),
  (0xFE60, 0x4754_46C4_4755_4756_4757_4758_4759),
  (0xFE68, 0x475A_475B_475C_475D),
  (0xFF01, 0x425A_427F_427B_42E0_426C_4250_427D_424D_425D_46B8_424E_426B),
  (0xFF0D, 0x4260_424B_4261_42F0_42F1_42F2_42F3_42F4_42F5_42F6_42F7_42F8),
  (0xFF19, 0x42F9_427A_425E_424C_427E_426E_426F_427C_42C1_42C2_42C3_42C4),
  (0xFF25, 0x42C5_42C6_42C7_42C8_42C9_42D1_42D2_42D3_42D4_42D5_42D6_42D7),
  (0xFF31, 0x42D8_42D9_42E2_42E3_42E4_42E5_42E6_42E7_42E8_42E9_4444_43E0),
  (0xFF3D, 0x4445_4470_426D),
  (0xFF41, 0x4281_4282_4283_4284_4285_4286_4287_4288_4289_4291_4292_4293),
  (0xFF4D, 0x4294_4295_4296_4297_4298_4299_42A2_42A3_42A4_42A5_42A6_42A7),
  (0xFF59, 0x42A8_42A9_42C0_424F_42D0_43A1),
  (0xFFE0, 0x434A_424A_425F_4751_426A_425B)]

/-- The codes of IBM-937 that are not what their character is written as. -/
def lost937 : List Nat := [
  0x454A, 0x454C, 0x4841, 0x4845, 0x4847, 0x4849, 0x484A, 0x484B, 0x484C, 0x4850, 0x4851, 0x4852, 0x4853, 0x4855, 0x4856, 0x4858,
  0x4859, 0x485B, 0x485D, 0x485E, 0x485F, 0x4860, 0x4861, 0x4863, 0x4864, 0x4865, 0x4866, 0x4868, 0x4869, 0x486A, 0x486B, 0x486C,
  0x486D, 0x486F, 0x4870, 0x4871, 0x4872, 0x4876, 0x4877, 0x4878, 0x487B, 0x487C, 0x487D, 0x487E, 0x487F, 0x4881, 0x4883, 0x4884,
  0x4885, 0x4886, 0x4888, 0x4889, 0x488A, 0x488B, 0x488C, 0x488D, 0x488E, 0x488F, 0x4890, 0x4891, 0x4892, 0x4893, 0x4894, 0x4895,
  0x4896, 0x4897, 0x4898, 0x4899, 0x489A, 0x489B, 0x489C, 0x489D, 0x489E, 0x489F, 0x48A0, 0x48A1, 0x48A2, 0x48A3, 0x48A4, 0x48A5,
  0x48A6, 0x48A7, 0x48AA, 0x48AB, 0x48AC, 0x48AD, 0x48AE, 0x48AF, 0x48B0, 0x48B1, 0x48B2, 0x48B3, 0x48B4, 0x48B5, 0x48B6, 0x48B7,
  0x48B8, 0x48B9, 0x48BA, 0x48BB, 0x48BC, 0x48BD, 0x48BE, 0x48BF, 0x48C0, 0x48C1, 0x48C2, 0x48C3, 0x48C4, 0x48C5, 0x48C6, 0x48C7,
  0x48C8, 0x48C9, 0x48CA, 0x48CB, 0x48CC, 0x48CD, 0x48CE, 0x48CF, 0x48D0, 0x48D1, 0x48D2, 0x48D3, 0x48D4, 0x48D5, 0x48D6, 0x48D7,
  0x48D8, 0x48D9, 0x48DA, 0x48DB, 0x48DC, 0x48DD, 0x48DE, 0x48DF, 0x48E0, 0x48E1, 0x48E3, 0x48E4, 0x48E5, 0x48E6, 0x48E7, 0x48E8,
  0x48E9, 0x48EA, 0x48EC, 0x48ED, 0x48EE, 0x48EF, 0x48F0, 0x48F1, 0x48F2, 0x48F3, 0x48F4, 0x48F5, 0x48F6, 0x48F7, 0x48F8, 0x48F9,
  0x48FA, 0x48FB, 0x48FC, 0x48FD, 0x4941, 0x4942, 0x4943, 0x4944, 0x4945, 0x4946, 0x4947, 0x4948, 0x4949, 0x494A, 0x494B, 0x494C,
  0x494D, 0x494E, 0x494F, 0x4950, 0x4951, 0x4952, 0x4953, 0x4954, 0x4955, 0x4956, 0x4957, 0x4958, 0x4959]

/-- The characters that are written in IBM-937 with the code of another character. -/
def alt937 : List Nat := [
  0xAF, 0x2014, 0x5F5E, 0xFF5C, 0xFF5E]

/-- IBM-937 -/
def ibm937 : Charset where
  reads := single937 ++ double937
  writes := writes937

/-- The lines of /repo/modules/from/IBM-939.txt with one byte (those that call the callback): code, character; sorted.  Of several lines for one code only the
first is kept, which is the one that counts (C50). -/
def single939 : Chart := Chart.wide [
  (0x1, 0x0001_0002_0003_009C_0009_0086_007F_0097_008D_008E_000B_000C),
  (0xD, 0x000D_000E_000F_0010_0011_0012_0013_009D_0085_0008_0087_0018),
  (0x19, 0x0019_0092_008F_001C_001D_001E_001F_0080_0081_0082_0083_0084),
  (0x25, 0x000A_0017_001B_0088_0089_008A_008B_008C_0005_0006_0007_0090),
  (0x31, 0x0091_0016_0093_0094_0095_0096_0004_0098_0099_009A_009B_0014),
  (0x3D, 0x0015_009E_001A_0020),
  (0x42, 0xFF61_FF62_FF63_FF64_FF65_FF66_FF67_FF68_00A2_002E_003C_0028),
  (0x4E, 0x002B_007C_0026_FF69_FF6A_FF6B_FF6C_FF6D_FF6E_FF6F_FF70_FF71),
  (0x5A, 0x0021_0024_002A_0029_003B_00AC_002D_002F_FF72_FF73_FF74_FF75),
  (0x66, 0xFF76_FF77_FF78_FF79),
  (0x6B, 0x002C_0025_005F_003E_003F_FF7A_FF7B_FF7C_FF7D_FF7E_FF7F_FF80),
  (0x77, 0xFF81_FF82_0060_003A_0023_0040_0027_003D_0022),
  (0x81, 0x0061_0062_0063_0064_0065_0066_0067_0068_0069_FF83_FF84_FF85),
  (0x8D, 0xFF86_FF87_FF88),
  (0x91, 0x006A_006B_006C_006D_006E_006F_0070_0071_0072_FF89_FF8A_FF8B),
  (0x9D, 0xFF8C_FF8D_FF8E_203E_007E_0073_0074_0075_0076_0077_0078_0079),
  (0xA9, 0x007A_FF8F_FF90_FF91_005B_FF92_FF93_005E_00A3_00A5_FF94_FF95),
  (0xB5, 0xFF96_FF97_FF98_FF99_FF9A_FF9B_FF9C_FF9D_005D_FF9E_FF9F_007B),
  (0xC1, 0x0041_0042_0043_0044_0045_0046_0047_0048_0049),
  (0xD0, 0x007D_004A_004B_004C_004D_004E_004F_0050_0051_0052),
  (0xE0, 0x005C),
  (0xE2, 0x0053_0054_0055_0056_0057_0058_0059_005A),
  (0xF0, 0x0030_0031_0032_0033_0034_0035_0036_0037_0038_0039),
  (0xFF, 0x009F)]

/-- The lines of /repo/modules/from/IBM-939.txt with two bytes: code, character; sorted.  Of several lines for one code only the
first is kept, which is the one that counts (C50).  They are the same as those of IBM-930. -/
def double939 : Chart := double930

/-- The lines of /repo/modules/to/IBM-939.txt: character, code; sorted.  All call the callback. -/
def writes939 : Chart := Chart.wide [
  (0x1, 0x0001_0002_0003_0037_002D_002E_002F_0016_0005_0025_000B_000C),
  (0xD, 0x000D_000E_000F_0010_0011_0012_0013_003C_003D_0032_0026_0018),
  (0x19, 0x0019_003F_0027_001C_001D_001E_001F_0040_005A_007F_007B_005B),
  (0x25, 0x006C_0050_007D_004D_005D_005C_004E_006B_0060_004B_0061_00F0),
  (0x31, 0x00F1_00F2_00F3_00F4_00F5_00F6_00F7_00F8_00F9_007A_005E_004C),
  (0x3D, 0x007E_006E_006F_007C_00C1_00C2_00C3_00C4_00C5_00C6_00C7_00C8),
  (0x49, 0x00C9_00D1_00D2_00D3_00D4_00D5_00D6_00D7_00D8_00D9_00E2_00E3),
  (0x55, 0x00E4_00E5_00E6_00E7_00E8_00E9_00AD_00E0_00BD_00B0_006D_0079),
  (0x61, 0x0081_0082_0083_0084_0085_0086_0087_0088_0089_0091_0092_0093),
  (0x6D, 0x0094_0095_0096_0097_0098_0099_00A2_00A3_00A4_00A5_00A6_00A7),
  (0x79, 0x00A8_00A9_00C0_004F_00D0_00A1_0007_0020_0021_0022_0023_0024),
  (0x85, 0x0015_0006_0017_0028_0029_002A_002B_002C_0009_000A_001B_0030),
  (0x91, 0x0031_001A_0033_0034_0035_0036_0008_0038_0039_003A_003B_0004),
  (0x9D, 0x0014_003E_00FF),
  (0xA2, 0x004A_00B1),
  (0xA5, 0x00B2_426A_446A_4460),
  (0xAC, 0x005F),
  (0xB0, 0x44ED_444B),
  (0xB4, 0x4450),
  (0xB6, 0x4379),
  (0xD7, 0x447A),
  (0xF7, 0x447B),
  (0x391, 0x4161_4162_4163_4164_4165_4166_4167_4168_4169_416A_416B_416C),
  (0x39D, 0x416D_416E_416F_4170_4171),
  (0x3A3, 0x4172_4173_4174_4175_4176_4177_4178),
  (0x3B1, 0x4141_4142_4143_4144_4145_4146_4147_4148_4149_414A_414B_414C),
  (0x3BD, 0x414D_414E_414F_4150_4151),
  (0x3C3, 0x4152_4153_4154_4155_4156_4157_4158),
  (0x401, 0x41C6),
  (0x410, 0x41C0_41C1_41C2_41C3_41C4_41C5_41C7_41C8_41C9_41CA_41CB_41CC),
  (0x41C, 0x41CD_41CE_41CF_41D0_41D1_41D2_41D3_41D4_41D5_41D6_41D7_41D8),
  (0x428, 0x41D9_41DA_41DB_41DC_41DD_41DE_41DF_41E0_4180_4181_4182_4183),
  (0x434, 0x4184_4185_4187_4188_4189_418A_418B_418C_418D_418E_418F_4190),
  (0x440, 0x4191_4192_4193_4194_4195_4196_4197_4198_4199_419A_419B_419C),
  (0x44C, 0x419D_419E_419F_41A0),
  (0x451, 0x4186),
  (0x2010, 0x445A),
  (0x2014, 0x444A_444A_447C),
  (0x2018, 0x4461_4471),
  (0x201C, 0x4462_4472),
  (0x2020, 0x4377_4378),
  (0x2025, 0x447E_447F),
  (0x2030, 0x4373),
  (0x2032, 0x44EE_44EF),
  (0x203B, 0x446B),
  (0x203E, 0x00A0),
  (0x2103, 0x444E),
  (0x2116, 0x446E),
  (0x2121, 0x446F),
  (0x212B, 0x4372),
  (0x2160, 0x41F1_41F2_41F3_41F4_41F5_41F6_41F7_41F8_41F9_41FA),
  (0x2170, 0x41B1_41B2_41B3_41B4_41B5_41B6_41B7_41B8_41B9_41BA),
  (0x2190, 0x44F1_44F2_44F0_44F3),
  (0x21D2, 0x436E),
  (0x21D4, 0x436F),
  (0x2200, 0x4370),
  (0x2202, 0x434E_4371),
  (0x2207, 0x434F_4364),
  (0x220B, 0x4365),
  (0x2212, 0x4260),
  (0x221A, 0x435F),
  (0x221D, 0x4361_444D),
  (0x2220, 0x434B),
  (0x2225, 0x447C),
  (0x2227, 0x436C_436D_436B_436A_4362_4363),
  (0x2234, 0x4468_4478),
  (0x223D, 0x4360),
  (0x2252, 0x435C),
  (0x2260, 0x444C_435B),
  (0x2266, 0x4467_4477),
  (0x226A, 0x435D_435E),
  (0x2282, 0x4368_4369),
  (0x2286, 0x4366_4367),
  (0x22A5, 0x434C),
  (0x2312, 0x434D),
  (0x2500, 0x437C_43B7_437D_43B8),
  (0x250C, 0x437E),
  (0x250F, 0x43B9_437F),
  (0x2513, 0x43E1_43B1),
  (0x2517, 0x43E3_43B0),
  (0x251B, 0x43E2_43B2_43EE),
  (0x2520, 0x43E9),
  (0x2523, 0x43E4_43B4_43F0),
  (0x2528, 0x43EB),
  (0x252B, 0x43E6_43B3),
  (0x252F, 0x43EA_43EF),
  (0x2533, 0x43E5_43B5),
  (0x2537, 0x43EC_43F1),
  (0x253B, 0x43E7_43B6),
  (0x253F, 0x43ED),
  (0x2542, 0x43F2),
  (0x254B, 0x43E8),
  (0x25A0, 0x44EA_44E9),
  (0x25B2, 0x44E3_44E2),
  (0x25BC, 0x44EC_44EB),
  (0x25C6, 0x44E8_44E7),
  (0x25CB, 0x44E0),
  (0x25CE, 0x44E4_44E1),
  (0x25EF, 0x437A),
  (0x2605, 0x44E6_44E5),
  (0x2640, 0x4479),
  (0x2642, 0x4469),
  (0x266A, 0x4376),
  (0x266D, 0x4375),
  (0x266F, 0x4374),
  (0x3000, 0x4040_4344_4341_445B),
  (0x3005, 0x445D_445E_445F_4464_4474_4465_4475_4342_4343_4442_4443_4466),
  (0x3011, 0x4476_446C_447D_4463_4473),
  (0x301C, 0x43A1),
  (0x3041, 0x4447_4481_4448_4482_4449_4483_4451_4484_4452_4485_4486_44C0),
  (0x304D, 0x4487_44C1_4488_44C2_4489_44C3_448A_44C4_448C_44C5_448D_44C6),
  (0x3059, 0x448E_44C7_448F_44C8_4490_44C9_4491_44CA_4492_44CB_4456_4493),
  (0x3065, 0x44CC_4494_44CD_4495_44CE_4496_4497_4498_4499_449A_449D_44CF),
  (0x3071, 0x44D5_449E_44D0_44D6_449F_44D1_44D7_44A2_44D2_44D8_44A3_44D3),
  (0x307D, 0x44D9_44A4_44A5_44A6_44A7_44A8_4453_44A9_4454_44AA_4455_44AC),
  (0x3089, 0x44AD_44AE_44AF_44BA_44BB_4457_44BC_44DA_44DB_4446_44BD),
  (0x309B, 0x43BE_43BF_44DC_44DD),
  (0x30A1, 0x4347_4381_4348_4382_4349_4383_4351_4384_4352_4385_4386_43C0),
  (0x30AD, 0x4387_43C1_4388_43C2_4389_43C3_438A_43C4_438C_43C5_438D_43C6),
  (0x30B9, 0x438E_43C7_438F_43C8_4390_43C9_4391_43CA_4392_43CB_4356_4393),
  (0x30C5, 0x43CC_4394_43CD_4395_43CE_4396_4397_4398_4399_439A_439D_43CF),
  (0x30D1, 0x43D5_439E_43D0_43D6_439F_43D1_43D7_43A2_43D2_43D8_43A3_43D3),
  (0x30DD, 0x43D9_43A4_43A5_43A6_43A7_43A8_4353_43A9_4354_43AA_4355_43AC),
  (0x30E9, 0x43AD_43AE_43AF_43BA_43BB_4357_43BC_43DA_43DB_4346_43BD_43D4),
  (0x30F5, 0x4359_435A),
  (0x30FB, 0x4345_4358_43DC_43DD),
  (0x3231, 0x446D),
  (0x4E00, 0x4541_4BCE),
  (0x4E03, 0x4547),
  (0x4E07, 0x454D_49D3_4543_455E_455F),
  (0x4E0D, 0x46AF_4789),
  (0x4E10, 0x5642_4DEC),
  (0x4E14, 0x4F97_5643_469B_5775_4D56_50C5),
  (0x4E1E, 0x4F62),
  (0x4E21, 0x4883),
  (0x4E26, 0x487C),
  (0x4E28, 0x5644),
  (0x4E2A, 0x5645),
  (0x4E2D, 0x455C),
  (0x4E31, 0x5646_4CB8),
  (0x4E36, 0x5647),
  (0x4E38, 0x467A_48AB),
  (0x4E3B, 0x4762_54C8),
  (0x4E3F, 0x5648),
  (0x4E42, 0x5649_4B9F),
  (0x4E45, 0x458A),
  (0x4E4B, 0x45D8),
  (0x4E4D, 0x55A9_54A5_4F6C),
  (0x4E55, 0x62D0_564A_4947_564B_4BBD),
  (0x4E5D, 0x4549_4EB5_4749),
  (0x4E62, 0x564C),
  (0x4E71, 0x4BBF),
  (0x4E73, 0x4A98),
  (0x4E7E, 0x4970),
  (0x4E80, 0x47C0),
  (0x4E82, 0x564D),
  (0x4E85, 0x564E_4BB1),
  (0x4E88, 0x47C2_4896_564F_45CE_4542),
  (0x4E8E, 0x5650),
  (0x4E91, 0x499D_4B74),
  (0x4E94, 0x4545_456D),
  (0x4E98, 0x4BE4_50E8),
  (0x4E9B, 0x55DC_4867),
  (0x4E9E, 0x5652_5167_5653_4CCE_5654),
  (0x4EA4, 0x478E_4F7F_4FFA),
  (0x4EA8, 0x4BAC),
  (0x4EAB, 0x4B73_4575_4E52_499C),
  (0x4EB0, 0x5655),
  (0x4EB3, 0x5656),
  (0x4EB6, 0x5657),
  (0x4EBA, 0x4593),
  (0x4EC0, 0x53D9_4776_565C),
  (0x4EC4, 0x565A),
  (0x4EC6, 0x565B_5085),
  (0x4ECA, 0x45E0_484B),
  (0x4ECD, 0x5659_5658_4BE5),
  (0x4ED4, 0x5465_48B5_4755_565E_475D_48A2),
  (0x4EDD, 0x445C_565F_5661),
  (0x4EE1, 0x565D),
  (0x4EE3, 0x459A_49C3_46F6),
  (0x4EED, 0x5660_4D71),
  (0x4EF0, 0x4DED),
  (0x4EF2, 0x4869),
  (0x4EF6, 0x48B2_5341),
  (0x4EFB, 0x4A55_5662),
  (0x4F00, 0x5665_47D2),
  (0x4F03, 0x5666),
  (0x4F09, 0x5663_45B2),
  (0x4F0D, 0x4D99_4E9F_4A83_50F6_4A81),
  (0x4F1A, 0x45BD),
  (0x4F1C, 0x5664_48D9),
  (0x4F2F, 0x49A6_5668),
  (0x4F34, 0x49C9),
  (0x4F36, 0x544A),
  (0x4F38, 0x46F4_566A_508A),
  (0x4F3C, 0x4BBC_5461),
  (0x4F43, 0x4EDF),
  (0x4F46, 0x4EFE_566C),
  (0x4F4D, 0x47C8_48A4_46E0_4576_4CE6),
  (0x4F53, 0x4696),
  (0x4F55, 0x4770_566E_566B),
  (0x4F59, 0x49C1_5667_566F_4594_5669_566D),
  (0x4F69, 0x5679),
  (0x4F6F, 0x567C_567A),
  (0x4F73, 0x4876),
  (0x4F75, 0x4B94_51E2),
  (0x4F7B, 0x5677_5462),
  (0x4F7F, 0x48B6),
  (0x4F83, 0x4F98),
  (0x4F86, 0x567D),
  (0x4F88, 0x5672),
  (0x4F8A, 0x5671_4A46),
  (0x4F8D, 0x4FC2),
  (0x4F8F, 0x5673),
  (0x4F91, 0x4F8D_5670),
  (0x4F94, 0x567B),
  (0x4F96, 0x567E),
  (0x4F98, 0x5676),
  (0x4F9A, 0x5674_48BC),
  (0x4F9D, 0x4A9E),
  (0x4FA0, 0x52EC_475A),
  (0x4FAB, 0x5678),
  (0x4FAD, 0x5675_53B9_53E3),
  (0x4FB5, 0x4F8C_557C),
  (0x4FBF, 0x4B4C),
  (0x4FC2, 0x4851_4A6A_54C7),
  (0x4FC9, 0x5294_4660),
  (0x4FCD, 0x5686_5680),
  (0x4FD0, 0x5685_5683),
  (0x4FD4, 0x567F),
  (0x4FD7, 0x4E97_5681),
  (0x4FDA, 0x5684_5682),
  (0x4FDD, 0x45AA),
  (0x4FDF, 0x53C4_52EC_45A5),
  (0x4FE3, 0x4B4A_5687_5688),
  (0x4FEE, 0x46DE_5696),
  (0x4FF3, 0x4CE1),
  (0x4FF5, 0x4DB1_51F8),
  (0x4FF8, 0x50F9),
  (0x4FFA, 0x4E67),
  (0x4FFE, 0x5695_5694),
  (0x5005, 0x568F_5699),
  (0x5009, 0x45D6),
  (0x500B, 0x49FA),
  (0x500D, 0x4AC4),
  (0x500F, 0x56A1),
  (0x5011, 0x5697_4B6A),
  (0x5014, 0x568C),
  (0x5016, 0x5343),
  (0x5019, 0x4CAE_5689),
  (0x501E, 0x5698_4AD0),
  (0x5021, 0x5690_5691_5569_487D_568E_52F1),
  (0x5028, 0x568B_5692_568D_4D51_5693_4FF9),
  (0x5036, 0x4F63),
  (0x5039, 0x52FA),
  (0x5040, 0x568A),
  (0x5042, 0x56A4_569A),
  (0x5046, 0x56A2_569B_569E_4DFB),
  (0x504F, 0x5049_569D),
  (0x5055, 0x569C_56A0),
  (0x505A, 0x569F),
  (0x505C, 0x4E70),
  (0x5065, 0x4681),
  (0x506C, 0x56A5),
  (0x5070, 0x56A3),
  (0x5072, 0x54D2),
  (0x5074, 0x4943_4F95_50C3),
  (0x5078, 0x56A6),
  (0x507D, 0x5059),
  (0x5080, 0x56A7),
  (0x5085, 0x56AA),
  (0x508D, 0x4EE7),
  (0x5091, 0x4FC3),
  (0x5094, 0x56A8),
  (0x5098, 0x509C_46AC_56A9),
  (0x50AC, 0x4C43_54DA),
  (0x50B2, 0x56AD_56B0_56AB_4B58),
  (0x50B7, 0x4C5B),
  (0x50BE, 0x4A43),
  (0x50C2, 0x56B1),
  (0x50C5, 0x4FC9),
  (0x50C9, 0x56AE_56AF),
  (0x50CD, 0x48EC),
  (0x50CF, 0x4BBA),
  (0x50D1, 0x55AD),
  (0x50D5, 0x4ABB_52D4),
  (0x50D8, 0x56B5),
  (0x50DA, 0x4D82),
  (0x50DE, 0x56B3),
  (0x50E3, 0x56B7),
  (0x50E5, 0x56B4),
  (0x50E7, 0x4E84),
  (0x50ED, 0x56B6_56B8),
  (0x50F4, 0x56B2_56BA),
  (0x50F9, 0x56B9),
  (0x50FB, 0x5578),
  (0x5100, 0x49CA_56BC_56BD),
  (0x5104, 0x454E),
  (0x5109, 0x56BB),
  (0x5112, 0x546F),
  (0x5114, 0x56C0_56BF_56C1),
  (0x5118, 0x5290),
  (0x511A, 0x56BE),
  (0x511F, 0x4AA2),
  (0x5121, 0x56C2),
  (0x512A, 0x47DA),
  (0x5132, 0x54BD),
  (0x5137, 0x56C4),
  (0x513A, 0x56C3_56C6_56C5),
  (0x513F, 0x56C7_56C8_4C91),
  (0x5143, 0x4695_4BE8_48C9_4DF3_555A_47A2_459E_56C9_479E_56CA_4B56_5050),
  (0x5150, 0x469F),
  (0x5152, 0x56CB),
  (0x5154, 0x56CC),
  (0x515A, 0x494B),
  (0x515C, 0x51BE),
  (0x5162, 0x56CD),
  (0x5164, 0x56CE_4665),
  (0x5168, 0x46B1_56CF_56D0_4548_46BB_4546_56D1),
  (0x5171, 0x47B3),
  (0x5175, 0x4649_4F67_47AF_47C9),
  (0x517C, 0x48F4),
  (0x5180, 0x56D2),
  (0x5182, 0x56D3),
  (0x5185, 0x458E_4645),
  (0x5189, 0x56D6_4EA1),
  (0x518C, 0x56D5_48EB),
  (0x518F, 0x56D7_619D_56D8_4F8F_56D9),
  (0x5195, 0x56DA_56DB_527E),
  (0x5199, 0x48C4),
  (0x519D, 0x56DC),
  (0x51A0, 0x4E7B),
  (0x51A2, 0x56DF),
  (0x51A4, 0x56DD_5467_56DE),
  (0x51A8, 0x4878_56E0_56E1_56E2_4BDE),
  (0x51B0, 0x56E6_56E4_56E5_56E3_50C9_56E7_5146_48FC),
  (0x51BD, 0x56E9_56E8),
  (0x51C4, 0x52DC_56EA_4F80),
  (0x51C9, 0x56EB),
  (0x51CB, 0x55F9_5344_4BE6),
  (0x51D6, 0x5777),
  (0x51DB, 0x56EC_6884_4ED9),
  (0x51E0, 0x56ED_4DE1),
  (0x51E6, 0x48E6_558A),
  (0x51E9, 0x56EE_549E),
  (0x51EC, 0x56EF_56F0),
  (0x51F0, 0x56F1_51AC),
  (0x51F5, 0x56F2_51EC),
  (0x51F8, 0x50CF_50E6_459B),
  (0x51FD, 0x4BB6_56F3),
  (0x5200, 0x4C50),
  (0x5203, 0x4F44_56F4),
  (0x5206, 0x45B4_4765_4B9B),
  (0x520A, 0x4CD7_56F5),
  (0x520E, 0x54E3),
  (0x5211, 0x4C52),
  (0x5214, 0x56F6_56F7),
  (0x5217, 0x4BB4),
  (0x521D, 0x474B),
  (0x5224, 0x495C_46DD),
  (0x5227, 0x56F8),
  (0x5229, 0x45BC_56F9),
  (0x522E, 0x56FA),
  (0x5230, 0x4CDD),
  (0x5233, 0x56FB),
  (0x5236, 0x46C4_48CF_4B6B_56FC_4BC0_4BF5),
  (0x5243, 0x5379_56FD),
  (0x5247, 0x474D),
  (0x524A, 0x4A90_56FE_51AE_45AF),
  (0x524F, 0x5741),
  (0x5254, 0x5743),
  (0x5256, 0x5199),
  (0x525B, 0x49C7),
  (0x525D, 0x5481_5742),
  (0x5263, 0x4CD3_4766_5481),
  (0x5269, 0x5748_5745),
  (0x526F, 0x4B4E_4D85_5744_47D6_5746_5747_4BE1),
  (0x527D, 0x574A),
  (0x527F, 0x5749),
  (0x5283, 0x55D6),
  (0x5287, 0x49F0_574C_5185),
  (0x528D, 0x574B),
  (0x5291, 0x574E_574D),
  (0x5294, 0x5580),
  (0x529B, 0x45F7_574F),
  (0x529F, 0x4870_459F),
  (0x52A3, 0x4E68),
  (0x52A6, 0x5750),
  (0x52A9, 0x4671_4A64_54C6_5751_5752),
  (0x52AF, 0x5FAA),
  (0x52B1, 0x4D92),
  (0x52B4, 0x48A9_5754),
  (0x52B9, 0x4978),
  (0x52BC, 0x5753),
  (0x52BE, 0x556A),
  (0x52C0, 0x5756_5755),
  (0x52C3, 0x54B1),
  (0x52C5, 0x4EEF),
  (0x52C7, 0x469C),
  (0x52C9, 0x48CE),
  (0x52CD, 0x5757),
  (0x52D2, 0x53D6),
  (0x52D5, 0x45E4),
  (0x52D7, 0x5392_4B9A_46ED),
  (0x52DB, 0x5758),
  (0x52DD, 0x45B5_5759_4AE1_575C),
  (0x52E2, 0x47EE_575A_499F),
  (0x52E6, 0x575B_4C7E),
  (0x52F2, 0x497A_575D),
  (0x52F5, 0x575E),
  (0x52F8, 0x575F_5760_5470),
  (0x52FE, 0x51E9_5297_5761_4F5B_4ECB),
  (0x5305, 0x4AA8_5762_5763_5764),
  (0x530D, 0x5766),
  (0x530F, 0x5768_5767),
  (0x5315, 0x5769_4590_455A),
  (0x5319, 0x5457_576A),
  (0x531D, 0x51B7),
  (0x5320, 0x4E6B_4D4D),
  (0x5323, 0x576C_576B),
  (0x532A, 0x55ED),
  (0x532F, 0x576D),
  (0x5331, 0x576E),
  (0x5333, 0x576F),
  (0x5338, 0x5770_4FD1_4554_4A87),
  (0x533F, 0x50F1_5771_454A),
  (0x5343, 0x454C),
  (0x5345, 0x5772_5773_4E47_45DF_5774_4790),
  (0x534D, 0x5776),
  (0x5351, 0x53AD_4AF2_4996_47D7),
  (0x5357, 0x4559_48E3),
  (0x535A, 0x45F6),
  (0x535C, 0x51C0),
  (0x535E, 0x5779),
  (0x5360, 0x49EE),
  (0x5366, 0x53DB),
  (0x5369, 0x577A),
  (0x536E, 0x577B_4C82_4799_4B91_577C_4B6D_4AA4_4CF5),
  (0x5377, 0x577D_4E79),
  (0x537B, 0x577E),
  (0x537F, 0x53E2),
  (0x5382, 0x577F),
  (0x5384, 0x5352),
  (0x5393, 0x5780),
  (0x5396, 0x5781),
  (0x5398, 0x4F55),
  (0x539A, 0x4942),
  (0x539F, 0x4574_5782),
  (0x53A5, 0x5784_5783),
  (0x53A8, 0x5178_5367),
  (0x53AD, 0x53B7_5785),
  (0x53B0, 0x5786),
  (0x53B2, 0x5787_4C8E),
  (0x53B6, 0x5788),
  (0x53BB, 0x4ACA),
  (0x53C2, 0x48D2_5789),
  (0x53C8, 0x48F5_50A5_485C_46D4_4B71_47F9_4791),
  (0x53D4, 0x4FA5),
  (0x53D6, 0x46A6_484C),
  (0x53D9, 0x50F5),
  (0x53DB, 0x55B2),
  (0x53DD, 0x578B),
  (0x53DF, 0x578C),
  (0x53E1, 0x5194_53F5_4588_45D4_4C8B),
  (0x53E8, 0x5791_4F71_4E41_4DD5_4F86_5792_5790_47C6_4778_5042_47D9_485A),
  (0x53F6, 0x4F59_48E2_45F0),
  (0x53FA, 0x5793),
  (0x5401, 0x5794),
  (0x5403, 0x55EA_47BA),
  (0x5408, 0x45A0_457E_53D3_55BC_466D_45F3_51AF_50C6_4EB2_46A5),
  (0x541B, 0x47CF),
  (0x541D, 0x579D),
  (0x541F, 0x507A_53E1),
  (0x5426, 0x4C4F),
  (0x5429, 0x579C),
  (0x542B, 0x49CB_5797_5798_579A),
  (0x5436, 0x579B),
  (0x5438, 0x4B98_49C4),
  (0x543B, 0x53E5_5799_5795_47F6),
  (0x5440, 0x5796),
  (0x5442, 0x4B50),
  (0x5446, 0x5073),
  (0x5448, 0x4F56_4AEE_4954),
  (0x544E, 0x579E),
  (0x5451, 0x50B0),
  (0x545F, 0x57A2),
  (0x5468, 0x48A1),
  (0x546A, 0x548D),
  (0x5470, 0x57A5_57A3),
  (0x5473, 0x477F),
  (0x5475, 0x57A0_57AA_57A4),
  (0x547B, 0x57A7_4AF6_49B0),
  (0x5480, 0x57A8),
  (0x5484, 0x57AB),
  (0x5486, 0x57AD),
  (0x548A, 0x57AE_4F50_457A),
  (0x548E, 0x57A1_579F_57AC),
  (0x5492, 0x57A6),
  (0x549C, 0x57A9),
  (0x54A2, 0x57B2),
  (0x54A4, 0x57BC_57B4),
  (0x54A8, 0x57B9_57BD),
  (0x54AB, 0x57BA_57B5),
  (0x54AF, 0x57B1),
  (0x54B2, 0x4CDE_53E9),
  (0x54B8, 0x57B3),
  (0x54BC, 0x57B0_52B1_57BE),
  (0x54C0, 0x4EF9_45D0_57BB),
  (0x54C4, 0x57B6),
  (0x54C7, 0x57AF_57B8_4A6B),
  (0x54D8, 0x57B7),
  (0x54E1, 0x46CB_57C7),
  (0x54E5, 0x57BF_57C1),
  (0x54E8, 0x5568_55F0),
  (0x54ED, 0x57C6_57C5),
  (0x54F2, 0x4747),
  (0x54FA, 0x547C),
  (0x54FD, 0x57C4),
  (0x54FF, 0x57C0),
  (0x5504, 0x4CDB),
  (0x5506, 0x51B8_4F76),
  (0x550F, 0x57C2_4BAB),
  (0x5514, 0x57C3),
  (0x5516, 0x54D4),
  (0x552E, 0x57CC_4BE0),
  (0x5531, 0x4D43),
  (0x5533, 0x57D2),
  (0x5538, 0x57D1_57C8),
  (0x553E, 0x5478),
  (0x5540, 0x57C9),
  (0x5544, 0x5383_57CE_46BE),
  (0x554C, 0x57CB),
  (0x554F, 0x46E4),
  (0x5553, 0x47E4),
  (0x5556, 0x57CF_57D0),
  (0x555C, 0x57CD_57D3_54D4),
  (0x5563, 0x57CA),
  (0x557B, 0x57D8_57DD),
  (0x557E, 0x57D9),
  (0x5580, 0x57D5),
  (0x5583, 0x57DF_46B3),
  (0x5586, 0x57DE_57E1),
  (0x5589, 0x5253_57D6_5558),
  (0x5598, 0x57DA_57D4_52B5),
  (0x559C, 0x45D1_5475_57DB_57D7),
  (0x55A7, 0x4FD3_57E2_57E0_5168_4D6D_4C5F),
  (0x55AE, 0x57DC),
  (0x55B0, 0x4EB9),
  (0x55B6, 0x48D3),
  (0x55C4, 0x57E5_57E3),
  (0x55C7, 0x5858),
  (0x55D4, 0x57E8),
  (0x55DA, 0x52A2),
  (0x55DC, 0x57E6),
  (0x55DF, 0x57E4),
  (0x55E3, 0x4B5E_57E7),
  (0x55F7, 0x57EB),
  (0x55F9, 0x57E9),
  (0x55FD, 0x57EE_57ED),
  (0x5606, 0x5063),
  (0x5609, 0x477E),
  (0x5614, 0x57EA),
  (0x5616, 0x57EC_54EC_50F3),
  (0x561B, 0x57EF),
  (0x5629, 0x52CA),
  (0x562F, 0x57F8),
  (0x5631, 0x50CA_57F3),
  (0x5634, 0x547F),
  (0x5636, 0x57F2),
  (0x5638, 0x57F4),
  (0x5642, 0x529B),
  (0x564C, 0x5062),
  (0x564E, 0x57F0),
  (0x5650, 0x57F1),
  (0x565B, 0x547D),
  (0x5664, 0x57F6),
  (0x5668, 0x45FC),
  (0x566A, 0x57FA_57F5_57F9),
  (0x5674, 0x4E6D),
  (0x5678, 0x55F1),
  (0x567A, 0x5582),
  (0x5680, 0x57FE),
  (0x5686, 0x57F7_55D8),
  (0x568A, 0x5841),
  (0x568F, 0x57FD),
  (0x5694, 0x57FC),
  (0x5699, 0x547D),
  (0x56A0, 0x5842),
  (0x56A2, 0x5190),
  (0x56A5, 0x5843),
  (0x56AE, 0x5844),
  (0x56B4, 0x5846),
  (0x56B6, 0x5845),
  (0x56BC, 0x5849),
  (0x56C0, 0x584C_584A_5848_584B),
  (0x56C8, 0x5847),
  (0x56CA, 0x5190),
  (0x56CE, 0x584D),
  (0x56D1, 0x584F),
  (0x56D3, 0x584E),
  (0x56D7, 0x5850_56D4),
  (0x56DA, 0x5065_4544),
  (0x56DE, 0x46A9),
  (0x56E0, 0x4A49),
  (0x56E3, 0x47F0),
  (0x56EE, 0x5851),
  (0x56F0, 0x4B44),
  (0x56F2, 0x4AFA_47C1),
  (0x56F9, 0x5852_4A94),
  (0x56FD, 0x458F),
  (0x56FF, 0x5853_5266),
  (0x5703, 0x53CF_5854),
  (0x5708, 0x5856_5855),
  (0x570B, 0x51BD),
  (0x570D, 0x5857),
  (0x570F, 0x4F49),
  (0x5712, 0x47E1_54E7),
  (0x5716, 0x585A),
  (0x5718, 0x5859),
  (0x571C, 0x585B),
  (0x571F, 0x4684),
  (0x5726, 0x585C_4782_47CD),
  (0x572D, 0x49E6),
  (0x5730, 0x45C2),
  (0x5737, 0x51D1_585D),
  (0x573B, 0x585F),
  (0x5740, 0x5861),
  (0x5742, 0x45EC),
  (0x5747, 0x49AE),
  (0x574A, 0x4C55),
  (0x574E, 0x585E_5862_4E8D_4EF3),
  (0x5759, 0x5860),
  (0x5761, 0x5865),
  (0x5764, 0x53A6_5863_51C4),
  (0x5769, 0x5398_4949),
  (0x577F, 0x5866),
  (0x5782, 0x4BC9),
  (0x5788, 0x5864_5867),
  (0x578B, 0x46E6),
  (0x5793, 0x5868),
  (0x57A0, 0x5869),
  (0x57A2, 0x5466_47CE_586A),
  (0x57AA, 0x586D),
  (0x57AC, 0x586C),
  (0x57B0, 0x53CD),
  (0x57B3, 0x586B),
  (0x57C0, 0x5871),
  (0x57C3, 0x586E),
  (0x57C6, 0x586F_5873_5870),
  (0x57CB, 0x4EAC),
  (0x57CE, 0x45DB),
  (0x57D2, 0x5874_5875_5872),
  (0x57D6, 0x5876),
  (0x57DC, 0x4DF4),
  (0x57DF, 0x48E9_517E),
  (0x57E3, 0x5879),
  (0x57F4, 0x4F48),
  (0x57F7, 0x4D57),
  (0x57F9, 0x4DAC_46F1),
  (0x57FC, 0x46A3),
  (0x5800, 0x469D),
  (0x5802, 0x497F),
  (0x5805, 0x4AE7_5371),
  (0x580A, 0x5878_587A),
  (0x5815, 0x53B0),
  (0x5819, 0x587B),
  (0x581D, 0x53A7),
  (0x5821, 0x587C),
  (0x5824, 0x4B61),
  (0x582A, 0x4FAC),
  (0x582F, 0x4E53_50A4_49B8),
  (0x5834, 0x45D9_54F6),
  (0x583A, 0x4A7C),
  (0x583D, 0x5880),
  (0x5840, 0x539F_4BEB),
  (0x584A, 0x5053_587D),
  (0x5851, 0x4EC6_5881),
  (0x5854, 0x4CCB),
  (0x5857, 0x486A_52F8_4F6F_4657),
  (0x585E, 0x53C1),
  (0x5861, 0x4F5E_587E),
  (0x5869, 0x4743),
  (0x586B, 0x4F5E),
  (0x5870, 0x5883),
  (0x5872, 0x5886),
  (0x5875, 0x4D89),
  (0x5879, 0x5884),
  (0x587E, 0x5279),
  (0x5883, 0x4A95),
  (0x5885, 0x5885),
  (0x5893, 0x4EBE),
  (0x5897, 0x464D),
  (0x589C, 0x5150),
  (0x589E, 0x588A_5887),
  (0x58A8, 0x4AFC),
  (0x58AB, 0x5888),
  (0x58AE, 0x588B),
  (0x58B2, 0x588C_5289),
  (0x58B8, 0x5889_588D_588E_5552),
  (0x58BE, 0x5488),
  (0x58C1, 0x4B95),
  (0x58C5, 0x588F),
  (0x58C7, 0x4E8E),
  (0x58CA, 0x4EC8),
  (0x58CC, 0x5196),
  (0x58D1, 0x5891),
  (0x58D3, 0x5890),
  (0x58D5, 0x55B9),
  (0x58D7, 0x5892_5894_5893),
  (0x58DC, 0x5896),
  (0x58DE, 0x5895_5897),
  (0x58E4, 0x5898_5899),
  (0x58EB, 0x467D_514F),
  (0x58EE, 0x4C9F_589A_496C_4EB0_4775),
  (0x58F7, 0x589B),
  (0x58F9, 0x589C_5077_589D_589E_5275),
  (0x5902, 0x589F),
  (0x5909, 0x476F_58A0_58A1),
  (0x590F, 0x497E_58A2),
  (0x5915, 0x4AC3_4694),
  (0x5918, 0x52C8_54DD_45FE_58A3_48C8),
  (0x5922, 0x4B8B),
  (0x5925, 0x58A5),
  (0x5927, 0x455B),
  (0x5929, 0x468A_45AB_4573_58A6_58A7_4792),
  (0x5931, 0x4941_58A8),
  (0x5937, 0x5147_58A9),
  (0x593E, 0x58AA),
  (0x5944, 0x52F2),
  (0x5947, 0x4D69_45E6_4DB2),
  (0x594E, 0x518F_4C53_58AC_4C64),
  (0x5953, 0x58AD_5284_58AB),
  (0x5957, 0x5583_58AF),
  (0x595A, 0x58AE_58B0),
  (0x595D, 0x58B1),
  (0x5960, 0x58B4),
  (0x5962, 0x58B3_58B2),
  (0x5965, 0x46E5),
  (0x5967, 0x58B5_4ECA_58B7_4EBB),
  (0x596C, 0x58B6),
  (0x596E, 0x4EDD),
  (0x5973, 0x4699_4D90),
  (0x5978, 0x58B8),
  (0x597D, 0x469E),
  (0x5981, 0x58B9_4BF8_51A2_554D),
  (0x598A, 0x5043),
  (0x598D, 0x58BA),
  (0x5993, 0x5395),
  (0x5996, 0x53D1),
  (0x5999, 0x4A66),
  (0x599B, 0x58BB),
  (0x599D, 0x58BC),
  (0x59A3, 0x58BD_58BE_4D9E),
  (0x59A8, 0x50EC),
  (0x59AC, 0x537F),
  (0x59B2, 0x58BF),
  (0x59B9, 0x4BDC_58C0_49A3),
  (0x59BE, 0x53AF),
  (0x59C6, 0x58C1),
  (0x59C9, 0x4CC1),
  (0x59CB, 0x4990),
  (0x59D0, 0x549C_53F2),
  (0x59D3, 0x4FF1_484F),
  (0x59D9, 0x58C3_58C4),
  (0x59DC, 0x5184),
  (0x59E5, 0x5255_55DE),
  (0x59E8, 0x58C2),
  (0x59EA, 0x558C_4AB3),
  (0x59F6, 0x5179),
  (0x59FB, 0x52B9),
  (0x59FF, 0x4B42),
  (0x5A01, 0x4C65),
  (0x5A03, 0x557A),
  (0x5A09, 0x58CA),
  (0x5A11, 0x58C7),
  (0x5A18, 0x4B54),
  (0x5A1A, 0x58C9),
  (0x5A1C, 0x58C8),
  (0x5A1F, 0x58C6_524C),
  (0x5A25, 0x58C5),
  (0x5A29, 0x549F),
  (0x5A2F, 0x50B5),
  (0x5A35, 0x58CE_58CF),
  (0x5A3C, 0x5498),
  (0x5A40, 0x58CB_50F8),
  (0x5A46, 0x4ECC),
  (0x5A49, 0x58CD),
  (0x5A5A, 0x4A77),
  (0x5A62, 0x58D0),
  (0x5A66, 0x496F),
  (0x5A6A, 0x58D1),
  (0x5A6C, 0x58CC),
  (0x5A7F, 0x5454),
  (0x5A92, 0x4D80),
  (0x5A9A, 0x58D2_4855),
  (0x5ABC, 0x58D3_58D8_58D4),
  (0x5AC1, 0x4E89_58D7),
  (0x5AC9, 0x53E0),
  (0x5ACB, 0x58D6_4EC3),
  (0x5AD0, 0x58D5),
  (0x5AD6, 0x58DD_58DA),
  (0x5AE1, 0x5567),
  (0x5AE3, 0x58D9),
  (0x5AE6, 0x58DB),
  (0x5AE9, 0x58DC),
  (0x5AFA, 0x58DE_58DF),
  (0x5B09, 0x4F8B),
  (0x5B0B, 0x58E1_58E0),
  (0x5B16, 0x58E2),
  (0x5B22, 0x4DE4),
  (0x5B2A, 0x58E4),
  (0x5B2C, 0x52EA),
  (0x5B30, 0x55E8),
  (0x5B32, 0x58E3),
  (0x5B36, 0x58E5),
  (0x5B3E, 0x58E6),
  (0x5B40, 0x58E9),
  (0x5B43, 0x58E7),
  (0x5B45, 0x58E8),
  (0x5B50, 0x4564_58EA),
  (0x5B54, 0x4BD9_58EB_58EC_48F2_4A41),
  (0x5B5A, 0x5258_58EE_4FF2_45F4),
  (0x5B5F, 0x4F83),
  (0x5B63, 0x4AEC_4EAF_58EF_45BE),
  (0x5B69, 0x58F0),
  (0x5B6B, 0x4C5E),
  (0x5B70, 0x58F1_595B),
  (0x5B73, 0x58F2),
  (0x5B75, 0x58F3),
  (0x5B78, 0x58F4),
  (0x5B7A, 0x58F5),
  (0x5B80, 0x58F6),
  (0x5B83, 0x58F7),
  (0x5B85, 0x486F),
  (0x5B87, 0x46D5_46F0_45A8),
  (0x5B8B, 0x524D_48C5_4C75),
  (0x5B8F, 0x46C8),
  (0x5B95, 0x515C),
  (0x5B97, 0x47DD_49A2_4D64_45E7_50AB_4D8B_494D),
  (0x5B9F, 0x45ED),
  (0x5BA2, 0x4ADE_498F_47B8_4F7A_58F8),
  (0x5BAE, 0x4592),
  (0x5BB0, 0x4ED4),
  (0x5BB3, 0x4968_5078_52EF_4686),
  (0x5BB8, 0x58F9_4889),
  (0x5BBF, 0x4882_58FC),
  (0x5BC2, 0x4FE9_58FA_49DF_4A84_4A56_58FB),
  (0x5BC9, 0x58FD),
  (0x5BCC, 0x45AC),
  (0x5BD0, 0x5941),
  (0x5BD2, 0x4B81_55F4_5244),
  (0x5BD8, 0x5942),
  (0x5BDB, 0x47F8),
  (0x5BDD, 0x4B59_5943_4B93),
  (0x5BE1, 0x52B8_5946),
  (0x5BE4, 0x5945_5947_51FC_4FA9_5C7E_4987),
  (0x5BEB, 0x5948_5944),
  (0x5BEE, 0x4C7A),
  (0x5BF0, 0x5949),
  (0x5BF3, 0x594A),
  (0x5BF5, 0x5556_594B),
  (0x5BF8, 0x4B60),
  (0x5BFA, 0x46A0),
  (0x5BFE, 0x4656_46B2),
  (0x5C01, 0x4D76_49FB),
  (0x5C04, 0x498A_594C_4959_594D_594E_5189_4CEF_4D5F),
  (0x5C0D, 0x594F_48AE_455D),
  (0x5C11, 0x484A),
  (0x5C13, 0x5950),
  (0x5C16, 0x53C0),
  (0x5C1A, 0x4871),
  (0x5C1E, 0x5951),
  (0x5C20, 0x5952),
  (0x5C22, 0x5953),
  (0x5C24, 0x53AE),
  (0x5C28, 0x5954),
  (0x5C2D, 0x6880),
  (0x5C31, 0x4BEE),
  (0x5C38, 0x5955_515D_4C6B_49CE_4A86_4FB9_45C8_4CC6_488B_5956),
  (0x5C45, 0x485E_5957),
  (0x5C48, 0x4D94),
  (0x5C4A, 0x4DA7_45E9),
  (0x5C4D, 0x55BA_5958_5443_595A_54B2),
  (0x5C53, 0x5959),
  (0x5C55, 0x48DD),
  (0x5C5B, 0x5443),
  (0x5C5E, 0x476D),
  (0x5C60, 0x53FB_55C0_55C0),
  (0x5C64, 0x4A8E_4CA2),
  (0x5C6C, 0x595C),
  (0x5C6E, 0x595D_4FDD),
  (0x5C71, 0x4565),
  (0x5C76, 0x595E),
  (0x5C79, 0x595F),
  (0x5C8C, 0x5960),
  (0x5C90, 0x474A_525A),
  (0x5C94, 0x5961),
  (0x5CA1, 0x4572),
  (0x5CA6, 0x5967),
  (0x5CA8, 0x54B9_45BF),
  (0x5CAB, 0x5963_50D5),
  (0x5CB1, 0x5262),
  (0x5CB3, 0x4D46),
  (0x5CB6, 0x5965_5966_4748),
  (0x5CBA, 0x5968_5964_596A),
  (0x5CBE, 0x5962),
  (0x5CC5, 0x5969),
  (0x5CC7, 0x596B),
  (0x5CD9, 0x596C),
  (0x5CE0, 0x4F96_51B3),
  (0x5CE8, 0x4F9D_596D_5972),
  (0x5CED, 0x5971),
  (0x5CEF, 0x4AAC_48FE),
  (0x5CF5, 0x5970_456F),
  (0x5CFA, 0x596F_5072),
  (0x5CFD, 0x596E),
  (0x5D07, 0x4C7F),
  (0x5D0B, 0x5973),
  (0x5D0E, 0x457F),
  (0x5D11, 0x5977),
  (0x5D14, 0x514D_5974_5074_54F1_597C_597B_597A_5976),
  (0x5D1F, 0x5975),
  (0x5D22, 0x5979),
  (0x5D27, 0x5978),
  (0x5D29, 0x4F5F),
  (0x5D42, 0x5984),
  (0x5D4B, 0x5983_597D),
  (0x5D4E, 0x5982),
  (0x5D50, 0x498C),
  (0x5D52, 0x597E_597F),
  (0x5D5C, 0x5981),
  (0x5D69, 0x509E),
  (0x5D6C, 0x5985_5987),
  (0x5D6F, 0x4ED3),
  (0x5D73, 0x5986),
  (0x5D76, 0x5988),
  (0x5D82, 0x598B),
  (0x5D84, 0x598A),
  (0x5D87, 0x5989),
  (0x5D8B, 0x47D1_598C),
  (0x5D90, 0x598F),
  (0x5D9D, 0x598E),
  (0x5DA2, 0x598D),
  (0x5DAC, 0x5990),
  (0x5DAE, 0x5991),
  (0x5DB7, 0x5992_5993_5995_4CE8),
  (0x5DBC, 0x5994_4F84),
  (0x5DC9, 0x5996),
  (0x5DCC, 0x49CF_5281),
  (0x5DD0, 0x5997),
  (0x5DD2, 0x5999_5998),
  (0x5DD6, 0x51DF),
  (0x5DDB, 0x599A),
  (0x5DDD, 0x4567_4741),
  (0x5DE1, 0x4D47),
  (0x5DE3, 0x4C67),
  (0x5DE5, 0x456A_485B_4CA3_4A52),
  (0x5DEB, 0x599B),
  (0x5DEE, 0x498B),
  (0x5DF1, 0x47AD_4A4B_4AE6_4E7D_599C),
  (0x5DF7, 0x53CB),
  (0x5DFB, 0x4893),
  (0x5DFD, 0x4E46_4A7D),
  (0x5E02, 0x4553_476B),
  (0x5E06, 0x4F75),
  (0x5E0B, 0x599D_4AB5),
  (0x5E11, 0x59A0),
  (0x5E16, 0x51C7),
  (0x5E19, 0x599F_599E_59A1),
  (0x5E1D, 0x489C),
  (0x5E25, 0x52AF),
  (0x5E2B, 0x4A44),
  (0x5E2D, 0x4B53),
  (0x5E2F, 0x4960_4982),
  (0x5E33, 0x4DC5),
  (0x5E36, 0x59A2_54BE_46EF),
  (0x5E3D, 0x4C85),
  (0x5E40, 0x59A5),
  (0x5E43, 0x59A4_59A3_4A5E),
  (0x5E47, 0x59A6),
  (0x5E4C, 0x496B),
  (0x5E4E, 0x59A7),
  (0x5E54, 0x59A9_4CCA),
  (0x5E57, 0x59A8),
  (0x5E5F, 0x5483),
  (0x5E61, 0x48DE_59AA_4E7F_59AB),
  (0x5E72, 0x4A6F_458D_4560_59AC_59AD),
  (0x5E78, 0x45A9_48DA_59AE_50A2_4DAF_525F_4B57_59AF),
  (0x5E81, 0x4B92),
  (0x5E83, 0x45B7_4850),
  (0x5E87, 0x558D),
  (0x5E8A, 0x4AED),
  (0x5E8F, 0x4D4F),
  (0x5E95, 0x4B64_554F_4854),
  (0x5E9A, 0x515A),
  (0x5E9C, 0x4551),
  (0x5EA0, 0x59B0),
  (0x5EA6, 0x45DE_48B1),
  (0x5EAB, 0x45F8),
  (0x5EAD, 0x48E0),
  (0x5EB5, 0x4EEB_50C1_469A_4C5D),
  (0x5EC1, 0x59B1_59B2_4BC7),
  (0x5EC8, 0x59B3_4EDB_4EA7),
  (0x5ECF, 0x59B5_59B4),
  (0x5ED3, 0x54AD),
  (0x5ED6, 0x536C),
  (0x5EDA, 0x59B7_59B8),
  (0x5EDD, 0x59B6),
  (0x5EDF, 0x55AF_5562_59BA_59B9_50E9),
  (0x5EE8, 0x59BB_59BC),
  (0x5EEC, 0x59BD),
  (0x5EF0, 0x59BE_59BF),
  (0x5EF3, 0x59C0_59C1),
  (0x5EF6, 0x47D0_505B_52D6),
  (0x5EFA, 0x4666_4BAF_5564),
  (0x5EFE, 0x544B_51D9),
  (0x5F01, 0x4B47),
  (0x5F03, 0x59C2_54BF),
  (0x5F09, 0x59C3_50CD_59C4_5641_5651),
  (0x5F0F, 0x468F_50E1_59C5),
  (0x5F13, 0x4B63_51E5_46DA_59C6_54AC_45D3),
  (0x5F1B, 0x5597),
  (0x5F1F, 0x4C9B),
  (0x5F21, 0x59C7),
  (0x5F25, 0x47E6_4E42_536B),
  (0x5F29, 0x59C8),
  (0x5F2D, 0x59C9),
  (0x5F2F, 0x59CA),
  (0x5F31, 0x4B6E),
  (0x5F34, 0x59CB_48BA),
  (0x5F37, 0x46D2_59CC),
  (0x5F3C, 0x52E0),
  (0x5F3E, 0x4AD4),
  (0x5F41, 0x59CD),
  (0x5F45, 0x53C7),
  (0x5F48, 0x59CE),
  (0x5F4A, 0x5385),
  (0x5F4C, 0x59CF),
  (0x5F4E, 0x59D0),
  (0x5F51, 0x59D1),
  (0x5F53, 0x465F),
  (0x5F56, 0x59D2_59D3),
  (0x5F59, 0x59D4),
  (0x5F5C, 0x59D5_59D6),
  (0x5F61, 0x59D7_4690),
  (0x5F66, 0x45E1_59D8),
  (0x5F69, 0x4DCD_5159_4E86_4E88_529C),
  (0x5F70, 0x4964_495E),
  (0x5F73, 0x59D9),
  (0x5F77, 0x59DA),
  (0x5F79, 0x495D),
  (0x5F7C, 0x4772),
  (0x5F7F, 0x59DD_4CEA_4A61_59DC_59DB_4E60_48A3),
  (0x5F87, 0x59E0_59DF),
  (0x5F8A, 0x59DE_4991_45E5),
  (0x5F90, 0x50B3_59E1_4C6C_48FB),
  (0x5F97, 0x47E8_59E4_59E2),
  (0x5F9E, 0x59E3),
  (0x5FA0, 0x59E5_4698),
  (0x5FA8, 0x59E6_4A70_4EF5),
  (0x5FAD, 0x59E7_4B5D),
  (0x5FB3, 0x4654_4C74),
  (0x5FB7, 0x59E8),
  (0x5FB9, 0x48F8),
  (0x5FBC, 0x59E9_55E0),
  (0x5FC3, 0x46E7),
  (0x5FC5, 0x47CA),
  (0x5FCC, 0x5097_4BD7),
  (0x5FD6, 0x59EA_4661_4C45_4EA3),
  (0x5FDC, 0x4895_59F0_59F1),
  (0x5FE0, 0x464F),
  (0x5FE4, 0x59EC),
  (0x5FEB, 0x4C60),
  (0x5FF0, 0x59EF_59EE),
  (0x5FF5, 0x4AAE),
  (0x5FF8, 0x59ED),
  (0x5FFB, 0x59EB),
  (0x5FFD, 0x5056),
  (0x5FFF, 0x59F2),
  (0x600E, 0x59F7_59FD_59F5),
  (0x6012, 0x4CD6),
  (0x6015, 0x59FA_4EF0),
  (0x6019, 0x59F4),
  (0x601B, 0x59F9_509F_46AD),
  (0x6020, 0x5081_59F3),
  (0x6025, 0x47CC_59FC_466E_54DE_59F6_4E71_59FB),
  (0x602F, 0x5542),
  (0x6031, 0x59F8),
  (0x603A, 0x59FE),
  (0x6041, 0x5A42_5256_5A4C),
  (0x6046, 0x5A49),
  (0x604A, 0x5A48_4BCA),
  (0x604D, 0x5A4A),
  (0x6050, 0x4BD5),
  (0x6052, 0x47C7),
  (0x6055, 0x5298),
  (0x6059, 0x5A50_5A41),
  (0x605D, 0x5A44),
  (0x605F, 0x5A47_5A43),
  (0x6062, 0x5594_5A4B_5A4D_4ECE),
  (0x6068, 0x53B8_4C81_5A45_5A4F_5A4E_494E),
  (0x606F, 0x4BB0_5384),
  (0x6075, 0x4643),
  (0x6077, 0x5A46),
  (0x6081, 0x5A52),
  (0x6083, 0x5A53_5A55_5A51),
  (0x6089, 0x5469_5A57_5A5C_4DE3_5544),
  (0x6092, 0x5A5A),
  (0x6094, 0x5091),
  (0x6096, 0x5A58_5A59),
  (0x609A, 0x5A54_5A56),
  (0x609F, 0x4AB1_4DD8),
  (0x60A3, 0x4DEB),
  (0x60A6, 0x4873_5A5B),
  (0x60A9, 0x4BCD_4965),
  (0x60B2, 0x4C9D_5276_53A3_5A64_5554),
  (0x60B8, 0x5A5E),
  (0x60BC, 0x5145_5A62),
  (0x60C5, 0x485F_5A63_4E65),
  (0x60D1, 0x4E78),
  (0x60D3, 0x5A61),
  (0x60D5, 0x5A65),
  (0x60D8, 0x5A66),
  (0x60DA, 0x549D),
  (0x60DC, 0x4ED7),
  (0x60DE, 0x5A5F_4FE0_5A60_5A5D),
  (0x60E3, 0x4B68),
  (0x60E7, 0x554A_506E),
  (0x60F0, 0x54B8_5A73_5A68_48B3_5A6E),
  (0x60F6, 0x5A6B_5A6C),
  (0x60F9, 0x5472_5A6F_5A72),
  (0x6100, 0x5A6D_5282),
  (0x6103, 0x5A70),
  (0x6106, 0x5A6A),
  (0x6108, 0x53C8_5098),
  (0x610D, 0x5A74_5A75_4763),
  (0x6111, 0x5A76),
  (0x6115, 0x5A69),
  (0x611A, 0x52B2_45C6),
  (0x611F, 0x47F7_5A67_5A71),
  (0x6127, 0x5A7B_5A7A),
  (0x612C, 0x5A80),
  (0x6130, 0x5A7E),
  (0x6134, 0x5A81),
  (0x6137, 0x5A79),
  (0x613C, 0x5A7F_5A84_5A7C_51E3),
  (0x6142, 0x5A85),
  (0x6144, 0x5A86),
  (0x6147, 0x5A77_4CBE),
  (0x614A, 0x5A7D_48FD_538E_5A78_4A76),
  (0x6153, 0x5A92),
  (0x6155, 0x52E3),
  (0x6158, 0x5A8A_5A8B_5A8C),
  (0x615D, 0x5A83),
  (0x615F, 0x5A91),
  (0x6162, 0x4DDB_4DD3),
  (0x6165, 0x5A82),
  (0x6167, 0x4EB6_528A),
  (0x616B, 0x5A8D),
  (0x616E, 0x4C49_5A8F_4FAD_5A90),
  (0x6173, 0x5A87_5A8E_5A93_48A8_5A89),
  (0x617E, 0x53F4),
  (0x6182, 0x507C),
  (0x6187, 0x5A88),
  (0x618A, 0x5A99),
  (0x618E, 0x4F4A),
  (0x6190, 0x555B_5A9A),
  (0x6194, 0x5A98),
  (0x6196, 0x5A96),
  (0x6198, 0x5A94_5A95_55CF),
  (0x61A4, 0x4FFC),
  (0x61A7, 0x53C2),
  (0x61A9, 0x5175),
  (0x61AB, 0x5A9B_5A97),
  (0x61AE, 0x5A9C),
  (0x61B2, 0x47BE),
  (0x61B6, 0x4E6C),
  (0x61BA, 0x5AA3),
  (0x61BE, 0x51A5),
  (0x61C3, 0x5AA1),
  (0x61C6, 0x5AA2_4EA4_5AA0_5A9F_5A9E_5AA4_5A9D_5AA6),
  (0x61D0, 0x4EF2),
  (0x61E3, 0x5AA8),
  (0x61E6, 0x5AA7),
  (0x61F2, 0x5153),
  (0x61F4, 0x5AA9),
  (0x61F6, 0x5AAB_5AAA_4DC6),
  (0x61FA, 0x5AAD),
  (0x61FC, 0x5AAF_5AAC_5AB0_5AAE_5AB1),
  (0x6208, 0x5AB2_5AB3_5161),
  (0x620C, 0x5460_5AB4_517F),
  (0x6210, 0x45BA_49DE_4DA0_5AB5_5AB6),
  (0x6216, 0x4D7F),
  (0x621A, 0x5595_5AB7),
  (0x621D, 0x646E_5AB8_54D9),
  (0x6221, 0x5AB9),
  (0x6226, 0x4764),
  (0x622A, 0x5ABA),
  (0x622E, 0x5ABB_4F92_5ABC),
  (0x6232, 0x5ABD_5ABE_5092),
  (0x6238, 0x45CF),
  (0x623B, 0x4C44),
  (0x623F, 0x47DC_458C_5ABF),
  (0x6247, 0x4DCA_655D_50AD),
  (0x624B, 0x45CB),
  (0x624D, 0x49F1_5AC0),
  (0x6253, 0x47EA),
  (0x6255, 0x4981),
  (0x6258, 0x55D5),
  (0x625B, 0x5AC3),
  (0x625E, 0x5AC1),
  (0x6260, 0x5AC4),
  (0x6263, 0x5AC2),
  (0x6268, 0x5AC5),
  (0x626E, 0x54B7),
  (0x6271, 0x4C69),
  (0x6276, 0x4D7A),
  (0x6279, 0x4C76),
  (0x627C, 0x5AC6),
  (0x627E, 0x5ACA_4C48_48F7),
  (0x6282, 0x5AC7_5ACD_4EC0),
  (0x6289, 0x5AC8_4EE3),
  (0x6291, 0x4D66_5AC9_5ACB_5ACE_4751_5ACC_4A67_498D),
  (0x629B, 0x5ADC_4A85),
  (0x629E, 0x4E7E),
  (0x62A6, 0x5ADA),
  (0x62AB, 0x4FA6_5AD3),
  (0x62B1, 0x4C86),
  (0x62B5, 0x4B90),
  (0x62B9, 0x51E0),
  (0x62BB, 0x5AD1_49E1_4D53),
  (0x62C2, 0x5AD9),
  (0x62C5, 0x4AA1_5AD4_5ADB_5AD5_5ADD_5AD8),
  (0x62CC, 0x5345_4FBA),
  (0x62CF, 0x5AD2_53A2_5AD0_4F61_4BDB_5AD7),
  (0x62D7, 0x5ACF_5045_525C),
  (0x62DB, 0x4BFD_5AD6_4EE2),
  (0x62E0, 0x4D77_48E5),
  (0x62EC, 0x4FC5_4EE5_5ADF_5AE4),
  (0x62F1, 0x5AE0),
  (0x62F3, 0x508D),
  (0x62F5, 0x5AE5_4F9E_55B5),
  (0x62FE, 0x4DD7_5AE6),
  (0x6301, 0x46D8_5AE2),
  (0x6307, 0x47B6_5AE3_5489),
  (0x630C, 0x5ADE),
  (0x6311, 0x4FDB),
  (0x6319, 0x4B82),
  (0x631F, 0x55B1),
  (0x6327, 0x5AE1_4F81),
  (0x632B, 0x548F),
  (0x632F, 0x48F6),
  (0x633A, 0x5387),
  (0x633D, 0x52A8_5AE9_5555),
  (0x6349, 0x53A0),
  (0x634C, 0x557D_5AE8),
  (0x634F, 0x5AEA_5AE7),
  (0x6355, 0x4C41),
  (0x6357, 0x5546),
  (0x635C, 0x4DDD),
  (0x6367, 0x5285_4BB3_5AF5),
  (0x636B, 0x5AF4),
  (0x636E, 0x4ED6),
  (0x6372, 0x5493),
  (0x6376, 0x5AEF_4D8F),
  (0x637A, 0x4FC0_54C0),
  (0x6380, 0x5AED),
  (0x6383, 0x4DC3),
  (0x6388, 0x4C61_5AF2),
  (0x638C, 0x4EEC),
  (0x638E, 0x5AEC_5AF1),
  (0x6392, 0x4CFA),
  (0x6396, 0x5AEB),
  (0x6398, 0x4D44),
  (0x639B, 0x4AE3),
  (0x639F, 0x5AF3_55E6_4B4F_4B7F_5AF0),
  (0x63A5, 0x47A8),
  (0x63A7, 0x4CAC_48D5_55D0_4A60_5AEE_5541),
  (0x63B2, 0x4DC1),
  (0x63B4, 0x54CD_5AF6),
  (0x63BB, 0x54A3),
  (0x63BE, 0x5AF7),
  (0x63C0, 0x5AF9),
  (0x63C3, 0x4EFD_5B42),
  (0x63C6, 0x5AFA),
  (0x63C9, 0x5AFD),
  (0x63CF, 0x4BCF_49B9),
  (0x63D2, 0x5AFE),
  (0x63D6, 0x4CF2),
  (0x63DA, 0x4C46_49AA),
  (0x63E1, 0x4D60),
  (0x63E3, 0x5AFC),
  (0x63E9, 0x5AF8),
  (0x63EE, 0x4BF2),
  (0x63F4, 0x4AD5_5AFB_5B41),
  (0x63FA, 0x4F7E),
  (0x6406, 0x5B44),
  (0x640D, 0x4BD8),
  (0x640F, 0x5B4B),
  (0x6413, 0x5B45_54A3),
  (0x6416, 0x5B4C_5B49),
  (0x641C, 0x5B48),
  (0x6426, 0x5B46),
  (0x6428, 0x5B4A),
  (0x642C, 0x4DC8_528F),
  (0x6434, 0x5B43),
  (0x6436, 0x5B47),
  (0x643A, 0x4E49),
  (0x643E, 0x50A3),
  (0x6442, 0x4E8C),
  (0x644E, 0x5B4D),
  (0x6451, 0x54CD),
  (0x6458, 0x4DCB),
  (0x6460, 0x5B50),
  (0x6467, 0x5B4E),
  (0x6469, 0x48D1),
  (0x646F, 0x5B4F),
  (0x6476, 0x5B51),
  (0x6478, 0x55F5),
  (0x647A, 0x51EF),
  (0x6483, 0x4A74),
  (0x6488, 0x5B5A),
  (0x6492, 0x53DE_5B57),
  (0x6495, 0x5B55),
  (0x649A, 0x5348),
  (0x649D, 0x5B53_55DB),
  (0x64A4, 0x4E7A_5B58),
  (0x64A9, 0x5B59),
  (0x64AB, 0x51E1),
  (0x64AD, 0x4E62_4C77),
  (0x64B0, 0x5372),
  (0x64B2, 0x4EC7),
  (0x64B9, 0x5B52),
  (0x64BB, 0x5B56_5B5B),
  (0x64C1, 0x514E_5B62),
  (0x64C5, 0x5B5E),
  (0x64C7, 0x5B5F),
  (0x64CD, 0x499B_5B54),
  (0x64D2, 0x5B5D),
  (0x64D4, 0x5B60),
  (0x64D8, 0x5B61),
  (0x64DA, 0x5B5C),
  (0x64E0, 0x5B65_5B66_5543_5B67),
  (0x64E6, 0x4FD6_5B64),
  (0x64EC, 0x4FCD),
  (0x64EF, 0x5B68),
  (0x64F1, 0x5B63_5B6B),
  (0x64F4, 0x5B69),
  (0x64F6, 0x5B6A),
  (0x64FA, 0x5B6C),
  (0x64FD, 0x5B6E_55F6),
  (0x6500, 0x5B6D),
  (0x6505, 0x5B72),
  (0x6518, 0x5B6F),
  (0x651C, 0x5B70_5B71),
  (0x6522, 0x5B72_5B74_5B73),
  (0x652A, 0x527F_5B75_5B76),
  (0x652F, 0x477B),
  (0x6534, 0x5B77_5B78_5B7A_5B79_5B7B_488F),
  (0x653B, 0x4BC5),
  (0x653E, 0x48AF_45C7),
  (0x6545, 0x4AF7),
  (0x6548, 0x5B7D),
  (0x654D, 0x5B80_5B7E_4647),
  (0x6551, 0x4C5C),
  (0x6555, 0x5B82_5B7F_4B8A_5B81_47A5),
  (0x655D, 0x5B83_51B1),
  (0x6562, 0x4FCF_4AC9),
  (0x6566, 0x49F2),
  (0x656C, 0x47B0),
  (0x6570, 0x46CC),
  (0x6572, 0x5B84),
  (0x6574, 0x477C_4BF3),
  (0x6577, 0x4951_5B85),
  (0x6582, 0x5B86_5B87),
  (0x6587, 0x45CA_58ED_468E),
  (0x658C, 0x519D),
  (0x658E, 0x47DB),
  (0x6590, 0x4B80_52E4),
  (0x6597, 0x4E83),
  (0x6599, 0x464E),
  (0x659B, 0x5B89_4BD1),
  (0x659F, 0x5B8A),
  (0x65A1, 0x5581),
  (0x65A4, 0x54CF_5141),
  (0x65A7, 0x51C2),
  (0x65AB, 0x5B8B_4EFC_4989),
  (0x65AF, 0x4EA5_4587),
  (0x65B7, 0x5B8C),
  (0x65B9, 0x45CD),
  (0x65BC, 0x4DA4_4888),
  (0x65C1, 0x5B8F),
  (0x65C3, 0x5B8D_5B90_4ACF_5B8E),
  (0x65CB, 0x4D7B_5B91),
  (0x65CF, 0x4ADC),
  (0x65D2, 0x5B92),
  (0x65D7, 0x4DAB),
  (0x65D9, 0x5B93),
  (0x65DB, 0x5165),
  (0x65E0, 0x5B95_5B94_4B77),
  (0x65E5, 0x4562_4D9D_4C7B_4D6A_46E9),
  (0x65EC, 0x4D67_47EC),
  (0x65F1, 0x5B96),
  (0x65FA, 0x4FA3_5B9C),
  (0x6600, 0x5B97),
  (0x6602, 0x5B99_5B9B),
  (0x6606, 0x4FE7_46FE),
  (0x6609, 0x5B9D_528E),
  (0x660C, 0x46D1),
  (0x660E, 0x45A6_54E8),
  (0x6613, 0x47E9_4C59_5B98),
  (0x661C, 0x5BA3),
  (0x661E, 0x5BA1_47A9_47AC),
  (0x6624, 0x5BA4_4662),
  (0x6627, 0x559D_48E8),
  (0x662D, 0x45B3_5BA0_4BBB),
  (0x6631, 0x52EB),
  (0x6634, 0x5BA2_5B9F_5193),
  (0x663B, 0x4F9F_4C98),
  (0x663F, 0x5B9E),
  (0x6641, 0x5251_4651_48B0_5BA5),
  (0x6649, 0x5BA6),
  (0x664B, 0x4BB2),
  (0x664F, 0x51EA),
  (0x6652, 0x54C3),
  (0x6657, 0x5BA8),
  (0x6659, 0x5BAB),
  (0x665D, 0x5BAD_5BA9_4FCE),
  (0x6662, 0x5BAC),
  (0x6664, 0x5BAA_5BA7_556D_50A0_51B2_4CB6),
  (0x666E, 0x49F8_4993_5BB0),
  (0x6673, 0x5BAF_4795),
  (0x6676, 0x4AF8),
  (0x667A, 0x46A8),
  (0x6681, 0x4C83),
  (0x6683, 0x5BB1_5BB3),
  (0x6687, 0x4F46_5BB2_4ED1),
  (0x668E, 0x4FAB),
  (0x6691, 0x4FBE),
  (0x6696, 0x4D6C_4BE2_5BB5_5BB4),
  (0x669D, 0x5BB7),
  (0x66A0, 0x5BB6),
  (0x66A2, 0x4CC7),
  (0x66A6, 0x50CC),
  (0x66AB, 0x5093),
  (0x66AE, 0x4AFE),
  (0x66B2, 0x5BB8),
  (0x66B4, 0x4CB2),
  (0x66B8, 0x5BBF_5243),
  (0x66BC, 0x5BBE),
  (0x66BE, 0x5BBD_5BBB),
  (0x66C1, 0x5BBA),
  (0x66C4, 0x5BB9),
  (0x66C7, 0x4C56),
  (0x66C9, 0x5BBC),
  (0x66D6, 0x5BC0),
  (0x66D9, 0x5152_5BC1),
  (0x66DC, 0x4BFE_52A6),
  (0x66E0, 0x51CC),
  (0x66E6, 0x5BC2),
  (0x66E9, 0x5BC3),
  (0x66F0, 0x5BC4),
  (0x66F2, 0x49B6_4EBC_4A6D_5BC5),
  (0x66F7, 0x5BC6_479D_4ED2_5BC7_5397_578D_495F_5166_4BC3_46F5),
  (0x6703, 0x56AC),
  (0x6708, 0x4561_4685),
  (0x670B, 0x4BC4),
  (0x670D, 0x47D4_5BC8_54FD),
  (0x6714, 0x4FA4_55F3_5BCA_486E),
  (0x671B, 0x47BB),
  (0x671D, 0x475C_5BCB_468B),
  (0x6726, 0x5BCD_5BCE_456C),
  (0x672A, 0x49C6_4746_4566_48F9_5BD0),
  (0x6731, 0x4D42),
  (0x6734, 0x4EA2),
  (0x6736, 0x5BD2_5BD3_5BD4),
  (0x673A, 0x4D96),
  (0x673D, 0x50F0),
  (0x673F, 0x5BD1),
  (0x6741, 0x534F),
  (0x6746, 0x5BD5),
  (0x6749, 0x4668),
  (0x674E, 0x4E51_50D0_46BC_4556),
  (0x6753, 0x54C1),
  (0x6756, 0x50F4),
  (0x6759, 0x5BD7),
  (0x675C, 0x525D),
  (0x675E, 0x5BD6_4B4B_5480_475E_51A6_5291_5BD9_4676_5BD8),
  (0x676A, 0x5BDE),
  (0x676D, 0x508B),
  (0x676F, 0x4C63_5BDC_4557_5B9A_5BE0),
  (0x6775, 0x4AA6),
  (0x6777, 0x5280),
  (0x677C, 0x54DF),
  (0x677E, 0x4578_46B4),
  (0x6785, 0x5BDB),
  (0x6787, 0x525E),
  (0x6789, 0x5BDA),
  (0x678B, 0x5BDF_54F2),
  (0x6790, 0x4AE2),
  (0x6795, 0x4F78),
  (0x6797, 0x45A2),
  (0x679A, 0x49D9),
  (0x679C, 0x47B9_4672),
  (0x67A0, 0x4FD2_5BE2_52D0),
  (0x67A6, 0x5BE1),
  (0x67A9, 0x5BDD),
  (0x67AF, 0x5061),
  (0x67B3, 0x54C9_5BE6),
  (0x67B6, 0x4EE8_5BE4_5BE9_5BF2),
  (0x67BB, 0x5BE3),
  (0x67C0, 0x5BF0_55CD),
  (0x67C4, 0x4A7F),
  (0x67C6, 0x5BF4),
  (0x67CA, 0x52D9),
  (0x67CE, 0x5BF1_4980_504A_4EC1),
  (0x67D3, 0x489B_4DEA),
  (0x67D8, 0x4FD8),
  (0x67DA, 0x4EE1),
  (0x67DD, 0x5BED_54F3),
  (0x67E2, 0x5BEE),
  (0x67E4, 0x5BEB),
  (0x67E7, 0x5BEA),
  (0x67E9, 0x5BE8),
  (0x67EC, 0x5BE7),
  (0x67EE, 0x5BEF_5BE5),
  (0x67F1, 0x4BEA),
  (0x67F3, 0x46EA_47A7_51F1),
  (0x67FB, 0x4773),
  (0x67FE, 0x5054_4AC1),
  (0x6801, 0x5BF3_52D1_47D3_45FA_51F1),
  (0x6813, 0x50E3),
  (0x6816, 0x4DCC_479B),
  (0x681E, 0x5BF5),
  (0x6821, 0x48BF_5242),
  (0x6829, 0x52DE_4856_52E2),
  (0x6832, 0x5BFA),
  (0x6834, 0x55DA),
  (0x6838, 0x4B9E_4667),
  (0x683C, 0x47DE_4DE0),
  (0x6840, 0x5BF8_50D6_49AB_4ADA_5BF9),
  (0x6846, 0x5BF6),
  (0x6848, 0x48F1),
  (0x684D, 0x5BF7_5BFB),
  (0x6850, 0x49C0_4879_5BEC_536D_534B),
  (0x6859, 0x5BFD),
  (0x685C, 0x4771_4D88),
  (0x685F, 0x51F3),
  (0x6863, 0x5BFC),
  (0x6867, 0x5046),
  (0x6874, 0x5C4B),
  (0x6876, 0x4E77_5C41),
  (0x687E, 0x5C44_5C42),
  (0x6881, 0x4E44),
  (0x6883, 0x5C48),
  (0x6885, 0x4798),
  (0x688D, 0x5BFE_5BFE_5C45),
  (0x6893, 0x50DA_5C47),
  (0x6897, 0x52CC),
  (0x689B, 0x53BC),
  (0x689D, 0x4E92),
  (0x689F, 0x5C43_52C6),
  (0x68A2, 0x50AC),
  (0x68A6, 0x58A4_52D3_4858),
  (0x68AD, 0x5C46),
  (0x68AF, 0x51E4_4682_5359),
  (0x68B3, 0x5361),
  (0x68B5, 0x5C4C_49AD),
  (0x68B9, 0x5C4A_5C4D),
  (0x68BC, 0x5C49),
  (0x68C4, 0x4EB1),
  (0x68C6, 0x5C60),
  (0x68C8, 0x5386_55CA_5C50_4EF1),
  (0x68CD, 0x5C56),
  (0x68CF, 0x5C5F),
  (0x68D2, 0x4B5A),
  (0x68D4, 0x5C57_5C59),
  (0x68D7, 0x54C2_5C52),
  (0x68DA, 0x4BEF),
  (0x68DF, 0x4EA9_5C5E_5C54),
  (0x68E3, 0x5C5D),
  (0x68E7, 0x5C58),
  (0x68EE, 0x459D_5C5B),
  (0x68F2, 0x5375),
  (0x68F9, 0x5494_55B6),
  (0x6900, 0x5468_5C4F),
  (0x6904, 0x5C5C_4FF7),
  (0x6908, 0x5C51),
  (0x690B, 0x4DFD_5C55_47C5_4BA0_5C4E),
  (0x6912, 0x5C5A),
  (0x6919, 0x4FED_5370_5163_486D),
  (0x6921, 0x5C63_5C61_5C64),
  (0x6925, 0x53FA_5C53),
  (0x6928, 0x5C65),
  (0x692A, 0x5C62),
  (0x6930, 0x5C71),
  (0x6934, 0x54A7),
  (0x6936, 0x5C69),
  (0x6939, 0x52ED),
  (0x693D, 0x5C6F),
  (0x693F, 0x4CBA),
  (0x694A, 0x51D7),
  (0x6953, 0x5295_5C6B_55C5),
  (0x6959, 0x5C70_534C),
  (0x695C, 0x54E2_5C73_5C72),
  (0x6960, 0x4ADF_527C_4D93),
  (0x6968, 0x5C6E),
  (0x696A, 0x5C6C_54A2),
  (0x696D, 0x456B_53EF_4FAE),
  (0x6973, 0x52B3_5C6D_49B7),
  (0x6977, 0x5C68_5C6A_5C67),
  (0x697C, 0x52BA_4761_5C74),
  (0x6981, 0x5C75_4C42),
  (0x698A, 0x4B52),
  (0x698E, 0x49EB),
  (0x6991, 0x5476),
  (0x6994, 0x55C7_5C86),
  (0x6998, 0x5C79),
  (0x699B, 0x4D7E_5C85),
  (0x69A0, 0x5C84),
  (0x69A7, 0x538D),
  (0x69AE, 0x514A),
  (0x69B1, 0x5C80_5C76),
  (0x69B4, 0x53B2),
  (0x69BB, 0x5C82),
  (0x69BE, 0x5C7C_5C77),
  (0x69C1, 0x5C7A),
  (0x69C3, 0x5C83),
  (0x69C7, 0x4DB9),
  (0x69CA, 0x5C7F_4796_4EFA_52DB_5C7D),
  (0x69D0, 0x548C),
  (0x69D3, 0x5C7B),
  (0x69D8, 0x4848_6881),
  (0x69DD, 0x5C81_5C87),
  (0x69E2, 0x5C90),
  (0x69E7, 0x5C8F_5C89),
  (0x69EB, 0x5C94),
  (0x69ED, 0x5C92),
  (0x69F2, 0x5C8E),
  (0x69F9, 0x5C8D),
  (0x69FB, 0x4B5C),
  (0x69FD, 0x4DB7),
  (0x69FF, 0x5C8C),
  (0x6A02, 0x5C8A),
  (0x6A05, 0x53BB),
  (0x6A0A, 0x5C95_494F_5C9D),
  (0x6A12, 0x5C97_5C99_5C93),
  (0x6A17, 0x538B),
  (0x6A19, 0x4966),
  (0x6A1B, 0x5C8B),
  (0x6A1E, 0x5C91_539B),
  (0x6A21, 0x4864_5C96_5C98),
  (0x6A29, 0x48DC_45F2_4B6F),
  (0x6A2E, 0x5C88),
  (0x6A30, 0x5C9A),
  (0x6A35, 0x5585_5C9F),
  (0x6A38, 0x5CA7_46CF_4E69),
  (0x6A3D, 0x4BBE),
  (0x6A44, 0x5C9C),
  (0x6A46, 0x5CA6_5CA1_5CA5),
  (0x6A4B, 0x4589),
  (0x6A58, 0x4BC2_5CA3),
  (0x6A5F, 0x4579),
  (0x6A61, 0x55D4_5CA2),
  (0x6A66, 0x5CA4),
  (0x6A6B, 0x5C9B),
  (0x6A72, 0x5CA8_5CA9),
  (0x6A78, 0x5CA0),
  (0x6A7E, 0x5CAF_4FB2_4FF5),
  (0x6A84, 0x5CAC),
  (0x6A8D, 0x5CAB_55EE),
  (0x6A90, 0x5CAA),
  (0x6A97, 0x5CB0),
  (0x6A9C, 0x4D55),
  (0x6AA0, 0x5C9E),
  (0x6AA2, 0x5CAD_5CAE),
  (0x6AAA, 0x5CB2),
  (0x6AAC, 0x5CB1),
  (0x6AAE, 0x545D),
  (0x6AB3, 0x5CB6),
  (0x6AB8, 0x5CB5),
  (0x6ABB, 0x5CB3),
  (0x6AC1, 0x5CB7_5CB4_528B),
  (0x6AD1, 0x5CBA),
  (0x6AD3, 0x5586),
  (0x6ADA, 0x5CBB_4DA6),
  (0x6ADE, 0x5CB8_5362),
  (0x6AE2, 0x5CB9),
  (0x6AE4, 0x5CBC),
  (0x6AE8, 0x51C5),
  (0x6AEA, 0x5CBF),
  (0x6AFA, 0x5CC2_52EE),
  (0x6B04, 0x4EDE_5CC0),
  (0x6B0A, 0x5CC1),
  (0x6B12, 0x5CC3),
  (0x6B16, 0x5CC4),
  (0x6B1D, 0x55F7),
  (0x6B1F, 0x5CC5_4CB5_4597),
  (0x6B23, 0x4B9D),
  (0x6B27, 0x4AA0),
  (0x6B32, 0x4BF6),
  (0x6B37, 0x5CC7_5CC6_5CC8_517D),
  (0x6B3D, 0x4CF8_4EFB),
  (0x6B43, 0x5CCC),
  (0x6B47, 0x5CCB),
  (0x6B49, 0x5CCD),
  (0x6B4C, 0x46F7),
  (0x6B4E, 0x5487),
  (0x6B50, 0x5CCE),
  (0x6B53, 0x4D4E_5CD0),
  (0x6B59, 0x5CCF),
  (0x6B5B, 0x5CD1),
  (0x6B5F, 0x5CD2),
  (0x6B61, 0x5CD3_48D8_4577_4D4C),
  (0x6B66, 0x45B1),
  (0x6B69, 0x47D8_558E),
  (0x6B6F, 0x4A9F),
  (0x6B73, 0x48E4_4955),
  (0x6B78, 0x5CD4_5CD5),
  (0x6B7B, 0x4999),
  (0x6B7F, 0x5CD6_5CD7),
  (0x6B83, 0x5CD9_5CD8),
  (0x6B86, 0x4F42),
  (0x6B89, 0x53A4_4865_4992),
  (0x6B8D, 0x5CDA),
  (0x6B95, 0x5CDC_4E73),
  (0x6B98, 0x5CDB),
  (0x6B9E, 0x5CDD),
  (0x6BA4, 0x5CDE),
  (0x6BAA, 0x5CDF_5CE0),
  (0x6BAF, 0x5CE1),
  (0x6BB1, 0x5CE2_5CE3_5CE4_5459_47ED),
  (0x6BB7, 0x5CE5),
  (0x6BBA, 0x49E9_50C0_5CE6),
  (0x6BBF, 0x4849_587F),
  (0x6BC5, 0x4A5B_5CE7),
  (0x6BCB, 0x5CE8),
  (0x6BCD, 0x4969_49F5),
  (0x6BD2, 0x4C97_5CE9_474E),
  (0x6BD6, 0x5CEA),
  (0x6BD8, 0x53D7),
  (0x6BDB, 0x46E2),
  (0x6BDF, 0x5CEB),
  (0x6BEB, 0x5CED_5CEC),
  (0x6BEF, 0x5CEF),
  (0x6BF3, 0x5CEE),
  (0x6C08, 0x5CF0),
  (0x6C0F, 0x488E),
  (0x6C11, 0x4756),
  (0x6C13, 0x5CF1_5CF2),
  (0x6C17, 0x45B9),
  (0x6C1B, 0x5CF3),
  (0x6C23, 0x5CF5_5CF4),
  (0x6C34, 0x459C),
  (0x6C37, 0x4CA4_45FB),
  (0x6C3E, 0x556E_5CF6_534D_4D84_49A0),
  (0x6C4E, 0x505E),
  (0x6C50, 0x506A),
  (0x6C55, 0x5CF8),
  (0x6C57, 0x4EC4),
  (0x6C5A, 0x4E82),
  (0x6C5C, 0x5CF9_555E_5CF7_45AD_45E8),
  (0x6C62, 0x5CFA),
  (0x6C68, 0x5D45),
  (0x6C6A, 0x52B4),
  (0x6C6F, 0x5CFE_50D2),
  (0x6C72, 0x50C8_5D46),
  (0x6C7A, 0x47A4),
  (0x6C7D, 0x494C_5D44),
  (0x6C81, 0x5D42_5CFB_55D9),
  (0x6C86, 0x5CFD),
  (0x6C88, 0x4C8F),
  (0x6C8C, 0x5598_5CFC),
  (0x6C90, 0x5D48),
  (0x6C92, 0x5D47_4FF8),
  (0x6C96, 0x47FD),
  (0x6C99, 0x4EAD_5D41_5D43),
  (0x6CA1, 0x5075_4585),
  (0x6CAB, 0x53EC),
  (0x6CAE, 0x5D4D),
  (0x6CB1, 0x5D50),
  (0x6CB3, 0x465A),
  (0x6CB8, 0x4EAA_465C_5D52_4584_46C6_5D4B_5D51_4E6F),
  (0x6CC1, 0x4A58),
  (0x6CC4, 0x5D49_5D4C),
  (0x6CC9, 0x46EE_4DB8),
  (0x6CCC, 0x51FD),
  (0x6CD3, 0x54D7),
  (0x6CD5, 0x464A),
  (0x6CD7, 0x55C6),
  (0x6CD9, 0x5D55_5D4E_5D53),
  (0x6CDD, 0x5D4F),
  (0x6CE1, 0x4E87_46CA_4D4B),
  (0x6CE5, 0x4E56),
  (0x6CE8, 0x4944),
  (0x6CEA, 0x5D56),
  (0x6CEF, 0x5D54_46F3_5D4A),
  (0x6CF3, 0x4F57),
  (0x6D04, 0x5D58),
  (0x6D0B, 0x45DA_5D5E),
  (0x6D12, 0x5D5D),
  (0x6D17, 0x4A4E),
  (0x6D19, 0x52B6),
  (0x6D1B, 0x5450),
  (0x6D1E, 0x4D98_5D57),
  (0x6D25, 0x45DC),
  (0x6D29, 0x50B7_4FD4_5D5A),
  (0x6D32, 0x4B72_5D5C),
  (0x6D35, 0x52AC_5D59),
  (0x6D38, 0x50BC),
  (0x6D3B, 0x47B4),
  (0x6D3D, 0x5D5B_4A72),
  (0x6D41, 0x46FC),
  (0x6D44, 0x4CC9_468D),
  (0x6D59, 0x5D66_5D64),
  (0x6D5C, 0x45EA),
  (0x6D63, 0x5D5F_5D63),
  (0x6D66, 0x466B),
  (0x6D69, 0x46EB_4A9D),
  (0x6D6C, 0x55CC),
  (0x6D6E, 0x4A8C_5D62),
  (0x6D74, 0x4B7E),
  (0x6D77, 0x45A7_4D41_5D65),
  (0x6D85, 0x5D6A),
  (0x6D87, 0x5D60_486B),
  (0x6D8C, 0x4F7D),
  (0x6D8E, 0x5D67),
  (0x6D93, 0x5D61),
  (0x6D95, 0x5D68_5D6B),
  (0x6D99, 0x4DDA),
  (0x6D9B, 0x5D69_5550),
  (0x6DAC, 0x5D72),
  (0x6DAF, 0x4F91),
  (0x6DB2, 0x4A45),
  (0x6DB5, 0x5D6F),
  (0x6DB8, 0x5D73),
  (0x6DBC, 0x4E74),
  (0x6DC0, 0x4A88),
  (0x6DC5, 0x5D7C_5D75_5D71),
  (0x6DCB, 0x52C7_5D78),
  (0x6DCF, 0x5D74),
  (0x6DD1, 0x4ABF_5D7B),
  (0x6DD5, 0x5D82),
  (0x6DD8, 0x55E1_5D7E),
  (0x6DDE, 0x5D77),
  (0x6DE1, 0x4CA5),
  (0x6DE4, 0x5D81),
  (0x6DE6, 0x5D70),
  (0x6DE8, 0x5D79),
  (0x6DEA, 0x5D83_554E_5D76),
  (0x6DEE, 0x5D84),
  (0x6DF1, 0x4777_5D7F_4894),
  (0x6DF5, 0x48EA),
  (0x6DF7, 0x4B46_5D7A_5D6C_5D7D_4A91_5D80),
  (0x6E05, 0x4596),
  (0x6E07, 0x5441_4769_4AC0_5D6D_4892),
  (0x6E13, 0x5198),
  (0x6E15, 0x5164),
  (0x6E19, 0x5D87_50E4_478A),
  (0x6E1D, 0x5D99),
  (0x6E1F, 0x5D92_527A_45D2),
  (0x6E23, 0x5D8C_5D98_4E43_51A0_5D93),
  (0x6E29, 0x4950),
  (0x6E2B, 0x5D8F_4945_5D85_5D6E_48C6),
  (0x6E38, 0x5D9A_5D8A_5D96),
  (0x6E3C, 0x5D95),
  (0x6E3E, 0x5D8B),
  (0x6E43, 0x5D94),
  (0x6E4A, 0x4C88),
  (0x6E4D, 0x5D91_5D97),
  (0x6E56, 0x4D52),
  (0x6E58, 0x5155),
  (0x6E5B, 0x53F3_5D8E),
  (0x6E5F, 0x5D89),
  (0x6E67, 0x4FBD),
  (0x6E6B, 0x5D8D),
  (0x6E6E, 0x5D86_48BD),
  (0x6E72, 0x5D88),
  (0x6E76, 0x5D90),
  (0x6E7E, 0x4D6B_4C90_475B),
  (0x6E82, 0x5D9B),
  (0x6E8C, 0x54FA),
  (0x6E8F, 0x5DA5_47FC),
  (0x6E96, 0x46CE),
  (0x6E98, 0x5D9D),
  (0x6E9C, 0x4DC4_4A4D),
  (0x6E9F, 0x5DA8),
  (0x6EA2, 0x5271),
  (0x6EA5, 0x5376),
  (0x6EAA, 0x5D9C),
  (0x6EAF, 0x5DA0),
  (0x6EB2, 0x5DA2),
  (0x6EB6, 0x48BE_5D9E),
  (0x6EBA, 0x5497),
  (0x6EBD, 0x5D9F),
  (0x6EBF, 0x5DA6),
  (0x6EC2, 0x5DA7),
  (0x6EC4, 0x5DA1_4EE6),
  (0x6EC9, 0x52A9),
  (0x6ECB, 0x4857_5DB3),
  (0x6ED1, 0x4BA2),
  (0x6ED3, 0x524A_5DA3_5DA4),
  (0x6EDD, 0x47A3_4DA1),
  (0x6EEC, 0x5DAB),
  (0x6EEF, 0x5DB1),
  (0x6EF2, 0x5DAF),
  (0x6EF4, 0x4FB7),
  (0x6EF7, 0x5DB7_5DAC),
  (0x6EFE, 0x5DAD_5DB4),
  (0x6F01, 0x4B78_4FBC),
  (0x6F06, 0x4DAE),
  (0x6F09, 0x54D0),
  (0x6F0F, 0x50C4),
  (0x6F11, 0x5575),
  (0x6F13, 0x5DB6_49ED_54A1),
  (0x6F20, 0x508E),
  (0x6F22, 0x4F58_54E0),
  (0x6F2B, 0x4F6E_4E8A),
  (0x6F31, 0x5DB0_5DB2),
  (0x6F38, 0x4D73),
  (0x6F3E, 0x5DB5_5DAE),
  (0x6F41, 0x5DA9),
  (0x6F45, 0x5DAA),
  (0x6F51, 0x54FA),
  (0x6F54, 0x4AC2),
  (0x6F58, 0x5DC3),
  (0x6F5B, 0x5DBD_4DC0),
  (0x6F5F, 0x46C2),
  (0x6F64, 0x4AD2),
  (0x6F66, 0x5DC7),
  (0x6F6D, 0x5DBE_4C93_5DBC_5446),
  (0x6F74, 0x5DBF),
  (0x6F78, 0x5DBA),
  (0x6F7A, 0x5DB9),
  (0x6F7C, 0x5DC2),
  (0x6F80, 0x5DBB_55A0_5DC0),
  (0x6F84, 0x4887),
  (0x6F86, 0x5DB8),
  (0x6F88, 0x5DC1),
  (0x6F8E, 0x5DC5),
  (0x6F91, 0x5DC6),
  (0x6F97, 0x54BA),
  (0x6FA1, 0x5DCB),
  (0x6FA3, 0x5DC9_4E4B),
  (0x6FAA, 0x5DCE),
  (0x6FB1, 0x5589),
  (0x6FB3, 0x5DC8),
  (0x6FB5, 0x5DCA),
  (0x6FB9, 0x5DCC),
  (0x6FC0, 0x4BD0_50BE_5DCF_4ACE),
  (0x6FC6, 0x5DC4),
  (0x6FD4, 0x5DD4_5DD1),
  (0x6FD8, 0x5DD3),
  (0x6FDB, 0x5DCD),
  (0x6FDF, 0x5DD0_5380_507E),
  (0x6FE4, 0x51D2),
  (0x6FEB, 0x55A3_5DD2),
  (0x6FEE, 0x5DD6_4DD4),
  (0x6FF1, 0x5055),
  (0x6FF3, 0x5DE2),
  (0x6FF5, 0x5DD5_6658),
  (0x6FFA, 0x5DDB),
  (0x6FFE, 0x5187),
  (0x7001, 0x5DDD),
  (0x7005, 0x5DD7_5550_5DD8),
  (0x7009, 0x5DD9),
  (0x700B, 0x5DDA),
  (0x700F, 0x5DDE),
  (0x7011, 0x5DDC),
  (0x7015, 0x55D1),
  (0x7018, 0x5DE4),
  (0x701A, 0x5DE0_5DDF),
  (0x701D, 0x52B0_535C_5DE1),
  (0x7026, 0x4FDE_52AE_5DE3),
  (0x702C, 0x465B),
  (0x7030, 0x5DE5),
  (0x7032, 0x5DE7),
  (0x703E, 0x5DE6),
  (0x704C, 0x53EA),
  (0x7051, 0x5DE8),
  (0x7058, 0x4B96),
  (0x7063, 0x5DE9),
  (0x706B, 0x4785),
  (0x706F, 0x4B65_4AF5),
  (0x7078, 0x5473),
  (0x707C, 0x546A_4CBC),
  (0x7085, 0x5DEA),
  (0x7089, 0x497D_4FCB),
  (0x708E, 0x4DAD),
  (0x7092, 0x4FEE),
  (0x7099, 0x5DEB),
  (0x70AB, 0x5DED_5DEE_4861_5DF0_5DEC),
  (0x70B3, 0x52CD),
  (0x70B8, 0x5DEF_4788_49D7_529E),
  (0x70C8, 0x4DD1),
  (0x70CB, 0x5DF2),
  (0x70CF, 0x5099),
  (0x70D9, 0x5DF3),
  (0x70DD, 0x538C),
  (0x70DF, 0x5DF1),
  (0x70F1, 0x5DF7),
  (0x70F9, 0x5587),
  (0x70FD, 0x5DF8),
  (0x7104, 0x5DF6),
  (0x7109, 0x5DF4),
  (0x710F, 0x5DF5),
  (0x7114, 0x53EE),
  (0x7119, 0x5DFA_544F),
  (0x711C, 0x5DF9),
  (0x7121, 0x475F),
  (0x7126, 0x4DE6),
  (0x7130, 0x53EE),
  (0x7136, 0x47EF),
  (0x713C, 0x4983),
  (0x7146, 0x5DFC_5DFD),
  (0x7149, 0x4C6F),
  (0x714C, 0x5E42),
  (0x714E, 0x5490),
  (0x7155, 0x6885_5E43),
  (0x7159, 0x4BDD),
  (0x715C, 0x5DFB),
  (0x7162, 0x5E41),
  (0x7164, 0x54EA_5357_5DFE_4742),
  (0x7169, 0x54A0),
  (0x716C, 0x5E44),
  (0x716E, 0x4C4C),
  (0x717D, 0x5590),
  (0x7184, 0x5E47),
  (0x7188, 0x5E45),
  (0x718A, 0x467F),
  (0x718F, 0x5E46),
  (0x7194, 0x529D_5E48),
  (0x7199, 0x4F68),
  (0x719F, 0x4EBF),
  (0x71A8, 0x54BB),
  (0x71AC, 0x5E4A),
  (0x71B1, 0x47D5),
  (0x71B9, 0x5E4C),
  (0x71BE, 0x5E4D),
  (0x71C1, 0x5E4B),
  (0x71C3, 0x49D5),
  (0x71C8, 0x4EF8_5E50),
  (0x71CE, 0x5E53),
  (0x71D0, 0x4A79),
  (0x71D2, 0x5E4E),
  (0x71D4, 0x5E51_5047),
  (0x71D7, 0x5E52),
  (0x71DF, 0x57FB_5E55),
  (0x71E5, 0x4C66_54CE_5E4F),
  (0x71EC, 0x5E56_54E6_578F),
  (0x71F5, 0x5E54),
  (0x71F9, 0x5E59),
  (0x71FB, 0x5E57_5E58),
  (0x71FE, 0x5E5A_5E5B),
  (0x7206, 0x4AD9),
  (0x720D, 0x5E5C),
  (0x7210, 0x5E5D),
  (0x721B, 0x537C),
  (0x7228, 0x5E5E),
  (0x722A, 0x4C87),
  (0x722C, 0x5E60_5E5F),
  (0x7230, 0x5E61),
  (0x7232, 0x5E62),
  (0x7235, 0x53A9_45CC),
  (0x723A, 0x5096_5E63_5E64_52DD_4C79_5E65_5E66),
  (0x7246, 0x5E67_4767_4ABD),
  (0x724B, 0x5E68_556F),
  (0x7252, 0x55DD),
  (0x7258, 0x5E69_53FC),
  (0x725B, 0x4973),
  (0x725D, 0x55B7),
  (0x725F, 0x4AAF),
  (0x7261, 0x509A_55C4),
  (0x7267, 0x487B),
  (0x7269, 0x4652),
  (0x7272, 0x5158),
  (0x7274, 0x5E6A),
  (0x7279, 0x46A2),
  (0x727D, 0x548A_5E6B),
  (0x7280, 0x5354_5E6C_5E6E),
  (0x7287, 0x5E6D),
  (0x7292, 0x5E6F),
  (0x7296, 0x5E70),
  (0x72A0, 0x4FDC),
  (0x72A2, 0x5E71),
  (0x72A7, 0x5E72),
  (0x72AC, 0x4AC5),
  (0x72AF, 0x4CA7),
  (0x72B1, 0x5E73_5E74),
  (0x72B6, 0x4852),
  (0x72B9, 0x5E79),
  (0x72BE, 0x5E75),
  (0x72C2, 0x4E5A_5E76_5E78),
  (0x72C6, 0x5E77),
  (0x72CE, 0x5E7A),
  (0x72D0, 0x51DB),
  (0x72D2, 0x5E7B),
  (0x72D7, 0x5274),
  (0x72D9, 0x4ECF),
  (0x72DB, 0x50DC),
  (0x72E0, 0x5E7D_5E7E_5E7C),
  (0x72E9, 0x4A7B),
  (0x72EC, 0x4ADB_4C9E),
  (0x72F7, 0x5E80_52FE_5E7F),
  (0x72FC, 0x506F_54D6),
  (0x730A, 0x5E82),
  (0x7316, 0x5E84_5E81),
  (0x731B, 0x4A51_5E83_5E85),
  (0x731F, 0x4E9D),
  (0x7324, 0x5E86_5E8B),
  (0x7329, 0x5E88_49C5_4FD0),
  (0x732E, 0x4F45_5E89),
  (0x7334, 0x5E87),
  (0x7336, 0x504F_53DD),
  (0x733E, 0x5E8C_4C5A),
  (0x7344, 0x4E95_519F),
  (0x734E, 0x5E8E_5E8D),
  (0x7357, 0x5E8F),
  (0x7363, 0x4F65),
  (0x7368, 0x5E92),
  (0x736A, 0x5E91),
  (0x7370, 0x5E93),
  (0x7372, 0x4D61),
  (0x7375, 0x5E96),
  (0x7377, 0x5E94_5E95),
  (0x737A, 0x51CB_5E97),
  (0x7384, 0x4C6E),
  (0x7387, 0x4783),
  (0x7389, 0x45FD),
  (0x738B, 0x49B1),
  (0x7396, 0x4DE9),
  (0x73A9, 0x4E4C),
  (0x73B2, 0x4AF9_5E9A),
  (0x73BB, 0x5E9C),
  (0x73BD, 0x5E99),
  (0x73C0, 0x5E9D),
  (0x73C2, 0x4C9A),
  (0x73C8, 0x5E98_5E9E_5399),
  (0x73CD, 0x4D5D_5E9B),
  (0x73D2, 0x5EA2),
  (0x73D6, 0x5E9F),
  (0x73DE, 0x5EA5),
  (0x73E0, 0x4B99),
  (0x73E3, 0x5EA1),
  (0x73E5, 0x5EA0),
  (0x73EA, 0x4CB9),
  (0x73ED, 0x5066_5EA3),
  (0x73F1, 0x5EA4),
  (0x73F5, 0x5EA8),
  (0x73F8, 0x5EA6),
  (0x73FE, 0x46B7),
  (0x7403, 0x48DB),
  (0x7405, 0x5EA9_45EB_5EA7),
  (0x7409, 0x50F7),
  (0x7422, 0x4E5C),
  (0x7425, 0x5EAC_5EAA),
  (0x7429, 0x5EAD_5EAB),
  (0x742E, 0x5EAE),
  (0x7432, 0x5EAF_5453_4CD8_52A3_529F),
  (0x743A, 0x5EB0),
  (0x743F, 0x5EB2),
  (0x7441, 0x5EB5),
  (0x7455, 0x5EB1),
  (0x7459, 0x5EB4_53F1_4F52_5EB6),
  (0x745E, 0x4B5B_5EB3_508C),
  (0x7462, 0x5EBC_5EB9_5EBB),
  (0x7469, 0x5EB7_5EBA),
  (0x746F, 0x5EBE_5EB8),
  (0x7473, 0x5188),
  (0x7476, 0x6883),
  (0x747E, 0x5EBF),
  (0x7483, 0x528C),
  (0x7489, 0x5EBD),
  (0x748B, 0x504D),
  (0x749E, 0x5EC1_5EC0),
  (0x74A2, 0x5EC2),
  (0x74A7, 0x5EC3),
  (0x74B0, 0x4AB9),
  (0x74BD, 0x5249),
  (0x74CA, 0x5EC4),
  (0x74CF, 0x5EC5),
  (0x74D4, 0x5EC6),
  (0x74DC, 0x4E64),
  (0x74E0, 0x5EC7),
  (0x74E2, 0x5452_5EC8),
  (0x74E6, 0x49C2_5EC9),
  (0x74E9, 0x5ECA),
  (0x74EE, 0x5ECB),
  (0x74F0, 0x5ECC_5ECE_5ECD),
  (0x74F6, 0x4CD4_5ECF_5ED0),
  (0x7501, 0x5ED1),
  (0x7503, 0x5ED3_5ED2_5ED4),
  (0x750C, 0x5ED6_5ED5_5ED7),
  (0x7511, 0x5495),
  (0x7513, 0x5ED8),
  (0x7515, 0x53E6),
  (0x7518, 0x4B55),
  (0x751A, 0x4B66),
  (0x751C, 0x52A7),
  (0x751E, 0x5ED9_4599),
  (0x7523, 0x45C0),
  (0x7525, 0x55D7_5EDA),
  (0x7528, 0x45B6),
  (0x752B, 0x4D58_5EDB),
  (0x752F, 0x58FE_4563_467C_48A0_4967),
  (0x7537, 0x457C_5765),
  (0x753A, 0x4555_4677_5EDC),
  (0x7544, 0x5EDD),
  (0x7546, 0x5EE1),
  (0x7549, 0x5EE0_5EDF_5B7C_47AE_5EDE),
  (0x754F, 0x558F),
  (0x7551, 0x478B),
  (0x7554, 0x4EDC),
  (0x7559, 0x47AB_5EE3_5EE2_4D72_5086),
  (0x7560, 0x49FE),
  (0x7562, 0x559A),
  (0x7564, 0x5EE4_4CF0_51B4_5EE5),
  (0x7569, 0x52FD_48B9_5EE6),
  (0x756D, 0x5EE9),
  (0x756F, 0x5EE7_4AA9),
  (0x7573, 0x4E54_5EE8),
  (0x7576, 0x5EEB_50DD_5EEA),
  (0x757F, 0x50D4),
  (0x7582, 0x5EEC),
  (0x7586, 0x5EED_5EEE),
  (0x7589, 0x5EF0_5EEF_4EA0),
  (0x758E, 0x5171_55B0),
  (0x7591, 0x4CB4),
  (0x7594, 0x5EF1),
  (0x759A, 0x5EF2),
  (0x759D, 0x5EF3),
  (0x75A3, 0x5EF5),
  (0x75A5, 0x5EF4),
  (0x75AB, 0x50CE),
  (0x75B1, 0x5EFD_4D97_5EF7),
  (0x75B5, 0x5EF9),
  (0x75B8, 0x5EFB_54E1),
  (0x75BC, 0x5EFC_5EFA_5142),
  (0x75C2, 0x5EF6_5EF8),
  (0x75C5, 0x49BF),
  (0x75C7, 0x4E4A),
  (0x75CA, 0x5F41),
  (0x75CD, 0x5EFE),
  (0x75D2, 0x5F42),
  (0x75D4, 0x5182_53FD),
  (0x75D8, 0x5549_5F43),
  (0x75DB, 0x4C47),
  (0x75DE, 0x5F45),
  (0x75E2, 0x5174_5F44),
  (0x75E9, 0x54A4),
  (0x75F0, 0x5F4A),
  (0x75F2, 0x5F4C_5F4D_5089),
  (0x75FA, 0x5F4B),
  (0x75FC, 0x5F48),
  (0x75FE, 0x5F46_5F47),
  (0x7601, 0x5F49),
  (0x7609, 0x5F4F),
  (0x760B, 0x5F4E),
  (0x760D, 0x524F),
  (0x761F, 0x5F50_5F52_5F53_5F54),
  (0x7624, 0x5F55),
  (0x7626, 0x54A4_5F51),
  (0x7630, 0x5F57),
  (0x7634, 0x5F56),
  (0x763B, 0x5F58),
  (0x7642, 0x4BB7),
  (0x7646, 0x5F5C_5F59_5F5A),
  (0x764C, 0x5447),
  (0x7652, 0x53AA),
  (0x7656, 0x537E),
  (0x7658, 0x5F5B),
  (0x765C, 0x5F5D),
  (0x7661, 0x5F5E_5F5F),
  (0x7667, 0x5F62_5F60_5F61_5F63),
  (0x766C, 0x5F64),
  (0x7670, 0x5F65),
  (0x7672, 0x5F66),
  (0x7676, 0x5F67),
  (0x7678, 0x539A),
  (0x767A, 0x464B_46E8_5F68_4659_454B),
  (0x7680, 0x5F6A),
  (0x7682, 0x5F69_5F6B_45EF),
  (0x7686, 0x4AB0_4CBB_5F6C),
  (0x768B, 0x5F6D),
  (0x768E, 0x5299),
  (0x7690, 0x52A4),
  (0x7693, 0x4E81),
  (0x7696, 0x5396),
  (0x7699, 0x5F6E_5F6F_5F72_5F70),
  (0x769E, 0x5F71),
  (0x76A6, 0x5F73),
  (0x76AE, 0x49DA),
  (0x76B0, 0x5F74),
  (0x76B4, 0x5F75),
  (0x76B7, 0x6868_5F76_5F77_5F78),
  (0x76BF, 0x4DC7),
  (0x76C2, 0x5F79_53BA),
  (0x76C6, 0x5057),
  (0x76C8, 0x51B5),
  (0x76CA, 0x4774),
  (0x76CD, 0x5F7B),
  (0x76D2, 0x5F7D),
  (0x76D6, 0x5F7C_4D65),
  (0x76DB, 0x4844_5CC9),
  (0x76DE, 0x5F7E_4B84),
  (0x76E1, 0x5F7F),
  (0x76E3, 0x49E3_4890_5F80),
  (0x76E7, 0x53F7),
  (0x76EA, 0x5F81),
  (0x76EE, 0x4675),
  (0x76F2, 0x5080),
  (0x76F4, 0x4674),
  (0x76F8, 0x4678),
  (0x76FB, 0x5F83),
  (0x76FE, 0x5082),
  (0x7701, 0x4847),
  (0x7704, 0x5F86),
  (0x7707, 0x5F85_5F84_52BC),
  (0x770B, 0x4DA2_4552),
  (0x771B, 0x5F8B),
  (0x771E, 0x51CA_4642_4E6A),
  (0x7724, 0x5F87_5F89_5F8A),
  (0x7729, 0x5F88),
  (0x7737, 0x5F8C_5F8D),
  (0x773A, 0x4E5F),
  (0x773C, 0x49A5),
  (0x7740, 0x47AA),
  (0x7746, 0x5F8E_5F8F),
  (0x775A, 0x5F90_5F93),
  (0x7761, 0x526C),
  (0x7763, 0x4A73),
  (0x7765, 0x5F94_4A96),
  (0x7768, 0x5F91),
  (0x776B, 0x5F92),
  (0x7779, 0x5F97),
  (0x777E, 0x5F96_5F95),
  (0x778B, 0x5F99),
  (0x778E, 0x5F98),
  (0x7791, 0x5F9A),
  (0x779E, 0x5F9C),
  (0x77A0, 0x5F9B),
  (0x77A5, 0x5572),
  (0x77AC, 0x4DB0_527D),
  (0x77B0, 0x5F9D),
  (0x77B3, 0x4F9B),
  (0x77B6, 0x5F9E),
  (0x77B9, 0x5F9F),
  (0x77BB, 0x5FA3_5FA1_5FA2),
  (0x77BF, 0x5FA0),
  (0x77C7, 0x5FA4),
  (0x77CD, 0x5FA5),
  (0x77D7, 0x5350),
  (0x77DA, 0x5FA6_50ED_5FA7),
  (0x77E2, 0x46C1_5FA8),
  (0x77E5, 0x45B0),
  (0x77E7, 0x55C9),
  (0x77E9, 0x4E4D),
  (0x77ED, 0x4A82_5FA9_51BB),
  (0x77F3, 0x4580),
  (0x77FC, 0x5FAB),
  (0x7802, 0x495B),
  (0x780C, 0x5FAC),
  (0x7812, 0x5FAD),
  (0x7814, 0x46D3_4CC3),
  (0x7820, 0x5FB0_5FAE),
  (0x7825, 0x4D45_54B4_5248),
  (0x7832, 0x4CC2),
  (0x7834, 0x4ABE),
  (0x783A, 0x50DF),
  (0x783F, 0x5FAF),
  (0x7845, 0x5FB1),
  (0x784E, 0x5FB2),
  (0x785D, 0x4976),
  (0x7864, 0x5FB3),
  (0x786B, 0x4984_4AEF),
  (0x786F, 0x5369),
  (0x7872, 0x52BF),
  (0x7874, 0x5FB4),
  (0x787A, 0x5FB6),
  (0x787C, 0x5FB9),
  (0x7881, 0x4F4E),
  (0x7886, 0x5FB7_5195),
  (0x788C, 0x5FBA_5356_5FB5),
  (0x7891, 0x517B),
  (0x7893, 0x4FB1),
  (0x7895, 0x52D2),
  (0x7897, 0x545B),
  (0x789A, 0x5FB8),
  (0x78A3, 0x5FBB),
  (0x78A7, 0x4DF8),
  (0x78A9, 0x507D_5FBD),
  (0x78AF, 0x5FBE),
  (0x78B5, 0x5FBC),
  (0x78BA, 0x487A),
  (0x78BC, 0x5FC4),
  (0x78BE, 0x5FC3),
  (0x78C1, 0x4A62),
  (0x78C5, 0x5FC5_5FC0),
  (0x78CA, 0x5FC6_5FC1),
  (0x78D0, 0x4B9C_5FBF),
  (0x78D4, 0x5FC2),
  (0x78DA, 0x5FC9),
  (0x78E7, 0x5FC8_49B4),
  (0x78EC, 0x5FC7),
  (0x78EF, 0x48AA),
  (0x78F4, 0x5FCB),
  (0x78FD, 0x5FCA),
  (0x7901, 0x51B0),
  (0x7907, 0x5FCC),
  (0x790E, 0x4C9C),
  (0x7911, 0x5FCD_4DF0),
  (0x7919, 0x5FCE),
  (0x7926, 0x51B9),
  (0x792A, 0x514C_5FD0_5FCF),
  (0x7930, 0x5FD1),
  (0x793A, 0x4853),
  (0x793C, 0x4958),
  (0x793E, 0x4663),
  (0x7940, 0x5FD3_53D2),
  (0x7947, 0x5192_4ED8_4FEB),
  (0x7950, 0x488C),
  (0x7953, 0x555C),
  (0x7955, 0x5FD8_4CDC_5365),
  (0x795A, 0x5FD7),
  (0x795D, 0x4CEB_45A1_5FD6_5FD4),
  (0x7962, 0x4F89),
  (0x7965, 0x49F9),
  (0x7968, 0x4DBF),
  (0x796D, 0x4C71),
  (0x7977, 0x5553),
  (0x797A, 0x52D8),
  (0x797F, 0x5FDA_50E7_4D75),
  (0x7984, 0x50AE_4F87),
  (0x798A, 0x5FDB),
  (0x798D, 0x5286_4BA7_458B),
  (0x7994, 0x5FDC),
  (0x799B, 0x5FDF),
  (0x799D, 0x5FDE),
  (0x79A6, 0x55AA_4FD7),
  (0x79AA, 0x5FE0),
  (0x79AE, 0x54F5),
  (0x79B0, 0x50FA_5553),
  (0x79B3, 0x5FE1),
  (0x79B9, 0x536A_5FE2),
  (0x79BD, 0x555D_5463_53D0_45F1_46C3),
  (0x79C9, 0x5FE3),
  (0x79CB, 0x4658),
  (0x79D1, 0x48ED_4DBA),
  (0x79D5, 0x5FE4),
  (0x79D8, 0x4C70),
  (0x79DF, 0x4D83),
  (0x79E1, 0x54B5),
  (0x79E3, 0x5FE7_508F),
  (0x79E6, 0x4C8A_5FE5),
  (0x79E9, 0x4D9F),
  (0x79EC, 0x5FE6),
  (0x79F0, 0x4BDF),
  (0x79FB, 0x4975),
  (0x7A00, 0x5264),
  (0x7A08, 0x5FE8),
  (0x7A0B, 0x47F4),
  (0x7A0D, 0x5FE9_47C4),
  (0x7A14, 0x47FA),
  (0x7A17, 0x5087_5FEA_5FEB_4DCF),
  (0x7A1C, 0x5296),
  (0x7A1F, 0x5FEC_5366),
  (0x7A2E, 0x4692),
  (0x7A31, 0x5FED_476A),
  (0x7A37, 0x5FEF),
  (0x7A3B, 0x5FF0_4DBE_4FC7_5FEE_4FD5_4E94),
  (0x7A42, 0x48D4_5FF1),
  (0x7A46, 0x52BE),
  (0x7A49, 0x5FF3),
  (0x7A4D, 0x4891_5254_50B8_509B),
  (0x7A57, 0x5FF2),
  (0x7A61, 0x5FF5_5FF4_4E98),
  (0x7A69, 0x5FF6),
  (0x7A6B, 0x4F5C),
  (0x7A70, 0x5FF8),
  (0x7A74, 0x4B86),
  (0x7A76, 0x4986),
  (0x7A79, 0x5FF9_478D),
  (0x7A7D, 0x5FFA),
  (0x7A7F, 0x4E91),
  (0x7A81, 0x4AFD),
  (0x7A83, 0x5169_5499),
  (0x7A88, 0x5FFB),
  (0x7A92, 0x4FB0_4BE9),
  (0x7A95, 0x5FFC_5FFE_6041_5FFD),
  (0x7A9F, 0x50A6),
  (0x7AA9, 0x6042_4A65),
  (0x7AAE, 0x50AA_49A7_6043),
  (0x7AB6, 0x6044),
  (0x7ABA, 0x559E),
  (0x7ABF, 0x6047),
  (0x7AC3, 0x6046_6049_6048),
  (0x7AC7, 0x604A_52F0),
  (0x7ACA, 0x604B_45DD),
  (0x7ACD, 0x604C),
  (0x7ACF, 0x604D),
  (0x7AD1, 0x604F_604E_6051),
  (0x7AD5, 0x6050),
  (0x7AD9, 0x6052_6053),
  (0x7ADC, 0x49E7_6054),
  (0x7ADF, 0x66C1_476E_6055_6056_546B),
  (0x7AE5, 0x4D50_6057_6058),
  (0x7AEA, 0x51C8_605A),
  (0x7AED, 0x605B),
  (0x7AEF, 0x48EF_605C),
  (0x7AF6, 0x4971),
  (0x7AF8, 0x605D_45F5_545C),
  (0x7AFF, 0x5287),
  (0x7B02, 0x605E),
  (0x7B04, 0x54D5),
  (0x7B06, 0x6062),
  (0x7B08, 0x51CF),
  (0x7B0A, 0x6061_6060),
  (0x7B0F, 0x605F),
  (0x7B11, 0x49B5),
  (0x7B18, 0x53E7_6065),
  (0x7B1B, 0x4F41),
  (0x7B1E, 0x6066),
  (0x7B20, 0x47E0),
  (0x7B25, 0x52F4_4FD9),
  (0x7B28, 0x6068),
  (0x7B2C, 0x467E),
  (0x7B33, 0x6063),
  (0x7B35, 0x6067_6064),
  (0x7B39, 0x496E),
  (0x7B45, 0x606C_4AC7),
  (0x7B48, 0x4D9B_46A7),
  (0x7B4B, 0x4B8F_606B_606A),
  (0x7B4F, 0x52F5_6069_4B45_4B7C),
  (0x7B54, 0x49D0),
  (0x7B56, 0x46C9),
  (0x7B5D, 0x606D),
  (0x7B65, 0x5484),
  (0x7B67, 0x5048),
  (0x7B6C, 0x534E),
  (0x7B6E, 0x6073),
  (0x7B70, 0x6071_6072),
  (0x7B74, 0x6070_606E),
  (0x7B7A, 0x606F),
  (0x7B86, 0x559B_4F51),
  (0x7B8B, 0x55A4),
  (0x7B8D, 0x6077),
  (0x7B8F, 0x607B),
  (0x7B92, 0x607A),
  (0x7B94, 0x4EE0_4CCC),
  (0x7B97, 0x4843_6075_607C_6079),
  (0x7B9C, 0x6078_6074_6082_6076),
  (0x7BA1, 0x46F2),
  (0x7BAA, 0x54CA),
  (0x7BAD, 0x518D),
  (0x7BB1, 0x4AFB),
  (0x7BB4, 0x6080),
  (0x7BB8, 0x505C),
  (0x7BC0, 0x47A1_51E8),
  (0x7BC4, 0x49E8),
  (0x7BC6, 0x6081_4FB6),
  (0x7BC9, 0x49A8),
  (0x7BCB, 0x607E_607F),
  (0x7BCF, 0x607D),
  (0x7BDD, 0x6083),
  (0x7BE0, 0x4875),
  (0x7BE4, 0x4AD8_6087_6085),
  (0x7BE9, 0x6084),
  (0x7BED, 0x5444),
  (0x7BF3, 0x608C),
  (0x7BF6, 0x608E_6086),
  (0x7C00, 0x6089),
  (0x7C07, 0x608B),
  (0x7C0D, 0x608D),
  (0x7C11, 0x4F53_578A_608A_6088),
  (0x7C17, 0x517C),
  (0x7C1E, 0x54CA_6092),
  (0x7C21, 0x4BEC),
  (0x7C23, 0x608F),
  (0x7C27, 0x6090),
  (0x7C2A, 0x6091_6094),
  (0x7C37, 0x6093_51AB),
  (0x7C3D, 0x6095_5270_4F4C_6096),
  (0x7C43, 0x6098),
  (0x7C4C, 0x6097_4DFE),
  (0x7C4F, 0x51F2_609A),
  (0x7C54, 0x4F99),
  (0x7C56, 0x6099),
  (0x7C58, 0x609B),
  (0x7C5F, 0x609C_4CEE),
  (0x7C64, 0x52AA_609D),
  (0x7C6C, 0x609E),
  (0x7C73, 0x466F),
  (0x7C75, 0x609F),
  (0x7C7E, 0x4FF0),
  (0x7C81, 0x55E7_4E85_60A0),
  (0x7C89, 0x489E),
  (0x7C8B, 0x4FCC),
  (0x7C8D, 0x53C9),
  (0x7C90, 0x60A1),
  (0x7C92, 0x4CA9),
  (0x7C95, 0x4C4B),
  (0x7C97, 0x4D59_4BF7),
  (0x7C9B, 0x4FC8),
  (0x7C9F, 0x4BFB),
  (0x7CA1, 0x60A5_60A3),
  (0x7CA4, 0x60A2_52AB),
  (0x7CA7, 0x4BD4_60A7),
  (0x7CAB, 0x60A4),
  (0x7CAD, 0x60A6_60AB),
  (0x7CB1, 0x60AA_60A9_60A8),
  (0x7CB9, 0x60AC),
  (0x7CBD, 0x60AE_466C),
  (0x7CC0, 0x51BC),
  (0x7CC2, 0x60B0),
  (0x7CC5, 0x60AF),
  (0x7CCA, 0x5471),
  (0x7CCE, 0x5160),
  (0x7CD2, 0x60B1),
  (0x7CD6, 0x4884),
  (0x7CD8, 0x60B3),
  (0x7CDC, 0x60B4),
  (0x7CDE, 0x5492_518C_514B),
  (0x7CE2, 0x60B2),
  (0x7CE7, 0x4EC5),
  (0x7CEF, 0x60B5),
  (0x7CF2, 0x60B6),
  (0x7CF4, 0x60B7),
  (0x7CF6, 0x60B8),
  (0x7CF8, 0x46C7),
  (0x7CFA, 0x52C2_48FA),
  (0x7CFE, 0x51FE),
  (0x7D00, 0x46DB),
  (0x7D02, 0x60BA),
  (0x7D04, 0x47BD_4B67_60B9),
  (0x7D0A, 0x60BD_4CF9),
  (0x7D0D, 0x49E2),
  (0x7D10, 0x4FB5),
  (0x7D14, 0x47A6_60BC),
  (0x7D17, 0x4F47_4C78_4680_49F3_4FF3_60BB),
  (0x7D20, 0x479F_4877_4CF4),
  (0x7D2B, 0x4AF0_5592),
  (0x7D2E, 0x60C0_5148_4768),
  (0x7D32, 0x60C1_4E59),
  (0x7D35, 0x60C3),
  (0x7D39, 0x4CE4_4CBD),
  (0x7D3F, 0x60C2),
  (0x7D42, 0x49F4_5563_46B9_60BE_60C5),
  (0x7D48, 0x60C4),
  (0x7D4B, 0x60BF_4688),
  (0x7D4E, 0x60C9_60CC_46BF),
  (0x7D56, 0x60C8),
  (0x7D5B, 0x60D0_60C6),
  (0x7D5E, 0x506D),
  (0x7D61, 0x4CE7_4EF7_60CD),
  (0x7D66, 0x4757),
  (0x7D68, 0x60CA),
  (0x7D6E, 0x60CB),
  (0x7D71, 0x4881_5268_60C7),
  (0x7D75, 0x4AE4_4AF3),
  (0x7D79, 0x49F6),
  (0x7D7D, 0x54ED),
  (0x7D89, 0x60CF),
  (0x7D8F, 0x5374),
  (0x7D93, 0x60CE),
  (0x7D99, 0x4A4A_47CB_54EB_5070),
  (0x7D9F, 0x60DC_60DA),
  (0x7DA2, 0x60D8_60D2),
  (0x7DAB, 0x60D7_51A3_4880_60D1_60D9_60DD_48CB_4A53),
  (0x7DB4, 0x4DC9_60D3),
  (0x7DB7, 0x60D4_60DB),
  (0x7DBA, 0x54D3_54A6),
  (0x7DBD, 0x60D6_49DC_489D),
  (0x7DC7, 0x60D5),
  (0x7DCA, 0x4B97_537D),
  (0x7DCF, 0x4793),
  (0x7DD1, 0x48A5_4A9B),
  (0x7DD5, 0x60DE_60E1),
  (0x7DD8, 0x60DF),
  (0x7DDA, 0x4687),
  (0x7DDC, 0x60E8_60E0_60E3),
  (0x7DE0, 0x4A80_60E7),
  (0x7DE4, 0x60E2),
  (0x7DE8, 0x484E_4CFC),
  (0x7DEC, 0x556B),
  (0x7DEF, 0x4E9A),
  (0x7DF2, 0x60E6),
  (0x7DF4, 0x4860),
  (0x7DFB, 0x60E4),
  (0x7E01, 0x4BAA),
  (0x7E04, 0x4859_60E9),
  (0x7E09, 0x60EE_60EA_60E5),
  (0x7E12, 0x60EC),
  (0x7E1B, 0x52E6),
  (0x7E1E, 0x4F6B_60ED),
  (0x7E21, 0x60EB_5BCC_55A8),
  (0x7E26, 0x4E93),
  (0x7E2B, 0x49E4),
  (0x7E2E, 0x49F7),
  (0x7E31, 0x60F2_60F9),
  (0x7E35, 0x60F4),
  (0x7E37, 0x60F8),
  (0x7E39, 0x60F6_60EF_60F5),
  (0x7E3D, 0x60F3_4866),
  (0x7E41, 0x4759),
  (0x7E43, 0x60F7),
  (0x7E46, 0x60F0),
  (0x7E48, 0x60F1),
  (0x7E4A, 0x4868_5373),
  (0x7E4D, 0x52DA),
  (0x7E52, 0x60FD),
  (0x7E54, 0x489A_51D4_60FB),
  (0x7E59, 0x60FE_6141),
  (0x7E5D, 0x60FA_60FC),
  (0x7E61, 0x52DA),
  (0x7E66, 0x60F1_6142),
  (0x7E69, 0x6145_6144_5373),
  (0x7E6D, 0x4D9A),
  (0x7E70, 0x4B69),
  (0x7E79, 0x6143),
  (0x7E7B, 0x6147_6146_6148),
  (0x7E7F, 0x614A),
  (0x7E82, 0x55EB_614B),
  (0x7E88, 0x5278_614C_51BF),
  (0x7E8C, 0x614E),
  (0x7E8E, 0x614D_55FA_5273),
  (0x7E92, 0x614F_6150_6151),
  (0x7E96, 0x6152),
  (0x7E9B, 0x6153_539C),
  (0x7F36, 0x5084),
  (0x7F38, 0x6154),
  (0x7F3A, 0x6155),
  (0x7F45, 0x6156),
  (0x7F47, 0x6157),
  (0x7F4C, 0x6158_54CB_6159),
  (0x7F50, 0x516E_615A),
  (0x7F54, 0x615C_615B),
  (0x7F58, 0x615D),
  (0x7F5F, 0x615E_615F),
  (0x7F67, 0x6161_6160_6162_4C4E_55EF),
  (0x7F6E, 0x468C),
  (0x7F70, 0x4F82),
  (0x7F72, 0x4C99),
  (0x7F75, 0x5579),
  (0x7F77, 0x55A5_6163_5AA5),
  (0x7F82, 0x6164_6166),
  (0x7F85, 0x4DFA_6165_6167_6168),
  (0x7F8A, 0x4AD1),
  (0x7F8C, 0x6169),
  (0x7F8E, 0x457D),
  (0x7F94, 0x616A),
  (0x7F9A, 0x616D),
  (0x7F9D, 0x616C_616B),
  (0x7FA1, 0x616E),
  (0x7FA3, 0x616F_47B1),
  (0x7FA8, 0x5596_4598),
  (0x7FAE, 0x6171_6170),
  (0x7FB2, 0x6172),
  (0x7FB6, 0x6174),
  (0x7FB8, 0x6175_6173),
  (0x7FBD, 0x478F),
  (0x7FC1, 0x4FFB),
  (0x7FC5, 0x6178_6179),
  (0x7FCA, 0x617A),
  (0x7FCC, 0x4D9C),
  (0x7FD2, 0x4A69),
  (0x7FD4, 0x54F9_617B),
  (0x7FE0, 0x4F69_617C),
  (0x7FE6, 0x617D),
  (0x7FE9, 0x617E),
  (0x7FEB, 0x558B),
  (0x7FF0, 0x54B6),
  (0x7FF3, 0x617F),
  (0x7FF9, 0x6180),
  (0x7FFB, 0x51F6_4DB5),
  (0x8000, 0x52A0_4985),
  (0x8003, 0x4760_6181_4670_53DC),
  (0x800B, 0x6182_51E6),
  (0x8010, 0x498E),
  (0x8012, 0x6183),
  (0x8015, 0x499A),
  (0x8017, 0x4FEC_54E4_6184),
  (0x801C, 0x6185),
  (0x8021, 0x6186),
  (0x8028, 0x6187),
  (0x8033, 0x4CAB),
  (0x8036, 0x4E99),
  (0x803B, 0x6189),
  (0x803D, 0x55B8),
  (0x803F, 0x6188),
  (0x8046, 0x618B),
  (0x804A, 0x618A),
  (0x8052, 0x618C),
  (0x8056, 0x4BB5),
  (0x8058, 0x618D),
  (0x805A, 0x5479),
  (0x805E, 0x48BB_618E),
  (0x8061, 0x4B89_618F),
  (0x8068, 0x6190),
  (0x806F, 0x53CA_6193),
  (0x8072, 0x6192_6191_4DA8),
  (0x8076, 0x6194_48D7),
  (0x8079, 0x6195),
  (0x807D, 0x6196_53E4_6197),
  (0x8084, 0x6198_6199_53B6_4B41),
  (0x8089, 0x4A42),
  (0x808B, 0x557F_4E50),
  (0x8093, 0x619A),
  (0x8096, 0x5267),
  (0x8098, 0x526A),
  (0x809A, 0x619B_5292),
  (0x809D, 0x4C8C),
  (0x80A1, 0x4CC5_5382),
  (0x80A5, 0x497B),
  (0x80A9, 0x4B79_4CFB),
  (0x80AC, 0x619E_619C),
  (0x80AF, 0x50EB),
  (0x80B1, 0x52D5_48AC),
  (0x80B4, 0x5451),
  (0x80BA, 0x504E),
  (0x80C3, 0x4DF6_61A3),
  (0x80C6, 0x4E9B),
  (0x80CC, 0x4AB2),
  (0x80CE, 0x5263),
  (0x80D6, 0x5288),
  (0x80D9, 0x61A1_61A4_619F),
  (0x80DD, 0x61A2_50B6),
  (0x80E1, 0x4D63),
  (0x80E4, 0x4EE9_61A0),
  (0x80EF, 0x61A6),
  (0x80F1, 0x61A7),
  (0x80F4, 0x4EAB),
  (0x80F8, 0x4BE3),
  (0x80FC, 0x61B0_474F),
  (0x8102, 0x4874),
  (0x8105, 0x5051_55EC_47E3_5079_61A5_535E),
  (0x811A, 0x4D5C_61A8),
  (0x8123, 0x61A9),
  (0x8129, 0x4C96),
  (0x812F, 0x61AA),
  (0x8131, 0x4AB4),
  (0x8133, 0x4CB3),
  (0x8139, 0x55E9),
  (0x813E, 0x61AD),
  (0x8141, 0x61B0),
  (0x8146, 0x61AC),
  (0x814B, 0x61AB),
  (0x814E, 0x52C4),
  (0x8150, 0x4D62_61AF),
  (0x8153, 0x61AE_5247_4CAF),
  (0x815F, 0x61B4),
  (0x8165, 0x61B3_61B5),
  (0x816B, 0x51CE),
  (0x816E, 0x61B2),
  (0x8170, 0x4BA4_61B1),
  (0x8174, 0x61B6),
  (0x8178, 0x4DB6_4CA0_526F),
  (0x817F, 0x529A_61BA),
  (0x8182, 0x61BB_61B7),
  (0x8188, 0x61B8),
  (0x818A, 0x61B9),
  (0x818F, 0x51D8),
  (0x8193, 0x61BF),
  (0x8195, 0x61BD),
  (0x819A, 0x5191),
  (0x819C, 0x4D8A_5060),
  (0x81A0, 0x61BC),
  (0x81A3, 0x61BE_61C1),
  (0x81A8, 0x4EF6_61C2),
  (0x81B0, 0x61C4),
  (0x81B3, 0x5076),
  (0x81B5, 0x61C0),
  (0x81B8, 0x61C3),
  (0x81BA, 0x61CA),
  (0x81BD, 0x61C7_61C6_535F_61C8),
  (0x81C2, 0x61C9),
  (0x81C6, 0x5474),
  (0x81C8, 0x61C5_61CB),
  (0x81CD, 0x61CC),
  (0x81D1, 0x61CD),
  (0x81D3, 0x4DBD),
  (0x81D8, 0x61CE_61CF_61D0),
  (0x81DF, 0x61D1_61D2),
  (0x81E3, 0x4A47),
  (0x81E5, 0x538A),
  (0x81E7, 0x5173_4CD0),
  (0x81EA, 0x45C3),
  (0x81ED, 0x4DB3),
  (0x81F3, 0x4A48_4C6A),
  (0x81FA, 0x61D3_61D4_4A89),
  (0x81FE, 0x61D5),
  (0x8201, 0x61D6_61D7),
  (0x8205, 0x61D8),
  (0x8207, 0x5358_466A_5778_62BA),
  (0x820C, 0x5094_61D9_4C58),
  (0x8210, 0x61DA),
  (0x8212, 0x61DB),
  (0x8216, 0x61DC_4E5B_4CAA),
  (0x821B, 0x4FC1_4FB8),
  (0x821E, 0x4A63_4BB8),
  (0x8229, 0x61DD_489F_61DE_4956),
  (0x822E, 0x61DF),
  (0x8233, 0x61E1),
  (0x8235, 0x54DB_4B87_53AC_61E0_467B),
  (0x8240, 0x61E2),
  (0x8247, 0x4DFC),
  (0x8258, 0x54AE_61E3_61E4),
  (0x825D, 0x61E5),
  (0x825F, 0x61E6),
  (0x8262, 0x61E8),
  (0x8264, 0x61E7),
  (0x8266, 0x4C4A),
  (0x8268, 0x61E9),
  (0x826A, 0x61EA_61EB),
  (0x826E, 0x55B4_45C4),
  (0x8271, 0x61EC_47C3),
  (0x8276, 0x4D54_61ED_53C5),
  (0x827E, 0x61EE),
  (0x828B, 0x519A),
  (0x828D, 0x61EF),
  (0x8292, 0x61F0),
  (0x8299, 0x4EBD),
  (0x829D, 0x4972),
  (0x829F, 0x61F2),
  (0x82A5, 0x4F7B_4ADD),
  (0x82AB, 0x61F1_61F4_5442),
  (0x82AF, 0x4FE5),
  (0x82B1, 0x46D9),
  (0x82B3, 0x4683),
  (0x82B8, 0x4953_4DD0),
  (0x82BB, 0x61F3),
  (0x82BD, 0x4EBA),
  (0x82C5, 0x4E5D),
  (0x82D1, 0x504B_61F9_5559_52D7),
  (0x82D7, 0x4AB8),
  (0x82D9, 0x6246),
  (0x82DB, 0x5377_6243),
  (0x82DE, 0x6241_61F7),
  (0x82E1, 0x61F5),
  (0x82E3, 0x61F6),
  (0x82E5, 0x46D6_4A5F_54B0),
  (0x82EB, 0x4D5A),
  (0x82F1, 0x45EE),
  (0x82F3, 0x61FB_61FA),
  (0x82F9, 0x61FE_6244_61FD),
  (0x8301, 0x61F8_4646_61FC_547A_4BD3_6242),
  (0x8309, 0x6245),
  (0x830E, 0x4EC9),
  (0x8316, 0x624A_53F6_6252),
  (0x831C, 0x50E2),
  (0x8323, 0x6258),
  (0x8328, 0x474C),
  (0x832B, 0x6251),
  (0x832F, 0x6250),
  (0x8331, 0x624B_547B),
  (0x8334, 0x6249_6247_4977),
  (0x8338, 0x4DF7_624D),
  (0x8340, 0x624C),
  (0x8345, 0x624F_53B3),
  (0x8349, 0x4842_53B3),
  (0x834F, 0x515F_624E),
  (0x8352, 0x46DC),
  (0x8358, 0x4B62),
  (0x8362, 0x6248),
  (0x8373, 0x625F),
  (0x8375, 0x625A),
  (0x8377, 0x4BA1),
  (0x837B, 0x49E0_625D),
  (0x837F, 0x625B),
  (0x8385, 0x6262),
  (0x8387, 0x5486),
  (0x8389, 0x6263_625C),
  (0x838E, 0x6259),
  (0x8393, 0x6260),
  (0x8396, 0x6257),
  (0x839A, 0x6253),
  (0x839E, 0x51EE_6255_6261),
  (0x83A2, 0x6256),
  (0x83A8, 0x6264),
  (0x83AA, 0x6254_54B3),
  (0x83B1, 0x52C9),
  (0x83B5, 0x625E),
  (0x83BD, 0x6275),
  (0x83C1, 0x626E),
  (0x83C5, 0x4753),
  (0x83C7, 0x6267),
  (0x83CA, 0x46D7),
  (0x83CC, 0x4C73),
  (0x83CE, 0x6268),
  (0x83D3, 0x4C51),
  (0x83D6, 0x5180),
  (0x83D8, 0x626C),
  (0x83DC, 0x4BA8),
  (0x83DF, 0x53D4_6270),
  (0x83E9, 0x516A),
  (0x83EB, 0x54E9),
  (0x83EF, 0x4B6C_516D_48CC_6271),
  (0x83F4, 0x6265),
  (0x83F6, 0x6274_6269),
  (0x83FB, 0x6276),
  (0x83FD, 0x626A),
  (0x8403, 0x626B_54F7),
  (0x8407, 0x626F),
  (0x840A, 0x52C9_626D_50DB_6272_5482),
  (0x8413, 0x6266),
  (0x8420, 0x6273),
  (0x8422, 0x54D8),
  (0x8429, 0x494A_6277),
  (0x842C, 0x4B75),
  (0x8431, 0x4F7C),
  (0x8435, 0x6285),
  (0x8438, 0x6284),
  (0x843C, 0x6279_47F2),
  (0x8446, 0x6282),
  (0x8448, 0x627E_45F9),
  (0x844E, 0x559F),
  (0x8457, 0x4A59),
  (0x845B, 0x48DF),
  (0x8461, 0x5547_6278_5071),
  (0x8466, 0x4E72),
  (0x8469, 0x6281),
  (0x846B, 0x627C_4F79_516C_627F_6283),
  (0x8471, 0x544E),
  (0x8475, 0x50D9),
  (0x8477, 0x627B),
  (0x8479, 0x627D_50E0),
  (0x8482, 0x6280),
  (0x8484, 0x627A),
  (0x848B, 0x53F8),
  (0x8490, 0x4F93),
  (0x8494, 0x4FE3),
  (0x8499, 0x5095),
  (0x849C, 0x5259),
  (0x849F, 0x6289),
  (0x84A1, 0x6293),
  (0x84AD, 0x6290),
  (0x84B2, 0x49B2),
  (0x84B4, 0x628A),
  (0x84B8, 0x4ABA_6287),
  (0x84BB, 0x628C_50B9),
  (0x84BF, 0x6288),
  (0x84C1, 0x628F),
  (0x84C4, 0x4C94),
  (0x84C6, 0x6291),
  (0x84C9, 0x5083_6286_4F6D),
  (0x84CD, 0x628B),
  (0x84D0, 0x628E_4F9A),
  (0x84D6, 0x6292),
  (0x84D9, 0x6294_628D),
  (0x84DC, 0x527B),
  (0x84EC, 0x5088),
  (0x84EE, 0x4BF4),
  (0x84F4, 0x6296),
  (0x84FC, 0x518B),
  (0x84FF, 0x6295_52BD),
  (0x8506, 0x629D),
  (0x8511, 0x556C),
  (0x8513, 0x557B_629C_629B),
  (0x8517, 0x6297_6298),
  (0x851A, 0x549A),
  (0x851F, 0x629A),
  (0x8521, 0x54A8),
  (0x8523, 0x53F8),
  (0x8526, 0x4FA1),
  (0x852C, 0x6299_4E8B),
  (0x8535, 0x465E),
  (0x853D, 0x54D1),
  (0x8540, 0x62A0_62A5),
  (0x8543, 0x52F7),
  (0x8548, 0x62A4_53A8_62A6_62A7),
  (0x854E, 0x5565),
  (0x8553, 0x629E),
  (0x8555, 0x62A9),
  (0x8557, 0x5491_62A3_62A1_629F),
  (0x8563, 0x62A2),
  (0x8568, 0x50DE_54F0_51D3_62A8),
  (0x856D, 0x62B0),
  (0x8577, 0x62B6),
  (0x857E, 0x62B7),
  (0x8580, 0x62AA),
  (0x8584, 0x4A92),
  (0x8587, 0x62B4_62AC),
  (0x858A, 0x62AE),
  (0x8590, 0x62B8_62AD),
  (0x8594, 0x62B1),
  (0x8597, 0x4CEC),
  (0x8599, 0x51AD),
  (0x859B, 0x62B2_62B5),
  (0x85A4, 0x62AB),
  (0x85A6, 0x4FBF),
  (0x85A8, 0x62AF_4CF1_545A_4998_46E1),
  (0x85AE, 0x62B3_53F9_62BB),
  (0x85B9, 0x62BF_62BD),
  (0x85C1, 0x4FBB),
  (0x85C9, 0x62BC),
  (0x85CD, 0x4EED),
  (0x85CF, 0x62BE_62C0),
  (0x85D5, 0x62C1),
  (0x85DC, 0x62C4_62C2),
  (0x85E4, 0x4568_62C3),
  (0x85E9, 0x4FF6_4C95),
  (0x85F7, 0x55E2),
  (0x85F9, 0x62C5_53ED_505F),
  (0x85FE, 0x62C9),
  (0x8602, 0x5496),
  (0x8606, 0x4EDA_4CBF),
  (0x860A, 0x62C6_62C8),
  (0x8613, 0x62C7),
  (0x8616, 0x5CBD_5CBE),
  (0x861A, 0x62CB),
  (0x8622, 0x62CA),
  (0x862D, 0x4CA6),
  (0x862F, 0x5F82_62CC),
  (0x863F, 0x62CD),
  (0x864D, 0x62CF_4AAB),
  (0x8650, 0x5260),
  (0x8654, 0x52FB_62D1),
  (0x865A, 0x4F72),
  (0x865C, 0x5250),
  (0x865E, 0x5588_62D2),
  (0x8667, 0x62D3),
  (0x866B, 0x4BCB),
  (0x8671, 0x62D4),
  (0x8679, 0x51B6),
  (0x867B, 0x5144),
  (0x868A, 0x4FAA_62D8_62DA),
  (0x8693, 0x62D5),
  (0x8695, 0x4F5D),
  (0x86A3, 0x62D6_55A2),
  (0x86A9, 0x62D7_62D9_62E3),
  (0x86AF, 0x62DC_62DF),
  (0x86B6, 0x62DB),
  (0x86C4, 0x62DD),
  (0x86C6, 0x62DE_4FEA),
  (0x86C9, 0x62E0),
  (0x86CB, 0x53D8),
  (0x86CD, 0x4DF9_62E1),
  (0x86D4, 0x62E4),
  (0x86D9, 0x55BB),
  (0x86DB, 0x62E9),
  (0x86DE, 0x62E5_62E8),
  (0x86E4, 0x55C2),
  (0x86E9, 0x62E6),
  (0x86EC, 0x62E7_4E66_53A5_4F74),
  (0x86F8, 0x524E_62F3),
  (0x86FB, 0x62EF),
  (0x86FE, 0x5599),
  (0x8700, 0x62ED),
  (0x8702, 0x4ECD_62EE),
  (0x8706, 0x62EB),
  (0x8708, 0x62EC_62F1_62F4),
  (0x870D, 0x62F2),
  (0x8711, 0x62F0_62EA),
  (0x8718, 0x54DC),
  (0x871A, 0x62FA),
  (0x871C, 0x53A1),
  (0x8725, 0x62F8),
  (0x8729, 0x62F9),
  (0x8734, 0x62F5),
  (0x8737, 0x526D),
  (0x873B, 0x62F7),
  (0x873F, 0x62F6),
  (0x8749, 0x53E8),
  (0x874B, 0x52A1_62FD),
  (0x874E, 0x62FE),
  (0x8753, 0x6349),
  (0x8755, 0x5347),
  (0x8757, 0x6342),
  (0x8759, 0x6348),
  (0x875F, 0x62FB_6346),
  (0x8763, 0x634A),
  (0x8766, 0x51C3),
  (0x8768, 0x6343),
  (0x876A, 0x6345),
  (0x876E, 0x6347),
  (0x8774, 0x6341),
  (0x8776, 0x4E6E),
  (0x8778, 0x62FC),
  (0x877F, 0x634B),
  (0x8782, 0x6344),
  (0x878D, 0x48C2),
  (0x879F, 0x634E),
  (0x87A2, 0x634C),
  (0x87AB, 0x6355),
  (0x87AF, 0x634F),
  (0x87B3, 0x6357),
  (0x87BA, 0x51D6_6359),
  (0x87BD, 0x6351),
  (0x87C0, 0x6352),
  (0x87C4, 0x6356),
  (0x87C6, 0x634D_54F4),
  (0x87CB, 0x6350),
  (0x87D0, 0x6353),
  (0x87D2, 0x6358),
  (0x87E0, 0x635C),
  (0x87EC, 0x53E8),
  (0x87EF, 0x635A),
  (0x87F2, 0x635B),
  (0x87F6, 0x6363_6364),
  (0x87F9, 0x5090),
  (0x87FB, 0x51C6),
  (0x87FE, 0x6362),
  (0x8805, 0x55BD),
  (0x8807, 0x635E),
  (0x880D, 0x6361_635D_635F),
  (0x8811, 0x6365),
  (0x8815, 0x6366_6360),
  (0x881F, 0x52A1),
  (0x8821, 0x6368_6367_5351),
  (0x8827, 0x6369),
  (0x8831, 0x636A),
  (0x8836, 0x636B),
  (0x8839, 0x636C),
  (0x883B, 0x636D),
  (0x8840, 0x4B43),
  (0x8842, 0x636E),
  (0x8844, 0x636F),
  (0x8846, 0x4B88),
  (0x884C, 0x45A4_6370),
  (0x8852, 0x6371_486C),
  (0x8857, 0x4BA5),
  (0x8859, 0x6372),
  (0x885B, 0x4780),
  (0x885D, 0x4DA5_6373),
  (0x8861, 0x4BED_6374_4AEA),
  (0x8868, 0x46C0),
  (0x886B, 0x6375),
  (0x8870, 0x4F54),
  (0x8872, 0x637A),
  (0x8875, 0x6378),
  (0x8877, 0x52E9),
  (0x887D, 0x6379_6377_4AA7),
  (0x8881, 0x6376_637B),
  (0x8888, 0x4F6A),
  (0x888B, 0x4A54),
  (0x888D, 0x6382),
  (0x8892, 0x637E),
  (0x8896, 0x4A57_637D),
  (0x8899, 0x6380),
  (0x889E, 0x637C),
  (0x88A2, 0x6381),
  (0x88A4, 0x6383),
  (0x88AB, 0x4B8D),
  (0x88AE, 0x637F),
  (0x88B0, 0x54C5_6386),
  (0x88B4, 0x4F5A_6385),
  (0x88B7, 0x5448),
  (0x88BF, 0x6384),
  (0x88C1, 0x49BD_4F60_6387_6388_4898),
  (0x88CF, 0x49A4),
  (0x88D4, 0x6389_46F8),
  (0x88D8, 0x638A_638B),
  (0x88DC, 0x496A_638C),
  (0x88DF, 0x4F8A),
  (0x88E1, 0x544D),
  (0x88E8, 0x6391),
  (0x88F2, 0x6392_4FA8_5349_6390),
  (0x88F8, 0x4F43_638D),
  (0x88FC, 0x638F_457B_4C8D),
  (0x8902, 0x638E),
  (0x8904, 0x6393),
  (0x8907, 0x4B51),
  (0x890A, 0x6397),
  (0x890C, 0x6394),
  (0x8910, 0x545E),
  (0x8912, 0x51BA_6398),
  (0x891C, 0x51DA_6396_6399),
  (0x8925, 0x639A),
  (0x892A, 0x6395_639B),
  (0x8936, 0x639E),
  (0x8938, 0x63A0),
  (0x893B, 0x639D),
  (0x8941, 0x639C),
  (0x8943, 0x639F_506B),
  (0x894C, 0x63A2_63A1),
  (0x8956, 0x546C),
  (0x895E, 0x63A4_54AF_63A3),
  (0x8964, 0x63A7),
  (0x8966, 0x63A5),
  (0x896A, 0x63A6),
  (0x896D, 0x63A8),
  (0x896F, 0x63A9),
  (0x8972, 0x4DDF),
  (0x8974, 0x63AA),
  (0x8977, 0x63AB),
  (0x897E, 0x63AC_4558),
  (0x8981, 0x4655),
  (0x8983, 0x63AD),
  (0x8986, 0x4DF2_4BFA_63AE),
  (0x898A, 0x63AF_45BB),
  (0x898F, 0x46FB),
  (0x8993, 0x63B0),
  (0x8996, 0x4A50_53EB_63B1),
  (0x899A, 0x4A4C),
  (0x89A1, 0x63B2),
  (0x89A6, 0x63B4_4ED0),
  (0x89A9, 0x63B3_4885),
  (0x89AC, 0x63B5),
  (0x89AF, 0x63B6),
  (0x89B2, 0x63B7_487E),
  (0x89BA, 0x63B8),
  (0x89BD, 0x63BA),
  (0x89BF, 0x63B9_63BB),
  (0x89D2, 0x477D),
  (0x89DA, 0x63BC),
  (0x89DC, 0x5360_63BD),
  (0x89E3, 0x47B7),
  (0x89E6, 0x4CD1_63BE),
  (0x89F4, 0x63BF),
  (0x89F8, 0x63C0),
  (0x8A00, 0x479A),
  (0x8A02, 0x4FC4_63C1),
  (0x8A08, 0x45C9),
  (0x8A0A, 0x50F2),
  (0x8A0C, 0x63C4),
  (0x8A0E, 0x49D2),
  (0x8A10, 0x63C3),
  (0x8A12, 0x63C5_4BC8),
  (0x8A16, 0x63C2_4AB6_4794),
  (0x8A1B, 0x63C6),
  (0x8A1D, 0x63C7),
  (0x8A1F, 0x50EF),
  (0x8A23, 0x54CC),
  (0x8A25, 0x63C8),
  (0x8A2A, 0x4A71),
  (0x8A2D, 0x45E2),
  (0x8A31, 0x4A9A),
  (0x8A33, 0x4BAD_4CDF),
  (0x8A36, 0x63C9_63CB),
  (0x8A3A, 0x4D68_4F66_49BA),
  (0x8A41, 0x63CA),
  (0x8A46, 0x63CE),
  (0x8A48, 0x63CF),
  (0x8A50, 0x5176_55E3_63CD),
  (0x8A54, 0x4F88_49FD),
  (0x8A5B, 0x63CC),
  (0x8A5E, 0x4E90),
  (0x8A60, 0x51C1),
  (0x8A62, 0x63D3_54FB),
  (0x8A66, 0x4948),
  (0x8A69, 0x4CB0),
  (0x8A6B, 0x50D3_63D2_63D1_518E),
  (0x8A70, 0x4B5F_4750_4D8D_4DE7),
  (0x8A79, 0x63D4),
  (0x8A7C, 0x63D0),
  (0x8A82, 0x63D6),
  (0x8A84, 0x63D7_63D5),
  (0x8A87, 0x4EB4),
  (0x8A89, 0x4D8C),
  (0x8A8C, 0x4B76_4A7E),
  (0x8A91, 0x63DA),
  (0x8A93, 0x4FA0),
  (0x8A95, 0x4FA2),
  (0x8A98, 0x4ACB),
  (0x8A9A, 0x63DD),
  (0x8A9E, 0x48E7),
  (0x8AA0, 0x46FD_63D9),
  (0x8AA3, 0x63DE_4D91_63DB_63DC_63DF_63D8),
  (0x8AAC, 0x4952_4A4F),
  (0x8AB0, 0x4B83),
  (0x8AB2, 0x49D6),
  (0x8AB9, 0x55F2),
  (0x8ABC, 0x5265),
  (0x8ABE, 0x63E1_4689),
  (0x8AC2, 0x63E3),
  (0x8AC4, 0x50B2),
  (0x8AC7, 0x4963),
  (0x8ACB, 0x4AE8_63E0_63E2),
  (0x8ACF, 0x4BC1),
  (0x8AD2, 0x5181),
  (0x8AD6, 0x48F3),
  (0x8ADA, 0x63E4_63F2_5570),
  (0x8ADE, 0x63F1_63ED_63EA_63EC_63EB),
  (0x8AE4, 0x63E7),
  (0x8AE6, 0x5246_63E6),
  (0x8AEB, 0x4E96),
  (0x8AED, 0x4E9C_4F9C),
  (0x8AF1, 0x63E8),
  (0x8AF3, 0x63E5),
  (0x8AF6, 0x63EF_63F0_47E2),
  (0x8AFA, 0x55AB),
  (0x8AFE, 0x4FE1),
  (0x8B00, 0x4F4D_54E5_5573),
  (0x8B04, 0x4FE2),
  (0x8B07, 0x63F4),
  (0x8B0C, 0x63F3),
  (0x8B0E, 0x52F9),
  (0x8B10, 0x63F7),
  (0x8B14, 0x63E9),
  (0x8B16, 0x63F6_63F8),
  (0x8B19, 0x497C_63F5_4A6E),
  (0x8B1D, 0x4DBB),
  (0x8B20, 0x63F9_4D7D),
  (0x8B26, 0x63FD),
  (0x8B28, 0x5381),
  (0x8B2B, 0x63FE_55A1),
  (0x8B33, 0x63FA),
  (0x8B39, 0x4D87),
  (0x8B3E, 0x6441),
  (0x8B41, 0x63FB),
  (0x8B49, 0x6446),
  (0x8B4C, 0x6442),
  (0x8B4E, 0x6444_6443),
  (0x8B53, 0x6445),
  (0x8B56, 0x6447),
  (0x8B58, 0x4A75),
  (0x8B5A, 0x6449_6448_4E4F),
  (0x8B5F, 0x644C),
  (0x8B66, 0x4AD7),
  (0x8B6B, 0x644B_644D),
  (0x8B6F, 0x644E_4781_6176_4B7B),
  (0x8B74, 0x644A),
  (0x8B77, 0x49DB),
  (0x8B7D, 0x644F),
  (0x8B7F, 0x6450_6451),
  (0x8B83, 0x516B),
  (0x8B8A, 0x5B88),
  (0x8B8C, 0x6452),
  (0x8B8E, 0x6453),
  (0x8B90, 0x53FE),
  (0x8B92, 0x6455_6456),
  (0x8B96, 0x6457),
  (0x8B99, 0x6454_6458),
  (0x8C37, 0x4581),
  (0x8C3A, 0x6459),
  (0x8C3F, 0x645B),
  (0x8C41, 0x645A),
  (0x8C46, 0x4A99),
  (0x8C48, 0x645C),
  (0x8C4A, 0x4648),
  (0x8C4C, 0x645D),
  (0x8C4E, 0x645E),
  (0x8C50, 0x645F),
  (0x8C55, 0x6460),
  (0x8C5A, 0x4CCF),
  (0x8C61, 0x4994_6461),
  (0x8C6A, 0x4C68_5355_6462),
  (0x8C78, 0x6463_5593_6464),
  (0x8C7C, 0x6465),
  (0x8C82, 0x6466),
  (0x8C85, 0x6468),
  (0x8C89, 0x6467_6469),
  (0x8C8C, 0x5064_646A_646B),
  (0x8C94, 0x646D),
  (0x8C98, 0x646C),
  (0x8C9D, 0x49EA_46B6),
  (0x8CA0, 0x49C8_49AF_4AF1),
  (0x8CA7, 0x4DA3_4AEB_4A5D_6470_49A1_4BD2_646F_6471_4C62_4DEF),
  (0x8CB2, 0x6473_6474_487F),
  (0x8CB6, 0x6476_4974_4AF4),
  (0x8CBB, 0x46D0_507B_6472),
  (0x8CBF, 0x4872_4641_6475_55F8_4B4D_5067),
  (0x8CC7, 0x4650_6477),
  (0x8CCA, 0x4FFD),
  (0x8CCD, 0x6479_6478),
  (0x8CD1, 0x539E),
  (0x8CD3, 0x50D7),
  (0x8CDA, 0x647B_4DEE_4F94),
  (0x8CDE, 0x4AAD),
  (0x8CE0, 0x4F4F),
  (0x8CE2, 0x47E5_647A_5566),
  (0x8CE6, 0x4FA7),
  (0x8CEA, 0x46EC),
  (0x8CED, 0x52C1),
  (0x8CF0, 0x647C),
  (0x8CF4, 0x647D),
  (0x8CFA, 0x647F_6480_4E8F_647E),
  (0x8D04, 0x535A_5574),
  (0x8D07, 0x6481_4C7C),
  (0x8D0A, 0x6482_5584),
  (0x8D0D, 0x6484),
  (0x8D0F, 0x6483_6486),
  (0x8D12, 0x6485_6487_6488),
  (0x8D16, 0x6489),
  (0x8D64, 0x46F9),
  (0x8D66, 0x5151_648A),
  (0x8D6B, 0x53CC),
  (0x8D6D, 0x648B),
  (0x8D70, 0x4AAA_648C),
  (0x8D73, 0x51C9_50EE),
  (0x8D76, 0x648D_48D0),
  (0x8D81, 0x648F),
  (0x8D85, 0x4A78),
  (0x8D8A, 0x46DF),
  (0x8D99, 0x51DE),
  (0x8DA3, 0x4CED),
  (0x8DA8, 0x5561),
  (0x8DB3, 0x46FA),
  (0x8DBA, 0x6492),
  (0x8DBE, 0x6491),
  (0x8DC2, 0x6490),
  (0x8DCB, 0x6498_6496),
  (0x8DCF, 0x6493),
  (0x8DD6, 0x6495),
  (0x8DDA, 0x6494_6497),
  (0x8DDD, 0x4DC2),
  (0x8DDF, 0x649B),
  (0x8DE1, 0x4CCD),
  (0x8DE3, 0x649C),
  (0x8DE8, 0x55CB),
  (0x8DEA, 0x6499_649A),
  (0x8DEF, 0x4784),
  (0x8DF3, 0x50B4),
  (0x8DF5, 0x50D1),
  (0x8DFC, 0x649D),
  (0x8DFF, 0x649F),
  (0x8E08, 0x649E_64A0_4CA8),
  (0x8E0F, 0x4D7C_64A3),
  (0x8E1D, 0x64A1_64A2_64A4),
  (0x8E2A, 0x50FC),
  (0x8E30, 0x64A7),
  (0x8E34, 0x64A8_64A6),
  (0x8E42, 0x64A5),
  (0x8E44, 0x55A7),
  (0x8E47, 0x64AA_64AE_64AB_64A9),
  (0x8E4C, 0x64AC),
  (0x8E50, 0x64AD),
  (0x8E55, 0x64B2),
  (0x8E59, 0x64AF),
  (0x8E5F, 0x5368_64B1),
  (0x8E63, 0x64B3_64B0),
  (0x8E72, 0x64B5),
  (0x8E74, 0x52F6),
  (0x8E76, 0x64B4),
  (0x8E7C, 0x64B7),
  (0x8E81, 0x64B8),
  (0x8E84, 0x64BA_64B9),
  (0x8E87, 0x64B6),
  (0x8E8A, 0x64BC_64BB),
  (0x8E8D, 0x4CA1),
  (0x8E91, 0x64BE),
  (0x8E93, 0x64BD_64BF),
  (0x8E99, 0x64C0),
  (0x8EA1, 0x64C1),
  (0x8EAA, 0x64C2_479C_5044),
  (0x8EAF, 0x5353_537A_64C3),
  (0x8EBE, 0x64C4),
  (0x8EC0, 0x5353),
  (0x8EC5, 0x64C6_64C5),
  (0x8EC8, 0x64C7),
  (0x8ECA, 0x4653_64C8_4DAA_4897),
  (0x8ECF, 0x64C9),
  (0x8ED2, 0x4E55),
  (0x8EDB, 0x64CA),
  (0x8EDF, 0x4CB1),
  (0x8EE2, 0x4752_64CB),
  (0x8EEB, 0x64CE),
  (0x8EF8, 0x4BA6),
  (0x8EFB, 0x64CD_64CC_48A6_64CF),
  (0x8F03, 0x4A5A),
  (0x8F05, 0x64D2),
  (0x8F09, 0x4D6E_64D0),
  (0x8F0C, 0x64D1),
  (0x8F12, 0x64D4_64D5_4A68_64D3),
  (0x8F19, 0x64D7),
  (0x8F1B, 0x515B_64D6_4787),
  (0x8F1F, 0x64D8),
  (0x8F26, 0x64D9),
  (0x8F29, 0x4EF4_48B7),
  (0x8F2F, 0x55A6),
  (0x8F33, 0x64DA),
  (0x8F38, 0x4693_64DC),
  (0x8F3B, 0x64DB),
  (0x8F3E, 0x64DF_506C),
  (0x8F42, 0x64DE),
  (0x8F44, 0x50FE_64DD_64E1),
  (0x8F49, 0x64E0),
  (0x8F4C, 0x64E2_54EE_64E3),
  (0x8F57, 0x64E4),
  (0x8F5C, 0x64E5),
  (0x8F5F, 0x50A9),
  (0x8F61, 0x52E1_64E6_64E7_64E8),
  (0x8F9B, 0x4D5E_64E9),
  (0x8F9E, 0x4D74_64EA),
  (0x8FA3, 0x64EB),
  (0x8FA7, 0x64ED_64EC),
  (0x8FAD, 0x64EE_6149_64EF_47DF_52E5_4845),
  (0x8FB7, 0x64F0),
  (0x8FBA, 0x45D5_47F5_4841),
  (0x8FBF, 0x547E),
  (0x8FC2, 0x55DF),
  (0x8FC4, 0x49CD_5068),
  (0x8FCE, 0x4BA9),
  (0x8FD1, 0x4673),
  (0x8FD4, 0x48D6),
  (0x8FDA, 0x64F2),
  (0x8FE2, 0x64F4),
  (0x8FE5, 0x64F3_535D),
  (0x8FE9, 0x64F6_4E9E_49EF),
  (0x8FED, 0x53DF),
  (0x8FEF, 0x64F5_4A9C),
  (0x8FF4, 0x64F7),
  (0x8FF7, 0x4E58_64FA_64F9_54A9),
  (0x8FFD, 0x49D1),
  (0x9000, 0x4B49_4744),
  (0x9003, 0x4C72),
  (0x9005, 0x64F8_4BFC),
  (0x900B, 0x6544),
  (0x900D, 0x6541_64FD_4BDA_50BB_64FB),
  (0x9013, 0x515E_48F0_64FC_6543_4FB3),
  (0x9019, 0x4FCA_45E3),
  (0x901D, 0x53B1_6542_48CD_45B8_64FE_4DCE_4754),
  (0x9027, 0x6545),
  (0x902E, 0x4F77),
  (0x9031, 0x4AD3_4669),
  (0x9035, 0x5485_6546),
  (0x9038, 0x4AD6_6547),
  (0x903C, 0x55AC),
  (0x903E, 0x654E),
  (0x9041, 0x54F8_4CF7),
  (0x9045, 0x4C6D),
  (0x9047, 0x49EC),
  (0x9049, 0x654D_4A8B_46AB),
  (0x904D, 0x505D_488D_6548_654A_654B_654C_4550_46A4_49BC_654F),
  (0x9058, 0x6550_52F3),
  (0x905C, 0x5455),
  (0x905E, 0x6551),
  (0x9060, 0x46E3_544C),
  (0x9063, 0x4EC2),
  (0x9065, 0x6882),
  (0x9067, 0x6553_6552_49CC),
  (0x906D, 0x5143_5458_6554),
  (0x9072, 0x6557),
  (0x9075, 0x526E_6555_535B_485D),
  (0x907A, 0x4CDA),
  (0x907C, 0x526B_6559),
  (0x907F, 0x4CC4_655B_537B_6558_6045_4DA9),
  (0x9087, 0x5186),
  (0x9089, 0x655A_50EA),
  (0x908F, 0x655C),
  (0x9091, 0x4C92),
  (0x90A3, 0x4846),
  (0x90A6, 0x46C5),
  (0x90A8, 0x51A8),
  (0x90AA, 0x4EB8),
  (0x90AF, 0x655E),
  (0x90B1, 0x655F),
  (0x90B5, 0x6560),
  (0x90B8, 0x4D81),
  (0x90C1, 0x49B3),
  (0x90CA, 0x5052),
  (0x90CE, 0x456E),
  (0x90DB, 0x6563),
  (0x90DE, 0x6564),
  (0x90E1, 0x499E_6561),
  (0x90E4, 0x6562),
  (0x90E8, 0x4595),
  (0x90ED, 0x5162),
  (0x90F5, 0x4CB7),
  (0x90F7, 0x4995),
  (0x90FD, 0x454F),
  (0x9102, 0x6565),
  (0x9112, 0x6568),
  (0x9115, 0x6567),
  (0x9119, 0x6569),
  (0x9127, 0x656B),
  (0x912D, 0x5154),
  (0x9130, 0x656C),
  (0x9132, 0x656A),
  (0x9149, 0x4F73_656D_5548_52BB_47F3_5591),
  (0x9152, 0x4758),
  (0x9154, 0x4E7C),
  (0x9156, 0x656E),
  (0x9158, 0x656F),
  (0x9162, 0x4BAE_6570),
  (0x9165, 0x6571),
  (0x9169, 0x6572_50BD),
  (0x916C, 0x5149),
  (0x9172, 0x6574_6573),
  (0x9175, 0x4D86),
  (0x9177, 0x51EB_4899),
  (0x9182, 0x6577),
  (0x9187, 0x51A9),
  (0x9189, 0x6576),
  (0x918B, 0x6575),
  (0x918D, 0x516F),
  (0x9190, 0x5170),
  (0x9192, 0x5378),
  (0x9197, 0x51FA),
  (0x919C, 0x536F),
  (0x91A2, 0x6578),
  (0x91A4, 0x507F),
  (0x91AA, 0x657B_6579_507F),
  (0x91AF, 0x657A),
  (0x91B1, 0x51FA),
  (0x91B4, 0x657D_657C),
  (0x91B8, 0x50C2),
  (0x91BA, 0x657E),
  (0x91C0, 0x657F_6580),
  (0x91C6, 0x5346_53BF_4D79_5252),
  (0x91CB, 0x6581_476C_45A3_4569_47B5_6582_4586),
  (0x91D6, 0x6587_6585_4FF4),
  (0x91DA, 0x6583_6584_4ACC_4988_6586_6588),
  (0x91E1, 0x6589),
  (0x91E3, 0x4CE3_658D_658F_534A_4BF0),
  (0x91ED, 0x658A_658C),
  (0x91F5, 0x658B_658E),
  (0x91FC, 0x51D0),
  (0x91FF, 0x6592),
  (0x9206, 0x6590),
  (0x920A, 0x6595),
  (0x920D, 0x4E63_538F),
  (0x9210, 0x6593_5269),
  (0x9214, 0x6594_6597),
  (0x921E, 0x6591),
  (0x9229, 0x6598),
  (0x922C, 0x6596),
  (0x9234, 0x45AE),
  (0x9237, 0x55BF),
  (0x9239, 0x65A6_659B),
  (0x923C, 0x659F),
  (0x923F, 0x65A4_659E),
  (0x9244, 0x45D7_659A),
  (0x9248, 0x65A0_659C),
  (0x924B, 0x65A7),
  (0x924E, 0x65A1),
  (0x9250, 0x65A2_65A5),
  (0x9257, 0x6599),
  (0x9259, 0x65A3_65A9_49D4),
  (0x925E, 0x5393),
  (0x9262, 0x4EA8),
  (0x9264, 0x659D),
  (0x9266, 0x4FB4_65A8),
  (0x9271, 0x4863),
  (0x9277, 0x65AC_65AD),
  (0x927E, 0x5183),
  (0x9280, 0x478C),
  (0x9283, 0x4CE2),
  (0x9285, 0x48C0),
  (0x9288, 0x524B),
  (0x9291, 0x4CAD),
  (0x9293, 0x65AF),
  (0x9295, 0x65B1_65AE),
  (0x9298, 0x4DDC),
  (0x929A, 0x4E80_65B0_65AA),
  (0x92A7, 0x65AB),
  (0x92AD, 0x4D48),
  (0x92B7, 0x65BB),
  (0x92B9, 0x65BA),
  (0x92CF, 0x65B3_65B7),
  (0x92D2, 0x5449_65BD),
  (0x92D5, 0x65B9),
  (0x92D7, 0x65B5),
  (0x92D9, 0x65B6),
  (0x92E0, 0x65BC),
  (0x92E4, 0x52C0),
  (0x92E7, 0x65B4),
  (0x92E9, 0x65B2_5363),
  (0x92ED, 0x4D6F),
  (0x92F2, 0x55BE_48C1),
  (0x92F8, 0x51E7_5394_65C2_65C5_46A1),
  (0x92FF, 0x65C9),
  (0x9302, 0x65CE),
  (0x9306, 0x55D2),
  (0x930F, 0x65C0_5390),
  (0x9318, 0x54EF_65C7_65CB),
  (0x931D, 0x65CC_65C8),
  (0x9320, 0x4E57_65C3_65CA_65CD),
  (0x9325, 0x65C1_4B8E),
  (0x9328, 0x53F0),
  (0x932B, 0x5257_4FE6),
  (0x932E, 0x5283_50B1),
  (0x9332, 0x4886),
  (0x9335, 0x65BF),
  (0x933A, 0x65BE_65CF),
  (0x9344, 0x65C4),
  (0x9348, 0x51F7),
  (0x934B, 0x4B48),
  (0x934D, 0x55D3),
  (0x9354, 0x54AA),
  (0x9356, 0x65D4_65D5),
  (0x935B, 0x48C7_52AD),
  (0x9360, 0x65D1),
  (0x936C, 0x4F70),
  (0x936E, 0x65D3),
  (0x9370, 0x65D0),
  (0x9375, 0x4E45),
  (0x937C, 0x65D2),
  (0x937E, 0x53BD),
  (0x938C, 0x4962),
  (0x9394, 0x65DA),
  (0x9396, 0x4D70_5197),
  (0x939A, 0x54FE),
  (0x93A4, 0x65D8),
  (0x93A7, 0x546D),
  (0x93AC, 0x536E_65D9_4C89),
  (0x93B0, 0x65D7),
  (0x93B9, 0x65D6),
  (0x93C3, 0x65E2),
  (0x93C6, 0x65DD),
  (0x93C8, 0x65DB),
  (0x93D0, 0x65E5_5041),
  (0x93D6, 0x65DC_65DE_65E1),
  (0x93DD, 0x65E3_65E4),
  (0x93E1, 0x4A8D),
  (0x93E4, 0x65E6_65E0),
  (0x93E8, 0x65DF),
  (0x93F8, 0x65E8),
  (0x9403, 0x65EC),
  (0x9407, 0x65ED),
  (0x9410, 0x51CD),
  (0x9413, 0x65EA_65E9),
  (0x9418, 0x4CC8_52CF_65E7),
  (0x9421, 0x65EB),
  (0x942B, 0x65EF),
  (0x9431, 0x65F0),
  (0x9435, 0x5156_65EE),
  (0x9438, 0x5388),
  (0x943A, 0x65F1),
  (0x9441, 0x65F2),
  (0x9444, 0x65F5_65F4),
  (0x9448, 0x65F6),
  (0x9451, 0x4E4E_65F3_5241),
  (0x945A, 0x65F8_65F7),
  (0x945E, 0x65FB),
  (0x9460, 0x65F9),
  (0x9462, 0x65FA),
  (0x946A, 0x65FC),
  (0x9470, 0x65FE),
  (0x9475, 0x65FD),
  (0x9477, 0x6641),
  (0x947C, 0x6644_6643_6645_6642),
  (0x9481, 0x6646),
  (0x9577, 0x4583),
  (0x9580, 0x46AA),
  (0x9582, 0x6647_519C),
  (0x9587, 0x6648),
  (0x9589, 0x4B7D_6649_46CD),
  (0x958F, 0x545F),
  (0x9591, 0x4DD9_664A_45C1_664B),
  (0x9596, 0x664C),
  (0x9598, 0x664D_664E),
  (0x95A0, 0x664F),
  (0x95A2, 0x45C5_4AE9_549B_5172),
  (0x95A7, 0x6651_6650),
  (0x95AD, 0x6652),
  (0x95B2, 0x5177),
  (0x95B9, 0x6655),
  (0x95BB, 0x6654_6653),
  (0x95BE, 0x6656),
  (0x95C3, 0x6659),
  (0x95C7, 0x5364),
  (0x95CA, 0x6657),
  (0x95CC, 0x665B_665A),
  (0x95D4, 0x665D_665C_665E),
  (0x95D8, 0x4BCC),
  (0x95DC, 0x665F),
  (0x95E1, 0x6660_6662),
  (0x95E5, 0x6661),
  (0x961C, 0x4786),
  (0x9621, 0x6663),
  (0x9628, 0x6664),
  (0x962A, 0x4591),
  (0x962E, 0x6665_6666),
  (0x9632, 0x47BC),
  (0x963B, 0x4FEF),
  (0x963F, 0x46AE_4FE8),
  (0x9642, 0x6667),
  (0x9644, 0x4B8C),
  (0x964B, 0x666A_6669_49E5),
  (0x964F, 0x6668_48AD),
  (0x965B, 0x5157_666B_666C_5272_666D),
  (0x9662, 0x49D8_4C84_496D_4FFE_666E),
  (0x966A, 0x55C3),
  (0x966C, 0x6671),
  (0x9670, 0x4CD2),
  (0x9672, 0x6670_4E61),
  (0x9675, 0x50C7_4AB7_666F_4961),
  (0x967A, 0x4A6C),
  (0x967D, 0x47BF),
  (0x9685, 0x4BB9_465D),
  (0x9688, 0x4CE5),
  (0x968A, 0x4A93_6673),
  (0x968D, 0x6672_49A9_4E76),
  (0x9694, 0x505A_6676),
  (0x9697, 0x6677_6675_53C3),
  (0x969B, 0x4797_4BF9_6679),
  (0x96A0, 0x4EAE),
  (0x96A3, 0x4CE0),
  (0x96A7, 0x667A_6556),
  (0x96AA, 0x667B),
  (0x96AF, 0x667F_667E_667C_667D),
  (0x96B4, 0x6680),
  (0x96B6, 0x6681_5545_6682_6683),
  (0x96BB, 0x4FDA_4ED5),
  (0x96C0, 0x4F64_51A4),
  (0x96C4, 0x4570_4745_47A0_4C4D),
  (0x96C9, 0x5477),
  (0x96CB, 0x6685_52B7_525B_6684),
  (0x96D1, 0x4A8A),
  (0x96D5, 0x6686_6354),
  (0x96D9, 0x6688),
  (0x96DB, 0x51FB_6687),
  (0x96E2, 0x4997_495A),
  (0x96E8, 0x49DD),
  (0x96EA, 0x49BB_52A5),
  (0x96F0, 0x4F90),
  (0x96F2, 0x4ABC),
  (0x96F6, 0x5069_4BD6),
  (0x96F9, 0x6689),
  (0x96FB, 0x4582),
  (0x9700, 0x47FB),
  (0x9704, 0x668A),
  (0x9706, 0x668B_4DDE_668C),
  (0x970A, 0x4F4B),
  (0x970D, 0x668E_6690_6692),
  (0x9711, 0x6691),
  (0x9713, 0x668F),
  (0x9716, 0x6693),
  (0x9719, 0x668D),
  (0x971C, 0x4DE8),
  (0x971E, 0x4EE4),
  (0x9724, 0x6694),
  (0x9727, 0x4E48),
  (0x972A, 0x6695),
  (0x9730, 0x6696),
  (0x9732, 0x4BC6_6697),
  (0x9738, 0x5BCF_6698),
  (0x973B, 0x6699),
  (0x973D, 0x669A_669B),
  (0x9742, 0x66A0_669E_669D),
  (0x9746, 0x669C),
  (0x9748, 0x669F_66A1),
  (0x974D, 0x66A2),
  (0x974F, 0x66A3),
  (0x9751, 0x66A4_464C),
  (0x9755, 0x66A5_48C3),
  (0x9759, 0x4644),
  (0x975C, 0x66A6),
  (0x975E, 0x48E1),
  (0x9760, 0x66A7_6852_4691),
  (0x9764, 0x66A8),
  (0x9766, 0x66A9),
  (0x9768, 0x66AA_4AA3),
  (0x976B, 0x53B5),
  (0x976D, 0x66AB),
  (0x9771, 0x52CE),
  (0x9774, 0x4DF1),
  (0x9779, 0x66AC_66B0),
  (0x977C, 0x66AE),
  (0x9781, 0x66AF),
  (0x9784, 0x5445_66AD_5277),
  (0x978B, 0x66B1),
  (0x978D, 0x504C),
  (0x978F, 0x66B2_66B3),
  (0x9798, 0x52E7),
  (0x979C, 0x66B4),
  (0x97A0, 0x51ED),
  (0x97A3, 0x66B7),
  (0x97A6, 0x66B6),
  (0x97A8, 0x66B5),
  (0x97AB, 0x63FC),
  (0x97AD, 0x548B),
  (0x97B3, 0x66B8_66B9),
  (0x97C3, 0x66BA),
  (0x97C6, 0x66BB),
  (0x97C8, 0x66BC),
  (0x97CB, 0x66BD),
  (0x97D3, 0x4E75),
  (0x97DC, 0x66BE),
  (0x97ED, 0x66BF_4FDF),
  (0x97F2, 0x66C0_484D),
  (0x97F5, 0x66C2_52FC),
  (0x97FB, 0x5577),
  (0x97FF, 0x4A5C),
  (0x9801, 0x4CD9_4D5B_4946),
  (0x9805, 0x4A97_47B2),
  (0x9808, 0x46B0),
  (0x980C, 0x5456),
  (0x980F, 0x66C3_4D4A_539D_5557_517A),
  (0x9817, 0x55E4_4ACD),
  (0x981A, 0x66C4),
  (0x9821, 0x66C6),
  (0x9824, 0x66C5),
  (0x982C, 0x4EB3_47EB),
  (0x9830, 0x4EB3),
  (0x9834, 0x5576),
  (0x9837, 0x66C7_50FB_66C8),
  (0x983B, 0x53AB_4A7A_66C8),
  (0x9846, 0x51DC),
  (0x984B, 0x66CA_47FE_47F1_548E_66C9),
  (0x9854, 0x48B8_4AE5),
  (0x9857, 0x66CB_4C57),
  (0x985A, 0x55C1_55C1),
  (0x985E, 0x46BA),
  (0x9865, 0x66CC),
  (0x9867, 0x4EEE),
  (0x986B, 0x66CD),
  (0x986F, 0x66CE_66CF_66D0),
  (0x9873, 0x66D2_66D1),
  (0x98A8, 0x47E7),
  (0x98AA, 0x66D3),
  (0x98AF, 0x66D4),
  (0x98B1, 0x66D5),
  (0x98B6, 0x66D6),
  (0x98C3, 0x66D8_66D7),
  (0x98C6, 0x66D9),
  (0x98DB, 0x488A_66DA),
  (0x98DF, 0x46B8),
  (0x98E2, 0x53CE),
  (0x98E9, 0x66DC),
  (0x98EB, 0x66DE),
  (0x98ED, 0x66DB_5CCA_46B5),
  (0x98F2, 0x4BA3),
  (0x98F4, 0x5245),
  (0x98FC, 0x4A8F_4D49_4957),
  (0x9903, 0x66E0),
  (0x9905, 0x50BF),
  (0x9909, 0x54BC_4979),
  (0x990C, 0x50A7),
  (0x9910, 0x55B3),
  (0x9912, 0x66E2_554B_66E3),
  (0x9918, 0x66E4),
  (0x991D, 0x66E1_66E8),
  (0x9920, 0x66EA_66E7),
  (0x9924, 0x66E9),
  (0x9927, 0x66E5_4862),
  (0x992C, 0x66EB),
  (0x992E, 0x66EC),
  (0x993D, 0x66ED_66EE),
  (0x9942, 0x66EF),
  (0x9945, 0x66F1),
  (0x9949, 0x66F0),
  (0x994B, 0x66F3_66F5),
  (0x9950, 0x66F2_66F4_52E8),
  (0x9955, 0x66F6),
  (0x9957, 0x51D5),
  (0x9996, 0x49BE_66F7_66F8_46BD),
  (0x999E, 0x66F9),
  (0x99A5, 0x66FA),
  (0x99A8, 0x4B85),
  (0x99AC, 0x4664_66FB_66FC),
  (0x99B3, 0x52DF_50A1),
  (0x99BC, 0x66FD),
  (0x99C1, 0x55E5),
  (0x99C4, 0x4DE5_49AC_4CFE),
  (0x99C8, 0x4F85),
  (0x99D0, 0x4DF5_6744_49FC),
  (0x99D5, 0x53BE),
  (0x99D8, 0x6743),
  (0x99DB, 0x6741),
  (0x99DD, 0x6742),
  (0x99DF, 0x66FE),
  (0x99E2, 0x6747),
  (0x99ED, 0x6745_6746),
  (0x99F1, 0x6748_6749),
  (0x99F8, 0x674B),
  (0x99FB, 0x674A),
  (0x99FF, 0x4CC0),
  (0x9A01, 0x674C),
  (0x9A05, 0x674E),
  (0x9A0E, 0x5058_674D),
  (0x9A12, 0x4DD2_48B4),
  (0x9A19, 0x674F),
  (0x9A28, 0x53DA),
  (0x9A2B, 0x6750),
  (0x9A30, 0x4E5E),
  (0x9A37, 0x6751),
  (0x9A3E, 0x6756),
  (0x9A40, 0x6752),
  (0x9A42, 0x6754_6755),
  (0x9A45, 0x6753),
  (0x9A4D, 0x6758_6759),
  (0x9A52, 0x53DA),
  (0x9A55, 0x6757),
  (0x9A57, 0x675B),
  (0x9A5A, 0x4CD5_675A),
  (0x9A5F, 0x675C),
  (0x9A62, 0x675D),
  (0x9A64, 0x6760_675F),
  (0x9A69, 0x675E_6761_6762),
  (0x9AA8, 0x4AA5),
  (0x9AAD, 0x6763),
  (0x9AB0, 0x6764),
  (0x9AB8, 0x559C),
  (0x9ABC, 0x6765),
  (0x9AC0, 0x6766),
  (0x9AC4, 0x52C5),
  (0x9ACF, 0x6767),
  (0x9AD1, 0x676A),
  (0x9AD3, 0x6768_6769),
  (0x9AD8, 0x4571_676B),
  (0x9ADC, 0x676C),
  (0x9ADE, 0x676D_676E),
  (0x9AE2, 0x676F_6770),
  (0x9AE6, 0x6771),
  (0x9AEA, 0x4CF6_6773),
  (0x9AED, 0x509D_6774_6772),
  (0x9AF1, 0x6776),
  (0x9AF4, 0x6775),
  (0x9AF7, 0x6777),
  (0x9AFB, 0x6778),
  (0x9B06, 0x6779),
  (0x9B18, 0x677A),
  (0x9B1A, 0x677B),
  (0x9B1F, 0x677C),
  (0x9B22, 0x677D_677E),
  (0x9B25, 0x677F),
  (0x9B27, 0x6780_6781_6782_6783),
  (0x9B2E, 0x6784_6785),
  (0x9B31, 0x6786_6787),
  (0x9B3B, 0x6788_4AC8),
  (0x9B41, 0x52CB_50A8_678A_6789_4DB4),
  (0x9B4D, 0x678B_678C_5389),
  (0x9B51, 0x678D),
  (0x9B54, 0x4DE2),
  (0x9B58, 0x678E),
  (0x9B5A, 0x48EE),
  (0x9B6F, 0x51F4),
  (0x9B72, 0x6791),
  (0x9B74, 0x6790_678F),
  (0x9B83, 0x6794),
  (0x9B8E, 0x4F8E_6793),
  (0x9B91, 0x6795_528D_6792),
  (0x9B96, 0x6796_6797),
  (0x9B9F, 0x6798_6799),
  (0x9BA8, 0x679A),
  (0x9BAA, 0x55CE_4EB7),
  (0x9BAD, 0x5391_4CE9),
  (0x9BB1, 0x679B),
  (0x9BB4, 0x679C),
  (0x9BB9, 0x67A0),
  (0x9BBB, 0x679F),
  (0x9BC0, 0x679D),
  (0x9BC6, 0x67A1),
  (0x9BC9, 0x4FC6_679E),
  (0x9BCF, 0x67A2),
  (0x9BD1, 0x67A3_67A4),
  (0x9BD4, 0x67A8),
  (0x9BD6, 0x4FE4),
  (0x9BDB, 0x50D8),
  (0x9BE1, 0x67A9_67A6_67A5_67A7),
  (0x9BE8, 0x4D78),
  (0x9BF0, 0x5551_67AB_67AC),
  (0x9BF5, 0x67AA),
  (0x9C00, 0x67B1),
  (0x9C04, 0x67AD),
  (0x9C06, 0x67B5),
  (0x9C08, 0x67B6_67B2_67B8),
  (0x9C0C, 0x67B4_5571),
  (0x9C10, 0x5293),
  (0x9C12, 0x67B7_67B3_67B0_67AF),
  (0x9C1B, 0x67AE),
  (0x9C21, 0x67BC),
  (0x9C24, 0x67BB_67BA),
  (0x9C2D, 0x546E_67B9_55C8_67BD),
  (0x9C32, 0x67BF),
  (0x9C39, 0x53D5_51F0_54AB),
  (0x9C3E, 0x67C1),
  (0x9C46, 0x67C0_67BE_5560),
  (0x9C52, 0x53C6),
  (0x9C57, 0x554C),
  (0x9C5A, 0x67C2),
  (0x9C60, 0x67C3),
  (0x9C67, 0x67C4),
  (0x9C76, 0x67C5),
  (0x9C78, 0x67C6),
  (0x9CE5, 0x4779),
  (0x9CE7, 0x67C8),
  (0x9CE9, 0x4D95),
  (0x9CEB, 0x67C7_67C9),
  (0x9CF0, 0x67CA),
  (0x9CF3, 0x4EA6_4B70),
  (0x9CF6, 0x54C4),
  (0x9D03, 0x67CC),
  (0x9D06, 0x67CD_51A1_54FC_67CB),
  (0x9D0E, 0x5464),
  (0x9D12, 0x67D4),
  (0x9D15, 0x67D3),
  (0x9D1B, 0x52C3),
  (0x9D1F, 0x67D2),
  (0x9D23, 0x67D1),
  (0x9D26, 0x67CF),
  (0x9D28, 0x4C54),
  (0x9D2A, 0x67CE_50BA_67D0),
  (0x9D3B, 0x4DD6),
  (0x9D3E, 0x67D8_67D6),
  (0x9D41, 0x67D5),
  (0x9D44, 0x67D7),
  (0x9D46, 0x67D9),
  (0x9D48, 0x67DA),
  (0x9D50, 0x67DF_67DE),
  (0x9D59, 0x67DD),
  (0x9D5C, 0x4BE7_67DB_67DC),
  (0x9D60, 0x50FD_557E),
  (0x9D64, 0x67E0),
  (0x9D6B, 0x67E4_518A),
  (0x9D6F, 0x67E5_67E2),
  (0x9D72, 0x67E1),
  (0x9D7A, 0x67E6),
  (0x9D87, 0x67E3),
  (0x9D89, 0x5342),
  (0x9D8F, 0x4D8E),
  (0x9D9A, 0x67E7),
  (0x9DA4, 0x67E8),
  (0x9DA9, 0x67E9),
  (0x9DAB, 0x67EA),
  (0x9DAF, 0x50E5),
  (0x9DB2, 0x67EB),
  (0x9DB4, 0x477A),
  (0x9DB8, 0x67EF),
  (0x9DBA, 0x67F0_67EE),
  (0x9DC1, 0x67ED_67F3),
  (0x9DC4, 0x67EC),
  (0x9DC6, 0x67F1),
  (0x9DCF, 0x67F2),
  (0x9DD3, 0x67F6),
  (0x9DD7, 0x5464),
  (0x9DD9, 0x67F5),
  (0x9DE6, 0x67F8),
  (0x9DED, 0x67F9),
  (0x9DEF, 0x67FA),
  (0x9DF2, 0x4BF1),
  (0x9DF8, 0x67F7_4B7A_50AF),
  (0x9DFD, 0x67FB),
  (0x9E19, 0x67FE_67FC_67FD),
  (0x9E1E, 0x6841),
  (0x9E75, 0x6842),
  (0x9E78, 0x4C7D_6843),
  (0x9E7C, 0x4C7D_6844),
  (0x9E7F, 0x4697),
  (0x9E81, 0x6845),
  (0x9E88, 0x6846),
  (0x9E8B, 0x6847_6848),
  (0x9E91, 0x684A_51F9_519E),
  (0x9E95, 0x6849),
  (0x9E97, 0x4CF3),
  (0x9E9D, 0x684B),
  (0x9E9F, 0x519B),
  (0x9EA5, 0x684C_4AE0),
  (0x9EA9, 0x53B4_684E),
  (0x9EAD, 0x684F),
  (0x9EB4, 0x5261_555F),
  (0x9EB8, 0x684D_5261_555F_48A7_6850),
  (0x9EBE, 0x6851_4EEA),
  (0x9EC4, 0x4AC6),
  (0x9ECC, 0x6853_55AE_51A7_6854_6855_6856_4679),
  (0x9ED4, 0x6857),
  (0x9ED8, 0x5E90_4DBC),
  (0x9EDB, 0x51DD_6858_685A_6859),
  (0x9EE0, 0x685B),
  (0x9EE5, 0x685C),
  (0x9EE8, 0x685D),
  (0x9EEF, 0x685E),
  (0x9EF4, 0x685F),
  (0x9EF6, 0x6860_6861),
  (0x9EF9, 0x6862),
  (0x9EFB, 0x6863_6864_6865),
  (0x9F07, 0x6866_6867),
  (0x9F0E, 0x51AA),
  (0x9F13, 0x4FAF),
  (0x9F15, 0x6869),
  (0x9F20, 0x50CB_686A),
  (0x9F2C, 0x686B),
  (0x9F3B, 0x4CFD),
  (0x9F3E, 0x686C),
  (0x9F4A, 0x686D_51F5),
  (0x9F4E, 0x686E_686F),
  (0x9F52, 0x6870),
  (0x9F54, 0x6871),
  (0x9F5F, 0x6873_6874_6875_4C80_6872),
  (0x9F66, 0x6876_6877),
  (0x9F6A, 0x6879),
  (0x9F6C, 0x6878),
  (0x9F72, 0x687B),
  (0x9F76, 0x687C_687A),
  (0x9F8D, 0x48CA),
  (0x9F95, 0x687D),
  (0x9F9C, 0x687E_5FF7),
  (0x9FA0, 0x687F),
  (0xE000, 0x6941_6942_6943_6944_6945_6946_6947_6948_6949_694A_694B_694C),
  (0xE00C, 0x694D_694E_694F_6950_6951_6952_6953_6954_6955_6956_6957_6958),
  (0xE018, 0x6959_695A_695B_695C_695D_695E_695F_6960_6961_6962_6963_6964),
  (0xE024, 0x6965_6966_6967_6968_6969_696A_696B_696C_696D_696E_696F_6970),
  (0xE030, 0x6971_6972_6973_6974_6975_6976_6977_6978_6979_697A_697B_697C),
  (0xE03C, 0x697D_697E_697F_6980_6981_6982_6983_6984_6985_6986_6987_6988),
  (0xE048, 0x6989_698A_698B_698C_698D_698E_698F_6990_6991_6992_6993_6994),
  (0xE054, 0x6995_6996_6997_6998_6999_699A_699B_699C_699D_699E_699F_69A0),
  (0xE060, 0x69A1_69A2_69A3_69A4_69A5_69A6_69A7_69A8_69A9_69AA_69AB_69AC),
  (0xE06C, 0x69AD_69AE_69AF_69B0_69B1_69B2_69B3_69B4_69B5_69B6_69B7_69B8),
  (0xE078, 0x69B9_69BA_69BB_69BC_69BD_69BE_69BF_69C0_69C1_69C2_69C3_69C4),
  (0xE084, 0x69C5_69C6_69C7_69C8_69C9_69CA_69CB_69CC_69CD_69CE_69CF_69D0),
  (0xE090, 0x69D1_69D2_69D3_69D4_69D5_69D6_69D7_69D8_69D9_69DA_69DB_69DC),
  (0xE09C, 0x69DD_69DE_69DF_69E0_69E1_69E2_69E3_69E4_69E5_69E6_69E7_69E8),
  (0xE0A8, 0x69E9_69EA_69EB_69EC_69ED_69EE_69EF_69F0_69F1_69F2_69F3_69F4),
  (0xE0B4, 0x69F5_69F6_69F7_69F8_69F9_69FA_69FB_69FC_69FD_69FE_6A41_6A42),
  (0xE0C0, 0x6A43_6A44_6A45_6A46_6A47_6A48_6A49_6A4A_6A4B_6A4C_6A4D_6A4E),
  (0xE0CC, 0x6A4F_6A50_6A51_6A52_6A53_6A54_6A55_6A56_6A57_6A58_6A59_6A5A),
  (0xE0D8, 0x6A5B_6A5C_6A5D_6A5E_6A5F_6A60_6A61_6A62_6A63_6A64_6A65_6A66),
  (0xE0E4, 0x6A67_6A68_6A69_6A6A_6A6B_6A6C_6A6D_6A6E_6A6F_6A70_6A71_6A72),
  (0xE0F0, 0x6A73_6A74_6A75_6A76_6A77_6A78_6A79_6A7A_6A7B_6A7C_6A7D_6A7E),
  (0xE0FC, 0x6A7F_6A80_6A81_6A82_6A83_6A84_6A85_6A86_6A87_6A88_6A89_6A8A),
  (0xE108, 0x6A8B_6A8C_6A8D_6A8E_6A8F_6A90_6A91_6A92_6A93_6A94_6A95_6A96),
  (0xE114, 0x6A97_6A98_6A99_6A9A_6A9B_6A9C_6A9D_6A9E_6A9F_6AA0_6AA1_6AA2),
  (0xE120, 0x6AA3_6AA4_6AA5_6AA6_6AA7_6AA8_6AA9_6AAA_6AAB_6AAC_6AAD_6AAE),
  (0xE12C, 0x6AAF_6AB0_6AB1_6AB2_6AB3_6AB4_6AB5_6AB6_6AB7_6AB8_6AB9_6ABA),
  (0xE138, 0x6ABB_6ABC_6ABD_6ABE_6ABF_6AC0_6AC1_6AC2_6AC3_6AC4_6AC5_6AC6),
  (0xE144, 0x6AC7_6AC8_6AC9_6ACA_6ACB_6ACC_6ACD_6ACE_6ACF_6AD0_6AD1_6AD2),
  (0xE150, 0x6AD3_6AD4_6AD5_6AD6_6AD7_6AD8_6AD9_6ADA_6ADB_6ADC_6ADD_6ADE),
  (0xE15C, 0x6ADF_6AE0_6AE1_6AE2_6AE3_6AE4_6AE5_6AE6_6AE7_6AE8_6AE9_6AEA),
  (0xE168, 0x6AEB_6AEC_6AED_6AEE_6AEF_6AF0_6AF1_6AF2_6AF3_6AF4_6AF5_6AF6),
  (0xE174, 0x6AF7_6AF8_6AF9_6AFA_6AFB_6AFC_6AFD_6AFE_6B41_6B42_6B43_6B44),
  (0xE180, 0x6B45_6B46_6B47_6B48_6B49_6B4A_6B4B_6B4C_6B4D_6B4E_6B4F_6B50),
  (0xE18C, 0x6B51_6B52_6B53_6B54_6B55_6B56_6B57_6B58_6B59_6B5A_6B5B_6B5C),
  (0xE198, 0x6B5D_6B5E_6B5F_6B60_6B61_6B62_6B63_6B64_6B65_6B66_6B67_6B68),
  (0xE1A4, 0x6B69_6B6A_6B6B_6B6C_6B6D_6B6E_6B6F_6B70_6B71_6B72_6B73_6B74),
  (0xE1B0, 0x6B75_6B76_6B77_6B78_6B79_6B7A_6B7B_6B7C_6B7D_6B7E_6B7F_6B80),
  (0xE1BC, 0x6B81_6B82_6B83_6B84_6B85_6B86_6B87_6B88_6B89_6B8A_6B8B_6B8C),
  (0xE1C8, 0x6B8D_6B8E_6B8F_6B90_6B91_6B92_6B93_6B94_6B95_6B96_6B97_6B98),
  (0xE1D4, 0x6B99_6B9A_6B9B_6B9C_6B9D_6B9E_6B9F_6BA0_6BA1_6BA2_6BA3_6BA4),
  (0xE1E0, 0x6BA5_6BA6_6BA7_6BA8_6BA9_6BAA_6BAB_6BAC_6BAD_6BAE_6BAF_6BB0),
  (0xE1EC, 0x6BB1_6BB2_6BB3_6BB4_6BB5_6BB6_6BB7_6BB8_6BB9_6BBA_6BBB_6BBC),
  (0xE1F8, 0x6BBD_6BBE_6BBF_6BC0_6BC1_6BC2_6BC3_6BC4_6BC5_6BC6_6BC7_6BC8),
  (0xE204, 0x6BC9_6BCA_6BCB_6BCC_6BCD_6BCE_6BCF_6BD0_6BD1_6BD2_6BD3_6BD4),
  (0xE210, 0x6BD5_6BD6_6BD7_6BD8_6BD9_6BDA_6BDB_6BDC_6BDD_6BDE_6BDF_6BE0),
  (0xE21C, 0x6BE1_6BE2_6BE3_6BE4_6BE5_6BE6_6BE7_6BE8_6BE9_6BEA_6BEB_6BEC),
  (0xE228, 0x6BED_6BEE_6BEF_6BF0_6BF1_6BF2_6BF3_6BF4_6BF5_6BF6_6BF7_6BF8),
  (0xE234, 0x6BF9_6BFA_6BFB_6BFC_6BFD_6BFE_6C41_6C42_6C43_6C44_6C45_6C46),
  (0xE240, 0x6C47_6C48_6C49_6C4A_6C4B_6C4C_6C4D_6C4E_6C4F_6C50_6C51_6C52),
  (0xE24C, 0x6C53_6C54_6C55_6C56_6C57_6C58_6C59_6C5A_6C5B_6C5C_6C5D_6C5E),
  (0xE258, 0x6C5F_6C60_6C61_6C62_6C63_6C64_6C65_6C66_6C67_6C68_6C69_6C6A),
  (0xE264, 0x6C6B_6C6C_6C6D_6C6E_6C6F_6C70_6C71_6C72_6C73_6C74_6C75_6C76),
  (0xE270, 0x6C77_6C78_6C79_6C7A_6C7B_6C7C_6C7D_6C7E_6C7F_6C80_6C81_6C82),
  (0xE27C, 0x6C83_6C84_6C85_6C86_6C87_6C88_6C89_6C8A_6C8B_6C8C_6C8D_6C8E),
  (0xE288, 0x6C8F_6C90_6C91_6C92_6C93_6C94_6C95_6C96_6C97_6C98_6C99_6C9A),
  (0xE294, 0x6C9B_6C9C_6C9D_6C9E_6C9F_6CA0_6CA1_6CA2_6CA3_6CA4_6CA5_6CA6),
  (0xE2A0, 0x6CA7_6CA8_6CA9_6CAA_6CAB_6CAC_6CAD_6CAE_6CAF_6CB0_6CB1_6CB2),
  (0xE2AC, 0x6CB3_6CB4_6CB5_6CB6_6CB7_6CB8_6CB9_6CBA_6CBB_6CBC_6CBD_6CBE),
  (0xE2B8, 0x6CBF_6CC0_6CC1_6CC2_6CC3_6CC4_6CC5_6CC6_6CC7_6CC8_6CC9_6CCA),
  (0xE2C4, 0x6CCB_6CCC_6CCD_6CCE_6CCF_6CD0_6CD1_6CD2_6CD3_6CD4_6CD5_6CD6),
  (0xE2D0, 0x6CD7_6CD8_6CD9_6CDA_6CDB_6CDC_6CDD_6CDE_6CDF_6CE0_6CE1_6CE2),
  (0xE2DC, 0x6CE3_6CE4_6CE5_6CE6_6CE7_6CE8_6CE9_6CEA_6CEB_6CEC_6CED_6CEE),
  (0xE2E8, 0x6CEF_6CF0_6CF1_6CF2_6CF3_6CF4_6CF5_6CF6_6CF7_6CF8_6CF9_6CFA),
  (0xE2F4, 0x6CFB_6CFC_6CFD_6CFE_6D41_6D42_6D43_6D44_6D45_6D46_6D47_6D48),
  (0xE300, 0x6D49_6D4A_6D4B_6D4C_6D4D_6D4E_6D4F_6D50_6D51_6D52_6D53_6D54),
  (0xE30C, 0x6D55_6D56_6D57_6D58_6D59_6D5A_6D5B_6D5C_6D5D_6D5E_6D5F_6D60),
  (0xE318, 0x6D61_6D62_6D63_6D64_6D65_6D66_6D67_6D68_6D69_6D6A_6D6B_6D6C),
  (0xE324, 0x6D6D_6D6E_6D6F_6D70_6D71_6D72_6D73_6D74_6D75_6D76_6D77_6D78),
  (0xE330, 0x6D79_6D7A_6D7B_6D7C_6D7D_6D7E_6D7F_6D80_6D81_6D82_6D83_6D84),
  (0xE33C, 0x6D85_6D86_6D87_6D88_6D89_6D8A_6D8B_6D8C_6D8D_6D8E_6D8F_6D90),
  (0xE348, 0x6D91_6D92_6D93_6D94_6D95_6D96_6D97_6D98_6D99_6D9A_6D9B_6D9C),
  (0xE354, 0x6D9D_6D9E_6D9F_6DA0_6DA1_6DA2_6DA3_6DA4_6DA5_6DA6_6DA7_6DA8),
  (0xE360, 0x6DA9_6DAA_6DAB_6DAC_6DAD_6DAE_6DAF_6DB0_6DB1_6DB2_6DB3_6DB4),
  (0xE36C, 0x6DB5_6DB6_6DB7_6DB8_6DB9_6DBA_6DBB_6DBC_6DBD_6DBE_6DBF_6DC0),
  (0xE378, 0x6DC1_6DC2_6DC3_6DC4_6DC5_6DC6_6DC7_6DC8_6DC9_6DCA_6DCB_6DCC),
  (0xE384, 0x6DCD_6DCE_6DCF_6DD0_6DD1_6DD2_6DD3_6DD4_6DD5_6DD6_6DD7_6DD8),
  (0xE390, 0x6DD9_6DDA_6DDB_6DDC_6DDD_6DDE_6DDF_6DE0_6DE1_6DE2_6DE3_6DE4),
  (0xE39C, 0x6DE5_6DE6_6DE7_6DE8_6DE9_6DEA_6DEB_6DEC_6DED_6DEE_6DEF_6DF0),
  (0xE3A8, 0x6DF1_6DF2_6DF3_6DF4_6DF5_6DF6_6DF7_6DF8_6DF9_6DFA_6DFB_6DFC),
  (0xE3B4, 0x6DFD_6DFE_6E41_6E42_6E43_6E44_6E45_6E46_6E47_6E48_6E49_6E4A),
  (0xE3C0, 0x6E4B_6E4C_6E4D_6E4E_6E4F_6E50_6E51_6E52_6E53_6E54_6E55_6E56),
  (0xE3CC, 0x6E57_6E58_6E59_6E5A_6E5B_6E5C_6E5D_6E5E_6E5F_6E60_6E61_6E62),
  (0xE3D8, 0x6E63_6E64_6E65_6E66_6E67_6E68_6E69_6E6A_6E6B_6E6C_6E6D_6E6E),
  (0xE3E4, 0x6E6F_6E70_6E71_6E72_6E73_6E74_6E75_6E76_6E77_6E78_6E79_6E7A),
  (0xE3F0, 0x6E7B_6E7C_6E7D_6E7E_6E7F_6E80_6E81_6E82_6E83_6E84_6E85_6E86),
  (0xE3FC, 0x6E87_6E88_6E89_6E8A_6E8B_6E8C_6E8D_6E8E_6E8F_6E90_6E91_6E92),
  (0xE408, 0x6E93_6E94_6E95_6E96_6E97_6E98_6E99_6E9A_6E9B_6E9C_6E9D_6E9E),
  (0xE414, 0x6E9F_6EA0_6EA1_6EA2_6EA3_6EA4_6EA5_6EA6_6EA7_6EA8_6EA9_6EAA),
  (0xE420, 0x6EAB_6EAC_6EAD_6EAE_6EAF_6EB0_6EB1_6EB2_6EB3_6EB4_6EB5_6EB6),
  (0xE42C, 0x6EB7_6EB8_6EB9_6EBA_6EBB_6EBC_6EBD_6EBE_6EBF_6EC0_6EC1_6EC2),
  (0xE438, 0x6EC3_6EC4_6EC5_6EC6_6EC7_6EC8_6EC9_6ECA_6ECB_6ECC_6ECD_6ECE),
  (0xE444, 0x6ECF_6ED0_6ED1_6ED2_6ED3_6ED4_6ED5_6ED6_6ED7_6ED8_6ED9_6EDA),
  (0xE450, 0x6EDB_6EDC_6EDD_6EDE_6EDF_6EE0_6EE1_6EE2_6EE3_6EE4_6EE5_6EE6),
  (0xE45C, 0x6EE7_6EE8_6EE9_6EEA_6EEB_6EEC_6EED_6EEE_6EEF_6EF0_6EF1_6EF2),
  (0xE468, 0x6EF3_6EF4_6EF5_6EF6_6EF7_6EF8_6EF9_6EFA_6EFB_6EFC_6EFD_6EFE),
  (0xE474, 0x6F41_6F42_6F43_6F44_6F45_6F46_6F47_6F48_6F49_6F4A_6F4B_6F4C),
  (0xE480, 0x6F4D_6F4E_6F4F_6F50_6F51_6F52_6F53_6F54_6F55_6F56_6F57_6F58),
  (0xE48C, 0x6F59_6F5A_6F5B_6F5C_6F5D_6F5E_6F5F_6F60_6F61_6F62_6F63_6F64),
  (0xE498, 0x6F65_6F66_6F67_6F68_6F69_6F6A_6F6B_6F6C_6F6D_6F6E_6F6F_6F70),
  (0xE4A4, 0x6F71_6F72_6F73_6F74_6F75_6F76_6F77_6F78_6F79_6F7A_6F7B_6F7C),
  (0xE4B0, 0x6F7D_6F7E_6F7F_6F80_6F81_6F82_6F83_6F84_6F85_6F86_6F87_6F88),
  (0xE4BC, 0x6F89_6F8A_6F8B_6F8C_6F8D_6F8E_6F8F_6F90_6F91_6F92_6F93_6F94),
  (0xE4C8, 0x6F95_6F96_6F97_6F98_6F99_6F9A_6F9B_6F9C_6F9D_6F9E_6F9F_6FA0),
  (0xE4D4, 0x6FA1_6FA2_6FA3_6FA4_6FA5_6FA6_6FA7_6FA8_6FA9_6FAA_6FAB_6FAC),
  (0xE4E0, 0x6FAD_6FAE_6FAF_6FB0_6FB1_6FB2_6FB3_6FB4_6FB5_6FB6_6FB7_6FB8),
  (0xE4EC, 0x6FB9_6FBA_6FBB_6FBC_6FBD_6FBE_6FBF_6FC0_6FC1_6FC2_6FC3_6FC4),
  (0xE4F8, 0x6FC5_6FC6_6FC7_6FC8_6FC9_6FCA_6FCB_6FCC_6FCD_6FCE_6FCF_6FD0),
  (0xE504, 0x6FD1_6FD2_6FD3_6FD4_6FD5_6FD6_6FD7_6FD8_6FD9_6FDA_6FDB_6FDC),
  (0xE510, 0x6FDD_6FDE_6FDF_6FE0_6FE1_6FE2_6FE3_6FE4_6FE5_6FE6_6FE7_6FE8),
  (0xE51C, 0x6FE9_6FEA_6FEB_6FEC_6FED_6FEE_6FEF_6FF0_6FF1_6FF2_6FF3_6FF4),
  (0xE528, 0x6FF5_6FF6_6FF7_6FF8_6FF9_6FFA_6FFB_6FFC_6FFD_6FFE_7041_7042),
  (0xE534, 0x7043_7044_7045_7046_7047_7048_7049_704A_704B_704C_704D_704E),
  (0xE540, 0x704F_7050_7051_7052_7053_7054_7055_7056_7057_7058_7059_705A),
  (0xE54C, 0x705B_705C_705D_705E_705F_7060_7061_7062_7063_7064_7065_7066),
  (0xE558, 0x7067_7068_7069_706A_706B_706C_706D_706E_706F_7070_7071_7072),
  (0xE564, 0x7073_7074_7075_7076_7077_7078_7079_707A_707B_707C_707D_707E),
  (0xE570, 0x707F_7080_7081_7082_7083_7084_7085_7086_7087_7088_7089_708A),
  (0xE57C, 0x708B_708C_708D_708E_708F_7090_7091_7092_7093_7094_7095_7096),
  (0xE588, 0x7097_7098_7099_709A_709B_709C_709D_709E_709F_70A0_70A1_70A2),
  (0xE594, 0x70A3_70A4_70A5_70A6_70A7_70A8_70A9_70AA_70AB_70AC_70AD_70AE),
  (0xE5A0, 0x70AF_70B0_70B1_70B2_70B3_70B4_70B5_70B6_70B7_70B8_70B9_70BA),
  (0xE5AC, 0x70BB_70BC_70BD_70BE_70BF_70C0_70C1_70C2_70C3_70C4_70C5_70C6),
  (0xE5B8, 0x70C7_70C8_70C9_70CA_70CB_70CC_70CD_70CE_70CF_70D0_70D1_70D2),
  (0xE5C4, 0x70D3_70D4_70D5_70D6_70D7_70D8_70D9_70DA_70DB_70DC_70DD_70DE),
  (0xE5D0, 0x70DF_70E0_70E1_70E2_70E3_70E4_70E5_70E6_70E7_70E8_70E9_70EA),
  (0xE5DC, 0x70EB_70EC_70ED_70EE_70EF_70F0_70F1_70F2_70F3_70F4_70F5_70F6),
  (0xE5E8, 0x70F7_70F8_70F9_70FA_70FB_70FC_70FD_70FE_7141_7142_7143_7144),
  (0xE5F4, 0x7145_7146_7147_7148_7149_714A_714B_714C_714D_714E_714F_7150),
  (0xE600, 0x7151_7152_7153_7154_7155_7156_7157_7158_7159_715A_715B_715C),
  (0xE60C, 0x715D_715E_715F_7160_7161_7162_7163_7164_7165_7166_7167_7168),
  (0xE618, 0x7169_716A_716B_716C_716D_716E_716F_7170_7171_7172_7173_7174),
  (0xE624, 0x7175_7176_7177_7178_7179_717A_717B_717C_717D_717E_717F_7180),
  (0xE630, 0x7181_7182_7183_7184_7185_7186_7187_7188_7189_718A_718B_718C),
  (0xE63C, 0x718D_718E_718F_7190_7191_7192_7193_7194_7195_7196_7197_7198),
  (0xE648, 0x7199_719A_719B_719C_719D_719E_719F_71A0_71A1_71A2_71A3_71A4),
  (0xE654, 0x71A5_71A6_71A7_71A8_71A9_71AA_71AB_71AC_71AD_71AE_71AF_71B0),
  (0xE660, 0x71B1_71B2_71B3_71B4_71B5_71B6_71B7_71B8_71B9_71BA_71BB_71BC),
  (0xE66C, 0x71BD_71BE_71BF_71C0_71C1_71C2_71C3_71C4_71C5_71C6_71C7_71C8),
  (0xE678, 0x71C9_71CA_71CB_71CC_71CD_71CE_71CF_71D0_71D1_71D2_71D3_71D4),
  (0xE684, 0x71D5_71D6_71D7_71D8_71D9_71DA_71DB_71DC_71DD_71DE_71DF_71E0),
  (0xE690, 0x71E1_71E2_71E3_71E4_71E5_71E6_71E7_71E8_71E9_71EA_71EB_71EC),
  (0xE69C, 0x71ED_71EE_71EF_71F0_71F1_71F2_71F3_71F4_71F5_71F6_71F7_71F8),
  (0xE6A8, 0x71F9_71FA_71FB_71FC_71FD_71FE_7241_7242_7243_7244_7245_7246),
  (0xE6B4, 0x7247_7248_7249_724A_724B_724C_724D_724E_724F_7250_7251_7252),
  (0xE6C0, 0x7253_7254_7255_7256_7257_7258_7259_725A_725B_725C_725D_725E),
  (0xE6CC, 0x725F_7260_7261_7262_7263_7264_7265_7266_7267_7268_7269_726A),
  (0xE6D8, 0x726B_726C_726D_726E_726F_7270_7271_7272_7273_7274_7275_7276),
  (0xE6E4, 0x7277_7278_7279_727A_727B_727C_727D_727E_727F_7280_7281_7282),
  (0xE6F0, 0x7283_7284_7285_7286_7287_7288_7289_728A_728B_728C_728D_728E),
  (0xE6FC, 0x728F_7290_7291_7292_7293_7294_7295_7296_7297_7298_7299_729A),
  (0xE708, 0x729B_729C_729D_729E_729F_72A0_72A1_72A2_72A3_72A4_72A5_72A6),
  (0xE714, 0x72A7_72A8_72A9_72AA_72AB_72AC_72AD_72AE_72AF_72B0_72B1_72B2),
  (0xE720, 0x72B3_72B4_72B5_72B6_72B7_72B8_72B9_72BA_72BB_72BC_72BD_72BE),
  (0xE72C, 0x72BF_72C0_72C1_72C2_72C3_72C4_72C5_72C6_72C7_72C8_72C9_72CA),
  (0xE738, 0x72CB_72CC_72CD_72CE_72CF_72D0_72D1_72D2_72D3_72D4_72D5_72D6),
  (0xE744, 0x72D7_72D8_72D9_72DA_72DB_72DC_72DD_72DE_72DF_72E0_72E1_72E2),
  (0xE750, 0x72E3_72E4_72E5_72E6_72E7_72E8_72E9_72EA_72EB_72EC_72ED_72EE),
  (0xE75C, 0x72EF_72F0_72F1_72F2_72F3_72F4_72F5_72F6_72F7_72F8_72F9_72FA),
  (0xE768, 0x72FB_72FC_72FD_72FE_7341_7342_7343_7344_7345_7346_7347_7348),
  (0xE774, 0x7349_734A_734B_734C_734D_734E_734F_7350_7351_7352_7353_7354),
  (0xE780, 0x7355_7356_7357_7358_7359_735A_735B_735C_735D_735E_735F_7360),
  (0xE78C, 0x7361_7362_7363_7364_7365_7366_7367_7368_7369_736A_736B_736C),
  (0xE798, 0x736D_736E_736F_7370_7371_7372_7373_7374_7375_7376_7377_7378),
  (0xE7A4, 0x7379_737A_737B_737C_737D_737E_737F_7380_7381_7382_7383_7384),
  (0xE7B0, 0x7385_7386_7387_7388_7389_738A_738B_738C_738D_738E_738F_7390),
  (0xE7BC, 0x7391_7392_7393_7394_7395_7396_7397_7398_7399_739A_739B_739C),
  (0xE7C8, 0x739D_739E_739F_73A0_73A1_73A2_73A3_73A4_73A5_73A6_73A7_73A8),
  (0xE7D4, 0x73A9_73AA_73AB_73AC_73AD_73AE_73AF_73B0_73B1_73B2_73B3_73B4),
  (0xE7E0, 0x73B5_73B6_73B7_73B8_73B9_73BA_73BB_73BC_73BD_73BE_73BF_73C0),
  (0xE7EC, 0x73C1_73C2_73C3_73C4_73C5_73C6_73C7_73C8_73C9_73CA_73CB_73CC),
  (0xE7F8, 0x73CD_73CE_73CF_73D0_73D1_73D2_73D3_73D4_73D5_73D6_73D7_73D8),
  (0xE804, 0x73D9_73DA_73DB_73DC_73DD_73DE_73DF_73E0_73E1_73E2_73E3_73E4),
  (0xE810, 0x73E5_73E6_73E7_73E8_73E9_73EA_73EB_73EC_73ED_73EE_73EF_73F0),
  (0xE81C, 0x73F1_73F2_73F3_73F4_73F5_73F6_73F7_73F8_73F9_73FA_73FB_73FC),
  (0xE828, 0x73FD_73FE_7441_7442_7443_7444_7445_7446_7447_7448_7449_744A),
  (0xE834, 0x744B_744C_744D_744E_744F_7450_7451_7452_7453_7454_7455_7456),
  (0xE840, 0x7457_7458_7459_745A_745B_745C_745D_745E_745F_7460_7461_7462),
  (0xE84C, 0x7463_7464_7465_7466_7467_7468_7469_746A_746B_746C_746D_746E),
  (0xE858, 0x746F_7470_7471_7472_7473_7474_7475_7476_7477_7478_7479_747A),
  (0xE864, 0x747B_747C_747D_747E_747F_7480_7481_7482_7483_7484_7485_7486),
  (0xE870, 0x7487_7488_7489_748A_748B_748C_748D_748E_748F_7490_7491_7492),
  (0xE87C, 0x7493_7494_7495_7496_7497_7498_7499_749A_749B_749C_749D_749E),
  (0xE888, 0x749F_74A0_74A1_74A2_74A3_74A4_74A5_74A6_74A7_74A8_74A9_74AA),
  (0xE894, 0x74AB_74AC_74AD_74AE_74AF_74B0_74B1_74B2_74B3_74B4_74B5_74B6),
  (0xE8A0, 0x74B7_74B8_74B9_74BA_74BB_74BC_74BD_74BE_74BF_74C0_74C1_74C2),
  (0xE8AC, 0x74C3_74C4_74C5_74C6_74C7_74C8_74C9_74CA_74CB_74CC_74CD_74CE),
  (0xE8B8, 0x74CF_74D0_74D1_74D2_74D3_74D4_74D5_74D6_74D7_74D8_74D9_74DA),
  (0xE8C4, 0x74DB_74DC_74DD_74DE_74DF_74E0_74E1_74E2_74E3_74E4_74E5_74E6),
  (0xE8D0, 0x74E7_74E8_74E9_74EA_74EB_74EC_74ED_74EE_74EF_74F0_74F1_74F2),
  (0xE8DC, 0x74F3_74F4_74F5_74F6_74F7_74F8_74F9_74FA_74FB_74FC_74FD_74FE),
  (0xE8E8, 0x7541_7542_7543_7544_7545_7546_7547_7548_7549_754A_754B_754C),
  (0xE8F4, 0x754D_754E_754F_7550_7551_7552_7553_7554_7555_7556_7557_7558),
  (0xE900, 0x7559_755A_755B_755C_755D_755E_755F_7560_7561_7562_7563_7564),
  (0xE90C, 0x7565_7566_7567_7568_7569_756A_756B_756C_756D_756E_756F_7570),
  (0xE918, 0x7571_7572_7573_7574_7575_7576_7577_7578_7579_757A_757B_757C),
  (0xE924, 0x757D_757E_757F_7580_7581_7582_7583_7584_7585_7586_7587_7588),
  (0xE930, 0x7589_758A_758B_758C_758D_758E_758F_7590_7591_7592_7593_7594),
  (0xE93C, 0x7595_7596_7597_7598_7599_759A_759B_759C_759D_759E_759F_75A0),
  (0xE948, 0x75A1_75A2_75A3_75A4_75A5_75A6_75A7_75A8_75A9_75AA_75AB_75AC),
  (0xE954, 0x75AD_75AE_75AF_75B0_75B1_75B2_75B3_75B4_75B5_75B6_75B7_75B8),
  (0xE960, 0x75B9_75BA_75BB_75BC_75BD_75BE_75BF_75C0_75C1_75C2_75C3_75C4),
  (0xE96C, 0x75C5_75C6_75C7_75C8_75C9_75CA_75CB_75CC_75CD_75CE_75CF_75D0),
  (0xE978, 0x75D1_75D2_75D3_75D4_75D5_75D6_75D7_75D8_75D9_75DA_75DB_75DC),
  (0xE984, 0x75DD_75DE_75DF_75E0_75E1_75E2_75E3_75E4_75E5_75E6_75E7_75E8),
  (0xE990, 0x75E9_75EA_75EB_75EC_75ED_75EE_75EF_75F0_75F1_75F2_75F3_75F4),
  (0xE99C, 0x75F5_75F6_75F7_75F8_75F9_75FA_75FB_75FC_75FD_75FE_7641_7642),
  (0xE9A8, 0x7643_7644_7645_7646_7647_7648_7649_764A_764B_764C_764D_764E),
  (0xE9B4, 0x764F_7650_7651_7652_7653_7654_7655_7656_7657_7658_7659_765A),
  (0xE9C0, 0x765B_765C_765D_765E_765F_7660_7661_7662_7663_7664_7665_7666),
  (0xE9CC, 0x7667_7668_7669_766A_766B_766C_766D_766E_766F_7670_7671_7672),
  (0xE9D8, 0x7673_7674_7675_7676_7677_7678_7679_767A_767B_767C_767D_767E),
  (0xE9E4, 0x767F_7680_7681_7682_7683_7684_7685_7686_7687_7688_7689_768A),
  (0xE9F0, 0x768B_768C_768D_768E_768F_7690_7691_7692_7693_7694_7695_7696),
  (0xE9FC, 0x7697_7698_7699_769A_769B_769C_769D_769E_769F_76A0_76A1_76A2),
  (0xEA08, 0x76A3_76A4_76A5_76A6_76A7_76A8_76A9_76AA_76AB_76AC_76AD_76AE),
  (0xEA14, 0x76AF_76B0_76B1_76B2_76B3_76B4_76B5_76B6_76B7_76B8_76B9_76BA),
  (0xEA20, 0x76BB_76BC_76BD_76BE_76BF_76C0_76C1_76C2_76C3_76C4_76C5_76C6),
  (0xEA2C, 0x76C7_76C8_76C9_76CA_76CB_76CC_76CD_76CE_76CF_76D0_76D1_76D2),
  (0xEA38, 0x76D3_76D4_76D5_76D6_76D7_76D8_76D9_76DA_76DB_76DC_76DD_76DE),
  (0xEA44, 0x76DF_76E0_76E1_76E2_76E3_76E4_76E5_76E6_76E7_76E8_76E9_76EA),
  (0xEA50, 0x76EB_76EC_76ED_76EE_76EF_76F0_76F1_76F2_76F3_76F4_76F5_76F6),
  (0xEA5C, 0x76F7_76F8_76F9_76FA_76FB_76FC_76FD_76FE_7741_7742_7743_7744),
  (0xEA68, 0x7745_7746_7747_7748_7749_774A_774B_774C_774D_774E_774F_7750),
  (0xEA74, 0x7751_7752_7753_7754_7755_7756_7757_7758_7759_775A_775B_775C),
  (0xEA80, 0x775D_775E_775F_7760_7761_7762_7763_7764_7765_7766_7767_7768),
  (0xEA8C, 0x7769_776A_776B_776C_776D_776E_776F_7770_7771_7772_7773_7774),
  (0xEA98, 0x7775_7776_7777_7778_7779_777A_777B_777C_777D_777E_777F_7780),
  (0xEAA4, 0x7781_7782_7783_7784_7785_7786_7787_7788_7789_778A_778B_778C),
  (0xEAB0, 0x778D_778E_778F_7790_7791_7792_7793_7794_7795_7796_7797_7798),
  (0xEABC, 0x7799_779A_779B_779C_779D_779E_779F_77A0_77A1_77A2_77A3_77A4),
  (0xEAC8, 0x77A5_77A6_77A7_77A8_77A9_77AA_77AB_77AC_77AD_77AE_77AF_77B0),
  (0xEAD4, 0x77B1_77B2_77B3_77B4_77B5_77B6_77B7_77B8_77B9_77BA_77BB_77BC),
  (0xEAE0, 0x77BD_77BE_77BF_77C0_77C1_77C2_77C3_77C4_77C5_77C6_77C7_77C8),
  (0xEAEC, 0x77C9_77CA_77CB_77CC_77CD_77CE_77CF_77D0_77D1_77D2_77D3_77D4),
  (0xEAF8, 0x77D5_77D6_77D7_77D8_77D9_77DA_77DB_77DC_77DD_77DE_77DF_77E0),
  (0xEB04, 0x77E1_77E2_77E3_77E4_77E5_77E6_77E7_77E8_77E9_77EA_77EB_77EC),
  (0xEB10, 0x77ED_77EE_77EF_77F0_77F1_77F2_77F3_77F4_77F5_77F6_77F7_77F8),
  (0xEB1C, 0x77F9_77FA_77FB_77FC_77FD_77FE_7841_7842_7843_7844_7845_7846),
  (0xEB28, 0x7847_7848_7849_784A_784B_784C_784D_784E_784F_7850_7851_7852),
  (0xEB34, 0x7853_7854_7855_7856_7857_7858_7859_785A_785B_785C_785D_785E),
  (0xEB40, 0x785F_7860_7861_7862_7863_7864_7865_7866_7867_7868_7869_786A),
  (0xEB4C, 0x786B_786C_786D_786E_786F_7870_7871_7872_7873_7874_7875_7876),
  (0xEB58, 0x7877_7878_7879_787A_787B_787C_787D_787E_787F_7880_7881_7882),
  (0xEB64, 0x7883_7884_7885_7886_7887_7888_7889_788A_788B_788C_788D_788E),
  (0xEB70, 0x788F_7890_7891_7892_7893_7894_7895_7896_7897_7898_7899_789A),
  (0xEB7C, 0x789B_789C_789D_789E_789F_78A0_78A1_78A2_78A3_78A4_78A5_78A6),
  (0xEB88, 0x78A7_78A8_78A9_78AA_78AB_78AC_78AD_78AE_78AF_78B0_78B1_78B2),
  (0xEB94, 0x78B3_78B4_78B5_78B6_78B7_78B8_78B9_78BA_78BB_78BC_78BD_78BE),
  (0xEBA0, 0x78BF_78C0_78C1_78C2_78C3_78C4_78C5_78C6_78C7_78C8_78C9_78CA),
  (0xEBAC, 0x78CB_78CC_78CD_78CE_78CF_78D0_78D1_78D2_78D3_78D4_78D5_78D6),
  (0xEBB8, 0x78D7_78D8_78D9_78DA_78DB_78DC_78DD_78DE_78DF_78E0_78E1_78E2),
  (0xEBC4, 0x78E3_78E4_78E5_78E6_78E7_78E8_78E9_78EA_78EB_78EC_78ED_78EE),
  (0xEBD0, 0x78EF_78F0_78F1_78F2_78F3_78F4_78F5_78F6_78F7_78F8_78F9_78FA),
  (0xEBDC, 0x78FB_78FC_78FD_78FE_7941_7942_7943_7944_7945_7946_7947_7948),
  (0xEBE8, 0x7949_794A_794B_794C_794D_794E_794F_7950_7951_7952_7953_7954),
  (0xEBF4, 0x7955_7956_7957_7958_7959_795A_795B_795C_795D_795E_795F_7960),
  (0xEC00, 0x7961_7962_7963_7964_7965_7966_7967_7968_7969_796A_796B_796C),
  (0xEC0C, 0x796D_796E_796F_7970_7971_7972_7973_7974_7975_7976_7977_7978),
  (0xEC18, 0x7979_797A_797B_797C_797D_797E_797F_7980_7981_7982_7983_7984),
  (0xEC24, 0x7985_7986_7987_7988_7989_798A_798B_798C_798D_798E_798F_7990),
  (0xEC30, 0x7991_7992_7993_7994_7995_7996_7997_7998_7999_799A_799B_799C),
  (0xEC3C, 0x799D_799E_799F_79A0_79A1_79A2_79A3_79A4_79A5_79A6_79A7_79A8),
  (0xEC48, 0x79A9_79AA_79AB_79AC_79AD_79AE_79AF_79B0_79B1_79B2_79B3_79B4),
  (0xEC54, 0x79B5_79B6_79B7_79B8_79B9_79BA_79BB_79BC_79BD_79BE_79BF_79C0),
  (0xEC60, 0x79C1_79C2_79C3_79C4_79C5_79C6_79C7_79C8_79C9_79CA_79CB_79CC),
  (0xEC6C, 0x79CD_79CE_79CF_79D0_79D1_79D2_79D3_79D4_79D5_79D6_79D7_79D8),
  (0xEC78, 0x79D9_79DA_79DB_79DC_79DD_79DE_79DF_79E0_79E1_79E2_79E3_79E4),
  (0xEC84, 0x79E5_79E6_79E7_79E8_79E9_79EA_79EB_79EC_79ED_79EE_79EF_79F0),
  (0xEC90, 0x79F1_79F2_79F3_79F4_79F5_79F6_79F7_79F8_79F9_79FA_79FB_79FC),
  (0xEC9C, 0x79FD_79FE_7A41_7A42_7A43_7A44_7A45_7A46_7A47_7A48_7A49_7A4A),
  (0xECA8, 0x7A4B_7A4C_7A4D_7A4E_7A4F_7A50_7A51_7A52_7A53_7A54_7A55_7A56),
  (0xECB4, 0x7A57_7A58_7A59_7A5A_7A5B_7A5C_7A5D_7A5E_7A5F_7A60_7A61_7A62),
  (0xECC0, 0x7A63_7A64_7A65_7A66_7A67_7A68_7A69_7A6A_7A6B_7A6C_7A6D_7A6E),
  (0xECCC, 0x7A6F_7A70_7A71_7A72_7A73_7A74_7A75_7A76_7A77_7A78_7A79_7A7A),
  (0xECD8, 0x7A7B_7A7C_7A7D_7A7E_7A7F_7A80_7A81_7A82_7A83_7A84_7A85_7A86),
  (0xECE4, 0x7A87_7A88_7A89_7A8A_7A8B_7A8C_7A8D_7A8E_7A8F_7A90_7A91_7A92),
  (0xECF0, 0x7A93_7A94_7A95_7A96_7A97_7A98_7A99_7A9A_7A9B_7A9C_7A9D_7A9E),
  (0xECFC, 0x7A9F_7AA0_7AA1_7AA2_7AA3_7AA4_7AA5_7AA6_7AA7_7AA8_7AA9_7AAA),
  (0xED08, 0x7AAB_7AAC_7AAD_7AAE_7AAF_7AB0_7AB1_7AB2_7AB3_7AB4_7AB5_7AB6),
  (0xED14, 0x7AB7_7AB8_7AB9_7ABA_7ABB_7ABC_7ABD_7ABE_7ABF_7AC0_7AC1_7AC2),
  (0xED20, 0x7AC3_7AC4_7AC5_7AC6_7AC7_7AC8_7AC9_7ACA_7ACB_7ACC_7ACD_7ACE),
  (0xED2C, 0x7ACF_7AD0_7AD1_7AD2_7AD3_7AD4_7AD5_7AD6_7AD7_7AD8_7AD9_7ADA),
  (0xED38, 0x7ADB_7ADC_7ADD_7ADE_7ADF_7AE0_7AE1_7AE2_7AE3_7AE4_7AE5_7AE6),
  (0xED44, 0x7AE7_7AE8_7AE9_7AEA_7AEB_7AEC_7AED_7AEE_7AEF_7AF0_7AF1_7AF2),
  (0xED50, 0x7AF3_7AF4_7AF5_7AF6_7AF7_7AF8_7AF9_7AFA_7AFB_7AFC_7AFD_7AFE),
  (0xED5C, 0x7B41_7B42_7B43_7B44_7B45_7B46_7B47_7B48_7B49_7B4A_7B4B_7B4C),
  (0xED68, 0x7B4D_7B4E_7B4F_7B50_7B51_7B52_7B53_7B54_7B55_7B56_7B57_7B58),
  (0xED74, 0x7B59_7B5A_7B5B_7B5C_7B5D_7B5E_7B5F_7B60_7B61_7B62_7B63_7B64),
  (0xED80, 0x7B65_7B66_7B67_7B68_7B69_7B6A_7B6B_7B6C_7B6D_7B6E_7B6F_7B70),
  (0xED8C, 0x7B71_7B72_7B73_7B74_7B75_7B76_7B77_7B78_7B79_7B7A_7B7B_7B7C),
  (0xED98, 0x7B7D_7B7E_7B7F_7B80_7B81_7B82_7B83_7B84_7B85_7B86_7B87_7B88),
  (0xEDA4, 0x7B89_7B8A_7B8B_7B8C_7B8D_7B8E_7B8F_7B90_7B91_7B92_7B93_7B94),
  (0xEDB0, 0x7B95_7B96_7B97_7B98_7B99_7B9A_7B9B_7B9C_7B9D_7B9E_7B9F_7BA0),
  (0xEDBC, 0x7BA1_7BA2_7BA3_7BA4_7BA5_7BA6_7BA7_7BA8_7BA9_7BAA_7BAB_7BAC),
  (0xEDC8, 0x7BAD_7BAE_7BAF_7BB0_7BB1_7BB2_7BB3_7BB4_7BB5_7BB6_7BB7_7BB8),
  (0xEDD4, 0x7BB9_7BBA_7BBB_7BBC_7BBD_7BBE_7BBF_7BC0_7BC1_7BC2_7BC3_7BC4),
  (0xEDE0, 0x7BC5_7BC6_7BC7_7BC8_7BC9_7BCA_7BCB_7BCC_7BCD_7BCE_7BCF_7BD0),
  (0xEDEC, 0x7BD1_7BD2_7BD3_7BD4_7BD5_7BD6_7BD7_7BD8_7BD9_7BDA_7BDB_7BDC),
  (0xEDF8, 0x7BDD_7BDE_7BDF_7BE0_7BE1_7BE2_7BE3_7BE4_7BE5_7BE6_7BE7_7BE8),
  (0xEE04, 0x7BE9_7BEA_7BEB_7BEC_7BED_7BEE_7BEF_7BF0_7BF1_7BF2_7BF3_7BF4),
  (0xEE10, 0x7BF5_7BF6_7BF7_7BF8_7BF9_7BFA_7BFB_7BFC_7BFD_7BFE_7C41_7C42),
  (0xEE1C, 0x7C43_7C44_7C45_7C46_7C47_7C48_7C49_7C4A_7C4B_7C4C_7C4D_7C4E),
  (0xEE28, 0x7C4F_7C50_7C51_7C52_7C53_7C54_7C55_7C56_7C57_7C58_7C59_7C5A),
  (0xEE34, 0x7C5B_7C5C_7C5D_7C5E_7C5F_7C60_7C61_7C62_7C63_7C64_7C65_7C66),
  (0xEE40, 0x7C67_7C68_7C69_7C6A_7C6B_7C6C_7C6D_7C6E_7C6F_7C70_7C71_7C72),
  (0xEE4C, 0x7C73_7C74_7C75_7C76_7C77_7C78_7C79_7C7A_7C7B_7C7C_7C7D_7C7E),
  (0xEE58, 0x7C7F_7C80_7C81_7C82_7C83_7C84_7C85_7C86_7C87_7C88_7C89_7C8A),
  (0xEE64, 0x7C8B_7C8C_7C8D_7C8E_7C8F_7C90_7C91_7C92_7C93_7C94_7C95_7C96),
  (0xEE70, 0x7C97_7C98_7C99_7C9A_7C9B_7C9C_7C9D_7C9E_7C9F_7CA0_7CA1_7CA2),
  (0xEE7C, 0x7CA3_7CA4_7CA5_7CA6_7CA7_7CA8_7CA9_7CAA_7CAB_7CAC_7CAD_7CAE),
  (0xEE88, 0x7CAF_7CB0_7CB1_7CB2_7CB3_7CB4_7CB5_7CB6_7CB7_7CB8_7CB9_7CBA),
  (0xEE94, 0x7CBB_7CBC_7CBD_7CBE_7CBF_7CC0_7CC1_7CC2_7CC3_7CC4_7CC5_7CC6),
  (0xEEA0, 0x7CC7_7CC8_7CC9_7CCA_7CCB_7CCC_7CCD_7CCE_7CCF_7CD0_7CD1_7CD2),
  (0xEEAC, 0x7CD3_7CD4_7CD5_7CD6_7CD7_7CD8_7CD9_7CDA_7CDB_7CDC_7CDD_7CDE),
  (0xEEB8, 0x7CDF_7CE0_7CE1_7CE2_7CE3_7CE4_7CE5_7CE6_7CE7_7CE8_7CE9_7CEA),
  (0xEEC4, 0x7CEB_7CEC_7CED_7CEE_7CEF_7CF0_7CF1_7CF2_7CF3_7CF4_7CF5_7CF6),
  (0xEED0, 0x7CF7_7CF8_7CF9_7CFA_7CFB_7CFC_7CFD_7CFE_7D41_7D42_7D43_7D44),
  (0xEEDC, 0x7D45_7D46_7D47_7D48_7D49_7D4A_7D4B_7D4C_7D4D_7D4E_7D4F_7D50),
  (0xEEE8, 0x7D51_7D52_7D53_7D54_7D55_7D56_7D57_7D58_7D59_7D5A_7D5B_7D5C),
  (0xEEF4, 0x7D5D_7D5E_7D5F_7D60_7D61_7D62_7D63_7D64_7D65_7D66_7D67_7D68),
  (0xEF00, 0x7D69_7D6A_7D6B_7D6C_7D6D_7D6E_7D6F_7D70_7D71_7D72_7D73_7D74),
  (0xEF0C, 0x7D75_7D76_7D77_7D78_7D79_7D7A_7D7B_7D7C_7D7D_7D7E_7D7F_7D80),
  (0xEF18, 0x7D81_7D82_7D83_7D84_7D85_7D86_7D87_7D88_7D89_7D8A_7D8B_7D8C),
  (0xEF24, 0x7D8D_7D8E_7D8F_7D90_7D91_7D92_7D93_7D94_7D95_7D96_7D97_7D98),
  (0xEF30, 0x7D99_7D9A_7D9B_7D9C_7D9D_7D9E_7D9F_7DA0_7DA1_7DA2_7DA3_7DA4),
  (0xEF3C, 0x7DA5_7DA6_7DA7_7DA8_7DA9_7DAA_7DAB_7DAC_7DAD_7DAE_7DAF_7DB0),
  (0xEF48, 0x7DB1_7DB2_7DB3_7DB4_7DB5_7DB6_7DB7_7DB8_7DB9_7DBA_7DBB_7DBC),
  (0xEF54, 0x7DBD_7DBE_7DBF_7DC0_7DC1_7DC2_7DC3_7DC4_7DC5_7DC6_7DC7_7DC8),
  (0xEF60, 0x7DC9_7DCA_7DCB_7DCC_7DCD_7DCE_7DCF_7DD0_7DD1_7DD2_7DD3_7DD4),
  (0xEF6C, 0x7DD5_7DD6_7DD7_7DD8_7DD9_7DDA_7DDB_7DDC_7DDD_7DDE_7DDF_7DE0),
  (0xEF78, 0x7DE1_7DE2_7DE3_7DE4_7DE5_7DE6_7DE7_7DE8_7DE9_7DEA_7DEB_7DEC),
  (0xEF84, 0x7DED_7DEE_7DEF_7DF0_7DF1_7DF2_7DF3_7DF4_7DF5_7DF6_7DF7_7DF8),
  (0xEF90, 0x7DF9_7DFA_7DFB_7DFC_7DFD_7DFE_7E41_7E42_7E43_7E44_7E45_7E46),
  (0xEF9C, 0x7E47_7E48_7E49_7E4A_7E4B_7E4C_7E4D_7E4E_7E4F_7E50_7E51_7E52),
  (0xEFA8, 0x7E53_7E54_7E55_7E56_7E57_7E58_7E59_7E5A_7E5B_7E5C_7E5D_7E5E),
  (0xEFB4, 0x7E5F_7E60_7E61_7E62_7E63_7E64_7E65_7E66_7E67_7E68_7E69_7E6A),
  (0xEFC0, 0x7E6B_7E6C_7E6D_7E6E_7E6F_7E70_7E71_7E72_7E73_7E74_7E75_7E76),
  (0xEFCC, 0x7E77_7E78_7E79_7E7A_7E7B_7E7C_7E7D_7E7E_7E7F_7E80_7E81_7E82),
  (0xEFD8, 0x7E83_7E84_7E85_7E86_7E87_7E88_7E89_7E8A_7E8B_7E8C_7E8D_7E8E),
  (0xEFE4, 0x7E8F_7E90_7E91_7E92_7E93_7E94_7E95_7E96_7E97_7E98_7E99_7E9A),
  (0xEFF0, 0x7E9B_7E9C_7E9D_7E9E_7E9F_7EA0_7EA1_7EA2_7EA3_7EA4_7EA5_7EA6),
  (0xEFFC, 0x7EA7_7EA8_7EA9_7EAA_7EAB_7EAC_7EAD_7EAE_7EAF_7EB0_7EB1_7EB2),
  (0xF008, 0x7EB3_7EB4_7EB5_7EB6_7EB7_7EB8_7EB9_7EBA_7EBB_7EBC_7EBD_7EBE),
  (0xF014, 0x7EBF_7EC0_7EC1_7EC2_7EC3_7EC4_7EC5_7EC6_7EC7_7EC8_7EC9_7ECA),
  (0xF020, 0x7ECB_7ECC_7ECD_7ECE_7ECF_7ED0_7ED1_7ED2_7ED3_7ED4_7ED5_7ED6),
  (0xF02C, 0x7ED7_7ED8_7ED9_7EDA_7EDB_7EDC_7EDD_7EDE_7EDF_7EE0_7EE1_7EE2),
  (0xF038, 0x7EE3_7EE4_7EE5_7EE6_7EE7_7EE8_7EE9_7EEA_7EEB_7EEC_7EED_7EEE),
  (0xF044, 0x7EEF_7EF0_7EF1_7EF2_7EF3_7EF4_7EF5_7EF6_7EF7_7EF8_7EF9_7EFA),
  (0xF050, 0x7EFB_7EFC_7EFD_7EFE_7F41_7F42_7F43_7F44_7F45_7F46_7F47_7F48),
  (0xF05C, 0x7F49_7F4A_7F4B_7F4C_7F4D_7F4E_7F4F_7F50_7F51_7F52_7F53_7F54),
  (0xF068, 0x7F55_7F56_7F57_7F58_7F59_7F5A_7F5B_7F5C_7F5D_7F5E_7F5F_7F60),
  (0xF074, 0x7F61_7F62_7F63_7F64_7F65_7F66_7F67_7F68_7F69_7F6A_7F6B_7F6C),
  (0xF080, 0x7F6D_7F6E_7F6F_7F70_7F71_7F72_7F73_7F74_7F75_7F76_7F77_7F78),
  (0xF08C, 0x7F79_7F7A_7F7B_7F7C_7F7D_7F7E_7F7F_7F80_7F81_7F82_7F83_7F84),
  (0xF098, 0x7F85_7F86_7F87_7F88_7F89_7F8A_7F8B_7F8C_7F8D_7F8E_7F8F_7F90),
  (0xF0A4, 0x7F91_7F92_7F93_7F94_7F95_7F96_7F97_7F98_7F99_7F9A_7F9B_7F9C),
  (0xF0B0, 0x7F9D_7F9E_7F9F_7FA0_7FA1_7FA2_7FA3_7FA4_7FA5_7FA6_7FA7_7FA8),
  (0xF0BC, 0x7FA9_7FAA_7FAB_7FAC_7FAD_7FAE_7FAF_7FB0_7FB1_7FB2_7FB3_7FB4),
  (0xF0C8, 0x7FB5_7FB6_7FB7_7FB8_7FB9_7FBA_7FBB_7FBC_7FBD_7FBE_7FBF_7FC0),
  (0xF0D4, 0x7FC1_7FC2_7FC3_7FC4_7FC5_7FC6_7FC7_7FC8_7FC9_7FCA_7FCB_7FCC),
  (0xF0E0, 0x7FCD_7FCE_7FCF_7FD0_7FD1_7FD2_7FD3_7FD4_7FD5_7FD6_7FD7_7FD8),
  (0xF0EC, 0x7FD9_7FDA_7FDB_7FDC_7FDD_7FDE_7FDF_7FE0_7FE1_7FE2_7FE3_7FE4),
  (0xF0F8, 0x7FE5_7FE6_7FE7_7FE8_7FE9_7FEA_7FEB_7FEC_7FED_7FEE_7FEF_7FF0),
  (0xF104, 0x7FF1_7FF2_7FF3_7FF4_7FF5_7FF6_7FF7_7FF8_7FF9_7FFA_7FFB_7FFC),
  (0xF110, 0x7FFD_7FFE),
  (0xF86F, 0x446E),
  (0xF929, 0x5BC9),
  (0xF9DC, 0x6674),
  (0xFA0E, 0x578E_5877_5882_5980_5BAE_5C66_5C78_5E49_5E8A_5F7A_5FD2_5FD5),
  (0xFA1A, 0x5FD9_5FDD_6059_60AD_6177_62B9_62CE_62E2_63EE_648E_64F1_6549),
  (0xFA26, 0x6566_65B8_65C6_6678_66DD_66DF_66E6_67F4),
  (0xFF01, 0x425A_427F_427B_42E0_426C_4250_427D_424D_425D_425C_424E_426B),
  (0xFF0D, 0x4260_424B_4261_42F0_42F1_42F2_42F3_42F4_42F5_42F6_42F7_42F8),
  (0xFF19, 0x42F9_427A_425E_424C_427E_426E_426F_427C_42C1_42C2_42C3_42C4),
  (0xFF25, 0x42C5_42C6_42C7_42C8_42C9_42D1_42D2_42D3_42D4_42D5_42D6_42D7),
  (0xFF31, 0x42D8_42D9_42E2_42E3_42E4_42E5_42E6_42E7_42E8_42E9_4444_43E0),
  (0xFF3D, 0x4445_4470_426D_4279_4281_4282_4283_4284_4285_4286_4287_4288),
  (0xFF49, 0x4289_4291_4292_4293_4294_4295_4296_4297_4298_4299_42A2_42A3),
  (0xFF55, 0x42A4_42A5_42A6_42A7_42A8_42A9_42C0_424F_42D0_43A1),
  (0xFF61, 0x0042_0043_0044_0045_0046_0047_0048_0049_0051_0052_0053_0054),
  (0xFF6D, 0x0055_0056_0057_0058_0059_0062_0063_0064_0065_0066_0067_0068),
  (0xFF79, 0x0069_0070_0071_0072_0073_0074_0075_0076_0077_0078_008A_008B),
  (0xFF85, 0x008C_008D_008E_008F_009A_009B_009C_009D_009E_009F_00AA_00AB),
  (0xFF91, 0x00AC_00AE_00AF_00B3_00B4_00B5_00B6_00B7_00B8_00B9_00BA_00BB),
  (0xFF9D, 0x00BC_00BE_00BF),
  (0xFFE0, 0x434A_424A_425F_42A1_426A_425B)]

/-- The codes of IBM-939 that are not what their character is written as. -/
def lost939 : List Nat := [
  ]

/-- The characters that are written in IBM-939 with the code of another character. -/
def alt939 : List Nat := [
  0x2015, 0x2225, 0x4FE0, 0x5265, 0x555E, 0x5699, 0x56CA, 0x586B, 0x5C5B, 0x5C62, 0x6414, 0x6451, 0x6522, 0x6805, 0x688E, 0x6F51,
  0x7006, 0x7130, 0x7626, 0x79B1, 0x7C1E, 0x7E61, 0x7E66, 0x7E6B, 0x8141, 0x834A, 0x840A, 0x8523, 0x87EC, 0x881F, 0x8EC0, 0x91AC,
  0x91B1, 0x9830, 0x983D, 0x985B, 0x9A52, 0x9DD7, 0x9E7C, 0x9EB9, 0x9EBA, 0xF86F, 0xFF0D, 0xFF5E, 0xFFE4]

/-- IBM-939 -/
def ibm939 : Charset where
  reads := single939 ++ double939
  writes := writes939

end Verif.IbmMixed
