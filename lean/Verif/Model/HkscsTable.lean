import Verif.Spec.Charset
/-
Generated by tools/charsets.py from rule files of /repo/modules/from and /repo/modules/to.
-/
namespace Verif.Charsets
open Verif.Spec

set_option maxRecDepth 100000

/-- The rules of /repo/modules/from/_CP950.txt: code, character.  No two lines have the same code, so their order does not matter; here they
are sorted. -/
def cp950rReads : Chart := Chart.wide [
  (0xA140, 0x3000_FF0C_3001_3002_FF0E_2027_FF1B_FF1A_FF1F_FF01_FE30_2026),
  (0xA14C, 0x2025_FE50_FE51_FE52_00B7_FE54_FE55_FE56_FE57_FF5C_2013_FE31),
  (0xA158, 0x2014_FE33_2574_FE34_FE4F_FF08_FF09_FE35_FE36_FF5B_FF5D_FE37),
  (0xA164, 0xFE38_3014_3015_FE39_FE3A_3010_3011_FE3B_FE3C_300A_300B_FE3D),
  (0xA170, 0xFE3E_3008_3009_FE3F_FE40_300C_300D_FE41_FE42_300E_300F_FE43),
  (0xA17C, 0xFE44_FE59_FE5A),
  (0xA1A1, 0xFE5B_FE5C_FE5D_FE5E_2018_2019_201C_201D_301D_301E_2035_2032),
  (0xA1AD, 0xFF03_FF06_FF0A_203B_00A7_3003_25CB_25CF_25B3_25B2_25CE_2606),
  (0xA1B9, 0x2605_25C7_25C6_25A1_25A0_25BD_25BC_32A3_2105_00AF_FFE3_FF3F),
  (0xA1C5, 0x02CD_FE49_FE4A_FE4D_FE4E_FE4B_FE4C_FE5F_FE60_FE61_FF0B_FF0D),
  (0xA1D1, 0x00D7_00F7_00B1_221A_FF1C_FF1E_FF1D_2266_2267_2260_221E_2252),
  (0xA1DD, 0x2261_FE62_FE63_FE64_FE65_FE66_FF5E_2229_222A_22A5_2220_221F),
  (0xA1E9, 0x22BF_33D2_33D1_222B_222E_2235_2234_2640_2642_2295_2299_2191),
  (0xA1F5, 0x2193_2190_2192_2196_2197_2199_2198_2225_2223_FF0F),
  (0xA240, 0xFF3C_2215_FE68_FF04_FFE5_3012_FFE0_FFE1_FF05_FF20_2103_2109),
  (0xA24C, 0xFE69_FE6A_FE6B_33D5_339C_339D_339E_33CE_33A1_338E_338F_33C4),
  (0xA258, 0x00B0_5159_515B_515E_515D_5161_5163_55E7_74E9_7CCE_2581_2582),
  (0xA264, 0x2583_2584_2585_2586_2587_2588_258F_258E_258D_258C_258B_258A),
  (0xA270, 0x2589_253C_2534_252C_2524_251C_2594_2500_2502_2595_250C_2510),
  (0xA27C, 0x2514_2518_256D),
  (0xA2A1, 0x256E_2570_256F_2550_255E_256A_2561_25E2_25E3_25E5_25E4_2571),
  (0xA2AD, 0x2572_2573_FF10_FF11_FF12_FF13_FF14_FF15_FF16_FF17_FF18_FF19),
  (0xA2B9, 0x2160_2161_2162_2163_2164_2165_2166_2167_2168_2169_3021_3022),
  (0xA2C5, 0x3023_3024_3025_3026_3027_3028_3029_5341_5344_5345_FF21_FF22),
  (0xA2D1, 0xFF23_FF24_FF25_FF26_FF27_FF28_FF29_FF2A_FF2B_FF2C_FF2D_FF2E),
  (0xA2DD, 0xFF2F_FF30_FF31_FF32_FF33_FF34_FF35_FF36_FF37_FF38_FF39_FF3A),
  (0xA2E9, 0xFF41_FF42_FF43_FF44_FF45_FF46_FF47_FF48_FF49_FF4A_FF4B_FF4C),
  (0xA2F5, 0xFF4D_FF4E_FF4F_FF50_FF51_FF52_FF53_FF54_FF55_FF56),
  (0xA340, 0xFF57_FF58_FF59_FF5A_0391_0392_0393_0394_0395_0396_0397_0398),
  (0xA34C, 0x0399_039A_039B_039C_039D_039E_039F_03A0_03A1_03A3_03A4_03A5),
  (0xA358, 0x03A6_03A7_03A8_03A9_03B1_03B2_03B3_03B4_03B5_03B6_03B7_03B8),
  (0xA364, 0x03B9_03BA_03BB_03BC_03BD_03BE_03BF_03C0_03C1_03C3_03C4_03C5),
  (0xA370, 0x03C6_03C7_03C8_03C9_3105_3106_3107_3108_3109_310A_310B_310C),
  (0xA37C, 0x310D_310E_310F),
  (0xA3A1, 0x3110_3111_3112_3113_3114_3115_3116_3117_3118_3119_311A_311B),
  (0xA3AD, 0x311C_311D_311E_311F_3120_3121_3122_3123_3124_3125_3126_3127),
  (0xA3B9, 0x3128_3129_02D9_02C9_02CA_02C7_02CB),
  (0xA3E1, 0x20AC),
  (0xA440, 0x4E00_4E59_4E01_4E03_4E43_4E5D_4E86_4E8C_4EBA_513F_5165_516B),
  (0xA44C, 0x51E0_5200_5201_529B_5315_5341_535C_53C8_4E09_4E0B_4E08_4E0A),
  (0xA458, 0x4E2B_4E38_51E1_4E45_4E48_4E5F_4E5E_4E8E_4EA1_5140_5203_52FA),
  (0xA464, 0x5343_53C9_53E3_571F_58EB_5915_5927_5973_5B50_5B51_5B53_5BF8),
  (0xA470, 0x5C0F_5C22_5C38_5C71_5DDD_5DE5_5DF1_5DF2_5DF3_5DFE_5E72_5EFE),
  (0xA47C, 0x5F0B_5F13_624D),
  (0xA4A1, 0x4E11_4E10_4E0D_4E2D_4E30_4E39_4E4B_5C39_4E88_4E91_4E95_4E92),
  (0xA4AD, 0x4E94_4EA2_4EC1_4EC0_4EC3_4EC6_4EC7_4ECD_4ECA_4ECB_4EC4_5143),
  (0xA4B9, 0x5141_5167_516D_516E_516C_5197_51F6_5206_5207_5208_52FB_52FE),
  (0xA4C5, 0x52FF_5316_5339_5348_5347_5345_535E_5384_53CB_53CA_53CD_58EC),
  (0xA4D1, 0x5929_592B_592A_592D_5B54_5C11_5C24_5C3A_5C6F_5DF4_5E7B_5EFF),
  (0xA4DD, 0x5F14_5F15_5FC3_6208_6236_624B_624E_652F_6587_6597_65A4_65B9),
  (0xA4E9, 0x65E5_66F0_6708_6728_6B20_6B62_6B79_6BCB_6BD4_6BDB_6C0F_6C34),
  (0xA4F5, 0x706B_722A_7236_723B_7247_7259_725B_72AC_738B_4E19),
  (0xA540, 0x4E16_4E15_4E14_4E18_4E3B_4E4D_4E4F_4E4E_4EE5_4ED8_4ED4_4ED5),
  (0xA54C, 0x4ED6_4ED7_4EE3_4EE4_4ED9_4EDE_5145_5144_5189_518A_51AC_51F9),
  (0xA558, 0x51FA_51F8_520A_52A0_529F_5305_5306_5317_531D_4EDF_534A_5349),
  (0xA564, 0x5361_5360_536F_536E_53BB_53EF_53E4_53F3_53EC_53EE_53E9_53E8),
  (0xA570, 0x53FC_53F8_53F5_53EB_53E6_53EA_53F2_53F1_53F0_53E5_53ED_53FB),
  (0xA57C, 0x56DB_56DA_5916),
  (0xA5A1, 0x592E_5931_5974_5976_5B55_5B83_5C3C_5DE8_5DE7_5DE6_5E02_5E03),
  (0xA5AD, 0x5E73_5E7C_5F01_5F18_5F17_5FC5_620A_6253_6254_6252_6251_65A5),
  (0xA5B9, 0x65E6_672E_672C_672A_672B_672D_6B63_6BCD_6C11_6C10_6C38_6C41),
  (0xA5C5, 0x6C40_6C3E_72AF_7384_7389_74DC_74E6_7518_751F_7528_7529_7530),
  (0xA5D1, 0x7531_7532_7533_758B_767D_76AE_76BF_76EE_77DB_77E2_77F3_793A),
  (0xA5DD, 0x79BE_7A74_7ACB_4E1E_4E1F_4E52_4E53_4E69_4E99_4EA4_4EA6_4EA5),
  (0xA5E9, 0x4EFF_4F09_4F19_4F0A_4F15_4F0D_4F10_4F11_4F0F_4EF2_4EF6_4EFB),
  (0xA5F5, 0x4EF0_4EF3_4EFD_4F01_4F0B_5149_5147_5146_5148_5168),
  (0xA640, 0x5171_518D_51B0_5217_5211_5212_520E_5216_52A3_5308_5321_5320),
  (0xA64C, 0x5370_5371_5409_540F_540C_540A_5410_5401_540B_5404_5411_540D),
  (0xA658, 0x5408_5403_540E_5406_5412_56E0_56DE_56DD_5733_5730_5728_572D),
  (0xA664, 0x572C_572F_5729_5919_591A_5937_5938_5984_5978_5983_597D_5979),
  (0xA670, 0x5982_5981_5B57_5B58_5B87_5B88_5B85_5B89_5BFA_5C16_5C79_5DDE),
  (0xA67C, 0x5E06_5E76_5E74),
  (0xA6A1, 0x5F0F_5F1B_5FD9_5FD6_620E_620C_620D_6210_6263_625B_6258_6536),
  (0xA6AD, 0x65E9_65E8_65EC_65ED_66F2_66F3_6709_673D_6734_6731_6735_6B21),
  (0xA6B9, 0x6B64_6B7B_6C16_6C5D_6C57_6C59_6C5F_6C60_6C50_6C55_6C61_6C5B),
  (0xA6C5, 0x6C4D_6C4E_7070_725F_725D_767E_7AF9_7C73_7CF8_7F36_7F8A_7FBD),
  (0xA6D1, 0x8001_8003_800C_8012_8033_807F_8089_808B_808C_81E3_81EA_81F3),
  (0xA6DD, 0x81FC_820C_821B_821F_826E_8272_827E_866B_8840_884C_8863_897F),
  (0xA6E9, 0x9621_4E32_4EA8_4F4D_4F4F_4F47_4F57_4F5E_4F34_4F5B_4F55_4F30),
  (0xA6F5, 0x4F50_4F51_4F3D_4F3A_4F38_4F43_4F54_4F3C_4F46_4F63),
  (0xA740, 0x4F5C_4F60_4F2F_4F4E_4F36_4F59_4F5D_4F48_4F5A_514C_514B_514D),
  (0xA74C, 0x5175_51B6_51B7_5225_5224_5229_522A_5228_52AB_52A9_52AA_52AC),
  (0xA758, 0x5323_5373_5375_541D_542D_541E_543E_5426_544E_5427_5446_5443),
  (0xA764, 0x5433_5448_5442_541B_5429_544A_5439_543B_5438_542E_5435_5436),
  (0xA770, 0x5420_543C_5440_5431_542B_541F_542C_56EA_56F0_56E4_56EB_574A),
  (0xA77C, 0x5751_5740_574D),
  (0xA7A1, 0x5747_574E_573E_5750_574F_573B_58EF_593E_599D_5992_59A8_599E),
  (0xA7AD, 0x59A3_5999_5996_598D_59A4_5993_598A_59A5_5B5D_5B5C_5B5A_5B5B),
  (0xA7B9, 0x5B8C_5B8B_5B8F_5C2C_5C40_5C41_5C3F_5C3E_5C90_5C91_5C94_5C8C),
  (0xA7C5, 0x5DEB_5E0C_5E8F_5E87_5E8A_5EF7_5F04_5F1F_5F64_5F62_5F77_5F79),
  (0xA7D1, 0x5FD8_5FCC_5FD7_5FCD_5FF1_5FEB_5FF8_5FEA_6212_6211_6284_6297),
  (0xA7DD, 0x6296_6280_6276_6289_626D_628A_627C_627E_6279_6273_6292_626F),
  (0xA7E9, 0x6298_626E_6295_6293_6291_6286_6539_653B_6538_65F1_66F4_675F),
  (0xA7F5, 0x674E_674F_6750_6751_675C_6756_675E_6749_6746_6760),
  (0xA840, 0x6753_6757_6B65_6BCF_6C42_6C5E_6C99_6C81_6C88_6C89_6C85_6C9B),
  (0xA84C, 0x6C6A_6C7A_6C90_6C70_6C8C_6C68_6C96_6C92_6C7D_6C83_6C72_6C7E),
  (0xA858, 0x6C74_6C86_6C76_6C8D_6C94_6C98_6C82_7076_707C_707D_7078_7262),
  (0xA864, 0x7261_7260_72C4_72C2_7396_752C_752B_7537_7538_7682_76EF_77E3),
  (0xA870, 0x79C1_79C0_79BF_7A76_7CFB_7F55_8096_8093_809D_8098_809B_809A),
  (0xA87C, 0x80B2_826F_8292),
  (0xA8A1, 0x828B_828D_898B_89D2_8A00_8C37_8C46_8C55_8C9D_8D64_8D70_8DB3),
  (0xA8AD, 0x8EAB_8ECA_8F9B_8FB0_8FC2_8FC6_8FC5_8FC4_5DE1_9091_90A2_90AA),
  (0xA8B9, 0x90A6_90A3_9149_91C6_91CC_9632_962E_9631_962A_962C_4E26_4E56),
  (0xA8C5, 0x4E73_4E8B_4E9B_4E9E_4EAB_4EAC_4F6F_4F9D_4F8D_4F73_4F7F_4F6C),
  (0xA8D1, 0x4F9B_4F8B_4F86_4F83_4F70_4F75_4F88_4F69_4F7B_4F96_4F7E_4F8F),
  (0xA8DD, 0x4F91_4F7A_5154_5152_5155_5169_5177_5176_5178_51BD_51FD_523B),
  (0xA8E9, 0x5238_5237_523A_5230_522E_5236_5241_52BE_52BB_5352_5354_5353),
  (0xA8F5, 0x5351_5366_5377_5378_5379_53D6_53D4_53D7_5473_5475),
  (0xA940, 0x5496_5478_5495_5480_547B_5477_5484_5492_5486_547C_5490_5471),
  (0xA94C, 0x5476_548C_549A_5462_5468_548B_547D_548E_56FA_5783_5777_576A),
  (0xA958, 0x5769_5761_5766_5764_577C_591C_5949_5947_5948_5944_5954_59BE),
  (0xA964, 0x59BB_59D4_59B9_59AE_59D1_59C6_59D0_59CD_59CB_59D3_59CA_59AF),
  (0xA970, 0x59B3_59D2_59C5_5B5F_5B64_5B63_5B97_5B9A_5B98_5B9C_5B99_5B9B),
  (0xA97C, 0x5C1A_5C48_5C45),
  (0xA9A1, 0x5C46_5CB7_5CA1_5CB8_5CA9_5CAB_5CB1_5CB3_5E18_5E1A_5E16_5E15),
  (0xA9AD, 0x5E1B_5E11_5E78_5E9A_5E97_5E9C_5E95_5E96_5EF6_5F26_5F27_5F29),
  (0xA9B9, 0x5F80_5F81_5F7F_5F7C_5FDD_5FE0_5FFD_5FF5_5FFF_600F_6014_602F),
  (0xA9C5, 0x6035_6016_602A_6015_6021_6027_6029_602B_601B_6216_6215_623F),
  (0xA9D1, 0x623E_6240_627F_62C9_62CC_62C4_62BF_62C2_62B9_62D2_62DB_62AB),
  (0xA9DD, 0x62D3_62D4_62CB_62C8_62A8_62BD_62BC_62D0_62D9_62C7_62CD_62B5),
  (0xA9E9, 0x62DA_62B1_62D8_62D6_62D7_62C6_62AC_62CE_653E_65A7_65BC_65FA),
  (0xA9F5, 0x6614_6613_660C_6606_6602_660E_6600_660F_6615_660A),
  (0xAA40, 0x6607_670D_670B_676D_678B_6795_6771_679C_6773_6777_6787_679D),
  (0xAA4C, 0x6797_676F_6770_677F_6789_677E_6790_6775_679A_6793_677C_676A),
  (0xAA58, 0x6772_6B23_6B66_6B67_6B7F_6C13_6C1B_6CE3_6CE8_6CF3_6CB1_6CCC),
  (0xAA64, 0x6CE5_6CB3_6CBD_6CBE_6CBC_6CE2_6CAB_6CD5_6CD3_6CB8_6CC4_6CB9),
  (0xAA70, 0x6CC1_6CAE_6CD7_6CC5_6CF1_6CBF_6CBB_6CE1_6CDB_6CCA_6CAC_6CEF),
  (0xAA7C, 0x6CDC_6CD6_6CE0),
  (0xAAA1, 0x7095_708E_7092_708A_7099_722C_722D_7238_7248_7267_7269_72C0),
  (0xAAAD, 0x72CE_72D9_72D7_72D0_73A9_73A8_739F_73AB_73A5_753D_759D_7599),
  (0xAAB9, 0x759A_7684_76C2_76F2_76F4_77E5_77FD_793E_7940_7941_79C9_79C8),
  (0xAAC5, 0x7A7A_7A79_7AFA_7CFE_7F54_7F8C_7F8B_8005_80BA_80A5_80A2_80B1),
  (0xAAD1, 0x80A1_80AB_80A9_80B4_80AA_80AF_81E5_81FE_820D_82B3_829D_8299),
  (0xAADD, 0x82AD_82BD_829F_82B9_82B1_82AC_82A5_82AF_82B8_82A3_82B0_82BE),
  (0xAAE9, 0x82B7_864E_8671_521D_8868_8ECB_8FCE_8FD4_8FD1_90B5_90B8_90B1),
  (0xAAF5, 0x90B6_91C7_91D1_9577_9580_961C_9640_963F_963B_9644),
  (0xAB40, 0x9642_96B9_96E8_9752_975E_4E9F_4EAD_4EAE_4FE1_4FB5_4FAF_4FBF),
  (0xAB4C, 0x4FE0_4FD1_4FCF_4FDD_4FC3_4FB6_4FD8_4FDF_4FCA_4FD7_4FAE_4FD0),
  (0xAB58, 0x4FC4_4FC2_4FDA_4FCE_4FDE_4FB7_5157_5192_5191_51A0_524E_5243),
  (0xAB64, 0x524A_524D_524C_524B_5247_52C7_52C9_52C3_52C1_530D_5357_537B),
  (0xAB70, 0x539A_53DB_54AC_54C0_54A8_54CE_54C9_54B8_54A6_54B3_54C7_54C2),
  (0xAB7C, 0x54BD_54AA_54C1),
  (0xABA1, 0x54C4_54C8_54AF_54AB_54B1_54BB_54A9_54A7_54BF_56FF_5782_578B),
  (0xABAD, 0x57A0_57A3_57A2_57CE_57AE_5793_5955_5951_594F_594E_5950_59DC),
  (0xABB9, 0x59D8_59FF_59E3_59E8_5A03_59E5_59EA_59DA_59E6_5A01_59FB_5B69),
  (0xABC5, 0x5BA3_5BA6_5BA4_5BA2_5BA5_5C01_5C4E_5C4F_5C4D_5C4B_5CD9_5CD2),
  (0xABD1, 0x5DF7_5E1D_5E25_5E1F_5E7D_5EA0_5EA6_5EFA_5F08_5F2D_5F65_5F88),
  (0xABDD, 0x5F85_5F8A_5F8B_5F87_5F8C_5F89_6012_601D_6020_6025_600E_6028),
  (0xABE9, 0x604D_6070_6068_6062_6046_6043_606C_606B_606A_6064_6241_62DC),
  (0xABF5, 0x6316_6309_62FC_62ED_6301_62EE_62FD_6307_62F1_62F7),
  (0xAC40, 0x62EF_62EC_62FE_62F4_6311_6302_653F_6545_65AB_65BD_65E2_6625),
  (0xAC4C, 0x662D_6620_6627_662F_661F_6628_6631_6624_66F7_67FF_67D3_67F1),
  (0xAC58, 0x67D4_67D0_67EC_67B6_67AF_67F5_67E9_67EF_67C4_67D1_67B4_67DA),
  (0xAC64, 0x67E5_67B8_67CF_67DE_67F3_67B0_67D9_67E2_67DD_67D2_6B6A_6B83),
  (0xAC70, 0x6B86_6BB5_6BD2_6BD7_6C1F_6CC9_6D0B_6D32_6D2A_6D41_6D25_6D0C),
  (0xAC7C, 0x6D31_6D1E_6D17),
  (0xACA1, 0x6D3B_6D3D_6D3E_6D36_6D1B_6CF5_6D39_6D27_6D38_6D29_6D2E_6D35),
  (0xACAD, 0x6D0E_6D2B_70AB_70BA_70B3_70AC_70AF_70AD_70B8_70AE_70A4_7230),
  (0xACB9, 0x7272_726F_7274_72E9_72E0_72E1_73B7_73CA_73BB_73B2_73CD_73C0),
  (0xACC5, 0x73B3_751A_752D_754F_754C_754E_754B_75AB_75A4_75A5_75A2_75A3),
  (0xACD1, 0x7678_7686_7687_7688_76C8_76C6_76C3_76C5_7701_76F9_76F8_7709),
  (0xACDD, 0x770B_76FE_76FC_7707_77DC_7802_7814_780C_780D_7946_7949_7948),
  (0xACE9, 0x7947_79B9_79BA_79D1_79D2_79CB_7A7F_7A81_7AFF_7AFD_7C7D_7D02),
  (0xACF5, 0x7D05_7D00_7D09_7D07_7D04_7D06_7F38_7F8E_7FBF_8004),
  (0xAD40, 0x8010_800D_8011_8036_80D6_80E5_80DA_80C3_80C4_80CC_80E1_80DB),
  (0xAD4C, 0x80CE_80DE_80E4_80DD_81F4_8222_82E7_8303_8305_82E3_82DB_82E6),
  (0xAD58, 0x8304_82E5_8302_8309_82D2_82D7_82F1_8301_82DC_82D4_82D1_82DE),
  (0xAD64, 0x82D3_82DF_82EF_8306_8650_8679_867B_867A_884D_886B_8981_89D4),
  (0xAD70, 0x8A08_8A02_8A03_8C9E_8CA0_8D74_8D73_8DB4_8ECD_8ECC_8FF0_8FE6),
  (0xAD7C, 0x8FE2_8FEA_8FE5),
  (0xADA1, 0x8FED_8FEB_8FE4_8FE8_90CA_90CE_90C1_90C3_914B_914A_91CD_9582),
  (0xADAD, 0x9650_964B_964C_964D_9762_9769_97CB_97ED_97F3_9801_98A8_98DB),
  (0xADB9, 0x98DF_9996_9999_4E58_4EB3_500C_500D_5023_4FEF_5026_5025_4FF8),
  (0xADC5, 0x5029_5016_5006_503C_501F_501A_5012_5011_4FFA_5000_5014_5028),
  (0xADD1, 0x4FF1_5021_500B_5019_5018_4FF3_4FEE_502D_502A_4FFE_502B_5009),
  (0xADDD, 0x517C_51A4_51A5_51A2_51CD_51CC_51C6_51CB_5256_525C_5254_525B),
  (0xADE9, 0x525D_532A_537F_539F_539D_53DF_54E8_5510_5501_5537_54FC_54E5),
  (0xADF5, 0x54F2_5506_54FA_5514_54E9_54ED_54E1_5509_54EE_54EA),
  (0xAE40, 0x54E6_5527_5507_54FD_550F_5703_5704_57C2_57D4_57CB_57C3_5809),
  (0xAE4C, 0x590F_5957_5958_595A_5A11_5A18_5A1C_5A1F_5A1B_5A13_59EC_5A20),
  (0xAE58, 0x5A23_5A29_5A25_5A0C_5A09_5B6B_5C58_5BB0_5BB3_5BB6_5BB4_5BAE),
  (0xAE64, 0x5BB5_5BB9_5BB8_5C04_5C51_5C55_5C50_5CED_5CFD_5CFB_5CEA_5CE8),
  (0xAE70, 0x5CF0_5CF6_5D01_5CF4_5DEE_5E2D_5E2B_5EAB_5EAD_5EA7_5F31_5F92),
  (0xAE7C, 0x5F91_5F90_6059),
  (0xAEA1, 0x6063_6065_6050_6055_606D_6069_606F_6084_609F_609A_608D_6094),
  (0xAEAD, 0x608C_6085_6096_6247_62F3_6308_62FF_634E_633E_632F_6355_6342),
  (0xAEB9, 0x6346_634F_6349_633A_6350_633D_632A_632B_6328_634D_634C_6548),
  (0xAEC5, 0x6549_6599_65C1_65C5_6642_6649_664F_6643_6652_664C_6645_6641),
  (0xAED1, 0x66F8_6714_6715_6717_6821_6838_6848_6846_6853_6839_6842_6854),
  (0xAEDD, 0x6829_68B3_6817_684C_6851_683D_67F4_6850_6840_683C_6843_682A),
  (0xAEE9, 0x6845_6813_6818_6841_6B8A_6B89_6BB7_6C23_6C27_6C28_6C26_6C24),
  (0xAEF5, 0x6CF0_6D6A_6D95_6D88_6D87_6D66_6D78_6D77_6D59_6D93),
  (0xAF40, 0x6D6C_6D89_6D6E_6D5A_6D74_6D69_6D8C_6D8A_6D79_6D85_6D65_6D94),
  (0xAF4C, 0x70CA_70D8_70E4_70D9_70C8_70CF_7239_7279_72FC_72F9_72FD_72F8),
  (0xAF58, 0x72F7_7386_73ED_7409_73EE_73E0_73EA_73DE_7554_755D_755C_755A),
  (0xAF64, 0x7559_75BE_75C5_75C7_75B2_75B3_75BD_75BC_75B9_75C2_75B8_768B),
  (0xAF70, 0x76B0_76CA_76CD_76CE_7729_771F_7720_7728_77E9_7830_7827_7838),
  (0xAF7C, 0x781D_7834_7837),
  (0xAFA1, 0x7825_782D_7820_781F_7832_7955_7950_7960_795F_7956_795E_795D),
  (0xAFAD, 0x7957_795A_79E4_79E3_79E7_79DF_79E6_79E9_79D8_7A84_7A88_7AD9),
  (0xAFB9, 0x7B06_7B11_7C89_7D21_7D17_7D0B_7D0A_7D20_7D22_7D14_7D10_7D15),
  (0xAFC5, 0x7D1A_7D1C_7D0D_7D19_7D1B_7F3A_7F5F_7F94_7FC5_7FC1_8006_8018),
  (0xAFD1, 0x8015_8019_8017_803D_803F_80F1_8102_80F0_8105_80ED_80F4_8106),
  (0xAFDD, 0x80F8_80F3_8108_80FD_810A_80FC_80EF_81ED_81EC_8200_8210_822A),
  (0xAFE9, 0x822B_8228_822C_82BB_832B_8352_8354_834A_8338_8350_8349_8335),
  (0xAFF5, 0x8334_834F_8332_8339_8336_8317_8340_8331_8328_8343),
  (0xB040, 0x8654_868A_86AA_8693_86A4_86A9_868C_86A3_869C_8870_8877_8881),
  (0xB04C, 0x8882_887D_8879_8A18_8A10_8A0E_8A0C_8A15_8A0A_8A17_8A13_8A16),
  (0xB058, 0x8A0F_8A11_8C48_8C7A_8C79_8CA1_8CA2_8D77_8EAC_8ED2_8ED4_8ECF),
  (0xB064, 0x8FB1_9001_9006_8FF7_9000_8FFA_8FF4_9003_8FFD_9005_8FF8_9095),
  (0xB070, 0x90E1_90DD_90E2_9152_914D_914C_91D8_91DD_91D7_91DC_91D9_9583),
  (0xB07C, 0x9662_9663_9661),
  (0xB0A1, 0x965B_965D_9664_9658_965E_96BB_98E2_99AC_9AA8_9AD8_9B25_9B32),
  (0xB0AD, 0x9B3C_4E7E_507A_507D_505C_5047_5043_504C_505A_5049_5065_5076),
  (0xB0B9, 0x504E_5055_5075_5074_5077_504F_500F_506F_506D_515C_5195_51F0),
  (0xB0C5, 0x526A_526F_52D2_52D9_52D8_52D5_5310_530F_5319_533F_5340_533E),
  (0xB0D1, 0x53C3_66FC_5546_556A_5566_5544_555E_5561_5543_554A_5531_5556),
  (0xB0DD, 0x554F_5555_552F_5564_5538_552E_555C_552C_5563_5533_5541_5557),
  (0xB0E9, 0x5708_570B_5709_57DF_5805_580A_5806_57E0_57E4_57FA_5802_5835),
  (0xB0F5, 0x57F7_57F9_5920_5962_5A36_5A41_5A49_5A66_5A6A_5A40),
  (0xB140, 0x5A3C_5A62_5A5A_5A46_5A4A_5B70_5BC7_5BC5_5BC4_5BC2_5BBF_5BC6),
  (0xB14C, 0x5C09_5C08_5C07_5C60_5C5C_5C5D_5D07_5D06_5D0E_5D1B_5D16_5D22),
  (0xB158, 0x5D11_5D29_5D14_5D19_5D24_5D27_5D17_5DE2_5E38_5E36_5E33_5E37),
  (0xB164, 0x5EB7_5EB8_5EB6_5EB5_5EBE_5F35_5F37_5F57_5F6C_5F69_5F6B_5F97),
  (0xB170, 0x5F99_5F9E_5F98_5FA1_5FA0_5F9C_607F_60A3_6089_60A0_60A8_60CB),
  (0xB17C, 0x60B4_60E6_60BD),
  (0xB1A1, 0x60C5_60BB_60B5_60DC_60BC_60D8_60D5_60C6_60DF_60B8_60DA_60C7),
  (0xB1AD, 0x621A_621B_6248_63A0_63A7_6372_6396_63A2_63A5_6377_6367_6398),
  (0xB1B9, 0x63AA_6371_63A9_6389_6383_639B_636B_63A8_6384_6388_6399_63A1),
  (0xB1C5, 0x63AC_6392_638F_6380_637B_6369_6368_637A_655D_6556_6551_6559),
  (0xB1D1, 0x6557_555F_654F_6558_6555_6554_659C_659B_65AC_65CF_65CB_65CC),
  (0xB1DD, 0x65CE_665D_665A_6664_6668_6666_665E_66F9_52D7_671B_6881_68AF),
  (0xB1E9, 0x68A2_6893_68B5_687F_6876_68B1_68A7_6897_68B0_6883_68C4_68AD),
  (0xB1F5, 0x6886_6885_6894_689D_68A8_689F_68A1_6882_6B32_6BBA),
  (0xB240, 0x6BEB_6BEC_6C2B_6D8E_6DBC_6DF3_6DD9_6DB2_6DE1_6DCC_6DE4_6DFB),
  (0xB24C, 0x6DFA_6E05_6DC7_6DCB_6DAF_6DD1_6DAE_6DDE_6DF9_6DB8_6DF7_6DF5),
  (0xB258, 0x6DC5_6DD2_6E1A_6DB5_6DDA_6DEB_6DD8_6DEA_6DF1_6DEE_6DE8_6DC6),
  (0xB264, 0x6DC4_6DAA_6DEC_6DBF_6DE6_70F9_7109_710A_70FD_70EF_723D_727D),
  (0xB270, 0x7281_731C_731B_7316_7313_7319_7387_7405_740A_7403_7406_73FE),
  (0xB27C, 0x740D_74E0_74F6),
  (0xB2A1, 0x74F7_751C_7522_7565_7566_7562_7570_758F_75D4_75D5_75B5_75CA),
  (0xB2AD, 0x75CD_768E_76D4_76D2_76DB_7737_773E_773C_7736_7738_773A_786B),
  (0xB2B9, 0x7843_784E_7965_7968_796D_79FB_7A92_7A95_7B20_7B28_7B1B_7B2C),
  (0xB2C5, 0x7B26_7B19_7B1E_7B2E_7C92_7C97_7C95_7D46_7D43_7D71_7D2E_7D39),
  (0xB2D1, 0x7D3C_7D40_7D30_7D33_7D44_7D2F_7D42_7D32_7D31_7F3D_7F9E_7F9A),
  (0xB2DD, 0x7FCC_7FCE_7FD2_801C_804A_8046_812F_8116_8123_812B_8129_8130),
  (0xB2E9, 0x8124_8202_8235_8237_8236_8239_838E_839E_8398_8378_83A2_8396),
  (0xB2F5, 0x83BD_83AB_8392_838A_8393_8389_83A0_8377_837B_837C),
  (0xB340, 0x8386_83A7_8655_5F6A_86C7_86C0_86B6_86C4_86B5_86C6_86CB_86B1),
  (0xB34C, 0x86AF_86C9_8853_889E_8888_88AB_8892_8896_888D_888B_8993_898F),
  (0xB358, 0x8A2A_8A1D_8A23_8A25_8A31_8A2D_8A1F_8A1B_8A22_8C49_8C5A_8CA9),
  (0xB364, 0x8CAC_8CAB_8CA8_8CAA_8CA7_8D67_8D66_8DBE_8DBA_8EDB_8EDF_9019),
  (0xB370, 0x900D_901A_9017_9023_901F_901D_9010_9015_901E_9020_900F_9022),
  (0xB37C, 0x9016_901B_9014),
  (0xB3A1, 0x90E8_90ED_90FD_9157_91CE_91F5_91E6_91E3_91E7_91ED_91E9_9589),
  (0xB3AD, 0x966A_9675_9673_9678_9670_9674_9676_9677_966C_96C0_96EA_96E9),
  (0xB3B9, 0x7AE0_7ADF_9802_9803_9B5A_9CE5_9E75_9E7F_9EA5_9EBB_50A2_508D),
  (0xB3C5, 0x5085_5099_5091_5080_5096_5098_509A_6700_51F1_5272_5274_5275),
  (0xB3D1, 0x5269_52DE_52DD_52DB_535A_53A5_557B_5580_55A7_557C_558A_559D),
  (0xB3DD, 0x5598_5582_559C_55AA_5594_5587_558B_5583_55B3_55AE_559F_553E),
  (0xB3E9, 0x55B2_559A_55BB_55AC_55B1_557E_5589_55AB_5599_570D_582F_582A),
  (0xB3F5, 0x5834_5824_5830_5831_5821_581D_5820_58F9_58FA_5960),
  (0xB440, 0x5A77_5A9A_5A7F_5A92_5A9B_5AA7_5B73_5B71_5BD2_5BCC_5BD3_5BD0),
  (0xB44C, 0x5C0A_5C0B_5C31_5D4C_5D50_5D34_5D47_5DFD_5E45_5E3D_5E40_5E43),
  (0xB458, 0x5E7E_5ECA_5EC1_5EC2_5EC4_5F3C_5F6D_5FA9_5FAA_5FA8_60D1_60E1),
  (0xB464, 0x60B2_60B6_60E0_611C_6123_60FA_6115_60F0_60FB_60F4_6168_60F1),
  (0xB470, 0x610E_60F6_6109_6100_6112_621F_6249_63A3_638C_63CF_63C0_63E9),
  (0xB47C, 0x63C9_63C6_63CD),
  (0xB4A1, 0x63D2_63E3_63D0_63E1_63D6_63ED_63EE_6376_63F4_63EA_63DB_6452),
  (0xB4AD, 0x63DA_63F9_655E_6566_6562_6563_6591_6590_65AF_666E_6670_6674),
  (0xB4B9, 0x6676_666F_6691_667A_667E_6677_66FE_66FF_671F_671D_68FA_68D5),
  (0xB4C5, 0x68E0_68D8_68D7_6905_68DF_68F5_68EE_68E7_68F9_68D2_68F2_68E3),
  (0xB4D1, 0x68CB_68CD_690D_6912_690E_68C9_68DA_696E_68FB_6B3E_6B3A_6B3D),
  (0xB4DD, 0x6B98_6B96_6BBC_6BEF_6C2E_6C2F_6C2C_6E2F_6E38_6E54_6E21_6E32),
  (0xB4E9, 0x6E67_6E4A_6E20_6E25_6E23_6E1B_6E5B_6E58_6E24_6E56_6E6E_6E2D),
  (0xB4F5, 0x6E26_6E6F_6E34_6E4D_6E3A_6E2C_6E43_6E1D_6E3E_6ECB),
  (0xB540, 0x6E89_6E19_6E4E_6E63_6E44_6E72_6E69_6E5F_7119_711A_7126_7130),
  (0xB54C, 0x7121_7136_716E_711C_724C_7284_7280_7336_7325_7334_7329_743A),
  (0xB558, 0x742A_7433_7422_7425_7435_7436_7434_742F_741B_7426_7428_7525),
  (0xB564, 0x7526_756B_756A_75E2_75DB_75E3_75D9_75D8_75DE_75E0_767B_767C),
  (0xB570, 0x7696_7693_76B4_76DC_774F_77ED_785D_786C_786F_7A0D_7A08_7A0B),
  (0xB57C, 0x7A05_7A00_7A98),
  (0xB5A1, 0x7A97_7A96_7AE5_7AE3_7B49_7B56_7B46_7B50_7B52_7B54_7B4D_7B4B),
  (0xB5AD, 0x7B4F_7B51_7C9F_7CA5_7D5E_7D50_7D68_7D55_7D2B_7D6E_7D72_7D61),
  (0xB5B9, 0x7D66_7D62_7D70_7D73_5584_7FD4_7FD5_800B_8052_8085_8155_8154),
  (0xB5C5, 0x814B_8151_814E_8139_8146_813E_814C_8153_8174_8212_821C_83E9),
  (0xB5D1, 0x8403_83F8_840D_83E0_83C5_840B_83C1_83EF_83F1_83F4_8457_840A),
  (0xB5DD, 0x83F0_840C_83CC_83FD_83F2_83CA_8438_840E_8404_83DC_8407_83D4),
  (0xB5E9, 0x83DF_865B_86DF_86D9_86ED_86D4_86DB_86E4_86D0_86DE_8857_88C1),
  (0xB5F5, 0x88C2_88B1_8983_8996_8A3B_8A60_8A55_8A5E_8A3C_8A41),
  (0xB640, 0x8A54_8A5B_8A50_8A46_8A34_8A3A_8A36_8A56_8C61_8C82_8CAF_8CBC),
  (0xB64C, 0x8CB3_8CBD_8CC1_8CBB_8CC0_8CB4_8CB7_8CB6_8CBF_8CB8_8D8A_8D85),
  (0xB658, 0x8D81_8DCE_8DDD_8DCB_8DDA_8DD1_8DCC_8DDB_8DC6_8EFB_8EF8_8EFC),
  (0xB664, 0x8F9C_902E_9035_9031_9038_9032_9036_9102_90F5_9109_90FE_9163),
  (0xB670, 0x9165_91CF_9214_9215_9223_9209_921E_920D_9210_9207_9211_9594),
  (0xB67C, 0x958F_958B_9591),
  (0xB6A1, 0x9593_9592_958E_968A_968E_968B_967D_9685_9686_968D_9672_9684),
  (0xB6AD, 0x96C1_96C5_96C4_96C6_96C7_96EF_96F2_97CC_9805_9806_9808_98E7),
  (0xB6B9, 0x98EA_98EF_98E9_98F2_98ED_99AE_99AD_9EC3_9ECD_9ED1_4E82_50AD),
  (0xB6C5, 0x50B5_50B2_50B3_50C5_50BE_50AC_50B7_50BB_50AF_50C7_527F_5277),
  (0xB6D1, 0x527D_52DF_52E6_52E4_52E2_52E3_532F_55DF_55E8_55D3_55E6_55CE),
  (0xB6DD, 0x55DC_55C7_55D1_55E3_55E4_55EF_55DA_55E1_55C5_55C6_55E5_55C9),
  (0xB6E9, 0x5712_5713_585E_5851_5858_5857_585A_5854_586B_584C_586D_584A),
  (0xB6F5, 0x5862_5852_584B_5967_5AC1_5AC9_5ACC_5ABE_5ABD_5ABC),
  (0xB740, 0x5AB3_5AC2_5AB2_5D69_5D6F_5E4C_5E79_5EC9_5EC8_5F12_5F59_5FAC),
  (0xB74C, 0x5FAE_611A_610F_6148_611F_60F3_611B_60F9_6101_6108_614E_614C),
  (0xB758, 0x6144_614D_613E_6134_6127_610D_6106_6137_6221_6222_6413_643E),
  (0xB764, 0x641E_642A_642D_643D_642C_640F_641C_6414_640D_6436_6416_6417),
  (0xB770, 0x6406_656C_659F_65B0_6697_6689_6687_6688_6696_6684_6698_668D),
  (0xB77C, 0x6703_6994_696D),
  (0xB7A1, 0x695A_6977_6960_6954_6975_6930_6982_694A_6968_696B_695E_6953),
  (0xB7AD, 0x6979_6986_695D_6963_695B_6B47_6B72_6BC0_6BBF_6BD3_6BFD_6EA2),
  (0xB7B9, 0x6EAF_6ED3_6EB6_6EC2_6E90_6E9D_6EC7_6EC5_6EA5_6E98_6EBC_6EBA),
  (0xB7C5, 0x6EAB_6ED1_6E96_6E9C_6EC4_6ED4_6EAA_6EA7_6EB4_714E_7159_7169),
  (0xB7D1, 0x7164_7149_7167_715C_716C_7166_714C_7165_715E_7146_7168_7156),
  (0xB7DD, 0x723A_7252_7337_7345_733F_733E_746F_745A_7455_745F_745E_7441),
  (0xB7E9, 0x743F_7459_745B_745C_7576_7578_7600_75F0_7601_75F2_75F1_75FA),
  (0xB7F5, 0x75FF_75F4_75F3_76DE_76DF_775B_776B_7766_775E_7763),
  (0xB840, 0x7779_776A_776C_775C_7765_7768_7762_77EE_788E_78B0_7897_7898),
  (0xB84C, 0x788C_7889_787C_7891_7893_787F_797A_797F_7981_842C_79BD_7A1C),
  (0xB858, 0x7A1A_7A20_7A14_7A1F_7A1E_7A9F_7AA0_7B77_7BC0_7B60_7B6E_7B67),
  (0xB864, 0x7CB1_7CB3_7CB5_7D93_7D79_7D91_7D81_7D8F_7D5B_7F6E_7F69_7F6A),
  (0xB870, 0x7F72_7FA9_7FA8_7FA4_8056_8058_8086_8084_8171_8170_8178_8165),
  (0xB87C, 0x816E_8173_816B),
  (0xB8A1, 0x8179_817A_8166_8205_8247_8482_8477_843D_8431_8475_8466_846B),
  (0xB8AD, 0x8449_846C_845B_843C_8435_8461_8463_8469_846D_8446_865E_865C),
  (0xB8B9, 0x865F_86F9_8713_8708_8707_8700_86FE_86FB_8702_8703_8706_870A),
  (0xB8C5, 0x8859_88DF_88D4_88D9_88DC_88D8_88DD_88E1_88CA_88D5_88D2_899C),
  (0xB8D1, 0x89E3_8A6B_8A72_8A73_8A66_8A69_8A70_8A87_8A7C_8A63_8AA0_8A71),
  (0xB8DD, 0x8A85_8A6D_8A62_8A6E_8A6C_8A79_8A7B_8A3E_8A68_8C62_8C8A_8C89),
  (0xB8E9, 0x8CCA_8CC7_8CC8_8CC4_8CB2_8CC3_8CC2_8CC5_8DE1_8DDF_8DE8_8DEF),
  (0xB8F5, 0x8DF3_8DFA_8DEA_8DE4_8DE6_8EB2_8F03_8F09_8EFE_8F0A),
  (0xB940, 0x8F9F_8FB2_904B_904A_9053_9042_9054_903C_9055_9050_9047_904F),
  (0xB94C, 0x904E_904D_9051_903E_9041_9112_9117_916C_916A_9169_91C9_9237),
  (0xB958, 0x9257_9238_923D_9240_923E_925B_924B_9264_9251_9234_9249_924D),
  (0xB964, 0x9245_9239_923F_925A_9598_9698_9694_9695_96CD_96CB_96C9_96CA),
  (0xB970, 0x96F7_96FB_96F9_96F6_9756_9774_9776_9810_9811_9813_980A_9812),
  (0xB97C, 0x980C_98FC_98F4),
  (0xB9A1, 0x98FD_98FE_99B3_99B1_99B4_9AE1_9CE9_9E82_9F0E_9F13_9F20_50E7),
  (0xB9AD, 0x50EE_50E5_50D6_50ED_50DA_50D5_50CF_50D1_50F1_50CE_50E9_5162),
  (0xB9B9, 0x51F3_5283_5282_5331_53AD_55FE_5600_561B_5617_55FD_5614_5606),
  (0xB9C5, 0x5609_560D_560E_55F7_5616_561F_5608_5610_55F6_5718_5716_5875),
  (0xB9D1, 0x587E_5883_5893_588A_5879_5885_587D_58FD_5925_5922_5924_596A),
  (0xB9DD, 0x5969_5AE1_5AE6_5AE9_5AD7_5AD6_5AD8_5AE3_5B75_5BDE_5BE7_5BE1),
  (0xB9E9, 0x5BE5_5BE6_5BE8_5BE2_5BE4_5BDF_5C0D_5C62_5D84_5D87_5E5B_5E63),
  (0xB9F5, 0x5E55_5E57_5E54_5ED3_5ED6_5F0A_5F46_5F70_5FB9_6147),
  (0xBA40, 0x613F_614B_6177_6162_6163_615F_615A_6158_6175_622A_6487_6458),
  (0xBA4C, 0x6454_64A4_6478_645F_647A_6451_6467_6434_646D_647B_6572_65A1),
  (0xBA58, 0x65D7_65D6_66A2_66A8_669D_699C_69A8_6995_69C1_69AE_69D3_69CB),
  (0xBA64, 0x699B_69B7_69BB_69AB_69B4_69D0_69CD_69AD_69CC_69A6_69C3_69A3),
  (0xBA70, 0x6B49_6B4C_6C33_6F33_6F14_6EFE_6F13_6EF4_6F29_6F3E_6F20_6F2C),
  (0xBA7C, 0x6F0F_6F02_6F22),
  (0xBAA1, 0x6EFF_6EEF_6F06_6F31_6F38_6F32_6F23_6F15_6F2B_6F2F_6F88_6F2A),
  (0xBAAD, 0x6EEC_6F01_6EF2_6ECC_6EF7_7194_7199_717D_718A_7184_7192_723E),
  (0xBAB9, 0x7292_7296_7344_7350_7464_7463_746A_7470_746D_7504_7591_7627),
  (0xBAC5, 0x760D_760B_7609_7613_76E1_76E3_7784_777D_777F_7761_78C1_789F),
  (0xBAD1, 0x78A7_78B3_78A9_78A3_798E_798F_798D_7A2E_7A31_7AAA_7AA9_7AED),
  (0xBADD, 0x7AEF_7BA1_7B95_7B8B_7B75_7B97_7B9D_7B94_7B8F_7BB8_7B87_7B84),
  (0xBAE9, 0x7CB9_7CBD_7CBE_7DBB_7DB0_7D9C_7DBD_7DBE_7DA0_7DCA_7DB4_7DB2),
  (0xBAF5, 0x7DB1_7DBA_7DA2_7DBF_7DB5_7DB8_7DAD_7DD2_7DC7_7DAC),
  (0xBB40, 0x7F70_7FE0_7FE1_7FDF_805E_805A_8087_8150_8180_818F_8188_818A),
  (0xBB4C, 0x817F_8182_81E7_81FA_8207_8214_821E_824B_84C9_84BF_84C6_84C4),
  (0xBB58, 0x8499_849E_84B2_849C_84CB_84B8_84C0_84D3_8490_84BC_84D1_84CA),
  (0xBB64, 0x873F_871C_873B_8722_8725_8734_8718_8755_8737_8729_88F3_8902),
  (0xBB70, 0x88F4_88F9_88F8_88FD_88E8_891A_88EF_8AA6_8A8C_8A9E_8AA3_8A8D),
  (0xBB7C, 0x8AA1_8A93_8AA4),
  (0xBBA1, 0x8AAA_8AA5_8AA8_8A98_8A91_8A9A_8AA7_8C6A_8C8D_8C8C_8CD3_8CD1),
  (0xBBAD, 0x8CD2_8D6B_8D99_8D95_8DFC_8F14_8F12_8F15_8F13_8FA3_9060_9058),
  (0xBBB9, 0x905C_9063_9059_905E_9062_905D_905B_9119_9118_911E_9175_9178),
  (0xBBC5, 0x9177_9174_9278_9280_9285_9298_9296_927B_9293_929C_92A8_927C),
  (0xBBD1, 0x9291_95A1_95A8_95A9_95A3_95A5_95A4_9699_969C_969B_96CC_96D2),
  (0xBBDD, 0x9700_977C_9785_97F6_9817_9818_98AF_98B1_9903_9905_990C_9909),
  (0xBBE9, 0x99C1_9AAF_9AB0_9AE6_9B41_9B42_9CF4_9CF6_9CF3_9EBC_9F3B_9F4A),
  (0xBBF5, 0x5104_5100_50FB_50F5_50F9_5102_5108_5109_5105_51DC),
  (0xBC40, 0x5287_5288_5289_528D_528A_52F0_53B2_562E_563B_5639_5632_563F),
  (0xBC4C, 0x5634_5629_5653_564E_5657_5674_5636_562F_5630_5880_589F_589E),
  (0xBC58, 0x58B3_589C_58AE_58A9_58A6_596D_5B09_5AFB_5B0B_5AF5_5B0C_5B08),
  (0xBC64, 0x5BEE_5BEC_5BE9_5BEB_5C64_5C65_5D9D_5D94_5E62_5E5F_5E61_5EE2),
  (0xBC70, 0x5EDA_5EDF_5EDD_5EE3_5EE0_5F48_5F71_5FB7_5FB5_6176_6167_616E),
  (0xBC7C, 0x615D_6155_6182),
  (0xBCA1, 0x617C_6170_616B_617E_61A7_6190_61AB_618E_61AC_619A_61A4_6194),
  (0xBCAD, 0x61AE_622E_6469_646F_6479_649E_64B2_6488_6490_64B0_64A5_6493),
  (0xBCB9, 0x6495_64A9_6492_64AE_64AD_64AB_649A_64AC_6499_64A2_64B3_6575),
  (0xBCC5, 0x6577_6578_66AE_66AB_66B4_66B1_6A23_6A1F_69E8_6A01_6A1E_6A19),
  (0xBCD1, 0x69FD_6A21_6A13_6A0A_69F3_6A02_6A05_69ED_6A11_6B50_6B4E_6BA4),
  (0xBCDD, 0x6BC5_6BC6_6F3F_6F7C_6F84_6F51_6F66_6F54_6F86_6F6D_6F5B_6F78),
  (0xBCE9, 0x6F6E_6F8E_6F7A_6F70_6F64_6F97_6F58_6ED5_6F6F_6F60_6F5F_719F),
  (0xBCF5, 0x71AC_71B1_71A8_7256_729B_734E_7357_7469_748B_7483),
  (0xBD40, 0x747E_7480_757F_7620_7629_761F_7624_7626_7621_7622_769A_76BA),
  (0xBD4C, 0x76E4_778E_7787_778C_7791_778B_78CB_78C5_78BA_78CA_78BE_78D5),
  (0xBD58, 0x78BC_78D0_7A3F_7A3C_7A40_7A3D_7A37_7A3B_7AAF_7AAE_7BAD_7BB1),
  (0xBD64, 0x7BC4_7BB4_7BC6_7BC7_7BC1_7BA0_7BCC_7CCA_7DE0_7DF4_7DEF_7DFB),
  (0xBD70, 0x7DD8_7DEC_7DDD_7DE8_7DE3_7DDA_7DDE_7DE9_7D9E_7DD9_7DF2_7DF9),
  (0xBD7C, 0x7F75_7F77_7FAF),
  (0xBDA1, 0x7FE9_8026_819B_819C_819D_81A0_819A_8198_8517_853D_851A_84EE),
  (0xBDAD, 0x852C_852D_8513_8511_8523_8521_8514_84EC_8525_84FF_8506_8782),
  (0xBDB9, 0x8774_8776_8760_8766_8778_8768_8759_8757_874C_8753_885B_885D),
  (0xBDC5, 0x8910_8907_8912_8913_8915_890A_8ABC_8AD2_8AC7_8AC4_8A95_8ACB),
  (0xBDD1, 0x8AF8_8AB2_8AC9_8AC2_8ABF_8AB0_8AD6_8ACD_8AB6_8AB9_8ADB_8C4C),
  (0xBDDD, 0x8C4E_8C6C_8CE0_8CDE_8CE6_8CE4_8CEC_8CED_8CE2_8CE3_8CDC_8CEA),
  (0xBDE9, 0x8CE1_8D6D_8D9F_8DA3_8E2B_8E10_8E1D_8E22_8E0F_8E29_8E1F_8E21),
  (0xBDF5, 0x8E1E_8EBA_8F1D_8F1B_8F1F_8F29_8F26_8F2A_8F1C_8F1E),
  (0xBE40, 0x8F25_9069_906E_9068_906D_9077_9130_912D_9127_9131_9187_9189),
  (0xBE4C, 0x918B_9183_92C5_92BB_92B7_92EA_92AC_92E4_92C1_92B3_92BC_92D2),
  (0xBE58, 0x92C7_92F0_92B2_95AD_95B1_9704_9706_9707_9709_9760_978D_978B),
  (0xBE64, 0x978F_9821_982B_981C_98B3_990A_9913_9912_9918_99DD_99D0_99DF),
  (0xBE70, 0x99DB_99D1_99D5_99D2_99D9_9AB7_9AEE_9AEF_9B27_9B45_9B44_9B77),
  (0xBE7C, 0x9B6F_9D06_9D09),
  (0xBEA1, 0x9D03_9EA9_9EBE_9ECE_58A8_9F52_5112_5118_5114_5110_5115_5180),
  (0xBEAD, 0x51AA_51DD_5291_5293_52F3_5659_566B_5679_5669_5664_5678_566A),
  (0xBEB9, 0x5668_5665_5671_566F_566C_5662_5676_58C1_58BE_58C7_58C5_596E),
  (0xBEC5, 0x5B1D_5B34_5B78_5BF0_5C0E_5F4A_61B2_6191_61A9_618A_61CD_61B6),
  (0xBED1, 0x61BE_61CA_61C8_6230_64C5_64C1_64CB_64BB_64BC_64DA_64C4_64C7),
  (0xBEDD, 0x64C2_64CD_64BF_64D2_64D4_64BE_6574_66C6_66C9_66B9_66C4_66C7),
  (0xBEE9, 0x66B8_6A3D_6A38_6A3A_6A59_6A6B_6A58_6A39_6A44_6A62_6A61_6A4B),
  (0xBEF5, 0x6A47_6A35_6A5F_6A48_6B59_6B77_6C05_6FC2_6FB1_6FA1),
  (0xBF40, 0x6FC3_6FA4_6FC1_6FA7_6FB3_6FC0_6FB9_6FB6_6FA6_6FA0_6FB4_71BE),
  (0xBF4C, 0x71C9_71D0_71D2_71C8_71D5_71B9_71CE_71D9_71DC_71C3_71C4_7368),
  (0xBF58, 0x749C_74A3_7498_749F_749E_74E2_750C_750D_7634_7638_763A_76E7),
  (0xBF64, 0x76E5_77A0_779E_779F_77A5_78E8_78DA_78EC_78E7_79A6_7A4D_7A4E),
  (0xBF70, 0x7A46_7A4C_7A4B_7ABA_7BD9_7C11_7BC9_7BE4_7BDB_7BE1_7BE9_7BE6),
  (0xBF7C, 0x7CD5_7CD6_7E0A),
  (0xBFA1, 0x7E11_7E08_7E1B_7E23_7E1E_7E1D_7E09_7E10_7F79_7FB2_7FF0_7FF1),
  (0xBFAD, 0x7FEE_8028_81B3_81A9_81A8_81FB_8208_8258_8259_854A_8559_8548),
  (0xBFB9, 0x8568_8569_8543_8549_856D_856A_855E_8783_879F_879E_87A2_878D),
  (0xBFC5, 0x8861_892A_8932_8925_892B_8921_89AA_89A6_8AE6_8AFA_8AEB_8AF1),
  (0xBFD1, 0x8B00_8ADC_8AE7_8AEE_8AFE_8B01_8B02_8AF7_8AED_8AF3_8AF6_8AFC),
  (0xBFDD, 0x8C6B_8C6D_8C93_8CF4_8E44_8E31_8E34_8E42_8E39_8E35_8F3B_8F2F),
  (0xBFE9, 0x8F38_8F33_8FA8_8FA6_9075_9074_9078_9072_907C_907A_9134_9192),
  (0xBFF5, 0x9320_9336_92F8_9333_932F_9322_92FC_932B_9304_931A),
  (0xC040, 0x9310_9326_9321_9315_932E_9319_95BB_96A7_96A8_96AA_96D5_970E),
  (0xC04C, 0x9711_9716_970D_9713_970F_975B_975C_9766_9798_9830_9838_983B),
  (0xC058, 0x9837_982D_9839_9824_9910_9928_991E_991B_9921_991A_99ED_99E2),
  (0xC064, 0x99F1_9AB8_9ABC_9AFB_9AED_9B28_9B91_9D15_9D23_9D26_9D28_9D12),
  (0xC070, 0x9D1B_9ED8_9ED4_9F8D_9F9C_512A_511F_5121_5132_52F5_568E_5680),
  (0xC07C, 0x5690_5685_5687),
  (0xC0A1, 0x568F_58D5_58D3_58D1_58CE_5B30_5B2A_5B24_5B7A_5C37_5C68_5DBC),
  (0xC0AD, 0x5DBA_5DBD_5DB8_5E6B_5F4C_5FBD_61C9_61C2_61C7_61E6_61CB_6232),
  (0xC0B9, 0x6234_64CE_64CA_64D8_64E0_64F0_64E6_64EC_64F1_64E2_64ED_6582),
  (0xC0C5, 0x6583_66D9_66D6_6A80_6A94_6A84_6AA2_6A9C_6ADB_6AA3_6A7E_6A97),
  (0xC0D1, 0x6A90_6AA0_6B5C_6BAE_6BDA_6C08_6FD8_6FF1_6FDF_6FE0_6FDB_6FE4),
  (0xC0DD, 0x6FEB_6FEF_6F80_6FEC_6FE1_6FE9_6FD5_6FEE_6FF0_71E7_71DF_71EE),
  (0xC0E9, 0x71E6_71E5_71ED_71EC_71F4_71E0_7235_7246_7370_7372_74A9_74B0),
  (0xC0F5, 0x74A6_74A8_7646_7642_764C_76EA_77B3_77AA_77B0_77AC),
  (0xC140, 0x77A7_77AD_77EF_78F7_78FA_78F4_78EF_7901_79A7_79AA_7A57_7ABF),
  (0xC14C, 0x7C07_7C0D_7BFE_7BF7_7C0C_7BE0_7CE0_7CDC_7CDE_7CE2_7CDF_7CD9),
  (0xC158, 0x7CDD_7E2E_7E3E_7E46_7E37_7E32_7E43_7E2B_7E3D_7E31_7E45_7E41),
  (0xC164, 0x7E34_7E39_7E48_7E35_7E3F_7E2F_7F44_7FF3_7FFC_8071_8072_8070),
  (0xC170, 0x806F_8073_81C6_81C3_81BA_81C2_81C0_81BF_81BD_81C9_81BE_81E8),
  (0xC17C, 0x8209_8271_85AA),
  (0xC1A1, 0x8584_857E_859C_8591_8594_85AF_859B_8587_85A8_858A_8667_87C0),
  (0xC1AD, 0x87D1_87B3_87D2_87C6_87AB_87BB_87BA_87C8_87CB_893B_8936_8944),
  (0xC1B9, 0x8938_893D_89AC_8B0E_8B17_8B19_8B1B_8B0A_8B20_8B1D_8B04_8B10),
  (0xC1C5, 0x8C41_8C3F_8C73_8CFA_8CFD_8CFC_8CF8_8CFB_8DA8_8E49_8E4B_8E48),
  (0xC1D1, 0x8E4A_8F44_8F3E_8F42_8F45_8F3F_907F_907D_9084_9081_9082_9080),
  (0xC1DD, 0x9139_91A3_919E_919C_934D_9382_9328_9375_934A_9365_934B_9318),
  (0xC1E9, 0x937E_936C_935B_9370_935A_9354_95CA_95CB_95CC_95C8_95C6_96B1),
  (0xC1F5, 0x96B8_96D6_971C_971E_97A0_97D3_9846_98B6_9935_9A01),
  (0xC240, 0x99FF_9BAE_9BAB_9BAA_9BAD_9D3B_9D3F_9E8B_9ECF_9EDE_9EDC_9EDD),
  (0xC24C, 0x9EDB_9F3E_9F4B_53E2_5695_56AE_58D9_58D8_5B38_5F5D_61E3_6233),
  (0xC258, 0x64F4_64F2_64FE_6506_64FA_64FB_64F7_65B7_66DC_6726_6AB3_6AAC),
  (0xC264, 0x6AC3_6ABB_6AB8_6AC2_6AAE_6AAF_6B5F_6B78_6BAF_7009_700B_6FFE),
  (0xC270, 0x7006_6FFA_7011_700F_71FB_71FC_71FE_71F8_7377_7375_74A7_74BF),
  (0xC27C, 0x7515_7656_7658),
  (0xC2A1, 0x7652_77BD_77BF_77BB_77BC_790E_79AE_7A61_7A62_7A60_7AC4_7AC5),
  (0xC2AD, 0x7C2B_7C27_7C2A_7C1E_7C23_7C21_7CE7_7E54_7E55_7E5E_7E5A_7E61),
  (0xC2B9, 0x7E52_7E59_7F48_7FF9_7FFB_8077_8076_81CD_81CF_820A_85CF_85A9),
  (0xC2C5, 0x85CD_85D0_85C9_85B0_85BA_85B9_85A6_87EF_87EC_87F2_87E0_8986),
  (0xC2D1, 0x89B2_89F4_8B28_8B39_8B2C_8B2B_8C50_8D05_8E59_8E63_8E66_8E64),
  (0xC2DD, 0x8E5F_8E55_8EC0_8F49_8F4D_9087_9083_9088_91AB_91AC_91D0_9394),
  (0xC2E9, 0x938A_9396_93A2_93B3_93AE_93AC_93B0_9398_939A_9397_95D4_95D6),
  (0xC2F5, 0x95D0_95D5_96E2_96DC_96D9_96DB_96DE_9724_97A3_97A6),
  (0xC340, 0x97AD_97F9_984D_984F_984C_984E_9853_98BA_993E_993F_993D_992E),
  (0xC34C, 0x99A5_9A0E_9AC1_9B03_9B06_9B4F_9B4E_9B4D_9BCA_9BC9_9BFD_9BC8),
  (0xC358, 0x9BC0_9D51_9D5D_9D60_9EE0_9F15_9F2C_5133_56A5_58DE_58DF_58E2),
  (0xC364, 0x5BF5_9F90_5EEC_61F2_61F7_61F6_61F5_6500_650F_66E0_66DD_6AE5),
  (0xC370, 0x6ADD_6ADA_6AD3_701B_701F_7028_701A_701D_7015_7018_7206_720D),
  (0xC37C, 0x7258_72A2_7378),
  (0xC3A1, 0x737A_74BD_74CA_74E3_7587_7586_765F_7661_77C7_7919_79B1_7A6B),
  (0xC3AD, 0x7A69_7C3E_7C3F_7C38_7C3D_7C37_7C40_7E6B_7E6D_7E79_7E69_7E6A),
  (0xC3B9, 0x7F85_7E73_7FB6_7FB9_7FB8_81D8_85E9_85DD_85EA_85D5_85E4_85E5),
  (0xC3C5, 0x85F7_87FB_8805_880D_87F9_87FE_8960_895F_8956_895E_8B41_8B5C),
  (0xC3D1, 0x8B58_8B49_8B5A_8B4E_8B4F_8B46_8B59_8D08_8D0A_8E7C_8E72_8E87),
  (0xC3DD, 0x8E76_8E6C_8E7A_8E74_8F54_8F4E_8FAD_908A_908B_91B1_91AE_93E1),
  (0xC3E9, 0x93D1_93DF_93C3_93C8_93DC_93DD_93D6_93E2_93CD_93D8_93E4_93D7),
  (0xC3F5, 0x93E8_95DC_96B4_96E3_972A_9727_9761_97DC_97FB_985E),
  (0xC440, 0x9858_985B_98BC_9945_9949_9A16_9A19_9B0D_9BE8_9BE7_9BD6_9BDB),
  (0xC44C, 0x9D89_9D61_9D72_9D6A_9D6C_9E92_9E97_9E93_9EB4_52F8_56A8_56B7),
  (0xC458, 0x56B6_56B4_56BC_58E4_5B40_5B43_5B7D_5BF6_5DC9_61F8_61FA_6518),
  (0xC464, 0x6514_6519_66E6_6727_6AEC_703E_7030_7032_7210_737B_74CF_7662),
  (0xC470, 0x7665_7926_792A_792C_792B_7AC7_7AF6_7C4C_7C43_7C4D_7CEF_7CF0),
  (0xC47C, 0x8FAE_7E7D_7E7C),
  (0xC4A1, 0x7E82_7F4C_8000_81DA_8266_85FB_85F9_8611_85FA_8606_860B_8607),
  (0xC4AD, 0x860A_8814_8815_8964_89BA_89F8_8B70_8B6C_8B66_8B6F_8B5F_8B6B),
  (0xC4B9, 0x8D0F_8D0D_8E89_8E81_8E85_8E82_91B4_91CB_9418_9403_93FD_95E1),
  (0xC4C5, 0x9730_98C4_9952_9951_99A8_9A2B_9A30_9A37_9A35_9C13_9C0D_9E79),
  (0xC4D1, 0x9EB5_9EE8_9F2F_9F5F_9F63_9F61_5137_5138_56C1_56C0_56C2_5914),
  (0xC4DD, 0x5C6C_5DCD_61FC_61FE_651D_651C_6595_66E9_6AFB_6B04_6AFA_6BB2),
  (0xC4E9, 0x704C_721B_72A7_74D6_74D4_7669_77D3_7C50_7E8F_7E8C_7FBC_8617),
  (0xC4F5, 0x862D_861A_8823_8822_8821_881F_896A_896C_89BD_8B74),
  (0xC540, 0x8B77_8B7D_8D13_8E8A_8E8D_8E8B_8F5F_8FAF_91BA_942E_9433_9435),
  (0xC54C, 0x943A_9438_9432_942B_95E2_9738_9739_9732_97FF_9867_9865_9957),
  (0xC558, 0x9A45_9A43_9A40_9A3E_9ACF_9B54_9B51_9C2D_9C25_9DAF_9DB4_9DC2),
  (0xC564, 0x9DB8_9E9D_9EEF_9F19_9F5C_9F66_9F67_513C_513B_56C8_56CA_56C9),
  (0xC570, 0x5B7F_5DD4_5DD2_5F4E_61FF_6524_6B0A_6B61_7051_7058_7380_74E4),
  (0xC57C, 0x758A_766E_766C),
  (0xC5A1, 0x79B3_7C60_7C5F_807E_807D_81DF_8972_896F_89FC_8B80_8D16_8D17),
  (0xC5AD, 0x8E91_8E93_8F61_9148_9444_9451_9452_973D_973E_97C3_97C1_986B),
  (0xC5B9, 0x9955_9A55_9A4D_9AD2_9B1A_9C49_9C31_9C3E_9C3B_9DD3_9DD7_9F34),
  (0xC5C5, 0x9F6C_9F6A_9F94_56CC_5DD6_6200_6523_652B_652A_66EC_6B10_74DA),
  (0xC5D1, 0x7ACA_7C64_7C63_7C65_7E93_7E96_7E94_81E2_8638_863F_8831_8B8A),
  (0xC5DD, 0x9090_908F_9463_9460_9464_9768_986F_995C_9A5A_9A5B_9A57_9AD3),
  (0xC5E9, 0x9AD4_9AD1_9C54_9C57_9C56_9DE5_9E9F_9EF4_56D1_58E9_652C_705E),
  (0xC5F5, 0x7671_7672_77D7_7F50_7F88_8836_8839_8862_8B93_8B92),
  (0xC640, 0x8B96_8277_8D1B_91C0_946A_9742_9748_9744_97C6_9870_9A5F_9B22),
  (0xC64C, 0x9B58_9C5F_9DF9_9DFA_9E7C_9E7D_9F07_9F77_9F72_5EF3_6B16_7063),
  (0xC658, 0x7C6C_7C6E_883B_89C0_8EA1_91C1_9472_9470_9871_995E_9AD6_9B23),
  (0xC664, 0x9ECC_7064_77DA_8B9A_9477_97C9_9A62_9A65_7E9C_8B9C_8EAA_91C5),
  (0xC670, 0x947D_947E_947C_9C77_9C78_9EF7_8C54_947F_9E1A_7228_9A6A_9B31),
  (0xC67C, 0x9E1B_9E1E_7C72),
  (0xC940, 0x4E42_4E5C_51F5_531A_5382_4E07_4E0C_4E47_4E8D_56D7_FA0C_5C6E),
  (0xC94C, 0x5F73_4E0F_5187_4E0E_4E2E_4E93_4EC2_4EC9_4EC8_5198_52FC_536C),
  (0xC958, 0x53B9_5720_5903_592C_5C10_5DFF_65E1_6BB3_6BCC_6C14_723F_4E31),
  (0xC964, 0x4E3C_4EE8_4EDC_4EE9_4EE1_4EDD_4EDA_520C_531C_534C_5722_5723),
  (0xC970, 0x5917_592F_5B81_5B84_5C12_5C3B_5C74_5C73_5E04_5E80_5E82_5FC9),
  (0xC97C, 0x6209_6250_6C15),
  (0xC9A1, 0x6C36_6C43_6C3F_6C3B_72AE_72B0_738A_79B8_808A_961E_4F0E_4F18),
  (0xC9AD, 0x4F2C_4EF5_4F14_4EF1_4F00_4EF7_4F08_4F1D_4F02_4F05_4F22_4F13),
  (0xC9B9, 0x4F04_4EF4_4F12_51B1_5213_5209_5210_52A6_5322_531F_534D_538A),
  (0xC9C5, 0x5407_56E1_56DF_572E_572A_5734_593C_5980_597C_5985_597B_597E),
  (0xC9D1, 0x5977_597F_5B56_5C15_5C25_5C7C_5C7A_5C7B_5C7E_5DDF_5E75_5E84),
  (0xC9DD, 0x5F02_5F1A_5F74_5FD5_5FD4_5FCF_625C_625E_6264_6261_6266_6262),
  (0xC9E9, 0x6259_6260_625A_6265_65EF_65EE_673E_6739_6738_673B_673A_673F),
  (0xC9F5, 0x673C_6733_6C18_6C46_6C52_6C5C_6C4F_6C4A_6C54_6C4B),
  (0xCA40, 0x6C4C_7071_725E_72B4_72B5_738E_752A_767F_7A75_7F51_8278_827C),
  (0xCA4C, 0x8280_827D_827F_864D_897E_9099_9097_9098_909B_9094_9622_9624),
  (0xCA58, 0x9620_9623_4F56_4F3B_4F62_4F49_4F53_4F64_4F3E_4F67_4F52_4F5F),
  (0xCA64, 0x4F41_4F58_4F2D_4F33_4F3F_4F61_518F_51B9_521C_521E_5221_52AD),
  (0xCA70, 0x52AE_5309_5363_5372_538E_538F_5430_5437_542A_5454_5445_5419),
  (0xCA7C, 0x541C_5425_5418),
  (0xCAA1, 0x543D_544F_5441_5428_5424_5447_56EE_56E7_56E5_5741_5745_574C),
  (0xCAAD, 0x5749_574B_5752_5906_5940_59A6_5998_59A0_5997_598E_59A2_5990),
  (0xCAB9, 0x598F_59A7_59A1_5B8E_5B92_5C28_5C2A_5C8D_5C8F_5C88_5C8B_5C89),
  (0xCAC5, 0x5C92_5C8A_5C86_5C93_5C95_5DE0_5E0A_5E0E_5E8B_5E89_5E8C_5E88),
  (0xCAD1, 0x5E8D_5F05_5F1D_5F78_5F76_5FD2_5FD1_5FD0_5FED_5FE8_5FEE_5FF3),
  (0xCADD, 0x5FE1_5FE4_5FE3_5FFA_5FEF_5FF7_5FFB_6000_5FF4_623A_6283_628C),
  (0xCAE9, 0x628E_628F_6294_6287_6271_627B_627A_6270_6281_6288_6277_627D),
  (0xCAF5, 0x6272_6274_6537_65F0_65F4_65F3_65F2_65F5_6745_6747),
  (0xCB40, 0x6759_6755_674C_6748_675D_674D_675A_674B_6BD0_6C19_6C1A_6C78),
  (0xCB4C, 0x6C67_6C6B_6C84_6C8B_6C8F_6C71_6C6F_6C69_6C9A_6C6D_6C87_6C95),
  (0xCB58, 0x6C9C_6C66_6C73_6C65_6C7B_6C8E_7074_707A_7263_72BF_72BD_72C3),
  (0xCB64, 0x72C6_72C1_72BA_72C5_7395_7397_7393_7394_7392_753A_7539_7594),
  (0xCB70, 0x7595_7681_793D_8034_8095_8099_8090_8092_809C_8290_828F_8285),
  (0xCB7C, 0x828E_8291_8293),
  (0xCBA1, 0x828A_8283_8284_8C78_8FC9_8FBF_909F_90A1_90A5_909E_90A7_90A0),
  (0xCBAD, 0x9630_9628_962F_962D_4E33_4F98_4F7C_4F85_4F7D_4F80_4F87_4F76),
  (0xCBB9, 0x4F74_4F89_4F84_4F77_4F4C_4F97_4F6A_4F9A_4F79_4F81_4F78_4F90),
  (0xCBC5, 0x4F9C_4F94_4F9E_4F92_4F82_4F95_4F6B_4F6E_519E_51BC_51BE_5235),
  (0xCBD1, 0x5232_5233_5246_5231_52BC_530A_530B_533C_5392_5394_5487_547F),
  (0xCBDD, 0x5481_5491_5482_5488_546B_547A_547E_5465_546C_5474_5466_548D),
  (0xCBE9, 0x546F_5461_5460_5498_5463_5467_5464_56F7_56F9_576F_5772_576D),
  (0xCBF5, 0x576B_5771_5770_5776_5780_5775_577B_5773_5774_5762),
  (0xCC40, 0x5768_577D_590C_5945_59B5_59BA_59CF_59CE_59B2_59CC_59C1_59B6),
  (0xCC4C, 0x59BC_59C3_59D6_59B1_59BD_59C0_59C8_59B4_59C7_5B62_5B65_5B93),
  (0xCC58, 0x5B95_5C44_5C47_5CAE_5CA4_5CA0_5CB5_5CAF_5CA8_5CAC_5C9F_5CA3),
  (0xCC64, 0x5CAD_5CA2_5CAA_5CA7_5C9D_5CA5_5CB6_5CB0_5CA6_5E17_5E14_5E19),
  (0xCC70, 0x5F28_5F22_5F23_5F24_5F54_5F82_5F7E_5F7D_5FDE_5FE5_602D_6026),
  (0xCC7C, 0x6019_6032_600B),
  (0xCCA1, 0x6034_600A_6017_6033_601A_601E_602C_6022_600D_6010_602E_6013),
  (0xCCAD, 0x6011_600C_6009_601C_6214_623D_62AD_62B4_62D1_62BE_62AA_62B6),
  (0xCCB9, 0x62CA_62AE_62B3_62AF_62BB_62A9_62B0_62B8_653D_65A8_65BB_6609),
  (0xCCC5, 0x65FC_6604_6612_6608_65FB_6603_660B_660D_6605_65FD_6611_6610),
  (0xCCD1, 0x66F6_670A_6785_676C_678E_6792_6776_677B_6798_6786_6784_6774),
  (0xCCDD, 0x678D_678C_677A_679F_6791_6799_6783_677D_6781_6778_6779_6794),
  (0xCCE9, 0x6B25_6B80_6B7E_6BDE_6C1D_6C93_6CEC_6CEB_6CEE_6CD9_6CB6_6CD4),
  (0xCCF5, 0x6CAD_6CE7_6CB7_6CD0_6CC2_6CBA_6CC3_6CC6_6CED_6CF2),
  (0xCD40, 0x6CD2_6CDD_6CB4_6C8A_6C9D_6C80_6CDE_6CC0_6D30_6CCD_6CC7_6CB0),
  (0xCD4C, 0x6CF9_6CCF_6CE9_6CD1_7094_7098_7085_7093_7086_7084_7091_7096),
  (0xCD58, 0x7082_709A_7083_726A_72D6_72CB_72D8_72C9_72DC_72D2_72D4_72DA),
  (0xCD64, 0x72CC_72D1_73A4_73A1_73AD_73A6_73A2_73A0_73AC_739D_74DD_74E8),
  (0xCD70, 0x753F_7540_753E_758C_7598_76AF_76F3_76F1_76F0_76F5_77F8_77FC),
  (0xCD7C, 0x77F9_77FB_77FA),
  (0xCDA1, 0x77F7_7942_793F_79C5_7A78_7A7B_7AFB_7C75_7CFD_8035_808F_80AE),
  (0xCDAD, 0x80A3_80B8_80B5_80AD_8220_82A0_82C0_82AB_829A_8298_829B_82B5),
  (0xCDB9, 0x82A7_82AE_82BC_829E_82BA_82B4_82A8_82A1_82A9_82C2_82A4_82C3),
  (0xCDC5, 0x82B6_82A2_8670_866F_866D_866E_8C56_8FD2_8FCB_8FD3_8FCD_8FD6),
  (0xCDD1, 0x8FD5_8FD7_90B2_90B4_90AF_90B3_90B0_9639_963D_963C_963A_9643),
  (0xCDDD, 0x4FCD_4FC5_4FD3_4FB2_4FC9_4FCB_4FC1_4FD4_4FDC_4FD9_4FBB_4FB3),
  (0xCDE9, 0x4FDB_4FC7_4FD6_4FBA_4FC0_4FB9_4FEC_5244_5249_52C0_52C2_533D),
  (0xCDF5, 0x537C_5397_5396_5399_5398_54BA_54A1_54AD_54A5_54CF),
  (0xCE40, 0x54C3_830D_54B7_54AE_54D6_54B6_54C5_54C6_54A0_5470_54BC_54A2),
  (0xCE4C, 0x54BE_5472_54DE_54B0_57B5_579E_579F_57A4_578C_5797_579D_579B),
  (0xCE58, 0x5794_5798_578F_5799_57A5_579A_5795_58F4_590D_5953_59E1_59DE),
  (0xCE64, 0x59EE_5A00_59F1_59DD_59FA_59FD_59FC_59F6_59E4_59F2_59F7_59DB),
  (0xCE70, 0x59E9_59F3_59F5_59E0_59FE_59F4_59ED_5BA8_5C4C_5CD0_5CD8_5CCC),
  (0xCE7C, 0x5CD7_5CCB_5CDB),
  (0xCEA1, 0x5CDE_5CDA_5CC9_5CC7_5CCA_5CD6_5CD3_5CD4_5CCF_5CC8_5CC6_5CCE),
  (0xCEAD, 0x5CDF_5CF8_5DF9_5E21_5E22_5E23_5E20_5E24_5EB0_5EA4_5EA2_5E9B),
  (0xCEB9, 0x5EA3_5EA5_5F07_5F2E_5F56_5F86_6037_6039_6054_6072_605E_6045),
  (0xCEC5, 0x6053_6047_6049_605B_604C_6040_6042_605F_6024_6044_6058_6066),
  (0xCED1, 0x606E_6242_6243_62CF_630D_630B_62F5_630E_6303_62EB_62F9_630F),
  (0xCEDD, 0x630C_62F8_62F6_6300_6313_6314_62FA_6315_62FB_62F0_6541_6543),
  (0xCEE9, 0x65AA_65BF_6636_6621_6632_6635_661C_6626_6622_6633_662B_663A),
  (0xCEF5, 0x661D_6634_6639_662E_670F_6710_67C1_67F2_67C8_67BA),
  (0xCF40, 0x67DC_67BB_67F8_67D8_67C0_67B7_67C5_67EB_67E4_67DF_67B5_67CD),
  (0xCF4C, 0x67B3_67F7_67F6_67EE_67E3_67C2_67B9_67CE_67E7_67F0_67B2_67FC),
  (0xCF58, 0x67C6_67ED_67CC_67AE_67E6_67DB_67FA_67C9_67CA_67C3_67EA_67CB),
  (0xCF64, 0x6B28_6B82_6B84_6BB6_6BD6_6BD8_6BE0_6C20_6C21_6D28_6D34_6D2D),
  (0xCF70, 0x6D1F_6D3C_6D3F_6D12_6D0A_6CDA_6D33_6D04_6D19_6D3A_6D1A_6D11),
  (0xCF7C, 0x6D00_6D1D_6D42),
  (0xCFA1, 0x6D01_6D18_6D37_6D03_6D0F_6D40_6D07_6D20_6D2C_6D08_6D22_6D09),
  (0xCFAD, 0x6D10_70B7_709F_70BE_70B1_70B0_70A1_70B4_70B5_70A9_7241_7249),
  (0xCFB9, 0x724A_726C_7270_7273_726E_72CA_72E4_72E8_72EB_72DF_72EA_72E6),
  (0xCFC5, 0x72E3_7385_73CC_73C2_73C8_73C5_73B9_73B6_73B5_73B4_73EB_73BF),
  (0xCFD1, 0x73C7_73BE_73C3_73C6_73B8_73CB_74EC_74EE_752E_7547_7548_75A7),
  (0xCFDD, 0x75AA_7679_76C4_7708_7703_7704_7705_770A_76F7_76FB_76FA_77E7),
  (0xCFE9, 0x77E8_7806_7811_7812_7805_7810_780F_780E_7809_7803_7813_794A),
  (0xCFF5, 0x794C_794B_7945_7944_79D5_79CD_79CF_79D6_79CE_7A80),
  (0xD040, 0x7A7E_7AD1_7B00_7B01_7C7A_7C78_7C79_7C7F_7C80_7C81_7D03_7D08),
  (0xD04C, 0x7D01_7F58_7F91_7F8D_7FBE_8007_800E_800F_8014_8037_80D8_80C7),
  (0xD058, 0x80E0_80D1_80C8_80C2_80D0_80C5_80E3_80D9_80DC_80CA_80D5_80C9),
  (0xD064, 0x80CF_80D7_80E6_80CD_81FF_8221_8294_82D9_82FE_82F9_8307_82E8),
  (0xD070, 0x8300_82D5_833A_82EB_82D6_82F4_82EC_82E1_82F2_82F5_830C_82FB),
  (0xD07C, 0x82F6_82F0_82EA),
  (0xD0A1, 0x82E4_82E0_82FA_82F3_82ED_8677_8674_867C_8673_8841_884E_8867),
  (0xD0AD, 0x886A_8869_89D3_8A04_8A07_8D72_8FE3_8FE1_8FEE_8FE0_90F1_90BD),
  (0xD0B9, 0x90BF_90D5_90C5_90BE_90C7_90CB_90C8_91D4_91D3_9654_964F_9651),
  (0xD0C5, 0x9653_964A_964E_501E_5005_5007_5013_5022_5030_501B_4FF5_4FF4),
  (0xD0D1, 0x5033_5037_502C_4FF6_4FF7_5017_501C_5020_5027_5035_502F_5031),
  (0xD0DD, 0x500E_515A_5194_5193_51CA_51C4_51C5_51C8_51CE_5261_525A_5252),
  (0xD0E9, 0x525E_525F_5255_5262_52CD_530E_539E_5526_54E2_5517_5512_54E7),
  (0xD0F5, 0x54F3_54E4_551A_54FF_5504_5508_54EB_5511_5505_54F1),
  (0xD140, 0x550A_54FB_54F7_54F8_54E0_550E_5503_550B_5701_5702_57CC_5832),
  (0xD14C, 0x57D5_57D2_57BA_57C6_57BD_57BC_57B8_57B6_57BF_57C7_57D0_57B9),
  (0xD158, 0x57C1_590E_594A_5A19_5A16_5A2D_5A2E_5A15_5A0F_5A17_5A0A_5A1E),
  (0xD164, 0x5A33_5B6C_5BA7_5BAD_5BAC_5C03_5C56_5C54_5CEC_5CFF_5CEE_5CF1),
  (0xD170, 0x5CF7_5D00_5CF9_5E29_5E28_5EA8_5EAE_5EAA_5EAC_5F33_5F30_5F67),
  (0xD17C, 0x605D_605A_6067),
  (0xD1A1, 0x6041_60A2_6088_6080_6092_6081_609D_6083_6095_609B_6097_6087),
  (0xD1AD, 0x609C_608E_6219_6246_62F2_6310_6356_632C_6344_6345_6336_6343),
  (0xD1B9, 0x63E4_6339_634B_634A_633C_6329_6341_6334_6358_6354_6359_632D),
  (0xD1C5, 0x6347_6333_635A_6351_6338_6357_6340_6348_654A_6546_65C6_65C3),
  (0xD1D1, 0x65C4_65C2_664A_665F_6647_6651_6712_6713_681F_681A_6849_6832),
  (0xD1DD, 0x6833_683B_684B_684F_6816_6831_681C_6835_682B_682D_682F_684E),
  (0xD1E9, 0x6844_6834_681D_6812_6814_6826_6828_682E_684D_683A_6825_6820),
  (0xD1F5, 0x6B2C_6B2F_6B2D_6B31_6B34_6B6D_8082_6B88_6BE6_6BE4),
  (0xD240, 0x6BE8_6BE3_6BE2_6BE7_6C25_6D7A_6D63_6D64_6D76_6D0D_6D61_6D92),
  (0xD24C, 0x6D58_6D62_6D6D_6D6F_6D91_6D8D_6DEF_6D7F_6D86_6D5E_6D67_6D60),
  (0xD258, 0x6D97_6D70_6D7C_6D5F_6D82_6D98_6D2F_6D68_6D8B_6D7E_6D80_6D84),
  (0xD264, 0x6D16_6D83_6D7B_6D7D_6D75_6D90_70DC_70D3_70D1_70DD_70CB_7F39),
  (0xD270, 0x70E2_70D7_70D2_70DE_70E0_70D4_70CD_70C5_70C6_70C7_70DA_70CE),
  (0xD27C, 0x70E1_7242_7278),
  (0xD2A1, 0x7277_7276_7300_72FA_72F4_72FE_72F6_72F3_72FB_7301_73D3_73D9),
  (0xD2AD, 0x73E5_73D6_73BC_73E7_73E3_73E9_73DC_73D2_73DB_73D4_73DD_73DA),
  (0xD2B9, 0x73D7_73D8_73E8_74DE_74DF_74F4_74F5_7521_755B_755F_75B0_75C1),
  (0xD2C5, 0x75BB_75C4_75C0_75BF_75B6_75BA_768A_76C9_771D_771B_7710_7713),
  (0xD2D1, 0x7712_7723_7711_7715_7719_771A_7722_7727_7823_782C_7822_7835),
  (0xD2DD, 0x782F_7828_782E_782B_7821_7829_7833_782A_7831_7954_795B_794F),
  (0xD2E9, 0x795C_7953_7952_7951_79EB_79EC_79E0_79EE_79ED_79EA_79DC_79DE),
  (0xD2F5, 0x79DD_7A86_7A89_7A85_7A8B_7A8C_7A8A_7A87_7AD8_7B10),
  (0xD340, 0x7B04_7B13_7B05_7B0F_7B08_7B0A_7B0E_7B09_7B12_7C84_7C91_7C8A),
  (0xD34C, 0x7C8C_7C88_7C8D_7C85_7D1E_7D1D_7D11_7D0E_7D18_7D16_7D13_7D1F),
  (0xD358, 0x7D12_7D0F_7D0C_7F5C_7F61_7F5E_7F60_7F5D_7F5B_7F96_7F92_7FC3),
  (0xD364, 0x7FC2_7FC0_8016_803E_8039_80FA_80F2_80F9_80F5_8101_80FB_8100),
  (0xD370, 0x8201_822F_8225_8333_832D_8344_8319_8351_8325_8356_833F_8341),
  (0xD37C, 0x8326_831C_8322),
  (0xD3A1, 0x8342_834E_831B_832A_8308_833C_834D_8316_8324_8320_8337_832F),
  (0xD3AD, 0x8329_8347_8345_834C_8353_831E_832C_834B_8327_8348_8653_8652),
  (0xD3B9, 0x86A2_86A8_8696_868D_8691_869E_8687_8697_8686_868B_869A_8685),
  (0xD3C5, 0x86A5_8699_86A1_86A7_8695_8698_868E_869D_8690_8694_8843_8844),
  (0xD3D1, 0x886D_8875_8876_8872_8880_8871_887F_886F_8883_887E_8874_887C),
  (0xD3DD, 0x8A12_8C47_8C57_8C7B_8CA4_8CA3_8D76_8D78_8DB5_8DB7_8DB6_8ED1),
  (0xD3E9, 0x8ED3_8FFE_8FF5_9002_8FFF_8FFB_9004_8FFC_8FF6_90D6_90E0_90D9),
  (0xD3F5, 0x90DA_90E3_90DF_90E5_90D8_90DB_90D7_90DC_90E4_9150),
  (0xD440, 0x914E_914F_91D5_91E2_91DA_965C_965F_96BC_98E3_9ADF_9B2F_4E7F),
  (0xD44C, 0x5070_506A_5061_505E_5060_5053_504B_505D_5072_5048_504D_5041),
  (0xD458, 0x505B_504A_5062_5015_5045_505F_5069_506B_5063_5064_5046_5040),
  (0xD464, 0x506E_5073_5057_5051_51D0_526B_526D_526C_526E_52D6_52D3_532D),
  (0xD470, 0x539C_5575_5576_553C_554D_5550_5534_552A_5551_5562_5536_5535),
  (0xD47C, 0x5530_5552_5545),
  (0xD4A1, 0x550C_5532_5565_554E_5539_5548_552D_553B_5540_554B_570A_5707),
  (0xD4AD, 0x57FB_5814_57E2_57F6_57DC_57F4_5800_57ED_57FD_5808_57F8_580B),
  (0xD4B9, 0x57F3_57CF_5807_57EE_57E3_57F2_57E5_57EC_57E1_580E_57FC_5810),
  (0xD4C5, 0x57E7_5801_580C_57F1_57E9_57F0_580D_5804_595C_5A60_5A58_5A55),
  (0xD4D1, 0x5A67_5A5E_5A38_5A35_5A6D_5A50_5A5F_5A65_5A6C_5A53_5A64_5A57),
  (0xD4DD, 0x5A43_5A5D_5A52_5A44_5A5B_5A48_5A8E_5A3E_5A4D_5A39_5A4C_5A70),
  (0xD4E9, 0x5A69_5A47_5A51_5A56_5A42_5A5C_5B72_5B6E_5BC1_5BC0_5C59_5D1E),
  (0xD4F5, 0x5D0B_5D1D_5D1A_5D20_5D0C_5D28_5D0D_5D26_5D25_5D0F),
  (0xD540, 0x5D30_5D12_5D23_5D1F_5D2E_5E3E_5E34_5EB1_5EB4_5EB9_5EB2_5EB3),
  (0xD54C, 0x5F36_5F38_5F9B_5F96_5F9F_608A_6090_6086_60BE_60B0_60BA_60D3),
  (0xD558, 0x60D4_60CF_60E4_60D9_60DD_60C8_60B1_60DB_60B7_60CA_60BF_60C3),
  (0xD564, 0x60CD_60C0_6332_6365_638A_6382_637D_63BD_639E_63AD_639D_6397),
  (0xD570, 0x63AB_638E_636F_6387_6390_636E_63AF_6375_639C_636D_63AE_637C),
  (0xD57C, 0x63A4_633B_639F),
  (0xD5A1, 0x6378_6385_6381_6391_638D_6370_6553_65CD_6665_6661_665B_6659),
  (0xD5AD, 0x665C_6662_6718_6879_6887_6890_689C_686D_686E_68AE_68AB_6956),
  (0xD5B9, 0x686F_68A3_68AC_68A9_6875_6874_68B2_688F_6877_6892_687C_686B),
  (0xD5C5, 0x6872_68AA_6880_6871_687E_689B_6896_688B_68A0_6889_68A4_6878),
  (0xD5D1, 0x687B_6891_688C_688A_687D_6B36_6B33_6B37_6B38_6B91_6B8F_6B8D),
  (0xD5DD, 0x6B8E_6B8C_6C2A_6DC0_6DAB_6DB4_6DB3_6E74_6DAC_6DE9_6DE2_6DB7),
  (0xD5E9, 0x6DF6_6DD4_6E00_6DC8_6DE0_6DDF_6DD6_6DBE_6DE5_6DDC_6DDD_6DDB),
  (0xD5F5, 0x6DF4_6DCA_6DBD_6DED_6DF0_6DBA_6DD5_6DC2_6DCF_6DC9),
  (0xD640, 0x6DD0_6DF2_6DD3_6DFD_6DD7_6DCD_6DE3_6DBB_70FA_710D_70F7_7117),
  (0xD64C, 0x70F4_710C_70F0_7104_70F3_7110_70FC_70FF_7106_7113_7100_70F8),
  (0xD658, 0x70F6_710B_7102_710E_727E_727B_727C_727F_731D_7317_7307_7311),
  (0xD664, 0x7318_730A_7308_72FF_730F_731E_7388_73F6_73F8_73F5_7404_7401),
  (0xD670, 0x73FD_7407_7400_73FA_73FC_73FF_740C_740B_73F4_7408_7564_7563),
  (0xD67C, 0x75CE_75D2_75CF),
  (0xD6A1, 0x75CB_75CC_75D1_75D0_768F_7689_76D3_7739_772F_772D_7731_7732),
  (0xD6AD, 0x7734_7733_773D_7725_773B_7735_7848_7852_7849_784D_784A_784C),
  (0xD6B9, 0x7826_7845_7850_7964_7967_7969_796A_7963_796B_7961_79BB_79FA),
  (0xD6C5, 0x79F8_79F6_79F7_7A8F_7A94_7A90_7B35_7B47_7B34_7B25_7B30_7B22),
  (0xD6D1, 0x7B24_7B33_7B18_7B2A_7B1D_7B31_7B2B_7B2D_7B2F_7B32_7B38_7B1A),
  (0xD6DD, 0x7B23_7C94_7C98_7C96_7CA3_7D35_7D3D_7D38_7D36_7D3A_7D45_7D2C),
  (0xD6E9, 0x7D29_7D41_7D47_7D3E_7D3F_7D4A_7D3B_7D28_7F63_7F95_7F9C_7F9D),
  (0xD6F5, 0x7F9B_7FCA_7FCB_7FCD_7FD0_7FD1_7FC7_7FCF_7FC9_801F),
  (0xD740, 0x801E_801B_8047_8043_8048_8118_8125_8119_811B_812D_811F_812C),
  (0xD74C, 0x811E_8121_8115_8127_811D_8122_8211_8238_8233_823A_8234_8232),
  (0xD758, 0x8274_8390_83A3_83A8_838D_837A_8373_83A4_8374_838F_8381_8395),
  (0xD764, 0x8399_8375_8394_83A9_837D_8383_838C_839D_839B_83AA_838B_837E),
  (0xD770, 0x83A5_83AF_8388_8397_83B0_837F_83A6_8387_83AE_8376_839A_8659),
  (0xD77C, 0x8656_86BF_86B7),
  (0xD7A1, 0x86C2_86C1_86C5_86BA_86B0_86C8_86B9_86B3_86B8_86CC_86B4_86BB),
  (0xD7AD, 0x86BC_86C3_86BD_86BE_8852_8889_8895_88A8_88A2_88AA_889A_8891),
  (0xD7B9, 0x88A1_889F_8898_88A7_8899_889B_8897_88A4_88AC_888C_8893_888E),
  (0xD7C5, 0x8982_89D6_89D9_89D5_8A30_8A27_8A2C_8A1E_8C39_8C3B_8C5C_8C5D),
  (0xD7D1, 0x8C7D_8CA5_8D7D_8D7B_8D79_8DBC_8DC2_8DB9_8DBF_8DC1_8ED8_8EDE),
  (0xD7DD, 0x8EDD_8EDC_8ED7_8EE0_8EE1_9024_900B_9011_901C_900C_9021_90EF),
  (0xD7E9, 0x90EA_90F0_90F4_90F2_90F3_90D4_90EB_90EC_90E9_9156_9158_915A),
  (0xD7F5, 0x9153_9155_91EC_91F4_91F1_91F3_91F8_91E4_91F9_91EA),
  (0xD840, 0x91EB_91F7_91E8_91EE_957A_9586_9588_967C_966D_966B_9671_966F),
  (0xD84C, 0x96BF_976A_9804_98E5_9997_509B_5095_5094_509E_508B_50A3_5083),
  (0xD858, 0x508C_508E_509D_5068_509C_5092_5082_5087_515F_51D4_5312_5311),
  (0xD864, 0x53A4_53A7_5591_55A8_55A5_55AD_5577_5645_55A2_5593_5588_558F),
  (0xD870, 0x55B5_5581_55A3_5592_55A4_557D_558C_55A6_557F_5595_55A1_558E),
  (0xD87C, 0x570C_5829_5837),
  (0xD8A1, 0x5819_581E_5827_5823_5828_57F5_5848_5825_581C_581B_5833_583F),
  (0xD8AD, 0x5836_582E_5839_5838_582D_582C_583B_5961_5AAF_5A94_5A9F_5A7A),
  (0xD8B9, 0x5AA2_5A9E_5A78_5AA6_5A7C_5AA5_5AAC_5A95_5AAE_5A37_5A84_5A8A),
  (0xD8C5, 0x5A97_5A83_5A8B_5AA9_5A7B_5A7D_5A8C_5A9C_5A8F_5A93_5A9D_5BEA),
  (0xD8D1, 0x5BCD_5BCB_5BD4_5BD1_5BCA_5BCE_5C0C_5C30_5D37_5D43_5D6B_5D41),
  (0xD8DD, 0x5D4B_5D3F_5D35_5D51_5D4E_5D55_5D33_5D3A_5D52_5D3D_5D31_5D59),
  (0xD8E9, 0x5D42_5D39_5D49_5D38_5D3C_5D32_5D36_5D40_5D45_5E44_5E41_5F58),
  (0xD8F5, 0x5FA6_5FA5_5FAB_60C9_60B9_60CC_60E2_60CE_60C4_6114),
  (0xD940, 0x60F2_610A_6116_6105_60F5_6113_60F8_60FC_60FE_60C1_6103_6118),
  (0xD94C, 0x611D_6110_60FF_6104_610B_624A_6394_63B1_63B0_63CE_63E5_63E8),
  (0xD958, 0x63EF_63C3_649D_63F3_63CA_63E0_63F6_63D5_63F2_63F5_6461_63DF),
  (0xD964, 0x63BE_63DD_63DC_63C4_63D8_63D3_63C2_63C7_63CC_63CB_63C8_63F0),
  (0xD970, 0x63D7_63D9_6532_6567_656A_6564_655C_6568_6565_658C_659D_659E),
  (0xD97C, 0x65AE_65D0_65D2),
  (0xD9A1, 0x667C_666C_667B_6680_6671_6679_666A_6672_6701_690C_68D3_6904),
  (0xD9AD, 0x68DC_692A_68EC_68EA_68F1_690F_68D6_68F7_68EB_68E4_68F6_6913),
  (0xD9B9, 0x6910_68F3_68E1_6907_68CC_6908_6970_68B4_6911_68EF_68C6_6914),
  (0xD9C5, 0x68F8_68D0_68FD_68FC_68E8_690B_690A_6917_68CE_68C8_68DD_68DE),
  (0xD9D1, 0x68E6_68F4_68D1_6906_68D4_68E9_6915_6925_68C7_6B39_6B3B_6B3F),
  (0xD9DD, 0x6B3C_6B94_6B97_6B99_6B95_6BBD_6BF0_6BF2_6BF3_6C30_6DFC_6E46),
  (0xD9E9, 0x6E47_6E1F_6E49_6E88_6E3C_6E3D_6E45_6E62_6E2B_6E3F_6E41_6E5D),
  (0xD9F5, 0x6E73_6E1C_6E33_6E4B_6E40_6E51_6E3B_6E03_6E2E_6E5E),
  (0xDA40, 0x6E68_6E5C_6E61_6E31_6E28_6E60_6E71_6E6B_6E39_6E22_6E30_6E53),
  (0xDA4C, 0x6E65_6E27_6E78_6E64_6E77_6E55_6E79_6E52_6E66_6E35_6E36_6E5A),
  (0xDA58, 0x7120_711E_712F_70FB_712E_7131_7123_7125_7122_7132_711F_7128),
  (0xDA64, 0x713A_711B_724B_725A_7288_7289_7286_7285_728B_7312_730B_7330),
  (0xDA70, 0x7322_7331_7333_7327_7332_732D_7326_7323_7335_730C_742E_742C),
  (0xDA7C, 0x7430_742B_7416),
  (0xDAA1, 0x741A_7421_742D_7431_7424_7423_741D_7429_7420_7432_74FB_752F),
  (0xDAAD, 0x756F_756C_75E7_75DA_75E1_75E6_75DD_75DF_75E4_75D7_7695_7692),
  (0xDAB9, 0x76DA_7746_7747_7744_774D_7745_774A_774E_774B_774C_77DE_77EC),
  (0xDAC5, 0x7860_7864_7865_785C_786D_7871_786A_786E_7870_7869_7868_785E),
  (0xDAD1, 0x7862_7974_7973_7972_7970_7A02_7A0A_7A03_7A0C_7A04_7A99_7AE6),
  (0xDADD, 0x7AE4_7B4A_7B3B_7B44_7B48_7B4C_7B4E_7B40_7B58_7B45_7CA2_7C9E),
  (0xDAE9, 0x7CA8_7CA1_7D58_7D6F_7D63_7D53_7D56_7D67_7D6A_7D4F_7D6D_7D5C),
  (0xDAF5, 0x7D6B_7D52_7D54_7D69_7D51_7D5F_7D4E_7F3E_7F3F_7F65),
  (0xDB40, 0x7F66_7FA2_7FA0_7FA1_7FD7_8051_804F_8050_80FE_80D4_8143_814A),
  (0xDB4C, 0x8152_814F_8147_813D_814D_813A_81E6_81EE_81F7_81F8_81F9_8204),
  (0xDB58, 0x823C_823D_823F_8275_833B_83CF_83F9_8423_83C0_83E8_8412_83E7),
  (0xDB64, 0x83E4_83FC_83F6_8410_83C6_83C8_83EB_83E3_83BF_8401_83DD_83E5),
  (0xDB70, 0x83D8_83FF_83E1_83CB_83CE_83D6_83F5_83C9_8409_840F_83DE_8411),
  (0xDB7C, 0x8406_83C2_83F3),
  (0xDBA1, 0x83D5_83FA_83C7_83D1_83EA_8413_83C3_83EC_83EE_83C4_83FB_83D7),
  (0xDBAD, 0x83E2_841B_83DB_83FE_86D8_86E2_86E6_86D3_86E3_86DA_86EA_86DD),
  (0xDBB9, 0x86EB_86DC_86EC_86E9_86D7_86E8_86D1_8848_8856_8855_88BA_88D7),
  (0xDBC5, 0x88B9_88B8_88C0_88BE_88B6_88BC_88B7_88BD_88B2_8901_88C9_8995),
  (0xDBD1, 0x8998_8997_89DD_89DA_89DB_8A4E_8A4D_8A39_8A59_8A40_8A57_8A58),
  (0xDBDD, 0x8A44_8A45_8A52_8A48_8A51_8A4A_8A4C_8A4F_8C5F_8C81_8C80_8CBA),
  (0xDBE9, 0x8CBE_8CB0_8CB9_8CB5_8D84_8D80_8D89_8DD8_8DD3_8DCD_8DC7_8DD6),
  (0xDBF5, 0x8DDC_8DCF_8DD5_8DD9_8DC8_8DD7_8DC5_8EEF_8EF7_8EFA),
  (0xDC40, 0x8EF9_8EE6_8EEE_8EE5_8EF5_8EE7_8EE8_8EF6_8EEB_8EF1_8EEC_8EF4),
  (0xDC4C, 0x8EE9_902D_9034_902F_9106_912C_9104_90FF_90FC_9108_90F9_90FB),
  (0xDC58, 0x9101_9100_9107_9105_9103_9161_9164_915F_9162_9160_9201_920A),
  (0xDC64, 0x9225_9203_921A_9226_920F_920C_9200_9212_91FF_91FD_9206_9204),
  (0xDC70, 0x9227_9202_921C_9224_9219_9217_9205_9216_957B_958D_958C_9590),
  (0xDC7C, 0x9687_967E_9688),
  (0xDCA1, 0x9689_9683_9680_96C2_96C8_96C3_96F1_96F0_976C_9770_976E_9807),
  (0xDCAD, 0x98A9_98EB_9CE6_9EF9_4E83_4E84_4EB6_50BD_50BF_50C6_50AE_50C4),
  (0xDCB9, 0x50CA_50B4_50C8_50C2_50B0_50C1_50BA_50B1_50CB_50C9_50B6_50B8),
  (0xDCC5, 0x51D7_527A_5278_527B_527C_55C3_55DB_55CC_55D0_55CB_55CA_55DD),
  (0xDCD1, 0x55C0_55D4_55C4_55E9_55BF_55D2_558D_55CF_55D5_55E2_55D6_55C8),
  (0xDCDD, 0x55F2_55CD_55D9_55C2_5714_5853_5868_5864_584F_584D_5849_586F),
  (0xDCE9, 0x5855_584E_585D_5859_5865_585B_583D_5863_5871_58FC_5AC7_5AC4),
  (0xDCF5, 0x5ACB_5ABA_5AB8_5AB1_5AB5_5AB0_5ABF_5AC8_5ABB_5AC6),
  (0xDD40, 0x5AB7_5AC0_5ACA_5AB4_5AB6_5ACD_5AB9_5A90_5BD6_5BD8_5BD9_5C1F),
  (0xDD4C, 0x5C33_5D71_5D63_5D4A_5D65_5D72_5D6C_5D5E_5D68_5D67_5D62_5DF0),
  (0xDD58, 0x5E4F_5E4E_5E4A_5E4D_5E4B_5EC5_5ECC_5EC6_5ECB_5EC7_5F40_5FAF),
  (0xDD64, 0x5FAD_60F7_6149_614A_612B_6145_6136_6132_612E_6146_612F_614F),
  (0xDD70, 0x6129_6140_6220_9168_6223_6225_6224_63C5_63F1_63EB_6410_6412),
  (0xDD7C, 0x6409_6420_6424),
  (0xDDA1, 0x6433_6443_641F_6415_6418_6439_6437_6422_6423_640C_6426_6430),
  (0xDDAD, 0x6428_6441_6435_642F_640A_641A_6440_6425_6427_640B_63E7_641B),
  (0xDDB9, 0x642E_6421_640E_656F_6592_65D3_6686_668C_6695_6690_668B_668A),
  (0xDDC5, 0x6699_6694_6678_6720_6966_695F_6938_694E_6962_6971_693F_6945),
  (0xDDD1, 0x696A_6939_6942_6957_6959_697A_6948_6949_6935_696C_6933_693D),
  (0xDDDD, 0x6965_68F0_6978_6934_6969_6940_696F_6944_6976_6958_6941_6974),
  (0xDDE9, 0x694C_693B_694B_6937_695C_694F_6951_6932_6952_692F_697B_693C),
  (0xDDF5, 0x6B46_6B45_6B43_6B42_6B48_6B41_6B9B_FA0D_6BFB_6BFC),
  (0xDE40, 0x6BF9_6BF7_6BF8_6E9B_6ED6_6EC8_6E8F_6EC0_6E9F_6E93_6E94_6EA0),
  (0xDE4C, 0x6EB1_6EB9_6EC6_6ED2_6EBD_6EC1_6E9E_6EC9_6EB7_6EB0_6ECD_6EA6),
  (0xDE58, 0x6ECF_6EB2_6EBE_6EC3_6EDC_6ED8_6E99_6E92_6E8E_6E8D_6EA4_6EA1),
  (0xDE64, 0x6EBF_6EB3_6ED0_6ECA_6E97_6EAE_6EA3_7147_7154_7152_7163_7160),
  (0xDE70, 0x7141_715D_7162_7172_7178_716A_7161_7142_7158_7143_714B_7170),
  (0xDE7C, 0x715F_7150_7153),
  (0xDEA1, 0x7144_714D_715A_724F_728D_728C_7291_7290_728E_733C_7342_733B),
  (0xDEAD, 0x733A_7340_734A_7349_7444_744A_744B_7452_7451_7457_7440_744F),
  (0xDEB9, 0x7450_744E_7442_7446_744D_7454_74E1_74FF_74FE_74FD_751D_7579),
  (0xDEC5, 0x7577_6983_75EF_760F_7603_75F7_75FE_75FC_75F9_75F8_7610_75FB),
  (0xDED1, 0x75F6_75ED_75F5_75FD_7699_76B5_76DD_7755_775F_7760_7752_7756),
  (0xDEDD, 0x775A_7769_7767_7754_7759_776D_77E0_7887_789A_7894_788F_7884),
  (0xDEE9, 0x7895_7885_7886_78A1_7883_7879_7899_7880_7896_787B_797C_7982),
  (0xDEF5, 0x797D_7979_7A11_7A18_7A19_7A12_7A17_7A15_7A22_7A13),
  (0xDF40, 0x7A1B_7A10_7AA3_7AA2_7A9E_7AEB_7B66_7B64_7B6D_7B74_7B69_7B72),
  (0xDF4C, 0x7B65_7B73_7B71_7B70_7B61_7B78_7B76_7B63_7CB2_7CB4_7CAF_7D88),
  (0xDF58, 0x7D86_7D80_7D8D_7D7F_7D85_7D7A_7D8E_7D7B_7D83_7D7C_7D8C_7D94),
  (0xDF64, 0x7D84_7D7D_7D92_7F6D_7F6B_7F67_7F68_7F6C_7FA6_7FA5_7FA7_7FDB),
  (0xDF70, 0x7FDC_8021_8164_8160_8177_815C_8169_815B_8162_8172_6721_815E),
  (0xDF7C, 0x8176_8167_816F),
  (0xDFA1, 0x8144_8161_821D_8249_8244_8240_8242_8245_84F1_843F_8456_8476),
  (0xDFAD, 0x8479_848F_848D_8465_8451_8440_8486_8467_8430_844D_847D_845A),
  (0xDFB9, 0x8459_8474_8473_845D_8507_845E_8437_843A_8434_847A_8443_8478),
  (0xDFC5, 0x8432_8445_8429_83D9_844B_842F_8442_842D_845F_8470_8439_844E),
  (0xDFD1, 0x844C_8452_846F_84C5_848E_843B_8447_8436_8433_8468_847E_8444),
  (0xDFDD, 0x842B_8460_8454_846E_8450_870B_8704_86F7_870C_86FA_86D6_86F5),
  (0xDFE9, 0x874D_86F8_870E_8709_8701_86F6_870D_8705_88D6_88CB_88CD_88CE),
  (0xDFF5, 0x88DE_88DB_88DA_88CC_88D0_8985_899B_89DF_89E5_89E4),
  (0xE040, 0x89E1_89E0_89E2_89DC_89E6_8A76_8A86_8A7F_8A61_8A3F_8A77_8A82),
  (0xE04C, 0x8A84_8A75_8A83_8A81_8A74_8A7A_8C3C_8C4B_8C4A_8C65_8C64_8C66),
  (0xE058, 0x8C86_8C84_8C85_8CCC_8D68_8D69_8D91_8D8C_8D8E_8D8F_8D8D_8D93),
  (0xE064, 0x8D94_8D90_8D92_8DF0_8DE0_8DEC_8DF1_8DEE_8DD0_8DE9_8DE3_8DE2),
  (0xE070, 0x8DE7_8DF2_8DEB_8DF4_8F06_8EFF_8F01_8F00_8F05_8F07_8F08_8F02),
  (0xE07C, 0x8F0B_9052_903F),
  (0xE0A1, 0x9044_9049_903D_9110_910D_910F_9111_9116_9114_910B_910E_916E),
  (0xE0AD, 0x916F_9248_9252_9230_923A_9266_9233_9265_925E_9283_922E_924A),
  (0xE0B9, 0x9246_926D_926C_924F_9260_9267_926F_9236_9261_9270_9231_9254),
  (0xE0C5, 0x9263_9250_9272_924E_9253_924C_9256_9232_959F_959C_959E_959B),
  (0xE0D1, 0x9692_9693_9691_9697_96CE_96FA_96FD_96F8_96F5_9773_9777_9778),
  (0xE0DD, 0x9772_980F_980D_980E_98AC_98F6_98F9_99AF_99B2_99B0_99B5_9AAD),
  (0xE0E9, 0x9AAB_9B5B_9CEA_9CED_9CE7_9E80_9EFD_50E6_50D4_50D7_50E8_50F3),
  (0xE0F5, 0x50DB_50EA_50DD_50E4_50D3_50EC_50F0_50EF_50E3_50E0),
  (0xE140, 0x51D8_5280_5281_52E9_52EB_5330_53AC_5627_5615_560C_5612_55FC),
  (0xE14C, 0x560F_561C_5601_5613_5602_55FA_561D_5604_55FF_55F9_5889_587C),
  (0xE158, 0x5890_5898_5886_5881_587F_5874_588B_587A_5887_5891_588E_5876),
  (0xE164, 0x5882_5888_587B_5894_588F_58FE_596B_5ADC_5AEE_5AE5_5AD5_5AEA),
  (0xE170, 0x5ADA_5AED_5AEB_5AF3_5AE2_5AE0_5ADB_5AEC_5ADE_5ADD_5AD9_5AE8),
  (0xE17C, 0x5ADF_5B77_5BE0),
  (0xE1A1, 0x5BE3_5C63_5D82_5D80_5D7D_5D86_5D7A_5D81_5D77_5D8A_5D89_5D88),
  (0xE1AD, 0x5D7E_5D7C_5D8D_5D79_5D7F_5E58_5E59_5E53_5ED8_5ED1_5ED7_5ECE),
  (0xE1B9, 0x5EDC_5ED5_5ED9_5ED2_5ED4_5F44_5F43_5F6F_5FB6_612C_6128_6141),
  (0xE1C5, 0x615E_6171_6173_6152_6153_6172_616C_6180_6174_6154_617A_615B),
  (0xE1D1, 0x6165_613B_616A_6161_6156_6229_6227_622B_642B_644D_645B_645D),
  (0xE1DD, 0x6474_6476_6472_6473_647D_6475_6466_64A6_644E_6482_645E_645C),
  (0xE1E9, 0x644B_6453_6460_6450_647F_643F_646C_646B_6459_6465_6477_6573),
  (0xE1F5, 0x65A0_66A1_66A0_669F_6705_6704_6722_69B1_69B6_69C9),
  (0xE240, 0x69A0_69CE_6996_69B0_69AC_69BC_6991_6999_698E_69A7_698D_69A9),
  (0xE24C, 0x69BE_69AF_69BF_69C4_69BD_69A4_69D4_69B9_69CA_699A_69CF_69B3),
  (0xE258, 0x6993_69AA_69A1_699E_69D9_6997_6990_69C2_69B5_69A5_69C6_6B4A),
  (0xE264, 0x6B4D_6B4B_6B9E_6B9F_6BA0_6BC3_6BC4_6BFE_6ECE_6EF5_6EF1_6F03),
  (0xE270, 0x6F25_6EF8_6F37_6EFB_6F2E_6F09_6F4E_6F19_6F1A_6F27_6F18_6F3B),
  (0xE27C, 0x6F12_6EED_6F0A),
  (0xE2A1, 0x6F36_6F73_6EF9_6EEE_6F2D_6F40_6F30_6F3C_6F35_6EEB_6F07_6F0E),
  (0xE2AD, 0x6F43_6F05_6EFD_6EF6_6F39_6F1C_6EFC_6F3A_6F1F_6F0D_6F1E_6F08),
  (0xE2B9, 0x6F21_7187_7190_7189_7180_7185_7182_718F_717B_7186_7181_7197),
  (0xE2C5, 0x7244_7253_7297_7295_7293_7343_734D_7351_734C_7462_7473_7471),
  (0xE2D1, 0x7475_7472_7467_746E_7500_7502_7503_757D_7590_7616_7608_760C),
  (0xE2DD, 0x7615_7611_760A_7614_76B8_7781_777C_7785_7782_776E_7780_776F),
  (0xE2E9, 0x777E_7783_78B2_78AA_78B4_78AD_78A8_787E_78AB_789E_78A5_78A0),
  (0xE2F5, 0x78AC_78A2_78A4_7998_798A_798B_7996_7995_7994_7993),
  (0xE340, 0x7997_7988_7992_7990_7A2B_7A4A_7A30_7A2F_7A28_7A26_7AA8_7AAB),
  (0xE34C, 0x7AAC_7AEE_7B88_7B9C_7B8A_7B91_7B90_7B96_7B8D_7B8C_7B9B_7B8E),
  (0xE358, 0x7B85_7B98_5284_7B99_7BA4_7B82_7CBB_7CBF_7CBC_7CBA_7DA7_7DB7),
  (0xE364, 0x7DC2_7DA3_7DAA_7DC1_7DC0_7DC5_7D9D_7DCE_7DC4_7DC6_7DCB_7DCC),
  (0xE370, 0x7DAF_7DB9_7D96_7DBC_7D9F_7DA6_7DAE_7DA9_7DA1_7DC9_7F73_7FE2),
  (0xE37C, 0x7FE3_7FE5_7FDE),
  (0xE3A1, 0x8024_805D_805C_8189_8186_8183_8187_818D_818C_818B_8215_8497),
  (0xE3AD, 0x84A4_84A1_849F_84BA_84CE_84C2_84AC_84AE_84AB_84B9_84B4_84C1),
  (0xE3B9, 0x84CD_84AA_849A_84B1_84D0_849D_84A7_84BB_84A2_8494_84C7_84CC),
  (0xE3C5, 0x849B_84A9_84AF_84A8_84D6_8498_84B6_84CF_84A0_84D7_84D4_84D2),
  (0xE3D1, 0x84DB_84B0_8491_8661_8733_8723_8728_876B_8740_872E_871E_8721),
  (0xE3DD, 0x8719_871B_8743_872C_8741_873E_8746_8720_8732_872A_872D_873C),
  (0xE3E9, 0x8712_873A_8731_8735_8742_8726_8727_8738_8724_871A_8730_8711),
  (0xE3F5, 0x88F7_88E7_88F1_88F2_88FA_88FE_88EE_88FC_88F6_88FB),
  (0xE440, 0x88F0_88EC_88EB_899D_89A1_899F_899E_89E9_89EB_89E8_8AAB_8A99),
  (0xE44C, 0x8A8B_8A92_8A8F_8A96_8C3D_8C68_8C69_8CD5_8CCF_8CD7_8D96_8E09),
  (0xE458, 0x8E02_8DFF_8E0D_8DFD_8E0A_8E03_8E07_8E06_8E05_8DFE_8E00_8E04),
  (0xE464, 0x8F10_8F11_8F0E_8F0D_9123_911C_9120_9122_911F_911D_911A_9124),
  (0xE470, 0x9121_911B_917A_9172_9179_9173_92A5_92A4_9276_929B_927A_92A0),
  (0xE47C, 0x9294_92AA_928D),
  (0xE4A1, 0x92A6_929A_92AB_9279_9297_927F_92A3_92EE_928E_9282_9295_92A2),
  (0xE4AD, 0x927D_9288_92A1_928A_9286_928C_9299_92A7_927E_9287_92A9_929D),
  (0xE4B9, 0x928B_922D_969E_96A1_96FF_9758_977D_977A_977E_9783_9780_9782),
  (0xE4C5, 0x977B_9784_9781_977F_97CE_97CD_9816_98AD_98AE_9902_9900_9907),
  (0xE4D1, 0x999D_999C_99C3_99B9_99BB_99BA_99C2_99BD_99C7_9AB1_9AE3_9AE7),
  (0xE4DD, 0x9B3E_9B3F_9B60_9B61_9B5F_9CF1_9CF2_9CF5_9EA7_50FF_5103_5130),
  (0xE4E9, 0x50F8_5106_5107_50F6_50FE_510B_510C_50FD_510A_528B_528C_52F1),
  (0xE4F5, 0x52EF_5648_5642_564C_5635_5641_564A_5649_5646_5658),
  (0xE540, 0x565A_5640_5633_563D_562C_563E_5638_562A_563A_571A_58AB_589D),
  (0xE54C, 0x58B1_58A0_58A3_58AF_58AC_58A5_58A1_58FF_5AFF_5AF4_5AFD_5AF7),
  (0xE558, 0x5AF6_5B03_5AF8_5B02_5AF9_5B01_5B07_5B05_5B0F_5C67_5D99_5D97),
  (0xE564, 0x5D9F_5D92_5DA2_5D93_5D95_5DA0_5D9C_5DA1_5D9A_5D9E_5E69_5E5D),
  (0xE570, 0x5E60_5E5C_7DF3_5EDB_5EDE_5EE1_5F49_5FB2_618B_6183_6179_61B1),
  (0xE57C, 0x61B0_61A2_6189),
  (0xE5A1, 0x619B_6193_61AF_61AD_619F_6192_61AA_61A1_618D_6166_61B3_622D),
  (0xE5AD, 0x646E_6470_6496_64A0_6485_6497_649C_648F_648B_648A_648C_64A3),
  (0xE5B9, 0x649F_6468_64B1_6498_6576_657A_6579_657B_65B2_65B3_66B5_66B0),
  (0xE5C5, 0x66A9_66B2_66B7_66AA_66AF_6A00_6A06_6A17_69E5_69F8_6A15_69F1),
  (0xE5D1, 0x69E4_6A20_69FF_69EC_69E2_6A1B_6A1D_69FE_6A27_69F2_69EE_6A14),
  (0xE5DD, 0x69F7_69E7_6A40_6A08_69E6_69FB_6A0D_69FC_69EB_6A09_6A04_6A18),
  (0xE5E9, 0x6A25_6A0F_69F6_6A26_6A07_69F4_6A16_6B51_6BA5_6BA3_6BA2_6BA6),
  (0xE5F5, 0x6C01_6C00_6BFF_6C02_6F41_6F26_6F7E_6F87_6FC6_6F92),
  (0xE640, 0x6F8D_6F89_6F8C_6F62_6F4F_6F85_6F5A_6F96_6F76_6F6C_6F82_6F55),
  (0xE64C, 0x6F72_6F52_6F50_6F57_6F94_6F93_6F5D_6F00_6F61_6F6B_6F7D_6F67),
  (0xE658, 0x6F90_6F53_6F8B_6F69_6F7F_6F95_6F63_6F77_6F6A_6F7B_71B2_71AF),
  (0xE664, 0x719B_71B0_71A0_719A_71A9_71B5_719D_71A5_719E_71A4_71A1_71AA),
  (0xE670, 0x719C_71A7_71B3_7298_729A_7358_7352_735E_735F_7360_735D_735B),
  (0xE67C, 0x7361_735A_7359),
  (0xE6A1, 0x7362_7487_7489_748A_7486_7481_747D_7485_7488_747C_7479_7508),
  (0xE6AD, 0x7507_757E_7625_761E_7619_761D_761C_7623_761A_7628_761B_769C),
  (0xE6B9, 0x769D_769E_769B_778D_778F_7789_7788_78CD_78BB_78CF_78CC_78D1),
  (0xE6C5, 0x78CE_78D4_78C8_78C3_78C4_78C9_799A_79A1_79A0_799C_79A2_799B),
  (0xE6D1, 0x6B76_7A39_7AB2_7AB4_7AB3_7BB7_7BCB_7BBE_7BAC_7BCE_7BAF_7BB9),
  (0xE6DD, 0x7BCA_7BB5_7CC5_7CC8_7CCC_7CCB_7DF7_7DDB_7DEA_7DE7_7DD7_7DE1),
  (0xE6E9, 0x7E03_7DFA_7DE6_7DF6_7DF1_7DF0_7DEE_7DDF_7F76_7FAC_7FB0_7FAD),
  (0xE6F5, 0x7FED_7FEB_7FEA_7FEC_7FE6_7FE8_8064_8067_81A3_819F),
  (0xE740, 0x819E_8195_81A2_8199_8197_8216_824F_8253_8252_8250_824E_8251),
  (0xE74C, 0x8524_853B_850F_8500_8529_850E_8509_850D_851F_850A_8527_851C),
  (0xE758, 0x84FB_852B_84FA_8508_850C_84F4_852A_84F2_8515_84F7_84EB_84F3),
  (0xE764, 0x84FC_8512_84EA_84E9_8516_84FE_8528_851D_852E_8502_84FD_851E),
  (0xE770, 0x84F6_8531_8526_84E7_84E8_84F0_84EF_84F9_8518_8520_8530_850B),
  (0xE77C, 0x8519_852F_8662),
  (0xE7A1, 0x8756_8763_8764_8777_87E1_8773_8758_8754_875B_8752_8761_875A),
  (0xE7AD, 0x8751_875E_876D_876A_8750_874E_875F_875D_876F_876C_877A_876E),
  (0xE7B9, 0x875C_8765_874F_877B_8775_8762_8767_8769_885A_8905_890C_8914),
  (0xE7C5, 0x890B_8917_8918_8919_8906_8916_8911_890E_8909_89A2_89A4_89A3),
  (0xE7D1, 0x89ED_89F0_89EC_8ACF_8AC6_8AB8_8AD3_8AD1_8AD4_8AD5_8ABB_8AD7),
  (0xE7DD, 0x8ABE_8AC0_8AC5_8AD8_8AC3_8ABA_8ABD_8AD9_8C3E_8C4D_8C8F_8CE5),
  (0xE7E9, 0x8CDF_8CD9_8CE8_8CDA_8CDD_8CE7_8DA0_8D9C_8DA1_8D9B_8E20_8E23),
  (0xE7F5, 0x8E25_8E24_8E2E_8E15_8E1B_8E16_8E11_8E19_8E26_8E27),
  (0xE840, 0x8E14_8E12_8E18_8E13_8E1C_8E17_8E1A_8F2C_8F24_8F18_8F1A_8F20),
  (0xE84C, 0x8F23_8F16_8F17_9073_9070_906F_9067_906B_912F_912B_9129_912A),
  (0xE858, 0x9132_9126_912E_9185_9186_918A_9181_9182_9184_9180_92D0_92C3),
  (0xE864, 0x92C4_92C0_92D9_92B6_92CF_92F1_92DF_92D8_92E9_92D7_92DD_92CC),
  (0xE870, 0x92EF_92C2_92E8_92CA_92C8_92CE_92E6_92CD_92D5_92C9_92E0_92DE),
  (0xE87C, 0x92E7_92D1_92D3),
  (0xE8A1, 0x92B5_92E1_92C6_92B4_957C_95AC_95AB_95AE_95B0_96A4_96A2_96D3),
  (0xE8AD, 0x9705_9708_9702_975A_978A_978E_9788_97D0_97CF_981E_981D_9826),
  (0xE8B9, 0x9829_9828_9820_981B_9827_98B2_9908_98FA_9911_9914_9916_9917),
  (0xE8C5, 0x9915_99DC_99CD_99CF_99D3_99D4_99CE_99C9_99D6_99D8_99CB_99D7),
  (0xE8D1, 0x99CC_9AB3_9AEC_9AEB_9AF3_9AF2_9AF1_9B46_9B43_9B67_9B74_9B71),
  (0xE8DD, 0x9B66_9B76_9B75_9B70_9B68_9B64_9B6C_9CFC_9CFA_9CFD_9CFF_9CF7),
  (0xE8E9, 0x9D07_9D00_9CF9_9CFB_9D08_9D05_9D04_9E83_9ED3_9F0F_9F10_511C),
  (0xE8F5, 0x5113_5117_511A_5111_51DE_5334_53E1_5670_5660_566E),
  (0xE940, 0x5673_5666_5663_566D_5672_565E_5677_571C_571B_58C8_58BD_58C9),
  (0xE94C, 0x58BF_58BA_58C2_58BC_58C6_5B17_5B19_5B1B_5B21_5B14_5B13_5B10),
  (0xE958, 0x5B16_5B28_5B1A_5B20_5B1E_5BEF_5DAC_5DB1_5DA9_5DA7_5DB5_5DB0),
  (0xE964, 0x5DAE_5DAA_5DA8_5DB2_5DAD_5DAF_5DB4_5E67_5E68_5E66_5E6F_5EE9),
  (0xE970, 0x5EE7_5EE6_5EE8_5EE5_5F4B_5FBC_619D_61A8_6196_61C5_61B4_61C6),
  (0xE97C, 0x61C1_61CC_61BA),
  (0xE9A1, 0x61BF_61B8_618C_64D7_64D6_64D0_64CF_64C9_64BD_6489_64C3_64DB),
  (0xE9AD, 0x64F3_64D9_6533_657F_657C_65A2_66C8_66BE_66C0_66CA_66CB_66CF),
  (0xE9B9, 0x66BD_66BB_66BA_66CC_6723_6A34_6A66_6A49_6A67_6A32_6A68_6A3E),
  (0xE9C5, 0x6A5D_6A6D_6A76_6A5B_6A51_6A28_6A5A_6A3B_6A3F_6A41_6A6A_6A64),
  (0xE9D1, 0x6A50_6A4F_6A54_6A6F_6A69_6A60_6A3C_6A5E_6A56_6A55_6A4D_6A4E),
  (0xE9DD, 0x6A46_6B55_6B54_6B56_6BA7_6BAA_6BAB_6BC8_6BC7_6C04_6C03_6C06),
  (0xE9E9, 0x6FAD_6FCB_6FA3_6FC7_6FBC_6FCE_6FC8_6F5E_6FC4_6FBD_6F9E_6FCA),
  (0xE9F5, 0x6FA8_7004_6FA5_6FAE_6FBA_6FAC_6FAA_6FCF_6FBF_6FB8),
  (0xEA40, 0x6FA2_6FC9_6FAB_6FCD_6FAF_6FB2_6FB0_71C5_71C2_71BF_71B8_71D6),
  (0xEA4C, 0x71C0_71C1_71CB_71D4_71CA_71C7_71CF_71BD_71D8_71BC_71C6_71DA),
  (0xEA58, 0x71DB_729D_729E_7369_7366_7367_736C_7365_736B_736A_747F_749A),
  (0xEA64, 0x74A0_7494_7492_7495_74A1_750B_7580_762F_762D_7631_763D_7633),
  (0xEA70, 0x763C_7635_7632_7630_76BB_76E6_779A_779D_77A1_779C_779B_77A2),
  (0xEA7C, 0x77A3_7795_7799),
  (0xEAA1, 0x7797_78DD_78E9_78E5_78EA_78DE_78E3_78DB_78E1_78E2_78ED_78DF),
  (0xEAAD, 0x78E0_79A4_7A44_7A48_7A47_7AB6_7AB8_7AB5_7AB1_7AB7_7BDE_7BE3),
  (0xEAB9, 0x7BE7_7BDD_7BD5_7BE5_7BDA_7BE8_7BF9_7BD4_7BEA_7BE2_7BDC_7BEB),
  (0xEAC5, 0x7BD8_7BDF_7CD2_7CD4_7CD7_7CD0_7CD1_7E12_7E21_7E17_7E0C_7E1F),
  (0xEAD1, 0x7E20_7E13_7E0E_7E1C_7E15_7E1A_7E22_7E0B_7E0F_7E16_7E0D_7E14),
  (0xEADD, 0x7E25_7E24_7F43_7F7B_7F7C_7F7A_7FB1_7FEF_802A_8029_806C_81B1),
  (0xEAE9, 0x81A6_81AE_81B9_81B5_81AB_81B0_81AC_81B4_81B2_81B7_81A7_81F2),
  (0xEAF5, 0x8255_8256_8257_8556_8545_856B_854D_8553_8561_8558),
  (0xEB40, 0x8540_8546_8564_8541_8562_8544_8551_8547_8563_853E_855B_8571),
  (0xEB4C, 0x854E_856E_8575_8555_8567_8560_858C_8566_855D_8554_8565_856C),
  (0xEB58, 0x8663_8665_8664_879B_878F_8797_8793_8792_8788_8781_8796_8798),
  (0xEB64, 0x8779_8787_87A3_8785_8790_8791_879D_8784_8794_879C_879A_8789),
  (0xEB70, 0x891E_8926_8930_892D_892E_8927_8931_8922_8929_8923_892F_892C),
  (0xEB7C, 0x891F_89F1_8AE0),
  (0xEBA1, 0x8AE2_8AF2_8AF4_8AF5_8ADD_8B14_8AE4_8ADF_8AF0_8AC8_8ADE_8AE1),
  (0xEBAD, 0x8AE8_8AFF_8AEF_8AFB_8C91_8C92_8C90_8CF5_8CEE_8CF1_8CF0_8CF3),
  (0xEBB9, 0x8D6C_8D6E_8DA5_8DA7_8E33_8E3E_8E38_8E40_8E45_8E36_8E3C_8E3D),
  (0xEBC5, 0x8E41_8E30_8E3F_8EBD_8F36_8F2E_8F35_8F32_8F39_8F37_8F34_9076),
  (0xEBD1, 0x9079_907B_9086_90FA_9133_9135_9136_9193_9190_9191_918D_918F),
  (0xEBDD, 0x9327_931E_9308_931F_9306_930F_937A_9338_933C_931B_9323_9312),
  (0xEBE9, 0x9301_9346_932D_930E_930D_92CB_931D_92FA_9325_9313_92F9_92F7),
  (0xEBF5, 0x9334_9302_9324_92FF_9329_9339_9335_932A_9314_930C),
  (0xEC40, 0x930B_92FE_9309_9300_92FB_9316_95BC_95CD_95BE_95B9_95BA_95B6),
  (0xEC4C, 0x95BF_95B5_95BD_96A9_96D4_970B_9712_9710_9799_9797_9794_97F0),
  (0xEC58, 0x97F8_9835_982F_9832_9924_991F_9927_9929_999E_99EE_99EC_99E5),
  (0xEC64, 0x99E4_99F0_99E3_99EA_99E9_99E7_9AB9_9ABF_9AB4_9ABB_9AF6_9AFA),
  (0xEC70, 0x9AF9_9AF7_9B33_9B80_9B85_9B87_9B7C_9B7E_9B7B_9B82_9B93_9B92),
  (0xEC7C, 0x9B90_9B7A_9B95),
  (0xECA1, 0x9B7D_9B88_9D25_9D17_9D20_9D1E_9D14_9D29_9D1D_9D18_9D22_9D10),
  (0xECAD, 0x9D19_9D1F_9E88_9E86_9E87_9EAE_9EAD_9ED5_9ED6_9EFA_9F12_9F3D),
  (0xECB9, 0x5126_5125_5122_5124_5120_5129_52F4_5693_568C_568D_5686_5684),
  (0xECC5, 0x5683_567E_5682_567F_5681_58D6_58D4_58CF_58D2_5B2D_5B25_5B32),
  (0xECD1, 0x5B23_5B2C_5B27_5B26_5B2F_5B2E_5B7B_5BF1_5BF2_5DB7_5E6C_5E6A),
  (0xECDD, 0x5FBE_5FBB_61C3_61B5_61BC_61E7_61E0_61E5_61E4_61E8_61DE_64EF),
  (0xECE9, 0x64E9_64E3_64EB_64E4_64E8_6581_6580_65B6_65DA_66D2_6A8D_6A96),
  (0xECF5, 0x6A81_6AA5_6A89_6A9F_6A9B_6AA1_6A9E_6A87_6A93_6A8E),
  (0xED40, 0x6A95_6A83_6AA8_6AA4_6A91_6A7F_6AA6_6A9A_6A85_6A8C_6A92_6B5B),
  (0xED4C, 0x6BAD_6C09_6FCC_6FA9_6FF4_6FD4_6FE3_6FDC_6FED_6FE7_6FE6_6FDE),
  (0xED58, 0x6FF2_6FDD_6FE2_6FE8_71E1_71F1_71E8_71F2_71E4_71F0_71E2_7373),
  (0xED64, 0x736E_736F_7497_74B2_74AB_7490_74AA_74AD_74B1_74A5_74AF_7510),
  (0xED70, 0x7511_7512_750F_7584_7643_7648_7649_7647_76A4_76E9_77B5_77AB),
  (0xED7C, 0x77B2_77B7_77B6),
  (0xEDA1, 0x77B4_77B1_77A8_77F0_78F3_78FD_7902_78FB_78FC_78F2_7905_78F9),
  (0xEDAD, 0x78FE_7904_79AB_79A8_7A5C_7A5B_7A56_7A58_7A54_7A5A_7ABE_7AC0),
  (0xEDB9, 0x7AC1_7C05_7C0F_7BF2_7C00_7BFF_7BFB_7C0E_7BF4_7C0B_7BF3_7C02),
  (0xEDC5, 0x7C09_7C03_7C01_7BF8_7BFD_7C06_7BF0_7BF1_7C10_7C0A_7CE8_7E2D),
  (0xEDD1, 0x7E3C_7E42_7E33_9848_7E38_7E2A_7E49_7E40_7E47_7E29_7E4C_7E30),
  (0xEDDD, 0x7E3B_7E36_7E44_7E3A_7F45_7F7F_7F7E_7F7D_7FF4_7FF2_802C_81BB),
  (0xEDE9, 0x81C4_81CC_81CA_81C5_81C7_81BC_81E9_825B_825A_825C_8583_8580),
  (0xEDF5, 0x858F_85A7_8595_85A0_858B_85A3_857B_85A4_859A_859E),
  (0xEE40, 0x8577_857C_8589_85A1_857A_8578_8557_858E_8596_8586_858D_8599),
  (0xEE4C, 0x859D_8581_85A2_8582_8588_8585_8579_8576_8598_8590_859F_8668),
  (0xEE58, 0x87BE_87AA_87AD_87C5_87B0_87AC_87B9_87B5_87BC_87AE_87C9_87C3),
  (0xEE64, 0x87C2_87CC_87B7_87AF_87C4_87CA_87B4_87B6_87BF_87B8_87BD_87DE),
  (0xEE70, 0x87B2_8935_8933_893C_893E_8941_8952_8937_8942_89AD_89AF_89AE),
  (0xEE7C, 0x89F2_89F3_8B1E),
  (0xEEA1, 0x8B18_8B16_8B11_8B05_8B0B_8B22_8B0F_8B12_8B15_8B07_8B0D_8B08),
  (0xEEAD, 0x8B06_8B1C_8B13_8B1A_8C4F_8C70_8C72_8C71_8C6F_8C95_8C94_8CF9),
  (0xEEB9, 0x8D6F_8E4E_8E4D_8E53_8E50_8E4C_8E47_8F43_8F40_9085_907E_9138),
  (0xEEC5, 0x919A_91A2_919B_9199_919F_91A1_919D_91A0_93A1_9383_93AF_9364),
  (0xEED1, 0x9356_9347_937C_9358_935C_9376_9349_9350_9351_9360_936D_938F),
  (0xEEDD, 0x934C_936A_9379_9357_9355_9352_934F_9371_9377_937B_9361_935E),
  (0xEEE9, 0x9363_9367_9380_934E_9359_95C7_95C0_95C9_95C3_95C5_95B7_96AE),
  (0xEEF5, 0x96B0_96AC_9720_971F_9718_971D_9719_979A_97A1_979C),
  (0xEF40, 0x979E_979D_97D5_97D4_97F1_9841_9844_984A_9849_9845_9843_9925),
  (0xEF4C, 0x992B_992C_992A_9933_9932_992F_992D_9931_9930_9998_99A3_99A1),
  (0xEF58, 0x9A02_99FA_99F4_99F7_99F9_99F8_99F6_99FB_99FD_99FE_99FC_9A03),
  (0xEF64, 0x9ABE_9AFE_9AFD_9B01_9AFC_9B48_9B9A_9BA8_9B9E_9B9B_9BA6_9BA1),
  (0xEF70, 0x9BA5_9BA4_9B86_9BA2_9BA0_9BAF_9D33_9D41_9D67_9D36_9D2E_9D2F),
  (0xEF7C, 0x9D31_9D38_9D30),
  (0xEFA1, 0x9D45_9D42_9D43_9D3E_9D37_9D40_9D3D_7FF5_9D2D_9E8A_9E89_9E8D),
  (0xEFAD, 0x9EB0_9EC8_9EDA_9EFB_9EFF_9F24_9F23_9F22_9F54_9FA0_5131_512D),
  (0xEFB9, 0x512E_5698_569C_5697_569A_569D_5699_5970_5B3C_5C69_5C6A_5DC0),
  (0xEFC5, 0x5E6D_5E6E_61D8_61DF_61ED_61EE_61F1_61EA_61F0_61EB_61D6_61E9),
  (0xEFD1, 0x64FF_6504_64FD_64F8_6501_6503_64FC_6594_65DB_66DA_66DB_66D8),
  (0xEFDD, 0x6AC5_6AB9_6ABD_6AE1_6AC6_6ABA_6AB6_6AB7_6AC7_6AB4_6AAD_6B5E),
  (0xEFE9, 0x6BC9_6C0B_7007_700C_700D_7001_7005_7014_700E_6FFF_7000_6FFB),
  (0xEFF5, 0x7026_6FFC_6FF7_700A_7201_71FF_71F9_7203_71FD_7376),
  (0xF040, 0x74B8_74C0_74B5_74C1_74BE_74B6_74BB_74C2_7514_7513_765C_7664),
  (0xF04C, 0x7659_7650_7653_7657_765A_76A6_76BD_76EC_77C2_77BA_78FF_790C),
  (0xF058, 0x7913_7914_7909_7910_7912_7911_79AD_79AC_7A5F_7C1C_7C29_7C19),
  (0xF064, 0x7C20_7C1F_7C2D_7C1D_7C26_7C28_7C22_7C25_7C30_7E5C_7E50_7E56),
  (0xF070, 0x7E63_7E58_7E62_7E5F_7E51_7E60_7E57_7E53_7FB5_7FB3_7FF7_7FF8),
  (0xF07C, 0x8075_81D1_81D2),
  (0xF0A1, 0x81D0_825F_825E_85B4_85C6_85C0_85C3_85C2_85B3_85B5_85BD_85C7),
  (0xF0AD, 0x85C4_85BF_85CB_85CE_85C8_85C5_85B1_85B6_85D2_8624_85B8_85B7),
  (0xF0B9, 0x85BE_8669_87E7_87E6_87E2_87DB_87EB_87EA_87E5_87DF_87F3_87E4),
  (0xF0C5, 0x87D4_87DC_87D3_87ED_87D8_87E3_87A4_87D7_87D9_8801_87F4_87E8),
  (0xF0D1, 0x87DD_8953_894B_894F_894C_8946_8950_8951_8949_8B2A_8B27_8B23),
  (0xF0DD, 0x8B33_8B30_8B35_8B47_8B2F_8B3C_8B3E_8B31_8B25_8B37_8B26_8B36),
  (0xF0E9, 0x8B2E_8B24_8B3B_8B3D_8B3A_8C42_8C75_8C99_8C98_8C97_8CFE_8D04),
  (0xF0F5, 0x8D02_8D00_8E5C_8E62_8E60_8E57_8E56_8E5E_8E65_8E67),
  (0xF140, 0x8E5B_8E5A_8E61_8E5D_8E69_8E54_8F46_8F47_8F48_8F4B_9128_913A),
  (0xF14C, 0x913B_913E_91A8_91A5_91A7_91AF_91AA_93B5_938C_9392_93B7_939B),
  (0xF158, 0x939D_9389_93A7_938E_93AA_939E_93A6_9395_9388_9399_939F_938D),
  (0xF164, 0x93B1_9391_93B2_93A4_93A8_93B4_93A3_93A5_95D2_95D3_95D1_96B3),
  (0xF170, 0x96D7_96DA_5DC2_96DF_96D8_96DD_9723_9722_9725_97AC_97AE_97A8),
  (0xF17C, 0x97AB_97A4_97AA),
  (0xF1A1, 0x97A2_97A5_97D7_97D9_97D6_97D8_97FA_9850_9851_9852_98B8_9941),
  (0xF1AD, 0x993C_993A_9A0F_9A0B_9A09_9A0D_9A04_9A11_9A0A_9A05_9A07_9A06),
  (0xF1B9, 0x9AC0_9ADC_9B08_9B04_9B05_9B29_9B35_9B4A_9B4C_9B4B_9BC7_9BC6),
  (0xF1C5, 0x9BC3_9BBF_9BC1_9BB5_9BB8_9BD3_9BB6_9BC4_9BB9_9BBD_9D5C_9D53),
  (0xF1D1, 0x9D4F_9D4A_9D5B_9D4B_9D59_9D56_9D4C_9D57_9D52_9D54_9D5F_9D58),
  (0xF1DD, 0x9D5A_9E8E_9E8C_9EDF_9F01_9F00_9F16_9F25_9F2B_9F2A_9F29_9F28),
  (0xF1E9, 0x9F4C_9F55_5134_5135_5296_52F7_53B4_56AB_56AD_56A6_56A7_56AA),
  (0xF1F5, 0x56AC_58DA_58DD_58DB_5912_5B3D_5B3E_5B3F_5DC3_5E70),
  (0xF240, 0x5FBF_61FB_6507_6510_650D_6509_650C_650E_6584_65DE_65DD_66DE),
  (0xF24C, 0x6AE7_6AE0_6ACC_6AD1_6AD9_6ACB_6ADF_6ADC_6AD0_6AEB_6ACF_6ACD),
  (0xF258, 0x6ADE_6B60_6BB0_6C0C_7019_7027_7020_7016_702B_7021_7022_7023),
  (0xF264, 0x7029_7017_7024_701C_702A_720C_720A_7207_7202_7205_72A5_72A6),
  (0xF270, 0x72A4_72A3_72A1_74CB_74C5_74B7_74C3_7516_7660_77C9_77CA_77C4),
  (0xF27C, 0x77F1_791D_791B),
  (0xF2A1, 0x7921_791C_7917_791E_79B0_7A67_7A68_7C33_7C3C_7C39_7C2C_7C3B),
  (0xF2AD, 0x7CEC_7CEA_7E76_7E75_7E78_7E70_7E77_7E6F_7E7A_7E72_7E74_7E68),
  (0xF2B9, 0x7F4B_7F4A_7F83_7F86_7FB7_7FFD_7FFE_8078_81D7_81D5_8264_8261),
  (0xF2C5, 0x8263_85EB_85F1_85ED_85D9_85E1_85E8_85DA_85D7_85EC_85F2_85F8),
  (0xF2D1, 0x85D8_85DF_85E3_85DC_85D1_85F0_85E6_85EF_85DE_85E2_8800_87FA),
  (0xF2DD, 0x8803_87F6_87F7_8809_880C_880B_8806_87FC_8808_87FF_880A_8802),
  (0xF2E9, 0x8962_895A_895B_8957_8961_895C_8958_895D_8959_8988_89B7_89B6),
  (0xF2F5, 0x89F6_8B50_8B48_8B4A_8B40_8B53_8B56_8B54_8B4B_8B55),
  (0xF340, 0x8B51_8B42_8B52_8B57_8C43_8C77_8C76_8C9A_8D06_8D07_8D09_8DAC),
  (0xF34C, 0x8DAA_8DAD_8DAB_8E6D_8E78_8E73_8E6A_8E6F_8E7B_8EC2_8F52_8F51),
  (0xF358, 0x8F4F_8F50_8F53_8FB4_9140_913F_91B0_91AD_93DE_93C7_93CF_93C2),
  (0xF364, 0x93DA_93D0_93F9_93EC_93CC_93D9_93A9_93E6_93CA_93D4_93EE_93E3),
  (0xF370, 0x93D5_93C4_93CE_93C0_93D2_93E7_957D_95DA_95DB_96E1_9729_972B),
  (0xF37C, 0x972C_9728_9726),
  (0xF3A1, 0x97B3_97B7_97B6_97DD_97DE_97DF_985C_9859_985D_9857_98BF_98BD),
  (0xF3AD, 0x98BB_98BE_9948_9947_9943_99A6_99A7_9A1A_9A15_9A25_9A1D_9A24),
  (0xF3B9, 0x9A1B_9A22_9A20_9A27_9A23_9A1E_9A1C_9A14_9AC2_9B0B_9B0A_9B0E),
  (0xF3C5, 0x9B0C_9B37_9BEA_9BEB_9BE0_9BDE_9BE4_9BE6_9BE2_9BF0_9BD4_9BD7),
  (0xF3D1, 0x9BEC_9BDC_9BD9_9BE5_9BD5_9BE1_9BDA_9D77_9D81_9D8A_9D84_9D88),
  (0xF3DD, 0x9D71_9D80_9D78_9D86_9D8B_9D8C_9D7D_9D6B_9D74_9D75_9D70_9D69),
  (0xF3E9, 0x9D85_9D73_9D7B_9D82_9D6F_9D79_9D7F_9D87_9D68_9E94_9E91_9EC0),
  (0xF3F5, 0x9EFC_9F2D_9F40_9F41_9F4D_9F56_9F57_9F58_5337_56B2),
  (0xF440, 0x56B5_56B3_58E3_5B45_5DC6_5DC7_5EEE_5EEF_5FC0_5FC1_61F9_6517),
  (0xF44C, 0x6516_6515_6513_65DF_66E8_66E3_66E4_6AF3_6AF0_6AEA_6AE8_6AF9),
  (0xF458, 0x6AF1_6AEE_6AEF_703C_7035_702F_7037_7034_7031_7042_7038_703F),
  (0xF464, 0x703A_7039_7040_703B_7033_7041_7213_7214_72A8_737D_737C_74BA),
  (0xF470, 0x76AB_76AA_76BE_76ED_77CC_77CE_77CF_77CD_77F2_7925_7923_7927),
  (0xF47C, 0x7928_7924_7929),
  (0xF4A1, 0x79B2_7A6E_7A6C_7A6D_7AF7_7C49_7C48_7C4A_7C47_7C45_7CEE_7E7B),
  (0xF4AD, 0x7E7E_7E81_7E80_7FBA_7FFF_8079_81DB_81D9_820B_8268_8269_8622),
  (0xF4B9, 0x85FF_8601_85FE_861B_8600_85F6_8604_8609_8605_860C_85FD_8819),
  (0xF4C5, 0x8810_8811_8817_8813_8816_8963_8966_89B9_89F7_8B60_8B6A_8B5D),
  (0xF4D1, 0x8B68_8B63_8B65_8B67_8B6D_8DAE_8E86_8E88_8E84_8F59_8F56_8F57),
  (0xF4DD, 0x8F55_8F58_8F5A_908D_9143_9141_91B7_91B5_91B2_91B3_940B_9413),
  (0xF4E9, 0x93FB_9420_940F_9414_93FE_9415_9410_9428_9419_940D_93F5_9400),
  (0xF4F5, 0x93F7_9407_940E_9416_9412_93FA_9409_93F8_940A_93FF),
  (0xF540, 0x93FC_940C_93F6_9411_9406_95DE_95E0_95DF_972E_972F_97B9_97BB),
  (0xF54C, 0x97FD_97FE_9860_9862_9863_985F_98C1_98C2_9950_994E_9959_994C),
  (0xF558, 0x994B_9953_9A32_9A34_9A31_9A2C_9A2A_9A36_9A29_9A2E_9A38_9A2D),
  (0xF564, 0x9AC7_9ACA_9AC6_9B10_9B12_9B11_9C0B_9C08_9BF7_9C05_9C12_9BF8),
  (0xF570, 0x9C40_9C07_9C0E_9C06_9C17_9C14_9C09_9D9F_9D99_9DA4_9D9D_9D92),
  (0xF57C, 0x9D98_9D90_9D9B),
  (0xF5A1, 0x9DA0_9D94_9D9C_9DAA_9D97_9DA1_9D9A_9DA2_9DA8_9D9E_9DA3_9DBF),
  (0xF5AD, 0x9DA9_9D96_9DA6_9DA7_9E99_9E9B_9E9A_9EE5_9EE4_9EE7_9EE6_9F30),
  (0xF5B9, 0x9F2E_9F5B_9F60_9F5E_9F5D_9F59_9F91_513A_5139_5298_5297_56C3),
  (0xF5C5, 0x56BD_56BE_5B48_5B47_5DCB_5DCF_5EF1_61FD_651B_6B02_6AFC_6B03),
  (0xF5D1, 0x6AF8_6B00_7043_7044_704A_7048_7049_7045_7046_721D_721A_7219),
  (0xF5DD, 0x737E_7517_766A_77D0_792D_7931_792F_7C54_7C53_7CF2_7E8A_7E87),
  (0xF5E9, 0x7E88_7E8B_7E86_7E8D_7F4D_7FBB_8030_81DD_8618_862A_8626_861F),
  (0xF5F5, 0x8623_861C_8619_8627_862E_8621_8620_8629_861E_8625),
  (0xF640, 0x8829_881D_881B_8820_8824_881C_882B_884A_896D_8969_896E_896B),
  (0xF64C, 0x89FA_8B79_8B78_8B45_8B7A_8B7B_8D10_8D14_8DAF_8E8E_8E8C_8F5E),
  (0xF658, 0x8F5B_8F5D_9146_9144_9145_91B9_943F_943B_9436_9429_943D_943C),
  (0xF664, 0x9430_9439_942A_9437_942C_9440_9431_95E5_95E4_95E3_9735_973A),
  (0xF670, 0x97BF_97E1_9864_98C9_98C6_98C0_9958_9956_9A39_9A3D_9A46_9A44),
  (0xF67C, 0x9A42_9A41_9A3A),
  (0xF6A1, 0x9A3F_9ACD_9B15_9B17_9B18_9B16_9B3A_9B52_9C2B_9C1D_9C1C_9C2C),
  (0xF6AD, 0x9C23_9C28_9C29_9C24_9C21_9DB7_9DB6_9DBC_9DC1_9DC7_9DCA_9DCF),
  (0xF6B9, 0x9DBE_9DC5_9DC3_9DBB_9DB5_9DCE_9DB9_9DBA_9DAC_9DC8_9DB1_9DAD),
  (0xF6C5, 0x9DCC_9DB3_9DCD_9DB2_9E7A_9E9C_9EEB_9EEE_9EED_9F1B_9F18_9F1A),
  (0xF6D1, 0x9F31_9F4E_9F65_9F64_9F92_4EB9_56C6_56C5_56CB_5971_5B4B_5B4C),
  (0xF6DD, 0x5DD5_5DD1_5EF2_6521_6520_6526_6522_6B0B_6B08_6B09_6C0D_7055),
  (0xF6E9, 0x7056_7057_7052_721E_721F_72A9_737F_74D8_74D5_74D9_74D7_766D),
  (0xF6F5, 0x76AD_7935_79B4_7A70_7A71_7C57_7C5C_7C59_7C5B_7C5A),
  (0xF740, 0x7CF4_7CF1_7E91_7F4F_7F87_81DE_826B_8634_8635_8633_862C_8632),
  (0xF74C, 0x8636_882C_8828_8826_882A_8825_8971_89BF_89BE_89FB_8B7E_8B84),
  (0xF758, 0x8B82_8B86_8B85_8B7F_8D15_8E95_8E94_8E9A_8E92_8E90_8E96_8E97),
  (0xF764, 0x8F60_8F62_9147_944C_9450_944A_944B_944F_9447_9445_9448_9449),
  (0xF770, 0x9446_973F_97E3_986A_9869_98CB_9954_995B_9A4E_9A53_9A54_9A4C),
  (0xF77C, 0x9A4F_9A48_9A4A),
  (0xF7A1, 0x9A49_9A52_9A50_9AD0_9B19_9B2B_9B3B_9B56_9B55_9C46_9C48_9C3F),
  (0xF7AD, 0x9C44_9C39_9C33_9C41_9C3C_9C37_9C34_9C32_9C3D_9C36_9DDB_9DD2),
  (0xF7B9, 0x9DDE_9DDA_9DCB_9DD0_9DDC_9DD1_9DDF_9DE9_9DD9_9DD8_9DD6_9DF5),
  (0xF7C5, 0x9DD5_9DDD_9EB6_9EF0_9F35_9F33_9F32_9F42_9F6B_9F95_9FA2_513D),
  (0xF7D1, 0x5299_58E8_58E7_5972_5B4D_5DD8_882F_5F4F_6201_6203_6204_6529),
  (0xF7DD, 0x6525_6596_66EB_6B11_6B12_6B0F_6BCA_705B_705A_7222_7382_7381),
  (0xF7E9, 0x7383_7670_77D4_7C67_7C66_7E95_826C_863A_8640_8639_863C_8631),
  (0xF7F5, 0x863B_863E_8830_8832_882E_8833_8976_8974_8973_89FE),
  (0xF840, 0x8B8C_8B8E_8B8B_8B88_8C45_8D19_8E98_8F64_8F63_91BC_9462_9455),
  (0xF84C, 0x945D_9457_945E_97C4_97C5_9800_9A56_9A59_9B1E_9B1F_9B20_9C52),
  (0xF858, 0x9C58_9C50_9C4A_9C4D_9C4B_9C55_9C59_9C4C_9C4E_9DFB_9DF7_9DEF),
  (0xF864, 0x9DE3_9DEB_9DF8_9DE4_9DF6_9DE1_9DEE_9DE6_9DF2_9DF0_9DE2_9DEC),
  (0xF870, 0x9DF4_9DF3_9DE8_9DED_9EC2_9ED0_9EF2_9EF3_9F06_9F1C_9F38_9F37),
  (0xF87C, 0x9F36_9F43_9F4F),
  (0xF8A1, 0x9F71_9F70_9F6E_9F6F_56D3_56CD_5B4E_5C6D_652D_66ED_66EE_6B13),
  (0xF8AD, 0x705F_7061_705D_7060_7223_74DB_74E5_77D5_7938_79B7_79B6_7C6A),
  (0xF8B9, 0x7E97_7F89_826D_8643_8838_8837_8835_884B_8B94_8B95_8E9E_8E9F),
  (0xF8C5, 0x8EA0_8E9D_91BE_91BD_91C2_946B_9468_9469_96E5_9746_9743_9747),
  (0xF8D1, 0x97C7_97E5_9A5E_9AD5_9B59_9C63_9C67_9C66_9C62_9C5E_9C60_9E02),
  (0xF8DD, 0x9DFE_9E07_9E03_9E06_9E05_9E00_9E01_9E09_9DFF_9DFD_9E04_9EA0),
  (0xF8E9, 0x9F1E_9F46_9F74_9F75_9F76_56D4_652E_65B8_6B18_6B19_6B17_6B1A),
  (0xF8F5, 0x7062_7226_72AA_77D8_77D9_7939_7C69_7C6B_7CF6_7E9A),
  (0xF940, 0x7E98_7E9B_7E99_81E0_81E1_8646_8647_8648_8979_897A_897C_897B),
  (0xF94C, 0x89FF_8B98_8B99_8EA5_8EA4_8EA3_946E_946D_946F_9471_9473_9749),
  (0xF958, 0x9872_995F_9C68_9C6E_9C6D_9E0B_9E0D_9E10_9E0F_9E12_9E11_9EA1),
  (0xF964, 0x9EF5_9F09_9F47_9F78_9F7B_9F7A_9F79_571E_7066_7C6F_883C_8DB2),
  (0xF970, 0x8EA6_91C3_9474_9478_9476_9475_9A60_9C74_9C73_9C71_9C75_9E14),
  (0xF97C, 0x9E13_9EF6_9F0A),
  (0xF9A1, 0x9FA4_7068_7065_7CF7_866A_883E_883D_883F_8B9E_8C9C_8EA9_8EC9),
  (0xF9AD, 0x974B_9873_9874_98CC_9961_99AB_9A64_9A66_9A67_9B24_9E15_9E17),
  (0xF9B9, 0x9F48_6207_6B1E_7227_864C_8EA8_9482_9480_9481_9A69_9A68_9B2E),
  (0xF9C5, 0x9E19_7229_864B_8B9F_9483_9C79_9EB7_7675_9A6B_9C7A_9E1D_7069),
  (0xF9D1, 0x706A_9EA4_9F7E_9F49_9F98_7881_92B9_88CF_58BB_6052_7CA7_5AFA),
  (0xF9DD, 0x2554_2566_2557_2560_256C_2563_255A_2569_255D_2552_2564_2555),
  (0xF9E9, 0x255E_256A_2561_2558_2567_255B_2553_2565_2556_255F_256B_2562),
  (0xF9F5, 0x2559_2568_255C_2551_2550_256D_256E_2570_256F_2593)]

/-- /repo/modules/from/_CP950.txt; there is no file for writing. -/
def cp950r : Charset where
  reads := cp950rReads
  writes := []

/-- The rules of /repo/modules/from/_HKSCS1999.txt: code, character.  No two lines have the same code, so their order does not matter; here they
are sorted. -/
def hkscs1999Reads : Chart := Chart.wide [
  (0x8840, 0xF303_F304_F305_F306_F307_F308_F309_F30A_F30B_F30C_F30D_F30E),
  (0x884C, 0xF30F_F310_F311_F312_F313_F314_F315_F316_F317_F318_0100_00C1),
  (0x8858, 0x01CD_00C0_0112_00C9_011A_00C8_014C_00D3_01D1_00D2_F325_1EBE),
  (0x8864, 0xF327_1EC0_00CA_0101_00E1_01CE_00E0_0251_0113_00E9_011B_00E8),
  (0x8870, 0x012B_00ED_01D0_00EC_014D_00F3_01D2_00F2_016B_00FA_01D4_00F9),
  (0x887C, 0x01D6_01D8_01DA),
  (0x88A1, 0x01DC_00FC_F344_1EBF_F346_1EC1_00EA_0261_F34A_F34B),
  (0x8940, 0xF3A0_F3A1),
  (0x8943, 0x650A),
  (0x8946, 0x4E3D_6EDD_9D4E_91DF),
  (0x894C, 0xF3AC_6491_4F1A_4F28_4FA8_5156_5174_519C_51E4_52A1_52A8_533B),
  (0x8958, 0x534E_53D1_53D8_56E2_58F0_5904_5907_5932_5934_5B66_5B9E_5B9F),
  (0x8964, 0x5C9A_5E86_603B_6589_67FE_6804_6865_6D4E_70BC_7535_7EA4_7EAC),
  (0x8970, 0x7EBA_7EC7_7ECF_7EDF_7F06_7F37_827A_82CF_836F_89C6_8BBE_8BE2),
  (0x897C, 0x8F66_8F67_8F6E),
  (0x89A1, 0x7411_7CFC_7DCD_6946_7AC9_5227),
  (0x89AB, 0x918C_78B8_915E_80BC),
  (0x89B0, 0x8D0B_80F6_F3F0),
  (0x89B5, 0x809F_9EC7_4CCD_9DC9_9E0C_4C3E_F3F9_F3FA_9E0A_F3FC_35C1),
  (0x89C1, 0x6E9A_823E_7519),
  (0x89C5, 0x4911_9A6C_9A8F_9F99_7987_F408_F409_F40A_F40B_4E24_4E81_4E80),
  (0x89D1, 0x4E87_4EBF_4EEB_4F37_344C_4FBD_3E48_5003_5088_347D_3493_34A5),
  (0x89DD, 0x5186_5905_51DB_51FC_5205_4E89_5279_5290_5327_35C7_53A9_3551),
  (0x89E9, 0x53B0_3553_53C2_5423_356D_3572_3681_5493_54A3_54B4_54B9_54D0),
  (0x89F5, 0x54EF_5518_5523_5528_3598_553F_35A5_35BF_55D7_35C5),
  (0x8A40, 0xF43D_5525),
  (0x8A43, 0xF440_F441_F442_5590_F444_39EC_F446_8E46_F448_F449_4053_F44B),
  (0x8A4F, 0x777A_F44D_3A34_47D5_F450_F451_F452_64DD_F454_F455_F456_F457),
  (0x8A5B, 0x648D_8E7E_F45A_F45B_F45C_F45D_F45E_F45F),
  (0x8A64, 0xF461_F462_F463_47F4_F465_F466_9AB2_3A67_F469_3FED_3506_F46C),
  (0x8A70, 0xF46D_F46E_F46F_9D6E_9815),
  (0x8A76, 0x43D9_F474_64B4_54E3_F477_F478_F479_39FB_F47B),
  (0x8AA1, 0xF47C_F47D_F47E_64EA_F480_F481_8E68_F483_F484_F485),
  (0x8AAC, 0x480B_F488_3FFA_5873_F48B),
  (0x8AB2, 0xF48D_F48E_F48F_F490_F491_5579_40BB_43BA),
  (0x8ABB, 0x4AB4_F497_F498_81AA_98F5_F49B_6379_39FE_F49E_8DC0_56A1_647C),
  (0x8AC7, 0x3E43),
  (0x8AC9, 0xF4A4_F4A5_F4A6_F4A7),
  (0x8ACE, 0xF4A9_F4AA_3992_3A06_F4AD_3578_F4AF_F4B0_5652_F4B2_F4B3_F4B4),
  (0x8ADA, 0x34BC_6C3D_F4B7),
  (0x8ADF, 0xF4BA_F4BB_F4BC_F4BD_F4BE_F4BF_F4C0_F4C1_7F93_F4C3_F4C4_F4C5),
  (0x8AEB, 0x35FB_F4C7_F4C8_F4C9_F4CA_3F93_F4CC_F4CD_F4CE_F4CF),
  (0x8AF6, 0xF4D1_F4D2_F4D3_F4D4_F4D5_3FF9_F4D7_6432_F4D9),
  (0x8B40, 0xF4DA_F4DB_F4DC_F4DD_F4DE_F4DF_F4E0_3A18_F4E2_F4E3_F4E4_F4E5),
  (0x8B4C, 0xF4E6_F4E7_F4E8_F4E9_95AA_54CC_82C4_55B9),
  (0x8B55, 0xF4EF_9C26_9AB6_F4F2_F4F3_7140_816D_80EC_5C1C_F4F8_8134_3797),
  (0x8B61, 0x535F_F4FC_91B6_F4FE_F4FF_F500_F501_35DD_F503_3609_F505_56AF),
  (0x8B6D, 0xF507_F508_F509_F50A_F50B_F50C_F50D_F50E_F50F_F510_F511_5A54),
  (0x8B79, 0xF513_F514_F515_F516_579C_F518),
  (0x8BA1, 0xF519_F51A_F51B_F51C_F51D_3703_F51F_F520_F521_F522_F523_F524),
  (0x8BAD, 0xF525_F526_5899_5268_361A_F52A_7BB2_5B68_4800_4B2C_9F27_49E7),
  (0x8BB9, 0x9C1F_9B8D_F533_F534_55FB_35F2_5689_4E28_5902_F53A_F53B_9751),
  (0x8BC5, 0xF53D_4E5B_4EBB_353E_5C23_5F51_5FC4_38FA_624C_6535_6B7A_6C35),
  (0x8BD1, 0x6C3A_706C_722B_4E2C_72AD_F54E_7F52_793B_7CF9_7F53_F553_34C1),
  (0x8BDE, 0xF556_8002_8080_F559_F55A_535D_8864_89C1_F55E_8BA0_8D1D_9485),
  (0x8BEA, 0x9578_957F_95E8_F565_97E6_9875_98CE_98DE_9963_F56B_9C7C_9E1F),
  (0x8BF6, 0x9EC4_6B6F_9F9C_4E37_F572_961D_6237_94A2),
  (0x8D60, 0x5D3E_5D48_5D56_3DFC_380F_5DA4_5DB9_3820_3838_5E42_5EBD_5F25),
  (0x8D6C, 0x5F83_3908_3914_393F_394D_60D7_613D_5CE5_3989_61B7_61B9_61CF),
  (0x8D78, 0x39B8_622C_6290_62E5_6318_39F8_56B1),
  (0x8DA1, 0x3A03_63E2_63FB_6407_645A_3A4B_64C0_5D15_5621_9F9F_3A97_6586),
  (0x8DAD, 0x3ABD_65FF_6653_3AF2_6692_3B22_6716_3B42_67A4_6800_3B58_684A),
  (0x8DB9, 0x6884_3B72_3B71_3B7B_6909_6943_725C_6964_699F_6985_3BBC_69D6),
  (0x8DC5, 0x3BDD_6A65_6A74_6A71_6A82_3BEC_6A99_3BF2_6AAB_6AB5_6AD4_6AF6),
  (0x8DD1, 0x6B81_6BC1_6BEA_6C75_6CAA_3CCB_6D02_6D06_6D26_6D81_3CEF_6DA4),
  (0x8DDD, 0x6DB1_6E15_6E18_6E29_6E86_F694_6EBB_6EE2_6EDA_9F7F_6EE8_6EE9),
  (0x8DE9, 0x6F24_6F34_3D46_F69E_6F81_6FBE_3D6A_3D75_71B7_5C99_3D8A_702C),
  (0x8DF5, 0x3D91_7050_7054_706F_707F_7089_F6AD_43C1_35F1_F6B0),
  (0x8E40, 0xE311_57BE_E313_713E_E315_364E_69A2_E318_5B74_7A49_E31B_E31C),
  (0x8E4C, 0x7A65_7A7D_E31F_7ABB_7AB0_7AC2_7AC3_71D1_E325_41CA_7ADA_7ADD),
  (0x8E58, 0x7AEA_41EF_54B2_E32C_7B0B_7B55_7B29_E330_E331_7BA2_7B6F_839C),
  (0x8E64, 0xE335_E336_7BD0_8421_7B92_7BB8_E33B_3DAD_E33D_8492_7BFA_7C06),
  (0x8E70, 0x7C35_E342_7C44_7C83_E345_7CA6_667D_E348_7CC9_7CC7_7CE6_7C74),
  (0x8E7C, 0x7CF3_7CF5_7CCE),
  (0x8EA1, 0x7E67_451D_E352_7D5D_E354_748D_7D89_7DAB_7135_7DB3_7DD2_E35B),
  (0x8EAD, 0xE35C_7DE4_3D13_7DF5_E360_7DE5_E362_7E1D_E364_E365_7E6E_7E92),
  (0x8EB9, 0x432B_946C_7E27_7F40_7F41_7F47_7936_E36F_99E1_7F97_E372_7FA3),
  (0x8EC5, 0xE374_E375_455C_E377_4503_E379_7FFA_E37B_8005_8008_801D_8028),
  (0x8ED1, 0x802F_E381_E382_803B_803C_8061_E386_4989_E388_E389_E38A_6725),
  (0x8EDD, 0x80A7_E38D_8107_811A_58B0_E391_6C7F_E393_E394_64E7_E396_8218),
  (0x8EE9, 0xE398_6A53_E39A_E39B_447A_8229_E39E_E39F_E3A0_4FF9_E3A2_84E2),
  (0x8EF5, 0x8362_E3A5_E3A6_E3A7_E3A8_E3A9_82AA_691B_E3AC_41DB),
  (0x8F40, 0x854B_82D0_831A_E3B1_E3B2_36C1_E3B4_E3B5_827B_82E2_8318_E3B9),
  (0x8F4C, 0xE3BA_E3BB_E3BC_E3BD_3DBF_831D_55EC_8385_450B_E3C3_83AC_83C1),
  (0x8F58, 0x83D3_347E_E3C8_6A57_855A_3496_E3CC_E3CD_8458_E3CF_8471_3DD3),
  (0x8F64, 0x44E4_6AA7_844A_E3D5_7958_84A8_E3D8_E3D9_E3DA_84DE_840F_8391),
  (0x8F70, 0x44A0_8493_84E4_E3E1_4240_E3E3_4543_8534_5AF2_E3E7_4527_8573),
  (0x8F7C, 0x4516_67BF_8616),
  (0x8FA1, 0xE3ED_E3EE_85C1_E3F0_8602_E3F2_E3F3_E3F4_456A_8628_3648_E3F8),
  (0x8FAD, 0x53F7_E3FA_867E_8771_E3FD_87EE_E3FF_87B1_87DA_880F_5661_866C),
  (0x8FB9, 0x6856_460F_8845_8846_E409_E40A_E40B_885E_889C_465B_88B4_88B5),
  (0x8FC5, 0x63C1_88C5_7777_E414_8987_898A_89A6_89A9_89A7_89BC_E41B_89E7),
  (0x8FD1, 0xE41D_E41E_8A9C_7793_91FE_8A90_E423_7AE9_E425_E426_4713_E428),
  (0x8FDD, 0x717C_8B0C_8B1F_E42C_E42D_8B3F_8B4C_8B4D_8AA9_E432_8B90_8B9B),
  (0x8FE9, 0x8AAF_E436_4615_884F_8C9B_E43A_E43B_E43C_3725_E43E_8CD6_E440),
  (0x8FF5, 0xE441_8D12_8D03_E444_8CDB_705C_8D11_E448_3ED0_8D77),
  (0x9040, 0x8DA9_E44C_E44D_E44E_3B7C_E450_E451_7AE7_8EAD_8EB6_8EC3_92D4),
  (0x904C, 0x8F19_8F2D_E459_E45A_8FA5_9303_E45D_E45E_8FB3_492A_E461_E462),
  (0x9058, 0xE463_5EF8_E465_8FF9_E467_E468_E469_E46A_3980_E46C_9037_E46E),
  (0x9064, 0xE46F_9061_E471_E472_90A8_E474_90C4_E476_90AE_90FD_9167_3AF0),
  (0x9070, 0x91A9_91C4_7CAC_E47E_E47F_920E_6C9F_9241_9262_E484_92B9_E486),
  (0x907C, 0xE487_E488_E489),
  (0x90A1, 0xE48A_932C_936B_E48D_E48E_708F_5AC3_E491_E492_4965_9244_E495),
  (0x90AD, 0xE496_E497_9373_945B_8EBC_9585_95A6_9426_95A0_6FF6_42B9_E4A1),
  (0x90B9, 0xE4A2_E4A3_E4A4_49DF_6C1C_967B_9696_416C_96A3_E4AB_61DA_96B6),
  (0x90C5, 0x78F5_E4AF_96BD_53CC_49A1_E4B3_E4B4_E4B5_E4B6_E4B7_E4B8_E4B9),
  (0x90D1, 0xE4BA_9731_8642_9736_4A0F_453D_4585_E4C1_7075_5B41_971B_975C),
  (0x90DD, 0xE4C6_9757_5B4A_E4C9_975F_9425_50D0_E4CD_E4CE_9789_979F_97B1),
  (0x90E9, 0x97BE_97C0_97D2_97E0_E4D6_97EE_741C_E4D9_97FF_97F5_E4DC_E4DD),
  (0x90F5, 0x4AD1_9834_9833_984B_9866_3B0E_E4E4_3D51_E4E6_E4E7),
  (0x9140, 0xE4E8_98CA_98B7_98C8_98C7_4AFF_E4EE_E4EF_55B0_98E1_98E6_98EC),
  (0x914C, 0x9378_9939_E4F6_4B72_E4F8_E4F9_99F5_9A0C_9A3B_9A10_9A58_E4FF),
  (0x9158, 0x36C4_E501_E502_9AE0_9AE2_E505_9AF4_4C0E_9B14_9B2D_E50A_5034),
  (0x9164, 0x9B34_E50D_38C3_E50F_9B50_9B40_E512_5A45_E514_9B8E_E516_9C02),
  (0x9170, 0x9BFF_9C0C_E51A_9DD4_E51C_E51D_E51E_E51F_E520_E521_9D7E_9D83),
  (0x917C, 0xE524_9E0E_6888),
  (0x91A1, 0x9DC4_E528_E529_E52A_E52B_E52C_9D39_E52E_E52F_9E90_9E95_9E9E),
  (0x91AD, 0x9EA2_4D34_9EAA_9EAF_E537_9EC1_3B60_39E5_3D1D_4F32_37BE_E53E),
  (0x91B9, 0x9F02_9F08_4B96_9424_E543_9F17_9F16_9F39_569F_568A_9F45_99B8),
  (0x91C5, 0xE54B_97F2_847F_9F62_9F69_7ADC_9F8E_7216_4BBE_E554_E555_7177),
  (0x91D1, 0xE557_E558_E559_739E_E55B_E55C_799F_E55E_E55F_9369_93F3_E562),
  (0x91DD, 0x92EC_9381_93CB_E566_E567_7217_3EEB_7772_7A43_70D0_E56D_E56E),
  (0x91E9, 0x717E_E570_70A3_E572_E573_3EC7_E575_E576_E577_3722_E579_E57A),
  (0x91F5, 0x36E1_E57C_E57D_E57E_3723_E580_575B_E582_E583_E584),
  (0x9240, 0xE585_E586_8503_E588_8503_8455_E58B_E58C_E58D_E58E_E58F_E590),
  (0x924C, 0x44F4_E592_E593_E594_67F9_3733_3C15_3DE7_586C_E59A_6810_4057),
  (0x9258, 0xE59D_E59E_E59F_E5A0_E5A1_54CB_569E_E5A4_5692_E5A6_E5A7_E5A8),
  (0x9264, 0x93C6_E5AA_939C_4EF8_512B_3819_E5AF_4EBC_E5B1_E5B2_4F4B_4F8A),
  (0x9270, 0xE5B5_5A68_E5B7_E5B8_3999_E5BA_E5BB_3435_4F29_E5BE_E5BF_E5C0),
  (0x927C, 0x8ADA_E5C2_4E98),
  (0x92A1, 0x50CD_510D_4FA2_4F03_E5C8_E5C9_4F42_502E_506C_5081_4FCC_4FE5),
  (0x92AD, 0x5058_50FC_5159_515B_515D_515E_6E76_E5D7_E5D8_E5D9_6D72_E5DB),
  (0x92B9, 0xE5DC_51A8_51C3_E5DF_44DD_E5E1_E5E2_E5E3_8D7A_E5E5_E5E6_5259),
  (0x92C5, 0x52A4_E5E9_52E1_936E_467A_718C_E5EE_E5EF_E5F0_E5F1_69D1_E5F3),
  (0x92D1, 0x7479_3EDE_7499_7414_7456_7398_4B8E_E5FB_E5FC_53D0_3584_720F),
  (0x92DD, 0xE600_55B4_E602_54CD_E604_571D_925D_96F4_9366_57DD_578D_577F),
  (0x92E9, 0x363E_58CB_5A99_E60F_E610_E611_E612_5A2C_59B8_928F_5A7E_5ACF),
  (0x92F5, 0x5A12_E619_E61A_E61B_E61C_36F5_6D05_7443_5A21_E621),
  (0x9340, 0x5A81_E623_E624_93E0_748C_E627_7105_4972_9408_E62B_93BD_37A0),
  (0x934C, 0x5C1E_5C9E_5E5E_5E48_E632_E633_E634_5ECD_5B4F_E637_E638_3701),
  (0x9358, 0xE63A_36DD_E63C_36D3_812A_E63F_E640_E641_E642_5F0C_5F0E_E645),
  (0x9364, 0xE646_5A6B_E648_5B44_8614_E64B_8860_607E_E64E_E64F_5FDB_3EB8),
  (0x9370, 0xE652_E653_E654_E655_61C0_E657_E658_E659_6199_6198_6075_E65D),
  (0x937C, 0xE65E_E65F_E660),
  (0x93A1, 0x6471_E662_E663_3A29_E665_E666_E667_E668_6337_E66A_64B6_6331),
  (0x93AD, 0x63D1_E66E_E66F_62A4_E671_643B_656B_6972_3BF4_E676_E677_E678),
  (0x93B9, 0xE679_550D_E67B_E67C_E67D_66CE_E67F_E680_3AE0_4190_E683_E684),
  (0x93C5, 0xE685_E686_E687_E688_78EE_E68A_E68B_E68C_3464_E68E_E68F_E690),
  (0x93D1, 0x668E_E692_666B_4B93_6630_E696_E697_6663_E699_E69A_661E_E69C),
  (0x93DD, 0x38D1_E69E_E69F_3B99_E6A1_E6A2_74D0_3B96_678F_E6A6_68B6_681E),
  (0x93E9, 0x3BC4_6ABE_3863_E6AC_E6AD_6A33_6A52_6AC9_6B05_E6B2_6511_6898),
  (0x93F5, 0x6A4C_3BD7_6A7A_6B57_E6B9_E6BA_93A0_92F2_E6BD_E6BE),
  (0x9440, 0x9289_E6C0_E6C1_9467_6DA5_6F0B_E6C5_6D67_E6C7_3D8F_6E04_E6CA),
  (0x944C, 0x5A3D_6E0A_5847_6D24_7842_713B_E6D1_E6D2_70F1_7250_7287_7294),
  (0x9458, 0xE6D7_E6D8_5179_E6DA_E6DB_747A_E6DD_E6DE_E6DF_E6E0_E6E1_3F06),
  (0x9464, 0x3EB1_E6E4_E6E5_E6E6_60A7_3EF3_74CC_743C_9387_7437_449F_E6EE),
  (0x9470, 0x4551_7583_3F63_E6F2_E6F3_3F58_7555_7673_E6F7_3B19_7468_E6FA),
  (0x947C, 0xE6FB_E6FC_3AFB),
  (0x94A1, 0x3DCD_E6FF_3EFF_E701_E702_91FA_5732_9342_E706_E707_50DF_E709),
  (0x94AD, 0xE70A_7778_E70C_770E_770F_777B_E710_E711_3A5E_E713_7438_749B),
  (0x94B9, 0x3EBF_E717_E718_40C8_E71A_E71B_9307_E71D_781E_788D_7888_78D2),
  (0x94C5, 0x73D0_7959_E724_E725_410E_799B_8496_79A5_6A2D_E72B_7A3A_79F4),
  (0x94D1, 0x416E_E72F_4132_9235_79F1_E733_E734_E735_E736_E737_3597_556B),
  (0x94DD, 0x3570_36AA_E73C_E73D_7AE2_5A59_E740_E741_E742_5A0D_E744_78F0),
  (0x94E9, 0x5A2A_E747_7AFE_41F9_7C5D_7C6D_4211_E74D_E74E_E74F_7CCD_E751),
  (0x94F5, 0xE752_7C8E_7C7C_7CAE_6AB2_7DDC_7E07_7DD3_7F4E_E75B),
  (0x9540, 0xE75C_E75D_7D97_E75F_426A_E761_E762_67D6_E764_E765_57C4_E767),
  (0x954C, 0xE768_E769_7FDD_7B27_E76C_E76D_E76E_7B0C_E770_99E6_8645_9A63),
  (0x9558, 0x6A1C_E775_39E2_E777_E778_9A1F_E77A_8480_E77C_E77D_44EA_8137),
  (0x9564, 0x4402_80C6_8109_8142_E784_98C3_E786_8262_8265_E789_8453_E78B),
  (0x9570, 0x8610_E78D_5A86_417F_E790_5B2B_E792_5AE4_E794_86A0_E796_E797),
  (0x957C, 0x882D_E799_5A02),
  (0x95A1, 0x886E_4F45_8887_88BF_88E6_8965_894D_E7A2_8954_E7A4_E7A5_E7A6),
  (0x95AD, 0xE7A7_E7A8_E7A9_3EAD_84A3_46F5_46CF_37F2_8A3D_8A1C_E7B1_5F4D),
  (0x95B9, 0x922B_E7B4_65D4_7129_70C4_E7B8_9D6D_8C9F_8CE9_E7BC_599A_77C3),
  (0x95C5, 0x59F0_436E_36D4_8E2A_8EA7_E7C4_8F30_8F4A_42F4_6C58_6FBB_E7CA),
  (0x95D1, 0x489B_6F79_6E8B_E7CE_9BE9_36B5_E7D1_90BB_9097_5571_4906_91BB),
  (0x95DD, 0x9404_E7D8_4062_E7DA_9427_E7DC_E7DD_84E5_8A2B_9599_95A7_9597),
  (0x95E9, 0x9596_E7E4_7445_3EC2_E7E7_E7E8_E7E9_3EE7_E7EB_968F_E7ED_E7EE),
  (0x95F5, 0xE7EF_3ECC_E7F1_E7F2_E7F3_7412_746B_3EFC_9741_E7F8),
  (0x9640, 0x6847_4A1D_E7FB_E7FC_975D_9368_E7FF_E800_E801_E802_92BA_5B11),
  (0x964C, 0x8B69_493C_73F9_E808_979B_9771_9938_E80C_5DC1_E80E_E80F_981F),
  (0x9658, 0xE811_92F6_E813_91E5_44C0_E816_E817_E818_98DC_E81A_3F00_922A),
  (0x9664, 0x4925_8414_993B_994D_E821_3DFD_999B_4B6F_99AA_9A5C_E827_E828),
  (0x9670, 0x6A8F_9A21_5AFE_9A2F_E82D_4B90_E82F_99BC_4BBD_4B97_937D_5872),
  (0x967C, 0xE835_5822_E837),
  (0x96A1, 0xE838_7844_E83A_E83B_68C5_3D7D_9458_3927_6150_E841_E842_6107),
  (0x96AD, 0x9C4F_9C53_9C7B_9C35_9C10_9B7F_9BCF_E84B_9B9F_E84D_E84E_9D21),
  (0x96B9, 0x4CAE_E851_9E18_4CB0_9D0C_E855_E856_E857_E858_9DA5_84BD_E85B),
  (0x96C5, 0xE85C_E85D_85FC_4533_E860_E861_E862_8420_85EE_E865_E866_E867),
  (0x96D1, 0x79E2_E869_E86A_492D_E86C_3D62_93DB_92BE_9348_E871_78B9_9277),
  (0x96DD, 0x944D_4FE4_3440_9064_E878_783D_7854_78B6_784B_E87D_E87E_E87F),
  (0x96E9, 0x369A_4F72_6FDA_6FD9_701E_701E_5414_E887_57BB_58F3_578A_9D16),
  (0x96F5, 0x57D7_7134_34AF_E88F_71EB_E891_E892_5B28_E894_E895),
  (0x9740, 0x610C_5ACE_5A0B_42BC_E89A_372C_4B7B_E89D_93BB_93B8_E8A0_E8A1),
  (0x974C, 0x8472_E8A3_E8A4_E8A5_E8A6_E8A7_5994_E8A9_E8AA_7DA8_E8AC_E8AD),
  (0x9758, 0xE8AE_E8AF_E8B0_92E5_73E2_3EE9_74B4_E8B5_E8B6_3EE1_E8B8_6AD8),
  (0x9764, 0x73F3_73FB_3ED6_E8BD_E8BE_E8BF_E8C0_E8C1_E8C2_E8C3_7448_E8C5),
  (0x9770, 0x70A5_E8C7_9284_73E6_935F_E8CB_9331_E8CD_E8CE_9386_E8D0_E8D1),
  (0x977C, 0x4935_E8D3_716B),
  (0x97A1, 0xE8D5_E8D6_56A4_E8D8_E8D9_E8DA_5502_79C4_E8DD_7DFE_E8DF_E8E0),
  (0x97AD, 0xE8E1_452E_9401_370A_E8E5_E8E6_59B0_E8E8_E8E9_E8EA_5AA1_36E2),
  (0x97B9, 0xE8ED_36B0_925F_5A79_E8F1_E8F2_9374_3CCD_E8F5_4A96_398A_50F4),
  (0x97C5, 0x3D69_3D4C_E8FB_7175_42FB_E8FE_6E0F_E900_44EB_6D57_E903_7067),
  (0x97D1, 0x6CAF_3CD6_E907_E908_6E02_6F0C_3D6F_E90C_7551_36BC_34C8_4680),
  (0x97DD, 0x3EDA_4871_59C4_926E_493E_8F41_E917_E918_5812_57C8_36D6_E91C),
  (0x97E9, 0x70FE_E91E_E91F_E920_E921_E922_68B9_6967_E925_E926_E927_E928),
  (0x97F5, 0xE929_E92A_E92B_E92C_6A1A_E92E_E92F_843E_44DF_44CE),
  (0x9840, 0xE933_E934_E935_E936_6F17_E938_833D_E93A_83ED_E93C_E93D_E93E),
  (0x984C, 0x5989_5A82_E941_5A61_5A71_E944_E945_372D_59EF_E948_36C7_718E),
  (0x9858, 0x9390_669A_E94D_5A6E_5A2B_E950_6A2B_E952_E953_E954_E955_711D),
  (0x9864, 0xE957_E958_4FB0_E95A_5CC2_E95C_E95D_E95E_6A0C_E960_E961_70A6),
  (0x9870, 0x7133_E964_3DA5_6CDF_E967_E968_7E65_59EB_5D2F_3DF3_5F5C_E96E),
  (0x987C, 0xE96F_7DA4_8426),
  (0x98A1, 0x5485_E973_E974_E975_577E_E977_E978_3FE5_E97A_E97B_7003_E97D),
  (0x98AD, 0x5D70_738F_7CD3_E981_E982_4FC8_7FE7_72CD_7310_E987_7338_7339),
  (0x98B9, 0xE98A_7341_7348_3EA9_E98E_906C_71F5_E991_73E1_81F6_3ECA_770C),
  (0x98C5, 0x3ED1_6CA2_56FD_7419_741E_741F_3EE2_3EF0_3EF4_3EFA_74D3_3F0E),
  (0x98D1, 0x3F53_7542_756D_7572_758D_3F7C_75C8_75DC_3FC0_764D_3FD7_7674),
  (0x98DD, 0x3FDC_767A_E9B0_7188_5623_8980_5869_401D_7743_4039_6761_4045),
  (0x98E9, 0x35DB_7798_406A_406F_5C5E_77BE_77CB_58F2_7818_70B9_781C_40A8),
  (0x98F5, 0x7839_7847_7851_7866_8448_E9CB_7933_6803_7932_4103),
  (0x9940, 0x4109_7991_7999_8FBB_7A06_8FBC_4167_7A91_41B2_7ABC_8279_41C4),
  (0x994C, 0x7ACF_7ADB_41CF_4E21_7B62_7B6C_7B7B_7C12_7C1B_4260_427A_7C7B),
  (0x9958, 0x7C9C_428C_7CB8_4294_7CED_8F93_70C0_E9EF_7DCF_7DD4_7DD0_7DFD),
  (0x9964, 0x7FAE_7FB4_729F_4397_8020_8025_7B39_802E_8031_8054_3DCC_57B4),
  (0x9970, 0x70A0_80B7_80E9_43ED_810C_732A_810E_8112_7560_8114_4401_3B39),
  (0x997C, 0x8156_8159_815A),
  (0x99A1, 0x4413_583A_817C_8184_4425_8193_442D_81A5_57EF_81C1_81E4_8254),
  (0x99AD, 0x448F_82A6_8276_82CA_82D8_82FF_44B0_8357_9669_698A_8405_70F5),
  (0x99B9, 0x8464_60E3_8488_4504_84BE_84E1_84F8_8510_8538_8552_453B_856F),
  (0x99C5, 0x8570_85E0_4577_8672_8692_86B2_86EF_9645_878B_4606_4617_88AE),
  (0x99D1, 0x88FF_8924_8947_8991_EA43_8A29_8A38_8A94_8AB4_8C51_8CD4_8CF2),
  (0x99DD, 0x8D1C_4798_585F_8DC3_47ED_4EEE_8E3A_55D8_5754_8E71_55F5_8EB0),
  (0x99E9, 0x4837_8ECE_8EE2_8EE4_8EED_8EF2_8FB7_8FC1_8FCA_8FCC_9033_99C4),
  (0x99F5, 0x48AD_98E0_9213_491E_9228_9258_926B_92B1_92AE_92BF),
  (0x9A40, 0x92E3_92EB_92F3_92F4_92FD_9343_9384_93AD_4945_4951_9EBF_9417),
  (0x9A4C, 0x5301_941D_942D_943E_496A_9454_9479_952D_95A2_49A7_95F4_9633),
  (0x9A58, 0x49E5_67A0_4A24_9740_4A35_97B2_97C2_5654_4AE4_60E8_98B9_4B19),
  (0x9A64, 0x98F1_5844_990E_9919_51B4_991C_9937_9942_995D_9962_4B70_99C5),
  (0x9A70, 0x4B9D_9A3C_9B0F_7A83_9B69_9B81_9BDD_9BF1_9BF4_4C6D_9C20_376F),
  (0x9A7C, 0xEAA9_9D49_9C3A),
  (0x9AA1, 0x9EFE_5650_9D93_9DBD_9DC0_9DFC_94F6_8FB6_9E7B_9EAC_9EB1_9EBD),
  (0x9AAD, 0x9EC6_94DC_9EE2_9EF1_9EF8_7AC8_9F44_EABF_EAC0_EAC1_691A_94C3),
  (0x9AB9, 0x59AC_EAC5_5840_94C1_37B9_EAC9_EACA_EACB_EACC_5757_7173_EACF),
  (0x9AC5, 0xEAD0_EAD1_546A_EAD3_EAD4_549E_EAD6_EAD7_EAD8_EAD9_EADA_60E7),
  (0x9AD1, 0xEADC_567A_EADE_EADF_EAE0_EAE1_EAE2_EAE3_6955_9C2F_87A5_EAE7),
  (0x9ADD, 0xEAE8_EAE9_EAEA_EAEB_EAEC_5C20_EAEE_5E0B_EAF0_EAF1_EAF2_671E),
  (0x9AE9, 0xEAF4_EAF5_EAF6_3647_EAF8_EAF9_EAFA_EAFB_5364_84AD_EAFE_EAFF),
  (0x9AF5, 0xEB00_8B81_EB02_EB03_EB04_EB05_4E78_70BB_EB08_EB09),
  (0x9B40, 0xEB0A_EB0B_EB0C_EB0D_EB0E_EB0F_62C3_EB11_EB12_7198_6855_EB15),
  (0x9B4C, 0x69E9_36C8_EB18_EB19_EB1A_EB1B_EB1C_EB1D_82FD_EB1F_EB20_EB21),
  (0x9B58, 0x89A5_EB23_8FA0_EB25_97B8_EB27_9847_9ABD_EB2A),
  (0x9B62, 0xEB2C_EB2D_EB2E_EB2F_EB30_EB31_EB32_EB33_EB34_EB35_EB36_EB37),
  (0x9B6E, 0xEB38_EB39_5FB1_6648_66BF_EB3D_EB3E_EB3F_7201_EB41_77D7_EB43),
  (0x9B7A, 0xEB44_7E87_EB46_58B5_670E),
  (0x9BA1, 0x6918_EB4A_EB4B_EB4C_EB4D_EB4E_EB4F_EB50_48D0_4AB8_EB53_EB54),
  (0x9BAD, 0xEB55_EB56_EB57_EB58_EB59_EB5A_EB5B_51D2_EB5D_599F_EB5F_3BBE),
  (0x9BB9, 0xEB61_EB62_EB63_5788_EB65_399B_EB67_EB68_EB69_3762_EB6B_8B5E),
  (0x9BC5, 0xEB6D_99D6_EB6F_EB70_EB71_7209_EB73_EB74_5965_EB76_EB77_EB78),
  (0x9BD1, 0x8EDA_EB7A_528F_573F_7171_EB7E_EB7F_EB80_EB81_55BC_EB83_EB84),
  (0x9BDD, 0xEB85_91D4_3473_EB88_EB89_EB8A_4718_EB8C_EB8D_EB8E_EB8F_EB90),
  (0x9BE9, 0x5066_34FB_EB93_60DE_EB95_477C_EB97_EB98_EB99_EB9A_EB9B_57A1),
  (0x9BF5, 0x7151_6FB6_EB9F_EBA0_9056_EBA2_EBA3_8B62_EBA5_EBA6),
  (0x9C40, 0x5D5B_EBA8_8F36_EBAA_EBAB_8AEA_EBAD_EBAE_EBAF_EBB0_4BC0_EBB2),
  (0x9C4C, 0xEBB3_EBB4_9465_EBB6_6195_5A27_EBB9_4FBB_56B9_EBBC_EBBD_4E6A),
  (0x9C58, 0xEBBF_9656_6D8F_EBC2_3618_8977_EBC5_EBC6_EBC7_EBC8_71DF_EBCA),
  (0x9C64, 0x7B42_EBCC_EBCD_EBCE_9104_EBD0_7A45_9DF0_EBD3_9A26_EBD5_365F),
  (0x9C70, 0xEBD7_EBD8_7983_EBDA_EBDB_5D2C_EBDD_83CF_EBDF_46D0_EBE1_753B),
  (0x9C7C, 0x8865_EBE4_58B6),
  (0x9CA1, 0x371C_EBE7_EBE8_EBE9_3C54_EBEB_EBEC_9281_EBEE_EBEF_9330_EBF1),
  (0x9CAD, 0xEBF2_6C39_949F_EBF5_EBF6_8827_88F5_EBF9_EBFA_EBFB_6EB8_EBFD),
  (0x9CB9, 0xEBFE_39A4_36B9_5C10_79E3_453F_66B6_EC05_EC06_8943_EC08_EC09),
  (0x9CC5, 0x56D6_40DF_EC0C_39A1_EC0E_EC0F_EC10_71AD_8366_EC13_EC14_5A67),
  (0x9CD1, 0x4CB7_EC17_EC18_EC19_EC1A_EC1B_EC1C_EC1D_7B43_797E_EC20_6FB5),
  (0x9CDD, 0xEC22_6A03_EC24_53A2_EC26_93BF_6836_975D_EC2A_EC2B_EC2C_EC2D),
  (0x9CE9, 0xEC2E_EC2F_5D85_EC31_EC32_5715_9823_EC35_5DAB_EC37_65BE_69D5),
  (0x9CF5, 0x53D2_EC3B_EC3C_3C11_6736_EC3F_EC40_EC41_EC42_EC43),
  (0x9D40, 0xEC44_EC45_EC46_EC47_EC48_EC49_35CA_EC4B_EC4C_48FA_63E6_EC4F),
  (0x9D4C, 0x7808_9255_EC52_43F2_EC54_43DF_EC56_EC57_EC58_59F8_EC5A_8F0B),
  (0x9D58, 0xEC5C_EC5D_7B51_EC5F_EC60_3DF7_EC62_EC63_8FD0_728F_568B_EC67),
  (0x9D64, 0xEC68_EC69_EC6A_EC6B_EC6C_EC6D_EC6E_EC6F_EC70_EC71_EC72_EC73),
  (0x9D70, 0x7E9F_EC75_EC76_4CA4_9547_EC79_71A2_EC7B_4D91_9012_EC7E_4D9C),
  (0x9D7C, 0xEC80_8FBE_55C1),
  (0x9DA1, 0x8FBA_EC84_8FB9_EC86_4509_7E7F_6F56_6AB1_4EEA_34E4_EC8D_EC8E),
  (0x9DAD, 0x373A_8E80_EC91_EC92_EC93_EC94_EC95_EC96_3DEB_EC98_EC99_EC9A),
  (0x9DB9, 0xEC9B_4E9A_EC9D_EC9E_56BF_ECA0_8E0E_5B6D_ECA3_ECA4_63DE_62D0),
  (0x9DC5, 0xECA7_ECA8_6530_562D_ECAB_541A_ECAD_3DC6_ECAF_4C7D_5622_561E),
  (0x9DD1, 0x7F49_ECB4_5975_ECB6_8770_4E1C_ECB9_ECBA_ECBB_8117_9D5E_8D18),
  (0x9DDD, 0x763B_9C45_764E_77B9_9345_5432_8148_82F7_5625_8132_8418_80BD),
  (0x9DE9, 0x55EA_7962_5643_5416_ECCF_35CE_5605_55F1_66F1_ECD4_362D_7534),
  (0x9DF5, 0x55F0_55BA_5497_5572_ECDB_ECDC_5ED0_ECDE_ECDF_ECE0),
  (0x9E40, 0xECE1_9EAB_7D5A_55DE_ECE5_629D_976D_5494_8CCD_71F6_9176_63FC),
  (0x9E4C, 0x63B9_63FE_5569_ECF0_9C72_ECF2_519A_34DF_ECF5_51A7_544D_551E),
  (0x9E58, 0x5513_7666_8E2D_ECFC_75B1_80B6_8804_8786_88C7_81B6_841C_ED04),
  (0x9E64, 0x44EC_7304_ED07_5B90_830B_ED0A_567B_ED0C_ED0D_ED0E_ED0F_ED10),
  (0x9E70, 0xED11_9170_ED13_9208_ED15_ED16_ED17_ED18_7266_ED1A_474E_ED1C),
  (0x9E7C, 0xED1D_ED1E_40FA),
  (0x9EA1, 0x9C5D_651F_ED22_48F3_ED24_ED25_ED26_ED27_6062_ED29_ED2A_ED2B),
  (0x9EAD, 0xED2C_ED2D_71A3_7E8E_9D50_4E1A_4E04_3577_5B0D_6CB2_5367_36AC),
  (0x9EB9, 0x39DC_537D_36A5_ED3B_589A_ED3D_822D_544B_57AA_ED41_ED42_ED43),
  (0x9EC5, 0x3A52_ED45_7374_ED47_4D09_9BED_ED4A_ED4B_4C5B_ED4D_ED4E_ED4F),
  (0x9ED1, 0x845C_ED51_ED52_ED53_ED54_632E_7D25_ED57_ED58_3A2A_9008_52CC),
  (0x9EDD, 0x3E74_367A_45E9_ED5F_7640_5AF0_ED62_787A_47B6_58A7_40BF_567C),
  (0x9EE9, 0x9B8B_5D74_7654_ED6B_9E85_4CE1_75F9_37FB_6119_ED71_ED72_ED73),
  (0x9EF5, 0x565D_ED75_57A7_ED77_ED78_5234_ED7A_35AD_6C4A_9D7C),
  (0x9F40, 0x7C56_9B39_57DE_ED81_5C53_64D3_ED84_ED85_ED86_86AD_ED88_ED89),
  (0x9F4C, 0xED8A_ED8B_ED8C_51FE_ED8E_5D8E_9703_ED91_9E81_904C_7B1F_9B02),
  (0x9F58, 0x5CD1_7BA3_6268_6335_9AFF_7BCF_9B2A_7C7E_9B2E_7C42_7C86_9C15),
  (0x9F64, 0x7BFC_9B09_9F17_9C1B_EDA6_9F5A_5573_5BC3_4FFD_9E98_4FF2_5260),
  (0x9F70, 0x3E06_52D1_5767_5056_59B7_5E12_97C8_9DAB_8F5C_5469_97B4_9940),
  (0x9F7C, 0x97BA_532C_6130),
  (0x9FA1, 0x692C_53DA_9C0A_9D02_4C3B_9641_6980_50A6_7546_EDC6_99DA_5273),
  (0x9FAD, 0xEDC9_9159_9681_915C_EDCD_9151_EDCF_637F_EDD1_6ACA_5611_918E),
  (0x9FB9, 0x757A_6285_EDD7_734F_7C70_EDDA_EDDB_EDDC_EDDD_76D6_9B9D_4E2A),
  (0x9FC5, 0xEDE1_83BE_8842_EDE4_5C4A_69C0_50ED_577A_521F_5DF5_4ECE_6C31),
  (0x9FD1, 0xEDED_4F39_549C_54DA_529A_8D82_35FE_5F0C_35F3_EDF6_6B52_917C),
  (0x9FDD, 0x9FA5_9B97_982E_98B4_9ABA_9EA8_9E84_717A_7B14_EE02_6BFA_8818),
  (0x9FE9, 0x7F78_EE06_5620_EE08_8E77_9F53_EE0B_8DD4_8E4F_9E1C_8E01_6282),
  (0x9FF5, 0xEE11_8E28_8E75_7AD3_EE15_7A3E_78D8_6CEA_8A67_7607),
  (0xA040, 0xEE1B_9F26_6CCE_87D6_75C3_EE20_7853_EE22_8D0C_72E2_7371_8B2D),
  (0xA04C, 0x7302_74F1_8CEB_EE2A_862F_5FBA_88A0_44B7_EE2F_EE30_EE31_EE32),
  (0xA058, 0x8A7E_EE34_EE35_60FD_7667_9AD7_9D44_936E_9B8F_87F5_EE3D_880F),
  (0xA064, 0x8CF7_732C_9721_9BB0_35D6_72B2_4C07_7C51_994A_EE48_6159_4C04),
  (0xA070, 0x9E96_617D_EE4D_575F_616F_62A6_6239_62CE_3A5C_61E2_53AA_EE56),
  (0xA07C, 0x6364_6802_35D2),
  (0xA0A1, 0x5D57_EE5B_8FDA_EE5D_EE5E_50D9_EE60_7906_5332_9638_EE64_4065),
  (0xA0AD, 0xEE66_77FE_EE68_7CC2_EE6A_7CDA_7A2D_8066_8063_7D4D_7505_74F2),
  (0xA0B9, 0x8994_821A_670C_8062_EE76_805B_74F0_8103_7724_8989_EE7C_7553),
  (0xA0C5, 0xEE7E_87A9_87CE_81C8_878C_8A49_8CAD_8B43_772B_74F8_84DA_3635),
  (0xA0D1, 0x69B2_8DA6_EE8C_89A9_7468_6DB9_87C1_EE91_74E7_3DDB_7176_60A4),
  (0xA0DD, 0x619C_3CD1_7162_6077_EE9A_7F71_EE9C_7250_60E9_4B7E_5220_EEA1),
  (0xA0E9, 0xEEA2_EEA3_EEA4_EEA5_EEA6_EEA7_EEA8_EEA9_EEAA_5CC1_EEAC_EEAD),
  (0xA0F5, 0xEEAE_EEAF_EEB0_EEB1_4562_5B1F_EEB4_9F50_9EA6_EEB7),
  (0xC6A1, 0x2460_2461_2462_2463_2464_2465_2466_2467_2468_2469_2474_2475),
  (0xC6AD, 0x2476_2477_2478_2479_247A_247B_247C_247D_2170_2171_2172_2173),
  (0xC6B9, 0x2174_2175_2176_2177_2178_2179_4E36_4E3F_4E85_4EA0_5182_5196),
  (0xC6C5, 0x51AB_52F9_5338_5369_53B6_590A_5B80_5DDB_2F33_5E7F_2F35_5F50),
  (0xC6D1, 0x5F61_6534_2F46_7592_2F68_8FB5_2FAA_00A8_02C6_30FD_30FE_309D),
  (0xC6DD, 0x309E_301E_4EDD_3005_3006_3007_30FC_FF3B_FF3D_273D_3041_3042),
  (0xC6E9, 0x3043_3044_3045_3046_3047_3048_3049_304A_304B_304C_304D_304E),
  (0xC6F5, 0x304F_3050_3051_3052_3053_3054_3055_3056_3057_3058),
  (0xC740, 0x3059_305A_305B_305C_305D_305E_305F_3060_3061_3062_3063_3064),
  (0xC74C, 0x3065_3066_3067_3068_3069_306A_306B_306C_306D_306E_306F_3070),
  (0xC758, 0x3071_3072_3073_3074_3075_3076_3077_3078_3079_307A_307B_307C),
  (0xC764, 0x307D_307E_307F_3080_3081_3082_3083_3084_3085_3086_3087_3088),
  (0xC770, 0x3089_308A_308B_308C_308D_308E_308F_3090_3091_3092_3093_30A1),
  (0xC77C, 0x30A2_30A3_30A4),
  (0xC7A1, 0x30A5_30A6_30A7_30A8_30A9_30AA_30AB_30AC_30AD_30AE_30AF_30B0),
  (0xC7AD, 0x30B1_30B2_30B3_30B4_30B5_30B6_30B7_30B8_30B9_30BA_30BB_30BC),
  (0xC7B9, 0x30BD_30BE_30BF_30C0_30C1_30C2_30C3_30C4_30C5_30C6_30C7_30C8),
  (0xC7C5, 0x30C9_30CA_30CB_30CC_30CD_30CE_30CF_30D0_30D1_30D2_30D3_30D4),
  (0xC7D1, 0x30D5_30D6_30D7_30D8_30D9_30DA_30DB_30DC_30DD_30DE_30DF_30E0),
  (0xC7DD, 0x30E1_30E2_30E3_30E4_30E5_30E6_30E7_30E8_30E9_30EA_30EB_30EC),
  (0xC7E9, 0x30ED_30EE_30EF_30F0_30F1_30F2_30F3_30F4_30F5_30F6_0410_0411),
  (0xC7F5, 0x0412_0413_0414_0415_0401_0416_0417_0418_0419_041A),
  (0xC840, 0x041B_041C_041D_041E_041F_0420_0421_0422_0423_0424_0425_0426),
  (0xC84C, 0x0427_0428_0429_042A_042B_042C_042D_042E_042F_0430_0431_0432),
  (0xC858, 0x0433_0434_0435_0451_0436_0437_0438_0439_043A_043B_043C_043D),
  (0xC864, 0x043E_043F_0440_0441_0442_0443_0444_0445_0446_0447_0448_0449),
  (0xC870, 0x044A_044B_044C_044D_044E_044F_21E7_21B8_21B9_F7E5_F7E6_4E5A),
  (0xC87C, 0xF7E8_5202_F7EA),
  (0xC8A1, 0xF7EB_5188_F7ED_F7EE_F7EF_F7F0_F7F1_F7F2_F7F3_F7F4_F7F5_F7F6),
  (0xC8AD, 0xF7F7_F7F8_F7F9_F7FA_F7FB_F7FC_F7FD_F7FE_F7FF_F800_F801_F802),
  (0xC8B9, 0xF803_F804_F805_F806_F807_F808_F809_F80A_F80B_F80C_F80D_F80E),
  (0xC8C5, 0xF80F_F810_F811_F812_F813_F814_F815_F816_FFE2_FFE4_FF07_FF02),
  (0xC8D1, 0x3231_2116_2121_309B_309C_2E80_2E84_2E86_2E87_2E88_2E8A_2E8C),
  (0xC8DD, 0x2E8D_2E95_2E9C_2E9D_2EA5_2EA7_2EAA_2EAC_2EAE_2EB6_2EBC_2EBE),
  (0xC8E9, 0x2EC6_2ECA_2ECC_2ECD_2ECF_2ED6_2ED7_2EDE_2EE3),
  (0xC8F5, 0x0283_0250_025B_0254_0275_0153_00F8_014B_028A_026A),
  (0xFA40, 0xE000_92DB_E002_E003_854C_42B5_73EF_51B5_3649_E009_E00A_9344),
  (0xFA4C, 0xE00C_82EE_E00E_783C_6744_62DF_E012_E013_E014_E015_E016_4FAB),
  (0xFA58, 0xE018_5008_E01A_E01B_E01C_E01D_E01E_5029_E020_5FA4_E022_E023),
  (0xFA64, 0x6EDB_E025_507D_5101_347A_510E_986C_3743_8416_E02D_E02E_5160),
  (0xFA70, 0xE030_516A_E032_E033_E034_E035_E036_E037_E038_5B82_877D_E03B),
  (0xFA7C, 0xE03C_51B2_51B8),
  (0xFAA1, 0x9D34_51C9_51CF_51D1_3CDC_51D3_E045_51B3_51E2_5342_51ED_83CD),
  (0xFAAD, 0x693E_E04C_5F7B_520B_5226_523C_52B5_5257_5294_52B9_52C5_7C15),
  (0xFAB9, 0x8542_52E0_860D_E05A_5305_E05C_5549_6ED9_E05F_E060_E061_5333),
  (0xFAC5, 0x3039_E064_6CCB_E066_681B_73D5_604A_3EAA_38CC_E06C_71DD_44A2),
  (0xFAD1, 0x536D_5374_E071_537E_537F_E074_E075_77E6_5393_E078_53A0_53AB),
  (0xFADD, 0x53AE_73A7_E07D_3F59_739C_53C1_53C5_6C49_4E49_57FE_53D9_3AAB),
  (0xFAE9, 0xE087_53E0_E089_E08A_53F6_E08C_5413_7079_552B_6657_6D5B_546D),
  (0xFAF5, 0xE093_E094_555D_548F_54A4_47A6_E099_E09A_3DB4_E09C),
  (0xFB40, 0xE09D_E09E_5547_4CED_542F_7417_5586_55A9_5605_E0A6_E0A7_4552),
  (0xFB4C, 0xE0A9_66B3_E0AB_5637_66CD_E0AE_66A4_66AD_564D_564F_78F1_56F1),
  (0xFB58, 0x9787_53FE_5700_56EF_56ED_E0BA_3623_E0BC_5746_E0BE_6C6E_708B),
  (0xFB64, 0x5742_36B1_E0C3_57E6_E0C5_5803_E0C7_E0C8_5826_E0CA_585C_58AA),
  (0xFB70, 0x3561_58E0_58DC_E0D0_58FB_5BFF_5743_E0D4_E0D5_93D3_35A1_591F),
  (0xFB7C, 0x68A6_36C3_6E59),
  (0xFBA1, 0xE0DC_5A24_5553_E0DF_8505_59C9_E0E2_E0E3_E0E4_E0E5_59D9_E0E7),
  (0xFBAD, 0xE0E8_E0E9_6D71_E0EB_E0EC_59F9_E0EE_5AAB_5A63_36E6_E0F2_5A77),
  (0xFBB9, 0x3708_5A96_7465_5AD3_E0F8_E0F9_3D85_E0FB_3732_E0FD_5E83_52D0),
  (0xFBC5, 0x5B76_6588_5B7C_E103_4004_485D_E106_5BD5_6160_E109_E10A_E10B),
  (0xFBD1, 0x5BF3_5B9D_4D10_5C05_E110_5C13_73CE_5C14_E114_E115_5C49_48DD),
  (0xFBDD, 0x5C85_5CE9_5CEF_5D8B_E11C_E11D_5D10_5D18_5D46_E121_5CBA_5DD7),
  (0xFBE9, 0x82FC_382D_E126_E127_E128_8287_3836_3BC2_5E2E_6A8A_5E75_5E7A),
  (0xFBF5, 0xE130_E131_53A6_4EB7_5ED0_53A8_E136_5E09_5EF4_E139),
  (0xFC40, 0x5EF9_5EFB_38A0_5EFC_683E_941B_5F0D_E141_E142_3ADE_48AE_E145),
  (0xFC4C, 0x5F3A_E147_E148_5F58_E14A_5F63_97BD_E14D_5F72_9340_E150_5FA7),
  (0xFC58, 0x5DB6_3D5F_E154_E155_E156_E157_91D6_E159_E15A_6031_6685_E15D),
  (0xFC64, 0x3963_3DC7_3639_5790_E162_7971_3E40_609E_60A4_60B3_E168_E169),
  (0xFC70, 0xE16A_74A4_50E1_5AA0_6164_8424_6142_E171_E172_6181_51F4_E175),
  (0xFC7C, 0x6187_5BAA_E178),
  (0xFCA1, 0xE179_61D3_E17B_E17C_61D0_3932_E17F_E180_6023_615C_651E_638B),
  (0xFCAD, 0xE185_62C5_E187_62D5_E189_636C_E18B_3A17_6438_63F8_E18F_E190),
  (0xFCB9, 0x6490_6F8A_E193_9814_E195_E196_64E1_64E5_947B_3A66_643A_3A57),
  (0xFCC5, 0x654D_6F16_E19F_E1A0_6585_656D_655F_E1A4_65B5_E1A6_4B37_65D1),
  (0xFCD1, 0x40D8_E1AA_65E0_65E3_5FDF_E1AE_6618_E1B0_E1B1_6644_E1B3_E1B4),
  (0xFCDD, 0x664B_E1B6_6667_E1B8_6673_6674_E1BB_E1BC_E1BD_E1BE_E1BF_77C5),
  (0xFCE9, 0xE1C1_99A4_6702_E1C4_E1C5_3B2B_69FA_E1C8_675E_6767_6762_E1CC),
  (0xFCF5, 0xE1CD_67D7_44E9_6822_6E50_923C_6801_E1D4_E1D5_685D),
  (0xFD40, 0xE1D7_69E1_6A0B_E1DA_6973_68C3_E1DD_6901_6900_3D32_3A01_E1E2),
  (0xFD4C, 0x3B80_67AC_6961_E1E6_42FC_6936_6998_3BA1_E1EB_8363_5090_69F9),
  (0xFD58, 0xE1EF_E1F0_6A45_E1F2_6A9D_3BF3_67B1_6AC8_E1F7_3C0D_6B1D_E1FA),
  (0xFD64, 0x60DE_6B35_6B74_E1FE_6EB5_E200_E201_E202_3740_5421_E205_6BE1),
  (0xFD70, 0xE207_6BDC_6C37_E20A_E20B_E20C_6C5A_8226_6C79_E210_44C5_E212),
  (0xFD7C, 0xE213_E214_E215),
  (0xFDA1, 0xE216_36E5_3CEB_E219_9B83_E21B_E21C_7F8F_6837_E21F_E220_E221),
  (0xFDAD, 0x6D96_6D5C_6E7C_6F04_E226_E227_E228_8533_E22A_51C7_6C9C_6E1D),
  (0xFDB9, 0x842E_E22F_6E2F_E231_7453_E233_79CC_6E4F_5A91_E237_6FF8_370D),
  (0xFDC5, 0x6F9D_E23B_6EFA_E23D_E23E_4555_93F0_6F44_6F5C_3D4E_6F74_E245),
  (0xFDD1, 0x3D3B_6F9F_E248_6FD3_E24A_E24B_E24C_E24D_E24E_E24F_51DF_E251),
  (0xFDDD, 0xE252_E253_E254_704B_707E_70A7_7081_70CC_70D5_70D6_70DF_4104),
  (0xFDE9, 0x3DE8_71B4_7196_E261_712B_7145_5A88_714A_716E_5C9C_E268_714F),
  (0xFDF5, 0x9362_E26B_712C_E26D_E26E_E26F_71BA_E271_70BD_720E),
  (0xFE40, 0x9442_7215_5911_9443_7224_9341_E27A_722E_7240_E27D_68BD_7255),
  (0xFE4C, 0x7257_3E55_E282_680D_6F3D_7282_732A_732B_E288_E289_48ED_E28B),
  (0xFE58, 0x7328_732E_73CF_73AA_E290_E291_73C9_7449_E294_E295_E296_6623),
  (0xFE64, 0x36C5_E299_E29A_E29B_73F7_7415_6903_E29F_7439_E2A1_3ED7_745C),
  (0xFE70, 0xE2A4_7460_E2A6_7447_73E4_7476_83B9_746C_3730_7474_93F1_6A2C),
  (0xFE7C, 0x7482_4953_E2B2),
  (0xFEA1, 0xE2B3_E2B4_E2B5_5B46_E2B7_E2B8_74C8_E2BA_750E_74E9_751E_E2BE),
  (0xFEAD, 0xE2BF_5BD7_E2C1_9385_754D_754A_7567_756E_E2C7_3F04_E2C9_758E),
  (0xFEB9, 0x745D_759E_75B4_7602_762C_7651_764F_766F_7676_E2D4_7690_81EF),
  (0xFEC5, 0x37F8_E2D8_E2D9_76A1_76A5_76B7_76CC_E2DE_8462_E2E0_E2E1_E2E2),
  (0xFED1, 0x771E_7726_7740_64AF_E2E7_7758_E2E9_77AF_E2EB_E2EC_E2ED_77F4),
  (0xFEDD, 0x7809_E2F0_E2F1_68CA_78AF_78C7_78D3_96A5_792E_E2F8_78D7_7934),
  (0xFEE9, 0x78B1_E2FC_8FB8_8884_E2FF_E300_E301_7986_8900_6902_7980_E306),
  (0xFEF5, 0x799D_E308_793C_79A9_6E2A_E30C_3EA8_79C6_E30F_79D4)]

/-- /repo/modules/from/_HKSCS1999.txt; there is no file for writing. -/
def hkscs1999 : Charset where
  reads := hkscs1999Reads
  writes := []

/-- The rules of /repo/modules/from/_HKSCS2001.txt: code, character.  No two lines have the same code, so their order does not matter; here they
are sorted. -/
def hkscs2001Reads : Chart := [
  (0x8840, [0xF303, 0xF304, 0xF305, 0xF306, 0xF307, 0x2010C, 0xF309, 0x200D1, 0x200CD, 0xF30C, 0xF30D, 0x200CB]),
  (0x884C, [0x21FE8, 0xF310, 0x200CA, 0xF312, 0xF313, 0xF314, 0xF315, 0x2010E, 0xF317, 0xF318, 0x100, 0xC1]),
  (0x8858, [0x1CD, 0xC0, 0x112, 0xC9, 0x11A, 0xC8, 0x14C, 0xD3, 0x1D1, 0xD2, 0xF325, 0x1EBE]),
  (0x8864, [0xF327, 0x1EC0, 0xCA, 0x101, 0xE1, 0x1CE, 0xE0, 0x251, 0x113, 0xE9, 0x11B, 0xE8]),
  (0x8870, [0x12B, 0xED, 0x1D0, 0xEC, 0x14D, 0xF3, 0x1D2, 0xF2, 0x16B, 0xFA, 0x1D4, 0xF9]),
  (0x887C, [0x1D6, 0x1D8, 0x1DA]),
  (0x88A1, [0x1DC, 0xFC, 0xF344, 0x1EBF, 0xF346, 0x1EC1, 0xEA, 0x261, 0xF34A, 0xF34B]),
  (0x8940, [0x2A3A9, 0x21145]),
  (0x8943, [0x650A]),
  (0x8946, [0x4E3D, 0x6EDD, 0x9D4E, 0x91DF]),
  (0x894C, [0x27735, 0x6491, 0x4F1A, 0x4F28, 0x4FA8, 0x5156, 0x5174, 0x519C, 0x51E4, 0x52A1, 0x52A8, 0x533B]),
  (0x8958, [0x534E, 0x53D1, 0x53D8, 0x56E2, 0x58F0, 0x5904, 0x5907, 0x5932, 0x5934, 0x5B66, 0x5B9E, 0x5B9F]),
  (0x8964, [0x5C9A, 0x5E86, 0x603B, 0x6589, 0x67FE, 0x6804, 0x6865, 0x6D4E, 0x70BC, 0x7535, 0x7EA4, 0x7EAC]),
  (0x8970, [0x7EBA, 0x7EC7, 0x7ECF, 0x7EDF, 0x7F06, 0x7F37, 0x827A, 0x82CF, 0x836F, 0x89C6, 0x8BBE, 0x8BE2]),
  (0x897C, [0x8F66, 0x8F67, 0x8F6E]),
  (0x89A1, [0x7411, 0x7CFC, 0x7DCD, 0x6946, 0x7AC9, 0x5227]),
  (0x89AB, [0x918C, 0x78B8, 0x915E, 0x80BC]),
  (0x89B0, [0x8D0B, 0x80F6, 0x209E7]),
  (0x89B5, [0x809F, 0x9EC7, 0x4CCD, 0x9DC9, 0x9E0C, 0x4C3E, 0x29DF6, 0x2700E, 0x9E0A, 0x2A133, 0x35C1]),
  (0x89C1, [0x6E9A, 0x823E, 0x7519]),
  (0x89C5, [0x4911, 0x9A6C, 0x9A8F, 0x9F99, 0x7987, 0x2846C, 0x21DCA, 0x205D0, 0x22AE6, 0x4E24, 0x4E81, 0x4E80]),
  (0x89D1, [0x4E87, 0x4EBF, 0x4EEB, 0x4F37, 0x344C, 0x4FBD, 0x3E48, 0x5003, 0x5088, 0x347D, 0x3493, 0x34A5]),
  (0x89DD, [0x5186, 0x5905, 0x51DB, 0x51FC, 0x5205, 0x4E89, 0x5279, 0x5290, 0x5327, 0x35C7, 0x53A9, 0x3551]),
  (0x89E9, [0x53B0, 0x3553, 0x53C2, 0x5423, 0x356D, 0x3572, 0x3681, 0x5493, 0x54A3, 0x54B4, 0x54B9, 0x54D0]),
  (0x89F5, [0x54EF, 0x5518, 0x5523, 0x5528, 0x3598, 0x553F, 0x35A5, 0x35BF, 0x55D7, 0x35C5]),
  (0x8A40, [0x27D84, 0x5525]),
  (0x8A43, [0x20C42, 0x20D15, 0x2512B, 0x5590, 0x22CC6, 0x39EC, 0x20341, 0x8E46, 0x24DB8, 0x294E5, 0x4053, 0x280BE]),
  (0x8A4F, [0x777A, 0x22C38, 0x3A34, 0x47D5, 0x2815D, 0x269F2, 0x24DEA, 0x64DD, 0x20D7C, 0x20FB4, 0x20CD5, 0x210F4]),
  (0x8A5B, [0x648D, 0x8E7E, 0x20E96, 0x20C0B, 0x20F64, 0x22CA9, 0x28256, 0x244D3]),
  (0x8A64, [0x20D46, 0x29A4D, 0x280E9, 0x47F4, 0x24EA7, 0x22CC2, 0x9AB2, 0x3A67, 0x295F4, 0x3FED, 0x3506, 0x252C7]),
  (0x8A70, [0x297D4, 0x278C8, 0x22D44, 0x9D6E, 0x9815]),
  (0x8A76, [0x43D9, 0x260A5, 0x64B4, 0x54E3, 0x22D4C, 0x22BCA, 0x21077, 0x39FB, 0x2106F]),
  (0x8AA1, [0x266DA, 0x26716, 0x279A0, 0x64EA, 0x25052, 0x20C43, 0x8E68, 0x221A1, 0x28B4C, 0x20731]),
  (0x8AAC, [0x480B, 0x201A9, 0x3FFA, 0x5873, 0x22D8D]),
  (0x8AB2, [0x245C8, 0x204FC, 0x26097, 0x20F4C, 0x20D96, 0x5579, 0x40BB, 0x43BA]),
  (0x8ABB, [0x4AB4, 0x22A66, 0x2109D, 0x81AA, 0x98F5, 0x20D9C, 0x6379, 0x39FE, 0x22775, 0x8DC0, 0x56A1, 0x647C]),
  (0x8AC7, [0x3E43]),
  (0x8AC9, [0x2A601, 0x20E09, 0x22ACF, 0x22CC9]),
  (0x8ACE, [0x210C8, 0x239C2, 0x3992, 0x3A06, 0x2829B, 0x3578, 0x25E49, 0x220C7, 0x5652, 0x20F31, 0x22CB2, 0x29720]),
  (0x8ADA, [0x34BC, 0x6C3D, 0x24E3B]),
  (0x8ADF, [0x27574, 0x22E8B, 0x22208, 0x2A65B, 0x28CCD, 0x20E7A, 0x20C34, 0x2681C, 0x7F93, 0x210CF, 0x22803, 0x22939]),
  (0x8AEB, [0x35FB, 0x251E3, 0x20E8C, 0x20F8D, 0x20EAA, 0x3F93, 0x20F30, 0x20D47, 0x2114F, 0x20E4C]),
  (0x8AF6, [0x20EAB, 0x20BA9, 0x20D48, 0x210C0, 0x2113D, 0x3FF9, 0x22696, 0x6432, 0x20FAD]),
  (0x8B40, [0x233F4, 0x27639, 0x22BCE, 0x20D7E, 0x20D7F, 0x22C51, 0x22C55, 0x3A18, 0x20E98, 0x210C7, 0x20F2E, 0x2A632]),
  (0x8B4C, [0x26B50, 0x28CD2, 0x28D99, 0x28CCA, 0x95AA, 0x54CC, 0x82C4, 0x55B9]),
  (0x8B55, [0x29EC3, 0x9C26, 0x9AB6, 0x2775E, 0x22DEE, 0x7140, 0x816D, 0x80EC, 0x5C1C, 0x26572, 0x8134, 0x3797]),
  (0x8B61, [0x535F, 0x280BD, 0x91B6, 0x20EFA, 0x20E0F, 0x20E77, 0x20EFB, 0x35DD, 0x24DEB, 0x3609, 0x20CD6, 0x56AF]),
  (0x8B6D, [0x227B5, 0x210C9, 0x20E10, 0x20E78, 0x21078, 0x21148, 0x28207, 0x21455, 0x20E79, 0x24E50, 0x22DA4, 0x5A54]),
  (0x8B79, [0x2101D, 0x2101E, 0x210F5, 0x210F6, 0x579C, 0x20E11]),
  (0x8BA1, [0x27694, 0x282CD, 0x20FB5, 0x20E7B, 0x2517E, 0x3703, 0x20FB6, 0x21180, 0x252D8, 0x2A2BD, 0x249DA, 0x2183A]),
  (0x8BAD, [0x24177, 0x2827C, 0x5899, 0x5268, 0x361A, 0x2573D, 0x7BB2, 0x5B68, 0x4800, 0x4B2C, 0x9F27, 0x49E7]),
  (0x8BB9, [0x9C1F, 0x9B8D, 0x25B74, 0x2313D, 0x55FB, 0x35F2, 0x5689, 0x4E28, 0x5902, 0x21BC1, 0x2F878, 0x9751]),
  (0x8BC5, [0x20086, 0x4E5B, 0x4EBB, 0x353E, 0x5C23, 0x5F51, 0x5FC4, 0x38FA, 0x624C, 0x6535, 0x6B7A, 0x6C35]),
  (0x8BD1, [0x6C3A, 0x706C, 0x722B, 0x4E2C, 0x72AD, 0x248E9, 0x7F52, 0x793B, 0x7CF9, 0x7F53, 0x2626A, 0x34C1]),
  (0x8BDE, [0x2634B, 0x8002, 0x8080, 0x26612, 0x26951, 0x535D, 0x8864, 0x89C1, 0x278B2, 0x8BA0, 0x8D1D, 0x9485]),
  (0x8BEA, [0x9578, 0x957F, 0x95E8, 0x28E0F, 0x97E6, 0x9875, 0x98CE, 0x98DE, 0x9963, 0x29810, 0x9C7C, 0x9E1F]),
  (0x8BF6, [0x9EC4, 0x6B6F, 0xF907, 0x4E37, 0x20087, 0x961D, 0x6237, 0x94A2]),
  (0x8C40, [0x503B, 0x6DFE, 0x29C73, 0xF57A, 0x3DC9, 0x888F, 0x2414E, 0x7077, 0x5CF5, 0x4B20, 0x251CD, 0x3559]),
  (0x8C4C, [0x25D30, 0x6122, 0x28A32, 0x8FA7, 0x91F6, 0x7191, 0x6719, 0x73BA, 0x23281, 0x2A107, 0x3C8B, 0x21980]),
  (0x8C58, [0x4B10, 0x78E4, 0x7402, 0x51AE, 0x2870F, 0x4009, 0x6A63, 0x2A2BA, 0x4223, 0x860F]),
  (0x8C63, [0x7A2A, 0x29947, 0x28AEA, 0x9755, 0x704D, 0x5324, 0x2207E, 0x93F4, 0x76D9, 0x289E3, 0xF5A4, 0x77DD]),
  (0x8C6F, [0x4EA3, 0x4FF0, 0x50BC, 0x4E2F, 0x4F17, 0xF5AB, 0x5434, 0x7D8B, 0x5892, 0x58D0, 0x21DB6, 0x5E92]),
  (0x8C7B, [0x5E99, 0x5FC2, 0x22712, 0x658B]),
  (0x8CA1, [0x233F9, 0x6919, 0x6A43, 0x23C63, 0x6CFF]),
  (0x8CA7, [0x7200, 0x24505, 0x738C, 0x3EDB, 0x24A13, 0x5B15, 0x74B9, 0x8B83, 0x25CA4, 0x25695, 0x7A93, 0x7BEC]),
  (0x8CB3, [0x7CC3, 0x7E6C, 0x82F8, 0x8597, 0xF5CC, 0x8890, 0xF5CE, 0x8EB9, 0xF5D0, 0x8FCF, 0x855F, 0x99E0]),
  (0x8CBF, [0x9221, 0xF5D5, 0x28DB9, 0x2143F, 0x4071, 0x42A2, 0x5A1A]),
  (0x8CC9, [0x9868, 0x676B, 0x4276, 0x573D]),
  (0x8CCE, [0x85D6, 0x2497B, 0x82BF, 0x2710D, 0x4C81, 0x26D74, 0x5D7B, 0x26B15, 0x26FBE, 0xF5EC, 0xF5ED, 0x5B96]),
  (0x8CDA, [0xF5EF]),
  (0x8CDC, [0x7E5B]),
  (0x8D60, [0x5D3E, 0x5D48, 0x5D56, 0x3DFC, 0x380F, 0x5DA4, 0x5DB9, 0x3820, 0x3838, 0x5E42, 0x5EBD, 0x5F25]),
  (0x8D6C, [0x5F83, 0x3908, 0x3914, 0x393F, 0x394D, 0x60D7, 0x613D, 0x5CE5, 0x3989, 0x61B7, 0x61B9, 0x61CF]),
  (0x8D78, [0x39B8, 0x622C, 0x6290, 0x62E5, 0x6318, 0x39F8, 0x56B1]),
  (0x8DA1, [0x3A03, 0x63E2, 0x63FB, 0x6407, 0x645A, 0x3A4B, 0x64C0, 0x5D15, 0x5621, 0x9F9F, 0x3A97, 0x6586]),
  (0x8DAD, [0x3ABD, 0x65FF, 0x6653, 0x3AF2, 0x6692, 0x3B22, 0x6716, 0x3B42, 0x67A4, 0x6800, 0x3B58, 0x684A]),
  (0x8DB9, [0x6884, 0x3B72, 0x3B71, 0x3B7B, 0x6909, 0x6943, 0x725C, 0x6964, 0x699F, 0x6985, 0x3BBC, 0x69D6]),
  (0x8DC5, [0x3BDD, 0x6A65, 0x6A74, 0x6A71, 0x6A82, 0x3BEC, 0x6A99, 0x3BF2, 0x6AAB, 0x6AB5, 0x6AD4, 0x6AF6]),
  (0x8DD1, [0x6B81, 0x6BC1, 0x6BEA, 0x6C75, 0x6CAA, 0x3CCB, 0x6D02, 0x6D06, 0x6D26, 0x6D81, 0x3CEF, 0x6DA4]),
  (0x8DDD, [0x6DB1, 0x6E15, 0x6E18, 0x6E29, 0x6E86, 0x289C0, 0x6EBB, 0x6EE2, 0x6EDA, 0x9F7F, 0x6EE8, 0x6EE9]),
  (0x8DE9, [0x6F24, 0x6F34, 0x3D46, 0x23F41, 0x6F81, 0x6FBE, 0x3D6A, 0x3D75, 0x71B7, 0x5C99, 0x3D8A, 0x702C]),
  (0x8DF5, [0x3D91, 0x7050, 0x7054, 0x706F, 0x707F, 0x7089, 0x20325, 0x43C1, 0x35F1, 0x20ED8]),
  (0x8E40, [0x23ED7, 0x57BE, 0x26ED3, 0x713E, 0x257E0, 0x364E, 0x69A2, 0x28BE9, 0x5B74, 0x7A49, 0x258E1, 0x294D9]),
  (0x8E4C, [0x7A65, 0x7A7D, 0x259AC, 0x7ABB, 0x7AB0, 0x7AC2, 0x7AC3, 0x71D1, 0x2648D, 0x41CA, 0x7ADA, 0x7ADD]),
  (0x8E58, [0x7AEA, 0x41EF, 0x54B2, 0x25C01, 0x7B0B, 0x7B55, 0x7B29, 0x2530E, 0x25CFE, 0x7BA2, 0x7B6F, 0x839C]),
  (0x8E64, [0x25BB4, 0x26C7F, 0x7BD0, 0x8421, 0x7B92, 0x7BB8, 0x25D20, 0x3DAD, 0x25C65, 0x8492, 0x7BFA, 0x7C06]),
  (0x8E70, [0x7C35, 0x25CC1, 0x7C44, 0x7C83, 0x24882, 0x7CA6, 0x667D, 0x24578, 0x7CC9, 0x7CC7, 0x7CE6, 0x7C74]),
  (0x8E7C, [0x7CF3, 0x7CF5, 0x7CCE]),
  (0x8EA1, [0x7E67, 0x451D, 0x26E44, 0x7D5D, 0x26ED6, 0x748D, 0x7D89, 0x7DAB, 0x7135, 0x7DB3, 0x7DD2, 0x24057]),
  (0x8EAD, [0x26029, 0x7DE4, 0x3D13, 0x7DF5, 0x217F9, 0x7DE5, 0x2836D, 0x7E1D, 0x26121, 0x2615A, 0x7E6E, 0x7E92]),
  (0x8EB9, [0x432B, 0x946C, 0x7E27, 0x7F40, 0x7F41, 0x7F47, 0x7936, 0x262D0, 0x99E1, 0x7F97, 0x26351, 0x7FA3]),
  (0x8EC5, [0x21661, 0x20068, 0x455C, 0x23766, 0x4503, 0x2833A, 0x7FFA, 0x26489, 0x8005, 0x8008, 0x801D, 0x8028]),
  (0x8ED1, [0x802F, 0x2A087, 0x26CC3, 0x803B, 0x803C, 0x8061, 0x22714, 0x4989, 0x26626, 0x23DE3, 0x266E8, 0x6725]),
  (0x8EDD, [0x80A7, 0x28A48, 0x8107, 0x811A, 0x58B0, 0x226F6, 0x6C7F, 0x26498, 0x24FB8, 0x64E7, 0x2148A, 0x8218]),
  (0x8EE9, [0x2185E, 0x6A53, 0x24A65, 0x24A95, 0x447A, 0x8229, 0x20B0D, 0x26A52, 0x23D7E, 0x4FF9, 0x214FD, 0x84E2]),
  (0x8EF5, [0x8362, 0x26B0A, 0x249A7, 0x23530, 0x21773, 0x23DF8, 0x82AA, 0x691B, 0x2F994, 0x41DB]),
  (0x8F40, [0x854B, 0x82D0, 0x831A, 0x20E16, 0x217B4, 0x36C1, 0x2317D, 0x2355A, 0x827B, 0x82E2, 0x8318, 0x23E8B]),
  (0x8F4C, [0x26DA3, 0x26B05, 0x26B97, 0x235CE, 0x3DBF, 0x831D, 0x55EC, 0x8385, 0x450B, 0x26DA5, 0x83AC, 0x83C1]),
  (0x8F58, [0x83D3, 0x347E, 0x26ED4, 0x6A57, 0x855A, 0x3496, 0x26E42, 0x22EEF, 0x8458, 0x25BE4, 0x8471, 0x3DD3]),
  (0x8F64, [0x44E4, 0x6AA7, 0x844A, 0x23CB5, 0x7958, 0x84A8, 0x26B96, 0x26E77, 0x26E43, 0x84DE, 0x840F, 0x8391]),
  (0x8F70, [0x44A0, 0x8493, 0x84E4, 0x25C91, 0x4240, 0x25CC0, 0x4543, 0x8534, 0x5AF2, 0x26E99, 0x4527, 0x8573]),
  (0x8F7C, [0x4516, 0x67BF, 0x8616]),
  (0x8FA1, [0x28625, 0x2863B, 0x85C1, 0x27088, 0x8602, 0x21582, 0x270CD, 0x2F9B2, 0x456A, 0x8628, 0x3648, 0x218A2]),
  (0x8FAD, [0x53F7, 0x2739A, 0x867E, 0x8771, 0x2A0F8, 0x87EE, 0x22C27, 0x87B1, 0x87DA, 0x880F, 0x5661, 0x866C]),
  (0x8FB9, [0x6856, 0x460F, 0x8845, 0x8846, 0x275E0, 0x23DB9, 0x275E4, 0x885E, 0x889C, 0x465B, 0x88B4, 0x88B5]),
  (0x8FC5, [0x63C1, 0x88C5, 0x7777, 0x2770F, 0x8987, 0x898A, 0x89A6, 0x89A9, 0x89A7, 0x89BC, 0x28A25, 0x89E7]),
  (0x8FD1, [0x27924, 0x27ABD, 0x8A9C, 0x7793, 0x91FE, 0x8A90, 0x27A59, 0x7AE9, 0x27B3A, 0x23F8F, 0x4713, 0x27B38]),
  (0x8FDD, [0x717C, 0x8B0C, 0x8B1F, 0x25430, 0x25565, 0x8B3F, 0x8B4C, 0x8B4D, 0x8AA9, 0x24A7A, 0x8B90, 0x8B9B]),
  (0x8FE9, [0x8AAF, 0x216DF, 0x4615, 0x884F, 0x8C9B, 0x27D54, 0x27D8F, 0x2F9D4, 0x3725, 0x27D53, 0x8CD6, 0x27D98]),
  (0x8FF5, [0x27DBD, 0x8D12, 0x8D03, 0x21910, 0x8CDB, 0x705C, 0x8D11, 0x24CC9, 0x3ED0, 0x8D77]),
  (0x9040, [0x8DA9, 0x28002, 0x21014, 0x2498A, 0x3B7C, 0x281BC, 0x2710C, 0x7AE7, 0x8EAD, 0x8EB6, 0x8EC3, 0x92D4]),
  (0x904C, [0x8F19, 0x8F2D, 0x28365, 0x28412, 0x8FA5, 0x9303, 0x2A29F, 0x20A50, 0x8FB3, 0x492A, 0x289DE, 0x2853D]),
  (0x9058, [0x23DBB, 0x5EF8, 0x23262, 0x8FF9, 0x2A014, 0x286BC, 0x28501, 0x22325, 0x3980, 0x26ED7, 0x9037, 0x2853C]),
  (0x9064, [0x27ABE, 0x9061, 0x2856C, 0x2860B, 0x90A8, 0x28713, 0x90C4, 0x286E6, 0x90AE, 0x90FD, 0x9167, 0x3AF0]),
  (0x9070, [0x91A9, 0x91C4, 0x7CAC, 0x28933, 0x21E89, 0x920E, 0x6C9F, 0x9241, 0x9262, 0x255B9, 0x92B9, 0x28AC6]),
  (0x907C, [0x23C9B, 0x28B0C, 0x255DB]),
  (0x90A1, [0x20D31, 0x932C, 0x936B, 0x28AE1, 0x28BEB, 0x708F, 0x5AC3, 0x28AE2, 0x28AE5, 0x4965, 0x9244, 0x28BEC]),
  (0x90AD, [0x28C39, 0x28BFF, 0x9373, 0x945B, 0x8EBC, 0x9585, 0x95A6, 0x9426, 0x95A0, 0x6FF6, 0x42B9, 0x2267A]),
  (0x90B9, [0x286D8, 0x2127C, 0x23E2E, 0x49DF, 0x6C1C, 0x967B, 0x9696, 0x416C, 0x96A3, 0x26ED5, 0x61DA, 0x96B6]),
  (0x90C5, [0x78F5, 0x28AE0, 0x96BD, 0x53CC, 0x49A1, 0x26CB8, 0x20274, 0x26410, 0x290AF, 0x290E5, 0x24AD1, 0x21915]),
  (0x90D1, [0x2330A, 0x9731, 0x8642, 0x9736, 0x4A0F, 0x453D, 0x4585, 0x24AE9, 0x7075, 0x5B41, 0x971B, 0x975C]),
  (0x90DD, [0x291D5, 0x9757, 0x5B4A, 0x291EB, 0x975F, 0x9425, 0x50D0, 0x230B7, 0x230BC, 0x9789, 0x979F, 0x97B1]),
  (0x90E9, [0x97BE, 0x97C0, 0x97D2, 0x97E0, 0x2546C, 0x97EE, 0x741C, 0x29433, 0x97FF, 0x97F5, 0x2941D, 0x2797A]),
  (0x90F5, [0x4AD1, 0x9834, 0x9833, 0x984B, 0x9866, 0x3B0E, 0x27175, 0x3D51, 0x20630, 0x2415C]),
  (0x9140, [0x25706, 0x98CA, 0x98B7, 0x98C8, 0x98C7, 0x4AFF, 0x26D27, 0x216D3, 0x55B0, 0x98E1, 0x98E6, 0x98EC]),
  (0x914C, [0x9378, 0x9939, 0x24A29, 0x4B72, 0x29857, 0x29905, 0x99F5, 0x9A0C, 0x9A3B, 0x9A10, 0x9A58, 0x25725]),
  (0x9158, [0x36C4, 0x290B1, 0x29BD5, 0x9AE0, 0x9AE2, 0x29B05, 0x9AF4, 0x4C0E, 0x9B14, 0x9B2D, 0x28600, 0x5034]),
  (0x9164, [0x9B34, 0x269A8, 0x38C3, 0x2307D, 0x9B50, 0x9B40, 0x29D3E, 0x5A45, 0x21863, 0x9B8E, 0x2424B, 0x9C02]),
  (0x9170, [0x9BFF, 0x9C0C, 0x29E68, 0x9DD4, 0x29FB7, 0x2A192, 0x2A1AB, 0x2A0E1, 0x2A123, 0x2A1DF, 0x9D7E, 0x9D83]),
  (0x917C, [0x2A134, 0x9E0E, 0x6888]),
  (0x91A1, [0x9DC4, 0x2215B, 0x2A193, 0x2A220, 0x2193B, 0x2A233, 0x9D39, 0x2A0B9, 0x2A2B4, 0x9E90, 0x9E95, 0x9E9E]),
  (0x91AD, [0x9EA2, 0x4D34, 0x9EAA, 0x9EAF, 0x24364, 0x9EC1, 0x3B60, 0x39E5, 0x3D1D, 0x4F32, 0x37BE, 0x28C2B]),
  (0x91B9, [0x9F02, 0x9F08, 0x4B96, 0x9424, 0x26DA2, 0x9F17, 0x9F16, 0x9F39, 0x569F, 0x568A, 0x9F45, 0x99B8]),
  (0x91C5, [0x2908B, 0x97F2, 0x847F, 0x9F62, 0x9F69, 0x7ADC, 0x9F8E, 0x7216, 0x4BBE, 0x24975, 0x249BB, 0x7177]),
  (0x91D1, [0x249F8, 0x24348, 0x24A51, 0x739E, 0x28BDA, 0x218FA, 0x799F, 0x2897E, 0x28E36, 0x9369, 0x93F3, 0x28A44]),
  (0x91DD, [0x92EC, 0x9381, 0x93CB, 0x2896C, 0x244B9, 0x7217, 0x3EEB, 0x7772, 0x7A43, 0x70D0, 0x24473, 0x243F8]),
  (0x91E9, [0x717E, 0x217EF, 0x70A3, 0x218BE, 0x23599, 0x3EC7, 0x21885, 0x2542F, 0x217F8, 0x3722, 0x216FB, 0x21839]),
  (0x91F5, [0x36E1, 0x21774, 0x218D1, 0x25F4B, 0x3723, 0x216C0, 0x575B, 0x24A25, 0x213FE, 0x212A8]),
  (0x9240, [0x213C6, 0x214B6, 0x8503, 0x236A6, 0x8503, 0x8455, 0x24994, 0x27165, 0x23E31, 0x2555C, 0x23EFB, 0x27052]),
  (0x924C, [0x44F4, 0x236EE, 0x2999D, 0x26F26, 0x67F9, 0x3733, 0x3C15, 0x3DE7, 0x586C, 0x21922, 0x6810, 0x4057]),
  (0x9258, [0x2373F, 0x240E1, 0x2408B, 0x2410F, 0x26C21, 0x54CB, 0x569E, 0x266B1, 0x5692, 0x20FDF, 0x20BA8, 0x20E0D]),
  (0x9264, [0x93C6, 0x28B13, 0x939C, 0x4EF8, 0x512B, 0x3819, 0x24436, 0x4EBC, 0x20465, 0x2037F, 0x4F4B, 0x4F8A]),
  (0x9270, [0x25651, 0x5A68, 0x201AB, 0x203CB, 0x3999, 0x2030A, 0x20414, 0x3435, 0x4F29, 0x202C0, 0x28EB3, 0x20275]),
  (0x927C, [0x8ADA, 0x2020C, 0x4E98]),
  (0x92A1, [0x50CD, 0x510D, 0x4FA2, 0x4F03, 0x24A0E, 0x23E8A, 0x4F42, 0x502E, 0x506C, 0x5081, 0x4FCC, 0x4FE5]),
  (0x92AD, [0x5058, 0x50FC, 0x5159, 0x515B, 0x515D, 0x515E, 0x6E76, 0x23595, 0x23E39, 0x23EBF, 0x6D72, 0x21884]),
  (0x92B9, [0x23E89, 0x51A8, 0x51C3, 0x205E0, 0x44DD, 0x204A3, 0x20492, 0x20491, 0x8D7A, 0x28A9C, 0x2070E, 0x5259]),
  (0x92C5, [0x52A4, 0x20873, 0x52E1, 0x936E, 0x467A, 0x718C, 0x2438C, 0x20C20, 0x249AC, 0x210E4, 0x69D1, 0x20E1D]),
  (0x92D1, [0x7479, 0x3EDE, 0x7499, 0x7414, 0x7456, 0x7398, 0x4B8E, 0x24ABC, 0x2408D, 0x53D0, 0x3584, 0x720F]),
  (0x92DD, [0x240C9, 0x55B4, 0x20345, 0x54CD, 0x20BC6, 0x571D, 0x925D, 0x96F4, 0x9366, 0x57DD, 0x578D, 0x577F]),
  (0x92E9, [0x363E, 0x58CB, 0x5A99, 0x28A46, 0x216FA, 0x2176F, 0x21710, 0x5A2C, 0x59B8, 0x928F, 0x5A7E, 0x5ACF]),
  (0x92F5, [0x5A12, 0x25946, 0x219F3, 0x21861, 0x24295, 0x36F5, 0x6D05, 0x7443, 0x5A21, 0x25E83]),
  (0x9340, [0x5A81, 0x28BD7, 0x20413, 0x93E0, 0x748C, 0x21303, 0x7105, 0x4972, 0x9408, 0x289FB, 0x93BD, 0x37A0]),
  (0x934C, [0x5C1E, 0x5C9E, 0x5E5E, 0x5E48, 0x21996, 0x2197C, 0x23AEE, 0x5ECD, 0x5B4F, 0x21903, 0x21904, 0x3701]),
  (0x9358, [0x218A0, 0x36DD, 0x216FE, 0x36D3, 0x812A, 0x28A47, 0x21DBA, 0x23472, 0x289A8, 0x5F0C, 0x5F0E, 0x21927]),
  (0x9364, [0x217AB, 0x5A6B, 0x2173B, 0x5B44, 0x8614, 0x275FD, 0x8860, 0x607E, 0x22860, 0x2262B, 0x5FDB, 0x3EB8]),
  (0x9370, [0x225AF, 0x225BE, 0x29088, 0x26F73, 0x61C0, 0x2003E, 0x20046, 0x2261B, 0x6199, 0x6198, 0x6075, 0x22C9B]),
  (0x937C, [0x22D07, 0x246D4, 0x2914D]),
  (0x93A1, [0x6471, 0x24665, 0x22B6A, 0x3A29, 0x22B22, 0x23450, 0x298EA, 0x22E78, 0x6337, 0x2A45B, 0x64B6, 0x6331]),
  (0x93AD, [0x63D1, 0x249E3, 0x22D67, 0x62A4, 0x22CA1, 0x643B, 0x656B, 0x6972, 0x3BF4, 0x2308E, 0x232AD, 0x24989]),
  (0x93B9, [0x232AB, 0x550D, 0x232E0, 0x218D9, 0x2943F, 0x66CE, 0x23289, 0x231B3, 0x3AE0, 0x4190, 0x25584, 0x28B22]),
  (0x93C5, [0x2558F, 0x216FC, 0x2555B, 0x25425, 0x78EE, 0x23103, 0x2182A, 0x23234, 0x3464, 0x2320F, 0x23182, 0x242C9]),
  (0x93D1, [0x668E, 0x26D24, 0x666B, 0x4B93, 0x6630, 0x27870, 0x21DEB, 0x6663, 0x232D2, 0x232E1, 0x661E, 0x25872]),
  (0x93DD, [0x38D1, 0x2383A, 0x237BC, 0x3B99, 0x237A2, 0x233FE, 0x74D0, 0x3B96, 0x678F, 0x2462A, 0x68B6, 0x681E]),
  (0x93E9, [0x3BC4, 0x6ABE, 0x3863, 0x237D5, 0x24487, 0x6A33, 0x6A52, 0x6AC9, 0x6B05, 0x21912, 0x6511, 0x6898]),
  (0x93F5, [0x6A4C, 0x3BD7, 0x6A7A, 0x6B57, 0x23FC0, 0x23C9A, 0x93A0, 0x92F2, 0x28BEA, 0x28ACB]),
  (0x9440, [0x9289, 0x2801E, 0x289DC, 0x9467, 0x6DA5, 0x6F0B, 0x249EC, 0x6D67, 0x23F7F, 0x3D8F, 0x6E04, 0x2403C]),
  (0x944C, [0x5A3D, 0x6E0A, 0x5847, 0x6D24, 0x7842, 0x713B, 0x2431A, 0x24276, 0x70F1, 0x7250, 0x7287, 0x7294]),
  (0x9458, [0x2478F, 0x24725, 0x5179, 0x24AA4, 0x205EB, 0x747A, 0x23EF8, 0x2365F, 0x24A4A, 0x24917, 0x25FE1, 0x3F06]),
  (0x9464, [0x3EB1, 0x24ADF, 0x28C23, 0x23F35, 0x60A7, 0x3EF3, 0x74CC, 0x743C, 0x9387, 0x7437, 0x449F, 0x26DEA]),
  (0x9470, [0x4551, 0x7583, 0x3F63, 0x24CD9, 0x24D06, 0x3F58, 0x7555, 0x7673, 0x2A5C6, 0x3B19, 0x7468, 0x28ACC]),
  (0x947C, [0x249AB, 0x2498E, 0x3AFB]),
  (0x94A1, [0x3DCD, 0x24A4E, 0x3EFF, 0x249C5, 0x248F3, 0x91FA, 0x5732, 0x9342, 0x28AE3, 0x21864, 0x50DF, 0x25221]),
  (0x94AD, [0x251E7, 0x7778, 0x23232, 0x770E, 0x770F, 0x777B, 0x24697, 0x23781, 0x3A5E, 0x248F0, 0x7438, 0x749B]),
  (0x94B9, [0x3EBF, 0x24ABA, 0x24AC7, 0x40C8, 0x24A96, 0x261AE, 0x9307, 0x25581, 0x781E, 0x788D, 0x7888, 0x78D2]),
  (0x94C5, [0x73D0, 0x7959, 0x27741, 0x256E3, 0x410E, 0x799B, 0x8496, 0x79A5, 0x6A2D, 0x23EFA, 0x7A3A, 0x79F4]),
  (0x94D1, [0x416E, 0x216E6, 0x4132, 0x9235, 0x79F1, 0x20D4C, 0x2498C, 0x20299, 0x23DBA, 0x2176E, 0x3597, 0x556B]),
  (0x94DD, [0x3570, 0x36AA, 0x201D4, 0x20C0D, 0x7AE2, 0x5A59, 0x226F5, 0x25AAF, 0x25A9C, 0x5A0D, 0x2025B, 0x78F0]),
  (0x94E9, [0x5A2A, 0x25BC6, 0x7AFE, 0x41F9, 0x7C5D, 0x7C6D, 0x4211, 0x25BB3, 0x25EBC, 0x25EA6, 0x7CCD, 0x249F9]),
  (0x94F5, [0x217B0, 0x7C8E, 0x7C7C, 0x7CAE, 0x6AB2, 0x7DDC, 0x7E07, 0x7DD3, 0x7F4E, 0x26261]),
  (0x9540, [0x2615C, 0x27B48, 0x7D97, 0x25E82, 0x426A, 0x26B75, 0x20916, 0x67D6, 0x2004E, 0x235CF, 0x57C4, 0x26412]),
  (0x954C, [0x263F8, 0x24962, 0x7FDD, 0x7B27, 0x2082C, 0x25AE9, 0x25D43, 0x7B0C, 0x25E0E, 0x99E6, 0x8645, 0x9A63]),
  (0x9558, [0x6A1C, 0x2343F, 0x39E2, 0x249F7, 0x265AD, 0x9A1F, 0x265A0, 0x8480, 0x27127, 0x26CD1, 0x44EA, 0x8137]),
  (0x9564, [0x4402, 0x80C6, 0x8109, 0x8142, 0x267B4, 0x98C3, 0x26A42, 0x8262, 0x8265, 0x26A51, 0x8453, 0x26DA7]),
  (0x9570, [0x8610, 0x2721B, 0x5A86, 0x417F, 0x21840, 0x5B2B, 0x218A1, 0x5AE4, 0x218D8, 0x86A0, 0x2F9BC, 0x23D8F]),
  (0x957C, [0x882D, 0x27422, 0x5A02]),
  (0x95A1, [0x886E, 0x4F45, 0x8887, 0x88BF, 0x88E6, 0x8965, 0x894D, 0x25683, 0x8954, 0x27785, 0x27784, 0x28BF5]),
  (0x95AD, [0x28BD9, 0x28B9C, 0x289F9, 0x3EAD, 0x84A3, 0x46F5, 0x46CF, 0x37F2, 0x8A3D, 0x8A1C, 0x29448, 0x5F4D]),
  (0x95B9, [0x922B, 0x24284, 0x65D4, 0x7129, 0x70C4, 0x21845, 0x9D6D, 0x8C9F, 0x8CE9, 0x27DDC, 0x599A, 0x77C3]),
  (0x95C5, [0x59F0, 0x436E, 0x36D4, 0x8E2A, 0x8EA7, 0x24C09, 0x8F30, 0x8F4A, 0x42F4, 0x6C58, 0x6FBB, 0x22321]),
  (0x95D1, [0x489B, 0x6F79, 0x6E8B, 0x217DA, 0x9BE9, 0x36B5, 0x2492F, 0x90BB, 0x9097, 0x5571, 0x4906, 0x91BB]),
  (0x95DD, [0x9404, 0x28A4B, 0x4062, 0x28AFC, 0x9427, 0x28C1D, 0x28C3B, 0x84E5, 0x8A2B, 0x9599, 0x95A7, 0x9597]),
  (0x95E9, [0x9596, 0x28D34, 0x7445, 0x3EC2, 0x248FF, 0x24A42, 0x243EA, 0x3EE7, 0x23225, 0x968F, 0x28EE7, 0x28E66]),
  (0x95F5, [0x28E65, 0x3ECC, 0x249ED, 0x24A78, 0x23FEE, 0x7412, 0x746B, 0x3EFC, 0x9741, 0x290B0]),
  (0x9640, [0x6847, 0x4A1D, 0x29093, 0x257DF, 0x975D, 0x9368, 0x28989, 0x28C26, 0x28B2F, 0x263BE, 0x92BA, 0x5B11]),
  (0x964C, [0x8B69, 0x493C, 0x73F9, 0x2421B, 0x979B, 0x9771, 0x9938, 0x20F26, 0x5DC1, 0x28BC5, 0x24AB2, 0x981F]),
  (0x9658, [0x294DA, 0x92F6, 0x295D7, 0x91E5, 0x44C0, 0x28B50, 0x24A67, 0x28B64, 0x98DC, 0x28A45, 0x3F00, 0x922A]),
  (0x9664, [0x4925, 0x8414, 0x993B, 0x994D, 0x27B06, 0x3DFD, 0x999B, 0x4B6F, 0x99AA, 0x9A5C, 0x28B65, 0x258C8]),
  (0x9670, [0x6A8F, 0x9A21, 0x5AFE, 0x9A2F, 0x298F1, 0x4B90, 0x29948, 0x99BC, 0x4BBD, 0x4B97, 0x937D, 0x5872]),
  (0x967C, [0x21302, 0x5822, 0x249B8]),
  (0x96A1, [0x214E8, 0x7844, 0x2271F, 0x23DB8, 0x68C5, 0x3D7D, 0x9458, 0x3927, 0x6150, 0x22781, 0x2296B, 0x6107]),
  (0x96AD, [0x9C4F, 0x9C53, 0x9C7B, 0x9C35, 0x9C10, 0x9B7F, 0x9BCF, 0x29E2D, 0x9B9F, 0x2A1F5, 0x2A0FE, 0x9D21]),
  (0x96B9, [0x4CAE, 0x24104, 0x9E18, 0x4CB0, 0x9D0C, 0x2A1B4, 0x2A0ED, 0x2A0F3, 0x2992F, 0x9DA5, 0x84BD, 0x26E12]),
  (0x96C5, [0x26FDF, 0x26B82, 0x85FC, 0x4533, 0x26DA4, 0x26E84, 0x26DF0, 0x8420, 0x85EE, 0x26E00, 0x237D7, 0x26064]),
  (0x96D1, [0x79E2, 0x2359C, 0x23640, 0x492D, 0x249DE, 0x3D62, 0x93DB, 0x92BE, 0x9348, 0x202BF, 0x78B9, 0x9277]),
  (0x96DD, [0x944D, 0x4FE4, 0x3440, 0x9064, 0x2555D, 0x783D, 0x7854, 0x78B6, 0x784B, 0x21757, 0x231C9, 0x24941]),
  (0x96E9, [0x369A, 0x4F72, 0x6FDA, 0x6FD9, 0x701E, 0x701E, 0x5414, 0x241B5, 0x57BB, 0x58F3, 0x578A, 0x9D16]),
  (0x96F5, [0x57D7, 0x7134, 0x34AF, 0x241AC, 0x71EB, 0x26C40, 0x24F97, 0x5B28, 0x217B5, 0x28A49]),
  (0x9740, [0x610C, 0x5ACE, 0x5A0B, 0x42BC, 0x24488, 0x372C, 0x4B7B, 0x289FC, 0x93BB, 0x93B8, 0x218D6, 0x20F1D]),
  (0x974C, [0x8472, 0x26CC0, 0x21413, 0x242FA, 0x22C26, 0x243C1, 0x5994, 0x23DB7, 0x26741, 0x7DA8, 0x2615B, 0x260A4]),
  (0x9758, [0x249B9, 0x2498B, 0x289FA, 0x92E5, 0x73E2, 0x3EE9, 0x74B4, 0x28B63, 0x2189F, 0x3EE1, 0x24AB3, 0x6AD8]),
  (0x9764, [0x73F3, 0x73FB, 0x3ED6, 0x24A3E, 0x24A94, 0x217D9, 0x24A66, 0x203A7, 0x21424, 0x249E5, 0x7448, 0x24916]),
  (0x9770, [0x70A5, 0x24976, 0x9284, 0x73E6, 0x935F, 0x204FE, 0x9331, 0x28ACE, 0x28A16, 0x9386, 0x28BE7, 0x255D5]),
  (0x977C, [0x4935, 0x28A82, 0x716B]),
  (0x97A1, [0x24943, 0x20CFF, 0x56A4, 0x2061A, 0x20BEB, 0x20CB8, 0x5502, 0x79C4, 0x217FA, 0x7DFE, 0x216C2, 0x24A50]),
  (0x97AD, [0x21852, 0x452E, 0x9401, 0x370A, 0x28AC0, 0x249AD, 0x59B0, 0x218BF, 0x21883, 0x27484, 0x5AA1, 0x36E2]),
  (0x97B9, [0x23D5B, 0x36B0, 0x925F, 0x5A79, 0x28A81, 0x21862, 0x9374, 0x3CCD, 0x20AB4, 0x4A96, 0x398A, 0x50F4]),
  (0x97C5, [0x3D69, 0x3D4C, 0x2139C, 0x7175, 0x42FB, 0x28218, 0x6E0F, 0x290E4, 0x44EB, 0x6D57, 0x27E4F, 0x7067]),
  (0x97D1, [0x6CAF, 0x3CD6, 0x23FED, 0x23E2D, 0x6E02, 0x6F0C, 0x3D6F, 0x203F5, 0x7551, 0x36BC, 0x34C8, 0x4680]),
  (0x97DD, [0x3EDA, 0x4871, 0x59C4, 0x926E, 0x493E, 0x8F41, 0x28C1C, 0x26BC0, 0x5812, 0x57C8, 0x36D6, 0x21452]),
  (0x97E9, [0x70FE, 0x24362, 0x24A71, 0x22FE3, 0x212B0, 0x223BD, 0x68B9, 0x6967, 0x21398, 0x234E5, 0x27BF4, 0x236DF]),
  (0x97F5, [0x28A83, 0x237D6, 0x233FA, 0x24C9F, 0x6A1A, 0x236AD, 0x26CB7, 0x843E, 0x44DF, 0x44CE]),
  (0x9840, [0x26D26, 0x26D51, 0x26C82, 0x26FDE, 0x6F17, 0x27109, 0x833D, 0x2173A, 0x83ED, 0x26C80, 0x27053, 0x217DB]),
  (0x984C, [0x5989, 0x5A82, 0x217B3, 0x5A61, 0x5A71, 0x21905, 0x241FC, 0x372D, 0x59EF, 0x2173C, 0x36C7, 0x718E]),
  (0x9858, [0x9390, 0x669A, 0x242A5, 0x5A6E, 0x5A2B, 0x24293, 0x6A2B, 0x23EF9, 0x27736, 0x2445B, 0x242CA, 0x711D]),
  (0x9864, [0x24259, 0x289E1, 0x4FB0, 0x26D28, 0x5CC2, 0x244CE, 0x27E4D, 0x243BD, 0x6A0C, 0x24256, 0x21304, 0x70A6]),
  (0x9870, [0x7133, 0x243E9, 0x3DA5, 0x6CDF, 0x2F825, 0x24A4F, 0x7E65, 0x59EB, 0x5D2F, 0x3DF3, 0x5F5C, 0x24A5D]),
  (0x987C, [0x217DF, 0x7DA4, 0x8426]),
  (0x98A1, [0x5485, 0x23AFA, 0x23300, 0x20214, 0x577E, 0x208D5, 0x20619, 0x3FE5, 0x21F9E, 0x2A2B6, 0x7003, 0x2915B]),
  (0x98AD, [0x5D70, 0x738F, 0x7CD3, 0x28A59, 0x29420, 0x4FC8, 0x7FE7, 0x72CD, 0x7310, 0x27AF4, 0x7338, 0x7339]),
  (0x98B9, [0x256F6, 0x7341, 0x7348, 0x3EA9, 0x27B18, 0x906C, 0x71F5, 0x248F2, 0x73E1, 0x81F6, 0x3ECA, 0x770C]),
  (0x98C5, [0x3ED1, 0x6CA2, 0x56FD, 0x7419, 0x741E, 0x741F, 0x3EE2, 0x3EF0, 0x3EF4, 0x3EFA, 0x74D3, 0x3F0E]),
  (0x98D1, [0x3F53, 0x7542, 0x756D, 0x7572, 0x758D, 0x3F7C, 0x75C8, 0x75DC, 0x3FC0, 0x764D, 0x3FD7, 0x7674]),
  (0x98DD, [0x3FDC, 0x767A, 0x24F5C, 0x7188, 0x5623, 0x8980, 0x5869, 0x401D, 0x7743, 0x4039, 0x6761, 0x4045]),
  (0x98E9, [0x35DB, 0x7798, 0x406A, 0x406F, 0x5C5E, 0x77BE, 0x77CB, 0x58F2, 0x7818, 0x70B9, 0x781C, 0x40A8]),
  (0x98F5, [0x7839, 0x7847, 0x7851, 0x7866, 0x8448, 0x25535, 0x7933, 0x6803, 0x7932, 0x4103]),
  (0x9940, [0x4109, 0x7991, 0x7999, 0x8FBB, 0x7A06, 0x8FBC, 0x4167, 0x7A91, 0x41B2, 0x7ABC, 0x8279, 0x41C4]),
  (0x994C, [0x7ACF, 0x7ADB, 0x41CF, 0x4E21, 0x7B62, 0x7B6C, 0x7B7B, 0x7C12, 0x7C1B, 0x4260, 0x427A, 0x7C7B]),
  (0x9958, [0x7C9C, 0x428C, 0x7CB8, 0x4294, 0x7CED, 0x8F93, 0x70C0, 0x20CCF, 0x7DCF, 0x7DD4, 0x7DD0, 0x7DFD]),
  (0x9964, [0x7FAE, 0x7FB4, 0x729F, 0x4397, 0x8020, 0x8025, 0x7B39, 0x802E, 0x8031, 0x8054, 0x3DCC, 0x57B4]),
  (0x9970, [0x70A0, 0x80B7, 0x80E9, 0x43ED, 0x810C, 0x732A, 0x810E, 0x8112, 0x7560, 0x8114, 0x4401, 0x3B39]),
  (0x997C, [0x8156, 0x8159, 0x815A]),
  (0x99A1, [0x4413, 0x583A, 0x817C, 0x8184, 0x4425, 0x8193, 0x442D, 0x81A5, 0x57EF, 0x81C1, 0x81E4, 0x8254]),
  (0x99AD, [0x448F, 0x82A6, 0x8276, 0x82CA, 0x82D8, 0x82FF, 0x44B0, 0x8357, 0x9669, 0x698A, 0x8405, 0x70F5]),
  (0x99B9, [0x8464, 0x60E3, 0x8488, 0x4504, 0x84BE, 0x84E1, 0x84F8, 0x8510, 0x8538, 0x8552, 0x453B, 0x856F]),
  (0x99C5, [0x8570, 0x85E0, 0x4577, 0x8672, 0x8692, 0x86B2, 0x86EF, 0x9645, 0x878B, 0x4606, 0x4617, 0x88AE]),
  (0x99D1, [0x88FF, 0x8924, 0x8947, 0x8991, 0x27967, 0x8A29, 0x8A38, 0x8A94, 0x8AB4, 0x8C51, 0x8CD4, 0x8CF2]),
  (0x99DD, [0x8D1C, 0x4798, 0x585F, 0x8DC3, 0x47ED, 0x4EEE, 0x8E3A, 0x55D8, 0x5754, 0x8E71, 0x55F5, 0x8EB0]),
  (0x99E9, [0x4837, 0x8ECE, 0x8EE2, 0x8EE4, 0x8EED, 0x8EF2, 0x8FB7, 0x8FC1, 0x8FCA, 0x8FCC, 0x9033, 0x99C4]),
  (0x99F5, [0x48AD, 0x98E0, 0x9213, 0x491E, 0x9228, 0x9258, 0x926B, 0x92B1, 0x92AE, 0x92BF]),
  (0x9A40, [0x92E3, 0x92EB, 0x92F3, 0x92F4, 0x92FD, 0x9343, 0x9384, 0x93AD, 0x4945, 0x4951, 0x9EBF, 0x9417]),
  (0x9A4C, [0x5301, 0x941D, 0x942D, 0x943E, 0x496A, 0x9454, 0x9479, 0x952D, 0x95A2, 0x49A7, 0x95F4, 0x9633]),
  (0x9A58, [0x49E5, 0x67A0, 0x4A24, 0x9740, 0x4A35, 0x97B2, 0x97C2, 0x5654, 0x4AE4, 0x60E8, 0x98B9, 0x4B19]),
  (0x9A64, [0x98F1, 0x5844, 0x990E, 0x9919, 0x51B4, 0x991C, 0x9937, 0x9942, 0x995D, 0x9962, 0x4B70, 0x99C5]),
  (0x9A70, [0x4B9D, 0x9A3C, 0x9B0F, 0x7A83, 0x9B69, 0x9B81, 0x9BDD, 0x9BF1, 0x9BF4, 0x4C6D, 0x9C20, 0x376F]),
  (0x9A7C, [0x21BC2, 0x9D49, 0x9C3A]),
  (0x9AA1, [0x9EFE, 0x5650, 0x9D93, 0x9DBD, 0x9DC0, 0x9DFC, 0x94F6, 0x8FB6, 0x9E7B, 0x9EAC, 0x9EB1, 0x9EBD]),
  (0x9AAD, [0x9EC6, 0x94DC, 0x9EE2, 0x9EF1, 0x9EF8, 0x7AC8, 0x9F44, 0x20094, 0x202B7, 0x203A0, 0x691A, 0x94C3]),
  (0x9AB9, [0x59AC, 0x204D7, 0x5840, 0x94C1, 0x37B9, 0x205D5, 0x20615, 0x20676, 0x216BA, 0x5757, 0x7173, 0x20AC2]),
  (0x9AC5, [0x20ACD, 0x20BBF, 0x546A, 0x2F83B, 0x20BCB, 0x549E, 0x20BFB, 0x20C3B, 0x20C53, 0x20C65, 0x20C7C, 0x60E7]),
  (0x9AD1, [0x20C8D, 0x567A, 0x20CB5, 0x20CDD, 0x20CED, 0x20D6F, 0x20DB2, 0x20DC8, 0x6955, 0x9C2F, 0x87A5, 0x20E04]),
  (0x9ADD, [0x20E0E, 0x20ED7, 0x20F90, 0x20F2D, 0x20E73, 0x5C20, 0x20FBC, 0x5E0B, 0x2105C, 0x2104F, 0x21076, 0x671E]),
  (0x9AE9, [0x2107B, 0x21088, 0x21096, 0x3647, 0x210BF, 0x210D3, 0x2112F, 0x2113B, 0x5364, 0x84AD, 0x212E3, 0x21375]),
  (0x9AF5, [0x21336, 0x8B81, 0x21577, 0x21619, 0x217C3, 0x217C7, 0x4E78, 0x70BB, 0x2182D, 0x2196A]),
  (0x9B40, [0x21A2D, 0x21A45, 0x21C2A, 0x21C70, 0x21CAC, 0x21EC8, 0x62C3, 0x21ED5, 0x21F15, 0x7198, 0x6855, 0x22045]),
  (0x9B4C, [0x69E9, 0x36C8, 0x2227C, 0x223D7, 0x223FA, 0x2272A, 0x22871, 0x2294F, 0x82FD, 0x22967, 0x22993, 0x22AD5]),
  (0x9B58, [0x89A5, 0x22AE8, 0x8FA0, 0x22B0E, 0x97B8, 0x22B3F, 0x9847, 0x9ABD, 0x22C4C]),
  (0x9B62, [0x22C88, 0x22CB7, 0x25BE8, 0x22D08, 0x22D12, 0x22DB7, 0x22D95, 0x22E42, 0x22F74, 0x22FCC, 0x23033, 0x23066]),
  (0x9B6E, [0x2331F, 0x233DE, 0x5FB1, 0x6648, 0x66BF, 0x27A79, 0x23567, 0x235F3, 0x7201, 0x249BA, 0x77D7, 0x2361A]),
  (0x9B7A, [0x23716, 0x7E87, 0x20346, 0x58B5, 0x670E]),
  (0x9BA1, [0x6918, 0x23AA7, 0x27657, 0x25FE2, 0x23E11, 0x23EB9, 0x275FE, 0x2209A, 0x48D0, 0x4AB8, 0x24119, 0x28A9A]),
  (0x9BAD, [0x242EE, 0x2430D, 0x2403B, 0x24334, 0x24396, 0x24A45, 0x205CA, 0x51D2, 0x20611, 0x599F, 0x21EA8, 0x3BBE]),
  (0x9BB9, [0x23CFF, 0x24404, 0x244D6, 0x5788, 0x24674, 0x399B, 0x2472F, 0x285E8, 0x299C9, 0x3762, 0x221C3, 0x8B5E]),
  (0x9BC5, [0x28B4E, 0x99D6, 0x24812, 0x248FB, 0x24A15, 0x7209, 0x24AC0, 0x20C78, 0x5965, 0x24EA5, 0x24F86, 0x20779]),
  (0x9BD1, [0x8EDA, 0x2502C, 0x528F, 0x573F, 0x7171, 0x25299, 0x25419, 0x23F4A, 0x24AA7, 0x55BC, 0x25446, 0x2546E]),
  (0x9BDD, [0x26B52, 0x91D4, 0x3473, 0x2553F, 0x27632, 0x2555E, 0x4718, 0x25562, 0x25566, 0x257C7, 0x2493F, 0x2585D]),
  (0x9BE9, [0x5066, 0x34FB, 0x233CC, 0x60DE, 0x25903, 0x477C, 0x28948, 0x25AAE, 0x25B89, 0x25C06, 0x21D90, 0x57A1]),
  (0x9BF5, [0x7151, 0x6FB6, 0x26102, 0x27C12, 0x9056, 0x261B2, 0x24F9A, 0x8B62, 0x26402, 0x2644A]),
  (0x9C40, [0x5D5B, 0x26BF7, 0x8F36, 0x26484, 0x2191C, 0x8AEA, 0x249F6, 0x26488, 0x23FEF, 0x26512, 0x4BC0, 0x265BF]),
  (0x9C4C, [0x266B5, 0x2271B, 0x9465, 0x257E1, 0x6195, 0x5A27, 0x2F8CD, 0x4FBB, 0x56B9, 0x24521, 0x266FC, 0x4E6A]),
  (0x9C58, [0x24934, 0x9656, 0x6D8F, 0x26CBD, 0x3618, 0x8977, 0x26799, 0x2686E, 0x26411, 0x2685E, 0x71DF, 0x268C7]),
  (0x9C64, [0x7B42, 0x290C0, 0x20A11, 0x26926, 0x9104, 0x26939, 0x7A45, 0x9DF0, 0x269FA, 0x9A26, 0x26A2D, 0x365F]),
  (0x9C70, [0x26469, 0x20021, 0x7983, 0x26A34, 0x26B5B, 0x5D2C, 0x23519, 0x83CF, 0x26B9D, 0x46D0, 0x26CA4, 0x753B]),
  (0x9C7C, [0x8865, 0x26DAE, 0x58B6]),
  (0x9CA1, [0x371C, 0x2258D, 0x2704B, 0x271CD, 0x3C54, 0x27280, 0x27285, 0x9281, 0x2217A, 0x2728B, 0x9330, 0x272E6]),
  (0x9CAD, [0x249D0, 0x6C39, 0x949F, 0x27450, 0x20EF8, 0x8827, 0x88F5, 0x22926, 0x28473, 0x217B1, 0x6EB8, 0x24A2A]),
  (0x9CB9, [0x21820, 0x39A4, 0x36B9, 0x5C10, 0x79E3, 0x453F, 0x66B6, 0x29CAD, 0x298A4, 0x8943, 0x277CC, 0x27858]),
  (0x9CC5, [0x56D6, 0x40DF, 0x2160A, 0x39A1, 0x2372F, 0x280E8, 0x213C5, 0x71AD, 0x8366, 0x279DD, 0x291A8, 0x5A67]),
  (0x9CD1, [0x4CB7, 0x270AF, 0x289AB, 0x279FD, 0x27A0A, 0x27B0B, 0x27D66, 0x2417A, 0x7B43, 0x797E, 0x28009, 0x6FB5]),
  (0x9CDD, [0x2A2DF, 0x6A03, 0x28318, 0x53A2, 0x26E07, 0x93BF, 0x6836, 0x975D, 0x2816F, 0x28023, 0x269B5, 0x213ED]),
  (0x9CE9, [0x2322F, 0x28048, 0x5D85, 0x28C30, 0x28083, 0x5715, 0x9823, 0x28949, 0x5DAB, 0x24988, 0x65BE, 0x69D5]),
  (0x9CF5, [0x53D2, 0x24AA5, 0x23F81, 0x3C11, 0x6736, 0x28090, 0x280F4, 0x2812E, 0x21FA1, 0x2814F]),
  (0x9D40, [0x28189, 0x281AF, 0x2821A, 0x28306, 0x2832F, 0x2838A, 0x35CA, 0x28468, 0x286AA, 0x48FA, 0x63E6, 0x28956]),
  (0x9D4C, [0x7808, 0x9255, 0x289B8, 0x43F2, 0x289E7, 0x43DF, 0x289E8, 0x28B46, 0x28BD4, 0x59F8, 0x28C09, 0x8F0B]),
  (0x9D58, [0x28FC5, 0x290EC, 0x7B51, 0x29110, 0x2913C, 0x3DF7, 0x2915E, 0x24ACA, 0x8FD0, 0x728F, 0x568B, 0x294E7]),
  (0x9D64, [0x295E9, 0x295B0, 0x295B8, 0x29732, 0x298D1, 0x29949, 0x2996A, 0x299C3, 0x29A28, 0x29B0E, 0x29D5A, 0x29D9B]),
  (0x9D70, [0x7E9F, 0x29EF8, 0x29F23, 0x4CA4, 0x9547, 0x2A293, 0x71A2, 0x2A2FF, 0x4D91, 0x9012, 0x2A5CB, 0x4D9C]),
  (0x9D7C, [0x20C9C, 0x8FBE, 0x55C1]),
  (0x9DA1, [0x8FBA, 0x224B0, 0x8FB9, 0x24A93, 0x4509, 0x7E7F, 0x6F56, 0x6AB1, 0x4EEA, 0x34E4, 0x28B2C, 0x2789D]),
  (0x9DAD, [0x373A, 0x8E80, 0x217F5, 0x28024, 0x28B6C, 0x28B99, 0x27A3E, 0x266AF, 0x3DEB, 0x27655, 0x23CB7, 0x25635]),
  (0x9DB9, [0x25956, 0x4E9A, 0x25E81, 0x26258, 0x56BF, 0x20E6D, 0x8E0E, 0x5B6D, 0x23E88, 0x24C9E, 0x63DE, 0x62D0]),
  (0x9DC5, [0x217F6, 0x2187B, 0x6530, 0x562D, 0x25C4A, 0x541A, 0x25311, 0x3DC6, 0x29D98, 0x4C7D, 0x5622, 0x561E]),
  (0x9DD1, [0x7F49, 0x25ED8, 0x5975, 0x23D40, 0x8770, 0x4E1C, 0x20FEA, 0x20D49, 0x236BA, 0x8117, 0x9D5E, 0x8D18]),
  (0x9DDD, [0x763B, 0x9C45, 0x764E, 0x77B9, 0x9345, 0x5432, 0x8148, 0x82F7, 0x5625, 0x8132, 0x8418, 0x80BD]),
  (0x9DE9, [0x55EA, 0x7962, 0x5643, 0x5416, 0x20E9D, 0x35CE, 0x5605, 0x55F1, 0x66F1, 0x282E2, 0x362D, 0x7534]),
  (0x9DF5, [0x55F0, 0x55BA, 0x5497, 0x5572, 0x20C41, 0x20C96, 0x5ED0, 0x25148, 0x20E76, 0x22C62]),
  (0x9E40, [0x20EA2, 0x9EAB, 0x7D5A, 0x55DE, 0x21075, 0x629D, 0x976D, 0x5494, 0x8CCD, 0x71F6, 0x9176, 0x63FC]),
  (0x9E4C, [0x63B9, 0x63FE, 0x5569, 0x22B43, 0x9C72, 0x22EB3, 0x519A, 0x34DF, 0x20DA7, 0x51A7, 0x544D, 0x551E]),
  (0x9E58, [0x5513, 0x7666, 0x8E2D, 0x2688A, 0x75B1, 0x80B6, 0x8804, 0x8786, 0x88C7, 0x81B6, 0x841C, 0x210C1]),
  (0x9E64, [0x44EC, 0x7304, 0x24706, 0x5B90, 0x830B, 0x26893, 0x567B, 0x226F4, 0x27D2F, 0x241A3, 0x27D73, 0x26ED0]),
  (0x9E70, [0x272B6, 0x9170, 0x211D9, 0x9208, 0x23CFC, 0x2A6A9, 0x20EAC, 0x20EF9, 0x7266, 0x21CA2, 0x474E, 0x24FC2]),
  (0x9E7C, [0x27FF9, 0x20FEB, 0x40FA]),
  (0x9EA1, [0x9C5D, 0x651F, 0x22DA0, 0x48F3, 0x247E0, 0x29D7C, 0x20FEC, 0x20E0A, 0x6062, 0x275A3, 0x20FED, 0xED2B]),
  (0x9EAD, [0x26048, 0x21187, 0x71A3, 0x7E8E, 0x9D50, 0x4E1A, 0x4E04, 0x3577, 0x5B0D, 0x6CB2, 0x5367, 0x36AC]),
  (0x9EB9, [0x39DC, 0x537D, 0x36A5, 0x24618, 0x589A, 0x24B6E, 0x822D, 0x544B, 0x57AA, 0x25A95, 0x20979, 0xED43]),
  (0x9EC5, [0x3A52, 0x22465, 0x7374, 0x29EAC, 0x4D09, 0x9BED, 0x23CFE, 0x29F30, 0x4C5B, 0x24FA9, 0x2959E, 0x29FDE]),
  (0x9ED1, [0x845C, 0x23DB6, 0x272B2, 0x267B3, 0x23720, 0x632E, 0x7D25, 0x23EF7, 0x23E2C, 0x3A2A, 0x9008, 0x52CC]),
  (0x9EDD, [0x3E74, 0x367A, 0x45E9, 0x2048E, 0x7640, 0x5AF0, 0x20EB6, 0x787A, 0x47B6, 0x58A7, 0x40BF, 0x567C]),
  (0x9EE9, [0x9B8B, 0x5D74, 0x7654, 0x2A434, 0x9E85, 0x4CE1, 0x75F9, 0x37FB, 0x6119, 0x230DA, 0x243F2, 0xED73]),
  (0x9EF5, [0x565D, 0x212A9, 0x57A7, 0x24963, 0x29E06, 0x5234, 0x270AE, 0x35AD, 0x6C4A, 0x9D7C]),
  (0x9F40, [0x7C56, 0x9B39, 0x57DE, 0x2176C, 0x5C53, 0x64D3, 0x294D0, 0x26335, 0x27164, 0x86AD, 0x20D28, 0x26D22]),
  (0x9F4C, [0x24AE2, 0x20D71, 0xED8C, 0x51FE, 0x21F0F, 0x5D8E, 0x9703, 0x21DD1, 0x9E81, 0x904C, 0x7B1F, 0x9B02]),
  (0x9F58, [0x5CD1, 0x7BA3, 0x6268, 0x6335, 0x9AFF, 0x7BCF, 0x9B2A, 0x7C7E, 0x9B2E, 0x7C42, 0x7C86, 0x9C15]),
  (0x9F64, [0x7BFC, 0x9B09, 0x9F17, 0x9C1B, 0x2493E, 0x9F5A, 0x5573, 0x5BC3, 0x4FFD, 0x9E98, 0x4FF2, 0x5260]),
  (0x9F70, [0x3E06, 0x52D1, 0x5767, 0x5056, 0x59B7, 0x5E12, 0x97C8, 0x9DAB, 0x8F5C, 0x5469, 0x97B4, 0x9940]),
  (0x9F7C, [0x97BA, 0x532C, 0x6130]),
  (0x9FA1, [0x692C, 0x53DA, 0x9C0A, 0x9D02, 0x4C3B, 0x9641, 0x6980, 0x50A6, 0x7546, 0x2176D, 0x99DA, 0x5273]),
  (0x9FAD, [0xEDC9, 0x9159, 0x9681, 0x915C, 0xEDCD, 0x9151, 0x28E97, 0x637F, 0x26D23, 0x6ACA, 0x5611, 0x918E]),
  (0x9FB9, [0x757A, 0x6285, 0x203FC, 0x734F, 0x7C70, 0x25C21, 0x23CFD, 0xEDDC, 0x24919, 0x76D6, 0x9B9D, 0x4E2A]),
  (0x9FC5, [0x20CD4, 0x83BE, 0x8842, 0xEDE4, 0x5C4A, 0x69C0, 0x50ED, 0x577A, 0x521F, 0x5DF5, 0x4ECE, 0x6C31]),
  (0x9FD1, [0x201F2, 0x4F39, 0x549C, 0x54DA, 0x529A, 0x8D82, 0x35FE, 0x5F0C, 0x35F3, 0xEDF6, 0x6B52, 0x917C]),
  (0x9FDD, [0x9FA5, 0x9B97, 0x982E, 0x98B4, 0x9ABA, 0x9EA8, 0x9E84, 0x717A, 0x7B14, 0xEE02, 0x6BFA, 0x8818]),
  (0x9FE9, [0x7F78, 0xEE06, 0x5620, 0x2A64A, 0x8E77, 0x9F53, 0xEE0B, 0x8DD4, 0x8E4F, 0x9E1C, 0x8E01, 0x6282]),
  (0x9FF5, [0x2837D, 0x8E28, 0x8E75, 0x7AD3, 0x24A77, 0x7A3E, 0x78D8, 0x6CEA, 0x8A67, 0x7607]),
  (0xA040, [0x28A5A, 0x9F26, 0x6CCE, 0x87D6, 0x75C3, 0x2A2B2, 0x7853, 0x2F840, 0x8D0C, 0x72E2, 0x7371, 0x8B2D]),
  (0xA04C, [0x7302, 0x74F1, 0x8CEB, 0x24ABB, 0x862F, 0x5FBA, 0x88A0, 0x44B7, 0xEE2F, 0x2183B, 0x26E05, 0xEE32]),
  (0xA058, [0x8A7E, 0x2251B, 0xEE35, 0x60FD, 0x7667, 0x9AD7, 0x9D44, 0x936E, 0x9B8F, 0x87F5, 0xEE3D, 0x880F]),
  (0xA064, [0x8CF7, 0x732C, 0x9721, 0x9BB0, 0x35D6, 0x72B2, 0x4C07, 0x7C51, 0x994A, 0x26159, 0x6159, 0x4C04]),
  (0xA070, [0x9E96, 0x617D, 0xEE4D, 0x575F, 0x616F, 0x62A6, 0x6239, 0x62CE, 0x3A5C, 0x61E2, 0x53AA, 0x233F5]),
  (0xA07C, [0x6364, 0x6802, 0x35D2]),
  (0xA0A1, [0x5D57, 0x28BC2, 0x8FDA, 0x28E39, 0xEE5E, 0x50D9, 0x21D46, 0x7906, 0x5332, 0x9638, 0x20F3B, 0x4065]),
  (0xA0AD, [0xEE66, 0x77FE, 0xEE68, 0x7CC2, 0x25F1A, 0x7CDA, 0x7A2D, 0x8066, 0x8063, 0x7D4D, 0x7505, 0x74F2]),
  (0xA0B9, [0x8994, 0x821A, 0x670C, 0x8062, 0x27486, 0x805B, 0x74F0, 0x8103, 0x7724, 0x8989, 0x267CC, 0x7553]),
  (0xA0C5, [0x26ED1, 0x87A9, 0x87CE, 0x81C8, 0x878C, 0x8A49, 0x8CAD, 0x8B43, 0x772B, 0x74F8, 0x84DA, 0x3635]),
  (0xA0D1, [0x69B2, 0x8DA6, 0xEE8C, 0x89A9, 0x7468, 0x6DB9, 0x87C1, 0x24011, 0x74E7, 0x3DDB, 0x7176, 0x60A4]),
  (0xA0DD, [0x619C, 0x3CD1, 0x7162, 0x6077, 0xEE9A, 0x7F71, 0x28B2D, 0x7250, 0x60E9, 0x4B7E, 0x5220, 0x3C18]),
  (0xA0E9, [0x23CC7, 0x25ED7, 0x27656, 0x25531, 0x21944, 0x212FE, 0x29903, 0x26DDC, 0x270AD, 0x5CC1, 0x261AD, 0x28A0F]),
  (0xA0F5, [0x23677, 0x200EE, 0x26846, 0x24F0E, 0x4562, 0x5B1F, 0x2634C, 0x9F50, 0x9EA6, 0x2626B]),
  (0xC6A1, [0x2460, 0x2461, 0x2462, 0x2463, 0x2464, 0x2465, 0x2466, 0x2467, 0x2468, 0x2469, 0x2474, 0x2475]),
  (0xC6AD, [0x2476, 0x2477, 0x2478, 0x2479, 0x247A, 0x247B, 0x247C, 0x247D, 0x2170, 0x2171, 0x2172, 0x2173]),
  (0xC6B9, [0x2174, 0x2175, 0x2176, 0x2177, 0x2178, 0x2179, 0x4E36, 0x4E3F, 0x4E85, 0x4EA0, 0x5182, 0x5196]),
  (0xC6C5, [0x51AB, 0x52F9, 0x5338, 0x5369, 0x53B6, 0x590A, 0x5B80, 0x5DDB, 0x2F33, 0x5E7F, 0x2F35, 0x5F50]),
  (0xC6D1, [0x5F61, 0x6534, 0x2F46, 0x7592, 0x2F68, 0x8FB5, 0x2FAA, 0xA8, 0x2C6, 0x30FD, 0x30FE, 0x309D]),
  (0xC6DD, [0x309E, 0x301E, 0x4EDD, 0x3005, 0x3006, 0x3007, 0x30FC, 0xFF3B, 0xFF3D, 0x273D, 0x3041, 0x3042]),
  (0xC6E9, [0x3043, 0x3044, 0x3045, 0x3046, 0x3047, 0x3048, 0x3049, 0x304A, 0x304B, 0x304C, 0x304D, 0x304E]),
  (0xC6F5, [0x304F, 0x3050, 0x3051, 0x3052, 0x3053, 0x3054, 0x3055, 0x3056, 0x3057, 0x3058]),
  (0xC740, [0x3059, 0x305A, 0x305B, 0x305C, 0x305D, 0x305E, 0x305F, 0x3060, 0x3061, 0x3062, 0x3063, 0x3064]),
  (0xC74C, [0x3065, 0x3066, 0x3067, 0x3068, 0x3069, 0x306A, 0x306B, 0x306C, 0x306D, 0x306E, 0x306F, 0x3070]),
  (0xC758, [0x3071, 0x3072, 0x3073, 0x3074, 0x3075, 0x3076, 0x3077, 0x3078, 0x3079, 0x307A, 0x307B, 0x307C]),
  (0xC764, [0x307D, 0x307E, 0x307F, 0x3080, 0x3081, 0x3082, 0x3083, 0x3084, 0x3085, 0x3086, 0x3087, 0x3088]),
  (0xC770, [0x3089, 0x308A, 0x308B, 0x308C, 0x308D, 0x308E, 0x308F, 0x3090, 0x3091, 0x3092, 0x3093, 0x30A1]),
  (0xC77C, [0x30A2, 0x30A3, 0x30A4]),
  (0xC7A1, [0x30A5, 0x30A6, 0x30A7, 0x30A8, 0x30A9, 0x30AA, 0x30AB, 0x30AC, 0x30AD, 0x30AE, 0x30AF, 0x30B0]),
  (0xC7AD, [0x30B1, 0x30B2, 0x30B3, 0x30B4, 0x30B5, 0x30B6, 0x30B7, 0x30B8, 0x30B9, 0x30BA, 0x30BB, 0x30BC]),
  (0xC7B9, [0x30BD, 0x30BE, 0x30BF, 0x30C0, 0x30C1, 0x30C2, 0x30C3, 0x30C4, 0x30C5, 0x30C6, 0x30C7, 0x30C8]),
  (0xC7C5, [0x30C9, 0x30CA, 0x30CB, 0x30CC, 0x30CD, 0x30CE, 0x30CF, 0x30D0, 0x30D1, 0x30D2, 0x30D3, 0x30D4]),
  (0xC7D1, [0x30D5, 0x30D6, 0x30D7, 0x30D8, 0x30D9, 0x30DA, 0x30DB, 0x30DC, 0x30DD, 0x30DE, 0x30DF, 0x30E0]),
  (0xC7DD, [0x30E1, 0x30E2, 0x30E3, 0x30E4, 0x30E5, 0x30E6, 0x30E7, 0x30E8, 0x30E9, 0x30EA, 0x30EB, 0x30EC]),
  (0xC7E9, [0x30ED, 0x30EE, 0x30EF, 0x30F0, 0x30F1, 0x30F2, 0x30F3, 0x30F4, 0x30F5, 0x30F6, 0x410, 0x411]),
  (0xC7F5, [0x412, 0x413, 0x414, 0x415, 0x401, 0x416, 0x417, 0x418, 0x419, 0x41A]),
  (0xC840, [0x41B, 0x41C, 0x41D, 0x41E, 0x41F, 0x420, 0x421, 0x422, 0x423, 0x424, 0x425, 0x426]),
  (0xC84C, [0x427, 0x428, 0x429, 0x42A, 0x42B, 0x42C, 0x42D, 0x42E, 0x42F, 0x430, 0x431, 0x432]),
  (0xC858, [0x433, 0x434, 0x435, 0x451, 0x436, 0x437, 0x438, 0x439, 0x43A, 0x43B, 0x43C, 0x43D]),
  (0xC864, [0x43E, 0x43F, 0x440, 0x441, 0x442, 0x443, 0x444, 0x445, 0x446, 0x447, 0x448, 0x449]),
  (0xC870, [0x44A, 0x44B, 0x44C, 0x44D, 0x44E, 0x44F, 0x21E7, 0x21B8, 0x21B9, 0xF7E5, 0x200CC, 0x4E5A]),
  (0xC87C, [0x2008A, 0x5202, 0xF7EA]),
  (0xC8A1, [0xF7EB, 0x5188, 0xF7ED, 0x27607, 0xF7EF, 0xF7F0, 0xF7F1, 0xF7F2, 0xF7F3, 0xF7F4, 0xF7F5, 0xF7F6]),
  (0xC8AD, [0xF7F7, 0xF7F8, 0xF7F9, 0xF7FA, 0xF7FB, 0xF7FC, 0xF7FD, 0xF7FE, 0xF7FF, 0xF800, 0xF801, 0xF802]),
  (0xC8B9, [0xF803, 0xF804, 0xF805, 0xF806, 0xF807, 0xF808, 0xF809, 0xF80A, 0xF80B, 0xF80C, 0xF80D, 0xF80E]),
  (0xC8C5, [0xF80F, 0xF810, 0xF811, 0xF812, 0xF813, 0xF814, 0xF815, 0xF816, 0xFFE2, 0xFFE4, 0xFF07, 0xFF02]),
  (0xC8D1, [0x3231, 0x2116, 0x2121, 0x309B, 0x309C, 0x2E80, 0x2E84, 0x2E86, 0x2E87, 0x2E88, 0x2E8A, 0x2E8C]),
  (0xC8DD, [0x2E8D, 0x2E95, 0x2E9C, 0x2E9D, 0x2EA5, 0x2EA7, 0x2EAA, 0x2EAC, 0x2EAE, 0x2EB6, 0x2EBC, 0x2EBE]),
  (0xC8E9, [0x2EC6, 0x2ECA, 0x2ECC, 0x2ECD, 0x2ECF, 0x2ED6, 0x2ED7, 0x2EDE, 0x2EE3]),
  (0xC8F5, [0x283, 0x250, 0x25B, 0x254, 0x275, 0x153, 0xF8, 0x14B, 0x28A, 0x26A]),
  (0xFA40, [0x20547, 0x92DB, 0x205DF, 0x23FC5, 0x854C, 0x42B5, 0x73EF, 0x51B5, 0x3649, 0x24942, 0x289E4, 0x9344]),
  (0xFA4C, [0x219DB, 0x82EE, 0x23CC8, 0x783C, 0x6744, 0x62DF, 0x24933, 0x289AA, 0x202A0, 0x26BB3, 0x21305, 0x4FAB]),
  (0xFA58, [0x224ED, 0x5008, 0x26D29, 0x27A84, 0x23600, 0x24AB1, 0x22513, 0x5029, 0x2037E, 0x5FA4, 0x20380, 0x20347]),
  (0xFA64, [0x6EDB, 0x2041F, 0x507D, 0x5101, 0x347A, 0x510E, 0x986C, 0x3743, 0x8416, 0x249A4, 0x20487, 0x5160]),
  (0xFA70, [0x233B4, 0x516A, 0x20BFF, 0x220FC, 0x202E5, 0x22530, 0x2058E, 0x23233, 0x21983, 0x5B82, 0x877D, 0x205B3]),
  (0xFA7C, [0x23C99, 0x51B2, 0x51B8]),
  (0xFAA1, [0x9D34, 0x51C9, 0x51CF, 0x51D1, 0x3CDC, 0x51D3, 0x24AA6, 0x51B3, 0x51E2, 0x5342, 0x51ED, 0x83CD]),
  (0xFAAD, [0x693E, 0x2372D, 0x5F7B, 0x520B, 0x5226, 0x523C, 0x52B5, 0x5257, 0x5294, 0x52B9, 0x52C5, 0x7C15]),
  (0xFAB9, [0x8542, 0x52E0, 0x860D, 0x26B13, 0x5305, 0x28ADE, 0x5549, 0x6ED9, 0x23F80, 0x20954, 0x23FEC, 0x5333]),
  (0xFAC5, [0x3039, 0x20BE2, 0x6CCB, 0x21726, 0x681B, 0x73D5, 0x604A, 0x3EAA, 0x38CC, 0x216E8, 0x71DD, 0x44A2]),
  (0xFAD1, [0x536D, 0x5374, 0x286AB, 0x537E, 0x537F, 0x21596, 0x21613, 0x77E6, 0x5393, 0x28A9B, 0x53A0, 0x53AB]),
  (0xFADD, [0x53AE, 0x73A7, 0x25772, 0x3F59, 0x739C, 0x53C1, 0x53C5, 0x6C49, 0x4E49, 0x57FE, 0x53D9, 0x3AAB]),
  (0xFAE9, [0x20B8F, 0x53E0, 0x23FEB, 0x22DA3, 0x53F6, 0x20C77, 0x5413, 0x7079, 0x552B, 0x6657, 0x6D5B, 0x546D]),
  (0xFAF5, [0x26B53, 0x20D74, 0x555D, 0x548F, 0x54A4, 0x47A6, 0x2170D, 0x20EDD, 0x3DB4, 0x20D4D]),
  (0xFB40, [0x289BC, 0x22698, 0x5547, 0x4CED, 0x542F, 0x7417, 0x5586, 0x55A9, 0x5605, 0x218D7, 0x2403A, 0x4552]),
  (0xFB4C, [0x24435, 0x66B3, 0x210B4, 0x5637, 0x66CD, 0x2328A, 0x66A4, 0x66AD, 0x564D, 0x564F, 0x78F1, 0x56F1]),
  (0xFB58, [0x9787, 0x53FE, 0x5700, 0x56EF, 0x56ED, 0x28B66, 0x3623, 0x2124F, 0x5746, 0x241A5, 0x6C6E, 0x708B]),
  (0xFB64, [0x5742, 0x36B1, 0x26C7E, 0x57E6, 0x21416, 0x5803, 0x21454, 0x24363, 0x5826, 0x24BF5, 0x585C, 0x58AA]),
  (0xFB70, [0x3561, 0x58E0, 0x58DC, 0x2123C, 0x58FB, 0x5BFF, 0x5743, 0x2A150, 0x24278, 0x93D3, 0x35A1, 0x591F]),
  (0xFB7C, [0x68A6, 0x36C3, 0x6E59]),
  (0xFBA1, [0x2163E, 0x5A24, 0x5553, 0x21692, 0x8505, 0x59C9, 0x20D4E, 0x26C81, 0x26D2A, 0x217DC, 0x59D9, 0x217FB]),
  (0xFBAD, [0x217B2, 0x26DA6, 0x6D71, 0x21828, 0x216D5, 0x59F9, 0x26E45, 0x5AAB, 0x5A63, 0x36E6, 0x249A9, 0x5A77]),
  (0xFBB9, [0x3708, 0x5A96, 0x7465, 0x5AD3, 0x26FA1, 0x22554, 0x3D85, 0x21911, 0x3732, 0x216B8, 0x5E83, 0x52D0]),
  (0xFBC5, [0x5B76, 0x6588, 0x5B7C, 0x27A0E, 0x4004, 0x485D, 0x20204, 0x5BD5, 0x6160, 0x21A34, 0x259CC, 0x205A5]),
  (0xFBD1, [0x5BF3, 0x5B9D, 0x4D10, 0x5C05, 0x21B44, 0x5C13, 0x73CE, 0x5C14, 0x21CA5, 0x26B28, 0x5C49, 0x48DD]),
  (0xFBDD, [0x5C85, 0x5CE9, 0x5CEF, 0x5D8B, 0x21DF9, 0x21E37, 0x5D10, 0x5D18, 0x5D46, 0x21EA4, 0x5CBA, 0x5DD7]),
  (0xFBE9, [0x82FC, 0x382D, 0x24901, 0x22049, 0x22173, 0x8287, 0x3836, 0x3BC2, 0x5E2E, 0x6A8A, 0x5E75, 0x5E7A]),
  (0xFBF5, [0x244BC, 0x20CD3, 0x53A6, 0x4EB7, 0x5ED0, 0x53A8, 0x21771, 0x5E09, 0x5EF4, 0x28482]),
  (0xFC40, [0x5EF9, 0x5EFB, 0x38A0, 0x5EFC, 0x683E, 0x941B, 0x5F0D, 0x201C1, 0x2F894, 0x3ADE, 0x48AE, 0x2133A]),
  (0xFC4C, [0x5F3A, 0x26888, 0x223D0, 0x5F58, 0x22471, 0x5F63, 0x97BD, 0x26E6E, 0x5F72, 0x9340, 0x28A36, 0x5FA7]),
  (0xFC58, [0x5DB6, 0x3D5F, 0x25250, 0x21F6A, 0x270F8, 0x22668, 0x91D6, 0x2029E, 0x28A29, 0x6031, 0x6685, 0x21877]),
  (0xFC64, [0x3963, 0x3DC7, 0x3639, 0x5790, 0x227B4, 0x7971, 0x3E40, 0x609E, 0x60A4, 0x60B3, 0x24982, 0x2498F]),
  (0xFC70, [0x27A53, 0x74A4, 0x50E1, 0x5AA0, 0x6164, 0x8424, 0x6142, 0x2F8A6, 0x26ED2, 0x6181, 0x51F4, 0x20656]),
  (0xFC7C, [0x6187, 0x5BAA, 0x23FB7]),
  (0xFCA1, [0x2285F, 0x61D3, 0x28B9D, 0x2995D, 0x61D0, 0x3932, 0x22980, 0x228C1, 0x6023, 0x615C, 0x651E, 0x638B]),
  (0xFCAD, [0x20118, 0x62C5, 0x21770, 0x62D5, 0x22E0D, 0x636C, 0x249DF, 0x3A17, 0x6438, 0x63F8, 0x2138E, 0x217FC]),
  (0xFCB9, [0x6490, 0x6F8A, 0x22E36, 0x9814, 0x2408C, 0x2571D, 0x64E1, 0x64E5, 0x947B, 0x3A66, 0x643A, 0x3A57]),
  (0xFCC5, [0x654D, 0x6F16, 0x24A28, 0x24A23, 0x6585, 0x656D, 0x655F, 0x2307E, 0x65B5, 0x24940, 0x4B37, 0x65D1]),
  (0xFCD1, [0x40D8, 0x21829, 0x65E0, 0x65E3, 0x5FDF, 0x23400, 0x6618, 0x231F7, 0x231F8, 0x6644, 0x231A4, 0x231A5]),
  (0xFCDD, [0x664B, 0x20E75, 0x6667, 0x251E6, 0x6673, 0x6674, 0x21E3D, 0x23231, 0x285F4, 0x231C8, 0x25313, 0x77C5]),
  (0xFCE9, [0x228F7, 0x99A4, 0x6702, 0x2439C, 0x24A21, 0x3B2B, 0x69FA, 0x237C2, 0x675E, 0x6767, 0x6762, 0x241CD]),
  (0xFCF5, [0x290ED, 0x67D7, 0x44E9, 0x6822, 0x6E50, 0x923C, 0x6801, 0x233E6, 0x26DA0, 0x685D]),
  (0xFD40, [0x2346F, 0x69E1, 0x6A0B, 0x28ADF, 0x6973, 0x68C3, 0x235CD, 0x6901, 0x6900, 0x3D32, 0x3A01, 0x2363C]),
  (0xFD4C, [0x3B80, 0x67AC, 0x6961, 0x28A4A, 0x42FC, 0x6936, 0x6998, 0x3BA1, 0x203C9, 0x8363, 0x5090, 0x69F9]),
  (0xFD58, [0x23659, 0x2212A, 0x6A45, 0x23703, 0x6A9D, 0x3BF3, 0x67B1, 0x6AC8, 0x2919C, 0x3C0D, 0x6B1D, 0x20923]),
  (0xFD64, [0x60DE, 0x6B35, 0x6B74, 0x227CD, 0x6EB5, 0x23ADB, 0x203B5, 0x21958, 0x3740, 0x5421, 0x23B5A, 0x6BE1]),
  (0xFD70, [0x23EFC, 0x6BDC, 0x6C37, 0x2248B, 0x248F1, 0x26B51, 0x6C5A, 0x8226, 0x6C79, 0x23DBC, 0x44C5, 0x23DBD]),
  (0xFD7C, [0x241A4, 0x2490C, 0x24900]),
  (0xFDA1, [0x23CC9, 0x36E5, 0x3CEB, 0x20D32, 0x9B83, 0x231F9, 0x22491, 0x7F8F, 0x6837, 0x26D25, 0x26DA1, 0x26DEB]),
  (0xFDAD, [0x6D96, 0x6D5C, 0x6E7C, 0x6F04, 0x2497F, 0x24085, 0x26E72, 0x8533, 0x26F74, 0x51C7, 0x6C9C, 0x6E1D]),
  (0xFDB9, [0x842E, 0x28B21, 0x6E2F, 0x23E2F, 0x7453, 0x23F82, 0x79CC, 0x6E4F, 0x5A91, 0x2304B, 0x6FF8, 0x370D]),
  (0xFDC5, [0x6F9D, 0x23E30, 0x6EFA, 0x21497, 0x2403D, 0x4555, 0x93F0, 0x6F44, 0x6F5C, 0x3D4E, 0x6F74, 0x29170]),
  (0xFDD1, [0x3D3B, 0x6F9F, 0x24144, 0x6FD3, 0x24091, 0x24155, 0x24039, 0x23FF0, 0x23FB4, 0x2413F, 0x51DF, 0x24156]),
  (0xFDDD, [0x24157, 0x24140, 0x261DD, 0x704B, 0x707E, 0x70A7, 0x7081, 0x70CC, 0x70D5, 0x70D6, 0x70DF, 0x4104]),
  (0xFDE9, [0x3DE8, 0x71B4, 0x7196, 0x24277, 0x712B, 0x7145, 0x5A88, 0x714A, 0x716E, 0x5C9C, 0x24365, 0x714F]),
  (0xFDF5, [0x9362, 0x242C1, 0x712C, 0x2445A, 0x24A27, 0x24A22, 0x71BA, 0x28BE8, 0x70BD, 0x720E]),
  (0xFE40, [0x9442, 0x7215, 0x5911, 0x9443, 0x7224, 0x9341, 0x25605, 0x722E, 0x7240, 0x24974, 0x68BD, 0x7255]),
  (0xFE4C, [0x7257, 0x3E55, 0x23044, 0x680D, 0x6F3D, 0x7282, 0x732A, 0x732B, 0x24823, 0x2882B, 0x48ED, 0x28804]),
  (0xFE58, [0x7328, 0x732E, 0x73CF, 0x73AA, 0x20C3A, 0x26A2E, 0x73C9, 0x7449, 0x241E2, 0x216E7, 0x24A24, 0x6623]),
  (0xFE64, [0x36C5, 0x249B7, 0x2498D, 0x249FB, 0x73F7, 0x7415, 0x6903, 0x24A26, 0x7439, 0x205C3, 0x3ED7, 0x745C]),
  (0xFE70, [0x228AD, 0x7460, 0x28EB2, 0x7447, 0x73E4, 0x7476, 0x83B9, 0x746C, 0x3730, 0x7474, 0x93F1, 0x6A2C]),
  (0xFE7C, [0x7482, 0x4953, 0x24A8C]),
  (0xFEA1, [0x2415F, 0x24A79, 0x28B8F, 0x5B46, 0x28C03, 0x2189E, 0x74C8, 0x21988, 0x750E, 0x74E9, 0x751E, 0x28ED9]),
  (0xFEAD, [0x21A4B, 0x5BD7, 0x28EAC, 0x9385, 0x754D, 0x754A, 0x7567, 0x756E, 0x24F82, 0x3F04, 0x24D13, 0x758E]),
  (0xFEB9, [0x745D, 0x759E, 0x75B4, 0x7602, 0x762C, 0x7651, 0x764F, 0x766F, 0x7676, 0x263F5, 0x7690, 0x81EF]),
  (0xFEC5, [0x37F8, 0x26911, 0x2690E, 0x76A1, 0x76A5, 0x76B7, 0x76CC, 0x26F9F, 0x8462, 0x2509D, 0x2517D, 0x21E1C]),
  (0xFED1, [0x771E, 0x7726, 0x7740, 0x64AF, 0x25220, 0x7758, 0x232AC, 0x77AF, 0x28964, 0x28968, 0x216C1, 0x77F4]),
  (0xFEDD, [0x7809, 0x21376, 0x24A12, 0x68CA, 0x78AF, 0x78C7, 0x78D3, 0x96A5, 0x792E, 0x255E0, 0x78D7, 0x7934]),
  (0xFEE9, [0x78B1, 0x2760C, 0x8FB8, 0x8884, 0x28B2B, 0x26083, 0x2261C, 0x7986, 0x8900, 0x6902, 0x7980, 0x25857]),
  (0xFEF5, [0x799D, 0x27B39, 0x793C, 0x79A9, 0x6E2A, 0x27126, 0x3EA8, 0x79C6, 0x2910D, 0x79D4])]

/-- /repo/modules/from/_HKSCS2001.txt; there is no file for writing. -/
def hkscs2001 : Charset where
  reads := hkscs2001Reads
  writes := []

/-- The rules of /repo/modules/from/_HKSCS2004.txt: code, character.  No two lines have the same code, so their order does not matter; here they
are sorted. -/
def hkscs2004Reads : Chart := [
  (0x8740, [0x43F0, 0x4C32, 0x4603, 0x45A6, 0x4578, 0x27267, 0x4D77, 0x45B3, 0x27CB1, 0x4CE2, 0x27CC5, 0x3B95]),
  (0x874C, [0x4736, 0x4744, 0x4C47, 0x4C40, 0x242BF, 0x23617, 0x27352, 0x26E8B, 0x270D2, 0x4C57, 0x2A351, 0x474F]),
  (0x8758, [0x45DA, 0x4C85, 0x27C6C, 0x4D07, 0x4AA4, 0x46A1, 0x26B23, 0x7225, 0x25A54, 0x21A63, 0x23E06, 0x23F61]),
  (0x8764, [0x664D, 0x56FB]),
  (0x8767, [0x7D95, 0x591D, 0x28BB9, 0x3DF4, 0x9734, 0x27BEF, 0x5BDB, 0x21D5E, 0x5AA4, 0x3625, 0x29EB0, 0x5AD1]),
  (0x8773, [0x5BB7, 0x5CFC, 0x676E, 0x8593, 0x29945, 0x7461, 0x749D]),
  (0x8840, [0x31C0, 0x31C1, 0x31C2, 0x31C3, 0x31C4, 0x2010C, 0x31C5, 0x200D1, 0x200CD, 0x31C6, 0x31C7, 0x200CB]),
  (0x884C, [0x21FE8, 0x31C8, 0x200CA, 0x31C9, 0x31CA, 0x31CB, 0x31CC, 0x2010E, 0x31CD, 0x31CE, 0x100, 0xC1]),
  (0x8858, [0x1CD, 0xC0, 0x112, 0xC9, 0x11A, 0xC8, 0x14C, 0xD3, 0x1D1, 0xD2]),
  (0x8863, [0x1EBE]),
  (0x8865, [0x1EC0, 0xCA, 0x101, 0xE1, 0x1CE, 0xE0, 0x251, 0x113, 0xE9, 0x11B, 0xE8, 0x12B]),
  (0x8871, [0xED, 0x1D0, 0xEC, 0x14D, 0xF3, 0x1D2, 0xF2, 0x16B, 0xFA, 0x1D4, 0xF9, 0x1D6]),
  (0x887D, [0x1D8, 0x1DA]),
  (0x88A1, [0x1DC, 0xFC]),
  (0x88A4, [0x1EBF]),
  (0x88A6, [0x1EC1, 0xEA, 0x261, 0x23DA, 0x23DB]),
  (0x8940, [0x2A3A9, 0x21145]),
  (0x8943, [0x650A]),
  (0x8946, [0x4E3D, 0x6EDD, 0x9D4E, 0x91DF]),
  (0x894C, [0x27735, 0x6491, 0x4F1A, 0x4F28, 0x4FA8, 0x5156, 0x5174, 0x519C, 0x51E4, 0x52A1, 0x52A8, 0x533B]),
  (0x8958, [0x534E, 0x53D1, 0x53D8, 0x56E2, 0x58F0, 0x5904, 0x5907, 0x5932, 0x5934, 0x5B66, 0x5B9E, 0x5B9F]),
  (0x8964, [0x5C9A, 0x5E86, 0x603B, 0x6589, 0x67FE, 0x6804, 0x6865, 0x6D4E, 0x70BC, 0x7535, 0x7EA4, 0x7EAC]),
  (0x8970, [0x7EBA, 0x7EC7, 0x7ECF, 0x7EDF, 0x7F06, 0x7F37, 0x827A, 0x82CF, 0x836F, 0x89C6, 0x8BBE, 0x8BE2]),
  (0x897C, [0x8F66, 0x8F67, 0x8F6E]),
  (0x89A1, [0x7411, 0x7CFC, 0x7DCD, 0x6946, 0x7AC9, 0x5227]),
  (0x89AB, [0x918C, 0x78B8, 0x915E, 0x80BC]),
  (0x89B0, [0x8D0B, 0x80F6, 0x209E7]),
  (0x89B5, [0x809F, 0x9EC7, 0x4CCD, 0x9DC9, 0x9E0C, 0x4C3E, 0x29DF6, 0x2700E, 0x9E0A, 0x2A133, 0x35C1]),
  (0x89C1, [0x6E9A, 0x823E, 0x7519]),
  (0x89C5, [0x4911, 0x9A6C, 0x9A8F, 0x9F99, 0x7987, 0x2846C, 0x21DCA, 0x205D0, 0x22AE6, 0x4E24, 0x4E81, 0x4E80]),
  (0x89D1, [0x4E87, 0x4EBF, 0x4EEB, 0x4F37, 0x344C, 0x4FBD, 0x3E48, 0x5003, 0x5088, 0x347D, 0x3493, 0x34A5]),
  (0x89DD, [0x5186, 0x5905, 0x51DB, 0x51FC, 0x5205, 0x4E89, 0x5279, 0x5290, 0x5327, 0x35C7, 0x53A9, 0x3551]),
  (0x89E9, [0x53B0, 0x3553, 0x53C2, 0x5423, 0x356D, 0x3572, 0x3681, 0x5493, 0x54A3, 0x54B4, 0x54B9, 0x54D0]),
  (0x89F5, [0x54EF, 0x5518, 0x5523, 0x5528, 0x3598, 0x553F, 0x35A5, 0x35BF, 0x55D7, 0x35C5]),
  (0x8A40, [0x27D84, 0x5525]),
  (0x8A43, [0x20C42, 0x20D15, 0x2512B, 0x5590, 0x22CC6, 0x39EC, 0x20341, 0x8E46, 0x24DB8, 0x294E5, 0x4053, 0x280BE]),
  (0x8A4F, [0x777A, 0x22C38, 0x3A34, 0x47D5, 0x2815D, 0x269F2, 0x24DEA, 0x64DD, 0x20D7C, 0x20FB4, 0x20CD5, 0x210F4]),
  (0x8A5B, [0x648D, 0x8E7E, 0x20E96, 0x20C0B, 0x20F64, 0x22CA9, 0x28256, 0x244D3]),
  (0x8A64, [0x20D46, 0x29A4D, 0x280E9, 0x47F4, 0x24EA7, 0x22CC2, 0x9AB2, 0x3A67, 0x295F4, 0x3FED, 0x3506, 0x252C7]),
  (0x8A70, [0x297D4, 0x278C8, 0x22D44, 0x9D6E, 0x9815]),
  (0x8A76, [0x43D9, 0x260A5, 0x64B4, 0x54E3, 0x22D4C, 0x22BCA, 0x21077, 0x39FB, 0x2106F]),
  (0x8AA1, [0x266DA, 0x26716, 0x279A0, 0x64EA, 0x25052, 0x20C43, 0x8E68, 0x221A1, 0x28B4C, 0x20731]),
  (0x8AAC, [0x480B, 0x201A9, 0x3FFA, 0x5873, 0x22D8D]),
  (0x8AB2, [0x245C8, 0x204FC, 0x26097, 0x20F4C, 0x20D96, 0x5579, 0x40BB, 0x43BA]),
  (0x8ABB, [0x4AB4, 0x22A66, 0x2109D, 0x81AA, 0x98F5, 0x20D9C, 0x6379, 0x39FE, 0x22775, 0x8DC0, 0x56A1, 0x647C]),
  (0x8AC7, [0x3E43]),
  (0x8AC9, [0x2A601, 0x20E09, 0x22ACF, 0x22CC9]),
  (0x8ACE, [0x210C8, 0x239C2, 0x3992, 0x3A06, 0x2829B, 0x3578, 0x25E49, 0x220C7, 0x5652, 0x20F31, 0x22CB2, 0x29720]),
  (0x8ADA, [0x34BC, 0x6C3D, 0x24E3B]),
  (0x8ADF, [0x27574, 0x22E8B, 0x22208, 0x2A65B, 0x28CCD, 0x20E7A, 0x20C34, 0x2681C, 0x7F93, 0x210CF, 0x22803, 0x22939]),
  (0x8AEB, [0x35FB, 0x251E3, 0x20E8C, 0x20F8D, 0x20EAA, 0x3F93, 0x20F30, 0x20D47, 0x2114F, 0x20E4C]),
  (0x8AF6, [0x20EAB, 0x20BA9, 0x20D48, 0x210C0, 0x2113D, 0x3FF9, 0x22696, 0x6432, 0x20FAD]),
  (0x8B40, [0x233F4, 0x27639, 0x22BCE, 0x20D7E, 0x20D7F, 0x22C51, 0x22C55, 0x3A18, 0x20E98, 0x210C7, 0x20F2E, 0x2A632]),
  (0x8B4C, [0x26B50, 0x28CD2, 0x28D99, 0x28CCA, 0x95AA, 0x54CC, 0x82C4, 0x55B9]),
  (0x8B55, [0x29EC3, 0x9C26, 0x9AB6, 0x2775E, 0x22DEE, 0x7140, 0x816D, 0x80EC, 0x5C1C, 0x26572, 0x8134, 0x3797]),
  (0x8B61, [0x535F, 0x280BD, 0x91B6, 0x20EFA, 0x20E0F, 0x20E77, 0x20EFB, 0x35DD, 0x24DEB, 0x3609, 0x20CD6, 0x56AF]),
  (0x8B6D, [0x227B5, 0x210C9, 0x20E10, 0x20E78, 0x21078, 0x21148, 0x28207, 0x21455, 0x20E79, 0x24E50, 0x22DA4, 0x5A54]),
  (0x8B79, [0x2101D, 0x2101E, 0x210F5, 0x210F6, 0x579C, 0x20E11]),
  (0x8BA1, [0x27694, 0x282CD, 0x20FB5, 0x20E7B, 0x2517E, 0x3703, 0x20FB6, 0x21180, 0x252D8, 0x2A2BD, 0x249DA, 0x2183A]),
  (0x8BAD, [0x24177, 0x2827C, 0x5899, 0x5268, 0x361A, 0x2573D, 0x7BB2, 0x5B68, 0x4800, 0x4B2C, 0x9F27, 0x49E7]),
  (0x8BB9, [0x9C1F, 0x9B8D, 0x25B74, 0x2313D, 0x55FB, 0x35F2, 0x5689, 0x4E28, 0x5902, 0x21BC1, 0x2F878, 0x9751]),
  (0x8BC5, [0x20086, 0x4E5B, 0x4EBB, 0x353E, 0x5C23, 0x5F51, 0x5FC4, 0x38FA, 0x624C, 0x6535, 0x6B7A, 0x6C35]),
  (0x8BD1, [0x6C3A, 0x706C, 0x722B, 0x4E2C, 0x72AD, 0x248E9, 0x7F52, 0x793B, 0x7CF9, 0x7F53, 0x2626A, 0x34C1]),
  (0x8BDE, [0x2634B, 0x8002, 0x8080, 0x26612, 0x26951, 0x535D, 0x8864, 0x89C1, 0x278B2, 0x8BA0, 0x8D1D, 0x9485]),
  (0x8BEA, [0x9578, 0x957F, 0x95E8, 0x28E0F, 0x97E6, 0x9875, 0x98CE, 0x98DE, 0x9963, 0x29810, 0x9C7C, 0x9E1F]),
  (0x8BF6, [0x9EC4, 0x6B6F, 0xF907, 0x4E37, 0x20087, 0x961D, 0x6237, 0x94A2]),
  (0x8C40, [0x503B, 0x6DFE, 0x29C73, 0x9FA6, 0x3DC9, 0x888F, 0x2414E, 0x7077, 0x5CF5, 0x4B20, 0x251CD, 0x3559]),
  (0x8C4C, [0x25D30, 0x6122, 0x28A32, 0x8FA7, 0x91F6, 0x7191, 0x6719, 0x73BA, 0x23281, 0x2A107, 0x3C8B, 0x21980]),
  (0x8C58, [0x4B10, 0x78E4, 0x7402, 0x51AE, 0x2870F, 0x4009, 0x6A63, 0x2A2BA, 0x4223, 0x860F, 0x20A6F, 0x7A2A]),
  (0x8C64, [0x29947, 0x28AEA, 0x9755, 0x704D, 0x5324, 0x2207E, 0x93F4, 0x76D9, 0x289E3, 0x9FA7, 0x77DD, 0x4EA3]),
  (0x8C70, [0x4FF0, 0x50BC, 0x4E2F, 0x4F17, 0x9FA8, 0x5434, 0x7D8B, 0x5892, 0x58D0, 0x21DB6, 0x5E92, 0x5E99]),
  (0x8C7C, [0x5FC2, 0x22712, 0x658B]),
  (0x8CA1, [0x233F9, 0x6919, 0x6A43, 0x23C63, 0x6CFF]),
  (0x8CA7, [0x7200, 0x24505, 0x738C, 0x3EDB, 0x24A13, 0x5B15, 0x74B9, 0x8B83, 0x25CA4, 0x25695, 0x7A93, 0x7BEC]),
  (0x8CB3, [0x7CC3, 0x7E6C, 0x82F8, 0x8597, 0x9FA9, 0x8890, 0x9FAA, 0x8EB9, 0x9FAB, 0x8FCF, 0x855F, 0x99E0]),
  (0x8CBF, [0x9221, 0x9FAC, 0x28DB9, 0x2143F, 0x4071, 0x42A2, 0x5A1A]),
  (0x8CC9, [0x9868, 0x676B, 0x4276, 0x573D]),
  (0x8CCE, [0x85D6, 0x2497B, 0x82BF, 0x2710D, 0x4C81, 0x26D74, 0x5D7B, 0x26B15, 0x26FBE, 0x9FAD, 0x9FAE, 0x5B96]),
  (0x8CDA, [0x9FAF, 0x66E7, 0x7E5B, 0x6E57, 0x79CA, 0x3D88, 0x44C3, 0x23256, 0x22796, 0x439A, 0x4536]),
  (0x8CE6, [0x5CD5, 0x23B1A, 0x8AF9, 0x5C78, 0x3D12, 0x23551, 0x5D78, 0x9FB2, 0x7157, 0x4558, 0x240EC, 0x21E23]),
  (0x8CF2, [0x4C77, 0x3978, 0x344A, 0x201A4, 0x26C41, 0x8ACC, 0x4FB4, 0x20239, 0x59BF, 0x816C, 0x9856, 0x298FA]),
  (0x8CFE, [0x5F3B]),
  (0x8D40, [0x20B9F]),
  (0x8D42, [0x221C1, 0x2896D, 0x4102, 0x46BB, 0x29079, 0x3F07, 0x9FB3, 0x2A1B5, 0x40F8, 0x37D6, 0x46F7, 0x26C46]),
  (0x8D4E, [0x417C, 0x286B2, 0x273FF, 0x456D, 0x38D4, 0x2549A, 0x4561, 0x451B, 0x4D89, 0x4C7B, 0x4D76, 0x45EA]),
  (0x8D5A, [0x3FC8, 0x24B0F, 0x3661, 0x44DE, 0x44BD, 0x41ED, 0x5D3E, 0x5D48, 0x5D56, 0x3DFC, 0x380F, 0x5DA4]),
  (0x8D66, [0x5DB9, 0x3820, 0x3838, 0x5E42, 0x5EBD, 0x5F25, 0x5F83, 0x3908, 0x3914, 0x393F, 0x394D, 0x60D7]),
  (0x8D72, [0x613D, 0x5CE5, 0x3989, 0x61B7, 0x61B9, 0x61CF, 0x39B8, 0x622C, 0x6290, 0x62E5, 0x6318, 0x39F8]),
  (0x8D7E, [0x56B1]),
  (0x8DA1, [0x3A03, 0x63E2, 0x63FB, 0x6407, 0x645A, 0x3A4B, 0x64C0, 0x5D15, 0x5621, 0x9F9F, 0x3A97, 0x6586]),
  (0x8DAD, [0x3ABD, 0x65FF, 0x6653, 0x3AF2, 0x6692, 0x3B22, 0x6716, 0x3B42, 0x67A4, 0x6800, 0x3B58, 0x684A]),
  (0x8DB9, [0x6884, 0x3B72, 0x3B71, 0x3B7B, 0x6909, 0x6943, 0x725C, 0x6964, 0x699F, 0x6985, 0x3BBC, 0x69D6]),
  (0x8DC5, [0x3BDD, 0x6A65, 0x6A74, 0x6A71, 0x6A82, 0x3BEC, 0x6A99, 0x3BF2, 0x6AAB, 0x6AB5, 0x6AD4, 0x6AF6]),
  (0x8DD1, [0x6B81, 0x6BC1, 0x6BEA, 0x6C75, 0x6CAA, 0x3CCB, 0x6D02, 0x6D06, 0x6D26, 0x6D81, 0x3CEF, 0x6DA4]),
  (0x8DDD, [0x6DB1, 0x6E15, 0x6E18, 0x6E29, 0x6E86, 0x289C0, 0x6EBB, 0x6EE2, 0x6EDA, 0x9F7F, 0x6EE8, 0x6EE9]),
  (0x8DE9, [0x6F24, 0x6F34, 0x3D46, 0x23F41, 0x6F81, 0x6FBE, 0x3D6A, 0x3D75, 0x71B7, 0x5C99, 0x3D8A, 0x702C]),
  (0x8DF5, [0x3D91, 0x7050, 0x7054, 0x706F, 0x707F, 0x7089, 0x20325, 0x43C1, 0x35F1, 0x20ED8]),
  (0x8E40, [0x23ED7, 0x57BE, 0x26ED3, 0x713E, 0x257E0, 0x364E, 0x69A2, 0x28BE9, 0x5B74, 0x7A49, 0x258E1, 0x294D9]),
  (0x8E4C, [0x7A65, 0x7A7D, 0x259AC, 0x7ABB, 0x7AB0, 0x7AC2, 0x7AC3, 0x71D1, 0x2648D, 0x41CA, 0x7ADA, 0x7ADD]),
  (0x8E58, [0x7AEA, 0x41EF, 0x54B2, 0x25C01, 0x7B0B, 0x7B55, 0x7B29, 0x2530E, 0x25CFE, 0x7BA2, 0x7B6F, 0x839C]),
  (0x8E64, [0x25BB4, 0x26C7F, 0x7BD0, 0x8421, 0x7B92]),
  (0x8E6A, [0x25D20, 0x3DAD, 0x25C65, 0x8492, 0x7BFA]),
  (0x8E70, [0x7C35, 0x25CC1, 0x7C44, 0x7C83, 0x24882, 0x7CA6, 0x667D, 0x24578, 0x7CC9, 0x7CC7, 0x7CE6, 0x7C74]),
  (0x8E7C, [0x7CF3, 0x7CF5]),
  (0x8EA1, [0x7E67, 0x451D, 0x26E44, 0x7D5D, 0x26ED6, 0x748D, 0x7D89, 0x7DAB, 0x7135, 0x7DB3]),
  (0x8EAC, [0x24057, 0x26029, 0x7DE4, 0x3D13, 0x7DF5, 0x217F9, 0x7DE5, 0x2836D]),
  (0x8EB5, [0x26121, 0x2615A, 0x7E6E, 0x7E92, 0x432B, 0x946C, 0x7E27, 0x7F40, 0x7F41, 0x7F47, 0x7936, 0x262D0]),
  (0x8EC1, [0x99E1, 0x7F97, 0x26351, 0x7FA3, 0x21661, 0x20068, 0x455C, 0x23766, 0x4503, 0x2833A, 0x7FFA, 0x26489]),
  (0x8ECE, [0x8008, 0x801D]),
  (0x8ED1, [0x802F, 0x2A087, 0x26CC3, 0x803B, 0x803C, 0x8061, 0x22714, 0x4989, 0x26626, 0x23DE3, 0x266E8, 0x6725]),
  (0x8EDD, [0x80A7, 0x28A48, 0x8107, 0x811A, 0x58B0, 0x226F6, 0x6C7F, 0x26498, 0x24FB8, 0x64E7, 0x2148A, 0x8218]),
  (0x8EE9, [0x2185E, 0x6A53, 0x24A65, 0x24A95, 0x447A, 0x8229, 0x20B0D, 0x26A52, 0x23D7E, 0x4FF9, 0x214FD, 0x84E2]),
  (0x8EF5, [0x8362, 0x26B0A, 0x249A7, 0x23530, 0x21773, 0x23DF8, 0x82AA, 0x691B, 0x2F994, 0x41DB]),
  (0x8F40, [0x854B, 0x82D0, 0x831A, 0x20E16, 0x217B4, 0x36C1, 0x2317D, 0x2355A, 0x827B, 0x82E2, 0x8318, 0x23E8B]),
  (0x8F4C, [0x26DA3, 0x26B05, 0x26B97, 0x235CE, 0x3DBF, 0x831D, 0x55EC, 0x8385, 0x450B, 0x26DA5, 0x83AC]),
  (0x8F58, [0x83D3, 0x347E, 0x26ED4, 0x6A57, 0x855A, 0x3496, 0x26E42, 0x22EEF, 0x8458, 0x25BE4, 0x8471, 0x3DD3]),
  (0x8F64, [0x44E4, 0x6AA7, 0x844A, 0x23CB5, 0x7958]),
  (0x8F6A, [0x26B96, 0x26E77, 0x26E43, 0x84DE]),
  (0x8F6F, [0x8391, 0x44A0, 0x8493, 0x84E4, 0x25C91, 0x4240, 0x25CC0, 0x4543, 0x8534, 0x5AF2, 0x26E99, 0x4527]),
  (0x8F7B, [0x8573, 0x4516, 0x67BF, 0x8616]),
  (0x8FA1, [0x28625, 0x2863B, 0x85C1, 0x27088, 0x8602, 0x21582, 0x270CD, 0x2F9B2, 0x456A, 0x8628, 0x3648, 0x218A2]),
  (0x8FAD, [0x53F7, 0x2739A, 0x867E, 0x8771, 0x2A0F8, 0x87EE, 0x22C27, 0x87B1, 0x87DA, 0x880F, 0x5661, 0x866C]),
  (0x8FB9, [0x6856, 0x460F, 0x8845, 0x8846, 0x275E0, 0x23DB9, 0x275E4, 0x885E, 0x889C, 0x465B, 0x88B4, 0x88B5]),
  (0x8FC5, [0x63C1, 0x88C5, 0x7777, 0x2770F, 0x8987, 0x898A]),
  (0x8FCD, [0x89A7, 0x89BC, 0x28A25, 0x89E7, 0x27924, 0x27ABD, 0x8A9C, 0x7793, 0x91FE, 0x8A90, 0x27A59, 0x7AE9]),
  (0x8FD9, [0x27B3A, 0x23F8F, 0x4713, 0x27B38, 0x717C, 0x8B0C, 0x8B1F, 0x25430, 0x25565, 0x8B3F, 0x8B4C, 0x8B4D]),
  (0x8FE5, [0x8AA9, 0x24A7A, 0x8B90, 0x8B9B, 0x8AAF, 0x216DF, 0x4615, 0x884F, 0x8C9B, 0x27D54, 0x27D8F, 0x2F9D4]),
  (0x8FF1, [0x3725, 0x27D53, 0x8CD6, 0x27D98, 0x27DBD, 0x8D12, 0x8D03, 0x21910, 0x8CDB, 0x705C, 0x8D11, 0x24CC9]),
  (0x8FFD, [0x3ED0]),
  (0x9040, [0x8DA9, 0x28002, 0x21014, 0x2498A, 0x3B7C, 0x281BC, 0x2710C, 0x7AE7, 0x8EAD, 0x8EB6, 0x8EC3, 0x92D4]),
  (0x904C, [0x8F19, 0x8F2D, 0x28365, 0x28412, 0x8FA5, 0x9303, 0x2A29F, 0x20A50, 0x8FB3, 0x492A, 0x289DE, 0x2853D]),
  (0x9058, [0x23DBB, 0x5EF8, 0x23262, 0x8FF9, 0x2A014, 0x286BC, 0x28501, 0x22325, 0x3980, 0x26ED7, 0x9037, 0x2853C]),
  (0x9064, [0x27ABE, 0x9061, 0x2856C, 0x2860B, 0x90A8, 0x28713, 0x90C4, 0x286E6, 0x90AE]),
  (0x906E, [0x9167, 0x3AF0, 0x91A9, 0x91C4, 0x7CAC, 0x28933, 0x21E89, 0x920E, 0x6C9F, 0x9241, 0x9262, 0x255B9]),
  (0x907B, [0x28AC6, 0x23C9B, 0x28B0C, 0x255DB]),
  (0x90A1, [0x20D31, 0x932C, 0x936B, 0x28AE1, 0x28BEB, 0x708F, 0x5AC3, 0x28AE2, 0x28AE5, 0x4965, 0x9244, 0x28BEC]),
  (0x90AD, [0x28C39, 0x28BFF, 0x9373, 0x945B, 0x8EBC, 0x9585, 0x95A6, 0x9426, 0x95A0, 0x6FF6, 0x42B9, 0x2267A]),
  (0x90B9, [0x286D8, 0x2127C, 0x23E2E, 0x49DF, 0x6C1C, 0x967B, 0x9696, 0x416C, 0x96A3, 0x26ED5, 0x61DA, 0x96B6]),
  (0x90C5, [0x78F5, 0x28AE0, 0x96BD, 0x53CC, 0x49A1, 0x26CB8, 0x20274, 0x26410, 0x290AF, 0x290E5, 0x24AD1, 0x21915]),
  (0x90D1, [0x2330A, 0x9731, 0x8642, 0x9736, 0x4A0F, 0x453D, 0x4585, 0x24AE9, 0x7075, 0x5B41, 0x971B]),
  (0x90DD, [0x291D5, 0x9757, 0x5B4A, 0x291EB, 0x975F, 0x9425, 0x50D0, 0x230B7, 0x230BC, 0x9789, 0x979F, 0x97B1]),
  (0x90E9, [0x97BE, 0x97C0, 0x97D2, 0x97E0, 0x2546C, 0x97EE, 0x741C, 0x29433]),
  (0x90F2, [0x97F5, 0x2941D, 0x2797A, 0x4AD1, 0x9834, 0x9833, 0x984B, 0x9866, 0x3B0E, 0x27175, 0x3D51, 0x20630]),
  (0x90FE, [0x2415C]),
  (0x9140, [0x25706, 0x98CA, 0x98B7, 0x98C8, 0x98C7, 0x4AFF, 0x26D27, 0x216D3, 0x55B0, 0x98E1, 0x98E6, 0x98EC]),
  (0x914C, [0x9378, 0x9939, 0x24A29, 0x4B72, 0x29857, 0x29905, 0x99F5, 0x9A0C, 0x9A3B, 0x9A10, 0x9A58, 0x25725]),
  (0x9158, [0x36C4, 0x290B1, 0x29BD5, 0x9AE0, 0x9AE2, 0x29B05, 0x9AF4, 0x4C0E, 0x9B14, 0x9B2D, 0x28600, 0x5034]),
  (0x9164, [0x9B34, 0x269A8, 0x38C3, 0x2307D, 0x9B50, 0x9B40, 0x29D3E, 0x5A45, 0x21863, 0x9B8E, 0x2424B, 0x9C02]),
  (0x9170, [0x9BFF, 0x9C0C, 0x29E68, 0x9DD4, 0x29FB7, 0x2A192, 0x2A1AB, 0x2A0E1, 0x2A123, 0x2A1DF, 0x9D7E, 0x9D83]),
  (0x917C, [0x2A134, 0x9E0E, 0x6888]),
  (0x91A1, [0x9DC4, 0x2215B, 0x2A193, 0x2A220, 0x2193B, 0x2A233, 0x9D39, 0x2A0B9, 0x2A2B4, 0x9E90, 0x9E95, 0x9E9E]),
  (0x91AD, [0x9EA2, 0x4D34, 0x9EAA, 0x9EAF, 0x24364, 0x9EC1, 0x3B60, 0x39E5, 0x3D1D, 0x4F32, 0x37BE, 0x28C2B]),
  (0x91B9, [0x9F02, 0x9F08, 0x4B96, 0x9424, 0x26DA2, 0x9F17]),
  (0x91C0, [0x9F39, 0x569F, 0x568A, 0x9F45, 0x99B8, 0x2908B, 0x97F2, 0x847F, 0x9F62, 0x9F69, 0x7ADC, 0x9F8E]),
  (0x91CC, [0x7216, 0x4BBE, 0x24975, 0x249BB, 0x7177, 0x249F8, 0x24348, 0x24A51, 0x739E, 0x28BDA, 0x218FA, 0x799F]),
  (0x91D8, [0x2897E, 0x28E36, 0x9369, 0x93F3, 0x28A44, 0x92EC, 0x9381, 0x93CB, 0x2896C, 0x244B9, 0x7217, 0x3EEB]),
  (0x91E4, [0x7772, 0x7A43, 0x70D0, 0x24473, 0x243F8, 0x717E, 0x217EF, 0x70A3, 0x218BE, 0x23599, 0x3EC7, 0x21885]),
  (0x91F0, [0x2542F, 0x217F8, 0x3722, 0x216FB, 0x21839, 0x36E1, 0x21774, 0x218D1, 0x25F4B, 0x3723, 0x216C0, 0x575B]),
  (0x91FC, [0x24A25, 0x213FE, 0x212A8]),
  (0x9240, [0x213C6, 0x214B6, 0x8503, 0x236A6]),
  (0x9245, [0x8455, 0x24994, 0x27165, 0x23E31, 0x2555C, 0x23EFB, 0x27052, 0x44F4, 0x236EE, 0x2999D, 0x26F26, 0x67F9]),
  (0x9251, [0x3733, 0x3C15, 0x3DE7, 0x586C, 0x21922, 0x6810, 0x4057, 0x2373F, 0x240E1, 0x2408B, 0x2410F, 0x26C21]),
  (0x925D, [0x54CB, 0x569E, 0x266B1, 0x5692, 0x20FDF, 0x20BA8, 0x20E0D, 0x93C6, 0x28B13, 0x939C, 0x4EF8, 0x512B]),
  (0x9269, [0x3819, 0x24436, 0x4EBC, 0x20465, 0x2037F, 0x4F4B, 0x4F8A, 0x25651, 0x5A68, 0x201AB, 0x203CB, 0x3999]),
  (0x9275, [0x2030A, 0x20414, 0x3435, 0x4F29, 0x202C0, 0x28EB3, 0x20275, 0x8ADA, 0x2020C, 0x4E98]),
  (0x92A1, [0x50CD, 0x510D, 0x4FA2, 0x4F03, 0x24A0E, 0x23E8A, 0x4F42, 0x502E, 0x506C, 0x5081, 0x4FCC, 0x4FE5]),
  (0x92AD, [0x5058, 0x50FC]),
  (0x92B3, [0x6E76, 0x23595, 0x23E39, 0x23EBF, 0x6D72, 0x21884, 0x23E89, 0x51A8, 0x51C3, 0x205E0, 0x44DD, 0x204A3]),
  (0x92BF, [0x20492, 0x20491, 0x8D7A, 0x28A9C, 0x2070E, 0x5259, 0x52A4, 0x20873, 0x52E1]),
  (0x92C9, [0x467A, 0x718C, 0x2438C, 0x20C20, 0x249AC, 0x210E4, 0x69D1, 0x20E1D]),
  (0x92D2, [0x3EDE, 0x7499, 0x7414, 0x7456, 0x7398, 0x4B8E, 0x24ABC, 0x2408D, 0x53D0, 0x3584, 0x720F, 0x240C9]),
  (0x92DE, [0x55B4, 0x20345, 0x54CD, 0x20BC6, 0x571D, 0x925D, 0x96F4, 0x9366, 0x57DD, 0x578D, 0x577F, 0x363E]),
  (0x92EA, [0x58CB, 0x5A99, 0x28A46, 0x216FA, 0x2176F, 0x21710, 0x5A2C, 0x59B8, 0x928F, 0x5A7E, 0x5ACF, 0x5A12]),
  (0x92F6, [0x25946, 0x219F3, 0x21861, 0x24295, 0x36F5, 0x6D05, 0x7443, 0x5A21, 0x25E83]),
  (0x9340, [0x5A81, 0x28BD7, 0x20413, 0x93E0, 0x748C, 0x21303, 0x7105, 0x4972, 0x9408, 0x289FB, 0x93BD, 0x37A0]),
  (0x934C, [0x5C1E, 0x5C9E, 0x5E5E, 0x5E48, 0x21996, 0x2197C, 0x23AEE, 0x5ECD, 0x5B4F, 0x21903, 0x21904, 0x3701]),
  (0x9358, [0x218A0, 0x36DD, 0x216FE, 0x36D3, 0x812A, 0x28A47, 0x21DBA, 0x23472, 0x289A8, 0x5F0C, 0x5F0E, 0x21927]),
  (0x9364, [0x217AB, 0x5A6B, 0x2173B, 0x5B44, 0x8614, 0x275FD, 0x8860, 0x607E, 0x22860, 0x2262B, 0x5FDB, 0x3EB8]),
  (0x9370, [0x225AF, 0x225BE, 0x29088, 0x26F73, 0x61C0, 0x2003E, 0x20046, 0x2261B, 0x6199, 0x6198, 0x6075, 0x22C9B]),
  (0x937C, [0x22D07, 0x246D4, 0x2914D]),
  (0x93A1, [0x6471, 0x24665, 0x22B6A, 0x3A29, 0x22B22, 0x23450, 0x298EA, 0x22E78, 0x6337, 0x2A45B, 0x64B6, 0x6331]),
  (0x93AD, [0x63D1, 0x249E3, 0x22D67, 0x62A4, 0x22CA1, 0x643B, 0x656B, 0x6972, 0x3BF4, 0x2308E, 0x232AD, 0x24989]),
  (0x93B9, [0x232AB, 0x550D, 0x232E0, 0x218D9, 0x2943F, 0x66CE, 0x23289, 0x231B3, 0x3AE0, 0x4190, 0x25584, 0x28B22]),
  (0x93C5, [0x2558F, 0x216FC, 0x2555B, 0x25425, 0x78EE, 0x23103, 0x2182A, 0x23234, 0x3464, 0x2320F, 0x23182, 0x242C9]),
  (0x93D1, [0x668E, 0x26D24, 0x666B, 0x4B93, 0x6630, 0x27870, 0x21DEB, 0x6663, 0x232D2, 0x232E1, 0x661E, 0x25872]),
  (0x93DD, [0x38D1, 0x2383A, 0x237BC, 0x3B99, 0x237A2, 0x233FE, 0x74D0, 0x3B96, 0x678F, 0x2462A, 0x68B6, 0x681E]),
  (0x93E9, [0x3BC4, 0x6ABE, 0x3863, 0x237D5, 0x24487, 0x6A33, 0x6A52, 0x6AC9, 0x6B05, 0x21912, 0x6511, 0x6898]),
  (0x93F5, [0x6A4C, 0x3BD7, 0x6A7A, 0x6B57, 0x23FC0, 0x23C9A, 0x93A0, 0x92F2, 0x28BEA, 0x28ACB]),
  (0x9440, [0x9289, 0x2801E, 0x289DC, 0x9467, 0x6DA5, 0x6F0B, 0x249EC]),
  (0x9448, [0x23F7F, 0x3D8F, 0x6E04, 0x2403C, 0x5A3D, 0x6E0A, 0x5847, 0x6D24, 0x7842, 0x713B, 0x2431A, 0x24276]),
  (0x9454, [0x70F1, 0x7250, 0x7287, 0x7294, 0x2478F, 0x24725, 0x5179, 0x24AA4, 0x205EB, 0x747A, 0x23EF8, 0x2365F]),
  (0x9460, [0x24A4A, 0x24917, 0x25FE1, 0x3F06, 0x3EB1, 0x24ADF, 0x28C23, 0x23F35, 0x60A7, 0x3EF3, 0x74CC, 0x743C]),
  (0x946C, [0x9387, 0x7437, 0x449F, 0x26DEA, 0x4551, 0x7583, 0x3F63, 0x24CD9, 0x24D06, 0x3F58, 0x7555, 0x7673]),
  (0x9478, [0x2A5C6, 0x3B19, 0x7468, 0x28ACC, 0x249AB, 0x2498E, 0x3AFB]),
  (0x94A1, [0x3DCD, 0x24A4E, 0x3EFF, 0x249C5, 0x248F3, 0x91FA, 0x5732, 0x9342, 0x28AE3, 0x21864, 0x50DF, 0x25221]),
  (0x94AD, [0x251E7, 0x7778, 0x23232, 0x770E, 0x770F, 0x777B, 0x24697, 0x23781, 0x3A5E, 0x248F0, 0x7438, 0x749B]),
  (0x94B9, [0x3EBF, 0x24ABA, 0x24AC7, 0x40C8, 0x24A96, 0x261AE, 0x9307, 0x25581, 0x781E, 0x788D, 0x7888, 0x78D2]),
  (0x94C5, [0x73D0, 0x7959, 0x27741, 0x256E3, 0x410E]),
  (0x94CB, [0x8496, 0x79A5, 0x6A2D, 0x23EFA, 0x7A3A, 0x79F4, 0x416E, 0x216E6, 0x4132, 0x9235, 0x79F1, 0x20D4C]),
  (0x94D7, [0x2498C, 0x20299, 0x23DBA, 0x2176E, 0x3597, 0x556B, 0x3570, 0x36AA, 0x201D4, 0x20C0D, 0x7AE2, 0x5A59]),
  (0x94E3, [0x226F5, 0x25AAF, 0x25A9C, 0x5A0D, 0x2025B, 0x78F0, 0x5A2A, 0x25BC6, 0x7AFE, 0x41F9, 0x7C5D, 0x7C6D]),
  (0x94EF, [0x4211, 0x25BB3, 0x25EBC, 0x25EA6, 0x7CCD, 0x249F9, 0x217B0, 0x7C8E, 0x7C7C, 0x7CAE, 0x6AB2, 0x7DDC]),
  (0x94FB, [0x7E07, 0x7DD3, 0x7F4E, 0x26261]),
  (0x9540, [0x2615C, 0x27B48, 0x7D97, 0x25E82, 0x426A, 0x26B75, 0x20916, 0x67D6, 0x2004E, 0x235CF, 0x57C4, 0x26412]),
  (0x954C, [0x263F8, 0x24962, 0x7FDD, 0x7B27, 0x2082C, 0x25AE9, 0x25D43, 0x7B0C, 0x25E0E, 0x99E6, 0x8645, 0x9A63]),
  (0x9558, [0x6A1C, 0x2343F, 0x39E2, 0x249F7, 0x265AD, 0x9A1F, 0x265A0, 0x8480, 0x27127, 0x26CD1, 0x44EA, 0x8137]),
  (0x9564, [0x4402, 0x80C6, 0x8109, 0x8142, 0x267B4, 0x98C3, 0x26A42, 0x8262, 0x8265, 0x26A51, 0x8453, 0x26DA7]),
  (0x9570, [0x8610, 0x2721B, 0x5A86, 0x417F, 0x21840, 0x5B2B, 0x218A1, 0x5AE4, 0x218D8, 0x86A0, 0x2F9BC, 0x23D8F]),
  (0x957C, [0x882D, 0x27422, 0x5A02]),
  (0x95A1, [0x886E, 0x4F45, 0x8887, 0x88BF, 0x88E6, 0x8965, 0x894D, 0x25683, 0x8954, 0x27785, 0x27784, 0x28BF5]),
  (0x95AD, [0x28BD9, 0x28B9C, 0x289F9, 0x3EAD, 0x84A3, 0x46F5, 0x46CF, 0x37F2, 0x8A3D, 0x8A1C, 0x29448, 0x5F4D]),
  (0x95B9, [0x922B, 0x24284, 0x65D4, 0x7129, 0x70C4, 0x21845, 0x9D6D, 0x8C9F, 0x8CE9, 0x27DDC, 0x599A, 0x77C3]),
  (0x95C5, [0x59F0, 0x436E, 0x36D4, 0x8E2A, 0x8EA7, 0x24C09, 0x8F30, 0x8F4A, 0x42F4, 0x6C58, 0x6FBB, 0x22321]),
  (0x95D1, [0x489B, 0x6F79, 0x6E8B, 0x217DA, 0x9BE9, 0x36B5, 0x2492F, 0x90BB]),
  (0x95DA, [0x5571, 0x4906, 0x91BB, 0x9404, 0x28A4B, 0x4062, 0x28AFC, 0x9427, 0x28C1D, 0x28C3B, 0x84E5, 0x8A2B]),
  (0x95E6, [0x9599, 0x95A7, 0x9597, 0x9596, 0x28D34, 0x7445, 0x3EC2, 0x248FF, 0x24A42, 0x243EA, 0x3EE7, 0x23225]),
  (0x95F2, [0x968F, 0x28EE7, 0x28E66, 0x28E65, 0x3ECC, 0x249ED, 0x24A78, 0x23FEE, 0x7412, 0x746B, 0x3EFC, 0x9741]),
  (0x95FE, [0x290B0]),
  (0x9640, [0x6847, 0x4A1D, 0x29093, 0x257DF]),
  (0x9645, [0x9368, 0x28989, 0x28C26, 0x28B2F, 0x263BE, 0x92BA, 0x5B11, 0x8B69, 0x493C, 0x73F9, 0x2421B, 0x979B]),
  (0x9651, [0x9771, 0x9938, 0x20F26, 0x5DC1, 0x28BC5, 0x24AB2, 0x981F, 0x294DA, 0x92F6, 0x295D7, 0x91E5, 0x44C0]),
  (0x965D, [0x28B50, 0x24A67, 0x28B64, 0x98DC, 0x28A45, 0x3F00, 0x922A, 0x4925, 0x8414, 0x993B, 0x994D, 0x27B06]),
  (0x9669, [0x3DFD, 0x999B, 0x4B6F, 0x99AA, 0x9A5C, 0x28B65, 0x258C8, 0x6A8F, 0x9A21, 0x5AFE, 0x9A2F, 0x298F1]),
  (0x9675, [0x4B90, 0x29948, 0x99BC, 0x4BBD, 0x4B97, 0x937D, 0x5872, 0x21302, 0x5822, 0x249B8]),
  (0x96A1, [0x214E8, 0x7844, 0x2271F, 0x23DB8, 0x68C5, 0x3D7D, 0x9458, 0x3927, 0x6150, 0x22781, 0x2296B, 0x6107]),
  (0x96AD, [0x9C4F, 0x9C53, 0x9C7B, 0x9C35, 0x9C10, 0x9B7F, 0x9BCF, 0x29E2D, 0x9B9F, 0x2A1F5, 0x2A0FE, 0x9D21]),
  (0x96B9, [0x4CAE, 0x24104, 0x9E18, 0x4CB0, 0x9D0C, 0x2A1B4, 0x2A0ED, 0x2A0F3, 0x2992F, 0x9DA5, 0x84BD, 0x26E12]),
  (0x96C5, [0x26FDF, 0x26B82, 0x85FC, 0x4533, 0x26DA4, 0x26E84, 0x26DF0, 0x8420, 0x85EE, 0x26E00, 0x237D7, 0x26064]),
  (0x96D1, [0x79E2, 0x2359C, 0x23640, 0x492D, 0x249DE, 0x3D62, 0x93DB, 0x92BE, 0x9348, 0x202BF, 0x78B9, 0x9277]),
  (0x96DD, [0x944D, 0x4FE4, 0x3440, 0x9064, 0x2555D, 0x783D, 0x7854, 0x78B6, 0x784B, 0x21757, 0x231C9, 0x24941]),
  (0x96E9, [0x369A, 0x4F72, 0x6FDA, 0x6FD9]),
  (0x96EE, [0x701E, 0x5414, 0x241B5, 0x57BB, 0x58F3, 0x578A, 0x9D16, 0x57D7, 0x7134, 0x34AF, 0x241AC, 0x71EB]),
  (0x96FA, [0x26C40, 0x24F97]),
  (0x96FD, [0x217B5, 0x28A49]),
  (0x9740, [0x610C, 0x5ACE, 0x5A0B, 0x42BC, 0x24488, 0x372C, 0x4B7B, 0x289FC, 0x93BB, 0x93B8, 0x218D6, 0x20F1D]),
  (0x974C, [0x8472, 0x26CC0, 0x21413, 0x242FA, 0x22C26, 0x243C1, 0x5994, 0x23DB7, 0x26741, 0x7DA8, 0x2615B, 0x260A4]),
  (0x9758, [0x249B9, 0x2498B, 0x289FA, 0x92E5, 0x73E2, 0x3EE9, 0x74B4, 0x28B63, 0x2189F, 0x3EE1, 0x24AB3, 0x6AD8]),
  (0x9764, [0x73F3, 0x73FB, 0x3ED6, 0x24A3E, 0x24A94, 0x217D9, 0x24A66, 0x203A7, 0x21424, 0x249E5, 0x7448, 0x24916]),
  (0x9770, [0x70A5, 0x24976, 0x9284, 0x73E6, 0x935F, 0x204FE, 0x9331, 0x28ACE, 0x28A16, 0x9386, 0x28BE7, 0x255D5]),
  (0x977C, [0x4935, 0x28A82, 0x716B]),
  (0x97A1, [0x24943, 0x20CFF, 0x56A4, 0x2061A, 0x20BEB, 0x20CB8, 0x5502, 0x79C4, 0x217FA, 0x7DFE, 0x216C2, 0x24A50]),
  (0x97AD, [0x21852, 0x452E, 0x9401, 0x370A, 0x28AC0, 0x249AD, 0x59B0, 0x218BF, 0x21883, 0x27484, 0x5AA1, 0x36E2]),
  (0x97B9, [0x23D5B, 0x36B0, 0x925F, 0x5A79, 0x28A81, 0x21862, 0x9374, 0x3CCD, 0x20AB4, 0x4A96, 0x398A, 0x50F4]),
  (0x97C5, [0x3D69, 0x3D4C, 0x2139C, 0x7175, 0x42FB, 0x28218, 0x6E0F, 0x290E4, 0x44EB, 0x6D57, 0x27E4F, 0x7067]),
  (0x97D1, [0x6CAF, 0x3CD6, 0x23FED, 0x23E2D, 0x6E02, 0x6F0C, 0x3D6F, 0x203F5, 0x7551, 0x36BC, 0x34C8, 0x4680]),
  (0x97DD, [0x3EDA, 0x4871, 0x59C4, 0x926E, 0x493E, 0x8F41, 0x28C1C, 0x26BC0, 0x5812, 0x57C8, 0x36D6, 0x21452]),
  (0x97E9, [0x70FE, 0x24362, 0x24A71, 0x22FE3, 0x212B0, 0x223BD, 0x68B9, 0x6967, 0x21398, 0x234E5, 0x27BF4, 0x236DF]),
  (0x97F5, [0x28A83, 0x237D6, 0x233FA, 0x24C9F, 0x6A1A, 0x236AD, 0x26CB7, 0x843E, 0x44DF, 0x44CE]),
  (0x9840, [0x26D26, 0x26D51, 0x26C82, 0x26FDE, 0x6F17, 0x27109, 0x833D, 0x2173A, 0x83ED, 0x26C80, 0x27053, 0x217DB]),
  (0x984C, [0x5989, 0x5A82, 0x217B3, 0x5A61, 0x5A71, 0x21905, 0x241FC, 0x372D, 0x59EF, 0x2173C, 0x36C7, 0x718E]),
  (0x9858, [0x9390, 0x669A, 0x242A5, 0x5A6E, 0x5A2B, 0x24293, 0x6A2B, 0x23EF9, 0x27736, 0x2445B, 0x242CA, 0x711D]),
  (0x9864, [0x24259, 0x289E1, 0x4FB0, 0x26D28, 0x5CC2, 0x244CE, 0x27E4D, 0x243BD, 0x6A0C, 0x24256, 0x21304, 0x70A6]),
  (0x9870, [0x7133, 0x243E9, 0x3DA5, 0x6CDF, 0x2F825, 0x24A4F, 0x7E65, 0x59EB, 0x5D2F, 0x3DF3, 0x5F5C, 0x24A5D]),
  (0x987C, [0x217DF, 0x7DA4, 0x8426]),
  (0x98A1, [0x5485, 0x23AFA, 0x23300, 0x20214, 0x577E, 0x208D5, 0x20619, 0x3FE5, 0x21F9E, 0x2A2B6, 0x7003, 0x2915B]),
  (0x98AD, [0x5D70, 0x738F, 0x7CD3, 0x28A59, 0x29420, 0x4FC8, 0x7FE7, 0x72CD, 0x7310, 0x27AF4, 0x7338, 0x7339]),
  (0x98B9, [0x256F6, 0x7341, 0x7348, 0x3EA9, 0x27B18, 0x906C, 0x71F5, 0x248F2, 0x73E1, 0x81F6, 0x3ECA, 0x770C]),
  (0x98C5, [0x3ED1, 0x6CA2, 0x56FD, 0x7419, 0x741E, 0x741F, 0x3EE2, 0x3EF0, 0x3EF4, 0x3EFA, 0x74D3, 0x3F0E]),
  (0x98D1, [0x3F53, 0x7542, 0x756D, 0x7572, 0x758D, 0x3F7C, 0x75C8, 0x75DC, 0x3FC0, 0x764D, 0x3FD7, 0x7674]),
  (0x98DD, [0x3FDC, 0x767A, 0x24F5C, 0x7188, 0x5623, 0x8980, 0x5869, 0x401D, 0x7743, 0x4039, 0x6761, 0x4045]),
  (0x98E9, [0x35DB, 0x7798, 0x406A, 0x406F, 0x5C5E, 0x77BE, 0x77CB, 0x58F2, 0x7818, 0x70B9, 0x781C, 0x40A8]),
  (0x98F5, [0x7839, 0x7847, 0x7851, 0x7866, 0x8448, 0x25535, 0x7933, 0x6803, 0x7932, 0x4103]),
  (0x9940, [0x4109, 0x7991, 0x7999, 0x8FBB, 0x7A06, 0x8FBC, 0x4167, 0x7A91, 0x41B2, 0x7ABC, 0x8279, 0x41C4]),
  (0x994C, [0x7ACF, 0x7ADB, 0x41CF, 0x4E21, 0x7B62, 0x7B6C, 0x7B7B, 0x7C12, 0x7C1B, 0x4260, 0x427A, 0x7C7B]),
  (0x9958, [0x7C9C, 0x428C, 0x7CB8, 0x4294, 0x7CED, 0x8F93, 0x70C0, 0x20CCF, 0x7DCF, 0x7DD4, 0x7DD0, 0x7DFD]),
  (0x9964, [0x7FAE, 0x7FB4, 0x729F, 0x4397, 0x8020, 0x8025, 0x7B39, 0x802E, 0x8031, 0x8054, 0x3DCC, 0x57B4]),
  (0x9970, [0x70A0, 0x80B7, 0x80E9, 0x43ED, 0x810C, 0x732A, 0x810E, 0x8112, 0x7560, 0x8114, 0x4401, 0x3B39]),
  (0x997C, [0x8156, 0x8159, 0x815A]),
  (0x99A1, [0x4413, 0x583A, 0x817C, 0x8184, 0x4425, 0x8193, 0x442D, 0x81A5, 0x57EF, 0x81C1, 0x81E4, 0x8254]),
  (0x99AD, [0x448F, 0x82A6, 0x8276, 0x82CA, 0x82D8, 0x82FF, 0x44B0, 0x8357, 0x9669, 0x698A, 0x8405, 0x70F5]),
  (0x99B9, [0x8464, 0x60E3, 0x8488, 0x4504, 0x84BE, 0x84E1, 0x84F8, 0x8510, 0x8538, 0x8552, 0x453B, 0x856F]),
  (0x99C5, [0x8570, 0x85E0, 0x4577, 0x8672, 0x8692, 0x86B2, 0x86EF, 0x9645, 0x878B, 0x4606, 0x4617, 0x88AE]),
  (0x99D1, [0x88FF, 0x8924, 0x8947, 0x8991, 0x27967, 0x8A29, 0x8A38, 0x8A94, 0x8AB4, 0x8C51, 0x8CD4, 0x8CF2]),
  (0x99DD, [0x8D1C, 0x4798, 0x585F, 0x8DC3, 0x47ED, 0x4EEE, 0x8E3A, 0x55D8, 0x5754, 0x8E71, 0x55F5, 0x8EB0]),
  (0x99E9, [0x4837, 0x8ECE, 0x8EE2, 0x8EE4, 0x8EED, 0x8EF2, 0x8FB7, 0x8FC1, 0x8FCA, 0x8FCC, 0x9033, 0x99C4]),
  (0x99F5, [0x48AD, 0x98E0, 0x9213, 0x491E, 0x9228, 0x9258, 0x926B, 0x92B1, 0x92AE, 0x92BF]),
  (0x9A40, [0x92E3, 0x92EB, 0x92F3, 0x92F4, 0x92FD, 0x9343, 0x9384, 0x93AD, 0x4945, 0x4951, 0x9EBF, 0x9417]),
  (0x9A4C, [0x5301, 0x941D, 0x942D, 0x943E, 0x496A, 0x9454, 0x9479, 0x952D, 0x95A2, 0x49A7, 0x95F4, 0x9633]),
  (0x9A58, [0x49E5, 0x67A0, 0x4A24, 0x9740, 0x4A35, 0x97B2, 0x97C2, 0x5654, 0x4AE4, 0x60E8, 0x98B9, 0x4B19]),
  (0x9A64, [0x98F1, 0x5844, 0x990E, 0x9919, 0x51B4, 0x991C, 0x9937, 0x9942, 0x995D, 0x9962, 0x4B70, 0x99C5]),
  (0x9A70, [0x4B9D, 0x9A3C, 0x9B0F, 0x7A83, 0x9B69, 0x9B81, 0x9BDD, 0x9BF1, 0x9BF4, 0x4C6D, 0x9C20, 0x376F]),
  (0x9A7C, [0x21BC2, 0x9D49, 0x9C3A]),
  (0x9AA1, [0x9EFE, 0x5650, 0x9D93, 0x9DBD, 0x9DC0, 0x9DFC, 0x94F6, 0x8FB6, 0x9E7B, 0x9EAC, 0x9EB1, 0x9EBD]),
  (0x9AAD, [0x9EC6, 0x94DC, 0x9EE2, 0x9EF1, 0x9EF8, 0x7AC8, 0x9F44, 0x20094, 0x202B7, 0x203A0, 0x691A, 0x94C3]),
  (0x9AB9, [0x59AC, 0x204D7, 0x5840, 0x94C1, 0x37B9, 0x205D5, 0x20615, 0x20676, 0x216BA, 0x5757, 0x7173, 0x20AC2]),
  (0x9AC5, [0x20ACD, 0x20BBF, 0x546A, 0x2F83B, 0x20BCB, 0x549E, 0x20BFB, 0x20C3B, 0x20C53, 0x20C65, 0x20C7C, 0x60E7]),
  (0x9AD1, [0x20C8D, 0x567A, 0x20CB5, 0x20CDD, 0x20CED, 0x20D6F, 0x20DB2, 0x20DC8, 0x6955, 0x9C2F, 0x87A5, 0x20E04]),
  (0x9ADD, [0x20E0E, 0x20ED7, 0x20F90, 0x20F2D, 0x20E73, 0x5C20, 0x20FBC, 0x5E0B, 0x2105C, 0x2104F, 0x21076, 0x671E]),
  (0x9AE9, [0x2107B, 0x21088, 0x21096, 0x3647, 0x210BF, 0x210D3, 0x2112F, 0x2113B, 0x5364, 0x84AD, 0x212E3, 0x21375]),
  (0x9AF5, [0x21336, 0x8B81, 0x21577, 0x21619, 0x217C3, 0x217C7, 0x4E78, 0x70BB, 0x2182D, 0x2196A]),
  (0x9B40, [0x21A2D, 0x21A45, 0x21C2A, 0x21C70, 0x21CAC, 0x21EC8, 0x62C3, 0x21ED5, 0x21F15, 0x7198, 0x6855, 0x22045]),
  (0x9B4C, [0x69E9, 0x36C8, 0x2227C, 0x223D7, 0x223FA, 0x2272A, 0x22871, 0x2294F, 0x82FD, 0x22967, 0x22993, 0x22AD5]),
  (0x9B58, [0x89A5, 0x22AE8, 0x8FA0, 0x22B0E, 0x97B8, 0x22B3F, 0x9847, 0x9ABD, 0x22C4C]),
  (0x9B62, [0x22C88, 0x22CB7, 0x25BE8, 0x22D08, 0x22D12, 0x22DB7, 0x22D95, 0x22E42, 0x22F74, 0x22FCC, 0x23033, 0x23066]),
  (0x9B6E, [0x2331F, 0x233DE, 0x5FB1, 0x6648, 0x66BF, 0x27A79, 0x23567, 0x235F3]),
  (0x9B77, [0x249BA]),
  (0x9B79, [0x2361A, 0x23716]),
  (0x9B7C, [0x20346, 0x58B5, 0x670E]),
  (0x9BA1, [0x6918, 0x23AA7, 0x27657, 0x25FE2, 0x23E11, 0x23EB9, 0x275FE, 0x2209A, 0x48D0, 0x4AB8, 0x24119, 0x28A9A]),
  (0x9BAD, [0x242EE, 0x2430D, 0x2403B, 0x24334, 0x24396, 0x24A45, 0x205CA, 0x51D2, 0x20611, 0x599F, 0x21EA8, 0x3BBE]),
  (0x9BB9, [0x23CFF, 0x24404, 0x244D6, 0x5788, 0x24674, 0x399B, 0x2472F, 0x285E8, 0x299C9, 0x3762, 0x221C3, 0x8B5E]),
  (0x9BC5, [0x28B4E]),
  (0x9BC7, [0x24812, 0x248FB, 0x24A15, 0x7209, 0x24AC0, 0x20C78, 0x5965, 0x24EA5, 0x24F86, 0x20779, 0x8EDA, 0x2502C]),
  (0x9BD3, [0x528F, 0x573F, 0x7171, 0x25299, 0x25419, 0x23F4A, 0x24AA7, 0x55BC, 0x25446, 0x2546E, 0x26B52]),
  (0x9BDF, [0x3473, 0x2553F, 0x27632, 0x2555E, 0x4718, 0x25562, 0x25566, 0x257C7, 0x2493F, 0x2585D, 0x5066, 0x34FB]),
  (0x9BEB, [0x233CC]),
  (0x9BED, [0x25903, 0x477C, 0x28948, 0x25AAE, 0x25B89, 0x25C06, 0x21D90, 0x57A1, 0x7151]),
  (0x9BF7, [0x26102, 0x27C12, 0x9056, 0x261B2, 0x24F9A, 0x8B62, 0x26402, 0x2644A]),
  (0x9C40, [0x5D5B, 0x26BF7]),
  (0x9C43, [0x26484, 0x2191C, 0x8AEA, 0x249F6, 0x26488, 0x23FEF, 0x26512, 0x4BC0, 0x265BF, 0x266B5, 0x2271B, 0x9465]),
  (0x9C4F, [0x257E1, 0x6195, 0x5A27, 0x2F8CD]),
  (0x9C54, [0x56B9, 0x24521, 0x266FC, 0x4E6A, 0x24934, 0x9656, 0x6D8F, 0x26CBD, 0x3618, 0x8977, 0x26799, 0x2686E]),
  (0x9C60, [0x26411, 0x2685E]),
  (0x9C63, [0x268C7, 0x7B42, 0x290C0, 0x20A11, 0x26926]),
  (0x9C69, [0x26939, 0x7A45]),
  (0x9C6C, [0x269FA, 0x9A26, 0x26A2D, 0x365F, 0x26469, 0x20021, 0x7983, 0x26A34, 0x26B5B, 0x5D2C, 0x23519]),
  (0x9C78, [0x26B9D, 0x46D0, 0x26CA4, 0x753B, 0x8865, 0x26DAE, 0x58B6]),
  (0x9CA1, [0x371C, 0x2258D, 0x2704B, 0x271CD, 0x3C54, 0x27280, 0x27285, 0x9281, 0x2217A, 0x2728B, 0x9330, 0x272E6]),
  (0x9CAD, [0x249D0, 0x6C39, 0x949F, 0x27450, 0x20EF8, 0x8827, 0x88F5, 0x22926, 0x28473, 0x217B1, 0x6EB8, 0x24A2A]),
  (0x9CB9, [0x21820, 0x39A4, 0x36B9]),
  (0x9CBE, [0x453F, 0x66B6, 0x29CAD, 0x298A4, 0x8943, 0x277CC, 0x27858, 0x56D6, 0x40DF, 0x2160A, 0x39A1, 0x2372F]),
  (0x9CCA, [0x280E8, 0x213C5, 0x71AD, 0x8366, 0x279DD, 0x291A8]),
  (0x9CD1, [0x4CB7, 0x270AF, 0x289AB, 0x279FD, 0x27A0A, 0x27B0B, 0x27D66, 0x2417A, 0x7B43, 0x797E, 0x28009, 0x6FB5]),
  (0x9CDD, [0x2A2DF, 0x6A03, 0x28318, 0x53A2, 0x26E07, 0x93BF, 0x6836, 0x975D, 0x2816F, 0x28023, 0x269B5, 0x213ED]),
  (0x9CE9, [0x2322F, 0x28048, 0x5D85, 0x28C30, 0x28083, 0x5715, 0x9823, 0x28949, 0x5DAB, 0x24988, 0x65BE, 0x69D5]),
  (0x9CF5, [0x53D2, 0x24AA5, 0x23F81, 0x3C11, 0x6736, 0x28090, 0x280F4, 0x2812E, 0x21FA1, 0x2814F]),
  (0x9D40, [0x28189, 0x281AF, 0x2821A, 0x28306, 0x2832F, 0x2838A, 0x35CA, 0x28468, 0x286AA, 0x48FA, 0x63E6, 0x28956]),
  (0x9D4C, [0x7808, 0x9255, 0x289B8, 0x43F2, 0x289E7, 0x43DF, 0x289E8, 0x28B46, 0x28BD4, 0x59F8, 0x28C09]),
  (0x9D58, [0x28FC5, 0x290EC]),
  (0x9D5B, [0x29110, 0x2913C, 0x3DF7, 0x2915E, 0x24ACA, 0x8FD0, 0x728F, 0x568B, 0x294E7, 0x295E9, 0x295B0, 0x295B8]),
  (0x9D67, [0x29732, 0x298D1, 0x29949, 0x2996A, 0x299C3, 0x29A28, 0x29B0E, 0x29D5A, 0x29D9B, 0x7E9F, 0x29EF8, 0x29F23]),
  (0x9D73, [0x4CA4, 0x9547, 0x2A293, 0x71A2, 0x2A2FF, 0x4D91, 0x9012, 0x2A5CB, 0x4D9C, 0x20C9C, 0x8FBE, 0x55C1]),
  (0x9DA1, [0x8FBA, 0x224B0, 0x8FB9, 0x24A93, 0x4509, 0x7E7F, 0x6F56, 0x6AB1, 0x4EEA, 0x34E4, 0x28B2C, 0x2789D]),
  (0x9DAD, [0x373A, 0x8E80, 0x217F5, 0x28024, 0x28B6C, 0x28B99, 0x27A3E, 0x266AF, 0x3DEB, 0x27655, 0x23CB7, 0x25635]),
  (0x9DB9, [0x25956, 0x4E9A, 0x25E81, 0x26258, 0x56BF, 0x20E6D, 0x8E0E, 0x5B6D, 0x23E88, 0x24C9E, 0x63DE]),
  (0x9DC5, [0x217F6, 0x2187B, 0x6530, 0x562D, 0x25C4A, 0x541A, 0x25311, 0x3DC6, 0x29D98, 0x4C7D, 0x5622, 0x561E]),
  (0x9DD1, [0x7F49, 0x25ED8, 0x5975, 0x23D40, 0x8770, 0x4E1C, 0x20FEA, 0x20D49, 0x236BA, 0x8117, 0x9D5E, 0x8D18]),
  (0x9DDD, [0x763B, 0x9C45, 0x764E, 0x77B9, 0x9345, 0x5432, 0x8148, 0x82F7, 0x5625, 0x8132, 0x8418, 0x80BD]),
  (0x9DE9, [0x55EA, 0x7962, 0x5643, 0x5416, 0x20E9D, 0x35CE, 0x5605, 0x55F1, 0x66F1, 0x282E2, 0x362D, 0x7534]),
  (0x9DF5, [0x55F0, 0x55BA, 0x5497, 0x5572, 0x20C41, 0x20C96, 0x5ED0, 0x25148, 0x20E76, 0x22C62]),
  (0x9E40, [0x20EA2, 0x9EAB, 0x7D5A, 0x55DE, 0x21075, 0x629D, 0x976D, 0x5494, 0x8CCD, 0x71F6, 0x9176, 0x63FC]),
  (0x9E4C, [0x63B9, 0x63FE, 0x5569, 0x22B43, 0x9C72, 0x22EB3, 0x519A, 0x34DF, 0x20DA7, 0x51A7, 0x544D, 0x551E]),
  (0x9E58, [0x5513, 0x7666, 0x8E2D, 0x2688A, 0x75B1, 0x80B6, 0x8804, 0x8786, 0x88C7, 0x81B6, 0x841C, 0x210C1]),
  (0x9E64, [0x44EC, 0x7304, 0x24706, 0x5B90, 0x830B, 0x26893, 0x567B, 0x226F4, 0x27D2F, 0x241A3, 0x27D73, 0x26ED0]),
  (0x9E70, [0x272B6, 0x9170, 0x211D9, 0x9208, 0x23CFC, 0x2A6A9, 0x20EAC, 0x20EF9, 0x7266, 0x21CA2, 0x474E, 0x24FC2]),
  (0x9E7C, [0x27FF9, 0x20FEB, 0x40FA]),
  (0x9EA1, [0x9C5D, 0x651F, 0x22DA0, 0x48F3, 0x247E0, 0x29D7C, 0x20FEC, 0x20E0A]),
  (0x9EAA, [0x275A3, 0x20FED]),
  (0x9EAD, [0x26048, 0x21187, 0x71A3, 0x7E8E, 0x9D50, 0x4E1A, 0x4E04, 0x3577, 0x5B0D, 0x6CB2, 0x5367, 0x36AC]),
  (0x9EB9, [0x39DC, 0x537D, 0x36A5, 0x24618, 0x589A, 0x24B6E, 0x822D, 0x544B, 0x57AA, 0x25A95, 0x20979]),
  (0x9EC5, [0x3A52, 0x22465, 0x7374, 0x29EAC, 0x4D09, 0x9BED, 0x23CFE, 0x29F30, 0x4C5B, 0x24FA9, 0x2959E, 0x29FDE]),
  (0x9ED1, [0x845C, 0x23DB6, 0x272B2, 0x267B3, 0x23720, 0x632E, 0x7D25, 0x23EF7, 0x23E2C, 0x3A2A, 0x9008, 0x52CC]),
  (0x9EDD, [0x3E74, 0x367A, 0x45E9, 0x2048E, 0x7640, 0x5AF0, 0x20EB6, 0x787A, 0x27F2E, 0x58A7, 0x40BF, 0x567C]),
  (0x9EE9, [0x9B8B, 0x5D74, 0x7654, 0x2A434, 0x9E85, 0x4CE1]),
  (0x9EF0, [0x37FB, 0x6119, 0x230DA, 0x243F2]),
  (0x9EF5, [0x565D, 0x212A9, 0x57A7, 0x24963, 0x29E06, 0x5234, 0x270AE, 0x35AD]),
  (0x9EFE, [0x9D7C]),
  (0x9F40, [0x7C56, 0x9B39, 0x57DE, 0x2176C, 0x5C53, 0x64D3, 0x294D0, 0x26335, 0x27164, 0x86AD, 0x20D28, 0x26D22]),
  (0x9F4C, [0x24AE2, 0x20D71]),
  (0x9F4F, [0x51FE, 0x21F0F, 0x5D8E, 0x9703, 0x21DD1, 0x9E81, 0x904C, 0x7B1F, 0x9B02, 0x5CD1, 0x7BA3, 0x6268]),
  (0x9F5B, [0x6335, 0x9AFF, 0x7BCF, 0x9B2A, 0x7C7E]),
  (0x9F61, [0x7C42, 0x7C86, 0x9C15, 0x7BFC, 0x9B09]),
  (0x9F67, [0x9C1B, 0x2493E, 0x9F5A, 0x5573, 0x5BC3, 0x4FFD, 0x9E98, 0x4FF2, 0x5260, 0x3E06, 0x52D1, 0x5767]),
  (0x9F73, [0x5056, 0x59B7, 0x5E12, 0x97C8, 0x9DAB, 0x8F5C, 0x5469, 0x97B4, 0x9940, 0x97BA, 0x532C, 0x6130]),
  (0x9FA1, [0x692C, 0x53DA, 0x9C0A, 0x9D02, 0x4C3B, 0x9641, 0x6980, 0x50A6, 0x7546, 0x2176D, 0x99DA, 0x5273]),
  (0x9FAE, [0x9159, 0x9681, 0x915C]),
  (0x9FB2, [0x9151, 0x28E97, 0x637F, 0x26D23, 0x6ACA, 0x5611, 0x918E, 0x757A, 0x6285, 0x203FC, 0x734F, 0x7C70]),
  (0x9FBE, [0x25C21, 0x23CFD]),
  (0x9FC1, [0x24919, 0x76D6, 0x9B9D, 0x4E2A, 0x20CD4, 0x83BE, 0x8842]),
  (0x9FC9, [0x5C4A, 0x69C0]),
  (0x9FCC, [0x577A, 0x521F, 0x5DF5, 0x4ECE, 0x6C31, 0x201F2, 0x4F39, 0x549C, 0x54DA, 0x529A, 0x8D82, 0x35FE]),
  (0x9FD9, [0x35F3]),
  (0x9FDB, [0x6B52, 0x917C, 0x9FA5, 0x9B97, 0x982E, 0x98B4, 0x9ABA, 0x9EA8, 0x9E84, 0x717A, 0x7B14]),
  (0x9FE7, [0x6BFA, 0x8818, 0x7F78]),
  (0x9FEB, [0x5620, 0x2A64A, 0x8E77, 0x9F53]),
  (0x9FF0, [0x8DD4, 0x8E4F, 0x9E1C, 0x8E01, 0x6282, 0x2837D, 0x8E28, 0x8E75, 0x7AD3, 0x24A77, 0x7A3E, 0x78D8]),
  (0x9FFC, [0x6CEA, 0x8A67, 0x7607]),
  (0xA040, [0x28A5A, 0x9F26, 0x6CCE, 0x87D6, 0x75C3, 0x2A2B2, 0x7853, 0x2F840, 0x8D0C, 0x72E2, 0x7371, 0x8B2D]),
  (0xA04C, [0x7302, 0x74F1, 0x8CEB, 0x24ABB, 0x862F, 0x5FBA, 0x88A0, 0x44B7]),
  (0xA055, [0x2183B, 0x26E05]),
  (0xA058, [0x8A7E, 0x2251B]),
  (0xA05B, [0x60FD, 0x7667, 0x9AD7, 0x9D44, 0x936E, 0x9B8F, 0x87F5]),
  (0xA064, [0x8CF7, 0x732C, 0x9721, 0x9BB0, 0x35D6, 0x72B2, 0x4C07, 0x7C51, 0x994A, 0x26159, 0x6159, 0x4C04]),
  (0xA070, [0x9E96, 0x617D]),
  (0xA073, [0x575F, 0x616F, 0x62A6, 0x6239]),
  (0xA078, [0x3A5C, 0x61E2, 0x53AA, 0x233F5, 0x6364, 0x6802, 0x35D2]),
  (0xA0A1, [0x5D57, 0x28BC2, 0x8FDA, 0x28E39]),
  (0xA0A6, [0x50D9, 0x21D46, 0x7906, 0x5332, 0x9638, 0x20F3B, 0x4065]),
  (0xA0AE, [0x77FE]),
  (0xA0B0, [0x7CC2, 0x25F1A, 0x7CDA, 0x7A2D, 0x8066, 0x8063, 0x7D4D, 0x7505, 0x74F2, 0x8994, 0x821A, 0x670C]),
  (0xA0BC, [0x8062, 0x27486, 0x805B, 0x74F0, 0x8103, 0x7724, 0x8989, 0x267CC, 0x7553, 0x26ED1, 0x87A9, 0x87CE]),
  (0xA0C8, [0x81C8, 0x878C, 0x8A49, 0x8CAD, 0x8B43, 0x772B, 0x74F8, 0x84DA, 0x3635, 0x69B2, 0x8DA6]),
  (0xA0D4, [0x89A9]),
  (0xA0D6, [0x6DB9, 0x87C1, 0x24011, 0x74E7, 0x3DDB, 0x7176, 0x60A4, 0x619C, 0x3CD1]),
  (0xA0E0, [0x6077]),
  (0xA0E2, [0x7F71, 0x28B2D]),
  (0xA0E5, [0x60E9, 0x4B7E, 0x5220, 0x3C18, 0x23CC7, 0x25ED7, 0x27656, 0x25531, 0x21944, 0x212FE, 0x29903, 0x26DDC]),
  (0xA0F1, [0x270AD, 0x5CC1, 0x261AD, 0x28A0F, 0x23677, 0x200EE, 0x26846, 0x24F0E, 0x4562, 0x5B1F, 0x2634C, 0x9F50]),
  (0xA0FD, [0x9EA6, 0x2626B]),
  (0xC6A1, [0x2460, 0x2461, 0x2462, 0x2463, 0x2464, 0x2465, 0x2466, 0x2467, 0x2468, 0x2469, 0x2474, 0x2475]),
  (0xC6AD, [0x2476, 0x2477, 0x2478, 0x2479, 0x247A, 0x247B, 0x247C, 0x247D, 0x2170, 0x2171, 0x2172, 0x2173]),
  (0xC6B9, [0x2174, 0x2175, 0x2176, 0x2177, 0x2178, 0x2179, 0x4E36, 0x4E3F, 0x4E85, 0x4EA0, 0x5182, 0x5196]),
  (0xC6C5, [0x51AB, 0x52F9, 0x5338, 0x5369, 0x53B6, 0x590A, 0x5B80, 0x5DDB, 0x2F33, 0x5E7F]),
  (0xC6D0, [0x5F50, 0x5F61, 0x6534]),
  (0xC6D4, [0x7592]),
  (0xC6D6, [0x8FB5]),
  (0xC6D8, [0xA8, 0x2C6, 0x30FD, 0x30FE, 0x309D, 0x309E]),
  (0xC6E0, [0x3005, 0x3006, 0x3007, 0x30FC, 0xFF3B, 0xFF3D, 0x273D, 0x3041, 0x3042, 0x3043, 0x3044, 0x3045]),
  (0xC6EC, [0x3046, 0x3047, 0x3048, 0x3049, 0x304A, 0x304B, 0x304C, 0x304D, 0x304E, 0x304F, 0x3050, 0x3051]),
  (0xC6F8, [0x3052, 0x3053, 0x3054, 0x3055, 0x3056, 0x3057, 0x3058]),
  (0xC740, [0x3059, 0x305A, 0x305B, 0x305C, 0x305D, 0x305E, 0x305F, 0x3060, 0x3061, 0x3062, 0x3063, 0x3064]),
  (0xC74C, [0x3065, 0x3066, 0x3067, 0x3068, 0x3069, 0x306A, 0x306B, 0x306C, 0x306D, 0x306E, 0x306F, 0x3070]),
  (0xC758, [0x3071, 0x3072, 0x3073, 0x3074, 0x3075, 0x3076, 0x3077, 0x3078, 0x3079, 0x307A, 0x307B, 0x307C]),
  (0xC764, [0x307D, 0x307E, 0x307F, 0x3080, 0x3081, 0x3082, 0x3083, 0x3084, 0x3085, 0x3086, 0x3087, 0x3088]),
  (0xC770, [0x3089, 0x308A, 0x308B, 0x308C, 0x308D, 0x308E, 0x308F, 0x3090, 0x3091, 0x3092, 0x3093, 0x30A1]),
  (0xC77C, [0x30A2, 0x30A3, 0x30A4]),
  (0xC7A1, [0x30A5, 0x30A6, 0x30A7, 0x30A8, 0x30A9, 0x30AA, 0x30AB, 0x30AC, 0x30AD, 0x30AE, 0x30AF, 0x30B0]),
  (0xC7AD, [0x30B1, 0x30B2, 0x30B3, 0x30B4, 0x30B5, 0x30B6, 0x30B7, 0x30B8, 0x30B9, 0x30BA, 0x30BB, 0x30BC]),
  (0xC7B9, [0x30BD, 0x30BE, 0x30BF, 0x30C0, 0x30C1, 0x30C2, 0x30C3, 0x30C4, 0x30C5, 0x30C6, 0x30C7, 0x30C8]),
  (0xC7C5, [0x30C9, 0x30CA, 0x30CB, 0x30CC, 0x30CD, 0x30CE, 0x30CF, 0x30D0, 0x30D1, 0x30D2, 0x30D3, 0x30D4]),
  (0xC7D1, [0x30D5, 0x30D6, 0x30D7, 0x30D8, 0x30D9, 0x30DA, 0x30DB, 0x30DC, 0x30DD, 0x30DE, 0x30DF, 0x30E0]),
  (0xC7DD, [0x30E1, 0x30E2, 0x30E3, 0x30E4, 0x30E5, 0x30E6, 0x30E7, 0x30E8, 0x30E9, 0x30EA, 0x30EB, 0x30EC]),
  (0xC7E9, [0x30ED, 0x30EE, 0x30EF, 0x30F0, 0x30F1, 0x30F2, 0x30F3, 0x30F4, 0x30F5, 0x30F6, 0x410, 0x411]),
  (0xC7F5, [0x412, 0x413, 0x414, 0x415, 0x401, 0x416, 0x417, 0x418, 0x419, 0x41A]),
  (0xC840, [0x41B, 0x41C, 0x41D, 0x41E, 0x41F, 0x420, 0x421, 0x422, 0x423, 0x424, 0x425, 0x426]),
  (0xC84C, [0x427, 0x428, 0x429, 0x42A, 0x42B, 0x42C, 0x42D, 0x42E, 0x42F, 0x430, 0x431, 0x432]),
  (0xC858, [0x433, 0x434, 0x435, 0x451, 0x436, 0x437, 0x438, 0x439, 0x43A, 0x43B, 0x43C, 0x43D]),
  (0xC864, [0x43E, 0x43F, 0x440, 0x441, 0x442, 0x443, 0x444, 0x445, 0x446, 0x447, 0x448, 0x449]),
  (0xC870, [0x44A, 0x44B, 0x44C, 0x44D, 0x44E, 0x44F, 0x21E7, 0x21B8, 0x21B9, 0x31CF, 0x200CC, 0x4E5A]),
  (0xC87C, [0x2008A, 0x5202, 0x4491]),
  (0xC8A1, [0x9FB0, 0x5188, 0x9FB1, 0x27607]),
  (0xC8CD, [0xFFE2, 0xFFE4, 0xFF07, 0xFF02, 0x3231, 0x2116, 0x2121, 0x309B, 0x309C, 0x2E80, 0x2E84, 0x2E86]),
  (0xC8D9, [0x2E87, 0x2E88, 0x2E8A, 0x2E8C, 0x2E8D, 0x2E95, 0x2E9C, 0x2E9D, 0x2EA5, 0x2EA7, 0x2EAA, 0x2EAC]),
  (0xC8E5, [0x2EAE, 0x2EB6, 0x2EBC, 0x2EBE, 0x2EC6, 0x2ECA, 0x2ECC, 0x2ECD, 0x2ECF, 0x2ED6, 0x2ED7, 0x2EDE]),
  (0xC8F1, [0x2EE3]),
  (0xC8F5, [0x283, 0x250, 0x25B, 0x254, 0x275, 0x153, 0xF8, 0x14B, 0x28A, 0x26A]),
  (0xFA40, [0x20547, 0x92DB, 0x205DF, 0x23FC5, 0x854C, 0x42B5, 0x73EF, 0x51B5, 0x3649, 0x24942, 0x289E4, 0x9344]),
  (0xFA4C, [0x219DB, 0x82EE, 0x23CC8, 0x783C, 0x6744, 0x62DF, 0x24933, 0x289AA, 0x202A0, 0x26BB3, 0x21305, 0x4FAB]),
  (0xFA58, [0x224ED, 0x5008, 0x26D29, 0x27A84, 0x23600, 0x24AB1, 0x22513]),
  (0xFA60, [0x2037E, 0x5FA4, 0x20380, 0x20347, 0x6EDB, 0x2041F]),
  (0xFA67, [0x5101, 0x347A, 0x510E, 0x986C, 0x3743, 0x8416, 0x249A4, 0x20487, 0x5160, 0x233B4, 0x516A, 0x20BFF]),
  (0xFA73, [0x220FC, 0x202E5, 0x22530, 0x2058E, 0x23233, 0x21983, 0x5B82, 0x877D, 0x205B3, 0x23C99, 0x51B2, 0x51B8]),
  (0xFAA1, [0x9D34, 0x51C9, 0x51CF, 0x51D1, 0x3CDC, 0x51D3, 0x24AA6, 0x51B3, 0x51E2, 0x5342, 0x51ED, 0x83CD]),
  (0xFAAD, [0x693E, 0x2372D, 0x5F7B, 0x520B, 0x5226, 0x523C, 0x52B5, 0x5257, 0x5294, 0x52B9, 0x52C5, 0x7C15]),
  (0xFAB9, [0x8542, 0x52E0, 0x860D, 0x26B13]),
  (0xFABE, [0x28ADE, 0x5549, 0x6ED9, 0x23F80, 0x20954, 0x23FEC, 0x5333]),
  (0xFAC6, [0x20BE2, 0x6CCB, 0x21726, 0x681B, 0x73D5, 0x604A, 0x3EAA, 0x38CC, 0x216E8, 0x71DD, 0x44A2, 0x536D]),
  (0xFAD2, [0x5374, 0x286AB, 0x537E]),
  (0xFAD6, [0x21596, 0x21613, 0x77E6, 0x5393, 0x28A9B, 0x53A0, 0x53AB, 0x53AE, 0x73A7, 0x25772, 0x3F59, 0x739C]),
  (0xFAE2, [0x53C1, 0x53C5, 0x6C49, 0x4E49, 0x57FE, 0x53D9, 0x3AAB, 0x20B8F, 0x53E0, 0x23FEB, 0x22DA3, 0x53F6]),
  (0xFAEE, [0x20C77, 0x5413, 0x7079, 0x552B, 0x6657, 0x6D5B, 0x546D, 0x26B53, 0x20D74, 0x555D, 0x548F, 0x54A4]),
  (0xFAFA, [0x47A6, 0x2170D, 0x20EDD, 0x3DB4, 0x20D4D]),
  (0xFB40, [0x289BC, 0x22698, 0x5547, 0x4CED, 0x542F, 0x7417, 0x5586, 0x55A9]),
  (0xFB49, [0x218D7, 0x2403A, 0x4552, 0x24435, 0x66B3, 0x210B4, 0x5637, 0x66CD, 0x2328A, 0x66A4, 0x66AD, 0x564D]),
  (0xFB55, [0x564F, 0x78F1, 0x56F1, 0x9787, 0x53FE, 0x5700, 0x56EF, 0x56ED, 0x28B66, 0x3623, 0x2124F, 0x5746]),
  (0xFB61, [0x241A5, 0x6C6E, 0x708B, 0x5742, 0x36B1, 0x26C7E, 0x57E6, 0x21416, 0x5803, 0x21454, 0x24363, 0x5826]),
  (0xFB6D, [0x24BF5, 0x585C, 0x58AA, 0x3561, 0x58E0, 0x58DC, 0x2123C, 0x58FB, 0x5BFF, 0x5743, 0x2A150, 0x24278]),
  (0xFB79, [0x93D3, 0x35A1, 0x591F, 0x68A6, 0x36C3, 0x6E59]),
  (0xFBA1, [0x2163E, 0x5A24, 0x5553, 0x21692, 0x8505, 0x59C9, 0x20D4E, 0x26C81, 0x26D2A, 0x217DC, 0x59D9, 0x217FB]),
  (0xFBAD, [0x217B2, 0x26DA6, 0x6D71, 0x21828, 0x216D5, 0x59F9, 0x26E45, 0x5AAB, 0x5A63, 0x36E6, 0x249A9]),
  (0xFBB9, [0x3708, 0x5A96, 0x7465, 0x5AD3, 0x26FA1, 0x22554, 0x3D85, 0x21911, 0x3732, 0x216B8, 0x5E83, 0x52D0]),
  (0xFBC5, [0x5B76, 0x6588, 0x5B7C, 0x27A0E, 0x4004, 0x485D, 0x20204, 0x5BD5, 0x6160, 0x21A34, 0x259CC, 0x205A5]),
  (0xFBD1, [0x5BF3, 0x5B9D, 0x4D10, 0x5C05, 0x21B44, 0x5C13, 0x73CE, 0x5C14, 0x21CA5, 0x26B28, 0x5C49, 0x48DD]),
  (0xFBDD, [0x5C85, 0x5CE9, 0x5CEF, 0x5D8B, 0x21DF9, 0x21E37, 0x5D10, 0x5D18, 0x5D46, 0x21EA4, 0x5CBA, 0x5DD7]),
  (0xFBE9, [0x82FC, 0x382D, 0x24901, 0x22049, 0x22173, 0x8287, 0x3836, 0x3BC2, 0x5E2E, 0x6A8A]),
  (0xFBF4, [0x5E7A, 0x244BC, 0x20CD3, 0x53A6, 0x4EB7]),
  (0xFBFA, [0x53A8, 0x21771, 0x5E09, 0x5EF4, 0x28482]),
  (0xFC40, [0x5EF9, 0x5EFB, 0x38A0, 0x5EFC, 0x683E, 0x941B, 0x5F0D, 0x201C1, 0x2F894, 0x3ADE, 0x48AE, 0x2133A]),
  (0xFC4C, [0x5F3A, 0x26888, 0x223D0]),
  (0xFC50, [0x22471, 0x5F63, 0x97BD, 0x26E6E, 0x5F72, 0x9340, 0x28A36, 0x5FA7, 0x5DB6, 0x3D5F, 0x25250, 0x21F6A]),
  (0xFC5C, [0x270F8, 0x22668, 0x91D6, 0x2029E, 0x28A29, 0x6031, 0x6685, 0x21877, 0x3963, 0x3DC7, 0x3639, 0x5790]),
  (0xFC68, [0x227B4, 0x7971, 0x3E40, 0x609E]),
  (0xFC6D, [0x60B3, 0x24982, 0x2498F, 0x27A53, 0x74A4, 0x50E1, 0x5AA0, 0x6164, 0x8424, 0x6142, 0x2F8A6, 0x26ED2]),
  (0xFC79, [0x6181, 0x51F4, 0x20656, 0x6187, 0x5BAA, 0x23FB7]),
  (0xFCA1, [0x2285F, 0x61D3, 0x28B9D, 0x2995D, 0x61D0, 0x3932, 0x22980, 0x228C1, 0x6023, 0x615C, 0x651E, 0x638B]),
  (0xFCAD, [0x20118, 0x62C5, 0x21770, 0x62D5, 0x22E0D, 0x636C, 0x249DF, 0x3A17, 0x6438, 0x63F8, 0x2138E, 0x217FC]),
  (0xFCBA, [0x6F8A, 0x22E36, 0x9814, 0x2408C, 0x2571D, 0x64E1, 0x64E5, 0x947B, 0x3A66, 0x643A, 0x3A57, 0x654D]),
  (0xFCC6, [0x6F16, 0x24A28, 0x24A23, 0x6585, 0x656D, 0x655F, 0x2307E, 0x65B5, 0x24940, 0x4B37, 0x65D1, 0x40D8]),
  (0xFCD2, [0x21829, 0x65E0, 0x65E3, 0x5FDF, 0x23400, 0x6618, 0x231F7, 0x231F8, 0x6644, 0x231A4, 0x231A5, 0x664B]),
  (0xFCDE, [0x20E75, 0x6667, 0x251E6, 0x6673]),
  (0xFCE3, [0x21E3D, 0x23231, 0x285F4, 0x231C8, 0x25313, 0x77C5, 0x228F7, 0x99A4, 0x6702, 0x2439C, 0x24A21, 0x3B2B]),
  (0xFCEF, [0x69FA, 0x237C2]),
  (0xFCF2, [0x6767, 0x6762, 0x241CD, 0x290ED, 0x67D7, 0x44E9, 0x6822, 0x6E50, 0x923C, 0x6801, 0x233E6, 0x26DA0]),
  (0xFCFE, [0x685D]),
  (0xFD40, [0x2346F, 0x69E1, 0x6A0B, 0x28ADF, 0x6973, 0x68C3, 0x235CD, 0x6901, 0x6900, 0x3D32, 0x3A01, 0x2363C]),
  (0xFD4C, [0x3B80, 0x67AC, 0x6961, 0x28A4A, 0x42FC, 0x6936, 0x6998, 0x3BA1, 0x203C9, 0x8363, 0x5090, 0x69F9]),
  (0xFD58, [0x23659, 0x2212A, 0x6A45, 0x23703, 0x6A9D, 0x3BF3, 0x67B1, 0x6AC8, 0x2919C, 0x3C0D, 0x6B1D, 0x20923]),
  (0xFD64, [0x60DE, 0x6B35, 0x6B74, 0x227CD, 0x6EB5, 0x23ADB, 0x203B5, 0x21958, 0x3740, 0x5421, 0x23B5A, 0x6BE1]),
  (0xFD70, [0x23EFC, 0x6BDC, 0x6C37, 0x2248B, 0x248F1, 0x26B51, 0x6C5A, 0x8226, 0x6C79, 0x23DBC, 0x44C5, 0x23DBD]),
  (0xFD7C, [0x241A4, 0x2490C, 0x24900]),
  (0xFDA1, [0x23CC9, 0x36E5, 0x3CEB, 0x20D32, 0x9B83, 0x231F9, 0x22491, 0x7F8F, 0x6837, 0x26D25, 0x26DA1, 0x26DEB]),
  (0xFDAD, [0x6D96, 0x6D5C, 0x6E7C, 0x6F04, 0x2497F, 0x24085, 0x26E72, 0x8533, 0x26F74, 0x51C7]),
  (0xFDB9, [0x842E, 0x28B21]),
  (0xFDBC, [0x23E2F, 0x7453, 0x23F82, 0x79CC, 0x6E4F, 0x5A91, 0x2304B, 0x6FF8, 0x370D, 0x6F9D, 0x23E30, 0x6EFA]),
  (0xFDC8, [0x21497, 0x2403D, 0x4555, 0x93F0, 0x6F44, 0x6F5C, 0x3D4E, 0x6F74, 0x29170, 0x3D3B, 0x6F9F, 0x24144]),
  (0xFDD4, [0x6FD3, 0x24091, 0x24155, 0x24039, 0x23FF0, 0x23FB4, 0x2413F, 0x51DF, 0x24156, 0x24157, 0x24140, 0x261DD]),
  (0xFDE0, [0x704B, 0x707E, 0x70A7, 0x7081, 0x70CC, 0x70D5, 0x70D6, 0x70DF, 0x4104, 0x3DE8, 0x71B4, 0x7196]),
  (0xFDEC, [0x24277, 0x712B, 0x7145, 0x5A88, 0x714A]),
  (0xFDF2, [0x5C9C, 0x24365, 0x714F, 0x9362, 0x242C1, 0x712C, 0x2445A, 0x24A27, 0x24A22, 0x71BA, 0x28BE8, 0x70BD]),
  (0xFDFE, [0x720E]),
  (0xFE40, [0x9442, 0x7215, 0x5911, 0x9443, 0x7224, 0x9341, 0x25605, 0x722E, 0x7240, 0x24974, 0x68BD, 0x7255]),
  (0xFE4C, [0x7257, 0x3E55, 0x23044, 0x680D, 0x6F3D, 0x7282]),
  (0xFE53, [0x732B, 0x24823, 0x2882B, 0x48ED, 0x28804, 0x7328, 0x732E, 0x73CF, 0x73AA, 0x20C3A, 0x26A2E, 0x73C9]),
  (0xFE5F, [0x7449, 0x241E2, 0x216E7, 0x24A24, 0x6623, 0x36C5, 0x249B7, 0x2498D, 0x249FB, 0x73F7, 0x7415, 0x6903]),
  (0xFE6B, [0x24A26, 0x7439, 0x205C3, 0x3ED7]),
  (0xFE70, [0x228AD, 0x7460, 0x28EB2, 0x7447, 0x73E4, 0x7476, 0x83B9, 0x746C, 0x3730, 0x7474, 0x93F1, 0x6A2C]),
  (0xFE7C, [0x7482, 0x4953, 0x24A8C]),
  (0xFEA1, [0x2415F, 0x24A79, 0x28B8F, 0x5B46, 0x28C03, 0x2189E, 0x74C8, 0x21988, 0x750E]),
  (0xFEAB, [0x751E, 0x28ED9, 0x21A4B, 0x5BD7, 0x28EAC, 0x9385, 0x754D, 0x754A, 0x7567, 0x756E, 0x24F82, 0x3F04]),
  (0xFEB7, [0x24D13, 0x758E, 0x745D, 0x759E, 0x75B4, 0x7602, 0x762C, 0x7651, 0x764F, 0x766F, 0x7676, 0x263F5]),
  (0xFEC3, [0x7690, 0x81EF, 0x37F8, 0x26911, 0x2690E, 0x76A1, 0x76A5, 0x76B7, 0x76CC, 0x26F9F, 0x8462, 0x2509D]),
  (0xFECF, [0x2517D, 0x21E1C, 0x771E, 0x7726, 0x7740, 0x64AF, 0x25220, 0x7758, 0x232AC, 0x77AF, 0x28964, 0x28968]),
  (0xFEDB, [0x216C1, 0x77F4]),
  (0xFEDE, [0x21376, 0x24A12, 0x68CA, 0x78AF, 0x78C7, 0x78D3, 0x96A5, 0x792E, 0x255E0, 0x78D7, 0x7934, 0x78B1]),
  (0xFEEA, [0x2760C, 0x8FB8, 0x8884, 0x28B2B, 0x26083, 0x2261C, 0x7986, 0x8900, 0x6902, 0x7980, 0x25857, 0x799D]),
  (0xFEF6, [0x27B39, 0x793C, 0x79A9, 0x6E2A, 0x27126, 0x3EA8, 0x79C6, 0x2910D, 0x79D4])]

/-- /repo/modules/from/_HKSCS2004.txt; there is no file for writing. -/
def hkscs2004 : Charset where
  reads := hkscs2004Reads
  writes := []

end Verif.Charsets
