import Verif.Spec.Charset
/-
Generated by tools/charsets.py from rule files of /repo/modules/from and /repo/modules/to.
-/
namespace Verif.Charsets
open Verif.Spec

set_option maxRecDepth 100000

/-- The rules of /repo/modules/from/_GB2312.txt: code, character.  No two lines have the same code, so their order does not matter; here they
are sorted. -/
def gb2312Reads : Chart := Chart.wide [
  (0x2121, 0x3000_3001_3002_30FB_02C9_02C7_00A8_3003_3005_2015_FF5E_2016),
  (0x212D, 0x2026_2018_2019_201C_201D_3014_3015_3008_3009_300A_300B_300C),
  (0x2139, 0x300D_300E_300F_3016_3017_3010_3011_00B1_00D7_00F7_2236_2227),
  (0x2145, 0x2228_2211_220F_222A_2229_2208_2237_221A_22A5_2225_2220_2312),
  (0x2151, 0x2299_222B_222E_2261_224C_2248_223D_221D_2260_226E_226F_2264),
  (0x215D, 0x2265_221E_2235_2234_2642_2640_00B0_2032_2033_2103_FF04_00A4),
  (0x2169, 0xFFE0_FFE1_2030_00A7_2116_2606_2605_25CB_25CF_25CE_25C7_25C6),
  (0x2175, 0x25A1_25A0_25B3_25B2_203B_2192_2190_2191_2193_3013),
  (0x2231, 0x2488_2489_248A_248B_248C_248D_248E_248F_2490_2491_2492_2493),
  (0x223D, 0x2494_2495_2496_2497_2498_2499_249A_249B_2474_2475_2476_2477),
  (0x2249, 0x2478_2479_247A_247B_247C_247D_247E_247F_2480_2481_2482_2483),
  (0x2255, 0x2484_2485_2486_2487_2460_2461_2462_2463_2464_2465_2466_2467),
  (0x2261, 0x2468_2469),
  (0x2265, 0x3220_3221_3222_3223_3224_3225_3226_3227_3228_3229),
  (0x2271, 0x2160_2161_2162_2163_2164_2165_2166_2167_2168_2169_216A_216B),
  (0x2321, 0xFF01_FF02_FF03_FFE5_FF05_FF06_FF07_FF08_FF09_FF0A_FF0B_FF0C),
  (0x232D, 0xFF0D_FF0E_FF0F_FF10_FF11_FF12_FF13_FF14_FF15_FF16_FF17_FF18),
  (0x2339, 0xFF19_FF1A_FF1B_FF1C_FF1D_FF1E_FF1F_FF20_FF21_FF22_FF23_FF24),
  (0x2345, 0xFF25_FF26_FF27_FF28_FF29_FF2A_FF2B_FF2C_FF2D_FF2E_FF2F_FF30),
  (0x2351, 0xFF31_FF32_FF33_FF34_FF35_FF36_FF37_FF38_FF39_FF3A_FF3B_FF3C),
  (0x235D, 0xFF3D_FF3E_FF3F_FF40_FF41_FF42_FF43_FF44_FF45_FF46_FF47_FF48),
  (0x2369, 0xFF49_FF4A_FF4B_FF4C_FF4D_FF4E_FF4F_FF50_FF51_FF52_FF53_FF54),
  (0x2375, 0xFF55_FF56_FF57_FF58_FF59_FF5A_FF5B_FF5C_FF5D_FFE3),
  (0x2421, 0x3041_3042_3043_3044_3045_3046_3047_3048_3049_304A_304B_304C),
  (0x242D, 0x304D_304E_304F_3050_3051_3052_3053_3054_3055_3056_3057_3058),
  (0x2439, 0x3059_305A_305B_305C_305D_305E_305F_3060_3061_3062_3063_3064),
  (0x2445, 0x3065_3066_3067_3068_3069_306A_306B_306C_306D_306E_306F_3070),
  (0x2451, 0x3071_3072_3073_3074_3075_3076_3077_3078_3079_307A_307B_307C),
  (0x245D, 0x307D_307E_307F_3080_3081_3082_3083_3084_3085_3086_3087_3088),
  (0x2469, 0x3089_308A_308B_308C_308D_308E_308F_3090_3091_3092_3093),
  (0x2521, 0x30A1_30A2_30A3_30A4_30A5_30A6_30A7_30A8_30A9_30AA_30AB_30AC),
  (0x252D, 0x30AD_30AE_30AF_30B0_30B1_30B2_30B3_30B4_30B5_30B6_30B7_30B8),
  (0x2539, 0x30B9_30BA_30BB_30BC_30BD_30BE_30BF_30C0_30C1_30C2_30C3_30C4),
  (0x2545, 0x30C5_30C6_30C7_30C8_30C9_30CA_30CB_30CC_30CD_30CE_30CF_30D0),
  (0x2551, 0x30D1_30D2_30D3_30D4_30D5_30D6_30D7_30D8_30D9_30DA_30DB_30DC),
  (0x255D, 0x30DD_30DE_30DF_30E0_30E1_30E2_30E3_30E4_30E5_30E6_30E7_30E8),
  (0x2569, 0x30E9_30EA_30EB_30EC_30ED_30EE_30EF_30F0_30F1_30F2_30F3_30F4),
  (0x2575, 0x30F5_30F6),
  (0x2621, 0x0391_0392_0393_0394_0395_0396_0397_0398_0399_039A_039B_039C),
  (0x262D, 0x039D_039E_039F_03A0_03A1_03A3_03A4_03A5_03A6_03A7_03A8_03A9),
  (0x2641, 0x03B1_03B2_03B3_03B4_03B5_03B6_03B7_03B8_03B9_03BA_03BB_03BC),
  (0x264D, 0x03BD_03BE_03BF_03C0_03C1_03C3_03C4_03C5_03C6_03C7_03C8_03C9),
  (0x2721, 0x0410_0411_0412_0413_0414_0415_0401_0416_0417_0418_0419_041A),
  (0x272D, 0x041B_041C_041D_041E_041F_0420_0421_0422_0423_0424_0425_0426),
  (0x2739, 0x0427_0428_0429_042A_042B_042C_042D_042E_042F),
  (0x2751, 0x0430_0431_0432_0433_0434_0435_0451_0436_0437_0438_0439_043A),
  (0x275D, 0x043B_043C_043D_043E_043F_0440_0441_0442_0443_0444_0445_0446),
  (0x2769, 0x0447_0448_0449_044A_044B_044C_044D_044E_044F),
  (0x2821, 0x0101_00E1_01CE_00E0_0113_00E9_011B_00E8_012B_00ED_01D0_00EC),
  (0x282D, 0x014D_00F3_01D2_00F2_016B_00FA_01D4_00F9_01D6_01D8_01DA_01DC),
  (0x2839, 0x00FC_00EA),
  (0x2845, 0x3105_3106_3107_3108_3109_310A_310B_310C_310D_310E_310F_3110),
  (0x2851, 0x3111_3112_3113_3114_3115_3116_3117_3118_3119_311A_311B_311C),
  (0x285D, 0x311D_311E_311F_3120_3121_3122_3123_3124_3125_3126_3127_3128),
  (0x2869, 0x3129),
  (0x2924, 0x2500_2501_2502_2503_2504_2505_2506_2507_2508_2509_250A_250B),
  (0x2930, 0x250C_250D_250E_250F_2510_2511_2512_2513_2514_2515_2516_2517),
  (0x293C, 0x2518_2519_251A_251B_251C_251D_251E_251F_2520_2521_2522_2523),
  (0x2948, 0x2524_2525_2526_2527_2528_2529_252A_252B_252C_252D_252E_252F),
  (0x2954, 0x2530_2531_2532_2533_2534_2535_2536_2537_2538_2539_253A_253B),
  (0x2960, 0x253C_253D_253E_253F_2540_2541_2542_2543_2544_2545_2546_2547),
  (0x296C, 0x2548_2549_254A_254B),
  (0x3021, 0x554A_963F_57C3_6328_54CE_5509_54C0_7691_764C_853C_77EE_827E),
  (0x302D, 0x788D_7231_9698_978D_6C28_5B89_4FFA_6309_6697_5CB8_80FA_6848),
  (0x3039, 0x80AE_6602_76CE_51F9_6556_71AC_7FF1_8884_50B2_5965_61CA_6FB3),
  (0x3045, 0x82AD_634C_6252_53ED_5427_7B06_516B_75A4_5DF4_62D4_8DCB_9776),
  (0x3051, 0x628A_8019_575D_9738_7F62_7238_767D_67CF_767E_6446_4F70_8D25),
  (0x305D, 0x62DC_7A17_6591_73ED_642C_6273_822C_9881_677F_7248_626E_62CC),
  (0x3069, 0x4F34_74E3_534A_529E_7ECA_90A6_5E2E_6886_699C_8180_7ED1_68D2),
  (0x3075, 0x78C5_868C_9551_508D_8C24_82DE_80DE_5305_8912_5265),
  (0x3121, 0x8584_96F9_4FDD_5821_9971_5B9D_62B1_62A5_66B4_8C79_9C8D_7206),
  (0x312D, 0x676F_7891_60B2_5351_5317_8F88_80CC_8D1D_94A1_500D_72C8_5907),
  (0x3139, 0x60EB_7119_88AB_5954_82EF_672C_7B28_5D29_7EF7_752D_6CF5_8E66),
  (0x3145, 0x8FF8_903C_9F3B_6BD4_9119_7B14_5F7C_78A7_84D6_853D_6BD5_6BD9),
  (0x3151, 0x6BD6_5E01_5E87_75F9_95ED_655D_5F0A_5FC5_8F9F_58C1_81C2_907F),
  (0x315D, 0x965B_97AD_8FB9_7F16_8D2C_6241_4FBF_53D8_535E_8FA8_8FA9_8FAB),
  (0x3169, 0x904D_6807_5F6A_8198_8868_9CD6_618B_522B_762A_5F6C_658C_6FD2),
  (0x3175, 0x6EE8_5BBE_6448_5175_51B0_67C4_4E19_79C9_997C_70B3),
  (0x3221, 0x75C5_5E76_73BB_83E0_64AD_62E8_94B5_6CE2_535A_52C3_640F_94C2),
  (0x322D, 0x7B94_4F2F_5E1B_8236_8116_818A_6E24_6CCA_9A73_6355_535C_54FA),
  (0x3239, 0x8865_57E0_4E0D_5E03_6B65_7C3F_90E8_6016_64E6_731C_88C1_6750),
  (0x3245, 0x624D_8D22_776C_8E29_91C7_5F69_83DC_8521_9910_53C2_8695_6B8B),
  (0x3251, 0x60ED_60E8_707F_82CD_8231_4ED3_6CA7_85CF_64CD_7CD9_69FD_66F9),
  (0x325D, 0x8349_5395_7B56_4FA7_518C_6D4B_5C42_8E6D_63D2_53C9_832C_8336),
  (0x3269, 0x67E5_78B4_643D_5BDF_5C94_5DEE_8BE7_62C6_67F4_8C7A_6400_63BA),
  (0x3275, 0x8749_998B_8C17_7F20_94F2_4EA7_9610_98A4_660C_7316),
  (0x3321, 0x573A_5C1D_5E38_957F_507F_80A0_5382_655E_7545_5531_5021_8D85),
  (0x332D, 0x6284_949E_671D_5632_6F6E_5DE2_5435_7092_8F66_626F_64A4_63A3),
  (0x3339, 0x5F7B_6F88_90F4_81E3_8FB0_5C18_6668_5FF1_6C89_9648_8D81_886C),
  (0x3345, 0x6491_79F0_57CE_6A59_6210_5448_4E58_7A0B_60E9_6F84_8BDA_627F),
  (0x3351, 0x901E_9A8B_79E4_5403_75F4_6301_5319_6C60_8FDF_5F1B_9A70_803B),
  (0x335D, 0x9F7F_4F88_5C3A_8D64_7FC5_65A5_70BD_5145_51B2_866B_5D07_5BA0),
  (0x3369, 0x62BD_916C_7574_8E0C_7A20_6101_7B79_4EC7_7EF8_7785_4E11_81ED),
  (0x3375, 0x521D_51FA_6A71_53A8_8E87_9504_96CF_6EC1_9664_695A),
  (0x3421, 0x7840_50A8_77D7_6410_89E6_5904_63E3_5DDD_7A7F_693D_4F20_8239),
  (0x342D, 0x5598_4E32_75AE_7A97_5E62_5E8A_95EF_521B_5439_708A_6376_9524),
  (0x3439, 0x5782_6625_693F_9187_5507_6DF3_7EAF_8822_6233_7EF0_75B5_8328),
  (0x3445, 0x78C1_96CC_8F9E_6148_74F7_8BCD_6B64_523A_8D50_6B21_806A_8471),
  (0x3451, 0x56F1_5306_4ECE_4E1B_51D1_7C97_918B_7C07_4FC3_8E7F_7BE1_7A9C),
  (0x345D, 0x6467_5D14_50AC_8106_7601_7CB9_6DEC_7FE0_6751_5B58_5BF8_78CB),
  (0x3469, 0x64AE_6413_63AA_632B_9519_642D_8FBE_7B54_7629_6253_5927_5446),
  (0x3475, 0x6B79_50A3_6234_5E26_6B86_4EE3_8D37_888B_5F85_902E),
  (0x3521, 0x6020_803D_62C5_4E39_5355_90F8_63B8_80C6_65E6_6C2E_4F46_60EE),
  (0x352D, 0x6DE1_8BDE_5F39_86CB_5F53_6321_515A_8361_6863_5200_6363_8E48),
  (0x3539, 0x5012_5C9B_7977_5BFC_5230_7A3B_60BC_9053_76D7_5FB7_5F97_7684),
  (0x3545, 0x8E6C_706F_767B_7B49_77AA_51F3_9093_5824_4F4E_6EF4_8FEA_654C),
  (0x3551, 0x7B1B_72C4_6DA4_7FDF_5AE1_62B5_5E95_5730_8482_7B2C_5E1D_5F1F),
  (0x355D, 0x9012_7F14_98A0_6382_6EC7_7898_70B9_5178_975B_57AB_7535_4F43),
  (0x3569, 0x7538_5E97_60E6_5960_6DC0_6BBF_7889_53FC_96D5_51CB_5201_6389),
  (0x3575, 0x540A_9493_8C03_8DCC_7239_789F_8776_8FED_8C0D_53E0),
  (0x3621, 0x4E01_76EF_53EE_9489_9876_9F0E_952D_5B9A_8BA2_4E22_4E1C_51AC),
  (0x362D, 0x8463_61C2_52A8_680B_4F97_606B_51BB_6D1E_515C_6296_6597_9661),
  (0x3639, 0x8C46_9017_75D8_90FD_7763_6BD2_728A_72EC_8BFB_5835_7779_8D4C),
  (0x3645, 0x675C_9540_809A_5EA6_6E21_5992_7AEF_77ED_953B_6BB5_65AD_7F0E),
  (0x3651, 0x5806_5151_961F_5BF9_58A9_5428_8E72_6566_987F_56E4_949D_76FE),
  (0x365D, 0x9041_6387_54C6_591A_593A_579B_8EB2_6735_8DFA_8235_5241_60F0),
  (0x3669, 0x5815_86FE_5CE8_9E45_4FC4_989D_8BB9_5A25_6076_5384_627C_904F),
  (0x3675, 0x9102_997F_6069_800C_513F_8033_5C14_9975_6D31_4E8C),
  (0x3721, 0x8D30_53D1_7F5A_7B4F_4F10_4E4F_9600_6CD5_73D0_85E9_5E06_756A),
  (0x372D, 0x7FFB_6A0A_77FE_9492_7E41_51E1_70E6_53CD_8FD4_8303_8D29_72AF),
  (0x3739, 0x996D_6CDB_574A_82B3_65B9_80AA_623F_9632_59A8_4EFF_8BBF_7EBA),
  (0x3745, 0x653E_83F2_975E_5561_98DE_80A5_532A_8BFD_5420_80BA_5E9F_6CB8),
  (0x3751, 0x8D39_82AC_915A_5429_6C1B_5206_7EB7_575F_711A_6C7E_7C89_594B),
  (0x375D, 0x4EFD_5FFF_6124_7CAA_4E30_5C01_67AB_8702_5CF0_950B_98CE_75AF),
  (0x3769, 0x70FD_9022_51AF_7F1D_8BBD_5949_51E4_4F5B_5426_592B_6577_80A4),
  (0x3775, 0x5B75_6276_62C2_8F90_5E45_6C1F_7B26_4F0F_4FD8_670D),
  (0x3821, 0x6D6E_6DAA_798F_88B1_5F17_752B_629A_8F85_4FEF_91DC_65A7_812F),
  (0x382D, 0x8151_5E9C_8150_8D74_526F_8986_8D4B_590D_5085_4ED8_961C_7236),
  (0x3839, 0x8179_8D1F_5BCC_8BA3_9644_5987_7F1A_5490_5676_560E_8BE5_6539),
  (0x3845, 0x6982_9499_76D6_6E89_5E72_7518_6746_67D1_7AFF_809D_8D76_611F),
  (0x3851, 0x79C6_6562_8D63_5188_521A_94A2_7F38_809B_7EB2_5C97_6E2F_6760),
  (0x385D, 0x7BD9_768B_9AD8_818F_7F94_7CD5_641E_9550_7A3F_544A_54E5_6B4C),
  (0x3869, 0x6401_6208_9E3D_80F3_7599_5272_9769_845B_683C_86E4_9601_9694),
  (0x3875, 0x94EC_4E2A_5404_7ED9_6839_8DDF_8015_66F4_5E9A_7FB9),
  (0x3921, 0x57C2_803F_6897_5DE5_653B_529F_606D_9F9A_4F9B_8EAC_516C_5BAB),
  (0x392D, 0x5F13_5DE9_6C5E_62F1_8D21_5171_94A9_52FE_6C9F_82DF_72D7_57A2),
  (0x3939, 0x6784_8D2D_591F_8F9C_83C7_5495_7B8D_4F30_6CBD_5B64_59D1_9F13),
  (0x3945, 0x53E4_86CA_9AA8_8C37_80A1_6545_987E_56FA_96C7_522E_74DC_5250),
  (0x3951, 0x5BE1_6302_8902_4E56_62D0_602A_68FA_5173_5B98_51A0_89C2_7BA1),
  (0x395D, 0x9986_7F50_60EF_704C_8D2F_5149_5E7F_901B_7470_89C4_572D_7845),
  (0x3969, 0x5F52_9F9F_95FA_8F68_9B3C_8BE1_7678_6842_67DC_8DEA_8D35_523D),
  (0x3975, 0x8F8A_6EDA_68CD_9505_90ED_56FD_679C_88F9_8FC7_54C8),
  (0x3A21, 0x9AB8_5B69_6D77_6C26_4EA5_5BB3_9A87_9163_61A8_90AF_97E9_542B),
  (0x3A2D, 0x6DB5_5BD2_51FD_558A_7F55_7FF0_64BC_634D_65F1_61BE_608D_710A),
  (0x3A39, 0x6C57_6C49_592F_676D_822A_58D5_568E_8C6A_6BEB_90DD_597D_8017),
  (0x3A45, 0x53F7_6D69_5475_559D_8377_83CF_6838_79BE_548C_4F55_5408_76D2),
  (0x3A51, 0x8C89_9602_6CB3_6DB8_8D6B_8910_9E64_8D3A_563F_9ED1_75D5_5F88),
  (0x3A5D, 0x72E0_6068_54FC_4EA8_6A2A_8861_6052_8F70_54C4_70D8_8679_9E3F),
  (0x3A69, 0x6D2A_5B8F_5F18_7EA2_5589_4FAF_7334_543C_539A_5019_540E_547C),
  (0x3A75, 0x4E4E_5FFD_745A_58F6_846B_80E1_8774_72D0_7CCA_6E56),
  (0x3B21, 0x5F27_864E_552C_62A4_4E92_6CAA_6237_82B1_54D7_534E_733E_6ED1),
  (0x3B2D, 0x753B_5212_5316_8BDD_69D0_5F8A_6000_6DEE_574F_6B22_73AF_6853),
  (0x3B39, 0x8FD8_7F13_6362_60A3_5524_75EA_8C62_7115_6DA3_5BA6_5E7B_8352),
  (0x3B45, 0x614C_9EC4_78FA_8757_7C27_7687_51F0_60F6_714C_6643_5E4C_604D),
  (0x3B51, 0x8C0E_7070_6325_8F89_5FBD_6062_86D4_56DE_6BC1_6094_6167_5349),
  (0x3B5D, 0x60E0_6666_8D3F_79FD_4F1A_70E9_6C47_8BB3_8BF2_7ED8_8364_660F),
  (0x3B69, 0x5A5A_9B42_6D51_6DF7_8C41_6D3B_4F19_706B_83B7_6216_60D1_970D),
  (0x3B75, 0x8D27_7978_51FB_573E_57FA_673A_7578_7A3D_79EF_7B95),
  (0x3C21, 0x808C_9965_8FF9_6FC0_8BA5_9E21_59EC_7EE9_7F09_5409_6781_68D8),
  (0x3C2D, 0x8F91_7C4D_96C6_53CA_6025_75BE_6C72_5373_5AC9_7EA7_6324_51E0),
  (0x3C39, 0x810A_5DF1_84DF_6280_5180_5B63_4F0E_796D_5242_60B8_6D4E_5BC4),
  (0x3C45, 0x5BC2_8BA1_8BB0_65E2_5FCC_9645_5993_7EE7_7EAA_5609_67B7_5939),
  (0x3C51, 0x4F73_5BB6_52A0_835A_988A_8D3E_7532_94BE_5047_7A3C_4EF7_67B6),
  (0x3C5D, 0x9A7E_5AC1_6B7C_76D1_575A_5C16_7B3A_95F4_714E_517C_80A9_8270),
  (0x3C69, 0x5978_7F04_8327_68C0_67EC_78B1_7877_62E3_6361_7B80_4FED_526A),
  (0x3C75, 0x51CF_8350_69DB_9274_8DF5_8D31_89C1_952E_7BAD_4EF6),
  (0x3D21, 0x5065_8230_5251_996F_6E10_6E85_6DA7_5EFA_50F5_59DC_5C06_6D46),
  (0x3D2D, 0x6C5F_7586_848B_6868_5956_8BB2_5320_9171_964D_8549_6912_7901),
  (0x3D39, 0x7126_80F6_4EA4_90CA_6D47_9A84_5A07_56BC_6405_94F0_77EB_4FA5),
  (0x3D45, 0x811A_72E1_89D2_997A_7F34_7EDE_527F_6559_9175_8F7F_8F83_53EB),
  (0x3D51, 0x7A96_63ED_63A5_7686_79F8_8857_9636_622A_52AB_8282_6854_6770),
  (0x3D5D, 0x6377_776B_7AED_6D01_7ED3_89E3_59D0_6212_85C9_82A5_754C_501F),
  (0x3D69, 0x4ECB_75A5_8BEB_5C4A_5DFE_7B4B_65A4_91D1_4ECA_6D25_895F_7D27),
  (0x3D75, 0x9526_4EC5_8C28_8FDB_9773_664B_7981_8FD1_70EC_6D78),
  (0x3E21, 0x5C3D_52B2_8346_5162_830E_775B_6676_9CB8_4EAC_60CA_7CBE_7CB3),
  (0x3E2D, 0x7ECF_4E95_8B66_666F_9888_9759_5883_656C_955C_5F84_75C9_9756),
  (0x3E39, 0x7ADF_7ADE_51C0_70AF_7A98_63EA_7A76_7EA0_7396_97ED_4E45_7078),
  (0x3E45, 0x4E5D_9152_53A9_6551_65E7_81FC_8205_548E_5C31_759A_97A0_62D8),
  (0x3E51, 0x72D9_75BD_5C45_9A79_83CA_5C40_5480_77E9_4E3E_6CAE_805A_62D2),
  (0x3E5D, 0x636E_5DE8_5177_8DDD_8E1E_952F_4FF1_53E5_60E7_70AC_5267_6350),
  (0x3E69, 0x9E43_5A1F_5026_7737_5377_7EE2_6485_652B_6289_6398_5014_7235),
  (0x3E75, 0x89C9_51B3_8BC0_7EDD_5747_83CC_94A7_519B_541B_5CFB),
  (0x3F21, 0x4FCA_7AE3_6D5A_90E1_9A8F_5580_5496_5361_54AF_5F00_63E9_6977),
  (0x3F2D, 0x51EF_6168_520A_582A_52D8_574E_780D_770B_5EB7_6177_7CE0_625B),
  (0x3F39, 0x6297_4EA2_7095_8003_62F7_70E4_9760_5777_82DB_67EF_68F5_78D5),
  (0x3F45, 0x9897_79D1_58F3_54B3_53EF_6E34_514B_523B_5BA2_8BFE_80AF_5543),
  (0x3F51, 0x57A6_6073_5751_542D_7A7A_6050_5B54_63A7_62A0_53E3_6263_5BC7),
  (0x3F5D, 0x67AF_54ED_7A9F_82E6_9177_5E93_88E4_5938_57AE_630E_8DE8_80EF),
  (0x3F69, 0x5757_7B77_4FA9_5FEB_5BBD_6B3E_5321_7B50_72C2_6846_77FF_7736),
  (0x3F75, 0x65F7_51B5_4E8F_76D4_5CBF_7AA5_8475_594E_9B41_5080),
  (0x4021, 0x9988_6127_6E83_5764_6606_6346_56F0_62EC_6269_5ED3_9614_5783),
  (0x402D, 0x62C9_5587_8721_814A_8FA3_5566_83B1_6765_8D56_84DD_5A6A_680F),
  (0x4039, 0x62E6_7BEE_9611_5170_6F9C_8C30_63FD_89C8_61D2_7F06_70C2_6EE5),
  (0x4045, 0x7405_6994_72FC_5ECA_90CE_6717_6D6A_635E_52B3_7262_8001_4F6C),
  (0x4051, 0x59E5_916A_70D9_6D9D_52D2_4E50_96F7_956D_857E_78CA_7D2F_5121),
  (0x405D, 0x5792_64C2_808B_7C7B_6CEA_68F1_695E_51B7_5398_68A8_7281_9ECE),
  (0x4069, 0x7BF1_72F8_79BB_6F13_7406_674E_91CC_9CA4_793C_8389_8354_540F),
  (0x4075, 0x6817_4E3D_5389_52B1_783E_5386_5229_5088_4F8B_4FD0),
  (0x4121, 0x75E2_7ACB_7C92_6CA5_96B6_529B_7483_54E9_4FE9_8054_83B2_8FDE),
  (0x412D, 0x9570_5EC9_601C_6D9F_5E18_655B_8138_94FE_604B_70BC_7EC3_7CAE),
  (0x4139, 0x51C9_6881_7CB1_826F_4E24_8F86_91CF_667E_4EAE_8C05_64A9_804A),
  (0x4145, 0x50DA_7597_71CE_5BE5_8FBD_6F66_4E86_6482_9563_5ED6_6599_5217),
  (0x4151, 0x88C2_70C8_52A3_730E_7433_6797_78F7_9716_4E34_90BB_9CDE_6DCB),
  (0x415D, 0x51DB_8D41_541D_62CE_73B2_83F1_96F6_9F84_94C3_4F36_7F9A_51CC),
  (0x4169, 0x7075_9675_5CAD_9886_53E6_4EE4_6E9C_7409_69B4_786B_998F_7559),
  (0x4175, 0x5218_7624_6D41_67F3_516D_9F99_804B_5499_7B3C_7ABF),
  (0x4221, 0x9686_5784_62E2_9647_697C_5A04_6402_7BD3_6F0F_964B_82A6_5362),
  (0x422D, 0x9885_5E90_7089_63B3_5364_864F_9C81_9E93_788C_9732_8DEF_8D42),
  (0x4239, 0x9E7F_6F5E_7984_5F55_9646_622E_9A74_5415_94DD_4FA3_65C5_5C65),
  (0x4245, 0x5C61_7F15_8651_6C2F_5F8B_7387_6EE4_7EFF_5CE6_631B_5B6A_6EE6),
  (0x4251, 0x5375_4E71_63A0_7565_62A1_8F6E_4F26_4ED1_6CA6_7EB6_8BBA_841D),
  (0x425D, 0x87BA_7F57_903B_9523_7BA9_9AA1_88F8_843D_6D1B_9A86_7EDC_5988),
  (0x4269, 0x9EBB_739B_7801_8682_9A6C_9A82_561B_5417_57CB_4E70_9EA6_5356),
  (0x4275, 0x8FC8_8109_7792_9992_86EE_6EE1_8513_66FC_6162_6F2B),
  (0x4321, 0x8C29_8292_832B_76F2_6C13_5FD9_83BD_732B_8305_951A_6BDB_77DB),
  (0x432D, 0x94C6_536F_8302_5192_5E3D_8C8C_8D38_4E48_73AB_679A_6885_9176),
  (0x4339, 0x9709_7164_6CA1_7709_5A92_9541_6BCF_7F8E_6627_5BD0_59B9_5A9A),
  (0x4345, 0x95E8_95F7_4EEC_840C_8499_6AAC_76DF_9530_731B_68A6_5B5F_772F),
  (0x4351, 0x919A_9761_7CDC_8FF7_8C1C_5F25_7C73_79D8_89C5_6CCC_871C_5BC6),
  (0x435D, 0x5E42_68C9_7720_7EF5_5195_514D_52C9_5A29_7F05_9762_82D7_63CF),
  (0x4369, 0x7784_85D0_79D2_6E3A_5E99_5999_8511_706D_6C11_62BF_76BF_654F),
  (0x4375, 0x60AF_95FD_660E_879F_9E23_94ED_540D_547D_8C2C_6478),
  (0x4421, 0x6479_8611_6A21_819C_78E8_6469_9B54_62B9_672B_83AB_58A8_9ED8),
  (0x442D, 0x6CAB_6F20_5BDE_964C_8C0B_725F_67D0_62C7_7261_4EA9_59C6_6BCD),
  (0x4439, 0x5893_66AE_5E55_52DF_6155_6728_76EE_7766_7267_7A46_62FF_54EA),
  (0x4445, 0x5450_94A0_90A3_5A1C_7EB3_6C16_4E43_5976_8010_5948_5357_7537),
  (0x4451, 0x96BE_56CA_6320_8111_607C_95F9_6DD6_5462_9981_5185_5AE9_80FD),
  (0x445D, 0x59AE_9713_502A_6CE5_5C3C_62DF_4F60_533F_817B_9006_6EBA_852B),
  (0x4469, 0x62C8_5E74_78BE_64B5_637B_5FF5_5A18_917F_9E1F_5C3F_634F_8042),
  (0x4475, 0x5B7D_556E_954A_954D_6D85_60A8_67E0_72DE_51DD_5B81),
  (0x4521, 0x62E7_6CDE_725B_626D_94AE_7EBD_8113_6D53_519C_5F04_5974_52AA),
  (0x452D, 0x6012_5973_6696_8650_759F_632A_61E6_7CEF_8BFA_54E6_6B27_9E25),
  (0x4539, 0x6BB4_85D5_5455_5076_6CA4_556A_8DB4_722C_5E15_6015_7436_62CD),
  (0x4545, 0x6392_724C_5F98_6E43_6D3E_6500_6F58_76D8_78D0_76FC_7554_5224),
  (0x4551, 0x53DB_4E53_5E9E_65C1_802A_80D6_629B_5486_5228_70AE_888D_8DD1),
  (0x455D, 0x6CE1_5478_80DA_57F9_88F4_8D54_966A_914D_4F69_6C9B_55B7_76C6),
  (0x4569, 0x7830_62A8_70F9_6F8E_5F6D_84EC_68DA_787C_7BF7_81A8_670B_9E4F),
  (0x4575, 0x6367_78B0_576F_7812_9739_6279_62AB_5288_7435_6BD7),
  (0x4621, 0x5564_813E_75B2_76AE_5339_75DE_50FB_5C41_8B6C_7BC7_504F_7247),
  (0x462D, 0x9A97_98D8_6F02_74E2_7968_6487_77A5_62FC_9891_8D2B_54C1_8058),
  (0x4639, 0x4E52_576A_82F9_840D_5E73_51ED_74F6_8BC4_5C4F_5761_6CFC_9887),
  (0x4645, 0x5A46_7834_9B44_8FEB_7C95_5256_6251_94FA_4EC6_8386_8461_83E9),
  (0x4651, 0x84B2_57D4_6734_5703_666E_6D66_8C31_66DD_7011_671F_6B3A_6816),
  (0x465D, 0x621A_59BB_4E03_51C4_6F06_67D2_6C8F_5176_68CB_5947_6B67_7566),
  (0x4669, 0x5D0E_8110_9F50_65D7_7948_7941_9A91_8D77_5C82_4E5E_4F01_542F),
  (0x4675, 0x5951_780C_5668_6C14_8FC4_5F03_6C7D_6CE3_8BAB_6390),
  (0x4721, 0x6070_6D3D_7275_6266_948E_94C5_5343_8FC1_7B7E_4EDF_8C26_4E7E),
  (0x472D, 0x9ED4_94B1_94B3_524D_6F5C_9063_6D45_8C34_5811_5D4C_6B20_6B49),
  (0x4739, 0x67AA_545B_8154_7F8C_5899_8537_5F3A_62A2_6A47_9539_6572_6084),
  (0x4745, 0x6865_77A7_4E54_4FA8_5DE7_9798_64AC_7FD8_5CED_4FCF_7A8D_5207),
  (0x4751, 0x8304_4E14_602F_7A83_94A6_4FB5_4EB2_79E6_7434_52E4_82B9_64D2),
  (0x475D, 0x79BD_5BDD_6C81_9752_8F7B_6C22_503E_537F_6E05_64CE_6674_6C30),
  (0x4769, 0x60C5_9877_8BF7_5E86_743C_7A77_79CB_4E18_90B1_7403_6C42_56DA),
  (0x4775, 0x914B_6CC5_8D8B_533A_86C6_66F2_8EAF_5C48_9A71_6E20),
  (0x4821, 0x53D6_5A36_9F8B_8DA3_53BB_5708_98A7_6743_919B_6CC9_5168_75CA),
  (0x482D, 0x62F3_72AC_5238_529D_7F3A_7094_7638_5374_9E4A_69B7_786E_96C0),
  (0x4839, 0x88D9_7FA4_7136_71C3_5189_67D3_74E4_58E4_6518_56B7_8BA9_9976),
  (0x4845, 0x6270_7ED5_60F9_70ED_58EC_4EC1_4EBA_5FCD_97E7_4EFB_8BA4_5203),
  (0x4851, 0x598A_7EAB_6254_4ECD_65E5_620E_8338_84C9_8363_878D_7194_6EB6),
  (0x485D, 0x5BB9_7ED2_5197_63C9_67D4_8089_8339_8815_5112_5B7A_5982_8FB1),
  (0x4869, 0x4E73_6C5D_5165_8925_8F6F_962E_854A_745E_9510_95F0_6DA6_82E5),
  (0x4875, 0x5F31_6492_6D12_8428_816E_9CC3_585E_8D5B_4E09_53C1),
  (0x4921, 0x4F1E_6563_6851_55D3_4E27_6414_9A9A_626B_5AC2_745F_8272_6DA9),
  (0x492D, 0x68EE_50E7_838E_7802_6740_5239_6C99_7EB1_50BB_5565_715E_7B5B),
  (0x4939, 0x6652_73CA_82EB_6749_5C71_5220_717D_886B_95EA_9655_64C5_8D61),
  (0x4945, 0x81B3_5584_6C55_6247_7F2E_5892_4F24_5546_8D4F_664C_4E0A_5C1A),
  (0x4951, 0x88F3_68A2_634E_7A0D_70E7_828D_52FA_97F6_5C11_54E8_90B5_7ECD),
  (0x495D, 0x5962_8D4A_86C7_820C_820D_8D66_6444_5C04_6151_6D89_793E_8BBE),
  (0x4969, 0x7837_7533_547B_4F38_8EAB_6DF1_5A20_7EC5_795E_6C88_5BA1_5A76),
  (0x4975, 0x751A_80BE_614E_6E17_58F0_751F_7525_7272_5347_7EF3),
  (0x4A21, 0x7701_76DB_5269_80DC_5723_5E08_5931_72EE_65BD_6E7F_8BD7_5C38),
  (0x4A2D, 0x8671_5341_77F3_62FE_65F6_4EC0_98DF_8680_5B9E_8BC6_53F2_77E2),
  (0x4A39, 0x4F7F_5C4E_9A76_59CB_5F0F_793A_58EB_4E16_67FF_4E8B_62ED_8A93),
  (0x4A45, 0x901D_52BF_662F_55DC_566C_9002_4ED5_4F8D_91CA_9970_6C0F_5E02),
  (0x4A51, 0x6043_5BA4_89C6_8BD5_6536_624B_9996_5B88_5BFF_6388_552E_53D7),
  (0x4A5D, 0x7626_517D_852C_67A2_68B3_6B8A_6292_8F93_53D4_8212_6DD1_758F),
  (0x4A69, 0x4E66_8D4E_5B70_719F_85AF_6691_66D9_7F72_8700_9ECD_9F20_5C5E),
  (0x4A75, 0x672F_8FF0_6811_675F_620D_7AD6_5885_5EB6_6570_6F31),
  (0x4B21, 0x6055_5237_800D_6454_8870_7529_5E05_6813_62F4_971C_53CC_723D),
  (0x4B2D, 0x8C01_6C34_7761_7A0E_542E_77AC_987A_821C_8BF4_7855_6714_70C1),
  (0x4B39, 0x65AF_6495_5636_601D_79C1_53F8_4E1D_6B7B_8086_5BFA_55E3_56DB),
  (0x4B45, 0x4F3A_4F3C_9972_5DF3_677E_8038_6002_9882_9001_5B8B_8BBC_8BF5),
  (0x4B51, 0x641C_8258_64DE_55FD_82CF_9165_4FD7_7D20_901F_7C9F_50F3_5851),
  (0x4B5D, 0x6EAF_5BBF_8BC9_8083_9178_849C_7B97_867D_968B_968F_7EE5_9AD3),
  (0x4B69, 0x788E_5C81_7A57_9042_96A7_795F_5B59_635F_7B0B_84D1_68AD_5506),
  (0x4B75, 0x7F29_7410_7D22_9501_6240_584C_4ED6_5B83_5979_5854),
  (0x4C21, 0x736D_631E_8E4B_8E0F_80CE_82D4_62AC_53F0_6CF0_915E_592A_6001),
  (0x4C2D, 0x6C70_574D_644A_8D2A_762B_6EE9_575B_6A80_75F0_6F6D_8C2D_8C08),
  (0x4C39, 0x5766_6BEF_8892_78B3_63A2_53F9_70AD_6C64_5858_642A_5802_68E0),
  (0x4C45, 0x819B_5510_7CD6_5018_8EBA_6DCC_8D9F_70EB_638F_6D9B_6ED4_7EE6),
  (0x4C51, 0x8404_6843_9003_6DD8_9676_8BA8_5957_7279_85E4_817E_75BC_8A8A),
  (0x4C5D, 0x68AF_5254_8E22_9511_63D0_9898_8E44_557C_4F53_66FF_568F_60D5),
  (0x4C69, 0x6D95_5243_5C49_5929_6DFB_586B_7530_751C_606C_8214_8146_6311),
  (0x4C75, 0x6761_8FE2_773A_8DF3_8D34_94C1_5E16_5385_542C_70C3),
  (0x4D21, 0x6C40_5EF7_505C_4EAD_5EAD_633A_8247_901A_6850_916E_77B3_540C),
  (0x4D2D, 0x94DC_5F64_7AE5_6876_6345_7B52_7EDF_75DB_5077_6295_5934_900F),
  (0x4D39, 0x51F8_79C3_7A81_56FE_5F92_9014_6D82_5C60_571F_5410_5154_6E4D),
  (0x4D45, 0x56E2_63A8_9893_817F_8715_892A_9000_541E_5C6F_81C0_62D6_6258),
  (0x4D51, 0x8131_9E35_9640_9A6E_9A7C_692D_59A5_62D3_553E_6316_54C7_86D9),
  (0x4D5D, 0x6D3C_5A03_74E6_889C_6B6A_5916_8C4C_5F2F_6E7E_73A9_987D_4E38),
  (0x4D69, 0x70F7_5B8C_7897_633D_665A_7696_60CB_5B9B_5A49_4E07_8155_6C6A),
  (0x4D75, 0x738B_4EA1_6789_7F51_5F80_65FA_671B_5FD8_5984_5A01),
  (0x4E21, 0x5DCD_5FAE_5371_97E6_8FDD_6845_56F4_552F_60DF_4E3A_6F4D_7EF4),
  (0x4E2D, 0x82C7_840E_59D4_4F1F_4F2A_5C3E_7EAC_672A_851A_5473_754F_80C3),
  (0x4E39, 0x5582_9B4F_4F4D_6E2D_8C13_5C09_6170_536B_761F_6E29_868A_6587),
  (0x4E45, 0x95FB_7EB9_543B_7A33_7D0A_95EE_55E1_7FC1_74EE_631D_8717_6DA1),
  (0x4E51, 0x7A9D_6211_65A1_5367_63E1_6C83_5DEB_545C_94A8_4E4C_6C61_8BEC),
  (0x4E5D, 0x5C4B_65E0_829C_68A7_543E_5434_6BCB_6B66_4E94_6342_5348_821E),
  (0x4E69, 0x4F0D_4FAE_575E_620A_96FE_6664_7269_52FF_52A1_609F_8BEF_6614),
  (0x4E75, 0x7199_6790_897F_7852_77FD_6670_563B_5438_9521_727A),
  (0x4F21, 0x7A00_606F_5E0C_6089_819D_5915_60DC_7184_70EF_6EAA_6C50_7280),
  (0x4F2D, 0x6A84_88AD_5E2D_4E60_5AB3_559C_94E3_6D17_7CFB_9699_620F_7EC6),
  (0x4F39, 0x778E_867E_5323_971E_8F96_6687_5CE1_4FA0_72ED_4E0B_53A6_590F),
  (0x4F45, 0x5413_6380_9528_5148_4ED9_9C9C_7EA4_54B8_8D24_8854_8237_95F2),
  (0x4F51, 0x6D8E_5F26_5ACC_663E_9669_73B0_732E_53BF_817A_9985_7FA1_5BAA),
  (0x4F5D, 0x9677_9650_7EBF_76F8_53A2_9576_9999_7BB1_8944_6E58_4E61_7FD4),
  (0x4F69, 0x7965_8BE6_60F3_54CD_4EAB_9879_5DF7_6A61_50CF_5411_8C61_8427),
  (0x4F75, 0x785D_9704_524A_54EE_56A3_9500_6D88_5BB5_6DC6_6653),
  (0x5021, 0x5C0F_5B5D_6821_8096_5578_7B11_6548_6954_4E9B_6B47_874E_978B),
  (0x502D, 0x534F_631F_643A_90AA_659C_80C1_8C10_5199_68B0_5378_87F9_61C8),
  (0x5039, 0x6CC4_6CFB_8C22_5C51_85AA_82AF_950C_6B23_8F9B_65B0_5FFB_5FC3),
  (0x5045, 0x4FE1_8845_661F_8165_7329_60FA_5174_5211_578B_5F62_90A2_884C),
  (0x5051, 0x9192_5E78_674F_6027_59D3_5144_51F6_80F8_5308_6C79_96C4_718A),
  (0x505D, 0x4F11_4FEE_7F9E_673D_55C5_9508_79C0_8896_7EE3_589F_620C_9700),
  (0x5069, 0x865A_5618_987B_5F90_8BB8_84C4_9157_53D9_65ED_5E8F_755C_6064),
  (0x5075, 0x7D6E_5A7F_7EEA_7EED_8F69_55A7_5BA3_60AC_65CB_7384),
  (0x5121, 0x9009_7663_7729_7EDA_9774_859B_5B66_7A74_96EA_8840_52CB_718F),
  (0x512D, 0x5FAA_65EC_8BE2_5BFB_9A6F_5DE1_6B89_6C5B_8BAD_8BAF_900A_8FC5),
  (0x5139, 0x538B_62BC_9E26_9E2D_5440_4E2B_82BD_7259_869C_5D16_8859_6DAF),
  (0x5145, 0x96C5_54D1_4E9A_8BB6_7109_54BD_9609_70DF_6DF9_76D0_4E25_7814),
  (0x5151, 0x8712_5CA9_5EF6_8A00_989C_960E_708E_6CBF_5944_63A9_773C_884D),
  (0x515D, 0x6F14_8273_5830_71D5_538C_781A_96C1_5501_5F66_7130_5BB4_8C1A),
  (0x5169, 0x9A8C_6B83_592E_9E2F_79E7_6768_626C_4F6F_75A1_7F8A_6D0B_9633),
  (0x5175, 0x6C27_4EF0_75D2_517B_6837_6F3E_9080_8170_5996_7476),
  (0x5221, 0x6447_5C27_9065_7A91_8C23_59DA_54AC_8200_836F_8981_8000_6930),
  (0x522D, 0x564E_8036_7237_91CE_51B6_4E5F_9875_6396_4E1A_53F6_66F3_814B),
  (0x5239, 0x591C_6DB2_4E00_58F9_533B_63D6_94F1_4F9D_4F0A_8863_9890_5937),
  (0x5245, 0x9057_79FB_4EEA_80F0_7591_6C82_5B9C_59E8_5F5D_6905_8681_501A),
  (0x5251, 0x5DF2_4E59_77E3_4EE5_827A_6291_6613_9091_5C79_4EBF_5F79_81C6),
  (0x525D, 0x9038_8084_75AB_4EA6_88D4_610F_6BC5_5FC6_4E49_76CA_6EA2_8BE3),
  (0x5269, 0x8BAE_8C0A_8BD1_5F02_7FFC_7FCC_7ECE_8335_836B_56E0_6BB7_97F3),
  (0x5275, 0x9634_59FB_541F_94F6_6DEB_5BC5_996E_5C39_5F15_9690),
  (0x5321, 0x5370_82F1_6A31_5A74_9E70_5E94_7F28_83B9_8424_8425_8367_8747),
  (0x532D, 0x8FCE_8D62_76C8_5F71_9896_786C_6620_54DF_62E5_4F63_81C3_75C8),
  (0x5339, 0x5EB8_96CD_8E0A_86F9_548F_6CF3_6D8C_6C38_607F_52C7_7528_5E7D),
  (0x5345, 0x4F18_60A0_5FE7_5C24_7531_90AE_94C0_72B9_6CB9_6E38_9149_6709),
  (0x5351, 0x53CB_53F3_4F51_91C9_8BF1_53C8_5E7C_8FC2_6DE4_4E8E_76C2_6986),
  (0x535D, 0x865E_611A_8206_4F59_4FDE_903E_9C7C_6109_6E1D_6E14_9685_4E88),
  (0x5369, 0x5A31_96E8_4E0E_5C7F_79B9_5B87_8BED_7FBD_7389_57DF_828B_90C1),
  (0x5375, 0x5401_9047_55BB_5CEA_5FA1_6108_6B32_72F1_80B2_8A89),
  (0x5421, 0x6D74_5BD3_88D5_9884_8C6B_9A6D_9E33_6E0A_51A4_5143_57A3_8881),
  (0x542D, 0x539F_63F4_8F95_56ED_5458_5706_733F_6E90_7F18_8FDC_82D1_613F),
  (0x5439, 0x6028_9662_66F0_7EA6_8D8A_8DC3_94A5_5CB3_7CA4_6708_60A6_9605),
  (0x5445, 0x8018_4E91_90E7_5300_9668_5141_8FD0_8574_915D_6655_97F5_5B55),
  (0x5451, 0x531D_7838_6742_683D_54C9_707E_5BB0_8F7D_518D_5728_54B1_6512),
  (0x545D, 0x6682_8D5E_8D43_810F_846C_906D_7CDF_51FF_85FB_67A3_65E9_6FA1),
  (0x5469, 0x86A4_8E81_566A_9020_7682_7076_71E5_8D23_62E9_5219_6CFD_8D3C),
  (0x5475, 0x600E_589E_618E_66FE_8D60_624E_55B3_6E23_672D_8F67),
  (0x5521, 0x94E1_95F8_7728_6805_69A8_548B_4E4D_70B8_8BC8_6458_658B_5B85),
  (0x552D, 0x7A84_503A_5BE8_77BB_6BE1_8A79_7C98_6CBE_76CF_65A9_8F97_5D2D),
  (0x5539, 0x5C55_8638_6808_5360_6218_7AD9_6E5B_7EFD_6A1F_7AE0_5F70_6F33),
  (0x5545, 0x5F20_638C_6DA8_6756_4E08_5E10_8D26_4ED7_80C0_7634_969C_62DB),
  (0x5551, 0x662D_627E_6CBC_8D75_7167_7F69_5146_8087_53EC_906E_6298_54F2),
  (0x555D, 0x86F0_8F99_8005_9517_8517_8FD9_6D59_73CD_659F_771F_7504_7827),
  (0x5569, 0x81FB_8D1E_9488_4FA6_6795_75B9_8BCA_9707_632F_9547_9635_84B8),
  (0x5575, 0x6323_7741_5F81_72F0_4E89_6014_6574_62EF_6B63_653F),
  (0x5621, 0x5E27_75C7_90D1_8BC1_829D_679D_652F_5431_8718_77E5_80A2_8102),
  (0x562D, 0x6C41_4E4B_7EC7_804C_76F4_690D_6B96_6267_503C_4F84_5740_6307),
  (0x5639, 0x6B62_8DBE_53EA_65E8_7EB8_5FD7_631A_63B7_81F3_81F4_7F6E_5E1C),
  (0x5645, 0x5CD9_5236_667A_79E9_7A1A_8D28_7099_75D4_6EDE_6CBB_7A92_4E2D),
  (0x5651, 0x76C5_5FE0_949F_8877_7EC8_79CD_80BF_91CD_4EF2_4F17_821F_5468),
  (0x565D, 0x5DDE_6D32_8BCC_7CA5_8F74_8098_5E1A_5492_76B1_5B99_663C_9AA4),
  (0x5669, 0x73E0_682A_86DB_6731_732A_8BF8_8BDB_9010_7AF9_70DB_716E_62C4),
  (0x5675, 0x77A9_5631_4E3B_8457_67F1_52A9_86C0_8D2E_94F8_7B51),
  (0x5721, 0x4F4F_6CE8_795D_9A7B_6293_722A_62FD_4E13_7816_8F6C_64B0_8D5A),
  (0x572D, 0x7BC6_6869_5E84_88C5_5986_649E_58EE_72B6_690E_9525_8FFD_8D58),
  (0x5739, 0x5760_7F00_8C06_51C6_6349_62D9_5353_684C_7422_8301_914C_5544),
  (0x5745, 0x7740_707C_6D4A_5179_54A8_8D44_59FF_6ECB_6DC4_5B5C_7D2B_4ED4),
  (0x5751, 0x7C7D_6ED3_5B50_81EA_6E0D_5B57_9B03_68D5_8E2A_5B97_7EFC_603B),
  (0x575D, 0x7EB5_90B9_8D70_594F_63CD_79DF_8DB3_5352_65CF_7956_8BC5_963B),
  (0x5769, 0x7EC4_94BB_7E82_5634_9189_6700_7F6A_5C0A_9075_6628_5DE6_4F50),
  (0x5775, 0x67DE_505A_4F5C_5750_5EA7),
  (0x5821, 0x4E8D_4E0C_5140_4E10_5EFF_5345_4E15_4E98_4E1E_9B32_5B6C_5669),
  (0x582D, 0x4E28_79BA_4E3F_5315_4E47_592D_723B_536E_6C10_56DF_80E4_9997),
  (0x5839, 0x6BD3_777E_9F17_4E36_4E9F_9F10_4E5C_4E69_4E93_8288_5B5B_556C),
  (0x5845, 0x560F_4EC4_538D_539D_53A3_53A5_53AE_9765_8D5D_531A_53F5_5326),
  (0x5851, 0x532E_533E_8D5C_5366_5363_5202_5208_520E_522D_5233_523F_5240),
  (0x585D, 0x524C_525E_5261_525C_84AF_527D_5282_5281_5290_5293_5182_7F54),
  (0x5869, 0x4EBB_4EC3_4EC9_4EC2_4EE8_4EE1_4EEB_4EDE_4F1B_4EF3_4F22_4F64),
  (0x5875, 0x4EF5_4F25_4F27_4F09_4F2B_4F5E_4F67_6538_4F5A_4F5D),
  (0x5921, 0x4F5F_4F57_4F32_4F3D_4F76_4F74_4F91_4F89_4F83_4F8F_4F7E_4F7B),
  (0x592D, 0x4FAA_4F7C_4FAC_4F94_4FE6_4FE8_4FEA_4FC5_4FDA_4FE3_4FDC_4FD1),
  (0x5939, 0x4FDF_4FF8_5029_504C_4FF3_502C_500F_502E_502D_4FFE_501C_500C),
  (0x5945, 0x5025_5028_507E_5043_5055_5048_504E_506C_507B_50A5_50A7_50A9),
  (0x5951, 0x50BA_50D6_5106_50ED_50EC_50E6_50EE_5107_510B_4EDD_6C3D_4F58),
  (0x595D, 0x4F65_4FCE_9FA0_6C46_7C74_516E_5DFD_9EC9_9998_5181_5914_52F9),
  (0x5969, 0x530D_8A07_5310_51EB_5919_5155_4EA0_5156_4EB3_886E_88A4_4EB5),
  (0x5975, 0x8114_88D2_7980_5B34_8803_7FB8_51AB_51B1_51BD_51BC),
  (0x5A21, 0x51C7_5196_51A2_51A5_8BA0_8BA6_8BA7_8BAA_8BB4_8BB5_8BB7_8BC2),
  (0x5A2D, 0x8BC3_8BCB_8BCF_8BCE_8BD2_8BD3_8BD4_8BD6_8BD8_8BD9_8BDC_8BDF),
  (0x5A39, 0x8BE0_8BE4_8BE8_8BE9_8BEE_8BF0_8BF3_8BF6_8BF9_8BFC_8BFF_8C00),
  (0x5A45, 0x8C02_8C04_8C07_8C0C_8C0F_8C11_8C12_8C14_8C15_8C16_8C19_8C1B),
  (0x5A51, 0x8C18_8C1D_8C1F_8C20_8C21_8C25_8C27_8C2A_8C2B_8C2E_8C2F_8C32),
  (0x5A5D, 0x8C33_8C35_8C36_5369_537A_961D_9622_9621_9631_962A_963D_963C),
  (0x5A69, 0x9642_9649_9654_965F_9667_966C_9672_9674_9688_968D_9697_96B0),
  (0x5A75, 0x9097_909B_909D_9099_90AC_90A1_90B4_90B3_90B6_90BA),
  (0x5B21, 0x90B8_90B0_90CF_90C5_90BE_90D0_90C4_90C7_90D3_90E6_90E2_90DC),
  (0x5B2D, 0x90D7_90DB_90EB_90EF_90FE_9104_9122_911E_9123_9131_912F_9139),
  (0x5B39, 0x9143_9146_520D_5942_52A2_52AC_52AD_52BE_54FF_52D0_52D6_52F0),
  (0x5B45, 0x53DF_71EE_77CD_5EF4_51F5_51FC_9B2F_53B6_5F01_755A_5DEF_574C),
  (0x5B51, 0x57A9_57A1_587E_58BC_58C5_58D1_5729_572C_572A_5733_5739_572E),
  (0x5B5D, 0x572F_575C_573B_5742_5769_5785_576B_5786_577C_577B_5768_576D),
  (0x5B69, 0x5776_5773_57AD_57A4_578C_57B2_57CF_57A7_57B4_5793_57A0_57D5),
  (0x5B75, 0x57D8_57DA_57D9_57D2_57B8_57F4_57EF_57F8_57E4_57DD),
  (0x5C21, 0x580B_580D_57FD_57ED_5800_581E_5819_5844_5820_5865_586C_5881),
  (0x5C2D, 0x5889_589A_5880_99A8_9F19_61FF_8279_827D_827F_828F_828A_82A8),
  (0x5C39, 0x8284_828E_8291_8297_8299_82AB_82B8_82BE_82B0_82C8_82CA_82E3),
  (0x5C45, 0x8298_82B7_82AE_82CB_82CC_82C1_82A9_82B4_82A1_82AA_829F_82C4),
  (0x5C51, 0x82CE_82A4_82E1_8309_82F7_82E4_830F_8307_82DC_82F4_82D2_82D8),
  (0x5C5D, 0x830C_82FB_82D3_8311_831A_8306_8314_8315_82E0_82D5_831C_8351),
  (0x5C69, 0x835B_835C_8308_8392_833C_8334_8331_839B_835E_832F_834F_8347),
  (0x5C75, 0x8343_835F_8340_8317_8360_832D_833A_8333_8366_8365),
  (0x5D21, 0x8368_831B_8369_836C_836A_836D_836E_83B0_8378_83B3_83B4_83A0),
  (0x5D2D, 0x83AA_8393_839C_8385_837C_83B6_83A9_837D_83B8_837B_8398_839E),
  (0x5D39, 0x83A8_83BA_83BC_83C1_8401_83E5_83D8_5807_8418_840B_83DD_83FD),
  (0x5D45, 0x83D6_841C_8438_8411_8406_83D4_83DF_840F_8403_83F8_83F9_83EA),
  (0x5D51, 0x83C5_83C0_8426_83F0_83E1_845C_8451_845A_8459_8473_8487_8488),
  (0x5D5D, 0x847A_8489_8478_843C_8446_8469_8476_848C_848E_8431_846D_84C1),
  (0x5D69, 0x84CD_84D0_84E6_84BD_84D3_84CA_84BF_84BA_84E0_84A1_84B9_84B4),
  (0x5D75, 0x8497_84E5_84E3_850C_750D_8538_84F0_8539_851F_853A),
  (0x5E21, 0x8556_853B_84FF_84FC_8559_8548_8568_8564_855E_857A_77A2_8543),
  (0x5E2D, 0x8572_857B_85A4_85A8_8587_858F_8579_85AE_859C_8585_85B9_85B7),
  (0x5E39, 0x85B0_85D3_85C1_85DC_85FF_8627_8605_8629_8616_863C_5EFE_5F08),
  (0x5E45, 0x593C_5941_8037_5955_595A_5958_530F_5C22_5C25_5C2C_5C34_624C),
  (0x5E51, 0x626A_629F_62BB_62CA_62DA_62D7_62EE_6322_62F6_6339_634B_6343),
  (0x5E5D, 0x63AD_63F6_6371_637A_638E_63B4_636D_63AC_638A_6369_63AE_63BC),
  (0x5E69, 0x63F2_63F8_63E0_63FF_63C4_63DE_63CE_6452_63C6_63BE_6445_6441),
  (0x5E75, 0x640B_641B_6420_640C_6426_6421_645E_6484_646D_6496),
  (0x5F21, 0x647A_64B7_64B8_6499_64BA_64C0_64D0_64D7_64E4_64E2_6509_6525),
  (0x5F2D, 0x652E_5F0B_5FD2_7519_5F11_535F_53F1_53FD_53E9_53E8_53FB_5412),
  (0x5F39, 0x5416_5406_544B_5452_5453_5454_5456_5443_5421_5457_5459_5423),
  (0x5F45, 0x5432_5482_5494_5477_5471_5464_549A_549B_5484_5476_5466_549D),
  (0x5F51, 0x54D0_54AD_54C2_54B4_54D2_54A7_54A6_54D3_54D4_5472_54A3_54D5),
  (0x5F5D, 0x54BB_54BF_54CC_54D9_54DA_54DC_54A9_54AA_54A4_54DD_54CF_54DE),
  (0x5F69, 0x551B_54E7_5520_54FD_5514_54F3_5522_5523_550F_5511_5527_552A),
  (0x5F75, 0x5567_558F_55B5_5549_556D_5541_5555_553F_5550_553C),
  (0x6021, 0x5537_5556_5575_5576_5577_5533_5530_555C_558B_55D2_5583_55B1),
  (0x602D, 0x55B9_5588_5581_559F_557E_55D6_5591_557B_55DF_55BD_55BE_5594),
  (0x6039, 0x5599_55EA_55F7_55C9_561F_55D1_55EB_55EC_55D4_55E6_55DD_55C4),
  (0x6045, 0x55EF_55E5_55F2_55F3_55CC_55CD_55E8_55F5_55E4_8F94_561E_5608),
  (0x6051, 0x560C_5601_5624_5623_55FE_5600_5627_562D_5658_5639_5657_562C),
  (0x605D, 0x564D_5662_5659_565C_564C_5654_5686_5664_5671_566B_567B_567C),
  (0x6069, 0x5685_5693_56AF_56D4_56D7_56DD_56E1_56F5_56EB_56F9_56FF_5704),
  (0x6075, 0x570A_5709_571C_5E0F_5E19_5E14_5E11_5E31_5E3B_5E3C),
  (0x6121, 0x5E37_5E44_5E54_5E5B_5E5E_5E61_5C8C_5C7A_5C8D_5C90_5C96_5C88),
  (0x612D, 0x5C98_5C99_5C91_5C9A_5C9C_5CB5_5CA2_5CBD_5CAC_5CAB_5CB1_5CA3),
  (0x6139, 0x5CC1_5CB7_5CC4_5CD2_5CE4_5CCB_5CE5_5D02_5D03_5D27_5D26_5D2E),
  (0x6145, 0x5D24_5D1E_5D06_5D1B_5D58_5D3E_5D34_5D3D_5D6C_5D5B_5D6F_5D5D),
  (0x6151, 0x5D6B_5D4B_5D4A_5D69_5D74_5D82_5D99_5D9D_8C73_5DB7_5DC5_5F73),
  (0x615D, 0x5F77_5F82_5F87_5F89_5F8C_5F95_5F99_5F9C_5FA8_5FAD_5FB5_5FBC),
  (0x6169, 0x8862_5F61_72AD_72B0_72B4_72B7_72B8_72C3_72C1_72CE_72CD_72D2),
  (0x6175, 0x72E8_72EF_72E9_72F2_72F4_72F7_7301_72F3_7303_72FA),
  (0x6221, 0x72FB_7317_7313_7321_730A_731E_731D_7315_7322_7339_7325_732C),
  (0x622D, 0x7338_7331_7350_734D_7357_7360_736C_736F_737E_821B_5925_98E7),
  (0x6239, 0x5924_5902_9963_9967_9968_9969_996A_996B_996C_9974_9977_997D),
  (0x6245, 0x9980_9984_9987_998A_998D_9990_9991_9993_9994_9995_5E80_5E91),
  (0x6251, 0x5E8B_5E96_5EA5_5EA0_5EB9_5EB5_5EBE_5EB3_8D53_5ED2_5ED1_5EDB),
  (0x625D, 0x5EE8_5EEA_81BA_5FC4_5FC9_5FD6_5FCF_6003_5FEE_6004_5FE1_5FE4),
  (0x6269, 0x5FFE_6005_6006_5FEA_5FED_5FF8_6019_6035_6026_601B_600F_600D),
  (0x6275, 0x6029_602B_600A_603F_6021_6078_6079_607B_607A_6042),
  (0x6321, 0x606A_607D_6096_609A_60AD_609D_6083_6092_608C_609B_60EC_60BB),
  (0x632D, 0x60B1_60DD_60D8_60C6_60DA_60B4_6120_6126_6115_6123_60F4_6100),
  (0x6339, 0x610E_612B_614A_6175_61AC_6194_61A7_61B7_61D4_61F5_5FDD_96B3),
  (0x6345, 0x95E9_95EB_95F1_95F3_95F5_95F6_95FC_95FE_9603_9604_9606_9608),
  (0x6351, 0x960A_960B_960C_960D_960F_9612_9615_9616_9617_9619_961A_4E2C),
  (0x635D, 0x723F_6215_6C35_6C54_6C5C_6C4A_6CA3_6C85_6C90_6C94_6C8C_6C68),
  (0x6369, 0x6C69_6C74_6C76_6C86_6CA9_6CD0_6CD4_6CAD_6CF7_6CF8_6CF1_6CD7),
  (0x6375, 0x6CB2_6CE0_6CD6_6CFA_6CEB_6CEE_6CB1_6CD3_6CEF_6CFE),
  (0x6421, 0x6D39_6D27_6D0C_6D43_6D48_6D07_6D04_6D19_6D0E_6D2B_6D4D_6D2E),
  (0x642D, 0x6D35_6D1A_6D4F_6D52_6D54_6D33_6D91_6D6F_6D9E_6DA0_6D5E_6D93),
  (0x6439, 0x6D94_6D5C_6D60_6D7C_6D63_6E1A_6DC7_6DC5_6DDE_6E0E_6DBF_6DE0),
  (0x6445, 0x6E11_6DE6_6DDD_6DD9_6E16_6DAB_6E0C_6DAE_6E2B_6E6E_6E4E_6E6B),
  (0x6451, 0x6EB2_6E5F_6E86_6E53_6E54_6E32_6E25_6E44_6EDF_6EB1_6E98_6EE0),
  (0x645D, 0x6F2D_6EE2_6EA5_6EA7_6EBD_6EBB_6EB7_6ED7_6EB4_6ECF_6E8F_6EC2),
  (0x6469, 0x6E9F_6F62_6F46_6F47_6F24_6F15_6EF9_6F2F_6F36_6F4B_6F74_6F2A),
  (0x6475, 0x6F09_6F29_6F89_6F8D_6F8C_6F78_6F72_6F7C_6F7A_6FD1),
  (0x6521, 0x6FC9_6FA7_6FB9_6FB6_6FC2_6FE1_6FEE_6FDE_6FE0_6FEF_701A_7023),
  (0x652D, 0x701B_7039_7035_704F_705E_5B80_5B84_5B95_5B93_5BA5_5BB8_752F),
  (0x6539, 0x9A9E_6434_5BE4_5BEE_8930_5BF0_8E47_8B07_8FB6_8FD3_8FD5_8FE5),
  (0x6545, 0x8FEE_8FE4_8FE9_8FE6_8FF3_8FE8_9005_9004_900B_9026_9011_900D),
  (0x6551, 0x9016_9021_9035_9036_902D_902F_9044_9051_9052_9050_9068_9058),
  (0x655D, 0x9062_905B_66B9_9074_907D_9082_9088_9083_908B_5F50_5F57_5F56),
  (0x6569, 0x5F58_5C3B_54AB_5C50_5C59_5B71_5C63_5C66_7FBC_5F2A_5F29_5F2D),
  (0x6575, 0x8274_5F3C_9B3B_5C6E_5981_5983_598D_59A9_59AA_59A3),
  (0x6621, 0x5997_59CA_59AB_599E_59A4_59D2_59B2_59AF_59D7_59BE_5A05_5A06),
  (0x662D, 0x59DD_5A08_59E3_59D8_59F9_5A0C_5A09_5A32_5A34_5A11_5A23_5A13),
  (0x6639, 0x5A40_5A67_5A4A_5A55_5A3C_5A62_5A75_80EC_5AAA_5A9B_5A77_5A7A),
  (0x6645, 0x5ABE_5AEB_5AB2_5AD2_5AD4_5AB8_5AE0_5AE3_5AF1_5AD6_5AE6_5AD8),
  (0x6651, 0x5ADC_5B09_5B17_5B16_5B32_5B37_5B40_5C15_5C1C_5B5A_5B65_5B73),
  (0x665D, 0x5B51_5B53_5B62_9A75_9A77_9A78_9A7A_9A7F_9A7D_9A80_9A81_9A85),
  (0x6669, 0x9A88_9A8A_9A90_9A92_9A93_9A96_9A98_9A9B_9A9C_9A9D_9A9F_9AA0),
  (0x6675, 0x9AA2_9AA3_9AA5_9AA7_7E9F_7EA1_7EA3_7EA5_7EA8_7EA9),
  (0x6721, 0x7EAD_7EB0_7EBE_7EC0_7EC1_7EC2_7EC9_7ECB_7ECC_7ED0_7ED4_7ED7),
  (0x672D, 0x7EDB_7EE0_7EE1_7EE8_7EEB_7EEE_7EEF_7EF1_7EF2_7F0D_7EF6_7EFA),
  (0x6739, 0x7EFB_7EFE_7F01_7F02_7F03_7F07_7F08_7F0B_7F0C_7F0F_7F11_7F12),
  (0x6745, 0x7F17_7F19_7F1C_7F1B_7F1F_7F21_7F22_7F23_7F24_7F25_7F26_7F27),
  (0x6751, 0x7F2A_7F2B_7F2C_7F2D_7F2F_7F30_7F31_7F32_7F33_7F35_5E7A_757F),
  (0x675D, 0x5DDB_753E_9095_738E_7391_73AE_73A2_739F_73CF_73C2_73D1_73B7),
  (0x6769, 0x73B3_73C0_73C9_73C8_73E5_73D9_987C_740A_73E9_73E7_73DE_73BA),
  (0x6775, 0x73F2_740F_742A_745B_7426_7425_7428_7430_742E_742C),
  (0x6821, 0x741B_741A_7441_745C_7457_7455_7459_7477_746D_747E_749C_748E),
  (0x682D, 0x7480_7481_7487_748B_749E_74A8_74A9_7490_74A7_74D2_74BA_97EA),
  (0x6839, 0x97EB_97EC_674C_6753_675E_6748_6769_67A5_6787_676A_6773_6798),
  (0x6845, 0x67A7_6775_67A8_679E_67AD_678B_6777_677C_67F0_6809_67D8_680A),
  (0x6851, 0x67E9_67B0_680C_67D9_67B5_67DA_67B3_67DD_6800_67C3_67B8_67E2),
  (0x685D, 0x680E_67C1_67FD_6832_6833_6860_6861_684E_6862_6844_6864_6883),
  (0x6869, 0x681D_6855_6866_6841_6867_6840_683E_684A_6849_6829_68B5_688F),
  (0x6875, 0x6874_6877_6893_686B_68C2_696E_68FC_691F_6920_68F9),
  (0x6921, 0x6924_68F0_690B_6901_6957_68E3_6910_6971_6939_6960_6942_695D),
  (0x692D, 0x6984_696B_6980_6998_6978_6934_69CC_6987_6988_69CE_6989_6966),
  (0x6939, 0x6963_6979_699B_69A7_69BB_69AB_69AD_69D4_69B1_69C1_69CA_69DF),
  (0x6945, 0x6995_69E0_698D_69FF_6A2F_69ED_6A17_6A18_6A65_69F2_6A44_6A3E),
  (0x6951, 0x6AA0_6A50_6A5B_6A35_6A8E_6A79_6A3D_6A28_6A58_6A7C_6A91_6A90),
  (0x695D, 0x6AA9_6A97_6AAB_7337_7352_6B81_6B82_6B87_6B84_6B92_6B93_6B8D),
  (0x6969, 0x6B9A_6B9B_6BA1_6BAA_8F6B_8F6D_8F71_8F72_8F73_8F75_8F76_8F78),
  (0x6975, 0x8F77_8F79_8F7A_8F7C_8F7E_8F81_8F82_8F84_8F87_8F8B),
  (0x6A21, 0x8F8D_8F8E_8F8F_8F98_8F9A_8ECE_620B_6217_621B_621F_6222_6221),
  (0x6A2D, 0x6225_6224_622C_81E7_74EF_74F4_74FF_750F_7511_7513_6534_65EE),
  (0x6A39, 0x65EF_65F0_660A_6619_6772_6603_6615_6600_7085_66F7_661D_6634),
  (0x6A45, 0x6631_6636_6635_8006_665F_6654_6641_664F_6656_6661_6657_6677),
  (0x6A51, 0x6684_668C_66A7_669D_66BE_66DB_66DC_66E6_66E9_8D32_8D33_8D36),
  (0x6A5D, 0x8D3B_8D3D_8D40_8D45_8D46_8D48_8D49_8D47_8D4D_8D55_8D59_89C7),
  (0x6A69, 0x89CA_89CB_89CC_89CE_89CF_89D0_89D1_726E_729F_725D_7266_726F),
  (0x6A75, 0x727E_727F_7284_728B_728D_728F_7292_6308_6332_63B0),
  (0x6B21, 0x643F_64D8_8004_6BEA_6BF3_6BFD_6BF5_6BF9_6C05_6C07_6C06_6C0D),
  (0x6B2D, 0x6C15_6C18_6C19_6C1A_6C21_6C29_6C24_6C2A_6C32_6535_6555_656B),
  (0x6B39, 0x724D_7252_7256_7230_8662_5216_809F_809C_8093_80BC_670A_80BD),
  (0x6B45, 0x80B1_80AB_80AD_80B4_80B7_80E7_80E8_80E9_80EA_80DB_80C2_80C4),
  (0x6B51, 0x80D9_80CD_80D7_6710_80DD_80EB_80F1_80F4_80ED_810D_810E_80F2),
  (0x6B5D, 0x80FC_6715_8112_8C5A_8136_811E_812C_8118_8132_8148_814C_8153),
  (0x6B69, 0x8174_8159_815A_8171_8160_8169_817C_817D_816D_8167_584D_5AB5),
  (0x6B75, 0x8188_8182_8191_6ED5_81A3_81AA_81CC_6726_81CA_81BB),
  (0x6C21, 0x81C1_81A6_6B24_6B37_6B39_6B43_6B46_6B59_98D1_98D2_98D3_98D5),
  (0x6C2D, 0x98D9_98DA_6BB3_5F40_6BC2_89F3_6590_9F51_6593_65BC_65C6_65C4),
  (0x6C39, 0x65C3_65CC_65CE_65D2_65D6_7080_709C_7096_709D_70BB_70C0_70B7),
  (0x6C45, 0x70AB_70B1_70E8_70CA_7110_7113_7116_712F_7131_7173_715C_7168),
  (0x6C51, 0x7145_7172_714A_7178_717A_7198_71B3_71B5_71A8_71A0_71E0_71D4),
  (0x6C5D, 0x71E7_71F9_721D_7228_706C_7118_7166_71B9_623E_623D_6243_6248),
  (0x6C69, 0x6249_793B_7940_7946_7949_795B_795C_7953_795A_7962_7957_7960),
  (0x6C75, 0x796F_7967_797A_7985_798A_799A_79A7_79B3_5FD1_5FD0),
  (0x6D21, 0x603C_605D_605A_6067_6041_6059_6063_60AB_6106_610D_615D_61A9),
  (0x6D2D, 0x619D_61CB_61D1_6206_8080_807F_6C93_6CF6_6DFC_77F6_77F8_7800),
  (0x6D39, 0x7809_7817_7818_7811_65AB_782D_781C_781D_7839_783A_783B_781F),
  (0x6D45, 0x783C_7825_782C_7823_7829_784E_786D_7856_7857_7826_7850_7847),
  (0x6D51, 0x784C_786A_789B_7893_789A_7887_789C_78A1_78A3_78B2_78B9_78A5),
  (0x6D5D, 0x78D4_78D9_78C9_78EC_78F2_7905_78F4_7913_7924_791E_7934_9F9B),
  (0x6D69, 0x9EF9_9EFB_9EFC_76F1_7704_770D_76F9_7707_7708_771A_7722_7719),
  (0x6D75, 0x772D_7726_7735_7738_7750_7751_7747_7743_775A_7768),
  (0x6E21, 0x7762_7765_777F_778D_777D_7780_778C_7791_779F_77A0_77B0_77B5),
  (0x6E2D, 0x77BD_753A_7540_754E_754B_7548_755B_7572_7579_7583_7F58_7F61),
  (0x6E39, 0x7F5F_8A48_7F68_7F74_7F71_7F79_7F81_7F7E_76CD_76E5_8832_9485),
  (0x6E45, 0x9486_9487_948B_948A_948C_948D_948F_9490_9494_9497_9495_949A),
  (0x6E51, 0x949B_949C_94A3_94A4_94AB_94AA_94AD_94AC_94AF_94B0_94B2_94B4),
  (0x6E5D, 0x94B6_94B7_94B8_94B9_94BA_94BC_94BD_94BF_94C4_94C8_94C9_94CA),
  (0x6E69, 0x94CB_94CC_94CD_94CE_94D0_94D1_94D2_94D5_94D6_94D7_94D9_94D8),
  (0x6E75, 0x94DB_94DE_94DF_94E0_94E2_94E4_94E5_94E7_94E8_94EA),
  (0x6F21, 0x94E9_94EB_94EE_94EF_94F3_94F4_94F5_94F7_94F9_94FC_94FD_94FF),
  (0x6F2D, 0x9503_9502_9506_9507_9509_950A_950D_950E_950F_9512_9513_9514),
  (0x6F39, 0x9515_9516_9518_951B_951D_951E_951F_9522_952A_952B_9529_952C),
  (0x6F45, 0x9531_9532_9534_9536_9537_9538_953C_953E_953F_9542_9535_9544),
  (0x6F51, 0x9545_9546_9549_954C_954E_954F_9552_9553_9554_9556_9557_9558),
  (0x6F5D, 0x9559_955B_955E_955F_955D_9561_9562_9564_9565_9566_9567_9568),
  (0x6F69, 0x9569_956A_956B_956C_956F_9571_9572_9573_953A_77E7_77EC_96C9),
  (0x6F75, 0x79D5_79ED_79E3_79EB_7A06_5D47_7A03_7A02_7A1E_7A14),
  (0x7021, 0x7A39_7A37_7A51_9ECF_99A5_7A70_7688_768E_7693_7699_76A4_74DE),
  (0x702D, 0x74E0_752C_9E20_9E22_9E28_9E29_9E2A_9E2B_9E2C_9E32_9E31_9E36),
  (0x7039, 0x9E38_9E37_9E39_9E3A_9E3E_9E41_9E42_9E44_9E46_9E47_9E48_9E49),
  (0x7045, 0x9E4B_9E4C_9E4E_9E51_9E55_9E57_9E5A_9E5B_9E5C_9E5E_9E63_9E66),
  (0x7051, 0x9E67_9E68_9E69_9E6A_9E6B_9E6C_9E71_9E6D_9E73_7592_7594_7596),
  (0x705D, 0x75A0_759D_75AC_75A3_75B3_75B4_75B8_75C4_75B1_75B0_75C3_75C2),
  (0x7069, 0x75D6_75CD_75E3_75E8_75E6_75E4_75EB_75E7_7603_75F1_75FC_75FF),
  (0x7075, 0x7610_7600_7605_760C_7617_760A_7625_7618_7615_7619),
  (0x7121, 0x761B_763C_7622_7620_7640_762D_7630_763F_7635_7643_763E_7633),
  (0x712D, 0x764D_765E_7654_765C_7656_766B_766F_7FCA_7AE6_7A78_7A79_7A80),
  (0x7139, 0x7A86_7A88_7A95_7AA6_7AA0_7AAC_7AA8_7AAD_7AB3_8864_8869_8872),
  (0x7145, 0x887D_887F_8882_88A2_88C6_88B7_88BC_88C9_88E2_88CE_88E3_88E5),
  (0x7151, 0x88F1_891A_88FC_88E8_88FE_88F0_8921_8919_8913_891B_890A_8934),
  (0x715D, 0x892B_8936_8941_8966_897B_758B_80E5_76B2_76B4_77DC_8012_8014),
  (0x7169, 0x8016_801C_8020_8022_8025_8026_8027_8029_8028_8031_800B_8035),
  (0x7175, 0x8043_8046_804D_8052_8069_8071_8983_9878_9880_9883),
  (0x7221, 0x9889_988C_988D_988F_9894_989A_989B_989E_989F_98A1_98A2_98A5),
  (0x722D, 0x98A6_864D_8654_866C_866E_867F_867A_867C_867B_86A8_868D_868B),
  (0x7239, 0x86AC_869D_86A7_86A3_86AA_8693_86A9_86B6_86C4_86B5_86CE_86B0),
  (0x7245, 0x86BA_86B1_86AF_86C9_86CF_86B4_86E9_86F1_86F2_86ED_86F3_86D0),
  (0x7251, 0x8713_86DE_86F4_86DF_86D8_86D1_8703_8707_86F8_8708_870A_870D),
  (0x725D, 0x8709_8723_873B_871E_8725_872E_871A_873E_8748_8734_8731_8729),
  (0x7269, 0x8737_873F_8782_8722_877D_877E_877B_8760_8770_874C_876E_878B),
  (0x7275, 0x8753_8763_877C_8764_8759_8765_8793_87AF_87A8_87D2),
  (0x7321, 0x87C6_8788_8785_87AD_8797_8783_87AB_87E5_87AC_87B5_87B3_87CB),
  (0x732D, 0x87D3_87BD_87D1_87C0_87CA_87DB_87EA_87E0_87EE_8816_8813_87FE),
  (0x7339, 0x880A_881B_8821_8839_883C_7F36_7F42_7F44_7F45_8210_7AFA_7AFD),
  (0x7345, 0x7B08_7B03_7B04_7B15_7B0A_7B2B_7B0F_7B47_7B38_7B2A_7B19_7B2E),
  (0x7351, 0x7B31_7B20_7B25_7B24_7B33_7B3E_7B1E_7B58_7B5A_7B45_7B75_7B4C),
  (0x735D, 0x7B5D_7B60_7B6E_7B7B_7B62_7B72_7B71_7B90_7BA6_7BA7_7BB8_7BAC),
  (0x7369, 0x7B9D_7BA8_7B85_7BAA_7B9C_7BA2_7BAB_7BB4_7BD1_7BC1_7BCC_7BDD),
  (0x7375, 0x7BDA_7BE5_7BE6_7BEA_7C0C_7BFE_7BFC_7C0F_7C16_7C0B),
  (0x7421, 0x7C1F_7C2A_7C26_7C38_7C41_7C40_81FE_8201_8202_8204_81EC_8844),
  (0x742D, 0x8221_8222_8223_822D_822F_8228_822B_8238_823B_8233_8234_823E),
  (0x7439, 0x8244_8249_824B_824F_825A_825F_8268_887E_8885_8888_88D8_88DF),
  (0x7445, 0x895E_7F9D_7F9F_7FA7_7FAF_7FB0_7FB2_7C7C_6549_7C91_7C9D_7C9C),
  (0x7451, 0x7C9E_7CA2_7CB2_7CBC_7CBD_7CC1_7CC7_7CCC_7CCD_7CC8_7CC5_7CD7),
  (0x745D, 0x7CE8_826E_66A8_7FBF_7FCE_7FD5_7FE5_7FE1_7FE6_7FE9_7FEE_7FF3),
  (0x7469, 0x7CF8_7D77_7DA6_7DAE_7E47_7E9B_9EB8_9EB4_8D73_8D84_8D94_8D91),
  (0x7475, 0x8DB1_8D67_8D6D_8C47_8C49_914A_9150_914E_914F_9164),
  (0x7521, 0x9162_9161_9170_9169_916F_917D_917E_9172_9174_9179_918C_9185),
  (0x752D, 0x9190_918D_9191_91A2_91A3_91AA_91AD_91AE_91AF_91B5_91B4_91BA),
  (0x7539, 0x8C55_9E7E_8DB8_8DEB_8E05_8E59_8E69_8DB5_8DBF_8DBC_8DBA_8DC4),
  (0x7545, 0x8DD6_8DD7_8DDA_8DDE_8DCE_8DCF_8DDB_8DC6_8DEC_8DF7_8DF8_8DE3),
  (0x7551, 0x8DF9_8DFB_8DE4_8E09_8DFD_8E14_8E1D_8E1F_8E2C_8E2E_8E23_8E2F),
  (0x755D, 0x8E3A_8E40_8E39_8E35_8E3D_8E31_8E49_8E41_8E42_8E51_8E52_8E4A),
  (0x7569, 0x8E70_8E76_8E7C_8E6F_8E74_8E85_8E8F_8E94_8E90_8E9C_8E9E_8C78),
  (0x7575, 0x8C82_8C8A_8C85_8C98_8C94_659B_89D6_89DE_89DA_89DC),
  (0x7621, 0x89E5_89EB_89EF_8A3E_8B26_9753_96E9_96F3_96EF_9706_9701_9708),
  (0x762D, 0x970F_970E_972A_972D_9730_973E_9F80_9F83_9F85_9F86_9F87_9F88),
  (0x7639, 0x9F89_9F8A_9F8C_9EFE_9F0B_9F0D_96B9_96BC_96BD_96CE_96D2_77BF),
  (0x7645, 0x96E0_928E_92AE_92C8_933E_936A_93CA_938F_943E_946B_9C7F_9C82),
  (0x7651, 0x9C85_9C86_9C87_9C88_7A23_9C8B_9C8E_9C90_9C91_9C92_9C94_9C95),
  (0x765D, 0x9C9A_9C9B_9C9E_9C9F_9CA0_9CA1_9CA2_9CA3_9CA5_9CA6_9CA7_9CA8),
  (0x7669, 0x9CA9_9CAB_9CAD_9CAE_9CB0_9CB1_9CB2_9CB3_9CB4_9CB5_9CB6_9CB7),
  (0x7675, 0x9CBA_9CBB_9CBC_9CBD_9CC4_9CC5_9CC6_9CC7_9CCA_9CCB),
  (0x7721, 0x9CCC_9CCD_9CCE_9CCF_9CD0_9CD3_9CD4_9CD5_9CD7_9CD8_9CD9_9CDC),
  (0x772D, 0x9CDD_9CDF_9CE2_977C_9785_9791_9792_9794_97AF_97AB_97A3_97B2),
  (0x7739, 0x97B4_9AB1_9AB0_9AB7_9E58_9AB6_9ABA_9ABC_9AC1_9AC0_9AC5_9AC2),
  (0x7745, 0x9ACB_9ACC_9AD1_9B45_9B43_9B47_9B49_9B48_9B4D_9B51_98E8_990D),
  (0x7751, 0x992E_9955_9954_9ADF_9AE1_9AE6_9AEF_9AEB_9AFB_9AED_9AF9_9B08),
  (0x775D, 0x9B0F_9B13_9B1F_9B23_9EBD_9EBE_7E3B_9E82_9E87_9E88_9E8B_9E92),
  (0x7769, 0x93D6_9E9D_9E9F_9EDB_9EDC_9EDD_9EE0_9EDF_9EE2_9EE9_9EE7_9EE5),
  (0x7775, 0x9EEA_9EEF_9F22_9F2C_9F2F_9F39_9F37_9F3D_9F3E_9F44)]

/-- The rules of /repo/modules/to/_GB2312.txt: character, code.  No two lines have the same character; sorted.  Lines `0100..`, if any, are
listed separately. -/
def gb2312Writes : Chart := Chart.wide [
  (0x101, 0x2821),
  (0x113, 0x2825),
  (0x11B, 0x2827),
  (0x12B, 0x2829),
  (0x14D, 0x282D),
  (0x16B, 0x2831),
  (0x1CE, 0x2823),
  (0x1D0, 0x282B),
  (0x1D2, 0x282F),
  (0x1D4, 0x2833),
  (0x1D6, 0x2835),
  (0x1D8, 0x2836),
  (0x1DA, 0x2837),
  (0x1DC, 0x2838),
  (0x2C7, 0x2126),
  (0x2C9, 0x2125),
  (0x391, 0x2621_2622_2623_2624_2625_2626_2627_2628_2629_262A_262B_262C),
  (0x39D, 0x262D_262E_262F_2630_2631),
  (0x3A3, 0x2632_2633_2634_2635_2636_2637_2638),
  (0x3B1, 0x2641_2642_2643_2644_2645_2646_2647_2648_2649_264A_264B_264C),
  (0x3BD, 0x264D_264E_264F_2650_2651),
  (0x3C3, 0x2652_2653_2654_2655_2656_2657_2658),
  (0x401, 0x2727),
  (0x410, 0x2721_2722_2723_2724_2725_2726_2728_2729_272A_272B_272C_272D),
  (0x41C, 0x272E_272F_2730_2731_2732_2733_2734_2735_2736_2737_2738_2739),
  (0x428, 0x273A_273B_273C_273D_273E_273F_2740_2741_2751_2752_2753_2754),
  (0x434, 0x2755_2756_2758_2759_275A_275B_275C_275D_275E_275F_2760_2761),
  (0x440, 0x2762_2763_2764_2765_2766_2767_2768_2769_276A_276B_276C_276D),
  (0x44C, 0x276E_276F_2770_2771),
  (0x451, 0x2757),
  (0x2015, 0x212A_212C),
  (0x2018, 0x212E_212F),
  (0x201C, 0x2130_2131),
  (0x2026, 0x212D),
  (0x2030, 0x216B),
  (0x2032, 0x2164_2165),
  (0x203B, 0x2179),
  (0x2103, 0x2166),
  (0x2116, 0x216D),
  (0x2160, 0x2271_2272_2273_2274_2275_2276_2277_2278_2279_227A_227B_227C),
  (0x2190, 0x217B_217C_217A_217D),
  (0x2208, 0x214A),
  (0x220F, 0x2147),
  (0x2211, 0x2146),
  (0x221A, 0x214C),
  (0x221D, 0x2158_215E),
  (0x2220, 0x214F),
  (0x2225, 0x214E),
  (0x2227, 0x2144_2145_2149_2148_2152),
  (0x222E, 0x2153),
  (0x2234, 0x2160_215F_2143_214B),
  (0x223D, 0x2157),
  (0x2248, 0x2156),
  (0x224C, 0x2155),
  (0x2260, 0x2159_2154),
  (0x2264, 0x215C_215D),
  (0x226E, 0x215A_215B),
  (0x2299, 0x2151),
  (0x22A5, 0x214D),
  (0x2312, 0x2150),
  (0x2460, 0x2259_225A_225B_225C_225D_225E_225F_2260_2261_2262),
  (0x2474, 0x2245_2246_2247_2248_2249_224A_224B_224C_224D_224E_224F_2250),
  (0x2480, 0x2251_2252_2253_2254_2255_2256_2257_2258_2231_2232_2233_2234),
  (0x248C, 0x2235_2236_2237_2238_2239_223A_223B_223C_223D_223E_223F_2240),
  (0x2498, 0x2241_2242_2243_2244),
  (0x2500, 0x2924_2925_2926_2927_2928_2929_292A_292B_292C_292D_292E_292F),
  (0x250C, 0x2930_2931_2932_2933_2934_2935_2936_2937_2938_2939_293A_293B),
  (0x2518, 0x293C_293D_293E_293F_2940_2941_2942_2943_2944_2945_2946_2947),
  (0x2524, 0x2948_2949_294A_294B_294C_294D_294E_294F_2950_2951_2952_2953),
  (0x2530, 0x2954_2955_2956_2957_2958_2959_295A_295B_295C_295D_295E_295F),
  (0x253C, 0x2960_2961_2962_2963_2964_2965_2966_2967_2968_2969_296A_296B),
  (0x2548, 0x296C_296D_296E_296F),
  (0x25A0, 0x2176_2175),
  (0x25B2, 0x2178_2177),
  (0x25C6, 0x2174_2173),
  (0x25CB, 0x2170),
  (0x25CE, 0x2172_2171),
  (0x2605, 0x216F_216E),
  (0x2640, 0x2162),
  (0x2642, 0x2161),
  (0x3000, 0x2121_2122_2123_2128),
  (0x3005, 0x2129),
  (0x3008, 0x2134_2135_2136_2137_2138_2139_213A_213B_213E_213F),
  (0x3013, 0x217E_2132_2133_213C_213D),
  (0x3041, 0x2421_2422_2423_2424_2425_2426_2427_2428_2429_242A_242B_242C),
  (0x304D, 0x242D_242E_242F_2430_2431_2432_2433_2434_2435_2436_2437_2438),
  (0x3059, 0x2439_243A_243B_243C_243D_243E_243F_2440_2441_2442_2443_2444),
  (0x3065, 0x2445_2446_2447_2448_2449_244A_244B_244C_244D_244E_244F_2450),
  (0x3071, 0x2451_2452_2453_2454_2455_2456_2457_2458_2459_245A_245B_245C),
  (0x307D, 0x245D_245E_245F_2460_2461_2462_2463_2464_2465_2466_2467_2468),
  (0x3089, 0x2469_246A_246B_246C_246D_246E_246F_2470_2471_2472_2473),
  (0x30A1, 0x2521_2522_2523_2524_2525_2526_2527_2528_2529_252A_252B_252C),
  (0x30AD, 0x252D_252E_252F_2530_2531_2532_2533_2534_2535_2536_2537_2538),
  (0x30B9, 0x2539_253A_253B_253C_253D_253E_253F_2540_2541_2542_2543_2544),
  (0x30C5, 0x2545_2546_2547_2548_2549_254A_254B_254C_254D_254E_254F_2550),
  (0x30D1, 0x2551_2552_2553_2554_2555_2556_2557_2558_2559_255A_255B_255C),
  (0x30DD, 0x255D_255E_255F_2560_2561_2562_2563_2564_2565_2566_2567_2568),
  (0x30E9, 0x2569_256A_256B_256C_256D_256E_256F_2570_2571_2572_2573_2574),
  (0x30F5, 0x2575_2576),
  (0x30FB, 0x2124),
  (0x3105, 0x2845_2846_2847_2848_2849_284A_284B_284C_284D_284E_284F_2850),
  (0x3111, 0x2851_2852_2853_2854_2855_2856_2857_2858_2859_285A_285B_285C),
  (0x311D, 0x285D_285E_285F_2860_2861_2862_2863_2864_2865_2866_2867_2868),
  (0x3129, 0x2869),
  (0x3220, 0x2265_2266_2267_2268_2269_226A_226B_226C_226D_226E),
  (0x4E00, 0x523B_3621),
  (0x4E03, 0x465F),
  (0x4E07, 0x4D72_5549_487D_494F_4F42_5822_323B_536B),
  (0x4E10, 0x5824_3373),
  (0x4E13, 0x5728_4752_5827_4A40),
  (0x4E18, 0x4770_317B_5235_3454_362B_4B3F_5829),
  (0x4E22, 0x362A),
  (0x4E24, 0x413D_514F),
  (0x4E27, 0x4925_582D),
  (0x4E2A, 0x3876_513E_635C_5650),
  (0x4E30, 0x3761),
  (0x4E32, 0x342E),
  (0x4E34, 0x4159),
  (0x4E36, 0x583C),
  (0x4E38, 0x4D68_3524_4E2A_5677),
  (0x4E3D, 0x4076_3E59_582F),
  (0x4E43, 0x444B),
  (0x4E45, 0x3E43),
  (0x4E47, 0x5831_4334_5265),
  (0x4E4B, 0x562E_4E5A_5527_3A75_3726_4056),
  (0x4E52, 0x4639_4552_4747),
  (0x4E56, 0x3954),
  (0x4E58, 0x334B_5252),
  (0x4E5C, 0x583F_3E45_4672_5232_4F30_4F67),
  (0x4E66, 0x4A69),
  (0x4E69, 0x5840),
  (0x4E70, 0x4272_4252),
  (0x4E73, 0x4869),
  (0x4E7E, 0x472C),
  (0x4E86, 0x414B),
  (0x4E88, 0x5368_5579),
  (0x4E8B, 0x4A42_367E_5821_535A_3F77),
  (0x4E91, 0x5446_3B25_5841_4E65_3E2E),
  (0x4E98, 0x5828),
  (0x4E9A, 0x5147_5029),
  (0x4E9F, 0x583D_596F_4D76_3F3A),
  (0x4EA4, 0x3D3B_3A25_5260_327A_3A60_4436),
  (0x4EAB, 0x4F6D_3E29_4D24_4141),
  (0x4EB2, 0x4757_5971),
  (0x4EB5, 0x5974),
  (0x4EBA, 0x484B_5869),
  (0x4EBF, 0x525A_4A32_484A_586C_586A_5846_3D76_464D_3370),
  (0x4EC9, 0x586B_3D71_3D69),
  (0x4ECD, 0x4854_3453),
  (0x4ED1, 0x4258),
  (0x4ED3, 0x3256_5750_4A4B_4B7B_554C_3836_4F49),
  (0x4EDD, 0x595A_5870_472A),
  (0x4EE1, 0x586E),
  (0x4EE3, 0x347A_416E_5254),
  (0x4EE8, 0x586D),
  (0x4EEA, 0x5247_586F_4347),
  (0x4EF0, 0x5176),
  (0x4EF2, 0x5659_5872),
  (0x4EF5, 0x5875_3C7E_3C5B),
  (0x4EFB, 0x484E),
  (0x4EFD, 0x375D),
  (0x4EFF, 0x3742),
  (0x4F01, 0x4673),
  (0x4F09, 0x5878_5241),
  (0x4F0D, 0x4E69_3C3F_377C_3725_505D),
  (0x4F17, 0x565A_5345_3B6F_3B61_5871),
  (0x4F1E, 0x4921_4E30_342B),
  (0x4F22, 0x5873),
  (0x4F24, 0x494B_5876_4257_5877),
  (0x4F2A, 0x4E31_5879),
  (0x4F2F, 0x322E_3940),
  (0x4F32, 0x5923),
  (0x4F34, 0x3069),
  (0x4F36, 0x4166),
  (0x4F38, 0x496C),
  (0x4F3A, 0x4B45),
  (0x4F3C, 0x4B46_5924),
  (0x4F43, 0x3568),
  (0x4F46, 0x352B),
  (0x4F4D, 0x4E3B_354D_5721_5774_5353),
  (0x4F53, 0x4C65),
  (0x4F55, 0x3A4E),
  (0x4F57, 0x5922_595C_5360_587D_3770_5777_587E_587A_5921_4463),
  (0x4F63, 0x5336_5874_595D),
  (0x4F67, 0x587B),
  (0x4F69, 0x4565),
  (0x4F6C, 0x4050),
  (0x4F6F, 0x5170_305B),
  (0x4F73, 0x3C51_5926),
  (0x4F76, 0x5925),
  (0x4F7B, 0x592C_592E),
  (0x4F7E, 0x592B_4A39),
  (0x4F83, 0x5929_5636),
  (0x4F88, 0x335E_5928),
  (0x4F8B, 0x407D),
  (0x4F8D, 0x4A4C),
  (0x4F8F, 0x592A),
  (0x4F91, 0x5927),
  (0x4F94, 0x5930),
  (0x4F97, 0x3631),
  (0x4F9B, 0x3929),
  (0x4F9D, 0x5240),
  (0x4FA0, 0x4F40),
  (0x4FA3, 0x4242),
  (0x4FA5, 0x3D44_556C_3260_4748_3F6B_592D),
  (0x4FAC, 0x592F),
  (0x4FAE, 0x4E6A_3A6E),
  (0x4FB5, 0x4756),
  (0x4FBF, 0x3163),
  (0x4FC3, 0x3459_366D_5934),
  (0x4FCA, 0x3F21),
  (0x4FCE, 0x595E_474E_407E_5938),
  (0x4FD7, 0x4B57_377D),
  (0x4FDA, 0x5935),
  (0x4FDC, 0x5937_3123_5361_5939),
  (0x4FE1, 0x5045),
  (0x4FE3, 0x5936),
  (0x4FE6, 0x5931),
  (0x4FE8, 0x5932_4129_5933),
  (0x4FED, 0x3C73_505E_3829),
  (0x4FF1, 0x3E63),
  (0x4FF3, 0x593D),
  (0x4FF8, 0x593A),
  (0x4FFA, 0x3033),
  (0x4FFE, 0x5942),
  (0x500C, 0x5944_3136),
  (0x500F, 0x593F),
  (0x5012, 0x3539),
  (0x5014, 0x3E73),
  (0x5018, 0x4C48_3A72_5250),
  (0x501C, 0x5943),
  (0x501F, 0x3D68),
  (0x5021, 0x332B),
  (0x5025, 0x5945_3E6B),
  (0x5028, 0x5946_593B_445F),
  (0x502C, 0x593E_5941_5940),
  (0x503A, 0x552E),
  (0x503C, 0x5635),
  (0x503E, 0x4763),
  (0x5043, 0x5948),
  (0x5047, 0x3C59_594A),
  (0x504C, 0x593C),
  (0x504E, 0x594B_462B),
  (0x5055, 0x5949),
  (0x505A, 0x5776),
  (0x505C, 0x4D23),
  (0x5065, 0x3D21),
  (0x506C, 0x594C),
  (0x5076, 0x453C_4D35),
  (0x507B, 0x594D),
  (0x507E, 0x5947_3325_3F7E),
  (0x5085, 0x3835),
  (0x5088, 0x407C),
  (0x508D, 0x3078),
  (0x50A3, 0x3476),
  (0x50A5, 0x594E),
  (0x50A7, 0x594F_3422_5950),
  (0x50AC, 0x345F),
  (0x50B2, 0x3041),
  (0x50BA, 0x5951_4935),
  (0x50CF, 0x4F71),
  (0x50D6, 0x5952),
  (0x50DA, 0x4145),
  (0x50E6, 0x5956_492E),
  (0x50EC, 0x5955_5954_5957),
  (0x50F3, 0x4B5B),
  (0x50F5, 0x3D29),
  (0x50FB, 0x4627),
  (0x5106, 0x5953_5958),
  (0x510B, 0x5959),
  (0x5112, 0x4865),
  (0x5121, 0x405C),
  (0x513F, 0x3679_5823_544A),
  (0x5143, 0x542A_5056_3364_5557),
  (0x5148, 0x4F48_3962),
  (0x514B, 0x3F4B),
  (0x514D, 0x4362),
  (0x5151, 0x3652),
  (0x5154, 0x4D43_596E_5970),
  (0x515A, 0x3533),
  (0x515C, 0x3635),
  (0x5162, 0x3E24),
  (0x5165, 0x486B),
  (0x5168, 0x482B),
  (0x516B, 0x304B_392B_4179_5962),
  (0x5170, 0x403C_3932),
  (0x5173, 0x3958_504B_3178_4664_3E5F_3564_5748),
  (0x517B, 0x5178_3C66_4A5E),
  (0x5180, 0x3C3D_5966_5867),
  (0x5185, 0x445A),
  (0x5188, 0x3854_483D),
  (0x518C, 0x3261_5459),
  (0x5192, 0x4330),
  (0x5195, 0x4361_5A22_485F),
  (0x5199, 0x5034),
  (0x519B, 0x3E7C_4529),
  (0x51A0, 0x395A),
  (0x51A2, 0x5A23),
  (0x51A4, 0x5429_5A24),
  (0x51AB, 0x597B_362C),
  (0x51AF, 0x376B_3179_597C_3365_3E76),
  (0x51B5, 0x3F76_5231_4064),
  (0x51BB, 0x3633_597E_597D),
  (0x51C0, 0x3E3B),
  (0x51C4, 0x4660),
  (0x51C6, 0x573C_5A21),
  (0x51C9, 0x4139),
  (0x51CB, 0x3572_4168),
  (0x51CF, 0x3C75),
  (0x51D1, 0x3455),
  (0x51DB, 0x415D),
  (0x51DD, 0x447D),
  (0x51E0, 0x3C38_3732),
  (0x51E4, 0x376F),
  (0x51EB, 0x596C),
  (0x51ED, 0x463E),
  (0x51EF, 0x3F2D_3B4B),
  (0x51F3, 0x354A),
  (0x51F5, 0x5B49_5057),
  (0x51F8, 0x4D39_303C_3376_3B77_5B4A_3A2F),
  (0x51FF, 0x5464_3536_3573_5856_4850),
  (0x5206, 0x3756_4750_5857),
  (0x520A, 0x3F2F),
  (0x520D, 0x5B3B_5858),
  (0x5211, 0x504C_3B2E),
  (0x5216, 0x6B3E_4150_4175_5472_3855_3434),
  (0x521D, 0x3375),
  (0x5220, 0x493E),
  (0x5224, 0x4550),
  (0x5228, 0x4559_407B),
  (0x522B, 0x3170),
  (0x522D, 0x5859_394E),
  (0x5230, 0x353D),
  (0x5233, 0x585A),
  (0x5236, 0x5646_4B22_482F_4932_344C_3F4C),
  (0x523D, 0x3974),
  (0x523F, 0x585B_585C_3667_3C41_4C6A),
  (0x524A, 0x4F77),
  (0x524C, 0x585D_4730),
  (0x5250, 0x3950_3D23),
  (0x5254, 0x4C5E),
  (0x5256, 0x464A),
  (0x525C, 0x5860),
  (0x525E, 0x585E),
  (0x5261, 0x585F),
  (0x5265, 0x307E),
  (0x5267, 0x3E67),
  (0x5269, 0x4A23_3C74),
  (0x526F, 0x3831),
  (0x5272, 0x386E),
  (0x527D, 0x5862),
  (0x527F, 0x3D4B),
  (0x5281, 0x5864_5863),
  (0x5288, 0x457C),
  (0x5290, 0x5865),
  (0x5293, 0x5866),
  (0x529B, 0x4126),
  (0x529D, 0x4830_306C_3926_3C53_4E71_5B3D_4153),
  (0x52A8, 0x362F_567A_452C_3D59_5B3E_5B3F),
  (0x52B1, 0x4078_3E22_404D),
  (0x52BE, 0x5B40_4A46),
  (0x52C3, 0x322A),
  (0x52C7, 0x5342),
  (0x52C9, 0x4363),
  (0x52CB, 0x512B),
  (0x52D0, 0x5B42),
  (0x52D2, 0x4055),
  (0x52D6, 0x5B43),
  (0x52D8, 0x3F31),
  (0x52DF, 0x443C),
  (0x52E4, 0x475A),
  (0x52F0, 0x5B44),
  (0x52F9, 0x5968_4957),
  (0x52FE, 0x3934_4E70_5448),
  (0x5305, 0x307C_3452),
  (0x5308, 0x5059),
  (0x530D, 0x5969),
  (0x530F, 0x5E4B_596B),
  (0x5315, 0x5830_3B2F_3131),
  (0x5319, 0x3357_584E),
  (0x531D, 0x5451),
  (0x5320, 0x3D33_3F6F),
  (0x5323, 0x4F3B),
  (0x5326, 0x5850),
  (0x532A, 0x374B),
  (0x532E, 0x5851),
  (0x5339, 0x4625_4778_523D),
  (0x533E, 0x5852_4464),
  (0x5341, 0x4A2E),
  (0x5343, 0x4727),
  (0x5345, 0x5826),
  (0x5347, 0x497D_4E67_3B5C_306B),
  (0x534E, 0x3B2A_502D),
  (0x5351, 0x3130_5764_573F),
  (0x5355, 0x3525_4274_444F),
  (0x535A, 0x3229),
  (0x535C, 0x3237),
  (0x535E, 0x3165_5F32_553C_3F28_422C_5855_4231),
  (0x5366, 0x5854_4E54),
  (0x5369, 0x5A60),
  (0x536B, 0x4E40),
  (0x536E, 0x5834_432E_5321_4E23),
  (0x5373, 0x3C34_4834_4251),
  (0x5377, 0x3E6D_5036),
  (0x537A, 0x5A61),
  (0x537F, 0x4764),
  (0x5382, 0x3327),
  (0x5384, 0x3672_4C7C_407A),
  (0x5389, 0x4077),
  (0x538B, 0x5139_5161_5847),
  (0x5395, 0x325E),
  (0x5398, 0x4065),
  (0x539A, 0x3A71),
  (0x539D, 0x5848),
  (0x539F, 0x542D),
  (0x53A2, 0x4F61_5849),
  (0x53A5, 0x584A_4F43),
  (0x53A8, 0x3378_3E47),
  (0x53AE, 0x584B),
  (0x53B6, 0x5B4C),
  (0x53BB, 0x4825),
  (0x53BF, 0x4F58),
  (0x53C1, 0x487E_324E),
  (0x53C8, 0x5356_3266_3C30_5351_4B2B_3734),
  (0x53D1, 0x3722),
  (0x53D4, 0x4A65),
  (0x53D6, 0x4821_4A5C_3164_5070),
  (0x53DB, 0x4551),
  (0x53DF, 0x5B45_357E),
  (0x53E3, 0x3F5A_3945_3E64_416D),
  (0x53E8, 0x5F36_5F35_563B_3D50_5559_3048_3623_3F49_4C28_5F33_4A37_5352),
  (0x53F5, 0x584F_5236_3A45_4B3E_4C3E),
  (0x53FB, 0x5F37_3570_5F34),
  (0x5401, 0x5375),
  (0x5403, 0x3354_3877),
  (0x5406, 0x5F3A),
  (0x5408, 0x3A4F_3C2A_3575),
  (0x540C, 0x4D2C_437B_3A73_4074_4D42_4F72_5F38_4F45),
  (0x5415, 0x4240_5F39_4270),
  (0x541B, 0x3E7D),
  (0x541D, 0x415F_4D4C_5277_374D_5F41),
  (0x5423, 0x5F44),
  (0x5426, 0x3771_3049_3656_3754),
  (0x542B, 0x3A2C_4C7D_3F54_4B31_4674),
  (0x5431, 0x5628_5F45),
  (0x5434, 0x4E62_3333),
  (0x5438, 0x4E7C_3435),
  (0x543B, 0x4E47_3A70),
  (0x543E, 0x4E61),
  (0x5440, 0x513D),
  (0x5443, 0x5F40),
  (0x5446, 0x3474),
  (0x5448, 0x334A),
  (0x544A, 0x3866_5F3B),
  (0x5450, 0x4445),
  (0x5452, 0x5F3C_5F3D_5F3E_453B_5F3F_5F42_5431_5F43),
  (0x545B, 0x473A_4E58),
  (0x5462, 0x4458),
  (0x5464, 0x5F4A),
  (0x5466, 0x5F4F),
  (0x5468, 0x565C),
  (0x5471, 0x5F49_5F5A_4E36),
  (0x5475, 0x3A47_5F4E_5F48_455E),
  (0x547B, 0x496B_3A74_437C),
  (0x5480, 0x3E57),
  (0x5482, 0x5F46),
  (0x5484, 0x5F4D),
  (0x5486, 0x4558),
  (0x548B, 0x5526_3A4D),
  (0x548E, 0x3E4C_533D_3840),
  (0x5492, 0x5664),
  (0x5494, 0x5F47_393E_3F27),
  (0x5499, 0x417C_5F4B_5F4C),
  (0x549D, 0x5F50),
  (0x54A3, 0x5F5B_5F65),
  (0x54A6, 0x5F57_5F56_5749_5F63_5F64_656B_5227_5F52),
  (0x54AF, 0x3F29),
  (0x54B1, 0x545B),
  (0x54B3, 0x3F48_5F54),
  (0x54B8, 0x4F4C),
  (0x54BB, 0x5F5D),
  (0x54BD, 0x514A),
  (0x54BF, 0x5F5E_3027_4637_5F53),
  (0x54C4, 0x3A65),
  (0x54C6, 0x365F_4D5B_397E_5455),
  (0x54CC, 0x5F5F_4F6C_3025_5F67_5F51_5146_5F55_5F58_5F59_5F5C),
  (0x54D7, 0x3B29),
  (0x54D9, 0x5F60_5F61),
  (0x54DC, 0x5F62_5F66_5F68_5334),
  (0x54E5, 0x3867_4536_5F6A_495A_4128_4444),
  (0x54ED, 0x3F5E_4F78),
  (0x54F2, 0x555C_5F6E),
  (0x54FA, 0x3238),
  (0x54FC, 0x3A5F_5F6C),
  (0x54FF, 0x5B41),
  (0x5501, 0x5164),
  (0x5506, 0x4B74_343D),
  (0x5509, 0x3026),
  (0x550F, 0x5F71_4C46_5F72),
  (0x5514, 0x5F6D),
  (0x551B, 0x5F69),
  (0x5520, 0x5F6B),
  (0x5522, 0x5F6F_5F70_3B3D),
  (0x5527, 0x5F73),
  (0x552A, 0x5F74),
  (0x552C, 0x3B23),
  (0x552E, 0x4A5B_4E28_6027_332A),
  (0x5533, 0x6026),
  (0x5537, 0x6021),
  (0x553C, 0x5F7E),
  (0x553E, 0x4D59_5F7C),
  (0x5541, 0x5F7A),
  (0x5543, 0x3F50_5744),
  (0x5546, 0x494C),
  (0x5549, 0x5F78_3021),
  (0x5550, 0x5F7D),
  (0x5555, 0x5F7B_6022),
  (0x555C, 0x6028),
  (0x5561, 0x3748),
  (0x5564, 0x4621_4936_4032_5F75),
  (0x556A, 0x453E),
  (0x556C, 0x5844_5F79_4476),
  (0x5575, 0x6023_6024_6025_5025),
  (0x557B, 0x6034_4C64),
  (0x557E, 0x6031),
  (0x5580, 0x3F26_602F_4E39_602B_4946),
  (0x5587, 0x402E_602E_3A6D_3A30_6029),
  (0x558F, 0x5F76),
  (0x5591, 0x6033),
  (0x5594, 0x6038),
  (0x5598, 0x342D_6039),
  (0x559C, 0x4F32_3A48),
  (0x559F, 0x6030),
  (0x55A7, 0x507A),
  (0x55B1, 0x602C),
  (0x55B3, 0x547B),
  (0x55B5, 0x5F77),
  (0x55B7, 0x4567),
  (0x55B9, 0x602D),
  (0x55BB, 0x5377),
  (0x55BD, 0x6036_6037),
  (0x55C4, 0x6044_5061),
  (0x55C9, 0x603C),
  (0x55CC, 0x6049_604A),
  (0x55D1, 0x603E_602A_4924_6041),
  (0x55D6, 0x6032),
  (0x55DC, 0x4A48_6043),
  (0x55DF, 0x6035),
  (0x55E1, 0x4E4B),
  (0x55E3, 0x4B43_604D_6046_6042),
  (0x55E8, 0x604B),
  (0x55EA, 0x603A_603F_6040),
  (0x55EF, 0x6045),
  (0x55F2, 0x6047_6048),
  (0x55F5, 0x604C),
  (0x55F7, 0x603B),
  (0x55FD, 0x4B54_6055),
  (0x5600, 0x6056_6052),
  (0x5608, 0x6050_3C4E),
  (0x560C, 0x6051),
  (0x560E, 0x3842_5845),
  (0x5618, 0x506A),
  (0x561B, 0x426F),
  (0x561E, 0x604F_603D),
  (0x5623, 0x6054_6053),
  (0x5627, 0x6057),
  (0x562C, 0x605C_6058),
  (0x5631, 0x5676_3330),
  (0x5634, 0x576C),
  (0x5636, 0x4B3B),
  (0x5639, 0x605A),
  (0x563B, 0x4E7B),
  (0x563F, 0x3A59),
  (0x564C, 0x6061_605D_522D),
  (0x5654, 0x6062),
  (0x5657, 0x605B_6059_605F),
  (0x565C, 0x6060),
  (0x5662, 0x605E),
  (0x5664, 0x6064),
  (0x5668, 0x4677_582C_546B_6066_4A49),
  (0x5671, 0x6065),
  (0x5676, 0x3841),
  (0x567B, 0x6067_6068),
  (0x5685, 0x6069_6063),
  (0x568E, 0x3A3F_4C67),
  (0x5693, 0x606A),
  (0x56A3, 0x4F79),
  (0x56AF, 0x606B),
  (0x56B7, 0x4842),
  (0x56BC, 0x3D40),
  (0x56CA, 0x4452),
  (0x56D4, 0x606C),
  (0x56D7, 0x606D),
  (0x56DA, 0x4774_4B44),
  (0x56DD, 0x606E_3B58_5836_5272_606F_4D45),
  (0x56E4, 0x365A),
  (0x56EB, 0x6071),
  (0x56ED, 0x5430),
  (0x56F0, 0x4027_3451),
  (0x56F4, 0x4E27_6070),
  (0x56F9, 0x6072_394C),
  (0x56FD, 0x397A_4D3C_6073),
  (0x5703, 0x4654_6074),
  (0x5706, 0x5432),
  (0x5708, 0x4826_6076_6075),
  (0x571C, 0x6077),
  (0x571F, 0x4D41),
  (0x5723, 0x4A25),
  (0x5728, 0x545A_5B57_5B59),
  (0x572C, 0x5B58_3967_5B5C_5B5D_3558),
  (0x5733, 0x5B5A),
  (0x5739, 0x5B5B_3321_5B5F),
  (0x573E, 0x3B78),
  (0x5740, 0x5637),
  (0x5742, 0x5B60),
  (0x5747, 0x3E79),
  (0x574A, 0x373B),
  (0x574C, 0x5B50_4C2E_3F32_3B35_5778_3F53),
  (0x5757, 0x3F69),
  (0x575A, 0x3C61_4C33_5B5E_3053_4E6B_3758_5739_4642),
  (0x5764, 0x4024),
  (0x5766, 0x4C39),
  (0x5768, 0x5B67_5B61_463A_5B63),
  (0x576D, 0x5B68),
  (0x576F, 0x4577),
  (0x5773, 0x5B6A),
  (0x5776, 0x5B69_3F40),
  (0x577B, 0x5B66_5B65),
  (0x5782, 0x3439_402C_4222_5B62_5B64),
  (0x578B, 0x504D_5B6D),
  (0x5792, 0x405D_5B72),
  (0x579B, 0x3662),
  (0x57A0, 0x5B73_5B52_3938_542B_5B6C),
  (0x57A6, 0x3F51_5B70),
  (0x57A9, 0x5B51),
  (0x57AB, 0x3566),
  (0x57AD, 0x5B6B_3F65),
  (0x57B2, 0x5B6E),
  (0x57B4, 0x5B71),
  (0x57B8, 0x5B79),
  (0x57C2, 0x3921_3023),
  (0x57CB, 0x4271),
  (0x57CE, 0x3347_5B6F),
  (0x57D2, 0x5B78),
  (0x57D4, 0x4652_5B74),
  (0x57D8, 0x5B75_5B77_5B76),
  (0x57DD, 0x5B7E),
  (0x57DF, 0x5372_323A),
  (0x57E4, 0x5B7D),
  (0x57ED, 0x5C24),
  (0x57EF, 0x5B7B),
  (0x57F4, 0x5B7A),
  (0x57F8, 0x5B7C_4560_3B79),
  (0x57FD, 0x5C23),
  (0x5800, 0x5C25),
  (0x5802, 0x4C43),
  (0x5806, 0x3651_5D40),
  (0x580B, 0x5C21),
  (0x580D, 0x5C22),
  (0x5811, 0x4735),
  (0x5815, 0x3669),
  (0x5819, 0x5C27),
  (0x581E, 0x5C26),
  (0x5820, 0x5C29_3124),
  (0x5824, 0x354C),
  (0x582A, 0x3F30),
  (0x5830, 0x515F),
  (0x5835, 0x3642),
  (0x5844, 0x5C28),
  (0x584C, 0x4B7A_6B73),
  (0x5851, 0x4B5C),
  (0x5854, 0x4B7E),
  (0x5858, 0x4C41),
  (0x585E, 0x487B),
  (0x5865, 0x5C2A),
  (0x586B, 0x4C6E_5C2B),
  (0x587E, 0x5B53),
  (0x5880, 0x5C2F_5C2C),
  (0x5883, 0x3E33),
  (0x5885, 0x4A7B),
  (0x5889, 0x5C2D),
  (0x5892, 0x494A_4439),
  (0x5899, 0x473D_5C2E),
  (0x589E, 0x5476_5066),
  (0x58A8, 0x442B_3655),
  (0x58BC, 0x5B54),
  (0x58C1, 0x315A),
  (0x58C5, 0x5B55),
  (0x58D1, 0x5B56),
  (0x58D5, 0x3A3E),
  (0x58E4, 0x4840),
  (0x58EB, 0x4A3F_4849),
  (0x58EE, 0x5733),
  (0x58F0, 0x4979),
  (0x58F3, 0x3F47),
  (0x58F6, 0x3A78),
  (0x58F9, 0x523C),
  (0x5902, 0x623A),
  (0x5904, 0x3426),
  (0x5907, 0x3138),
  (0x590D, 0x3834),
  (0x590F, 0x4F44),
  (0x5914, 0x5967_4F26_4D62),
  (0x5919, 0x596D_3660),
  (0x591C, 0x5239),
  (0x591F, 0x393B),
  (0x5924, 0x6239_6237),
  (0x5927, 0x3473),
  (0x5929, 0x4C6C_4C2B_3772),
  (0x592D, 0x5832_516B_3A3B),
  (0x5931, 0x4A27),
  (0x5934, 0x4D37),
  (0x5937, 0x5244_3F64_3C50_3661),
  (0x593C, 0x5E45),
  (0x5941, 0x5E46_5B3C),
  (0x5944, 0x5159),
  (0x5947, 0x4666_444E_376E),
  (0x594B, 0x375C),
  (0x594E, 0x3F7C_5760),
  (0x5951, 0x4675),
  (0x5954, 0x313C_5E48_3D31_4C57_5E4A),
  (0x595A, 0x5E49),
  (0x5960, 0x356C),
  (0x5962, 0x495D),
  (0x5965, 0x3042),
  (0x5973, 0x452E_452B),
  (0x5976, 0x444C),
  (0x5978, 0x3C69_4B7D),
  (0x597D, 0x3A43),
  (0x5981, 0x6579_4867_657A_4D7D),
  (0x5986, 0x5731_383E_4268),
  (0x598A, 0x4851),
  (0x598D, 0x657B),
  (0x5992, 0x364A_3C4B),
  (0x5996, 0x517D_6621),
  (0x5999, 0x436E),
  (0x599E, 0x6624),
  (0x59A3, 0x657E_6625_4D57),
  (0x59A8, 0x3741_657C_657D_6623),
  (0x59AE, 0x445D_6628),
  (0x59B2, 0x6627),
  (0x59B9, 0x4343),
  (0x59BB, 0x465E),
  (0x59BE, 0x662A),
  (0x59C6, 0x4437),
  (0x59CA, 0x6622_4A3C),
  (0x59D0, 0x3D63_3943_6626_5055_4E2F),
  (0x59D7, 0x6629_6630),
  (0x59DA, 0x5226),
  (0x59DC, 0x3D2A_662D),
  (0x59E3, 0x662F),
  (0x59E5, 0x4051),
  (0x59E8, 0x524C),
  (0x59EC, 0x3C27),
  (0x59F9, 0x6631),
  (0x59FB, 0x5276),
  (0x59FF, 0x574B),
  (0x5A01, 0x4D7E),
  (0x5A03, 0x4D5E_4226_662B_662C_3D3F_662E_6633),
  (0x5A0C, 0x6632),
  (0x5A11, 0x6636),
  (0x5A13, 0x6638),
  (0x5A18, 0x446F),
  (0x5A1C, 0x4448),
  (0x5A1F, 0x3E6A_496F),
  (0x5A23, 0x6637),
  (0x5A25, 0x3670),
  (0x5A29, 0x4364),
  (0x5A31, 0x5369_6634),
  (0x5A34, 0x6635),
  (0x5A36, 0x4822),
  (0x5A3C, 0x663D),
  (0x5A40, 0x6639),
  (0x5A46, 0x4645),
  (0x5A49, 0x4D71_663B),
  (0x5A55, 0x663C),
  (0x5A5A, 0x3B69),
  (0x5A62, 0x663E),
  (0x5A67, 0x663A),
  (0x5A6A, 0x4037),
  (0x5A74, 0x5324_663F_4974_6643),
  (0x5A7A, 0x6644),
  (0x5A7F, 0x5076),
  (0x5A92, 0x433D),
  (0x5A9A, 0x4344_6642),
  (0x5AAA, 0x6641),
  (0x5AB2, 0x6647_4F31),
  (0x5AB5, 0x6B74),
  (0x5AB8, 0x664A),
  (0x5ABE, 0x6645),
  (0x5AC1, 0x3C5E_4929),
  (0x5AC9, 0x3C35),
  (0x5ACC, 0x4F53),
  (0x5AD2, 0x6648),
  (0x5AD4, 0x6649),
  (0x5AD6, 0x664E),
  (0x5AD8, 0x6650),
  (0x5ADC, 0x6651),
  (0x5AE0, 0x664B_3555),
  (0x5AE3, 0x664C),
  (0x5AE6, 0x664F),
  (0x5AE9, 0x445B),
  (0x5AEB, 0x6646),
  (0x5AF1, 0x664D),
  (0x5B09, 0x6652),
  (0x5B16, 0x6654_6653),
  (0x5B32, 0x6655),
  (0x5B34, 0x5978),
  (0x5B37, 0x6656),
  (0x5B40, 0x6657),
  (0x5B50, 0x5753_665D),
  (0x5B53, 0x665E_3F57_5450),
  (0x5B57, 0x5756_3466_4B6F_665A_5843_574E_5022),
  (0x5B5F, 0x434F),
  (0x5B62, 0x665F_3C3E_3942_665B_5127),
  (0x5B69, 0x3A22_424F),
  (0x5B6C, 0x582B),
  (0x5B70, 0x4A6B_656E),
  (0x5B73, 0x665C),
  (0x5B75, 0x3775),
  (0x5B7A, 0x4866),
  (0x5B7D, 0x4475),
  (0x5B80, 0x6532_447E),
  (0x5B83, 0x4B7C_6533_552C),
  (0x5B87, 0x536E_4A58_3032),
  (0x5B8B, 0x4B4E_4D6A),
  (0x5B8F, 0x3A6A),
  (0x5B93, 0x6535),
  (0x5B95, 0x6534),
  (0x5B97, 0x575A_3959_5666_3628_4D70_524B_3126_4A35),
  (0x5BA0, 0x3368_4973_3F4D_507B_4A52_6536_3B42),
  (0x5BAA, 0x4F5C_392C),
  (0x5BB0, 0x5457),
  (0x5BB3, 0x3A26_5167_4F7C_3C52),
  (0x5BB8, 0x6537_485D),
  (0x5BBD, 0x3F6D_3176_4B5E),
  (0x5BC2, 0x3C45),
  (0x5BC4, 0x3C44_527A_435C_3F5C),
  (0x5BCC, 0x383B),
  (0x5BD0, 0x4342),
  (0x5BD2, 0x3A2E_5422),
  (0x5BDD, 0x475E_442F_326C),
  (0x5BE1, 0x3951),
  (0x5BE4, 0x653B_4148),
  (0x5BE8, 0x552F),
  (0x5BEE, 0x653C),
  (0x5BF0, 0x653E),
  (0x5BF8, 0x3467_3654_4B42_5130_353C),
  (0x5BFF, 0x4A59),
  (0x5C01, 0x3762),
  (0x5C04, 0x4964),
  (0x5C06, 0x3D2B),
  (0x5C09, 0x4E3E_5770),
  (0x5C0F, 0x5021),
  (0x5C11, 0x4959),
  (0x5C14, 0x367B_6658_3C62),
  (0x5C18, 0x333E),
  (0x5C1A, 0x4950),
  (0x5C1C, 0x6659_3322),
  (0x5C22, 0x5E4C),
  (0x5C24, 0x5348_5E4D),
  (0x5C27, 0x5222),
  (0x5C2C, 0x5E4E),
  (0x5C31, 0x3E4D),
  (0x5C34, 0x5E4F),
  (0x5C38, 0x4A2C_527C_335F_656A_4461_3E21_4E32_4472_3E56_4628_3263),
  (0x5C45, 0x3E53),
  (0x5C48, 0x477C_4C6B_3D6C_4E5D),
  (0x5C4E, 0x4A3A_4641_656C_503C),
  (0x5C55, 0x5539),
  (0x5C59, 0x656D),
  (0x5C5E, 0x4A74),
  (0x5C60, 0x4D40_4245),
  (0x5C63, 0x656F),
  (0x5C65, 0x4244_6570),
  (0x5C6E, 0x6578_4D4D),
  (0x5C71, 0x493D),
  (0x5C79, 0x5259_6128),
  (0x5C7F, 0x536C),
  (0x5C81, 0x4B6A_4671),
  (0x5C88, 0x612C),
  (0x5C8C, 0x6127_6129),
  (0x5C90, 0x612A_612F),
  (0x5C94, 0x326D),
  (0x5C96, 0x612B_385A_612D_612E_6130_353A_6131),
  (0x5CA2, 0x6133_6138),
  (0x5CA9, 0x5152),
  (0x5CAB, 0x6136_6135_416B),
  (0x5CB1, 0x6137),
  (0x5CB3, 0x5440),
  (0x5CB5, 0x6132),
  (0x5CB7, 0x613A_3036),
  (0x5CBD, 0x6134),
  (0x5CBF, 0x3F79),
  (0x5CC1, 0x6139),
  (0x5CC4, 0x613B),
  (0x5CCB, 0x613E),
  (0x5CD2, 0x613C),
  (0x5CD9, 0x5645),
  (0x5CE1, 0x4F3F),
  (0x5CE4, 0x613D_613F_424D),
  (0x5CE8, 0x366B),
  (0x5CEA, 0x5378),
  (0x5CED, 0x474D),
  (0x5CF0, 0x3765),
  (0x5CFB, 0x3E7E),
  (0x5D02, 0x6140_6141),
  (0x5D06, 0x6147_3367),
  (0x5D0E, 0x4669),
  (0x5D14, 0x345E),
  (0x5D16, 0x5142),
  (0x5D1B, 0x6148),
  (0x5D1E, 0x6146),
  (0x5D24, 0x6145),
  (0x5D26, 0x6143_6142),
  (0x5D29, 0x3140),
  (0x5D2D, 0x5538_6144),
  (0x5D34, 0x614B),
  (0x5D3D, 0x614C_614A),
  (0x5D47, 0x6F7A),
  (0x5D4A, 0x6153_6152_4736),
  (0x5D58, 0x6149),
  (0x5D5B, 0x614E),
  (0x5D5D, 0x6150),
  (0x5D69, 0x6154),
  (0x5D6B, 0x6151_614D),
  (0x5D6F, 0x614F),
  (0x5D74, 0x6155),
  (0x5D82, 0x6156),
  (0x5D99, 0x6157),
  (0x5D9D, 0x6158),
  (0x5DB7, 0x615A),
  (0x5DC5, 0x615B),
  (0x5DCD, 0x4E21),
  (0x5DDB, 0x675D),
  (0x5DDD, 0x3428_565D),
  (0x5DE1, 0x5132_3332),
  (0x5DE5, 0x3924_5773_4749_3E5E_392E),
  (0x5DEB, 0x4E57),
  (0x5DEE, 0x326E_5B4F),
  (0x5DF1, 0x3C3A_5251_4B48_304D),
  (0x5DF7, 0x4F6F),
  (0x5DFD, 0x5963_3D6D),
  (0x5E01, 0x3152_4A50_323C),
  (0x5E05, 0x4B27_372B),
  (0x5E08, 0x4A26),
  (0x5E0C, 0x4F23),
  (0x5E0F, 0x6078_554A_607B),
  (0x5E14, 0x607A_4541_4C7B),
  (0x5E18, 0x4131_6079_5663_322F_5644_355B),
  (0x5E26, 0x3478_5621),
  (0x5E2D, 0x4F2F_306F),
  (0x5E31, 0x607C),
  (0x5E37, 0x6121_3323),
  (0x5E3B, 0x607D_607E_4331),
  (0x5E42, 0x435D),
  (0x5E44, 0x6122_3779),
  (0x5E4C, 0x3B4F),
  (0x5E54, 0x6123_443B),
  (0x5E5B, 0x6124),
  (0x5E5E, 0x6125),
  (0x5E61, 0x6126_3431),
  (0x5E72, 0x3849_463D_446A),
  (0x5E76, 0x3222),
  (0x5E78, 0x5052),
  (0x5E7A, 0x675B_3B43_5357_5344),
  (0x5E7F, 0x3963_624F),
  (0x5E84, 0x572F),
  (0x5E86, 0x476C_3153),
  (0x5E8A, 0x3432_6251),
  (0x5E8F, 0x5072_422E_6250),
  (0x5E93, 0x3F62_5326_3557_6252_356A),
  (0x5E99, 0x436D_387D),
  (0x5E9C, 0x382E),
  (0x5E9E, 0x4553_374F_6254),
  (0x5EA5, 0x6253_3648_5779),
  (0x5EAD, 0x4D25),
  (0x5EB3, 0x6258),
  (0x5EB5, 0x6256_4A7C_3F35_5339_6255),
  (0x5EBE, 0x6257),
  (0x5EC9, 0x412E_4048),
  (0x5ED1, 0x625B_625A_402A),
  (0x5ED6, 0x414E),
  (0x5EDB, 0x625C),
  (0x5EE8, 0x625D),
  (0x5EEA, 0x625E),
  (0x5EF4, 0x5B48),
  (0x5EF6, 0x5153_4D22),
  (0x5EFA, 0x3D28),
  (0x5EFE, 0x5E43_5825_3F2A_5B4D_526C_467A_452A),
  (0x5F08, 0x5E44),
  (0x5F0A, 0x3157_5F2E),
  (0x5F0F, 0x4A3D),
  (0x5F11, 0x5F31),
  (0x5F13, 0x392D),
  (0x5F15, 0x527D),
  (0x5F17, 0x3825_3A6B),
  (0x5F1B, 0x335A),
  (0x5F1F, 0x355C_5545),
  (0x5F25, 0x4356_4F52_3B21),
  (0x5F29, 0x6573_6572),
  (0x5F2D, 0x6574),
  (0x5F2F, 0x4D64),
  (0x5F31, 0x4875),
  (0x5F39, 0x352F_473F),
  (0x5F3C, 0x6576),
  (0x5F40, 0x6C30),
  (0x5F50, 0x6566),
  (0x5F52, 0x3969_3531),
  (0x5F55, 0x423C_6568_6567_6569),
  (0x5F5D, 0x524D),
  (0x5F61, 0x616A_504E),
  (0x5F64, 0x4D2E),
  (0x5F66, 0x5165),
  (0x5F69, 0x324A_316B),
  (0x5F6C, 0x3172_456D),
  (0x5F70, 0x5543_5330),
  (0x5F73, 0x615C),
  (0x5F77, 0x615D),
  (0x5F79, 0x525B),
  (0x5F7B, 0x3339_314B),
  (0x5F80, 0x4D79_5577_615E),
  (0x5F84, 0x3E36_347D),
  (0x5F87, 0x615F_3A5C_6160_3B32_4249_6161),
  (0x5F90, 0x506C),
  (0x5F92, 0x4D3D),
  (0x5F95, 0x6162),
  (0x5F97, 0x3543_4547_6163),
  (0x5F9C, 0x6164),
  (0x5FA1, 0x5379),
  (0x5FA8, 0x6165),
  (0x5FAA, 0x512D),
  (0x5FAD, 0x6166_4E22),
  (0x5FB5, 0x6167),
  (0x5FB7, 0x3542),
  (0x5FBC, 0x6168_3B55),
  (0x5FC3, 0x5044_6260_3158_5264),
  (0x5FC9, 0x6261),
  (0x5FCC, 0x3C49_484C),
  (0x5FCF, 0x6263_6C7E_6C7D_5F2F),
  (0x5FD6, 0x6262_563E_4D7C_4326),
  (0x5FDD, 0x6343),
  (0x5FE0, 0x5652_6267),
  (0x5FE4, 0x6268),
  (0x5FE7, 0x5347),
  (0x5FEA, 0x626C_3F6C),
  (0x5FED, 0x626D_6265),
  (0x5FF1, 0x3340),
  (0x5FF5, 0x446E),
  (0x5FF8, 0x626E),
  (0x5FFB, 0x5043),
  (0x5FFD, 0x3A76_6269_375E_3B33_4C2C_4B4B_6264_6266_626A_626B),
  (0x600A, 0x6277),
  (0x600D, 0x6274_5475_6273),
  (0x6012, 0x452D),
  (0x6014, 0x557A_4542_3240),
  (0x6019, 0x626F),
  (0x601B, 0x6272_412F_4B3C),
  (0x6020, 0x3521_6279),
  (0x6025, 0x3C31_6271_5054_5439_6275_3956_6276),
  (0x602F, 0x4753),
  (0x6035, 0x6270),
  (0x603B, 0x575C_6D21),
  (0x603F, 0x6278),
  (0x6041, 0x6D25_627E_4A51),
  (0x604B, 0x4135),
  (0x604D, 0x3B50),
  (0x6050, 0x3F56),
  (0x6052, 0x3A63),
  (0x6055, 0x4B21),
  (0x6059, 0x6D26_6D23),
  (0x605D, 0x6D22),
  (0x6062, 0x3B56_6D27_5074),
  (0x6067, 0x6D24_3A5E_3677_6321_3632_4C71_3927),
  (0x606F, 0x4F22_4721),
  (0x6073, 0x3F52),
  (0x6076, 0x3671),
  (0x6078, 0x627A_627B_627D_627C_4455_6322),
  (0x607F, 0x5341),
  (0x6083, 0x6327_4744),
  (0x6089, 0x4F24),
  (0x608C, 0x6329_3A37),
  (0x6092, 0x6328),
  (0x6094, 0x3B5A),
  (0x6096, 0x6323),
  (0x609A, 0x6324_632A),
  (0x609D, 0x6326),
  (0x609F, 0x4E72_5346),
  (0x60A3, 0x3B3C),
  (0x60A6, 0x5443),
  (0x60A8, 0x447A),
  (0x60AB, 0x6D28_507C_6325),
  (0x60AF, 0x4375),
  (0x60B1, 0x632D_312F),
  (0x60B4, 0x6332),
  (0x60B8, 0x3C42),
  (0x60BB, 0x632C_353F),
  (0x60C5, 0x4769_6330),
  (0x60CA, 0x3E2A_4D6F),
  (0x60D1, 0x3B73),
  (0x60D5, 0x4C68),
  (0x60D8, 0x632F),
  (0x60DA, 0x6331),
  (0x60DC, 0x4F27_632E),
  (0x60DF, 0x4E29_3B5D),
  (0x60E6, 0x356B_3E65_3252_334D),
  (0x60EB, 0x3139_632B_3251_352C_395F_3668),
  (0x60F3, 0x4F6B_6337),
  (0x60F6, 0x3B4C),
  (0x60F9, 0x4847_504A),
  (0x6100, 0x6338_336E),
  (0x6106, 0x6D29),
  (0x6108, 0x537A_5364),
  (0x610D, 0x6D2A_6339_5262),
  (0x6115, 0x6335),
  (0x611A, 0x535E),
  (0x611F, 0x3850_6333),
  (0x6123, 0x6336_375F),
  (0x6126, 0x6334_4022),
  (0x612B, 0x633A),
  (0x613F, 0x5438),
  (0x6148, 0x3448),
  (0x614A, 0x633B),
  (0x614C, 0x3B45),
  (0x614E, 0x4977),
  (0x6151, 0x4965),
  (0x6155, 0x443D),
  (0x615D, 0x6D2B),
  (0x6162, 0x427D),
  (0x6167, 0x3B5B_3F2E),
  (0x6170, 0x4E3F),
  (0x6175, 0x633C),
  (0x6177, 0x3F36),
  (0x618B, 0x316F),
  (0x618E, 0x5477),
  (0x6194, 0x633E),
  (0x619D, 0x6D2D),
  (0x61A7, 0x633F_3A29_6D2C),
  (0x61AC, 0x633D),
  (0x61B7, 0x6340),
  (0x61BE, 0x3A36),
  (0x61C2, 0x362E),
  (0x61C8, 0x5038),
  (0x61CA, 0x3043_6D2E),
  (0x61D1, 0x6D2F_4041),
  (0x61D4, 0x6341),
  (0x61E6, 0x4533),
  (0x61F5, 0x6342),
  (0x61FF, 0x5C32),
  (0x6206, 0x6D30),
  (0x6208, 0x386A),
  (0x620A, 0x4E6C_6A27_5067_4A79_4856_4F37_3349_4E52_3D64),
  (0x6215, 0x635E_3B72_6A28_553D),
  (0x621A, 0x465D_6A29),
  (0x621F, 0x6A2A),
  (0x6221, 0x6A2C_6A2B),
  (0x6224, 0x6A2E_6A2D),
  (0x622A, 0x3D58),
  (0x622C, 0x6A2F),
  (0x622E, 0x423E),
  (0x6233, 0x3441_3477),
  (0x6237, 0x3B27),
  (0x623D, 0x6C66_6C65_373F_4B79_3162),
  (0x6243, 0x6C67),
  (0x6247, 0x4948_6C68_6C69),
  (0x624B, 0x4A56_5E50_3245_547A),
  (0x6251, 0x464B_3047_3472_4853),
  (0x6258, 0x4D50),
  (0x625B, 0x3F38),
  (0x6263, 0x3F5B),
  (0x6266, 0x4724_5634),
  (0x6269, 0x4029_5E51_4928_516F_4524_3067_3336_4845),
  (0x6273, 0x3062),
  (0x6276, 0x3776),
  (0x6279, 0x457A),
  (0x627C, 0x3673),
  (0x627E, 0x5552_3350_3C3C),
  (0x6284, 0x332D),
  (0x6289, 0x3E71_3051),
  (0x6291, 0x5256_4A63_5725),
  (0x6295, 0x4D36_3636_3F39_555B),
  (0x629A, 0x3827_4557),
  (0x629F, 0x5E52_3F59_4255_4740),
  (0x62A4, 0x3B24_3128),
  (0x62A8, 0x456A),
  (0x62AB, 0x457B_4C27),
  (0x62B1, 0x3127),
  (0x62B5, 0x3556),
  (0x62B9, 0x4428),
  (0x62BB, 0x5E53_513A_3369),
  (0x62BF, 0x4372),
  (0x62C2, 0x3777),
  (0x62C4, 0x5674_3523_3270_4434_4469_402D_5E54),
  (0x62CC, 0x3068_4544_4160),
  (0x62D0, 0x3955),
  (0x62D2, 0x3E5C_4D58_304E),
  (0x62D6, 0x4D4F_5E56_3E50_573E_5E55_5550_305D),
  (0x62DF, 0x4462),
  (0x62E2, 0x4223_3C70),
  (0x62E5, 0x5335_4039_4521_3226_5471),
  (0x62EC, 0x4028_4A43_5E57_557C),
  (0x62F1, 0x3930),
  (0x62F3, 0x482D_4B29),
  (0x62F6, 0x5E59_3F3D),
  (0x62FC, 0x4634_5727_4A30_4443),
  (0x6301, 0x3356_3952),
  (0x6307, 0x5638_6A7C_3034),
  (0x630E, 0x3F66),
  (0x6311, 0x4C74),
  (0x6316, 0x4D5A),
  (0x631A, 0x563F_424E),
  (0x631D, 0x4E4E_4C22_502E_4453_3532_5E58_5575_3C37_3B53),
  (0x6328, 0x3024),
  (0x632A, 0x4532_346C),
  (0x632F, 0x5571),
  (0x6332, 0x6A7D),
  (0x6339, 0x5E5A_4D26),
  (0x633D, 0x4D6C),
  (0x6342, 0x4E66_5E5C),
  (0x6345, 0x4D31_4026),
  (0x6349, 0x573D),
  (0x634B, 0x5E5B_3046_3A34_4953_4473_3E68),
  (0x6355, 0x3236),
  (0x635E, 0x404C_4B70),
  (0x6361, 0x3C71_3B3B_3537),
  (0x6367, 0x4575),
  (0x6369, 0x5E66),
  (0x636D, 0x5E63_3E5D),
  (0x6371, 0x5E5F),
  (0x6376, 0x3437_3D5D),
  (0x637A, 0x5E60_446D),
  (0x6380, 0x4F46),
  (0x6382, 0x3560),
  (0x6387, 0x365E_4A5A_3574_5E65),
  (0x638C, 0x5546),
  (0x638E, 0x5E61_4C4D_467E),
  (0x6392, 0x4545),
  (0x6396, 0x5234),
  (0x6398, 0x3E72),
  (0x63A0, 0x4253),
  (0x63A2, 0x4C3D_3338),
  (0x63A5, 0x3D53),
  (0x63A7, 0x3F58_4D46_515A_346B),
  (0x63AC, 0x5E64_5E5D_5E67),
  (0x63B0, 0x6A7E),
  (0x63B3, 0x4230_5E62),
  (0x63B7, 0x5640_3527),
  (0x63BA, 0x3274),
  (0x63BC, 0x5E68),
  (0x63BE, 0x5E72),
  (0x63C4, 0x5E6D),
  (0x63C6, 0x5E71),
  (0x63C9, 0x4860),
  (0x63CD, 0x5761_5E6F_4368_4C61),
  (0x63D2, 0x3265),
  (0x63D6, 0x523E),
  (0x63DE, 0x5E6E),
  (0x63E0, 0x5E6B_4E55),
  (0x63E3, 0x3427),
  (0x63E9, 0x3F2B_3E3E),
  (0x63ED, 0x3D52),
  (0x63F2, 0x5E69),
  (0x63F4, 0x542E),
  (0x63F6, 0x5E5E),
  (0x63F8, 0x5E6A),
  (0x63FD, 0x403F),
  (0x63FF, 0x5E6C_3273_3869_4227),
  (0x6405, 0x3D41),
  (0x640B, 0x5E75_5E78),
  (0x640F, 0x322B_3424),
  (0x6413, 0x346A_4926),
  (0x641B, 0x5E76_4B51),
  (0x641E, 0x3863),
  (0x6420, 0x5E77_5E7A),
  (0x6426, 0x5E79),
  (0x642A, 0x4C42),
  (0x642C, 0x3061_346E),
  (0x6434, 0x653A),
  (0x643A, 0x502F),
  (0x643D, 0x326B),
  (0x643F, 0x6B21),
  (0x6441, 0x5E74),
  (0x6444, 0x4963_5E73_305A_5221_3177),
  (0x644A, 0x4C2F),
  (0x6452, 0x5E70),
  (0x6454, 0x4B24),
  (0x6458, 0x552A),
  (0x645E, 0x5E7B),
  (0x6467, 0x345D),
  (0x6469, 0x4426),
  (0x646D, 0x5E7D),
  (0x6478, 0x437E_4421_5F21),
  (0x6482, 0x414C),
  (0x6484, 0x5E7C_3E6F),
  (0x6487, 0x4632),
  (0x6491, 0x3345_4876),
  (0x6495, 0x4B3A_5E7E),
  (0x6499, 0x5F24),
  (0x649E, 0x5732),
  (0x64A4, 0x3337),
  (0x64A9, 0x4143),
  (0x64AC, 0x474B_3225_3469),
  (0x64B0, 0x572B),
  (0x64B5, 0x446C),
  (0x64B7, 0x5F22_5F23),
  (0x64BA, 0x5F25),
  (0x64BC, 0x3A33),
  (0x64C0, 0x5F26),
  (0x64C2, 0x405E),
  (0x64C5, 0x4943),
  (0x64CD, 0x3259_4766),
  (0x64D0, 0x5F27),
  (0x64D2, 0x475C),
  (0x64D7, 0x5F28_6B22),
  (0x64DE, 0x4B53),
  (0x64E2, 0x5F2A),
  (0x64E4, 0x5F29),
  (0x64E6, 0x3241),
  (0x6500, 0x454A),
  (0x6509, 0x5F2B),
  (0x6512, 0x545C),
  (0x6518, 0x4841),
  (0x6525, 0x5F2C),
  (0x652B, 0x3E70),
  (0x652E, 0x5F2D_5627),
  (0x6534, 0x6A37_6B36_4A55),
  (0x6538, 0x587C_3844),
  (0x653B, 0x3925),
  (0x653E, 0x3745_557E),
  (0x6545, 0x394A),
  (0x6548, 0x5027_744D),
  (0x654C, 0x3550),
  (0x654F, 0x4374),
  (0x6551, 0x3E48),
  (0x6555, 0x6B37_303D),
  (0x6559, 0x3D4C),
  (0x655B, 0x4132),
  (0x655D, 0x3156_3328),
  (0x6562, 0x3852_4922),
  (0x6566, 0x3658),
  (0x656B, 0x6B38_3E34),
  (0x6570, 0x4A7D),
  (0x6572, 0x4743),
  (0x6574, 0x557B),
  (0x6577, 0x3773),
  (0x6587, 0x4E44),
  (0x658B, 0x552B_3173),
  (0x6590, 0x6C33_305F),
  (0x6593, 0x6C35),
  (0x6597, 0x3637),
  (0x6599, 0x414F),
  (0x659B, 0x757A_5031),
  (0x659F, 0x5565),
  (0x65A1, 0x4E53),
  (0x65A4, 0x3D6F_3362),
  (0x65A7, 0x382B),
  (0x65A9, 0x5536),
  (0x65AB, 0x6D3D),
  (0x65AD, 0x364F),
  (0x65AF, 0x4B39_5042),
  (0x65B9, 0x373D),
  (0x65BC, 0x6C36_4A29),
  (0x65C1, 0x4554),
  (0x65C3, 0x6C39_6C38_4243_6C37),
  (0x65CB, 0x507D_6C3A),
  (0x65CE, 0x6C3B_5765),
  (0x65D2, 0x6C3C),
  (0x65D6, 0x6C3D_466C),
  (0x65E0, 0x4E5E),
  (0x65E2, 0x3C48),
  (0x65E5, 0x4855_3529_3E49_563C_5467),
  (0x65EC, 0x512E_5071_6A38_6A39_6A3A_3A35),
  (0x65F6, 0x4A31_3F75),
  (0x65FA, 0x4D7A),
  (0x6600, 0x6A40),
  (0x6602, 0x303A_6A3E),
  (0x6606, 0x4025),
  (0x660A, 0x6A3B),
  (0x660C, 0x327D),
  (0x660E, 0x4377_3B68),
  (0x6613, 0x5257_4E74_6A3F),
  (0x6619, 0x6A3C),
  (0x661D, 0x6A43),
  (0x661F, 0x5047_5333),
  (0x6625, 0x343A),
  (0x6627, 0x4341_5772),
  (0x662D, 0x5551),
  (0x662F, 0x4A47),
  (0x6631, 0x6A45),
  (0x6634, 0x6A44_6A47_6A46),
  (0x663C, 0x5667),
  (0x663E, 0x4F54),
  (0x6641, 0x6A4B),
  (0x6643, 0x3B4E),
  (0x664B, 0x3D7A_494E),
  (0x664F, 0x6A4C),
  (0x6652, 0x4939_4F7E_6A4A_544E_6A4D_6A4F),
  (0x665A, 0x4D6D),
  (0x665F, 0x6A49),
  (0x6661, 0x6A4E),
  (0x6664, 0x4E6E),
  (0x6666, 0x3B5E),
  (0x6668, 0x333F),
  (0x666E, 0x4655_3E30_4E7A),
  (0x6674, 0x4767),
  (0x6676, 0x3E27_6A50),
  (0x667A, 0x5647),
  (0x667E, 0x4140),
  (0x6682, 0x545D),
  (0x6684, 0x6A51),
  (0x6687, 0x4F3E),
  (0x668C, 0x6A52),
  (0x6691, 0x4A6E),
  (0x6696, 0x452F_3035),
  (0x669D, 0x6A54),
  (0x66A7, 0x6A53_745F),
  (0x66AE, 0x443A),
  (0x66B4, 0x3129),
  (0x66B9, 0x655F),
  (0x66BE, 0x6A55),
  (0x66D9, 0x4A6F),
  (0x66DB, 0x6A56_6A57_4658),
  (0x66E6, 0x6A58),
  (0x66E9, 0x6A59),
  (0x66F0, 0x543B),
  (0x66F2, 0x477A_5237_387C),
  (0x66F7, 0x6A42),
  (0x66F9, 0x325C),
  (0x66FC, 0x427C),
  (0x66FE, 0x5478_4C66_576E),
  (0x6708, 0x5442_5350_6B43_4573),
  (0x670D, 0x377E),
  (0x6710, 0x6B54),
  (0x6714, 0x4B37_6B5E),
  (0x6717, 0x404A),
  (0x671B, 0x4D7B),
  (0x671D, 0x332F),
  (0x671F, 0x465A),
  (0x6726, 0x6B7C),
  (0x6728, 0x443E),
  (0x672A, 0x4E34_4429_313E_547D),
  (0x672F, 0x4A75),
  (0x6731, 0x566C),
  (0x6734, 0x4653_3664),
  (0x673A, 0x3B7A),
  (0x673D, 0x5060),
  (0x6740, 0x4931),
  (0x6742, 0x5453_4828),
  (0x6746, 0x384B),
  (0x6748, 0x683E_493C),
  (0x674C, 0x683B),
  (0x674E, 0x406E_5053_3244_3465),
  (0x6753, 0x683C),
  (0x6756, 0x5548),
  (0x675C, 0x3645),
  (0x675E, 0x683D_4A78_385C_4C75),
  (0x6765, 0x4034),
  (0x6768, 0x516E_683F_6842),
  (0x676D, 0x3A3C),
  (0x676F, 0x312D_3D5C),
  (0x6772, 0x6A3D_6843),
  (0x6775, 0x6846),
  (0x6777, 0x684B),
  (0x677C, 0x684C),
  (0x677E, 0x4B49_3065),
  (0x6781, 0x3C2B),
  (0x6784, 0x3939),
  (0x6787, 0x6841),
  (0x6789, 0x4D77),
  (0x678B, 0x684A),
  (0x6790, 0x4E76),
  (0x6795, 0x556D),
  (0x6797, 0x4156_6844),
  (0x679A, 0x4336),
  (0x679C, 0x397B_5626_6848),
  (0x67A2, 0x4A60_5466),
  (0x67A5, 0x6840),
  (0x67A7, 0x6845_6847),
  (0x67AA, 0x4739_3763),
  (0x67AD, 0x6849),
  (0x67AF, 0x3F5D_6852),
  (0x67B3, 0x6857),
  (0x67B5, 0x6855_3C5C_3C4F_685B),
  (0x67C1, 0x685E),
  (0x67C3, 0x685A_317A),
  (0x67CF, 0x3058_4433_384C_4662_483E_4861),
  (0x67D8, 0x684F_6854_6856),
  (0x67DC, 0x3971_6858_5775),
  (0x67E0, 0x447B),
  (0x67E2, 0x685C),
  (0x67E5, 0x3269),
  (0x67E9, 0x6851),
  (0x67EC, 0x3C6D),
  (0x67EF, 0x3F42_684D_5679),
  (0x67F3, 0x4178_3271),
  (0x67FD, 0x685F),
  (0x67FF, 0x4A41_6859),
  (0x6805, 0x5524),
  (0x6807, 0x316A_553B_684E_6850_3630_6853),
  (0x680E, 0x685D_4038),
  (0x6811, 0x4A77),
  (0x6813, 0x4B28),
  (0x6816, 0x465C_4075),
  (0x681D, 0x6869),
  (0x6821, 0x5023),
  (0x6829, 0x6872_566A),
  (0x6832, 0x6860_6861),
  (0x6837, 0x5179_3A4B_3879),
  (0x683C, 0x3871_5454_686F),
  (0x6840, 0x686E_686C_3970_4C52_6866_4E26_3F72),
  (0x6848, 0x3038_6871_6870),
  (0x684C, 0x5740),
  (0x684E, 0x6864),
  (0x6850, 0x4D29_4923),
  (0x6853, 0x3B38_3D5B_686A),
  (0x6860, 0x6862_6863_6865_3535_6867_4745_686B_686D_3D30_572E),
  (0x686B, 0x6878),
  (0x6874, 0x6875),
  (0x6876, 0x4D30_6876),
  (0x6881, 0x413A),
  (0x6883, 0x6868),
  (0x6885, 0x4337_3070),
  (0x688F, 0x6874),
  (0x6893, 0x6877),
  (0x6897, 0x3923),
  (0x68A2, 0x4952),
  (0x68A6, 0x434E_4E60_4066),
  (0x68AD, 0x4B73),
  (0x68AF, 0x4C5D_5035),
  (0x68B3, 0x4A61),
  (0x68B5, 0x6873),
  (0x68C0, 0x3C6C),
  (0x68C2, 0x6879),
  (0x68C9, 0x435E),
  (0x68CB, 0x4665),
  (0x68CD, 0x3977),
  (0x68D2, 0x3074),
  (0x68D5, 0x5758),
  (0x68D8, 0x3C2C),
  (0x68DA, 0x456F),
  (0x68E0, 0x4C44),
  (0x68E3, 0x6926),
  (0x68EE, 0x492D),
  (0x68F0, 0x6922_4062),
  (0x68F5, 0x3F43),
  (0x68F9, 0x687E_3957),
  (0x68FC, 0x687B),
  (0x6901, 0x6924),
  (0x6905, 0x524E),
  (0x690B, 0x6923),
  (0x690D, 0x5632_5735),
  (0x6910, 0x6927),
  (0x6912, 0x3D37),
  (0x691F, 0x687C_687D),
  (0x6924, 0x6921),
  (0x692D, 0x4D56),
  (0x6930, 0x522C),
  (0x6934, 0x6932),
  (0x6939, 0x6929),
  (0x693D, 0x342A),
  (0x693F, 0x343B),
  (0x6942, 0x692B),
  (0x6954, 0x5028),
  (0x6957, 0x6925),
  (0x695A, 0x337E),
  (0x695D, 0x692C_4063),
  (0x6960, 0x692A),
  (0x6963, 0x6939),
  (0x6966, 0x6938),
  (0x696B, 0x692E),
  (0x696E, 0x687A),
  (0x6971, 0x6928),
  (0x6977, 0x3F2C_6931_693A),
  (0x697C, 0x4225),
  (0x6980, 0x692F),
  (0x6982, 0x3845),
  (0x6984, 0x692D),
  (0x6986, 0x535C_6934_6935_6937),
  (0x698D, 0x6947),
  (0x6994, 0x4046_6945),
  (0x6998, 0x6930),
  (0x699B, 0x693B_3071),
  (0x69A7, 0x693C_5525),
  (0x69AB, 0x693E),
  (0x69AD, 0x693F),
  (0x69B1, 0x6941),
  (0x69B4, 0x4171),
  (0x69B7, 0x4836),
  (0x69BB, 0x693D),
  (0x69C1, 0x6942),
  (0x69CA, 0x6943),
  (0x69CC, 0x6933),
  (0x69CE, 0x6936),
  (0x69D0, 0x3B31),
  (0x69D4, 0x6940),
  (0x69DB, 0x3C77),
  (0x69DF, 0x6944_6946),
  (0x69ED, 0x694A),
  (0x69F2, 0x694E),
  (0x69FD, 0x325B),
  (0x69FF, 0x6948),
  (0x6A0A, 0x372E),
  (0x6A17, 0x694B_694C),
  (0x6A1F, 0x5541),
  (0x6A21, 0x4423),
  (0x6A28, 0x6958),
  (0x6A2A, 0x3A61),
  (0x6A2F, 0x6949),
  (0x6A31, 0x5323),
  (0x6A35, 0x6954),
  (0x6A3D, 0x6957_6950),
  (0x6A44, 0x694F),
  (0x6A47, 0x4741),
  (0x6A50, 0x6952),
  (0x6A58, 0x6959_3348),
  (0x6A5B, 0x6953),
  (0x6A61, 0x4F70),
  (0x6A65, 0x694D),
  (0x6A71, 0x3377),
  (0x6A79, 0x6956),
  (0x6A7C, 0x695A),
  (0x6A80, 0x4C34),
  (0x6A84, 0x4F2D),
  (0x6A8E, 0x6955),
  (0x6A90, 0x695C_695B),
  (0x6A97, 0x695E),
  (0x6AA0, 0x6951),
  (0x6AA9, 0x695D),
  (0x6AAB, 0x695F_434A),
  (0x6B20, 0x4737_344E_3B36_5040_6C23),
  (0x6B27, 0x4537),
  (0x6B32, 0x537B),
  (0x6B37, 0x6C24),
  (0x6B39, 0x6C25_465B),
  (0x6B3E, 0x3F6E),
  (0x6B43, 0x6C26),
  (0x6B46, 0x6C27_502A),
  (0x6B49, 0x4738),
  (0x6B4C, 0x3868),
  (0x6B59, 0x6C28),
  (0x6B62, 0x5639_557D_344B_323D_4E64_4667),
  (0x6B6A, 0x4D61),
  (0x6B79, 0x3475),
  (0x6B7B, 0x4B40_3C5F),
  (0x6B81, 0x6962_6963_516A_6965),
  (0x6B86, 0x3479_6964),
  (0x6B89, 0x5133_4A62_3250),
  (0x6B8D, 0x6968),
  (0x6B92, 0x6966_6967),
  (0x6B96, 0x5633),
  (0x6B9A, 0x6969_696A),
  (0x6BA1, 0x696B),
  (0x6BAA, 0x696C),
  (0x6BB3, 0x6C2F_4539_364E),
  (0x6BB7, 0x5273),
  (0x6BBF, 0x356E),
  (0x6BC1, 0x3B59_6C31),
  (0x6BC5, 0x5263),
  (0x6BCB, 0x4E63),
  (0x6BCD, 0x4438),
  (0x6BCF, 0x433F),
  (0x6BD2, 0x363E_5839_3148_314F_3151_457E),
  (0x6BD9, 0x3150),
  (0x6BDB, 0x432B),
  (0x6BE1, 0x5531),
  (0x6BEA, 0x6B24_3A41),
  (0x6BEF, 0x4C3A),
  (0x6BF3, 0x6B25),
  (0x6BF5, 0x6B27),
  (0x6BF9, 0x6B28),
  (0x6BFD, 0x6B26),
  (0x6C05, 0x6B29_6B2B_6B2A),
  (0x6C0D, 0x6B2C),
  (0x6C0F, 0x4A4F_5835_4371),
  (0x6C13, 0x4325_4678_6B2D_444A),
  (0x6C18, 0x6B2E_6B2F_6B30_3755),
  (0x6C1F, 0x377A),
  (0x6C21, 0x6B31_4762),
  (0x6C24, 0x6B33),
  (0x6C26, 0x3A24_5175_3031_6B32_6B34),
  (0x6C2E, 0x352A_4248_4768),
  (0x6C32, 0x6B35),
  (0x6C34, 0x4B2E_635F),
  (0x6C38, 0x5340),
  (0x6C3D, 0x595B),
  (0x6C40, 0x4D21_562D_4773),
  (0x6C46, 0x5960_3B63),
  (0x6C49, 0x3A3A_6362),
  (0x6C50, 0x4F2B),
  (0x6C54, 0x6360_4947),
  (0x6C57, 0x3A39),
  (0x6C5B, 0x5134_6361_486A_392F_3D2D_3358_4E5B),
  (0x6C64, 0x4C40),
  (0x6C68, 0x6368_6369_4D74),
  (0x6C70, 0x4C2D),
  (0x6C72, 0x3C33),
  (0x6C74, 0x636A),
  (0x6C76, 0x636B),
  (0x6C79, 0x505A),
  (0x6C7D, 0x467B_375A),
  (0x6C81, 0x475F_524A_4E56),
  (0x6C85, 0x6364_636C),
  (0x6C88, 0x4972_3341),
  (0x6C8C, 0x6367),
  (0x6C8F, 0x4663_6365),
  (0x6C93, 0x6D33_6366),
  (0x6C99, 0x4933),
  (0x6C9B, 0x4566),
  (0x6C9F, 0x3935),
  (0x6CA1, 0x433B),
  (0x6CA3, 0x6363_453D_4124_4259_3257),
  (0x6CA9, 0x636D_3B26_442D),
  (0x6CAD, 0x6370_3E5A),
  (0x6CB1, 0x637B_6375_3A53),
  (0x6CB8, 0x3750_534D),
  (0x6CBB, 0x564E_5553_3941_5534_5158),
  (0x6CC4, 0x5039_4776),
  (0x6CC9, 0x482A_3234),
  (0x6CCC, 0x435A),
  (0x6CD0, 0x636E),
  (0x6CD3, 0x637C_636F_3728_6377_6374),
  (0x6CDB, 0x373A),
  (0x6CDE, 0x4522),
  (0x6CE0, 0x6376_455D_3228_467C),
  (0x6CE5, 0x4460),
  (0x6CE8, 0x5722),
  (0x6CEA, 0x4061_6379),
  (0x6CEE, 0x637A_637D_4C29_6373),
  (0x6CF3, 0x533E),
  (0x6CF5, 0x3143_6D34_6371_6372),
  (0x6CFA, 0x6378_503A_4643_5473_637E),
  (0x6D01, 0x3D60),
  (0x6D04, 0x6427),
  (0x6D07, 0x6426),
  (0x6D0B, 0x5173_6423),
  (0x6D0E, 0x6429),
  (0x6D12, 0x4877),
  (0x6D17, 0x4F34),
  (0x6D19, 0x6428_642E_4265),
  (0x6D1E, 0x3634),
  (0x6D25, 0x3D72),
  (0x6D27, 0x6422),
  (0x6D2A, 0x3A69_642A),
  (0x6D2E, 0x642C),
  (0x6D31, 0x367D_565E_6432),
  (0x6D35, 0x642D),
  (0x6D39, 0x6421),
  (0x6D3B, 0x3B6E_4D5D_4722_4549),
  (0x6D41, 0x4177),
  (0x6D43, 0x6424),
  (0x6D45, 0x4733_3D2C_3D3D_6425),
  (0x6D4A, 0x5747_3262),
  (0x6D4D, 0x642B_3C43_642F),
  (0x6D51, 0x3B6B_6430_4528_6431),
  (0x6D59, 0x5563_3F23),
  (0x6D5C, 0x643A),
  (0x6D5E, 0x6437),
  (0x6D60, 0x643B),
  (0x6D63, 0x643D),
  (0x6D66, 0x4656),
  (0x6D69, 0x3A46_404B),
  (0x6D6E, 0x3821_6434),
  (0x6D74, 0x5421),
  (0x6D77, 0x3A23_3D7E),
  (0x6D7C, 0x643C),
  (0x6D82, 0x4D3F),
  (0x6D85, 0x4479),
  (0x6D88, 0x4F7B_4966),
  (0x6D8C, 0x533F),
  (0x6D8E, 0x4F51),
  (0x6D91, 0x6433),
  (0x6D93, 0x6438_6439_4C69),
  (0x6D9B, 0x4C4E),
  (0x6D9D, 0x4054_6435_4130_6436_4E50),
  (0x6DA3, 0x3B41_3553),
  (0x6DA6, 0x4873_3D27_5547_492C_3822_644A),
  (0x6DAE, 0x644C_5144),
  (0x6DB2, 0x523A),
  (0x6DB5, 0x3A2D),
  (0x6DB8, 0x3A54),
  (0x6DBF, 0x6443_356D),
  (0x6DC4, 0x574D_6440_4F7D_643F),
  (0x6DCB, 0x415C_4C4A),
  (0x6DD1, 0x4A67),
  (0x6DD6, 0x4457),
  (0x6DD8, 0x4C54_6448),
  (0x6DDD, 0x6447_6441),
  (0x6DE0, 0x6444_352D),
  (0x6DE4, 0x5359),
  (0x6DE6, 0x6446),
  (0x6DEB, 0x5279_3463),
  (0x6DEE, 0x3B34),
  (0x6DF1, 0x496E),
  (0x6DF3, 0x343E),
  (0x6DF7, 0x3B6C),
  (0x6DF9, 0x514D),
  (0x6DFB, 0x4C6D_6D35),
  (0x6E05, 0x4765),
  (0x6E0A, 0x5428),
  (0x6E0C, 0x644B_5755_6442),
  (0x6E10, 0x3D25_6445),
  (0x6E14, 0x5366),
  (0x6E16, 0x6449_4978),
  (0x6E1A, 0x643E),
  (0x6E1D, 0x5365),
  (0x6E20, 0x477E_3649),
  (0x6E23, 0x547C_3233_6457),
  (0x6E29, 0x4E42),
  (0x6E2B, 0x644D),
  (0x6E2D, 0x4E3C),
  (0x6E2F, 0x385B),
  (0x6E32, 0x6456),
  (0x6E34, 0x3F4A),
  (0x6E38, 0x534E),
  (0x6E3A, 0x436C),
  (0x6E43, 0x4548_6458),
  (0x6E4D, 0x4D44_644F),
  (0x6E53, 0x6454_6455),
  (0x6E56, 0x3A7E),
  (0x6E58, 0x4F66),
  (0x6E5B, 0x553F),
  (0x6E5F, 0x6452),
  (0x6E6B, 0x6450),
  (0x6E6E, 0x644E),
  (0x6E7E, 0x4D65_4A2A),
  (0x6E83, 0x4023),
  (0x6E85, 0x3D26_6453),
  (0x6E89, 0x3848),
  (0x6E8F, 0x6467_5434),
  (0x6E98, 0x645B),
  (0x6E9C, 0x416F),
  (0x6E9F, 0x6469),
  (0x6EA2, 0x5267),
  (0x6EA5, 0x645F),
  (0x6EA7, 0x6460),
  (0x6EAA, 0x4F2A),
  (0x6EAF, 0x4B5D),
  (0x6EB1, 0x645A_6451),
  (0x6EB4, 0x6465),
  (0x6EB6, 0x485C_6463),
  (0x6EBA, 0x4467_6462),
  (0x6EBD, 0x6461),
  (0x6EC1, 0x337C_6468),
  (0x6EC7, 0x3561),
  (0x6ECB, 0x574C),
  (0x6ECF, 0x6466),
  (0x6ED1, 0x3B2C),
  (0x6ED3, 0x5752_4C4F_6B78),
  (0x6ED7, 0x6464),
  (0x6EDA, 0x3976),
  (0x6EDE, 0x564D_6459_645C_427A_645E),
  (0x6EE4, 0x424B_4044_4250),
  (0x6EE8, 0x3175_4C32),
  (0x6EF4, 0x354E),
  (0x6EF9, 0x646F),
  (0x6F02, 0x462F),
  (0x6F06, 0x4661),
  (0x6F09, 0x6475),
  (0x6F0F, 0x4229),
  (0x6F13, 0x406C_515D_646E),
  (0x6F20, 0x442E),
  (0x6F24, 0x646D),
  (0x6F29, 0x6476_6474_427E),
  (0x6F2D, 0x645D),
  (0x6F2F, 0x6470),
  (0x6F31, 0x4A7E),
  (0x6F33, 0x5544),
  (0x6F36, 0x6471),
  (0x6F3E, 0x517A),
  (0x6F46, 0x646B_646C),
  (0x6F4B, 0x6472),
  (0x6F4D, 0x4E2B),
  (0x6F58, 0x454B),
  (0x6F5C, 0x4731),
  (0x6F5E, 0x423A),
  (0x6F62, 0x646A),
  (0x6F66, 0x414A),
  (0x6F6D, 0x4C36_3331),
  (0x6F72, 0x647B),
  (0x6F74, 0x6473),
  (0x6F78, 0x647A),
  (0x6F7A, 0x647D),
  (0x6F7C, 0x647C),
  (0x6F84, 0x334E),
  (0x6F88, 0x333A_6477),
  (0x6F8C, 0x6479_6478_456C),
  (0x6F9C, 0x403D),
  (0x6FA1, 0x5468),
  (0x6FA7, 0x6522),
  (0x6FB3, 0x3044),
  (0x6FB6, 0x6524),
  (0x6FB9, 0x6523),
  (0x6FC0, 0x3C24),
  (0x6FC2, 0x6525),
  (0x6FC9, 0x6521),
  (0x6FD1, 0x647E_3174),
  (0x6FDE, 0x6528),
  (0x6FE0, 0x6529_6526),
  (0x6FEE, 0x6527_652A),
  (0x7011, 0x4659),
  (0x701A, 0x652B_652D),
  (0x7023, 0x652C),
  (0x7035, 0x652F),
  (0x7039, 0x652E),
  (0x704C, 0x3960),
  (0x704F, 0x6530),
  (0x705E, 0x6531),
  (0x706B, 0x3B70_6C61_4370),
  (0x706F, 0x3546_3B52),
  (0x7075, 0x4169_546E),
  (0x7078, 0x3E44),
  (0x707C, 0x5746),
  (0x707E, 0x5456_3253_6C3E),
  (0x7085, 0x6A41),
  (0x7089, 0x422F_3436),
  (0x708E, 0x5157),
  (0x7092, 0x3334),
  (0x7094, 0x4832_3F3B_6C40),
  (0x7099, 0x564B),
  (0x709C, 0x6C3F_6C41),
  (0x70AB, 0x6C45_3E66_4C3F_455A_3E3C),
  (0x70B1, 0x6C46),
  (0x70B3, 0x317E),
  (0x70B7, 0x6C44_5528_3563),
  (0x70BB, 0x6C42_4136_3363),
  (0x70C0, 0x6C43_4B38_4043_4C7E),
  (0x70C8, 0x4152),
  (0x70CA, 0x6C48),
  (0x70D8, 0x3A66_4053),
  (0x70DB, 0x5672),
  (0x70DF, 0x514C),
  (0x70E4, 0x3F3E),
  (0x70E6, 0x3733_4955_6C47_3B62),
  (0x70EB, 0x4C4C_3D7D_4848),
  (0x70EF, 0x4F29),
  (0x70F7, 0x4D69),
  (0x70F9, 0x456B),
  (0x70FD, 0x3769),
  (0x7109, 0x5149_3A38),
  (0x7110, 0x6C49),
  (0x7113, 0x6C4A),
  (0x7115, 0x3B40_6C4B),
  (0x7118, 0x6C62_313A_3759),
  (0x7126, 0x3D39),
  (0x712F, 0x6C4C_5166_6C4D),
  (0x7136, 0x483B),
  (0x7145, 0x6C51),
  (0x714A, 0x6C53),
  (0x714C, 0x3B4D),
  (0x714E, 0x3C65),
  (0x715C, 0x6C4F),
  (0x715E, 0x4937),
  (0x7164, 0x433A),
  (0x7166, 0x6C63_5555_6C50),
  (0x716E, 0x5673),
  (0x7172, 0x6C52_6C4E),
  (0x7178, 0x6C54),
  (0x717A, 0x6C55),
  (0x717D, 0x493F),
  (0x7184, 0x4F28),
  (0x718A, 0x505C),
  (0x718F, 0x512C),
  (0x7194, 0x485B),
  (0x7198, 0x6C56_4E75),
  (0x719F, 0x4A6C_6C5A),
  (0x71A8, 0x6C59),
  (0x71AC, 0x303E),
  (0x71B3, 0x6C57),
  (0x71B5, 0x6C58),
  (0x71B9, 0x6C64),
  (0x71C3, 0x483C),
  (0x71CE, 0x4147),
  (0x71D4, 0x6C5C_5160),
  (0x71E0, 0x6C5B),
  (0x71E5, 0x546F),
  (0x71E7, 0x6C5D),
  (0x71EE, 0x5B46),
  (0x71F9, 0x6C5E),
  (0x7206, 0x312C),
  (0x721D, 0x6C5F),
  (0x7228, 0x6C60),
  (0x722A, 0x5726),
  (0x722C, 0x4540),
  (0x7230, 0x6B3C_302E),
  (0x7235, 0x3E74_3838_522F_3056_3579),
  (0x723B, 0x5833),
  (0x723D, 0x4B2C),
  (0x723F, 0x635D),
  (0x7247, 0x462C_3066),
  (0x724C, 0x4546_6B39),
  (0x7252, 0x6B3A),
  (0x7256, 0x6B3B),
  (0x7259, 0x5140),
  (0x725B, 0x4523),
  (0x725D, 0x6A72),
  (0x725F, 0x4432),
  (0x7261, 0x4435_404E),
  (0x7266, 0x6A73_4441),
  (0x7269, 0x4E6F),
  (0x726E, 0x6A70_6A74),
  (0x7272, 0x497C),
  (0x7275, 0x4723),
  (0x7279, 0x4C58_4E7E),
  (0x727E, 0x6A75_6A76_4F2C_4067),
  (0x7284, 0x6A77),
  (0x728A, 0x363F_6A78),
  (0x728D, 0x6A79),
  (0x728F, 0x6A7A),
  (0x7292, 0x6A7B),
  (0x729F, 0x6A71),
  (0x72AC, 0x482E_616B),
  (0x72AF, 0x3738_616C),
  (0x72B4, 0x616D),
  (0x72B6, 0x5734_616E_616F_534C),
  (0x72C1, 0x6171_3F71_6170_3552),
  (0x72C8, 0x3137),
  (0x72CD, 0x6173_6172),
  (0x72D0, 0x3A7C),
  (0x72D2, 0x6174),
  (0x72D7, 0x3937),
  (0x72D9, 0x3E51),
  (0x72DE, 0x447C),
  (0x72E0, 0x3A5D_3D46),
  (0x72E8, 0x6175_6177),
  (0x72EC, 0x3640_4F41_4A28_6176_5578_537C_6178_617C_6179),
  (0x72F7, 0x617A_406A),
  (0x72FA, 0x617E_6221_4047),
  (0x7301, 0x617B),
  (0x7303, 0x617D),
  (0x730A, 0x6225),
  (0x730E, 0x4154),
  (0x7313, 0x6223),
  (0x7315, 0x6228_327E_6222),
  (0x731B, 0x434D_3242_6227_6226),
  (0x7321, 0x6224_6229),
  (0x7325, 0x622B),
  (0x7329, 0x5049_566D_4328_622C),
  (0x732E, 0x4F57),
  (0x7331, 0x622E),
  (0x7334, 0x3A6F),
  (0x7337, 0x6960_622D_622A),
  (0x733E, 0x3B2B_5433),
  (0x734D, 0x6230),
  (0x7350, 0x622F),
  (0x7352, 0x6961),
  (0x7357, 0x6231),
  (0x7360, 0x6232),
  (0x736C, 0x6233_4C21),
  (0x736F, 0x6234),
  (0x737E, 0x6235),
  (0x7384, 0x507E),
  (0x7387, 0x424A),
  (0x7389, 0x5371),
  (0x738B, 0x4D75),
  (0x738E, 0x6760),
  (0x7391, 0x6761),
  (0x7396, 0x3E41),
  (0x739B, 0x426A),
  (0x739F, 0x6764),
  (0x73A2, 0x6763),
  (0x73A9, 0x4D66),
  (0x73AB, 0x4335),
  (0x73AE, 0x6762_3B37_4F56),
  (0x73B2, 0x4161_6769),
  (0x73B7, 0x6768),
  (0x73BA, 0x6774_3223),
  (0x73C0, 0x676A),
  (0x73C2, 0x6766),
  (0x73C8, 0x676C_676B_493A),
  (0x73CD, 0x5564),
  (0x73CF, 0x6765_3729_6767),
  (0x73D9, 0x676E),
  (0x73DE, 0x6773),
  (0x73E0, 0x5669),
  (0x73E5, 0x676D),
  (0x73E7, 0x6772),
  (0x73E9, 0x6771),
  (0x73ED, 0x3060),
  (0x73F2, 0x6775),
  (0x7403, 0x4772),
  (0x7405, 0x4045_406D),
  (0x7409, 0x4170_6770),
  (0x740F, 0x6776_4B76),
  (0x741A, 0x6822_6821),
  (0x7422, 0x5741),
  (0x7425, 0x677A_6779),
  (0x7428, 0x677B),
  (0x742A, 0x6777),
  (0x742C, 0x677E),
  (0x742E, 0x677D),
  (0x7430, 0x677C),
  (0x7433, 0x4155_4759_457D_4543),
  (0x743C, 0x476D),
  (0x7441, 0x6823),
  (0x7455, 0x6826),
  (0x7457, 0x6825),
  (0x7459, 0x6827_3A77_6778_6824),
  (0x745E, 0x4870_492A),
  (0x746D, 0x6829),
  (0x7470, 0x3965),
  (0x7476, 0x517E_6828),
  (0x747E, 0x682A),
  (0x7480, 0x682D_682E),
  (0x7483, 0x4127),
  (0x7487, 0x682F),
  (0x748B, 0x6830),
  (0x748E, 0x682C),
  (0x7490, 0x6834),
  (0x749C, 0x682B),
  (0x749E, 0x6831),
  (0x74A7, 0x6835_6832_6833),
  (0x74BA, 0x6837),
  (0x74D2, 0x6836),
  (0x74DC, 0x394F),
  (0x74DE, 0x702C),
  (0x74E0, 0x702D),
  (0x74E2, 0x4630_306A_483F),
  (0x74E6, 0x4D5F),
  (0x74EE, 0x4E4D_6A31),
  (0x74F4, 0x6A32),
  (0x74F6, 0x463F_3449),
  (0x74FF, 0x6A33),
  (0x7504, 0x5567),
  (0x750D, 0x5D79),
  (0x750F, 0x6A34),
  (0x7511, 0x6A35),
  (0x7513, 0x6A36),
  (0x7518, 0x384A_5F30_4975),
  (0x751C, 0x4C70),
  (0x751F, 0x497A),
  (0x7525, 0x497B),
  (0x7528, 0x5343_4B26),
  (0x752B, 0x3826_702E_3142),
  (0x752F, 0x6538_4C6F_5349_3C57_496A),
  (0x7535, 0x3567),
  (0x7537, 0x4450_3569),
  (0x753A, 0x6E2E_3B2D),
  (0x753E, 0x675E),
  (0x7540, 0x6E2F),
  (0x7545, 0x3329),
  (0x7548, 0x6E32),
  (0x754B, 0x6E31_3D67),
  (0x754E, 0x6E30_4E37),
  (0x7554, 0x454F),
  (0x7559, 0x4174_5B4E_6E33_5073),
  (0x7565, 0x4254_4668),
  (0x756A, 0x372C),
  (0x7572, 0x6E34),
  (0x7574, 0x336B),
  (0x7578, 0x3B7B_6E35),
  (0x757F, 0x675C),
  (0x7583, 0x6E36),
  (0x7586, 0x3D2E),
  (0x758B, 0x7162),
  (0x758F, 0x4A68),
  (0x7591, 0x5249_705A),
  (0x7594, 0x705B),
  (0x7596, 0x705C_4146),
  (0x7599, 0x386D_3E4E),
  (0x759D, 0x705E),
  (0x759F, 0x4531_705D_5171),
  (0x75A3, 0x7060_304C_3D6A),
  (0x75AB, 0x525F_705F),
  (0x75AE, 0x342F_3768_7066_7065_4623_7061_7062_3443),
  (0x75B8, 0x7063_556E),
  (0x75BC, 0x4C5B_3E52_3C32),
  (0x75C2, 0x7068_7067_7064_3221),
  (0x75C7, 0x5622_5338_3E37_482C),
  (0x75CD, 0x706A),
  (0x75D2, 0x5177),
  (0x75D4, 0x564C_3A5B_7069),
  (0x75D8, 0x363B),
  (0x75DB, 0x4D34),
  (0x75DE, 0x4626),
  (0x75E2, 0x4121_706B_706E),
  (0x75E6, 0x706D_7070_706C),
  (0x75EA, 0x3B3E_706F),
  (0x75F0, 0x4C35_7072),
  (0x75F4, 0x3355),
  (0x75F9, 0x3154),
  (0x75FC, 0x7073),
  (0x75FF, 0x7074_7076_3461),
  (0x7603, 0x7071),
  (0x7605, 0x7077),
  (0x760A, 0x707A),
  (0x760C, 0x7078),
  (0x7610, 0x7075),
  (0x7615, 0x707D),
  (0x7617, 0x7079_707C_707E),
  (0x761B, 0x7121),
  (0x761F, 0x4E41_7124),
  (0x7622, 0x7123),
  (0x7624, 0x4176_707B_4A5D),
  (0x7629, 0x3471_3171_4C31),
  (0x762D, 0x7126),
  (0x7630, 0x7127),
  (0x7633, 0x712C_554E_7129),
  (0x7638, 0x4833),
  (0x763C, 0x7122),
  (0x763E, 0x712B_7128_7125),
  (0x7643, 0x712A),
  (0x764C, 0x3029_712D),
  (0x7654, 0x712F),
  (0x7656, 0x7131),
  (0x765C, 0x7130),
  (0x765E, 0x712E),
  (0x7663, 0x5122),
  (0x766B, 0x7132),
  (0x766F, 0x7133),
  (0x7678, 0x396F),
  (0x767B, 0x3547),
  (0x767D, 0x3057_3059),
  (0x7682, 0x546D),
  (0x7684, 0x3544),
  (0x7686, 0x3D54_3B4A_7027),
  (0x768B, 0x385E),
  (0x768E, 0x7028),
  (0x7691, 0x3028),
  (0x7693, 0x7029),
  (0x7696, 0x4D6E),
  (0x7699, 0x702A),
  (0x76A4, 0x702B),
  (0x76AE, 0x4624),
  (0x76B1, 0x5665_7164),
  (0x76B4, 0x7165),
  (0x76BF, 0x4373),
  (0x76C2, 0x535B),
  (0x76C5, 0x5651_4568),
  (0x76C8, 0x532F),
  (0x76CA, 0x5266),
  (0x76CD, 0x6E41_303B_5535_514E_3C60_3A50),
  (0x76D4, 0x3F78),
  (0x76D6, 0x3847_3541_454C),
  (0x76DB, 0x4A22),
  (0x76DF, 0x434B),
  (0x76E5, 0x6E42),
  (0x76EE, 0x443F_3622),
  (0x76F1, 0x6D6C_4324),
  (0x76F4, 0x5631),
  (0x76F8, 0x4F60_6D6F),
  (0x76FC, 0x454E),
  (0x76FE, 0x365C),
  (0x7701, 0x4A21),
  (0x7704, 0x6D6D),
  (0x7707, 0x6D70_6D71_433C),
  (0x770B, 0x3F34),
  (0x770D, 0x6D6E),
  (0x7719, 0x6D74_6D72),
  (0x771F, 0x5566_435F),
  (0x7722, 0x6D73),
  (0x7726, 0x6D76),
  (0x7728, 0x5523_5123),
  (0x772D, 0x6D75),
  (0x772F, 0x4350),
  (0x7735, 0x6D77_3F74_3E6C_6D78),
  (0x773A, 0x4C77),
  (0x773C, 0x515B),
  (0x7740, 0x5745_5576),
  (0x7743, 0x6D7C),
  (0x7747, 0x6D7B),
  (0x7750, 0x6D79_6D7A),
  (0x775A, 0x6D7D_3E26),
  (0x7761, 0x4B2F_6E21_363D),
  (0x7765, 0x6E22_4440),
  (0x7768, 0x6D7E),
  (0x776B, 0x3D5E_3247),
  (0x7779, 0x3643),
  (0x777D, 0x6E25_583A_6E23_6E26),
  (0x7784, 0x4369_3372),
  (0x778C, 0x6E27_6E24_4F39),
  (0x7791, 0x6E28_4277),
  (0x779F, 0x6E29_6E2A),
  (0x77A2, 0x5E2B),
  (0x77A5, 0x4633),
  (0x77A7, 0x4746),
  (0x77A9, 0x5675_3549),
  (0x77AC, 0x4B32),
  (0x77B0, 0x6E2B),
  (0x77B3, 0x4D2B),
  (0x77B5, 0x6E2C),
  (0x77BB, 0x5530),
  (0x77BD, 0x6E2D),
  (0x77BF, 0x7644),
  (0x77CD, 0x5B47),
  (0x77D7, 0x3423),
  (0x77DB, 0x432C_7166),
  (0x77E2, 0x4A38_5253),
  (0x77E5, 0x562A),
  (0x77E7, 0x6F72),
  (0x77E9, 0x3E58),
  (0x77EB, 0x3D43_6F73_364C_302B),
  (0x77F3, 0x4A2F),
  (0x77F6, 0x6D36),
  (0x77F8, 0x6D37),
  (0x77FD, 0x4E79_372F_3F73_6D38_426B_4930),
  (0x7809, 0x6D39),
  (0x780C, 0x4676_3F33),
  (0x7811, 0x6D3C_4578),
  (0x7814, 0x5150),
  (0x7816, 0x5729_6D3A_6D3B),
  (0x781A, 0x5162),
  (0x781C, 0x6D3F_6D40),
  (0x781F, 0x6D44),
  (0x7823, 0x6D48),
  (0x7825, 0x6D46_6D4E_5568),
  (0x7829, 0x6D49),
  (0x782C, 0x6D47_6D3E),
  (0x7830, 0x4569),
  (0x7834, 0x4646),
  (0x7837, 0x4969_5452_6D41_6D42_6D43_6D45),
  (0x783E, 0x4079),
  (0x7840, 0x3421),
  (0x7845, 0x3968),
  (0x7847, 0x6D50),
  (0x784C, 0x6D51),
  (0x784E, 0x6D4A),
  (0x7850, 0x6D4F),
  (0x7852, 0x4E78),
  (0x7855, 0x4B36_6D4C_6D4D),
  (0x785D, 0x4F75),
  (0x786A, 0x6D52_4172_5332_6D4B_4837),
  (0x7877, 0x3C6F),
  (0x787C, 0x4570),
  (0x7887, 0x6D56),
  (0x7889, 0x356F),
  (0x788C, 0x4235_302D_4B69),
  (0x7891, 0x312E),
  (0x7893, 0x6D54),
  (0x7897, 0x4D6B_3562),
  (0x789A, 0x6D55_6D53_6D57),
  (0x789F, 0x357A),
  (0x78A1, 0x6D58),
  (0x78A3, 0x6D59),
  (0x78A5, 0x6D5C),
  (0x78A7, 0x314C),
  (0x78B0, 0x4576_3C6E_6D5A_4C3C_326A),
  (0x78B9, 0x6D5B),
  (0x78BE, 0x446B),
  (0x78C1, 0x3445),
  (0x78C5, 0x3075),
  (0x78C9, 0x6D5F_405A_3468),
  (0x78D0, 0x454D),
  (0x78D4, 0x6D5D_3F44),
  (0x78D9, 0x6D5E),
  (0x78E8, 0x4425),
  (0x78EC, 0x6D60),
  (0x78F2, 0x6D61),
  (0x78F4, 0x6D63),
  (0x78F7, 0x4157),
  (0x78FA, 0x3B47),
  (0x7901, 0x3D38),
  (0x7905, 0x6D62),
  (0x7913, 0x6D64),
  (0x791E, 0x6D66),
  (0x7924, 0x6D65),
  (0x7934, 0x6D67),
  (0x793A, 0x4A3E_6C6A_4071),
  (0x793E, 0x4967),
  (0x7940, 0x6C6B_466E),
  (0x7946, 0x6C6C),
  (0x7948, 0x466D_6C6D),
  (0x7953, 0x6C70),
  (0x7956, 0x5766_6C73),
  (0x795A, 0x6C71_6C6E_6C6F_5723_4971_4B6E_6C74),
  (0x7962, 0x6C72),
  (0x7965, 0x4F69),
  (0x7967, 0x6C76_4631),
  (0x796D, 0x3C40),
  (0x796F, 0x6C75),
  (0x7977, 0x353B_3B76),
  (0x797A, 0x6C77),
  (0x7980, 0x5977_3D7B),
  (0x7984, 0x423B_6C78),
  (0x798A, 0x6C79),
  (0x798F, 0x3823),
  (0x799A, 0x6C7A),
  (0x79A7, 0x6C7B),
  (0x79B3, 0x6C7C),
  (0x79B9, 0x536D_582E_406B),
  (0x79BD, 0x475D_3A4C),
  (0x79C0, 0x5063_4B3D),
  (0x79C3, 0x4D3A),
  (0x79C6, 0x3851),
  (0x79C9, 0x317C),
  (0x79CB, 0x476F),
  (0x79CD, 0x5656),
  (0x79D1, 0x3F46_436B),
  (0x79D5, 0x6F75),
  (0x79D8, 0x4358),
  (0x79DF, 0x5762),
  (0x79E3, 0x6F77_3353),
  (0x79E6, 0x4758_516D),
  (0x79E9, 0x5648),
  (0x79EB, 0x6F78),
  (0x79ED, 0x6F76),
  (0x79EF, 0x3B7D_3346),
  (0x79F8, 0x3D55),
  (0x79FB, 0x5246),
  (0x79FD, 0x3B60),
  (0x7A00, 0x4F21),
  (0x7A02, 0x6F7C_6F7B),
  (0x7A06, 0x6F79),
  (0x7A0B, 0x334C),
  (0x7A0D, 0x4954_4B30),
  (0x7A14, 0x6F7E),
  (0x7A17, 0x305E),
  (0x7A1A, 0x5649),
  (0x7A1E, 0x6F7D),
  (0x7A20, 0x336D),
  (0x7A23, 0x7655),
  (0x7A33, 0x4E48),
  (0x7A37, 0x7022),
  (0x7A39, 0x7021),
  (0x7A3B, 0x353E_3C5A_3B7C),
  (0x7A3F, 0x3865),
  (0x7A46, 0x4442),
  (0x7A51, 0x7023),
  (0x7A57, 0x4B6B),
  (0x7A70, 0x7026),
  (0x7A74, 0x5128),
  (0x7A76, 0x3E3F_476E_7136_7137_3F55),
  (0x7A7F, 0x3429_7138_4D3B),
  (0x7A83, 0x4754_552D),
  (0x7A86, 0x7139),
  (0x7A88, 0x713A),
  (0x7A8D, 0x474F),
  (0x7A91, 0x5224_564F),
  (0x7A95, 0x713B_3D51_3430_3E3D),
  (0x7A9C, 0x345C_4E51),
  (0x7A9F, 0x3F5F_713D),
  (0x7AA5, 0x3F7A_713C),
  (0x7AA8, 0x713F),
  (0x7AAC, 0x713E_7140),
  (0x7AB3, 0x7141),
  (0x7ABF, 0x417E),
  (0x7ACB, 0x4122),
  (0x7AD6, 0x4A7A),
  (0x7AD9, 0x553E),
  (0x7ADE, 0x3E3A_3E39_5542),
  (0x7AE3, 0x3F22),
  (0x7AE5, 0x4D2F_7135),
  (0x7AED, 0x3D5F),
  (0x7AEF, 0x364B),
  (0x7AF9, 0x5671_7343),
  (0x7AFD, 0x7344),
  (0x7AFF, 0x384D),
  (0x7B03, 0x7346_7347),
  (0x7B06, 0x304A),
  (0x7B08, 0x7345),
  (0x7B0A, 0x7349_4B71),
  (0x7B0F, 0x734B),
  (0x7B11, 0x5026),
  (0x7B14, 0x314A_7348),
  (0x7B19, 0x734F),
  (0x7B1B, 0x3551),
  (0x7B1E, 0x7357),
  (0x7B20, 0x7352),
  (0x7B24, 0x7354_7353_377B),
  (0x7B28, 0x313F),
  (0x7B2A, 0x734E_734A_355A),
  (0x7B2E, 0x7350),
  (0x7B31, 0x7351),
  (0x7B33, 0x7355),
  (0x7B38, 0x734D),
  (0x7B3A, 0x3C63),
  (0x7B3C, 0x417D),
  (0x7B3E, 0x7356),
  (0x7B45, 0x735A),
  (0x7B47, 0x734C),
  (0x7B49, 0x3548),
  (0x7B4B, 0x3D6E_735C),
  (0x7B4F, 0x3724_3F70_567E_4D32),
  (0x7B54, 0x3470),
  (0x7B56, 0x325F),
  (0x7B58, 0x7358),
  (0x7B5A, 0x7359_4938),
  (0x7B5D, 0x735D),
  (0x7B60, 0x735E),
  (0x7B62, 0x7361),
  (0x7B6E, 0x735F),
  (0x7B71, 0x7363_7362),
  (0x7B75, 0x735B),
  (0x7B77, 0x3F6A),
  (0x7B79, 0x336F),
  (0x7B7B, 0x7360),
  (0x7B7E, 0x4729),
  (0x7B80, 0x3C72),
  (0x7B85, 0x736B),
  (0x7B8D, 0x393F),
  (0x7B90, 0x7364),
  (0x7B94, 0x322D_3B7E),
  (0x7B97, 0x4B63),
  (0x7B9C, 0x736D_7369),
  (0x7BA1, 0x395C_736E),
  (0x7BA6, 0x7365_7366_736A_4261_736C_736F_7368_3C7D),
  (0x7BB1, 0x4F64),
  (0x7BB4, 0x7370),
  (0x7BB8, 0x7367),
  (0x7BC1, 0x7372),
  (0x7BC6, 0x572D_462A),
  (0x7BCC, 0x7373),
  (0x7BD1, 0x7371),
  (0x7BD3, 0x4228),
  (0x7BD9, 0x385D_7375),
  (0x7BDD, 0x7374),
  (0x7BE1, 0x345B),
  (0x7BE5, 0x7376_7377),
  (0x7BEA, 0x7378),
  (0x7BEE, 0x403A),
  (0x7BF1, 0x4069),
  (0x7BF7, 0x4571),
  (0x7BFC, 0x737B),
  (0x7BFE, 0x737A),
  (0x7C07, 0x3458),
  (0x7C0B, 0x737E_7379),
  (0x7C0F, 0x737C),
  (0x7C16, 0x737D),
  (0x7C1F, 0x7421),
  (0x7C26, 0x7423_3B49),
  (0x7C2A, 0x7422),
  (0x7C38, 0x7424),
  (0x7C3F, 0x323E_7426_7425),
  (0x7C4D, 0x3C2E),
  (0x7C73, 0x4357_5961),
  (0x7C7B, 0x4060_744C_5751),
  (0x7C89, 0x375B),
  (0x7C91, 0x744E_4123),
  (0x7C95, 0x4649),
  (0x7C97, 0x3456_5533),
  (0x7C9C, 0x7450_744F_7451_4B5A),
  (0x7CA2, 0x7452),
  (0x7CA4, 0x5441_5660),
  (0x7CAA, 0x3760),
  (0x7CAE, 0x4138),
  (0x7CB1, 0x413B_7453_3E2C),
  (0x7CB9, 0x3462),
  (0x7CBC, 0x7454_7455_3E2B),
  (0x7CC1, 0x7456),
  (0x7CC5, 0x745B),
  (0x7CC7, 0x7457_745A),
  (0x7CCA, 0x3A7D),
  (0x7CCC, 0x7458_7459),
  (0x7CD5, 0x3862_4C47_745C),
  (0x7CD9, 0x325A),
  (0x7CDC, 0x4353),
  (0x7CDF, 0x5463_3F37),
  (0x7CE8, 0x745D),
  (0x7CEF, 0x4534),
  (0x7CF8, 0x7469),
  (0x7CFB, 0x4F35),
  (0x7D0A, 0x4E49),
  (0x7D20, 0x4B58),
  (0x7D22, 0x4B77),
  (0x7D27, 0x3D74),
  (0x7D2B, 0x574F),
  (0x7D2F, 0x405B),
  (0x7D6E, 0x5075),
  (0x7D77, 0x746A),
  (0x7DA6, 0x746B),
  (0x7DAE, 0x746C),
  (0x7E3B, 0x7763),
  (0x7E41, 0x3731),
  (0x7E47, 0x746D),
  (0x7E82, 0x576B),
  (0x7E9B, 0x746E),
  (0x7E9F, 0x6679_3E40_667A_3A6C_667B_4F4B_667C_543C_3C36_667D_667E_3C4D),
  (0x7EAB, 0x4852_4E33_6721),
  (0x7EAF, 0x343F_6722_4934_3859_4449),
  (0x7EB5, 0x575D_425A_3757_563D_4E46_3744),
  (0x7EBD, 0x4526_6723_4F5F_6724_6725_6726_4137_5769_4970_4F38_562F_5655),
  (0x7EC9, 0x6727_306D_6728_6729_495C_526F_3E2D_672A_3073_485E_3D61_672B),
  (0x7ED5, 0x4846),
  (0x7ED7, 0x672C_3B66_3878_5124_672D_4267_3E78_3D4A_4D33_672E_672F_3E6E),
  (0x7EE3, 0x5065),
  (0x7EE5, 0x4B67_4C50_3C4C_6730_3C28_5077_6731),
  (0x7EED, 0x5078_6732_6733_3442_6734_6735_497E_4E2C_4360_6737_3141_3371),
  (0x7EFA, 0x6738_6739_575B_5540_673A_424C_573A_673B_673C_673D_3C6A_4365),
  (0x7F06, 0x4042_673E_673F_3C29),
  (0x7F0B, 0x6740_6741_6736_3650_6742),
  (0x7F11, 0x6743_6744_3B3A_355E_4246_3160_6745_5435_6746_383F_6748_6747),
  (0x7F1D, 0x376C),
  (0x7F1F, 0x6749_3278_674A_674B_674C_674D_674E_674F_6750_5327_4B75_6751),
  (0x7F2B, 0x6752_6753_6754_4949_6755_6756_6757_6758_6759_3D49_675A_733E),
  (0x7F38, 0x3857),
  (0x7F3A, 0x4831),
  (0x7F42, 0x733F),
  (0x7F44, 0x7340_7341),
  (0x7F50, 0x395E_4D78),
  (0x7F54, 0x5868_3A31),
  (0x7F57, 0x425E_6E37),
  (0x7F5A, 0x3723),
  (0x7F5F, 0x6E39),
  (0x7F61, 0x6E38_3055),
  (0x7F68, 0x6E3B_5556_576F),
  (0x7F6E, 0x5643),
  (0x7F71, 0x6E3D_4A70),
  (0x7F74, 0x6E3C),
  (0x7F79, 0x6E3E),
  (0x7F7E, 0x6E40),
  (0x7F81, 0x6E3F),
  (0x7F8A, 0x5172),
  (0x7F8C, 0x473C),
  (0x7F8E, 0x4340),
  (0x7F94, 0x3861),
  (0x7F9A, 0x4167),
  (0x7F9D, 0x7446_505F_7447),
  (0x7FA1, 0x4F5B),
  (0x7FA4, 0x483A),
  (0x7FA7, 0x7448),
  (0x7FAF, 0x7449_744A),
  (0x7FB2, 0x744B),
  (0x7FB8, 0x597A_387E),
  (0x7FBC, 0x6571_5370),
  (0x7FBF, 0x7460),
  (0x7FC1, 0x4E4C),
  (0x7FC5, 0x3361),
  (0x7FCA, 0x7134),
  (0x7FCC, 0x526E),
  (0x7FCE, 0x7461),
  (0x7FD4, 0x4F68_7462),
  (0x7FD8, 0x474C),
  (0x7FDF, 0x3554_3464_7464),
  (0x7FE5, 0x7463_7465),
  (0x7FE9, 0x7466),
  (0x7FEE, 0x7467),
  (0x7FF0, 0x3A32_303F),
  (0x7FF3, 0x7468),
  (0x7FFB, 0x372D_526D),
  (0x8000, 0x522B_404F),
  (0x8003, 0x3F3C_6B23_555F_6A48),
  (0x800B, 0x7173_3678_4B23),
  (0x8010, 0x444D),
  (0x8012, 0x7167),
  (0x8014, 0x7168_387B_7169_3A44_5445_3052),
  (0x801C, 0x716A),
  (0x8020, 0x716B),
  (0x8022, 0x716C),
  (0x8025, 0x716D_716E_716F_7171_7170_4555),
  (0x8031, 0x7172),
  (0x8033, 0x367A),
  (0x8035, 0x7174_522E_5E47_4B4A),
  (0x803B, 0x335C),
  (0x803D, 0x3522),
  (0x803F, 0x3922),
  (0x8042, 0x4474_7175),
  (0x8046, 0x7176),
  (0x804A, 0x4144_417B_5630_7177),
  (0x8052, 0x7178),
  (0x8054, 0x412A),
  (0x8058, 0x4638),
  (0x805A, 0x3E5B),
  (0x8069, 0x7179_344F),
  (0x8071, 0x717A),
  (0x807F, 0x6D32_6D31),
  (0x8083, 0x4B60_525E),
  (0x8086, 0x4B41_5558),
  (0x8089, 0x4862),
  (0x808B, 0x405F_3C21),
  (0x8093, 0x6B41),
  (0x8096, 0x5024),
  (0x8098, 0x5662),
  (0x809A, 0x3647_3858_6B40_384E),
  (0x809F, 0x6B3F_3326_3949_562B),
  (0x80A4, 0x3774_374A),
  (0x80A9, 0x3C67_373E_6B46),
  (0x80AD, 0x6B47_3039_3F4F),
  (0x80B1, 0x6B45_537D),
  (0x80B4, 0x6B48),
  (0x80B7, 0x6B49),
  (0x80BA, 0x374E),
  (0x80BC, 0x6B42_6B44_4976_5657_554D_5032_6B4F_4E38_6B50),
  (0x80C6, 0x3528),
  (0x80CC, 0x3133_6B52_4C25),
  (0x80D6, 0x4556_6B53),
  (0x80D9, 0x6B51_455F_6B4E_4A24_6B55_307B),
  (0x80E1, 0x3A7A),
  (0x80E4, 0x5837_7163),
  (0x80E7, 0x6B4A_6B4B_6B4C_6B4D_6B56_6640_6B59),
  (0x80EF, 0x3F68_5248_6B57_6B5C_386C_6B58),
  (0x80F6, 0x3D3A),
  (0x80F8, 0x5058),
  (0x80FA, 0x3037),
  (0x80FC, 0x6B5D_445C),
  (0x8102, 0x562C),
  (0x8106, 0x3460),
  (0x8109, 0x4276_3C39),
  (0x810D, 0x6B5A_6B5B_5460_466A_4454_6B5F_4527_5975),
  (0x8116, 0x3231),
  (0x8118, 0x6B64),
  (0x811A, 0x3D45),
  (0x811E, 0x6B62),
  (0x812C, 0x6B63),
  (0x812F, 0x382C),
  (0x8131, 0x4D51_6B65),
  (0x8136, 0x6B61),
  (0x8138, 0x4133),
  (0x813E, 0x4622),
  (0x8146, 0x4C73),
  (0x8148, 0x6B66),
  (0x814A, 0x4030_5238_6B67),
  (0x8150, 0x382F_382D),
  (0x8153, 0x6B68_473B_4D73),
  (0x8159, 0x6B6A_6B6B),
  (0x8160, 0x6B6D),
  (0x8165, 0x5048),
  (0x8167, 0x6B72),
  (0x8169, 0x6B6E),
  (0x816D, 0x6B71_4879),
  (0x8170, 0x517C_6B6C),
  (0x8174, 0x6B69),
  (0x8179, 0x3839_4F59_4465_6B6F_6B70_4C5A_4D48_3072),
  (0x8182, 0x6B76),
  (0x8188, 0x6B75),
  (0x818A, 0x3232),
  (0x818F, 0x3860),
  (0x8191, 0x6B77),
  (0x8198, 0x316C),
  (0x819B, 0x4C45_4424_4F25),
  (0x81A3, 0x6B79),
  (0x81A6, 0x6C22),
  (0x81A8, 0x4572),
  (0x81AA, 0x6B7A),
  (0x81B3, 0x4945),
  (0x81BA, 0x625F_6B7E),
  (0x81C0, 0x4D4E_6C21_315B_5337),
  (0x81C6, 0x525C),
  (0x81CA, 0x6B7D),
  (0x81CC, 0x6B7B),
  (0x81E3, 0x333C),
  (0x81E7, 0x6A30),
  (0x81EA, 0x5754),
  (0x81EC, 0x742B_3374),
  (0x81F3, 0x5641_5642),
  (0x81FB, 0x5569_3E4A),
  (0x81FE, 0x7427),
  (0x8200, 0x5228_7428_7429),
  (0x8204, 0x742A_3E4B_535F),
  (0x820C, 0x4960_4961),
  (0x8210, 0x7342),
  (0x8212, 0x4A66),
  (0x8214, 0x4C72),
  (0x821B, 0x6236_4B34),
  (0x821E, 0x4E68_565B),
  (0x8221, 0x742D_742E_742F),
  (0x8228, 0x7432),
  (0x822A, 0x3A3D_7433_3063_7430),
  (0x822F, 0x7431_3D22_3255),
  (0x8233, 0x7436_7437_3666_3230_4F4F_7434_342C),
  (0x823B, 0x7435),
  (0x823E, 0x7438),
  (0x8244, 0x7439),
  (0x8247, 0x4D27),
  (0x8249, 0x743A),
  (0x824B, 0x743B),
  (0x824F, 0x743C),
  (0x8258, 0x4B52),
  (0x825A, 0x743D),
  (0x825F, 0x743E),
  (0x8268, 0x743F),
  (0x826E, 0x745E_413C_3C68),
  (0x8272, 0x492B_515E_6575),
  (0x8279, 0x5C33_5255),
  (0x827D, 0x5C34_302C_5C35),
  (0x8282, 0x3D5A),
  (0x8284, 0x5C39),
  (0x8288, 0x5842),
  (0x828A, 0x5C37_5373),
  (0x828D, 0x4956_5C3A_5C36),
  (0x8291, 0x5C3B_4322),
  (0x8297, 0x5C3C_5C45_5C3D),
  (0x829C, 0x4E5F_5625),
  (0x829F, 0x5C4F),
  (0x82A1, 0x5C4D),
  (0x82A4, 0x5C52_3D66_422B),
  (0x82A8, 0x5C38_5C4B_5C4E_5C3E_3752_3045_5C47_503E_5C41_3B28),
  (0x82B3, 0x373C_5C4C),
  (0x82B7, 0x5C46_5C3F_475B),
  (0x82BD, 0x513F_5C40),
  (0x82C1, 0x5C4A),
  (0x82C4, 0x5C50),
  (0x82C7, 0x4E2D_5C42),
  (0x82CA, 0x5C43_5C48_5C49_3254_5C51_4B55),
  (0x82D1, 0x5437_5C5B_5C5F_4C26_5C66),
  (0x82D7, 0x4367_5C5C),
  (0x82DB, 0x3F41_5C59),
  (0x82DE, 0x307A_3936_5C65_5C53),
  (0x82E3, 0x5C44_5C56_4874_3F60),
  (0x82EB, 0x493B),
  (0x82EF, 0x313D),
  (0x82F1, 0x5322),
  (0x82F4, 0x5C5A),
  (0x82F7, 0x5C55),
  (0x82F9, 0x463B),
  (0x82FB, 0x5C5E),
  (0x8301, 0x5742_432F_3736_4751_4329_5C62_5C58_5C6B_5C54),
  (0x830C, 0x5C5D),
  (0x830E, 0x3E25_5C57),
  (0x8311, 0x5C60),
  (0x8314, 0x5C63_5C64),
  (0x8317, 0x5C78),
  (0x831A, 0x5C61_5D22_5C67),
  (0x8327, 0x3C6B_3444),
  (0x832B, 0x4323_3267_5C7A),
  (0x832F, 0x5C72),
  (0x8331, 0x5C6F),
  (0x8333, 0x5C7C_5C6E_5270_3268),
  (0x8338, 0x4857_4863_5C7B),
  (0x833C, 0x5C6D),
  (0x8340, 0x5C77),
  (0x8343, 0x5C75),
  (0x8346, 0x3E23_5C74),
  (0x8349, 0x325D),
  (0x834F, 0x5C73_3C76_5C68_3B44),
  (0x8354, 0x4073),
  (0x835A, 0x3C54_5C69_5C6A),
  (0x835E, 0x5C71_5C76_5C79_3534),
  (0x8363, 0x4859_3B67_5C7E_5C7D_532B_5D21_5D23_5D25_5271_5D24_5D26_5D27),
  (0x836F, 0x5229),
  (0x8377, 0x3A49_5D29),
  (0x837B, 0x5D36_5D31_5D34),
  (0x8385, 0x5D30_464E),
  (0x8389, 0x4072),
  (0x838E, 0x492F),
  (0x8392, 0x5C6C_5D2E),
  (0x8398, 0x5D37),
  (0x839B, 0x5C70_5D2F),
  (0x839E, 0x5D38),
  (0x83A0, 0x5D2C),
  (0x83A8, 0x5D39_5D33_5D2D_442A),
  (0x83B0, 0x5D28_4033_412B_5D2A_5D2B),
  (0x83B6, 0x5D32_3B71_5D35_5328_5D3A),
  (0x83BC, 0x5D3B_4327),
  (0x83C0, 0x5D52_5D3C),
  (0x83C5, 0x5D51),
  (0x83C7, 0x393D),
  (0x83CA, 0x3E55),
  (0x83CC, 0x3E7A),
  (0x83CF, 0x3A4A),
  (0x83D4, 0x5D4A),
  (0x83D6, 0x5D45),
  (0x83D8, 0x5D3F),
  (0x83DC, 0x324B_5D43),
  (0x83DF, 0x5D4B_3224_5D55),
  (0x83E5, 0x5D3E),
  (0x83E9, 0x4650_5D50),
  (0x83F0, 0x5D54_4162_3746),
  (0x83F8, 0x5D4E_5D4F),
  (0x83FD, 0x5D44),
  (0x8401, 0x5D3D),
  (0x8403, 0x5D4D_4C51),
  (0x8406, 0x5D49),
  (0x840B, 0x5D42_4348_463C_4E2E_5D4C),
  (0x8411, 0x5D48),
  (0x8418, 0x5D41),
  (0x841C, 0x5D46_425C),
  (0x8424, 0x5329_532A_5D53_4F74_4878),
  (0x8431, 0x5D66),
  (0x8438, 0x5D47),
  (0x843C, 0x5D60_4264),
  (0x8446, 0x5D61),
  (0x8451, 0x5D57),
  (0x8457, 0x5678),
  (0x8459, 0x5D59_5D58_3870_5D56),
  (0x8461, 0x464F),
  (0x8463, 0x362D),
  (0x8469, 0x5D62),
  (0x846B, 0x3A79_5461_5D67),
  (0x8471, 0x3450),
  (0x8473, 0x5D5A),
  (0x8475, 0x3F7B_5D63),
  (0x8478, 0x5D5F),
  (0x847A, 0x5D5D),
  (0x8482, 0x3559),
  (0x8487, 0x5D5B_5D5C_5D5E),
  (0x848B, 0x3D2F_5D64),
  (0x848E, 0x5D65),
  (0x8497, 0x5D75),
  (0x8499, 0x4349),
  (0x849C, 0x4B62),
  (0x84A1, 0x5D72),
  (0x84AF, 0x5861),
  (0x84B2, 0x4651),
  (0x84B4, 0x5D74),
  (0x84B8, 0x5574_5D73_5D70),
  (0x84BD, 0x5D6C),
  (0x84BF, 0x5D6F),
  (0x84C1, 0x5D68),
  (0x84C4, 0x506E),
  (0x84C9, 0x4858_5D6E),
  (0x84CD, 0x5D69),
  (0x84D0, 0x5D6A_4B72),
  (0x84D3, 0x5D6D),
  (0x84D6, 0x314D),
  (0x84DD, 0x4036),
  (0x84DF, 0x3C3B_5D71),
  (0x84E3, 0x5D77),
  (0x84E5, 0x5D76_5D6B),
  (0x84EC, 0x456E),
  (0x84F0, 0x5D7B),
  (0x84FC, 0x5E24),
  (0x84FF, 0x5E23),
  (0x850C, 0x5D78),
  (0x8511, 0x436F),
  (0x8513, 0x427B),
  (0x8517, 0x5561),
  (0x851A, 0x4E35),
  (0x851F, 0x5D7D),
  (0x8521, 0x324C),
  (0x852B, 0x4468_4A5F),
  (0x8537, 0x473E_5D7A_5D7C_5D7E_5E22_302A_314E),
  (0x8543, 0x5E2C),
  (0x8548, 0x5E26_3D36_486F),
  (0x8556, 0x5E21),
  (0x8559, 0x5E25),
  (0x855E, 0x5E29),
  (0x8564, 0x5E28),
  (0x8568, 0x5E27),
  (0x8572, 0x5E2D),
  (0x8574, 0x544C),
  (0x8579, 0x5E33_5E2A_5E2E),
  (0x857E, 0x4059),
  (0x8584, 0x3121_5E36),
  (0x8587, 0x5E31),
  (0x858F, 0x5E32),
  (0x859B, 0x5126_5E35),
  (0x85A4, 0x5E2F),
  (0x85A8, 0x5E30),
  (0x85AA, 0x503D),
  (0x85AE, 0x5E34_4A6D_5E39),
  (0x85B7, 0x5E38),
  (0x85B9, 0x5E37),
  (0x85C1, 0x5E3B),
  (0x85C9, 0x3D65),
  (0x85CF, 0x3258_436A),
  (0x85D3, 0x5E3A),
  (0x85D5, 0x453A),
  (0x85DC, 0x5E3C),
  (0x85E4, 0x4C59),
  (0x85E9, 0x372A),
  (0x85FB, 0x5465),
  (0x85FF, 0x5E3D),
  (0x8605, 0x5E3F),
  (0x8611, 0x4422),
  (0x8616, 0x5E41),
  (0x8627, 0x5E3E),
  (0x8629, 0x5E40),
  (0x8638, 0x553A),
  (0x863C, 0x5E42),
  (0x864D, 0x722E_3B22_4232_4530_4247),
  (0x8654, 0x722F),
  (0x865A, 0x5069),
  (0x865E, 0x535D),
  (0x8662, 0x6B3D),
  (0x866B, 0x3366_7230),
  (0x866E, 0x7231),
  (0x8671, 0x4A2D),
  (0x8679, 0x3A67_7233_7235_7234_4B64_4F3A_7232_4A34_524F_426C),
  (0x868A, 0x4E43_7238_3076_7237),
  (0x8693, 0x723E),
  (0x8695, 0x324F),
  (0x869C, 0x5141_723A),
  (0x86A3, 0x723C_5469),
  (0x86A7, 0x723B_7236_723F_723D),
  (0x86AC, 0x7239),
  (0x86AF, 0x7247_7244_7246),
  (0x86B4, 0x724A_7242_7240),
  (0x86BA, 0x7245),
  (0x86C0, 0x567B),
  (0x86C4, 0x7241),
  (0x86C6, 0x4779_495F),
  (0x86C9, 0x7248_3946_3530),
  (0x86CE, 0x7243_7249_7250_7256),
  (0x86D4, 0x3B57),
  (0x86D8, 0x7255_4D5C),
  (0x86DB, 0x566B),
  (0x86DE, 0x7252_7254),
  (0x86E4, 0x3872),
  (0x86E9, 0x724B),
  (0x86ED, 0x724E_4279),
  (0x86F0, 0x555D_724C_724D_724F_7253),
  (0x86F8, 0x7259_533C),
  (0x86FE, 0x366A),
  (0x8700, 0x4A71),
  (0x8702, 0x3764_7257),
  (0x8707, 0x7258_725A_725D_725B),
  (0x870D, 0x725C),
  (0x8712, 0x5151_7251),
  (0x8715, 0x4D49),
  (0x8717, 0x4E4F_5629),
  (0x871A, 0x7263),
  (0x871C, 0x435B),
  (0x871E, 0x7260),
  (0x8721, 0x402F_726C_725E),
  (0x8725, 0x7261),
  (0x8729, 0x7268),
  (0x872E, 0x7262),
  (0x8731, 0x7267),
  (0x8734, 0x7266),
  (0x8737, 0x7269),
  (0x873B, 0x725F),
  (0x873E, 0x7264_726A),
  (0x8747, 0x532C_7265_3275),
  (0x874C, 0x7272),
  (0x874E, 0x502B),
  (0x8753, 0x7275),
  (0x8757, 0x3B48),
  (0x8759, 0x7279),
  (0x8760, 0x7270),
  (0x8763, 0x7276_7278_727A),
  (0x876E, 0x7273),
  (0x8770, 0x7271),
  (0x8774, 0x3A7B),
  (0x8776, 0x357B),
  (0x877B, 0x726F_7277_726D_726E),
  (0x8782, 0x726B_7326),
  (0x8785, 0x7323),
  (0x8788, 0x7322),
  (0x878B, 0x7274),
  (0x878D, 0x485A),
  (0x8793, 0x727B),
  (0x8797, 0x7325),
  (0x879F, 0x4378),
  (0x87A8, 0x727D),
  (0x87AB, 0x7327_7329_7324),
  (0x87AF, 0x727C),
  (0x87B3, 0x732B),
  (0x87B5, 0x732A),
  (0x87BA, 0x425D),
  (0x87BD, 0x732E),
  (0x87C0, 0x7330),
  (0x87C6, 0x7321),
  (0x87CA, 0x7331_732C),
  (0x87D1, 0x732F_727E_732D),
  (0x87DB, 0x7332),
  (0x87E0, 0x7334),
  (0x87E5, 0x7328),
  (0x87EA, 0x7333),
  (0x87EE, 0x7335),
  (0x87F9, 0x5037),
  (0x87FE, 0x7338),
  (0x8803, 0x5979),
  (0x880A, 0x7339),
  (0x8813, 0x7337),
  (0x8815, 0x4864_7336),
  (0x881B, 0x733A),
  (0x8821, 0x733B_3440),
  (0x8832, 0x6E43),
  (0x8839, 0x733C),
  (0x883C, 0x733D),
  (0x8840, 0x512A),
  (0x8844, 0x742C_5046),
  (0x884C, 0x5050_515C),
  (0x8854, 0x4F4E),
  (0x8857, 0x3D56),
  (0x8859, 0x5143),
  (0x8861, 0x3A62_6169_5242_7142_3239),
  (0x8868, 0x316D_7143),
  (0x886B, 0x4940_3344),
  (0x886E, 0x5972),
  (0x8870, 0x4B25),
  (0x8872, 0x7144),
  (0x8877, 0x5654),
  (0x887D, 0x7145_7440_7146),
  (0x8881, 0x542C_7147),
  (0x8884, 0x3040_7441),
  (0x8888, 0x7442),
  (0x888B, 0x347C),
  (0x888D, 0x455B),
  (0x8892, 0x4C3B),
  (0x8896, 0x5064),
  (0x889C, 0x4D60),
  (0x88A2, 0x7148),
  (0x88A4, 0x5973),
  (0x88AB, 0x313B),
  (0x88AD, 0x4F2E),
  (0x88B1, 0x3824),
  (0x88B7, 0x714A),
  (0x88BC, 0x714B),
  (0x88C1, 0x3243_4151),
  (0x88C5, 0x5730_7149),
  (0x88C9, 0x714C),
  (0x88CE, 0x714E),
  (0x88D2, 0x5976),
  (0x88D4, 0x5261_5423),
  (0x88D8, 0x7443_4839),
  (0x88DF, 0x7444),
  (0x88E2, 0x714D_714F_3F63_7150),
  (0x88E8, 0x7154),
  (0x88F0, 0x7156_7151),
  (0x88F3, 0x4951_4561),
  (0x88F8, 0x4263_397C),
  (0x88FC, 0x7153),
  (0x88FE, 0x7155),
  (0x8902, 0x3953),
  (0x890A, 0x715B),
  (0x8910, 0x3A56),
  (0x8912, 0x307D_7159),
  (0x8919, 0x7158_7152_715A),
  (0x8921, 0x7157),
  (0x8925, 0x486C),
  (0x892A, 0x4D4A_715D),
  (0x8930, 0x653D),
  (0x8934, 0x715C),
  (0x8936, 0x715E),
  (0x8941, 0x715F),
  (0x8944, 0x4F65),
  (0x895E, 0x7445_3D73),
  (0x8966, 0x7160),
  (0x897B, 0x7161),
  (0x897F, 0x4E77),
  (0x8981, 0x522A),
  (0x8983, 0x717B),
  (0x8986, 0x3832),
  (0x89C1, 0x3C7B_395B),
  (0x89C4, 0x3966_4359_4A53_6A68_4040_3E75_6A69_6A6A_6A6B),
  (0x89CE, 0x6A6C_6A6D_6A6E_6A6F_3D47),
  (0x89D6, 0x757B),
  (0x89DA, 0x757D),
  (0x89DC, 0x757E),
  (0x89DE, 0x757C),
  (0x89E3, 0x3D62),
  (0x89E5, 0x7621_3425),
  (0x89EB, 0x7622),
  (0x89EF, 0x7623),
  (0x89F3, 0x6C32),
  (0x8A00, 0x5154),
  (0x8A07, 0x596A),
  (0x8A3E, 0x7624),
  (0x8A48, 0x6E3A),
  (0x8A79, 0x5532),
  (0x8A89, 0x537E_4C5C),
  (0x8A93, 0x4A44),
  (0x8B07, 0x6540),
  (0x8B26, 0x7625),
  (0x8B66, 0x3E2F),
  (0x8B6C, 0x4629),
  (0x8BA0, 0x5A25_3C46_3629_383C_484F_3C25_5A26_5A27_4C56_4843_5A28_467D),
  (0x8BAD, 0x5135_5269_5136_3C47),
  (0x8BB2, 0x3D32_3B64_5A29_5A2A_5148_5A2B_506D_366F_425B),
  (0x8BBC, 0x4B4F_376D_4968_3743_3E77_5624_5A2C_5A2D_4640_5767_4A36),
  (0x8BC8, 0x5529_4B5F_556F_5A2E_565F_344A_5A30_5A2F),
  (0x8BD1, 0x526B_5A31_5A32_5A33_4A54_5A34_4A2B_5A35_5A36_334F_566F_5A37),
  (0x8BDD, 0x3B30_352E_5A38_5A39_396E_512F_5268_5A3A_3843_4F6A_326F_5A3B),
  (0x8BE9, 0x5A3C),
  (0x8BEB, 0x3D6B_4E5C_536F_5A3D_4E73_5A3E_5355_3B65_5A3F_4B35_4B50_5A40),
  (0x8BF7, 0x476B_566E_5A41_4535_3641_5A42_374C_3F4E_5A43_5A44_4B2D_5A45),
  (0x8C03, 0x3577_5A46_4142_573B_5A47_4C38),
  (0x8C0A, 0x526A_4431_5A48_357D_3B51_5A49_5033_5A4A_5A4B_4E3D_5A4C_5A4D),
  (0x8C16, 0x5A4E_3277_5A51_5A4F_5168_5A50_4355_5A52),
  (0x8C1F, 0x5A53_5A54_5A55_503B_5225_3079_5A56_472B_5A57_3D77_4321_5A58),
  (0x8C2B, 0x5A59_437D_4C37_5A5A_5A5B_403E_4657_5A5C_5A5D_4734_5A5E_5A5F),
  (0x8C37, 0x3948),
  (0x8C41, 0x3B6D),
  (0x8C46, 0x3639_7478),
  (0x8C49, 0x7479),
  (0x8C4C, 0x4D63),
  (0x8C55, 0x7539),
  (0x8C5A, 0x6B60),
  (0x8C61, 0x4F73_3B3F),
  (0x8C6A, 0x3A40_5425),
  (0x8C73, 0x6159),
  (0x8C78, 0x7574_312A_3272),
  (0x8C82, 0x7575),
  (0x8C85, 0x7577),
  (0x8C89, 0x3A51_7576),
  (0x8C8C, 0x4332),
  (0x8C94, 0x7579),
  (0x8C98, 0x7578),
  (0x8D1D, 0x3134_556A_383A),
  (0x8D21, 0x3931_3246_5470_4F4D_305C_554B_3B75_564A_3737_4C30_4636_3161),
  (0x8D2D, 0x393A_567C_3961_3721_3C7A_6A5A_6A5B_4C79_3973_6A5C_347B_4333),
  (0x8D39, 0x3751_3A58_6A5D_5474_6A5E_3C56_3B5F_6A5F_415E_4238_545F_574A),
  (0x8D45, 0x6A60_6A61_6A64_6A62_6A63_495E_3833_3644_6A65_4A6A_494D_344D),
  (0x8D53, 0x6259_4562_6A66_4035),
  (0x8D58, 0x5738_6A67_572C_487C_5853_584D_545E),
  (0x8D60, 0x5479_4944_532E_3853_3360),
  (0x8D66, 0x4962_7476),
  (0x8D6B, 0x3A55),
  (0x8D6D, 0x7477),
  (0x8D70, 0x575F),
  (0x8D73, 0x7471_3830_5554_384F_4670),
  (0x8D81, 0x3343),
  (0x8D84, 0x7472_332C),
  (0x8D8A, 0x543D_4777),
  (0x8D91, 0x7474),
  (0x8D94, 0x7473),
  (0x8D9F, 0x4C4B),
  (0x8DA3, 0x4824),
  (0x8DB1, 0x7475),
  (0x8DB3, 0x5763_453F_7540),
  (0x8DB8, 0x753B),
  (0x8DBA, 0x7543),
  (0x8DBC, 0x7542),
  (0x8DBE, 0x563A_7541),
  (0x8DC3, 0x543E_7544),
  (0x8DC6, 0x754C),
  (0x8DCB, 0x304F_3578),
  (0x8DCE, 0x7549_754A),
  (0x8DD1, 0x455C),
  (0x8DD6, 0x7545_7546),
  (0x8DDA, 0x7547_754B),
  (0x8DDD, 0x3E60_7548_387A),
  (0x8DE3, 0x7550_7553),
  (0x8DE8, 0x3F67),
  (0x8DEA, 0x3972_753C_754D),
  (0x8DEF, 0x4237),
  (0x8DF3, 0x4C78),
  (0x8DF5, 0x3C79),
  (0x8DF7, 0x754E_754F_7551_3665_7552),
  (0x8DFD, 0x7555),
  (0x8E05, 0x753D),
  (0x8E09, 0x7554_533B),
  (0x8E0C, 0x336C),
  (0x8E0F, 0x4C24),
  (0x8E14, 0x7556),
  (0x8E1D, 0x7557_3E61_7558),
  (0x8E22, 0x4C5F_755B),
  (0x8E29, 0x3248_5759),
  (0x8E2C, 0x7559),
  (0x8E2E, 0x755A_755C),
  (0x8E31, 0x7562),
  (0x8E35, 0x7560),
  (0x8E39, 0x755F_755D),
  (0x8E3D, 0x7561),
  (0x8E40, 0x755E_7564_7565),
  (0x8E44, 0x4C63),
  (0x8E47, 0x653F_3538_7563_7568_4C23),
  (0x8E51, 0x7566_7567),
  (0x8E59, 0x753E),
  (0x8E66, 0x3144),
  (0x8E69, 0x753F),
  (0x8E6C, 0x3545_3264),
  (0x8E6F, 0x756C_7569),
  (0x8E72, 0x3657),
  (0x8E74, 0x756D),
  (0x8E76, 0x756A),
  (0x8E7C, 0x756B),
  (0x8E7F, 0x345A),
  (0x8E81, 0x546A),
  (0x8E85, 0x756E),
  (0x8E87, 0x3379),
  (0x8E8F, 0x756F_7571),
  (0x8E94, 0x7570),
  (0x8E9C, 0x7572),
  (0x8E9E, 0x7573),
  (0x8EAB, 0x496D_392A),
  (0x8EAF, 0x477B),
  (0x8EB2, 0x3663),
  (0x8EBA, 0x4C49),
  (0x8ECE, 0x6A26),
  (0x8F66, 0x3335_547E_396C_5079),
  (0x8F6B, 0x696D_572A_696E_4256_486D_3A64_696F_6970_6971_5661_6972_6973),
  (0x8F77, 0x6975_6974_6976_6977_4761_6978_5458_6979_3D4E),
  (0x8F81, 0x697A_697B_3D4F_697C_3828_413E_697D_3132_3B54_3975_697E),
  (0x8F8D, 0x6A21_6A22_6A23_3778_3C2D),
  (0x8F93, 0x4A64_604E_542F_4F3D_5537_6A24_555E_6A25_5041_393C),
  (0x8F9E, 0x3447_3159),
  (0x8FA3, 0x4031),
  (0x8FA8, 0x3166_3167),
  (0x8FAB, 0x3168),
  (0x8FB0, 0x333D_4868),
  (0x8FB6, 0x6541),
  (0x8FB9, 0x315F),
  (0x8FBD, 0x4149_346F),
  (0x8FC1, 0x4728_5358),
  (0x8FC4, 0x4679_5138),
  (0x8FC7, 0x397D_4275),
  (0x8FCE, 0x532D),
  (0x8FD0, 0x544B_3D7C),
  (0x8FD3, 0x6542_3735_6543),
  (0x8FD8, 0x3B39_5562),
  (0x8FDB, 0x3D78_5436_4E25_412C_3359),
  (0x8FE2, 0x4C76),
  (0x8FE4, 0x6546_6544_6548),
  (0x8FE8, 0x654A_6547_354F_4648),
  (0x8FED, 0x357C_6545),
  (0x8FF0, 0x4A76),
  (0x8FF3, 0x6549),
  (0x8FF7, 0x4354_3145_3C23),
  (0x8FFD, 0x5737),
  (0x9000, 0x4D4B_4B4D_4A4A_4C53_654C_654B_4466),
  (0x9009, 0x5121_5137_654D),
  (0x900D, 0x6550),
  (0x900F, 0x4D38_5670_654F_355D),
  (0x9014, 0x4D3E),
  (0x9016, 0x6551_363A),
  (0x901A, 0x4D28_3964),
  (0x901D, 0x4A45_3351_4B59_546C_6552_376A),
  (0x9026, 0x654E),
  (0x902D, 0x6555_347E_6556),
  (0x9035, 0x6553_6554),
  (0x9038, 0x525D),
  (0x903B, 0x425F_3146),
  (0x903E, 0x5362),
  (0x9041, 0x365D_4B6C),
  (0x9044, 0x6557),
  (0x9047, 0x5376),
  (0x904D, 0x3169),
  (0x904F, 0x3674_655A_6558_6559_3540),
  (0x9057, 0x5245_655C),
  (0x905B, 0x655E),
  (0x9062, 0x655D_4732),
  (0x9065, 0x5223),
  (0x9068, 0x655B),
  (0x906D, 0x5462_555A),
  (0x9074, 0x6560_5771),
  (0x907D, 0x6561),
  (0x907F, 0x315C_517B),
  (0x9082, 0x6562_6564),
  (0x9088, 0x6563),
  (0x908B, 0x6565),
  (0x9091, 0x5258),
  (0x9093, 0x354B),
  (0x9095, 0x675F),
  (0x9097, 0x5A75),
  (0x9099, 0x5A78),
  (0x909B, 0x5A76),
  (0x909D, 0x5A77),
  (0x90A1, 0x5A7A_504F_4447),
  (0x90A6, 0x306E),
  (0x90AA, 0x5030),
  (0x90AC, 0x5A79),
  (0x90AE, 0x534A_3A2A_5B22_4771),
  (0x90B3, 0x5A7C_5A7B_495B_5A7D),
  (0x90B8, 0x5B21_575E_5A7E_415A),
  (0x90BE, 0x5B25),
  (0x90C1, 0x5374),
  (0x90C4, 0x5B27_5B24),
  (0x90C7, 0x5B28),
  (0x90CA, 0x3D3C),
  (0x90CE, 0x4049_5B23_5B26_5623),
  (0x90D3, 0x5B29),
  (0x90D7, 0x5B2D),
  (0x90DB, 0x5B2E_5B2C_3A42),
  (0x90E1, 0x3F24_5B2B),
  (0x90E6, 0x5B2A_5447_323F),
  (0x90EB, 0x5B2F),
  (0x90ED, 0x3979),
  (0x90EF, 0x5B30),
  (0x90F4, 0x333B),
  (0x90F8, 0x3526),
  (0x90FD, 0x363C_5B31),
  (0x9102, 0x3675),
  (0x9104, 0x5B32),
  (0x9119, 0x3149),
  (0x911E, 0x5B34),
  (0x9122, 0x5B33_5B35),
  (0x912F, 0x5B37),
  (0x9131, 0x5B36),
  (0x9139, 0x5B38),
  (0x9143, 0x5B39),
  (0x9146, 0x5B3A),
  (0x9149, 0x534F_747A_4775_5743_4564_747C_747D_747B),
  (0x9152, 0x3E46),
  (0x9157, 0x506F),
  (0x915A, 0x3753),
  (0x915D, 0x544D_4C2A),
  (0x9161, 0x7522_7521_3A28_747E_4B56),
  (0x9169, 0x7524_4052),
  (0x916C, 0x336A),
  (0x916E, 0x4D2A_7525_7523_3D34_7528),
  (0x9174, 0x7529_3D4D_4338_3F61_4B61_752A),
  (0x917D, 0x7526_7527_4470),
  (0x9185, 0x752C),
  (0x9187, 0x343C),
  (0x9189, 0x576D),
  (0x918B, 0x3457_752B_752E),
  (0x9190, 0x752D_752F_5051),
  (0x919A, 0x4351_4829),
  (0x91A2, 0x7530_7531),
  (0x91AA, 0x7532),
  (0x91AD, 0x7533_7534_7535),
  (0x91B4, 0x7537_7536),
  (0x91BA, 0x7538),
  (0x91C7, 0x3249),
  (0x91C9, 0x5354_4A4D),
  (0x91CC, 0x406F_5658_5230_413F),
  (0x91D1, 0x3D70),
  (0x91DC, 0x382A),
  (0x9274, 0x3C78),
  (0x928E, 0x7646),
  (0x92AE, 0x7647),
  (0x92C8, 0x7648),
  (0x933E, 0x7649),
  (0x936A, 0x764A),
  (0x938F, 0x764C),
  (0x93CA, 0x764B),
  (0x93D6, 0x7769),
  (0x943E, 0x764D),
  (0x946B, 0x764E),
  (0x9485, 0x6E44_6E45_6E46_556B_3624_6E48_6E47_6E49_6E4A_4725_6E4B_6E4C),
  (0x9492, 0x3730_3576_6E4D_6E4F),
  (0x9497, 0x6E4E),
  (0x9499, 0x3846_6E50_6E51_6E52_365B_332E_5653_4446_3135_3856_6E53_6E54),
  (0x94A5, 0x543F_4755_3E7B_4E59_3933_6E56_6E55_6E58_6E57_4525_6E59_6E5A),
  (0x94B1, 0x472E_6E5B_472F_6E5C_3227_6E5D_6E5E_6E5F_6E60_6E61_576A_6E62),
  (0x94BD, 0x6E63_3C58_6E64_534B_4C7A_322C_4165_6E65_4726_432D),
  (0x94C8, 0x6E66_6E67_6E68_6E69_6E6A_6E6B_6E6C),
  (0x94D0, 0x6E6D_6E6E_6E6F),
  (0x94D5, 0x6E70_6E71_6E72_6E74_6E73),
  (0x94DB, 0x6E75_4D2D_4241_6E76_6E77_6E78_5521_6E79_4F33_6E7A_6E7B),
  (0x94E7, 0x6E7C_6E7D_6F21_6E7E_6F22_3875_437A_6F23_6F24_3D42_523F_3279),
  (0x94F3, 0x6F25_6F26_6F27_5278_6F28_567D_6F29_464C),
  (0x94FC, 0x6F2A_6F2B_4134_6F2C_4F7A_4B78_6F2E_6F2D_337A_3978_6F2F_6F30),
  (0x9508, 0x5062_6F31_6F32_3766_503F_6F33_6F34_6F35_4871_4C60_6F36_6F37),
  (0x9514, 0x6F38_6F39_6F3A_5560_6F3B_346D_432A_6F3C),
  (0x951D, 0x6F3D_6F3E_6F3F),
  (0x9521, 0x4E7D_6F40_4260_3438_5736_3D75),
  (0x9528, 0x4F47_6F43_6F41_6F42_6F44_3627_3C7C_3E62_434C_6F45_6F46),
  (0x9534, 0x6F47_6F4F_6F48_6F49_6F4A_4742_6F71_364D_6F4B),
  (0x953E, 0x6F4C_6F4D_3646_433E_6F4E),
  (0x9544, 0x6F50_6F51_6F52_5572),
  (0x9549, 0x6F53_4477),
  (0x954C, 0x6F54_4478_6F55_6F56_3864_3077_6F57_6F58_6F59),
  (0x9556, 0x6F5A_6F5B_6F5C_6F5D),
  (0x955B, 0x6F5E_3E35_6F61_6F5F_6F60),
  (0x9561, 0x6F62_6F63_414D_6F64_6F65_6F66_6F67_6F68_6F69_6F6A_6F6B_6F6C),
  (0x956D, 0x4058),
  (0x956F, 0x6F6D_412D_6F6E_6F6F_6F70),
  (0x9576, 0x4F62),
  (0x957F, 0x3324),
  (0x95E8, 0x4345_6345_4941_6346),
  (0x95ED, 0x3155_4E4A_3433_4872_6347_4F50_6348_3C64_6349_634A_4346_5522),
  (0x95F9, 0x4456_396B_4E45_634B_4376_634C),
  (0x9600, 0x3727_3873_3A52_634D_634E_5444_634F),
  (0x9608, 0x6350_514B_6351_6352_6353_6354_5156_6355_327B_403B_6356),
  (0x9614, 0x402B_6357_6358_6359),
  (0x9619, 0x635A_635B),
  (0x961C, 0x3837_5A62),
  (0x961F, 0x3653),
  (0x9621, 0x5A64_5A63),
  (0x962A, 0x5A66),
  (0x962E, 0x486E),
  (0x9631, 0x5A65_3740_5174_5275_5573_3D57),
  (0x963B, 0x5768_5A68_5A67),
  (0x963F, 0x3022_4D53),
  (0x9642, 0x5A69),
  (0x9644, 0x383D_3C4A_423D_4224_3342_5A6A),
  (0x964B, 0x422A_4430_3D35),
  (0x9650, 0x4F5E),
  (0x9654, 0x5A6B_4942),
  (0x965B, 0x315D),
  (0x965F, 0x5A6C),
  (0x9661, 0x3638_543A),
  (0x9664, 0x337D),
  (0x9667, 0x5A6D_5449_4F55_4563),
  (0x966C, 0x5A6E),
  (0x9672, 0x5A6F),
  (0x9674, 0x5A70_416A_4C55_4F5D),
  (0x9685, 0x5367_4221),
  (0x9688, 0x5A71),
  (0x968B, 0x4B65),
  (0x968D, 0x5A72),
  (0x968F, 0x4B66_527E),
  (0x9694, 0x3874),
  (0x9697, 0x5A73_302F_4F36),
  (0x969C, 0x554F),
  (0x96A7, 0x4B6D),
  (0x96B0, 0x5A74),
  (0x96B3, 0x6344),
  (0x96B6, 0x4125),
  (0x96B9, 0x763F),
  (0x96BC, 0x7640_7641_4451),
  (0x96C0, 0x4838_5163),
  (0x96C4, 0x505B_5145_3C2F_394D),
  (0x96C9, 0x6F74),
  (0x96CC, 0x3446_533A_7642_337B),
  (0x96D2, 0x7643),
  (0x96D5, 0x3571),
  (0x96E0, 0x7645),
  (0x96E8, 0x536A_7627_5129),
  (0x96EF, 0x7629),
  (0x96F3, 0x7628),
  (0x96F6, 0x4163_4057),
  (0x96F9, 0x3122),
  (0x96FE, 0x4E6D),
  (0x9700, 0x5068_762B),
  (0x9704, 0x4F76),
  (0x9706, 0x762A_5570_762C_4339),
  (0x970D, 0x3B74_762E_762D),
  (0x9713, 0x445E),
  (0x9716, 0x4158),
  (0x971C, 0x4B2A),
  (0x971E, 0x4F3C),
  (0x972A, 0x762F),
  (0x972D, 0x7630),
  (0x9730, 0x7631),
  (0x9732, 0x4236),
  (0x9738, 0x3054_4579),
  (0x973E, 0x7632),
  (0x9752, 0x4760_7626),
  (0x9756, 0x3E38),
  (0x9759, 0x3E32),
  (0x975B, 0x3565),
  (0x975E, 0x3747),
  (0x9760, 0x3F3F_4352_4366),
  (0x9765, 0x584C),
  (0x9769, 0x386F),
  (0x9773, 0x3D79_5125),
  (0x9776, 0x3050),
  (0x977C, 0x7730),
  (0x9785, 0x7731),
  (0x978B, 0x502C),
  (0x978D, 0x3030),
  (0x9791, 0x7732_7733),
  (0x9794, 0x7734),
  (0x9798, 0x474A),
  (0x97A0, 0x3E4F),
  (0x97A3, 0x7737),
  (0x97AB, 0x7736),
  (0x97AD, 0x315E),
  (0x97AF, 0x7735),
  (0x97B2, 0x7738),
  (0x97B4, 0x7739),
  (0x97E6, 0x4E24_484D),
  (0x97E9, 0x3A2B_6838_6839_683A_3E42),
  (0x97F3, 0x5274),
  (0x97F5, 0x544F_4958),
  (0x9875, 0x5233_3625_476A_717C_4F6E_4B33_506B_676F_4D67_394B_3659_717D),
  (0x9881, 0x3064_4B4C_717E_5424_422D_416C_4644_3E31_7221_3C55),
  (0x988C, 0x7222_7223),
  (0x988F, 0x7224_5243_4635),
  (0x9893, 0x4D47_7225),
  (0x9896, 0x5331_3F45_4C62),
  (0x989A, 0x7226_7227_5155_366E_7228_7229_355F_722A_722B),
  (0x98A4, 0x327C_722C_722D_4827),
  (0x98CE, 0x3767),
  (0x98D1, 0x6C29_6C2A_6C2B),
  (0x98D5, 0x6C2C),
  (0x98D8, 0x462E_6C2D_6C2E),
  (0x98DE, 0x3749_4A33),
  (0x98E7, 0x6238_774F),
  (0x990D, 0x7750),
  (0x9910, 0x324D),
  (0x992E, 0x7751),
  (0x9954, 0x7753_7752),
  (0x9963, 0x623B),
  (0x9965, 0x3C22),
  (0x9967, 0x623C_623D_623E_623F_6240_6241_3739_527B_3D24_4A4E_3125_4B47),
  (0x9974, 0x6242_367C_4844_6243),
  (0x997A, 0x3D48),
  (0x997C, 0x317D_6244),
  (0x997F, 0x3676_6245_4459),
  (0x9984, 0x6246_4F5A_395D_6247_4021),
  (0x998A, 0x6248_3276),
  (0x998D, 0x6249),
  (0x998F, 0x4173_624A_624B_4278_624C_624D_624E_4A57_5838_5965_4F63),
  (0x99A5, 0x7025),
  (0x99A8, 0x5C30),
  (0x9A6C, 0x426D_5426_4D54_5131_335B_477D),
  (0x9A73, 0x3235_423F_6660_4A3B_6661_6662_3E54_6663_5724_4D55_6665_3C5D),
  (0x9A7F, 0x6664_6666_6667_426E),
  (0x9A84, 0x3D3E_6668_4266_3A27_6669),
  (0x9A8A, 0x666A_3352_5169),
  (0x9A8F, 0x3F25_666B_466F_666C_666D),
  (0x9A96, 0x666E_462D_666F),
  (0x9A9A, 0x4927_6670_6671_6672_6539_6673_6674_4262_6675_6676_5668_6677),
  (0x9AA7, 0x6678_3947),
  (0x9AB0, 0x773B_773A),
  (0x9AB6, 0x773E_773C_3A21),
  (0x9ABA, 0x773F),
  (0x9ABC, 0x7740),
  (0x9AC0, 0x7742_7741_7744),
  (0x9AC5, 0x7743),
  (0x9ACB, 0x7745_7746),
  (0x9AD1, 0x7747),
  (0x9AD3, 0x4B68),
  (0x9AD8, 0x385F),
  (0x9ADF, 0x7754),
  (0x9AE1, 0x7755),
  (0x9AE6, 0x7756),
  (0x9AEB, 0x7758),
  (0x9AED, 0x775A),
  (0x9AEF, 0x7757),
  (0x9AF9, 0x775B),
  (0x9AFB, 0x7759),
  (0x9B03, 0x5757),
  (0x9B08, 0x775C),
  (0x9B0F, 0x775D),
  (0x9B13, 0x775E),
  (0x9B1F, 0x775F),
  (0x9B23, 0x7760),
  (0x9B2F, 0x5B4B),
  (0x9B32, 0x582A),
  (0x9B3B, 0x6577_396D),
  (0x9B41, 0x3F7D_3B6A_7749_4647_7748),
  (0x9B47, 0x774A_774C_774B),
  (0x9B4D, 0x774D),
  (0x9B4F, 0x4E3A),
  (0x9B51, 0x774E),
  (0x9B54, 0x4427),
  (0x9C7C, 0x5363),
  (0x9C7F, 0x764F),
  (0x9C81, 0x4233_7650),
  (0x9C85, 0x7651_7652_7653_7654),
  (0x9C8B, 0x7656),
  (0x9C8D, 0x312B_7657),
  (0x9C90, 0x7658_7659_765A),
  (0x9C94, 0x765B_765C),
  (0x9C9A, 0x765D_765E_4F4A),
  (0x9C9E, 0x765F_7660_7661_7662_7663_7664_4070_7665_7666_7667_7668_7669),
  (0x9CAB, 0x766A),
  (0x9CAD, 0x766B_766C),
  (0x9CB0, 0x766D_766E_766F_7670_7671_7672_7673_7674_3E28),
  (0x9CBA, 0x7675_7676_7677_7678),
  (0x9CC3, 0x487A_7679_767A_767B_767C),
  (0x9CCA, 0x767D_767E_7721_7722_7723_7724_7725),
  (0x9CD3, 0x7726_7727_7728_316E_7729_772A_772B),
  (0x9CDC, 0x772C_772D_415B_772E),
  (0x9CE2, 0x772F),
  (0x9E1F, 0x4471_702F_3C26_7030_4379),
  (0x9E25, 0x4538_513B),
  (0x9E28, 0x7031_7032_7033_7034_7035_513C),
  (0x9E2F, 0x516C),
  (0x9E31, 0x7037_7036_5427),
  (0x9E35, 0x4D52_7038_703A_7039_703B_703C),
  (0x9E3D, 0x386B_703D_3A68),
  (0x9E41, 0x703E_703F_3E69_7040_366C_7041_7042_7043_7044_4835_7045_7046),
  (0x9E4E, 0x7047_4574),
  (0x9E51, 0x7048),
  (0x9E55, 0x7049),
  (0x9E57, 0x704A_773D),
  (0x9E5A, 0x704B_704C_704D),
  (0x9E5E, 0x704E),
  (0x9E63, 0x704F_3A57),
  (0x9E66, 0x7050_7051_7052_7053_7054_7055_7056_7058),
  (0x9E70, 0x5325_7057),
  (0x9E73, 0x7059),
  (0x9E7E, 0x753A_4239),
  (0x9E82, 0x7764),
  (0x9E87, 0x7765_7766),
  (0x9E8B, 0x7767),
  (0x9E92, 0x7768_4234),
  (0x9E9D, 0x776A),
  (0x9E9F, 0x776B),
  (0x9EA6, 0x4273),
  (0x9EB4, 0x7470),
  (0x9EB8, 0x746F),
  (0x9EBB, 0x4269),
  (0x9EBD, 0x7761_7762),
  (0x9EC4, 0x3B46),
  (0x9EC9, 0x5964),
  (0x9ECD, 0x4A72_4068_7024),
  (0x9ED1, 0x3A5A),
  (0x9ED4, 0x472D),
  (0x9ED8, 0x442C),
  (0x9EDB, 0x776C_776D_776E),
  (0x9EDF, 0x7770_776F),
  (0x9EE2, 0x7771),
  (0x9EE5, 0x7774),
  (0x9EE7, 0x7773),
  (0x9EE9, 0x7772_7775),
  (0x9EEF, 0x7776),
  (0x9EF9, 0x6D69),
  (0x9EFB, 0x6D6A_6D6B),
  (0x9EFE, 0x763C),
  (0x9F0B, 0x763D),
  (0x9F0D, 0x763E_3626),
  (0x9F10, 0x583E),
  (0x9F13, 0x3944),
  (0x9F17, 0x583B),
  (0x9F19, 0x5C31),
  (0x9F20, 0x4A73),
  (0x9F22, 0x7777),
  (0x9F2C, 0x7778),
  (0x9F2F, 0x7779),
  (0x9F37, 0x777B),
  (0x9F39, 0x777A),
  (0x9F3B, 0x3147),
  (0x9F3D, 0x777C_777D),
  (0x9F44, 0x777E),
  (0x9F50, 0x466B_6C34),
  (0x9F7F, 0x335D_7633),
  (0x9F83, 0x7634_4164_7635_7636_7637_7638_7639_763A_4823_763B),
  (0x9F99, 0x417A_3928_6D68),
  (0x9F9F, 0x396A_595F),
  (0xFF01, 0x2321_2322_2323_2167_2325_2326_2327_2328_2329_232A_232B_232C),
  (0xFF0D, 0x232D_232E_232F_2330_2331_2332_2333_2334_2335_2336_2337_2338),
  (0xFF19, 0x2339_233A_233B_233C_233D_233E_233F_2340_2341_2342_2343_2344),
  (0xFF25, 0x2345_2346_2347_2348_2349_234A_234B_234C_234D_234E_234F_2350),
  (0xFF31, 0x2351_2352_2353_2354_2355_2356_2357_2358_2359_235A_235B_235C),
  (0xFF3D, 0x235D_235E_235F_2360_2361_2362_2363_2364_2365_2366_2367_2368),
  (0xFF49, 0x2369_236A_236B_236C_236D_236E_236F_2370_2371_2372_2373_2374),
  (0xFF55, 0x2375_2376_2377_2378_2379_237A_237B_237C_237D_212B),
  (0xFFE0, 0x2169_216A),
  (0xFFE3, 0x237E),
  (0xFFE5, 0x2324)]

/-- /repo/modules/from/_GB2312.txt and /repo/modules/to/_GB2312.txt. -/
def gb2312 : Charset where
  reads := gb2312Reads
  writes := gb2312Writes
  odd := [(0xA8, 0x2127), (0xB1, 0x2140), (0xD7, 0x2141), (0xF7, 0x2142), (0xB0, 0x2163), (0xA4, 0x2168), (0xA7, 0x216C), (0xE1, 0x2822), (0xE0, 0x2824), (0xE9, 0x2826), (0xE8, 0x2828), (0xED, 0x282A), (0xEC, 0x282C), (0xF3, 0x282E), (0xF2, 0x2830), (0xFA, 0x2832), (0xF9, 0x2834), (0xFC, 0x2839), (0xEA, 0x283A)]

end Verif.Charsets
