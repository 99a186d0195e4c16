import Verif.Spec.Charset
/-
Generated by tools/charsets.py from rule files of /repo/modules/from and /repo/modules/to.
-/
namespace Verif.Charsets
open Verif.Spec

set_option maxRecDepth 100000

/-- The rules of /repo/modules/from/_UAO250.txt: code, character.  No two lines have the same code, so their order does not matter; here they
are sorted. -/
def big5Reads : Chart := Chart.wide [
  (0x8140, 0x4E17_4E22_4E2C_4E55_4E62_4E8A_4EB0_4EEB_4EED_4EFC_4F1C_4F8A),
  (0x814C, 0x4FFF_5042_5050_5078_50D8_50DE_50F4_5116_514A_5151_5164_516A),
  (0x8158, 0x5185_5190_519D_51A6_51A8_51A9_51C7_51D6_51DB_51EC_51FC_520B),
  (0x8164, 0x5214_5215_5220_522B_5239_524F_5271_5290_5292_5294_529C_52AF),
  (0x8170, 0x52B5_52D0_5300_5307_5324_5346_535F_5393_53B0_53DD_5423_5450),
  (0x817C, 0x5451_548A_549D),
  (0x81A1, 0x54A3_54B4_54D0_5523_553F_554C_5553_555D_556C_559E_55A9_55EC),
  (0x81AD, 0x55F5_5623_5650_567C_568A_5694_56A0_56AF_56D8_5700_5759_5765),
  (0x81B9, 0x577F_5785_5789_57A1_57AC_57B4_57C0_57C8_57D3_57EF_5844_586C),
  (0x81C5, 0x5892_589A_58B2_58B8_58E5_58FB_5902_590B_5910_5918_591B_748C),
  (0x81D1, 0x748D_7499_749B_74A4_74B4_74B9_74C8_74CC_74D0_74D3_7542_7555),
  (0x81DD, 0x756E_758D_759E_75DC_762C_764F_7651_7673_7674_76A5_76D9_770E),
  (0x81E9, 0x770F_7758_7772_7777_7778_777A_777B_7798_77AF_77BE_77C3_77C5),
  (0x81F5, 0x77CB_77DD_77E6_77F4_781E_783D_7842_7844_784B_7851),
  (0x8240, 0x5516_58F7_9834_845B_7114_8276_8956_9D2C_9D0E_8EAF_6062_6666),
  (0x824C, 0x86CE_64B9_938C_565B_6F45_8ACC_7149_5DCC_8749_9A28_7BAA_8D0B),
  (0x8258, 0x9957_5C2D_7E4B_981A_5026_6372_9E78_783F_9EB9_9EBA_8CCE_8B83),
  (0x8264, 0xEF79_848B_91A4_7A63_64B0_5DFD_5E96_8061_6955_7AEA_7026_68BC),
  (0x8270, 0x7977_6D9C_8FE9_7962_56A2_877F_5265_7984_6E8C_9197_7B86_982C),
  (0x827C, 0x685D_4FAD_85AE),
  (0x82A1, 0x7BED_874B_5036_690D_6B96_614E_5177_771F_5024_7F6E_76F4_69D9),
  (0x82AD, 0x60E3_62F6_545F_9784_564C_50C5_5618_865E_5932_595B_595D_5963),
  (0x82B9, 0x596C_599B_59D7_59EB_5A1A_5AAA_5AD0_5AF1_5B36_5BC9_5BF3_5C13),
  (0x82C5, 0x5C1C_5C1E_5C53_5C99_5C9C_5CBA_5CBB_5CC1_5CF5_5CFA_5D15_5D18),
  (0x82D1, 0x5D3E_5D53_5D5C_5D6D_5D73_5D74_5D8C_5D90_5DB9_5DD0_5DD3_5E47),
  (0x82DD, 0x5E64_5ECF_5ED0_5EEA_5EF0_5F09_5F0C_5F11_5F21_5F34_5F41_5F45),
  (0x82E9, 0x5F51_5F5C_5F66_5F83_5FF0_604A_6060_608B_60A6_60DE_6111_6120),
  (0x82F5, 0x6121_613C_613D_6198_61B7_61F4_6213_621D_621E_6237),
  (0x8340, 0x5E7A_6C10_53CE_4F2B_4F4E_5434_56F1_58EE_5939_5986_5C2C_51B3),
  (0x834C, 0x51B2_707E_89C1_89D2_8D1D_8F66_4E9A_6765_4ED1_4E24_534F_5C4A),
  (0x8358, 0x5188_5E95_62B5_4E1C_4E89_72B6_7C7C_7EA0_5367_8F67_90B8_957F),
  (0x8364, 0x95E8_4FA0_4FA3_5156_5219_52B2_5374_5942_5E05_67E2_6C79_4E3A),
  (0x8370, 0x7EA3_7EA2_7EAA_7EAB_7EA5_7EA6_7EA1_80DD_82CE_8BA1_8BA2_8BA3),
  (0x837C, 0x8D1E_8D1F_519B),
  (0x83A1, 0x8F68_95E9_97E6_9875_98CE_98DE_4FE9_4EEC_4F25_4E2A_4F26_4ED3),
  (0x83AD, 0x51BB_521A_5265_5458_5A31_5B59_5CE1_5C9B_5C98_5E08_5E93_5F84),
  (0x83B9, 0x631F_65F6_664B_4E66_6CFE_6D43_4E4C_72ED_72C8_4EA9_7825_79EA),
  (0x83C5, 0x7EBA_7EB1_7EB9_7EAF_7EBD_7EB0_7EA7_7EAD_7EB3_7EB8_7EB7_80C1),
  (0x83D1, 0x8109_520D_8BB0_8BA6_8BA8_8BA7_8BAA_8BAF_8BAD_8BAB_5C82_8D22),
  (0x83DD, 0x8D21_8F69_8F6B_9489_9488_948A_948B_95EA_9635_9655_9649_9965),
  (0x83E9, 0x9A6C_9AA8_4F2A_4F1F_4FA6_4FA7_52A1_52A8_533A_53C2_54D1_95EE),
  (0x83F5, 0x8854_56FD_575A_57A9_6267_591F_5A04_5987_4E13_5C06),
  (0x8440, 0x5C49_5CE5_5C97_5E26_5E10_5F20_5F3A_4ECE_5F95_51C4_6005_626B),
  (0x844C, 0x6302_626A_62A1_6323_8D25_542F_659B_65A9_663C_52D6_5F03_6761),
  (0x8458, 0x67AD_6740_6C22_51C9_6D45_6E0A_6CEA_6CA6_51C0_7275_72F0_73B0),
  (0x8464, 0x4EA7_6BD5_5F02_4F17_7ECA_7EDF_7ECD_7ECB_7ECC_7EC6_7EC5_7EC4),
  (0x8470, 0x7EC8_7EC1_7EC2_94B5_4E60_835A_830E_8392_5E84_82CB_5904_672F),
  (0x847C, 0x886E_89C5_89C4),
  (0x84A1, 0x8BBF_8BB6_8BC0_8BB7_8BB8_8BBE_8BBC_8BB9_8D29_8D23_8D2F_8D27),
  (0x84AD, 0x8D2A_8D2B_8F6D_8F6F_8FD9_8FDE_8FF3_9497_9493_948F_9492_95ED),
  (0x84B9, 0x9648_9646_9634_9876_9877_9C7C_9E1F_5364_9EA6_5907_4F27_4F1E),
  (0x84C5, 0x51EF_5240_521B_52B3_52CB_4E27_5355_54DF_5524_4E54_56F4_5C27),
  (0x84D1, 0x573A_62A5_57DA_58F6_5A32_5BFB_5C9A_5E27_5E0F_5395_53A9_6076),
  (0x84DD, 0x95F7_60EC_607B_607C_62E3_6325_6362_626C_67A3_680B_6808_94A6),
  (0x84E9, 0x6B8B_58F3_6C2F_6C29_6D8C_51D1_6E6E_6DA1_6C64_6D4B_6D51_6DA3),
  (0x84F5, 0x65E0_72B9_82CF_753B_75C9_53D1_76D7_781A_79C6_7A97),
  (0x8540, 0x7B14_7B0B_7EDE_7ED3_7ED2_7EDD_4E1D_7EDC_7ED9_7EDA_7ED6_7EDB),
  (0x854C, 0x8083_80BE_80C0_534E_83B1_82CC_865A_89C6_8BC4_8BCD_8BC1_8BC2),
  (0x8558, 0x8BCF_8BC5_8BC8_8BCB_8BC9_8BCA_8BC3_8D2E_8D34_8D30_8D3B_8D32),
  (0x8564, 0x8D39_8D3A_8D35_4E70_8D2C_8D38_8D37_8F72_8F74_8F76_8FDB_90AE),
  (0x8570, 0x4E61_949E_94AE_9499_94A0_94A7_949D_94A4_94A3_95F5_95F0_5F00),
  (0x857C, 0x95F2_95F4_95F3),
  (0x85A1, 0x961F_9636_9633_97E7_9879_987A_987B_996A_996D_9968_996E_996C),
  (0x85AD, 0x51AF_9A6D_4E71_503A_4F20_4EC5_503E_4F24_506C_94F2_52BF_79EF),
  (0x85B9, 0x6C47_5417_545C_545B_56ED_5706_6D82_5757_575E_57D8_8314_5965),
  (0x85C5, 0x5988_7231_5FFE_6006_607A_635F_62A2_6363_6784_6656_6655_65F8),
  (0x85D1, 0x4F1A_4E1A_6781_6768_6862_67AB_5C81_6C9F_706D_6E7F_6ED1_6CA7),
  (0x85DD, 0x70E6_70BC_7080_7115_7237_72EE_733E_73F2_5F53_76CF_7750_7741),
  (0x85E9, 0x96CE_788C_8282_7B15_7CA4_7ECF_7EE2_7ED1_7EE5_7EE6_4E49_7FA1),
  (0x85F5, 0x5723_80A0_811A_80BF_8111_8364_82C7_53F6_83B4_865E),
  (0x8640, 0x864F_53F7_8708_86AC_8865_88C5_8BE7_8BE5_8BE6_8BD5_8BD7_8BD8),
  (0x864C, 0x8BD9_8BE3_8BDA_8BDD_8BDB_8BE1_8BE2_8BE0_8BDF_8D3C_8D44_8D3E),
  (0x8658, 0x8D3F_8D40_8D41_8D42_8D45_8F83_8F7D_8F7C_8F7E_519C_8FD0_8FBE),
  (0x8664, 0x8FDD_8FC7_90B9_94B4_94B3_94B9_94B8_94BE_94C0_94C5_94A9_94C2),
  (0x8670, 0x94C3_94C9_94CB_949C_94CD_94BF_94C6_95F8_9668_96BD_7535_9884),
  (0x867C, 0x987D_987F_987C),
  (0x86A1, 0x9881_9882_9972_9974_9971_9970_9A70_9A6E_9A6F_9E20_4FA5_4FA8),
  (0x86AD, 0x532E_538C_5C1D_5455_53F9_55BD_5567_54D4_56E2_56FE_5C18_57AB),
  (0x86B9, 0x5811_5BFF_68A6_593A_5941_59AA_5B9E_5BDD_5BF9_5C61_5D2D_5C96),
  (0x86C5, 0x5E01_5E3C_5F7B_6001_60EF_6078_60ED_60E8_6402_63B4_63BA_7545),
  (0x86D1, 0x8363_67AA_6EDA_6E0D_6C49_6EE1_6EDE_6E10_6DA8_6D9F_6CAA_6E14),
  (0x86DD, 0x6E17_6DA4_8367_5C14_8366_72F1_7410_739B_759F_75A1_75AF_75EA),
  (0x86E9, 0x5C3D_76D1_7855_796F_7978_79CD_79F0_6D3C_7A9D_7B3A_7B5D_7EFD),
  (0x86F5, 0x7EFE_7EFC_7EF0_7EEB_7EFF_7D27_7F00_7EB2_7EEE_7EF8),
  (0x8740, 0x7EF5_7EB6_7EF4_7EEA_7F01_7EF6_7F5A_95FB_8385_76D6_836A_82CD),
  (0x874C, 0x8680_8BF5_8BED_8BEC_8BA4_8BEB_8BEF_8BF4_8BF0_8BF2_8BF1_8BF3),
  (0x8758, 0x8BEE_5BBE_8D48_8D4A_8D75_8D76_8F85_8F84_8F7B_8FDC_900A_9012),
  (0x8764, 0x94F0_94F6_94DC_94ED_94E2_94EC_94E8_94F5_94E3_9602_95FA_95FD),
  (0x8770, 0x9601_9600_9645_9887_9886_98D2_997A_997C_9975_9977_9A73_80AE),
  (0x877C, 0x9AB0_9E23_9E22),
  (0x87A1, 0x51E4_9F50_4EBF_4EEA_4EF7_4FAC_4FA9_4FED_5267_5218_5251_523D),
  (0x87AD, 0x5389_5520_5634_54D7_5618_55B7_5578_53FD_589F_575F_5760_5815),
  (0x87B9, 0x5A34_5A75_59A9_5A07_5A06_5BBD_5BA1_5199_5C42_5D94_5E1C_5E9F),
  (0x87C5, 0x53A8_5E99_53AE_5E7F_5F39_5E86_8651_5FE7_6002_60AF_60EE_6124),
  (0x87D1, 0x6003_631A_6251_635E_62E8_6320_629A_63B8_63FF_654C_6570_6682),
  (0x87DD, 0x6635_6837_6869_67A2_6807_697C_6868_4E50_679E_6B27_6B87_6BB4),
  (0x87E9, 0x6D46_6CFC_6D01_6D47_6E83_6DA6_6DA7_6D54_70ED_5956_83B9_75AE),
  (0x87F5, 0x7691_76B1_76D8_786E_7801_7A91_7A77_7F14_7EC3_7EAC),
  (0x8840, 0x7F04_7F05_7F09_7F16_7F18_7EBF_7F0E_7F13_7F0D_7F02_7F08_7F07),
  (0x884C, 0x9A82_7F62_80F6_80A4_83B2_836B_848B_867E_8717_536B_8C0A_8C05),
  (0x8858, 0x8C08_8C06_8BDE_8BF7_8BF8_8BFE_8BFF_8C04_8C03_8C01_8BBA_8BE4),
  (0x8864, 0x8C07_8BFD_8C00_7AD6_8D54_8D4F_8D4B_8D31_8D26_8D4C_8D24_5356),
  (0x8870, 0x8D50_8D28_8D53_8DF5_8F89_8F86_8F8D_8F88_8F87_8F6E_8F8E_8F8B),
  (0x887C, 0x8F8A_9002_8FC1),
  (0x88A1, 0x90BB_90D1_9093_950C_9511_9500_94FA_94D0_9504_94DD_9510_9509),
  (0x88AD, 0x950B_94A1_9502_95FE_9605_5DE9_9889_988C_517B_997F_9981_9A7C),
  (0x88B9, 0x9A7B_9A77_9A76_9A7D_9A7E_9A79_9A78_9AB7_95F9_9C7F_9C81_9E29),
  (0x88C5, 0x9E26_9EB8_9F7F_4FE6_50A7_4FAA_5E42_5242_5428_54DD_55F3_57A6),
  (0x88D1, 0x575B_594B_8885_5B66_5BFC_5BAA_51ED_60EB_61D4_5FC6_6218_62E5),
  (0x88DD, 0x6321_631E_636E_63B3_62E9_6361_62C5_631D_5386_6653_6654_6619),
  (0x88E9, 0x6866_6A2A_6811_692D_6865_673A_6861_6DC0_6D53_6CFD_6D4A_6CA3),
  (0x88F5, 0x6FA6_6E11_70BD_70E7_706F_70EB_7116_72EC_7391_74EF),
  (0x8940, 0x7618_5362_7792_7816_789B_79EF_9896_7A23_7AA5_7B03_7B5B_7F22),
  (0x894C, 0x7F23_8426_7F1A_53BF_7F1F_7F1C_7F19_7EC9_817B_5174_8231_8361),
  (0x8958, 0x8427_829C_8682_8424_88E4_4EB2_89CE_8C1B_8C1A_8C0F_8BB3_8C0B),
  (0x8964, 0x8C0D_8C10_8C18_8BFA_8C12_8C13_8BBD_8C15_8C19_8C0C_8C16_8D56),
  (0x8970, 0x8F90_8F91_8F93_8F8F_529E_9009_8FDF_8FBD_9057_90BA_952D_952F),
  (0x897C, 0x9530_9519_94B1),
  (0x89A1, 0x94A2_9521_5F55_94EE_9525_9526_951F_9522_9531_960E_968F_9669),
  (0x89AD, 0x9759_817C_988A_9888_9891_9894_5934_9893_9890_9986_996F_9984),
  (0x89B9, 0x9985_9A87_9A88_9A86_9AB8_9ABC_9C8D_9E35_9E2A_9E2F_9E2D_9E33),
  (0x89C5, 0x9F99_9F9F_4F18_507F_50A8_52B1_549B_5413_538B_57D9_5A74_5AD4),
  (0x89D1, 0x5B37_5C34_5C66_5C7F_5D58_5E2E_5F25_5E94_6073_620F_51FB_6324),
  (0x89DD, 0x62E7_62DF_6401_655B_6BD9_66A7_6863_68C0_6867_6809_6A2F_6B93),
  (0x89E9, 0x6BE1_6CDE_6EE8_6D4E_6D9B_6EE5_6DA9_6F4D_8425_707F_70DB_70E9),
  (0x89F5, 0x5899_72DE_83B7_73AF_7477_75E8_7597_77EB_78FA_77F6),
  (0x8A40, 0x7BD3_7CAA_9546_7CC1_7F29_7EE9_7F2A_7F15_7F27_7EF7_7F1D_603B),
  (0x8A4C, 0x7EB5_7F2B_7EA4_7F25_7E66_7F26_58F0_806A_8054_8038_8113_80C6),
  (0x8A58, 0x8138_810D_4E34_4E3E_8270_8537_84DF_4E8F_877C_8748_4EB5_891B),
  (0x8A64, 0x89CA_8C1C_8C24_8C26_8BB2_8C0E_8C23_8C22_8A8A_8C27_8D5A_8D5B),
  (0x8A70, 0x8D2D_8D59_8D8B_8F96_8F97_6BC2_8F95_8206_8FD8_8FC8_915D_9540),
  (0x8A7C, 0x9541_951A_952E),
  (0x8AA1, 0x9532_9505_9524_953A_9539_953B_953E_9537_9614_9615_9611_95F1),
  (0x8AAD, 0x9690_96B6_867D_97E9_9897_98D3_9A8B_9A8F_9C9C_9C9B_9C94_9C91),
  (0x8AB9, 0x9E3F_9E3D_70B9_658B_4E1B_565C_5739_5792_5A76_61D1_6269_63B7),
  (0x8AC5, 0x6270_64B5_6446_64DE_64B7_65AD_69DF_67DC_69DB_67E0_6B24_5F52),
  (0x8AD1, 0x6BA1_6CFB_6E16_6EE4_6E0E_6E85_6D4F_70EC_7118_72B7_730E_74EE),
  (0x8ADD, 0x75A0_7751_7840_793C_7A51_79FD_7A9C_7A8D_7BAB_7C27_7BAA_7BD1),
  (0x8AE9, 0x7B80_7CAE_7EC7_7F2E_7ED5_7F2D_7EE3_7F2F_7FD8_804C_8042_8110),
  (0x8AF5, 0x8191_65E7_8428_84DD_8360_86F2_8749_89D0_89DE_8C1F),
  (0x8B40, 0x8C28_8C2C_8C2A_8D58_8E52_8FF9_8DF8_8EAF_8F6C_8F99_8FE9_533B),
  (0x8B4C, 0x9171_9551_9501_94A8_954D_9547_9550_9552_9549_9616_95EF_9617),
  (0x8B58, 0x9619_6742_53CC_96CF_9E21_989D_989C_9898_989A_989B_998F_998A),
  (0x8B64, 0x9988_9A91_9AC1_9CA8_9CA4_9CAB_9CA7_9E43_9E45_9E44_5784_575C),
  (0x8B70, 0x5BA0_5E9E_5E90_60E9_6000_61D2_62E2_65F7_6A71_691F_6988_6A79),
  (0x8B7C, 0x6F47_6FD1_6CA5),
  (0x8BA1, 0x6FD2_6CF8_70C1_724D_728A_517D_736D_73BA_743C_7574_762A_788D),
  (0x8BAD, 0x7977_7A33_7B7E_8327_7ECE_7EF3_7ED8_7F57_7F34_81BB_827A_85AE),
  (0x8BB9, 0x836F_8681_8747_88C6_8884_8C31_8BC6_8C2D_8C32_8BA5_8C2F_8D60),
  (0x8BC5, 0x8D5E_8DF7_8F9A_8F7F_8F9E_8FB9_955C_955D_955E_94FE_9557_9558),
  (0x8BD1, 0x9556_9559_9535_9542_94FF_933E_5173_9647_96BE_96FE_97EC_97F5),
  (0x8BDD, 0x7C7B_98A0_98D5_9992_9991_9A9B_9A97_9CB8_9CB3_9CAD_9CB7_9E51),
  (0x8BE9, 0x9E49_9E4A_9E4C_9E4F_4E3D_9EB4_529D_5499_5624_4E25_5B9D_60AC),
  (0x8BF5, 0x5FCF_62E6_6400_80E7_6987_6F9C_6F4B_7089_73D1_77FF),
  (0x8C40, 0x783A_77FE_783E_7AA6_7ADE_7B79_7BEE_8FAB_7F24_7EE7_7F42_80EA),
  (0x8C4C, 0x8230_853C_853A_82A6_82F9_8574_869D_8934_89C9_89E6_8BAE_8BD1),
  (0x8C58, 0x8C35_8D62_8D61_8DB8_91CA_949F_94D9_9508_9610_98D8_9976_9965),
  (0x8C64, 0x9A9E_817E_9A9A_9CC3_9CC5_515A_9F83_9F84_4FEA_55EB_556D_56A3),
  (0x8C70, 0x5C5E_60E7_6151_6444_643A_6593_6A31_680F_68C2_6B7C_70C2_727A),
  (0x8C7C, 0x9576_748E_765E),
  (0x8CA1, 0x7F20_7EED_5170_85D3_86CE_89C8_8C34_62A4_8A89_8D43_8E0C_8DC3),
  (0x8CAD, 0x8DFB_8F70_8FA9_9570_956D_94C1_94DB_94CE_956F_954C_54CD_987E),
  (0x8CB9, 0x98A2_98E8_9A71_9AA0_84E6_9AA1_9AC5_9CCD_9CCF_83BA_9E64_9E5E),
  (0x8CC5, 0x9F87_9F88_556E_4FE8_50A5_5453_5B6A_5DC5_5CE6_5F2F_644A_6743),
  (0x8CD1, 0x6B22_6EE9_7321_53E0_763E_7663_7B3C_7C41_804B_810F_88AD_886C),
  (0x8CDD, 0x8BFB_8D4E_8D5D_8E2F_8E2C_8F94_90E6_94F8_9274_9701_9791_7E6E),
  (0x8CE9, 0x98A4_9A84_9A81_9CD6_9CA2_9CD4_9CD7_9E67_9E25_9F39_9F89_9F8A),
  (0x8CF5, 0x9F9A_604B_631B_6405_74D2_7A83_7F28_81E2_841D_86CA),
  (0x8D40, 0x53D8_9026_903B_9573_94C4_9765_663E_990D_60CA_9A7F_9A8C_9AD3),
  (0x8D4C, 0x9AD1_9CDD_9CDE_9CDC_9E36_5631_575D_63FD_762B_766B_7F81_8695),
  (0x8D58, 0x8BA9_8C17_8C36_8273_8D63_917F_96F3_7075_972D_98A6_9AA4_9B13),
  (0x8D64, 0x9B47_9C8E_9E70_9E6D_7877_76D0_9CCC_9F8C_9F8B_5385_6984_6E7E),
  (0x8D70, 0x7BF1_7BA9_86EE_89C2_8E51_8845_94A5_9885_998B_9ACB_9EC9_6EE6),
  (0x8D7C, 0x77A9_954A_97AF),
  (0x8DA1, 0x9A74_9AA5_7F06_8C20_8E8F_917D_94BB_92AE_9523_9CC4_9C88_9EE9),
  (0x8DAD, 0x51FF_9E66_9A8A_9E73_9E3E_94BA_4EC2_864D_6B92_57A7_577B_620B),
  (0x8DB9, 0x4FE3_522D_538D_5459_537A_7EA8_8307_9487_9486_5457_5F2A_7953),
  (0x8DC5, 0x7EBE_90CF_948C_5250_5326_56F5_57AD_5A05_5CBD_5D03_6D9E_6E0C),
  (0x8DD1, 0x70C3_7726_7EC0_7ED0_80EB_948E_9490_9495_948D_95EB_59AB_5D5B),
  (0x8DDD, 0x607D_6860_67A8_6CA9_6D48_7572_7817_7ED7_83DD_89C7_8BB5_8BCE),
  (0x8DE9, 0x8BD2_8D36_8D33_8F7A_8F75_8F78_902F_90D3_9104_94AB_94AC_949B),
  (0x8DF5, 0x94AF_94AD_94AA_95F6_9667_9878_996B_9EF9_4F1B_507B),
  (0x8E40, 0x4F65_5522_57B2_5DEF_5FAD_709C_8315_72F2_73AE_7EE8_7EE0_7EE1),
  (0x8E4C, 0x7F9F_836D_86F1_8BD3_8BD6_8BE9_8BD4_8BDC_8D91_8F82_8F81_90AC),
  (0x8E58, 0x94CA_94C8_94B0_94B2_94B6_950D_94CC_94BD_94BC_9883_9880_51EB),
  (0x8E64, 0x9EFE_507E_551B_5D5D_5E3B_60AB_60AD_6004_622C_6217_629F_62A0),
  (0x8E70, 0x63BC_6864_6769_8365_6D52_6CA4_709D_76B2_7800_7EFB_7EF2_7EEF),
  (0x8E7C, 0x7EFA_83B3_89CB),
  (0x8EA1, 0x8BF6_8D47_94F1_94D2_94D1_94D5_94DF_94EB_94EF_94EA_94F7_94D6),
  (0x8EAD, 0x94E5_98D1_523F_52A2_54D3_5452_5D02_5CE4_5E91_6126_6322_6920),
  (0x8EB9, 0x6BF5_988D_6D9D_6F62_6DA0_6ED7_740F_7481_7617_7F03_7F17_7F0C),
  (0x8EC5, 0x7F0F_7F11_835C_848C_8311_82C1_8BF9_8BFC_8C02_8D55_90F8_9512),
  (0x8ED1, 0x94D7_94FD_9513_950A_94E4_9506_9507_9514_9606_9603_9753_988F),
  (0x8EDD, 0x997D_9A75_9A80_9C82_9E28_54D2_54D5_54D9_5AD2_5CC4_603F_6B9A),
  (0x8EE9, 0x6D4D_70E8_7303_72EF_789C_7AAD_7E17_7F1B_8487_8368_8489_835E),
  (0x8EF5, 0x83B8_8297_86F3_8BE8_8C11_8C14_8C1D_90D0_9529_952C),
  (0x8F40, 0x9516_9517_94FC_951B_9515_951E_9494_960F_9608_9609_960A_960C),
  (0x8F4C, 0x960D_9E32_9E31_54DC_5E31_6079_6448_E3C1_6CF6_7315_7513_7605),
  (0x8F58, 0x75EB_7857_7BA6_7B5A_7CE8_7F21_8027_835F_83B6_86F0_88E2_89CF),
  (0x8F64, 0x8C21_8BCC_8C25_8DC4_9538_9534_94E1_9536_9612_9967_9C92_9C95),
  (0x8F70, 0x9E38_9E39_9E3A_9F80_603C_6445_64B8_6CFA_7596_7F0B_8069_8369),
  (0x8F7C, 0x87E5_866E_8BB4),
  (0x8FA1, 0x8C29_8D5C_8D3D_8F98_909D_9553_94E0_953C_954F_84E5_97EA_9969),
  (0x8FAD, 0x9A90_9A92_9A93_960B_9CA9_9CA0_9E48_9E41_9E46_53A3_5456_5786),
  (0x8FB9, 0x69E0_680E_6C07_6CF7_6F46_7962_7F32_7F33_7F74_8223_86CF_867F),
  (0x8FC5, 0x88E3_89D1_89EF_8C2E_955B_955F_956A_9546_94E9_97EB_98A1_9990),
  (0x8FD1, 0x9AC2_9CB5_9CB6_9CBB_9CB1_9E4E_9E2B_9EFC_55BE_6484_680A_67A5),
  (0x8FDD, 0x680C_7F31_804D_830F_82C8_8572_86F4_877E_94F4_9566_9568_9561),
  (0x8FE9, 0x9563_9544_956B_94E7_9564_94F9_961A_989F_9994_9A7A_9A9D_9A9F),
  (0x8FF5, 0x9A98_9E57_9E5A_9E5C_9F86_9F85_50A9_5CBF_75C8_64BA),
  (0x9040, 0x6989_6EE0_783B_7C9D_7EA9_7F2C_8539_8D46_9571_95FC_98D9_9AA2),
  (0x904C, 0x9A96_9A9C_9CA5_9CCE_9CD0_9E63_9E58_9E7E_5181_5A08_7055_6512),
  (0x9058, 0x763F_7BA8_7C74_823B_89CC_8DF9_8DDE_8F79_9554_956C_9AA3_9A85),
  (0x9064, 0x9CD5_9CA3_9CA6_9E68_9E37_9F9B_683E_6924_84E0_96E0_8F73_9CDF),
  (0x9070, 0x9C9F_9E69_9E6C_9E6A_9E6B_9E47_704F_7C16_8C30_9ACC_7B3E_7C9C),
  (0x907C, 0x7F35_8114_8E7F),
  (0x90A1, 0x9567_9C9A_8DB1_8E9C_917E_8C33_989E_98A7_9AA7_9E2C_6206_9604),
  (0x90AD, 0x9CA1_9E42_79B8_62D4_8DCB_73D0_5BAB_62D0_6BC1_51CF_7984_5415),
  (0x90B9, 0x6F5C_889C_90E7_5179_6238_629B_6327_63BB_63DE_63FA_6491_64C0),
  (0x90C5, 0x64E1_64F6_6505_6535_654E_656B_6588_65D9_661E_663B_663F_6644),
  (0x90D1, 0x6657_6669_6673_6683_66BC_66BF_66C1_66F5_66FA_66FB_670E_6716),
  (0x90DD, 0x6737_6764_6766_67A6_67A7_67A9_67FB_67FD_6800_6801_6805_681E),
  (0x90E9, 0x684A_6852_6855_6859_688D_68B9_68CF_5088_9528_9C97_6922_6926),
  (0x90F5, 0x00DC_E4DF_E4E0_00FC_E4E2_E4E3_00DC_00FC_6936_6961),
  (0x9140, 0x82C5_82CA_82D8_8318_831A_8323_8346_835B_8362_836C_836E_839C),
  (0x914C, 0x839F_83B5_83BC_83F7_842A_8448_845C_8462_8484_8488_84DC_84E3),
  (0x9158, 0x8538_855A_8597_85AB_85C1_8613_8616_220B_8715_8770_877D_878B),
  (0x9164, 0x87A8_87C7_87D0_8807_880E_8827_88AE_2208_88B5_88BF_88E5_88F5),
  (0x9170, 0x891C_891D_8977_89E7_8A37_8AAC_8ADA_8B5B_8B71_8C2B_8C3A_8C7C),
  (0x917C, 0x8C8E_8CAE_8D12),
  (0x91A1, 0x8D49_8D4D_8D71_8E08_8E3A_8E70_8E99_8EB0_8EB1_8EC5_8EC6_8ECE),
  (0x91AD, 0x8EE3_8F0C_8F71_8F77_8FA7_8FEF_900E_9039_9065_9089_90DE_9115),
  (0x91B9, 0x91D6_91DB_91DE_91E1_91E5_91F6_91FC_9229_922C_FF07_9259_9277),
  (0x91C5, 0x92ED_933A_E54D_E54E_722B_5182_5196_4E37_516B_513F_E555_E556),
  (0x91D1, 0x6729_6C3A_5382_7592_8080_8864_4E06_E55E_E55F_E560_2E97_52F9),
  (0x91DD, 0x5315_2021_E565_3404_E567_E568_E569_E56A_E56B_51F5_E56D_5C6E),
  (0x91E9, 0xE56F_56D7_4EA0_51AB_2E80_69C7_E575_254E_25D8_25D9_2642_25B6),
  (0x91F5, 0x25C4_2195_203C_00B6_2200_21A8_2194_2302_E583_E584),
  (0x9240, 0x4E9C_60AA_5727_56F2_533B_58F1_9038_96A0_6804_55B6_99C5_8B01),
  (0x924C, 0x5186_7E01_5FDC_6B27_6BB4_685C_5965_7A4F_4EEE_4FA1_753B_7070),
  (0x9258, 0x4F1A_6094_6D77_7D75_58CA_61D0_62E1_6BBB_899A_5B66_697D_559D),
  (0x9264, 0x6E07_E5AA_5DFB_9665_52E7_5BDB_6F22_95A2_6B53_89B3_6C17_5E30),
  (0x9270, 0x622F_72A0_8650_65E7_6025_62E0_6319_865A_5CE1_631F_72ED_90F7),
  (0x927C, 0x97FF_6681_52E4),
  (0x92A1, 0x8B39_533A_99C6_52F2_E5C8_5F84_830E_6075_63B2_6E13_7D4C_86CD),
  (0x92AD, 0x8EFD_7D99_9D8F_6483_770C_5039_5263_967A_570F_691C_6A29_9855),
  (0x92B9, 0x9A13_53B3_5449_5A2F_8AA4_5E83_6E2F_9271_53F7_56FD_9ED2_7A40),
  (0x92C5, 0x7815_6E08_658E_6B73_5264_96D1_53C2_685F_60E8_8CDB_6B8B_6B6F),
  (0x92D1, 0x5150_8F9E_6E7F_5B9F_5199_820E_6368_91C8_5BFF_53CE_8846_5F93),
  (0x92DD, 0x6E0B_7363_7E26_7C9B_51E6_5C06_79F0_6E09_713C_5968_6761_72B6),
  (0x92E9, 0x4E57_6D44_5270_7573_7E04_58CC_5B22_8B72_91B8_89E6_5631_5BDD),
  (0x92F5, 0x5C3D_56F3_7C8B_9154_7A42_968F_9AC4_67A2_6570_636E),
  (0x9340, 0x702C_58F0_6589_9759_7A83_6442_7D76_5C02_6D45_6226_8DF5_92AD),
  (0x934C, 0x6F5C_9077_9078_7E4A_7985_758E_58EE_4E89_8358_635C_633F_5DE3),
  (0x9358, 0x7A93_88C5_50E7_5C64_7DCF_9A12_5897_618E_8535_8D08_81D3_5C5E),
  (0x9364, 0x7D9A_5815_5BFE_5E2F_6EDE_6EDD_629E_6CA2_6FEF_5358_5606_56E3),
  (0x9370, 0x65AD_5F3E_9045_663C_92F3_5E81_5FB4_8074_61F2_585A_9013_9244),
  (0x937C, 0x70B9_8EE2_4F1D),
  (0x93A1, 0x96FB_706F_5F53_515A_76D7_7A32_95D8_5FB3_6BD2_72EC_8AAD_5C4A),
  (0x93AD, 0x96E3_5F10_60A9_8133_62DD_5EC3_58F2_6885_535A_8584_9EA6_7E1B),
  (0x93B9, 0x767A_9AEA_629C_6D5C_6D5C_654F_6577_4FAE_6255_4ECF_8FBA_5909),
  (0x93C5, 0x6B69_8217_7C3F_5305_5B9D_62B1_6CE1_80DE_7832_8C4A_98FD_58A8),
  (0x93D1, 0x6BCE_6E80_8108_9ED9_8A33_85AC_8E8D_4E0E_8A89_6447_69D8_8B21),
  (0x93DD, 0x66DC_6765_983C_4E71_89A7_7ADC_9686_65C5_4E21_731F_7DD1_6D99),
  (0x93E9, 0x5841_793C_52B1_623B_970A_9F62_66A6_6B74_604B_7DF4_932C_7089),
  (0x93F5, 0x52B4_697C_9332_6E7E_5F25_4E80_66FD_59C9_5B8D_5D8B),
  (0x9440, 0x6A2B_691B_55B0_7C82_8FBC_698A_54B2_9D2B_96EB_6919_63C3_99C4),
  (0x944C, 0x51E7_6802_8FBB_50CD_5CE0_6803_51EA_5302_7872_7551_7560_567A),
  (0x9458, 0x92F2_5840_67FE_4FE3_6762_7C7E_5301_4FE4_4FE5_51E9_53FA_54D8),
  (0x9464, 0x56CE_5726_5737_5738_5788_57B3_57AA_57B0_57D6_5870_58B9_58D7),
  (0x9470, 0x5C76_5CBC_5CC5_5CBE_5D76_5F16_603A_63B5_6741_6763_67A1_68BA),
  (0x947C, 0x6925_6928_6A7A),
  (0x94A1, 0x6923_6921_697E_6981_69DD_6A2E_6A72_6B1F_6BDF_6E15_7195_74E7),
  (0x94AD, 0x74F2_74F0_74F1_74F8_7505_7569_766A_7874_7ACD_7ACF_7AD5_7AD3),
  (0x94B9, 0x7AE1_7AF0_7B02_7C13_7C17_7C90_7CAD_7CC0_7CD8_7D9B_7E05_7E67),
  (0x94C5, 0x7E83_7E90_81A4_825D_8422_84D9_8630_86AB_86EF_88B0_88C3_88C4),
  (0x94D1, 0x8904_E72F_8EBE_8EC8_8F4C_8FB7_8FDA_9027_9056_9335_933B_93B9),
  (0x94DD, 0x958A_9596_9779_9786_9790_98AA_9B96_9B97_9BB4_9BCF_9BD1_9BD2),
  (0x94E9, 0x9BF2_9BF1_9C30_9C47_9C5A_9CF0_9D46_9D64_9DAB_4E44_544F_6318),
  (0x94F5, 0x9BB1_9C69_9D47_9D65_9C2F_9EBF_51B4_546A_67A0_9B8E),
  (0x9540, 0x90A8_51B2_362D_62C5_52C5_67B1_54CD_6052_53C1_70F1_5803_555F),
  (0x954C, 0x920E_7740_743C_714A_6ED9_53E0_732E_88CF_788D_7FA3_7DAB_8E2A),
  (0x9558, 0x945B_636C_5FA7_5C05_803B_5CEF_39B8_7151_8CCD_97EE_5872_5A63),
  (0x9564, 0x7F78_5D57_616F_6998_7D89_7CAE_7DB3_6F81_5AFA_58BB_7255_764E),
  (0x9570, 0x8F2D_92B9_9D5E_9EAF_7F47_9DC4_8D18_51B3_866C_54A4_53A6_5226),
  (0x957C, 0x6736_4E21_5374),
  (0x95A1, 0x5EF9_52B9_548F_5EF8_59AC_6031_7240_8117_763B_5F0D_664B_66A8),
  (0x95AD, 0x6164_634F_70DF_6D24_7CA7_7CC9_53D9_654D_5742_73CF_80C6_3551),
  (0x95B9, 0x6B35_7881_53CC_732B_732A_73C9_754A_59F9_71C4_750E_7DDC_99E1),
  (0x95C5, 0x89A9_6FF6_3A57_64EA_3BED_6CA1_6E7C_7567_5869_5869_5204_E7CA),
  (0x95D1, 0x6187_643A_81EF_E7CE_51B5_51D1_6C79_591F_8FF9_98F1_6537_8109),
  (0x95DD, 0x88B4_3A2A_8EAD_7F97_9A10_7D25_6AC8_518C_5227_E7E0_811A_53A0),
  (0x95E9, 0x53A2_6C5A_6C37_8218_5586_5EFB_51C9_78B1_9262_536D_51C3_E7EE),
  (0x95F5, 0x8471_8987_976D_8B90_96A3_5EFC_96B7_514E_9C10_6630),
  (0x9640, 0x9255_7808_9345_9273_9369_E7FE_E7FF_E800_E801_91DF_91DA_7854),
  (0x964C, 0x7866_7888_78B6_78C7_78D2_78D7_212B_21CB_78E4_78EE_78F0_78F1),
  (0x9658, 0x78F5_7932_7933_7936_7958_3013_7959_7971_797E_7983_7986_7987),
  (0x9664, 0x7991_7999_799F_79A5_79E2_79F1_79F4_7A2A_7A3A_7A45_7A65_7ABC),
  (0x9670, 0x7AC2_7AC9_7ADB_7AE9_7AFE_7B0C_7B27_7B29_7B42_7B43_7B55_7B6F),
  (0x967C, 0x7BB2_69DE_69F9),
  (0x96A1, 0x9176_815A_82F7_544B_8132_80BD_8418_915E_9170_918C_8148_E843),
  (0x96AD, 0x4436_8159_809F_E847_5549_5421_54DA_5432_55B9_5494_E84E_7852),
  (0x96B9, 0x7845_784C_E852_84BD_841C_82C4_E856_847B_8B2D_E859_574B_E85B),
  (0x96C5, 0xE85C_5745_87CE_5660_55EA_567B_80BC_E863_78B8_6A0C_54CC_7BD0),
  (0x96D1, 0x7BEC_7BFA_7C15_7C1B_7C35_7C44_7C6D_7C8E_7CB8_7CC3_7CE6_7CED),
  (0x96DD, 0x7CF3_7CF5_7CF9_E877_7CFC_7D8B_7D97_7DA4_7DA8_7DCD_7DD0_7DD3),
  (0x96E9, 0x7DE5_7DFD_6A12_6A22_6A30_6A36_6A65_E887_E888_E889_E88A_E88B),
  (0x96F5, 0xE88C_E88D_E88E_6A73_6A78_E891_E892_6A7C_6AA9_6AAA),
  (0x9740, 0x24EA_2460_2461_2462_2463_2464_2465_2466_2467_2468_2469_246A),
  (0x974C, 0x246B_246C_246D_246E_246F_2470_2471_2472_2473_9344_93AD_93C6),
  (0x9758, 0x93E5_941A_9421_943E_9441_9453_945A_949A_94B7_94D8_94DE_94F3),
  (0x9764, 0x9503_950E_950F_9518_951D_952A_952B_953F_9545_954E_9562_9565),
  (0x9770, 0x9569_9572_9587_9599_95A0_95B2_9666_969D_96AF_96B2_9733_973B),
  (0x977C, 0x974D_974F_9751),
  (0x97A1, 0x9755_9764_976B_9771_9792_97B2_97F2_983D_9854_98A5_98C3_98DA),
  (0x97AD, 0x98EE_991D_9920_9963_9980_9987_998D_9993_9995_99BC_99C8_99F2),
  (0x97B9, 0x9AB6_9AD9_9ADE_9B0F_9B49_9B72_9B83_9B9F_9BBB_9BE3_9BF5_9C00),
  (0x97C5, 0x9C04_9C1B_24B6_24B7_24B8_24B9_24BA_24BB_24BC_24BD_24BE_24BF),
  (0x97D1, 0x24C0_24C1_24C2_24C3_24C4_24C5_24C6_24C7_24C8_24C9_24CA_24CB),
  (0x97DD, 0x24CC_24CD_24CE_24CF_24D0_24D1_24D2_24D3_24D4_24D5_24D6_24D7),
  (0x97E9, 0x24D8_24D9_24DA_24DB_24DC_24DD_24DE_24DF_24E0_24E1_24E2_24E3),
  (0x97F5, 0x24E4_24E5_24E6_24E7_24E8_24E9_00AE_2122_E931_E932),
  (0x9840, 0x9C76_2776_2777_2778_2779_277A_277B_277C_277D_277E_277F_9C85),
  (0x984C, 0x9C86_9C87_9C8B_9C90_9C9E_9CAE_9CB0_9CB2_9CB4_9CBA_9CBC_9CBD),
  (0x9858, 0x9CC6_9CC7_9CCA_9CCB_9CD3_9CD8_9CD9_9CE2_9CEB_9CEC_9D2A_9D48),
  (0x9864, 0x9D50_9D7A_9DC6_9E4B_9E55_9E5B_9E71_9EAA_9EBD_9EC4_9EE2_9EEA),
  (0x9870, 0x9F08_9F0B_9F0D_9F21_9F44_9F51_9F9D_FA0E_FA0F_FA11_FA13_FA14),
  (0x987C, 0xFA18_FA1F_FA20),
  (0x98A1, 0xFA21_FA23_FA24_FA27_FA28_FA29_4E04_4E2F_4E81_4E87_4EA3_4EB7),
  (0x98AD, 0x4EBC_4EF8_4F28_4F29_4F37_4F42_4F45_4F4B_4F72_4FA2_4FB0_4FBD),
  (0x98B9, 0x4FC8_4FCC_4FF0_4FF2_4FF9_5003_5008_5034_503B_5058_5066_5081),
  (0x98C5, 0x5090_50BC_50D0_50DF_50E1_50FC_510D_512B_5160_51AE_51B8_51D2),
  (0x98D1, 0x51E2_5205_5234_523C_5259_5268_5279_52A4_52CC_5327_5342_535D),
  (0x98DD, 0x537D_537E_53C5_53D0_53D2_53FE_546D_5485_5493_549E_54B9_54E3),
  (0x98E9, 0x54EF_550D_5518_5525_5528_552B_5547_5579_5590_55B4_55C1_55D7),
  (0x98F5, 0x55D8_55FB_4FB4_5621_2203_5652_E9CC_263B_E9CE_E9CF),
  (0x9940, 0x565D_2474_2475_2476_2477_2478_2479_247A_247B_247C_247D_247E),
  (0x994C, 0x247F_2480_2481_2482_2483_2484_2485_2486_2487_5661_5689_568B),
  (0x9958, 0x569E_56A1_56B1_56B9_56BF_56D6_56EF_5715_571D_5732_573D_573F),
  (0x9964, 0x5743_21D4_577E_578A_578D_5790_579C_57BB_57BE_57C4_57DE_57FE),
  (0x9970, 0x5812_5822_5847_585C_585F_5873_58A7_58AA_58B0_58B5_58B6_58CB),
  (0x997C, 0x58D0_58E0_5905),
  (0x99A1, 0x5911_5989_5994_599A_599F_59B0_59B8_59C4_59EF_59F0_59F8_5A02),
  (0x99AD, 0x5A0B_5A0D_5A12_5A21_5A24_5A27_5A2A_5A2B_5A2C_5A3D_5A45_5A54),
  (0x99B9, 0x5A59_5A61_5A68_5A6B_5A6E_5A71_5A79_5A7E_5A81_5A82_5A86_5A88),
  (0x99C5, 0x5A91_5A99_5AA0_5AA1_5AAB_5AC3_5ACE_5ACF_5AD3_5AE4_5AF0_5AFE),
  (0x99D1, 0x5B0D_5B11_5B15_5B1F_5B2B_5B41_5B44_5B46_5B4A_5B4F_5B68_5B74),
  (0x99DD, 0x5B76_5B7C_5B82_5B90_249C_249D_249E_249F_24A0_24A1_24A2_24A3),
  (0x99E9, 0x24A4_24A5_24A6_24A7_24A8_24A9_24AA_24AB_24AC_24AD_24AE_24AF),
  (0x99F5, 0x24B0_24B1_24B2_24B3_24B4_24B5_EA69_3232_3231_6AAB),
  (0x9A40, 0x5B96_2488_2489_248A_248B_248C_248D_248E_248F_2490_2491_2492),
  (0x9A4C, 0x2493_2494_2495_2496_2497_2498_2499_249A_249B_5BD5_5BD7_5C23),
  (0x9A58, 0x5C85_5C9E_5CC2_5D10_5D2C_5D2F_5D48_5D56_5D70_5D7B_5D85_5DA4),
  (0x9A64, 0x5DAB_5DB6_5DC1_5DD7_5E09_5E48_5E92_5EBD_5F0E_5F72_5FB1_5FC2),
  (0x9A70, 0x5FDB_5FDF_6023_607E_60D7_6107_610C_6119_6122_6150_6160_6181),
  (0x9A7C, 0x6195_61B9_61C0),
  (0x9AA1, 0x61CF_61D3_61DA_6290_6331_2283_6337_6379_638B_63C1_63E2_63E6),
  (0x9AAD, 0x63FB_63FE_6407_6432_6438_643B_645A_6471_647C_648D_64AF_64B4),
  (0x9AB9, 0x64B6_64DD_64E5_650A_6511_651F_655F_656D_6586_65B5_65BE_65D1),
  (0x9AC5, 0x65D4_65E3_65FF_6618_6623_6663_666B_667D_6685_6692_669A_66A4),
  (0x9AD1, 0x66AD_66B3_66B6_66CD_66CE_6702_670C_6719_6744_676B_678F_67A4),
  (0x9ADD, 0x67BF_67D6_67D7_2282_680D_6810_681B_6836_6847_6856_6884_6888),
  (0x9AE9, 0x68BD_68C3_68C5_6902_6903_6909_6918_6943_6946_6964_6967_6972),
  (0x9AF5, 0x6985_699F_69A2_69D1_69D5_69D6_9A21_9A26_9A2F_6AC1),
  (0x9B40, 0x59BF_69E1_6A03_6A1A_6A1C_6A2C_6A2D_6A33_6A43_6A45_6A4C_6A53),
  (0x9B4C, 0x6A57_6A63_6A74_6A82_6A8A_6A8F_6A99_6AA7_6AB1_6AB5_6ABE_6AC9),
  (0x9B58, 0x6AD4_6AD8_6AF6_6B57_6B7A_6BDC_6C1C_6C31_6C58_6C6E_6C75_6C7F),
  (0x9B64, 0x6CAF_6CCB_6CDF_6CFF_6D02_6D05_6D06_6D26_6D57_6D5B_6D71_6D81),
  (0x9B70, 0x6D8F_6DA5_6DB1_6DFE_6E02_6E04_6E0F_6E18_6E2A_6E50_6E59_6E9A),
  (0x9B7C, 0x6EB5_6EB8_6EDB),
  (0x9BA1, 0x6EFA_6F04_6F0B_6F0C_6F16_6F17_6F34_6F3D_6F56_6F79_6F8A_6F9D),
  (0x9BAD, 0x6F9F_6FBB_6FBE_6FD3_6FD9_6FF8_7003_704B_704D_7050_7054_705C),
  (0x9BB9, 0x7067_7077_7079_708B_708F_70A0_70A3_70A5_70A6_70A7_70C4_70CC),
  (0x9BC5, 0x70D0_70D6_026A_025B_00E6_028C_0251_0254_028A_025D_0259_025A),
  (0x9BD1, 0x025C_0261_1E43_1E49_014A_1E3B_0275_00F0_0283_0292_02A7_02A4),
  (0x9BDD, 0x00E3_EB86_EB87_026F_0278_0287_EB8B_00C7_0153_0252_FF47_02CB),
  (0x9BE9, 0x02CF_FF41_FF42_FF44_FF45_FF46_FF48_FF49_FF4A_FF4B_FF4C_FF4D),
  (0x9BF5, 0xFF4E_FF4F_FF50_FF52_FF53_FF54_FF55_FF56_FF57_FF5A),
  (0x9C40, 0x70F5_3220_3221_3222_3223_3224_3225_3226_3227_3228_3229_70FE),
  (0x9C4C, 0x7105_711D_7129_712B_712C_7133_7135_713B_713E_7140_714F_716B),
  (0x9C58, 0x7175_7177_717C_717E_718C_718E_7191_7196_71A2_71A3_71AD_71B4),
  (0x9C64, 0x71B7_71BA_71D1_71DD_71EB_7200_7209_720E_720F_7216_7217_7224),
  (0x9C70, 0x5AA4_722E_2286_7257_725C_7294_7304_7310_7341_7374_738C_738F),
  (0x9C7C, 0x7398_739C_739E),
  (0x9CA1, 0x73A7_73AA_73D5_73E1_73E2_73E4_73E6_73EF_73F3_2287_73F9_73FB),
  (0x9CAD, 0x7402_7411_7412_7414_7415_7417_7419_741C_741E_741F_7437_7438),
  (0x9CB9, 0x7439_7443_7445_7447_7448_7449_7453_7456_7465_746B_746C_7474),
  (0x9CC5, 0x747A_7482_5382_5E7F_4E28_5E7A_5196_5B80_5369_2E87_EC14_5303),
  (0x9CD1, 0x2612_8279_4491_2E8C_2E8A_4E36_EC1C_531A_EC1E_EC1F_2E95_EC21),
  (0x9CDD, 0xEC22_2514_4E5A_8FB6_5EF4_5188_4E85_EC29_4E3F_EC2B_EC2C_4E5B),
  (0x9CE9, 0x53B6_8F66_7E9F_8BA0_8D1D_9E1F_95E8_9485_961D_624C_6C35_4EBB),
  (0x9CF5, 0x5FC4_706C_2EAE_53E3_6AE2_9A3B_9A3C_9A58_9A5C_9A63),
  (0x9D40, 0x260E_2192_2190_2191_2193_21E8_21E6_21E7_21E9_21E8_21E6_21E7),
  (0x9D4C, 0x21E9_261E_261C_261B_261F_3016_3017_25CB_2715_2713_56FB_263D),
  (0x9D58, 0x591D_664D_7225_2729_2721_263A_2639_EC63_EC64_EC65_EC66_EC67),
  (0x9D64, 0x5C78_266C_266A_5AD1_5BB7_5CFC_EC6E_2709_2702_EC71_EC72_EC73),
  (0x9D70, 0xEC74_5CD5_676E_7461_749D_7F53_8593_274F_EC7C_EC7D_5D78_5F3B),
  (0x9D7C, 0xEC80_2501_2503),
  (0x9DA1, 0xEC83_EC84_EC85_EC86_EC87_EC88_EC89_EC8A_EC8B_EC8C_EC8D_EC8E),
  (0x9DAD, 0xEC8F_EC90_EC91_9AB2_9AE0_9B14_9B34_9B39_9B40_9B50_9B7F_263C),
  (0x9DB9, 0x7D95_2601_9734_2602_EC9F_ECA0_ECA1_2708_ECA3_ECA4_ECA5_ECA6),
  (0x9DC5, 0xECA7_ECA8_ECA9_213B_2121_66E7_6E57_ECAE_7157_79CA_2116_816C),
  (0x9DD1, 0x8AF9_9856_ECB5_ECB6_2620_ECB8_2664_2660_2667_2663_2662_2666),
  (0x9DDD, 0x2661_2665_ECC1_ECC2_6AE4_211E_33C2_33D8_33A1_ECC8_33A5_ECCA),
  (0x9DE9, 0xECCB_ECCC_ECCD_ECCE_2611_9B81_9B8B_9B8D_9BDD_9BE9_9BED_9BF4),
  (0x9DF5, 0x9C1F_9C20_9C26_9C53_9C5D_9C7B_9D0C_9D16_21B2_6B05),
  (0x9E40, 0x8CE9_8CF2_8D03_8D11_8D1C_8D7A_8DA9_8DC0_8E01_8E0E_8E46_8E68),
  (0x9E4C, 0x8E71_8E7E_8E80_8EB6_8EB9_8EBC_8EC3_8EE4_8EED_8EF2_8F30_8F41),
  (0x9E58, 0x8F4A_8FA5_8FB3_8FB8_8FCA_8FCF_9008_9033_9037_9064_906C_91A9),
  (0x9E64, 0x91B6_91C4_91FA_9208_9213_9221_9228_922B_9235_923C_9241_9258),
  (0x9E70, 0x925D_925F_926B_926E_9281_9284_9289_928F_92B1_92BA_92BF_92D4),
  (0x9E7C, 0x92DB_92E3_92E5),
  (0x9EA1, 0x92EB_92EC_92F4_92F6_92FD_9303_9307_9330_9331_9340_9342_9343),
  (0x9EAD, 0x935F_9362_9366_9368_9373_9374_9378_937D_9381_9384_9386_9387),
  (0x9EB9, 0x9390_939C_93A0_93B8_93BB_93BD_93BF_93CB_93D3_93DB_93E0_93F0),
  (0x9EC5, 0x93F1_93F3_93F4_9401_9404_9408_9417_941B_941D_9424_9425_9426),
  (0x9ED1, 0x942D_9442_9443_944D_9454_9458_9465_9467_946C_9479_947B_9578),
  (0x9EDD, 0x9585_95A6_95AA_9656_967B_96A5_96F4_971B_9736_9740_9741_9757),
  (0x9EE9, 0x9787_9789_979B_97B1_97BD_97C0_97C2_97D2_97E0_9814_9815_9823),
  (0x9EF5, 0x9833_9868_98B7_98B9_98C7_98CA_98E0_98E1_98EC_98F5),
  (0x9F40, 0x9D21_9D34_9D39_9D49_9D4E_9D6D_2237_9D6E_9D7C_9D83_9D93_9DA5),
  (0x9F4C, 0x222C_9DBD_6B81_6BB1_9C4F_9E90_9DC0_ED91_ED92_262F_2630_2637),
  (0x9F58, 0x2633_2634_2635_2632_2636_2631_9DC9_9DD4_9DFC_9E0A_9E0C_9E0E),
  (0x9F64, 0x9E18_9E7B_9E85_9EA2_9EAC_9EB1_9EC1_9EC6_9EC7_9EF1_9EF8_9F27),
  (0x9F70, 0x990E_9919_991C_9937_995D_9962_999B_99A4_99AA_99B8_99E0_99E6),
  (0x9F7C, 0x99F5_9A1F_7DFE),
  (0x9FA1, 0x7E07_7E5B_7E65_7E6C_7F37_7F40_7F41_7F49_7F52_7F8F_7F93_7FB4),
  (0x9FAD, 0x7FDD_7FE7_7FFA_8002_8008_802E_802F_803C_80A7_810C_812A_8134),
  (0x9FB9, 0x8142_8156_8184_81A5_81E4_8254_8265_827B_8287_82BF_82E2_82EE),
  (0x9FC5, 0x82F8_82FC_82FF_830B_831D_833D_8357_8391_83AC_83CD_83ED_8405),
  (0x9FD1, 0x8414_8416_8421_842E_843E_844A_8453_8455_8458_8464_8472_847F),
  (0x9FDD, 0x8480_8492_8493_8496_84A3_84BE_84DE_84E1_84E2_84E4_84F8_8503),
  (0x9FE9, 0x8505_8510_8533_2010_8542_854C_8552_855F_856F_8570_8573_85D6),
  (0x9FF5, 0x85E0_85EE_85FC_860D_860F_8614_8628_8642_8645_8672),
  (0xA040, 0x889C_5B6D_8137_EE1E_9938_5572_556B_EE22_35CE_5571_55BA_55F1),
  (0xA04C, 0x35D2_55F0_5605_5622_562D_5643_561E_5692_7CCD_541A_5413_5497),
  (0xA058, 0x66F1_7534_544D_56A4_569F_64D3_632E_63F8_651E_4E78_6BEA_6C32),
  (0xA064, 0x6C3D_6C62_6CB2_6DF8_6E29_6E76_6E82_6E86_6EBB_6EDF_6EE2_6F11),
  (0xA070, 0x6F24_6F74_6F91_6FB5_6FF3_6FF5_70BB_70C0_710F_2202_7155_7173),
  (0xA07C, 0x717A_EE58_5223),
  (0xA0A1, 0xEE5A_3451_EE5C_8FCC_EE5E_EE5F_00C0_00C8_00CC_00D2_00D9_00C1),
  (0xA0AD, 0x00CD_00D3_00DA_0101_0113_012B_014D_016B_01D6_00C4_00CB_00CF),
  (0xA0B9, 0x00D6_00DC_00C6_00C7_00D1_00C3_00D5_00E1_00E9_00ED_00F3_00FA),
  (0xA0C5, 0x01D8_00E4_00EB_00EF_00F6_00FC_00E6_00E7_00F1_00E3_00F5_01CE),
  (0xA0D1, 0x011B_01D0_01D2_01D4_01DA_00C5_00C9_7188_00D8_00D0_1EF2_00DE),
  (0xA0DD, 0x00DF_00AA_00A1_00E0_00E8_00EC_00F2_00F9_01DC_00E5_7198_71D7),
  (0xA0E9, 0x00F8_00F0_1EF3_00FE_00FF_00BA_00BF_00E2_00EA_00EE_00F4_00FB),
  (0xA0F5, 0x71F5_00C2_00CA_00CE_00D4_00DB_00B8_00A4_EEB6_0192),
  (0xA140, 0x3000_FF0C_3001_3002_FF0E_2027_FF1B_FF1A_FF1F_FF01_FE30_2026),
  (0xA14C, 0x2025_FE50_FE51_FE52_00B7_FE54_FE55_FE56_FE57_FF5C_2013_FE31),
  (0xA158, 0x2014_FE33_2574_FE34_FE4F_FF08_FF09_FE35_FE36_FF5B_FF5D_FE37),
  (0xA164, 0xFE38_3014_3015_FE39_FE3A_3010_3011_FE3B_FE3C_300A_300B_FE3D),
  (0xA170, 0xFE3E_3008_3009_FE3F_FE40_300C_300D_FE41_FE42_300E_300F_FE43),
  (0xA17C, 0xFE44_FE59_FE5A),
  (0xA1A1, 0xFE5B_FE5C_FE5D_FE5E_2018_2019_201C_201D_301D_301E_2035_2032),
  (0xA1AD, 0xFF03_FF06_FF0A_203B_00A7_3003_25CB_25CF_25B3_25B2_25CE_2606),
  (0xA1B9, 0x2605_25C7_25C6_25A1_25A0_25BD_25BC_32A3_2105_00AF_FFE3_FF3F),
  (0xA1C5, 0x02CD_FE49_FE4A_FE4D_FE4E_FE4B_FE4C_FE5F_FE60_FE61_FF0B_FF0D),
  (0xA1D1, 0x00D7_00F7_00B1_221A_FF1C_FF1E_FF1D_2266_2267_2260_221E_2252),
  (0xA1DD, 0x2261_FE62_FE63_FE64_FE65_FE66_FF5E_2229_222A_22A5_2220_221F),
  (0xA1E9, 0x22BF_33D2_33D1_222B_222E_2235_2234_2640_2642_2295_2299_2191),
  (0xA1F5, 0x2193_2190_2192_2196_2197_2199_2198_2225_2223_FF0F),
  (0xA240, 0xFF3C_2215_FE68_FF04_FFE5_3012_FFE0_FFE1_FF05_FF20_2103_2109),
  (0xA24C, 0xFE69_FE6A_FE6B_33D5_339C_339D_339E_33CE_33A1_338E_338F_33C4),
  (0xA258, 0x00B0_5159_515B_515E_515D_5161_5163_55E7_74E9_7CCE_2581_2582),
  (0xA264, 0x2583_2584_2585_2586_2587_2588_258F_258E_258D_258C_258B_258A),
  (0xA270, 0x2589_253C_2534_252C_2524_251C_2594_2500_2502_2595_250C_2510),
  (0xA27C, 0x2514_2518_256D),
  (0xA2A1, 0x256E_2570_256F_2550_255E_256A_2561_25E2_25E3_25E5_25E4_2571),
  (0xA2AD, 0x2572_2573_FF10_FF11_FF12_FF13_FF14_FF15_FF16_FF17_FF18_FF19),
  (0xA2B9, 0x2160_2161_2162_2163_2164_2165_2166_2167_2168_2169_3021_3022),
  (0xA2C5, 0x3023_3024_3025_3026_3027_3028_3029_5341_5344_5345_FF21_FF22),
  (0xA2D1, 0xFF23_FF24_FF25_FF26_FF27_FF28_FF29_FF2A_FF2B_FF2C_FF2D_FF2E),
  (0xA2DD, 0xFF2F_FF30_FF31_FF32_FF33_FF34_FF35_FF36_FF37_FF38_FF39_FF3A),
  (0xA2E9, 0xFF41_FF42_FF43_FF44_FF45_FF46_FF47_FF48_FF49_FF4A_FF4B_FF4C),
  (0xA2F5, 0xFF4D_FF4E_FF4F_FF50_FF51_FF52_FF53_FF54_FF55_FF56),
  (0xA340, 0xFF57_FF58_FF59_FF5A_0391_0392_0393_0394_0395_0396_0397_0398),
  (0xA34C, 0x0399_039A_039B_039C_039D_039E_039F_03A0_03A1_03A3_03A4_03A5),
  (0xA358, 0x03A6_03A7_03A8_03A9_03B1_03B2_03B3_03B4_03B5_03B6_03B7_03B8),
  (0xA364, 0x03B9_03BA_03BB_03BC_03BD_03BE_03BF_03C0_03C1_03C3_03C4_03C5),
  (0xA370, 0x03C6_03C7_03C8_03C9_3105_3106_3107_3108_3109_310A_310B_310C),
  (0xA37C, 0x310D_310E_310F),
  (0xA3A1, 0x3110_3111_3112_3113_3114_3115_3116_3117_3118_3119_311A_311B),
  (0xA3AD, 0x311C_311D_311E_311F_3120_3121_3122_3123_3124_3125_3126_3127),
  (0xA3B9, 0x3128_3129_02D9_02C9_02CA_02C7_02CB_2400_2401_2402_2403_2404),
  (0xA3C5, 0x2405_2406_2407_2408_2409_240A_240B_240C_240D_240E_240F_2410),
  (0xA3D1, 0x2411_2412_2413_2414_2415_2416_2417_2418_2419_241A_241B_241C),
  (0xA3DD, 0x241D_241E_241F_2421_20AC_F849_F84A_F84B_F84C_F84D_F84E_F84F),
  (0xA3E9, 0xF850_F851_F852_F853_F854_F855_F856_F857_F858_F859_F85A_F85B),
  (0xA3F5, 0xF85C_F85D_F85E_F85F_F860_F861_F862_F863_F864_F865),
  (0xA440, 0x4E00_4E59_4E01_4E03_4E43_4E5D_4E86_4E8C_4EBA_513F_5165_516B),
  (0xA44C, 0x51E0_5200_5201_529B_5315_5341_535C_53C8_4E09_4E0B_4E08_4E0A),
  (0xA458, 0x4E2B_4E38_51E1_4E45_4E48_4E5F_4E5E_4E8E_4EA1_5140_5203_52FA),
  (0xA464, 0x5343_53C9_53E3_571F_58EB_5915_5927_5973_5B50_5B51_5B53_5BF8),
  (0xA470, 0x5C0F_5C22_5C38_5C71_5DDD_5DE5_5DF1_5DF2_5DF3_5DFE_5E72_5EFE),
  (0xA47C, 0x5F0B_5F13_624D),
  (0xA4A1, 0x4E11_4E10_4E0D_4E2D_4E30_4E39_4E4B_5C39_4E88_4E91_4E95_4E92),
  (0xA4AD, 0x4E94_4EA2_4EC1_4EC0_4EC3_4EC6_4EC7_4ECD_4ECA_4ECB_4EC4_5143),
  (0xA4B9, 0x5141_5167_516D_516E_516C_5197_51F6_5206_5207_5208_52FB_52FE),
  (0xA4C5, 0x52FF_5316_5339_5348_5347_5345_535E_5384_53CB_53CA_53CD_58EC),
  (0xA4D1, 0x5929_592B_592A_592D_5B54_5C11_5C24_5C3A_5C6F_5DF4_5E7B_5EFF),
  (0xA4DD, 0x5F14_5F15_5FC3_6208_6236_624B_624E_652F_6587_6597_65A4_65B9),
  (0xA4E9, 0x65E5_66F0_6708_6728_6B20_6B62_6B79_6BCB_6BD4_6BDB_6C0F_6C34),
  (0xA4F5, 0x706B_722A_7236_723B_7247_7259_725B_72AC_738B_4E19),
  (0xA540, 0x4E16_4E15_4E14_4E18_4E3B_4E4D_4E4F_4E4E_4EE5_4ED8_4ED4_4ED5),
  (0xA54C, 0x4ED6_4ED7_4EE3_4EE4_4ED9_4EDE_5145_5144_5189_518A_51AC_51F9),
  (0xA558, 0x51FA_51F8_520A_52A0_529F_5305_5306_5317_531D_4EDF_534A_5349),
  (0xA564, 0x5361_5360_536F_536E_53BB_53EF_53E4_53F3_53EC_53EE_53E9_53E8),
  (0xA570, 0x53FC_53F8_53F5_53EB_53E6_53EA_53F2_53F1_53F0_53E5_53ED_53FB),
  (0xA57C, 0x56DB_56DA_5916),
  (0xA5A1, 0x592E_5931_5974_5976_5B55_5B83_5C3C_5DE8_5DE7_5DE6_5E02_5E03),
  (0xA5AD, 0x5E73_5E7C_5F01_5F18_5F17_5FC5_620A_6253_6254_6252_6251_65A5),
  (0xA5B9, 0x65E6_672E_672C_672A_672B_672D_6B63_6BCD_6C11_6C10_6C38_6C41),
  (0xA5C5, 0x6C40_6C3E_72AF_7384_7389_74DC_74E6_7518_751F_7528_7529_7530),
  (0xA5D1, 0x7531_7532_7533_758B_767D_76AE_76BF_76EE_77DB_77E2_77F3_793A),
  (0xA5DD, 0x79BE_7A74_7ACB_4E1E_4E1F_4E52_4E53_4E69_4E99_4EA4_4EA6_4EA5),
  (0xA5E9, 0x4EFF_4F09_4F19_4F0A_4F15_4F0D_4F10_4F11_4F0F_4EF2_4EF6_4EFB),
  (0xA5F5, 0x4EF0_4EF3_4EFD_4F01_4F0B_5149_5147_5146_5148_5168),
  (0xA640, 0x5171_518D_51B0_5217_5211_5212_520E_5216_52A3_5308_5321_5320),
  (0xA64C, 0x5370_5371_5409_540F_540C_540A_5410_5401_540B_5404_5411_540D),
  (0xA658, 0x5408_5403_540E_5406_5412_56E0_56DE_56DD_5733_5730_5728_572D),
  (0xA664, 0x572C_572F_5729_5919_591A_5937_5938_5984_5978_5983_597D_5979),
  (0xA670, 0x5982_5981_5B57_5B58_5B87_5B88_5B85_5B89_5BFA_5C16_5C79_5DDE),
  (0xA67C, 0x5E06_5E76_5E74),
  (0xA6A1, 0x5F0F_5F1B_5FD9_5FD6_620E_620C_620D_6210_6263_625B_6258_6536),
  (0xA6AD, 0x65E9_65E8_65EC_65ED_66F2_66F3_6709_673D_6734_6731_6735_6B21),
  (0xA6B9, 0x6B64_6B7B_6C16_6C5D_6C57_6C59_6C5F_6C60_6C50_6C55_6C61_6C5B),
  (0xA6C5, 0x6C4D_6C4E_7070_725F_725D_767E_7AF9_7C73_7CF8_7F36_7F8A_7FBD),
  (0xA6D1, 0x8001_8003_800C_8012_8033_807F_8089_808B_808C_81E3_81EA_81F3),
  (0xA6DD, 0x81FC_820C_821B_821F_826E_8272_827E_866B_8840_884C_8863_897F),
  (0xA6E9, 0x9621_4E32_4EA8_4F4D_4F4F_4F47_4F57_4F5E_4F34_4F5B_4F55_4F30),
  (0xA6F5, 0x4F50_4F51_4F3D_4F3A_4F38_4F43_4F54_4F3C_4F46_4F63),
  (0xA740, 0x4F5C_4F60_4F2F_4F4E_4F36_4F59_4F5D_4F48_4F5A_514C_514B_514D),
  (0xA74C, 0x5175_51B6_51B7_5225_5224_5229_522A_5228_52AB_52A9_52AA_52AC),
  (0xA758, 0x5323_5373_5375_541D_542D_541E_543E_5426_544E_5427_5446_5443),
  (0xA764, 0x5433_5448_5442_541B_5429_544A_5439_543B_5438_542E_5435_5436),
  (0xA770, 0x5420_543C_5440_5431_542B_541F_542C_56EA_56F0_56E4_56EB_574A),
  (0xA77C, 0x5751_5740_574D),
  (0xA7A1, 0x5747_574E_573E_5750_574F_573B_58EF_593E_599D_5992_59A8_599E),
  (0xA7AD, 0x59A3_5999_5996_598D_59A4_5993_598A_59A5_5B5D_5B5C_5B5A_5B5B),
  (0xA7B9, 0x5B8C_5B8B_5B8F_5C2C_5C40_5C41_5C3F_5C3E_5C90_5C91_5C94_5C8C),
  (0xA7C5, 0x5DEB_5E0C_5E8F_5E87_5E8A_5EF7_5F04_5F1F_5F64_5F62_5F77_5F79),
  (0xA7D1, 0x5FD8_5FCC_5FD7_5FCD_5FF1_5FEB_5FF8_5FEA_6212_6211_6284_6297),
  (0xA7DD, 0x6296_6280_6276_6289_626D_628A_627C_627E_6279_6273_6292_626F),
  (0xA7E9, 0x6298_626E_6295_6293_6291_6286_6539_653B_6538_65F1_66F4_675F),
  (0xA7F5, 0x674E_674F_6750_6751_675C_6756_675E_6749_6746_6760),
  (0xA840, 0x6753_6757_6B65_6BCF_6C42_6C5E_6C99_6C81_6C88_6C89_6C85_6C9B),
  (0xA84C, 0x6C6A_6C7A_6C90_6C70_6C8C_6C68_6C96_6C92_6C7D_6C83_6C72_6C7E),
  (0xA858, 0x6C74_6C86_6C76_6C8D_6C94_6C98_6C82_7076_707C_707D_7078_7262),
  (0xA864, 0x7261_7260_72C4_72C2_7396_752C_752B_7537_7538_7682_76EF_77E3),
  (0xA870, 0x79C1_79C0_79BF_7A76_7CFB_7F55_8096_8093_809D_8098_809B_809A),
  (0xA87C, 0x80B2_826F_8292),
  (0xA8A1, 0x828B_828D_898B_89D2_8A00_8C37_8C46_8C55_8C9D_8D64_8D70_8DB3),
  (0xA8AD, 0x8EAB_8ECA_8F9B_8FB0_8FC2_8FC6_8FC5_8FC4_5DE1_9091_90A2_90AA),
  (0xA8B9, 0x90A6_90A3_9149_91C6_91CC_9632_962E_9631_962A_962C_4E26_4E56),
  (0xA8C5, 0x4E73_4E8B_4E9B_4E9E_4EAB_4EAC_4F6F_4F9D_4F8D_4F73_4F7F_4F6C),
  (0xA8D1, 0x4F9B_4F8B_4F86_4F83_4F70_4F75_4F88_4F69_4F7B_4F96_4F7E_4F8F),
  (0xA8DD, 0x4F91_4F7A_5154_5152_5155_5169_5177_5176_5178_51BD_51FD_523B),
  (0xA8E9, 0x5238_5237_523A_5230_522E_5236_5241_52BE_52BB_5352_5354_5353),
  (0xA8F5, 0x5351_5366_5377_5378_5379_53D6_53D4_53D7_5473_5475),
  (0xA940, 0x5496_5478_5495_5480_547B_5477_5484_5492_5486_547C_5490_5471),
  (0xA94C, 0x5476_548C_549A_5462_5468_548B_547D_548E_56FA_5783_5777_576A),
  (0xA958, 0x5769_5761_5766_5764_577C_591C_5949_5947_5948_5944_5954_59BE),
  (0xA964, 0x59BB_59D4_59B9_59AE_59D1_59C6_59D0_59CD_59CB_59D3_59CA_59AF),
  (0xA970, 0x59B3_59D2_59C5_5B5F_5B64_5B63_5B97_5B9A_5B98_5B9C_5B99_5B9B),
  (0xA97C, 0x5C1A_5C48_5C45),
  (0xA9A1, 0x5C46_5CB7_5CA1_5CB8_5CA9_5CAB_5CB1_5CB3_5E18_5E1A_5E16_5E15),
  (0xA9AD, 0x5E1B_5E11_5E78_5E9A_5E97_5E9C_5E95_5E96_5EF6_5F26_5F27_5F29),
  (0xA9B9, 0x5F80_5F81_5F7F_5F7C_5FDD_5FE0_5FFD_5FF5_5FFF_600F_6014_602F),
  (0xA9C5, 0x6035_6016_602A_6015_6021_6027_6029_602B_601B_6216_6215_623F),
  (0xA9D1, 0x623E_6240_627F_62C9_62CC_62C4_62BF_62C2_62B9_62D2_62DB_62AB),
  (0xA9DD, 0x62D3_62D4_62CB_62C8_62A8_62BD_62BC_62D0_62D9_62C7_62CD_62B5),
  (0xA9E9, 0x62DA_62B1_62D8_62D6_62D7_62C6_62AC_62CE_653E_65A7_65BC_65FA),
  (0xA9F5, 0x6614_6613_660C_6606_6602_660E_6600_660F_6615_660A),
  (0xAA40, 0x6607_670D_670B_676D_678B_6795_6771_679C_6773_6777_6787_679D),
  (0xAA4C, 0x6797_676F_6770_677F_6789_677E_6790_6775_679A_6793_677C_676A),
  (0xAA58, 0x6772_6B23_6B66_6B67_6B7F_6C13_6C1B_6CE3_6CE8_6CF3_6CB1_6CCC),
  (0xAA64, 0x6CE5_6CB3_6CBD_6CBE_6CBC_6CE2_6CAB_6CD5_6CD3_6CB8_6CC4_6CB9),
  (0xAA70, 0x6CC1_6CAE_6CD7_6CC5_6CF1_6CBF_6CBB_6CE1_6CDB_6CCA_6CAC_6CEF),
  (0xAA7C, 0x6CDC_6CD6_6CE0),
  (0xAAA1, 0x7095_708E_7092_708A_7099_722C_722D_7238_7248_7267_7269_72C0),
  (0xAAAD, 0x72CE_72D9_72D7_72D0_73A9_73A8_739F_73AB_73A5_753D_759D_7599),
  (0xAAB9, 0x759A_7684_76C2_76F2_76F4_77E5_77FD_793E_7940_7941_79C9_79C8),
  (0xAAC5, 0x7A7A_7A79_7AFA_7CFE_7F54_7F8C_7F8B_8005_80BA_80A5_80A2_80B1),
  (0xAAD1, 0x80A1_80AB_80A9_80B4_80AA_80AF_81E5_81FE_820D_82B3_829D_8299),
  (0xAADD, 0x82AD_82BD_829F_82B9_82B1_82AC_82A5_82AF_82B8_82A3_82B0_82BE),
  (0xAAE9, 0x82B7_864E_8671_521D_8868_8ECB_8FCE_8FD4_8FD1_90B5_90B8_90B1),
  (0xAAF5, 0x90B6_91C7_91D1_9577_9580_961C_9640_963F_963B_9644),
  (0xAB40, 0x9642_96B9_96E8_9752_975E_4E9F_4EAD_4EAE_4FE1_4FB5_4FAF_4FBF),
  (0xAB4C, 0x4FE0_4FD1_4FCF_4FDD_4FC3_4FB6_4FD8_4FDF_4FCA_4FD7_4FAE_4FD0),
  (0xAB58, 0x4FC4_4FC2_4FDA_4FCE_4FDE_4FB7_5157_5192_5191_51A0_524E_5243),
  (0xAB64, 0x524A_524D_524C_524B_5247_52C7_52C9_52C3_52C1_530D_5357_537B),
  (0xAB70, 0x539A_53DB_54AC_54C0_54A8_54CE_54C9_54B8_54A6_54B3_54C7_54C2),
  (0xAB7C, 0x54BD_54AA_54C1),
  (0xABA1, 0x54C4_54C8_54AF_54AB_54B1_54BB_54A9_54A7_54BF_56FF_5782_578B),
  (0xABAD, 0x57A0_57A3_57A2_57CE_57AE_5793_5955_5951_594F_594E_5950_59DC),
  (0xABB9, 0x59D8_59FF_59E3_59E8_5A03_59E5_59EA_59DA_59E6_5A01_59FB_5B69),
  (0xABC5, 0x5BA3_5BA6_5BA4_5BA2_5BA5_5C01_5C4E_5C4F_5C4D_5C4B_5CD9_5CD2),
  (0xABD1, 0x5DF7_5E1D_5E25_5E1F_5E7D_5EA0_5EA6_5EFA_5F08_5F2D_5F65_5F88),
  (0xABDD, 0x5F85_5F8A_5F8B_5F87_5F8C_5F89_6012_601D_6020_6025_600E_6028),
  (0xABE9, 0x604D_6070_6068_6062_6046_6043_606C_606B_606A_6064_6241_62DC),
  (0xABF5, 0x6316_6309_62FC_62ED_6301_62EE_62FD_6307_62F1_62F7),
  (0xAC40, 0x62EF_62EC_62FE_62F4_6311_6302_653F_6545_65AB_65BD_65E2_6625),
  (0xAC4C, 0x662D_6620_6627_662F_661F_6628_6631_6624_66F7_67FF_67D3_67F1),
  (0xAC58, 0x67D4_67D0_67EC_67B6_67AF_67F5_67E9_67EF_67C4_67D1_67B4_67DA),
  (0xAC64, 0x67E5_67B8_67CF_67DE_67F3_67B0_67D9_67E2_67DD_67D2_6B6A_6B83),
  (0xAC70, 0x6B86_6BB5_6BD2_6BD7_6C1F_6CC9_6D0B_6D32_6D2A_6D41_6D25_6D0C),
  (0xAC7C, 0x6D31_6D1E_6D17),
  (0xACA1, 0x6D3B_6D3D_6D3E_6D36_6D1B_6CF5_6D39_6D27_6D38_6D29_6D2E_6D35),
  (0xACAD, 0x6D0E_6D2B_70AB_70BA_70B3_70AC_70AF_70AD_70B8_70AE_70A4_7230),
  (0xACB9, 0x7272_726F_7274_72E9_72E0_72E1_73B7_73CA_73BB_73B2_73CD_73C0),
  (0xACC5, 0x73B3_751A_752D_754F_754C_754E_754B_75AB_75A4_75A5_75A2_75A3),
  (0xACD1, 0x7678_7686_7687_7688_76C8_76C6_76C3_76C5_7701_76F9_76F8_7709),
  (0xACDD, 0x770B_76FE_76FC_7707_77DC_7802_7814_780C_780D_7946_7949_7948),
  (0xACE9, 0x7947_79B9_79BA_79D1_79D2_79CB_7A7F_7A81_7AFF_7AFD_7C7D_7D02),
  (0xACF5, 0x7D05_7D00_7D09_7D07_7D04_7D06_7F38_7F8E_7FBF_8004),
  (0xAD40, 0x8010_800D_8011_8036_80D6_80E5_80DA_80C3_80C4_80CC_80E1_80DB),
  (0xAD4C, 0x80CE_80DE_80E4_80DD_81F4_8222_82E7_8303_8305_82E3_82DB_82E6),
  (0xAD58, 0x8304_82E5_8302_8309_82D2_82D7_82F1_8301_82DC_82D4_82D1_82DE),
  (0xAD64, 0x82D3_82DF_82EF_8306_8650_8679_867B_867A_884D_886B_8981_89D4),
  (0xAD70, 0x8A08_8A02_8A03_8C9E_8CA0_8D74_8D73_8DB4_8ECD_8ECC_8FF0_8FE6),
  (0xAD7C, 0x8FE2_8FEA_8FE5),
  (0xADA1, 0x8FED_8FEB_8FE4_8FE8_90CA_90CE_90C1_90C3_914B_914A_91CD_9582),
  (0xADAD, 0x9650_964B_964C_964D_9762_9769_97CB_97ED_97F3_9801_98A8_98DB),
  (0xADB9, 0x98DF_9996_9999_4E58_4EB3_500C_500D_5023_4FEF_5026_5025_4FF8),
  (0xADC5, 0x5029_5016_5006_503C_501F_501A_5012_5011_4FFA_5000_5014_5028),
  (0xADD1, 0x4FF1_5021_500B_5019_5018_4FF3_4FEE_502D_502A_4FFE_502B_5009),
  (0xADDD, 0x517C_51A4_51A5_51A2_51CD_51CC_51C6_51CB_5256_525C_5254_525B),
  (0xADE9, 0x525D_532A_537F_539F_539D_53DF_54E8_5510_5501_5537_54FC_54E5),
  (0xADF5, 0x54F2_5506_54FA_5514_54E9_54ED_54E1_5509_54EE_54EA),
  (0xAE40, 0x54E6_5527_5507_54FD_550F_5703_5704_57C2_57D4_57CB_57C3_5809),
  (0xAE4C, 0x590F_5957_5958_595A_5A11_5A18_5A1C_5A1F_5A1B_5A13_59EC_5A20),
  (0xAE58, 0x5A23_5A29_5A25_5A0C_5A09_5B6B_5C58_5BB0_5BB3_5BB6_5BB4_5BAE),
  (0xAE64, 0x5BB5_5BB9_5BB8_5C04_5C51_5C55_5C50_5CED_5CFD_5CFB_5CEA_5CE8),
  (0xAE70, 0x5CF0_5CF6_5D01_5CF4_5DEE_5E2D_5E2B_5EAB_5EAD_5EA7_5F31_5F92),
  (0xAE7C, 0x5F91_5F90_6059),
  (0xAEA1, 0x6063_6065_6050_6055_606D_6069_606F_6084_609F_609A_608D_6094),
  (0xAEAD, 0x608C_6085_6096_6247_62F3_6308_62FF_634E_633E_632F_6355_6342),
  (0xAEB9, 0x6346_634F_6349_633A_6350_633D_632A_632B_6328_634D_634C_6548),
  (0xAEC5, 0x6549_6599_65C1_65C5_6642_6649_664F_6643_6652_664C_6645_6641),
  (0xAED1, 0x66F8_6714_6715_6717_6821_6838_6848_6846_6853_6839_6842_6854),
  (0xAEDD, 0x6829_68B3_6817_684C_6851_683D_67F4_6850_6840_683C_6843_682A),
  (0xAEE9, 0x6845_6813_6818_6841_6B8A_6B89_6BB7_6C23_6C27_6C28_6C26_6C24),
  (0xAEF5, 0x6CF0_6D6A_6D95_6D88_6D87_6D66_6D78_6D77_6D59_6D93),
  (0xAF40, 0x6D6C_6D89_6D6E_6D5A_6D74_6D69_6D8C_6D8A_6D79_6D85_6D65_6D94),
  (0xAF4C, 0x70CA_70D8_70E4_70D9_70C8_70CF_7239_7279_72FC_72F9_72FD_72F8),
  (0xAF58, 0x72F7_7386_73ED_7409_73EE_73E0_73EA_73DE_7554_755D_755C_755A),
  (0xAF64, 0x7559_75BE_75C5_75C7_75B2_75B3_75BD_75BC_75B9_75C2_75B8_768B),
  (0xAF70, 0x76B0_76CA_76CD_76CE_7729_771F_7720_7728_77E9_7830_7827_7838),
  (0xAF7C, 0x781D_7834_7837),
  (0xAFA1, 0x7825_782D_7820_781F_7832_7955_7950_7960_795F_7956_795E_795D),
  (0xAFAD, 0x7957_795A_79E4_79E3_79E7_79DF_79E6_79E9_79D8_7A84_7A88_7AD9),
  (0xAFB9, 0x7B06_7B11_7C89_7D21_7D17_7D0B_7D0A_7D20_7D22_7D14_7D10_7D15),
  (0xAFC5, 0x7D1A_7D1C_7D0D_7D19_7D1B_7F3A_7F5F_7F94_7FC5_7FC1_8006_8018),
  (0xAFD1, 0x8015_8019_8017_803D_803F_80F1_8102_80F0_8105_80ED_80F4_8106),
  (0xAFDD, 0x80F8_80F3_8108_80FD_810A_80FC_80EF_81ED_81EC_8200_8210_822A),
  (0xAFE9, 0x822B_8228_822C_82BB_832B_8352_8354_834A_8338_8350_8349_8335),
  (0xAFF5, 0x8334_834F_8332_8339_8336_8317_8340_8331_8328_8343),
  (0xB040, 0x8654_868A_86AA_8693_86A4_86A9_868C_86A3_869C_8870_8877_8881),
  (0xB04C, 0x8882_887D_8879_8A18_8A10_8A0E_8A0C_8A15_8A0A_8A17_8A13_8A16),
  (0xB058, 0x8A0F_8A11_8C48_8C7A_8C79_8CA1_8CA2_8D77_8EAC_8ED2_8ED4_8ECF),
  (0xB064, 0x8FB1_9001_9006_8FF7_9000_8FFA_8FF4_9003_8FFD_9005_8FF8_9095),
  (0xB070, 0x90E1_90DD_90E2_9152_914D_914C_91D8_91DD_91D7_91DC_91D9_9583),
  (0xB07C, 0x9662_9663_9661),
  (0xB0A1, 0x965B_965D_9664_9658_965E_96BB_98E2_99AC_9AA8_9AD8_9B25_9B32),
  (0xB0AD, 0x9B3C_4E7E_507A_507D_505C_5047_5043_504C_505A_5049_5065_5076),
  (0xB0B9, 0x504E_5055_5075_5074_5077_504F_500F_506F_506D_515C_5195_51F0),
  (0xB0C5, 0x526A_526F_52D2_52D9_52D8_52D5_5310_530F_5319_533F_5340_533E),
  (0xB0D1, 0x53C3_66FC_5546_556A_5566_5544_555E_5561_5543_554A_5531_5556),
  (0xB0DD, 0x554F_5555_552F_5564_5538_552E_555C_552C_5563_5533_5541_5557),
  (0xB0E9, 0x5708_570B_5709_57DF_5805_580A_5806_57E0_57E4_57FA_5802_5835),
  (0xB0F5, 0x57F7_57F9_5920_5962_5A36_5A41_5A49_5A66_5A6A_5A40),
  (0xB140, 0x5A3C_5A62_5A5A_5A46_5A4A_5B70_5BC7_5BC5_5BC4_5BC2_5BBF_5BC6),
  (0xB14C, 0x5C09_5C08_5C07_5C60_5C5C_5C5D_5D07_5D06_5D0E_5D1B_5D16_5D22),
  (0xB158, 0x5D11_5D29_5D14_5D19_5D24_5D27_5D17_5DE2_5E38_5E36_5E33_5E37),
  (0xB164, 0x5EB7_5EB8_5EB6_5EB5_5EBE_5F35_5F37_5F57_5F6C_5F69_5F6B_5F97),
  (0xB170, 0x5F99_5F9E_5F98_5FA1_5FA0_5F9C_607F_60A3_6089_60A0_60A8_60CB),
  (0xB17C, 0x60B4_60E6_60BD),
  (0xB1A1, 0x60C5_60BB_60B5_60DC_60BC_60D8_60D5_60C6_60DF_60B8_60DA_60C7),
  (0xB1AD, 0x621A_621B_6248_63A0_63A7_6372_6396_63A2_63A5_6377_6367_6398),
  (0xB1B9, 0x63AA_6371_63A9_6389_6383_639B_636B_63A8_6384_6388_6399_63A1),
  (0xB1C5, 0x63AC_6392_638F_6380_637B_6369_6368_637A_655D_6556_6551_6559),
  (0xB1D1, 0x6557_555F_654F_6558_6555_6554_659C_659B_65AC_65CF_65CB_65CC),
  (0xB1DD, 0x65CE_665D_665A_6664_6668_6666_665E_66F9_52D7_671B_6881_68AF),
  (0xB1E9, 0x68A2_6893_68B5_687F_6876_68B1_68A7_6897_68B0_6883_68C4_68AD),
  (0xB1F5, 0x6886_6885_6894_689D_68A8_689F_68A1_6882_6B32_6BBA),
  (0xB240, 0x6BEB_6BEC_6C2B_6D8E_6DBC_6DF3_6DD9_6DB2_6DE1_6DCC_6DE4_6DFB),
  (0xB24C, 0x6DFA_6E05_6DC7_6DCB_6DAF_6DD1_6DAE_6DDE_6DF9_6DB8_6DF7_6DF5),
  (0xB258, 0x6DC5_6DD2_6E1A_6DB5_6DDA_6DEB_6DD8_6DEA_6DF1_6DEE_6DE8_6DC6),
  (0xB264, 0x6DC4_6DAA_6DEC_6DBF_6DE6_70F9_7109_710A_70FD_70EF_723D_727D),
  (0xB270, 0x7281_731C_731B_7316_7313_7319_7387_7405_740A_7403_7406_73FE),
  (0xB27C, 0x740D_74E0_74F6),
  (0xB2A1, 0x74F7_751C_7522_7565_7566_7562_7570_758F_75D4_75D5_75B5_75CA),
  (0xB2AD, 0x75CD_768E_76D4_76D2_76DB_7737_773E_773C_7736_7738_773A_786B),
  (0xB2B9, 0x7843_784E_7965_7968_796D_79FB_7A92_7A95_7B20_7B28_7B1B_7B2C),
  (0xB2C5, 0x7B26_7B19_7B1E_7B2E_7C92_7C97_7C95_7D46_7D43_7D71_7D2E_7D39),
  (0xB2D1, 0x7D3C_7D40_7D30_7D33_7D44_7D2F_7D42_7D32_7D31_7F3D_7F9E_7F9A),
  (0xB2DD, 0x7FCC_7FCE_7FD2_801C_804A_8046_812F_8116_8123_812B_8129_8130),
  (0xB2E9, 0x8124_8202_8235_8237_8236_8239_838E_839E_8398_8378_83A2_8396),
  (0xB2F5, 0x83BD_83AB_8392_838A_8393_8389_83A0_8377_837B_837C),
  (0xB340, 0x8386_83A7_8655_5F6A_86C7_86C0_86B6_86C4_86B5_86C6_86CB_86B1),
  (0xB34C, 0x86AF_86C9_8853_889E_8888_88AB_8892_8896_888D_888B_8993_898F),
  (0xB358, 0x8A2A_8A1D_8A23_8A25_8A31_8A2D_8A1F_8A1B_8A22_8C49_8C5A_8CA9),
  (0xB364, 0x8CAC_8CAB_8CA8_8CAA_8CA7_8D67_8D66_8DBE_8DBA_8EDB_8EDF_9019),
  (0xB370, 0x900D_901A_9017_9023_901F_901D_9010_9015_901E_9020_900F_9022),
  (0xB37C, 0x9016_901B_9014),
  (0xB3A1, 0x90E8_90ED_90FD_9157_91CE_91F5_91E6_91E3_91E7_91ED_91E9_9589),
  (0xB3AD, 0x966A_9675_9673_9678_9670_9674_9676_9677_966C_96C0_96EA_96E9),
  (0xB3B9, 0x7AE0_7ADF_9802_9803_9B5A_9CE5_9E75_9E7F_9EA5_9EBB_50A2_508D),
  (0xB3C5, 0x5085_5099_5091_5080_5096_5098_509A_6700_51F1_5272_5274_5275),
  (0xB3D1, 0x5269_52DE_52DD_52DB_535A_53A5_557B_5580_55A7_557C_558A_559D),
  (0xB3DD, 0x5598_5582_559C_55AA_5594_5587_558B_5583_55B3_55AE_559F_553E),
  (0xB3E9, 0x55B2_559A_55BB_55AC_55B1_557E_5589_55AB_5599_570D_582F_582A),
  (0xB3F5, 0x5834_5824_5830_5831_5821_581D_5820_58F9_58FA_5960),
  (0xB440, 0x5A77_5A9A_5A7F_5A92_5A9B_5AA7_5B73_5B71_5BD2_5BCC_5BD3_5BD0),
  (0xB44C, 0x5C0A_5C0B_5C31_5D4C_5D50_5D34_5D47_5DFD_5E45_5E3D_5E40_5E43),
  (0xB458, 0x5E7E_5ECA_5EC1_5EC2_5EC4_5F3C_5F6D_5FA9_5FAA_5FA8_60D1_60E1),
  (0xB464, 0x60B2_60B6_60E0_611C_6123_60FA_6115_60F0_60FB_60F4_6168_60F1),
  (0xB470, 0x610E_60F6_6109_6100_6112_621F_6249_63A3_638C_63CF_63C0_63E9),
  (0xB47C, 0x63C9_63C6_63CD),
  (0xB4A1, 0x63D2_63E3_63D0_63E1_63D6_63ED_63EE_6376_63F4_63EA_63DB_6452),
  (0xB4AD, 0x63DA_63F9_655E_6566_6562_6563_6591_6590_65AF_666E_6670_6674),
  (0xB4B9, 0x6676_666F_6691_667A_667E_6677_66FE_66FF_671F_671D_68FA_68D5),
  (0xB4C5, 0x68E0_68D8_68D7_6905_68DF_68F5_68EE_68E7_68F9_68D2_68F2_68E3),
  (0xB4D1, 0x68CB_68CD_690D_6912_690E_68C9_68DA_696E_68FB_6B3E_6B3A_6B3D),
  (0xB4DD, 0x6B98_6B96_6BBC_6BEF_6C2E_6C2F_6C2C_6E2F_6E38_6E54_6E21_6E32),
  (0xB4E9, 0x6E67_6E4A_6E20_6E25_6E23_6E1B_6E5B_6E58_6E24_6E56_6E6E_6E2D),
  (0xB4F5, 0x6E26_6E6F_6E34_6E4D_6E3A_6E2C_6E43_6E1D_6E3E_6ECB),
  (0xB540, 0x6E89_6E19_6E4E_6E63_6E44_6E72_6E69_6E5F_7119_711A_7126_7130),
  (0xB54C, 0x7121_7136_716E_711C_724C_7284_7280_7336_7325_7334_7329_743A),
  (0xB558, 0x742A_7433_7422_7425_7435_7436_7434_742F_741B_7426_7428_7525),
  (0xB564, 0x7526_756B_756A_75E2_75DB_75E3_75D9_75D8_75DE_75E0_767B_767C),
  (0xB570, 0x7696_7693_76B4_76DC_774F_77ED_785D_786C_786F_7A0D_7A08_7A0B),
  (0xB57C, 0x7A05_7A00_7A98),
  (0xB5A1, 0x7A97_7A96_7AE5_7AE3_7B49_7B56_7B46_7B50_7B52_7B54_7B4D_7B4B),
  (0xB5AD, 0x7B4F_7B51_7C9F_7CA5_7D5E_7D50_7D68_7D55_7D2B_7D6E_7D72_7D61),
  (0xB5B9, 0x7D66_7D62_7D70_7D73_5584_7FD4_7FD5_800B_8052_8085_8155_8154),
  (0xB5C5, 0x814B_8151_814E_8139_8146_813E_814C_8153_8174_8212_821C_83E9),
  (0xB5D1, 0x8403_83F8_840D_83E0_83C5_840B_83C1_83EF_83F1_83F4_8457_840A),
  (0xB5DD, 0x83F0_840C_83CC_83FD_83F2_83CA_8438_840E_8404_83DC_8407_83D4),
  (0xB5E9, 0x83DF_865B_86DF_86D9_86ED_86D4_86DB_86E4_86D0_86DE_8857_88C1),
  (0xB5F5, 0x88C2_88B1_8983_8996_8A3B_8A60_8A55_8A5E_8A3C_8A41),
  (0xB640, 0x8A54_8A5B_8A50_8A46_8A34_8A3A_8A36_8A56_8C61_8C82_8CAF_8CBC),
  (0xB64C, 0x8CB3_8CBD_8CC1_8CBB_8CC0_8CB4_8CB7_8CB6_8CBF_8CB8_8D8A_8D85),
  (0xB658, 0x8D81_8DCE_8DDD_8DCB_8DDA_8DD1_8DCC_8DDB_8DC6_8EFB_8EF8_8EFC),
  (0xB664, 0x8F9C_902E_9035_9031_9038_9032_9036_9102_90F5_9109_90FE_9163),
  (0xB670, 0x9165_91CF_9214_9215_9223_9209_921E_920D_9210_9207_9211_9594),
  (0xB67C, 0x958F_958B_9591),
  (0xB6A1, 0x9593_9592_958E_968A_968E_968B_967D_9685_9686_968D_9672_9684),
  (0xB6AD, 0x96C1_96C5_96C4_96C6_96C7_96EF_96F2_97CC_9805_9806_9808_98E7),
  (0xB6B9, 0x98EA_98EF_98E9_98F2_98ED_99AE_99AD_9EC3_9ECD_9ED1_4E82_50AD),
  (0xB6C5, 0x50B5_50B2_50B3_50C5_50BE_50AC_50B7_50BB_50AF_50C7_527F_5277),
  (0xB6D1, 0x527D_52DF_52E6_52E4_52E2_52E3_532F_55DF_55E8_55D3_55E6_55CE),
  (0xB6DD, 0x55DC_55C7_55D1_55E3_55E4_55EF_55DA_55E1_55C5_55C6_55E5_55C9),
  (0xB6E9, 0x5712_5713_585E_5851_5858_5857_585A_5854_586B_584C_586D_584A),
  (0xB6F5, 0x5862_5852_584B_5967_5AC1_5AC9_5ACC_5ABE_5ABD_5ABC),
  (0xB740, 0x5AB3_5AC2_5AB2_5D69_5D6F_5E4C_5E79_5EC9_5EC8_5F12_5F59_5FAC),
  (0xB74C, 0x5FAE_611A_610F_6148_611F_60F3_611B_60F9_6101_6108_614E_614C),
  (0xB758, 0x6144_614D_613E_6134_6127_610D_6106_6137_6221_6222_6413_643E),
  (0xB764, 0x641E_642A_642D_643D_642C_640F_641C_6414_640D_6436_6416_6417),
  (0xB770, 0x6406_656C_659F_65B0_6697_6689_6687_6688_6696_6684_6698_668D),
  (0xB77C, 0x6703_6994_696D),
  (0xB7A1, 0x695A_6977_6960_6954_6975_6930_6982_694A_6968_696B_695E_6953),
  (0xB7AD, 0x6979_6986_695D_6963_695B_6B47_6B72_6BC0_6BBF_6BD3_6BFD_6EA2),
  (0xB7B9, 0x6EAF_6ED3_6EB6_6EC2_6E90_6E9D_6EC7_6EC5_6EA5_6E98_6EBC_6EBA),
  (0xB7C5, 0x6EAB_6ED1_6E96_6E9C_6EC4_6ED4_6EAA_6EA7_6EB4_714E_7159_7169),
  (0xB7D1, 0x7164_7149_7167_715C_716C_7166_714C_7165_715E_7146_7168_7156),
  (0xB7DD, 0x723A_7252_7337_7345_733F_733E_746F_745A_7455_745F_745E_7441),
  (0xB7E9, 0x743F_7459_745B_745C_7576_7578_7600_75F0_7601_75F2_75F1_75FA),
  (0xB7F5, 0x75FF_75F4_75F3_76DE_76DF_775B_776B_7766_775E_7763),
  (0xB840, 0x7779_776A_776C_775C_7765_7768_7762_77EE_788E_78B0_7897_7898),
  (0xB84C, 0x788C_7889_787C_7891_7893_787F_797A_797F_7981_842C_79BD_7A1C),
  (0xB858, 0x7A1A_7A20_7A14_7A1F_7A1E_7A9F_7AA0_7B77_7BC0_7B60_7B6E_7B67),
  (0xB864, 0x7CB1_7CB3_7CB5_7D93_7D79_7D91_7D81_7D8F_7D5B_7F6E_7F69_7F6A),
  (0xB870, 0x7F72_7FA9_7FA8_7FA4_8056_8058_8086_8084_8171_8170_8178_8165),
  (0xB87C, 0x816E_8173_816B),
  (0xB8A1, 0x8179_817A_8166_8205_8247_8482_8477_843D_8431_8475_8466_846B),
  (0xB8AD, 0x8449_846C_845B_843C_8435_8461_8463_8469_846D_8446_865E_865C),
  (0xB8B9, 0x865F_86F9_8713_8708_8707_8700_86FE_86FB_8702_8703_8706_870A),
  (0xB8C5, 0x8859_88DF_88D4_88D9_88DC_88D8_88DD_88E1_88CA_88D5_88D2_899C),
  (0xB8D1, 0x89E3_8A6B_8A72_8A73_8A66_8A69_8A70_8A87_8A7C_8A63_8AA0_8A71),
  (0xB8DD, 0x8A85_8A6D_8A62_8A6E_8A6C_8A79_8A7B_8A3E_8A68_8C62_8C8A_8C89),
  (0xB8E9, 0x8CCA_8CC7_8CC8_8CC4_8CB2_8CC3_8CC2_8CC5_8DE1_8DDF_8DE8_8DEF),
  (0xB8F5, 0x8DF3_8DFA_8DEA_8DE4_8DE6_8EB2_8F03_8F09_8EFE_8F0A),
  (0xB940, 0x8F9F_8FB2_904B_904A_9053_9042_9054_903C_9055_9050_9047_904F),
  (0xB94C, 0x904E_904D_9051_903E_9041_9112_9117_916C_916A_9169_91C9_9237),
  (0xB958, 0x9257_9238_923D_9240_923E_925B_924B_9264_9251_9234_9249_924D),
  (0xB964, 0x9245_9239_923F_925A_9598_9698_9694_9695_96CD_96CB_96C9_96CA),
  (0xB970, 0x96F7_96FB_96F9_96F6_9756_9774_9776_9810_9811_9813_980A_9812),
  (0xB97C, 0x980C_98FC_98F4),
  (0xB9A1, 0x98FD_98FE_99B3_99B1_99B4_9AE1_9CE9_9E82_9F0E_9F13_9F20_50E7),
  (0xB9AD, 0x50EE_50E5_50D6_50ED_50DA_50D5_50CF_50D1_50F1_50CE_50E9_5162),
  (0xB9B9, 0x51F3_5283_5282_5331_53AD_55FE_5600_561B_5617_55FD_5614_5606),
  (0xB9C5, 0x5609_560D_560E_55F7_5616_561F_5608_5610_55F6_5718_5716_5875),
  (0xB9D1, 0x587E_5883_5893_588A_5879_5885_587D_58FD_5925_5922_5924_596A),
  (0xB9DD, 0x5969_5AE1_5AE6_5AE9_5AD7_5AD6_5AD8_5AE3_5B75_5BDE_5BE7_5BE1),
  (0xB9E9, 0x5BE5_5BE6_5BE8_5BE2_5BE4_5BDF_5C0D_5C62_5D84_5D87_5E5B_5E63),
  (0xB9F5, 0x5E55_5E57_5E54_5ED3_5ED6_5F0A_5F46_5F70_5FB9_6147),
  (0xBA40, 0x613F_614B_6177_6162_6163_615F_615A_6158_6175_622A_6487_6458),
  (0xBA4C, 0x6454_64A4_6478_645F_647A_6451_6467_6434_646D_647B_6572_65A1),
  (0xBA58, 0x65D7_65D6_66A2_66A8_669D_699C_69A8_6995_69C1_69AE_69D3_69CB),
  (0xBA64, 0x699B_69B7_69BB_69AB_69B4_69D0_69CD_69AD_69CC_69A6_69C3_69A3),
  (0xBA70, 0x6B49_6B4C_6C33_6F33_6F14_6EFE_6F13_6EF4_6F29_6F3E_6F20_6F2C),
  (0xBA7C, 0x6F0F_6F02_6F22),
  (0xBAA1, 0x6EFF_6EEF_6F06_6F31_6F38_6F32_6F23_6F15_6F2B_6F2F_6F88_6F2A),
  (0xBAAD, 0x6EEC_6F01_6EF2_6ECC_6EF7_7194_7199_717D_718A_7184_7192_723E),
  (0xBAB9, 0x7292_7296_7344_7350_7464_7463_746A_7470_746D_7504_7591_7627),
  (0xBAC5, 0x760D_760B_7609_7613_76E1_76E3_7784_777D_777F_7761_78C1_789F),
  (0xBAD1, 0x78A7_78B3_78A9_78A3_798E_798F_798D_7A2E_7A31_7AAA_7AA9_7AED),
  (0xBADD, 0x7AEF_7BA1_7B95_7B8B_7B75_7B97_7B9D_7B94_7B8F_7BB8_7B87_7B84),
  (0xBAE9, 0x7CB9_7CBD_7CBE_7DBB_7DB0_7D9C_7DBD_7DBE_7DA0_7DCA_7DB4_7DB2),
  (0xBAF5, 0x7DB1_7DBA_7DA2_7DBF_7DB5_7DB8_7DAD_7DD2_7DC7_7DAC),
  (0xBB40, 0x7F70_7FE0_7FE1_7FDF_805E_805A_8087_8150_8180_818F_8188_818A),
  (0xBB4C, 0x817F_8182_81E7_81FA_8207_8214_821E_824B_84C9_84BF_84C6_84C4),
  (0xBB58, 0x8499_849E_84B2_849C_84CB_84B8_84C0_84D3_8490_84BC_84D1_84CA),
  (0xBB64, 0x873F_871C_873B_8722_8725_8734_8718_8755_8737_8729_88F3_8902),
  (0xBB70, 0x88F4_88F9_88F8_88FD_88E8_891A_88EF_8AA6_8A8C_8A9E_8AA3_8A8D),
  (0xBB7C, 0x8AA1_8A93_8AA4),
  (0xBBA1, 0x8AAA_8AA5_8AA8_8A98_8A91_8A9A_8AA7_8C6A_8C8D_8C8C_8CD3_8CD1),
  (0xBBAD, 0x8CD2_8D6B_8D99_8D95_8DFC_8F14_8F12_8F15_8F13_8FA3_9060_9058),
  (0xBBB9, 0x905C_9063_9059_905E_9062_905D_905B_9119_9118_911E_9175_9178),
  (0xBBC5, 0x9177_9174_9278_9280_9285_9298_9296_927B_9293_929C_92A8_927C),
  (0xBBD1, 0x9291_95A1_95A8_95A9_95A3_95A5_95A4_9699_969C_969B_96CC_96D2),
  (0xBBDD, 0x9700_977C_9785_97F6_9817_9818_98AF_98B1_9903_9905_990C_9909),
  (0xBBE9, 0x99C1_9AAF_9AB0_9AE6_9B41_9B42_9CF4_9CF6_9CF3_9EBC_9F3B_9F4A),
  (0xBBF5, 0x5104_5100_50FB_50F5_50F9_5102_5108_5109_5105_51DC),
  (0xBC40, 0x5287_5288_5289_528D_528A_52F0_53B2_562E_563B_5639_5632_563F),
  (0xBC4C, 0x5634_5629_5653_564E_5657_5674_5636_562F_5630_5880_589F_589E),
  (0xBC58, 0x58B3_589C_58AE_58A9_58A6_596D_5B09_5AFB_5B0B_5AF5_5B0C_5B08),
  (0xBC64, 0x5BEE_5BEC_5BE9_5BEB_5C64_5C65_5D9D_5D94_5E62_5E5F_5E61_5EE2),
  (0xBC70, 0x5EDA_5EDF_5EDD_5EE3_5EE0_5F48_5F71_5FB7_5FB5_6176_6167_616E),
  (0xBC7C, 0x615D_6155_6182),
  (0xBCA1, 0x617C_6170_616B_617E_61A7_6190_61AB_618E_61AC_619A_61A4_6194),
  (0xBCAD, 0x61AE_622E_6469_646F_6479_649E_64B2_6488_6490_64B0_64A5_6493),
  (0xBCB9, 0x6495_64A9_6492_64AE_64AD_64AB_649A_64AC_6499_64A2_64B3_6575),
  (0xBCC5, 0x6577_6578_66AE_66AB_66B4_66B1_6A23_6A1F_69E8_6A01_6A1E_6A19),
  (0xBCD1, 0x69FD_6A21_6A13_6A0A_69F3_6A02_6A05_69ED_6A11_6B50_6B4E_6BA4),
  (0xBCDD, 0x6BC5_6BC6_6F3F_6F7C_6F84_6F51_6F66_6F54_6F86_6F6D_6F5B_6F78),
  (0xBCE9, 0x6F6E_6F8E_6F7A_6F70_6F64_6F97_6F58_6ED5_6F6F_6F60_6F5F_719F),
  (0xBCF5, 0x71AC_71B1_71A8_7256_729B_734E_7357_7469_748B_7483),
  (0xBD40, 0x747E_7480_757F_7620_7629_761F_7624_7626_7621_7622_769A_76BA),
  (0xBD4C, 0x76E4_778E_7787_778C_7791_778B_78CB_78C5_78BA_78CA_78BE_78D5),
  (0xBD58, 0x78BC_78D0_7A3F_7A3C_7A40_7A3D_7A37_7A3B_7AAF_7AAE_7BAD_7BB1),
  (0xBD64, 0x7BC4_7BB4_7BC6_7BC7_7BC1_7BA0_7BCC_7CCA_7DE0_7DF4_7DEF_7DFB),
  (0xBD70, 0x7DD8_7DEC_7DDD_7DE8_7DE3_7DDA_7DDE_7DE9_7D9E_7DD9_7DF2_7DF9),
  (0xBD7C, 0x7F75_7F77_7FAF),
  (0xBDA1, 0x7FE9_8026_819B_819C_819D_81A0_819A_8198_8517_853D_851A_84EE),
  (0xBDAD, 0x852C_852D_8513_8511_8523_8521_8514_84EC_8525_84FF_8506_8782),
  (0xBDB9, 0x8774_8776_8760_8766_8778_8768_8759_8757_874C_8753_885B_885D),
  (0xBDC5, 0x8910_8907_8912_8913_8915_890A_8ABC_8AD2_8AC7_8AC4_8A95_8ACB),
  (0xBDD1, 0x8AF8_8AB2_8AC9_8AC2_8ABF_8AB0_8AD6_8ACD_8AB6_8AB9_8ADB_8C4C),
  (0xBDDD, 0x8C4E_8C6C_8CE0_8CDE_8CE6_8CE4_8CEC_8CED_8CE2_8CE3_8CDC_8CEA),
  (0xBDE9, 0x8CE1_8D6D_8D9F_8DA3_8E2B_8E10_8E1D_8E22_8E0F_8E29_8E1F_8E21),
  (0xBDF5, 0x8E1E_8EBA_8F1D_8F1B_8F1F_8F29_8F26_8F2A_8F1C_8F1E),
  (0xBE40, 0x8F25_9069_906E_9068_906D_9077_9130_912D_9127_9131_9187_9189),
  (0xBE4C, 0x918B_9183_92C5_92BB_92B7_92EA_92AC_92E4_92C1_92B3_92BC_92D2),
  (0xBE58, 0x92C7_92F0_92B2_95AD_95B1_9704_9706_9707_9709_9760_978D_978B),
  (0xBE64, 0x978F_9821_982B_981C_98B3_990A_9913_9912_9918_99DD_99D0_99DF),
  (0xBE70, 0x99DB_99D1_99D5_99D2_99D9_9AB7_9AEE_9AEF_9B27_9B45_9B44_9B77),
  (0xBE7C, 0x9B6F_9D06_9D09),
  (0xBEA1, 0x9D03_9EA9_9EBE_9ECE_58A8_9F52_5112_5118_5114_5110_5115_5180),
  (0xBEAD, 0x51AA_51DD_5291_5293_52F3_5659_566B_5679_5669_5664_5678_566A),
  (0xBEB9, 0x5668_5665_5671_566F_566C_5662_5676_58C1_58BE_58C7_58C5_596E),
  (0xBEC5, 0x5B1D_5B34_5B78_5BF0_5C0E_5F4A_61B2_6191_61A9_618A_61CD_61B6),
  (0xBED1, 0x61BE_61CA_61C8_6230_64C5_64C1_64CB_64BB_64BC_64DA_64C4_64C7),
  (0xBEDD, 0x64C2_64CD_64BF_64D2_64D4_64BE_6574_66C6_66C9_66B9_66C4_66C7),
  (0xBEE9, 0x66B8_6A3D_6A38_6A3A_6A59_6A6B_6A58_6A39_6A44_6A62_6A61_6A4B),
  (0xBEF5, 0x6A47_6A35_6A5F_6A48_6B59_6B77_6C05_6FC2_6FB1_6FA1),
  (0xBF40, 0x6FC3_6FA4_6FC1_6FA7_6FB3_6FC0_6FB9_6FB6_6FA6_6FA0_6FB4_71BE),
  (0xBF4C, 0x71C9_71D0_71D2_71C8_71D5_71B9_71CE_71D9_71DC_71C3_71C4_7368),
  (0xBF58, 0x749C_74A3_7498_749F_749E_74E2_750C_750D_7634_7638_763A_76E7),
  (0xBF64, 0x76E5_77A0_779E_779F_77A5_78E8_78DA_78EC_78E7_79A6_7A4D_7A4E),
  (0xBF70, 0x7A46_7A4C_7A4B_7ABA_7BD9_7C11_7BC9_7BE4_7BDB_7BE1_7BE9_7BE6),
  (0xBF7C, 0x7CD5_7CD6_7E0A),
  (0xBFA1, 0x7E11_7E08_7E1B_7E23_7E1E_7E1D_7E09_7E10_7F79_7FB2_7FF0_7FF1),
  (0xBFAD, 0x7FEE_8028_81B3_81A9_81A8_81FB_8208_8258_8259_854A_8559_8548),
  (0xBFB9, 0x8568_8569_8543_8549_856D_856A_855E_8783_879F_879E_87A2_878D),
  (0xBFC5, 0x8861_892A_8932_8925_892B_8921_89AA_89A6_8AE6_8AFA_8AEB_8AF1),
  (0xBFD1, 0x8B00_8ADC_8AE7_8AEE_8AFE_8B01_8B02_8AF7_8AED_8AF3_8AF6_8AFC),
  (0xBFDD, 0x8C6B_8C6D_8C93_8CF4_8E44_8E31_8E34_8E42_8E39_8E35_8F3B_8F2F),
  (0xBFE9, 0x8F38_8F33_8FA8_8FA6_9075_9074_9078_9072_907C_907A_9134_9192),
  (0xBFF5, 0x9320_9336_92F8_9333_932F_9322_92FC_932B_9304_931A),
  (0xC040, 0x9310_9326_9321_9315_932E_9319_95BB_96A7_96A8_96AA_96D5_970E),
  (0xC04C, 0x9711_9716_970D_9713_970F_975B_975C_9766_9798_9830_9838_983B),
  (0xC058, 0x9837_982D_9839_9824_9910_9928_991E_991B_9921_991A_99ED_99E2),
  (0xC064, 0x99F1_9AB8_9ABC_9AFB_9AED_9B28_9B91_9D15_9D23_9D26_9D28_9D12),
  (0xC070, 0x9D1B_9ED8_9ED4_9F8D_9F9C_512A_511F_5121_5132_52F5_568E_5680),
  (0xC07C, 0x5690_5685_5687),
  (0xC0A1, 0x568F_58D5_58D3_58D1_58CE_5B30_5B2A_5B24_5B7A_5C37_5C68_5DBC),
  (0xC0AD, 0x5DBA_5DBD_5DB8_5E6B_5F4C_5FBD_61C9_61C2_61C7_61E6_61CB_6232),
  (0xC0B9, 0x6234_64CE_64CA_64D8_64E0_64F0_64E6_64EC_64F1_64E2_64ED_6582),
  (0xC0C5, 0x6583_66D9_66D6_6A80_6A94_6A84_6AA2_6A9C_6ADB_6AA3_6A7E_6A97),
  (0xC0D1, 0x6A90_6AA0_6B5C_6BAE_6BDA_6C08_6FD8_6FF1_6FDF_6FE0_6FDB_6FE4),
  (0xC0DD, 0x6FEB_6FEF_6F80_6FEC_6FE1_6FE9_6FD5_6FEE_6FF0_71E7_71DF_71EE),
  (0xC0E9, 0x71E6_71E5_71ED_71EC_71F4_71E0_7235_7246_7370_7372_74A9_74B0),
  (0xC0F5, 0x74A6_74A8_7646_7642_764C_76EA_77B3_77AA_77B0_77AC),
  (0xC140, 0x77A7_77AD_77EF_78F7_78FA_78F4_78EF_7901_79A7_79AA_7A57_7ABF),
  (0xC14C, 0x7C07_7C0D_7BFE_7BF7_7C0C_7BE0_7CE0_7CDC_7CDE_7CE2_7CDF_7CD9),
  (0xC158, 0x7CDD_7E2E_7E3E_7E46_7E37_7E32_7E43_7E2B_7E3D_7E31_7E45_7E41),
  (0xC164, 0x7E34_7E39_7E48_7E35_7E3F_7E2F_7F44_7FF3_7FFC_8071_8072_8070),
  (0xC170, 0x806F_8073_81C6_81C3_81BA_81C2_81C0_81BF_81BD_81C9_81BE_81E8),
  (0xC17C, 0x8209_8271_85AA),
  (0xC1A1, 0x8584_857E_859C_8591_8594_85AF_859B_8587_85A8_858A_8667_87C0),
  (0xC1AD, 0x87D1_87B3_87D2_87C6_87AB_87BB_87BA_87C8_87CB_893B_8936_8944),
  (0xC1B9, 0x8938_893D_89AC_8B0E_8B17_8B19_8B1B_8B0A_8B20_8B1D_8B04_8B10),
  (0xC1C5, 0x8C41_8C3F_8C73_8CFA_8CFD_8CFC_8CF8_8CFB_8DA8_8E49_8E4B_8E48),
  (0xC1D1, 0x8E4A_8F44_8F3E_8F42_8F45_8F3F_907F_907D_9084_9081_9082_9080),
  (0xC1DD, 0x9139_91A3_919E_919C_934D_9382_9328_9375_934A_9365_934B_9318),
  (0xC1E9, 0x937E_936C_935B_9370_935A_9354_95CA_95CB_95CC_95C8_95C6_96B1),
  (0xC1F5, 0x96B8_96D6_971C_971E_97A0_97D3_9846_98B6_9935_9A01),
  (0xC240, 0x99FF_9BAE_9BAB_9BAA_9BAD_9D3B_9D3F_9E8B_9ECF_9EDE_9EDC_9EDD),
  (0xC24C, 0x9EDB_9F3E_9F4B_53E2_5695_56AE_58D9_58D8_5B38_5F5D_61E3_6233),
  (0xC258, 0x64F4_64F2_64FE_6506_64FA_64FB_64F7_65B7_66DC_6726_6AB3_6AAC),
  (0xC264, 0x6AC3_6ABB_6AB8_6AC2_6AAE_6AAF_6B5F_6B78_6BAF_7009_700B_6FFE),
  (0xC270, 0x7006_6FFA_7011_700F_71FB_71FC_71FE_71F8_7377_7375_74A7_74BF),
  (0xC27C, 0x7515_7656_7658),
  (0xC2A1, 0x7652_77BD_77BF_77BB_77BC_790E_79AE_7A61_7A62_7A60_7AC4_7AC5),
  (0xC2AD, 0x7C2B_7C27_7C2A_7C1E_7C23_7C21_7CE7_7E54_7E55_7E5E_7E5A_7E61),
  (0xC2B9, 0x7E52_7E59_7F48_7FF9_7FFB_8077_8076_81CD_81CF_820A_85CF_85A9),
  (0xC2C5, 0x85CD_85D0_85C9_85B0_85BA_85B9_85A6_87EF_87EC_87F2_87E0_8986),
  (0xC2D1, 0x89B2_89F4_8B28_8B39_8B2C_8B2B_8C50_8D05_8E59_8E63_8E66_8E64),
  (0xC2DD, 0x8E5F_8E55_8EC0_8F49_8F4D_9087_9083_9088_91AB_91AC_91D0_9394),
  (0xC2E9, 0x938A_9396_93A2_93B3_93AE_93AC_93B0_9398_939A_9397_95D4_95D6),
  (0xC2F5, 0x95D0_95D5_96E2_96DC_96D9_96DB_96DE_9724_97A3_97A6),
  (0xC340, 0x97AD_97F9_984D_984F_984C_984E_9853_98BA_993E_993F_993D_992E),
  (0xC34C, 0x99A5_9A0E_9AC1_9B03_9B06_9B4F_9B4E_9B4D_9BCA_9BC9_9BFD_9BC8),
  (0xC358, 0x9BC0_9D51_9D5D_9D60_9EE0_9F15_9F2C_5133_56A5_58DE_58DF_58E2),
  (0xC364, 0x5BF5_9F90_5EEC_61F2_61F7_61F6_61F5_6500_650F_66E0_66DD_6AE5),
  (0xC370, 0x6ADD_6ADA_6AD3_701B_701F_7028_701A_701D_7015_7018_7206_720D),
  (0xC37C, 0x7258_72A2_7378),
  (0xC3A1, 0x737A_74BD_74CA_74E3_7587_7586_765F_7661_77C7_7919_79B1_7A6B),
  (0xC3AD, 0x7A69_7C3E_7C3F_7C38_7C3D_7C37_7C40_7E6B_7E6D_7E79_7E69_7E6A),
  (0xC3B9, 0x7F85_7E73_7FB6_7FB9_7FB8_81D8_85E9_85DD_85EA_85D5_85E4_85E5),
  (0xC3C5, 0x85F7_87FB_8805_880D_87F9_87FE_8960_895F_8956_895E_8B41_8B5C),
  (0xC3D1, 0x8B58_8B49_8B5A_8B4E_8B4F_8B46_8B59_8D08_8D0A_8E7C_8E72_8E87),
  (0xC3DD, 0x8E76_8E6C_8E7A_8E74_8F54_8F4E_8FAD_908A_908B_91B1_91AE_93E1),
  (0xC3E9, 0x93D1_93DF_93C3_93C8_93DC_93DD_93D6_93E2_93CD_93D8_93E4_93D7),
  (0xC3F5, 0x93E8_95DC_96B4_96E3_972A_9727_9761_97DC_97FB_985E),
  (0xC440, 0x9858_985B_98BC_9945_9949_9A16_9A19_9B0D_9BE8_9BE7_9BD6_9BDB),
  (0xC44C, 0x9D89_9D61_9D72_9D6A_9D6C_9E92_9E97_9E93_9EB4_52F8_56A8_56B7),
  (0xC458, 0x56B6_56B4_56BC_58E4_5B40_5B43_5B7D_5BF6_5DC9_61F8_61FA_6518),
  (0xC464, 0x6514_6519_66E6_6727_6AEC_703E_7030_7032_7210_737B_74CF_7662),
  (0xC470, 0x7665_7926_792A_792C_792B_7AC7_7AF6_7C4C_7C43_7C4D_7CEF_7CF0),
  (0xC47C, 0x8FAE_7E7D_7E7C),
  (0xC4A1, 0x7E82_7F4C_8000_81DA_8266_85FB_85F9_8611_85FA_8606_860B_8607),
  (0xC4AD, 0x860A_8814_8815_8964_89BA_89F8_8B70_8B6C_8B66_8B6F_8B5F_8B6B),
  (0xC4B9, 0x8D0F_8D0D_8E89_8E81_8E85_8E82_91B4_91CB_9418_9403_93FD_95E1),
  (0xC4C5, 0x9730_98C4_9952_9951_99A8_9A2B_9A30_9A37_9A35_9C13_9C0D_9E79),
  (0xC4D1, 0x9EB5_9EE8_9F2F_9F5F_9F63_9F61_5137_5138_56C1_56C0_56C2_5914),
  (0xC4DD, 0x5C6C_5DCD_61FC_61FE_651D_651C_6595_66E9_6AFB_6B04_6AFA_6BB2),
  (0xC4E9, 0x704C_721B_72A7_74D6_74D4_7669_77D3_7C50_7E8F_7E8C_7FBC_8617),
  (0xC4F5, 0x862D_861A_8823_8822_8821_881F_896A_896C_89BD_8B74),
  (0xC540, 0x8B77_8B7D_8D13_8E8A_8E8D_8E8B_8F5F_8FAF_91BA_942E_9433_9435),
  (0xC54C, 0x943A_9438_9432_942B_95E2_9738_9739_9732_97FF_9867_9865_9957),
  (0xC558, 0x9A45_9A43_9A40_9A3E_9ACF_9B54_9B51_9C2D_9C25_9DAF_9DB4_9DC2),
  (0xC564, 0x9DB8_9E9D_9EEF_9F19_9F5C_9F66_9F67_513C_513B_56C8_56CA_56C9),
  (0xC570, 0x5B7F_5DD4_5DD2_5F4E_61FF_6524_6B0A_6B61_7051_7058_7380_74E4),
  (0xC57C, 0x758A_766E_766C),
  (0xC5A1, 0x79B3_7C60_7C5F_807E_807D_81DF_8972_896F_89FC_8B80_8D16_8D17),
  (0xC5AD, 0x8E91_8E93_8F61_9148_9444_9451_9452_973D_973E_97C3_97C1_986B),
  (0xC5B9, 0x9955_9A55_9A4D_9AD2_9B1A_9C49_9C31_9C3E_9C3B_9DD3_9DD7_9F34),
  (0xC5C5, 0x9F6C_9F6A_9F94_56CC_5DD6_6200_6523_652B_652A_66EC_6B10_74DA),
  (0xC5D1, 0x7ACA_7C64_7C63_7C65_7E93_7E96_7E94_81E2_8638_863F_8831_8B8A),
  (0xC5DD, 0x9090_908F_9463_9460_9464_9768_986F_995C_9A5A_9A5B_9A57_9AD3),
  (0xC5E9, 0x9AD4_9AD1_9C54_9C57_9C56_9DE5_9E9F_9EF4_56D1_58E9_652C_705E),
  (0xC5F5, 0x7671_7672_77D7_7F50_7F88_8836_8839_8862_8B93_8B92),
  (0xC640, 0x8B96_8277_8D1B_91C0_946A_9742_9748_9744_97C6_9870_9A5F_9B22),
  (0xC64C, 0x9B58_9C5F_9DF9_9DFA_9E7C_9E7D_9F07_9F77_9F72_5EF3_6B16_7063),
  (0xC658, 0x7C6C_7C6E_883B_89C0_8EA1_91C1_9472_9470_9871_995E_9AD6_9B23),
  (0xC664, 0x9ECC_7064_77DA_8B9A_9477_97C9_9A62_9A65_7E9C_8B9C_8EAA_91C5),
  (0xC670, 0x947D_947E_947C_9C77_9C78_9EF7_8C54_947F_9E1A_7228_9A6A_9B31),
  (0xC67C, 0x9E1B_9E1E_7C72),
  (0xC6A1, 0x2460_2461_2462_2463_2464_2465_2466_2467_2468_2469_2474_2475),
  (0xC6AD, 0x2476_2477_2478_2479_247A_247B_247C_247D_2170_2171_2172_2173),
  (0xC6B9, 0x2174_2175_2176_2177_2178_2179_4E36_4E3F_4E85_4EA0_5182_5196),
  (0xC6C5, 0x51AB_52F9_5338_5369_53B6_590A_5B80_5DDB_5E7A_5E7F_5EF4_5F50),
  (0xC6D1, 0x5F61_6534_65E0_7592_7676_8FB5_96B6_00A8_02C6_30FD_30FE_309D),
  (0xC6DD, 0x309E_3003_4EDD_3005_3006_3007_30FC_FF3B_FF3D_273D_3041_3042),
  (0xC6E9, 0x3043_3044_3045_3046_3047_3048_3049_304A_304B_304C_304D_304E),
  (0xC6F5, 0x304F_3050_3051_3052_3053_3054_3055_3056_3057_3058),
  (0xC740, 0x3059_305A_305B_305C_305D_305E_305F_3060_3061_3062_3063_3064),
  (0xC74C, 0x3065_3066_3067_3068_3069_306A_306B_306C_306D_306E_306F_3070),
  (0xC758, 0x3071_3072_3073_3074_3075_3076_3077_3078_3079_307A_307B_307C),
  (0xC764, 0x307D_307E_307F_3080_3081_3082_3083_3084_3085_3086_3087_3088),
  (0xC770, 0x3089_308A_308B_308C_308D_308E_308F_3090_3091_3092_3093_30A1),
  (0xC77C, 0x30A2_30A3_30A4),
  (0xC7A1, 0x30A5_30A6_30A7_30A8_30A9_30AA_30AB_30AC_30AD_30AE_30AF_30B0),
  (0xC7AD, 0x30B1_30B2_30B3_30B4_30B5_30B6_30B7_30B8_30B9_30BA_30BB_30BC),
  (0xC7B9, 0x30BD_30BE_30BF_30C0_30C1_30C2_30C3_30C4_30C5_30C6_30C7_30C8),
  (0xC7C5, 0x30C9_30CA_30CB_30CC_30CD_30CE_30CF_30D0_30D1_30D2_30D3_30D4),
  (0xC7D1, 0x30D5_30D6_30D7_30D8_30D9_30DA_30DB_30DC_30DD_30DE_30DF_30E0),
  (0xC7DD, 0x30E1_30E2_30E3_30E4_30E5_30E6_30E7_30E8_30E9_30EA_30EB_30EC),
  (0xC7E9, 0x30ED_30EE_30EF_30F0_30F1_30F2_30F3_30F4_30F5_30F6_0410_0411),
  (0xC7F5, 0x0412_0413_0414_0415_0401_0416_0417_0418_0419_041A),
  (0xC840, 0x041B_041C_041D_041E_041F_0420_0421_0422_0423_0424_0425_0426),
  (0xC84C, 0x0427_0428_0429_042A_042B_042C_042D_042E_042F_0430_0431_0432),
  (0xC858, 0x0433_0434_0435_0451_0436_0437_0438_0439_043A_043B_043C_043D),
  (0xC864, 0x043E_043F_0440_0441_0442_0443_0444_0445_0446_0447_0448_0449),
  (0xC870, 0x044A_044B_044C_044D_044E_044F_21E7_21B8_21B9_31CF_F7E6_4E5A),
  (0xC87C, 0xF7E8_5202_4491),
  (0xC8A1, 0x9FB0_5188_9FB1_F7EE_F7EF_F7F0_F7F1_F7F2_F7F3_F7F4_F7F5_F7F6),
  (0xC8AD, 0xF7F7_F7F8_F7F9_F7FA_309B_309C_3094_30F7_30F8_30F9_30FA_30FB),
  (0xC8B9, 0xFF61_FF62_FF63_FF64_FF65_FF66_FF67_FF68_FF69_FF6A_FF6B_FF6C),
  (0xC8C5, 0xFF6D_FF6E_FF6F_FF70_FF71_FF72_FF73_FF74_FFE2_FFE4_FF07_FF02),
  (0xC8D1, 0x3231_2116_2121_FF75_FF76_FF77_FF78_FF79_FF7A_FF7B_FF7C_FF7D),
  (0xC8DD, 0xFF7E_FF7F_FF80_FF81_FF82_FF83_FF84_FF85_FF86_FF87_FF88_FF89),
  (0xC8E9, 0xFF8A_FF8B_FF8C_FF8D_FF8E_FF8F_FF90_FF91_FF92_FF93_FF94_FF95),
  (0xC8F5, 0xFF96_FF97_FF98_FF99_FF9A_FF9B_FF9C_FF9D_FF9E_FF9F),
  (0xC940, 0x4E42_4E5C_51F5_531A_5382_4E07_4E0C_4E47_4E8D_56D7_FA0C_5C6E),
  (0xC94C, 0x5F73_4E0F_5187_4E0E_4E2E_4E93_4EC2_4EC9_4EC8_5198_52FC_536C),
  (0xC958, 0x53B9_5720_5903_592C_5C10_5DFF_65E1_6BB3_6BCC_6C14_723F_4E31),
  (0xC964, 0x4E3C_4EE8_4EDC_4EE9_4EE1_4EDD_4EDA_520C_531C_534C_5722_5723),
  (0xC970, 0x5917_592F_5B81_5B84_5C12_5C3B_5C74_5C73_5E04_5E80_5E82_5FC9),
  (0xC97C, 0x6209_6250_6C15),
  (0xC9A1, 0x6C36_6C43_6C3F_6C3B_72AE_72B0_738A_79B8_808A_961E_4F0E_4F18),
  (0xC9AD, 0x4F2C_4EF5_4F14_4EF1_4F00_4EF7_4F08_4F1D_4F02_4F05_4F22_4F13),
  (0xC9B9, 0x4F04_4EF4_4F12_51B1_5213_5209_5210_52A6_5322_531F_534D_538A),
  (0xC9C5, 0x5407_56E1_56DF_572E_572A_5734_593C_5980_597C_5985_597B_597E),
  (0xC9D1, 0x5977_597F_5B56_5C15_5C25_5C7C_5C7A_5C7B_5C7E_5DDF_5E75_5E84),
  (0xC9DD, 0x5F02_5F1A_5F74_5FD5_5FD4_5FCF_625C_625E_6264_6261_6266_6262),
  (0xC9E9, 0x6259_6260_625A_6265_65EF_65EE_673E_6739_6738_673B_673A_673F),
  (0xC9F5, 0x673C_6733_6C18_6C46_6C52_6C5C_6C4F_6C4A_6C54_6C4B),
  (0xCA40, 0x6C4C_7071_725E_72B4_72B5_738E_752A_767F_7A75_7F51_8278_827C),
  (0xCA4C, 0x8280_827D_827F_864D_897E_9099_9097_9098_909B_9094_9622_9624),
  (0xCA58, 0x9620_9623_4F56_4F3B_4F62_4F49_4F53_4F64_4F3E_4F67_4F52_4F5F),
  (0xCA64, 0x4F41_4F58_4F2D_4F33_4F3F_4F61_518F_51B9_521C_521E_5221_52AD),
  (0xCA70, 0x52AE_5309_5363_5372_538E_538F_5430_5437_542A_5454_5445_5419),
  (0xCA7C, 0x541C_5425_5418),
  (0xCAA1, 0x543D_544F_5441_5428_5424_5447_56EE_56E7_56E5_5741_5745_574C),
  (0xCAAD, 0x5749_574B_5752_5906_5940_59A6_5998_59A0_5997_598E_59A2_5990),
  (0xCAB9, 0x598F_59A7_59A1_5B8E_5B92_5C28_5C2A_5C8D_5C8F_5C88_5C8B_5C89),
  (0xCAC5, 0x5C92_5C8A_5C86_5C93_5C95_5DE0_5E0A_5E0E_5E8B_5E89_5E8C_5E88),
  (0xCAD1, 0x5E8D_5F05_5F1D_5F78_5F76_5FD2_5FD1_5FD0_5FED_5FE8_5FEE_5FF3),
  (0xCADD, 0x5FE1_5FE4_5FE3_5FFA_5FEF_5FF7_5FFB_6000_5FF4_623A_6283_628C),
  (0xCAE9, 0x628E_628F_6294_6287_6271_627B_627A_6270_6281_6288_6277_627D),
  (0xCAF5, 0x6272_6274_6537_65F0_65F4_65F3_65F2_65F5_6745_6747),
  (0xCB40, 0x6759_6755_674C_6748_675D_674D_675A_674B_6BD0_6C19_6C1A_6C78),
  (0xCB4C, 0x6C67_6C6B_6C84_6C8B_6C8F_6C71_6C6F_6C69_6C9A_6C6D_6C87_6C95),
  (0xCB58, 0x6C9C_6C66_6C73_6C65_6C7B_6C8E_7074_707A_7263_72BF_72BD_72C3),
  (0xCB64, 0x72C6_72C1_72BA_72C5_7395_7397_7393_7394_7392_753A_7539_7594),
  (0xCB70, 0x7595_7681_793D_8034_8095_8099_8090_8092_809C_8290_828F_8285),
  (0xCB7C, 0x828E_8291_8293),
  (0xCBA1, 0x828A_8283_8284_8C78_8FC9_8FBF_909F_90A1_90A5_909E_90A7_90A0),
  (0xCBAD, 0x9630_9628_962F_962D_4E33_4F98_4F7C_4F85_4F7D_4F80_4F87_4F76),
  (0xCBB9, 0x4F74_4F89_4F84_4F77_4F4C_4F97_4F6A_4F9A_4F79_4F81_4F78_4F90),
  (0xCBC5, 0x4F9C_4F94_4F9E_4F92_4F82_4F95_4F6B_4F6E_519E_51BC_51BE_5235),
  (0xCBD1, 0x5232_5233_5246_5231_52BC_530A_530B_533C_5392_5394_5487_547F),
  (0xCBDD, 0x5481_5491_5482_5488_546B_547A_547E_5465_546C_5474_5466_548D),
  (0xCBE9, 0x546F_5461_5460_5498_5463_5467_5464_56F7_56F9_576F_5772_576D),
  (0xCBF5, 0x576B_5771_5770_5776_5780_5775_577B_5773_5774_5762),
  (0xCC40, 0x5768_577D_590C_5945_59B5_59BA_59CF_59CE_59B2_59CC_59C1_59B6),
  (0xCC4C, 0x59BC_59C3_59D6_59B1_59BD_59C0_59C8_59B4_59C7_5B62_5B65_5B93),
  (0xCC58, 0x5B95_5C44_5C47_5CAE_5CA4_5CA0_5CB5_5CAF_5CA8_5CAC_5C9F_5CA3),
  (0xCC64, 0x5CAD_5CA2_5CAA_5CA7_5C9D_5CA5_5CB6_5CB0_5CA6_5E17_5E14_5E19),
  (0xCC70, 0x5F28_5F22_5F23_5F24_5F54_5F82_5F7E_5F7D_5FDE_5FE5_602D_6026),
  (0xCC7C, 0x6019_6032_600B),
  (0xCCA1, 0x6034_600A_6017_6033_601A_601E_602C_6022_600D_6010_602E_6013),
  (0xCCAD, 0x6011_600C_6009_601C_6214_623D_62AD_62B4_62D1_62BE_62AA_62B6),
  (0xCCB9, 0x62CA_62AE_62B3_62AF_62BB_62A9_62B0_62B8_653D_65A8_65BB_6609),
  (0xCCC5, 0x65FC_6604_6612_6608_65FB_6603_660B_660D_6605_65FD_6611_6610),
  (0xCCD1, 0x66F6_670A_6785_676C_678E_6792_6776_677B_6798_6786_6784_6774),
  (0xCCDD, 0x678D_678C_677A_679F_6791_6799_6783_677D_6781_6778_6779_6794),
  (0xCCE9, 0x6B25_6B80_6B7E_6BDE_6C1D_6C93_6CEC_6CEB_6CEE_6CD9_6CB6_6CD4),
  (0xCCF5, 0x6CAD_6CE7_6CB7_6CD0_6CC2_6CBA_6CC3_6CC6_6CED_6CF2),
  (0xCD40, 0x6CD2_6CDD_6CB4_6C8A_6C9D_6C80_6CDE_6CC0_6D30_6CCD_6CC7_6CB0),
  (0xCD4C, 0x6CF9_6CCF_6CE9_6CD1_7094_7098_7085_7093_7086_7084_7091_7096),
  (0xCD58, 0x7082_709A_7083_726A_72D6_72CB_72D8_72C9_72DC_72D2_72D4_72DA),
  (0xCD64, 0x72CC_72D1_73A4_73A1_73AD_73A6_73A2_73A0_73AC_739D_74DD_74E8),
  (0xCD70, 0x753F_7540_753E_758C_7598_76AF_76F3_76F1_76F0_76F5_77F8_77FC),
  (0xCD7C, 0x77F9_77FB_77FA),
  (0xCDA1, 0x77F7_7942_793F_79C5_7A78_7A7B_7AFB_7C75_7CFD_8035_808F_80AE),
  (0xCDAD, 0x80A3_80B8_80B5_80AD_8220_82A0_82C0_82AB_829A_8298_829B_82B5),
  (0xCDB9, 0x82A7_82AE_82BC_829E_82BA_82B4_82A8_82A1_82A9_82C2_82A4_82C3),
  (0xCDC5, 0x82B6_82A2_8670_866F_866D_866E_8C56_8FD2_8FCB_8FD3_8FCD_8FD6),
  (0xCDD1, 0x8FD5_8FD7_90B2_90B4_90AF_90B3_90B0_9639_963D_963C_963A_9643),
  (0xCDDD, 0x4FCD_4FC5_4FD3_4FB2_4FC9_4FCB_4FC1_4FD4_4FDC_4FD9_4FBB_4FB3),
  (0xCDE9, 0x4FDB_4FC7_4FD6_4FBA_4FC0_4FB9_4FEC_5244_5249_52C0_52C2_533D),
  (0xCDF5, 0x537C_5397_5396_5399_5398_54BA_54A1_54AD_54A5_54CF),
  (0xCE40, 0x54C3_830D_54B7_54AE_54D6_54B6_54C5_54C6_54A0_5470_54BC_54A2),
  (0xCE4C, 0x54BE_5472_54DE_54B0_57B5_579E_579F_57A4_578C_5797_579D_579B),
  (0xCE58, 0x5794_5798_578F_5799_57A5_579A_5795_58F4_590D_5953_59E1_59DE),
  (0xCE64, 0x59EE_5A00_59F1_59DD_59FA_59FD_59FC_59F6_59E4_59F2_59F7_59DB),
  (0xCE70, 0x59E9_59F3_59F5_59E0_59FE_59F4_59ED_5BA8_5C4C_5CD0_5CD8_5CCC),
  (0xCE7C, 0x5CD7_5CCB_5CDB),
  (0xCEA1, 0x5CDE_5CDA_5CC9_5CC7_5CCA_5CD6_5CD3_5CD4_5CCF_5CC8_5CC6_5CCE),
  (0xCEAD, 0x5CDF_5CF8_5DF9_5E21_5E22_5E23_5E20_5E24_5EB0_5EA4_5EA2_5E9B),
  (0xCEB9, 0x5EA3_5EA5_5F07_5F2E_5F56_5F86_6037_6039_6054_6072_605E_6045),
  (0xCEC5, 0x6053_6047_6049_605B_604C_6040_6042_605F_6024_6044_6058_6066),
  (0xCED1, 0x606E_6242_6243_62CF_630D_630B_62F5_630E_6303_62EB_62F9_630F),
  (0xCEDD, 0x630C_62F8_62F6_6300_6313_6314_62FA_6315_62FB_62F0_6541_6543),
  (0xCEE9, 0x65AA_65BF_6636_6621_6632_6635_661C_6626_6622_6633_662B_663A),
  (0xCEF5, 0x661D_6634_6639_662E_670F_6710_67C1_67F2_67C8_67BA),
  (0xCF40, 0x67DC_67BB_67F8_67D8_67C0_67B7_67C5_67EB_67E4_67DF_67B5_67CD),
  (0xCF4C, 0x67B3_67F7_67F6_67EE_67E3_67C2_67B9_67CE_67E7_67F0_67B2_67FC),
  (0xCF58, 0x67C6_67ED_67CC_67AE_67E6_67DB_67FA_67C9_67CA_67C3_67EA_67CB),
  (0xCF64, 0x6B28_6B82_6B84_6BB6_6BD6_6BD8_6BE0_6C20_6C21_6D28_6D34_6D2D),
  (0xCF70, 0x6D1F_6D3C_6D3F_6D12_6D0A_6CDA_6D33_6D04_6D19_6D3A_6D1A_6D11),
  (0xCF7C, 0x6D00_6D1D_6D42),
  (0xCFA1, 0x6D01_6D18_6D37_6D03_6D0F_6D40_6D07_6D20_6D2C_6D08_6D22_6D09),
  (0xCFAD, 0x6D10_70B7_709F_70BE_70B1_70B0_70A1_70B4_70B5_70A9_7241_7249),
  (0xCFB9, 0x724A_726C_7270_7273_726E_72CA_72E4_72E8_72EB_72DF_72EA_72E6),
  (0xCFC5, 0x72E3_7385_73CC_73C2_73C8_73C5_73B9_73B6_73B5_73B4_73EB_73BF),
  (0xCFD1, 0x73C7_73BE_73C3_73C6_73B8_73CB_74EC_74EE_752E_7547_7548_75A7),
  (0xCFDD, 0x75AA_7679_76C4_7708_7703_7704_7705_770A_76F7_76FB_76FA_77E7),
  (0xCFE9, 0x77E8_7806_7811_7812_7805_7810_780F_780E_7809_7803_7813_794A),
  (0xCFF5, 0x794C_794B_7945_7944_79D5_79CD_79CF_79D6_79CE_7A80),
  (0xD040, 0x7A7E_7AD1_7B00_7B01_7C7A_7C78_7C79_7C7F_7C80_7C81_7D03_7D08),
  (0xD04C, 0x7D01_7F58_7F91_7F8D_7FBE_8007_800E_800F_8014_8037_80D8_80C7),
  (0xD058, 0x80E0_80D1_80C8_80C2_80D0_80C5_80E3_80D9_80DC_80CA_80D5_80C9),
  (0xD064, 0x80CF_80D7_80E6_80CD_81FF_8221_8294_82D9_82FE_82F9_8307_82E8),
  (0xD070, 0x8300_82D5_833A_82EB_82D6_82F4_82EC_82E1_82F2_82F5_830C_82FB),
  (0xD07C, 0x82F6_82F0_82EA),
  (0xD0A1, 0x82E4_82E0_82FA_82F3_82ED_8677_8674_867C_8673_8841_884E_8867),
  (0xD0AD, 0x886A_8869_89D3_8A04_8A07_8D72_8FE3_8FE1_8FEE_8FE0_90F1_90BD),
  (0xD0B9, 0x90BF_90D5_90C5_90BE_90C7_90CB_90C8_91D4_91D3_9654_964F_9651),
  (0xD0C5, 0x9653_964A_964E_501E_5005_5007_5013_5022_5030_501B_4FF5_4FF4),
  (0xD0D1, 0x5033_5037_502C_4FF6_4FF7_5017_501C_5020_5027_5035_502F_5031),
  (0xD0DD, 0x500E_515A_5194_5193_51CA_51C4_51C5_51C8_51CE_5261_525A_5252),
  (0xD0E9, 0x525E_525F_5255_5262_52CD_530E_539E_5526_54E2_5517_5512_54E7),
  (0xD0F5, 0x54F3_54E4_551A_54FF_5504_5508_54EB_5511_5505_54F1),
  (0xD140, 0x550A_54FB_54F7_54F8_54E0_550E_5503_550B_5701_5702_57CC_5832),
  (0xD14C, 0x57D5_57D2_57BA_57C6_57BD_57BC_57B8_57B6_57BF_57C7_57D0_57B9),
  (0xD158, 0x57C1_590E_594A_5A19_5A16_5A2D_5A2E_5A15_5A0F_5A17_5A0A_5A1E),
  (0xD164, 0x5A33_5B6C_5BA7_5BAD_5BAC_5C03_5C56_5C54_5CEC_5CFF_5CEE_5CF1),
  (0xD170, 0x5CF7_5D00_5CF9_5E29_5E28_5EA8_5EAE_5EAA_5EAC_5F33_5F30_5F67),
  (0xD17C, 0x605D_605A_6067),
  (0xD1A1, 0x6041_60A2_6088_6080_6092_6081_609D_6083_6095_609B_6097_6087),
  (0xD1AD, 0x609C_608E_6219_6246_62F2_6310_6356_632C_6344_6345_6336_6343),
  (0xD1B9, 0x63E4_6339_634B_634A_633C_6329_6341_6334_6358_6354_6359_632D),
  (0xD1C5, 0x6347_6333_635A_6351_6338_6357_6340_6348_654A_6546_65C6_65C3),
  (0xD1D1, 0x65C4_65C2_664A_665F_6647_6651_6712_6713_681F_681A_6849_6832),
  (0xD1DD, 0x6833_683B_684B_684F_6816_6831_681C_6835_682B_682D_682F_684E),
  (0xD1E9, 0x6844_6834_681D_6812_6814_6826_6828_682E_684D_683A_6825_6820),
  (0xD1F5, 0x6B2C_6B2F_6B2D_6B31_6B34_6B6D_8082_6B88_6BE6_6BE4),
  (0xD240, 0x6BE8_6BE3_6BE2_6BE7_6C25_6D7A_6D63_6D64_6D76_6D0D_6D61_6D92),
  (0xD24C, 0x6D58_6D62_6D6D_6D6F_6D91_6D8D_6DEF_6D7F_6D86_6D5E_6D67_6D60),
  (0xD258, 0x6D97_6D70_6D7C_6D5F_6D82_6D98_6D2F_6D68_6D8B_6D7E_6D80_6D84),
  (0xD264, 0x6D16_6D83_6D7B_6D7D_6D75_6D90_70DC_70D3_70D1_70DD_70CB_7F39),
  (0xD270, 0x70E2_70D7_70D2_70DE_70E0_70D4_70CD_70C5_70C6_70C7_70DA_70CE),
  (0xD27C, 0x70E1_7242_7278),
  (0xD2A1, 0x7277_7276_7300_72FA_72F4_72FE_72F6_72F3_72FB_7301_73D3_73D9),
  (0xD2AD, 0x73E5_73D6_73BC_73E7_73E3_73E9_73DC_73D2_73DB_73D4_73DD_73DA),
  (0xD2B9, 0x73D7_73D8_73E8_74DE_74DF_74F4_74F5_7521_755B_755F_75B0_75C1),
  (0xD2C5, 0x75BB_75C4_75C0_75BF_75B6_75BA_768A_76C9_771D_771B_7710_7713),
  (0xD2D1, 0x7712_7723_7711_7715_7719_771A_7722_7727_7823_782C_7822_7835),
  (0xD2DD, 0x782F_7828_782E_782B_7821_7829_7833_782A_7831_7954_795B_794F),
  (0xD2E9, 0x795C_7953_7952_7951_79EB_79EC_79E0_79EE_79ED_79EA_79DC_79DE),
  (0xD2F5, 0x79DD_7A86_7A89_7A85_7A8B_7A8C_7A8A_7A87_7AD8_7B10),
  (0xD340, 0x7B04_7B13_7B05_7B0F_7B08_7B0A_7B0E_7B09_7B12_7C84_7C91_7C8A),
  (0xD34C, 0x7C8C_7C88_7C8D_7C85_7D1E_7D1D_7D11_7D0E_7D18_7D16_7D13_7D1F),
  (0xD358, 0x7D12_7D0F_7D0C_7F5C_7F61_7F5E_7F60_7F5D_7F5B_7F96_7F92_7FC3),
  (0xD364, 0x7FC2_7FC0_8016_803E_8039_80FA_80F2_80F9_80F5_8101_80FB_8100),
  (0xD370, 0x8201_822F_8225_8333_832D_8344_8319_8351_8325_8356_833F_8341),
  (0xD37C, 0x8326_831C_8322),
  (0xD3A1, 0x8342_834E_831B_832A_8308_833C_834D_8316_8324_8320_8337_832F),
  (0xD3AD, 0x8329_8347_8345_834C_8353_831E_832C_834B_8327_8348_8653_8652),
  (0xD3B9, 0x86A2_86A8_8696_868D_8691_869E_8687_8697_8686_868B_869A_8685),
  (0xD3C5, 0x86A5_8699_86A1_86A7_8695_8698_868E_869D_8690_8694_8843_8844),
  (0xD3D1, 0x886D_8875_8876_8872_8880_8871_887F_886F_8883_887E_8874_887C),
  (0xD3DD, 0x8A12_8C47_8C57_8C7B_8CA4_8CA3_8D76_8D78_8DB5_8DB7_8DB6_8ED1),
  (0xD3E9, 0x8ED3_8FFE_8FF5_9002_8FFF_8FFB_9004_8FFC_8FF6_90D6_90E0_90D9),
  (0xD3F5, 0x90DA_90E3_90DF_90E5_90D8_90DB_90D7_90DC_90E4_9150),
  (0xD440, 0x914E_914F_91D5_91E2_91DA_965C_965F_96BC_98E3_9ADF_9B2F_4E7F),
  (0xD44C, 0x5070_506A_5061_505E_5060_5053_504B_505D_5072_5048_504D_5041),
  (0xD458, 0x505B_504A_5062_5015_5045_505F_5069_506B_5063_5064_5046_5040),
  (0xD464, 0x506E_5073_5057_5051_51D0_526B_526D_526C_526E_52D6_52D3_532D),
  (0xD470, 0x539C_5575_5576_553C_554D_5550_5534_552A_5551_5562_5536_5535),
  (0xD47C, 0x5530_5552_5545),
  (0xD4A1, 0x550C_5532_5565_554E_5539_5548_552D_553B_5540_554B_570A_5707),
  (0xD4AD, 0x57FB_5814_57E2_57F6_57DC_57F4_5800_57ED_57FD_5808_57F8_580B),
  (0xD4B9, 0x57F3_57CF_5807_57EE_57E3_57F2_57E5_57EC_57E1_580E_57FC_5810),
  (0xD4C5, 0x57E7_5801_580C_57F1_57E9_57F0_580D_5804_595C_5A60_5A58_5A55),
  (0xD4D1, 0x5A67_5A5E_5A38_5A35_5A6D_5A50_5A5F_5A65_5A6C_5A53_5A64_5A57),
  (0xD4DD, 0x5A43_5A5D_5A52_5A44_5A5B_5A48_5A8E_5A3E_5A4D_5A39_5A4C_5A70),
  (0xD4E9, 0x5A69_5A47_5A51_5A56_5A42_5A5C_5B72_5B6E_5BC1_5BC0_5C59_5D1E),
  (0xD4F5, 0x5D0B_5D1D_5D1A_5D20_5D0C_5D28_5D0D_5D26_5D25_5D0F),
  (0xD540, 0x5D30_5D12_5D23_5D1F_5D2E_5E3E_5E34_5EB1_5EB4_5EB9_5EB2_5EB3),
  (0xD54C, 0x5F36_5F38_5F9B_5F96_5F9F_608A_6090_6086_60BE_60B0_60BA_60D3),
  (0xD558, 0x60D4_60CF_60E4_60D9_60DD_60C8_60B1_60DB_60B7_60CA_60BF_60C3),
  (0xD564, 0x60CD_60C0_6332_6365_638A_6382_637D_63BD_639E_63AD_639D_6397),
  (0xD570, 0x63AB_638E_636F_6387_6390_636E_63AF_6375_639C_636D_63AE_637C),
  (0xD57C, 0x63A4_633B_639F),
  (0xD5A1, 0x6378_6385_6381_6391_638D_6370_6553_65CD_6665_6661_665B_6659),
  (0xD5AD, 0x665C_6662_6718_6879_6887_6890_689C_686D_686E_68AE_68AB_6956),
  (0xD5B9, 0x686F_68A3_68AC_68A9_6875_6874_68B2_688F_6877_6892_687C_686B),
  (0xD5C5, 0x6872_68AA_6880_6871_687E_689B_6896_688B_68A0_6889_68A4_6878),
  (0xD5D1, 0x687B_6891_688C_688A_687D_6B36_6B33_6B37_6B38_6B91_6B8F_6B8D),
  (0xD5DD, 0x6B8E_6B8C_6C2A_6DC0_6DAB_6DB4_6DB3_6E74_6DAC_6DE9_6DE2_6DB7),
  (0xD5E9, 0x6DF6_6DD4_6E00_6DC8_6DE0_6DDF_6DD6_6DBE_6DE5_6DDC_6DDD_6DDB),
  (0xD5F5, 0x6DF4_6DCA_6DBD_6DED_6DF0_6DBA_6DD5_6DC2_6DCF_6DC9),
  (0xD640, 0x6DD0_6DF2_6DD3_6DFD_6DD7_6DCD_6DE3_6DBB_70FA_710D_70F7_7117),
  (0xD64C, 0x70F4_710C_70F0_7104_70F3_7110_70FC_70FF_7106_7113_7100_70F8),
  (0xD658, 0x70F6_710B_7102_710E_727E_727B_727C_727F_731D_7317_7307_7311),
  (0xD664, 0x7318_730A_7308_72FF_730F_731E_7388_73F6_73F8_73F5_7404_7401),
  (0xD670, 0x73FD_7407_7400_73FA_73FC_73FF_740C_740B_73F4_7408_7564_7563),
  (0xD67C, 0x75CE_75D2_75CF),
  (0xD6A1, 0x75CB_75CC_75D1_75D0_768F_7689_76D3_7739_772F_772D_7731_7732),
  (0xD6AD, 0x7734_7733_773D_7725_773B_7735_7848_7852_7849_784D_784A_784C),
  (0xD6B9, 0x7826_7845_7850_7964_7967_7969_796A_7963_796B_7961_79BB_79FA),
  (0xD6C5, 0x79F8_79F6_79F7_7A8F_7A94_7A90_7B35_7B47_7B34_7B25_7B30_7B22),
  (0xD6D1, 0x7B24_7B33_7B18_7B2A_7B1D_7B31_7B2B_7B2D_7B2F_7B32_7B38_7B1A),
  (0xD6DD, 0x7B23_7C94_7C98_7C96_7CA3_7D35_7D3D_7D38_7D36_7D3A_7D45_7D2C),
  (0xD6E9, 0x7D29_7D41_7D47_7D3E_7D3F_7D4A_7D3B_7D28_7F63_7F95_7F9C_7F9D),
  (0xD6F5, 0x7F9B_7FCA_7FCB_7FCD_7FD0_7FD1_7FC7_7FCF_7FC9_801F),
  (0xD740, 0x801E_801B_8047_8043_8048_8118_8125_8119_811B_812D_811F_812C),
  (0xD74C, 0x811E_8121_8115_8127_811D_8122_8211_8238_8233_823A_8234_8232),
  (0xD758, 0x8274_8390_83A3_83A8_838D_837A_8373_83A4_8374_838F_8381_8395),
  (0xD764, 0x8399_8375_8394_83A9_837D_8383_838C_839D_839B_83AA_838B_837E),
  (0xD770, 0x83A5_83AF_8388_8397_83B0_837F_83A6_8387_83AE_8376_839A_8659),
  (0xD77C, 0x8656_86BF_86B7),
  (0xD7A1, 0x86C2_86C1_86C5_86BA_86B0_86C8_86B9_86B3_86B8_86CC_86B4_86BB),
  (0xD7AD, 0x86BC_86C3_86BD_86BE_8852_8889_8895_88A8_88A2_88AA_889A_8891),
  (0xD7B9, 0x88A1_889F_8898_88A7_8899_889B_8897_88A4_88AC_888C_8893_888E),
  (0xD7C5, 0x8982_89D6_89D9_89D5_8A30_8A27_8A2C_8A1E_8C39_8C3B_8C5C_8C5D),
  (0xD7D1, 0x8C7D_8CA5_8D7D_8D7B_8D79_8DBC_8DC2_8DB9_8DBF_8DC1_8ED8_8EDE),
  (0xD7DD, 0x8EDD_8EDC_8ED7_8EE0_8EE1_9024_900B_9011_901C_900C_9021_90EF),
  (0xD7E9, 0x90EA_90F0_90F4_90F2_90F3_90D4_90EB_90EC_90E9_9156_9158_915A),
  (0xD7F5, 0x9153_9155_91EC_91F4_91F1_91F3_91F8_91E4_91F9_91EA),
  (0xD840, 0x91EB_91F7_91E8_91EE_957A_9586_9588_967C_966D_966B_9671_966F),
  (0xD84C, 0x96BF_976A_9804_98E5_9997_509B_5095_5094_509E_508B_50A3_5083),
  (0xD858, 0x508C_508E_509D_5068_509C_5092_5082_5087_515F_51D4_5312_5311),
  (0xD864, 0x53A4_53A7_5591_55A8_55A5_55AD_5577_5645_55A2_5593_5588_558F),
  (0xD870, 0x55B5_5581_55A3_5592_55A4_557D_558C_55A6_557F_5595_55A1_558E),
  (0xD87C, 0x570C_5829_5837),
  (0xD8A1, 0x5819_581E_5827_5823_5828_57F5_5848_5825_581C_581B_5833_583F),
  (0xD8AD, 0x5836_582E_5839_5838_582D_582C_583B_5961_5AAF_5A94_5A9F_5A7A),
  (0xD8B9, 0x5AA2_5A9E_5A78_5AA6_5A7C_5AA5_5AAC_5A95_5AAE_5A37_5A84_5A8A),
  (0xD8C5, 0x5A97_5A83_5A8B_5AA9_5A7B_5A7D_5A8C_5A9C_5A8F_5A93_5A9D_5BEA),
  (0xD8D1, 0x5BCD_5BCB_5BD4_5BD1_5BCA_5BCE_5C0C_5C30_5D37_5D43_5D6B_5D41),
  (0xD8DD, 0x5D4B_5D3F_5D35_5D51_5D4E_5D55_5D33_5D3A_5D52_5D3D_5D31_5D59),
  (0xD8E9, 0x5D42_5D39_5D49_5D38_5D3C_5D32_5D36_5D40_5D45_5E44_5E41_5F58),
  (0xD8F5, 0x5FA6_5FA5_5FAB_60C9_60B9_60CC_60E2_60CE_60C4_6114),
  (0xD940, 0x60F2_610A_6116_6105_60F5_6113_60F8_60FC_60FE_60C1_6103_6118),
  (0xD94C, 0x611D_6110_60FF_6104_610B_624A_6394_63B1_63B0_63CE_63E5_63E8),
  (0xD958, 0x63EF_63C3_649D_63F3_63CA_63E0_63F6_63D5_63F2_63F5_6461_63DF),
  (0xD964, 0x63BE_63DD_63DC_63C4_63D8_63D3_63C2_63C7_63CC_63CB_63C8_63F0),
  (0xD970, 0x63D7_63D9_6532_6567_656A_6564_655C_6568_6565_658C_659D_659E),
  (0xD97C, 0x65AE_65D0_65D2),
  (0xD9A1, 0x667C_666C_667B_6680_6671_6679_666A_6672_6701_690C_68D3_6904),
  (0xD9AD, 0x68DC_692A_68EC_68EA_68F1_690F_68D6_68F7_68EB_68E4_68F6_6913),
  (0xD9B9, 0x6910_68F3_68E1_6907_68CC_6908_6970_68B4_6911_68EF_68C6_6914),
  (0xD9C5, 0x68F8_68D0_68FD_68FC_68E8_690B_690A_6917_68CE_68C8_68DD_68DE),
  (0xD9D1, 0x68E6_68F4_68D1_6906_68D4_68E9_6915_6925_68C7_6B39_6B3B_6B3F),
  (0xD9DD, 0x6B3C_6B94_6B97_6B99_6B95_6BBD_6BF0_6BF2_6BF3_6C30_6DFC_6E46),
  (0xD9E9, 0x6E47_6E1F_6E49_6E88_6E3C_6E3D_6E45_6E62_6E2B_6E3F_6E41_6E5D),
  (0xD9F5, 0x6E73_6E1C_6E33_6E4B_6E40_6E51_6E3B_6E03_6E2E_6E5E),
  (0xDA40, 0x6E68_6E5C_6E61_6E31_6E28_6E60_6E71_6E6B_6E39_6E22_6E30_6E53),
  (0xDA4C, 0x6E65_6E27_6E78_6E64_6E77_6E55_6E79_6E52_6E66_6E35_6E36_6E5A),
  (0xDA58, 0x7120_711E_712F_70FB_712E_7131_7123_7125_7122_7132_711F_7128),
  (0xDA64, 0x713A_711B_724B_725A_7288_7289_7286_7285_728B_7312_730B_7330),
  (0xDA70, 0x7322_7331_7333_7327_7332_732D_7326_7323_7335_730C_742E_742C),
  (0xDA7C, 0x7430_742B_7416),
  (0xDAA1, 0x741A_7421_742D_7431_7424_7423_741D_7429_7420_7432_74FB_752F),
  (0xDAAD, 0x756F_756C_75E7_75DA_75E1_75E6_75DD_75DF_75E4_75D7_7695_7692),
  (0xDAB9, 0x76DA_7746_7747_7744_774D_7745_774A_774E_774B_774C_77DE_77EC),
  (0xDAC5, 0x7860_7864_7865_785C_786D_7871_786A_786E_7870_7869_7868_785E),
  (0xDAD1, 0x7862_7974_7973_7972_7970_7A02_7A0A_7A03_7A0C_7A04_7A99_7AE6),
  (0xDADD, 0x7AE4_7B4A_7B3B_7B44_7B48_7B4C_7B4E_7B40_7B58_7B45_7CA2_7C9E),
  (0xDAE9, 0x7CA8_7CA1_7D58_7D6F_7D63_7D53_7D56_7D67_7D6A_7D4F_7D6D_7D5C),
  (0xDAF5, 0x7D6B_7D52_7D54_7D69_7D51_7D5F_7D4E_7F3E_7F3F_7F65),
  (0xDB40, 0x7F66_7FA2_7FA0_7FA1_7FD7_8051_804F_8050_80FE_80D4_8143_814A),
  (0xDB4C, 0x8152_814F_8147_813D_814D_813A_81E6_81EE_81F7_81F8_81F9_8204),
  (0xDB58, 0x823C_823D_823F_8275_833B_83CF_83F9_8423_83C0_83E8_8412_83E7),
  (0xDB64, 0x83E4_83FC_83F6_8410_83C6_83C8_83EB_83E3_83BF_8401_83DD_83E5),
  (0xDB70, 0x83D8_83FF_83E1_83CB_83CE_83D6_83F5_83C9_8409_840F_83DE_8411),
  (0xDB7C, 0x8406_83C2_83F3),
  (0xDBA1, 0x83D5_83FA_83C7_83D1_83EA_8413_83C3_83EC_83EE_83C4_83FB_83D7),
  (0xDBAD, 0x83E2_841B_83DB_83FE_86D8_86E2_86E6_86D3_86E3_86DA_86EA_86DD),
  (0xDBB9, 0x86EB_86DC_86EC_86E9_86D7_86E8_86D1_8848_8856_8855_88BA_88D7),
  (0xDBC5, 0x88B9_88B8_88C0_88BE_88B6_88BC_88B7_88BD_88B2_8901_88C9_8995),
  (0xDBD1, 0x8998_8997_89DD_89DA_89DB_8A4E_8A4D_8A39_8A59_8A40_8A57_8A58),
  (0xDBDD, 0x8A44_8A45_8A52_8A48_8A51_8A4A_8A4C_8A4F_8C5F_8C81_8C80_8CBA),
  (0xDBE9, 0x8CBE_8CB0_8CB9_8CB5_8D84_8D80_8D89_8DD8_8DD3_8DCD_8DC7_8DD6),
  (0xDBF5, 0x8DDC_8DCF_8DD5_8DD9_8DC8_8DD7_8DC5_8EEF_8EF7_8EFA),
  (0xDC40, 0x8EF9_8EE6_8EEE_8EE5_8EF5_8EE7_8EE8_8EF6_8EEB_8EF1_8EEC_8EF4),
  (0xDC4C, 0x8EE9_902D_9034_902F_9106_912C_9104_90FF_90FC_9108_90F9_90FB),
  (0xDC58, 0x9101_9100_9107_9105_9103_9161_9164_915F_9162_9160_9201_920A),
  (0xDC64, 0x9225_9203_921A_9226_920F_920C_9200_9212_91FF_91FD_9206_9204),
  (0xDC70, 0x9227_9202_921C_9224_9219_9217_9205_9216_957B_958D_958C_9590),
  (0xDC7C, 0x9687_967E_9688),
  (0xDCA1, 0x9689_9683_9680_96C2_96C8_96C3_96F1_96F0_976C_9770_976E_9807),
  (0xDCAD, 0x98A9_98EB_9CE6_9EF9_4E83_4E84_4EB6_50BD_50BF_50C6_50AE_50C4),
  (0xDCB9, 0x50CA_50B4_50C8_50C2_50B0_50C1_50BA_50B1_50CB_50C9_50B6_50B8),
  (0xDCC5, 0x51D7_527A_5278_527B_527C_55C3_55DB_55CC_55D0_55CB_55CA_55DD),
  (0xDCD1, 0x55C0_55D4_55C4_55E9_55BF_55D2_558D_55CF_55D5_55E2_55D6_55C8),
  (0xDCDD, 0x55F2_55CD_55D9_55C2_5714_5853_5868_5864_584F_584D_5849_586F),
  (0xDCE9, 0x5855_584E_585D_5859_5865_585B_583D_5863_5871_58FC_5AC7_5AC4),
  (0xDCF5, 0x5ACB_5ABA_5AB8_5AB1_5AB5_5AB0_5ABF_5AC8_5ABB_5AC6),
  (0xDD40, 0x5AB7_5AC0_5ACA_5AB4_5AB6_5ACD_5AB9_5A90_5BD6_5BD8_5BD9_5C1F),
  (0xDD4C, 0x5C33_5D71_5D63_5D4A_5D65_5D72_5D6C_5D5E_5D68_5D67_5D62_5DF0),
  (0xDD58, 0x5E4F_5E4E_5E4A_5E4D_5E4B_5EC5_5ECC_5EC6_5ECB_5EC7_5F40_5FAF),
  (0xDD64, 0x5FAD_60F7_6149_614A_612B_6145_6136_6132_612E_6146_612F_614F),
  (0xDD70, 0x6129_6140_6220_9168_6223_6225_6224_63C5_63F1_63EB_6410_6412),
  (0xDD7C, 0x6409_6420_6424),
  (0xDDA1, 0x6433_6443_641F_6415_6418_6439_6437_6422_6423_640C_6426_6430),
  (0xDDAD, 0x6428_6441_6435_642F_640A_641A_6440_6425_6427_640B_63E7_641B),
  (0xDDB9, 0x642E_6421_640E_656F_6592_65D3_6686_668C_6695_6690_668B_668A),
  (0xDDC5, 0x6699_6694_6678_6720_6966_695F_6938_694E_6962_6971_693F_6945),
  (0xDDD1, 0x696A_6939_6942_6957_6959_697A_6948_6949_6935_696C_6933_693D),
  (0xDDDD, 0x6965_68F0_6978_6934_6969_6940_696F_6944_6976_6958_6941_6974),
  (0xDDE9, 0x694C_693B_694B_6937_695C_694F_6951_6932_6952_692F_697B_693C),
  (0xDDF5, 0x6B46_6B45_6B43_6B42_6B48_6B41_6B9B_FA0D_6BFB_6BFC),
  (0xDE40, 0x6BF9_6BF7_6BF8_6E9B_6ED6_6EC8_6E8F_6EC0_6E9F_6E93_6E94_6EA0),
  (0xDE4C, 0x6EB1_6EB9_6EC6_6ED2_6EBD_6EC1_6E9E_6EC9_6EB7_6EB0_6ECD_6EA6),
  (0xDE58, 0x6ECF_6EB2_6EBE_6EC3_6EDC_6ED8_6E99_6E92_6E8E_6E8D_6EA4_6EA1),
  (0xDE64, 0x6EBF_6EB3_6ED0_6ECA_6E97_6EAE_6EA3_7147_7154_7152_7163_7160),
  (0xDE70, 0x7141_715D_7162_7172_7178_716A_7161_7142_7158_7143_714B_7170),
  (0xDE7C, 0x715F_7150_7153),
  (0xDEA1, 0x7144_714D_715A_724F_728D_728C_7291_7290_728E_733C_7342_733B),
  (0xDEAD, 0x733A_7340_734A_7349_7444_744A_744B_7452_7451_7457_7440_744F),
  (0xDEB9, 0x7450_744E_7442_7446_744D_7454_74E1_74FF_74FE_74FD_751D_7579),
  (0xDEC5, 0x7577_6983_75EF_760F_7603_75F7_75FE_75FC_75F9_75F8_7610_75FB),
  (0xDED1, 0x75F6_75ED_75F5_75FD_7699_76B5_76DD_7755_775F_7760_7752_7756),
  (0xDEDD, 0x775A_7769_7767_7754_7759_776D_77E0_7887_789A_7894_788F_7884),
  (0xDEE9, 0x7895_7885_7886_78A1_7883_7879_7899_7880_7896_787B_797C_7982),
  (0xDEF5, 0x797D_7979_7A11_7A18_7A19_7A12_7A17_7A15_7A22_7A13),
  (0xDF40, 0x7A1B_7A10_7AA3_7AA2_7A9E_7AEB_7B66_7B64_7B6D_7B74_7B69_7B72),
  (0xDF4C, 0x7B65_7B73_7B71_7B70_7B61_7B78_7B76_7B63_7CB2_7CB4_7CAF_7D88),
  (0xDF58, 0x7D86_7D80_7D8D_7D7F_7D85_7D7A_7D8E_7D7B_7D83_7D7C_7D8C_7D94),
  (0xDF64, 0x7D84_7D7D_7D92_7F6D_7F6B_7F67_7F68_7F6C_7FA6_7FA5_7FA7_7FDB),
  (0xDF70, 0x7FDC_8021_8164_8160_8177_815C_8169_815B_8162_8172_6721_815E),
  (0xDF7C, 0x8176_8167_816F),
  (0xDFA1, 0x8144_8161_821D_8249_8244_8240_8242_8245_84F1_843F_8456_8476),
  (0xDFAD, 0x8479_848F_848D_8465_8451_8440_8486_8467_8430_844D_847D_845A),
  (0xDFB9, 0x8459_8474_8473_845D_8507_845E_8437_843A_8434_847A_8443_8478),
  (0xDFC5, 0x8432_8445_8429_83D9_844B_842F_8442_842D_845F_8470_8439_844E),
  (0xDFD1, 0x844C_8452_846F_84C5_848E_843B_8447_8436_8433_8468_847E_8444),
  (0xDFDD, 0x842B_8460_8454_846E_8450_870B_8704_86F7_870C_86FA_86D6_86F5),
  (0xDFE9, 0x874D_86F8_870E_8709_8701_86F6_870D_8705_88D6_88CB_88CD_88CE),
  (0xDFF5, 0x88DE_88DB_88DA_88CC_88D0_8985_899B_89DF_89E5_89E4),
  (0xE040, 0x89E1_89E0_89E2_89DC_89E6_8A76_8A86_8A7F_8A61_8A3F_8A77_8A82),
  (0xE04C, 0x8A84_8A75_8A83_8A81_8A74_8A7A_8C3C_8C4B_8C4A_8C65_8C64_8C66),
  (0xE058, 0x8C86_8C84_8C85_8CCC_8D68_8D69_8D91_8D8C_8D8E_8D8F_8D8D_8D93),
  (0xE064, 0x8D94_8D90_8D92_8DF0_8DE0_8DEC_8DF1_8DEE_8DD0_8DE9_8DE3_8DE2),
  (0xE070, 0x8DE7_8DF2_8DEB_8DF4_8F06_8EFF_8F01_8F00_8F05_8F07_8F08_8F02),
  (0xE07C, 0x8F0B_9052_903F),
  (0xE0A1, 0x9044_9049_903D_9110_910D_910F_9111_9116_9114_910B_910E_916E),
  (0xE0AD, 0x916F_9248_9252_9230_923A_9266_9233_9265_925E_9283_922E_924A),
  (0xE0B9, 0x9246_926D_926C_924F_9260_9267_926F_9236_9261_9270_9231_9254),
  (0xE0C5, 0x9263_9250_9272_924E_9253_924C_9256_9232_959F_959C_959E_959B),
  (0xE0D1, 0x9692_9693_9691_9697_96CE_96FA_96FD_96F8_96F5_9773_9777_9778),
  (0xE0DD, 0x9772_980F_980D_980E_98AC_98F6_98F9_99AF_99B2_99B0_99B5_9AAD),
  (0xE0E9, 0x9AAB_9B5B_9CEA_9CED_9CE7_9E80_9EFD_50E6_50D4_50D7_50E8_50F3),
  (0xE0F5, 0x50DB_50EA_50DD_50E4_50D3_50EC_50F0_50EF_50E3_50E0),
  (0xE140, 0x51D8_5280_5281_52E9_52EB_5330_53AC_5627_5615_560C_5612_55FC),
  (0xE14C, 0x560F_561C_5601_5613_5602_55FA_561D_5604_55FF_55F9_5889_587C),
  (0xE158, 0x5890_5898_5886_5881_587F_5874_588B_587A_5887_5891_588E_5876),
  (0xE164, 0x5882_5888_587B_5894_588F_58FE_596B_5ADC_5AEE_5AE5_5AD5_5AEA),
  (0xE170, 0x5ADA_5AED_5AEB_5AF3_5AE2_5AE0_5ADB_5AEC_5ADE_5ADD_5AD9_5AE8),
  (0xE17C, 0x5ADF_5B77_5BE0),
  (0xE1A1, 0x5BE3_5C63_5D82_5D80_5D7D_5D86_5D7A_5D81_5D77_5D8A_5D89_5D88),
  (0xE1AD, 0x5D7E_5D7C_5D8D_5D79_5D7F_5E58_5E59_5E53_5ED8_5ED1_5ED7_5ECE),
  (0xE1B9, 0x5EDC_5ED5_5ED9_5ED2_5ED4_5F44_5F43_5F6F_5FB6_612C_6128_6141),
  (0xE1C5, 0x615E_6171_6173_6152_6153_6172_616C_6180_6174_6154_617A_615B),
  (0xE1D1, 0x6165_613B_616A_6161_6156_6229_6227_622B_642B_644D_645B_645D),
  (0xE1DD, 0x6474_6476_6472_6473_647D_6475_6466_64A6_644E_6482_645E_645C),
  (0xE1E9, 0x644B_6453_6460_6450_647F_643F_646C_646B_6459_6465_6477_6573),
  (0xE1F5, 0x65A0_66A1_66A0_669F_6705_6704_6722_69B1_69B6_69C9),
  (0xE240, 0x69A0_69CE_6996_69B0_69AC_69BC_6991_6999_698E_69A7_698D_69A9),
  (0xE24C, 0x69BE_69AF_69BF_69C4_69BD_69A4_69D4_69B9_69CA_699A_69CF_69B3),
  (0xE258, 0x6993_69AA_69A1_699E_69D9_6997_6990_69C2_69B5_69A5_69C6_6B4A),
  (0xE264, 0x6B4D_6B4B_6B9E_6B9F_6BA0_6BC3_6BC4_6BFE_6ECE_6EF5_6EF1_6F03),
  (0xE270, 0x6F25_6EF8_6F37_6EFB_6F2E_6F09_6F4E_6F19_6F1A_6F27_6F18_6F3B),
  (0xE27C, 0x6F12_6EED_6F0A),
  (0xE2A1, 0x6F36_6F73_6EF9_6EEE_6F2D_6F40_6F30_6F3C_6F35_6EEB_6F07_6F0E),
  (0xE2AD, 0x6F43_6F05_6EFD_6EF6_6F39_6F1C_6EFC_6F3A_6F1F_6F0D_6F1E_6F08),
  (0xE2B9, 0x6F21_7187_7190_7189_7180_7185_7182_718F_717B_7186_7181_7197),
  (0xE2C5, 0x7244_7253_7297_7295_7293_7343_734D_7351_734C_7462_7473_7471),
  (0xE2D1, 0x7475_7472_7467_746E_7500_7502_7503_757D_7590_7616_7608_760C),
  (0xE2DD, 0x7615_7611_760A_7614_76B8_7781_777C_7785_7782_776E_7780_776F),
  (0xE2E9, 0x777E_7783_78B2_78AA_78B4_78AD_78A8_787E_78AB_789E_78A5_78A0),
  (0xE2F5, 0x78AC_78A2_78A4_7998_798A_798B_7996_7995_7994_7993),
  (0xE340, 0x7997_7988_7992_7990_7A2B_7A4A_7A30_7A2F_7A28_7A26_7AA8_7AAB),
  (0xE34C, 0x7AAC_7AEE_7B88_7B9C_7B8A_7B91_7B90_7B96_7B8D_7B8C_7B9B_7B8E),
  (0xE358, 0x7B85_7B98_5284_7B99_7BA4_7B82_7CBB_7CBF_7CBC_7CBA_7DA7_7DB7),
  (0xE364, 0x7DC2_7DA3_7DAA_7DC1_7DC0_7DC5_7D9D_7DCE_7DC4_7DC6_7DCB_7DCC),
  (0xE370, 0x7DAF_7DB9_7D96_7DBC_7D9F_7DA6_7DAE_7DA9_7DA1_7DC9_7F73_7FE2),
  (0xE37C, 0x7FE3_7FE5_7FDE),
  (0xE3A1, 0x8024_805D_805C_8189_8186_8183_8187_818D_818C_818B_8215_8497),
  (0xE3AD, 0x84A4_84A1_849F_84BA_84CE_84C2_84AC_84AE_84AB_84B9_84B4_84C1),
  (0xE3B9, 0x84CD_84AA_849A_84B1_84D0_849D_84A7_84BB_84A2_8494_84C7_84CC),
  (0xE3C5, 0x849B_84A9_84AF_84A8_84D6_8498_84B6_84CF_84A0_84D7_84D4_84D2),
  (0xE3D1, 0x84DB_84B0_8491_8661_8733_8723_8728_876B_8740_872E_871E_8721),
  (0xE3DD, 0x8719_871B_8743_872C_8741_873E_8746_8720_8732_872A_872D_873C),
  (0xE3E9, 0x8712_873A_8731_8735_8742_8726_8727_8738_8724_871A_8730_8711),
  (0xE3F5, 0x88F7_88E7_88F1_88F2_88FA_88FE_88EE_88FC_88F6_88FB),
  (0xE440, 0x88F0_88EC_88EB_899D_89A1_899F_899E_89E9_89EB_89E8_8AAB_8A99),
  (0xE44C, 0x8A8B_8A92_8A8F_8A96_8C3D_8C68_8C69_8CD5_8CCF_8CD7_8D96_8E09),
  (0xE458, 0x8E02_8DFF_8E0D_8DFD_8E0A_8E03_8E07_8E06_8E05_8DFE_8E00_8E04),
  (0xE464, 0x8F10_8F11_8F0E_8F0D_9123_911C_9120_9122_911F_911D_911A_9124),
  (0xE470, 0x9121_911B_917A_9172_9179_9173_92A5_92A4_9276_929B_927A_92A0),
  (0xE47C, 0x9294_92AA_928D),
  (0xE4A1, 0x92A6_929A_92AB_9279_9297_927F_92A3_92EE_928E_9282_9295_92A2),
  (0xE4AD, 0x927D_9288_92A1_928A_9286_928C_9299_92A7_927E_9287_92A9_929D),
  (0xE4B9, 0x928B_922D_969E_96A1_96FF_9758_977D_977A_977E_9783_9780_9782),
  (0xE4C5, 0x977B_9784_9781_977F_97CE_97CD_9816_98AD_98AE_9902_9900_9907),
  (0xE4D1, 0x999D_999C_99C3_99B9_99BB_99BA_99C2_99BD_99C7_9AB1_9AE3_9AE7),
  (0xE4DD, 0x9B3E_9B3F_9B60_9B61_9B5F_9CF1_9CF2_9CF5_9EA7_50FF_5103_5130),
  (0xE4E9, 0x50F8_5106_5107_50F6_50FE_510B_510C_50FD_510A_528B_528C_52F1),
  (0xE4F5, 0x52EF_5648_5642_564C_5635_5641_564A_5649_5646_5658),
  (0xE540, 0x565A_5640_5633_563D_562C_563E_5638_562A_563A_571A_58AB_589D),
  (0xE54C, 0x58B1_58A0_58A3_58AF_58AC_58A5_58A1_58FF_5AFF_5AF4_5AFD_5AF7),
  (0xE558, 0x5AF6_5B03_5AF8_5B02_5AF9_5B01_5B07_5B05_5B0F_5C67_5D99_5D97),
  (0xE564, 0x5D9F_5D92_5DA2_5D93_5D95_5DA0_5D9C_5DA1_5D9A_5D9E_5E69_5E5D),
  (0xE570, 0x5E60_5E5C_7DF3_5EDB_5EDE_5EE1_5F49_5FB2_618B_6183_6179_61B1),
  (0xE57C, 0x61B0_61A2_6189),
  (0xE5A1, 0x619B_6193_61AF_61AD_619F_6192_61AA_61A1_618D_6166_61B3_622D),
  (0xE5AD, 0x646E_6470_6496_64A0_6485_6497_649C_648F_648B_648A_648C_64A3),
  (0xE5B9, 0x649F_6468_64B1_6498_6576_657A_6579_657B_65B2_65B3_66B5_66B0),
  (0xE5C5, 0x66A9_66B2_66B7_66AA_66AF_6A00_6A06_6A17_69E5_69F8_6A15_69F1),
  (0xE5D1, 0x69E4_6A20_69FF_69EC_69E2_6A1B_6A1D_69FE_6A27_69F2_69EE_6A14),
  (0xE5DD, 0x69F7_69E7_6A40_6A08_69E6_69FB_6A0D_69FC_69EB_6A09_6A04_6A18),
  (0xE5E9, 0x6A25_6A0F_69F6_6A26_6A07_69F4_6A16_6B51_6BA5_6BA3_6BA2_6BA6),
  (0xE5F5, 0x6C01_6C00_6BFF_6C02_6F41_6F26_6F7E_6F87_6FC6_6F92),
  (0xE640, 0x6F8D_6F89_6F8C_6F62_6F4F_6F85_6F5A_6F96_6F76_6F6C_6F82_6F55),
  (0xE64C, 0x6F72_6F52_6F50_6F57_6F94_6F93_6F5D_6F00_6F61_6F6B_6F7D_6F67),
  (0xE658, 0x6F90_6F53_6F8B_6F69_6F7F_6F95_6F63_6F77_6F6A_6F7B_71B2_71AF),
  (0xE664, 0x719B_71B0_71A0_719A_71A9_71B5_719D_71A5_719E_71A4_71A1_71AA),
  (0xE670, 0x719C_71A7_71B3_7298_729A_7358_7352_735E_735F_7360_735D_735B),
  (0xE67C, 0x7361_735A_7359),
  (0xE6A1, 0x7362_7487_7489_748A_7486_7481_747D_7485_7488_747C_7479_7508),
  (0xE6AD, 0x7507_757E_7625_761E_7619_761D_761C_7623_761A_7628_761B_769C),
  (0xE6B9, 0x769D_769E_769B_778D_778F_7789_7788_78CD_78BB_78CF_78CC_78D1),
  (0xE6C5, 0x78CE_78D4_78C8_78C3_78C4_78C9_799A_79A1_79A0_799C_79A2_799B),
  (0xE6D1, 0x6B76_7A39_7AB2_7AB4_7AB3_7BB7_7BCB_7BBE_7BAC_7BCE_7BAF_7BB9),
  (0xE6DD, 0x7BCA_7BB5_7CC5_7CC8_7CCC_7CCB_7DF7_7DDB_7DEA_7DE7_7DD7_7DE1),
  (0xE6E9, 0x7E03_7DFA_7DE6_7DF6_7DF1_7DF0_7DEE_7DDF_7F76_7FAC_7FB0_7FAD),
  (0xE6F5, 0x7FED_7FEB_7FEA_7FEC_7FE6_7FE8_8064_8067_81A3_819F),
  (0xE740, 0x819E_8195_81A2_8199_8197_8216_824F_8253_8252_8250_824E_8251),
  (0xE74C, 0x8524_853B_850F_8500_8529_850E_8509_850D_851F_850A_8527_851C),
  (0xE758, 0x84FB_852B_84FA_8508_850C_84F4_852A_84F2_8515_84F7_84EB_84F3),
  (0xE764, 0x84FC_8512_84EA_84E9_8516_84FE_8528_851D_852E_8502_84FD_851E),
  (0xE770, 0x84F6_8531_8526_84E7_84E8_84F0_84EF_84F9_8518_8520_8530_850B),
  (0xE77C, 0x8519_852F_8662),
  (0xE7A1, 0x8756_8763_8764_8777_87E1_8773_8758_8754_875B_8752_8761_875A),
  (0xE7AD, 0x8751_875E_876D_876A_8750_874E_875F_875D_876F_876C_877A_876E),
  (0xE7B9, 0x875C_8765_874F_877B_8775_8762_8767_8769_885A_8905_890C_8914),
  (0xE7C5, 0x890B_8917_8918_8919_8906_8916_8911_890E_8909_89A2_89A4_89A3),
  (0xE7D1, 0x89ED_89F0_89EC_8ACF_8AC6_8AB8_8AD3_8AD1_8AD4_8AD5_8ABB_8AD7),
  (0xE7DD, 0x8ABE_8AC0_8AC5_8AD8_8AC3_8ABA_8ABD_8AD9_8C3E_8C4D_8C8F_8CE5),
  (0xE7E9, 0x8CDF_8CD9_8CE8_8CDA_8CDD_8CE7_8DA0_8D9C_8DA1_8D9B_8E20_8E23),
  (0xE7F5, 0x8E25_8E24_8E2E_8E15_8E1B_8E16_8E11_8E19_8E26_8E27),
  (0xE840, 0x8E14_8E12_8E18_8E13_8E1C_8E17_8E1A_8F2C_8F24_8F18_8F1A_8F20),
  (0xE84C, 0x8F23_8F16_8F17_9073_9070_906F_9067_906B_912F_912B_9129_912A),
  (0xE858, 0x9132_9126_912E_9185_9186_918A_9181_9182_9184_9180_92D0_92C3),
  (0xE864, 0x92C4_92C0_92D9_92B6_92CF_92F1_92DF_92D8_92E9_92D7_92DD_92CC),
  (0xE870, 0x92EF_92C2_92E8_92CA_92C8_92CE_92E6_92CD_92D5_92C9_92E0_92DE),
  (0xE87C, 0x92E7_92D1_92D3),
  (0xE8A1, 0x92B5_92E1_92C6_92B4_957C_95AC_95AB_95AE_95B0_96A4_96A2_96D3),
  (0xE8AD, 0x9705_9708_9702_975A_978A_978E_9788_97D0_97CF_981E_981D_9826),
  (0xE8B9, 0x9829_9828_9820_981B_9827_98B2_9908_98FA_9911_9914_9916_9917),
  (0xE8C5, 0x9915_99DC_99CD_99CF_99D3_99D4_99CE_99C9_99D6_99D8_99CB_99D7),
  (0xE8D1, 0x99CC_9AB3_9AEC_9AEB_9AF3_9AF2_9AF1_9B46_9B43_9B67_9B74_9B71),
  (0xE8DD, 0x9B66_9B76_9B75_9B70_9B68_9B64_9B6C_9CFC_9CFA_9CFD_9CFF_9CF7),
  (0xE8E9, 0x9D07_9D00_9CF9_9CFB_9D08_9D05_9D04_9E83_9ED3_9F0F_9F10_511C),
  (0xE8F5, 0x5113_5117_511A_5111_51DE_5334_53E1_5670_5660_566E),
  (0xE940, 0x5673_5666_5663_566D_5672_565E_5677_571C_571B_58C8_58BD_58C9),
  (0xE94C, 0x58BF_58BA_58C2_58BC_58C6_5B17_5B19_5B1B_5B21_5B14_5B13_5B10),
  (0xE958, 0x5B16_5B28_5B1A_5B20_5B1E_5BEF_5DAC_5DB1_5DA9_5DA7_5DB5_5DB0),
  (0xE964, 0x5DAE_5DAA_5DA8_5DB2_5DAD_5DAF_5DB4_5E67_5E68_5E66_5E6F_5EE9),
  (0xE970, 0x5EE7_5EE6_5EE8_5EE5_5F4B_5FBC_619D_61A8_6196_61C5_61B4_61C6),
  (0xE97C, 0x61C1_61CC_61BA),
  (0xE9A1, 0x61BF_61B8_618C_64D7_64D6_64D0_64CF_64C9_64BD_6489_64C3_64DB),
  (0xE9AD, 0x64F3_64D9_6533_657F_657C_65A2_66C8_66BE_66C0_66CA_66CB_66CF),
  (0xE9B9, 0x66BD_66BB_66BA_66CC_6723_6A34_6A66_6A49_6A67_6A32_6A68_6A3E),
  (0xE9C5, 0x6A5D_6A6D_6A76_6A5B_6A51_6A28_6A5A_6A3B_6A3F_6A41_6A6A_6A64),
  (0xE9D1, 0x6A50_6A4F_6A54_6A6F_6A69_6A60_6A3C_6A5E_6A56_6A55_6A4D_6A4E),
  (0xE9DD, 0x6A46_6B55_6B54_6B56_6BA7_6BAA_6BAB_6BC8_6BC7_6C04_6C03_6C06),
  (0xE9E9, 0x6FAD_6FCB_6FA3_6FC7_6FBC_6FCE_6FC8_6F5E_6FC4_6FBD_6F9E_6FCA),
  (0xE9F5, 0x6FA8_7004_6FA5_6FAE_6FBA_6FAC_6FAA_6FCF_6FBF_6FB8),
  (0xEA40, 0x6FA2_6FC9_6FAB_6FCD_6FAF_6FB2_6FB0_71C5_71C2_71BF_71B8_71D6),
  (0xEA4C, 0x71C0_71C1_71CB_71D4_71CA_71C7_71CF_71BD_71D8_71BC_71C6_71DA),
  (0xEA58, 0x71DB_729D_729E_7369_7366_7367_736C_7365_736B_736A_747F_749A),
  (0xEA64, 0x74A0_7494_7492_7495_74A1_750B_7580_762F_762D_7631_763D_7633),
  (0xEA70, 0x763C_7635_7632_7630_76BB_76E6_779A_779D_77A1_779C_779B_77A2),
  (0xEA7C, 0x77A3_7795_7799),
  (0xEAA1, 0x7797_78DD_78E9_78E5_78EA_78DE_78E3_78DB_78E1_78E2_78ED_78DF),
  (0xEAAD, 0x78E0_79A4_7A44_7A48_7A47_7AB6_7AB8_7AB5_7AB1_7AB7_7BDE_7BE3),
  (0xEAB9, 0x7BE7_7BDD_7BD5_7BE5_7BDA_7BE8_7BF9_7BD4_7BEA_7BE2_7BDC_7BEB),
  (0xEAC5, 0x7BD8_7BDF_7CD2_7CD4_7CD7_7CD0_7CD1_7E12_7E21_7E17_7E0C_7E1F),
  (0xEAD1, 0x7E20_7E13_7E0E_7E1C_7E15_7E1A_7E22_7E0B_7E0F_7E16_7E0D_7E14),
  (0xEADD, 0x7E25_7E24_7F43_7F7B_7F7C_7F7A_7FB1_7FEF_802A_8029_806C_81B1),
  (0xEAE9, 0x81A6_81AE_81B9_81B5_81AB_81B0_81AC_81B4_81B2_81B7_81A7_81F2),
  (0xEAF5, 0x8255_8256_8257_8556_8545_856B_854D_8553_8561_8558),
  (0xEB40, 0x8540_8546_8564_8541_8562_8544_8551_8547_8563_853E_855B_8571),
  (0xEB4C, 0x854E_856E_8575_8555_8567_8560_858C_8566_855D_8554_8565_856C),
  (0xEB58, 0x8663_8665_8664_879B_878F_8797_8793_8792_8788_8781_8796_8798),
  (0xEB64, 0x8779_8787_87A3_8785_8790_8791_879D_8784_8794_879C_879A_8789),
  (0xEB70, 0x891E_8926_8930_892D_892E_8927_8931_8922_8929_8923_892F_892C),
  (0xEB7C, 0x891F_89F1_8AE0),
  (0xEBA1, 0x8AE2_8AF2_8AF4_8AF5_8ADD_8B14_8AE4_8ADF_8AF0_8AC8_8ADE_8AE1),
  (0xEBAD, 0x8AE8_8AFF_8AEF_8AFB_8C91_8C92_8C90_8CF5_8CEE_8CF1_8CF0_8CF3),
  (0xEBB9, 0x8D6C_8D6E_8DA5_8DA7_8E33_8E3E_8E38_8E40_8E45_8E36_8E3C_8E3D),
  (0xEBC5, 0x8E41_8E30_8E3F_8EBD_8F36_8F2E_8F35_8F32_8F39_8F37_8F34_9076),
  (0xEBD1, 0x9079_907B_9086_90FA_9133_9135_9136_9193_9190_9191_918D_918F),
  (0xEBDD, 0x9327_931E_9308_931F_9306_930F_937A_9338_933C_931B_9323_9312),
  (0xEBE9, 0x9301_9346_932D_930E_930D_92CB_931D_92FA_9325_9313_92F9_92F7),
  (0xEBF5, 0x9334_9302_9324_92FF_9329_9339_9335_932A_9314_930C),
  (0xEC40, 0x930B_92FE_9309_9300_92FB_9316_95BC_95CD_95BE_95B9_95BA_95B6),
  (0xEC4C, 0x95BF_95B5_95BD_96A9_96D4_970B_9712_9710_9799_9797_9794_97F0),
  (0xEC58, 0x97F8_9835_982F_9832_9924_991F_9927_9929_999E_99EE_99EC_99E5),
  (0xEC64, 0x99E4_99F0_99E3_99EA_99E9_99E7_9AB9_9ABF_9AB4_9ABB_9AF6_9AFA),
  (0xEC70, 0x9AF9_9AF7_9B33_9B80_9B85_9B87_9B7C_9B7E_9B7B_9B82_9B93_9B92),
  (0xEC7C, 0x9B90_9B7A_9B95),
  (0xECA1, 0x9B7D_9B88_9D25_9D17_9D20_9D1E_9D14_9D29_9D1D_9D18_9D22_9D10),
  (0xECAD, 0x9D19_9D1F_9E88_9E86_9E87_9EAE_9EAD_9ED5_9ED6_9EFA_9F12_9F3D),
  (0xECB9, 0x5126_5125_5122_5124_5120_5129_52F4_5693_568C_568D_5686_5684),
  (0xECC5, 0x5683_567E_5682_567F_5681_58D6_58D4_58CF_58D2_5B2D_5B25_5B32),
  (0xECD1, 0x5B23_5B2C_5B27_5B26_5B2F_5B2E_5B7B_5BF1_5BF2_5DB7_5E6C_5E6A),
  (0xECDD, 0x5FBE_5FBB_61C3_61B5_61BC_61E7_61E0_61E5_61E4_61E8_61DE_64EF),
  (0xECE9, 0x64E9_64E3_64EB_64E4_64E8_6581_6580_65B6_65DA_66D2_6A8D_6A96),
  (0xECF5, 0x6A81_6AA5_6A89_6A9F_6A9B_6AA1_6A9E_6A87_6A93_6A8E),
  (0xED40, 0x6A95_6A83_6AA8_6AA4_6A91_6A7F_6AA6_6A9A_6A85_6A8C_6A92_6B5B),
  (0xED4C, 0x6BAD_6C09_6FCC_6FA9_6FF4_6FD4_6FE3_6FDC_6FED_6FE7_6FE6_6FDE),
  (0xED58, 0x6FF2_6FDD_6FE2_6FE8_71E1_71F1_71E8_71F2_71E4_71F0_71E2_7373),
  (0xED64, 0x736E_736F_7497_74B2_74AB_7490_74AA_74AD_74B1_74A5_74AF_7510),
  (0xED70, 0x7511_7512_750F_7584_7643_7648_7649_7647_76A4_76E9_77B5_77AB),
  (0xED7C, 0x77B2_77B7_77B6),
  (0xEDA1, 0x77B4_77B1_77A8_77F0_78F3_78FD_7902_78FB_78FC_78F2_7905_78F9),
  (0xEDAD, 0x78FE_7904_79AB_79A8_7A5C_7A5B_7A56_7A58_7A54_7A5A_7ABE_7AC0),
  (0xEDB9, 0x7AC1_7C05_7C0F_7BF2_7C00_7BFF_7BFB_7C0E_7BF4_7C0B_7BF3_7C02),
  (0xEDC5, 0x7C09_7C03_7C01_7BF8_7BFD_7C06_7BF0_7BF1_7C10_7C0A_7CE8_7E2D),
  (0xEDD1, 0x7E3C_7E42_7E33_9848_7E38_7E2A_7E49_7E40_7E47_7E29_7E4C_7E30),
  (0xEDDD, 0x7E3B_7E36_7E44_7E3A_7F45_7F7F_7F7E_7F7D_7FF4_7FF2_802C_81BB),
  (0xEDE9, 0x81C4_81CC_81CA_81C5_81C7_81BC_81E9_825B_825A_825C_8583_8580),
  (0xEDF5, 0x858F_85A7_8595_85A0_858B_85A3_857B_85A4_859A_859E),
  (0xEE40, 0x8577_857C_8589_85A1_857A_8578_8557_858E_8596_8586_858D_8599),
  (0xEE4C, 0x859D_8581_85A2_8582_8588_8585_8579_8576_8598_8590_859F_8668),
  (0xEE58, 0x87BE_87AA_87AD_87C5_87B0_87AC_87B9_87B5_87BC_87AE_87C9_87C3),
  (0xEE64, 0x87C2_87CC_87B7_87AF_87C4_87CA_87B4_87B6_87BF_87B8_87BD_87DE),
  (0xEE70, 0x87B2_8935_8933_893C_893E_8941_8952_8937_8942_89AD_89AF_89AE),
  (0xEE7C, 0x89F2_89F3_8B1E),
  (0xEEA1, 0x8B18_8B16_8B11_8B05_8B0B_8B22_8B0F_8B12_8B15_8B07_8B0D_8B08),
  (0xEEAD, 0x8B06_8B1C_8B13_8B1A_8C4F_8C70_8C72_8C71_8C6F_8C95_8C94_8CF9),
  (0xEEB9, 0x8D6F_8E4E_8E4D_8E53_8E50_8E4C_8E47_8F43_8F40_9085_907E_9138),
  (0xEEC5, 0x919A_91A2_919B_9199_919F_91A1_919D_91A0_93A1_9383_93AF_9364),
  (0xEED1, 0x9356_9347_937C_9358_935C_9376_9349_9350_9351_9360_936D_938F),
  (0xEEDD, 0x934C_936A_9379_9357_9355_9352_934F_9371_9377_937B_9361_935E),
  (0xEEE9, 0x9363_9367_9380_934E_9359_95C7_95C0_95C9_95C3_95C5_95B7_96AE),
  (0xEEF5, 0x96B0_96AC_9720_971F_9718_971D_9719_979A_97A1_979C),
  (0xEF40, 0x979E_979D_97D5_97D4_97F1_9841_9844_984A_9849_9845_9843_9925),
  (0xEF4C, 0x992B_992C_992A_9933_9932_992F_992D_9931_9930_9998_99A3_99A1),
  (0xEF58, 0x9A02_99FA_99F4_99F7_99F9_99F8_99F6_99FB_99FD_99FE_99FC_9A03),
  (0xEF64, 0x9ABE_9AFE_9AFD_9B01_9AFC_9B48_9B9A_9BA8_9B9E_9B9B_9BA6_9BA1),
  (0xEF70, 0x9BA5_9BA4_9B86_9BA2_9BA0_9BAF_9D33_9D41_9D67_9D36_9D2E_9D2F),
  (0xEF7C, 0x9D31_9D38_9D30),
  (0xEFA1, 0x9D45_9D42_9D43_9D3E_9D37_9D40_9D3D_7FF5_9D2D_9E8A_9E89_9E8D),
  (0xEFAD, 0x9EB0_9EC8_9EDA_9EFB_9EFF_9F24_9F23_9F22_9F54_9FA0_5131_512D),
  (0xEFB9, 0x512E_5698_569C_5697_569A_569D_5699_5970_5B3C_5C69_5C6A_5DC0),
  (0xEFC5, 0x5E6D_5E6E_61D8_61DF_61ED_61EE_61F1_61EA_61F0_61EB_61D6_61E9),
  (0xEFD1, 0x64FF_6504_64FD_64F8_6501_6503_64FC_6594_65DB_66DA_66DB_66D8),
  (0xEFDD, 0x6AC5_6AB9_6ABD_6AE1_6AC6_6ABA_6AB6_6AB7_6AC7_6AB4_6AAD_6B5E),
  (0xEFE9, 0x6BC9_6C0B_7007_700C_700D_7001_7005_7014_700E_6FFF_7000_6FFB),
  (0xEFF5, 0x7026_6FFC_6FF7_700A_7201_71FF_71F9_7203_71FD_7376),
  (0xF040, 0x74B8_74C0_74B5_74C1_74BE_74B6_74BB_74C2_7514_7513_765C_7664),
  (0xF04C, 0x7659_7650_7653_7657_765A_76A6_76BD_76EC_77C2_77BA_78FF_790C),
  (0xF058, 0x7913_7914_7909_7910_7912_7911_79AD_79AC_7A5F_7C1C_7C29_7C19),
  (0xF064, 0x7C20_7C1F_7C2D_7C1D_7C26_7C28_7C22_7C25_7C30_7E5C_7E50_7E56),
  (0xF070, 0x7E63_7E58_7E62_7E5F_7E51_7E60_7E57_7E53_7FB5_7FB3_7FF7_7FF8),
  (0xF07C, 0x8075_81D1_81D2),
  (0xF0A1, 0x81D0_825F_825E_85B4_85C6_85C0_85C3_85C2_85B3_85B5_85BD_85C7),
  (0xF0AD, 0x85C4_85BF_85CB_85CE_85C8_85C5_85B1_85B6_85D2_8624_85B8_85B7),
  (0xF0B9, 0x85BE_8669_87E7_87E6_87E2_87DB_87EB_87EA_87E5_87DF_87F3_87E4),
  (0xF0C5, 0x87D4_87DC_87D3_87ED_87D8_87E3_87A4_87D7_87D9_8801_87F4_87E8),
  (0xF0D1, 0x87DD_8953_894B_894F_894C_8946_8950_8951_8949_8B2A_8B27_8B23),
  (0xF0DD, 0x8B33_8B30_8B35_8B47_8B2F_8B3C_8B3E_8B31_8B25_8B37_8B26_8B36),
  (0xF0E9, 0x8B2E_8B24_8B3B_8B3D_8B3A_8C42_8C75_8C99_8C98_8C97_8CFE_8D04),
  (0xF0F5, 0x8D02_8D00_8E5C_8E62_8E60_8E57_8E56_8E5E_8E65_8E67),
  (0xF140, 0x8E5B_8E5A_8E61_8E5D_8E69_8E54_8F46_8F47_8F48_8F4B_9128_913A),
  (0xF14C, 0x913B_913E_91A8_91A5_91A7_91AF_91AA_93B5_938C_9392_93B7_939B),
  (0xF158, 0x939D_9389_93A7_938E_93AA_939E_93A6_9395_9388_9399_939F_938D),
  (0xF164, 0x93B1_9391_93B2_93A4_93A8_93B4_93A3_93A5_95D2_95D3_95D1_96B3),
  (0xF170, 0x96D7_96DA_5DC2_96DF_96D8_96DD_9723_9722_9725_97AC_97AE_97A8),
  (0xF17C, 0x97AB_97A4_97AA),
  (0xF1A1, 0x97A2_97A5_97D7_97D9_97D6_97D8_97FA_9850_9851_9852_98B8_9941),
  (0xF1AD, 0x993C_993A_9A0F_9A0B_9A09_9A0D_9A04_9A11_9A0A_9A05_9A07_9A06),
  (0xF1B9, 0x9AC0_9ADC_9B08_9B04_9B05_9B29_9B35_9B4A_9B4C_9B4B_9BC7_9BC6),
  (0xF1C5, 0x9BC3_9BBF_9BC1_9BB5_9BB8_9BD3_9BB6_9BC4_9BB9_9BBD_9D5C_9D53),
  (0xF1D1, 0x9D4F_9D4A_9D5B_9D4B_9D59_9D56_9D4C_9D57_9D52_9D54_9D5F_9D58),
  (0xF1DD, 0x9D5A_9E8E_9E8C_9EDF_9F01_9F00_9F16_9F25_9F2B_9F2A_9F29_9F28),
  (0xF1E9, 0x9F4C_9F55_5134_5135_5296_52F7_53B4_56AB_56AD_56A6_56A7_56AA),
  (0xF1F5, 0x56AC_58DA_58DD_58DB_5912_5B3D_5B3E_5B3F_5DC3_5E70),
  (0xF240, 0x5FBF_61FB_6507_6510_650D_6509_650C_650E_6584_65DE_65DD_66DE),
  (0xF24C, 0x6AE7_6AE0_6ACC_6AD1_6AD9_6ACB_6ADF_6ADC_6AD0_6AEB_6ACF_6ACD),
  (0xF258, 0x6ADE_6B60_6BB0_6C0C_7019_7027_7020_7016_702B_7021_7022_7023),
  (0xF264, 0x7029_7017_7024_701C_702A_720C_720A_7207_7202_7205_72A5_72A6),
  (0xF270, 0x72A4_72A3_72A1_74CB_74C5_74B7_74C3_7516_7660_77C9_77CA_77C4),
  (0xF27C, 0x77F1_791D_791B),
  (0xF2A1, 0x7921_791C_7917_791E_79B0_7A67_7A68_7C33_7C3C_7C39_7C2C_7C3B),
  (0xF2AD, 0x7CEC_7CEA_7E76_7E75_7E78_7E70_7E77_7E6F_7E7A_7E72_7E74_7E68),
  (0xF2B9, 0x7F4B_7F4A_7F83_7F86_7FB7_7FFD_7FFE_8078_81D7_81D5_8264_8261),
  (0xF2C5, 0x8263_85EB_85F1_85ED_85D9_85E1_85E8_85DA_85D7_85EC_85F2_85F8),
  (0xF2D1, 0x85D8_85DF_85E3_85DC_85D1_85F0_85E6_85EF_85DE_85E2_8800_87FA),
  (0xF2DD, 0x8803_87F6_87F7_8809_880C_880B_8806_87FC_8808_87FF_880A_8802),
  (0xF2E9, 0x8962_895A_895B_8957_8961_895C_8958_895D_8959_8988_89B7_89B6),
  (0xF2F5, 0x89F6_8B50_8B48_8B4A_8B40_8B53_8B56_8B54_8B4B_8B55),
  (0xF340, 0x8B51_8B42_8B52_8B57_8C43_8C77_8C76_8C9A_8D06_8D07_8D09_8DAC),
  (0xF34C, 0x8DAA_8DAD_8DAB_8E6D_8E78_8E73_8E6A_8E6F_8E7B_8EC2_8F52_8F51),
  (0xF358, 0x8F4F_8F50_8F53_8FB4_9140_913F_91B0_91AD_93DE_93C7_93CF_93C2),
  (0xF364, 0x93DA_93D0_93F9_93EC_93CC_93D9_93A9_93E6_93CA_93D4_93EE_93E3),
  (0xF370, 0x93D5_93C4_93CE_93C0_93D2_93E7_957D_95DA_95DB_96E1_9729_972B),
  (0xF37C, 0x972C_9728_9726),
  (0xF3A1, 0x97B3_97B7_97B6_97DD_97DE_97DF_985C_9859_985D_9857_98BF_98BD),
  (0xF3AD, 0x98BB_98BE_9948_9947_9943_99A6_99A7_9A1A_9A15_9A25_9A1D_9A24),
  (0xF3B9, 0x9A1B_9A22_9A20_9A27_9A23_9A1E_9A1C_9A14_9AC2_9B0B_9B0A_9B0E),
  (0xF3C5, 0x9B0C_9B37_9BEA_9BEB_9BE0_9BDE_9BE4_9BE6_9BE2_9BF0_9BD4_9BD7),
  (0xF3D1, 0x9BEC_9BDC_9BD9_9BE5_9BD5_9BE1_9BDA_9D77_9D81_9D8A_9D84_9D88),
  (0xF3DD, 0x9D71_9D80_9D78_9D86_9D8B_9D8C_9D7D_9D6B_9D74_9D75_9D70_9D69),
  (0xF3E9, 0x9D85_9D73_9D7B_9D82_9D6F_9D79_9D7F_9D87_9D68_9E94_9E91_9EC0),
  (0xF3F5, 0x9EFC_9F2D_9F40_9F41_9F4D_9F56_9F57_9F58_5337_56B2),
  (0xF440, 0x56B5_56B3_58E3_5B45_5DC6_5DC7_5EEE_5EEF_5FC0_5FC1_61F9_6517),
  (0xF44C, 0x6516_6515_6513_65DF_66E8_66E3_66E4_6AF3_6AF0_6AEA_6AE8_6AF9),
  (0xF458, 0x6AF1_6AEE_6AEF_703C_7035_702F_7037_7034_7031_7042_7038_703F),
  (0xF464, 0x703A_7039_7040_703B_7033_7041_7213_7214_72A8_737D_737C_74BA),
  (0xF470, 0x76AB_76AA_76BE_76ED_77CC_77CE_77CF_77CD_77F2_7925_7923_7927),
  (0xF47C, 0x7928_7924_7929),
  (0xF4A1, 0x79B2_7A6E_7A6C_7A6D_7AF7_7C49_7C48_7C4A_7C47_7C45_7CEE_7E7B),
  (0xF4AD, 0x7E7E_7E81_7E80_7FBA_7FFF_8079_81DB_81D9_820B_8268_8269_8622),
  (0xF4B9, 0x85FF_8601_85FE_861B_8600_85F6_8604_8609_8605_860C_85FD_8819),
  (0xF4C5, 0x8810_8811_8817_8813_8816_8963_8966_89B9_89F7_8B60_8B6A_8B5D),
  (0xF4D1, 0x8B68_8B63_8B65_8B67_8B6D_8DAE_8E86_8E88_8E84_8F59_8F56_8F57),
  (0xF4DD, 0x8F55_8F58_8F5A_908D_9143_9141_91B7_91B5_91B2_91B3_940B_9413),
  (0xF4E9, 0x93FB_9420_940F_9414_93FE_9415_9410_9428_9419_940D_93F5_9400),
  (0xF4F5, 0x93F7_9407_940E_9416_9412_93FA_9409_93F8_940A_93FF),
  (0xF540, 0x93FC_940C_93F6_9411_9406_95DE_95E0_95DF_972E_972F_97B9_97BB),
  (0xF54C, 0x97FD_97FE_9860_9862_9863_985F_98C1_98C2_9950_994E_9959_994C),
  (0xF558, 0x994B_9953_9A32_9A34_9A31_9A2C_9A2A_9A36_9A29_9A2E_9A38_9A2D),
  (0xF564, 0x9AC7_9ACA_9AC6_9B10_9B12_9B11_9C0B_9C08_9BF7_9C05_9C12_9BF8),
  (0xF570, 0x9C40_9C07_9C0E_9C06_9C17_9C14_9C09_9D9F_9D99_9DA4_9D9D_9D92),
  (0xF57C, 0x9D98_9D90_9D9B),
  (0xF5A1, 0x9DA0_9D94_9D9C_9DAA_9D97_9DA1_9D9A_9DA2_9DA8_9D9E_9DA3_9DBF),
  (0xF5AD, 0x9DA9_9D96_9DA6_9DA7_9E99_9E9B_9E9A_9EE5_9EE4_9EE7_9EE6_9F30),
  (0xF5B9, 0x9F2E_9F5B_9F60_9F5E_9F5D_9F59_9F91_513A_5139_5298_5297_56C3),
  (0xF5C5, 0x56BD_56BE_5B48_5B47_5DCB_5DCF_5EF1_61FD_651B_6B02_6AFC_6B03),
  (0xF5D1, 0x6AF8_6B00_7043_7044_704A_7048_7049_7045_7046_721D_721A_7219),
  (0xF5DD, 0x737E_7517_766A_77D0_792D_7931_792F_7C54_7C53_7CF2_7E8A_7E87),
  (0xF5E9, 0x7E88_7E8B_7E86_7E8D_7F4D_7FBB_8030_81DD_8618_862A_8626_861F),
  (0xF5F5, 0x8623_861C_8619_8627_862E_8621_8620_8629_861E_8625),
  (0xF640, 0x8829_881D_881B_8820_8824_881C_882B_884A_896D_8969_896E_896B),
  (0xF64C, 0x89FA_8B79_8B78_8B45_8B7A_8B7B_8D10_8D14_8DAF_8E8E_8E8C_8F5E),
  (0xF658, 0x8F5B_8F5D_9146_9144_9145_91B9_943F_943B_9436_9429_943D_943C),
  (0xF664, 0x9430_9439_942A_9437_942C_9440_9431_95E5_95E4_95E3_9735_973A),
  (0xF670, 0x97BF_97E1_9864_98C9_98C6_98C0_9958_9956_9A39_9A3D_9A46_9A44),
  (0xF67C, 0x9A42_9A41_9A3A),
  (0xF6A1, 0x9A3F_9ACD_9B15_9B17_9B18_9B16_9B3A_9B52_9C2B_9C1D_9C1C_9C2C),
  (0xF6AD, 0x9C23_9C28_9C29_9C24_9C21_9DB7_9DB6_9DBC_9DC1_9DC7_9DCA_9DCF),
  (0xF6B9, 0x9DBE_9DC5_9DC3_9DBB_9DB5_9DCE_9DB9_9DBA_9DAC_9DC8_9DB1_9DAD),
  (0xF6C5, 0x9DCC_9DB3_9DCD_9DB2_9E7A_9E9C_9EEB_9EEE_9EED_9F1B_9F18_9F1A),
  (0xF6D1, 0x9F31_9F4E_9F65_9F64_9F92_4EB9_56C6_56C5_56CB_5971_5B4B_5B4C),
  (0xF6DD, 0x5DD5_5DD1_5EF2_6521_6520_6526_6522_6B0B_6B08_6B09_6C0D_7055),
  (0xF6E9, 0x7056_7057_7052_721E_721F_72A9_737F_74D8_74D5_74D9_74D7_766D),
  (0xF6F5, 0x76AD_7935_79B4_7A70_7A71_7C57_7C5C_7C59_7C5B_7C5A),
  (0xF740, 0x7CF4_7CF1_7E91_7F4F_7F87_81DE_826B_8634_8635_8633_862C_8632),
  (0xF74C, 0x8636_882C_8828_8826_882A_8825_8971_89BF_89BE_89FB_8B7E_8B84),
  (0xF758, 0x8B82_8B86_8B85_8B7F_8D15_8E95_8E94_8E9A_8E92_8E90_8E96_8E97),
  (0xF764, 0x8F60_8F62_9147_944C_9450_944A_944B_944F_9447_9445_9448_9449),
  (0xF770, 0x9446_973F_97E3_986A_9869_98CB_9954_995B_9A4E_9A53_9A54_9A4C),
  (0xF77C, 0x9A4F_9A48_9A4A),
  (0xF7A1, 0x9A49_9A52_9A50_9AD0_9B19_9B2B_9B3B_9B56_9B55_9C46_9C48_9C3F),
  (0xF7AD, 0x9C44_9C39_9C33_9C41_9C3C_9C37_9C34_9C32_9C3D_9C36_9DDB_9DD2),
  (0xF7B9, 0x9DDE_9DDA_9DCB_9DD0_9DDC_9DD1_9DDF_9DE9_9DD9_9DD8_9DD6_9DF5),
  (0xF7C5, 0x9DD5_9DDD_9EB6_9EF0_9F35_9F33_9F32_9F42_9F6B_9F95_9FA2_513D),
  (0xF7D1, 0x5299_58E8_58E7_5972_5B4D_5DD8_882F_5F4F_6201_6203_6204_6529),
  (0xF7DD, 0x6525_6596_66EB_6B11_6B12_6B0F_6BCA_705B_705A_7222_7382_7381),
  (0xF7E9, 0x7383_7670_77D4_7C67_7C66_7E95_826C_863A_8640_8639_863C_8631),
  (0xF7F5, 0x863B_863E_8830_8832_882E_8833_8976_8974_8973_89FE),
  (0xF840, 0x8B8C_8B8E_8B8B_8B88_8C45_8D19_8E98_8F64_8F63_91BC_9462_9455),
  (0xF84C, 0x945D_9457_945E_97C4_97C5_9800_9A56_9A59_9B1E_9B1F_9B20_9C52),
  (0xF858, 0x9C58_9C50_9C4A_9C4D_9C4B_9C55_9C59_9C4C_9C4E_9DFB_9DF7_9DEF),
  (0xF864, 0x9DE3_9DEB_9DF8_9DE4_9DF6_9DE1_9DEE_9DE6_9DF2_9DF0_9DE2_9DEC),
  (0xF870, 0x9DF4_9DF3_9DE8_9DED_9EC2_9ED0_9EF2_9EF3_9F06_9F1C_9F38_9F37),
  (0xF87C, 0x9F36_9F43_9F4F),
  (0xF8A1, 0x9F71_9F70_9F6E_9F6F_56D3_56CD_5B4E_5C6D_652D_66ED_66EE_6B13),
  (0xF8AD, 0x705F_7061_705D_7060_7223_74DB_74E5_77D5_7938_79B7_79B6_7C6A),
  (0xF8B9, 0x7E97_7F89_826D_8643_8838_8837_8835_884B_8B94_8B95_8E9E_8E9F),
  (0xF8C5, 0x8EA0_8E9D_91BE_91BD_91C2_946B_9468_9469_96E5_9746_9743_9747),
  (0xF8D1, 0x97C7_97E5_9A5E_9AD5_9B59_9C63_9C67_9C66_9C62_9C5E_9C60_9E02),
  (0xF8DD, 0x9DFE_9E07_9E03_9E06_9E05_9E00_9E01_9E09_9DFF_9DFD_9E04_9EA0),
  (0xF8E9, 0x9F1E_9F46_9F74_9F75_9F76_56D4_652E_65B8_6B18_6B19_6B17_6B1A),
  (0xF8F5, 0x7062_7226_72AA_77D8_77D9_7939_7C69_7C6B_7CF6_7E9A),
  (0xF940, 0x7E98_7E9B_7E99_81E0_81E1_8646_8647_8648_8979_897A_897C_897B),
  (0xF94C, 0x89FF_8B98_8B99_8EA5_8EA4_8EA3_946E_946D_946F_9471_9473_9749),
  (0xF958, 0x9872_995F_9C68_9C6E_9C6D_9E0B_9E0D_9E10_9E0F_9E12_9E11_9EA1),
  (0xF964, 0x9EF5_9F09_9F47_9F78_9F7B_9F7A_9F79_571E_7066_7C6F_883C_8DB2),
  (0xF970, 0x8EA6_91C3_9474_9478_9476_9475_9A60_9C74_9C73_9C71_9C75_9E14),
  (0xF97C, 0x9E13_9EF6_9F0A),
  (0xF9A1, 0x9FA4_7068_7065_7CF7_866A_883E_883D_883F_8B9E_8C9C_8EA9_8EC9),
  (0xF9AD, 0x974B_9873_9874_98CC_9961_99AB_9A64_9A66_9A67_9B24_9E15_9E17),
  (0xF9B9, 0x9F48_6207_6B1E_7227_864C_8EA8_9482_9480_9481_9A69_9A68_9B2E),
  (0xF9C5, 0x9E19_7229_864B_8B9F_9483_9C79_9EB7_7675_9A6B_9C7A_9E1D_7069),
  (0xF9D1, 0x706A_9EA4_9F7E_9F49_9F98_7881_92B9_88CF_58BB_6052_7CA7_5AFA),
  (0xF9DD, 0x2554_2566_2557_2560_256C_2563_255A_2569_255D_2552_2564_2555),
  (0xF9E9, 0x255E_256A_2561_2558_2567_255B_2553_2565_2556_255F_256B_2562),
  (0xF9F5, 0x2559_2568_255C_2551_2550_256D_256E_2570_256F_2593),
  (0xFA40, 0xE000_E001_E002_E003_E004_E005_E006_E007_E008_E009_E00A_E00B),
  (0xFA4C, 0xE00C_E00D_E00E_E00F_E010_E011_E012_E013_E014_E015_E016_E017),
  (0xFA58, 0xE018_E019_E01A_E01B_E01C_E01D_E01E_E01F_E020_E021_E022_E023),
  (0xFA64, 0x7232_723C_7266_7282_728F_729F_72AD_72B1_72B8_72BE_72CD_72DB),
  (0xFA70, 0x7324_732F_7338_7339_73BD_73CE_73F1_7476_74A2_7501_7519_7523),
  (0xFA7C, 0x753C_7544_7549),
  (0xFAA1, 0x754D_756D_7582_7583_7589_75AC_75D6_75E9_7640_764D_7654_7668),
  (0xFAAD, 0x7680_7683_7690_76B7_76B9_770D_771E_7743_7818_781C_7839_783C),
  (0xFAB9, 0x7847_7856_787A_78B5_78B9_78C6_78D9_7907_7930_7934_793B_7980),
  (0xFAC5, 0x799D_79C3_79E1_7A06_7A0E_7A43_7A50_7AC3_7AD2_7AE2_7AE7_7AF8),
  (0xFAD1, 0x7B36_7B62_7B6C_7B7A_7B7B_7B9A_7B9E_7B9F_7BA2_7BA7_7BF6_7C12),
  (0xFADD, 0x7C14_7C4F_7C56_7C58_7CAB_7CFA_7D48_7D4B_7D77_7DD4_7DD5_7DD6),
  (0xFAE9, 0x7DE4_7E4D_7E5D_7E7F_7E89_7E8E_7E92_7ED4_7EF1_7F12_7F30_7F71),
  (0xFAF5, 0x7F82_7FAE_7FC6_8020_8022_8025_8031_805F_8068_80AC),
  (0xFB40, 0x80B7_519A_5416_5414_34DF_4C7D_62C3_E0A4_E0A5_E0A6_54CB_E0A8),
  (0xFB4C, 0x55BC_80B6_51A7_E0AC_E0AD_E0AE_5513_8226_E0B1_551E_55DE_63B9),
  (0xFB58, 0x6898_E0B6_5502_5569_75B4_63FC_9E84_922A_E0BD_E0BE_E0BF_88C7),
  (0xFB64, 0x609E_5625_7145_5AF2_E0C5_528F_564F_7793_8786_8E2D_81B6_35FE),
  (0xFB70, 0x71F6_E0CE_8804_9385_E0D1_E0D2_7666_E0D4_9C72_E0D6_62CE_E0D8),
  (0xFB7C, 0x9E96_4989_7CD3),
  (0xFBA1, 0x8EDA_9EAB_64E7_E0DF_82AA_6767_6D72_7906_79C4_7F4E_87EE_E0E7),
  (0xFBAD, 0x83BE_862F_89A5_460F_E0EC_98C8_9940_994D_9A0C_9AD7_9E98_9F26),
  (0xFBB9, 0xE0F4_4F03_E0F6_4F39_4F32_4FAB_5056_E0FB_502E_50A6_50D9_510E),
  (0xFBC5, 0x50ED_5101_51F4_521F_5260_5257_529A_52D1_52E0_52E1_51D3_51DF),
  (0xFBD1, 0x7546_51FE_5332_532C_5333_53AB_53AA_9F8E_5469_549C_53DA_6ACA),
  (0xFBDD, 0x5573_E119_35D6_E11B_5611_564D_E11E_5654_35F3_E121_5746_577A),
  (0xFBE9, 0x5767_583A_57E6_57DD_5840_E129_5826_58DC_59B7_59D9_5C20_E12F),
  (0xFBF5, 0x5CD1_5CE9_5D46_5D8E_E134_5DF5_5E0B_5E12_5E2E_5E5E),
  (0xFC40, 0xE13A_5F4D_7A7D_5BC3_7ABB_E13F_E140_5FA4_5FBA_5FBC_E144_6077),
  (0xFC4C, 0x60A4_60B3_60FD_6130_E14A_619C_6159_617D_615C_637F_61E2_70D5),
  (0xFC58, 0x6239_6268_6285_6282_62A6_62D5_6364_6335_6490_3A5C_6648_6667),
  (0xFC64, 0x671E_6803_67AC_67F9_68B6_692C_6901_6900_68CA_6973_6980_693E),
  (0xFC70, 0xE16A_69B2_69C0_698A_69FA_69E9_6AB2_6A52_6A9D_6B1D_6B52_6BFA),
  (0xFC7C, 0x3CD1_6CCE_6E4F),
  (0xFCA1, 0x6DB9_6F44_E17B_6FDA_7081_79CC_7134_3DCC_7176_E182_E183_7215),
  (0xFCAD, 0x7250_7287_732C_72B2_72E2_7302_7348_7328_734F_7371_6585_E190),
  (0xFCB9, 0x745D_7468_751E_7553_757A_76A1_76CC_7724_772B_4065_7853_78D3),
  (0xFCC5, 0x78D8_9D7E_78AF_E1A0_6142_79A9_9C3A_79D4_E1A5_7A2D_7A3E_7A49),
  (0xFCD1, 0x7ADD_7ADA_75C3_7607_7602_E1AE_7667_766F_5620_8A67_9F17_7B1F),
  (0xFCDD, 0x7B92_7BA3_7BCF_E1B8_7BFC_7C42_7C51_7C5D_7C70_7C7E_7C86_7C83),
  (0xFCE9, 0x7CAC_7CC7_7CC2_E1C4_7CDA_E1C6_7D4D_7D5A_7DF5_7E27_7E6E_9E95),
  (0xFCF5, 0x5273_801D_8062_8063_8066_805B_80A6_8103_9E81_81C8),
  (0xFD40, 0xE1D7_8FA0_81F6_821A_E1DB_8771_87A9_878C_9E9E_87C1_9E1C_E1E2),
  (0xFD4C, 0x87D6_87F5_880F_8818_882D_8842_8845_9C35_886E_88AA_88A0_629D),
  (0xFD58, 0x8943_894D_7172_885E_E1F3_82FD_44B7_82D0_8385_9D02_9F69_8420),
  (0xFD64, 0xE1FB_84DA_84AD_44FB_854B_E200_8602_8610_63D1_8989_898A_8994),
  (0xFD70, 0x9C45_89BC_8A7E_8A49_8B0C_8B43_8B81_8B4C_E20F_8CAD_8CEB_8CF7),
  (0xFD7C, 0x8D0C_8D82_8DA6),
  (0xFDA1, 0x8DD4_8E28_8E4F_8E77_8E75_8EA7_8F19_E21D_8F5C_9D44_90C4_9151),
  (0xFDAD, 0xE222_915C_9159_9167_917C_918E_91BB_9EA8_9056_904C_91FE_9262),
  (0xFDB9, 0x92BE_936B_936E_93BA_9427_9597_95A7_E235_9638_E237_9683_9696),
  (0xFDC5, 0x9681_96BD_9703_9721_9731_975F_979F_97B4_97B8_97BA_97BE_97C8),
  (0xFDD1, 0x9EBF_981F_982E_9FA5_9847_984B_9866_986C_98B4_9F5A_98DC_98E6),
  (0xFDDD, 0x9942_9939_993B_9F53_994A_9F45_4B7E_99DA_7AC8_9ABA_9ABD_9F02),
  (0xFDE9, 0x9B2A_E25F_9B2D_9AE2_9B02_9AFF_4C07_9B09_4C04_4C3B_9B8F_9B9D),
  (0xFDF5, 0x9BB0_9C0C_9C15_9C0A_9BFF_9C2E_80E8_80E9_80EC_810E),
  (0xFE40, 0x6C39_4E6A_9641_58F2_7962_6822_E27A_E27B_8107_57D7_44EA_6435),
  (0xFE4C, 0x8534_40DF_E282_691A_9C02_75B1_83D3_7171_6A0B_E289_6A7A_9AF4),
  (0xFE58, 0xE28C_E28D_77B9_6530_6D96_5637_6725_6A2B_7D5D_9061_4E98_7CA6),
  (0xFE64, 0x7B39_E299_5975_36C7_707F_E29D_6E8B_E29F_E2A0_975D_92D0_5754),
  (0xFE70, 0xE2A4_3ED9_E2A6_E2A7_6199_7460_713F_792E_5A96_9348_668E_4FFD),
  (0xFE7C, 0x9341_3654_5D75),
  (0xFEA1, 0x701E_657B_708D_5ECD_E2B7_60A7_7AB0_5F63_E2BB_73F7_E2BD_7468),
  (0xFEAD, 0x75B4_E2C0_9B69_00BD_2153_2154_00BC_00BE_2155_2156_2157_2158),
  (0xFEB9, 0x2159_215A_8692_86A0_86AD_86B2_87A5_87B1_215B_215C_215D_215E),
  (0xFEC5, 0x87DA_884F_8860_8887_888F_8890_88E6_88FF_8900_8924_8947_8954),
  (0xFED1, 0x8965_8980_8991_8A1C_8A29_8A2B_8A38_8A3D_2312_8A90_8A94_8A9C),
  (0xFEDD, 0x8AA9_8AAF_8AB4_8AEA_8B1F_2030_8B3F_8B4D_8B5E_8B62_8B69_8B9B),
  (0xFEE9, 0x8C51_8C9B_8C9F_8CD4_8CD6_8112_8131_8136_815F_816D_817D_8193),
  (0xFEF5, 0x81AA_81B8_81C1_8229_822D_822E_823E_8262_826A_8288)]

/-- The rules of /repo/modules/to/_CP950.txt: character, code.  No two lines have the same character; sorted.  Lines `0100..`, if any, are
listed separately. -/
def big5Writes : Chart := Chart.wide [
  (0xA1, 0x0021_A246_A247),
  (0xA5, 0xA244_007C_A1B1_A14C_0063_0061),
  (0xAD, 0x002D_0052_A1C2_A258_A1D3_0032_0033_A1A6_A367),
  (0xB7, 0xA150_A14D_0031_006F),
  (0xBF, 0x003F_0041_0041_0041_0041_0041_0041_0041_0043_0045_0045_0045),
  (0xCB, 0x0045_0049_0049_0049_0049_0044_004E_004F_004F_004F_004F_004F),
  (0xD7, 0xA1D1_004F_0055_0055_0055_0055_0059_0054_0073_0061_0061_0061),
  (0xE3, 0x0061_0061_0061_0061_0063_0065_0065_0065_0065_0069_0069_0069),
  (0xEF, 0x0069_0065_006E_006F_006F_006F_006F_006F_A1D2_006F_0075_0075),
  (0xFB, 0x0075_0075_0079_0074_0079),
  (0x2C7, 0xA3BE),
  (0x2C9, 0xA3BC_A3BD_A3BF),
  (0x2CD, 0xA1C5),
  (0x2D9, 0xA3BB),
  (0x305, 0xA1C2),
  (0x391, 0xA344_A345_A346_A347_A348_A349_A34A_A34B_A34C_A34D_A34E_A34F),
  (0x39D, 0xA350_A351_A352_A353_A354),
  (0x3A3, 0xA355_A356_A357_A358_A359_A35A_A35B),
  (0x3B1, 0xA35C_A35D_A35E_A35F_A360_A361_A362_A363_A364_A365_A366_A367),
  (0x3BD, 0xA368_A369_A36A_A36B_A36C),
  (0x3C3, 0xA36D_A36E_A36F_A370_A371_A372_A373),
  (0x2013, 0xA156_A158_A277_A1FC),
  (0x2018, 0xA1A5_A1A6),
  (0x201C, 0xA1A7_A1A8),
  (0x2022, 0xA145),
  (0x2024, 0xA3BB_A14C_A14B_A145),
  (0x2032, 0xA1AC_A1B2),
  (0x2035, 0xA1AB),
  (0x203B, 0xA1B0),
  (0x203E, 0xA1C3),
  (0x20AC, 0xA3E1),
  (0x2103, 0xA24A),
  (0x2105, 0xA1C1),
  (0x2109, 0xA24B),
  (0x2160, 0xA2B9_A2BA_A2BB_A2BC_A2BD_A2BE_A2BF_A2C0_A2C1_A2C2),
  (0x2190, 0xA1F6_A1F4_A1F7_A1F5),
  (0x2196, 0xA1F8_A1F9_A1FB_A1FA),
  (0x2215, 0xA241_A242),
  (0x2218, 0xA258),
  (0x221A, 0xA1D4),
  (0x221E, 0xA1DB_A1E8_A1E7),
  (0x2223, 0xA1FD),
  (0x2225, 0xA1FC),
  (0x2229, 0xA1E4_A1E5_A1EC),
  (0x222E, 0xA1ED),
  (0x2234, 0xA1EF_A1EE),
  (0x2252, 0xA1DC),
  (0x2260, 0xA1DA_A1DD),
  (0x2263, 0xA1DD),
  (0x2266, 0xA1D8_A1D9),
  (0x2295, 0xA1F2),
  (0x2299, 0xA1F3),
  (0x22A5, 0xA1E6),
  (0x22BF, 0xA1E9),
  (0x2307, 0xA15B),
  (0x2500, 0xA277),
  (0x2502, 0xA278),
  (0x250C, 0xA27A),
  (0x2510, 0xA27B),
  (0x2514, 0xA27C),
  (0x2518, 0xA27D),
  (0x251C, 0xA275),
  (0x2524, 0xA274),
  (0x252C, 0xA273),
  (0x2534, 0xA272),
  (0x253C, 0xA271),
  (0x2550, 0xF9F9_F9F8_F9E6_F9EF_F9DD_F9E8_F9F1_F9DF_F9EC_F9F5_F9E3_F9EE),
  (0x255C, 0xF9F7_F9E5_F9E9_F9F2_F9E0_F9EB_F9F4_F9E2_F9E7_F9F0_F9DE_F9ED),
  (0x2568, 0xF9F6_F9E4_F9EA_F9F3_F9E1_A27E_A2A1_A2A3_A2A2_A2AC_A2AD_A2AE),
  (0x2574, 0xA15A),
  (0x2581, 0xA262_A263_A264_A265_A266_A267_A268_A269_A270_A26F_A26E_A26D),
  (0x258D, 0xA26C_A26B_A26A),
  (0x2593, 0xF9FE_A276_A279),
  (0x25A0, 0xA1BD_A1BC),
  (0x25B2, 0xA1B6_A1B5),
  (0x25BC, 0xA1BF_A1BE),
  (0x25C6, 0xA1BB_A1BA),
  (0x25CB, 0xA1B3),
  (0x25CE, 0xA1B7_A1B4),
  (0x25E2, 0xA2A8_A2A9_A2AB_A2AA),
  (0x2605, 0xA1B9_A1B8),
  (0x2609, 0xA1F3),
  (0x2640, 0xA1F0_A1F2_A1F1),
  (0x3000, 0xA140_A142_A143_A1B2),
  (0x3008, 0xA171_A172_A16D_A16E_A175_A176_A179_A17A_A169_A16A_A245),
  (0x3014, 0xA165_A166),
  (0x301C, 0xA1E3_A1A9_A1AA),
  (0x3021, 0xA2C3_A2C4_A2C5_A2C6_A2C7_A2C8_A2C9_A2CA_A2CB),
  (0x3030, 0xA1CA),
  (0x3105, 0xA374_A375_A376_A377_A378_A379_A37A_A37B_A37C_A37D_A37E_A3A1),
  (0x3111, 0xA3A2_A3A3_A3A4_A3A5_A3A6_A3A7_A3A8_A3A9_A3AA_A3AB_A3AC_A3AD),
  (0x311D, 0xA3AE_A3AF_A3B0_A3B1_A3B2_A3B3_A3B4_A3B5_A3B6_A3B7_A3B8_A3B9),
  (0x3129, 0xA3BA),
  (0x3192, 0xA440_A447_A454_A57C_A457_A4A4_A455_A5D2_A441_A4FE_A442_A4D1),
  (0x319E, 0xA661_A448),
  (0x3220, 0xA440_A447_A454_A57C_A4AD_A4BB_A443_A44B_A445_A451_A4EB_A4F5),
  (0x322C, 0xA4F4_A4EC_AAF7_A467_A4E9_AEE8_A6B3_AAC0_A657_AF53_B05D_AFAC),
  (0x3238, 0xB3D2_A54E_A949_BEC7_BACA_A5F8_B8EA_A8F3_B2BD_A5F0_A6DB_A6DC),
  (0x3280, 0xA440_A447_A454_A57C_A4AD_A4BB_A443_A44B_A445_A451_A4EB_A4F5),
  (0x328C, 0xA4F4_A4EC_AAF7_A467_A4E9_AEE8_A6B3_AAC0_A657_AF53_B05D_AFAC),
  (0x3298, 0xB3D2_AFB5_A86B_A46B_BE41_C075_A64C_AA60_B6B5_A5F0_BC67_A1C0),
  (0x32A4, 0xA457_A4A4_A455_A5AA_A56B_C2E5_A976_BEC7_BACA_A5F8_B8EA_A8F3),
  (0x32B0, 0xA95D),
  (0x338E, 0xA255_A256),
  (0x339C, 0xA250_A251_A252),
  (0x33A1, 0xA254),
  (0x33C4, 0xA257),
  (0x33CE, 0xA253),
  (0x33D1, 0xA1EB_A1EA),
  (0x33D5, 0xA24F),
  (0x4E00, 0xA440_A442),
  (0x4E03, 0xA443),
  (0x4E07, 0xC945_A456_A454_A457_A455_C946_A4A3_C94F_C94D_A4A2_A4A1),
  (0x4E14, 0xA542_A541_A540),
  (0x4E18, 0xA543_A4FE),
  (0x4E1E, 0xA5E0_A5E1),
  (0x4E26, 0xA8C3),
  (0x4E2B, 0xA458),
  (0x4E2D, 0xA4A4_C950),
  (0x4E30, 0xA4A5_C963_A6EA_CBB1),
  (0x4E38, 0xA459_A4A6),
  (0x4E3B, 0xA544_C964),
  (0x4E42, 0xC940_A444),
  (0x4E45, 0xA45B),
  (0x4E47, 0xC947_A45C),
  (0x4E4B, 0xA4A7),
  (0x4E4D, 0xA545_A547_A546),
  (0x4E52, 0xA5E2_A5E3),
  (0x4E56, 0xA8C4),
  (0x4E58, 0xADBC_A441),
  (0x4E5C, 0xC941_A445_A45E_A45D),
  (0x4E69, 0xA5E4),
  (0x4E73, 0xA8C5),
  (0x4E7E, 0xB0AE_D44B),
  (0x4E82, 0xB6C3_DCB1_DCB2),
  (0x4E86, 0xA446),
  (0x4E88, 0xA4A9),
  (0x4E8B, 0xA8C6_A447_C948_A45F),
  (0x4E91, 0xA4AA_A4AC_C951_A4AD_A4AB),
  (0x4E99, 0xA5E5),
  (0x4E9B, 0xA8C7),
  (0x4E9E, 0xA8C8_AB45),
  (0x4EA1, 0xA460_A4AE),
  (0x4EA4, 0xA5E6_A5E8_A5E7),
  (0x4EA8, 0xA6EB),
  (0x4EAB, 0xA8C9_A8CA_AB46_AB47),
  (0x4EB3, 0xADBD),
  (0x4EB6, 0xDCB3),
  (0x4EB9, 0xF6D6_A448),
  (0x4EC0, 0xA4B0_A4AF_C952_A4B1_A4B7),
  (0x4EC6, 0xA4B2_A4B3_C954_C953_A4B5_A4B6),
  (0x4ECD, 0xA4B4),
  (0x4ED4, 0xA54A_A54B_A54C_A54D_A549_A550_C96A),
  (0x4EDC, 0xC966_C969_A551_A561),
  (0x4EE1, 0xC968),
  (0x4EE3, 0xA54E_A54F_A548),
  (0x4EE8, 0xC965_C967),
  (0x4EF0, 0xA5F5_C9B0_A5F2_A5F6_C9BA_C9AE_A5F3_C9B2),
  (0x4EFB, 0xA5F4),
  (0x4EFD, 0xA5F7),
  (0x4EFF, 0xA5E9_C9B1_A5F8_C9B5),
  (0x4F04, 0xC9B9_C9B6),
  (0x4F08, 0xC9B3_A5EA_A5EC_A5F9),
  (0x4F0D, 0xA5EE_C9AB_A5F1_A5EF_A5F0_C9BB_C9B8_C9AF_A5ED),
  (0x4F18, 0xC9AC_A5EB),
  (0x4F1D, 0xC9B4),
  (0x4F22, 0xC9B7),
  (0x4F2C, 0xC9AD_CA66),
  (0x4F2F, 0xA742_A6F4),
  (0x4F33, 0xCA67_A6F1),
  (0x4F36, 0xA744),
  (0x4F38, 0xA6F9),
  (0x4F3A, 0xA6F8_CA5B_A6FC_A6F7_CA60_CA68),
  (0x4F41, 0xCA64),
  (0x4F43, 0xA6FA),
  (0x4F46, 0xA6FD_A6EE_A747_CA5D),
  (0x4F4C, 0xCBBD_A6EC_A743_A6ED_A6F5_A6F6_CA62_CA5E_A6FB_A6F3_CA5A_A6EF),
  (0x4F58, 0xCA65_A745_A748_A6F2_A740_A746_A6F0_CA63_A741_CA69_CA5C_A6FE),
  (0x4F64, 0xCA5F),
  (0x4F67, 0xCA61),
  (0x4F69, 0xA8D8_CBBF_CBCB_A8D0),
  (0x4F6E, 0xCBCC_A8CB_A8D5),
  (0x4F73, 0xA8CE_CBB9_A8D6_CBB8_CBBC_CBC3_CBC1_A8DE_A8D9_CBB3_CBB5_A8DB),
  (0x4F7F, 0xA8CF_CBB6_CBC2_CBC9_A8D4_CBBB_CBB4_A8D3_CBB7_A8D7_CBBA),
  (0x4F8B, 0xA8D2),
  (0x4F8D, 0xA8CD),
  (0x4F8F, 0xA8DC_CBC4_A8DD_CBC8),
  (0x4F94, 0xCBC6_CBCA_A8DA_CBBE_CBB2),
  (0x4F9A, 0xCBC0_A8D1_CBC5_A8CC_CBC7),
  (0x4FAE, 0xAB56_AB4A),
  (0x4FB2, 0xCDE0_CDE8),
  (0x4FB5, 0xAB49_AB51_AB5D),
  (0x4FB9, 0xCDEE_CDEC_CDE7),
  (0x4FBF, 0xAB4B_CDED_CDE3_AB59_AB50_AB58_CDDE),
  (0x4FC7, 0xCDEA),
  (0x4FC9, 0xCDE1_AB54_CDE2),
  (0x4FCD, 0xCDDD_AB5B_AB4E_AB57_AB4D),
  (0x4FD3, 0xCDDF_CDE4),
  (0x4FD6, 0xCDEB_AB55_AB52_CDE6_AB5A_CDE9_CDE5_AB4F_AB5C_AB53_AB4C_AB48),
  (0x4FEC, 0xCDEF),
  (0x4FEE, 0xADD7_ADC1),
  (0x4FF1, 0xADD1),
  (0x4FF3, 0xADD6_D0D0_D0CF_D0D4_D0D5_ADC4),
  (0x4FFA, 0xADCD),
  (0x4FFE, 0xADDA),
  (0x5000, 0xADCE),
  (0x5005, 0xD0C9_ADC7_D0CA),
  (0x5009, 0xADDC),
  (0x500B, 0xADD3_ADBE_ADBF_D0DD_B0BF),
  (0x5011, 0xADCC_ADCB_D0CB_ADCF_D45B_ADC6_D0D6_ADD5_ADD4_ADCA_D0CE_D0D7),
  (0x501E, 0xD0C8_ADC9_D0D8_ADD2_D0CC_ADC0),
  (0x5025, 0xADC3_ADC2_D0D9_ADD0_ADC5_ADD9_ADDB_D0D3_ADD8),
  (0x502F, 0xD0DB_D0CD_D0DC),
  (0x5033, 0xD0D1),
  (0x5035, 0xD0DA),
  (0x5037, 0xD0D2),
  (0x503C, 0xADC8),
  (0x5040, 0xD463_D457),
  (0x5043, 0xB0B3),
  (0x5045, 0xD45C_D462_B0B2_D455_B0B6_D459_D452_B0B4_D456_B0B9_B0BE),
  (0x5051, 0xD467),
  (0x5053, 0xD451),
  (0x5055, 0xB0BA),
  (0x5057, 0xD466),
  (0x505A, 0xB0B5_D458_B0B1_D453_D44F_D45D_D450_D44E_D45A_D460_D461_B0B7),
  (0x5068, 0xD85B_D45E_D44D_D45F),
  (0x506D, 0xB0C1_D464_B0C0_D44C),
  (0x5072, 0xD454_D465_B0BC_B0BB_B0B8_B0BD),
  (0x507A, 0xB0AF),
  (0x507D, 0xB0B0),
  (0x5080, 0xB3C8),
  (0x5082, 0xD85E_D857),
  (0x5085, 0xB3C5),
  (0x5087, 0xD85F),
  (0x508B, 0xD855_D858_B3C4_D859),
  (0x5091, 0xB3C7_D85D),
  (0x5094, 0xD853_D852_B3C9),
  (0x5098, 0xB3CA_B3C6_B3CB_D851_D85C_D85A_D854),
  (0x50A2, 0xB3C3_D856),
  (0x50AC, 0xB6CA_B6C4_DCB7_B6CD_DCBD_DCC0_B6C6_B6C7_DCBA_B6C5_DCC3_B6CB),
  (0x50B8, 0xDCC4),
  (0x50BA, 0xDCBF_B6CC),
  (0x50BD, 0xDCB4_B6C9_DCB5),
  (0x50C1, 0xDCBE_DCBC),
  (0x50C4, 0xDCB8_B6C8_DCB6_B6CE_DCBB_DCC2_DCB9_DCC1),
  (0x50CE, 0xB9B6_B9B3),
  (0x50D1, 0xB9B4),
  (0x50D3, 0xE0F9_E0F1_B9B2_B9AF_E0F2),
  (0x50DA, 0xB9B1_E0F5),
  (0x50DD, 0xE0F7),
  (0x50E0, 0xE0FE),
  (0x50E3, 0xE0FD_E0F8_B9AE_E0F0_B9AC_E0F3_B9B7_E0F6),
  (0x50EC, 0xE0FA_B9B0_B9AD_E0FC_E0FB_B9B5),
  (0x50F3, 0xE0F4),
  (0x50F5, 0xBBF8_E4EC),
  (0x50F8, 0xE4E9_BBF9),
  (0x50FB, 0xBBF7),
  (0x50FD, 0xE4F0_E4ED_E4E6_BBF6),
  (0x5102, 0xBBFA_E4E7_BBF5_BBFD_E4EA_E4EB_BBFB_BBFC_E4F1_E4EE_E4EF),
  (0x5110, 0xBEAA_E8F8_BEA7_E8F5_BEA9_BEAB),
  (0x5117, 0xE8F6_BEA8),
  (0x511A, 0xE8F7),
  (0x511C, 0xE8F4),
  (0x511F, 0xC076_ECBD_C077_ECBB),
  (0x5124, 0xECBC_ECBA_ECB9),
  (0x5129, 0xECBE_C075),
  (0x512D, 0xEFB8_EFB9),
  (0x5130, 0xE4E8_EFB7_C078_C35F_F1EB_F1EC),
  (0x5137, 0xC4D7_C4D8_F5C1_F5C0_C56C_C56B_F7D0),
  (0x513F, 0xA449_A461_A4B9),
  (0x5143, 0xA4B8_A553_A552_A5FC_A5FB_A5FD_A5FA),
  (0x514B, 0xA74A_A749_A74B),
  (0x5152, 0xA8E0),
  (0x5154, 0xA8DF_A8E1),
  (0x5157, 0xAB5E),
  (0x5159, 0xA259_D0DE_A25A_B0C2_A25C_A25B_D860),
  (0x5161, 0xA25D_B9B8_A25E),
  (0x5165, 0xA44A),
  (0x5167, 0xA4BA_A5FE_A8E2),
  (0x516B, 0xA44B_A4BD_A4BB_A4BC),
  (0x5171, 0xA640),
  (0x5175, 0xA74C_A8E4_A8E3_A8E5),
  (0x517C, 0xADDD),
  (0x5180, 0xBEAC),
  (0x5187, 0xC94E),
  (0x5189, 0xA554_A555),
  (0x518D, 0xA641),
  (0x518F, 0xCA6A),
  (0x5191, 0xAB60_AB5F_D0E0_D0DF_B0C3),
  (0x5197, 0xA4BE_C955),
  (0x519E, 0xCBCD),
  (0x51A0, 0xAB61),
  (0x51A2, 0xADE0),
  (0x51A4, 0xADDE_ADDF),
  (0x51AA, 0xBEAD),
  (0x51AC, 0xA556),
  (0x51B0, 0xA642_C9BC),
  (0x51B6, 0xA74D_A74E),
  (0x51B9, 0xCA6B),
  (0x51BC, 0xCBCE_A8E6_CBCF),
  (0x51C4, 0xD0E2_D0E3_ADE3),
  (0x51C8, 0xD0E4),
  (0x51CA, 0xD0E1_ADE4_ADE2_ADE1_D0E5),
  (0x51D0, 0xD468),
  (0x51D4, 0xD861),
  (0x51D7, 0xDCC5_E140),
  (0x51DC, 0xBBFE_BEAE_E8F9),
  (0x51E0, 0xA44C_A45A),
  (0x51F0, 0xB0C4_B3CD),
  (0x51F3, 0xB9B9),
  (0x51F5, 0xC942_A4BF),
  (0x51F8, 0xA559_A557_A558),
  (0x51FD, 0xA8E7),
  (0x5200, 0xA44D_A44E),
  (0x5203, 0xA462),
  (0x5206, 0xA4C0_A4C1_A4C2_C9BE_A55A),
  (0x520C, 0xC96B),
  (0x520E, 0xA646),
  (0x5210, 0xC9BF_A644_A645_C9BD),
  (0x5216, 0xA647_A643),
  (0x521C, 0xCA6C_AAEC_CA6D),
  (0x5221, 0xCA6E),
  (0x5224, 0xA750_A74F),
  (0x5228, 0xA753_A751_A752),
  (0x522E, 0xA8ED),
  (0x5230, 0xA8EC_CBD4_CBD1_CBD2),
  (0x5235, 0xCBD0_A8EE_A8EA_A8E9),
  (0x523A, 0xA8EB_A8E8),
  (0x5241, 0xA8EF),
  (0x5243, 0xAB63_CDF0),
  (0x5246, 0xCBD3_AB68),
  (0x5249, 0xCDF1_AB64_AB67_AB66_AB65_AB62),
  (0x5252, 0xD0E8),
  (0x5254, 0xADE7_D0EB_ADE5),
  (0x525A, 0xD0E7_ADE8_ADE6_ADE9_D0E9_D0EA),
  (0x5261, 0xD0E6_D0EC),
  (0x5269, 0xB3D1_B0C5_D469_D46B_D46A_D46C_B0C6),
  (0x5272, 0xB3CE),
  (0x5274, 0xB3CF_B3D0),
  (0x5277, 0xB6D0_DCC7),
  (0x527A, 0xDCC6_DCC8_DCC9_B6D1),
  (0x527F, 0xB6CF_E141_E142_B9BB_B9BA_E35A),
  (0x5287, 0xBC40_BC41_BC42_BC44_E4F2_E4F3_BC43),
  (0x5291, 0xBEAF),
  (0x5293, 0xBEB0),
  (0x5296, 0xF1ED_F5C3_F5C2_F7D1),
  (0x529B, 0xA44F),
  (0x529F, 0xA55C_A55B),
  (0x52A3, 0xA648),
  (0x52A6, 0xC9C0),
  (0x52A9, 0xA755_A756_A754_A757_CA6F_CA70),
  (0x52BB, 0xA8F1_CBD5),
  (0x52BE, 0xA8F0),
  (0x52C0, 0xCDF2_AB6C_CDF3_AB6B),
  (0x52C7, 0xAB69),
  (0x52C9, 0xAB6A),
  (0x52CD, 0xD0ED),
  (0x52D2, 0xB0C7_D46E),
  (0x52D5, 0xB0CA_D46D_B1E5_B0C9_B0C8),
  (0x52DB, 0xB3D4),
  (0x52DD, 0xB3D3_B3D2_B6D2),
  (0x52E2, 0xB6D5_B6D6_B6D4),
  (0x52E6, 0xB6D3),
  (0x52E9, 0xE143),
  (0x52EB, 0xE144),
  (0x52EF, 0xE4F5_BC45_E4F4),
  (0x52F3, 0xBEB1_ECBF_C079),
  (0x52F7, 0xF1EE_C455),
  (0x52FA, 0xA463_A4C3_C956),
  (0x52FE, 0xA4C4_A4C5),
  (0x5305, 0xA55D_A55E),
  (0x5308, 0xA649_CA71_CBD6_CBD7),
  (0x530D, 0xAB6D_D0EE_B0CC_B0CB_D863_D862),
  (0x5315, 0xA450_A4C6_A55F),
  (0x5319, 0xB0CD_C943),
  (0x531C, 0xC96C_A560),
  (0x531F, 0xC9C2_A64B_A64A_C9C1_A758),
  (0x532A, 0xADEA),
  (0x532D, 0xD46F),
  (0x532F, 0xB6D7_E145_B9BC),
  (0x5334, 0xE8FA),
  (0x5337, 0xF3FD),
  (0x5339, 0xA4C7),
  (0x533C, 0xCBD8_CDF4_B0D0_B0CE_B0CF_A451),
  (0x5343, 0xA464_A2CD_A4CA),
  (0x5347, 0xA4C9_A4C8_A563_A562),
  (0x534C, 0xC96D_C9C3),
  (0x5351, 0xA8F5_A8F2_A8F4_A8F3),
  (0x5357, 0xAB6E),
  (0x535A, 0xB3D5),
  (0x535C, 0xA452),
  (0x535E, 0xA4CB),
  (0x5360, 0xA565_A564),
  (0x5363, 0xCA72),
  (0x5366, 0xA8F6),
  (0x536C, 0xC957),
  (0x536E, 0xA567_A566_A64C_A64D_CA73_A759),
  (0x5375, 0xA75A),
  (0x5377, 0xA8F7_A8F8_A8F9),
  (0x537B, 0xAB6F_CDF5),
  (0x537F, 0xADEB),
  (0x5382, 0xC944),
  (0x5384, 0xA4CC),
  (0x538A, 0xC9C4),
  (0x538E, 0xCA74_CA75),
  (0x5392, 0xCBD9),
  (0x5394, 0xCBDA),
  (0x5396, 0xCDF7_CDF6_CDF9_CDF8_AB70),
  (0x539C, 0xD470_ADED_D0EF_ADEC),
  (0x53A4, 0xD864_B3D6),
  (0x53A7, 0xD865),
  (0x53AC, 0xE146_B9BD),
  (0x53B2, 0xBC46),
  (0x53B4, 0xF1EF),
  (0x53B9, 0xC958),
  (0x53BB, 0xA568),
  (0x53C3, 0xB0D1),
  (0x53C8, 0xA453_A465_A4CE_A4CD),
  (0x53CD, 0xA4CF),
  (0x53D4, 0xA8FB),
  (0x53D6, 0xA8FA_A8FC),
  (0x53DB, 0xAB71),
  (0x53DF, 0xADEE),
  (0x53E1, 0xE8FB_C24F_A466_A56A_A579_A574),
  (0x53E8, 0xA56F_A56E_A575_A573_A56C_A57A_A56D_A569_A578_A577_A576_A56B),
  (0x53F5, 0xA572),
  (0x53F8, 0xA571),
  (0x53FB, 0xA57B_A570),
  (0x5401, 0xA653),
  (0x5403, 0xA659_A655),
  (0x5406, 0xA65B_C9C5_A658_A64E_A651_A654_A650_A657_A65A_A64F_A652_A656),
  (0x5412, 0xA65C),
  (0x5418, 0xCA7E_CA7B),
  (0x541B, 0xA767_CA7C_A75B_A75D_A775_A770),
  (0x5424, 0xCAA5_CA7D_A75F_A761_CAA4_A768_CA78_A774_A776_A75C_A76D),
  (0x5430, 0xCA76_A773),
  (0x5433, 0xA764),
  (0x5435, 0xA76E_A76F_CA77_A76C_A76A),
  (0x543B, 0xA76B_A771_CAA1_A75E),
  (0x5440, 0xA772_CAA3_A766_A763),
  (0x5445, 0xCA7A_A762_CAA6_A765),
  (0x544A, 0xA769),
  (0x544E, 0xA760_CAA2),
  (0x5454, 0xCA79),
  (0x5460, 0xCBEB_CBEA_A94F_CBED_CBEF_CBE4_CBE7_CBEE_A950),
  (0x546B, 0xCBE1_CBE5),
  (0x546F, 0xCBE9_CE49_A94B_CE4D_A8FD_CBE6_A8FE_A94C_A945_A941),
  (0x547A, 0xCBE2_A944_A949_A952_CBE3_CBDC_A943_CBDD_CBDF),
  (0x5484, 0xA946),
  (0x5486, 0xA948_CBDB_CBE0),
  (0x548B, 0xA951_A94D_CBE8_A953),
  (0x5490, 0xA94A_CBDE_A947),
  (0x5495, 0xA942_A940),
  (0x5498, 0xCBEC),
  (0x549A, 0xA94E),
  (0x54A0, 0xCE48_CDFB_CE4B),
  (0x54A5, 0xCDFD_AB78_ABA8_AB74_ABA7_AB7D_ABA4_AB72_CDFC_CE43_ABA3_CE4F),
  (0x54B1, 0xABA5),
  (0x54B3, 0xAB79),
  (0x54B6, 0xCE45_CE42_AB77),
  (0x54BA, 0xCDFA_ABA6_CE4A_AB7C_CE4C_ABA9_AB73_AB7E_AB7B_CE40_ABA1_CE46),
  (0x54C6, 0xCE47_AB7A_ABA2_AB76),
  (0x54CE, 0xAB75_CDFE),
  (0x54D6, 0xCE44),
  (0x54DE, 0xCE4E),
  (0x54E0, 0xD144_ADFB_D0F1),
  (0x54E4, 0xD0F6_ADF4_AE40_D0F4_ADEF_ADF9_ADFE_D0FB),
  (0x54ED, 0xADFA_ADFD),
  (0x54F1, 0xD0FE_ADF5_D0F5),
  (0x54F7, 0xD142_D143),
  (0x54FA, 0xADF7_D141_ADF3_AE43),
  (0x54FF, 0xD0F8),
  (0x5501, 0xADF1),
  (0x5503, 0xD146_D0F9_D0FD_ADF6_AE42_D0FA_ADFC_D140_D147_D4A1),
  (0x550E, 0xD145_AE44_ADF0_D0FC_D0F3),
  (0x5514, 0xADF8),
  (0x5517, 0xD0F2),
  (0x551A, 0xD0F7),
  (0x5526, 0xD0F0_AE41),
  (0x552A, 0xD477),
  (0x552C, 0xB0E4_D4A7_B0E2_B0DF_D47C_B0DB_D4A2_B0E6_D476_D47B_D47A_ADF2),
  (0x5538, 0xB0E1_D4A5),
  (0x553B, 0xD4A8_D473),
  (0x553E, 0xB3E8),
  (0x5540, 0xD4A9_B0E7),
  (0x5543, 0xB0D9_B0D6_D47E_B0D3),
  (0x5548, 0xD4A6),
  (0x554A, 0xB0DA_D4AA),
  (0x554D, 0xD474_D4A4_B0DD_D475_D478_D47D),
  (0x5555, 0xB0DE_B0DC_B0E8),
  (0x555C, 0xB0E3),
  (0x555E, 0xB0D7_B1D2),
  (0x5561, 0xB0D8_D479_B0E5_B0E0_D4A3_B0D5),
  (0x556A, 0xB0D4),
  (0x5575, 0xD471_D472_D86A),
  (0x557B, 0xB3D7_B3DA_D875_B3EE_D878_B3D8_D871_B3DE_B3E4_B5BD),
  (0x5587, 0xB3E2_D86E_B3EF_B3DB_B3E3_D876_DCD7_D87B_D86F),
  (0x5591, 0xD866_D873_D86D_B3E1_D879),
  (0x5598, 0xB3DD_B3F1_B3EA),
  (0x559C, 0xB3DF_B3DC),
  (0x559F, 0xB3E7),
  (0x55A1, 0xD87A_D86C_D872_D874_D868_D877_B3D9_D867),
  (0x55AA, 0xB3E0_B3F0_B3EC_D869_B3E6),
  (0x55B1, 0xB3ED_B3E9_B3E5),
  (0x55B5, 0xD870),
  (0x55BB, 0xB3EB),
  (0x55BF, 0xDCD5_DCD1),
  (0x55C2, 0xDCE0_DCCA_DCD3_B6E5_B6E6_B6DE_DCDC_B6E8_DCCF_DCCE_DCCC_DCDE),
  (0x55CE, 0xB6DC_DCD8_DCCD_B6DF_DCD6_B6DA_DCD2_DCD9_DCDB),
  (0x55D9, 0xDCDF_B6E3_DCCB_B6DD_DCD0),
  (0x55DF, 0xB6D8),
  (0x55E1, 0xB6E4_DCDA_B6E0_B6E1_B6E7_B6DB_A25F_B6D9_DCD4),
  (0x55EF, 0xB6E2),
  (0x55F2, 0xDCDD),
  (0x55F6, 0xB9CD_B9C8),
  (0x55F9, 0xE155_E151),
  (0x55FC, 0xE14B_B9C2_B9BE_E154_B9BF_E14E_E150),
  (0x5604, 0xE153),
  (0x5606, 0xB9C4),
  (0x5608, 0xB9CB_B9C5),
  (0x560C, 0xE149_B9C6_B9C7_E14C_B9CC),
  (0x5612, 0xE14A_E14F_B9C3_E148_B9C9_B9C1),
  (0x561B, 0xB9C0_E14D_E152),
  (0x561F, 0xB9CA),
  (0x5627, 0xE147),
  (0x5629, 0xBC4D_E547),
  (0x562C, 0xE544),
  (0x562E, 0xBC47_BC53_BC54),
  (0x5632, 0xBC4A_E542_BC4C_E4F9_BC52),
  (0x5638, 0xE546_BC49_E548_BC48),
  (0x563D, 0xE543_E545_BC4B_E541_E4FA_E4F7),
  (0x5645, 0xD86B_E4FD),
  (0x5648, 0xE4F6_E4FC_E4FB),
  (0x564C, 0xE4F8),
  (0x564E, 0xBC4F),
  (0x5653, 0xBC4E),
  (0x5657, 0xBC50_E4FE_BEB2_E540),
  (0x565E, 0xE945),
  (0x5660, 0xE8FD),
  (0x5662, 0xBEBE_E942_BEB6_BEBA_E941),
  (0x5668, 0xBEB9_BEB5_BEB8_BEB3_BEBD_E943_E8FE_BEBC_E8FC_BEBB_E944_E940),
  (0x5674, 0xBC51),
  (0x5676, 0xBEBF_E946_BEB7_BEB4),
  (0x567E, 0xECC6_ECC8_C07B_ECC9_ECC7_ECC5_ECC4_C07D_ECC3_C07E),
  (0x568C, 0xECC1_ECC2_C07A_C0A1_C07C),
  (0x5693, 0xECC0),
  (0x5695, 0xC250),
  (0x5697, 0xEFBC_EFBA_EFBF_EFBD),
  (0x569C, 0xEFBB_EFBE),
  (0x56A5, 0xC360_F1F2_F1F3_C456),
  (0x56AA, 0xF1F4_F1F0_F1F5_F1F1_C251),
  (0x56B2, 0xF3FE_F441_C459_F440_C458_C457),
  (0x56BC, 0xC45A_F5C5_F5C6),
  (0x56C0, 0xC4DA_C4D9_C4DB_F5C4),
  (0x56C5, 0xF6D8_F6D7),
  (0x56C8, 0xC56D_C56F_C56E_F6D9_C5C8_F8A6),
  (0x56D1, 0xC5F1),
  (0x56D3, 0xF8A5_F8EE),
  (0x56D7, 0xC949),
  (0x56DA, 0xA57D_A57C),
  (0x56DD, 0xA65F_A65E_C9C7_A65D_C9C6),
  (0x56E4, 0xA779_CAA9),
  (0x56E7, 0xCAA8),
  (0x56EA, 0xA777_A77A),
  (0x56EE, 0xCAA7),
  (0x56F0, 0xA778),
  (0x56F7, 0xCBF0),
  (0x56F9, 0xCBF1_A954),
  (0x56FF, 0xABAA),
  (0x5701, 0xD148_D149_AE45_AE46),
  (0x5707, 0xD4AC_B0E9_B0EB_D4AB_B0EA_D87C_B3F2),
  (0x5712, 0xB6E9_B6EA_DCE1),
  (0x5716, 0xB9CF),
  (0x5718, 0xB9CE),
  (0x571A, 0xE549_E948_E947),
  (0x571E, 0xF96B_A467_C959),
  (0x5722, 0xC96E_C96F),
  (0x5728, 0xA662_A666_C9C9),
  (0x572C, 0xA664_A663_C9C8_A665_A661),
  (0x5733, 0xA660_C9CA),
  (0x573B, 0xA7A6),
  (0x573E, 0xA7A3),
  (0x5740, 0xA77D_CAAA),
  (0x5745, 0xCAAB),
  (0x5747, 0xA7A1),
  (0x5749, 0xCAAD_A77B_CAAE_CAAC_A77E_A7A2_A7A5_A7A4_A77C_CAAF),
  (0x5761, 0xA959_CBFE),
  (0x5764, 0xA95B),
  (0x5766, 0xA95A),
  (0x5768, 0xCC40_A958_A957_CBF5),
  (0x576D, 0xCBF4),
  (0x576F, 0xCBF2_CBF7_CBF6_CBF3_CBFC_CBFD_CBFA_CBF8_A956),
  (0x577B, 0xCBFB_A95C_CC41),
  (0x5780, 0xCBF9),
  (0x5782, 0xABAB_A955),
  (0x578B, 0xABAC_CE54),
  (0x578F, 0xCE5A),
  (0x5793, 0xABB2_CE58_CE5E),
  (0x5797, 0xCE55_CE59_CE5B_CE5D_CE57),
  (0x579D, 0xCE56_CE51_CE52_ABAD),
  (0x57A2, 0xABAF_ABAE_CE53_CE5C),
  (0x57AE, 0xABB1),
  (0x57B5, 0xCE50_D153),
  (0x57B8, 0xD152_D157_D14E),
  (0x57BC, 0xD151_D150),
  (0x57BF, 0xD154),
  (0x57C1, 0xD158_AE47_AE4A),
  (0x57C6, 0xD14F_D155),
  (0x57CB, 0xAE49_D14A),
  (0x57CE, 0xABB0_D4BA_D156),
  (0x57D2, 0xD14D),
  (0x57D4, 0xAE48_D14C),
  (0x57DC, 0xD4B1),
  (0x57DF, 0xB0EC_B0F0_D4C1_D4AF_D4BD_B0F1_D4BF),
  (0x57E7, 0xD4C5),
  (0x57E9, 0xD4C9),
  (0x57EC, 0xD4C0_D4B4_D4BC),
  (0x57F0, 0xD4CA_D4C8_D4BE_D4B9_D4B2_D8A6_D4B0_B0F5_D4B7_B0F6_B0F2_D4AD),
  (0x57FC, 0xD4C3_D4B5),
  (0x5800, 0xD4B3_D4C6_B0F3),
  (0x5804, 0xD4CC_B0ED_B0EF_D4BB_D4B6_AE4B_B0EE_D4B8_D4C7_D4CB_D4C2),
  (0x5810, 0xD4C4),
  (0x5814, 0xD4AE),
  (0x5819, 0xD8A1),
  (0x581B, 0xD8AA_D8A9_B3FA_D8A2),
  (0x5820, 0xB3FB_B3F9),
  (0x5823, 0xD8A4_B3F6_D8A8),
  (0x5827, 0xD8A3_D8A5_D87D_B3F4),
  (0x582C, 0xD8B2_D8B1_D8AE_B3F3_B3F7_B3F8_D14B_D8AB_B3F5_B0F4_D8AD_D87E),
  (0x5838, 0xD8B0_D8AF),
  (0x583B, 0xD8B3),
  (0x583D, 0xDCEF),
  (0x583F, 0xD8AC),
  (0x5848, 0xD8A7_DCE7_B6F4_B6F7_B6F2_DCE6_DCEA_DCE5),
  (0x5851, 0xB6EC_B6F6_DCE2_B6F0_DCE9),
  (0x5857, 0xB6EE_B6ED_DCEC_B6EF_DCEE),
  (0x585D, 0xDCEB_B6EB),
  (0x5862, 0xB6F5_DCF0_DCE4_DCED),
  (0x5868, 0xDCE3),
  (0x586B, 0xB6F1),
  (0x586D, 0xB6F3),
  (0x586F, 0xDCE8),
  (0x5871, 0xDCF1),
  (0x5874, 0xE15D_B9D0_E163),
  (0x5879, 0xB9D5_E15F_E166_E157_B9D7_B9D1_E15C_BC55_E15B_E164_B9D2),
  (0x5885, 0xB9D6_E15A_E160_E165_E156_B9D4_E15E),
  (0x588E, 0xE162_E168_E158_E161),
  (0x5893, 0xB9D3_E167),
  (0x5898, 0xE159),
  (0x589C, 0xBC59_E54B_BC57_BC56_E54D_E552),
  (0x58A3, 0xE54E),
  (0x58A5, 0xE551_BC5C),
  (0x58A8, 0xBEA5_BC5B),
  (0x58AB, 0xE54A_E550),
  (0x58AE, 0xBC5A_E54F),
  (0x58B1, 0xE54C),
  (0x58B3, 0xBC58),
  (0x58BA, 0xE94D_F9D9_E94F_E94A_BEC1_E94C),
  (0x58C1, 0xBEC0_E94E),
  (0x58C5, 0xBEC3_E950_BEC2_E949_E94B),
  (0x58CE, 0xC0A5_ECCC),
  (0x58D1, 0xC0A4_ECCD_C0A3_ECCB_C0A2_ECCA),
  (0x58D8, 0xC253_C252_F1F6_F1F8),
  (0x58DD, 0xF1F7_C361_C362),
  (0x58E2, 0xC363_F442_C45B),
  (0x58E7, 0xF7D3_F7D2_C5F2),
  (0x58EB, 0xA468_A4D0),
  (0x58EF, 0xA7A7),
  (0x58F4, 0xCE5F),
  (0x58F9, 0xB3FC_B3FD),
  (0x58FC, 0xDCF2_B9D8_E169_E553),
  (0x5903, 0xC95A),
  (0x5906, 0xCAB0),
  (0x590C, 0xCC42_CE60_D159_AE4C),
  (0x5912, 0xF1F9),
  (0x5914, 0xC4DC_A469_A57E_C970),
  (0x5919, 0xA667_A668),
  (0x591C, 0xA95D),
  (0x5920, 0xB0F7),
  (0x5922, 0xB9DA),
  (0x5924, 0xB9DB_B9D9),
  (0x5927, 0xA46A),
  (0x5929, 0xA4D1_A4D3_A4D2_C95B_A4D4_A5A1_C971),
  (0x5931, 0xA5A2),
  (0x5937, 0xA669_A66A),
  (0x593C, 0xC9CB),
  (0x593E, 0xA7A8),
  (0x5940, 0xCAB1),
  (0x5944, 0xA961_CC43),
  (0x5947, 0xA95F_A960_A95E_D15A),
  (0x594E, 0xABB6_ABB5_ABB7_ABB4),
  (0x5953, 0xCE61_A962_ABB3),
  (0x5957, 0xAE4D_AE4E),
  (0x595A, 0xAE4F),
  (0x595C, 0xD4CD),
  (0x5960, 0xB3FE_D8B4_B0F8),
  (0x5967, 0xB6F8),
  (0x5969, 0xB9DD_B9DC_E16A),
  (0x596D, 0xBC5D_BEC4),
  (0x5970, 0xEFC0_F6DA_F7D4_A46B_A5A3),
  (0x5976, 0xA5A4_C9D1_A66C_A66F),
  (0x597B, 0xC9CF_C9CD_A66E_C9D0_C9D2_C9CC_A671_A670_A66D_A66B_C9CE),
  (0x598A, 0xA7B3),
  (0x598D, 0xA7B0_CAB6_CAB9_CAB8),
  (0x5992, 0xA7AA_A7B2),
  (0x5996, 0xA7AF_CAB5_CAB3_A7AE),
  (0x599D, 0xA7A9_A7AC),
  (0x59A0, 0xCAB4_CABB_CAB7_A7AD_A7B1_A7B4_CAB2_CABA_A7AB),
  (0x59AE, 0xA967_A96F),
  (0x59B1, 0xCC4F_CC48_A970_CC53_CC44_CC4B),
  (0x59B9, 0xA966_CC45_A964_CC4C_CC50_A963),
  (0x59C0, 0xCC51_CC4A),
  (0x59C3, 0xCC4D),
  (0x59C5, 0xA972_A969_CC54_CC52),
  (0x59CA, 0xA96E_A96C_CC49_A96B_CC47_CC46_A96A_A968_A971_A96D_A965),
  (0x59D6, 0xCC4E),
  (0x59D8, 0xABB9),
  (0x59DA, 0xABC0_CE6F_ABB8_CE67_CE63),
  (0x59E0, 0xCE73_CE62),
  (0x59E3, 0xABBB_CE6C_ABBE_ABC1),
  (0x59E8, 0xABBC_CE70_ABBF),
  (0x59EC, 0xAE56_CE76_CE64),
  (0x59F1, 0xCE66_CE6D_CE71_CE75_CE72_CE6B_CE6E),
  (0x59FA, 0xCE68_ABC3_CE6A_CE69_CE74_ABBA_CE65_ABC2),
  (0x5A03, 0xABBD),
  (0x5A09, 0xAE5C_D162),
  (0x5A0C, 0xAE5B),
  (0x5A0F, 0xD160),
  (0x5A11, 0xAE50),
  (0x5A13, 0xAE55),
  (0x5A15, 0xD15F_D15C_D161_AE51_D15B),
  (0x5A1B, 0xAE54_AE52),
  (0x5A1E, 0xD163_AE53_AE57),
  (0x5A23, 0xAE58),
  (0x5A25, 0xAE5A),
  (0x5A29, 0xAE59),
  (0x5A2D, 0xD15D_D15E),
  (0x5A33, 0xD164),
  (0x5A35, 0xD4D4_B0F9_D8C2_D4D3_D4E6),
  (0x5A3C, 0xB140),
  (0x5A3E, 0xD4E4),
  (0x5A40, 0xB0FE_B0FA_D4ED_D4DD_D4E0),
  (0x5A46, 0xB143_D4EA_D4E2_B0FB_B144),
  (0x5A4C, 0xD4E7_D4E5),
  (0x5A50, 0xD4D6_D4EB_D4DF_D4DA),
  (0x5A55, 0xD4D0_D4EC_D4DC_D4CF),
  (0x5A5A, 0xB142_D4E1_D4EE_D4DE_D4D2_D4D7_D4CE),
  (0x5A62, 0xB141),
  (0x5A64, 0xD4DB_D4D8_B0FC_D4D1),
  (0x5A69, 0xD4E9_B0FD),
  (0x5A6C, 0xD4D9_D4D5),
  (0x5A70, 0xD4E8),
  (0x5A77, 0xB440_D8BB),
  (0x5A7A, 0xD8B8_D8C9_D8BD_D8CA),
  (0x5A7F, 0xB442),
  (0x5A83, 0xD8C6_D8C3),
  (0x5A8A, 0xD8C4_D8C7_D8CB),
  (0x5A8E, 0xD4E3_D8CD_DD47),
  (0x5A92, 0xB443_D8CE_D8B6_D8C0),
  (0x5A97, 0xD8C5),
  (0x5A9A, 0xB441_B444_D8CC_D8CF_D8BA_D8B7),
  (0x5AA2, 0xD8B9),
  (0x5AA5, 0xD8BE_D8BC_B445),
  (0x5AA9, 0xD8C8),
  (0x5AAC, 0xD8BF),
  (0x5AAE, 0xD8C1_D8B5_DCFA_DCF8_B742_B740_DD43_DCF9_DD44_DD40_DCF7_DD46),
  (0x5ABA, 0xDCF6_DCFD_B6FE_B6FD_B6FC_DCFB_DD41_B6F9_B741),
  (0x5AC4, 0xDCF4),
  (0x5AC6, 0xDCFE_DCF3_DCFC_B6FA_DD42_DCF5_B6FB_DD45),
  (0x5AD5, 0xE16E_B9E2_B9E1_B9E3_E17A_E170_E176_E16B_E179_E178_E17C_E175),
  (0x5AE1, 0xB9DE_E174_B9E4),
  (0x5AE5, 0xE16D_B9DF),
  (0x5AE8, 0xE17B_B9E0_E16F_E172_E177_E171_E16C),
  (0x5AF3, 0xE173_E555_BC61_E558_E557_E55A_E55C_F9DC_BC5F),
  (0x5AFD, 0xE556),
  (0x5AFF, 0xE554),
  (0x5B01, 0xE55D_E55B_E559),
  (0x5B05, 0xE55F),
  (0x5B07, 0xE55E_BC63_BC5E),
  (0x5B0B, 0xBC60_BC62),
  (0x5B0F, 0xE560_E957),
  (0x5B13, 0xE956_E955),
  (0x5B16, 0xE958_E951),
  (0x5B19, 0xE952_E95A_E953),
  (0x5B1D, 0xBEC5_E95C),
  (0x5B20, 0xE95B_E954),
  (0x5B23, 0xECD1_C0A8_ECCF_ECD4_ECD3_E959),
  (0x5B2A, 0xC0A7),
  (0x5B2C, 0xECD2_ECCE_ECD6_ECD5_C0A6),
  (0x5B32, 0xECD0),
  (0x5B34, 0xBEC6),
  (0x5B38, 0xC254),
  (0x5B3C, 0xEFC1_F1FA_F1FB_F1FC_C45C),
  (0x5B43, 0xC45D),
  (0x5B45, 0xF443),
  (0x5B47, 0xF5C8_F5C7),
  (0x5B4B, 0xF6DB_F6DC_F7D5_F8A7),
  (0x5B50, 0xA46C_A46D),
  (0x5B53, 0xA46E_A4D5_A5A5_C9D3_A672_A673),
  (0x5B5A, 0xA7B7_A7B8_A7B6_A7B5),
  (0x5B5F, 0xA973),
  (0x5B62, 0xCC55_A975_A974_CC56),
  (0x5B69, 0xABC4),
  (0x5B6B, 0xAE5D_D165),
  (0x5B6E, 0xD4F0),
  (0x5B70, 0xB145_B447_D4EF_B446),
  (0x5B75, 0xB9E5),
  (0x5B77, 0xE17D_BEC7),
  (0x5B7A, 0xC0A9_ECD7),
  (0x5B7D, 0xC45E),
  (0x5B7F, 0xC570),
  (0x5B81, 0xC972),
  (0x5B83, 0xA5A6_C973_A676),
  (0x5B87, 0xA674_A675_A677),
  (0x5B8B, 0xA7BA_A7B9),
  (0x5B8E, 0xCABC_A7BB),
  (0x5B92, 0xCABD_CC57),
  (0x5B95, 0xCC58),
  (0x5B97, 0xA976_A978_A97A_A977_A97B_A979),
  (0x5BA2, 0xABC8_ABC5_ABC7_ABC9_ABC6_D166_CE77),
  (0x5BAC, 0xD168_D167_AE63),
  (0x5BB0, 0xAE5F),
  (0x5BB3, 0xAE60_AE62_AE64_AE61),
  (0x5BB8, 0xAE66_AE65),
  (0x5BBF, 0xB14A_D4F2_D4F1_B149),
  (0x5BC4, 0xB148_B147_B14B_B146),
  (0x5BCA, 0xD8D5_D8D2_B449_D8D1_D8D6),
  (0x5BD0, 0xB44B_D8D4_B448_B44A_D8D3),
  (0x5BD6, 0xDD48),
  (0x5BD8, 0xDD49_DD4A),
  (0x5BDE, 0xB9E6_B9EE_E17E_B9E8_B9EC_E1A1_B9ED_B9E9_B9EA_B9E7_B9EB_BC66),
  (0x5BEA, 0xD8D0_BC67_BC65),
  (0x5BEE, 0xBC64_E95D_BEC8_ECD8_ECD9),
  (0x5BF5, 0xC364_C45F),
  (0x5BF8, 0xA46F),
  (0x5BFA, 0xA678),
  (0x5C01, 0xABCA),
  (0x5C03, 0xD169_AE67),
  (0x5C07, 0xB14E_B14D_B14C_B44C_B44D_D8D7_B9EF_BEC9_A470_C95C_A4D6_C974),
  (0x5C15, 0xC9D4_A679),
  (0x5C1A, 0xA97C),
  (0x5C1F, 0xDD4B),
  (0x5C22, 0xA471),
  (0x5C24, 0xA4D7_C9D5),
  (0x5C28, 0xCABE),
  (0x5C2A, 0xCABF),
  (0x5C2C, 0xA7BC),
  (0x5C30, 0xD8D8_B44E),
  (0x5C33, 0xDD4C),
  (0x5C37, 0xC0AA_A472_A4A8_A4D8_C975_A5A7),
  (0x5C3E, 0xA7C0_A7BF_A7BD_A7BE),
  (0x5C44, 0xCC59_A97E_A9A1_CC5A_A97D),
  (0x5C4B, 0xABCE_CE78_ABCD_ABCB_ABCC_AE6A_AE68),
  (0x5C54, 0xD16B_AE69_D16A),
  (0x5C58, 0xAE5E_D4F3),
  (0x5C5C, 0xB150_B151),
  (0x5C60, 0xB14F),
  (0x5C62, 0xB9F0_E1A2_BC68_BC69),
  (0x5C67, 0xE561_C0AB_EFC2_EFC3),
  (0x5C6C, 0xC4DD_F8A8_C94B_A4D9),
  (0x5C71, 0xA473),
  (0x5C73, 0xC977_C976),
  (0x5C79, 0xA67A_C9D7_C9D8_C9D6),
  (0x5C7E, 0xC9D9),
  (0x5C86, 0xCAC7),
  (0x5C88, 0xCAC2_CAC4_CAC6_CAC3_A7C4_CAC0),
  (0x5C8F, 0xCAC1_A7C1_A7C2_CAC5_CAC8_A7C3_CAC9),
  (0x5C9D, 0xCC68),
  (0x5C9F, 0xCC62_CC5D_A9A3_CC65_CC63_CC5C_CC69_CC6C_CC67_CC60_A9A5_CC66),
  (0x5CAB, 0xA9A6_CC61_CC64_CC5B_CC5F_CC6B_A9A7),
  (0x5CB3, 0xA9A8),
  (0x5CB5, 0xCC5E_CC6A_A9A2_A9A4),
  (0x5CC6, 0xCEAB_CEA4_CEAA_CEA3_CEA5_CE7D_CE7B),
  (0x5CCE, 0xCEAC_CEA9_CE79),
  (0x5CD2, 0xABD0_CEA7_CEA8),
  (0x5CD6, 0xCEA6_CE7C_CE7A_ABCF_CEA2_CE7E),
  (0x5CDE, 0xCEA1_CEAD),
  (0x5CE8, 0xAE6F),
  (0x5CEA, 0xAE6E),
  (0x5CEC, 0xD16C_AE6B_D16E),
  (0x5CF0, 0xAE70_D16F),
  (0x5CF4, 0xAE73),
  (0x5CF6, 0xAE71_D170_CEAE_D172),
  (0x5CFB, 0xAE6D),
  (0x5CFD, 0xAE6C),
  (0x5CFF, 0xD16D_D171_AE72),
  (0x5D06, 0xB153_B152),
  (0x5D0B, 0xD4F5_D4F9_D4FB_B154_D4FE),
  (0x5D11, 0xB158_D541),
  (0x5D14, 0xB15A),
  (0x5D16, 0xB156_B15E),
  (0x5D19, 0xB15B_D4F7_B155),
  (0x5D1D, 0xD4F6_D4F4_D543_D4F8),
  (0x5D22, 0xB157_D542_B15C_D4FD_D4FC_B15D_D4FA_B159),
  (0x5D2E, 0xD544),
  (0x5D30, 0xD540_D8E7_D8EE_D8E3_B451_D8DF_D8EF_D8D9_D8EC_D8EA_D8E4),
  (0x5D3C, 0xD8ED_D8E6),
  (0x5D3F, 0xD8DE_D8F0_D8DC_D8E9_D8DA),
  (0x5D45, 0xD8F1),
  (0x5D47, 0xB452),
  (0x5D49, 0xD8EB_DD4F_D8DD_B44F),
  (0x5D4E, 0xD8E1),
  (0x5D50, 0xB450_D8E0_D8E5),
  (0x5D55, 0xD8E2),
  (0x5D59, 0xD8E8),
  (0x5D5E, 0xDD53),
  (0x5D62, 0xDD56_DD4E),
  (0x5D65, 0xDD50),
  (0x5D67, 0xDD55_DD54_B743),
  (0x5D6B, 0xD8DB_DD52),
  (0x5D6F, 0xB744),
  (0x5D71, 0xDD4D_DD51),
  (0x5D77, 0xE1A9),
  (0x5D79, 0xE1B0_E1A7),
  (0x5D7C, 0xE1AE_E1A5_E1AD_E1B1_E1A4_E1A8_E1A3),
  (0x5D84, 0xB9F1),
  (0x5D86, 0xE1A6_B9F2_E1AC_E1AB_E1AA),
  (0x5D8D, 0xE1AF),
  (0x5D92, 0xE565_E567_BC6B_E568),
  (0x5D97, 0xE563),
  (0x5D99, 0xE562_E56C),
  (0x5D9C, 0xE56A_BC6A_E56D_E564_E569_E56B_E566),
  (0x5DA7, 0xE961_E966_E960_E965),
  (0x5DAC, 0xE95E_E968_E964_E969_E963_E95F_E967),
  (0x5DB4, 0xE96A_E962),
  (0x5DB7, 0xECDA_C0AF),
  (0x5DBA, 0xC0AD),
  (0x5DBC, 0xC0AC_C0AE),
  (0x5DC0, 0xEFC4),
  (0x5DC2, 0xF172_F1FD),
  (0x5DC6, 0xF444_F445),
  (0x5DC9, 0xC460),
  (0x5DCB, 0xF5C9),
  (0x5DCD, 0xC4DE),
  (0x5DCF, 0xF5CA),
  (0x5DD1, 0xF6DE_C572),
  (0x5DD4, 0xC571_F6DD_C5C9),
  (0x5DD8, 0xF7D6),
  (0x5DDD, 0xA474_A67B_C9DA_CACA_A8B5_B15F),
  (0x5DE5, 0xA475_A5AA_A5A9_A5A8),
  (0x5DEB, 0xA7C5),
  (0x5DEE, 0xAE74),
  (0x5DF0, 0xDD57_A476_A477_A478_A4DA),
  (0x5DF7, 0xABD1),
  (0x5DF9, 0xCEAF),
  (0x5DFD, 0xB453_A479_C95D),
  (0x5E02, 0xA5AB_A5AC_C978),
  (0x5E06, 0xA67C),
  (0x5E0A, 0xCACB),
  (0x5E0C, 0xA7C6),
  (0x5E0E, 0xCACC),
  (0x5E11, 0xA9AE),
  (0x5E14, 0xCC6E_A9AC_A9AB_CC6D_A9A9_CC6F_A9AA_A9AD),
  (0x5E1D, 0xABD2),
  (0x5E1F, 0xABD4_CEB3_CEB0_CEB1_CEB2_CEB4_ABD3),
  (0x5E28, 0xD174_D173),
  (0x5E2B, 0xAE76),
  (0x5E2D, 0xAE75),
  (0x5E33, 0xB162_D546),
  (0x5E36, 0xB161_B163_B160),
  (0x5E3D, 0xB455_D545),
  (0x5E40, 0xB456_D8F3),
  (0x5E43, 0xB457_D8F2_B454),
  (0x5E4A, 0xDD5A_DD5C_B745_DD5B_DD59_DD58),
  (0x5E53, 0xE1B4_B9F7_B9F5),
  (0x5E57, 0xB9F6_E1B2_E1B3),
  (0x5E5B, 0xB9F3_E571_E56F),
  (0x5E5F, 0xBC6D_E570_BC6E_BC6C_B9F4),
  (0x5E66, 0xE96D_E96B_E96C_E56E_ECDC_C0B0_ECDB_EFC5_EFC6_E96E_F1FE),
  (0x5E72, 0xA47A_A5AD_A67E_C9DB_A67D),
  (0x5E78, 0xA9AF_B746),
  (0x5E7B, 0xA4DB_A5AE_ABD5_B458),
  (0x5E80, 0xC979),
  (0x5E82, 0xC97A),
  (0x5E84, 0xC9DC),
  (0x5E87, 0xA7C8_CAD0_CACE_A7C9_CACD_CACF_CAD1),
  (0x5E8F, 0xA7C7),
  (0x5E95, 0xA9B3_A9B4_A9B1),
  (0x5E9A, 0xA9B0_CEB8_A9B2),
  (0x5EA0, 0xABD6),
  (0x5EA2, 0xCEB7_CEB9_CEB6_CEBA_ABD7_AE79_D175),
  (0x5EAA, 0xD177_AE77_D178_AE78_D176),
  (0x5EB0, 0xCEB5_D547_D54A_D54B_D548_B167_B166_B164_B165_D549),
  (0x5EBE, 0xB168),
  (0x5EC1, 0xB45A_B45B),
  (0x5EC4, 0xB45C_DD5D_DD5F_DD61_B748_B747_B459_DD60_DD5E),
  (0x5ECE, 0xE1B8),
  (0x5ED1, 0xE1B6_E1BC_B9F8_E1BD_E1BA_B9F9_E1B7_E1B5_E1BB_BC70_E573_E1B9),
  (0x5EDD, 0xBC72_E574_BC71_BC74_E575_BC6F_BC73),
  (0x5EE5, 0xE973_E971_E970_E972_E96F),
  (0x5EEC, 0xC366),
  (0x5EEE, 0xF446_F447),
  (0x5EF1, 0xF5CB_F6DF_C655),
  (0x5EF6, 0xA9B5_A7CA),
  (0x5EFA, 0xABD8),
  (0x5EFE, 0xA47B_A4DC),
  (0x5F01, 0xA5AF_C9DD),
  (0x5F04, 0xA7CB_CAD2),
  (0x5F07, 0xCEBB_ABD9),
  (0x5F0A, 0xB9FA_A47C),
  (0x5F0F, 0xA6A1),
  (0x5F12, 0xB749_A47D_A4DD_A4DE),
  (0x5F17, 0xA5B1_A5B0),
  (0x5F1A, 0xC9DE_A6A2),
  (0x5F1D, 0xCAD3),
  (0x5F1F, 0xA7CC),
  (0x5F22, 0xCC71_CC72_CC73),
  (0x5F26, 0xA9B6_A9B7_CC70_A9B8),
  (0x5F2D, 0xABDA_CEBC),
  (0x5F30, 0xD17A_AE7A),
  (0x5F33, 0xD179),
  (0x5F35, 0xB169_D54C_B16A_D54D),
  (0x5F3C, 0xB45D),
  (0x5F40, 0xDD62),
  (0x5F43, 0xE1BF_E1BE),
  (0x5F46, 0xB9FB),
  (0x5F48, 0xBC75_E576_BECA_E974_C0B1),
  (0x5F4E, 0xC573_F7D8),
  (0x5F54, 0xCC74),
  (0x5F56, 0xCEBD_B16B_D8F4_B74A),
  (0x5F5D, 0xC255),
  (0x5F62, 0xA7CE),
  (0x5F64, 0xA7CD_ABDB),
  (0x5F67, 0xD17B),
  (0x5F69, 0xB16D_B343_B16E_B16C_B45E),
  (0x5F6F, 0xE1C0_B9FC_BC76),
  (0x5F73, 0xC94C_C9DF),
  (0x5F76, 0xCAD5_A7CF_CAD4_A7D0),
  (0x5F7C, 0xA9BC_CC77_CC76_A9BB_A9B9_A9BA_CC75),
  (0x5F85, 0xABDD_CEBE_ABE0_ABDC_ABE2_ABDE_ABDF_ABE1),
  (0x5F90, 0xAE7D_AE7C_AE7B),
  (0x5F96, 0xD54F_B16F_B172_B170),
  (0x5F9B, 0xD54E_B175),
  (0x5F9E, 0xB171_D550_B174_B173),
  (0x5FA5, 0xD8F6_D8F5),
  (0x5FA8, 0xB461_B45F_B460_D8F7_B74B_DD64_B74C_DD63),
  (0x5FB2, 0xE577),
  (0x5FB5, 0xBC78_E1C1_BC77),
  (0x5FB9, 0xB9FD),
  (0x5FBB, 0xECDE_E975_C0B2_ECDD_F240_F448_F449),
  (0x5FC3, 0xA4DF),
  (0x5FC5, 0xA5B2),
  (0x5FC9, 0xC97B),
  (0x5FCC, 0xA7D2_A7D4),
  (0x5FCF, 0xC9E2_CAD8_CAD7_CAD6),
  (0x5FD4, 0xC9E1_C9E0_A6A4_A7D3_A7D1_A6A3),
  (0x5FDD, 0xA9BD_CC78),
  (0x5FE0, 0xA9BE_CADD),
  (0x5FE3, 0xCADF_CADE_CC79),
  (0x5FE8, 0xCADA),
  (0x5FEA, 0xA7D8_A7D6),
  (0x5FED, 0xCAD9_CADB_CAE1),
  (0x5FF1, 0xA7D5),
  (0x5FF3, 0xCADC_CAE5_A9C0),
  (0x5FF7, 0xCAE2_A7D7),
  (0x5FFA, 0xCAE0_CAE3),
  (0x5FFD, 0xA9BF),
  (0x5FFF, 0xA9C1_CAE4),
  (0x6009, 0xCCAF_CCA2_CC7E_CCAE_CCA9_ABE7_A9C2_CCAA_CCAD_ABE3_CCAC_A9C3),
  (0x6015, 0xA9C8_A9C6_CCA3),
  (0x6019, 0xCC7C_CCA5_A9CD_CCB0_ABE4_CCA6),
  (0x6020, 0xABE5_A9C9_CCA8),
  (0x6024, 0xCECD_ABE6_CC7B_A9CA_ABE8_A9CB_A9C7_A9CC_CCA7_CC7A_CCAB_A9C4),
  (0x6032, 0xCC7D_CCA4_CCA1_A9C5),
  (0x6037, 0xCEBF),
  (0x6039, 0xCEC0),
  (0x6040, 0xCECA_D1A1_CECB_ABEE_CECE_CEC4_ABED_CEC6),
  (0x6049, 0xCEC7),
  (0x604C, 0xCEC9_ABE9),
  (0x6050, 0xAEA3),
  (0x6052, 0xF9DA_CEC5_CEC1_AEA4),
  (0x6058, 0xCECF_AE7E_D17D_CEC8),
  (0x605D, 0xD17C_CEC3_CECC),
  (0x6062, 0xABEC_AEA1_ABF2_AEA2_CED0_D17E_ABEB_AEA6_ABF1_ABF0_ABEF_AEA5),
  (0x606E, 0xCED1_AEA7_ABEA),
  (0x6072, 0xCEC2),
  (0x607F, 0xB176_D1A4_D1A6),
  (0x6083, 0xD1A8_AEA8_AEAE_D553_D1AC_D1A3_B178_D551),
  (0x608C, 0xAEAD_AEAB_D1AE),
  (0x6090, 0xD552),
  (0x6092, 0xD1A5),
  (0x6094, 0xAEAC_D1A9_AEAF_D1AB),
  (0x609A, 0xAEAA_D1AA_D1AD_D1A7),
  (0x609F, 0xAEA9_B179),
  (0x60A2, 0xD1A2_B177),
  (0x60A8, 0xB17A),
  (0x60B0, 0xD555_D55E_B464),
  (0x60B4, 0xB17C_B1A3_B465_D560_B1AA_D8F9_D556_B1A2_B1A5_B17E_D554_D562),
  (0x60C0, 0xD565_D949),
  (0x60C3, 0xD563_D8FD_B1A1_B1A8_B1AC_D55D_D8F8_D561_B17B_D8FA_D564_D8FC),
  (0x60CF, 0xD559),
  (0x60D1, 0xB462),
  (0x60D3, 0xD557_D558_B1A7),
  (0x60D8, 0xB1A6_D55B_B1AB_D55F_B1A4_D55C),
  (0x60DF, 0xB1A9_B466_B463_D8FB),
  (0x60E4, 0xD55A),
  (0x60E6, 0xB17D),
  (0x60F0, 0xB46B_B46F_D940_B751_B46D_D944_B471_DD65_D946_B753_B469_B46C),
  (0x60FC, 0xD947),
  (0x60FE, 0xD948_D94E_B473_B754),
  (0x6103, 0xD94A_D94F_D943_B75E),
  (0x6108, 0xB755_B472_D941_D950),
  (0x610D, 0xB75D_B470_B74E_D94D),
  (0x6112, 0xB474_D945_D8FE_B46A_D942),
  (0x6118, 0xD94B),
  (0x611A, 0xB74D_B752_B467_D94C),
  (0x611F, 0xB750),
  (0x6123, 0xB468),
  (0x6127, 0xB75C_E1C3_DD70),
  (0x612B, 0xDD68_E1C2),
  (0x612E, 0xDD6C_DD6E),
  (0x6132, 0xDD6B),
  (0x6134, 0xB75B),
  (0x6136, 0xDD6A_B75F),
  (0x613B, 0xE1D2),
  (0x613E, 0xB75A_BA40_DD71_E1C4),
  (0x6144, 0xB758_DD69_DD6D_B9FE_B74F_DD66_DD67_BA41_B757_B759_B756_DD6F),
  (0x6152, 0xE1C8_E1C9_E1CE_BC7D_E1D5),
  (0x6158, 0xBA47),
  (0x615A, 0xBA46_E1D0),
  (0x615D, 0xBC7C_E1C5_BA45),
  (0x6161, 0xE1D4_BA43_BA44),
  (0x6165, 0xE1D1_E5AA_BC7A_B46E),
  (0x616A, 0xE1D3_BCA3_E1CB),
  (0x616E, 0xBC7B),
  (0x6170, 0xBCA2_E1C6_E1CA_E1C7_E1CD_BA48_BC79_BA42),
  (0x6179, 0xE57A_E1CF),
  (0x617C, 0xBCA1),
  (0x617E, 0xBCA4),
  (0x6180, 0xE1CC),
  (0x6182, 0xBC7E_E579),
  (0x6189, 0xE57E_BECE_E578_E9A3_E5A9_BCA8),
  (0x6190, 0xBCA6_BECC_E5A6_E5A2_BCAC),
  (0x6196, 0xE978),
  (0x619A, 0xBCAA_E5A1),
  (0x619D, 0xE976),
  (0x619F, 0xE5A5),
  (0x61A1, 0xE5A8_E57D),
  (0x61A4, 0xBCAB),
  (0x61A7, 0xBCA5_E977_BECD_E5A7_BCA7_BCA9_E5A4_BCAD_E5A3_E57C_E57B_BECB),
  (0x61B3, 0xE5AB_E97A_ECE0_BED0),
  (0x61B8, 0xE9A2),
  (0x61BA, 0xE97E),
  (0x61BC, 0xECE1),
  (0x61BE, 0xBED1_E9A1),
  (0x61C1, 0xE97C_C0B4_ECDF),
  (0x61C5, 0xE979_E97B_C0B5_BED3_C0B3_BED2_C0B7_E97D_BECF),
  (0x61D6, 0xEFCF),
  (0x61D8, 0xEFC7),
  (0x61DE, 0xECE7_EFC8_ECE3),
  (0x61E3, 0xC256_ECE5_ECE4_C0B6_ECE2_ECE6_EFD0_EFCC_EFCE),
  (0x61ED, 0xEFC9_EFCA),
  (0x61F0, 0xEFCD_EFCB_C367),
  (0x61F5, 0xC36A_C369_C368_C461_F44A_C462_F241_C4DF_F5CC_C4E0_C574_C5CA),
  (0x6201, 0xF7D9),
  (0x6203, 0xF7DA_F7DB),
  (0x6207, 0xF9BA_A4E0_C97C_A5B3),
  (0x620C, 0xA6A6_A6A7_A6A5),
  (0x6210, 0xA6A8_A7DA_A7D9),
  (0x6214, 0xCCB1_A9CF_A9CE),
  (0x6219, 0xD1AF_B1AD_B1AE),
  (0x621F, 0xB475_DD72_B760_B761_DD74_DD76_DD75),
  (0x6227, 0xE1D7),
  (0x6229, 0xE1D6_BA49_E1D8),
  (0x622D, 0xE5AC_BCAE),
  (0x6230, 0xBED4),
  (0x6232, 0xC0B8_C257_C0B9),
  (0x6236, 0xA4E1),
  (0x623A, 0xCAE6),
  (0x623D, 0xCCB2_A9D1_A9D0_A9D2_ABF3_CED2_CED3),
  (0x6246, 0xD1B0_AEB0_B1AF_B476_D951_A4E2),
  (0x624D, 0xA47E_A4E3),
  (0x6250, 0xC97D_A5B7_A5B6_A5B4_A5B5),
  (0x6258, 0xA6AB_C9E9_C9EB_A6AA_C9E3),
  (0x625E, 0xC9E4),
  (0x6260, 0xC9EA_C9E6_C9E8_A6A9_C9E5_C9EC_C9E7),
  (0x626D, 0xA7E1_A7EA_A7E8_CAF0_CAED_CAF5_A7E6_CAF6),
  (0x6276, 0xA7DF_CAF3),
  (0x6279, 0xA7E5_CAEF_CAEE_A7E3_CAF4_A7E4_A9D3_A7DE_CAF1),
  (0x6283, 0xCAE7_A7DB),
  (0x6286, 0xA7EE_CAEC_CAF2_A7E0_A7E2),
  (0x628C, 0xCAE8),
  (0x628E, 0xCAE9_CAEA),
  (0x6291, 0xA7ED_A7E7_A7EC_CAEB_A7EB_A7DD_A7DC_A7E9),
  (0x62A8, 0xA9E1_CCBE_CCB7_A9DC_A9EF_CCB3_CCBA_CCBC_CCBF_A9EA),
  (0x62B3, 0xCCBB_CCB4_A9E8_CCB8),
  (0x62B8, 0xCCC0_A9D9),
  (0x62BB, 0xCCBD_A9E3_A9E2_CCB6_A9D7),
  (0x62C2, 0xA9D8),
  (0x62C4, 0xA9D6),
  (0x62C6, 0xA9EE_A9E6_A9E0_A9D4_CCB9_A9DF_A9D5_A9E7_A9F0_CED4_A9E4_CCB5),
  (0x62D2, 0xA9DA_A9DD_A9DE),
  (0x62D6, 0xA9EC_A9ED_A9EB_A9E5_A9E9_A9DB_ABF4),
  (0x62EB, 0xCEDA_AC41_ABF8_ABFA_AC40_CEE6_ABFD_D1B1_AEB1_AC43_CED7_CEDF),
  (0x62F7, 0xABFE_CEDE_CEDB_CEE3_CEE5_ABF7_ABFB_AC42_AEB3_CEE0_ABF9_AC45),
  (0x6303, 0xCED9),
  (0x6307, 0xABFC_AEB2_ABF6),
  (0x630B, 0xCED6_CEDD_CED5_CED8_CEDC_D1B2_AC44),
  (0x6313, 0xCEE1_CEE2_CEE4_ABF5),
  (0x6328, 0xAEC1_D1BE_AEBF_AEC0_D1B4_D1C4),
  (0x632F, 0xAEB6),
  (0x6332, 0xD566_D1C6_D1C0),
  (0x6336, 0xD1B7),
  (0x6338, 0xD1C9_D1BA_AEBC_D57D_D1BD_AEBE_AEB5),
  (0x6340, 0xD1CB_D1BF_AEB8_D1B8_D1B5_D1B6_AEB9_D1C5_D1CC_AEBB_D1BC_D1BB),
  (0x634C, 0xAEC3_AEC2_AEB4_AEBA_AEBD_D1C8),
  (0x6354, 0xD1C2_AEB7_D1B3_D1CA_D1C1_D1C3_D1C7),
  (0x6365, 0xD567),
  (0x6367, 0xB1B7_B1CB_B1CA),
  (0x636B, 0xB1BF),
  (0x636D, 0xD579_D575_D572_D5A6_B1BA_B1B2),
  (0x6375, 0xD577_B4A8_B1B6_D5A1),
  (0x637A, 0xB1CC_B1C9_D57B_D56A),
  (0x6380, 0xB1C8_D5A3_D569_B1BD_B1C1_D5A2),
  (0x6387, 0xD573_B1C2_B1BC_D568),
  (0x638C, 0xB478_D5A5_D571_B1C7_D574_D5A4_B1C6),
  (0x6394, 0xD952),
  (0x6396, 0xB1B3_D56F_B1B8_B1C3),
  (0x639B, 0xB1BE_D578_D56E_D56C_D57E_B1B0_B1C4_B1B4_B477_D57C_B1B5),
  (0x63A7, 0xB1B1_B1C0_B1BB_B1B9_D570_B1C5_D56D_D57A_D576_D954_D953),
  (0x63BD, 0xD56B_D964),
  (0x63C0, 0xB47A),
  (0x63C2, 0xD96A_D959_D967_DD77_B47D_D96B_D96E_B47C_D95C_D96D_D96C_B47E),
  (0x63CE, 0xD955_B479_B4A3),
  (0x63D2, 0xB4A1_D969),
  (0x63D5, 0xD95F_B4A5_D970_D968_D971_B4AD_B4AB_D966_D965),
  (0x63DF, 0xD963_D95D_B4A4),
  (0x63E3, 0xB4A2_D1B9_D956),
  (0x63E7, 0xDDB7_D957_B47B_B4AA_DD79),
  (0x63ED, 0xB4A6_B4A7_D958_D96F_DD78_D960_D95B_B4A9_D961_D95E),
  (0x63F9, 0xB4AE),
  (0x6406, 0xB770),
  (0x6409, 0xDD7C_DDB1_DDB6_DDAA_B76C_DDBB_B769_DD7A),
  (0x6412, 0xDD7B_B762_B76B_DDA4_B76E_B76F_DDA5),
  (0x641A, 0xDDB2_DDB8_B76A),
  (0x641E, 0xB764_DDA3_DD7D_DDBA_DDA8_DDA9_DD7E_DDB4_DDAB_DDB5_DDAD),
  (0x642A, 0xB765_E1D9_B768_B766_DDB9_DDB0_DDAC),
  (0x6433, 0xDDA1_BA53_DDAF_B76D_DDA7),
  (0x6439, 0xDDA6),
  (0x643D, 0xB767_B763_E1EE_DDB3_DDAE),
  (0x6443, 0xDDA2),
  (0x644B, 0xE1E9),
  (0x644D, 0xE1DA_E1E5),
  (0x6450, 0xE1EC_BA51_B4AC_E1EA_BA4C),
  (0x6458, 0xBA4B_E1F1),
  (0x645B, 0xE1DB_E1E8_E1DC_E1E7_BA4F_E1EB_D962),
  (0x6465, 0xE1F2_E1E3_BA52_E5BA_BCAF),
  (0x646B, 0xE1F0_E1EF_BA54_E5AD_BCB0_E5AE),
  (0x6472, 0xE1DF_E1E0_E1DD_E1E2_E1DE_E1F3_BA4E_BCB1_BA50_BA55),
  (0x647D, 0xE1E1),
  (0x647F, 0xE1ED),
  (0x6482, 0xE1E6),
  (0x6485, 0xE5B1),
  (0x6487, 0xBA4A_BCB4_E9AA_E5B6_E5B5_E5B7),
  (0x648F, 0xE5B4_BCB5),
  (0x6492, 0xBCBB_BCB8),
  (0x6495, 0xBCB9_E5AF_E5B2_E5BC_BCC1_BCBF),
  (0x649C, 0xE5B3_D95A_BCB2_E5B9_E5B0),
  (0x64A2, 0xBCC2_E5B8_BA4D_BCB7_E1E4),
  (0x64A9, 0xBCBA),
  (0x64AB, 0xBCBE_BCC0_BCBD_BCBC),
  (0x64B0, 0xBCB6_E5BB_BCB3_BCC3),
  (0x64BB, 0xBED8_BED9_E9A9_BEE2_BEDF),
  (0x64C1, 0xBED6_BEDD_E9AB_BEDB_BED5),
  (0x64C7, 0xBEDC),
  (0x64C9, 0xE9A8_C0BB_BED7),
  (0x64CD, 0xBEDE_C0BA_E9A7_E9A6),
  (0x64D2, 0xBEE0),
  (0x64D4, 0xBEE1),
  (0x64D6, 0xE9A5_E9A4_C0BC_E9AE_BEDA_E9AC),
  (0x64E0, 0xC0BD),
  (0x64E2, 0xC0C2_ECEA_ECEC),
  (0x64E6, 0xC0BF),
  (0x64E8, 0xECED_ECE9),
  (0x64EB, 0xECEB_C0C0_C0C3),
  (0x64EF, 0xECE8_C0BE_C0C1_C259_E9AD_C258),
  (0x64F7, 0xC25E_EFD4),
  (0x64FA, 0xC25C_C25D_EFD7_EFD3_C25A_EFD1_C36B_EFD5),
  (0x6503, 0xEFD6_EFD2),
  (0x6506, 0xC25B_F242),
  (0x6509, 0xF245),
  (0x650C, 0xF246_F244_F247_C36C_F243),
  (0x6513, 0xF44E_C464_F44D_F44C_F44B_C463_C465),
  (0x651B, 0xF5CD_C4E2_C4E1),
  (0x6520, 0xF6E1_F6E0_F6E3_C5CB_C575_F7DD_F6E2),
  (0x6529, 0xF7DC_C5CD_C5CC_C5F3_F8A9_F8EF_A4E4),
  (0x6532, 0xD972_E9AF),
  (0x6536, 0xA6AC_CAF7_A7F1_A7EF),
  (0x653B, 0xA7F0),
  (0x653D, 0xCCC1_A9F1_AC46),
  (0x6541, 0xCEE7),
  (0x6543, 0xCEE8),
  (0x6545, 0xAC47_D1CE),
  (0x6548, 0xAEC4_AEC5_D1CD),
  (0x654F, 0xB1D3),
  (0x6551, 0xB1CF),
  (0x6553, 0xD5A7_B1D6_B1D5_B1CE_B1D1_B1D4_B1D0),
  (0x655C, 0xD976_B1CD_B4AF),
  (0x6562, 0xB4B1_B4B2_D975_D978_B4B0_D973_D977),
  (0x656A, 0xD974),
  (0x656C, 0xB771),
  (0x656F, 0xDDBC),
  (0x6572, 0xBA56_E1F4_BEE3_BCC4_E5BD_BCC5_BCC6_E5BF_E5BE_E5C0_E9B1),
  (0x657F, 0xE9B0_ECEF_ECEE_C0C4_C0C5_F248),
  (0x6587, 0xA4E5),
  (0x658C, 0xD979),
  (0x6590, 0xB4B4_B4B3_DDBD),
  (0x6594, 0xEFD8_C4E3_F7DE_A4E6),
  (0x6599, 0xAEC6),
  (0x659B, 0xB1D8_B1D7_D97A_D97B_B772_E1F5_BA57_E9B2),
  (0x65A4, 0xA4E7_A5B8),
  (0x65A7, 0xA9F2_CCC2),
  (0x65AA, 0xCEE9_AC48_B1D9),
  (0x65AE, 0xD97C_B4B5_B773),
  (0x65B2, 0xE5C1_E5C2),
  (0x65B6, 0xECF0_C25F_F8F0_A4E8),
  (0x65BB, 0xCCC3_A9F3_AC49),
  (0x65BF, 0xCEEA),
  (0x65C1, 0xAEC7_D1D2_D1D0_D1D1_AEC8_D1CF),
  (0x65CB, 0xB1DB_B1DC_D5A8_B1DD_B1DA_D97D),
  (0x65D2, 0xD97E_DDBE),
  (0x65D6, 0xBA59_BA58),
  (0x65DA, 0xECF1_EFD9),
  (0x65DD, 0xF24A_F249_F44F),
  (0x65E1, 0xC95E_AC4A),
  (0x65E5, 0xA4E9_A5B9),
  (0x65E8, 0xA6AE_A6AD),
  (0x65EC, 0xA6AF_A6B0_C9EE_C9ED_CAF8_A7F2_CAFB_CAFA_CAF9_CAFC),
  (0x65FA, 0xA9F4_CCC9_CCC5_CCCE),
  (0x6600, 0xA9FB),
  (0x6602, 0xA9F9_CCCA_CCC6_CCCD_A9F8_AA40_CCC8_CCC4_A9FE_CCCB_A9F7_CCCC),
  (0x660E, 0xA9FA_A9FC_CCD0_CCCF_CCC7_A9F6_A9F5_A9FD),
  (0x661C, 0xCEEF_CEF5),
  (0x661F, 0xAC50_AC4D_CEEC_CEF1),
  (0x6624, 0xAC53_AC4B_CEF0_AC4E_AC51),
  (0x662B, 0xCEF3),
  (0x662D, 0xAC4C_CEF8_AC4F),
  (0x6631, 0xAC52_CEED_CEF2_CEF6_CEEE_CEEB),
  (0x6639, 0xCEF7_CEF4),
  (0x6641, 0xAED0_AEC9_AECC),
  (0x6645, 0xAECF),
  (0x6647, 0xD1D5),
  (0x6649, 0xAECA_D1D3),
  (0x664C, 0xAECE),
  (0x664F, 0xAECB),
  (0x6651, 0xD1D6_AECD),
  (0x6659, 0xD5AC_B1DF_D5AB_D5AD_B1DE_B1E3_D1D4),
  (0x6661, 0xD5AA_D5AE),
  (0x6664, 0xB1E0_D5A9_B1E2),
  (0x6668, 0xB1E1),
  (0x666A, 0xD9A7),
  (0x666C, 0xD9A2),
  (0x666E, 0xB4B6_B4BA_B4B7_D9A5_D9A8),
  (0x6674, 0xB4B8),
  (0x6676, 0xB4B9_B4BE_DDC7_D9A6_B4BC_D9A3_D9A1),
  (0x667E, 0xB4BD),
  (0x6680, 0xD9A4),
  (0x6684, 0xB779),
  (0x6686, 0xDDBF_B776_B777_B775_DDC4_DDC3_DDC0_B77B),
  (0x6690, 0xDDC2_B4BB),
  (0x6694, 0xDDC6_DDC1_B778_B774_B77A_DDC5),
  (0x669D, 0xBA5C),
  (0x669F, 0xE1F8_E1F7_E1F6_BA5A),
  (0x66A8, 0xBA5B_E5C5_E5C8_BCC8),
  (0x66AE, 0xBCC7_E5C9_E5C4_BCCA_E5C6),
  (0x66B4, 0xBCC9_E5C3),
  (0x66B7, 0xE5C7_BEE9_BEE6_E9BB_E9BA),
  (0x66BD, 0xE9B9_E9B4),
  (0x66C0, 0xE9B5),
  (0x66C4, 0xBEE7),
  (0x66C6, 0xBEE4_BEE8_E9B3_BEE5_E9B6_E9B7_E9BC),
  (0x66CF, 0xE9B8),
  (0x66D2, 0xECF2),
  (0x66D6, 0xC0C7),
  (0x66D8, 0xEFDC_C0C6_EFDA_EFDB_C260_C36E_F24B),
  (0x66E0, 0xC36D),
  (0x66E3, 0xF451_F452),
  (0x66E6, 0xC466),
  (0x66E8, 0xF450_C4E4),
  (0x66EB, 0xF7DF_C5CE_F8AA_F8AB),
  (0x66F0, 0xA4EA),
  (0x66F2, 0xA6B1_A6B2_A7F3),
  (0x66F6, 0xCCD1_AC54_AED1_B1E4),
  (0x66FC, 0xB0D2),
  (0x66FE, 0xB4BF_B4C0_B3CC_D9A9),
  (0x6703, 0xB77C_E1FA_E1F9),
  (0x6708, 0xA4EB_A6B3_CCD2_AA42),
  (0x670D, 0xAA41),
  (0x670F, 0xCEF9_CEFA),
  (0x6712, 0xD1D7_D1D8_AED2_AED3),
  (0x6717, 0xAED4_D5AF),
  (0x671B, 0xB1E6),
  (0x671D, 0xB4C2),
  (0x671F, 0xB4C1_DDC8_DF7A_E1FB_E9BD),
  (0x6726, 0xC261_C467_A4EC),
  (0x672A, 0xA5BC_A5BD_A5BB_A5BE_A5BA),
  (0x6731, 0xA6B6),
  (0x6733, 0xC9F6_A6B5_A6B7),
  (0x6738, 0xC9F1_C9F0_C9F3_C9F2_C9F5_A6B4_C9EF_C9F4),
  (0x6745, 0xCAFD_A7FD_CAFE_CB43_A7FC),
  (0x674B, 0xCB47_CB42_CB45_A7F5_A7F6_A7F7_A7F8),
  (0x6753, 0xA840),
  (0x6755, 0xCB41_A7FA_A841),
  (0x6759, 0xCB40_CB46),
  (0x675C, 0xA7F9_CB44_A7FB_A7F4_A7FE),
  (0x676A, 0xAA57),
  (0x676C, 0xCCD4_AA43),
  (0x676F, 0xAA4D_AA4E_AA46_AA58_AA48_CCDC_AA53_CCD7_AA49_CCE6_CCE7_CCDF),
  (0x677B, 0xCCD8_AA56_CCE4_AA51_AA4F),
  (0x6781, 0xCCE5),
  (0x6783, 0xCCE3_CCDB_CCD3_CCDA_AA4A),
  (0x6789, 0xAA50),
  (0x678B, 0xAA44_CCDE_CCDD_CCD5),
  (0x6790, 0xAA52_CCE1_CCD6_AA55_CCE8_AA45),
  (0x6797, 0xAA4C_CCD9_CCE2_AA54),
  (0x679C, 0xAA47_AA4B),
  (0x679F, 0xCCE0),
  (0x67AE, 0xCF5B_AC5C_AC69),
  (0x67B2, 0xCF56_CF4C_AC62_CF4A_AC5B_CF45_AC65_CF52_CEFE_CF41),
  (0x67C0, 0xCF44_CEFB_CF51_CF61_AC60_CF46_CF58),
  (0x67C8, 0xCEFD_CF5F_CF60_CF63_CF5A_CF4B_CF53_AC66_AC59_AC61_AC6D_AC56),
  (0x67D4, 0xAC58),
  (0x67D8, 0xCF43_AC6A_AC63_CF5D_CF40_AC6C_AC67_CF49),
  (0x67E2, 0xAC6B_CF50_CF48_AC64_CF5C_CF54),
  (0x67E9, 0xAC5E_CF62_CF47_AC5A_CF59_CF4F_AC5F_CF55_AC57_CEFC_AC68_AEE3),
  (0x67F5, 0xAC5D_CF4E_CF4D_CF42),
  (0x67FA, 0xCF5E),
  (0x67FC, 0xCF57),
  (0x67FF, 0xAC55),
  (0x6812, 0xD1EC_AEEA_D1ED),
  (0x6816, 0xD1E1_AEDF_AEEB),
  (0x681A, 0xD1DA),
  (0x681C, 0xD1E3_D1EB),
  (0x681F, 0xD1D9_D1F4_AED5),
  (0x6825, 0xD1F3_D1EE),
  (0x6828, 0xD1EF_AEDD_AEE8_D1E5),
  (0x682D, 0xD1E6_D1F0_D1E7),
  (0x6831, 0xD1E2_D1DC_D1DD_D1EA_D1E4),
  (0x6838, 0xAED6_AEDA_D1F2_D1DE_AEE6_AEE2),
  (0x6840, 0xAEE5_AEEC_AEDB_AEE7_D1E9_AEE9_AED8),
  (0x6848, 0xAED7_D1DB),
  (0x684B, 0xD1DF_AEE0_D1F1_D1E8_D1E0_AEE4_AEE1),
  (0x6853, 0xAED9_AEDC),
  (0x686B, 0xD5C4),
  (0x686D, 0xD5B4_D5B5_D5B9),
  (0x6871, 0xD5C8_D5C5),
  (0x6874, 0xD5BE_D5BD_B1ED_D5C1_D5D0_D5B0),
  (0x687B, 0xD5D1_D5C3_D5D5_D5C9_B1EC_D5C7_B1E7_B1FC_B1F2),
  (0x6885, 0xB1F6_B1F5_D5B1),
  (0x6889, 0xD5CE_D5D4_D5CC_D5D3),
  (0x688F, 0xD5C0_D5B2_D5D2_D5C2_B1EA_B1F7),
  (0x6896, 0xD5CB_B1F0),
  (0x689B, 0xD5CA_D5B3_B1F8),
  (0x689F, 0xB1FA_D5CD_B1FB_B1E9_D5BA_D5CF),
  (0x68A7, 0xB1EF_B1F9_D5BC_D5C6_D5B7_D5BB_B1F4_D5B6_B1E8_B1F1_B1EE_D5BF),
  (0x68B3, 0xAEDE_D9C0_B1EB),
  (0x68C4, 0xB1F3),
  (0x68C6, 0xD9C3_D9D9_D9CE_B4D6),
  (0x68CB, 0xB4D1_D9BD_B4D2_D9CD),
  (0x68D0, 0xD9C6_D9D3_B4CE_D9AB_D9D5_B4C4_D9B3_B4C7_B4C6),
  (0x68DA, 0xB4D7),
  (0x68DC, 0xD9AD_D9CF_D9D0_B4C9_B4C5_D9BB),
  (0x68E3, 0xB4D0_D9B6),
  (0x68E6, 0xD9D1_B4CC_D9C9_D9D6_D9B0_D9B5_D9AF),
  (0x68EE, 0xB4CB_D9C2_DDDE_D9B1_B4CF_D9BA_D9D2_B4CA_D9B7_D9B4_D9C5_B4CD),
  (0x68FA, 0xB4C3_B4D9_D9C8_D9C7),
  (0x6904, 0xD9AC_B4C8_D9D4_D9BC_D9BE),
  (0x690A, 0xD9CB_D9CA_D9AA_B4D3_B4D5_D9B2_D9B9_D9C1_B4D4_D9B8_D9C4_D9D7),
  (0x6917, 0xD9CC),
  (0x6925, 0xD9D8),
  (0x692A, 0xD9AE),
  (0x692F, 0xDDF2_B7A6),
  (0x6932, 0xDDF0_DDDB_DDE0_DDD9),
  (0x6937, 0xDDEC_DDCB_DDD2),
  (0x693B, 0xDDEA_DDF4_DDDC),
  (0x693F, 0xDDCF_DDE2_DDE7_DDD3),
  (0x6944, 0xDDE4_DDD0),
  (0x6948, 0xDDD7_DDD8_B7A8_DDEB_DDE9),
  (0x694E, 0xDDCC_DDEE),
  (0x6951, 0xDDEF_DDF1_B7AC_B7A4),
  (0x6956, 0xD5B8_DDD4_DDE6_DDD5_B7A1_B7B1_DDED_B7AF_B7AB_DDCA_B7A3),
  (0x6962, 0xDDCD_B7B0),
  (0x6965, 0xDDDD_DDC9),
  (0x6968, 0xB7A9_DDE1_DDD1_B7AA_DDDA_B77E_B4D8_DDE3_D9BF_DDCE),
  (0x6974, 0xDDE8_B7A5_DDE5_B7A2_DDDF_B7AD_DDD6_DDF3),
  (0x6982, 0xB7A7_DEC6),
  (0x6986, 0xB7AE),
  (0x698D, 0xE24A_E248),
  (0x6990, 0xE25E_E246),
  (0x6993, 0xE258_B77D_BA5F_E242_E25D),
  (0x6999, 0xE247_E255_BA64_BA5D),
  (0x699E, 0xE25B),
  (0x69A0, 0xE240_E25A),
  (0x69A3, 0xBA6F_E251_E261_BA6D_E249_BA5E_E24B_E259_BA67_E244_BA6B_BA61),
  (0x69AF, 0xE24D_E243_E1FC),
  (0x69B3, 0xE257_BA68_E260_E1FD_BA65),
  (0x69B9, 0xE253),
  (0x69BB, 0xBA66_E245_E250_E24C_E24E),
  (0x69C1, 0xBA60_E25F_BA6E_E24F),
  (0x69C6, 0xE262),
  (0x69C9, 0xE1FE_E254_BA63_BA6C_BA6A_E241_E256_BA69),
  (0x69D3, 0xBA62_E252),
  (0x69D9, 0xE25C),
  (0x69E2, 0xE5D5),
  (0x69E4, 0xE5D1_E5CD_E5E1_E5DE_BCCD),
  (0x69EB, 0xE5E5_E5D4_BCD8_E5DB),
  (0x69F1, 0xE5D0_E5DA_BCD5_E5EE),
  (0x69F6, 0xE5EB_E5DD_E5CE),
  (0x69FB, 0xE5E2_E5E4_BCD1_E5D8_E5D3_E5CA_BCCE_BCD6),
  (0x6A04, 0xE5E7_BCD7_E5CB_E5ED_E5E0_E5E6_BCD4),
  (0x6A0D, 0xE5E3),
  (0x6A0F, 0xE5EA),
  (0x6A11, 0xBCD9),
  (0x6A13, 0xBCD3_E5DC_E5CF_E5EF_E5CC_E5E8_BCD0),
  (0x6A1B, 0xE5D6),
  (0x6A1D, 0xE5D7_BCCF_BCCC_E5D2_BCD2),
  (0x6A23, 0xBCCB),
  (0x6A25, 0xE5E9_E5EC_E5D9_E9CA),
  (0x6A32, 0xE9C2),
  (0x6A34, 0xE9BE_BEF6),
  (0x6A38, 0xBEEB_BEF0_BEEC_E9CC_E9D7_BEEA_E9C4_E9CD_E5DF_E9CE),
  (0x6A44, 0xBEF1),
  (0x6A46, 0xE9DD_BEF5_BEF8_E9C0),
  (0x6A4B, 0xBEF4),
  (0x6A4D, 0xE9DB_E9DC_E9D2_E9D1_E9C9),
  (0x6A54, 0xE9D3_E9DA_E9D9),
  (0x6A58, 0xBEEF_BEED_E9CB_E9C8),
  (0x6A5D, 0xE9C5_E9D8_BEF7_E9D6_BEF3_BEF2),
  (0x6A64, 0xE9D0),
  (0x6A66, 0xE9BF_E9C1_E9C3_E9D5_E9CF_BEEE),
  (0x6A6D, 0xE9C6),
  (0x6A6F, 0xE9D4),
  (0x6A76, 0xE9C7),
  (0x6A7E, 0xC0CF_ED45_C0C8_ECF5),
  (0x6A83, 0xED41_C0CA_ED48),
  (0x6A87, 0xECFC),
  (0x6A89, 0xECF7),
  (0x6A8C, 0xED49_ECF3_ECFE),
  (0x6A90, 0xC0D1_ED44_ED4A_ECFD_C0C9_ED40_ECF4_C0D0),
  (0x6A9A, 0xED47_ECF9_C0CC),
  (0x6A9E, 0xECFB_ECF8_C0D2_ECFA_C0CB_C0CE_ED43_ECF6_ED46),
  (0x6AA8, 0xED42),
  (0x6AAC, 0xC263_EFE7_C268_C269),
  (0x6AB3, 0xC262_EFE6),
  (0x6AB6, 0xEFE3_EFE4_C266_EFDE_EFE2_C265),
  (0x6ABD, 0xEFDF),
  (0x6AC2, 0xC267_C264),
  (0x6AC5, 0xEFDD_EFE1_EFE5),
  (0x6ACB, 0xF251_F24E_F257),
  (0x6ACF, 0xF256_F254_F24F),
  (0x6AD3, 0xC372),
  (0x6AD9, 0xF250_C371_C0CD_F253_C370_F258_F252_F24D_EFE0),
  (0x6AE5, 0xC36F),
  (0x6AE7, 0xF24C_F456),
  (0x6AEA, 0xF455_F255_C468),
  (0x6AEE, 0xF459_F45A_F454_F458),
  (0x6AF3, 0xF453),
  (0x6AF8, 0xF5D1_F457_C4E7_C4E5_F5CF),
  (0x6B00, 0xF5D2),
  (0x6B02, 0xF5CE_F5D0_C4E6),
  (0x6B08, 0xF6E5_F6E6_C576_F6E4),
  (0x6B0F, 0xF7E2_C5CF_F7E0_F7E1_F8AC),
  (0x6B16, 0xC656_F8F3_F8F1_F8F2_F8F4),
  (0x6B1E, 0xF9BB),
  (0x6B20, 0xA4ED_A6B8),
  (0x6B23, 0xAA59),
  (0x6B25, 0xCCE9),
  (0x6B28, 0xCF64),
  (0x6B2C, 0xD1F5_D1F7),
  (0x6B2F, 0xD1F6),
  (0x6B31, 0xD1F8_B1FD_D5D7_D1F9),
  (0x6B36, 0xD5D6_D5D8_D5D9_D9DA_B4DB_D9DB_D9DD_B4DC_B4DA_D9DC),
  (0x6B41, 0xDDFA_DDF8_DDF7),
  (0x6B45, 0xDDF6_DDF5_B7B2_DDF9_BA70_E263_E265_BA71_E264_BCDB),
  (0x6B50, 0xBCDA_E5F0),
  (0x6B54, 0xE9DF_E9DE_E9E0),
  (0x6B59, 0xBEF9),
  (0x6B5B, 0xED4B_C0D3),
  (0x6B5E, 0xEFE8_C26A_F259_C577_A4EE_A5BF_A6B9_A842_AA5A_AA5B),
  (0x6B6A, 0xAC6E),
  (0x6B6D, 0xD1FA),
  (0x6B72, 0xB7B3),
  (0x6B76, 0xE6D1_BEFA_C26B_A4EF),
  (0x6B7B, 0xA6BA),
  (0x6B7E, 0xCCEB_AA5C_CCEA),
  (0x6B82, 0xCF65_AC6F_CF66),
  (0x6B86, 0xAC70),
  (0x6B88, 0xD1FC_AEEE_AEED),
  (0x6B8C, 0xD5DE_D5DC_D5DD_D5DB),
  (0x6B91, 0xD5DA),
  (0x6B94, 0xD9DE_D9E1_B4DE_D9DF_B4DD_D9E0),
  (0x6B9B, 0xDDFB),
  (0x6B9E, 0xE266_E267_E268),
  (0x6BA2, 0xE5F3_E5F2_BCDC_E5F1_E5F4_E9E1),
  (0x6BAA, 0xE9E2_E9E3),
  (0x6BAD, 0xED4C_C0D4_C26C_F25A),
  (0x6BB2, 0xC4E8_C95F),
  (0x6BB5, 0xAC71_CF67_AEEF),
  (0x6BBA, 0xB1FE),
  (0x6BBC, 0xB4DF_D9E2),
  (0x6BBF, 0xB7B5_B7B4),
  (0x6BC3, 0xE269_E26A_BCDD_BCDE_E9E5_E9E4_EFE9_F7E3_A4F0_C960_A5C0),
  (0x6BCF, 0xA843_CB48),
  (0x6BD2, 0xAC72_B7B6_A4F1),
  (0x6BD6, 0xCF68_AC73_CF69),
  (0x6BDA, 0xC0D5_A4F2),
  (0x6BDE, 0xCCEC),
  (0x6BE0, 0xCF6A),
  (0x6BE2, 0xD242_D241_D1FE),
  (0x6BE6, 0xD1FD_D243_D240),
  (0x6BEB, 0xB240_B241),
  (0x6BEF, 0xB4E0_D9E3),
  (0x6BF2, 0xD9E4_D9E5),
  (0x6BF7, 0xDE41_DE42_DE40),
  (0x6BFB, 0xDDFD_DDFE_B7B7_E26B_E5F7_E5F6_E5F5_E5F8_E9E7_E9E6_BEFB_E9E8),
  (0x6C08, 0xC0D6_ED4D),
  (0x6C0B, 0xEFEA_F25B_F6E7),
  (0x6C0F, 0xA4F3_A5C2_A5C1),
  (0x6C13, 0xAA5D_C961_C97E_A6BB),
  (0x6C18, 0xC9F7_CB49_CB4A_AA5E),
  (0x6C1D, 0xCCED),
  (0x6C1F, 0xAC74_CF6B_CF6C),
  (0x6C23, 0xAEF0_AEF4_D244_AEF3_AEF1_AEF2),
  (0x6C2A, 0xD5DF_B242_B4E3),
  (0x6C2E, 0xB4E1_B4E2_D9E6),
  (0x6C33, 0xBA72_A4F4),
  (0x6C36, 0xC9A1),
  (0x6C38, 0xA5C3),
  (0x6C3B, 0xC9A4),
  (0x6C3E, 0xA5C6_C9A3_A5C5_A5C4_A844_C9A2),
  (0x6C46, 0xC9F8),
  (0x6C4A, 0xC9FC_C9FE_CA40_A6C5_A6C6_C9FB_A6C1),
  (0x6C52, 0xC9F9),
  (0x6C54, 0xC9FD_A6C2),
  (0x6C57, 0xA6BD),
  (0x6C59, 0xA6BE),
  (0x6C5B, 0xA6C4_C9FA_A6BC_A845_A6BF_A6C0_A6C3),
  (0x6C65, 0xCB5B_CB59_CB4C_A851_CB53_A84C_CB4D),
  (0x6C6D, 0xCB55),
  (0x6C6F, 0xCB52_A84F_CB51_A856_CB5A_A858),
  (0x6C76, 0xA85A),
  (0x6C78, 0xCB4B),
  (0x6C7A, 0xA84D_CB5C),
  (0x6C7D, 0xA854_A857),
  (0x6C80, 0xCD45_A847_A85E_A855_CB4E_A84A_A859_CB56_A848_A849_CD43_CB4F),
  (0x6C8C, 0xA850_A85B_CB5D_CB50_A84E),
  (0x6C92, 0xA853_CCEE_A85C_CB57_A852),
  (0x6C98, 0xA85D_A846_CB54_A84B_CB58_CD44),
  (0x6CAB, 0xAA6A_AA7A_CCF5_AA71),
  (0x6CB0, 0xCD4B_AA62),
  (0x6CB3, 0xAA65_CD42),
  (0x6CB6, 0xCCF3_CCF7_AA6D_AA6F_CCFA_AA76_AA68_AA66_AA67_AA75_CD47_AA70),
  (0x6CC2, 0xCCF9_CCFB_AA6E_AA73_CCFC_CD4A),
  (0x6CC9, 0xAC75_AA79),
  (0x6CCC, 0xAA63_CD49),
  (0x6CCF, 0xCD4D_CCF8_CD4F_CD40_AA6C_CCF4_AA6B_AA7D_AA72),
  (0x6CD9, 0xCCF2_CF75_AA78_AA7C_CD41_CD46),
  (0x6CE0, 0xAA7E_AA77_AA69_AA5F),
  (0x6CE5, 0xAA64),
  (0x6CE7, 0xCCF6_AA60_CD4E),
  (0x6CEB, 0xCCF0_CCEF_CCFD_CCF1_AA7B_AEF5_AA74_CCFE_AA61),
  (0x6CF5, 0xACA6),
  (0x6CF9, 0xCD4C),
  (0x6D00, 0xCF7C_CFA1),
  (0x6D03, 0xCFA4_CF77),
  (0x6D07, 0xCFA7_CFAA_CFAC_CF74_AC76_AC7B_D249_ACAD_CFA5_CFAD_CF7B_CF73),
  (0x6D16, 0xD264_AC7E_CFA2_CF78_CF7A_ACA5),
  (0x6D1D, 0xCF7D_AC7D_CF70_CFA8),
  (0x6D22, 0xCFAB),
  (0x6D25, 0xAC7A),
  (0x6D27, 0xACA8_CF6D_ACAA_AC78_ACAE_CFA9_CF6F_ACAB_D25E_CD48_AC7C_AC77),
  (0x6D33, 0xCF76_CF6E_ACAC_ACA4_CFA3_ACA9_ACA7_CF79_ACA1_CF71_ACA2_ACA3),
  (0x6D3F, 0xCF72_CFA6_AC79_CF7E),
  (0x6D58, 0xD24C_AEFD_AF43),
  (0x6D5E, 0xD255_D25B_D257_D24A_D24D_D246_D247_AF4A_AEFA_D256_D25F_AF45),
  (0x6D6A, 0xAEF6),
  (0x6D6C, 0xAF40_D24E_AF42_D24F_D259),
  (0x6D74, 0xAF44_D268_D248_AEFC_AEFB_AF48_D245_D266_D25A_D267_D261_D253),
  (0x6D80, 0xD262),
  (0x6D82, 0xD25C_D265_D263_AF49_D254_AEF9_AEF8_AF41_AF47_D260_AF46_D251),
  (0x6D8E, 0xB243),
  (0x6D90, 0xD269_D250_D24B_AEFE_AF4B_AEF7),
  (0x6D97, 0xD258_D25D),
  (0x6DAA, 0xB265_D5E1_D5E5),
  (0x6DAE, 0xB252_B250),
  (0x6DB2, 0xB247_D5E3_D5E2_B25B),
  (0x6DB7, 0xD5E8_B255),
  (0x6DBA, 0xD5FA_D647_B244_D5F7_D5F0_B267_D5E0),
  (0x6DC2, 0xD5FC),
  (0x6DC4, 0xB264_B258_B263_B24E_D5EC_D5FE_D5F6_B24F_B249_D645),
  (0x6DCF, 0xD5FD_D640_B251_B259_D642_D5EA_D5FB_D5EF_D644_B25E_B246_B25C),
  (0x6DDB, 0xD5F4_D5F2_D5F3_B253_D5EE_D5ED_B248_D5E7_D646_B24A_D5F1_B268),
  (0x6DE8, 0xB262_D5E6_B25F_B25D_B266_D5F8_B261_D252_D5F9_B260_D641_B245),
  (0x6DF4, 0xD5F5_B257_D5E9_B256),
  (0x6DF9, 0xB254_B24C_B24B_D9E7_D643),
  (0x6E00, 0xD5EB),
  (0x6E03, 0xD9FC),
  (0x6E05, 0xB24D),
  (0x6E19, 0xB541_B25A_B4EE_D9F6_B4FC),
  (0x6E1F, 0xD9EA_B4EB_B4E7_DA49_B4ED_B4F1_B4EC_B4F5_DA4D_DA44),
  (0x6E2B, 0xD9F1_B4FA_B4F4_D9FD_B4E4_DA4A_DA43_B4E8_D9F7_B4F7_DA55_DA56),
  (0x6E38, 0xB4E5_DA48_B4F9_D9FB_D9ED_D9EE_B4FD_D9F2_D9F9_D9F3),
  (0x6E43, 0xB4FB_B544_D9EF_D9E8_D9E9),
  (0x6E49, 0xD9EB_B4EA_D9F8),
  (0x6E4D, 0xB4F8_B542),
  (0x6E51, 0xD9FA_DA53_DA4B_B4E6_DA51_B4F2),
  (0x6E58, 0xB4F0),
  (0x6E5A, 0xDA57_B4EF_DA41_D9F4_D9FE_B547_DA45_DA42_D9F0_B543_DA4F_DA4C),
  (0x6E66, 0xDA54_B4E9_DA40_B546),
  (0x6E6B, 0xDA47),
  (0x6E6E, 0xB4F3_B4F6),
  (0x6E71, 0xDA46_B545_D9F5_D5E4),
  (0x6E77, 0xDA50_DA4E_DA52),
  (0x6E88, 0xD9EC_B540),
  (0x6E8D, 0xDE61_DE60_DE46_B7BD),
  (0x6E92, 0xDE5F_DE49_DE4A),
  (0x6E96, 0xB7C7_DE68_B7C2_DE5E),
  (0x6E9B, 0xDE43_B7C8_B7BE_DE52_DE48_DE4B_DE63_B7B8_DE6A_DE62_B7C1_DE57),
  (0x6EA7, 0xB7CC),
  (0x6EAA, 0xB7CB_B7C5),
  (0x6EAE, 0xDE69_B7B9_DE55_DE4C_DE59_DE65_B7CD),
  (0x6EB6, 0xB7BB_DE54),
  (0x6EB9, 0xDE4D_B7C4),
  (0x6EBC, 0xB7C3_DE50_DE5A_DE64_DE47_DE51_B7BC_DE5B_B7C9_B7C0_DE4E_B7BF),
  (0x6EC8, 0xDE45_DE53_DE67_B4FE_BAB0_DE56_E26C_DE58_DE66_B7C6_DE4F_B7BA),
  (0x6ED4, 0xB7CA_BCF0_DE44),
  (0x6ED8, 0xDE5D),
  (0x6EDC, 0xDE5C),
  (0x6EEB, 0xE2AA_BAAD_E27D_E2A4_BAA2),
  (0x6EF1, 0xE26E_BAAF),
  (0x6EF4, 0xBA77_E26D_E2B0_BAB1_E271_E2A3),
  (0x6EFB, 0xE273_E2B3_E2AF_BA75_BAA1_E653_BAAE_BA7D_E26F),
  (0x6F05, 0xE2AE_BAA3_E2AB_E2B8_E275_E27E),
  (0x6F0D, 0xE2B6_E2AC_BA7C),
  (0x6F12, 0xE27C_BA76_BA74_BAA8),
  (0x6F18, 0xE27A_E277_E278),
  (0x6F1C, 0xE2B2),
  (0x6F1E, 0xE2B7_E2B5_BA7A_E2B9_BA7E_BAA7),
  (0x6F25, 0xE270_E5FA_E279),
  (0x6F29, 0xBA78_BAAC_BAA9_BA7B_E2A5_E274_BAAA_E2A7_BAA4_BAA6_BA73),
  (0x6F35, 0xE2A9_E2A1_E272_BAA5_E2B1_E2B4_E27B_E2A8),
  (0x6F3E, 0xBA79_BCDF_E2A6_E5F9),
  (0x6F43, 0xE2AD),
  (0x6F4E, 0xE276_E644_E64E_BCE2_E64D_E659_BCE4_E64B),
  (0x6F57, 0xE64F_BCEF),
  (0x6F5A, 0xE646_BCE7),
  (0x6F5D, 0xE652_E9F0_BCF3_BCF2_E654_E643_E65E_BCED),
  (0x6F66, 0xBCE3_E657),
  (0x6F69, 0xE65B_E660_E655_E649_BCE6_BCE9_BCF1_BCEC),
  (0x6F72, 0xE64C_E2A2),
  (0x6F76, 0xE648_E65F_BCE8),
  (0x6F7A, 0xBCEB_E661_BCE0_E656_E5FB_E65C_C0DF),
  (0x6F82, 0xE64A),
  (0x6F84, 0xBCE1_E645_BCE5_E5FC_BAAB_E641),
  (0x6F8B, 0xE65A_E642_E640_BCEA),
  (0x6F90, 0xE658),
  (0x6F92, 0xE5FE_E651_E650_E65D_E647_BCEE),
  (0x6F9E, 0xE9F3),
  (0x6FA0, 0xBF49_BEFE_EA40_E9EB_BF41_E9F7_BF48_BF43_E9F5_ED4F_E9FB_EA42),
  (0x6FAC, 0xE9FA_E9E9_E9F8_EA44_EA46_BEFD_EA45_BF44_BF4A),
  (0x6FB6, 0xBF47),
  (0x6FB8, 0xE9FE_BF46_E9F9),
  (0x6FBC, 0xE9ED_E9F2),
  (0x6FBF, 0xE9FD_BF45_BF42_BEFC_BF40_E9F1),
  (0x6FC6, 0xE5FD_E9EC_E9EF_EA41_E9F4_E9EA_ED4E_EA43_E9EE_E9FC),
  (0x6FD4, 0xED51_C0E3),
  (0x6FD8, 0xC0D7),
  (0x6FDB, 0xC0DB_ED53_ED59_ED57_C0D9_C0DA_C0E1_ED5A_ED52_C0DC),
  (0x6FE6, 0xED56_ED55_ED5B_C0E2),
  (0x6FEB, 0xC0DD_C0E0_ED54_C0E4_C0DE_C0E5_C0D8_ED58),
  (0x6FF4, 0xED50),
  (0x6FF7, 0xEFF7),
  (0x6FFA, 0xC271_EFF4_EFF6),
  (0x6FFE, 0xC26F_EFF2_EFF3_EFEE),
  (0x7004, 0xE9F6_EFEF_C270_EFEB),
  (0x7009, 0xC26D_EFF8_C26E_EFEC_EFED_EFF1_C273),
  (0x7011, 0xC272),
  (0x7014, 0xEFF0_C378_F25F_F265_C379_F25C_C376_C373_F267_C377),
  (0x701F, 0xC374_F25E_F261_F262_F263_F266),
  (0x7026, 0xEFF5_F25D_C375_F264_F268_F260),
  (0x702F, 0xF45D_C46A_F460_C46B_F468_F45F_F45C),
  (0x7037, 0xF45E_F462_F465_F464_F467_F45B),
  (0x703E, 0xC469_F463_F466_F469_F461_F5D3_F5D4_F5D8_F5D9),
  (0x7048, 0xF5D6_F5D7_F5D5),
  (0x704C, 0xC4E9),
  (0x7051, 0xC578_F6EB),
  (0x7055, 0xF6E8_F6E9_F6EA_C579),
  (0x705A, 0xF7E5_F7E4),
  (0x705D, 0xF8AF_C5F4_F8AD_F8B0_F8AE_F8F5_C657_C665_F9A3_F96C),
  (0x7068, 0xF9A2_F9D0_F9D1_A4F5),
  (0x7070, 0xA6C7_CA41),
  (0x7074, 0xCB5E),
  (0x7076, 0xA85F),
  (0x7078, 0xA862),
  (0x707A, 0xCB5F),
  (0x707C, 0xA860_A861),
  (0x7082, 0xCD58_CD5A_CD55_CD52_CD54),
  (0x708A, 0xAAA4),
  (0x708E, 0xAAA2),
  (0x7091, 0xCD56_AAA3_CD53_CD50_AAA1_CD57),
  (0x7098, 0xCD51_AAA5_CD59),
  (0x709F, 0xCFAF),
  (0x70A1, 0xCFB3),
  (0x70A4, 0xACB7),
  (0x70A9, 0xCFB6),
  (0x70AB, 0xACAF_ACB2_ACB4_ACB6_ACB3_CFB2_CFB1),
  (0x70B3, 0xACB1_CFB4_CFB5),
  (0x70B7, 0xCFAE_ACB5),
  (0x70BA, 0xACB0),
  (0x70BE, 0xCFB0),
  (0x70C5, 0xD277_D278_D279_AF50),
  (0x70CA, 0xAF4C_D26E),
  (0x70CD, 0xD276_D27B_AF51),
  (0x70D1, 0xD26C_D272_D26B_D275),
  (0x70D7, 0xD271_AF4D_AF4F_D27A),
  (0x70DC, 0xD26A_D26D_D273),
  (0x70E0, 0xD274_D27C_D270),
  (0x70E4, 0xAF4E),
  (0x70EF, 0xB26D_D64E),
  (0x70F3, 0xD650_D64C),
  (0x70F6, 0xD658_D64A_D657_B269_D648_DA5B_D652_B26C),
  (0x70FF, 0xD653_D656),
  (0x7102, 0xD65A),
  (0x7104, 0xD64F),
  (0x7106, 0xD654),
  (0x7109, 0xB26A_B26B_D659_D64D_D649_D65B),
  (0x7110, 0xD651),
  (0x7113, 0xD655),
  (0x7117, 0xD64B),
  (0x7119, 0xB548_B549_DA65_B54F),
  (0x711E, 0xDA59_DA62_DA58_B54C_DA60_DA5E),
  (0x7125, 0xDA5F_B54A),
  (0x7128, 0xDA63),
  (0x712E, 0xDA5C_DA5A_B54B_DA5D_DA61),
  (0x7136, 0xB54D),
  (0x713A, 0xDA64),
  (0x7141, 0xDE70_DE77_DE79_DEA1),
  (0x7146, 0xB7DA_DE6B),
  (0x7149, 0xB7D2),
  (0x714B, 0xDE7A_B7D7_DEA2_B7CE),
  (0x7150, 0xDE7D),
  (0x7152, 0xDE6D_DE7E_DE6C),
  (0x7156, 0xB7DC),
  (0x7158, 0xDE78_B7CF_DEA3),
  (0x715C, 0xB7D4_DE71_B7D9_DE7C_DE6F_DE76_DE72_DE6E_B7D1_B7D8_B7D6_B7D3),
  (0x7168, 0xB7DB_B7D0_DE75),
  (0x716C, 0xB7D5),
  (0x716E, 0xB54E),
  (0x7170, 0xDE7B),
  (0x7172, 0xDE73),
  (0x7178, 0xDE74),
  (0x717B, 0xE2C1),
  (0x717D, 0xBAB4),
  (0x7180, 0xE2BD_E2C3_E2BF),
  (0x7184, 0xBAB6_E2BE_E2C2_E2BA),
  (0x7189, 0xE2BC_BAB5),
  (0x718F, 0xE2C0_E2BB),
  (0x7192, 0xBAB7),
  (0x7194, 0xBAB2),
  (0x7197, 0xE2C4),
  (0x7199, 0xBAB3_E667_E664_E670_E66A_E66C_BCF4_E666_E66E),
  (0x71A4, 0xE66D_E66B),
  (0x71A7, 0xE671_BCF7_E668_E66F),
  (0x71AC, 0xBCF5),
  (0x71AF, 0xE663_E665_BCF6_E662_E672),
  (0x71B5, 0xE669),
  (0x71B8, 0xEA4A_BF51),
  (0x71BC, 0xEA55_EA53_BF4B_EA49_EA4C_EA4D_EA48_BF55_BF56_EA47_EA56_EA51),
  (0x71C8, 0xBF4F_BF4C_EA50_EA4E),
  (0x71CE, 0xBF52_EA52_BF4D),
  (0x71D2, 0xBF4E),
  (0x71D4, 0xEA4F_BF50_EA4B),
  (0x71D8, 0xEA54_BF53_EA57_EA58_BF54),
  (0x71DF, 0xC0E7_C0EE_ED5C_ED62),
  (0x71E4, 0xED60_C0EA_C0E9_C0E6_ED5E),
  (0x71EC, 0xC0EC_C0EB_C0E8),
  (0x71F0, 0xED61_ED5D_ED5F),
  (0x71F4, 0xC0ED),
  (0x71F8, 0xC277_EFFB),
  (0x71FB, 0xC274_C275_EFFD_C276_EFFA),
  (0x7201, 0xEFF9_F26C_EFFC),
  (0x7205, 0xF26D_C37A_F26B),
  (0x720A, 0xF26A),
  (0x720C, 0xF269_C37B),
  (0x7210, 0xC46C),
  (0x7213, 0xF46A_F46B),
  (0x7219, 0xF5DC_F5DB_C4EA),
  (0x721D, 0xF5DA_F6EC_F6ED),
  (0x7222, 0xF7E6_F8B1),
  (0x7226, 0xF8F6_F9BC_C679_F9C6_A4F6),
  (0x722C, 0xAAA6_AAA7),
  (0x7230, 0xACB8),
  (0x7235, 0xC0EF_A4F7),
  (0x7238, 0xAAA8_AF52_B7DD_A4F8),
  (0x723D, 0xB26E_BAB8_C962),
  (0x7241, 0xCFB7_D27D),
  (0x7244, 0xE2C5),
  (0x7246, 0xC0F0_A4F9_AAA9_CFB8_CFB9_DA66_B550),
  (0x724F, 0xDEA4),
  (0x7252, 0xB7DE_E2C6),
  (0x7256, 0xBCF8),
  (0x7258, 0xC37C_A4FA_DA67_A4FB),
  (0x725D, 0xA6C9_CA42_A6C8_A865_A864_A863_CB60),
  (0x7267, 0xAAAA),
  (0x7269, 0xAAAB_CD5B),
  (0x726C, 0xCFBA),
  (0x726E, 0xCFBD_ACBA_CFBB),
  (0x7272, 0xACB9_CFBC_ACBB),
  (0x7276, 0xD2A2_D2A1_D27E_AF53),
  (0x727B, 0xD65D_D65E_B26F_D65C_D65F_B552_B270),
  (0x7284, 0xB551_DA6B_DA6A),
  (0x7288, 0xDA68_DA69),
  (0x728B, 0xDA6C_DEA6_DEA5_DEA9),
  (0x7290, 0xDEA8_DEA7_BAB9_E2C9),
  (0x7295, 0xE2C8_BABA_E2C7_E673),
  (0x729A, 0xE674_BCF9),
  (0x729D, 0xEA59_EA5A),
  (0x72A1, 0xF272_C37D_F271_F270_F26E_F26F_C4EB_F46C_F6EE_F8F7),
  (0x72AC, 0xA4FC),
  (0x72AE, 0xC9A5_A5C7_C9A6),
  (0x72B4, 0xCA43_CA44),
  (0x72BA, 0xCB66),
  (0x72BD, 0xCB62),
  (0x72BF, 0xCB61_AAAC_CB65_A867_CB63_A866_CB67_CB64),
  (0x72C9, 0xCD5F_CFBE_CD5D_CD64),
  (0x72CE, 0xAAAD),
  (0x72D0, 0xAAB0_CD65_CD61),
  (0x72D4, 0xCD62),
  (0x72D6, 0xCD5C_AAAF_CD5E_AAAE_CD63),
  (0x72DC, 0xCD60),
  (0x72DF, 0xCFC2_ACBD_ACBE),
  (0x72E3, 0xCFC5_CFBF),
  (0x72E6, 0xCFC4),
  (0x72E8, 0xCFC0_ACBC_CFC3_CFC1),
  (0x72F3, 0xD2A8_D2A5),
  (0x72F6, 0xD2A7_AF58_AF57_AF55_D2A4_D2A9_AF54_AF56_D2A6_D667_D2A3_D2AA),
  (0x7307, 0xD662_D666),
  (0x730A, 0xD665_DA6E_DA79),
  (0x730F, 0xD668),
  (0x7311, 0xD663_DA6D_B274),
  (0x7316, 0xB273_D661_D664_B275),
  (0x731B, 0xB272_B271_D660_D669),
  (0x7322, 0xDA70_DA77),
  (0x7325, 0xB554_DA76_DA73),
  (0x7329, 0xB556),
  (0x732D, 0xDA75),
  (0x7330, 0xDA6F_DA71_DA74_DA72_B555_DA78_B553_B7DF),
  (0x733A, 0xDEAD_DEAC_DEAA),
  (0x733E, 0xB7E2_B7E1_DEAE),
  (0x7342, 0xDEAB_E2CA_BABB_B7E0),
  (0x7349, 0xDEB0_DEAF),
  (0x734C, 0xE2CD_E2CB_BCFA),
  (0x7350, 0xBABC_E2CC_E676),
  (0x7357, 0xBCFB_E675_E67E_E67D_E67B),
  (0x735D, 0xE67A_E677_E678_E679_E67C_E6A1),
  (0x7365, 0xEA5F_EA5C_EA5D_BF57_EA5B_EA61_EA60_EA5E),
  (0x736E, 0xED64_ED65_C0F1),
  (0x7372, 0xC0F2_ED63),
  (0x7375, 0xC279_EFFE_C278_C37E),
  (0x737A, 0xC3A1_C46D_F46E_F46D_F5DD_F6EF_C57A_F7E8_F7E7_F7E9_A5C8_CFC6),
  (0x7386, 0xAF59_B276_D66A_A5C9_C9A7_A4FD),
  (0x738E, 0xCA45),
  (0x7392, 0xCB6C_CB6A_CB6B_CB68_A868_CB69),
  (0x739D, 0xCD6D),
  (0x739F, 0xAAB3_CD6B_CD67_CD6A),
  (0x73A4, 0xCD66_AAB5_CD69),
  (0x73A8, 0xAAB2_AAB1),
  (0x73AB, 0xAAB4_CD6C_CD68),
  (0x73B2, 0xACC2_ACC5_CFCE_CFCD_CFCC_ACBF_CFD5_CFCB),
  (0x73BB, 0xACC1_D2AF),
  (0x73BE, 0xCFD2_CFD0_ACC4),
  (0x73C2, 0xCFC8_CFD3),
  (0x73C5, 0xCFCA_CFD4_CFD1_CFC9),
  (0x73CA, 0xACC0_CFD6_CFC7_ACC3),
  (0x73D2, 0xD2B4_D2AB_D2B6),
  (0x73D6, 0xD2AE_D2B9_D2BA_D2AC_D2B8_D2B5_D2B3_D2B7_AF5F),
  (0x73E0, 0xAF5D),
  (0x73E3, 0xD2B1),
  (0x73E5, 0xD2AD),
  (0x73E7, 0xD2B0_D2BB_D2B2_AF5E_CFCF),
  (0x73ED, 0xAF5A_AF5C),
  (0x73F4, 0xD678_D66D_D66B),
  (0x73F8, 0xD66C),
  (0x73FA, 0xD673),
  (0x73FC, 0xD674_D670_B27B_D675_D672_D66F),
  (0x7403, 0xB279_D66E_B277_B27A_D671_D679_AF5B_B278_D677_D676_B27C),
  (0x7416, 0xDA7E),
  (0x741A, 0xDAA1_B560),
  (0x741D, 0xDAA7),
  (0x7420, 0xDAA9_DAA2_B55A_DAA6_DAA5_B55B_B561),
  (0x7428, 0xB562_DAA8_B558_DA7D_DA7B_DAA3_DA7A_B55F_DA7C_DAA4_DAAA_B559),
  (0x7434, 0xB55E_B55C_B55D),
  (0x743A, 0xB557),
  (0x743F, 0xB7E9_DEB7_B7E8_DEBB),
  (0x7444, 0xDEB1),
  (0x7446, 0xDEBC),
  (0x744A, 0xDEB2_DEB3),
  (0x744D, 0xDEBD_DEBA_DEB8_DEB9_DEB5_DEB4),
  (0x7454, 0xDEBE_B7E5),
  (0x7457, 0xDEB6),
  (0x7459, 0xB7EA_B7E4_B7EB_B7EC),
  (0x745E, 0xB7E7_B7E6),
  (0x7462, 0xE2CE_BABE_BABD),
  (0x7467, 0xE2D3),
  (0x7469, 0xBCFC_BABF),
  (0x746D, 0xBAC1_E2D4_B7E3_BAC0_E2D0_E2D2_E2CF),
  (0x7475, 0xE2D1),
  (0x7479, 0xE6AB),
  (0x747C, 0xE6AA_E6A7_BD40_EA62_BD41_E6A6),
  (0x7483, 0xBCFE),
  (0x7485, 0xE6A8_E6A5_E6A2_E6A9_E6A3_E6A4_BCFD),
  (0x7490, 0xED69),
  (0x7492, 0xEA66),
  (0x7494, 0xEA65_EA67),
  (0x7497, 0xED66_BF5A),
  (0x749A, 0xEA63),
  (0x749C, 0xBF58),
  (0x749E, 0xBF5C_BF5B_EA64_EA68),
  (0x74A3, 0xBF59),
  (0x74A5, 0xED6D_C0F5_C27A_C0F6_C0F3_ED6A_ED68),
  (0x74AD, 0xED6B),
  (0x74AF, 0xED6E_C0F4_ED6C_ED67),
  (0x74B5, 0xF042_F045_F275_F040),
  (0x74BA, 0xF46F_F046),
  (0x74BD, 0xC3A2_F044_C27B_F041_F043_F047_F276),
  (0x74C5, 0xF274),
  (0x74CA, 0xC3A3_F273),
  (0x74CF, 0xC46E),
  (0x74D4, 0xC4ED_F6F1_C4EC_F6F3_F6F0_F6F2_C5D0_F8B2_A5CA_CD6E_D2BC_D2BD),
  (0x74E0, 0xB27D_DEBF_BF5D_C3A4_C57B_F8B3_A5CB),
  (0x74E8, 0xCD6F_A260),
  (0x74EC, 0xCFD7),
  (0x74EE, 0xCFD8),
  (0x74F4, 0xD2BE_D2BF_B27E_B2A1),
  (0x74FB, 0xDAAB),
  (0x74FD, 0xDEC2_DEC1_DEC0_E2D5),
  (0x7502, 0xE2D6_E2D7_BAC2),
  (0x7507, 0xE6AD_E6AC),
  (0x750B, 0xEA69_BF5E_BF5F),
  (0x750F, 0xED72_ED6F_ED70_ED71_F049_F048_C27C_F277_F5DE_A5CC),
  (0x751A, 0xACC6),
  (0x751C, 0xB2A2_DEC3),
  (0x751F, 0xA5CD),
  (0x7521, 0xD2C0_B2A3),
  (0x7525, 0xB563_B564),
  (0x7528, 0xA5CE_A5CF_CA46_A86A_A869_ACC7_CFD9_DAAC_A5D0_A5D1_A5D2_A5D3),
  (0x7537, 0xA86B_A86C_CB6E_CB6D),
  (0x753D, 0xAAB6_CD72_CD70_CD71),
  (0x7547, 0xCFDA_CFDB),
  (0x754B, 0xACCB_ACC9),
  (0x754E, 0xACCA_ACC8),
  (0x7554, 0xAF60),
  (0x7559, 0xAF64_AF63_D2C1_AF62_AF61),
  (0x755F, 0xD2C2),
  (0x7562, 0xB2A6_D67B_D67A_B2A4_B2A5),
  (0x756A, 0xB566_B565_DAAE),
  (0x756F, 0xDAAD_B2A7),
  (0x7576, 0xB7ED_DEC5_B7EE_DEC4),
  (0x757D, 0xE2D8_E6AE_BD42_EA6A),
  (0x7584, 0xED73),
  (0x7586, 0xC3A6_C3A5),
  (0x758A, 0xC57C_A5D4_CD73),
  (0x758F, 0xB2A8_E2D9_BAC3),
  (0x7594, 0xCB6F_CB70),
  (0x7598, 0xCD74_AAB8_AAB9),
  (0x759D, 0xAAB7),
  (0x75A2, 0xACCF_ACD0_ACCD_ACCE),
  (0x75A7, 0xCFDC),
  (0x75AA, 0xCFDD_ACCC),
  (0x75B0, 0xD2C3),
  (0x75B2, 0xAF68_AF69),
  (0x75B5, 0xB2AB_D2C9),
  (0x75B8, 0xAF6E_AF6C_D2CA_D2C5_AF6B_AF6A_AF65_D2C8_D2C7_D2C4_AF6D),
  (0x75C4, 0xD2C6_AF66),
  (0x75C7, 0xAF67),
  (0x75CA, 0xB2AC_D6A1_D6A2_B2AD_D67C_D67E_D6A4_D6A3_D67D),
  (0x75D4, 0xB2A9_B2AA),
  (0x75D7, 0xDAB6_B56B_B56A_DAB0_B568),
  (0x75DD, 0xDAB3_B56C_DAB4_B56D_DAB1_B567_B569_DAB5),
  (0x75E6, 0xDAB2_DAAF),
  (0x75ED, 0xDED2),
  (0x75EF, 0xDEC7_B7F0_B7F3_B7F2_B7F7_B7F6_DED3_DED1_DECA_DECE_DECD_B7F4),
  (0x75FB, 0xDED0_DECC_DED4_DECB_B7F5_B7EF_B7F1),
  (0x7603, 0xDEC9),
  (0x7608, 0xE2DB_BAC7_E2DF_BAC6_E2DC_BAC5),
  (0x760F, 0xDEC8_DECF_E2DE),
  (0x7613, 0xBAC8_E2E0_E2DD_E2DA),
  (0x7619, 0xE6B1_E6B5_E6B7_E6B3_E6B2_E6B0_BD45_BD43_BD48_BD49_E6B4_BD46),
  (0x7625, 0xE6AF_BD47_BAC4_E6B6_BD44),
  (0x762D, 0xEA6C),
  (0x762F, 0xEA6B_EA73_EA6D_EA72_EA6F_BF60_EA71),
  (0x7638, 0xBF61),
  (0x763A, 0xBF62),
  (0x763C, 0xEA70_EA6E),
  (0x7642, 0xC0F8_ED74),
  (0x7646, 0xC0F7_ED77_ED75_ED76),
  (0x764C, 0xC0F9),
  (0x7650, 0xF04D),
  (0x7652, 0xC2A1_F04E),
  (0x7656, 0xC27D_F04F_C27E_F04C_F050),
  (0x765C, 0xF04A),
  (0x765F, 0xC3A7_F278_C3A8_C46F),
  (0x7664, 0xF04B_C470),
  (0x7669, 0xC4EE_F5DF),
  (0x766C, 0xC57E_F6F4_C57D),
  (0x7670, 0xF7EA_C5F5_C5F6),
  (0x7675, 0xF9CC),
  (0x7678, 0xACD1_CFDE),
  (0x767B, 0xB56E_B56F_A5D5_A6CA_CA47),
  (0x7681, 0xCB71_A86D),
  (0x7684, 0xAABA),
  (0x7686, 0xACD2_ACD3_ACD4_D6A6_D2CB_AF6F),
  (0x768E, 0xB2AE_D6A5),
  (0x7692, 0xDAB8_B571),
  (0x7695, 0xDAB7_B570),
  (0x7699, 0xDED5_BD4A_E6BB_E6B8_E6B9_E6BA),
  (0x76A4, 0xED78),
  (0x76A6, 0xF051),
  (0x76AA, 0xF471_F470),
  (0x76AD, 0xF6F5_A5D6_CD75_AF70),
  (0x76B4, 0xB572_DED6),
  (0x76B8, 0xE2E1),
  (0x76BA, 0xBD4B_EA74),
  (0x76BD, 0xF052_F472_A5D7),
  (0x76C2, 0xAABB_ACD7_CFDF_ACD8_ACD6),
  (0x76C8, 0xACD5_D2CC_AF71),
  (0x76CD, 0xAF72_AF73),
  (0x76D2, 0xB2B0_D6A7_B2AF),
  (0x76DA, 0xDAB9_B2B1_B573_DED7_B7F8_B7F9),
  (0x76E1, 0xBAC9),
  (0x76E3, 0xBACA_BD4C_BF64_EA75_BF63),
  (0x76E9, 0xED79_C0FA),
  (0x76EC, 0xF053_F473_A5D8_A86E_CD78_CD77_AABC_CD76_AABD_CD79),
  (0x76F7, 0xCFE5_ACDB_ACDA_CFE7_CFE6_ACDF),
  (0x76FE, 0xACDE),
  (0x7701, 0xACD9),
  (0x7703, 0xCFE1_CFE2_CFE3),
  (0x7707, 0xACE0_CFE0_ACDC_CFE4_ACDD),
  (0x7710, 0xD2CF_D2D3_D2D1_D2D0),
  (0x7715, 0xD2D4),
  (0x7719, 0xD2D5_D2D6_D2CE),
  (0x771D, 0xD2CD),
  (0x771F, 0xAF75_AF76),
  (0x7722, 0xD2D7_D2D2),
  (0x7725, 0xD6B0),
  (0x7727, 0xD2D8_AF77_AF74),
  (0x772D, 0xD6AA),
  (0x772F, 0xD6A9),
  (0x7731, 0xD6AB_D6AC_D6AE_D6AD_D6B2_B2B5_B2B2_B2B6_D6A8_B2B7_D6B1_B2B4),
  (0x773D, 0xD6AF_B2B3),
  (0x7744, 0xDABC_DABE_DABA_DABB),
  (0x774A, 0xDABF_DAC1_DAC2_DABD_DAC0_B574),
  (0x7752, 0xDEDB),
  (0x7754, 0xDEE0_DED8_DEDC),
  (0x7759, 0xDEE1_DEDD_B7FA_B843),
  (0x775E, 0xB7FD_DED9_DEDA_BACE_B846_B7FE),
  (0x7765, 0xB844_B7FC_DEDF_B845_DEDE_B841_B7FB_B842_DEE2_E2E6_E2E8),
  (0x7779, 0xB840),
  (0x777C, 0xE2E3_BACC_E2E9_BACD_E2E7_E2E2_E2E5_E2EA_BACB_E2E4),
  (0x7787, 0xBD4E_E6BF_E6BE),
  (0x778B, 0xBD51_BD4F_E6BC_BD4D_E6BD),
  (0x7791, 0xBD50),
  (0x7795, 0xEA7D),
  (0x7797, 0xEAA1),
  (0x7799, 0xEA7E_EA76_EA7A_EA79_EA77_BF66_BF67_BF65_EA78_EA7B_EA7C),
  (0x77A5, 0xBF68),
  (0x77A7, 0xC140_EDA3),
  (0x77AA, 0xC0FC_ED7B_C0FE_C141),
  (0x77B0, 0xC0FD_EDA2_ED7C_C0FB_EDA1_ED7A_ED7E_ED7D),
  (0x77BA, 0xF055_C2A4_C2A5_C2A2),
  (0x77BF, 0xC2A3),
  (0x77C2, 0xF054),
  (0x77C4, 0xF27B),
  (0x77C7, 0xC3A9),
  (0x77C9, 0xF279_F27A),
  (0x77CC, 0xF474_F477_F475_F476_F5E0),
  (0x77D3, 0xC4EF_F7EB_F8B4),
  (0x77D7, 0xC5F7_F8F8_F8F9_C666_A5D9_ACE1),
  (0x77DE, 0xDAC3),
  (0x77E0, 0xDEE3),
  (0x77E2, 0xA5DA_A86F),
  (0x77E5, 0xAABE),
  (0x77E7, 0xCFE8_CFE9_AF78),
  (0x77EC, 0xDAC4_B575_B847_C142_EDA4_F27C_F478_A5DB),
  (0x77F7, 0xCDA1_CD7A_CD7C_CD7E_CD7D_CD7B_AABF),
  (0x7802, 0xACE2_CFF2),
  (0x7805, 0xCFED_CFEA),
  (0x7809, 0xCFF1),
  (0x780C, 0xACE4_ACE5_CFF0_CFEF_CFEE_CFEB_CFEC_CFF3_ACE3),
  (0x781D, 0xAF7C),
  (0x781F, 0xAFA4_AFA3_D2E1_D2DB_D2D9),
  (0x7825, 0xAFA1_D6B9_AF7A_D2DE_D2E2_D2E4_D2E0_D2DA_AFA2_D2DF_D2DD_AF79),
  (0x7831, 0xD2E5_AFA5_D2E3_AF7D_D2DC),
  (0x7837, 0xAF7E_AF7B),
  (0x7843, 0xB2B9),
  (0x7845, 0xD6BA),
  (0x7848, 0xD6B3_D6B5_D6B7),
  (0x784C, 0xD6B8_D6B6_B2BA),
  (0x7850, 0xD6BB),
  (0x7852, 0xD6B4),
  (0x785C, 0xDAC8_B576_DAD0),
  (0x7860, 0xDAC5),
  (0x7862, 0xDAD1),
  (0x7864, 0xDAC6_DAC7),
  (0x7868, 0xDACF_DACE_DACB_B2B8_B577_DAC9_DACC_B578_DACD_DACA),
  (0x7879, 0xDEEE),
  (0x787B, 0xDEF2_B84E),
  (0x787E, 0xE2F0_B851_DEF0_F9D6),
  (0x7883, 0xDEED_DEE8_DEEA_DEEB_DEE4),
  (0x7889, 0xB84D),
  (0x788C, 0xB84C),
  (0x788E, 0xB848_DEE7),
  (0x7891, 0xB84F),
  (0x7893, 0xB850_DEE6_DEE9_DEF1_B84A_B84B_DEEF_DEE5),
  (0x789E, 0xE2F2_BAD0_E2F4_DEEC_E2F6_BAD4_E2F7_E2F3),
  (0x78A7, 0xBAD1_E2EF_BAD3_E2EC_E2F1_E2F5_E2EE),
  (0x78B0, 0xB849),
  (0x78B2, 0xE2EB_BAD2_E2ED),
  (0x78BA, 0xBD54_E6C1_BD58),
  (0x78BE, 0xBD56),
  (0x78C1, 0xBACF),
  (0x78C3, 0xE6C8_E6C9_BD53),
  (0x78C8, 0xE6C7_E6CA_BD55_BD52_E6C3_E6C0_E6C5_E6C2_BD59_E6C4),
  (0x78D4, 0xE6C6_BD57),
  (0x78DA, 0xBF6A_EAA8),
  (0x78DD, 0xEAA2_EAA6_EAAC_EAAD_EAA9_EAAA_EAA7),
  (0x78E5, 0xEAA4),
  (0x78E7, 0xBF6C_BF69_EAA3_EAA5),
  (0x78EC, 0xBF6B_EAAB),
  (0x78EF, 0xC146),
  (0x78F2, 0xEDAA_EDA5_C145),
  (0x78F7, 0xC143),
  (0x78F9, 0xEDAC_C144_EDA8_EDA9_EDA6_EDAD_F056),
  (0x7901, 0xC147_EDA7),
  (0x7904, 0xEDAE_EDAB),
  (0x7909, 0xF05A),
  (0x790C, 0xF057),
  (0x790E, 0xC2A6),
  (0x7910, 0xF05B_F05D_F05C_F058_F059),
  (0x7917, 0xF2A3),
  (0x7919, 0xC3AA),
  (0x791B, 0xF27E_F2A2_F27D_F2A4),
  (0x7921, 0xF2A1),
  (0x7923, 0xF47A_F47D_F479_C471_F47B_F47C_F47E_C472_C474_C473_F5E1),
  (0x792F, 0xF5E3),
  (0x7931, 0xF5E2),
  (0x7935, 0xF6F6),
  (0x7938, 0xF8B5_F8FA_A5DC),
  (0x793D, 0xCB72_AAC0_CDA3_AAC1_AAC2_CDA2),
  (0x7944, 0xCFF8_CFF7_ACE6_ACE9_ACE8_ACE7_CFF4_CFF6_CFF5),
  (0x794F, 0xD2E8_AFA7_D2EC_D2EB_D2EA_D2E6_AFA6_AFAA_AFAD),
  (0x795A, 0xAFAE_D2E7_D2E9_AFAC_AFAB_AFA9_AFA8_D6C2),
  (0x7963, 0xD6C0_D6BC_B2BB),
  (0x7967, 0xD6BD_B2BC_D6BE_D6BF_D6C1),
  (0x796D, 0xB2BD),
  (0x7970, 0xDAD5),
  (0x7972, 0xDAD4_DAD3_DAD2),
  (0x7979, 0xDEF6_B852),
  (0x797C, 0xDEF3_DEF5),
  (0x797F, 0xB853),
  (0x7981, 0xB854_DEF4),
  (0x7988, 0xE341),
  (0x798A, 0xE2F9_E2FA),
  (0x798D, 0xBAD7_BAD5_BAD6_E343),
  (0x7992, 0xE342_E2FE_E2FD_E2FC_E2FB_E340_E2F8),
  (0x799A, 0xE6CB_E6D0_E6CE),
  (0x79A0, 0xE6CD_E6CC_E6CF),
  (0x79A4, 0xEAAE),
  (0x79A6, 0xBF6D_C148_EDB0),
  (0x79AA, 0xC149_EDAF_F05F_F05E_C2A7),
  (0x79B0, 0xF2A5_C3AB_F4A1_C5A1_F6F7),
  (0x79B6, 0xF8B7_F8B6_C9A8_ACEA_ACEB_D6C3),
  (0x79BD, 0xB856_A5DD_A872_A871_A870),
  (0x79C5, 0xCDA4),
  (0x79C8, 0xAAC4_AAC3),
  (0x79CB, 0xACEE),
  (0x79CD, 0xCFFA_CFFD_CFFB),
  (0x79D1, 0xACEC_ACED),
  (0x79D5, 0xCFF9_CFFC),
  (0x79D8, 0xAFB5),
  (0x79DC, 0xD2F3_D2F5_D2F4_AFB2_D2EF),
  (0x79E3, 0xAFB0_AFAF),
  (0x79E6, 0xAFB3_AFB1),
  (0x79E9, 0xAFB4_D2F2_D2ED_D2EE_D2F1_D2F0),
  (0x79F6, 0xD6C6_D6C7_D6C5),
  (0x79FA, 0xD6C4_B2BE),
  (0x7A00, 0xB57D),
  (0x7A02, 0xDAD6_DAD8_DADA_B57C),
  (0x7A08, 0xB57A),
  (0x7A0A, 0xDAD7_B57B_DAD9_B579),
  (0x7A10, 0xDF41_DEF7_DEFA_DEFE_B85A_DEFC),
  (0x7A17, 0xDEFB_DEF8_DEF9_B858_DF40_B857),
  (0x7A1E, 0xB85C_B85B_B859),
  (0x7A22, 0xDEFD),
  (0x7A26, 0xE349),
  (0x7A28, 0xE348),
  (0x7A2B, 0xE344),
  (0x7A2E, 0xBAD8_E347_E346_BAD9),
  (0x7A37, 0xBD5E),
  (0x7A39, 0xE6D2),
  (0x7A3B, 0xBD5F_BD5B_BD5D),
  (0x7A3F, 0xBD5A_BD5C),
  (0x7A44, 0xEAAF),
  (0x7A46, 0xBF70_EAB1_EAB0),
  (0x7A4A, 0xE345_BF72_BF71_BF6E_BF6F),
  (0x7A54, 0xEDB5),
  (0x7A56, 0xEDB3_C14A_EDB4),
  (0x7A5A, 0xEDB6_EDB2_EDB1),
  (0x7A5F, 0xF060_C2AA_C2A8_C2A9),
  (0x7A67, 0xF2A6_F2A7_C3AD),
  (0x7A6B, 0xC3AC_F4A3_F4A4_F4A2),
  (0x7A70, 0xF6F8_F6F9),
  (0x7A74, 0xA5DE_CA48_A873),
  (0x7A78, 0xCDA5_AAC6_AAC5_CDA6),
  (0x7A7E, 0xD040_ACEF_CFFE_ACF0),
  (0x7A84, 0xAFB6_D2F8_D2F6_D2FC_AFB7_D2F7_D2FB_D2F9_D2FA),
  (0x7A8F, 0xD6C8_D6CA),
  (0x7A92, 0xB2BF),
  (0x7A94, 0xD6C9_B2C0_B5A2_B5A1_B57E_DADB),
  (0x7A9E, 0xDF44_B85D_B85E),
  (0x7AA2, 0xDF43_DF42),
  (0x7AA8, 0xE34A_BADB_BADA_E34B_E34C),
  (0x7AAE, 0xBD61_BD60),
  (0x7AB1, 0xEAB5_E6D3_E6D5_E6D4_EAB4_EAB2_EAB6_EAB3),
  (0x7ABA, 0xBF73),
  (0x7ABE, 0xEDB7_C14B_EDB8_EDB9),
  (0x7AC4, 0xC2AB_C2AC),
  (0x7AC7, 0xC475),
  (0x7ACA, 0xC5D1_A5DF),
  (0x7AD1, 0xD041),
  (0x7AD8, 0xD2FD_AFB8),
  (0x7ADF, 0xB3BA_B3B9),
  (0x7AE3, 0xB5A4_DADD_B5A3_DADC),
  (0x7AEB, 0xDF45),
  (0x7AED, 0xBADC_E34D_BADD),
  (0x7AF6, 0xC476_F4A5),
  (0x7AF9, 0xA6CB_AAC7_CDA7),
  (0x7AFD, 0xACF2),
  (0x7AFF, 0xACF1_D042_D043),
  (0x7B04, 0xD340_D342_AFB9),
  (0x7B08, 0xD344_D347_D345),
  (0x7B0E, 0xD346_D343_D2FE_AFBA_D348_D341),
  (0x7B18, 0xD6D3_B2C6_D6DC_B2C3),
  (0x7B1D, 0xD6D5_B2C7),
  (0x7B20, 0xB2C1),
  (0x7B22, 0xD6D0_D6DD_D6D1_D6CE_B2C5),
  (0x7B28, 0xB2C2),
  (0x7B2A, 0xD6D4_D6D7_B2C4_D6D8_B2C8_D6D9_D6CF_D6D6_D6DA_D6D2_D6CD_D6CB),
  (0x7B38, 0xD6DB),
  (0x7B3B, 0xDADF),
  (0x7B40, 0xDAE4),
  (0x7B44, 0xDAE0_DAE6_B5A7_D6CC_DAE1_B5A5_DADE_B5AC_DAE2_B5AB_DAE3_B5AD),
  (0x7B50, 0xB5A8_B5AE_B5A9),
  (0x7B54, 0xB5AA),
  (0x7B56, 0xB5A6),
  (0x7B58, 0xDAE5),
  (0x7B60, 0xB861_DF50),
  (0x7B63, 0xDF53_DF47_DF4C_DF46_B863),
  (0x7B69, 0xDF4A),
  (0x7B6D, 0xDF48_B862),
  (0x7B70, 0xDF4F_DF4E_DF4B_DF4D_DF49_BAE1_DF52_B85F_DF51),
  (0x7B82, 0xE35D),
  (0x7B84, 0xBAE8_E358),
  (0x7B87, 0xBAE7_E34E),
  (0x7B8A, 0xE350_BAE0_E355_E354_E357_BAE5_E352_E351),
  (0x7B94, 0xBAE4_BADF_E353_BAE2_E359_E35B),
  (0x7B9B, 0xE356_E34F_BAE3),
  (0x7BA0, 0xBD69_BADE),
  (0x7BA4, 0xE35C),
  (0x7BAC, 0xE6D9_BD62),
  (0x7BAF, 0xE6DB),
  (0x7BB1, 0xBD63),
  (0x7BB4, 0xBD65_E6DE),
  (0x7BB7, 0xE6D6_BAE6_E6DC),
  (0x7BBE, 0xE6D8),
  (0x7BC0, 0xB860_BD68),
  (0x7BC4, 0xBD64),
  (0x7BC6, 0xBD66_BD67),
  (0x7BC9, 0xBF76_E6DD_E6D7_BD6A),
  (0x7BCE, 0xE6DA),
  (0x7BD4, 0xEAC0_EABB),
  (0x7BD8, 0xEAC5_BF74_EABD_BF78_EAC3_EABA_EAB7_EAC6_C151_BF79_EAC2_EAB8),
  (0x7BE4, 0xBF77_EABC_BF7B_EAB9_EABE_BF7A_EAC1_EAC4),
  (0x7BF0, 0xEDCB_EDCC_EDBC_EDC3_EDC1),
  (0x7BF7, 0xC14F_EDC8_EABF),
  (0x7BFB, 0xEDBF),
  (0x7BFD, 0xEDC9_C14E_EDBE_EDBD_EDC7_EDC4_EDC6),
  (0x7C05, 0xEDBA_EDCA_C14C),
  (0x7C09, 0xEDC5_EDCE_EDC2_C150_C14D_EDC0_EDBB_EDCD_BF75),
  (0x7C19, 0xF063),
  (0x7C1C, 0xF061_F067_C2B0_F065_F064_C2B2_F06A_C2B1),
  (0x7C25, 0xF06B_F068_C2AE_F069_F062_C2AF_C2AD_F2AB_F066),
  (0x7C30, 0xF06C),
  (0x7C33, 0xF2A8),
  (0x7C37, 0xC3B2_C3B0_F2AA),
  (0x7C3B, 0xF2AC_F2A9_C3B1_C3AE_C3AF_C3B3),
  (0x7C43, 0xC478),
  (0x7C45, 0xF4AA),
  (0x7C47, 0xF4A9_F4A7_F4A6_F4A8),
  (0x7C4C, 0xC477_C479),
  (0x7C50, 0xC4F0),
  (0x7C53, 0xF5E5_F5E4),
  (0x7C57, 0xF6FA),
  (0x7C59, 0xF6FC_F6FE_F6FD_F6FB),
  (0x7C5F, 0xC5A3_C5A2),
  (0x7C63, 0xC5D3_C5D2_C5D4_F7ED_F7EC),
  (0x7C69, 0xF8FB_F8B8_F8FC_C658),
  (0x7C6E, 0xC659_F96D),
  (0x7C72, 0xC67E_A6CC),
  (0x7C75, 0xCDA8),
  (0x7C78, 0xD045_D046_D044),
  (0x7C7D, 0xACF3),
  (0x7C7F, 0xD047_D048_D049),
  (0x7C84, 0xD349_D34F),
  (0x7C88, 0xD34D_AFBB_D34B),
  (0x7C8C, 0xD34C_D34E),
  (0x7C91, 0xD34A_B2C9),
  (0x7C94, 0xD6DE_B2CB_D6E0_B2CA_D6DF),
  (0x7C9E, 0xDAE8_B5AF),
  (0x7CA1, 0xDAEA_DAE7_D6E1),
  (0x7CA5, 0xB5B0),
  (0x7CA7, 0xF9DB_DAE9),
  (0x7CAF, 0xDF56),
  (0x7CB1, 0xB864_DF54_B865_DF55_B866),
  (0x7CB9, 0xBAE9_E361_E35E_E360_BAEA_BAEB_E35F),
  (0x7CC5, 0xE6DF),
  (0x7CC8, 0xE6E0),
  (0x7CCA, 0xBD6B_E6E2_E6E1),
  (0x7CCE, 0xA261),
  (0x7CD0, 0xEACA_EACB_EAC7),
  (0x7CD4, 0xEAC8_BF7C_BF7D_EAC9),
  (0x7CD9, 0xC157),
  (0x7CDC, 0xC153_C158_C154_C156_C152),
  (0x7CE2, 0xC155),
  (0x7CE7, 0xC2B3_EDCF),
  (0x7CEA, 0xF2AE),
  (0x7CEC, 0xF2AD),
  (0x7CEE, 0xF4AB_C47A_C47B_F741_F5E6),
  (0x7CF4, 0xF740),
  (0x7CF6, 0xF8FD_F9A4_A6CD),
  (0x7CFB, 0xA874),
  (0x7CFD, 0xCDA9_AAC8),
  (0x7D00, 0xACF6_D04C_ACF4_D04A_ACF9_ACF5_ACFA_ACF8_D04B_ACF7_AFBF_AFBE),
  (0x7D0C, 0xD35A_AFC7_D353_D359_AFC3_D352_D358_D356_AFC2_AFC4_D355_AFBD),
  (0x7D18, 0xD354_AFC8_AFC5_AFC9_AFC6_D351_D350_D357_AFC0_AFBC_AFC1),
  (0x7D28, 0xD6F0_D6E9),
  (0x7D2B, 0xB5B5_D6E8),
  (0x7D2E, 0xB2CF_B2D6_B2D3_B2D9_B2D8_B2D4),
  (0x7D35, 0xD6E2_D6E5),
  (0x7D38, 0xD6E4_B2D0_D6E6_D6EF_B2D1_D6E3_D6EC_D6ED_B2D2_D6EA_B2D7_B2CD),
  (0x7D44, 0xB2D5_D6E7_B2CC_D6EB),
  (0x7D4A, 0xD6EE),
  (0x7D4E, 0xDAFB_DAF2_B5B2_DAF9_DAF6_DAEE_DAF7_B5B4_DAEF),
  (0x7D58, 0xDAEB),
  (0x7D5B, 0xB86C_DAF4),
  (0x7D5E, 0xB5B1_DAFA),
  (0x7D61, 0xB5B8_B5BA_DAED),
  (0x7D66, 0xB5B9_DAF0_B5B3_DAF8_DAF1_DAF5),
  (0x7D6D, 0xDAF3_B5B6_DAEC_B5BB_B2CE_B5B7_B5BC),
  (0x7D79, 0xB868_DF5D_DF5F_DF61_DF65),
  (0x7D7F, 0xDF5B_DF59_B86A),
  (0x7D83, 0xDF60_DF64_DF5C_DF58),
  (0x7D88, 0xDF57),
  (0x7D8C, 0xDF62_DF5A_DF5E_B86B),
  (0x7D91, 0xB869_DF66_B867_DF63),
  (0x7D96, 0xE372),
  (0x7D9C, 0xBAEE_E36A_BD78_E374_BAF1_E378_BAF7_E365),
  (0x7DA6, 0xE375_E362),
  (0x7DA9, 0xE377_E366),
  (0x7DAC, 0xBAFE_BAFB_E376_E370_BAED_BAF5_BAF4),
  (0x7DB4, 0xBAF3_BAF9),
  (0x7DB7, 0xE363_BAFA_E371_BAF6_BAEC_E373_BAEF_BAF0_BAF8_E368_E367_E364),
  (0x7DC4, 0xE36C_E369_E36D_BAFD),
  (0x7DC9, 0xE379_BAF2_E36E_E36F),
  (0x7DCE, 0xE36B),
  (0x7DD2, 0xBAFC),
  (0x7DD7, 0xE6E7_BD70_BD79_BD75_E6E4),
  (0x7DDD, 0xBD72_BD76_E6F0_BD6C_E6E8),
  (0x7DE3, 0xBD74),
  (0x7DE6, 0xE6EB_E6E6_BD73_BD77_E6E5),
  (0x7DEC, 0xBD71),
  (0x7DEE, 0xE6EF_BD6E_E6EE_E6ED_BD7A_E572_BD6D),
  (0x7DF6, 0xE6EC_E6E3),
  (0x7DF9, 0xBD7B_E6EA_BD6F),
  (0x7E03, 0xE6E9),
  (0x7E08, 0xBFA2_BFA7_BF7E_EAD8_EACF_EADB_EAD3_EAD9_BFA8_BFA1_EACC_EAD2),
  (0x7E14, 0xEADC_EAD5_EADA_EACE),
  (0x7E1A, 0xEAD6_BFA3_EAD4_BFA6_BFA5_EAD0_EAD1_EACD_EAD7_BFA4_EADE_EADD),
  (0x7E29, 0xEDDA_EDD6_C15F),
  (0x7E2D, 0xEDD0_C159_C169_EDDC_C161_C15D_EDD3_C164_C167_EDDE_C15C_EDD5),
  (0x7E39, 0xC165_EDE0_EDDD_EDD1_C160_C15A_C168_EDD8_C163_EDD2_C15E_EDDF),
  (0x7E45, 0xC162_C15B_EDD9_C166_EDD7),
  (0x7E4C, 0xEDDB),
  (0x7E50, 0xF06E_F074_C2B9_F077_C2B4_C2B5_F06F_F076_F071_C2BA_C2B7),
  (0x7E5C, 0xF06D),
  (0x7E5E, 0xC2B6_F073_F075_C2B8_F072_F070),
  (0x7E68, 0xF2B8_C3B7_C3B8_C3B4),
  (0x7E6D, 0xC3B5),
  (0x7E6F, 0xF2B4_F2B2),
  (0x7E72, 0xF2B6_C3BA_F2B7_F2B0_F2AF_F2B3_F2B1_C3B6_F2B5_F4AC_C47E_C47D),
  (0x7E7E, 0xF4AD),
  (0x7E80, 0xF4AF_F4AE_C4A1),
  (0x7E86, 0xF5EB_F5E8_F5E9),
  (0x7E8A, 0xF5E7_F5EA_C4F2_F5EC),
  (0x7E8F, 0xC4F1),
  (0x7E91, 0xF742),
  (0x7E93, 0xC5D5_C5D7_F7EE_C5D6_F8B9_F940_F942_F8FE_F941_C66C),
  (0x7F36, 0xA6CE),
  (0x7F38, 0xACFB_D26F_AFCA),
  (0x7F3D, 0xB2DA_DAFC_DAFD),
  (0x7F43, 0xEADF_C16A_EDE1),
  (0x7F48, 0xC2BB),
  (0x7F4A, 0xF2BA_F2B9_C4A2_F5ED),
  (0x7F4F, 0xF743_C5F8_CA49),
  (0x7F54, 0xAAC9_A875),
  (0x7F58, 0xD04D),
  (0x7F5B, 0xD360_D35B_D35F_D35D_AFCB_D35E_D35C),
  (0x7F63, 0xD6F1),
  (0x7F65, 0xDAFE_DB40_DF69_DF6A_B86E_B86F_DF68_DF6B_DF67_B86D),
  (0x7F70, 0xBB40),
  (0x7F72, 0xB870_E37A),
  (0x7F75, 0xBD7C_E6F1_BD7D),
  (0x7F79, 0xBFA9_EAE2_EAE0_EAE1_EDE4_EDE3_EDE2),
  (0x7F83, 0xF2BB),
  (0x7F85, 0xC3B9_F2BC_F744_C5F9_F8BA_A6CF_AACB_AACA_D04F_ACFC),
  (0x7F91, 0xD04E_D362),
  (0x7F94, 0xAFCC_D6F2_D361),
  (0x7F9A, 0xB2DC_D6F5_D6F3_D6F4_B2DB),
  (0x7FA0, 0xDB42_DB43_DB41),
  (0x7FA4, 0xB873_DF6D_DF6C_DF6E_B872_B871),
  (0x7FAC, 0xE6F2_E6F4),
  (0x7FAF, 0xBD7E_E6F3_EAE3_BFAA_F079),
  (0x7FB5, 0xF078_C3BB_F2BD_C3BD_C3BC_F4B0_F5EE_C4F3_A6D0_D050_ACFD_D365),
  (0x7FC1, 0xAFCE_D364_D363),
  (0x7FC5, 0xAFCD),
  (0x7FC7, 0xD6FB),
  (0x7FC9, 0xD6FD_D6F6_D6F7_B2DD_D6F8_B2DE_D6FC_D6F9_D6FA_B2DF),
  (0x7FD4, 0xB5BE_B5BF),
  (0x7FD7, 0xDB44),
  (0x7FDB, 0xDF6F_DF70),
  (0x7FDE, 0xE37E_BB43_BB41_BB42_E37B_E37C),
  (0x7FE5, 0xE37D_E6F9),
  (0x7FE8, 0xE6FA_BDA1_E6F7_E6F6_E6F8_E6F5_BFAD_EAE4_BFAB_BFAC_EDE6_C16B),
  (0x7FF4, 0xEDE5_EFA8),
  (0x7FF7, 0xF07A_F07B_C2BC),
  (0x7FFB, 0xC2BD_C16C_F2BE_F2BF_F4B1_C4A3_A6D1),
  (0x8003, 0xA6D2_ACFE_AACC_AFCF_D051),
  (0x800B, 0xB5C0_A6D3_AD41_D052_D053_AD40_AD42_A6D4),
  (0x8014, 0xD054_AFD1_D366_AFD3_AFD0_AFD2),
  (0x801B, 0xD741_B2E0),
  (0x801E, 0xD740_D6FE),
  (0x8021, 0xDF71),
  (0x8024, 0xE3A1),
  (0x8026, 0xBDA2),
  (0x8028, 0xBFAE_EAE6_EAE5),
  (0x802C, 0xEDE7),
  (0x8030, 0xF5EF),
  (0x8033, 0xA6D5_CB73_CDAA_AD43_D055),
  (0x8039, 0xD368),
  (0x803D, 0xAFD4_D367_AFD5),
  (0x8043, 0xD743),
  (0x8046, 0xB2E2_D742_D744),
  (0x804A, 0xB2E1),
  (0x804F, 0xDB46_DB47_DB45_B5C1),
  (0x8056, 0xB874),
  (0x8058, 0xB875),
  (0x805A, 0xBB45),
  (0x805C, 0xE3A3_E3A2_BB44),
  (0x8064, 0xE6FB),
  (0x8067, 0xE6FC),
  (0x806C, 0xEAE7),
  (0x806F, 0xC170_C16F_C16D_C16E_C171),
  (0x8075, 0xF07C_C2BF_C2BE_F2C0_F4B2),
  (0x807D, 0xC5A5_C5A4_A6D6),
  (0x8082, 0xD1FB),
  (0x8084, 0xB877_B5C2_B876_BB46),
  (0x8089, 0xA6D7_C9A9_A6D8_A6D9),
  (0x808F, 0xCDAB_CB76),
  (0x8092, 0xCB77_A877),
  (0x8095, 0xCB74_A876),
  (0x8098, 0xA879_CB75_A87B_A87A_CB78_A878),
  (0x80A1, 0xAAD1_AACF_CDAD),
  (0x80A5, 0xAACE),
  (0x80A9, 0xAAD3_AAD5_AAD2),
  (0x80AD, 0xCDB0_CDAC_AAD6),
  (0x80B1, 0xAAD0_A87C),
  (0x80B4, 0xAAD4_CDAF),
  (0x80B8, 0xCDAE),
  (0x80BA, 0xAACD),
  (0x80C2, 0xD05B_AD47_AD48_D05D),
  (0x80C7, 0xD057_D05A_D063_D061),
  (0x80CC, 0xAD49_D067_AD4C_D064_D05C_D059),
  (0x80D4, 0xDB49_D062_AD44_D065_D056_D05F_AD46_AD4B_D060_AD4F_AD4D),
  (0x80E0, 0xD058_AD4A),
  (0x80E3, 0xD05E_AD4E_AD45_D066),
  (0x80ED, 0xAFDA),
  (0x80EF, 0xAFE3_AFD8_AFD6_D36A_AFDE_AFDB_D36C),
  (0x80F8, 0xAFDD_D36B_D369_D36E_AFE2_AFE0_DB48),
  (0x8100, 0xD36F_D36D_AFD7),
  (0x8105, 0xAFD9_AFDC),
  (0x8108, 0xAFDF),
  (0x810A, 0xAFE1),
  (0x8115, 0xD74E_B2E4),
  (0x8118, 0xD745_D747),
  (0x811B, 0xD748),
  (0x811D, 0xD750_D74C_D74A),
  (0x8121, 0xD74D_D751_B2E5_B2E9_D746),
  (0x8127, 0xD74F),
  (0x8129, 0xB2E7),
  (0x812B, 0xB2E6_D74B_D749),
  (0x812F, 0xB2E3_B2E8),
  (0x8139, 0xB5C8_DB51),
  (0x813D, 0xDB4F_B5CA),
  (0x8143, 0xDB4A_DFA1),
  (0x8146, 0xB5C9_DB4E),
  (0x814A, 0xDB4B_B5C5_B5CB_DB50_B5C7_DB4D_BB47_B5C6_DB4C_B5CC_B5C4_B5C3),
  (0x815B, 0xDF77_DF75),
  (0x815E, 0xDF7B),
  (0x8160, 0xDF73_DFA2_DF78),
  (0x8164, 0xDF72_B87B_B8A3_DF7D),
  (0x8169, 0xDF76),
  (0x816B, 0xB87E),
  (0x816E, 0xB87C_DF7E_B879_B878_DF79_B87D_B5CD),
  (0x8176, 0xDF7C_DF74_B87A_B8A1_B8A2),
  (0x817F, 0xBB4C_BB48),
  (0x8182, 0xBB4D_E3A6),
  (0x8186, 0xE3A5_E3A7_BB4A_E3A4_BB4B_E3AA_E3A9_E3A8),
  (0x818F, 0xBB49),
  (0x8195, 0xE741),
  (0x8197, 0xE744_BDA8_E743_BDA7_BDA3_BDA4_BDA5_E740_E6FE_BDA6),
  (0x81A2, 0xE742_E6FD),
  (0x81A6, 0xEAE9_EAF3_BFB1_BFB0),
  (0x81AB, 0xEAED_EAEF),
  (0x81AE, 0xEAEA),
  (0x81B0, 0xEAEE_EAE8_EAF1_BFAF_EAF0_EAEC),
  (0x81B7, 0xEAF2),
  (0x81B9, 0xEAEB_C174_EDE8_EDEE_C178_C17A_C177_C176),
  (0x81C2, 0xC175_C173_EDE9_EDEC_C172_EDED),
  (0x81C9, 0xC179_EDEB),
  (0x81CC, 0xEDEA_C2C0),
  (0x81CF, 0xC2C1_F0A1_F07D_F07E),
  (0x81D5, 0xF2C2),
  (0x81D7, 0xF2C1_C3BE_F4B4_C4A4_F4B3),
  (0x81DD, 0xF5F0_F745_C5A6_F943_F944_C5D8_A6DA),
  (0x81E5, 0xAAD7_DB52_BB4E_C17B_EDEF_A6DB),
  (0x81EC, 0xAFE5_AFE4_DB53),
  (0x81F2, 0xEAF4_A6DC_AD50),
  (0x81F7, 0xDB54_DB55_DB56_BB4F_BFB2_A6DD),
  (0x81FE, 0xAAD8_D068_AFE6_D370_B2EA),
  (0x8204, 0xDB57_B8A4),
  (0x8207, 0xBB50_BFB3_C17C_C2C2_F4B5_A6DE_AAD9),
  (0x8210, 0xAFE7_D752_B5CE),
  (0x8214, 0xBB51_E3AB_E745),
  (0x821B, 0xA6DF_B5CF_DFA3_BB52_A6E0_CDB1_D069_AD51),
  (0x8225, 0xD372),
  (0x8228, 0xAFEA),
  (0x822A, 0xAFE8_AFE9_AFEB),
  (0x822F, 0xD371),
  (0x8232, 0xD757_D754_D756_B2EB_B2ED_B2EC_D753_B2EE_D755),
  (0x823C, 0xDB58_DB59),
  (0x823F, 0xDB5A_DFA6),
  (0x8242, 0xDFA7),
  (0x8244, 0xDFA5_DFA8),
  (0x8247, 0xB8A5),
  (0x8249, 0xDFA4),
  (0x824B, 0xBB53),
  (0x824E, 0xE74A_E746_E749_E74B_E748_E747),
  (0x8255, 0xEAF5_EAF6_EAF7_BFB4_BFB5_EDF1_EDF0_EDF2),
  (0x825E, 0xF0A3_F0A2),
  (0x8261, 0xF2C4),
  (0x8263, 0xF2C5_F2C3),
  (0x8266, 0xC4A5),
  (0x8268, 0xF4B6_F4B7),
  (0x826B, 0xF746_F7EF_F8BB_A6E1_A87D),
  (0x8271, 0xC17D_A6E2),
  (0x8274, 0xD758_DB5B),
  (0x8277, 0xC641_CA4A),
  (0x827C, 0xCA4B_CA4D_A6E3_CA4E_CA4C),
  (0x8283, 0xCBA2_CBA3_CB7B),
  (0x828A, 0xCBA1_A8A1),
  (0x828D, 0xA8A2_CB7C_CB7A_CB79_CB7D_A87E_CB7E_D06A),
  (0x8298, 0xCDB6_AADC_CDB5_CDB7),
  (0x829D, 0xAADB_CDBC_AADF_CDB2_CDC0_CDC6_AAE6_CDC3_AAE3),
  (0x82A7, 0xCDB9_CDBF_CDC1),
  (0x82AB, 0xCDB4_AAE2_AADD_CDBA_AAE4_AAE7_AAE1),
  (0x82B3, 0xAADA_CDBE_CDB8_CDC5_AAE9_AAE5_AAE0_CDBD_AFEC_CDBB_AADE_AAE8),
  (0x82C0, 0xCDB3),
  (0x82C2, 0xCDC2_CDC4),
  (0x82D1, 0xAD62_AD5C_AD64_AD61_D071_D074_AD5D),
  (0x82D9, 0xD06B),
  (0x82DB, 0xAD56_AD60),
  (0x82DE, 0xAD63_AD65_D0A2_D077),
  (0x82E3, 0xAD55_D0A1_AD59_AD57_AD52_D06F),
  (0x82EA, 0xD07E_D073_D076_D0A5),
  (0x82EF, 0xAD66_D07D_AD5E_D078_D0A4_D075_D079_D07C),
  (0x82F9, 0xD06D_D0A3_D07B),
  (0x82FE, 0xD06C),
  (0x8300, 0xD070_AD5F_AD5A_AD53_AD58_AD54_AD67_D06E_D3A5_AD5B),
  (0x830C, 0xD07A_CE41),
  (0x8316, 0xD3A8_AFFA),
  (0x8319, 0xD376),
  (0x831B, 0xD3A3_D37D),
  (0x831E, 0xD3B2),
  (0x8320, 0xD3AA),
  (0x8322, 0xD37E),
  (0x8324, 0xD3A9_D378_D37C_D3B5_AFFD_D3AD_D3A4_AFED_D3B3_D374),
  (0x832F, 0xD3AC),
  (0x8331, 0xAFFC_AFF7_D373_AFF5_AFF4_AFF9_D3AB_AFF1_AFF8_D072_DB5C_D3A6),
  (0x833F, 0xD37A_AFFB_D37B_D3A1_AFFE_D375_D3AF),
  (0x8347, 0xD3AE_D3B6_AFF3_AFF0_D3B4_D3B0_D3A7_D3A2_AFF6_AFF2_D377_AFEE),
  (0x8353, 0xD3B1_AFEF),
  (0x8356, 0xD379),
  (0x8373, 0xD75E_D760_D765_D779_B2FC_B2F2),
  (0x837A, 0xD75D_B2FD_B2FE_D768_D76F_D775),
  (0x8381, 0xD762),
  (0x8383, 0xD769),
  (0x8386, 0xB340_D777_D772_B2FA_B2F8_D76E_D76A_D75C_B2EF_D761_D759),
  (0x8392, 0xB2F7_B2F9_D766_D763_B2F4_D773_B2F1_D764_D77A_D76C),
  (0x839D, 0xD76B_B2F0),
  (0x83A0, 0xB2FB),
  (0x83A2, 0xB2F3_D75A_D75F_D770_D776_B341_D75B_D767_D76D_B2F6),
  (0x83AE, 0xD778_D771_D774),
  (0x83BD, 0xB2F5),
  (0x83BF, 0xDB6C_DB60_B5D7_DB7D_DBA7_DBAA_B5D5_DB68_DBA3_DB69_DB77_B5E2),
  (0x83CB, 0xDB73_B5DF),
  (0x83CE, 0xDB74_DB5D),
  (0x83D1, 0xDBA4),
  (0x83D4, 0xB5E8_DBA1_DB75_DBAC_DB70_DFC8),
  (0x83DB, 0xDBAF_B5E6_DB6E_DB7A_B5E9_B5D4_DB72_DBAD_DB6B_DB64_DB6F),
  (0x83E7, 0xDB63_DB61_B5D0_DBA5_DB6A_DBA8),
  (0x83EE, 0xDBA9_B5D8_B5DD_B5D9_B5E1_DB7E_B5DA_DB76_DB66),
  (0x83F8, 0xB5D2_DB5E_DBA2_DBAB_DB65_B5E0_DBB0_DB71),
  (0x8401, 0xDB6D),
  (0x8403, 0xB5D1_B5E5),
  (0x8406, 0xDB7C_B5E7),
  (0x8409, 0xDB78_B5DC_B5D6_B5DE_B5D3_B5E4_DB79_DB67_DB7B_DB62_DBA6),
  (0x841B, 0xDBAE),
  (0x8423, 0xDB5F),
  (0x8429, 0xDFC7),
  (0x842B, 0xDFDD_B855_DFCC),
  (0x842F, 0xDFCA_DFB5_B8A9_DFC5_DFD9_DFC1_B8B1_DFD8_DFBF_B5E3_DFCF_DFC0),
  (0x843B, 0xDFD6_B8B0_B8A8),
  (0x843F, 0xDFAA_DFB2),
  (0x8442, 0xDFCB_DFC3_DFDC_DFC6_B8B6_DFD7),
  (0x8449, 0xB8AD),
  (0x844B, 0xDFC9_DFD1_DFB6_DFD0),
  (0x8450, 0xDFE1_DFB1_DFD2),
  (0x8454, 0xDFDF),
  (0x8456, 0xDFAB_B5DB),
  (0x8459, 0xDFB9_DFB8_B8AF),
  (0x845D, 0xDFBC_DFBE_DFCD_DFDE_B8B2),
  (0x8463, 0xB8B3),
  (0x8465, 0xDFB0_B8AB_DFB4_DFDA_B8B4),
  (0x846B, 0xB8AC_B8AE_B8B5_DFE0_DFD3_DFCE),
  (0x8473, 0xDFBB_DFBA_B8AA_DFAC_B8A7_DFC4_DFAD_DFC2),
  (0x847D, 0xDFB7_DFDB),
  (0x8482, 0xB8A6),
  (0x8486, 0xDFB3),
  (0x848D, 0xDFAF_DFD5_DFAE_BB60_E3D3),
  (0x8494, 0xE3C2),
  (0x8497, 0xE3AC_E3CA_BB58_E3BB_E3C5_BB5B_E3BE_BB59_E3AF_E3CD_E3AE_E3C1),
  (0x84A4, 0xE3AD),
  (0x84A7, 0xE3BF_E3C8_E3C6_E3BA_E3B5_E3B3),
  (0x84AE, 0xE3B4_E3C7_E3D2_E3BC_BB5A),
  (0x84B4, 0xE3B7),
  (0x84B6, 0xE3CB),
  (0x84B8, 0xBB5D_E3B6_E3B0_E3C0_BB61),
  (0x84BF, 0xBB55_BB5E_E3B8_E3B2),
  (0x84C4, 0xBB57_DFD4_BB56_E3C3),
  (0x84C9, 0xBB54_BB63_BB5C_E3C4_E3B9_E3B1_E3CC_E3BD_BB62_E3D0_BB5F_E3CF),
  (0x84D6, 0xE3C9_E3CE),
  (0x84DB, 0xE3D1),
  (0x84E7, 0xE773_E774_E767_E766_E762_BDB4),
  (0x84EE, 0xBDAC_E776_E775_DFA9_E75F_E763_E75D),
  (0x84F6, 0xE770_E761),
  (0x84F9, 0xE777_E75A_E758_E764_E76E_E769_BDB6_E74F),
  (0x8502, 0xE76D),
  (0x8506, 0xBDB7_DFBD_E75B_E752_E755_E77B_E75C_E753_E751_E74E),
  (0x8511, 0xBDB0_E765_BDAF_BDB3_E760_E768_BDA9_E778_E77C_BDAB),
  (0x851C, 0xE757_E76B_E76F_E754_E779_BDB2),
  (0x8523, 0xBDB1_E74C_BDB5_E772_E756_E76A_E750_E75E_E759_BDAD_BDAE_E76C),
  (0x852F, 0xE77D_E77A_E771),
  (0x853B, 0xE74D),
  (0x853D, 0xBDAA_EB49),
  (0x8540, 0xEB40_EB43),
  (0x8543, 0xBFBB_EB45_EAF9_EB41_EB47_BFB8_BFBC_BFB6),
  (0x854D, 0xEAFB_EB4C),
  (0x8551, 0xEB46),
  (0x8553, 0xEAFC_EB55_EB4F_EAF8_EE46_EAFE_BFB7),
  (0x855B, 0xEB4A),
  (0x855D, 0xEB54_BFBF),
  (0x8560, 0xEB51_EAFD_EB44_EB48_EB42_EB56_EB53_EB50_BFB9_BFBA_BFBE_EAFA),
  (0x856C, 0xEB57_BFBD_EB4D),
  (0x8571, 0xEB4B),
  (0x8575, 0xEB4E_EE53_EE40_EE45_EE52_EE44_EDFB_EE41),
  (0x857E, 0xC1A2),
  (0x8580, 0xEDF4_EE4D_EE4F_EDF3_C1A1_EE51_EE49_C1A8_EE50_EE42_C1AA_EDF9),
  (0x858C, 0xEB52_EE4A_EE47_EDF5_EE55_C1A4),
  (0x8594, 0xC1A5_EDF7_EE48),
  (0x8598, 0xEE54_EE4B_EDFD_C1A7_C1A3_EE4C_EDFE_EE56_EDF8_EE43_EE4E_EDFA),
  (0x85A4, 0xEDFC),
  (0x85A6, 0xC2CB_EDF6_C1A9_C2C4_C17E),
  (0x85AF, 0xC1A6_C2C8_F0B3),
  (0x85B3, 0xF0A9_F0A4_F0AA_F0B4_F0B8_F0B7_C2CA_C2C9),
  (0x85BD, 0xF0AB_F0B9_F0AE_F0A6),
  (0x85C2, 0xF0A8_F0A7_F0AD_F0B2_F0A5_F0AC_F0B1_C2C7),
  (0x85CB, 0xF0AF),
  (0x85CD, 0xC2C5_F0B0_C2C3_C2C6_F2D5_F0B5),
  (0x85D5, 0xC3C2),
  (0x85D7, 0xF2CD_F2D1_F2C9_F2CC),
  (0x85DC, 0xF2D4_C3C0_F2D9_F2D2),
  (0x85E1, 0xF2CA_F2DA_F2D3_C3C3_C3C4_F2D7),
  (0x85E8, 0xF2CB_C3BF_C3C1_F2C6_F2CE_F2C8),
  (0x85EF, 0xF2D8_F2D6_F2C7_F2CF),
  (0x85F6, 0xF4BE_C3C5_F2D0_C4A7_C4A9_C4A6),
  (0x85FD, 0xF4C3_F4BB_F4B9_F4BD_F4BA),
  (0x8604, 0xF4BF_F4C1_C4AA_C4AC),
  (0x8609, 0xF4C0_C4AD_C4AB_F4C2),
  (0x8611, 0xC4A8),
  (0x8617, 0xC4F4_F5F1_F5F7_C4F6_F4BC_F5F6),
  (0x861E, 0xF5FD_F5F4_F5FB_F5FA_F4B8_F5F5_F0B6_F5FE_F5F3_F5F8),
  (0x8629, 0xF5FC_F5F2),
  (0x862C, 0xF74A_C4F5_F5F9),
  (0x8631, 0xF7F4_F74B_F749_F747_F748_F74C),
  (0x8638, 0xC5D9_F7F2_F7F0_F7F5_F7F3),
  (0x863E, 0xF7F6_C5DA_F7F1),
  (0x8643, 0xF8BC),
  (0x8646, 0xF945_F946_F947),
  (0x864B, 0xF9C7_F9BD_CA4F_AAEA),
  (0x8650, 0xAD68),
  (0x8652, 0xD3B8_D3B7_B040_B342_D77C),
  (0x8659, 0xD77B),
  (0x865B, 0xB5EA_B8B8),
  (0x865E, 0xB8B7_B8B9),
  (0x8661, 0xE3D4_E77E_EB58_EB5A_EB59),
  (0x8667, 0xC1AB_EE57_F0BA_F9A5_A6E4),
  (0x866D, 0xCDC9_CDCA_CDC8_CDC7_AAEB),
  (0x8673, 0xD0A9_D0A7),
  (0x8677, 0xD0A6),
  (0x8679, 0xAD69_AD6B_AD6A_D0A8),
  (0x8685, 0xD3C4_D3C1_D3BF),
  (0x868A, 0xB041_D3C2_B046_D3BC_D3CB),
  (0x8690, 0xD3CD_D3BD),
  (0x8693, 0xB043_D3CE_D3C9_D3BB_D3C0_D3CA_D3C6_D3C3),
  (0x869C, 0xB048_D3CC_D3BE),
  (0x86A1, 0xD3C7_D3B9_B047_B044_D3C5),
  (0x86A7, 0xD3C8_D3BA_B045_B042),
  (0x86AF, 0xB34C_D7A5_B34B),
  (0x86B3, 0xD7A8_D7AB_B348_B346_D77E_D7A9_D7A7_D7A4_D7AC_D7AD_D7AF_D7B0),
  (0x86BF, 0xD77D_B345_D7A2_D7A1_D7AE_B347_D7A3_B349_B344_D7A6_B34D),
  (0x86CB, 0xB34A_D7AA),
  (0x86D0, 0xB5F1_DBBF),
  (0x86D3, 0xDBB4_B5EE),
  (0x86D6, 0xDFE7_DBBD_DBB1_B5EC_DBB6_B5EF_DBBA_DBB8_B5F2_B5EB),
  (0x86E2, 0xDBB2_DBB5_B5F0),
  (0x86E6, 0xDBB3),
  (0x86E8, 0xDBBE_DBBC_DBB7_DBB9_DBBB_B5ED),
  (0x86F5, 0xDFE8_DFEE_DFE4_DFEA_B8BA_DFE6_B8C0),
  (0x86FE, 0xB8BF),
  (0x8700, 0xB8BE_DFED_B8C1_B8C2_DFE3_DFF0_B8C3_B8BD_B8BC_DFEC_B8C4_DFE2),
  (0x870C, 0xDFE5_DFEF_DFEB),
  (0x8711, 0xE3F4_E3E9_B8BB),
  (0x8718, 0xBB6A_E3DD_E3F2_E3DE_BB65),
  (0x871E, 0xE3DB),
  (0x8720, 0xE3E4_E3DC_BB67_E3D6_E3F1_BB68_E3EE_E3EF_E3D7_BB6D_E3E6),
  (0x872C, 0xE3E0_E3E7_E3DA),
  (0x8730, 0xE3F3_E3EB_E3E5_E3D5_BB69_E3EC),
  (0x8737, 0xBB6C_E3F0),
  (0x873A, 0xE3EA_BB66_E3E8),
  (0x873E, 0xE3E2_BB64_E3D9_E3E1_E3ED_E3DF),
  (0x8746, 0xE3E3),
  (0x874C, 0xBDC1_DFE9_E7B2_E7BB_E7B1_E7AD_E7AA_BDC2_E7A8_BB6B_E7A1_BDC0),
  (0x8758, 0xE7A7_BDBF_E7AC_E7A9_E7B9_E7B4_E7AE_E7B3_BDBB_E7AB_E7BE_E7A2),
  (0x8764, 0xE7A3_E7BA_BDBC_E7BF_BDBE_E7C0_E7B0_E3D8_E7B6_E7AF_E7B8_E7B5),
  (0x8773, 0xE7A6_BDB9_E7BD_BDBA_E7A4_BDBD_EB64_E7B7_E7BC),
  (0x8781, 0xEB61_BDB8_BFC0_EB6B_EB67),
  (0x8787, 0xEB65_EB60_EB6F),
  (0x878D, 0xBFC4),
  (0x878F, 0xEB5C_EB68_EB69_EB5F_EB5E_EB6C),
  (0x8796, 0xEB62_EB5D_EB63),
  (0x879A, 0xEB6E_EB5B_EB6D_EB6A_BFC2_BFC1),
  (0x87A2, 0xBFC3_EB66_F0CB),
  (0x87AA, 0xEE59_C1B1_EE5D_EE5A_EE61_EE67_EE5C),
  (0x87B2, 0xEE70_C1AE_EE6A_EE5F_EE6B_EE66_EE6D_EE5E_C1B3_C1B2_EE60_EE6E),
  (0x87BE, 0xEE58_EE6C_C1AC),
  (0x87C2, 0xEE64_EE63_EE68_EE5B_C1B0),
  (0x87C8, 0xC1B4_EE62_EE69_C1B5_EE65),
  (0x87D1, 0xC1AD_C1AF_F0C7_F0C5),
  (0x87D7, 0xF0CC_F0C9_F0CD),
  (0x87DB, 0xF0BE_F0C6_F0D1_EE6F_F0C2_C2CF_E7A5_F0BD_F0CA_F0C4_F0C1_F0BC),
  (0x87E7, 0xF0BB_F0D0),
  (0x87EA, 0xF0C0_F0BF_C2CD_F0C8),
  (0x87EF, 0xC2CC),
  (0x87F2, 0xC2CE_F0C3_F0CF),
  (0x87F6, 0xF2DE_F2DF),
  (0x87F9, 0xC3C9_F2DC_C3C6_F2E4),
  (0x87FE, 0xC3CA_F2E6_F2DB_F0CE_F2E8_F2DD),
  (0x8805, 0xC3C7_F2E3),
  (0x8808, 0xF2E5_F2E0_F2E7_F2E2_F2E1_C3C8),
  (0x8810, 0xF4C5_F4C6),
  (0x8813, 0xF4C8_C4AE_C4AF_F4C9_F4C7),
  (0x8819, 0xF4C4),
  (0x881B, 0xF642_F645_F641),
  (0x881F, 0xC4FA_F643_C4F9_C4F8_C4F7_F644_F751_F74F),
  (0x8828, 0xF74E_F640_F750_F646_F74D),
  (0x882E, 0xF7F9_F7D7_F7F7_C5DB_F7F8_F7FA),
  (0x8835, 0xF8BF_C5FA_F8BE_F8BD_C5FB),
  (0x883B, 0xC65A_F96E_F9A7_F9A6_F9A8_A6E5_D0AA),
  (0x8843, 0xD3CF_D3D0),
  (0x8848, 0xDBC0),
  (0x884A, 0xF647_F8C0_A6E6_AD6C_D0AB),
  (0x8852, 0xD7B1_B34E),
  (0x8855, 0xDBC2_DBC1_B5F3),
  (0x8859, 0xB8C5_E7C1_BDC3),
  (0x885D, 0xBDC4),
  (0x8861, 0xBFC5_C5FC_A6E7),
  (0x8867, 0xD0AC_AAED_D0AE_D0AD_AD6D),
  (0x886D, 0xD3D1),
  (0x886F, 0xD3D8_B049_D3D6_D3D4),
  (0x8874, 0xD3DB_D3D2_D3D3_B04A),
  (0x8879, 0xB04E),
  (0x887C, 0xD3DC_B04D_D3DA_D3D7_D3D5_B04B_B04C_D3D9),
  (0x8888, 0xB350_D7B2),
  (0x888B, 0xB355_D7C2_B354_D7C4),
  (0x8891, 0xD7B8_B352_D7C3),
  (0x8895, 0xD7B3_B353_D7BF_D7BB_D7BD_D7B7_D7BE),
  (0x889E, 0xB34F_D7BA),
  (0x88A1, 0xD7B9_D7B5),
  (0x88A4, 0xD7C0),
  (0x88A7, 0xD7BC_D7B4),
  (0x88AA, 0xD7B6_B351_D7C1),
  (0x88B1, 0xB5F6_DBCD),
  (0x88B6, 0xDBC9_DBCB_DBC6_DBC5_DBC3),
  (0x88BC, 0xDBCA_DBCC_DBC8),
  (0x88C0, 0xDBC7_B5F4_B5F5),
  (0x88C9, 0xDBCF_B8CD_DFF2_DFF8_DFF3_DFF4_F9D8_DFF9),
  (0x88D2, 0xB8CF),
  (0x88D4, 0xB8C7_B8CE_DFF1_DBC4_B8CA_B8C8_DFF7_DFF6_B8C9_B8CB_DFF5_B8C6),
  (0x88E1, 0xB8CC),
  (0x88E7, 0xE3F6_BB74),
  (0x88EB, 0xE442_E441),
  (0x88EE, 0xE3FB_BB76_E440_E3F7_E3F8_BB6E_BB70),
  (0x88F6, 0xE3FD_E3F5_BB72_BB71_E3F9_E3FE_E3FC_BB73_E3FA),
  (0x8901, 0xDBCE_BB6F),
  (0x8905, 0xE7C2_E7C9_BDC6),
  (0x8909, 0xE7CD_BDCA_E7C5_E7C3),
  (0x890E, 0xE7CC),
  (0x8910, 0xBDC5_E7CB_BDC7_BDC8_E7C4_BDC9_E7CA_E7C6_E7C7_E7C8_BB75),
  (0x891E, 0xEB70_EB7C),
  (0x8921, 0xBFCA_EB77_EB79),
  (0x8925, 0xBFC8_EB71_EB75),
  (0x8929, 0xEB78_BFC6_BFC9_EB7B_EB73_EB74_EB7A_EB72_EB76_BFC7_EE72),
  (0x8935, 0xEE71_C1B7_EE77_C1B9),
  (0x893B, 0xC1B6_EE73_C1BA_EE74),
  (0x8941, 0xEE75_EE78),
  (0x8944, 0xC1B8),
  (0x8946, 0xF0D6),
  (0x8949, 0xF0D9),
  (0x894B, 0xF0D3_F0D5),
  (0x894F, 0xF0D4_F0D7_F0D8_EE76_F0D2),
  (0x8956, 0xC3CD_F2EC_F2EF_F2F1_F2EA_F2EB_F2EE_F2F0_C3CE_C3CC_C3CB_F2ED),
  (0x8962, 0xF2E9_F4CA_C4B0),
  (0x8966, 0xF4CB),
  (0x8969, 0xF649_C4FB_F64B_C4FC_F648_F64A_C5A8),
  (0x8971, 0xF752_C5A7_F7FD_F7FC),
  (0x8976, 0xF7FB),
  (0x8979, 0xF948_F949_F94B_F94A),
  (0x897E, 0xCA50_A6E8),
  (0x8981, 0xAD6E_D7C5_B5F7),
  (0x8985, 0xDFFA_C2D0),
  (0x8988, 0xF2F2),
  (0x898B, 0xA8A3),
  (0x898F, 0xB357),
  (0x8993, 0xB356),
  (0x8995, 0xDBD0_B5F8_DBD2_DBD1),
  (0x899B, 0xDFFB_B8D0_E443_E446_E445),
  (0x89A1, 0xE444_E7CE_E7D0_E7CF),
  (0x89A6, 0xBFCC),
  (0x89AA, 0xBFCB),
  (0x89AC, 0xC1BB_EE79_EE7B_EE7A),
  (0x89B2, 0xC2D1),
  (0x89B6, 0xF2F4_F2F3),
  (0x89B9, 0xF4CC_C4B1),
  (0x89BD, 0xC4FD_F754_F753_C65B),
  (0x89D2, 0xA8A4_D0AF_AD6F_D7C8_D7C6),
  (0x89D9, 0xD7C7_DBD4_DBD5_E043_DBD3),
  (0x89DF, 0xDFFC_E041_E040_E042_B8D1_DFFE_DFFD_E044),
  (0x89E8, 0xE449_E447),
  (0x89EB, 0xE448_E7D3_E7D1),
  (0x89F0, 0xE7D2_EB7D_EE7C_EE7D_C2D2),
  (0x89F6, 0xF2F5_F4CD_C4B2),
  (0x89FA, 0xF64C_F755_C5A9),
  (0x89FE, 0xF7FE_F94C_A8A5),
  (0x8A02, 0xAD71_AD72_D0B0),
  (0x8A07, 0xD0B1_AD70),
  (0x8A0A, 0xB054),
  (0x8A0C, 0xB052),
  (0x8A0E, 0xB051_B058_B050_B059_D3DD_B056),
  (0x8A15, 0xB053_B057_B055_B04F),
  (0x8A1B, 0xB35F),
  (0x8A1D, 0xB359_D7CC_B35E),
  (0x8A22, 0xB360_B35A),
  (0x8A25, 0xB35B),
  (0x8A27, 0xD7CA),
  (0x8A2A, 0xB358),
  (0x8A2C, 0xD7CB_B35D),
  (0x8A30, 0xD7C9_B35C),
  (0x8A34, 0xB644),
  (0x8A36, 0xB646),
  (0x8A39, 0xDBD8_B645_B5F9_B5FD),
  (0x8A3E, 0xB8E4_E049_DBDA_B5FE),
  (0x8A44, 0xDBDD_DBDE_B643),
  (0x8A48, 0xDBE0),
  (0x8A4A, 0xDBE2),
  (0x8A4C, 0xDBE3_DBD7_DBD6_DBE4_B642_DBE1_DBDF),
  (0x8A54, 0xB640_B5FB_B647_DBDB_DBDC_DBD9),
  (0x8A5B, 0xB641),
  (0x8A5E, 0xB5FC),
  (0x8A60, 0xB5FA_E048_B8DF_B8DA),
  (0x8A66, 0xB8D5),
  (0x8A68, 0xB8E5_B8D6),
  (0x8A6B, 0xB8D2_B8E1_B8DE_B8E0),
  (0x8A70, 0xB8D7_B8DC_B8D3_B8D4_E050_E04D_E045_E04A),
  (0x8A79, 0xB8E2_E051_B8E3_B8D9),
  (0x8A7F, 0xE047),
  (0x8A81, 0xE04F_E04B_E04E_E04C_B8DD_E046_B8D8),
  (0x8A8B, 0xE44C_BB78_BB7B),
  (0x8A8F, 0xE44E),
  (0x8A91, 0xBBA5_E44D_BB7D),
  (0x8A95, 0xBDCF_E44F),
  (0x8A98, 0xBBA4_E44B_BBA6),
  (0x8A9E, 0xBB79),
  (0x8AA0, 0xB8DB_BB7C),
  (0x8AA3, 0xBB7A_BB7E_BBA2_BB77_BBA7_BBA3),
  (0x8AAA, 0xBBA1_E44A),
  (0x8AB0, 0xBDD6),
  (0x8AB2, 0xBDD2),
  (0x8AB6, 0xBDD9),
  (0x8AB8, 0xE7D6_BDDA_E7E2_E7DB_BDCB_E7E3_E7DD_BDD5_E7DE),
  (0x8AC2, 0xBDD4_E7E1_BDCE_E7DF_E7D5_BDCD_EBAA_BDD3),
  (0x8ACB, 0xBDD0),
  (0x8ACD, 0xBDD8),
  (0x8ACF, 0xE7D4),
  (0x8AD1, 0xE7D8_BDCC_E7D7_E7D9_E7DA_BDD7_E7DC_E7E0_E7E4),
  (0x8ADB, 0xBDDB_BFD2_EBA5_EBAB_EBA8_EB7E_EBAC_EBA1),
  (0x8AE4, 0xEBA7),
  (0x8AE6, 0xBFCD_BFD3_EBAD),
  (0x8AEB, 0xBFCF),
  (0x8AED, 0xBFD9_BFD4_EBAF_EBA9_BFD0_EBA2_BFDA_EBA3_EBA4_BFDB_BFD8_BDD1),
  (0x8AFA, 0xBFCE_EBB0_BFDC),
  (0x8AFE, 0xBFD5_EBAE_BFD1_BFD6_BFD7),
  (0x8B04, 0xC1C3_EEA4_EEAD_EEAA_EEAC),
  (0x8B0A, 0xC1C0_EEA5),
  (0x8B0D, 0xEEAB_C1BC_EEA7_C1C4_EEA3_EEA8_EEAF_EBA6_EEA9_EEA2_C1BD_EEA1),
  (0x8B19, 0xC1BE_EEB0_C1BF_EEAE_C1C2_EE7E),
  (0x8B20, 0xC1C1),
  (0x8B22, 0xEEA6_F0DC_F0EA_F0E5_F0E7_F0DB_C2D3),
  (0x8B2A, 0xF0DA_C2D6_C2D5),
  (0x8B2E, 0xF0E9_F0E1_F0DE_F0E4),
  (0x8B33, 0xF0DD),
  (0x8B35, 0xF0DF_F0E8_F0E6),
  (0x8B39, 0xC2D4_F0ED_F0EB_F0E2_F0EC_F0E3),
  (0x8B40, 0xF2F9_C3CF_F341),
  (0x8B45, 0xF64F_C3D6_F0E0_F2F7_C3D2_F2F8_F2FD),
  (0x8B4E, 0xC3D4_C3D5_F2F6_F340_F342_F2FA_F2FC_F2FE_F2FB_F343_C3D1_C3D7),
  (0x8B5A, 0xC3D3),
  (0x8B5C, 0xC3D0_F4D0),
  (0x8B5F, 0xC4B7_F4CE),
  (0x8B63, 0xF4D2),
  (0x8B65, 0xF4D3_C4B5_F4D4_F4D1),
  (0x8B6A, 0xF4CF_C4B8_C4B4_F4D5),
  (0x8B6F, 0xC4B6_C4B3),
  (0x8B74, 0xC4FE),
  (0x8B77, 0xC540_F64E_F64D_F650_F651),
  (0x8B7D, 0xC541_F756_F75B_C5AA),
  (0x8B82, 0xF758),
  (0x8B84, 0xF757_F75A_F759),
  (0x8B88, 0xF843),
  (0x8B8A, 0xC5DC_F842_F840),
  (0x8B8E, 0xF841),
  (0x8B92, 0xC5FE_C5FD_F8C1_F8C2_C640),
  (0x8B98, 0xF94D_F94E_C667),
  (0x8B9C, 0xC66D),
  (0x8B9E, 0xF9A9_F9C8),
  (0x8C37, 0xA8A6),
  (0x8C39, 0xD7CD),
  (0x8C3B, 0xD7CE_E052_E450_E7E5_C1C6),
  (0x8C41, 0xC1C5_F0EE_F344),
  (0x8C45, 0xF844_A8A7_D3DE_B05A_B361_E054_E053_BDDC_E7E6_BDDD_EEB1_C2D7),
  (0x8C54, 0xC676_A8A8_CDCB_D3DF),
  (0x8C5A, 0xB362),
  (0x8C5C, 0xD7CF_D7D0),
  (0x8C5F, 0xDBE5),
  (0x8C61, 0xB648_B8E6),
  (0x8C64, 0xE056_E055_E057),
  (0x8C68, 0xE451_E452_BBA8_BFDD_BDDE_BFDE),
  (0x8C6F, 0xEEB5_EEB2_EEB4_EEB3_C1C7),
  (0x8C75, 0xF0EF_F346_F345_CBA4_B05C_B05B_D3E0),
  (0x8C7D, 0xD7D1),
  (0x8C80, 0xDBE7_DBE6_B649),
  (0x8C84, 0xE059_E05A_E058),
  (0x8C89, 0xB8E8_B8E7),
  (0x8C8C, 0xBBAA_BBA9),
  (0x8C8F, 0xE7E7_EBB3_EBB1_EBB2_BFDF_EEB7_EEB6),
  (0x8C97, 0xF0F2_F0F1_F0F0_F347),
  (0x8C9C, 0xF9AA_A8A9_AD73),
  (0x8CA0, 0xAD74_B05D_B05E_D3E2_D3E1_D7D2),
  (0x8CA7, 0xB368_B366_B363_B367_B365_B364),
  (0x8CAF, 0xB64A_DBEA),
  (0x8CB2, 0xB8ED_B64C_B651_DBEC_B653_B652_B655_DBEB_DBE8_B64F_B64B_B64D),
  (0x8CBE, 0xDBE9_B654_B650_B64E_B8EF_B8EE_B8EC_B8F0),
  (0x8CC7, 0xB8EA_B8EB),
  (0x8CCA, 0xB8E9),
  (0x8CCC, 0xE05B),
  (0x8CCF, 0xE454),
  (0x8CD1, 0xBBAC_BBAD_BBAB),
  (0x8CD5, 0xE453),
  (0x8CD7, 0xE455),
  (0x8CD9, 0xE7EA_E7EC),
  (0x8CDC, 0xBDE7_E7ED_BDE0_E7E9_BDDF_BDE9_BDE5_BDE6_BDE2_E7E8_BDE1_E7EE),
  (0x8CE8, 0xE7EB),
  (0x8CEA, 0xBDE8),
  (0x8CEC, 0xBDE3_BDE4_EBB5),
  (0x8CF0, 0xEBB7_EBB6),
  (0x8CF3, 0xEBB8_BFE0_EBB4),
  (0x8CF8, 0xC1CB_EEB8_C1C8_C1CC_C1CA_C1C9_F0F3),
  (0x8D00, 0xF0F6),
  (0x8D02, 0xF0F5),
  (0x8D04, 0xF0F4_C2D8_F348_F349_C3D8_F34A_C3D9),
  (0x8D0D, 0xC4BA),
  (0x8D0F, 0xC4B9_F652),
  (0x8D13, 0xC542_F653_F75C_C5AB_C5AC),
  (0x8D19, 0xF845),
  (0x8D1B, 0xC642),
  (0x8D64, 0xA8AA),
  (0x8D66, 0xB36A_B369_E05C_E05D),
  (0x8D6B, 0xBBAE_EBB9_BDEA_EBBA_EEB9_A8AB),
  (0x8D72, 0xD0B2_AD76_AD75),
  (0x8D76, 0xD3E3_B05F_D3E4_D7D5),
  (0x8D7B, 0xD7D4),
  (0x8D7D, 0xD7D3),
  (0x8D80, 0xDBEE_B658),
  (0x8D84, 0xDBED_B657),
  (0x8D89, 0xDBEF_B656),
  (0x8D8C, 0xE05F_E062_E060_E061_E065_E05E_E066_E063_E064_BBB0_E456),
  (0x8D99, 0xBBAF),
  (0x8D9B, 0xE7F2_E7F0),
  (0x8D9F, 0xBDEB_E7EF_E7F1),
  (0x8DA3, 0xBDEC),
  (0x8DA5, 0xEBBB),
  (0x8DA7, 0xEBBC_C1CD),
  (0x8DAA, 0xF34C_F34E_F34B_F34D_F4D6_F654),
  (0x8DB2, 0xF96F_A8AC_AD77_D3E5_D3E7_D3E6),
  (0x8DB9, 0xD7D8_B36C),
  (0x8DBC, 0xD7D6),
  (0x8DBE, 0xB36B_D7D9),
  (0x8DC1, 0xD7DA_D7D7),
  (0x8DC5, 0xDBFB_B660_DBF3_DBF9),
  (0x8DCB, 0xB65B_B65E_DBF2_B659_DBF6_E06C_B65D),
  (0x8DD3, 0xDBF1),
  (0x8DD5, 0xDBF7_DBF4_DBFA_DBF0_DBF8_B65C_B65F_DBF5_B65A),
  (0x8DDF, 0xB8F2_E068_B8F1_E06F_E06E_B8F8),
  (0x8DE6, 0xB8F9_E070_B8F3_E06D_B8F7_E072_E069),
  (0x8DEE, 0xE06B_B8F4_E067_E06A_E071_B8F5_E073),
  (0x8DFA, 0xB8F6),
  (0x8DFC, 0xBBB1_E45B_E461_E459_E462),
  (0x8E02, 0xE458_E45D_E463_E460_E45F_E45E),
  (0x8E09, 0xE457_E45C),
  (0x8E0D, 0xE45A),
  (0x8E0F, 0xBDF1_BDEE_E7FB_E841_E843_E840_E7F8_E7FA_E845_E842_E7FC_E846),
  (0x8E1B, 0xE7F9_E844_BDEF_BDF5_BDF3_E7F3_BDF4_BDF0_E7F4_E7F6_E7F5_E7FD),
  (0x8E27, 0xE7FE),
  (0x8E29, 0xBDF2),
  (0x8E2B, 0xBDED),
  (0x8E2E, 0xE7F7),
  (0x8E30, 0xEBC6_BFE2),
  (0x8E33, 0xEBBD_BFE3_BFE6_EBC2),
  (0x8E38, 0xEBBF_BFE5),
  (0x8E3C, 0xEBC3_EBC4_EBBE_EBC7_EBC0_EBC5_BFE4),
  (0x8E44, 0xBFE1_EBC1),
  (0x8E47, 0xEEBF_C1D0_C1CE_C1D1_C1CF_EEBE_EEBB_EEBA),
  (0x8E50, 0xEEBD),
  (0x8E53, 0xEEBC_F145_C2DE_F0FB_F0FA),
  (0x8E59, 0xC2D9_F141_F140_F0F7_F143_F0FC_C2DD_F0F9_F142_F0F8_C2DA_C2DC),
  (0x8E65, 0xF0FD_C2DB_F0FE),
  (0x8E69, 0xF144_F352),
  (0x8E6C, 0xC3DE_F34F),
  (0x8E6F, 0xF353),
  (0x8E72, 0xC3DB_F351_C3E0),
  (0x8E76, 0xC3DD),
  (0x8E78, 0xF350),
  (0x8E7A, 0xC3DF_F354_C3DA),
  (0x8E81, 0xC4BC_C4BE),
  (0x8E84, 0xF4D9_C4BD_F4D7_C3DC_F4D8_C4BB_C543_C545_F656_C544_F655),
  (0x8E90, 0xF761_C5AD_F760_C5AE_F75E_F75D_F762_F763_F846),
  (0x8E9A, 0xF75F),
  (0x8E9D, 0xF8C6_F8C3_F8C4_F8C5_C65C),
  (0x8EA3, 0xF951_F950_F94F_F970),
  (0x8EA8, 0xF9BE_F9AB_C66E_A8AD_B060),
  (0x8EB2, 0xB8FA),
  (0x8EBA, 0xBDF6),
  (0x8EBD, 0xEBC8),
  (0x8EC0, 0xC2DF),
  (0x8EC2, 0xF355),
  (0x8EC9, 0xF9AC_A8AE_AAEE_AD79_AD78),
  (0x8ECF, 0xB063),
  (0x8ED1, 0xD3E8_B061_D3E9_B062),
  (0x8ED7, 0xD7DF_D7DB),
  (0x8EDB, 0xB36D_D7DE_D7DD_D7DC_B36E_D7E0_D7E1),
  (0x8EE5, 0xDC43_DC41_DC45_DC46_DC4C),
  (0x8EEB, 0xDC48_DC4A),
  (0x8EEE, 0xDC42_DBFC),
  (0x8EF1, 0xDC49),
  (0x8EF4, 0xDC4B_DC44_DC47_DBFD_B662_DC40_DBFE_B661_B663),
  (0x8EFE, 0xB8FD_E075_E077_E076_E07B_B8FB),
  (0x8F05, 0xE078_E074_E079_E07A_B8FC_B8FE_E07C),
  (0x8F0D, 0xE467_E466),
  (0x8F10, 0xE464_E465_BBB3_BBB5_BBB2_BBB4_E84D_E84E_E849),
  (0x8F1A, 0xE84A_BDF8_BDFD_BDF7_BDFE_BDF9_E84B),
  (0x8F23, 0xE84C_E848_BE40_BDFB),
  (0x8F29, 0xBDFA_BDFC),
  (0x8F2C, 0xE847),
  (0x8F2E, 0xEBCA_BFE8),
  (0x8F32, 0xEBCC_BFEA_EBCF_EBCB_EBC9_EBCE_BFE9_EBCD),
  (0x8F3B, 0xBFE7),
  (0x8F3E, 0xC1D3_C1D6_EEC1),
  (0x8F42, 0xC1D4_EEC0_C1D2_C1D5_F146_F147_F148_C2E0),
  (0x8F4B, 0xF149),
  (0x8F4D, 0xC2E1_C3E2_F358_F359_F357_F356_F35A_C3E1_F4DD_F4DB_F4DC_F4DE),
  (0x8F59, 0xF4DA_F4DF_F658),
  (0x8F5D, 0xF659_F657_C546_F764_C5AF_F765_F848_F847),
  (0x8F9B, 0xA8AF_B664),
  (0x8F9F, 0xB940),
  (0x8FA3, 0xBBB6),
  (0x8FA6, 0xBFEC),
  (0x8FA8, 0xBFEB),
  (0x8FAD, 0xC3E3_C47C_C547_A8B0_B064_B941),
  (0x8FB4, 0xF35B),
  (0x8FBF, 0xCBA6),
  (0x8FC2, 0xA8B1),
  (0x8FC4, 0xA8B4_A8B3_A8B2),
  (0x8FC9, 0xCBA5),
  (0x8FCB, 0xCDCD),
  (0x8FCD, 0xCDCF_AAEF),
  (0x8FD1, 0xAAF1_CDCC_CDCE_AAF0_CDD1_CDD0_CDD2),
  (0x8FE0, 0xD0B6_D0B4_AD7C_D0B3_ADA3_AD7E_AD7B),
  (0x8FE8, 0xADA4),
  (0x8FEA, 0xAD7D_ADA2),
  (0x8FED, 0xADA1_D0B5),
  (0x8FF0, 0xAD7A),
  (0x8FF4, 0xB06A_D3EB_D3F1_B067_B06E),
  (0x8FFA, 0xB069_D3EE_D3F0_B06C_D3EA_D3ED_B068_B065_D3EC_B06B_D3EF_B06D),
  (0x9006, 0xB066),
  (0x900B, 0xD7E3_D7E6_B370),
  (0x900F, 0xB37A_B376_D7E4),
  (0x9014, 0xB37E_B377_B37C_B372),
  (0x9019, 0xB36F_B371_B37D_D7E5_B375_B378_B374_B379_D7E7_B37B_B373_D7E2),
  (0x902D, 0xDC4D_B665_DC4F),
  (0x9031, 0xB667_B669),
  (0x9034, 0xDC4E_B666_B66A),
  (0x9038, 0xB668),
  (0x903C, 0xB947_E0A3_B94F_E07E),
  (0x9041, 0xB950_B945),
  (0x9044, 0xE0A1),
  (0x9047, 0xB94A),
  (0x9049, 0xE0A2_B943_B942),
  (0x904D, 0xB94D_B94C_B94B_B949_B94E_E07D_B944_B946_B948),
  (0x9058, 0xBBB8_BBBB),
  (0x905B, 0xBBBF_BBB9_BBBE_BBBC),
  (0x9060, 0xBBB7),
  (0x9062, 0xBBBD_BBBA),
  (0x9067, 0xE852_BE43_BE41),
  (0x906B, 0xE853),
  (0x906D, 0xBE44_BE42_E851_E850),
  (0x9072, 0xBFF0_E84F_BFEE_BFED_EBD0_BE45_BFEF_EBD1_BFF2_EBD2_BFF1_C1D8),
  (0x907E, 0xEEC3_C1D7_C1DC_C1DA_C1DB_C2E3_C1D9_EEC2_EBD3_C2E2_C2E4),
  (0x908A, 0xC3E4_C3E5),
  (0x908D, 0xF4E0),
  (0x908F, 0xC5DE_C5DD_A8B6),
  (0x9094, 0xCA55_B06F),
  (0x9097, 0xCA52_CA53_CA51),
  (0x909B, 0xCA54),
  (0x909E, 0xCBAA_CBA7_CBAC_CBA8_A8B7_A8BA),
  (0x90A5, 0xCBA9_A8B9_CBAB),
  (0x90AA, 0xA8B8),
  (0x90AF, 0xCDD5_CDD7_AAF4_CDD3_CDD6_CDD4_AAF2_AAF5),
  (0x90B8, 0xAAF3),
  (0x90BD, 0xD0B8_D0BC_D0B9),
  (0x90C1, 0xADA7),
  (0x90C3, 0xADA8),
  (0x90C5, 0xD0BB),
  (0x90C7, 0xD0BD_D0BF),
  (0x90CA, 0xADA5_D0BE),
  (0x90CE, 0xADA6),
  (0x90D4, 0xD7EE_D0BA_D3F2_D3FB_D3F9_D3F4_D3F5_D3FA_D3FC_B071),
  (0x90DF, 0xD3F7_D3F3_B070_B072_D3F6_D3FD_D3F8),
  (0x90E8, 0xB3A1_D7F1_D7E9_D7EF_D7F0_B3A2),
  (0x90EF, 0xD7E8_D7EA_D0B7_D7EC_D7ED_D7EB_B66C),
  (0x90F9, 0xDC56_EBD4_DC57_DC54_B3A3_B66E_DC53_DC59_DC58_B66B_DC5C_DC52),
  (0x9105, 0xDC5B_DC50_DC5A_DC55_B66D),
  (0x910B, 0xE0AA),
  (0x910D, 0xE0A5_E0AB_E0A6_E0A4_E0A7_B951),
  (0x9114, 0xE0A9),
  (0x9116, 0xE0A8_B952_BBC1_BBC0_E46E_E471_E469_E46D_BBC2_E46C_E46A_E470),
  (0x9122, 0xE46B_E468_E46F),
  (0x9126, 0xE859_BE48_F14A_E856_E857_E855_DC51_BE47_E85A_E854_BE46_BE49),
  (0x9132, 0xE858_EBD5_BFF3_EBD6_EBD7),
  (0x9138, 0xEEC4_C1DD_F14B_F14C),
  (0x913E, 0xF14D_F35D_F35C_F4E2),
  (0x9143, 0xF4E1_F65B_F65C_F65A_F766_C5B0_A8BB_ADAA_ADA9_B075_B074_D440),
  (0x914F, 0xD441_D3FE),
  (0x9152, 0xB073_D7F5),
  (0x9155, 0xD7F6_D7F2_B3A4_D7F3),
  (0x915A, 0xD7F4),
  (0x915F, 0xDC5F_DC61_DC5D_DC60_B66F_DC5E_B670),
  (0x9168, 0xDD73_B955_B954),
  (0x916C, 0xB953),
  (0x916E, 0xE0AC_E0AD),
  (0x9172, 0xE473_E475_BBC6_BBC3),
  (0x9177, 0xBBC5_BBC4_E474_E472),
  (0x9180, 0xE861_E85E_E85F_BE4D_E860_E85B_E85C_BE4A),
  (0x9189, 0xBE4B_E85D_BE4C),
  (0x918D, 0xEBDB),
  (0x918F, 0xEBDC_EBD9_EBDA_BFF4_EBD8),
  (0x9199, 0xEEC8_EEC5_EEC7_C1E0_EECB_C1DF_EEC9_EECC_EECA_EEC6_C1DE),
  (0x91A5, 0xF14F),
  (0x91A7, 0xF150_F14E),
  (0x91AA, 0xF152_C2E5_C2E6_F35F_C3E7_F151_F35E_C3E6_F4E5_F4E6_C4BF_F4E4),
  (0x91B7, 0xF4E3),
  (0x91B9, 0xF65D_C548),
  (0x91BC, 0xF849_F8C8_F8C7),
  (0x91C0, 0xC643_C65D_F8C9_F971),
  (0x91C5, 0xC66F_A8BC_AAF6),
  (0x91C9, 0xB956),
  (0x91CB, 0xC4C0_A8BD_ADAB_B3A5_B671_C2E7_AAF7),
  (0x91D3, 0xD0C1_D0C0_D442),
  (0x91D7, 0xB078_B076_B07A_D444),
  (0x91DC, 0xB079_B077),
  (0x91E2, 0xD443_B3A8_D7FC),
  (0x91E6, 0xB3A7_B3A9_D842_B3AB_D7FE_D840_D7F7_B3AA_D843),
  (0x91F1, 0xD7F9),
  (0x91F3, 0xD7FA_D7F8_B3A6),
  (0x91F7, 0xD841_D7FB_D7FD),
  (0x91FD, 0xDC6D),
  (0x91FF, 0xDC6C_DC6A_DC62_DC71_DC65_DC6F_DC76_DC6E_B679),
  (0x9209, 0xB675_DC63),
  (0x920C, 0xDC69_B677),
  (0x920F, 0xDC68_B678_B67A_DC6B),
  (0x9214, 0xB672_B673_DC77_DC75),
  (0x9219, 0xDC74_DC66),
  (0x921C, 0xDC72),
  (0x921E, 0xB676),
  (0x9223, 0xB674_DC73_DC64_DC67_DC70),
  (0x922D, 0xE4BA_E0B7),
  (0x9230, 0xE0B0_E0C3_E0CC_E0B3_B961),
  (0x9236, 0xE0C0_B957_B959_B965_E0B1),
  (0x923D, 0xB95A_B95C_B966_B95B),
  (0x9245, 0xB964_E0B9),
  (0x9248, 0xE0AE_B962_E0B8_B95E_E0CA_B963_E0C8_E0BC_E0C6_B960_E0AF_E0C9),
  (0x9254, 0xE0C4),
  (0x9256, 0xE0CB_B958),
  (0x925A, 0xB967_B95D),
  (0x925E, 0xE0B5),
  (0x9260, 0xE0BD_E0C1),
  (0x9263, 0xE0C5_B95F_E0B4_E0B2_E0BE),
  (0x926C, 0xE0BB_E0BA),
  (0x926F, 0xE0BF_E0C2),
  (0x9272, 0xE0C7),
  (0x9276, 0xE478),
  (0x9278, 0xBBC7_E4A4_E47A_BBCC_BBD0_E4AD_E4B5_E4A6_BBC8),
  (0x9282, 0xE4AA_E0B6),
  (0x9285, 0xBBC9_E4B1_E4B6_E4AE),
  (0x928A, 0xE4B0_E4B9_E4B2_E47E_E4A9),
  (0x9291, 0xBBD1),
  (0x9293, 0xBBCD_E47C_E4AB_BBCB_E4A5_BBCA_E4B3_E4A2_E479_BBCE_E4B8),
  (0x92A0, 0xE47B_E4AF_E4AC_E4A7_E477_E476_E4A1_E4B4_BBCF_E4B7_E47D_E4A3),
  (0x92AC, 0xBE52),
  (0x92B2, 0xBE5A_BE55_E8A4_E8A1_E867_BE50),
  (0x92B9, 0xF9D7),
  (0x92BB, 0xBE4F_BE56),
  (0x92C0, 0xE865_BE54_E871_E863_E864_BE4E_E8A3_BE58_E874_E879_E873_EBEE),
  (0x92CC, 0xE86F_E877_E875_E868_E862_E87D_BE57_E87E),
  (0x92D5, 0xE878),
  (0x92D7, 0xE86D_E86B_E866),
  (0x92DD, 0xE86E_E87B_E86A_E87A_E8A2),
  (0x92E4, 0xBE53),
  (0x92E6, 0xE876_E87C_E872_E86C_BE51),
  (0x92EE, 0xE4A8_E870_BE59_E869),
  (0x92F7, 0xEBF4_BFF7_EBF3_EBF0_EC44_BFFB),
  (0x92FE, 0xEC41_EBF8_EC43_EBE9_EBF6),
  (0x9304, 0xBFFD),
  (0x9306, 0xEBE1),
  (0x9308, 0xEBDF_EC42),
  (0x930B, 0xEC40_EBFE_EBED_EBEC_EBE2_C040),
  (0x9312, 0xEBE8_EBF2_EBFD_C043_EC45),
  (0x9318, 0xC1E8_C045_BFFE_EBE6),
  (0x931D, 0xEBEF_EBDE_EBE0_BFF5_C042_BFFA_EBE7_EBF7_EBF1_C041_EBDD_C1E3),
  (0x9329, 0xEBF9_EBFC_BFFC),
  (0x932D, 0xEBEB_C044_BFF9),
  (0x9333, 0xBFF8_EBF5_EBFB_BFF6),
  (0x9338, 0xEBE4_EBFA),
  (0x933C, 0xEBE5),
  (0x9346, 0xEBEA_EED2),
  (0x9349, 0xEED7_C1E5_C1E7_EEDD_C1E1_EEEC_EEE3_EED8_EED9_EEE2),
  (0x9354, 0xC1EE_EEE1_EED1_EEE0_EED4_EEED_C1ED_C1EB_EED5),
  (0x935E, 0xEEE8),
  (0x9360, 0xEEDA_EEE7),
  (0x9363, 0xEEE9_EED0_C1E6),
  (0x9367, 0xEEEA),
  (0x936A, 0xEEDE),
  (0x936C, 0xC1EA_EEDB),
  (0x9370, 0xC1EC_EEE4),
  (0x9375, 0xC1E4_EED6_EEE5),
  (0x9379, 0xEEDF_EBE3_EEE6_EED3),
  (0x937E, 0xC1E9),
  (0x9380, 0xEEEB),
  (0x9382, 0xC1E2_EECE),
  (0x9388, 0xF160_F159_C2E9),
  (0x938C, 0xF154_F163_F15B_EEDC),
  (0x9391, 0xF165_F155),
  (0x9394, 0xC2E8_F15F_C2EA_C2F2_C2F0_F161_C2F1_F157),
  (0x939D, 0xF158_F15D_F162),
  (0x93A1, 0xEECD_C2EB_F16A_F167_F16B_F15E_F15A_F168_F36A_F15C),
  (0x93AC, 0xC2EE),
  (0x93AE, 0xC2ED_EECF_C2EF_F164_F166_C2EC_F169_F153),
  (0x93B7, 0xF156),
  (0x93C0, 0xF373),
  (0x93C2, 0xF363_C3EB_F371),
  (0x93C7, 0xF361_C3EC),
  (0x93CA, 0xF36C),
  (0x93CC, 0xF368_C3F1_F372_F362_F365_C3E9_F374),
  (0x93D4, 0xF36D_F370_C3EF_C3F4_C3F2_F369_F364),
  (0x93DC, 0xC3ED_C3EE_F360_C3EA),
  (0x93E1, 0xC3E8_C3F0_F36F_C3F3),
  (0x93E6, 0xF36B_F375_C3F5),
  (0x93EC, 0xF367),
  (0x93EE, 0xF36E),
  (0x93F5, 0xF4F3_F542_F4F5_F4FC_F366_F4FA_F4E9_F540_C4C3_F4ED_F4FE_F4F4),
  (0x9403, 0xC4C2),
  (0x9406, 0xF544_F4F6),
  (0x9409, 0xF4FB_F4FD_F4E7_F541_F4F2_F4F7_F4EB_F4EF_F543_F4F9_F4E8_F4EC),
  (0x9415, 0xF4EE_F4F8),
  (0x9418, 0xC4C1_F4F1),
  (0x9420, 0xF4EA),
  (0x9428, 0xF4F0_F661_F666_C54F_F668),
  (0x942E, 0xC549),
  (0x9430, 0xF664_F66A_C54E_C54A),
  (0x9435, 0xC54B_F660_F667_C54D_F665_C54C_F65F_F663_F662),
  (0x943F, 0xF65E_F669),
  (0x9444, 0xC5B1_F76D_F770_F76C_F76E_F76F_F769_F76A_F767),
  (0x944F, 0xF76B_F768_C5B2_C5B3),
  (0x9455, 0xF84B),
  (0x9457, 0xF84D),
  (0x945D, 0xF84C_F84E),
  (0x9460, 0xC5E0),
  (0x9462, 0xF84A_C5DF_C5E1),
  (0x9468, 0xF8CB_F8CC_C644_F8CA),
  (0x946D, 0xF953_F952_F954_C65F_F955_C65E_F956_F972_F975_F974_C668_F973),
  (0x947C, 0xC672_C670_C671_C677_F9C0_F9C1_F9BF_F9C9),
  (0x9577, 0xAAF8),
  (0x957A, 0xD844_DC78_E8A5_F376),
  (0x9580, 0xAAF9),
  (0x9582, 0xADAC_B07B),
  (0x9586, 0xD845),
  (0x9588, 0xD846_B3AC),
  (0x958B, 0xB67D_DC7A_DC79_B6A3_B67C_DC7B_B67E_B6A2_B6A1_B67B),
  (0x9598, 0xB968),
  (0x959B, 0xE0D0_E0CE),
  (0x959E, 0xE0CF_E0CD),
  (0x95A1, 0xBBD2),
  (0x95A3, 0xBBD5_BBD7_BBD6),
  (0x95A8, 0xBBD3_BBD4),
  (0x95AB, 0xE8A7_E8A6_BE5B_E8A8),
  (0x95B0, 0xE8A9_BE5C),
  (0x95B5, 0xEC4D_EC4B_EEF3),
  (0x95B9, 0xEC49_EC4A_C046_EC46_EC4E_EC48_EC4C_EEEF),
  (0x95C3, 0xEEF1),
  (0x95C5, 0xEEF2_C1F3_EEEE_C1F2_EEF0_C1EF_C1F0_C1F1_EC47),
  (0x95D0, 0xC2F5_F16E_F16C_F16D_C2F3_C2F6_C2F4),
  (0x95DA, 0xF377_F378_C3F6),
  (0x95DE, 0xF545_F547_F546_C4C4_C550_F66D_F66C_F66B),
  (0x961C, 0xAAFA),
  (0x961E, 0xC9AA),
  (0x9620, 0xCA58_A6E9_CA56_CA59_CA57),
  (0x9628, 0xCBAE),
  (0x962A, 0xA8C1),
  (0x962C, 0xA8C2_CBB0_A8BF_CBAF_CBAD_A8C0_A8BE),
  (0x9639, 0xCDD8_CDDB_AAFD_CDDA_CDD9),
  (0x963F, 0xAAFC_AAFB),
  (0x9642, 0xAB40_CDDC_AAFE),
  (0x964A, 0xD0C6_ADAE_ADAF_ADB0_D0C7_D0C3_ADAD_D0C4),
  (0x9653, 0xD0C5_D0C2),
  (0x9658, 0xB0A4),
  (0x965B, 0xB0A1_D445_B0A2_B0A5_D446),
  (0x9661, 0xB07E_B07C_B07D_B0A3),
  (0x966A, 0xB3AD_D849_B3B5_D848),
  (0x966F, 0xD84B_B3B1_D84A_B6AB_B3AF_B3B2_B3AE_B3B3_B3B4_B3B0),
  (0x967C, 0xD847_B6A7_DC7D),
  (0x9680, 0xDCA3),
  (0x9683, 0xDCA2_B6AC_B6A8_B6A9_DC7C_DC7E_DCA1_B6A4_B6A6),
  (0x968D, 0xB6AA_B6A5),
  (0x9691, 0xE0D3_E0D1_E0D2_B96A_B96B),
  (0x9697, 0xE0D4_B969_BBD8),
  (0x969B, 0xBBDA_BBD9),
  (0x969E, 0xE4BB),
  (0x96A1, 0xE4BC_E8AB),
  (0x96A4, 0xE8AA),
  (0x96A7, 0xC047_C048_EC4F_C049),
  (0x96AC, 0xEEF6),
  (0x96AE, 0xEEF4),
  (0x96B0, 0xEEF5_C1F4),
  (0x96B3, 0xF16F_C3F7),
  (0x96B8, 0xC1F5_AB41),
  (0x96BB, 0xB0A6_D447),
  (0x96BF, 0xD84C_B3B6_B6AD_DCA4_DCA6_B6AF_B6AE_B6B0_B6B1_DCA5_B96E_B96F),
  (0x96CB, 0xB96D_BBDB_B96C_E0D5),
  (0x96D2, 0xBBDC_E8AC_EC50_C04A_C1F6_F170_F174_C2F9_F171_C2FA_C2F8_F175),
  (0x96DE, 0xC2FB_F173),
  (0x96E1, 0xF379_C2F7_C3F8),
  (0x96E5, 0xF8CD),
  (0x96E8, 0xAB42_B3B8_B3B7),
  (0x96EF, 0xB6B2_DCA8_DCA7_B6B3),
  (0x96F5, 0xE0D9_B973_B970_E0D8_B972_E0D6_B971),
  (0x96FD, 0xE0D7),
  (0x96FF, 0xE4BD_BBDD),
  (0x9702, 0xE8AF),
  (0x9704, 0xBE5D_E8AD_BE5E_BE5F_E8AE_BE60),
  (0x970B, 0xEC51),
  (0x970D, 0xC04E_C04B_C050_EC53_C04C_EC52_C04F),
  (0x9716, 0xC04D),
  (0x9718, 0xEEF9_EEFB),
  (0x971C, 0xC1F7_EEFA_C1F8_EEF8_EEF7),
  (0x9722, 0xF177_F176_C2FC_F178_F37E_C3FA_F37D_F37A_C3F9_F37B_F37C),
  (0x972E, 0xF548_F549_C4C5),
  (0x9732, 0xC553),
  (0x9735, 0xF66E),
  (0x9738, 0xC551_C552_F66F),
  (0x973D, 0xC5B4_C5B5_F771),
  (0x9742, 0xC645_F8CF_C647),
  (0x9746, 0xF8CE_F8D0_C646_F957),
  (0x974B, 0xF9AD),
  (0x9752, 0xAB43),
  (0x9756, 0xB974),
  (0x9758, 0xE4BE),
  (0x975A, 0xE8B0_C051_C052),
  (0x975E, 0xAB44),
  (0x9760, 0xBE61_C3FB_ADB1),
  (0x9766, 0xC053),
  (0x9768, 0xC5E2_ADB2_D84D),
  (0x976C, 0xDCA9),
  (0x976E, 0xDCAB),
  (0x9770, 0xDCAA),
  (0x9772, 0xE0DD_E0DA_B975),
  (0x9776, 0xB976_E0DB_E0DC),
  (0x977A, 0xE4C0_E4C5_BBDE_E4BF_E4C1_E4C8_E4C3_E4C7_E4C4_E4C2_E4C6_BBDF),
  (0x9788, 0xE8B3),
  (0x978A, 0xE8B1_BE63),
  (0x978D, 0xBE62_E8B2_BE64),
  (0x9794, 0xEC56),
  (0x9797, 0xEC55_C054_EC54_EEFC),
  (0x979C, 0xEEFE_EF41_EF40),
  (0x97A0, 0xC1F9_EEFD_F1A1_C2FD_F17D_F1A2_C2FE),
  (0x97A8, 0xF17B),
  (0x97AA, 0xF17E_F17C_F179_C340_F17A),
  (0x97B3, 0xF3A1),
  (0x97B6, 0xF3A3_F3A2),
  (0x97B9, 0xF54A),
  (0x97BB, 0xF54B),
  (0x97BF, 0xF670),
  (0x97C1, 0xC5B7),
  (0x97C3, 0xC5B6_F84F_F850_C648_F8D1),
  (0x97C9, 0xC669),
  (0x97CB, 0xADB3_B6B4_E4CA_E4C9_E8B5_E8B4),
  (0x97D3, 0xC1FA_EF43_EF42_F1A5_F1A3_F1A6_F1A4),
  (0x97DC, 0xC3FC_F3A4_F3A5_F3A6),
  (0x97E1, 0xF671),
  (0x97E3, 0xF772),
  (0x97E5, 0xF8D2),
  (0x97ED, 0xADB4),
  (0x97F0, 0xEC57_EF44),
  (0x97F3, 0xADB5),
  (0x97F6, 0xBBE0),
  (0x97F8, 0xEC58_C341_F1A7_C3FD),
  (0x97FD, 0xF54C_F54D_C554_F851_ADB6_B3BB_B3BC_D84E_B6B5_B6B6_DCAC_B6B7),
  (0x980A, 0xB97A),
  (0x980C, 0xB97C_E0DF_E0E0_E0DE_B977_B978_B97B_B979),
  (0x9816, 0xE4CB_BBE1_BBE2),
  (0x981B, 0xE8BC_BE67_E8B7_E8B6),
  (0x9820, 0xE8BB_BE65),
  (0x9824, 0xC05B),
  (0x9826, 0xE8B8_E8BD_E8BA_E8B9),
  (0x982B, 0xBE66),
  (0x982D, 0xC059),
  (0x982F, 0xEC5A_C055),
  (0x9832, 0xEC5B),
  (0x9835, 0xEC59),
  (0x9837, 0xC058_C056_C05A),
  (0x983B, 0xC057),
  (0x9841, 0xEF45),
  (0x9843, 0xEF4A_EF46_EF49_C1FB),
  (0x9848, 0xEDD4_EF48_EF47),
  (0x984C, 0xC344_C342_C345_C343_F1A8_F1A9_F1AA_C346),
  (0x9857, 0xF3AA_C440_F3A8),
  (0x985B, 0xC441_F3A7_F3A9_C3FE_F551_F54E),
  (0x9862, 0xF54F_F550_F672_C556),
  (0x9867, 0xC555),
  (0x9869, 0xF774_F773_C5B8),
  (0x986F, 0xC5E3_C649_C660_F958_F9AE_F9AF),
  (0x98A8, 0xADB7_DCAD),
  (0x98AC, 0xE0E1_E4CC_E4CD_BBE3),
  (0x98B1, 0xBBE4_E8BE_BE68),
  (0x98B6, 0xC1FC),
  (0x98B8, 0xF1AB),
  (0x98BA, 0xC347_F3AD_C442_F3AC_F3AE_F3AB_F675_F552_F553),
  (0x98C4, 0xC4C6),
  (0x98C6, 0xF674),
  (0x98C9, 0xF673),
  (0x98CB, 0xF775_F9B0),
  (0x98DB, 0xADB8),
  (0x98DF, 0xADB9),
  (0x98E2, 0xB0A7_D448),
  (0x98E5, 0xD84F),
  (0x98E7, 0xB6B8),
  (0x98E9, 0xB6BB_B6B9_DCAE),
  (0x98ED, 0xB6BD),
  (0x98EF, 0xB6BA),
  (0x98F2, 0xB6BC),
  (0x98F4, 0xB97E),
  (0x98F6, 0xE0E2),
  (0x98F9, 0xE0E3_E8C0),
  (0x98FC, 0xB97D_B9A1_B9A2),
  (0x9900, 0xE4CF),
  (0x9902, 0xE4CE_BBE5),
  (0x9905, 0xBBE6),
  (0x9907, 0xE4D0_E8BF_BBE8_BE69),
  (0x990C, 0xBBE7),
  (0x9910, 0xC05C_E8C1_BE6B_BE6A_E8C2_E8C5_E8C3_E8C4_BE6C),
  (0x991A, 0xC061_C05F),
  (0x991E, 0xC05E_EC5D),
  (0x9921, 0xC060),
  (0x9924, 0xEC5C_EF4B),
  (0x9927, 0xEC5E_C05D_EC5F_EF4E_EF4C_EF4D_EF52_C34B_EF51_EF54_EF53_EF50),
  (0x9933, 0xEF4F),
  (0x9935, 0xC1FD),
  (0x993A, 0xF1AE),
  (0x993C, 0xF1AD_C34A_C348_C349),
  (0x9941, 0xF1AC),
  (0x9943, 0xF3B1),
  (0x9945, 0xC443),
  (0x9947, 0xF3B0_F3AF_C444),
  (0x994B, 0xF558_F557),
  (0x994E, 0xF555),
  (0x9950, 0xF554_C4C8_C4C7_F559_F776_C5B9_F677_C557_F676_F556),
  (0x995B, 0xF777_C5E4),
  (0x995E, 0xC661_F959),
  (0x9961, 0xF9B1),
  (0x9996, 0xADBA_D850_EF55_ADBB),
  (0x999C, 0xE4D2_E4D1_EC60),
  (0x99A1, 0xEF57),
  (0x99A3, 0xEF56),
  (0x99A5, 0xC34C_F3B2_F3B3_C4C9),
  (0x99AB, 0xF9B2_B0A8_B6BF_B6BE_E0E4_E0E6_B9A4_E0E5_B9A3_B9A5_E0E7),
  (0x99B9, 0xE4D4_E4D6_E4D5),
  (0x99BD, 0xE4D8),
  (0x99C1, 0xBBE9_E4D7_E4D3),
  (0x99C7, 0xE4D9),
  (0x99C9, 0xE8CC),
  (0x99CB, 0xE8CF_E8D1_E8C7_E8CB_E8C8_BE6E_BE71_BE73_E8C9_E8CA_BE72_E8CD),
  (0x99D7, 0xE8D0_E8CE_BE74),
  (0x99DB, 0xBE70_E8C6_BE6D),
  (0x99DF, 0xBE6F),
  (0x99E2, 0xC063_EC66_EC64_EC63),
  (0x99E7, 0xEC69),
  (0x99E9, 0xEC68_EC67),
  (0x99EC, 0xEC62_C062_EC61),
  (0x99F0, 0xEC65_C064),
  (0x99F4, 0xEF5A),
  (0x99F6, 0xEF5E_EF5B_EF5D_EF5C_EF59_EF5F_EF62_EF60_EF61_C240),
  (0x9A01, 0xC1FE_EF58_EF63_F1B3_F1B6_F1B8_F1B7),
  (0x9A09, 0xF1B1_F1B5_F1B0),
  (0x9A0D, 0xF1B2_C34D_F1AF),
  (0x9A11, 0xF1B4),
  (0x9A14, 0xF3C0_F3B5_C445),
  (0x9A19, 0xC446_F3B4_F3B9_F3BF_F3B7_F3BE),
  (0x9A20, 0xF3BB),
  (0x9A22, 0xF3BA_F3BD_F3B8_F3B6),
  (0x9A27, 0xF3BC),
  (0x9A29, 0xF560_F55E_C4CA_F55D_F563_F561),
  (0x9A30, 0xC4CB_F55C_F55A),
  (0x9A34, 0xF55B_C4CD_F55F_C4CC_F562_F678_F67E),
  (0x9A3D, 0xF679_C55B_F6A1_C55A_F67D_F67C_C559_F67B_C558_F67A),
  (0x9A48, 0xF77D_F7A1_F77E),
  (0x9A4C, 0xF77B_C5BB_F778_F77C_F7A3),
  (0x9A52, 0xF7A2_F779_F77A_C5BA_F852_C5E7),
  (0x9A59, 0xF853_C5E5_C5E6),
  (0x9A5E, 0xF8D3_C64A_F976),
  (0x9A62, 0xC66A),
  (0x9A64, 0xF9B3_C66B_F9B4_F9B5_F9C3_F9C2_C67A_F9CD),
  (0x9AA8, 0xB0A9),
  (0x9AAB, 0xE0E9),
  (0x9AAD, 0xE0E8),
  (0x9AAF, 0xBBEA_BBEB_E4DA),
  (0x9AB3, 0xE8D2_EC6C),
  (0x9AB7, 0xBE75_C065_EC6A),
  (0x9ABB, 0xEC6D_C066),
  (0x9ABE, 0xEF64_EC6B_F1B9_C34E_F3C1),
  (0x9AC6, 0xF566_F564),
  (0x9ACA, 0xF565),
  (0x9ACD, 0xF6A2),
  (0x9ACF, 0xC55C_F7A4_C5EA_C5BC_C5E8_C5E9_F8D4_C662),
  (0x9AD8, 0xB0AA),
  (0x9ADC, 0xF1BA),
  (0x9ADF, 0xD449),
  (0x9AE1, 0xB9A6),
  (0x9AE3, 0xE4DB),
  (0x9AE6, 0xBBEC_E4DC),
  (0x9AEB, 0xE8D4_E8D3_C068_BE76_BE77),
  (0x9AF1, 0xE8D7_E8D6_E8D5),
  (0x9AF6, 0xEC6E_EC71),
  (0x9AF9, 0xEC70_EC6F_C067_EF68_EF66_EF65),
  (0x9B01, 0xEF67),
  (0x9B03, 0xC34F_F1BC_F1BD_C350),
  (0x9B08, 0xF1BB),
  (0x9B0A, 0xF3C3_F3C2_F3C5_C447_F3C4),
  (0x9B10, 0xF567_F569_F568),
  (0x9B15, 0xF6A3_F6A6_F6A4_F6A5_F7A5_C5BD),
  (0x9B1E, 0xF854_F855_F856),
  (0x9B22, 0xC64B_C663_F9B6_B0AB),
  (0x9B27, 0xBE78_C069_F1BE),
  (0x9B2B, 0xF7A6),
  (0x9B2E, 0xF9C4_D44A),
  (0x9B31, 0xC67B_B0AC_EC72),
  (0x9B35, 0xF1BF),
  (0x9B37, 0xF3C6),
  (0x9B3A, 0xF6A7_F7A7_B0AD),
  (0x9B3E, 0xE4DD_E4DE),
  (0x9B41, 0xBBED_BBEE_E8D9_BE7A_BE79_E8D8),
  (0x9B48, 0xEF69),
  (0x9B4A, 0xF1C0_F1C2_F1C1_C353_C352_C351),
  (0x9B51, 0xC55E_F6A8),
  (0x9B54, 0xC55D_F7A9_F7A8),
  (0x9B58, 0xC64C_F8D5_B3BD_E0EA),
  (0x9B5F, 0xE4E1_E4DF_E4E0),
  (0x9B64, 0xE8E2),
  (0x9B66, 0xE8DD_E8DA_E8E1),
  (0x9B6C, 0xE8E3),
  (0x9B6F, 0xBE7C_E8E0_E8DC),
  (0x9B74, 0xE8DB_E8DF_E8DE_BE7B),
  (0x9B7A, 0xEC7D_EC78_EC76_ECA1_EC77),
  (0x9B80, 0xEC73),
  (0x9B82, 0xEC79),
  (0x9B85, 0xEC74_EF72_EC75_ECA2),
  (0x9B90, 0xEC7C_C06A_EC7B_EC7A),
  (0x9B95, 0xEC7E),
  (0x9B9A, 0xEF6A_EF6D),
  (0x9B9E, 0xEF6C),
  (0x9BA0, 0xEF74_EF6F_EF73),
  (0x9BA4, 0xEF71_EF70_EF6E),
  (0x9BA8, 0xEF6B),
  (0x9BAA, 0xC243_C242),
  (0x9BAD, 0xC244_C241_EF75),
  (0x9BB5, 0xF1C8_F1CB),
  (0x9BB8, 0xF1C9_F1CD),
  (0x9BBD, 0xF1CE),
  (0x9BBF, 0xF1C6_C358_F1C7),
  (0x9BC3, 0xF1C5_F1CC),
  (0x9BC6, 0xF1C4_F1C3_C357_C355_C354),
  (0x9BD3, 0xF1CA_F3CF_F3D5_C44A_F3D0),
  (0x9BD9, 0xF3D3_F3D7_C44B_F3D2),
  (0x9BDE, 0xF3CA),
  (0x9BE0, 0xF3C9_F3D6_F3CD),
  (0x9BE4, 0xF3CB_F3D4_F3CC_C449_C448),
  (0x9BEA, 0xF3C7_F3C8_F3D1),
  (0x9BF0, 0xF3CE),
  (0x9BF7, 0xF56C_F56F),
  (0x9BFD, 0xC356),
  (0x9C05, 0xF56D_F573_F571_F56B_F576),
  (0x9C0B, 0xF56A),
  (0x9C0D, 0xC4CF_F572),
  (0x9C12, 0xF56E_C4CE_F575),
  (0x9C17, 0xF574),
  (0x9C1C, 0xF6AB_F6AA),
  (0x9C21, 0xF6B1),
  (0x9C23, 0xF6AD_F6B0_C560),
  (0x9C28, 0xF6AE_F6AF),
  (0x9C2B, 0xF6A9_F6AC_C55F),
  (0x9C31, 0xC5BF_F7B4_F7AF_F7B3),
  (0x9C36, 0xF7B6_F7B2),
  (0x9C39, 0xF7AE),
  (0x9C3B, 0xC5C1_F7B1_F7B5_C5C0_F7AC_F570_F7B0),
  (0x9C44, 0xF7AD),
  (0x9C46, 0xF7AA),
  (0x9C48, 0xF7AB_C5BE_F85A_F85C_F85F_F85B_F860),
  (0x9C50, 0xF859),
  (0x9C52, 0xF857),
  (0x9C54, 0xC5EB_F85D_C5ED_C5EC_F858_F85E),
  (0x9C5E, 0xF8DA_C64D_F8DB),
  (0x9C62, 0xF8D9_F8D6),
  (0x9C66, 0xF8D8_F8D7_F95A),
  (0x9C6D, 0xF95C_F95B),
  (0x9C71, 0xF979),
  (0x9C73, 0xF978_F977_F97A),
  (0x9C77, 0xC673_C674_F9CA_F9CE),
  (0x9CE5, 0xB3BE_DCAF_E0ED),
  (0x9CE9, 0xB9A7_E0EB),
  (0x9CED, 0xE0EC),
  (0x9CF1, 0xE4E2_E4E3_BBF1_BBEF_E4E4_BBF0_E8E8),
  (0x9CF9, 0xE8EB_E8E5_E8EC_E8E4_E8E6),
  (0x9CFF, 0xE8E7_E8EA),
  (0x9D03, 0xBEA1_E8EF_E8EE_BE7D_E8E9_E8ED_BE7E),
  (0x9D10, 0xECAC),
  (0x9D12, 0xC06F),
  (0x9D14, 0xECA7_C06B),
  (0x9D17, 0xECA4_ECAA_ECAD),
  (0x9D1B, 0xC070),
  (0x9D1D, 0xECA9_ECA6_ECAE_ECA5),
  (0x9D22, 0xECAB_C06C),
  (0x9D25, 0xECA3_C06D),
  (0x9D28, 0xC06E_ECA8),
  (0x9D2D, 0xEFA9_EF7A_EF7B_EF7E_EF7C),
  (0x9D33, 0xEF76),
  (0x9D36, 0xEF79_EFA5_EF7D),
  (0x9D3B, 0xC245),
  (0x9D3D, 0xEFA7_EFA4_C246_EFA6_EF77_EFA2_EFA3),
  (0x9D45, 0xEFA1),
  (0x9D4A, 0xF1D2_F1D4_F1D7),
  (0x9D4F, 0xF1D1),
  (0x9D51, 0xC359_F1D9_F1D0_F1DA),
  (0x9D56, 0xF1D6_F1D8_F1DC_F1D5_F1DD_F1D3_F1CF_C35A),
  (0x9D5F, 0xF1DB_C35B_C44D),
  (0x9D67, 0xEF78_F3F1_F3E8_C44F_F3E4_C450),
  (0x9D6F, 0xF3ED_F3E7_F3DD_C44E_F3EA_F3E5_F3E6),
  (0x9D77, 0xF3D8_F3DF_F3EE),
  (0x9D7B, 0xF3EB),
  (0x9D7D, 0xF3E3),
  (0x9D7F, 0xF3EF_F3DE_F3D9_F3EC),
  (0x9D84, 0xF3DB_F3E9_F3E0_F3F0_F3DC_C44C_F3DA_F3E1_F3E2),
  (0x9D90, 0xF57D),
  (0x9D92, 0xF57B),
  (0x9D94, 0xF5A2),
  (0x9D96, 0xF5AE_F5A5_F57C_F578_F5A7_F57E_F5A3_F57A_F5AA_F577_F5A1_F5A6),
  (0x9DA2, 0xF5A8_F5AB_F579),
  (0x9DA6, 0xF5AF_F5B0_F5A9_F5AD_F5A4),
  (0x9DAC, 0xF6C1_F6C4),
  (0x9DAF, 0xC561),
  (0x9DB1, 0xF6C3_F6C8_F6C6_C562_F6BD_F6B3_F6B2_C564_F6BF_F6C0_F6BC_F6B4),
  (0x9DBE, 0xF6B9_F5AC),
  (0x9DC1, 0xF6B5_C563_F6BB),
  (0x9DC5, 0xF6BA),
  (0x9DC7, 0xF6B6_F6C2),
  (0x9DCA, 0xF6B7_F7BB_F6C5_F6C7_F6BE_F6B8_F7BC_F7BE_F7B8_C5C2),
  (0x9DD5, 0xF7C5_F7C3_C5C3_F7C2_F7C1_F7BA_F7B7_F7BD_F7C6_F7B9_F7BF),
  (0x9DE1, 0xF869_F86E_F864_F867_C5EE_F86B),
  (0x9DE8, 0xF872_F7C0),
  (0x9DEB, 0xF865_F86F_F873_F86A_F863_F86D),
  (0x9DF2, 0xF86C_F871_F870_F7C4_F868_F862_F866_C64E_C64F_F861),
  (0x9DFD, 0xF8E6_F8DD_F8E5_F8E2_F8E3_F8DC_F8DF_F8E7_F8E1_F8E0_F8DE),
  (0x9E09, 0xF8E4),
  (0x9E0B, 0xF95D),
  (0x9E0D, 0xF95E),
  (0x9E0F, 0xF960_F95F_F962_F961_F97C_F97B_F9B7),
  (0x9E17, 0xF9B8),
  (0x9E19, 0xF9C5_C678_C67C),
  (0x9E1D, 0xF9CF_C67D),
  (0x9E75, 0xB3BF),
  (0x9E79, 0xC4D0_F6C9),
  (0x9E7C, 0xC650_C651),
  (0x9E7F, 0xB3C0_E0EE),
  (0x9E82, 0xB9A8_E8F0),
  (0x9E86, 0xECB0_ECB1_ECAF_EFAB_EFAA_C247_F1DF_EFAC_F1DE),
  (0x9E91, 0xF3F3_C451_C453_F3F2),
  (0x9E97, 0xC452),
  (0x9E99, 0xF5B1_F5B3_F5B2_F6CA_C565),
  (0x9E9F, 0xC5EF_F8E8_F963),
  (0x9EA4, 0xF9D2_B3C1),
  (0x9EA7, 0xE4E5),
  (0x9EA9, 0xBEA2),
  (0x9EAD, 0xECB3_ECB2),
  (0x9EB0, 0xEFAD),
  (0x9EB4, 0xC454_C4D1_F7C7_F9CB),
  (0x9EBB, 0xB3C2_BBF2),
  (0x9EBE, 0xBEA3),
  (0x9EC0, 0xF3F4),
  (0x9EC2, 0xF874_B6C0),
  (0x9EC8, 0xEFAE),
  (0x9ECC, 0xC664_B6C1_BEA4_C248_F875_B6C2),
  (0x9ED3, 0xE8F1_C072_ECB4_ECB5),
  (0x9ED8, 0xC071),
  (0x9EDA, 0xEFAF_C24C_C24A_C24B_C249_F1E0_C35C),
  (0x9EE4, 0xF5B5_F5B4_F5B7_F5B6_C4D2),
  (0x9EEB, 0xF6CB),
  (0x9EED, 0xF6CD_F6CC_C566_F7C8),
  (0x9EF2, 0xF876_F877_C5F0_F964_F97D_C675),
  (0x9EF9, 0xDCB0_ECB6_EFB0_F3F5_E0EF),
  (0x9EFF, 0xEFB1_F1E2_F1E1),
  (0x9F06, 0xF878_C652),
  (0x9F09, 0xF965_F97E),
  (0x9F0E, 0xB9A9_E8F2_E8F3),
  (0x9F12, 0xECB7_B9AA),
  (0x9F15, 0xC35D_F1E3),
  (0x9F18, 0xF6CF_C567_F6D0_F6CE_F879),
  (0x9F1E, 0xF8E9),
  (0x9F20, 0xB9AB),
  (0x9F22, 0xEFB4_EFB3_EFB2_F1E4),
  (0x9F28, 0xF1E8_F1E7_F1E6_F1E5_C35E_F3F6_F5B9_C4D3_F5B8_F6D1_F7CB_F7CA),
  (0x9F34, 0xC5C4_F7C9_F87C_F87B_F87A),
  (0x9F3B, 0xBBF3),
  (0x9F3D, 0xECB8_C24D),
  (0x9F40, 0xF3F7_F3F8_F7CC_F87D),
  (0x9F46, 0xF8EA_F966_F9B9_F9D4_BBF4_C24E_F1E9_F3F9_F6D2_F87E),
  (0x9F52, 0xBEA6),
  (0x9F54, 0xEFB5_F1EA_F3FA_F3FB_F3FC_F5BE),
  (0x9F5B, 0xF5BA_C568_F5BD_F5BC_C4D4_F5BB_C4D6),
  (0x9F63, 0xC4D5_F6D4_F6D3_C569_C56A),
  (0x9F6A, 0xC5C6_F7CD_C5C5),
  (0x9F6E, 0xF8A3_F8A4_F8A2_F8A1_C654),
  (0x9F74, 0xF8EB_F8EC_F8ED_C653_F967_F96A_F969_F968),
  (0x9F7E, 0xF9D3),
  (0x9F8D, 0xC073),
  (0x9F90, 0xC365_F5BF_F6D5),
  (0x9F94, 0xC5C7_F7CE),
  (0x9F98, 0xF9D5),
  (0x9F9C, 0xC074),
  (0x9FA0, 0xEFB6),
  (0x9FA2, 0xF7CF),
  (0x9FA4, 0xF9A1),
  (0xE000, 0xFA40_FA41_FA42_FA43_FA44_FA45_FA46_FA47_FA48_FA49_FA4A_FA4B),
  (0xE00C, 0xFA4C_FA4D_FA4E_FA4F_FA50_FA51_FA52_FA53_FA54_FA55_FA56_FA57),
  (0xE018, 0xFA58_FA59_FA5A_FA5B_FA5C_FA5D_FA5E_FA5F_FA60_FA61_FA62_FA63),
  (0xE024, 0xFA64_FA65_FA66_FA67_FA68_FA69_FA6A_FA6B_FA6C_FA6D_FA6E_FA6F),
  (0xE030, 0xFA70_FA71_FA72_FA73_FA74_FA75_FA76_FA77_FA78_FA79_FA7A_FA7B),
  (0xE03C, 0xFA7C_FA7D_FA7E_FAA1_FAA2_FAA3_FAA4_FAA5_FAA6_FAA7_FAA8_FAA9),
  (0xE048, 0xFAAA_FAAB_FAAC_FAAD_FAAE_FAAF_FAB0_FAB1_FAB2_FAB3_FAB4_FAB5),
  (0xE054, 0xFAB6_FAB7_FAB8_FAB9_FABA_FABB_FABC_FABD_FABE_FABF_FAC0_FAC1),
  (0xE060, 0xFAC2_FAC3_FAC4_FAC5_FAC6_FAC7_FAC8_FAC9_FACA_FACB_FACC_FACD),
  (0xE06C, 0xFACE_FACF_FAD0_FAD1_FAD2_FAD3_FAD4_FAD5_FAD6_FAD7_FAD8_FAD9),
  (0xE078, 0xFADA_FADB_FADC_FADD_FADE_FADF_FAE0_FAE1_FAE2_FAE3_FAE4_FAE5),
  (0xE084, 0xFAE6_FAE7_FAE8_FAE9_FAEA_FAEB_FAEC_FAED_FAEE_FAEF_FAF0_FAF1),
  (0xE090, 0xFAF2_FAF3_FAF4_FAF5_FAF6_FAF7_FAF8_FAF9_FAFA_FAFB_FAFC_FAFD),
  (0xE09C, 0xFAFE_FB40_FB41_FB42_FB43_FB44_FB45_FB46_FB47_FB48_FB49_FB4A),
  (0xE0A8, 0xFB4B_FB4C_FB4D_FB4E_FB4F_FB50_FB51_FB52_FB53_FB54_FB55_FB56),
  (0xE0B4, 0xFB57_FB58_FB59_FB5A_FB5B_FB5C_FB5D_FB5E_FB5F_FB60_FB61_FB62),
  (0xE0C0, 0xFB63_FB64_FB65_FB66_FB67_FB68_FB69_FB6A_FB6B_FB6C_FB6D_FB6E),
  (0xE0CC, 0xFB6F_FB70_FB71_FB72_FB73_FB74_FB75_FB76_FB77_FB78_FB79_FB7A),
  (0xE0D8, 0xFB7B_FB7C_FB7D_FB7E_FBA1_FBA2_FBA3_FBA4_FBA5_FBA6_FBA7_FBA8),
  (0xE0E4, 0xFBA9_FBAA_FBAB_FBAC_FBAD_FBAE_FBAF_FBB0_FBB1_FBB2_FBB3_FBB4),
  (0xE0F0, 0xFBB5_FBB6_FBB7_FBB8_FBB9_FBBA_FBBB_FBBC_FBBD_FBBE_FBBF_FBC0),
  (0xE0FC, 0xFBC1_FBC2_FBC3_FBC4_FBC5_FBC6_FBC7_FBC8_FBC9_FBCA_FBCB_FBCC),
  (0xE108, 0xFBCD_FBCE_FBCF_FBD0_FBD1_FBD2_FBD3_FBD4_FBD5_FBD6_FBD7_FBD8),
  (0xE114, 0xFBD9_FBDA_FBDB_FBDC_FBDD_FBDE_FBDF_FBE0_FBE1_FBE2_FBE3_FBE4),
  (0xE120, 0xFBE5_FBE6_FBE7_FBE8_FBE9_FBEA_FBEB_FBEC_FBED_FBEE_FBEF_FBF0),
  (0xE12C, 0xFBF1_FBF2_FBF3_FBF4_FBF5_FBF6_FBF7_FBF8_FBF9_FBFA_FBFB_FBFC),
  (0xE138, 0xFBFD_FBFE_FC40_FC41_FC42_FC43_FC44_FC45_FC46_FC47_FC48_FC49),
  (0xE144, 0xFC4A_FC4B_FC4C_FC4D_FC4E_FC4F_FC50_FC51_FC52_FC53_FC54_FC55),
  (0xE150, 0xFC56_FC57_FC58_FC59_FC5A_FC5B_FC5C_FC5D_FC5E_FC5F_FC60_FC61),
  (0xE15C, 0xFC62_FC63_FC64_FC65_FC66_FC67_FC68_FC69_FC6A_FC6B_FC6C_FC6D),
  (0xE168, 0xFC6E_FC6F_FC70_FC71_FC72_FC73_FC74_FC75_FC76_FC77_FC78_FC79),
  (0xE174, 0xFC7A_FC7B_FC7C_FC7D_FC7E_FCA1_FCA2_FCA3_FCA4_FCA5_FCA6_FCA7),
  (0xE180, 0xFCA8_FCA9_FCAA_FCAB_FCAC_FCAD_FCAE_FCAF_FCB0_FCB1_FCB2_FCB3),
  (0xE18C, 0xFCB4_FCB5_FCB6_FCB7_FCB8_FCB9_FCBA_FCBB_FCBC_FCBD_FCBE_FCBF),
  (0xE198, 0xFCC0_FCC1_FCC2_FCC3_FCC4_FCC5_FCC6_FCC7_FCC8_FCC9_FCCA_FCCB),
  (0xE1A4, 0xFCCC_FCCD_FCCE_FCCF_FCD0_FCD1_FCD2_FCD3_FCD4_FCD5_FCD6_FCD7),
  (0xE1B0, 0xFCD8_FCD9_FCDA_FCDB_FCDC_FCDD_FCDE_FCDF_FCE0_FCE1_FCE2_FCE3),
  (0xE1BC, 0xFCE4_FCE5_FCE6_FCE7_FCE8_FCE9_FCEA_FCEB_FCEC_FCED_FCEE_FCEF),
  (0xE1C8, 0xFCF0_FCF1_FCF2_FCF3_FCF4_FCF5_FCF6_FCF7_FCF8_FCF9_FCFA_FCFB),
  (0xE1D4, 0xFCFC_FCFD_FCFE_FD40_FD41_FD42_FD43_FD44_FD45_FD46_FD47_FD48),
  (0xE1E0, 0xFD49_FD4A_FD4B_FD4C_FD4D_FD4E_FD4F_FD50_FD51_FD52_FD53_FD54),
  (0xE1EC, 0xFD55_FD56_FD57_FD58_FD59_FD5A_FD5B_FD5C_FD5D_FD5E_FD5F_FD60),
  (0xE1F8, 0xFD61_FD62_FD63_FD64_FD65_FD66_FD67_FD68_FD69_FD6A_FD6B_FD6C),
  (0xE204, 0xFD6D_FD6E_FD6F_FD70_FD71_FD72_FD73_FD74_FD75_FD76_FD77_FD78),
  (0xE210, 0xFD79_FD7A_FD7B_FD7C_FD7D_FD7E_FDA1_FDA2_FDA3_FDA4_FDA5_FDA6),
  (0xE21C, 0xFDA7_FDA8_FDA9_FDAA_FDAB_FDAC_FDAD_FDAE_FDAF_FDB0_FDB1_FDB2),
  (0xE228, 0xFDB3_FDB4_FDB5_FDB6_FDB7_FDB8_FDB9_FDBA_FDBB_FDBC_FDBD_FDBE),
  (0xE234, 0xFDBF_FDC0_FDC1_FDC2_FDC3_FDC4_FDC5_FDC6_FDC7_FDC8_FDC9_FDCA),
  (0xE240, 0xFDCB_FDCC_FDCD_FDCE_FDCF_FDD0_FDD1_FDD2_FDD3_FDD4_FDD5_FDD6),
  (0xE24C, 0xFDD7_FDD8_FDD9_FDDA_FDDB_FDDC_FDDD_FDDE_FDDF_FDE0_FDE1_FDE2),
  (0xE258, 0xFDE3_FDE4_FDE5_FDE6_FDE7_FDE8_FDE9_FDEA_FDEB_FDEC_FDED_FDEE),
  (0xE264, 0xFDEF_FDF0_FDF1_FDF2_FDF3_FDF4_FDF5_FDF6_FDF7_FDF8_FDF9_FDFA),
  (0xE270, 0xFDFB_FDFC_FDFD_FDFE_FE40_FE41_FE42_FE43_FE44_FE45_FE46_FE47),
  (0xE27C, 0xFE48_FE49_FE4A_FE4B_FE4C_FE4D_FE4E_FE4F_FE50_FE51_FE52_FE53),
  (0xE288, 0xFE54_FE55_FE56_FE57_FE58_FE59_FE5A_FE5B_FE5C_FE5D_FE5E_FE5F),
  (0xE294, 0xFE60_FE61_FE62_FE63_FE64_FE65_FE66_FE67_FE68_FE69_FE6A_FE6B),
  (0xE2A0, 0xFE6C_FE6D_FE6E_FE6F_FE70_FE71_FE72_FE73_FE74_FE75_FE76_FE77),
  (0xE2AC, 0xFE78_FE79_FE7A_FE7B_FE7C_FE7D_FE7E_FEA1_FEA2_FEA3_FEA4_FEA5),
  (0xE2B8, 0xFEA6_FEA7_FEA8_FEA9_FEAA_FEAB_FEAC_FEAD_FEAE_FEAF_FEB0_FEB1),
  (0xE2C4, 0xFEB2_FEB3_FEB4_FEB5_FEB6_FEB7_FEB8_FEB9_FEBA_FEBB_FEBC_FEBD),
  (0xE2D0, 0xFEBE_FEBF_FEC0_FEC1_FEC2_FEC3_FEC4_FEC5_FEC6_FEC7_FEC8_FEC9),
  (0xE2DC, 0xFECA_FECB_FECC_FECD_FECE_FECF_FED0_FED1_FED2_FED3_FED4_FED5),
  (0xE2E8, 0xFED6_FED7_FED8_FED9_FEDA_FEDB_FEDC_FEDD_FEDE_FEDF_FEE0_FEE1),
  (0xE2F4, 0xFEE2_FEE3_FEE4_FEE5_FEE6_FEE7_FEE8_FEE9_FEEA_FEEB_FEEC_FEED),
  (0xE300, 0xFEEE_FEEF_FEF0_FEF1_FEF2_FEF3_FEF4_FEF5_FEF6_FEF7_FEF8_FEF9),
  (0xE30C, 0xFEFA_FEFB_FEFC_FEFD_FEFE_8E40_8E41_8E42_8E43_8E44_8E45_8E46),
  (0xE318, 0x8E47_8E48_8E49_8E4A_8E4B_8E4C_8E4D_8E4E_8E4F_8E50_8E51_8E52),
  (0xE324, 0x8E53_8E54_8E55_8E56_8E57_8E58_8E59_8E5A_8E5B_8E5C_8E5D_8E5E),
  (0xE330, 0x8E5F_8E60_8E61_8E62_8E63_8E64_8E65_8E66_8E67_8E68_8E69_8E6A),
  (0xE33C, 0x8E6B_8E6C_8E6D_8E6E_8E6F_8E70_8E71_8E72_8E73_8E74_8E75_8E76),
  (0xE348, 0x8E77_8E78_8E79_8E7A_8E7B_8E7C_8E7D_8E7E_8EA1_8EA2_8EA3_8EA4),
  (0xE354, 0x8EA5_8EA6_8EA7_8EA8_8EA9_8EAA_8EAB_8EAC_8EAD_8EAE_8EAF_8EB0),
  (0xE360, 0x8EB1_8EB2_8EB3_8EB4_8EB5_8EB6_8EB7_8EB8_8EB9_8EBA_8EBB_8EBC),
  (0xE36C, 0x8EBD_8EBE_8EBF_8EC0_8EC1_8EC2_8EC3_8EC4_8EC5_8EC6_8EC7_8EC8),
  (0xE378, 0x8EC9_8ECA_8ECB_8ECC_8ECD_8ECE_8ECF_8ED0_8ED1_8ED2_8ED3_8ED4),
  (0xE384, 0x8ED5_8ED6_8ED7_8ED8_8ED9_8EDA_8EDB_8EDC_8EDD_8EDE_8EDF_8EE0),
  (0xE390, 0x8EE1_8EE2_8EE3_8EE4_8EE5_8EE6_8EE7_8EE8_8EE9_8EEA_8EEB_8EEC),
  (0xE39C, 0x8EED_8EEE_8EEF_8EF0_8EF1_8EF2_8EF3_8EF4_8EF5_8EF6_8EF7_8EF8),
  (0xE3A8, 0x8EF9_8EFA_8EFB_8EFC_8EFD_8EFE_8F40_8F41_8F42_8F43_8F44_8F45),
  (0xE3B4, 0x8F46_8F47_8F48_8F49_8F4A_8F4B_8F4C_8F4D_8F4E_8F4F_8F50_8F51),
  (0xE3C0, 0x8F52_8F53_8F54_8F55_8F56_8F57_8F58_8F59_8F5A_8F5B_8F5C_8F5D),
  (0xE3CC, 0x8F5E_8F5F_8F60_8F61_8F62_8F63_8F64_8F65_8F66_8F67_8F68_8F69),
  (0xE3D8, 0x8F6A_8F6B_8F6C_8F6D_8F6E_8F6F_8F70_8F71_8F72_8F73_8F74_8F75),
  (0xE3E4, 0x8F76_8F77_8F78_8F79_8F7A_8F7B_8F7C_8F7D_8F7E_8FA1_8FA2_8FA3),
  (0xE3F0, 0x8FA4_8FA5_8FA6_8FA7_8FA8_8FA9_8FAA_8FAB_8FAC_8FAD_8FAE_8FAF),
  (0xE3FC, 0x8FB0_8FB1_8FB2_8FB3_8FB4_8FB5_8FB6_8FB7_8FB8_8FB9_8FBA_8FBB),
  (0xE408, 0x8FBC_8FBD_8FBE_8FBF_8FC0_8FC1_8FC2_8FC3_8FC4_8FC5_8FC6_8FC7),
  (0xE414, 0x8FC8_8FC9_8FCA_8FCB_8FCC_8FCD_8FCE_8FCF_8FD0_8FD1_8FD2_8FD3),
  (0xE420, 0x8FD4_8FD5_8FD6_8FD7_8FD8_8FD9_8FDA_8FDB_8FDC_8FDD_8FDE_8FDF),
  (0xE42C, 0x8FE0_8FE1_8FE2_8FE3_8FE4_8FE5_8FE6_8FE7_8FE8_8FE9_8FEA_8FEB),
  (0xE438, 0x8FEC_8FED_8FEE_8FEF_8FF0_8FF1_8FF2_8FF3_8FF4_8FF5_8FF6_8FF7),
  (0xE444, 0x8FF8_8FF9_8FFA_8FFB_8FFC_8FFD_8FFE_9040_9041_9042_9043_9044),
  (0xE450, 0x9045_9046_9047_9048_9049_904A_904B_904C_904D_904E_904F_9050),
  (0xE45C, 0x9051_9052_9053_9054_9055_9056_9057_9058_9059_905A_905B_905C),
  (0xE468, 0x905D_905E_905F_9060_9061_9062_9063_9064_9065_9066_9067_9068),
  (0xE474, 0x9069_906A_906B_906C_906D_906E_906F_9070_9071_9072_9073_9074),
  (0xE480, 0x9075_9076_9077_9078_9079_907A_907B_907C_907D_907E_90A1_90A2),
  (0xE48C, 0x90A3_90A4_90A5_90A6_90A7_90A8_90A9_90AA_90AB_90AC_90AD_90AE),
  (0xE498, 0x90AF_90B0_90B1_90B2_90B3_90B4_90B5_90B6_90B7_90B8_90B9_90BA),
  (0xE4A4, 0x90BB_90BC_90BD_90BE_90BF_90C0_90C1_90C2_90C3_90C4_90C5_90C6),
  (0xE4B0, 0x90C7_90C8_90C9_90CA_90CB_90CC_90CD_90CE_90CF_90D0_90D1_90D2),
  (0xE4BC, 0x90D3_90D4_90D5_90D6_90D7_90D8_90D9_90DA_90DB_90DC_90DD_90DE),
  (0xE4C8, 0x90DF_90E0_90E1_90E2_90E3_90E4_90E5_90E6_90E7_90E8_90E9_90EA),
  (0xE4D4, 0x90EB_90EC_90ED_90EE_90EF_90F0_90F1_90F2_90F3_90F4_90F5_90F6),
  (0xE4E0, 0x90F7_90F8_90F9_90FA_90FB_90FC_90FD_90FE_9140_9141_9142_9143),
  (0xE4EC, 0x9144_9145_9146_9147_9148_9149_914A_914B_914C_914D_914E_914F),
  (0xE4F8, 0x9150_9151_9152_9153_9154_9155_9156_9157_9158_9159_915A_915B),
  (0xE504, 0x915C_915D_915E_915F_9160_9161_9162_9163_9164_9165_9166_9167),
  (0xE510, 0x9168_9169_916A_916B_916C_916D_916E_916F_9170_9171_9172_9173),
  (0xE51C, 0x9174_9175_9176_9177_9178_9179_917A_917B_917C_917D_917E_91A1),
  (0xE528, 0x91A2_91A3_91A4_91A5_91A6_91A7_91A8_91A9_91AA_91AB_91AC_91AD),
  (0xE534, 0x91AE_91AF_91B0_91B1_91B2_91B3_91B4_91B5_91B6_91B7_91B8_91B9),
  (0xE540, 0x91BA_91BB_91BC_91BD_91BE_91BF_91C0_91C1_91C2_91C3_91C4_91C5),
  (0xE54C, 0x91C6_91C7_91C8_91C9_91CA_91CB_91CC_91CD_91CE_91CF_91D0_91D1),
  (0xE558, 0x91D2_91D3_91D4_91D5_91D6_91D7_91D8_91D9_91DA_91DB_91DC_91DD),
  (0xE564, 0x91DE_91DF_91E0_91E1_91E2_91E3_91E4_91E5_91E6_91E7_91E8_91E9),
  (0xE570, 0x91EA_91EB_91EC_91ED_91EE_91EF_91F0_91F1_91F2_91F3_91F4_91F5),
  (0xE57C, 0x91F6_91F7_91F8_91F9_91FA_91FB_91FC_91FD_91FE_9240_9241_9242),
  (0xE588, 0x9243_9244_9245_9246_9247_9248_9249_924A_924B_924C_924D_924E),
  (0xE594, 0x924F_9250_9251_9252_9253_9254_9255_9256_9257_9258_9259_925A),
  (0xE5A0, 0x925B_925C_925D_925E_925F_9260_9261_9262_9263_9264_9265_9266),
  (0xE5AC, 0x9267_9268_9269_926A_926B_926C_926D_926E_926F_9270_9271_9272),
  (0xE5B8, 0x9273_9274_9275_9276_9277_9278_9279_927A_927B_927C_927D_927E),
  (0xE5C4, 0x92A1_92A2_92A3_92A4_92A5_92A6_92A7_92A8_92A9_92AA_92AB_92AC),
  (0xE5D0, 0x92AD_92AE_92AF_92B0_92B1_92B2_92B3_92B4_92B5_92B6_92B7_92B8),
  (0xE5DC, 0x92B9_92BA_92BB_92BC_92BD_92BE_92BF_92C0_92C1_92C2_92C3_92C4),
  (0xE5E8, 0x92C5_92C6_92C7_92C8_92C9_92CA_92CB_92CC_92CD_92CE_92CF_92D0),
  (0xE5F4, 0x92D1_92D2_92D3_92D4_92D5_92D6_92D7_92D8_92D9_92DA_92DB_92DC),
  (0xE600, 0x92DD_92DE_92DF_92E0_92E1_92E2_92E3_92E4_92E5_92E6_92E7_92E8),
  (0xE60C, 0x92E9_92EA_92EB_92EC_92ED_92EE_92EF_92F0_92F1_92F2_92F3_92F4),
  (0xE618, 0x92F5_92F6_92F7_92F8_92F9_92FA_92FB_92FC_92FD_92FE_9340_9341),
  (0xE624, 0x9342_9343_9344_9345_9346_9347_9348_9349_934A_934B_934C_934D),
  (0xE630, 0x934E_934F_9350_9351_9352_9353_9354_9355_9356_9357_9358_9359),
  (0xE63C, 0x935A_935B_935C_935D_935E_935F_9360_9361_9362_9363_9364_9365),
  (0xE648, 0x9366_9367_9368_9369_936A_936B_936C_936D_936E_936F_9370_9371),
  (0xE654, 0x9372_9373_9374_9375_9376_9377_9378_9379_937A_937B_937C_937D),
  (0xE660, 0x937E_93A1_93A2_93A3_93A4_93A5_93A6_93A7_93A8_93A9_93AA_93AB),
  (0xE66C, 0x93AC_93AD_93AE_93AF_93B0_93B1_93B2_93B3_93B4_93B5_93B6_93B7),
  (0xE678, 0x93B8_93B9_93BA_93BB_93BC_93BD_93BE_93BF_93C0_93C1_93C2_93C3),
  (0xE684, 0x93C4_93C5_93C6_93C7_93C8_93C9_93CA_93CB_93CC_93CD_93CE_93CF),
  (0xE690, 0x93D0_93D1_93D2_93D3_93D4_93D5_93D6_93D7_93D8_93D9_93DA_93DB),
  (0xE69C, 0x93DC_93DD_93DE_93DF_93E0_93E1_93E2_93E3_93E4_93E5_93E6_93E7),
  (0xE6A8, 0x93E8_93E9_93EA_93EB_93EC_93ED_93EE_93EF_93F0_93F1_93F2_93F3),
  (0xE6B4, 0x93F4_93F5_93F6_93F7_93F8_93F9_93FA_93FB_93FC_93FD_93FE_9440),
  (0xE6C0, 0x9441_9442_9443_9444_9445_9446_9447_9448_9449_944A_944B_944C),
  (0xE6CC, 0x944D_944E_944F_9450_9451_9452_9453_9454_9455_9456_9457_9458),
  (0xE6D8, 0x9459_945A_945B_945C_945D_945E_945F_9460_9461_9462_9463_9464),
  (0xE6E4, 0x9465_9466_9467_9468_9469_946A_946B_946C_946D_946E_946F_9470),
  (0xE6F0, 0x9471_9472_9473_9474_9475_9476_9477_9478_9479_947A_947B_947C),
  (0xE6FC, 0x947D_947E_94A1_94A2_94A3_94A4_94A5_94A6_94A7_94A8_94A9_94AA),
  (0xE708, 0x94AB_94AC_94AD_94AE_94AF_94B0_94B1_94B2_94B3_94B4_94B5_94B6),
  (0xE714, 0x94B7_94B8_94B9_94BA_94BB_94BC_94BD_94BE_94BF_94C0_94C1_94C2),
  (0xE720, 0x94C3_94C4_94C5_94C6_94C7_94C8_94C9_94CA_94CB_94CC_94CD_94CE),
  (0xE72C, 0x94CF_94D0_94D1_94D2_94D3_94D4_94D5_94D6_94D7_94D8_94D9_94DA),
  (0xE738, 0x94DB_94DC_94DD_94DE_94DF_94E0_94E1_94E2_94E3_94E4_94E5_94E6),
  (0xE744, 0x94E7_94E8_94E9_94EA_94EB_94EC_94ED_94EE_94EF_94F0_94F1_94F2),
  (0xE750, 0x94F3_94F4_94F5_94F6_94F7_94F8_94F9_94FA_94FB_94FC_94FD_94FE),
  (0xE75C, 0x9540_9541_9542_9543_9544_9545_9546_9547_9548_9549_954A_954B),
  (0xE768, 0x954C_954D_954E_954F_9550_9551_9552_9553_9554_9555_9556_9557),
  (0xE774, 0x9558_9559_955A_955B_955C_955D_955E_955F_9560_9561_9562_9563),
  (0xE780, 0x9564_9565_9566_9567_9568_9569_956A_956B_956C_956D_956E_956F),
  (0xE78C, 0x9570_9571_9572_9573_9574_9575_9576_9577_9578_9579_957A_957B),
  (0xE798, 0x957C_957D_957E_95A1_95A2_95A3_95A4_95A5_95A6_95A7_95A8_95A9),
  (0xE7A4, 0x95AA_95AB_95AC_95AD_95AE_95AF_95B0_95B1_95B2_95B3_95B4_95B5),
  (0xE7B0, 0x95B6_95B7_95B8_95B9_95BA_95BB_95BC_95BD_95BE_95BF_95C0_95C1),
  (0xE7BC, 0x95C2_95C3_95C4_95C5_95C6_95C7_95C8_95C9_95CA_95CB_95CC_95CD),
  (0xE7C8, 0x95CE_95CF_95D0_95D1_95D2_95D3_95D4_95D5_95D6_95D7_95D8_95D9),
  (0xE7D4, 0x95DA_95DB_95DC_95DD_95DE_95DF_95E0_95E1_95E2_95E3_95E4_95E5),
  (0xE7E0, 0x95E6_95E7_95E8_95E9_95EA_95EB_95EC_95ED_95EE_95EF_95F0_95F1),
  (0xE7EC, 0x95F2_95F3_95F4_95F5_95F6_95F7_95F8_95F9_95FA_95FB_95FC_95FD),
  (0xE7F8, 0x95FE_9640_9641_9642_9643_9644_9645_9646_9647_9648_9649_964A),
  (0xE804, 0x964B_964C_964D_964E_964F_9650_9651_9652_9653_9654_9655_9656),
  (0xE810, 0x9657_9658_9659_965A_965B_965C_965D_965E_965F_9660_9661_9662),
  (0xE81C, 0x9663_9664_9665_9666_9667_9668_9669_966A_966B_966C_966D_966E),
  (0xE828, 0x966F_9670_9671_9672_9673_9674_9675_9676_9677_9678_9679_967A),
  (0xE834, 0x967B_967C_967D_967E_96A1_96A2_96A3_96A4_96A5_96A6_96A7_96A8),
  (0xE840, 0x96A9_96AA_96AB_96AC_96AD_96AE_96AF_96B0_96B1_96B2_96B3_96B4),
  (0xE84C, 0x96B5_96B6_96B7_96B8_96B9_96BA_96BB_96BC_96BD_96BE_96BF_96C0),
  (0xE858, 0x96C1_96C2_96C3_96C4_96C5_96C6_96C7_96C8_96C9_96CA_96CB_96CC),
  (0xE864, 0x96CD_96CE_96CF_96D0_96D1_96D2_96D3_96D4_96D5_96D6_96D7_96D8),
  (0xE870, 0x96D9_96DA_96DB_96DC_96DD_96DE_96DF_96E0_96E1_96E2_96E3_96E4),
  (0xE87C, 0x96E5_96E6_96E7_96E8_96E9_96EA_96EB_96EC_96ED_96EE_96EF_96F0),
  (0xE888, 0x96F1_96F2_96F3_96F4_96F5_96F6_96F7_96F8_96F9_96FA_96FB_96FC),
  (0xE894, 0x96FD_96FE_9740_9741_9742_9743_9744_9745_9746_9747_9748_9749),
  (0xE8A0, 0x974A_974B_974C_974D_974E_974F_9750_9751_9752_9753_9754_9755),
  (0xE8AC, 0x9756_9757_9758_9759_975A_975B_975C_975D_975E_975F_9760_9761),
  (0xE8B8, 0x9762_9763_9764_9765_9766_9767_9768_9769_976A_976B_976C_976D),
  (0xE8C4, 0x976E_976F_9770_9771_9772_9773_9774_9775_9776_9777_9778_9779),
  (0xE8D0, 0x977A_977B_977C_977D_977E_97A1_97A2_97A3_97A4_97A5_97A6_97A7),
  (0xE8DC, 0x97A8_97A9_97AA_97AB_97AC_97AD_97AE_97AF_97B0_97B1_97B2_97B3),
  (0xE8E8, 0x97B4_97B5_97B6_97B7_97B8_97B9_97BA_97BB_97BC_97BD_97BE_97BF),
  (0xE8F4, 0x97C0_97C1_97C2_97C3_97C4_97C5_97C6_97C7_97C8_97C9_97CA_97CB),
  (0xE900, 0x97CC_97CD_97CE_97CF_97D0_97D1_97D2_97D3_97D4_97D5_97D6_97D7),
  (0xE90C, 0x97D8_97D9_97DA_97DB_97DC_97DD_97DE_97DF_97E0_97E1_97E2_97E3),
  (0xE918, 0x97E4_97E5_97E6_97E7_97E8_97E9_97EA_97EB_97EC_97ED_97EE_97EF),
  (0xE924, 0x97F0_97F1_97F2_97F3_97F4_97F5_97F6_97F7_97F8_97F9_97FA_97FB),
  (0xE930, 0x97FC_97FD_97FE_9840_9841_9842_9843_9844_9845_9846_9847_9848),
  (0xE93C, 0x9849_984A_984B_984C_984D_984E_984F_9850_9851_9852_9853_9854),
  (0xE948, 0x9855_9856_9857_9858_9859_985A_985B_985C_985D_985E_985F_9860),
  (0xE954, 0x9861_9862_9863_9864_9865_9866_9867_9868_9869_986A_986B_986C),
  (0xE960, 0x986D_986E_986F_9870_9871_9872_9873_9874_9875_9876_9877_9878),
  (0xE96C, 0x9879_987A_987B_987C_987D_987E_98A1_98A2_98A3_98A4_98A5_98A6),
  (0xE978, 0x98A7_98A8_98A9_98AA_98AB_98AC_98AD_98AE_98AF_98B0_98B1_98B2),
  (0xE984, 0x98B3_98B4_98B5_98B6_98B7_98B8_98B9_98BA_98BB_98BC_98BD_98BE),
  (0xE990, 0x98BF_98C0_98C1_98C2_98C3_98C4_98C5_98C6_98C7_98C8_98C9_98CA),
  (0xE99C, 0x98CB_98CC_98CD_98CE_98CF_98D0_98D1_98D2_98D3_98D4_98D5_98D6),
  (0xE9A8, 0x98D7_98D8_98D9_98DA_98DB_98DC_98DD_98DE_98DF_98E0_98E1_98E2),
  (0xE9B4, 0x98E3_98E4_98E5_98E6_98E7_98E8_98E9_98EA_98EB_98EC_98ED_98EE),
  (0xE9C0, 0x98EF_98F0_98F1_98F2_98F3_98F4_98F5_98F6_98F7_98F8_98F9_98FA),
  (0xE9CC, 0x98FB_98FC_98FD_98FE_9940_9941_9942_9943_9944_9945_9946_9947),
  (0xE9D8, 0x9948_9949_994A_994B_994C_994D_994E_994F_9950_9951_9952_9953),
  (0xE9E4, 0x9954_9955_9956_9957_9958_9959_995A_995B_995C_995D_995E_995F),
  (0xE9F0, 0x9960_9961_9962_9963_9964_9965_9966_9967_9968_9969_996A_996B),
  (0xE9FC, 0x996C_996D_996E_996F_9970_9971_9972_9973_9974_9975_9976_9977),
  (0xEA08, 0x9978_9979_997A_997B_997C_997D_997E_99A1_99A2_99A3_99A4_99A5),
  (0xEA14, 0x99A6_99A7_99A8_99A9_99AA_99AB_99AC_99AD_99AE_99AF_99B0_99B1),
  (0xEA20, 0x99B2_99B3_99B4_99B5_99B6_99B7_99B8_99B9_99BA_99BB_99BC_99BD),
  (0xEA2C, 0x99BE_99BF_99C0_99C1_99C2_99C3_99C4_99C5_99C6_99C7_99C8_99C9),
  (0xEA38, 0x99CA_99CB_99CC_99CD_99CE_99CF_99D0_99D1_99D2_99D3_99D4_99D5),
  (0xEA44, 0x99D6_99D7_99D8_99D9_99DA_99DB_99DC_99DD_99DE_99DF_99E0_99E1),
  (0xEA50, 0x99E2_99E3_99E4_99E5_99E6_99E7_99E8_99E9_99EA_99EB_99EC_99ED),
  (0xEA5C, 0x99EE_99EF_99F0_99F1_99F2_99F3_99F4_99F5_99F6_99F7_99F8_99F9),
  (0xEA68, 0x99FA_99FB_99FC_99FD_99FE_9A40_9A41_9A42_9A43_9A44_9A45_9A46),
  (0xEA74, 0x9A47_9A48_9A49_9A4A_9A4B_9A4C_9A4D_9A4E_9A4F_9A50_9A51_9A52),
  (0xEA80, 0x9A53_9A54_9A55_9A56_9A57_9A58_9A59_9A5A_9A5B_9A5C_9A5D_9A5E),
  (0xEA8C, 0x9A5F_9A60_9A61_9A62_9A63_9A64_9A65_9A66_9A67_9A68_9A69_9A6A),
  (0xEA98, 0x9A6B_9A6C_9A6D_9A6E_9A6F_9A70_9A71_9A72_9A73_9A74_9A75_9A76),
  (0xEAA4, 0x9A77_9A78_9A79_9A7A_9A7B_9A7C_9A7D_9A7E_9AA1_9AA2_9AA3_9AA4),
  (0xEAB0, 0x9AA5_9AA6_9AA7_9AA8_9AA9_9AAA_9AAB_9AAC_9AAD_9AAE_9AAF_9AB0),
  (0xEABC, 0x9AB1_9AB2_9AB3_9AB4_9AB5_9AB6_9AB7_9AB8_9AB9_9ABA_9ABB_9ABC),
  (0xEAC8, 0x9ABD_9ABE_9ABF_9AC0_9AC1_9AC2_9AC3_9AC4_9AC5_9AC6_9AC7_9AC8),
  (0xEAD4, 0x9AC9_9ACA_9ACB_9ACC_9ACD_9ACE_9ACF_9AD0_9AD1_9AD2_9AD3_9AD4),
  (0xEAE0, 0x9AD5_9AD6_9AD7_9AD8_9AD9_9ADA_9ADB_9ADC_9ADD_9ADE_9ADF_9AE0),
  (0xEAEC, 0x9AE1_9AE2_9AE3_9AE4_9AE5_9AE6_9AE7_9AE8_9AE9_9AEA_9AEB_9AEC),
  (0xEAF8, 0x9AED_9AEE_9AEF_9AF0_9AF1_9AF2_9AF3_9AF4_9AF5_9AF6_9AF7_9AF8),
  (0xEB04, 0x9AF9_9AFA_9AFB_9AFC_9AFD_9AFE_9B40_9B41_9B42_9B43_9B44_9B45),
  (0xEB10, 0x9B46_9B47_9B48_9B49_9B4A_9B4B_9B4C_9B4D_9B4E_9B4F_9B50_9B51),
  (0xEB1C, 0x9B52_9B53_9B54_9B55_9B56_9B57_9B58_9B59_9B5A_9B5B_9B5C_9B5D),
  (0xEB28, 0x9B5E_9B5F_9B60_9B61_9B62_9B63_9B64_9B65_9B66_9B67_9B68_9B69),
  (0xEB34, 0x9B6A_9B6B_9B6C_9B6D_9B6E_9B6F_9B70_9B71_9B72_9B73_9B74_9B75),
  (0xEB40, 0x9B76_9B77_9B78_9B79_9B7A_9B7B_9B7C_9B7D_9B7E_9BA1_9BA2_9BA3),
  (0xEB4C, 0x9BA4_9BA5_9BA6_9BA7_9BA8_9BA9_9BAA_9BAB_9BAC_9BAD_9BAE_9BAF),
  (0xEB58, 0x9BB0_9BB1_9BB2_9BB3_9BB4_9BB5_9BB6_9BB7_9BB8_9BB9_9BBA_9BBB),
  (0xEB64, 0x9BBC_9BBD_9BBE_9BBF_9BC0_9BC1_9BC2_9BC3_9BC4_9BC5_9BC6_9BC7),
  (0xEB70, 0x9BC8_9BC9_9BCA_9BCB_9BCC_9BCD_9BCE_9BCF_9BD0_9BD1_9BD2_9BD3),
  (0xEB7C, 0x9BD4_9BD5_9BD6_9BD7_9BD8_9BD9_9BDA_9BDB_9BDC_9BDD_9BDE_9BDF),
  (0xEB88, 0x9BE0_9BE1_9BE2_9BE3_9BE4_9BE5_9BE6_9BE7_9BE8_9BE9_9BEA_9BEB),
  (0xEB94, 0x9BEC_9BED_9BEE_9BEF_9BF0_9BF1_9BF2_9BF3_9BF4_9BF5_9BF6_9BF7),
  (0xEBA0, 0x9BF8_9BF9_9BFA_9BFB_9BFC_9BFD_9BFE_9C40_9C41_9C42_9C43_9C44),
  (0xEBAC, 0x9C45_9C46_9C47_9C48_9C49_9C4A_9C4B_9C4C_9C4D_9C4E_9C4F_9C50),
  (0xEBB8, 0x9C51_9C52_9C53_9C54_9C55_9C56_9C57_9C58_9C59_9C5A_9C5B_9C5C),
  (0xEBC4, 0x9C5D_9C5E_9C5F_9C60_9C61_9C62_9C63_9C64_9C65_9C66_9C67_9C68),
  (0xEBD0, 0x9C69_9C6A_9C6B_9C6C_9C6D_9C6E_9C6F_9C70_9C71_9C72_9C73_9C74),
  (0xEBDC, 0x9C75_9C76_9C77_9C78_9C79_9C7A_9C7B_9C7C_9C7D_9C7E_9CA1_9CA2),
  (0xEBE8, 0x9CA3_9CA4_9CA5_9CA6_9CA7_9CA8_9CA9_9CAA_9CAB_9CAC_9CAD_9CAE),
  (0xEBF4, 0x9CAF_9CB0_9CB1_9CB2_9CB3_9CB4_9CB5_9CB6_9CB7_9CB8_9CB9_9CBA),
  (0xEC00, 0x9CBB_9CBC_9CBD_9CBE_9CBF_9CC0_9CC1_9CC2_9CC3_9CC4_9CC5_9CC6),
  (0xEC0C, 0x9CC7_9CC8_9CC9_9CCA_9CCB_9CCC_9CCD_9CCE_9CCF_9CD0_9CD1_9CD2),
  (0xEC18, 0x9CD3_9CD4_9CD5_9CD6_9CD7_9CD8_9CD9_9CDA_9CDB_9CDC_9CDD_9CDE),
  (0xEC24, 0x9CDF_9CE0_9CE1_9CE2_9CE3_9CE4_9CE5_9CE6_9CE7_9CE8_9CE9_9CEA),
  (0xEC30, 0x9CEB_9CEC_9CED_9CEE_9CEF_9CF0_9CF1_9CF2_9CF3_9CF4_9CF5_9CF6),
  (0xEC3C, 0x9CF7_9CF8_9CF9_9CFA_9CFB_9CFC_9CFD_9CFE_9D40_9D41_9D42_9D43),
  (0xEC48, 0x9D44_9D45_9D46_9D47_9D48_9D49_9D4A_9D4B_9D4C_9D4D_9D4E_9D4F),
  (0xEC54, 0x9D50_9D51_9D52_9D53_9D54_9D55_9D56_9D57_9D58_9D59_9D5A_9D5B),
  (0xEC60, 0x9D5C_9D5D_9D5E_9D5F_9D60_9D61_9D62_9D63_9D64_9D65_9D66_9D67),
  (0xEC6C, 0x9D68_9D69_9D6A_9D6B_9D6C_9D6D_9D6E_9D6F_9D70_9D71_9D72_9D73),
  (0xEC78, 0x9D74_9D75_9D76_9D77_9D78_9D79_9D7A_9D7B_9D7C_9D7D_9D7E_9DA1),
  (0xEC84, 0x9DA2_9DA3_9DA4_9DA5_9DA6_9DA7_9DA8_9DA9_9DAA_9DAB_9DAC_9DAD),
  (0xEC90, 0x9DAE_9DAF_9DB0_9DB1_9DB2_9DB3_9DB4_9DB5_9DB6_9DB7_9DB8_9DB9),
  (0xEC9C, 0x9DBA_9DBB_9DBC_9DBD_9DBE_9DBF_9DC0_9DC1_9DC2_9DC3_9DC4_9DC5),
  (0xECA8, 0x9DC6_9DC7_9DC8_9DC9_9DCA_9DCB_9DCC_9DCD_9DCE_9DCF_9DD0_9DD1),
  (0xECB4, 0x9DD2_9DD3_9DD4_9DD5_9DD6_9DD7_9DD8_9DD9_9DDA_9DDB_9DDC_9DDD),
  (0xECC0, 0x9DDE_9DDF_9DE0_9DE1_9DE2_9DE3_9DE4_9DE5_9DE6_9DE7_9DE8_9DE9),
  (0xECCC, 0x9DEA_9DEB_9DEC_9DED_9DEE_9DEF_9DF0_9DF1_9DF2_9DF3_9DF4_9DF5),
  (0xECD8, 0x9DF6_9DF7_9DF8_9DF9_9DFA_9DFB_9DFC_9DFD_9DFE_9E40_9E41_9E42),
  (0xECE4, 0x9E43_9E44_9E45_9E46_9E47_9E48_9E49_9E4A_9E4B_9E4C_9E4D_9E4E),
  (0xECF0, 0x9E4F_9E50_9E51_9E52_9E53_9E54_9E55_9E56_9E57_9E58_9E59_9E5A),
  (0xECFC, 0x9E5B_9E5C_9E5D_9E5E_9E5F_9E60_9E61_9E62_9E63_9E64_9E65_9E66),
  (0xED08, 0x9E67_9E68_9E69_9E6A_9E6B_9E6C_9E6D_9E6E_9E6F_9E70_9E71_9E72),
  (0xED14, 0x9E73_9E74_9E75_9E76_9E77_9E78_9E79_9E7A_9E7B_9E7C_9E7D_9E7E),
  (0xED20, 0x9EA1_9EA2_9EA3_9EA4_9EA5_9EA6_9EA7_9EA8_9EA9_9EAA_9EAB_9EAC),
  (0xED2C, 0x9EAD_9EAE_9EAF_9EB0_9EB1_9EB2_9EB3_9EB4_9EB5_9EB6_9EB7_9EB8),
  (0xED38, 0x9EB9_9EBA_9EBB_9EBC_9EBD_9EBE_9EBF_9EC0_9EC1_9EC2_9EC3_9EC4),
  (0xED44, 0x9EC5_9EC6_9EC7_9EC8_9EC9_9ECA_9ECB_9ECC_9ECD_9ECE_9ECF_9ED0),
  (0xED50, 0x9ED1_9ED2_9ED3_9ED4_9ED5_9ED6_9ED7_9ED8_9ED9_9EDA_9EDB_9EDC),
  (0xED5C, 0x9EDD_9EDE_9EDF_9EE0_9EE1_9EE2_9EE3_9EE4_9EE5_9EE6_9EE7_9EE8),
  (0xED68, 0x9EE9_9EEA_9EEB_9EEC_9EED_9EEE_9EEF_9EF0_9EF1_9EF2_9EF3_9EF4),
  (0xED74, 0x9EF5_9EF6_9EF7_9EF8_9EF9_9EFA_9EFB_9EFC_9EFD_9EFE_9F40_9F41),
  (0xED80, 0x9F42_9F43_9F44_9F45_9F46_9F47_9F48_9F49_9F4A_9F4B_9F4C_9F4D),
  (0xED8C, 0x9F4E_9F4F_9F50_9F51_9F52_9F53_9F54_9F55_9F56_9F57_9F58_9F59),
  (0xED98, 0x9F5A_9F5B_9F5C_9F5D_9F5E_9F5F_9F60_9F61_9F62_9F63_9F64_9F65),
  (0xEDA4, 0x9F66_9F67_9F68_9F69_9F6A_9F6B_9F6C_9F6D_9F6E_9F6F_9F70_9F71),
  (0xEDB0, 0x9F72_9F73_9F74_9F75_9F76_9F77_9F78_9F79_9F7A_9F7B_9F7C_9F7D),
  (0xEDBC, 0x9F7E_9FA1_9FA2_9FA3_9FA4_9FA5_9FA6_9FA7_9FA8_9FA9_9FAA_9FAB),
  (0xEDC8, 0x9FAC_9FAD_9FAE_9FAF_9FB0_9FB1_9FB2_9FB3_9FB4_9FB5_9FB6_9FB7),
  (0xEDD4, 0x9FB8_9FB9_9FBA_9FBB_9FBC_9FBD_9FBE_9FBF_9FC0_9FC1_9FC2_9FC3),
  (0xEDE0, 0x9FC4_9FC5_9FC6_9FC7_9FC8_9FC9_9FCA_9FCB_9FCC_9FCD_9FCE_9FCF),
  (0xEDEC, 0x9FD0_9FD1_9FD2_9FD3_9FD4_9FD5_9FD6_9FD7_9FD8_9FD9_9FDA_9FDB),
  (0xEDF8, 0x9FDC_9FDD_9FDE_9FDF_9FE0_9FE1_9FE2_9FE3_9FE4_9FE5_9FE6_9FE7),
  (0xEE04, 0x9FE8_9FE9_9FEA_9FEB_9FEC_9FED_9FEE_9FEF_9FF0_9FF1_9FF2_9FF3),
  (0xEE10, 0x9FF4_9FF5_9FF6_9FF7_9FF8_9FF9_9FFA_9FFB_9FFC_9FFD_9FFE_A040),
  (0xEE1C, 0xA041_A042_A043_A044_A045_A046_A047_A048_A049_A04A_A04B_A04C),
  (0xEE28, 0xA04D_A04E_A04F_A050_A051_A052_A053_A054_A055_A056_A057_A058),
  (0xEE34, 0xA059_A05A_A05B_A05C_A05D_A05E_A05F_A060_A061_A062_A063_A064),
  (0xEE40, 0xA065_A066_A067_A068_A069_A06A_A06B_A06C_A06D_A06E_A06F_A070),
  (0xEE4C, 0xA071_A072_A073_A074_A075_A076_A077_A078_A079_A07A_A07B_A07C),
  (0xEE58, 0xA07D_A07E_A0A1_A0A2_A0A3_A0A4_A0A5_A0A6_A0A7_A0A8_A0A9_A0AA),
  (0xEE64, 0xA0AB_A0AC_A0AD_A0AE_A0AF_A0B0_A0B1_A0B2_A0B3_A0B4_A0B5_A0B6),
  (0xEE70, 0xA0B7_A0B8_A0B9_A0BA_A0BB_A0BC_A0BD_A0BE_A0BF_A0C0_A0C1_A0C2),
  (0xEE7C, 0xA0C3_A0C4_A0C5_A0C6_A0C7_A0C8_A0C9_A0CA_A0CB_A0CC_A0CD_A0CE),
  (0xEE88, 0xA0CF_A0D0_A0D1_A0D2_A0D3_A0D4_A0D5_A0D6_A0D7_A0D8_A0D9_A0DA),
  (0xEE94, 0xA0DB_A0DC_A0DD_A0DE_A0DF_A0E0_A0E1_A0E2_A0E3_A0E4_A0E5_A0E6),
  (0xEEA0, 0xA0E7_A0E8_A0E9_A0EA_A0EB_A0EC_A0ED_A0EE_A0EF_A0F0_A0F1_A0F2),
  (0xEEAC, 0xA0F3_A0F4_A0F5_A0F6_A0F7_A0F8_A0F9_A0FA_A0FB_A0FC_A0FD_A0FE),
  (0xEEB8, 0x8140_8141_8142_8143_8144_8145_8146_8147_8148_8149_814A_814B),
  (0xEEC4, 0x814C_814D_814E_814F_8150_8151_8152_8153_8154_8155_8156_8157),
  (0xEED0, 0x8158_8159_815A_815B_815C_815D_815E_815F_8160_8161_8162_8163),
  (0xEEDC, 0x8164_8165_8166_8167_8168_8169_816A_816B_816C_816D_816E_816F),
  (0xEEE8, 0x8170_8171_8172_8173_8174_8175_8176_8177_8178_8179_817A_817B),
  (0xEEF4, 0x817C_817D_817E_81A1_81A2_81A3_81A4_81A5_81A6_81A7_81A8_81A9),
  (0xEF00, 0x81AA_81AB_81AC_81AD_81AE_81AF_81B0_81B1_81B2_81B3_81B4_81B5),
  (0xEF0C, 0x81B6_81B7_81B8_81B9_81BA_81BB_81BC_81BD_81BE_81BF_81C0_81C1),
  (0xEF18, 0x81C2_81C3_81C4_81C5_81C6_81C7_81C8_81C9_81CA_81CB_81CC_81CD),
  (0xEF24, 0x81CE_81CF_81D0_81D1_81D2_81D3_81D4_81D5_81D6_81D7_81D8_81D9),
  (0xEF30, 0x81DA_81DB_81DC_81DD_81DE_81DF_81E0_81E1_81E2_81E3_81E4_81E5),
  (0xEF3C, 0x81E6_81E7_81E8_81E9_81EA_81EB_81EC_81ED_81EE_81EF_81F0_81F1),
  (0xEF48, 0x81F2_81F3_81F4_81F5_81F6_81F7_81F8_81F9_81FA_81FB_81FC_81FD),
  (0xEF54, 0x81FE_8240_8241_8242_8243_8244_8245_8246_8247_8248_8249_824A),
  (0xEF60, 0x824B_824C_824D_824E_824F_8250_8251_8252_8253_8254_8255_8256),
  (0xEF6C, 0x8257_8258_8259_825A_825B_825C_825D_825E_825F_8260_8261_8262),
  (0xEF78, 0x8263_8264_8265_8266_8267_8268_8269_826A_826B_826C_826D_826E),
  (0xEF84, 0x826F_8270_8271_8272_8273_8274_8275_8276_8277_8278_8279_827A),
  (0xEF90, 0x827B_827C_827D_827E_82A1_82A2_82A3_82A4_82A5_82A6_82A7_82A8),
  (0xEF9C, 0x82A9_82AA_82AB_82AC_82AD_82AE_82AF_82B0_82B1_82B2_82B3_82B4),
  (0xEFA8, 0x82B5_82B6_82B7_82B8_82B9_82BA_82BB_82BC_82BD_82BE_82BF_82C0),
  (0xEFB4, 0x82C1_82C2_82C3_82C4_82C5_82C6_82C7_82C8_82C9_82CA_82CB_82CC),
  (0xEFC0, 0x82CD_82CE_82CF_82D0_82D1_82D2_82D3_82D4_82D5_82D6_82D7_82D8),
  (0xEFCC, 0x82D9_82DA_82DB_82DC_82DD_82DE_82DF_82E0_82E1_82E2_82E3_82E4),
  (0xEFD8, 0x82E5_82E6_82E7_82E8_82E9_82EA_82EB_82EC_82ED_82EE_82EF_82F0),
  (0xEFE4, 0x82F1_82F2_82F3_82F4_82F5_82F6_82F7_82F8_82F9_82FA_82FB_82FC),
  (0xEFF0, 0x82FD_82FE_8340_8341_8342_8343_8344_8345_8346_8347_8348_8349),
  (0xEFFC, 0x834A_834B_834C_834D_834E_834F_8350_8351_8352_8353_8354_8355),
  (0xF008, 0x8356_8357_8358_8359_835A_835B_835C_835D_835E_835F_8360_8361),
  (0xF014, 0x8362_8363_8364_8365_8366_8367_8368_8369_836A_836B_836C_836D),
  (0xF020, 0x836E_836F_8370_8371_8372_8373_8374_8375_8376_8377_8378_8379),
  (0xF02C, 0x837A_837B_837C_837D_837E_83A1_83A2_83A3_83A4_83A5_83A6_83A7),
  (0xF038, 0x83A8_83A9_83AA_83AB_83AC_83AD_83AE_83AF_83B0_83B1_83B2_83B3),
  (0xF044, 0x83B4_83B5_83B6_83B7_83B8_83B9_83BA_83BB_83BC_83BD_83BE_83BF),
  (0xF050, 0x83C0_83C1_83C2_83C3_83C4_83C5_83C6_83C7_83C8_83C9_83CA_83CB),
  (0xF05C, 0x83CC_83CD_83CE_83CF_83D0_83D1_83D2_83D3_83D4_83D5_83D6_83D7),
  (0xF068, 0x83D8_83D9_83DA_83DB_83DC_83DD_83DE_83DF_83E0_83E1_83E2_83E3),
  (0xF074, 0x83E4_83E5_83E6_83E7_83E8_83E9_83EA_83EB_83EC_83ED_83EE_83EF),
  (0xF080, 0x83F0_83F1_83F2_83F3_83F4_83F5_83F6_83F7_83F8_83F9_83FA_83FB),
  (0xF08C, 0x83FC_83FD_83FE_8440_8441_8442_8443_8444_8445_8446_8447_8448),
  (0xF098, 0x8449_844A_844B_844C_844D_844E_844F_8450_8451_8452_8453_8454),
  (0xF0A4, 0x8455_8456_8457_8458_8459_845A_845B_845C_845D_845E_845F_8460),
  (0xF0B0, 0x8461_8462_8463_8464_8465_8466_8467_8468_8469_846A_846B_846C),
  (0xF0BC, 0x846D_846E_846F_8470_8471_8472_8473_8474_8475_8476_8477_8478),
  (0xF0C8, 0x8479_847A_847B_847C_847D_847E_84A1_84A2_84A3_84A4_84A5_84A6),
  (0xF0D4, 0x84A7_84A8_84A9_84AA_84AB_84AC_84AD_84AE_84AF_84B0_84B1_84B2),
  (0xF0E0, 0x84B3_84B4_84B5_84B6_84B7_84B8_84B9_84BA_84BB_84BC_84BD_84BE),
  (0xF0EC, 0x84BF_84C0_84C1_84C2_84C3_84C4_84C5_84C6_84C7_84C8_84C9_84CA),
  (0xF0F8, 0x84CB_84CC_84CD_84CE_84CF_84D0_84D1_84D2_84D3_84D4_84D5_84D6),
  (0xF104, 0x84D7_84D8_84D9_84DA_84DB_84DC_84DD_84DE_84DF_84E0_84E1_84E2),
  (0xF110, 0x84E3_84E4_84E5_84E6_84E7_84E8_84E9_84EA_84EB_84EC_84ED_84EE),
  (0xF11C, 0x84EF_84F0_84F1_84F2_84F3_84F4_84F5_84F6_84F7_84F8_84F9_84FA),
  (0xF128, 0x84FB_84FC_84FD_84FE_8540_8541_8542_8543_8544_8545_8546_8547),
  (0xF134, 0x8548_8549_854A_854B_854C_854D_854E_854F_8550_8551_8552_8553),
  (0xF140, 0x8554_8555_8556_8557_8558_8559_855A_855B_855C_855D_855E_855F),
  (0xF14C, 0x8560_8561_8562_8563_8564_8565_8566_8567_8568_8569_856A_856B),
  (0xF158, 0x856C_856D_856E_856F_8570_8571_8572_8573_8574_8575_8576_8577),
  (0xF164, 0x8578_8579_857A_857B_857C_857D_857E_85A1_85A2_85A3_85A4_85A5),
  (0xF170, 0x85A6_85A7_85A8_85A9_85AA_85AB_85AC_85AD_85AE_85AF_85B0_85B1),
  (0xF17C, 0x85B2_85B3_85B4_85B5_85B6_85B7_85B8_85B9_85BA_85BB_85BC_85BD),
  (0xF188, 0x85BE_85BF_85C0_85C1_85C2_85C3_85C4_85C5_85C6_85C7_85C8_85C9),
  (0xF194, 0x85CA_85CB_85CC_85CD_85CE_85CF_85D0_85D1_85D2_85D3_85D4_85D5),
  (0xF1A0, 0x85D6_85D7_85D8_85D9_85DA_85DB_85DC_85DD_85DE_85DF_85E0_85E1),
  (0xF1AC, 0x85E2_85E3_85E4_85E5_85E6_85E7_85E8_85E9_85EA_85EB_85EC_85ED),
  (0xF1B8, 0x85EE_85EF_85F0_85F1_85F2_85F3_85F4_85F5_85F6_85F7_85F8_85F9),
  (0xF1C4, 0x85FA_85FB_85FC_85FD_85FE_8640_8641_8642_8643_8644_8645_8646),
  (0xF1D0, 0x8647_8648_8649_864A_864B_864C_864D_864E_864F_8650_8651_8652),
  (0xF1DC, 0x8653_8654_8655_8656_8657_8658_8659_865A_865B_865C_865D_865E),
  (0xF1E8, 0x865F_8660_8661_8662_8663_8664_8665_8666_8667_8668_8669_866A),
  (0xF1F4, 0x866B_866C_866D_866E_866F_8670_8671_8672_8673_8674_8675_8676),
  (0xF200, 0x8677_8678_8679_867A_867B_867C_867D_867E_86A1_86A2_86A3_86A4),
  (0xF20C, 0x86A5_86A6_86A7_86A8_86A9_86AA_86AB_86AC_86AD_86AE_86AF_86B0),
  (0xF218, 0x86B1_86B2_86B3_86B4_86B5_86B6_86B7_86B8_86B9_86BA_86BB_86BC),
  (0xF224, 0x86BD_86BE_86BF_86C0_86C1_86C2_86C3_86C4_86C5_86C6_86C7_86C8),
  (0xF230, 0x86C9_86CA_86CB_86CC_86CD_86CE_86CF_86D0_86D1_86D2_86D3_86D4),
  (0xF23C, 0x86D5_86D6_86D7_86D8_86D9_86DA_86DB_86DC_86DD_86DE_86DF_86E0),
  (0xF248, 0x86E1_86E2_86E3_86E4_86E5_86E6_86E7_86E8_86E9_86EA_86EB_86EC),
  (0xF254, 0x86ED_86EE_86EF_86F0_86F1_86F2_86F3_86F4_86F5_86F6_86F7_86F8),
  (0xF260, 0x86F9_86FA_86FB_86FC_86FD_86FE_8740_8741_8742_8743_8744_8745),
  (0xF26C, 0x8746_8747_8748_8749_874A_874B_874C_874D_874E_874F_8750_8751),
  (0xF278, 0x8752_8753_8754_8755_8756_8757_8758_8759_875A_875B_875C_875D),
  (0xF284, 0x875E_875F_8760_8761_8762_8763_8764_8765_8766_8767_8768_8769),
  (0xF290, 0x876A_876B_876C_876D_876E_876F_8770_8771_8772_8773_8774_8775),
  (0xF29C, 0x8776_8777_8778_8779_877A_877B_877C_877D_877E_87A1_87A2_87A3),
  (0xF2A8, 0x87A4_87A5_87A6_87A7_87A8_87A9_87AA_87AB_87AC_87AD_87AE_87AF),
  (0xF2B4, 0x87B0_87B1_87B2_87B3_87B4_87B5_87B6_87B7_87B8_87B9_87BA_87BB),
  (0xF2C0, 0x87BC_87BD_87BE_87BF_87C0_87C1_87C2_87C3_87C4_87C5_87C6_87C7),
  (0xF2CC, 0x87C8_87C9_87CA_87CB_87CC_87CD_87CE_87CF_87D0_87D1_87D2_87D3),
  (0xF2D8, 0x87D4_87D5_87D6_87D7_87D8_87D9_87DA_87DB_87DC_87DD_87DE_87DF),
  (0xF2E4, 0x87E0_87E1_87E2_87E3_87E4_87E5_87E6_87E7_87E8_87E9_87EA_87EB),
  (0xF2F0, 0x87EC_87ED_87EE_87EF_87F0_87F1_87F2_87F3_87F4_87F5_87F6_87F7),
  (0xF2FC, 0x87F8_87F9_87FA_87FB_87FC_87FD_87FE_8840_8841_8842_8843_8844),
  (0xF308, 0x8845_8846_8847_8848_8849_884A_884B_884C_884D_884E_884F_8850),
  (0xF314, 0x8851_8852_8853_8854_8855_8856_8857_8858_8859_885A_885B_885C),
  (0xF320, 0x885D_885E_885F_8860_8861_8862_8863_8864_8865_8866_8867_8868),
  (0xF32C, 0x8869_886A_886B_886C_886D_886E_886F_8870_8871_8872_8873_8874),
  (0xF338, 0x8875_8876_8877_8878_8879_887A_887B_887C_887D_887E_88A1_88A2),
  (0xF344, 0x88A3_88A4_88A5_88A6_88A7_88A8_88A9_88AA_88AB_88AC_88AD_88AE),
  (0xF350, 0x88AF_88B0_88B1_88B2_88B3_88B4_88B5_88B6_88B7_88B8_88B9_88BA),
  (0xF35C, 0x88BB_88BC_88BD_88BE_88BF_88C0_88C1_88C2_88C3_88C4_88C5_88C6),
  (0xF368, 0x88C7_88C8_88C9_88CA_88CB_88CC_88CD_88CE_88CF_88D0_88D1_88D2),
  (0xF374, 0x88D3_88D4_88D5_88D6_88D7_88D8_88D9_88DA_88DB_88DC_88DD_88DE),
  (0xF380, 0x88DF_88E0_88E1_88E2_88E3_88E4_88E5_88E6_88E7_88E8_88E9_88EA),
  (0xF38C, 0x88EB_88EC_88ED_88EE_88EF_88F0_88F1_88F2_88F3_88F4_88F5_88F6),
  (0xF398, 0x88F7_88F8_88F9_88FA_88FB_88FC_88FD_88FE_8940_8941_8942_8943),
  (0xF3A4, 0x8944_8945_8946_8947_8948_8949_894A_894B_894C_894D_894E_894F),
  (0xF3B0, 0x8950_8951_8952_8953_8954_8955_8956_8957_8958_8959_895A_895B),
  (0xF3BC, 0x895C_895D_895E_895F_8960_8961_8962_8963_8964_8965_8966_8967),
  (0xF3C8, 0x8968_8969_896A_896B_896C_896D_896E_896F_8970_8971_8972_8973),
  (0xF3D4, 0x8974_8975_8976_8977_8978_8979_897A_897B_897C_897D_897E_89A1),
  (0xF3E0, 0x89A2_89A3_89A4_89A5_89A6_89A7_89A8_89A9_89AA_89AB_89AC_89AD),
  (0xF3EC, 0x89AE_89AF_89B0_89B1_89B2_89B3_89B4_89B5_89B6_89B7_89B8_89B9),
  (0xF3F8, 0x89BA_89BB_89BC_89BD_89BE_89BF_89C0_89C1_89C2_89C3_89C4_89C5),
  (0xF404, 0x89C6_89C7_89C8_89C9_89CA_89CB_89CC_89CD_89CE_89CF_89D0_89D1),
  (0xF410, 0x89D2_89D3_89D4_89D5_89D6_89D7_89D8_89D9_89DA_89DB_89DC_89DD),
  (0xF41C, 0x89DE_89DF_89E0_89E1_89E2_89E3_89E4_89E5_89E6_89E7_89E8_89E9),
  (0xF428, 0x89EA_89EB_89EC_89ED_89EE_89EF_89F0_89F1_89F2_89F3_89F4_89F5),
  (0xF434, 0x89F6_89F7_89F8_89F9_89FA_89FB_89FC_89FD_89FE_8A40_8A41_8A42),
  (0xF440, 0x8A43_8A44_8A45_8A46_8A47_8A48_8A49_8A4A_8A4B_8A4C_8A4D_8A4E),
  (0xF44C, 0x8A4F_8A50_8A51_8A52_8A53_8A54_8A55_8A56_8A57_8A58_8A59_8A5A),
  (0xF458, 0x8A5B_8A5C_8A5D_8A5E_8A5F_8A60_8A61_8A62_8A63_8A64_8A65_8A66),
  (0xF464, 0x8A67_8A68_8A69_8A6A_8A6B_8A6C_8A6D_8A6E_8A6F_8A70_8A71_8A72),
  (0xF470, 0x8A73_8A74_8A75_8A76_8A77_8A78_8A79_8A7A_8A7B_8A7C_8A7D_8A7E),
  (0xF47C, 0x8AA1_8AA2_8AA3_8AA4_8AA5_8AA6_8AA7_8AA8_8AA9_8AAA_8AAB_8AAC),
  (0xF488, 0x8AAD_8AAE_8AAF_8AB0_8AB1_8AB2_8AB3_8AB4_8AB5_8AB6_8AB7_8AB8),
  (0xF494, 0x8AB9_8ABA_8ABB_8ABC_8ABD_8ABE_8ABF_8AC0_8AC1_8AC2_8AC3_8AC4),
  (0xF4A0, 0x8AC5_8AC6_8AC7_8AC8_8AC9_8ACA_8ACB_8ACC_8ACD_8ACE_8ACF_8AD0),
  (0xF4AC, 0x8AD1_8AD2_8AD3_8AD4_8AD5_8AD6_8AD7_8AD8_8AD9_8ADA_8ADB_8ADC),
  (0xF4B8, 0x8ADD_8ADE_8ADF_8AE0_8AE1_8AE2_8AE3_8AE4_8AE5_8AE6_8AE7_8AE8),
  (0xF4C4, 0x8AE9_8AEA_8AEB_8AEC_8AED_8AEE_8AEF_8AF0_8AF1_8AF2_8AF3_8AF4),
  (0xF4D0, 0x8AF5_8AF6_8AF7_8AF8_8AF9_8AFA_8AFB_8AFC_8AFD_8AFE_8B40_8B41),
  (0xF4DC, 0x8B42_8B43_8B44_8B45_8B46_8B47_8B48_8B49_8B4A_8B4B_8B4C_8B4D),
  (0xF4E8, 0x8B4E_8B4F_8B50_8B51_8B52_8B53_8B54_8B55_8B56_8B57_8B58_8B59),
  (0xF4F4, 0x8B5A_8B5B_8B5C_8B5D_8B5E_8B5F_8B60_8B61_8B62_8B63_8B64_8B65),
  (0xF500, 0x8B66_8B67_8B68_8B69_8B6A_8B6B_8B6C_8B6D_8B6E_8B6F_8B70_8B71),
  (0xF50C, 0x8B72_8B73_8B74_8B75_8B76_8B77_8B78_8B79_8B7A_8B7B_8B7C_8B7D),
  (0xF518, 0x8B7E_8BA1_8BA2_8BA3_8BA4_8BA5_8BA6_8BA7_8BA8_8BA9_8BAA_8BAB),
  (0xF524, 0x8BAC_8BAD_8BAE_8BAF_8BB0_8BB1_8BB2_8BB3_8BB4_8BB5_8BB6_8BB7),
  (0xF530, 0x8BB8_8BB9_8BBA_8BBB_8BBC_8BBD_8BBE_8BBF_8BC0_8BC1_8BC2_8BC3),
  (0xF53C, 0x8BC4_8BC5_8BC6_8BC7_8BC8_8BC9_8BCA_8BCB_8BCC_8BCD_8BCE_8BCF),
  (0xF548, 0x8BD0_8BD1_8BD2_8BD3_8BD4_8BD5_8BD6_8BD7_8BD8_8BD9_8BDA_8BDB),
  (0xF554, 0x8BDC_8BDD_8BDE_8BDF_8BE0_8BE1_8BE2_8BE3_8BE4_8BE5_8BE6_8BE7),
  (0xF560, 0x8BE8_8BE9_8BEA_8BEB_8BEC_8BED_8BEE_8BEF_8BF0_8BF1_8BF2_8BF3),
  (0xF56C, 0x8BF4_8BF5_8BF6_8BF7_8BF8_8BF9_8BFA_8BFB_8BFC_8BFD_8BFE_8C40),
  (0xF578, 0x8C41_8C42_8C43_8C44_8C45_8C46_8C47_8C48_8C49_8C4A_8C4B_8C4C),
  (0xF584, 0x8C4D_8C4E_8C4F_8C50_8C51_8C52_8C53_8C54_8C55_8C56_8C57_8C58),
  (0xF590, 0x8C59_8C5A_8C5B_8C5C_8C5D_8C5E_8C5F_8C60_8C61_8C62_8C63_8C64),
  (0xF59C, 0x8C65_8C66_8C67_8C68_8C69_8C6A_8C6B_8C6C_8C6D_8C6E_8C6F_8C70),
  (0xF5A8, 0x8C71_8C72_8C73_8C74_8C75_8C76_8C77_8C78_8C79_8C7A_8C7B_8C7C),
  (0xF5B4, 0x8C7D_8C7E_8CA1_8CA2_8CA3_8CA4_8CA5_8CA6_8CA7_8CA8_8CA9_8CAA),
  (0xF5C0, 0x8CAB_8CAC_8CAD_8CAE_8CAF_8CB0_8CB1_8CB2_8CB3_8CB4_8CB5_8CB6),
  (0xF5CC, 0x8CB7_8CB8_8CB9_8CBA_8CBB_8CBC_8CBD_8CBE_8CBF_8CC0_8CC1_8CC2),
  (0xF5D8, 0x8CC3_8CC4_8CC5_8CC6_8CC7_8CC8_8CC9_8CCA_8CCB_8CCC_8CCD_8CCE),
  (0xF5E4, 0x8CCF_8CD0_8CD1_8CD2_8CD3_8CD4_8CD5_8CD6_8CD7_8CD8_8CD9_8CDA),
  (0xF5F0, 0x8CDB_8CDC_8CDD_8CDE_8CDF_8CE0_8CE1_8CE2_8CE3_8CE4_8CE5_8CE6),
  (0xF5FC, 0x8CE7_8CE8_8CE9_8CEA_8CEB_8CEC_8CED_8CEE_8CEF_8CF0_8CF1_8CF2),
  (0xF608, 0x8CF3_8CF4_8CF5_8CF6_8CF7_8CF8_8CF9_8CFA_8CFB_8CFC_8CFD_8CFE),
  (0xF614, 0x8D40_8D41_8D42_8D43_8D44_8D45_8D46_8D47_8D48_8D49_8D4A_8D4B),
  (0xF620, 0x8D4C_8D4D_8D4E_8D4F_8D50_8D51_8D52_8D53_8D54_8D55_8D56_8D57),
  (0xF62C, 0x8D58_8D59_8D5A_8D5B_8D5C_8D5D_8D5E_8D5F_8D60_8D61_8D62_8D63),
  (0xF638, 0x8D64_8D65_8D66_8D67_8D68_8D69_8D6A_8D6B_8D6C_8D6D_8D6E_8D6F),
  (0xF644, 0x8D70_8D71_8D72_8D73_8D74_8D75_8D76_8D77_8D78_8D79_8D7A_8D7B),
  (0xF650, 0x8D7C_8D7D_8D7E_8DA1_8DA2_8DA3_8DA4_8DA5_8DA6_8DA7_8DA8_8DA9),
  (0xF65C, 0x8DAA_8DAB_8DAC_8DAD_8DAE_8DAF_8DB0_8DB1_8DB2_8DB3_8DB4_8DB5),
  (0xF668, 0x8DB6_8DB7_8DB8_8DB9_8DBA_8DBB_8DBC_8DBD_8DBE_8DBF_8DC0_8DC1),
  (0xF674, 0x8DC2_8DC3_8DC4_8DC5_8DC6_8DC7_8DC8_8DC9_8DCA_8DCB_8DCC_8DCD),
  (0xF680, 0x8DCE_8DCF_8DD0_8DD1_8DD2_8DD3_8DD4_8DD5_8DD6_8DD7_8DD8_8DD9),
  (0xF68C, 0x8DDA_8DDB_8DDC_8DDD_8DDE_8DDF_8DE0_8DE1_8DE2_8DE3_8DE4_8DE5),
  (0xF698, 0x8DE6_8DE7_8DE8_8DE9_8DEA_8DEB_8DEC_8DED_8DEE_8DEF_8DF0_8DF1),
  (0xF6A4, 0x8DF2_8DF3_8DF4_8DF5_8DF6_8DF7_8DF8_8DF9_8DFA_8DFB_8DFC_8DFD),
  (0xF6B0, 0x8DFE_C6A1_C6A2_C6A3_C6A4_C6A5_C6A6_C6A7_C6A8_C6A9_C6AA_C6AB),
  (0xF6BC, 0xC6AC_C6AD_C6AE_C6AF_C6B0_C6B1_C6B2_C6B3_C6B4_C6B5_C6B6_C6B7),
  (0xF6C8, 0xC6B8_C6B9_C6BA_C6BB_C6BC_C6BD_C6BE_C6BF_C6C0_C6C1_C6C2_C6C3),
  (0xF6D4, 0xC6C4_C6C5_C6C6_C6C7_C6C8_C6C9_C6CA_C6CB_C6CC_C6CD_C6CE_C6CF),
  (0xF6E0, 0xC6D0_C6D1_C6D2_C6D3_C6D4_C6D5_C6D6_C6D7_C6D8_C6D9_C6DA_C6DB),
  (0xF6EC, 0xC6DC_C6DD_C6DE_C6DF_C6E0_C6E1_C6E2_C6E3_C6E4_C6E5_C6E6_C6E7),
  (0xF6F8, 0xC6E8_C6E9_C6EA_C6EB_C6EC_C6ED_C6EE_C6EF_C6F0_C6F1_C6F2_C6F3),
  (0xF704, 0xC6F4_C6F5_C6F6_C6F7_C6F8_C6F9_C6FA_C6FB_C6FC_C6FD_C6FE_C740),
  (0xF710, 0xC741_C742_C743_C744_C745_C746_C747_C748_C749_C74A_C74B_C74C),
  (0xF71C, 0xC74D_C74E_C74F_C750_C751_C752_C753_C754_C755_C756_C757_C758),
  (0xF728, 0xC759_C75A_C75B_C75C_C75D_C75E_C75F_C760_C761_C762_C763_C764),
  (0xF734, 0xC765_C766_C767_C768_C769_C76A_C76B_C76C_C76D_C76E_C76F_C770),
  (0xF740, 0xC771_C772_C773_C774_C775_C776_C777_C778_C779_C77A_C77B_C77C),
  (0xF74C, 0xC77D_C77E_C7A1_C7A2_C7A3_C7A4_C7A5_C7A6_C7A7_C7A8_C7A9_C7AA),
  (0xF758, 0xC7AB_C7AC_C7AD_C7AE_C7AF_C7B0_C7B1_C7B2_C7B3_C7B4_C7B5_C7B6),
  (0xF764, 0xC7B7_C7B8_C7B9_C7BA_C7BB_C7BC_C7BD_C7BE_C7BF_C7C0_C7C1_C7C2),
  (0xF770, 0xC7C3_C7C4_C7C5_C7C6_C7C7_C7C8_C7C9_C7CA_C7CB_C7CC_C7CD_C7CE),
  (0xF77C, 0xC7CF_C7D0_C7D1_C7D2_C7D3_C7D4_C7D5_C7D6_C7D7_C7D8_C7D9_C7DA),
  (0xF788, 0xC7DB_C7DC_C7DD_C7DE_C7DF_C7E0_C7E1_C7E2_C7E3_C7E4_C7E5_C7E6),
  (0xF794, 0xC7E7_C7E8_C7E9_C7EA_C7EB_C7EC_C7ED_C7EE_C7EF_C7F0_C7F1_C7F2),
  (0xF7A0, 0xC7F3_C7F4_C7F5_C7F6_C7F7_C7F8_C7F9_C7FA_C7FB_C7FC_C7FD_C7FE),
  (0xF7AC, 0xC840_C841_C842_C843_C844_C845_C846_C847_C848_C849_C84A_C84B),
  (0xF7B8, 0xC84C_C84D_C84E_C84F_C850_C851_C852_C853_C854_C855_C856_C857),
  (0xF7C4, 0xC858_C859_C85A_C85B_C85C_C85D_C85E_C85F_C860_C861_C862_C863),
  (0xF7D0, 0xC864_C865_C866_C867_C868_C869_C86A_C86B_C86C_C86D_C86E_C86F),
  (0xF7DC, 0xC870_C871_C872_C873_C874_C875_C876_C877_C878_C879_C87A_C87B),
  (0xF7E8, 0xC87C_C87D_C87E_C8A1_C8A2_C8A3_C8A4_C8A5_C8A6_C8A7_C8A8_C8A9),
  (0xF7F4, 0xC8AA_C8AB_C8AC_C8AD_C8AE_C8AF_C8B0_C8B1_C8B2_C8B3_C8B4_C8B5),
  (0xF800, 0xC8B6_C8B7_C8B8_C8B9_C8BA_C8BB_C8BC_C8BD_C8BE_C8BF_C8C0_C8C1),
  (0xF80C, 0xC8C2_C8C3_C8C4_C8C5_C8C6_C8C7_C8C8_C8C9_C8CA_C8CB_C8CC_C8CD),
  (0xF818, 0xC8CE_C8CF_C8D0_C8D1_C8D2_C8D3_C8D4_C8D5_C8D6_C8D7_C8D8_C8D9),
  (0xF824, 0xC8DA_C8DB_C8DC_C8DD_C8DE_C8DF_C8E0_C8E1_C8E2_C8E3_C8E4_C8E5),
  (0xF830, 0xC8E6_C8E7_C8E8_C8E9_C8EA_C8EB_C8EC_C8ED_C8EE_C8EF_C8F0_C8F1),
  (0xF83C, 0xC8F2_C8F3_C8F4_C8F5_C8F6_C8F7_C8F8_C8F9_C8FA_C8FB_C8FC_C8FD),
  (0xF848, 0xC8FE),
  (0xF8F8, 0x00FF),
  (0xF900, 0xB05A_A7F3_A8AE_B8EB_B7C6_A6EA_A579_C074_C074_ABB4_AAF7_B3E2),
  (0xF90C, 0xA960_C369_C4EE_C3B9_C5DA_C1B3_BB72_C5DE_BCD6_ACA5_AF4F_AF5F),
  (0xF918, 0xB8A8_B954_C064_B6C3_A75A_C4E6_C4EA_C4F5_C67D_B450_C0DD_C2C5),
  (0xF924, 0xC4B0_A9D4_C3BE_C4FA_B459_AED4_AEF6_AF54),
  (0xF92D, 0xA8D3_A74E_B3D2_BEDB_C372_C46C_BF63_A6D1_C4AA_B8B8_B8F4_C553),
  (0xF939, 0xBE7C_C64F_B84C_B853_BAF1_DB77_BFFD_B3C0_BDD7_C362_A7CB_C5A2),
  (0xF945, 0xC5A4_A863_BD55_B8EF_B970_C253_B9F0_BCD3_B25C_BA7C_B2D6_C15C),
  (0xF951, 0xADAE_B0C7_A6D8_BBFE_ADE2_B857_BAF0_B5D9_B3AE_C5AA_CED4_BCD6),
  (0xF95D, 0xBFD5_A4A6_B9E7_ABE3_B276_B2A7_A55F_EDA8_AB4B_B45F_A4A3_AA63),
  (0xF969, 0xBCC6_AFC1_B0D1_B6EB_ACD9_B8AD_BBA1_B1FE_A8B0_A848_AC42_AD59),
  (0xF975, 0xB1B0_B2A4_AB47_A8E2),
  (0xF97A, 0xB1E7_C2B3_A87D_BDCC_B671_C079_A766_A46B_C366_AEC8_C26F_C472),
  (0xF986, 0xBE5B_C67A_C452_BEA4_A44F_BEE4_BEFA_F765_A67E_BCA6_C5CA_BCBF),
  (0xF992, 0xBAA7_B7D2_E6A3),
  (0xF996, 0xBD6D_C170_BDFB_BDAC_B373_C1E5_A643_A648_AB7C_AF50_B5F5_BBA1),
  (0xF9A2, 0xB747_A9C0_B1C9_C0D4_C3AE_C279_A54F_CBF1_B9E7_C0AD_CCB0_ACC2),
  (0xF9AE, 0xBCFC_B2DC_B2E2_B961_B973_C646_BBE2_A8D2_C2A7_C4BF_C1F5_B463),
  (0xF9BA, 0xA446_B9B1_BC64_A7BF_AEC6_BCD6_BF52_C0F8_E764_BFF1_C073_B777),
  (0xF9C6, 0xA8BF_BC42_CCD8_AC68_AC79_B7C8_AF5B_AF64_B2B8_AFC3_C3FE_A4BB),
  (0xF9D2, 0xBCAE_B3B0_ADDB_B15B_B25F_BDFC_ABDF_B758_AEDF_B276_B6A9_A751),
  (0xF9DE, 0xA64F_BC69_A9F6_A7F5_B1F9_AA64_B27A_B567_BFA9),
  (0xF9E8, 0xB8CC_A8BD_C2F7_B0CE_B7C4_A75B_BF4D_BF5A_C4A9),
  (0xF9F2, 0xC5EC_C5EF_AA4C_B24F_C17B_A5DF_B2C1_B2C9_AAAC_AAA5_C3D1_A4B0),
  (0xF9FE, 0xAFF9_A8EB_A4C1_ABD7_A9DD_BF7D_A676_AC7D_BCC9_BFE7_A6E6_ADB0),
  (0xFA0A, 0xA8A3_B9F8_C94A_DDFC),
  (0xFA10, 0xB6EF),
  (0xFA12, 0xB4B8),
  (0xFA15, 0xE8F9_BDDE_AF71),
  (0xFA19, 0xAFAB_B2BB_BAD6_B974_BAEB_A6D0),
  (0xFA22, 0xBDD1),
  (0xFA25, 0xB668_B3A3),
  (0xFA2A, 0xB6BA_B97D_C05D_C562),
  (0xFE30, 0xA14A_A157),
  (0xFE33, 0xA159_A15B_A15F_A160_A163_A164_A167_A168_A16B_A16C_A16F_A170),
  (0xFE3F, 0xA173_A174_A177_A178_A17B_A17C),
  (0xFE49, 0xA1C6_A1C7_A1CA_A1CB_A1C8_A1C9_A15C_A14D_A14E_A14F),
  (0xFE54, 0xA151_A152_A153_A154),
  (0xFE59, 0xA17D_A17E_A1A1_A1A2_A1A3_A1A4_A1CC_A1CD_A1CE_A1DE_A1DF_A1E0),
  (0xFE65, 0xA1E1_A1E2),
  (0xFE68, 0xA242_A24C_A24D_A24E),
  (0xFF01, 0xA149_A1A8_A1AD_A243_A248_A1AE_A1A6_A15D_A15E_A1AF_A1CF_A141),
  (0xFF0D, 0xA1D0_A144_A1FE_A2AF_A2B0_A2B1_A2B2_A2B3_A2B4_A2B5_A2B6_A2B7),
  (0xFF19, 0xA2B8_A147_A146_A1D5_A1D7_A1D6_A148_A249_A2CF_A2D0_A2D1_A2D2),
  (0xFF25, 0xA2D3_A2D4_A2D5_A2D6_A2D7_A2D8_A2D9_A2DA_A2DB_A2DC_A2DD_A2DE),
  (0xFF31, 0xA2DF_A2E0_A2E1_A2E2_A2E3_A2E4_A2E5_A2E6_A2E7_A2E8_A165_A240),
  (0xFF3D, 0xA166_A173_A1C4_A1A5_A2E9_A2EA_A2EB_A2EC_A2ED_A2EE_A2EF_A2F0),
  (0xFF49, 0xA2F1_A2F2_A2F3_A2F4_A2F5_A2F6_A2F7_A2F8_A2F9_A2FA_A2FB_A2FC),
  (0xFF55, 0xA2FD_A2FE_A340_A341_A342_A343_A161_A155_A162_A1E3),
  (0xFF64, 0xA14E),
  (0xFFE0, 0xA246_A247),
  (0xFFE3, 0xA1C3),
  (0xFFE5, 0xA244)]

/-- /repo/modules/from/_UAO250.txt and /repo/modules/to/_CP950.txt. -/
def big5 : Charset where
  reads := big5Reads
  writes := big5Writes

end Verif.Charsets
