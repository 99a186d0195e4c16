import Verif.Spec.Charset
/-
Generated by tools/charsets.py from rule files of /repo/modules/from and /repo/modules/to.
-/
namespace Verif.Charsets
open Verif.Spec

set_option maxRecDepth 100000

/-- The rules of /repo/modules/from/_GBK.txt: code, character.  No two lines have the same code, so their order does not matter; here they
are sorted. -/
def gbkReads : Chart := Chart.wide [
  (0x8140, 0x4E02_4E04_4E05_4E06_4E0F_4E12_4E17_4E1F_4E20_4E21_4E23_4E26),
  (0x814C, 0x4E29_4E2E_4E2F_4E31_4E33_4E35_4E37_4E3C_4E40_4E41_4E42_4E44),
  (0x8158, 0x4E46_4E4A_4E51_4E55_4E57_4E5A_4E5B_4E62_4E63_4E64_4E65_4E67),
  (0x8164, 0x4E68_4E6A_4E6B_4E6C_4E6D_4E6E_4E6F_4E72_4E74_4E75_4E76_4E77),
  (0x8170, 0x4E78_4E79_4E7A_4E7B_4E7C_4E7D_4E7F_4E80_4E81_4E82_4E83_4E84),
  (0x817C, 0x4E85_4E87_4E8A),
  (0x8180, 0x4E90_4E96_4E97_4E99_4E9C_4E9D_4E9E_4EA3_4EAA_4EAF_4EB0_4EB1),
  (0x818C, 0x4EB4_4EB6_4EB7_4EB8_4EB9_4EBC_4EBD_4EBE_4EC8_4ECC_4ECF_4ED0),
  (0x8198, 0x4ED2_4EDA_4EDB_4EDC_4EE0_4EE2_4EE6_4EE7_4EE9_4EED_4EEE_4EEF),
  (0x81A4, 0x4EF1_4EF4_4EF8_4EF9_4EFA_4EFC_4EFE_4F00_4F02_4F03_4F04_4F05),
  (0x81B0, 0x4F06_4F07_4F08_4F0B_4F0C_4F12_4F13_4F14_4F15_4F16_4F1C_4F1D),
  (0x81BC, 0x4F21_4F23_4F28_4F29_4F2C_4F2D_4F2E_4F31_4F33_4F35_4F37_4F39),
  (0x81C8, 0x4F3B_4F3E_4F3F_4F40_4F41_4F42_4F44_4F45_4F47_4F48_4F49_4F4A),
  (0x81D4, 0x4F4B_4F4C_4F52_4F54_4F56_4F61_4F62_4F66_4F68_4F6A_4F6B_4F6D),
  (0x81E0, 0x4F6E_4F71_4F72_4F75_4F77_4F78_4F79_4F7A_4F7D_4F80_4F81_4F82),
  (0x81EC, 0x4F85_4F86_4F87_4F8A_4F8C_4F8E_4F90_4F92_4F93_4F95_4F96_4F98),
  (0x81F8, 0x4F99_4F9A_4F9C_4F9E_4F9F_4FA1_4FA2),
  (0x8240, 0x4FA4_4FAB_4FAD_4FB0_4FB1_4FB2_4FB3_4FB4_4FB6_4FB7_4FB8_4FB9),
  (0x824C, 0x4FBA_4FBB_4FBC_4FBD_4FBE_4FC0_4FC1_4FC2_4FC6_4FC7_4FC8_4FC9),
  (0x8258, 0x4FCB_4FCC_4FCD_4FD2_4FD3_4FD4_4FD5_4FD6_4FD9_4FDB_4FE0_4FE2),
  (0x8264, 0x4FE4_4FE5_4FE7_4FEB_4FEC_4FF0_4FF2_4FF4_4FF5_4FF6_4FF7_4FF9),
  (0x8270, 0x4FFB_4FFC_4FFD_4FFF_5000_5001_5002_5003_5004_5005_5006_5007),
  (0x827C, 0x5008_5009_500A),
  (0x8280, 0x500B_500E_5010_5011_5013_5015_5016_5017_501B_501D_501E_5020),
  (0x828C, 0x5022_5023_5024_5027_502B_502F_5030_5031_5032_5033_5034_5035),
  (0x8298, 0x5036_5037_5038_5039_503B_503D_503F_5040_5041_5042_5044_5045),
  (0x82A4, 0x5046_5049_504A_504B_504D_5050_5051_5052_5053_5054_5056_5057),
  (0x82B0, 0x5058_5059_505B_505D_505E_505F_5060_5061_5062_5063_5064_5066),
  (0x82BC, 0x5067_5068_5069_506A_506B_506D_506E_506F_5070_5071_5072_5073),
  (0x82C8, 0x5074_5075_5078_5079_507A_507C_507D_5081_5082_5083_5084_5086),
  (0x82D4, 0x5087_5089_508A_508B_508C_508E_508F_5090_5091_5092_5093_5094),
  (0x82E0, 0x5095_5096_5097_5098_5099_509A_509B_509C_509D_509E_509F_50A0),
  (0x82EC, 0x50A1_50A2_50A4_50A6_50AA_50AB_50AD_50AE_50AF_50B0_50B1_50B3),
  (0x82F8, 0x50B4_50B5_50B6_50B7_50B8_50B9_50BC),
  (0x8340, 0x50BD_50BE_50BF_50C0_50C1_50C2_50C3_50C4_50C5_50C6_50C7_50C8),
  (0x834C, 0x50C9_50CA_50CB_50CC_50CD_50CE_50D0_50D1_50D2_50D3_50D4_50D5),
  (0x8358, 0x50D7_50D8_50D9_50DB_50DC_50DD_50DE_50DF_50E0_50E1_50E2_50E3),
  (0x8364, 0x50E4_50E5_50E8_50E9_50EA_50EB_50EF_50F0_50F1_50F2_50F4_50F6),
  (0x8370, 0x50F7_50F8_50F9_50FA_50FC_50FD_50FE_50FF_5100_5101_5102_5103),
  (0x837C, 0x5104_5105_5108),
  (0x8380, 0x5109_510A_510C_510D_510E_510F_5110_5111_5113_5114_5115_5116),
  (0x838C, 0x5117_5118_5119_511A_511B_511C_511D_511E_511F_5120_5122_5123),
  (0x8398, 0x5124_5125_5126_5127_5128_5129_512A_512B_512C_512D_512E_512F),
  (0x83A4, 0x5130_5131_5132_5133_5134_5135_5136_5137_5138_5139_513A_513B),
  (0x83B0, 0x513C_513D_513E_5142_5147_514A_514C_514E_514F_5150_5152_5153),
  (0x83BC, 0x5157_5158_5159_515B_515D_515E_515F_5160_5161_5163_5164_5166),
  (0x83C8, 0x5167_5169_516A_516F_5172_517A_517E_517F_5183_5184_5186_5187),
  (0x83D4, 0x518A_518B_518E_518F_5190_5191_5193_5194_5198_519A_519D_519E),
  (0x83E0, 0x519F_51A1_51A3_51A6_51A7_51A8_51A9_51AA_51AD_51AE_51B4_51B8),
  (0x83EC, 0x51B9_51BA_51BE_51BF_51C1_51C2_51C3_51C5_51C8_51CA_51CD_51CE),
  (0x83F8, 0x51D0_51D2_51D3_51D4_51D5_51D6_51D7),
  (0x8440, 0x51D8_51D9_51DA_51DC_51DE_51DF_51E2_51E3_51E5_51E6_51E7_51E8),
  (0x844C, 0x51E9_51EA_51EC_51EE_51F1_51F2_51F4_51F7_51FE_5204_5205_5209),
  (0x8458, 0x520B_520C_520F_5210_5213_5214_5215_521C_521E_521F_5221_5222),
  (0x8464, 0x5223_5225_5226_5227_522A_522C_522F_5231_5232_5234_5235_523C),
  (0x8470, 0x523E_5244_5245_5246_5247_5248_5249_524B_524E_524F_5252_5253),
  (0x847C, 0x5255_5257_5258),
  (0x8480, 0x5259_525A_525B_525D_525F_5260_5262_5263_5264_5266_5268_526B),
  (0x848C, 0x526C_526D_526E_5270_5271_5273_5274_5275_5276_5277_5278_5279),
  (0x8498, 0x527A_527B_527C_527E_5280_5283_5284_5285_5286_5287_5289_528A),
  (0x84A4, 0x528B_528C_528D_528E_528F_5291_5292_5294_5295_5296_5297_5298),
  (0x84B0, 0x5299_529A_529C_52A4_52A5_52A6_52A7_52AE_52AF_52B0_52B4_52B5),
  (0x84BC, 0x52B6_52B7_52B8_52B9_52BA_52BB_52BC_52BD_52C0_52C1_52C2_52C4),
  (0x84C8, 0x52C5_52C6_52C8_52CA_52CC_52CD_52CE_52CF_52D1_52D3_52D4_52D5),
  (0x84D4, 0x52D7_52D9_52DA_52DB_52DC_52DD_52DE_52E0_52E1_52E2_52E3_52E5),
  (0x84E0, 0x52E6_52E7_52E8_52E9_52EA_52EB_52EC_52ED_52EE_52EF_52F1_52F2),
  (0x84EC, 0x52F3_52F4_52F5_52F6_52F7_52F8_52FB_52FC_52FD_5301_5302_5303),
  (0x84F8, 0x5304_5307_5309_530A_530B_530C_530E),
  (0x8540, 0x5311_5312_5313_5314_5318_531B_531C_531E_531F_5322_5324_5325),
  (0x854C, 0x5327_5328_5329_532B_532C_532D_532F_5330_5331_5332_5333_5334),
  (0x8558, 0x5335_5336_5337_5338_533C_533D_5340_5342_5344_5346_534B_534C),
  (0x8564, 0x534D_5350_5354_5358_5359_535B_535D_5365_5368_536A_536C_536D),
  (0x8570, 0x5372_5376_5379_537B_537C_537D_537E_5380_5381_5383_5387_5388),
  (0x857C, 0x538A_538E_538F),
  (0x8580, 0x5390_5391_5392_5393_5394_5396_5397_5399_539B_539C_539E_53A0),
  (0x858C, 0x53A1_53A4_53A7_53AA_53AB_53AC_53AD_53AF_53B0_53B1_53B2_53B3),
  (0x8598, 0x53B4_53B5_53B7_53B8_53B9_53BA_53BC_53BD_53BE_53C0_53C3_53C4),
  (0x85A4, 0x53C5_53C6_53C7_53CE_53CF_53D0_53D2_53D3_53D5_53DA_53DC_53DD),
  (0x85B0, 0x53DE_53E1_53E2_53E7_53F4_53FA_53FE_53FF_5400_5402_5405_5407),
  (0x85BC, 0x540B_5414_5418_5419_541A_541C_5422_5424_5425_542A_5430_5433),
  (0x85C8, 0x5436_5437_543A_543D_543F_5441_5442_5444_5445_5447_5449_544C),
  (0x85D4, 0x544D_544E_544F_5451_545A_545D_545E_545F_5460_5461_5463_5465),
  (0x85E0, 0x5467_5469_546A_546B_546C_546D_546E_546F_5470_5474_5479_547A),
  (0x85EC, 0x547E_547F_5481_5483_5485_5487_5488_5489_548A_548D_5491_5493),
  (0x85F8, 0x5497_5498_549C_549E_549F_54A0_54A1),
  (0x8640, 0x54A2_54A5_54AE_54B0_54B2_54B5_54B6_54B7_54B9_54BA_54BC_54BE),
  (0x864C, 0x54C3_54C5_54CA_54CB_54D6_54D8_54DB_54E0_54E1_54E2_54E3_54E4),
  (0x8658, 0x54EB_54EC_54EF_54F0_54F1_54F4_54F5_54F6_54F7_54F8_54F9_54FB),
  (0x8664, 0x54FE_5500_5502_5503_5504_5505_5508_550A_550B_550C_550D_550E),
  (0x8670, 0x5512_5513_5515_5516_5517_5518_5519_551A_551C_551D_551E_551F),
  (0x867C, 0x5521_5525_5526),
  (0x8680, 0x5528_5529_552B_552D_5532_5534_5535_5536_5538_5539_553A_553B),
  (0x868C, 0x553D_5540_5542_5545_5547_5548_554B_554C_554D_554E_554F_5551),
  (0x8698, 0x5552_5553_5554_5557_5558_5559_555A_555B_555D_555E_555F_5560),
  (0x86A4, 0x5562_5563_5568_5569_556B_556F_5570_5571_5572_5573_5574_5579),
  (0x86B0, 0x557A_557D_557F_5585_5586_558C_558D_558E_5590_5592_5593_5595),
  (0x86BC, 0x5596_5597_559A_559B_559E_55A0_55A1_55A2_55A3_55A4_55A5_55A6),
  (0x86C8, 0x55A8_55A9_55AA_55AB_55AC_55AD_55AE_55AF_55B0_55B2_55B4_55B6),
  (0x86D4, 0x55B8_55BA_55BC_55BF_55C0_55C1_55C2_55C3_55C6_55C7_55C8_55CA),
  (0x86E0, 0x55CB_55CE_55CF_55D0_55D5_55D7_55D8_55D9_55DA_55DB_55DE_55E0),
  (0x86EC, 0x55E2_55E7_55E9_55ED_55EE_55F0_55F1_55F4_55F6_55F8_55F9_55FA),
  (0x86F8, 0x55FB_55FC_55FF_5602_5603_5604_5605),
  (0x8740, 0x5606_5607_560A_560B_560D_5610_5611_5612_5613_5614_5615_5616),
  (0x874C, 0x5617_5619_561A_561C_561D_5620_5621_5622_5625_5626_5628_5629),
  (0x8758, 0x562A_562B_562E_562F_5630_5633_5635_5637_5638_563A_563C_563D),
  (0x8764, 0x563E_5640_5641_5642_5643_5644_5645_5646_5647_5648_5649_564A),
  (0x8770, 0x564B_564F_5650_5651_5652_5653_5655_5656_565A_565B_565D_565E),
  (0x877C, 0x565F_5660_5661),
  (0x8780, 0x5663_5665_5666_5667_566D_566E_566F_5670_5672_5673_5674_5675),
  (0x878C, 0x5677_5678_5679_567A_567D_567E_567F_5680_5681_5682_5683_5684),
  (0x8798, 0x5687_5688_5689_568A_568B_568C_568D_5690_5691_5692_5694_5695),
  (0x87A4, 0x5696_5697_5698_5699_569A_569B_569C_569D_569E_569F_56A0_56A1),
  (0x87B0, 0x56A2_56A4_56A5_56A6_56A7_56A8_56A9_56AA_56AB_56AC_56AD_56AE),
  (0x87BC, 0x56B0_56B1_56B2_56B3_56B4_56B5_56B6_56B8_56B9_56BA_56BB_56BD),
  (0x87C8, 0x56BE_56BF_56C0_56C1_56C2_56C3_56C4_56C5_56C6_56C7_56C8_56C9),
  (0x87D4, 0x56CB_56CC_56CD_56CE_56CF_56D0_56D1_56D2_56D3_56D5_56D6_56D8),
  (0x87E0, 0x56D9_56DC_56E3_56E5_56E6_56E7_56E8_56E9_56EA_56EC_56EE_56EF),
  (0x87EC, 0x56F2_56F3_56F6_56F7_56F8_56FB_56FC_5700_5701_5702_5705_5707),
  (0x87F8, 0x570B_570C_570D_570E_570F_5710_5711),
  (0x8840, 0x5712_5713_5714_5715_5716_5717_5718_5719_571A_571B_571D_571E),
  (0x884C, 0x5720_5721_5722_5724_5725_5726_5727_572B_5731_5732_5734_5735),
  (0x8858, 0x5736_5737_5738_573C_573D_573F_5741_5743_5744_5745_5746_5748),
  (0x8864, 0x5749_574B_5752_5753_5754_5755_5756_5758_5759_5762_5763_5765),
  (0x8870, 0x5767_576C_576E_5770_5771_5772_5774_5775_5778_5779_577A_577D),
  (0x887C, 0x577E_577F_5780),
  (0x8880, 0x5781_5787_5788_5789_578A_578D_578E_578F_5790_5791_5794_5795),
  (0x888C, 0x5796_5797_5798_5799_579A_579C_579D_579E_579F_57A5_57A8_57AA),
  (0x8898, 0x57AC_57AF_57B0_57B1_57B3_57B5_57B6_57B7_57B9_57BA_57BB_57BC),
  (0x88A4, 0x57BD_57BE_57BF_57C0_57C1_57C4_57C5_57C6_57C7_57C8_57C9_57CA),
  (0x88B0, 0x57CC_57CD_57D0_57D1_57D3_57D6_57D7_57DB_57DC_57DE_57E1_57E2),
  (0x88BC, 0x57E3_57E5_57E6_57E7_57E8_57E9_57EA_57EB_57EC_57EE_57F0_57F1),
  (0x88C8, 0x57F2_57F3_57F5_57F6_57F7_57FB_57FC_57FE_57FF_5801_5803_5804),
  (0x88D4, 0x5805_5808_5809_580A_580C_580E_580F_5810_5812_5813_5814_5816),
  (0x88E0, 0x5817_5818_581A_581B_581C_581D_581F_5822_5823_5825_5826_5827),
  (0x88EC, 0x5828_5829_582B_582C_582D_582E_582F_5831_5832_5833_5834_5836),
  (0x88F8, 0x5837_5838_5839_583A_583B_583C_583D),
  (0x8940, 0x583E_583F_5840_5841_5842_5843_5845_5846_5847_5848_5849_584A),
  (0x894C, 0x584B_584E_584F_5850_5852_5853_5855_5856_5857_5859_585A_585B),
  (0x8958, 0x585C_585D_585F_5860_5861_5862_5863_5864_5866_5867_5868_5869),
  (0x8964, 0x586A_586D_586E_586F_5870_5871_5872_5873_5874_5875_5876_5877),
  (0x8970, 0x5878_5879_587A_587B_587C_587D_587F_5882_5884_5886_5887_5888),
  (0x897C, 0x588A_588B_588C),
  (0x8980, 0x588D_588E_588F_5890_5891_5894_5895_5896_5897_5898_589B_589C),
  (0x898C, 0x589D_58A0_58A1_58A2_58A3_58A4_58A5_58A6_58A7_58AA_58AB_58AC),
  (0x8998, 0x58AD_58AE_58AF_58B0_58B1_58B2_58B3_58B4_58B5_58B6_58B7_58B8),
  (0x89A4, 0x58B9_58BA_58BB_58BD_58BE_58BF_58C0_58C2_58C3_58C4_58C6_58C7),
  (0x89B0, 0x58C8_58C9_58CA_58CB_58CC_58CD_58CE_58CF_58D0_58D2_58D3_58D4),
  (0x89BC, 0x58D6_58D7_58D8_58D9_58DA_58DB_58DC_58DD_58DE_58DF_58E0_58E1),
  (0x89C8, 0x58E2_58E3_58E5_58E6_58E7_58E8_58E9_58EA_58ED_58EF_58F1_58F2),
  (0x89D4, 0x58F4_58F5_58F7_58F8_58FA_58FB_58FC_58FD_58FE_58FF_5900_5901),
  (0x89E0, 0x5903_5905_5906_5908_5909_590A_590B_590C_590E_5910_5911_5912),
  (0x89EC, 0x5913_5917_5918_591B_591D_591E_5920_5921_5922_5923_5926_5928),
  (0x89F8, 0x592C_5930_5932_5933_5935_5936_593B),
  (0x8A40, 0x593D_593E_593F_5940_5943_5945_5946_594A_594C_594D_5950_5952),
  (0x8A4C, 0x5953_5959_595B_595C_595D_595E_595F_5961_5963_5964_5966_5967),
  (0x8A58, 0x5968_5969_596A_596B_596C_596D_596E_596F_5970_5971_5972_5975),
  (0x8A64, 0x5977_597A_597B_597C_597E_597F_5980_5985_5989_598B_598C_598E),
  (0x8A70, 0x598F_5990_5991_5994_5995_5998_599A_599B_599C_599D_599F_59A0),
  (0x8A7C, 0x59A1_59A2_59A6),
  (0x8A80, 0x59A7_59AC_59AD_59B0_59B1_59B3_59B4_59B5_59B6_59B7_59B8_59BA),
  (0x8A8C, 0x59BC_59BD_59BF_59C0_59C1_59C2_59C3_59C4_59C5_59C7_59C8_59C9),
  (0x8A98, 0x59CC_59CD_59CE_59CF_59D5_59D6_59D9_59DB_59DE_59DF_59E0_59E1),
  (0x8AA4, 0x59E2_59E4_59E6_59E7_59E9_59EA_59EB_59ED_59EE_59EF_59F0_59F1),
  (0x8AB0, 0x59F2_59F3_59F4_59F5_59F6_59F7_59F8_59FA_59FC_59FD_59FE_5A00),
  (0x8ABC, 0x5A02_5A0A_5A0B_5A0D_5A0E_5A0F_5A10_5A12_5A14_5A15_5A16_5A17),
  (0x8AC8, 0x5A19_5A1A_5A1B_5A1D_5A1E_5A21_5A22_5A24_5A26_5A27_5A28_5A2A),
  (0x8AD4, 0x5A2B_5A2C_5A2D_5A2E_5A2F_5A30_5A33_5A35_5A37_5A38_5A39_5A3A),
  (0x8AE0, 0x5A3B_5A3D_5A3E_5A3F_5A41_5A42_5A43_5A44_5A45_5A47_5A48_5A4B),
  (0x8AEC, 0x5A4C_5A4D_5A4E_5A4F_5A50_5A51_5A52_5A53_5A54_5A56_5A57_5A58),
  (0x8AF8, 0x5A59_5A5B_5A5C_5A5D_5A5E_5A5F_5A60),
  (0x8B40, 0x5A61_5A63_5A64_5A65_5A66_5A68_5A69_5A6B_5A6C_5A6D_5A6E_5A6F),
  (0x8B4C, 0x5A70_5A71_5A72_5A73_5A78_5A79_5A7B_5A7C_5A7D_5A7E_5A80_5A81),
  (0x8B58, 0x5A82_5A83_5A84_5A85_5A86_5A87_5A88_5A89_5A8A_5A8B_5A8C_5A8D),
  (0x8B64, 0x5A8E_5A8F_5A90_5A91_5A93_5A94_5A95_5A96_5A97_5A98_5A99_5A9C),
  (0x8B70, 0x5A9D_5A9E_5A9F_5AA0_5AA1_5AA2_5AA3_5AA4_5AA5_5AA6_5AA7_5AA8),
  (0x8B7C, 0x5AA9_5AAB_5AAC),
  (0x8B80, 0x5AAD_5AAE_5AAF_5AB0_5AB1_5AB4_5AB6_5AB7_5AB9_5ABA_5ABB_5ABC),
  (0x8B8C, 0x5ABD_5ABF_5AC0_5AC3_5AC4_5AC5_5AC6_5AC7_5AC8_5ACA_5ACB_5ACD),
  (0x8B98, 0x5ACE_5ACF_5AD0_5AD1_5AD3_5AD5_5AD7_5AD9_5ADA_5ADB_5ADD_5ADE),
  (0x8BA4, 0x5ADF_5AE2_5AE4_5AE5_5AE7_5AE8_5AEA_5AEC_5AED_5AEE_5AEF_5AF0),
  (0x8BB0, 0x5AF2_5AF3_5AF4_5AF5_5AF6_5AF7_5AF8_5AF9_5AFA_5AFB_5AFC_5AFD),
  (0x8BBC, 0x5AFE_5AFF_5B00_5B01_5B02_5B03_5B04_5B05_5B06_5B07_5B08_5B0A),
  (0x8BC8, 0x5B0B_5B0C_5B0D_5B0E_5B0F_5B10_5B11_5B12_5B13_5B14_5B15_5B18),
  (0x8BD4, 0x5B19_5B1A_5B1B_5B1C_5B1D_5B1E_5B1F_5B20_5B21_5B22_5B23_5B24),
  (0x8BE0, 0x5B25_5B26_5B27_5B28_5B29_5B2A_5B2B_5B2C_5B2D_5B2E_5B2F_5B30),
  (0x8BEC, 0x5B31_5B33_5B35_5B36_5B38_5B39_5B3A_5B3B_5B3C_5B3D_5B3E_5B3F),
  (0x8BF8, 0x5B41_5B42_5B43_5B44_5B45_5B46_5B47),
  (0x8C40, 0x5B48_5B49_5B4A_5B4B_5B4C_5B4D_5B4E_5B4F_5B52_5B56_5B5E_5B60),
  (0x8C4C, 0x5B61_5B67_5B68_5B6B_5B6D_5B6E_5B6F_5B72_5B74_5B76_5B77_5B78),
  (0x8C58, 0x5B79_5B7B_5B7C_5B7E_5B7F_5B82_5B86_5B8A_5B8D_5B8E_5B90_5B91),
  (0x8C64, 0x5B92_5B94_5B96_5B9F_5BA7_5BA8_5BA9_5BAC_5BAD_5BAE_5BAF_5BB1),
  (0x8C70, 0x5BB2_5BB7_5BBA_5BBB_5BBC_5BC0_5BC1_5BC3_5BC8_5BC9_5BCA_5BCB),
  (0x8C7C, 0x5BCD_5BCE_5BCF),
  (0x8C80, 0x5BD1_5BD4_5BD5_5BD6_5BD7_5BD8_5BD9_5BDA_5BDB_5BDC_5BE0_5BE2),
  (0x8C8C, 0x5BE3_5BE6_5BE7_5BE9_5BEA_5BEB_5BEC_5BED_5BEF_5BF1_5BF2_5BF3),
  (0x8C98, 0x5BF4_5BF5_5BF6_5BF7_5BFD_5BFE_5C00_5C02_5C03_5C05_5C07_5C08),
  (0x8CA4, 0x5C0B_5C0C_5C0D_5C0E_5C10_5C12_5C13_5C17_5C19_5C1B_5C1E_5C1F),
  (0x8CB0, 0x5C20_5C21_5C23_5C26_5C28_5C29_5C2A_5C2B_5C2D_5C2E_5C2F_5C30),
  (0x8CBC, 0x5C32_5C33_5C35_5C36_5C37_5C43_5C44_5C46_5C47_5C4C_5C4D_5C52),
  (0x8CC8, 0x5C53_5C54_5C56_5C57_5C58_5C5A_5C5B_5C5C_5C5D_5C5F_5C62_5C64),
  (0x8CD4, 0x5C67_5C68_5C69_5C6A_5C6B_5C6C_5C6D_5C70_5C72_5C73_5C74_5C75),
  (0x8CE0, 0x5C76_5C77_5C78_5C7B_5C7C_5C7D_5C7E_5C80_5C83_5C84_5C85_5C86),
  (0x8CEC, 0x5C87_5C89_5C8A_5C8B_5C8E_5C8F_5C92_5C93_5C95_5C9D_5C9E_5C9F),
  (0x8CF8, 0x5CA0_5CA1_5CA4_5CA5_5CA6_5CA7_5CA8),
  (0x8D40, 0x5CAA_5CAE_5CAF_5CB0_5CB2_5CB4_5CB6_5CB9_5CBA_5CBB_5CBC_5CBE),
  (0x8D4C, 0x5CC0_5CC2_5CC3_5CC5_5CC6_5CC7_5CC8_5CC9_5CCA_5CCC_5CCD_5CCE),
  (0x8D58, 0x5CCF_5CD0_5CD1_5CD3_5CD4_5CD5_5CD6_5CD7_5CD8_5CDA_5CDB_5CDC),
  (0x8D64, 0x5CDD_5CDE_5CDF_5CE0_5CE2_5CE3_5CE7_5CE9_5CEB_5CEC_5CEE_5CEF),
  (0x8D70, 0x5CF1_5CF2_5CF3_5CF4_5CF5_5CF6_5CF7_5CF8_5CF9_5CFA_5CFC_5CFD),
  (0x8D7C, 0x5CFE_5CFF_5D00),
  (0x8D80, 0x5D01_5D04_5D05_5D08_5D09_5D0A_5D0B_5D0C_5D0D_5D0F_5D10_5D11),
  (0x8D8C, 0x5D12_5D13_5D15_5D17_5D18_5D19_5D1A_5D1C_5D1D_5D1F_5D20_5D21),
  (0x8D98, 0x5D22_5D23_5D25_5D28_5D2A_5D2B_5D2C_5D2F_5D30_5D31_5D32_5D33),
  (0x8DA4, 0x5D35_5D36_5D37_5D38_5D39_5D3A_5D3B_5D3C_5D3F_5D40_5D41_5D42),
  (0x8DB0, 0x5D43_5D44_5D45_5D46_5D48_5D49_5D4D_5D4E_5D4F_5D50_5D51_5D52),
  (0x8DBC, 0x5D53_5D54_5D55_5D56_5D57_5D59_5D5A_5D5C_5D5E_5D5F_5D60_5D61),
  (0x8DC8, 0x5D62_5D63_5D64_5D65_5D66_5D67_5D68_5D6A_5D6D_5D6E_5D70_5D71),
  (0x8DD4, 0x5D72_5D73_5D75_5D76_5D77_5D78_5D79_5D7A_5D7B_5D7C_5D7D_5D7E),
  (0x8DE0, 0x5D7F_5D80_5D81_5D83_5D84_5D85_5D86_5D87_5D88_5D89_5D8A_5D8B),
  (0x8DEC, 0x5D8C_5D8D_5D8E_5D8F_5D90_5D91_5D92_5D93_5D94_5D95_5D96_5D97),
  (0x8DF8, 0x5D98_5D9A_5D9B_5D9C_5D9E_5D9F_5DA0),
  (0x8E40, 0x5DA1_5DA2_5DA3_5DA4_5DA5_5DA6_5DA7_5DA8_5DA9_5DAA_5DAB_5DAC),
  (0x8E4C, 0x5DAD_5DAE_5DAF_5DB0_5DB1_5DB2_5DB3_5DB4_5DB5_5DB6_5DB8_5DB9),
  (0x8E58, 0x5DBA_5DBB_5DBC_5DBD_5DBE_5DBF_5DC0_5DC1_5DC2_5DC3_5DC4_5DC6),
  (0x8E64, 0x5DC7_5DC8_5DC9_5DCA_5DCB_5DCC_5DCE_5DCF_5DD0_5DD1_5DD2_5DD3),
  (0x8E70, 0x5DD4_5DD5_5DD6_5DD7_5DD8_5DD9_5DDA_5DDC_5DDF_5DE0_5DE3_5DE4),
  (0x8E7C, 0x5DEA_5DEC_5DED),
  (0x8E80, 0x5DF0_5DF5_5DF6_5DF8_5DF9_5DFA_5DFB_5DFC_5DFF_5E00_5E04_5E07),
  (0x8E8C, 0x5E09_5E0A_5E0B_5E0D_5E0E_5E12_5E13_5E17_5E1E_5E1F_5E20_5E21),
  (0x8E98, 0x5E22_5E23_5E24_5E25_5E28_5E29_5E2A_5E2B_5E2C_5E2F_5E30_5E32),
  (0x8EA4, 0x5E33_5E34_5E35_5E36_5E39_5E3A_5E3E_5E3F_5E40_5E41_5E43_5E46),
  (0x8EB0, 0x5E47_5E48_5E49_5E4A_5E4B_5E4D_5E4E_5E4F_5E50_5E51_5E52_5E53),
  (0x8EBC, 0x5E56_5E57_5E58_5E59_5E5A_5E5C_5E5D_5E5F_5E60_5E63_5E64_5E65),
  (0x8EC8, 0x5E66_5E67_5E68_5E69_5E6A_5E6B_5E6C_5E6D_5E6E_5E6F_5E70_5E71),
  (0x8ED4, 0x5E75_5E77_5E79_5E7E_5E81_5E82_5E83_5E85_5E88_5E89_5E8C_5E8D),
  (0x8EE0, 0x5E8E_5E92_5E98_5E9B_5E9D_5EA1_5EA2_5EA3_5EA4_5EA8_5EA9_5EAA),
  (0x8EEC, 0x5EAB_5EAC_5EAE_5EAF_5EB0_5EB1_5EB2_5EB4_5EBA_5EBB_5EBC_5EBD),
  (0x8EF8, 0x5EBF_5EC0_5EC1_5EC2_5EC3_5EC4_5EC5),
  (0x8F40, 0x5EC6_5EC7_5EC8_5ECB_5ECC_5ECD_5ECE_5ECF_5ED0_5ED4_5ED5_5ED7),
  (0x8F4C, 0x5ED8_5ED9_5EDA_5EDC_5EDD_5EDE_5EDF_5EE0_5EE1_5EE2_5EE3_5EE4),
  (0x8F58, 0x5EE5_5EE6_5EE7_5EE9_5EEB_5EEC_5EED_5EEE_5EEF_5EF0_5EF1_5EF2),
  (0x8F64, 0x5EF3_5EF5_5EF8_5EF9_5EFB_5EFC_5EFD_5F05_5F06_5F07_5F09_5F0C),
  (0x8F70, 0x5F0D_5F0E_5F10_5F12_5F14_5F16_5F19_5F1A_5F1C_5F1D_5F1E_5F21),
  (0x8F7C, 0x5F22_5F23_5F24),
  (0x8F80, 0x5F28_5F2B_5F2C_5F2E_5F30_5F32_5F33_5F34_5F35_5F36_5F37_5F38),
  (0x8F8C, 0x5F3B_5F3D_5F3E_5F3F_5F41_5F42_5F43_5F44_5F45_5F46_5F47_5F48),
  (0x8F98, 0x5F49_5F4A_5F4B_5F4C_5F4D_5F4E_5F4F_5F51_5F54_5F59_5F5A_5F5B),
  (0x8FA4, 0x5F5C_5F5E_5F5F_5F60_5F63_5F65_5F67_5F68_5F6B_5F6E_5F6F_5F72),
  (0x8FB0, 0x5F74_5F75_5F76_5F78_5F7A_5F7D_5F7E_5F7F_5F83_5F86_5F8D_5F8E),
  (0x8FBC, 0x5F8F_5F91_5F93_5F94_5F96_5F9A_5F9B_5F9D_5F9E_5F9F_5FA0_5FA2),
  (0x8FC8, 0x5FA3_5FA4_5FA5_5FA6_5FA7_5FA9_5FAB_5FAC_5FAF_5FB0_5FB1_5FB2),
  (0x8FD4, 0x5FB3_5FB4_5FB6_5FB8_5FB9_5FBA_5FBB_5FBE_5FBF_5FC0_5FC1_5FC2),
  (0x8FE0, 0x5FC7_5FC8_5FCA_5FCB_5FCE_5FD3_5FD4_5FD5_5FDA_5FDB_5FDC_5FDE),
  (0x8FEC, 0x5FDF_5FE2_5FE3_5FE5_5FE6_5FE8_5FE9_5FEC_5FEF_5FF0_5FF2_5FF3),
  (0x8FF8, 0x5FF4_5FF6_5FF7_5FF9_5FFA_5FFC_6007),
  (0x9040, 0x6008_6009_600B_600C_6010_6011_6013_6017_6018_601A_601E_601F),
  (0x904C, 0x6022_6023_6024_602C_602D_602E_6030_6031_6032_6033_6034_6036),
  (0x9058, 0x6037_6038_6039_603A_603D_603E_6040_6044_6045_6046_6047_6048),
  (0x9064, 0x6049_604A_604C_604E_604F_6051_6053_6054_6056_6057_6058_605B),
  (0x9070, 0x605C_605E_605F_6060_6061_6065_6066_606E_6071_6072_6074_6075),
  (0x907C, 0x6077_607E_6080),
  (0x9080, 0x6081_6082_6085_6086_6087_6088_608A_608B_608E_608F_6090_6091),
  (0x908C, 0x6093_6095_6097_6098_6099_609C_609E_60A1_60A2_60A4_60A5_60A7),
  (0x9098, 0x60A9_60AA_60AE_60B0_60B3_60B5_60B6_60B7_60B9_60BA_60BD_60BE),
  (0x90A4, 0x60BF_60C0_60C1_60C2_60C3_60C4_60C7_60C8_60C9_60CC_60CD_60CE),
  (0x90B0, 0x60CF_60D0_60D2_60D3_60D4_60D6_60D7_60D9_60DB_60DE_60E1_60E2),
  (0x90BC, 0x60E3_60E4_60E5_60EA_60F1_60F2_60F5_60F7_60F8_60FB_60FC_60FD),
  (0x90C8, 0x60FE_60FF_6102_6103_6104_6105_6107_610A_610B_610C_6110_6111),
  (0x90D4, 0x6112_6113_6114_6116_6117_6118_6119_611B_611C_611D_611E_6121),
  (0x90E0, 0x6122_6125_6128_6129_612A_612C_612D_612E_612F_6130_6131_6132),
  (0x90EC, 0x6133_6134_6135_6136_6137_6138_6139_613A_613B_613C_613D_613E),
  (0x90F8, 0x6140_6141_6142_6143_6144_6145_6146),
  (0x9140, 0x6147_6149_614B_614D_614F_6150_6152_6153_6154_6156_6157_6158),
  (0x914C, 0x6159_615A_615B_615C_615E_615F_6160_6161_6163_6164_6165_6166),
  (0x9158, 0x6169_616A_616B_616C_616D_616E_616F_6171_6172_6173_6174_6176),
  (0x9164, 0x6178_6179_617A_617B_617C_617D_617E_617F_6180_6181_6182_6183),
  (0x9170, 0x6184_6185_6186_6187_6188_6189_618A_618C_618D_618F_6190_6191),
  (0x917C, 0x6192_6193_6195),
  (0x9180, 0x6196_6197_6198_6199_619A_619B_619C_619E_619F_61A0_61A1_61A2),
  (0x918C, 0x61A3_61A4_61A5_61A6_61AA_61AB_61AD_61AE_61AF_61B0_61B1_61B2),
  (0x9198, 0x61B3_61B4_61B5_61B6_61B8_61B9_61BA_61BB_61BC_61BD_61BF_61C0),
  (0x91A4, 0x61C1_61C3_61C4_61C5_61C6_61C7_61C9_61CC_61CD_61CE_61CF_61D0),
  (0x91B0, 0x61D3_61D5_61D6_61D7_61D8_61D9_61DA_61DB_61DC_61DD_61DE_61DF),
  (0x91BC, 0x61E0_61E1_61E2_61E3_61E4_61E5_61E7_61E8_61E9_61EA_61EB_61EC),
  (0x91C8, 0x61ED_61EE_61EF_61F0_61F1_61F2_61F3_61F4_61F6_61F7_61F8_61F9),
  (0x91D4, 0x61FA_61FB_61FC_61FD_61FE_6200_6201_6202_6203_6204_6205_6207),
  (0x91E0, 0x6209_6213_6214_6219_621C_621D_621E_6220_6223_6226_6227_6228),
  (0x91EC, 0x6229_622B_622D_622F_6230_6231_6232_6235_6236_6238_6239_623A),
  (0x91F8, 0x623B_623C_6242_6244_6245_6246_624A),
  (0x9240, 0x624F_6250_6255_6256_6257_6259_625A_625C_625D_625E_625F_6260),
  (0x924C, 0x6261_6262_6264_6265_6268_6271_6272_6274_6275_6277_6278_627A),
  (0x9258, 0x627B_627D_6281_6282_6283_6285_6286_6287_6288_628B_628C_628D),
  (0x9264, 0x628E_628F_6290_6294_6299_629C_629D_629E_62A3_62A6_62A7_62A9),
  (0x9270, 0x62AA_62AD_62AE_62AF_62B0_62B2_62B3_62B4_62B6_62B7_62B8_62BA),
  (0x927C, 0x62BE_62C0_62C1),
  (0x9280, 0x62C3_62CB_62CF_62D1_62D5_62DD_62DE_62E0_62E1_62E4_62EA_62EB),
  (0x928C, 0x62F0_62F2_62F5_62F8_62F9_62FA_62FB_6300_6303_6304_6305_6306),
  (0x9298, 0x630A_630B_630C_630D_630F_6310_6312_6313_6314_6315_6317_6318),
  (0x92A4, 0x6319_631C_6326_6327_6329_632C_632D_632E_6330_6331_6333_6334),
  (0x92B0, 0x6335_6336_6337_6338_633B_633C_633E_633F_6340_6341_6344_6347),
  (0x92BC, 0x6348_634A_6351_6352_6353_6354_6356_6357_6358_6359_635A_635B),
  (0x92C8, 0x635C_635D_6360_6364_6365_6366_6368_636A_636B_636C_636F_6370),
  (0x92D4, 0x6372_6373_6374_6375_6378_6379_637C_637D_637E_637F_6381_6383),
  (0x92E0, 0x6384_6385_6386_638B_638D_6391_6393_6394_6395_6397_6399_639A),
  (0x92EC, 0x639B_639C_639D_639E_639F_63A1_63A4_63A6_63AB_63AF_63B1_63B2),
  (0x92F8, 0x63B5_63B6_63B9_63BB_63BD_63BF_63C0),
  (0x9340, 0x63C1_63C2_63C3_63C5_63C7_63C8_63CA_63CB_63CC_63D1_63D3_63D4),
  (0x934C, 0x63D5_63D7_63D8_63D9_63DA_63DB_63DC_63DD_63DF_63E2_63E4_63E5),
  (0x9358, 0x63E6_63E7_63E8_63EB_63EC_63EE_63EF_63F0_63F1_63F3_63F5_63F7),
  (0x9364, 0x63F9_63FA_63FB_63FC_63FE_6403_6404_6406_6407_6408_6409_640A),
  (0x9370, 0x640D_640E_6411_6412_6415_6416_6417_6418_6419_641A_641D_641F),
  (0x937C, 0x6422_6423_6424),
  (0x9380, 0x6425_6427_6428_6429_642B_642E_642F_6430_6431_6432_6433_6435),
  (0x938C, 0x6436_6437_6438_6439_643B_643C_643E_6440_6442_6443_6449_644B),
  (0x9398, 0x644C_644D_644E_644F_6450_6451_6453_6455_6456_6457_6459_645A),
  (0x93A4, 0x645B_645C_645D_645F_6460_6461_6462_6463_6464_6465_6466_6468),
  (0x93B0, 0x646A_646B_646C_646E_646F_6470_6471_6472_6473_6474_6475_6476),
  (0x93BC, 0x6477_647B_647C_647D_647E_647F_6480_6481_6483_6486_6488_6489),
  (0x93C8, 0x648A_648B_648C_648D_648E_648F_6490_6493_6494_6497_6498_649A),
  (0x93D4, 0x649B_649C_649D_649F_64A0_64A1_64A2_64A3_64A5_64A6_64A7_64A8),
  (0x93E0, 0x64AA_64AB_64AF_64B1_64B2_64B3_64B4_64B6_64B9_64BB_64BD_64BE),
  (0x93EC, 0x64BF_64C1_64C3_64C4_64C6_64C7_64C8_64C9_64CA_64CB_64CC_64CF),
  (0x93F8, 0x64D1_64D3_64D4_64D5_64D6_64D9_64DA),
  (0x9440, 0x64DB_64DC_64DD_64DF_64E0_64E1_64E3_64E5_64E7_64E8_64E9_64EA),
  (0x944C, 0x64EB_64EC_64ED_64EE_64EF_64F0_64F1_64F2_64F3_64F4_64F5_64F6),
  (0x9458, 0x64F7_64F8_64F9_64FA_64FB_64FC_64FD_64FE_64FF_6501_6502_6503),
  (0x9464, 0x6504_6505_6506_6507_6508_650A_650B_650C_650D_650E_650F_6510),
  (0x9470, 0x6511_6513_6514_6515_6516_6517_6519_651A_651B_651C_651D_651E),
  (0x947C, 0x651F_6520_6521),
  (0x9480, 0x6522_6523_6524_6526_6527_6528_6529_652A_652C_652D_6530_6531),
  (0x948C, 0x6532_6533_6537_653A_653C_653D_6540_6541_6542_6543_6544_6546),
  (0x9498, 0x6547_654A_654B_654D_654E_6550_6552_6553_6554_6557_6558_655A),
  (0x94A4, 0x655C_655F_6560_6561_6564_6565_6567_6568_6569_656A_656D_656E),
  (0x94B0, 0x656F_6571_6573_6575_6576_6578_6579_657A_657B_657C_657D_657E),
  (0x94BC, 0x657F_6580_6581_6582_6583_6584_6585_6586_6588_6589_658A_658D),
  (0x94C8, 0x658E_658F_6592_6594_6595_6596_6598_659A_659D_659E_65A0_65A2),
  (0x94D4, 0x65A3_65A6_65A8_65AA_65AC_65AE_65B1_65B2_65B3_65B4_65B5_65B6),
  (0x94E0, 0x65B7_65B8_65BA_65BB_65BE_65BF_65C0_65C2_65C7_65C8_65C9_65CA),
  (0x94EC, 0x65CD_65D0_65D1_65D3_65D4_65D5_65D8_65D9_65DA_65DB_65DC_65DD),
  (0x94F8, 0x65DE_65DF_65E1_65E3_65E4_65EA_65EB),
  (0x9540, 0x65F2_65F3_65F4_65F5_65F8_65F9_65FB_65FC_65FD_65FE_65FF_6601),
  (0x954C, 0x6604_6605_6607_6608_6609_660B_660D_6610_6611_6612_6616_6617),
  (0x9558, 0x6618_661A_661B_661C_661E_6621_6622_6623_6624_6626_6629_662A),
  (0x9564, 0x662B_662C_662E_6630_6632_6633_6637_6638_6639_663A_663B_663D),
  (0x9570, 0x663F_6640_6642_6644_6645_6646_6647_6648_6649_664A_664D_664E),
  (0x957C, 0x6650_6651_6658),
  (0x9580, 0x6659_665B_665C_665D_665E_6660_6662_6663_6665_6667_6669_666A),
  (0x958C, 0x666B_666C_666D_6671_6672_6673_6675_6678_6679_667B_667C_667D),
  (0x9598, 0x667F_6680_6681_6683_6685_6686_6688_6689_668A_668B_668D_668E),
  (0x95A4, 0x668F_6690_6692_6693_6694_6695_6698_6699_669A_669B_669C_669E),
  (0x95B0, 0x669F_66A0_66A1_66A2_66A3_66A4_66A5_66A6_66A9_66AA_66AB_66AC),
  (0x95BC, 0x66AD_66AF_66B0_66B1_66B2_66B3_66B5_66B6_66B7_66B8_66BA_66BB),
  (0x95C8, 0x66BC_66BD_66BF_66C0_66C1_66C2_66C3_66C4_66C5_66C6_66C7_66C8),
  (0x95D4, 0x66C9_66CA_66CB_66CC_66CD_66CE_66CF_66D0_66D1_66D2_66D3_66D4),
  (0x95E0, 0x66D5_66D6_66D7_66D8_66DA_66DE_66DF_66E0_66E1_66E2_66E3_66E4),
  (0x95EC, 0x66E5_66E7_66E8_66EA_66EB_66EC_66ED_66EE_66EF_66F1_66F5_66F6),
  (0x95F8, 0x66F8_66FA_66FB_66FD_6701_6702_6703),
  (0x9640, 0x6704_6705_6706_6707_670C_670E_670F_6711_6712_6713_6716_6718),
  (0x964C, 0x6719_671A_671C_671E_6720_6721_6722_6723_6724_6725_6727_6729),
  (0x9658, 0x672E_6730_6732_6733_6736_6737_6738_6739_673B_673C_673E_673F),
  (0x9664, 0x6741_6744_6745_6747_674A_674B_674D_6752_6754_6755_6757_6758),
  (0x9670, 0x6759_675A_675B_675D_6762_6763_6764_6766_6767_676B_676C_676E),
  (0x967C, 0x6771_6774_6776),
  (0x9680, 0x6778_6779_677A_677B_677D_6780_6782_6783_6785_6786_6788_678A),
  (0x968C, 0x678C_678D_678E_678F_6791_6792_6793_6794_6796_6799_679B_679F),
  (0x9698, 0x67A0_67A1_67A4_67A6_67A9_67AC_67AE_67B1_67B2_67B4_67B9_67BA),
  (0x96A4, 0x67BB_67BC_67BD_67BE_67BF_67C0_67C2_67C5_67C6_67C7_67C8_67C9),
  (0x96B0, 0x67CA_67CB_67CC_67CD_67CE_67D5_67D6_67D7_67DB_67DF_67E1_67E3),
  (0x96BC, 0x67E4_67E6_67E7_67E8_67EA_67EB_67ED_67EE_67F2_67F5_67F6_67F7),
  (0x96C8, 0x67F8_67F9_67FA_67FB_67FC_67FE_6801_6802_6803_6804_6806_680D),
  (0x96D4, 0x6810_6812_6814_6815_6818_6819_681A_681B_681C_681E_681F_6820),
  (0x96E0, 0x6822_6823_6824_6825_6826_6827_6828_682B_682C_682D_682E_682F),
  (0x96EC, 0x6830_6831_6834_6835_6836_683A_683B_683F_6847_684B_684D_684F),
  (0x96F8, 0x6852_6856_6857_6858_6859_685A_685B),
  (0x9740, 0x685C_685D_685E_685F_686A_686C_686D_686E_686F_6870_6871_6872),
  (0x974C, 0x6873_6875_6878_6879_687A_687B_687C_687D_687E_687F_6880_6882),
  (0x9758, 0x6884_6887_6888_6889_688A_688B_688C_688D_688E_6890_6891_6892),
  (0x9764, 0x6894_6895_6896_6898_6899_689A_689B_689C_689D_689E_689F_68A0),
  (0x9770, 0x68A1_68A3_68A4_68A5_68A9_68AA_68AB_68AC_68AE_68B1_68B2_68B4),
  (0x977C, 0x68B6_68B7_68B8),
  (0x9780, 0x68B9_68BA_68BB_68BC_68BD_68BE_68BF_68C1_68C3_68C4_68C5_68C6),
  (0x978C, 0x68C7_68C8_68CA_68CC_68CE_68CF_68D0_68D1_68D3_68D4_68D6_68D7),
  (0x9798, 0x68D9_68DB_68DC_68DD_68DE_68DF_68E1_68E2_68E4_68E5_68E6_68E7),
  (0x97A4, 0x68E8_68E9_68EA_68EB_68EC_68ED_68EF_68F2_68F3_68F4_68F6_68F7),
  (0x97B0, 0x68F8_68FB_68FD_68FE_68FF_6900_6902_6903_6904_6906_6907_6908),
  (0x97BC, 0x6909_690A_690C_690F_6911_6913_6914_6915_6916_6917_6918_6919),
  (0x97C8, 0x691A_691B_691C_691D_691E_6921_6922_6923_6925_6926_6927_6928),
  (0x97D4, 0x6929_692A_692B_692C_692E_692F_6931_6932_6933_6935_6936_6937),
  (0x97E0, 0x6938_693A_693B_693C_693E_6940_6941_6943_6944_6945_6946_6947),
  (0x97EC, 0x6948_6949_694A_694B_694C_694D_694E_694F_6950_6951_6952_6953),
  (0x97F8, 0x6955_6956_6958_6959_695B_695C_695F),
  (0x9840, 0x6961_6962_6964_6965_6967_6968_6969_696A_696C_696D_696F_6970),
  (0x984C, 0x6972_6973_6974_6975_6976_697A_697B_697D_697E_697F_6981_6983),
  (0x9858, 0x6985_698A_698B_698C_698E_698F_6990_6991_6992_6993_6996_6997),
  (0x9864, 0x6999_699A_699D_699E_699F_69A0_69A1_69A2_69A3_69A4_69A5_69A6),
  (0x9870, 0x69A9_69AA_69AC_69AE_69AF_69B0_69B2_69B3_69B5_69B6_69B8_69B9),
  (0x987C, 0x69BA_69BC_69BD),
  (0x9880, 0x69BE_69BF_69C0_69C2_69C3_69C4_69C5_69C6_69C7_69C8_69C9_69CB),
  (0x988C, 0x69CD_69CF_69D1_69D2_69D3_69D5_69D6_69D7_69D8_69D9_69DA_69DC),
  (0x9898, 0x69DD_69DE_69E1_69E2_69E3_69E4_69E5_69E6_69E7_69E8_69E9_69EA),
  (0x98A4, 0x69EB_69EC_69EE_69EF_69F0_69F1_69F3_69F4_69F5_69F6_69F7_69F8),
  (0x98B0, 0x69F9_69FA_69FB_69FC_69FE_6A00_6A01_6A02_6A03_6A04_6A05_6A06),
  (0x98BC, 0x6A07_6A08_6A09_6A0B_6A0C_6A0D_6A0E_6A0F_6A10_6A11_6A12_6A13),
  (0x98C8, 0x6A14_6A15_6A16_6A19_6A1A_6A1B_6A1C_6A1D_6A1E_6A20_6A22_6A23),
  (0x98D4, 0x6A24_6A25_6A26_6A27_6A29_6A2B_6A2C_6A2D_6A2E_6A30_6A32_6A33),
  (0x98E0, 0x6A34_6A36_6A37_6A38_6A39_6A3A_6A3B_6A3C_6A3F_6A40_6A41_6A42),
  (0x98EC, 0x6A43_6A45_6A46_6A48_6A49_6A4A_6A4B_6A4C_6A4D_6A4E_6A4F_6A51),
  (0x98F8, 0x6A52_6A53_6A54_6A55_6A56_6A57_6A5A),
  (0x9940, 0x6A5C_6A5D_6A5E_6A5F_6A60_6A62_6A63_6A64_6A66_6A67_6A68_6A69),
  (0x994C, 0x6A6A_6A6B_6A6C_6A6D_6A6E_6A6F_6A70_6A72_6A73_6A74_6A75_6A76),
  (0x9958, 0x6A77_6A78_6A7A_6A7B_6A7D_6A7E_6A7F_6A81_6A82_6A83_6A85_6A86),
  (0x9964, 0x6A87_6A88_6A89_6A8A_6A8B_6A8C_6A8D_6A8F_6A92_6A93_6A94_6A95),
  (0x9970, 0x6A96_6A98_6A99_6A9A_6A9B_6A9C_6A9D_6A9E_6A9F_6AA1_6AA2_6AA3),
  (0x997C, 0x6AA4_6AA5_6AA6),
  (0x9980, 0x6AA7_6AA8_6AAA_6AAD_6AAE_6AAF_6AB0_6AB1_6AB2_6AB3_6AB4_6AB5),
  (0x998C, 0x6AB6_6AB7_6AB8_6AB9_6ABA_6ABB_6ABC_6ABD_6ABE_6ABF_6AC0_6AC1),
  (0x9998, 0x6AC2_6AC3_6AC4_6AC5_6AC6_6AC7_6AC8_6AC9_6ACA_6ACB_6ACC_6ACD),
  (0x99A4, 0x6ACE_6ACF_6AD0_6AD1_6AD2_6AD3_6AD4_6AD5_6AD6_6AD7_6AD8_6AD9),
  (0x99B0, 0x6ADA_6ADB_6ADC_6ADD_6ADE_6ADF_6AE0_6AE1_6AE2_6AE3_6AE4_6AE5),
  (0x99BC, 0x6AE6_6AE7_6AE8_6AE9_6AEA_6AEB_6AEC_6AED_6AEE_6AEF_6AF0_6AF1),
  (0x99C8, 0x6AF2_6AF3_6AF4_6AF5_6AF6_6AF7_6AF8_6AF9_6AFA_6AFB_6AFC_6AFD),
  (0x99D4, 0x6AFE_6AFF_6B00_6B01_6B02_6B03_6B04_6B05_6B06_6B07_6B08_6B09),
  (0x99E0, 0x6B0A_6B0B_6B0C_6B0D_6B0E_6B0F_6B10_6B11_6B12_6B13_6B14_6B15),
  (0x99EC, 0x6B16_6B17_6B18_6B19_6B1A_6B1B_6B1C_6B1D_6B1E_6B1F_6B25_6B26),
  (0x99F8, 0x6B28_6B29_6B2A_6B2B_6B2C_6B2D_6B2E),
  (0x9A40, 0x6B2F_6B30_6B31_6B33_6B34_6B35_6B36_6B38_6B3B_6B3C_6B3D_6B3F),
  (0x9A4C, 0x6B40_6B41_6B42_6B44_6B45_6B48_6B4A_6B4B_6B4D_6B4E_6B4F_6B50),
  (0x9A58, 0x6B51_6B52_6B53_6B54_6B55_6B56_6B57_6B58_6B5A_6B5B_6B5C_6B5D),
  (0x9A64, 0x6B5E_6B5F_6B60_6B61_6B68_6B69_6B6B_6B6C_6B6D_6B6E_6B6F_6B70),
  (0x9A70, 0x6B71_6B72_6B73_6B74_6B75_6B76_6B77_6B78_6B7A_6B7D_6B7E_6B7F),
  (0x9A7C, 0x6B80_6B85_6B88),
  (0x9A80, 0x6B8C_6B8E_6B8F_6B90_6B91_6B94_6B95_6B97_6B98_6B99_6B9C_6B9D),
  (0x9A8C, 0x6B9E_6B9F_6BA0_6BA2_6BA3_6BA4_6BA5_6BA6_6BA7_6BA8_6BA9_6BAB),
  (0x9A98, 0x6BAC_6BAD_6BAE_6BAF_6BB0_6BB1_6BB2_6BB6_6BB8_6BB9_6BBA_6BBB),
  (0x9AA4, 0x6BBC_6BBD_6BBE_6BC0_6BC3_6BC4_6BC6_6BC7_6BC8_6BC9_6BCA_6BCC),
  (0x9AB0, 0x6BCE_6BD0_6BD1_6BD8_6BDA_6BDC_6BDD_6BDE_6BDF_6BE0_6BE2_6BE3),
  (0x9ABC, 0x6BE4_6BE5_6BE6_6BE7_6BE8_6BE9_6BEC_6BED_6BEE_6BF0_6BF1_6BF2),
  (0x9AC8, 0x6BF4_6BF6_6BF7_6BF8_6BFA_6BFB_6BFC_6BFE_6BFF_6C00_6C01_6C02),
  (0x9AD4, 0x6C03_6C04_6C08_6C09_6C0A_6C0B_6C0C_6C0E_6C12_6C17_6C1C_6C1D),
  (0x9AE0, 0x6C1E_6C20_6C23_6C25_6C2B_6C2C_6C2D_6C31_6C33_6C36_6C37_6C39),
  (0x9AEC, 0x6C3A_6C3B_6C3C_6C3E_6C3F_6C43_6C44_6C45_6C48_6C4B_6C4C_6C4D),
  (0x9AF8, 0x6C4E_6C4F_6C51_6C52_6C53_6C56_6C58),
  (0x9B40, 0x6C59_6C5A_6C62_6C63_6C65_6C66_6C67_6C6B_6C6C_6C6D_6C6E_6C6F),
  (0x9B4C, 0x6C71_6C73_6C75_6C77_6C78_6C7A_6C7B_6C7C_6C7F_6C80_6C84_6C87),
  (0x9B58, 0x6C8A_6C8B_6C8D_6C8E_6C91_6C92_6C95_6C96_6C97_6C98_6C9A_6C9C),
  (0x9B64, 0x6C9D_6C9E_6CA0_6CA2_6CA8_6CAC_6CAF_6CB0_6CB4_6CB5_6CB6_6CB7),
  (0x9B70, 0x6CBA_6CC0_6CC1_6CC2_6CC3_6CC6_6CC7_6CC8_6CCB_6CCD_6CCE_6CCF),
  (0x9B7C, 0x6CD1_6CD2_6CD8),
  (0x9B80, 0x6CD9_6CDA_6CDC_6CDD_6CDF_6CE4_6CE6_6CE7_6CE9_6CEC_6CED_6CF2),
  (0x9B8C, 0x6CF4_6CF9_6CFF_6D00_6D02_6D03_6D05_6D06_6D08_6D09_6D0A_6D0D),
  (0x9B98, 0x6D0F_6D10_6D11_6D13_6D14_6D15_6D16_6D18_6D1C_6D1D_6D1F_6D20),
  (0x9BA4, 0x6D21_6D22_6D23_6D24_6D26_6D28_6D29_6D2C_6D2D_6D2F_6D30_6D34),
  (0x9BB0, 0x6D36_6D37_6D38_6D3A_6D3F_6D40_6D42_6D44_6D49_6D4C_6D50_6D55),
  (0x9BBC, 0x6D56_6D57_6D58_6D5B_6D5D_6D5F_6D61_6D62_6D64_6D65_6D67_6D68),
  (0x9BC8, 0x6D6B_6D6C_6D6D_6D70_6D71_6D72_6D73_6D75_6D76_6D79_6D7A_6D7B),
  (0x9BD4, 0x6D7D_6D7E_6D7F_6D80_6D81_6D83_6D84_6D86_6D87_6D8A_6D8B_6D8D),
  (0x9BE0, 0x6D8F_6D90_6D92_6D96_6D97_6D98_6D99_6D9A_6D9C_6DA2_6DA5_6DAC),
  (0x9BEC, 0x6DAD_6DB0_6DB1_6DB3_6DB4_6DB6_6DB7_6DB9_6DBA_6DBB_6DBC_6DBD),
  (0x9BF8, 0x6DBE_6DC1_6DC2_6DC3_6DC8_6DC9_6DCA),
  (0x9C40, 0x6DCD_6DCE_6DCF_6DD0_6DD2_6DD3_6DD4_6DD5_6DD7_6DDA_6DDB_6DDC),
  (0x9C4C, 0x6DDF_6DE2_6DE3_6DE5_6DE7_6DE8_6DE9_6DEA_6DED_6DEF_6DF0_6DF2),
  (0x9C58, 0x6DF4_6DF5_6DF6_6DF8_6DFA_6DFD_6DFE_6DFF_6E00_6E01_6E02_6E03),
  (0x9C64, 0x6E04_6E06_6E07_6E08_6E09_6E0B_6E0F_6E12_6E13_6E15_6E18_6E19),
  (0x9C70, 0x6E1B_6E1C_6E1E_6E1F_6E22_6E26_6E27_6E28_6E2A_6E2C_6E2E_6E30),
  (0x9C7C, 0x6E31_6E33_6E35),
  (0x9C80, 0x6E36_6E37_6E39_6E3B_6E3C_6E3D_6E3E_6E3F_6E40_6E41_6E42_6E45),
  (0x9C8C, 0x6E46_6E47_6E48_6E49_6E4A_6E4B_6E4C_6E4F_6E50_6E51_6E52_6E55),
  (0x9C98, 0x6E57_6E59_6E5A_6E5C_6E5D_6E5E_6E60_6E61_6E62_6E63_6E64_6E65),
  (0x9CA4, 0x6E66_6E67_6E68_6E69_6E6A_6E6C_6E6D_6E6F_6E70_6E71_6E72_6E73),
  (0x9CB0, 0x6E74_6E75_6E76_6E77_6E78_6E79_6E7A_6E7B_6E7C_6E7D_6E80_6E81),
  (0x9CBC, 0x6E82_6E84_6E87_6E88_6E8A_6E8B_6E8C_6E8D_6E8E_6E91_6E92_6E93),
  (0x9CC8, 0x6E94_6E95_6E96_6E97_6E99_6E9A_6E9B_6E9D_6E9E_6EA0_6EA1_6EA3),
  (0x9CD4, 0x6EA4_6EA6_6EA8_6EA9_6EAB_6EAC_6EAD_6EAE_6EB0_6EB3_6EB5_6EB8),
  (0x9CE0, 0x6EB9_6EBC_6EBE_6EBF_6EC0_6EC3_6EC4_6EC5_6EC6_6EC8_6EC9_6ECA),
  (0x9CEC, 0x6ECC_6ECD_6ECE_6ED0_6ED2_6ED6_6ED8_6ED9_6EDB_6EDC_6EDD_6EE3),
  (0x9CF8, 0x6EE7_6EEA_6EEB_6EEC_6EED_6EEE_6EEF),
  (0x9D40, 0x6EF0_6EF1_6EF2_6EF3_6EF5_6EF6_6EF7_6EF8_6EFA_6EFB_6EFC_6EFD),
  (0x9D4C, 0x6EFE_6EFF_6F00_6F01_6F03_6F04_6F05_6F07_6F08_6F0A_6F0B_6F0C),
  (0x9D58, 0x6F0D_6F0E_6F10_6F11_6F12_6F16_6F17_6F18_6F19_6F1A_6F1B_6F1C),
  (0x9D64, 0x6F1D_6F1E_6F1F_6F21_6F22_6F23_6F25_6F26_6F27_6F28_6F2C_6F2E),
  (0x9D70, 0x6F30_6F32_6F34_6F35_6F37_6F38_6F39_6F3A_6F3B_6F3C_6F3D_6F3F),
  (0x9D7C, 0x6F40_6F41_6F42),
  (0x9D80, 0x6F43_6F44_6F45_6F48_6F49_6F4A_6F4C_6F4E_6F4F_6F50_6F51_6F52),
  (0x9D8C, 0x6F53_6F54_6F55_6F56_6F57_6F59_6F5A_6F5B_6F5D_6F5F_6F60_6F61),
  (0x9D98, 0x6F63_6F64_6F65_6F67_6F68_6F69_6F6A_6F6B_6F6C_6F6F_6F70_6F71),
  (0x9DA4, 0x6F73_6F75_6F76_6F77_6F79_6F7B_6F7D_6F7E_6F7F_6F80_6F81_6F82),
  (0x9DB0, 0x6F83_6F85_6F86_6F87_6F8A_6F8B_6F8F_6F90_6F91_6F92_6F93_6F94),
  (0x9DBC, 0x6F95_6F96_6F97_6F98_6F99_6F9A_6F9B_6F9D_6F9E_6F9F_6FA0_6FA2),
  (0x9DC8, 0x6FA3_6FA4_6FA5_6FA6_6FA8_6FA9_6FAA_6FAB_6FAC_6FAD_6FAE_6FAF),
  (0x9DD4, 0x6FB0_6FB1_6FB2_6FB4_6FB5_6FB7_6FB8_6FBA_6FBB_6FBC_6FBD_6FBE),
  (0x9DE0, 0x6FBF_6FC1_6FC3_6FC4_6FC5_6FC6_6FC7_6FC8_6FCA_6FCB_6FCC_6FCD),
  (0x9DEC, 0x6FCE_6FCF_6FD0_6FD3_6FD4_6FD5_6FD6_6FD7_6FD8_6FD9_6FDA_6FDB),
  (0x9DF8, 0x6FDC_6FDD_6FDF_6FE2_6FE3_6FE4_6FE5),
  (0x9E40, 0x6FE6_6FE7_6FE8_6FE9_6FEA_6FEB_6FEC_6FED_6FF0_6FF1_6FF2_6FF3),
  (0x9E4C, 0x6FF4_6FF5_6FF6_6FF7_6FF8_6FF9_6FFA_6FFB_6FFC_6FFD_6FFE_6FFF),
  (0x9E58, 0x7000_7001_7002_7003_7004_7005_7006_7007_7008_7009_700A_700B),
  (0x9E64, 0x700C_700D_700E_700F_7010_7012_7013_7014_7015_7016_7017_7018),
  (0x9E70, 0x7019_701C_701D_701E_701F_7020_7021_7022_7024_7025_7026_7027),
  (0x9E7C, 0x7028_7029_702A),
  (0x9E80, 0x702B_702C_702D_702E_702F_7030_7031_7032_7033_7034_7036_7037),
  (0x9E8C, 0x7038_703A_703B_703C_703D_703E_703F_7040_7041_7042_7043_7044),
  (0x9E98, 0x7045_7046_7047_7048_7049_704A_704B_704D_704E_7050_7051_7052),
  (0x9EA4, 0x7053_7054_7055_7056_7057_7058_7059_705A_705B_705C_705D_705F),
  (0x9EB0, 0x7060_7061_7062_7063_7064_7065_7066_7067_7068_7069_706A_706E),
  (0x9EBC, 0x7071_7072_7073_7074_7077_7079_707A_707B_707D_7081_7082_7083),
  (0x9EC8, 0x7084_7086_7087_7088_708B_708C_708D_708F_7090_7091_7093_7097),
  (0x9ED4, 0x7098_709A_709B_709E_709F_70A0_70A1_70A2_70A3_70A4_70A5_70A6),
  (0x9EE0, 0x70A7_70A8_70A9_70AA_70B0_70B2_70B4_70B5_70B6_70BA_70BE_70BF),
  (0x9EEC, 0x70C4_70C5_70C6_70C7_70C9_70CB_70CC_70CD_70CE_70CF_70D0_70D1),
  (0x9EF8, 0x70D2_70D3_70D4_70D5_70D6_70D7_70DA),
  (0x9F40, 0x70DC_70DD_70DE_70E0_70E1_70E2_70E3_70E5_70EA_70EE_70F0_70F1),
  (0x9F4C, 0x70F2_70F3_70F4_70F5_70F6_70F8_70FA_70FB_70FC_70FE_70FF_7100),
  (0x9F58, 0x7101_7102_7103_7104_7105_7106_7107_7108_710B_710C_710D_710E),
  (0x9F64, 0x710F_7111_7112_7114_7117_711B_711C_711D_711E_711F_7120_7121),
  (0x9F70, 0x7122_7123_7124_7125_7127_7128_7129_712A_712B_712C_712D_712E),
  (0x9F7C, 0x7132_7133_7134),
  (0x9F80, 0x7135_7137_7138_7139_713A_713B_713C_713D_713E_713F_7140_7141),
  (0x9F8C, 0x7142_7143_7144_7146_7147_7148_7149_714B_714D_714F_7150_7151),
  (0x9F98, 0x7152_7153_7154_7155_7156_7157_7158_7159_715A_715B_715D_715F),
  (0x9FA4, 0x7160_7161_7162_7163_7165_7169_716A_716B_716C_716D_716F_7170),
  (0x9FB0, 0x7171_7174_7175_7176_7177_7179_717B_717C_717E_717F_7180_7181),
  (0x9FBC, 0x7182_7183_7185_7186_7187_7188_7189_718B_718C_718D_718E_7190),
  (0x9FC8, 0x7191_7192_7193_7195_7196_7197_719A_719B_719C_719D_719E_71A1),
  (0x9FD4, 0x71A2_71A3_71A4_71A5_71A6_71A7_71A9_71AA_71AB_71AD_71AE_71AF),
  (0x9FE0, 0x71B0_71B1_71B2_71B4_71B6_71B7_71B8_71BA_71BB_71BC_71BD_71BE),
  (0x9FEC, 0x71BF_71C0_71C1_71C2_71C4_71C5_71C6_71C7_71C8_71C9_71CA_71CB),
  (0x9FF8, 0x71CC_71CD_71CF_71D0_71D1_71D2_71D3),
  (0xA040, 0x71D6_71D7_71D8_71D9_71DA_71DB_71DC_71DD_71DE_71DF_71E1_71E2),
  (0xA04C, 0x71E3_71E4_71E6_71E8_71E9_71EA_71EB_71EC_71ED_71EF_71F0_71F1),
  (0xA058, 0x71F2_71F3_71F4_71F5_71F6_71F7_71F8_71FA_71FB_71FC_71FD_71FE),
  (0xA064, 0x71FF_7200_7201_7202_7203_7204_7205_7207_7208_7209_720A_720B),
  (0xA070, 0x720C_720D_720E_720F_7210_7211_7212_7213_7214_7215_7216_7217),
  (0xA07C, 0x7218_7219_721A),
  (0xA080, 0x721B_721C_721E_721F_7220_7221_7222_7223_7224_7225_7226_7227),
  (0xA08C, 0x7229_722B_722D_722E_722F_7232_7233_7234_723A_723C_723E_7240),
  (0xA098, 0x7241_7242_7243_7244_7245_7246_7249_724A_724B_724E_724F_7250),
  (0xA0A4, 0x7251_7253_7254_7255_7257_7258_725A_725C_725E_7260_7263_7264),
  (0xA0B0, 0x7265_7268_726A_726B_726C_726D_7270_7271_7273_7274_7276_7277),
  (0xA0BC, 0x7278_727B_727C_727D_7282_7283_7285_7286_7287_7288_7289_728C),
  (0xA0C8, 0x728E_7290_7291_7293_7294_7295_7296_7297_7298_7299_729A_729B),
  (0xA0D4, 0x729C_729D_729E_72A0_72A1_72A2_72A3_72A4_72A5_72A6_72A7_72A8),
  (0xA0E0, 0x72A9_72AA_72AB_72AE_72B1_72B2_72B3_72B5_72BA_72BB_72BC_72BD),
  (0xA0EC, 0x72BE_72BF_72C0_72C5_72C6_72C7_72C9_72CA_72CB_72CC_72CF_72D1),
  (0xA0F8, 0x72D3_72D4_72D5_72D6_72D8_72DA_72DB),
  (0xA140, 0xE4C6_E4C7_E4C8_E4C9_E4CA_E4CB_E4CC_E4CD_E4CE_E4CF_E4D0_E4D1),
  (0xA14C, 0xE4D2_E4D3_E4D4_E4D5_E4D6_E4D7_E4D8_E4D9_E4DA_E4DB_E4DC_E4DD),
  (0xA158, 0xE4DE_E4DF_E4E0_E4E1_E4E2_E4E3_E4E4_E4E5_E4E6_E4E7_E4E8_E4E9),
  (0xA164, 0xE4EA_E4EB_E4EC_E4ED_E4EE_E4EF_E4F0_E4F1_E4F2_E4F3_E4F4_E4F5),
  (0xA170, 0xE4F6_E4F7_E4F8_E4F9_E4FA_E4FB_E4FC_E4FD_E4FE_E4FF_E500_E501),
  (0xA17C, 0xE502_E503_E504),
  (0xA180, 0xE505_E506_E507_E508_E509_E50A_E50B_E50C_E50D_E50E_E50F_E510),
  (0xA18C, 0xE511_E512_E513_E514_E515_E516_E517_E518_E519_E51A_E51B_E51C),
  (0xA198, 0xE51D_E51E_E51F_E520_E521_E522_E523_E524_E525_3000_3001_3002),
  (0xA1A4, 0x00B7_02C9_02C7_00A8_3003_3005_2014_FF5E_2016_2026_2018_2019),
  (0xA1B0, 0x201C_201D_3014_3015_3008_3009_300A_300B_300C_300D_300E_300F),
  (0xA1BC, 0x3016_3017_3010_3011_00B1_00D7_00F7_2236_2227_2228_2211_220F),
  (0xA1C8, 0x222A_2229_2208_2237_221A_22A5_2225_2220_2312_2299_222B_222E),
  (0xA1D4, 0x2261_224C_2248_223D_221D_2260_226E_226F_2264_2265_221E_2235),
  (0xA1E0, 0x2234_2642_2640_00B0_2032_2033_2103_FF04_00A4_FFE0_FFE1_2030),
  (0xA1EC, 0x00A7_2116_2606_2605_25CB_25CF_25CE_25C7_25C6_25A1_25A0_25B3),
  (0xA1F8, 0x25B2_203B_2192_2190_2191_2193_3013),
  (0xA240, 0xE526_E527_E528_E529_E52A_E52B_E52C_E52D_E52E_E52F_E530_E531),
  (0xA24C, 0xE532_E533_E534_E535_E536_E537_E538_E539_E53A_E53B_E53C_E53D),
  (0xA258, 0xE53E_E53F_E540_E541_E542_E543_E544_E545_E546_E547_E548_E549),
  (0xA264, 0xE54A_E54B_E54C_E54D_E54E_E54F_E550_E551_E552_E553_E554_E555),
  (0xA270, 0xE556_E557_E558_E559_E55A_E55B_E55C_E55D_E55E_E55F_E560_E561),
  (0xA27C, 0xE562_E563_E564),
  (0xA280, 0xE565_E566_E567_E568_E569_E56A_E56B_E56C_E56D_E56E_E56F_E570),
  (0xA28C, 0xE571_E572_E573_E574_E575_E576_E577_E578_E579_E57A_E57B_E57C),
  (0xA298, 0xE57D_E57E_E57F_E580_E581_E582_E583_E584_E585_2170_2171_2172),
  (0xA2A4, 0x2173_2174_2175_2176_2177_2178_2179_E766_E767_E768_E769_E76A),
  (0xA2B0, 0xE76B_2488_2489_248A_248B_248C_248D_248E_248F_2490_2491_2492),
  (0xA2BC, 0x2493_2494_2495_2496_2497_2498_2499_249A_249B_2474_2475_2476),
  (0xA2C8, 0x2477_2478_2479_247A_247B_247C_247D_247E_247F_2480_2481_2482),
  (0xA2D4, 0x2483_2484_2485_2486_2487_2460_2461_2462_2463_2464_2465_2466),
  (0xA2E0, 0x2467_2468_2469_20AC_E76D_3220_3221_3222_3223_3224_3225_3226),
  (0xA2EC, 0x3227_3228_3229_E76E_E76F_2160_2161_2162_2163_2164_2165_2166),
  (0xA2F8, 0x2167_2168_2169_216A_216B_E770_E771),
  (0xA340, 0xE586_E587_E588_E589_E58A_E58B_E58C_E58D_E58E_E58F_E590_E591),
  (0xA34C, 0xE592_E593_E594_E595_E596_E597_E598_E599_E59A_E59B_E59C_E59D),
  (0xA358, 0xE59E_E59F_E5A0_E5A1_E5A2_E5A3_E5A4_E5A5_E5A6_E5A7_E5A8_E5A9),
  (0xA364, 0xE5AA_E5AB_E5AC_E5AD_E5AE_E5AF_E5B0_E5B1_E5B2_E5B3_E5B4_E5B5),
  (0xA370, 0xE5B6_E5B7_E5B8_E5B9_E5BA_E5BB_E5BC_E5BD_E5BE_E5BF_E5C0_E5C1),
  (0xA37C, 0xE5C2_E5C3_E5C4),
  (0xA380, 0xE5C5_E5C6_E5C7_E5C8_E5C9_E5CA_E5CB_E5CC_E5CD_E5CE_E5CF_E5D0),
  (0xA38C, 0xE5D1_E5D2_E5D3_E5D4_E5D5_E5D6_E5D7_E5D8_E5D9_E5DA_E5DB_E5DC),
  (0xA398, 0xE5DD_E5DE_E5DF_E5E0_E5E1_E5E2_E5E3_E5E4_E5E5_FF01_FF02_FF03),
  (0xA3A4, 0xFFE5_FF05_FF06_FF07_FF08_FF09_FF0A_FF0B_FF0C_FF0D_FF0E_FF0F),
  (0xA3B0, 0xFF10_FF11_FF12_FF13_FF14_FF15_FF16_FF17_FF18_FF19_FF1A_FF1B),
  (0xA3BC, 0xFF1C_FF1D_FF1E_FF1F_FF20_FF21_FF22_FF23_FF24_FF25_FF26_FF27),
  (0xA3C8, 0xFF28_FF29_FF2A_FF2B_FF2C_FF2D_FF2E_FF2F_FF30_FF31_FF32_FF33),
  (0xA3D4, 0xFF34_FF35_FF36_FF37_FF38_FF39_FF3A_FF3B_FF3C_FF3D_FF3E_FF3F),
  (0xA3E0, 0xFF40_FF41_FF42_FF43_FF44_FF45_FF46_FF47_FF48_FF49_FF4A_FF4B),
  (0xA3EC, 0xFF4C_FF4D_FF4E_FF4F_FF50_FF51_FF52_FF53_FF54_FF55_FF56_FF57),
  (0xA3F8, 0xFF58_FF59_FF5A_FF5B_FF5C_FF5D_FFE3),
  (0xA440, 0xE5E6_E5E7_E5E8_E5E9_E5EA_E5EB_E5EC_E5ED_E5EE_E5EF_E5F0_E5F1),
  (0xA44C, 0xE5F2_E5F3_E5F4_E5F5_E5F6_E5F7_E5F8_E5F9_E5FA_E5FB_E5FC_E5FD),
  (0xA458, 0xE5FE_E5FF_E600_E601_E602_E603_E604_E605_E606_E607_E608_E609),
  (0xA464, 0xE60A_E60B_E60C_E60D_E60E_E60F_E610_E611_E612_E613_E614_E615),
  (0xA470, 0xE616_E617_E618_E619_E61A_E61B_E61C_E61D_E61E_E61F_E620_E621),
  (0xA47C, 0xE622_E623_E624),
  (0xA480, 0xE625_E626_E627_E628_E629_E62A_E62B_E62C_E62D_E62E_E62F_E630),
  (0xA48C, 0xE631_E632_E633_E634_E635_E636_E637_E638_E639_E63A_E63B_E63C),
  (0xA498, 0xE63D_E63E_E63F_E640_E641_E642_E643_E644_E645_3041_3042_3043),
  (0xA4A4, 0x3044_3045_3046_3047_3048_3049_304A_304B_304C_304D_304E_304F),
  (0xA4B0, 0x3050_3051_3052_3053_3054_3055_3056_3057_3058_3059_305A_305B),
  (0xA4BC, 0x305C_305D_305E_305F_3060_3061_3062_3063_3064_3065_3066_3067),
  (0xA4C8, 0x3068_3069_306A_306B_306C_306D_306E_306F_3070_3071_3072_3073),
  (0xA4D4, 0x3074_3075_3076_3077_3078_3079_307A_307B_307C_307D_307E_307F),
  (0xA4E0, 0x3080_3081_3082_3083_3084_3085_3086_3087_3088_3089_308A_308B),
  (0xA4EC, 0x308C_308D_308E_308F_3090_3091_3092_3093_E772_E773_E774_E775),
  (0xA4F8, 0xE776_E777_E778_E779_E77A_E77B_E77C),
  (0xA540, 0xE646_E647_E648_E649_E64A_E64B_E64C_E64D_E64E_E64F_E650_E651),
  (0xA54C, 0xE652_E653_E654_E655_E656_E657_E658_E659_E65A_E65B_E65C_E65D),
  (0xA558, 0xE65E_E65F_E660_E661_E662_E663_E664_E665_E666_E667_E668_E669),
  (0xA564, 0xE66A_E66B_E66C_E66D_E66E_E66F_E670_E671_E672_E673_E674_E675),
  (0xA570, 0xE676_E677_E678_E679_E67A_E67B_E67C_E67D_E67E_E67F_E680_E681),
  (0xA57C, 0xE682_E683_E684),
  (0xA580, 0xE685_E686_E687_E688_E689_E68A_E68B_E68C_E68D_E68E_E68F_E690),
  (0xA58C, 0xE691_E692_E693_E694_E695_E696_E697_E698_E699_E69A_E69B_E69C),
  (0xA598, 0xE69D_E69E_E69F_E6A0_E6A1_E6A2_E6A3_E6A4_E6A5_30A1_30A2_30A3),
  (0xA5A4, 0x30A4_30A5_30A6_30A7_30A8_30A9_30AA_30AB_30AC_30AD_30AE_30AF),
  (0xA5B0, 0x30B0_30B1_30B2_30B3_30B4_30B5_30B6_30B7_30B8_30B9_30BA_30BB),
  (0xA5BC, 0x30BC_30BD_30BE_30BF_30C0_30C1_30C2_30C3_30C4_30C5_30C6_30C7),
  (0xA5C8, 0x30C8_30C9_30CA_30CB_30CC_30CD_30CE_30CF_30D0_30D1_30D2_30D3),
  (0xA5D4, 0x30D4_30D5_30D6_30D7_30D8_30D9_30DA_30DB_30DC_30DD_30DE_30DF),
  (0xA5E0, 0x30E0_30E1_30E2_30E3_30E4_30E5_30E6_30E7_30E8_30E9_30EA_30EB),
  (0xA5EC, 0x30EC_30ED_30EE_30EF_30F0_30F1_30F2_30F3_30F4_30F5_30F6_E77D),
  (0xA5F8, 0xE77E_E77F_E780_E781_E782_E783_E784),
  (0xA640, 0xE6A6_E6A7_E6A8_E6A9_E6AA_E6AB_E6AC_E6AD_E6AE_E6AF_E6B0_E6B1),
  (0xA64C, 0xE6B2_E6B3_E6B4_E6B5_E6B6_E6B7_E6B8_E6B9_E6BA_E6BB_E6BC_E6BD),
  (0xA658, 0xE6BE_E6BF_E6C0_E6C1_E6C2_E6C3_E6C4_E6C5_E6C6_E6C7_E6C8_E6C9),
  (0xA664, 0xE6CA_E6CB_E6CC_E6CD_E6CE_E6CF_E6D0_E6D1_E6D2_E6D3_E6D4_E6D5),
  (0xA670, 0xE6D6_E6D7_E6D8_E6D9_E6DA_E6DB_E6DC_E6DD_E6DE_E6DF_E6E0_E6E1),
  (0xA67C, 0xE6E2_E6E3_E6E4),
  (0xA680, 0xE6E5_E6E6_E6E7_E6E8_E6E9_E6EA_E6EB_E6EC_E6ED_E6EE_E6EF_E6F0),
  (0xA68C, 0xE6F1_E6F2_E6F3_E6F4_E6F5_E6F6_E6F7_E6F8_E6F9_E6FA_E6FB_E6FC),
  (0xA698, 0xE6FD_E6FE_E6FF_E700_E701_E702_E703_E704_E705_0391_0392_0393),
  (0xA6A4, 0x0394_0395_0396_0397_0398_0399_039A_039B_039C_039D_039E_039F),
  (0xA6B0, 0x03A0_03A1_03A3_03A4_03A5_03A6_03A7_03A8_03A9_E785_E786_E787),
  (0xA6BC, 0xE788_E789_E78A_E78B_E78C_03B1_03B2_03B3_03B4_03B5_03B6_03B7),
  (0xA6C8, 0x03B8_03B9_03BA_03BB_03BC_03BD_03BE_03BF_03C0_03C1_03C3_03C4),
  (0xA6D4, 0x03C5_03C6_03C7_03C8_03C9_E78D_E78E_E78F_E790_E791_E792_E793),
  (0xA6E0, 0xFE35_FE36_FE39_FE3A_FE3F_FE40_FE3D_FE3E_FE41_FE42_FE43_FE44),
  (0xA6EC, 0xE794_E795_FE3B_FE3C_FE37_FE38_FE31_E796_FE33_FE34_E797_E798),
  (0xA6F8, 0xE799_E79A_E79B_E79C_E79D_E79E_E79F),
  (0xA740, 0xE706_E707_E708_E709_E70A_E70B_E70C_E70D_E70E_E70F_E710_E711),
  (0xA74C, 0xE712_E713_E714_E715_E716_E717_E718_E719_E71A_E71B_E71C_E71D),
  (0xA758, 0xE71E_E71F_E720_E721_E722_E723_E724_E725_E726_E727_E728_E729),
  (0xA764, 0xE72A_E72B_E72C_E72D_E72E_E72F_E730_E731_E732_E733_E734_E735),
  (0xA770, 0xE736_E737_E738_E739_E73A_E73B_E73C_E73D_E73E_E73F_E740_E741),
  (0xA77C, 0xE742_E743_E744),
  (0xA780, 0xE745_E746_E747_E748_E749_E74A_E74B_E74C_E74D_E74E_E74F_E750),
  (0xA78C, 0xE751_E752_E753_E754_E755_E756_E757_E758_E759_E75A_E75B_E75C),
  (0xA798, 0xE75D_E75E_E75F_E760_E761_E762_E763_E764_E765_0410_0411_0412),
  (0xA7A4, 0x0413_0414_0415_0401_0416_0417_0418_0419_041A_041B_041C_041D),
  (0xA7B0, 0x041E_041F_0420_0421_0422_0423_0424_0425_0426_0427_0428_0429),
  (0xA7BC, 0x042A_042B_042C_042D_042E_042F_E7A0_E7A1_E7A2_E7A3_E7A4_E7A5),
  (0xA7C8, 0xE7A6_E7A7_E7A8_E7A9_E7AA_E7AB_E7AC_E7AD_E7AE_0430_0431_0432),
  (0xA7D4, 0x0433_0434_0435_0451_0436_0437_0438_0439_043A_043B_043C_043D),
  (0xA7E0, 0x043E_043F_0440_0441_0442_0443_0444_0445_0446_0447_0448_0449),
  (0xA7EC, 0x044A_044B_044C_044D_044E_044F_E7AF_E7B0_E7B1_E7B2_E7B3_E7B4),
  (0xA7F8, 0xE7B5_E7B6_E7B7_E7B8_E7B9_E7BA_E7BB),
  (0xA840, 0x02CA_02CB_02D9_2013_2015_2025_2035_2105_2109_2196_2197_2198),
  (0xA84C, 0x2199_2215_221F_2223_2252_2266_2267_22BF_2550_2551_2552_2553),
  (0xA858, 0x2554_2555_2556_2557_2558_2559_255A_255B_255C_255D_255E_255F),
  (0xA864, 0x2560_2561_2562_2563_2564_2565_2566_2567_2568_2569_256A_256B),
  (0xA870, 0x256C_256D_256E_256F_2570_2571_2572_2573_2581_2582_2583_2584),
  (0xA87C, 0x2585_2586_2587),
  (0xA880, 0x2588_2589_258A_258B_258C_258D_258E_258F_2593_2594_2595_25BC),
  (0xA88C, 0x25BD_25E2_25E3_25E4_25E5_2609_2295_3012_301D_301E_E7BC_E7BD),
  (0xA898, 0xE7BE_E7BF_E7C0_E7C1_E7C2_E7C3_E7C4_E7C5_E7C6_0101_00E1_01CE),
  (0xA8A4, 0x00E0_0113_00E9_011B_00E8_012B_00ED_01D0_00EC_014D_00F3_01D2),
  (0xA8B0, 0x00F2_016B_00FA_01D4_00F9_01D6_01D8_01DA_01DC_00FC_00EA_0251),
  (0xA8BC, 0xE7C7_0144_0148_01F9_0261_E7C9_E7CA_E7CB_E7CC_3105_3106_3107),
  (0xA8C8, 0x3108_3109_310A_310B_310C_310D_310E_310F_3110_3111_3112_3113),
  (0xA8D4, 0x3114_3115_3116_3117_3118_3119_311A_311B_311C_311D_311E_311F),
  (0xA8E0, 0x3120_3121_3122_3123_3124_3125_3126_3127_3128_3129_E7CD_E7CE),
  (0xA8EC, 0xE7CF_E7D0_E7D1_E7D2_E7D3_E7D4_E7D5_E7D6_E7D7_E7D8_E7D9_E7DA),
  (0xA8F8, 0xE7DB_E7DC_E7DD_E7DE_E7DF_E7E0_E7E1),
  (0xA940, 0x3021_3022_3023_3024_3025_3026_3027_3028_3029_32A3_338E_338F),
  (0xA94C, 0x339C_339D_339E_33A1_33C4_33CE_33D1_33D2_33D5_FE30_FFE2_FFE4),
  (0xA958, 0xE7E2_2121_3231_E7E3_2010_E7E4_E7E5_E7E6_30FC_309B_309C_30FD),
  (0xA964, 0x30FE_3006_309D_309E_FE49_FE4A_FE4B_FE4C_FE4D_FE4E_FE4F_FE50),
  (0xA970, 0xFE51_FE52_FE54_FE55_FE56_FE57_FE59_FE5A_FE5B_FE5C_FE5D_FE5E),
  (0xA97C, 0xFE5F_FE60_FE61),
  (0xA980, 0xFE62_FE63_FE64_FE65_FE66_FE68_FE69_FE6A_FE6B_303E_2FF0_2FF1),
  (0xA98C, 0x2FF2_2FF3_2FF4_2FF5_2FF6_2FF7_2FF8_2FF9_2FFA_2FFB_3007_E7F4),
  (0xA998, 0xE7F5_E7F6_E7F7_E7F8_E7F9_E7FA_E7FB_E7FC_E7FD_E7FE_E7FF_E800),
  (0xA9A4, 0x2500_2501_2502_2503_2504_2505_2506_2507_2508_2509_250A_250B),
  (0xA9B0, 0x250C_250D_250E_250F_2510_2511_2512_2513_2514_2515_2516_2517),
  (0xA9BC, 0x2518_2519_251A_251B_251C_251D_251E_251F_2520_2521_2522_2523),
  (0xA9C8, 0x2524_2525_2526_2527_2528_2529_252A_252B_252C_252D_252E_252F),
  (0xA9D4, 0x2530_2531_2532_2533_2534_2535_2536_2537_2538_2539_253A_253B),
  (0xA9E0, 0x253C_253D_253E_253F_2540_2541_2542_2543_2544_2545_2546_2547),
  (0xA9EC, 0x2548_2549_254A_254B_E801_E802_E803_E804_E805_E806_E807_E808),
  (0xA9F8, 0xE809_E80A_E80B_E80C_E80D_E80E_E80F),
  (0xAA40, 0x72DC_72DD_72DF_72E2_72E3_72E4_72E5_72E6_72E7_72EA_72EB_72F5),
  (0xAA4C, 0x72F6_72F9_72FD_72FE_72FF_7300_7302_7304_7305_7306_7307_7308),
  (0xAA58, 0x7309_730B_730C_730D_730F_7310_7311_7312_7314_7318_7319_731A),
  (0xAA64, 0x731F_7320_7323_7324_7326_7327_7328_732D_732F_7330_7332_7333),
  (0xAA70, 0x7335_7336_733A_733B_733C_733D_7340_7341_7342_7343_7344_7345),
  (0xAA7C, 0x7346_7347_7348),
  (0xAA80, 0x7349_734A_734B_734C_734E_734F_7351_7353_7354_7355_7356_7358),
  (0xAA8C, 0x7359_735A_735B_735C_735D_735E_735F_7361_7362_7363_7364_7365),
  (0xAA98, 0x7366_7367_7368_7369_736A_736B_736E_7370_7371_E000_E001_E002),
  (0xAAA4, 0xE003_E004_E005_E006_E007_E008_E009_E00A_E00B_E00C_E00D_E00E),
  (0xAAB0, 0xE00F_E010_E011_E012_E013_E014_E015_E016_E017_E018_E019_E01A),
  (0xAABC, 0xE01B_E01C_E01D_E01E_E01F_E020_E021_E022_E023_E024_E025_E026),
  (0xAAC8, 0xE027_E028_E029_E02A_E02B_E02C_E02D_E02E_E02F_E030_E031_E032),
  (0xAAD4, 0xE033_E034_E035_E036_E037_E038_E039_E03A_E03B_E03C_E03D_E03E),
  (0xAAE0, 0xE03F_E040_E041_E042_E043_E044_E045_E046_E047_E048_E049_E04A),
  (0xAAEC, 0xE04B_E04C_E04D_E04E_E04F_E050_E051_E052_E053_E054_E055_E056),
  (0xAAF8, 0xE057_E058_E059_E05A_E05B_E05C_E05D),
  (0xAB40, 0x7372_7373_7374_7375_7376_7377_7378_7379_737A_737B_737C_737D),
  (0xAB4C, 0x737F_7380_7381_7382_7383_7385_7386_7388_738A_738C_738D_738F),
  (0xAB58, 0x7390_7392_7393_7394_7395_7397_7398_7399_739A_739C_739D_739E),
  (0xAB64, 0x73A0_73A1_73A3_73A4_73A5_73A6_73A7_73A8_73AA_73AC_73AD_73B1),
  (0xAB70, 0x73B4_73B5_73B6_73B8_73B9_73BC_73BD_73BE_73BF_73C1_73C3_73C4),
  (0xAB7C, 0x73C5_73C6_73C7),
  (0xAB80, 0x73CB_73CC_73CE_73D2_73D3_73D4_73D5_73D6_73D7_73D8_73DA_73DB),
  (0xAB8C, 0x73DC_73DD_73DF_73E1_73E2_73E3_73E4_73E6_73E8_73EA_73EB_73EC),
  (0xAB98, 0x73EE_73EF_73F0_73F1_73F3_73F4_73F5_73F6_73F7_E05E_E05F_E060),
  (0xABA4, 0xE061_E062_E063_E064_E065_E066_E067_E068_E069_E06A_E06B_E06C),
  (0xABB0, 0xE06D_E06E_E06F_E070_E071_E072_E073_E074_E075_E076_E077_E078),
  (0xABBC, 0xE079_E07A_E07B_E07C_E07D_E07E_E07F_E080_E081_E082_E083_E084),
  (0xABC8, 0xE085_E086_E087_E088_E089_E08A_E08B_E08C_E08D_E08E_E08F_E090),
  (0xABD4, 0xE091_E092_E093_E094_E095_E096_E097_E098_E099_E09A_E09B_E09C),
  (0xABE0, 0xE09D_E09E_E09F_E0A0_E0A1_E0A2_E0A3_E0A4_E0A5_E0A6_E0A7_E0A8),
  (0xABEC, 0xE0A9_E0AA_E0AB_E0AC_E0AD_E0AE_E0AF_E0B0_E0B1_E0B2_E0B3_E0B4),
  (0xABF8, 0xE0B5_E0B6_E0B7_E0B8_E0B9_E0BA_E0BB),
  (0xAC40, 0x73F8_73F9_73FA_73FB_73FC_73FD_73FE_73FF_7400_7401_7402_7404),
  (0xAC4C, 0x7407_7408_740B_740C_740D_740E_7411_7412_7413_7414_7415_7416),
  (0xAC58, 0x7417_7418_7419_741C_741D_741E_741F_7420_7421_7423_7424_7427),
  (0xAC64, 0x7429_742B_742D_742F_7431_7432_7437_7438_7439_743A_743B_743D),
  (0xAC70, 0x743E_743F_7440_7442_7443_7444_7445_7446_7447_7448_7449_744A),
  (0xAC7C, 0x744B_744C_744D),
  (0xAC80, 0x744E_744F_7450_7451_7452_7453_7454_7456_7458_745D_7460_7461),
  (0xAC8C, 0x7462_7463_7464_7465_7466_7467_7468_7469_746A_746B_746C_746E),
  (0xAC98, 0x746F_7471_7472_7473_7474_7475_7478_7479_747A_E0BC_E0BD_E0BE),
  (0xACA4, 0xE0BF_E0C0_E0C1_E0C2_E0C3_E0C4_E0C5_E0C6_E0C7_E0C8_E0C9_E0CA),
  (0xACB0, 0xE0CB_E0CC_E0CD_E0CE_E0CF_E0D0_E0D1_E0D2_E0D3_E0D4_E0D5_E0D6),
  (0xACBC, 0xE0D7_E0D8_E0D9_E0DA_E0DB_E0DC_E0DD_E0DE_E0DF_E0E0_E0E1_E0E2),
  (0xACC8, 0xE0E3_E0E4_E0E5_E0E6_E0E7_E0E8_E0E9_E0EA_E0EB_E0EC_E0ED_E0EE),
  (0xACD4, 0xE0EF_E0F0_E0F1_E0F2_E0F3_E0F4_E0F5_E0F6_E0F7_E0F8_E0F9_E0FA),
  (0xACE0, 0xE0FB_E0FC_E0FD_E0FE_E0FF_E100_E101_E102_E103_E104_E105_E106),
  (0xACEC, 0xE107_E108_E109_E10A_E10B_E10C_E10D_E10E_E10F_E110_E111_E112),
  (0xACF8, 0xE113_E114_E115_E116_E117_E118_E119),
  (0xAD40, 0x747B_747C_747D_747F_7482_7484_7485_7486_7488_7489_748A_748C),
  (0xAD4C, 0x748D_748F_7491_7492_7493_7494_7495_7496_7497_7498_7499_749A),
  (0xAD58, 0x749B_749D_749F_74A0_74A1_74A2_74A3_74A4_74A5_74A6_74AA_74AB),
  (0xAD64, 0x74AC_74AD_74AE_74AF_74B0_74B1_74B2_74B3_74B4_74B5_74B6_74B7),
  (0xAD70, 0x74B8_74B9_74BB_74BC_74BD_74BE_74BF_74C0_74C1_74C2_74C3_74C4),
  (0xAD7C, 0x74C5_74C6_74C7),
  (0xAD80, 0x74C8_74C9_74CA_74CB_74CC_74CD_74CE_74CF_74D0_74D1_74D3_74D4),
  (0xAD8C, 0x74D5_74D6_74D7_74D8_74D9_74DA_74DB_74DD_74DF_74E1_74E5_74E7),
  (0xAD98, 0x74E8_74E9_74EA_74EB_74EC_74ED_74F0_74F1_74F2_E11A_E11B_E11C),
  (0xADA4, 0xE11D_E11E_E11F_E120_E121_E122_E123_E124_E125_E126_E127_E128),
  (0xADB0, 0xE129_E12A_E12B_E12C_E12D_E12E_E12F_E130_E131_E132_E133_E134),
  (0xADBC, 0xE135_E136_E137_E138_E139_E13A_E13B_E13C_E13D_E13E_E13F_E140),
  (0xADC8, 0xE141_E142_E143_E144_E145_E146_E147_E148_E149_E14A_E14B_E14C),
  (0xADD4, 0xE14D_E14E_E14F_E150_E151_E152_E153_E154_E155_E156_E157_E158),
  (0xADE0, 0xE159_E15A_E15B_E15C_E15D_E15E_E15F_E160_E161_E162_E163_E164),
  (0xADEC, 0xE165_E166_E167_E168_E169_E16A_E16B_E16C_E16D_E16E_E16F_E170),
  (0xADF8, 0xE171_E172_E173_E174_E175_E176_E177),
  (0xAE40, 0x74F3_74F5_74F8_74F9_74FA_74FB_74FC_74FD_74FE_7500_7501_7502),
  (0xAE4C, 0x7503_7505_7506_7507_7508_7509_750A_750B_750C_750E_7510_7512),
  (0xAE58, 0x7514_7515_7516_7517_751B_751D_751E_7520_7521_7522_7523_7524),
  (0xAE64, 0x7526_7527_752A_752E_7534_7536_7539_753C_753D_753F_7541_7542),
  (0xAE70, 0x7543_7544_7546_7547_7549_754A_754D_7550_7551_7552_7553_7555),
  (0xAE7C, 0x7556_7557_7558),
  (0xAE80, 0x755D_755E_755F_7560_7561_7562_7563_7564_7567_7568_7569_756B),
  (0xAE8C, 0x756C_756D_756E_756F_7570_7571_7573_7575_7576_7577_757A_757B),
  (0xAE98, 0x757C_757D_757E_7580_7581_7582_7584_7585_7587_E178_E179_E17A),
  (0xAEA4, 0xE17B_E17C_E17D_E17E_E17F_E180_E181_E182_E183_E184_E185_E186),
  (0xAEB0, 0xE187_E188_E189_E18A_E18B_E18C_E18D_E18E_E18F_E190_E191_E192),
  (0xAEBC, 0xE193_E194_E195_E196_E197_E198_E199_E19A_E19B_E19C_E19D_E19E),
  (0xAEC8, 0xE19F_E1A0_E1A1_E1A2_E1A3_E1A4_E1A5_E1A6_E1A7_E1A8_E1A9_E1AA),
  (0xAED4, 0xE1AB_E1AC_E1AD_E1AE_E1AF_E1B0_E1B1_E1B2_E1B3_E1B4_E1B5_E1B6),
  (0xAEE0, 0xE1B7_E1B8_E1B9_E1BA_E1BB_E1BC_E1BD_E1BE_E1BF_E1C0_E1C1_E1C2),
  (0xAEEC, 0xE1C3_E1C4_E1C5_E1C6_E1C7_E1C8_E1C9_E1CA_E1CB_E1CC_E1CD_E1CE),
  (0xAEF8, 0xE1CF_E1D0_E1D1_E1D2_E1D3_E1D4_E1D5),
  (0xAF40, 0x7588_7589_758A_758C_758D_758E_7590_7593_7595_7598_759B_759C),
  (0xAF4C, 0x759E_75A2_75A6_75A7_75A8_75A9_75AA_75AD_75B6_75B7_75BA_75BB),
  (0xAF58, 0x75BF_75C0_75C1_75C6_75CB_75CC_75CE_75CF_75D0_75D1_75D3_75D7),
  (0xAF64, 0x75D9_75DA_75DC_75DD_75DF_75E0_75E1_75E5_75E9_75EC_75ED_75EE),
  (0xAF70, 0x75EF_75F2_75F3_75F5_75F6_75F7_75F8_75FA_75FB_75FD_75FE_7602),
  (0xAF7C, 0x7604_7606_7607),
  (0xAF80, 0x7608_7609_760B_760D_760E_760F_7611_7612_7613_7614_7616_761A),
  (0xAF8C, 0x761C_761D_761E_7621_7623_7627_7628_762C_762E_762F_7631_7632),
  (0xAF98, 0x7636_7637_7639_763A_763B_763D_7641_7642_7644_E1D6_E1D7_E1D8),
  (0xAFA4, 0xE1D9_E1DA_E1DB_E1DC_E1DD_E1DE_E1DF_E1E0_E1E1_E1E2_E1E3_E1E4),
  (0xAFB0, 0xE1E5_E1E6_E1E7_E1E8_E1E9_E1EA_E1EB_E1EC_E1ED_E1EE_E1EF_E1F0),
  (0xAFBC, 0xE1F1_E1F2_E1F3_E1F4_E1F5_E1F6_E1F7_E1F8_E1F9_E1FA_E1FB_E1FC),
  (0xAFC8, 0xE1FD_E1FE_E1FF_E200_E201_E202_E203_E204_E205_E206_E207_E208),
  (0xAFD4, 0xE209_E20A_E20B_E20C_E20D_E20E_E20F_E210_E211_E212_E213_E214),
  (0xAFE0, 0xE215_E216_E217_E218_E219_E21A_E21B_E21C_E21D_E21E_E21F_E220),
  (0xAFEC, 0xE221_E222_E223_E224_E225_E226_E227_E228_E229_E22A_E22B_E22C),
  (0xAFF8, 0xE22D_E22E_E22F_E230_E231_E232_E233),
  (0xB040, 0x7645_7646_7647_7648_7649_764A_764B_764E_764F_7650_7651_7652),
  (0xB04C, 0x7653_7655_7657_7658_7659_765A_765B_765D_765F_7660_7661_7662),
  (0xB058, 0x7664_7665_7666_7667_7668_7669_766A_766C_766D_766E_7670_7671),
  (0xB064, 0x7672_7673_7674_7675_7676_7677_7679_767A_767C_767F_7680_7681),
  (0xB070, 0x7683_7685_7689_768A_768C_768D_768F_7690_7692_7694_7695_7697),
  (0xB07C, 0x7698_769A_769B),
  (0xB080, 0x769C_769D_769E_769F_76A0_76A1_76A2_76A3_76A5_76A6_76A7_76A8),
  (0xB08C, 0x76A9_76AA_76AB_76AC_76AD_76AF_76B0_76B3_76B5_76B6_76B7_76B8),
  (0xB098, 0x76B9_76BA_76BB_76BC_76BD_76BE_76C0_76C1_76C3_554A_963F_57C3),
  (0xB0A4, 0x6328_54CE_5509_54C0_7691_764C_853C_77EE_827E_788D_7231_9698),
  (0xB0B0, 0x978D_6C28_5B89_4FFA_6309_6697_5CB8_80FA_6848_80AE_6602_76CE),
  (0xB0BC, 0x51F9_6556_71AC_7FF1_8884_50B2_5965_61CA_6FB3_82AD_634C_6252),
  (0xB0C8, 0x53ED_5427_7B06_516B_75A4_5DF4_62D4_8DCB_9776_628A_8019_575D),
  (0xB0D4, 0x9738_7F62_7238_767D_67CF_767E_6446_4F70_8D25_62DC_7A17_6591),
  (0xB0E0, 0x73ED_642C_6273_822C_9881_677F_7248_626E_62CC_4F34_74E3_534A),
  (0xB0EC, 0x529E_7ECA_90A6_5E2E_6886_699C_8180_7ED1_68D2_78C5_868C_9551),
  (0xB0F8, 0x508D_8C24_82DE_80DE_5305_8912_5265),
  (0xB140, 0x76C4_76C7_76C9_76CB_76CC_76D3_76D5_76D9_76DA_76DC_76DD_76DE),
  (0xB14C, 0x76E0_76E1_76E2_76E3_76E4_76E6_76E7_76E8_76E9_76EA_76EB_76EC),
  (0xB158, 0x76ED_76F0_76F3_76F5_76F6_76F7_76FA_76FB_76FD_76FF_7700_7702),
  (0xB164, 0x7703_7705_7706_770A_770C_770E_770F_7710_7711_7712_7713_7714),
  (0xB170, 0x7715_7716_7717_7718_771B_771C_771D_771E_7721_7723_7724_7725),
  (0xB17C, 0x7727_772A_772B),
  (0xB180, 0x772C_772E_7730_7731_7732_7733_7734_7739_773B_773D_773E_773F),
  (0xB18C, 0x7742_7744_7745_7746_7748_7749_774A_774B_774C_774D_774E_774F),
  (0xB198, 0x7752_7753_7754_7755_7756_7757_7758_7759_775C_8584_96F9_4FDD),
  (0xB1A4, 0x5821_9971_5B9D_62B1_62A5_66B4_8C79_9C8D_7206_676F_7891_60B2),
  (0xB1B0, 0x5351_5317_8F88_80CC_8D1D_94A1_500D_72C8_5907_60EB_7119_88AB),
  (0xB1BC, 0x5954_82EF_672C_7B28_5D29_7EF7_752D_6CF5_8E66_8FF8_903C_9F3B),
  (0xB1C8, 0x6BD4_9119_7B14_5F7C_78A7_84D6_853D_6BD5_6BD9_6BD6_5E01_5E87),
  (0xB1D4, 0x75F9_95ED_655D_5F0A_5FC5_8F9F_58C1_81C2_907F_965B_97AD_8FB9),
  (0xB1E0, 0x7F16_8D2C_6241_4FBF_53D8_535E_8FA8_8FA9_8FAB_904D_6807_5F6A),
  (0xB1EC, 0x8198_8868_9CD6_618B_522B_762A_5F6C_658C_6FD2_6EE8_5BBE_6448),
  (0xB1F8, 0x5175_51B0_67C4_4E19_79C9_997C_70B3),
  (0xB240, 0x775D_775E_775F_7760_7764_7767_7769_776A_776D_776E_776F_7770),
  (0xB24C, 0x7771_7772_7773_7774_7775_7776_7777_7778_777A_777B_777C_7781),
  (0xB258, 0x7782_7783_7786_7787_7788_7789_778A_778B_778F_7790_7793_7794),
  (0xB264, 0x7795_7796_7797_7798_7799_779A_779B_779C_779D_779E_77A1_77A3),
  (0xB270, 0x77A4_77A6_77A8_77AB_77AD_77AE_77AF_77B1_77B2_77B4_77B6_77B7),
  (0xB27C, 0x77B8_77B9_77BA),
  (0xB280, 0x77BC_77BE_77C0_77C1_77C2_77C3_77C4_77C5_77C6_77C7_77C8_77C9),
  (0xB28C, 0x77CA_77CB_77CC_77CE_77CF_77D0_77D1_77D2_77D3_77D4_77D5_77D6),
  (0xB298, 0x77D8_77D9_77DA_77DD_77DE_77DF_77E0_77E1_77E4_75C5_5E76_73BB),
  (0xB2A4, 0x83E0_64AD_62E8_94B5_6CE2_535A_52C3_640F_94C2_7B94_4F2F_5E1B),
  (0xB2B0, 0x8236_8116_818A_6E24_6CCA_9A73_6355_535C_54FA_8865_57E0_4E0D),
  (0xB2BC, 0x5E03_6B65_7C3F_90E8_6016_64E6_731C_88C1_6750_624D_8D22_776C),
  (0xB2C8, 0x8E29_91C7_5F69_83DC_8521_9910_53C2_8695_6B8B_60ED_60E8_707F),
  (0xB2D4, 0x82CD_8231_4ED3_6CA7_85CF_64CD_7CD9_69FD_66F9_8349_5395_7B56),
  (0xB2E0, 0x4FA7_518C_6D4B_5C42_8E6D_63D2_53C9_832C_8336_67E5_78B4_643D),
  (0xB2EC, 0x5BDF_5C94_5DEE_8BE7_62C6_67F4_8C7A_6400_63BA_8749_998B_8C17),
  (0xB2F8, 0x7F20_94F2_4EA7_9610_98A4_660C_7316),
  (0xB340, 0x77E6_77E8_77EA_77EF_77F0_77F1_77F2_77F4_77F5_77F7_77F9_77FA),
  (0xB34C, 0x77FB_77FC_7803_7804_7805_7806_7807_7808_780A_780B_780E_780F),
  (0xB358, 0x7810_7813_7815_7819_781B_781E_7820_7821_7822_7824_7828_782A),
  (0xB364, 0x782B_782E_782F_7831_7832_7833_7835_7836_783D_783F_7841_7842),
  (0xB370, 0x7843_7844_7846_7848_7849_784A_784B_784D_784F_7851_7853_7854),
  (0xB37C, 0x7858_7859_785A),
  (0xB380, 0x785B_785C_785E_785F_7860_7861_7862_7863_7864_7865_7866_7867),
  (0xB38C, 0x7868_7869_786F_7870_7871_7872_7873_7874_7875_7876_7878_7879),
  (0xB398, 0x787A_787B_787D_787E_787F_7880_7881_7882_7883_573A_5C1D_5E38),
  (0xB3A4, 0x957F_507F_80A0_5382_655E_7545_5531_5021_8D85_6284_949E_671D),
  (0xB3B0, 0x5632_6F6E_5DE2_5435_7092_8F66_626F_64A4_63A3_5F7B_6F88_90F4),
  (0xB3BC, 0x81E3_8FB0_5C18_6668_5FF1_6C89_9648_8D81_886C_6491_79F0_57CE),
  (0xB3C8, 0x6A59_6210_5448_4E58_7A0B_60E9_6F84_8BDA_627F_901E_9A8B_79E4),
  (0xB3D4, 0x5403_75F4_6301_5319_6C60_8FDF_5F1B_9A70_803B_9F7F_4F88_5C3A),
  (0xB3E0, 0x8D64_7FC5_65A5_70BD_5145_51B2_866B_5D07_5BA0_62BD_916C_7574),
  (0xB3EC, 0x8E0C_7A20_6101_7B79_4EC7_7EF8_7785_4E11_81ED_521D_51FA_6A71),
  (0xB3F8, 0x53A8_8E87_9504_96CF_6EC1_9664_695A),
  (0xB440, 0x7884_7885_7886_7888_788A_788B_788F_7890_7892_7894_7895_7896),
  (0xB44C, 0x7899_789D_789E_78A0_78A2_78A4_78A6_78A8_78A9_78AA_78AB_78AC),
  (0xB458, 0x78AD_78AE_78AF_78B5_78B6_78B7_78B8_78BA_78BB_78BC_78BD_78BF),
  (0xB464, 0x78C0_78C2_78C3_78C4_78C6_78C7_78C8_78CC_78CD_78CE_78CF_78D1),
  (0xB470, 0x78D2_78D3_78D6_78D7_78D8_78DA_78DB_78DC_78DD_78DE_78DF_78E0),
  (0xB47C, 0x78E1_78E2_78E3),
  (0xB480, 0x78E4_78E5_78E6_78E7_78E9_78EA_78EB_78ED_78EE_78EF_78F0_78F1),
  (0xB48C, 0x78F3_78F5_78F6_78F8_78F9_78FB_78FC_78FD_78FE_78FF_7900_7902),
  (0xB498, 0x7903_7904_7906_7907_7908_7909_790A_790B_790C_7840_50A8_77D7),
  (0xB4A4, 0x6410_89E6_5904_63E3_5DDD_7A7F_693D_4F20_8239_5598_4E32_75AE),
  (0xB4B0, 0x7A97_5E62_5E8A_95EF_521B_5439_708A_6376_9524_5782_6625_693F),
  (0xB4BC, 0x9187_5507_6DF3_7EAF_8822_6233_7EF0_75B5_8328_78C1_96CC_8F9E),
  (0xB4C8, 0x6148_74F7_8BCD_6B64_523A_8D50_6B21_806A_8471_56F1_5306_4ECE),
  (0xB4D4, 0x4E1B_51D1_7C97_918B_7C07_4FC3_8E7F_7BE1_7A9C_6467_5D14_50AC),
  (0xB4E0, 0x8106_7601_7CB9_6DEC_7FE0_6751_5B58_5BF8_78CB_64AE_6413_63AA),
  (0xB4EC, 0x632B_9519_642D_8FBE_7B54_7629_6253_5927_5446_6B79_50A3_6234),
  (0xB4F8, 0x5E26_6B86_4EE3_8D37_888B_5F85_902E),
  (0xB540, 0x790D_790E_790F_7910_7911_7912_7914_7915_7916_7917_7918_7919),
  (0xB54C, 0x791A_791B_791C_791D_791F_7920_7921_7922_7923_7925_7926_7927),
  (0xB558, 0x7928_7929_792A_792B_792C_792D_792E_792F_7930_7931_7932_7933),
  (0xB564, 0x7935_7936_7937_7938_7939_793D_793F_7942_7943_7944_7945_7947),
  (0xB570, 0x794A_794B_794C_794D_794E_794F_7950_7951_7952_7954_7955_7958),
  (0xB57C, 0x7959_7961_7963),
  (0xB580, 0x7964_7966_7969_796A_796B_796C_796E_7970_7971_7972_7973_7974),
  (0xB58C, 0x7975_7976_7979_797B_797C_797D_797E_797F_7982_7983_7986_7987),
  (0xB598, 0x7988_7989_798B_798C_798D_798E_7990_7991_7992_6020_803D_62C5),
  (0xB5A4, 0x4E39_5355_90F8_63B8_80C6_65E6_6C2E_4F46_60EE_6DE1_8BDE_5F39),
  (0xB5B0, 0x86CB_5F53_6321_515A_8361_6863_5200_6363_8E48_5012_5C9B_7977),
  (0xB5BC, 0x5BFC_5230_7A3B_60BC_9053_76D7_5FB7_5F97_7684_8E6C_706F_767B),
  (0xB5C8, 0x7B49_77AA_51F3_9093_5824_4F4E_6EF4_8FEA_654C_7B1B_72C4_6DA4),
  (0xB5D4, 0x7FDF_5AE1_62B5_5E95_5730_8482_7B2C_5E1D_5F1F_9012_7F14_98A0),
  (0xB5E0, 0x6382_6EC7_7898_70B9_5178_975B_57AB_7535_4F43_7538_5E97_60E6),
  (0xB5EC, 0x5960_6DC0_6BBF_7889_53FC_96D5_51CB_5201_6389_540A_9493_8C03),
  (0xB5F8, 0x8DCC_7239_789F_8776_8FED_8C0D_53E0),
  (0xB640, 0x7993_7994_7995_7996_7997_7998_7999_799B_799C_799D_799E_799F),
  (0xB64C, 0x79A0_79A1_79A2_79A3_79A4_79A5_79A6_79A8_79A9_79AA_79AB_79AC),
  (0xB658, 0x79AD_79AE_79AF_79B0_79B1_79B2_79B4_79B5_79B6_79B7_79B8_79BC),
  (0xB664, 0x79BF_79C2_79C4_79C5_79C7_79C8_79CA_79CC_79CE_79CF_79D0_79D3),
  (0xB670, 0x79D4_79D6_79D7_79D9_79DA_79DB_79DC_79DD_79DE_79E0_79E1_79E2),
  (0xB67C, 0x79E5_79E8_79EA),
  (0xB680, 0x79EC_79EE_79F1_79F2_79F3_79F4_79F5_79F6_79F7_79F9_79FA_79FC),
  (0xB68C, 0x79FE_79FF_7A01_7A04_7A05_7A07_7A08_7A09_7A0A_7A0C_7A0F_7A10),
  (0xB698, 0x7A11_7A12_7A13_7A15_7A16_7A18_7A19_7A1B_7A1C_4E01_76EF_53EE),
  (0xB6A4, 0x9489_9876_9F0E_952D_5B9A_8BA2_4E22_4E1C_51AC_8463_61C2_52A8),
  (0xB6B0, 0x680B_4F97_606B_51BB_6D1E_515C_6296_6597_9661_8C46_9017_75D8),
  (0xB6BC, 0x90FD_7763_6BD2_728A_72EC_8BFB_5835_7779_8D4C_675C_9540_809A),
  (0xB6C8, 0x5EA6_6E21_5992_7AEF_77ED_953B_6BB5_65AD_7F0E_5806_5151_961F),
  (0xB6D4, 0x5BF9_58A9_5428_8E72_6566_987F_56E4_949D_76FE_9041_6387_54C6),
  (0xB6E0, 0x591A_593A_579B_8EB2_6735_8DFA_8235_5241_60F0_5815_86FE_5CE8),
  (0xB6EC, 0x9E45_4FC4_989D_8BB9_5A25_6076_5384_627C_904F_9102_997F_6069),
  (0xB6F8, 0x800C_513F_8033_5C14_9975_6D31_4E8C),
  (0xB740, 0x7A1D_7A1F_7A21_7A22_7A24_7A25_7A26_7A27_7A28_7A29_7A2A_7A2B),
  (0xB74C, 0x7A2C_7A2D_7A2E_7A2F_7A30_7A31_7A32_7A34_7A35_7A36_7A38_7A3A),
  (0xB758, 0x7A3E_7A40_7A41_7A42_7A43_7A44_7A45_7A47_7A48_7A49_7A4A_7A4B),
  (0xB764, 0x7A4C_7A4D_7A4E_7A4F_7A50_7A52_7A53_7A54_7A55_7A56_7A58_7A59),
  (0xB770, 0x7A5A_7A5B_7A5C_7A5D_7A5E_7A5F_7A60_7A61_7A62_7A63_7A64_7A65),
  (0xB77C, 0x7A66_7A67_7A68),
  (0xB780, 0x7A69_7A6A_7A6B_7A6C_7A6D_7A6E_7A6F_7A71_7A72_7A73_7A75_7A7B),
  (0xB78C, 0x7A7C_7A7D_7A7E_7A82_7A85_7A87_7A89_7A8A_7A8B_7A8C_7A8E_7A8F),
  (0xB798, 0x7A90_7A93_7A94_7A99_7A9A_7A9B_7A9E_7AA1_7AA2_8D30_53D1_7F5A),
  (0xB7A4, 0x7B4F_4F10_4E4F_9600_6CD5_73D0_85E9_5E06_756A_7FFB_6A0A_77FE),
  (0xB7B0, 0x9492_7E41_51E1_70E6_53CD_8FD4_8303_8D29_72AF_996D_6CDB_574A),
  (0xB7BC, 0x82B3_65B9_80AA_623F_9632_59A8_4EFF_8BBF_7EBA_653E_83F2_975E),
  (0xB7C8, 0x5561_98DE_80A5_532A_8BFD_5420_80BA_5E9F_6CB8_8D39_82AC_915A),
  (0xB7D4, 0x5429_6C1B_5206_7EB7_575F_711A_6C7E_7C89_594B_4EFD_5FFF_6124),
  (0xB7E0, 0x7CAA_4E30_5C01_67AB_8702_5CF0_950B_98CE_75AF_70FD_9022_51AF),
  (0xB7EC, 0x7F1D_8BBD_5949_51E4_4F5B_5426_592B_6577_80A4_5B75_6276_62C2),
  (0xB7F8, 0x8F90_5E45_6C1F_7B26_4F0F_4FD8_670D),
  (0xB840, 0x7AA3_7AA4_7AA7_7AA9_7AAA_7AAB_7AAE_7AAF_7AB0_7AB1_7AB2_7AB4),
  (0xB84C, 0x7AB5_7AB6_7AB7_7AB8_7AB9_7ABA_7ABB_7ABC_7ABD_7ABE_7AC0_7AC1),
  (0xB858, 0x7AC2_7AC3_7AC4_7AC5_7AC6_7AC7_7AC8_7AC9_7ACA_7ACC_7ACD_7ACE),
  (0xB864, 0x7ACF_7AD0_7AD1_7AD2_7AD3_7AD4_7AD5_7AD7_7AD8_7ADA_7ADB_7ADC),
  (0xB870, 0x7ADD_7AE1_7AE2_7AE4_7AE7_7AE8_7AE9_7AEA_7AEB_7AEC_7AEE_7AF0),
  (0xB87C, 0x7AF1_7AF2_7AF3),
  (0xB880, 0x7AF4_7AF5_7AF6_7AF7_7AF8_7AFB_7AFC_7AFE_7B00_7B01_7B02_7B05),
  (0xB88C, 0x7B07_7B09_7B0C_7B0D_7B0E_7B10_7B12_7B13_7B16_7B17_7B18_7B1A),
  (0xB898, 0x7B1C_7B1D_7B1F_7B21_7B22_7B23_7B27_7B29_7B2D_6D6E_6DAA_798F),
  (0xB8A4, 0x88B1_5F17_752B_629A_8F85_4FEF_91DC_65A7_812F_8151_5E9C_8150),
  (0xB8B0, 0x8D74_526F_8986_8D4B_590D_5085_4ED8_961C_7236_8179_8D1F_5BCC),
  (0xB8BC, 0x8BA3_9644_5987_7F1A_5490_5676_560E_8BE5_6539_6982_9499_76D6),
  (0xB8C8, 0x6E89_5E72_7518_6746_67D1_7AFF_809D_8D76_611F_79C6_6562_8D63),
  (0xB8D4, 0x5188_521A_94A2_7F38_809B_7EB2_5C97_6E2F_6760_7BD9_768B_9AD8),
  (0xB8E0, 0x818F_7F94_7CD5_641E_9550_7A3F_544A_54E5_6B4C_6401_6208_9E3D),
  (0xB8EC, 0x80F3_7599_5272_9769_845B_683C_86E4_9601_9694_94EC_4E2A_5404),
  (0xB8F8, 0x7ED9_6839_8DDF_8015_66F4_5E9A_7FB9),
  (0xB940, 0x7B2F_7B30_7B32_7B34_7B35_7B36_7B37_7B39_7B3B_7B3D_7B3F_7B40),
  (0xB94C, 0x7B41_7B42_7B43_7B44_7B46_7B48_7B4A_7B4D_7B4E_7B53_7B55_7B57),
  (0xB958, 0x7B59_7B5C_7B5E_7B5F_7B61_7B63_7B64_7B65_7B66_7B67_7B68_7B69),
  (0xB964, 0x7B6A_7B6B_7B6C_7B6D_7B6F_7B70_7B73_7B74_7B76_7B78_7B7A_7B7C),
  (0xB970, 0x7B7D_7B7F_7B81_7B82_7B83_7B84_7B86_7B87_7B88_7B89_7B8A_7B8B),
  (0xB97C, 0x7B8C_7B8E_7B8F),
  (0xB980, 0x7B91_7B92_7B93_7B96_7B98_7B99_7B9A_7B9B_7B9E_7B9F_7BA0_7BA3),
  (0xB98C, 0x7BA4_7BA5_7BAE_7BAF_7BB0_7BB2_7BB3_7BB5_7BB6_7BB7_7BB9_7BBA),
  (0xB998, 0x7BBB_7BBC_7BBD_7BBE_7BBF_7BC0_7BC2_7BC3_7BC4_57C2_803F_6897),
  (0xB9A4, 0x5DE5_653B_529F_606D_9F9A_4F9B_8EAC_516C_5BAB_5F13_5DE9_6C5E),
  (0xB9B0, 0x62F1_8D21_5171_94A9_52FE_6C9F_82DF_72D7_57A2_6784_8D2D_591F),
  (0xB9BC, 0x8F9C_83C7_5495_7B8D_4F30_6CBD_5B64_59D1_9F13_53E4_86CA_9AA8),
  (0xB9C8, 0x8C37_80A1_6545_987E_56FA_96C7_522E_74DC_5250_5BE1_6302_8902),
  (0xB9D4, 0x4E56_62D0_602A_68FA_5173_5B98_51A0_89C2_7BA1_9986_7F50_60EF),
  (0xB9E0, 0x704C_8D2F_5149_5E7F_901B_7470_89C4_572D_7845_5F52_9F9F_95FA),
  (0xB9EC, 0x8F68_9B3C_8BE1_7678_6842_67DC_8DEA_8D35_523D_8F8A_6EDA_68CD),
  (0xB9F8, 0x9505_90ED_56FD_679C_88F9_8FC7_54C8),
  (0xBA40, 0x7BC5_7BC8_7BC9_7BCA_7BCB_7BCD_7BCE_7BCF_7BD0_7BD2_7BD4_7BD5),
  (0xBA4C, 0x7BD6_7BD7_7BD8_7BDB_7BDC_7BDE_7BDF_7BE0_7BE2_7BE3_7BE4_7BE7),
  (0xBA58, 0x7BE8_7BE9_7BEB_7BEC_7BED_7BEF_7BF0_7BF2_7BF3_7BF4_7BF5_7BF6),
  (0xBA64, 0x7BF8_7BF9_7BFA_7BFB_7BFD_7BFF_7C00_7C01_7C02_7C03_7C04_7C05),
  (0xBA70, 0x7C06_7C08_7C09_7C0A_7C0D_7C0E_7C10_7C11_7C12_7C13_7C14_7C15),
  (0xBA7C, 0x7C17_7C18_7C19),
  (0xBA80, 0x7C1A_7C1B_7C1C_7C1D_7C1E_7C20_7C21_7C22_7C23_7C24_7C25_7C28),
  (0xBA8C, 0x7C29_7C2B_7C2C_7C2D_7C2E_7C2F_7C30_7C31_7C32_7C33_7C34_7C35),
  (0xBA98, 0x7C36_7C37_7C39_7C3A_7C3B_7C3C_7C3D_7C3E_7C42_9AB8_5B69_6D77),
  (0xBAA4, 0x6C26_4EA5_5BB3_9A87_9163_61A8_90AF_97E9_542B_6DB5_5BD2_51FD),
  (0xBAB0, 0x558A_7F55_7FF0_64BC_634D_65F1_61BE_608D_710A_6C57_6C49_592F),
  (0xBABC, 0x676D_822A_58D5_568E_8C6A_6BEB_90DD_597D_8017_53F7_6D69_5475),
  (0xBAC8, 0x559D_8377_83CF_6838_79BE_548C_4F55_5408_76D2_8C89_9602_6CB3),
  (0xBAD4, 0x6DB8_8D6B_8910_9E64_8D3A_563F_9ED1_75D5_5F88_72E0_6068_54FC),
  (0xBAE0, 0x4EA8_6A2A_8861_6052_8F70_54C4_70D8_8679_9E3F_6D2A_5B8F_5F18),
  (0xBAEC, 0x7EA2_5589_4FAF_7334_543C_539A_5019_540E_547C_4E4E_5FFD_745A),
  (0xBAF8, 0x58F6_846B_80E1_8774_72D0_7CCA_6E56),
  (0xBB40, 0x7C43_7C44_7C45_7C46_7C47_7C48_7C49_7C4A_7C4B_7C4C_7C4E_7C4F),
  (0xBB4C, 0x7C50_7C51_7C52_7C53_7C54_7C55_7C56_7C57_7C58_7C59_7C5A_7C5B),
  (0xBB58, 0x7C5C_7C5D_7C5E_7C5F_7C60_7C61_7C62_7C63_7C64_7C65_7C66_7C67),
  (0xBB64, 0x7C68_7C69_7C6A_7C6B_7C6C_7C6D_7C6E_7C6F_7C70_7C71_7C72_7C75),
  (0xBB70, 0x7C76_7C77_7C78_7C79_7C7A_7C7E_7C7F_7C80_7C81_7C82_7C83_7C84),
  (0xBB7C, 0x7C85_7C86_7C87),
  (0xBB80, 0x7C88_7C8A_7C8B_7C8C_7C8D_7C8E_7C8F_7C90_7C93_7C94_7C96_7C99),
  (0xBB8C, 0x7C9A_7C9B_7CA0_7CA1_7CA3_7CA6_7CA7_7CA8_7CA9_7CAB_7CAC_7CAD),
  (0xBB98, 0x7CAF_7CB0_7CB4_7CB5_7CB6_7CB7_7CB8_7CBA_7CBB_5F27_864E_552C),
  (0xBBA4, 0x62A4_4E92_6CAA_6237_82B1_54D7_534E_733E_6ED1_753B_5212_5316),
  (0xBBB0, 0x8BDD_69D0_5F8A_6000_6DEE_574F_6B22_73AF_6853_8FD8_7F13_6362),
  (0xBBBC, 0x60A3_5524_75EA_8C62_7115_6DA3_5BA6_5E7B_8352_614C_9EC4_78FA),
  (0xBBC8, 0x8757_7C27_7687_51F0_60F6_714C_6643_5E4C_604D_8C0E_7070_6325),
  (0xBBD4, 0x8F89_5FBD_6062_86D4_56DE_6BC1_6094_6167_5349_60E0_6666_8D3F),
  (0xBBE0, 0x79FD_4F1A_70E9_6C47_8BB3_8BF2_7ED8_8364_660F_5A5A_9B42_6D51),
  (0xBBEC, 0x6DF7_8C41_6D3B_4F19_706B_83B7_6216_60D1_970D_8D27_7978_51FB),
  (0xBBF8, 0x573E_57FA_673A_7578_7A3D_79EF_7B95),
  (0xBC40, 0x7CBF_7CC0_7CC2_7CC3_7CC4_7CC6_7CC9_7CCB_7CCE_7CCF_7CD0_7CD1),
  (0xBC4C, 0x7CD2_7CD3_7CD4_7CD8_7CDA_7CDB_7CDD_7CDE_7CE1_7CE2_7CE3_7CE4),
  (0xBC58, 0x7CE5_7CE6_7CE7_7CE9_7CEA_7CEB_7CEC_7CED_7CEE_7CF0_7CF1_7CF2),
  (0xBC64, 0x7CF3_7CF4_7CF5_7CF6_7CF7_7CF9_7CFA_7CFC_7CFD_7CFE_7CFF_7D00),
  (0xBC70, 0x7D01_7D02_7D03_7D04_7D05_7D06_7D07_7D08_7D09_7D0B_7D0C_7D0D),
  (0xBC7C, 0x7D0E_7D0F_7D10),
  (0xBC80, 0x7D11_7D12_7D13_7D14_7D15_7D16_7D17_7D18_7D19_7D1A_7D1B_7D1C),
  (0xBC8C, 0x7D1D_7D1E_7D1F_7D21_7D23_7D24_7D25_7D26_7D28_7D29_7D2A_7D2C),
  (0xBC98, 0x7D2D_7D2E_7D30_7D31_7D32_7D33_7D34_7D35_7D36_808C_9965_8FF9),
  (0xBCA4, 0x6FC0_8BA5_9E21_59EC_7EE9_7F09_5409_6781_68D8_8F91_7C4D_96C6),
  (0xBCB0, 0x53CA_6025_75BE_6C72_5373_5AC9_7EA7_6324_51E0_810A_5DF1_84DF),
  (0xBCBC, 0x6280_5180_5B63_4F0E_796D_5242_60B8_6D4E_5BC4_5BC2_8BA1_8BB0),
  (0xBCC8, 0x65E2_5FCC_9645_5993_7EE7_7EAA_5609_67B7_5939_4F73_5BB6_52A0),
  (0xBCD4, 0x835A_988A_8D3E_7532_94BE_5047_7A3C_4EF7_67B6_9A7E_5AC1_6B7C),
  (0xBCE0, 0x76D1_575A_5C16_7B3A_95F4_714E_517C_80A9_8270_5978_7F04_8327),
  (0xBCEC, 0x68C0_67EC_78B1_7877_62E3_6361_7B80_4FED_526A_51CF_8350_69DB),
  (0xBCF8, 0x9274_8DF5_8D31_89C1_952E_7BAD_4EF6),
  (0xBD40, 0x7D37_7D38_7D39_7D3A_7D3B_7D3C_7D3D_7D3E_7D3F_7D40_7D41_7D42),
  (0xBD4C, 0x7D43_7D44_7D45_7D46_7D47_7D48_7D49_7D4A_7D4B_7D4C_7D4D_7D4E),
  (0xBD58, 0x7D4F_7D50_7D51_7D52_7D53_7D54_7D55_7D56_7D57_7D58_7D59_7D5A),
  (0xBD64, 0x7D5B_7D5C_7D5D_7D5E_7D5F_7D60_7D61_7D62_7D63_7D64_7D65_7D66),
  (0xBD70, 0x7D67_7D68_7D69_7D6A_7D6B_7D6C_7D6D_7D6F_7D70_7D71_7D72_7D73),
  (0xBD7C, 0x7D74_7D75_7D76),
  (0xBD80, 0x7D78_7D79_7D7A_7D7B_7D7C_7D7D_7D7E_7D7F_7D80_7D81_7D82_7D83),
  (0xBD8C, 0x7D84_7D85_7D86_7D87_7D88_7D89_7D8A_7D8B_7D8C_7D8D_7D8E_7D8F),
  (0xBD98, 0x7D90_7D91_7D92_7D93_7D94_7D95_7D96_7D97_7D98_5065_8230_5251),
  (0xBDA4, 0x996F_6E10_6E85_6DA7_5EFA_50F5_59DC_5C06_6D46_6C5F_7586_848B),
  (0xBDB0, 0x6868_5956_8BB2_5320_9171_964D_8549_6912_7901_7126_80F6_4EA4),
  (0xBDBC, 0x90CA_6D47_9A84_5A07_56BC_6405_94F0_77EB_4FA5_811A_72E1_89D2),
  (0xBDC8, 0x997A_7F34_7EDE_527F_6559_9175_8F7F_8F83_53EB_7A96_63ED_63A5),
  (0xBDD4, 0x7686_79F8_8857_9636_622A_52AB_8282_6854_6770_6377_776B_7AED),
  (0xBDE0, 0x6D01_7ED3_89E3_59D0_6212_85C9_82A5_754C_501F_4ECB_75A5_8BEB),
  (0xBDEC, 0x5C4A_5DFE_7B4B_65A4_91D1_4ECA_6D25_895F_7D27_9526_4EC5_8C28),
  (0xBDF8, 0x8FDB_9773_664B_7981_8FD1_70EC_6D78),
  (0xBE40, 0x7D99_7D9A_7D9B_7D9C_7D9D_7D9E_7D9F_7DA0_7DA1_7DA2_7DA3_7DA4),
  (0xBE4C, 0x7DA5_7DA7_7DA8_7DA9_7DAA_7DAB_7DAC_7DAD_7DAF_7DB0_7DB1_7DB2),
  (0xBE58, 0x7DB3_7DB4_7DB5_7DB6_7DB7_7DB8_7DB9_7DBA_7DBB_7DBC_7DBD_7DBE),
  (0xBE64, 0x7DBF_7DC0_7DC1_7DC2_7DC3_7DC4_7DC5_7DC6_7DC7_7DC8_7DC9_7DCA),
  (0xBE70, 0x7DCB_7DCC_7DCD_7DCE_7DCF_7DD0_7DD1_7DD2_7DD3_7DD4_7DD5_7DD6),
  (0xBE7C, 0x7DD7_7DD8_7DD9),
  (0xBE80, 0x7DDA_7DDB_7DDC_7DDD_7DDE_7DDF_7DE0_7DE1_7DE2_7DE3_7DE4_7DE5),
  (0xBE8C, 0x7DE6_7DE7_7DE8_7DE9_7DEA_7DEB_7DEC_7DED_7DEE_7DEF_7DF0_7DF1),
  (0xBE98, 0x7DF2_7DF3_7DF4_7DF5_7DF6_7DF7_7DF8_7DF9_7DFA_5C3D_52B2_8346),
  (0xBEA4, 0x5162_830E_775B_6676_9CB8_4EAC_60CA_7CBE_7CB3_7ECF_4E95_8B66),
  (0xBEB0, 0x666F_9888_9759_5883_656C_955C_5F84_75C9_9756_7ADF_7ADE_51C0),
  (0xBEBC, 0x70AF_7A98_63EA_7A76_7EA0_7396_97ED_4E45_7078_4E5D_9152_53A9),
  (0xBEC8, 0x6551_65E7_81FC_8205_548E_5C31_759A_97A0_62D8_72D9_75BD_5C45),
  (0xBED4, 0x9A79_83CA_5C40_5480_77E9_4E3E_6CAE_805A_62D2_636E_5DE8_5177),
  (0xBEE0, 0x8DDD_8E1E_952F_4FF1_53E5_60E7_70AC_5267_6350_9E43_5A1F_5026),
  (0xBEEC, 0x7737_5377_7EE2_6485_652B_6289_6398_5014_7235_89C9_51B3_8BC0),
  (0xBEF8, 0x7EDD_5747_83CC_94A7_519B_541B_5CFB),
  (0xBF40, 0x7DFB_7DFC_7DFD_7DFE_7DFF_7E00_7E01_7E02_7E03_7E04_7E05_7E06),
  (0xBF4C, 0x7E07_7E08_7E09_7E0A_7E0B_7E0C_7E0D_7E0E_7E0F_7E10_7E11_7E12),
  (0xBF58, 0x7E13_7E14_7E15_7E16_7E17_7E18_7E19_7E1A_7E1B_7E1C_7E1D_7E1E),
  (0xBF64, 0x7E1F_7E20_7E21_7E22_7E23_7E24_7E25_7E26_7E27_7E28_7E29_7E2A),
  (0xBF70, 0x7E2B_7E2C_7E2D_7E2E_7E2F_7E30_7E31_7E32_7E33_7E34_7E35_7E36),
  (0xBF7C, 0x7E37_7E38_7E39),
  (0xBF80, 0x7E3A_7E3C_7E3D_7E3E_7E3F_7E40_7E42_7E43_7E44_7E45_7E46_7E48),
  (0xBF8C, 0x7E49_7E4A_7E4B_7E4C_7E4D_7E4E_7E4F_7E50_7E51_7E52_7E53_7E54),
  (0xBF98, 0x7E55_7E56_7E57_7E58_7E59_7E5A_7E5B_7E5C_7E5D_4FCA_7AE3_6D5A),
  (0xBFA4, 0x90E1_9A8F_5580_5496_5361_54AF_5F00_63E9_6977_51EF_6168_520A),
  (0xBFB0, 0x582A_52D8_574E_780D_770B_5EB7_6177_7CE0_625B_6297_4EA2_7095),
  (0xBFBC, 0x8003_62F7_70E4_9760_5777_82DB_67EF_68F5_78D5_9897_79D1_58F3),
  (0xBFC8, 0x54B3_53EF_6E34_514B_523B_5BA2_8BFE_80AF_5543_57A6_6073_5751),
  (0xBFD4, 0x542D_7A7A_6050_5B54_63A7_62A0_53E3_6263_5BC7_67AF_54ED_7A9F),
  (0xBFE0, 0x82E6_9177_5E93_88E4_5938_57AE_630E_8DE8_80EF_5757_7B77_4FA9),
  (0xBFEC, 0x5FEB_5BBD_6B3E_5321_7B50_72C2_6846_77FF_7736_65F7_51B5_4E8F),
  (0xBFF8, 0x76D4_5CBF_7AA5_8475_594E_9B41_5080),
  (0xC040, 0x7E5E_7E5F_7E60_7E61_7E62_7E63_7E64_7E65_7E66_7E67_7E68_7E69),
  (0xC04C, 0x7E6A_7E6B_7E6C_7E6D_7E6E_7E6F_7E70_7E71_7E72_7E73_7E74_7E75),
  (0xC058, 0x7E76_7E77_7E78_7E79_7E7A_7E7B_7E7C_7E7D_7E7E_7E7F_7E80_7E81),
  (0xC064, 0x7E83_7E84_7E85_7E86_7E87_7E88_7E89_7E8A_7E8B_7E8C_7E8D_7E8E),
  (0xC070, 0x7E8F_7E90_7E91_7E92_7E93_7E94_7E95_7E96_7E97_7E98_7E99_7E9A),
  (0xC07C, 0x7E9C_7E9D_7E9E),
  (0xC080, 0x7EAE_7EB4_7EBB_7EBC_7ED6_7EE4_7EEC_7EF9_7F0A_7F10_7F1E_7F37),
  (0xC08C, 0x7F39_7F3B_7F3C_7F3D_7F3E_7F3F_7F40_7F41_7F43_7F46_7F47_7F48),
  (0xC098, 0x7F49_7F4A_7F4B_7F4C_7F4D_7F4E_7F4F_7F52_7F53_9988_6127_6E83),
  (0xC0A4, 0x5764_6606_6346_56F0_62EC_6269_5ED3_9614_5783_62C9_5587_8721),
  (0xC0B0, 0x814A_8FA3_5566_83B1_6765_8D56_84DD_5A6A_680F_62E6_7BEE_9611),
  (0xC0BC, 0x5170_6F9C_8C30_63FD_89C8_61D2_7F06_70C2_6EE5_7405_6994_72FC),
  (0xC0C8, 0x5ECA_90CE_6717_6D6A_635E_52B3_7262_8001_4F6C_59E5_916A_70D9),
  (0xC0D4, 0x6D9D_52D2_4E50_96F7_956D_857E_78CA_7D2F_5121_5792_64C2_808B),
  (0xC0E0, 0x7C7B_6CEA_68F1_695E_51B7_5398_68A8_7281_9ECE_7BF1_72F8_79BB),
  (0xC0EC, 0x6F13_7406_674E_91CC_9CA4_793C_8389_8354_540F_6817_4E3D_5389),
  (0xC0F8, 0x52B1_783E_5386_5229_5088_4F8B_4FD0),
  (0xC140, 0x7F56_7F59_7F5B_7F5C_7F5D_7F5E_7F60_7F63_7F64_7F65_7F66_7F67),
  (0xC14C, 0x7F6B_7F6C_7F6D_7F6F_7F70_7F73_7F75_7F76_7F77_7F78_7F7A_7F7B),
  (0xC158, 0x7F7C_7F7D_7F7F_7F80_7F82_7F83_7F84_7F85_7F86_7F87_7F88_7F89),
  (0xC164, 0x7F8B_7F8D_7F8F_7F90_7F91_7F92_7F93_7F95_7F96_7F97_7F98_7F99),
  (0xC170, 0x7F9B_7F9C_7FA0_7FA2_7FA3_7FA5_7FA6_7FA8_7FA9_7FAA_7FAB_7FAC),
  (0xC17C, 0x7FAD_7FAE_7FB1),
  (0xC180, 0x7FB3_7FB4_7FB5_7FB6_7FB7_7FBA_7FBB_7FBE_7FC0_7FC2_7FC3_7FC4),
  (0xC18C, 0x7FC6_7FC7_7FC8_7FC9_7FCB_7FCD_7FCF_7FD0_7FD1_7FD2_7FD3_7FD6),
  (0xC198, 0x7FD7_7FD9_7FDA_7FDB_7FDC_7FDD_7FDE_7FE2_7FE3_75E2_7ACB_7C92),
  (0xC1A4, 0x6CA5_96B6_529B_7483_54E9_4FE9_8054_83B2_8FDE_9570_5EC9_601C),
  (0xC1B0, 0x6D9F_5E18_655B_8138_94FE_604B_70BC_7EC3_7CAE_51C9_6881_7CB1),
  (0xC1BC, 0x826F_4E24_8F86_91CF_667E_4EAE_8C05_64A9_804A_50DA_7597_71CE),
  (0xC1C8, 0x5BE5_8FBD_6F66_4E86_6482_9563_5ED6_6599_5217_88C2_70C8_52A3),
  (0xC1D4, 0x730E_7433_6797_78F7_9716_4E34_90BB_9CDE_6DCB_51DB_8D41_541D),
  (0xC1E0, 0x62CE_73B2_83F1_96F6_9F84_94C3_4F36_7F9A_51CC_7075_9675_5CAD),
  (0xC1EC, 0x9886_53E6_4EE4_6E9C_7409_69B4_786B_998F_7559_5218_7624_6D41),
  (0xC1F8, 0x67F3_516D_9F99_804B_5499_7B3C_7ABF),
  (0xC240, 0x7FE4_7FE7_7FE8_7FEA_7FEB_7FEC_7FED_7FEF_7FF2_7FF4_7FF5_7FF6),
  (0xC24C, 0x7FF7_7FF8_7FF9_7FFA_7FFD_7FFE_7FFF_8002_8007_8008_8009_800A),
  (0xC258, 0x800E_800F_8011_8013_801A_801B_801D_801E_801F_8021_8023_8024),
  (0xC264, 0x802B_802C_802D_802E_802F_8030_8032_8034_8039_803A_803C_803E),
  (0xC270, 0x8040_8041_8044_8045_8047_8048_8049_804E_804F_8050_8051_8053),
  (0xC27C, 0x8055_8056_8057),
  (0xC280, 0x8059_805B_805C_805D_805E_805F_8060_8061_8062_8063_8064_8065),
  (0xC28C, 0x8066_8067_8068_806B_806C_806D_806E_806F_8070_8072_8073_8074),
  (0xC298, 0x8075_8076_8077_8078_8079_807A_807B_807C_807D_9686_5784_62E2),
  (0xC2A4, 0x9647_697C_5A04_6402_7BD3_6F0F_964B_82A6_5362_9885_5E90_7089),
  (0xC2B0, 0x63B3_5364_864F_9C81_9E93_788C_9732_8DEF_8D42_9E7F_6F5E_7984),
  (0xC2BC, 0x5F55_9646_622E_9A74_5415_94DD_4FA3_65C5_5C65_5C61_7F15_8651),
  (0xC2C8, 0x6C2F_5F8B_7387_6EE4_7EFF_5CE6_631B_5B6A_6EE6_5375_4E71_63A0),
  (0xC2D4, 0x7565_62A1_8F6E_4F26_4ED1_6CA6_7EB6_8BBA_841D_87BA_7F57_903B),
  (0xC2E0, 0x9523_7BA9_9AA1_88F8_843D_6D1B_9A86_7EDC_5988_9EBB_739B_7801),
  (0xC2EC, 0x8682_9A6C_9A82_561B_5417_57CB_4E70_9EA6_5356_8FC8_8109_7792),
  (0xC2F8, 0x9992_86EE_6EE1_8513_66FC_6162_6F2B),
  (0xC340, 0x807E_8081_8082_8085_8088_808A_808D_808E_808F_8090_8091_8092),
  (0xC34C, 0x8094_8095_8097_8099_809E_80A3_80A6_80A7_80A8_80AC_80B0_80B3),
  (0xC358, 0x80B5_80B6_80B8_80B9_80BB_80C5_80C7_80C8_80C9_80CA_80CB_80CF),
  (0xC364, 0x80D0_80D1_80D2_80D3_80D4_80D5_80D8_80DF_80E0_80E2_80E3_80E6),
  (0xC370, 0x80EE_80F5_80F7_80F9_80FB_80FE_80FF_8100_8101_8103_8104_8105),
  (0xC37C, 0x8107_8108_810B),
  (0xC380, 0x810C_8115_8117_8119_811B_811C_811D_811F_8120_8121_8122_8123),
  (0xC38C, 0x8124_8125_8126_8127_8128_8129_812A_812B_812D_812E_8130_8133),
  (0xC398, 0x8134_8135_8137_8139_813A_813B_813C_813D_813F_8C29_8292_832B),
  (0xC3A4, 0x76F2_6C13_5FD9_83BD_732B_8305_951A_6BDB_77DB_94C6_536F_8302),
  (0xC3B0, 0x5192_5E3D_8C8C_8D38_4E48_73AB_679A_6885_9176_9709_7164_6CA1),
  (0xC3BC, 0x7709_5A92_9541_6BCF_7F8E_6627_5BD0_59B9_5A9A_95E8_95F7_4EEC),
  (0xC3C8, 0x840C_8499_6AAC_76DF_9530_731B_68A6_5B5F_772F_919A_9761_7CDC),
  (0xC3D4, 0x8FF7_8C1C_5F25_7C73_79D8_89C5_6CCC_871C_5BC6_5E42_68C9_7720),
  (0xC3E0, 0x7EF5_5195_514D_52C9_5A29_7F05_9762_82D7_63CF_7784_85D0_79D2),
  (0xC3EC, 0x6E3A_5E99_5999_8511_706D_6C11_62BF_76BF_654F_60AF_95FD_660E),
  (0xC3F8, 0x879F_9E23_94ED_540D_547D_8C2C_6478),
  (0xC440, 0x8140_8141_8142_8143_8144_8145_8147_8149_814D_814E_814F_8152),
  (0xC44C, 0x8156_8157_8158_815B_815C_815D_815E_815F_8161_8162_8163_8164),
  (0xC458, 0x8166_8168_816A_816B_816C_816F_8172_8173_8175_8176_8177_8178),
  (0xC464, 0x8181_8183_8184_8185_8186_8187_8189_818B_818C_818D_818E_8190),
  (0xC470, 0x8192_8193_8194_8195_8196_8197_8199_819A_819E_819F_81A0_81A1),
  (0xC47C, 0x81A2_81A4_81A5),
  (0xC480, 0x81A7_81A9_81AB_81AC_81AD_81AE_81AF_81B0_81B1_81B2_81B4_81B5),
  (0xC48C, 0x81B6_81B7_81B8_81B9_81BC_81BD_81BE_81BF_81C4_81C5_81C7_81C8),
  (0xC498, 0x81C9_81CB_81CD_81CE_81CF_81D0_81D1_81D2_81D3_6479_8611_6A21),
  (0xC4A4, 0x819C_78E8_6469_9B54_62B9_672B_83AB_58A8_9ED8_6CAB_6F20_5BDE),
  (0xC4B0, 0x964C_8C0B_725F_67D0_62C7_7261_4EA9_59C6_6BCD_5893_66AE_5E55),
  (0xC4BC, 0x52DF_6155_6728_76EE_7766_7267_7A46_62FF_54EA_5450_94A0_90A3),
  (0xC4C8, 0x5A1C_7EB3_6C16_4E43_5976_8010_5948_5357_7537_96BE_56CA_6320),
  (0xC4D4, 0x8111_607C_95F9_6DD6_5462_9981_5185_5AE9_80FD_59AE_9713_502A),
  (0xC4E0, 0x6CE5_5C3C_62DF_4F60_533F_817B_9006_6EBA_852B_62C8_5E74_78BE),
  (0xC4EC, 0x64B5_637B_5FF5_5A18_917F_9E1F_5C3F_634F_8042_5B7D_556E_954A),
  (0xC4F8, 0x954D_6D85_60A8_67E0_72DE_51DD_5B81),
  (0xC540, 0x81D4_81D5_81D6_81D7_81D8_81D9_81DA_81DB_81DC_81DD_81DE_81DF),
  (0xC54C, 0x81E0_81E1_81E2_81E4_81E5_81E6_81E8_81E9_81EB_81EE_81EF_81F0),
  (0xC558, 0x81F1_81F2_81F5_81F6_81F7_81F8_81F9_81FA_81FD_81FF_8203_8207),
  (0xC564, 0x8208_8209_820A_820B_820E_820F_8211_8213_8215_8216_8217_8218),
  (0xC570, 0x8219_821A_821D_8220_8224_8225_8226_8227_8229_822E_8232_823A),
  (0xC57C, 0x823C_823D_823F),
  (0xC580, 0x8240_8241_8242_8243_8245_8246_8248_824A_824C_824D_824E_8250),
  (0xC58C, 0x8251_8252_8253_8254_8255_8256_8257_8259_825B_825C_825D_825E),
  (0xC598, 0x8260_8261_8262_8263_8264_8265_8266_8267_8269_62E7_6CDE_725B),
  (0xC5A4, 0x626D_94AE_7EBD_8113_6D53_519C_5F04_5974_52AA_6012_5973_6696),
  (0xC5B0, 0x8650_759F_632A_61E6_7CEF_8BFA_54E6_6B27_9E25_6BB4_85D5_5455),
  (0xC5BC, 0x5076_6CA4_556A_8DB4_722C_5E15_6015_7436_62CD_6392_724C_5F98),
  (0xC5C8, 0x6E43_6D3E_6500_6F58_76D8_78D0_76FC_7554_5224_53DB_4E53_5E9E),
  (0xC5D4, 0x65C1_802A_80D6_629B_5486_5228_70AE_888D_8DD1_6CE1_5478_80DA),
  (0xC5E0, 0x57F9_88F4_8D54_966A_914D_4F69_6C9B_55B7_76C6_7830_62A8_70F9),
  (0xC5EC, 0x6F8E_5F6D_84EC_68DA_787C_7BF7_81A8_670B_9E4F_6367_78B0_576F),
  (0xC5F8, 0x7812_9739_6279_62AB_5288_7435_6BD7),
  (0xC640, 0x826A_826B_826C_826D_8271_8275_8276_8277_8278_827B_827C_8280),
  (0xC64C, 0x8281_8283_8285_8286_8287_8289_828C_8290_8293_8294_8295_8296),
  (0xC658, 0x829A_829B_829E_82A0_82A2_82A3_82A7_82B2_82B5_82B6_82BA_82BB),
  (0xC664, 0x82BC_82BF_82C0_82C2_82C3_82C5_82C6_82C9_82D0_82D6_82D9_82DA),
  (0xC670, 0x82DD_82E2_82E7_82E8_82E9_82EA_82EC_82ED_82EE_82F0_82F2_82F3),
  (0xC67C, 0x82F5_82F6_82F8),
  (0xC680, 0x82FA_82FC_82FD_82FE_82FF_8300_830A_830B_830D_8310_8312_8313),
  (0xC68C, 0x8316_8318_8319_831D_831E_831F_8320_8321_8322_8323_8324_8325),
  (0xC698, 0x8326_8329_832A_832E_8330_8332_8337_833B_833D_5564_813E_75B2),
  (0xC6A4, 0x76AE_5339_75DE_50FB_5C41_8B6C_7BC7_504F_7247_9A97_98D8_6F02),
  (0xC6B0, 0x74E2_7968_6487_77A5_62FC_9891_8D2B_54C1_8058_4E52_576A_82F9),
  (0xC6BC, 0x840D_5E73_51ED_74F6_8BC4_5C4F_5761_6CFC_9887_5A46_7834_9B44),
  (0xC6C8, 0x8FEB_7C95_5256_6251_94FA_4EC6_8386_8461_83E9_84B2_57D4_6734),
  (0xC6D4, 0x5703_666E_6D66_8C31_66DD_7011_671F_6B3A_6816_621A_59BB_4E03),
  (0xC6E0, 0x51C4_6F06_67D2_6C8F_5176_68CB_5947_6B67_7566_5D0E_8110_9F50),
  (0xC6EC, 0x65D7_7948_7941_9A91_8D77_5C82_4E5E_4F01_542F_5951_780C_5668),
  (0xC6F8, 0x6C14_8FC4_5F03_6C7D_6CE3_8BAB_6390),
  (0xC740, 0x833E_833F_8341_8342_8344_8345_8348_834A_834B_834C_834D_834E),
  (0xC74C, 0x8353_8355_8356_8357_8358_8359_835D_8362_8370_8371_8372_8373),
  (0xC758, 0x8374_8375_8376_8379_837A_837E_837F_8380_8381_8382_8383_8384),
  (0xC764, 0x8387_8388_838A_838B_838C_838D_838F_8390_8391_8394_8395_8396),
  (0xC770, 0x8397_8399_839A_839D_839F_83A1_83A2_83A3_83A4_83A5_83A6_83A7),
  (0xC77C, 0x83AC_83AD_83AE),
  (0xC780, 0x83AF_83B5_83BB_83BE_83BF_83C2_83C3_83C4_83C6_83C8_83C9_83CB),
  (0xC78C, 0x83CD_83CE_83D0_83D1_83D2_83D3_83D5_83D7_83D9_83DA_83DB_83DE),
  (0xC798, 0x83E2_83E3_83E4_83E6_83E7_83E8_83EB_83EC_83ED_6070_6D3D_7275),
  (0xC7A4, 0x6266_948E_94C5_5343_8FC1_7B7E_4EDF_8C26_4E7E_9ED4_94B1_94B3),
  (0xC7B0, 0x524D_6F5C_9063_6D45_8C34_5811_5D4C_6B20_6B49_67AA_545B_8154),
  (0xC7BC, 0x7F8C_5899_8537_5F3A_62A2_6A47_9539_6572_6084_6865_77A7_4E54),
  (0xC7C8, 0x4FA8_5DE7_9798_64AC_7FD8_5CED_4FCF_7A8D_5207_8304_4E14_602F),
  (0xC7D4, 0x7A83_94A6_4FB5_4EB2_79E6_7434_52E4_82B9_64D2_79BD_5BDD_6C81),
  (0xC7E0, 0x9752_8F7B_6C22_503E_537F_6E05_64CE_6674_6C30_60C5_9877_8BF7),
  (0xC7EC, 0x5E86_743C_7A77_79CB_4E18_90B1_7403_6C42_56DA_914B_6CC5_8D8B),
  (0xC7F8, 0x533A_86C6_66F2_8EAF_5C48_9A71_6E20),
  (0xC840, 0x83EE_83EF_83F3_83F4_83F5_83F6_83F7_83FA_83FB_83FC_83FE_83FF),
  (0xC84C, 0x8400_8402_8405_8407_8408_8409_840A_8410_8412_8413_8414_8415),
  (0xC858, 0x8416_8417_8419_841A_841B_841E_841F_8420_8421_8422_8423_8429),
  (0xC864, 0x842A_842B_842C_842D_842E_842F_8430_8432_8433_8434_8435_8436),
  (0xC870, 0x8437_8439_843A_843B_843E_843F_8440_8441_8442_8443_8444_8445),
  (0xC87C, 0x8447_8448_8449),
  (0xC880, 0x844A_844B_844C_844D_844E_844F_8450_8452_8453_8454_8455_8456),
  (0xC88C, 0x8458_845D_845E_845F_8460_8462_8464_8465_8466_8467_8468_846A),
  (0xC898, 0x846E_846F_8470_8472_8474_8477_8479_847B_847C_53D6_5A36_9F8B),
  (0xC8A4, 0x8DA3_53BB_5708_98A7_6743_919B_6CC9_5168_75CA_62F3_72AC_5238),
  (0xC8B0, 0x529D_7F3A_7094_7638_5374_9E4A_69B7_786E_96C0_88D9_7FA4_7136),
  (0xC8BC, 0x71C3_5189_67D3_74E4_58E4_6518_56B7_8BA9_9976_6270_7ED5_60F9),
  (0xC8C8, 0x70ED_58EC_4EC1_4EBA_5FCD_97E7_4EFB_8BA4_5203_598A_7EAB_6254),
  (0xC8D4, 0x4ECD_65E5_620E_8338_84C9_8363_878D_7194_6EB6_5BB9_7ED2_5197),
  (0xC8E0, 0x63C9_67D4_8089_8339_8815_5112_5B7A_5982_8FB1_4E73_6C5D_5165),
  (0xC8EC, 0x8925_8F6F_962E_854A_745E_9510_95F0_6DA6_82E5_5F31_6492_6D12),
  (0xC8F8, 0x8428_816E_9CC3_585E_8D5B_4E09_53C1),
  (0xC940, 0x847D_847E_847F_8480_8481_8483_8484_8485_8486_848A_848D_848F),
  (0xC94C, 0x8490_8491_8492_8493_8494_8495_8496_8498_849A_849B_849D_849E),
  (0xC958, 0x849F_84A0_84A2_84A3_84A4_84A5_84A6_84A7_84A8_84A9_84AA_84AB),
  (0xC964, 0x84AC_84AD_84AE_84B0_84B1_84B3_84B5_84B6_84B7_84BB_84BC_84BE),
  (0xC970, 0x84C0_84C2_84C3_84C5_84C6_84C7_84C8_84CB_84CC_84CE_84CF_84D2),
  (0xC97C, 0x84D4_84D5_84D7),
  (0xC980, 0x84D8_84D9_84DA_84DB_84DC_84DE_84E1_84E2_84E4_84E7_84E8_84E9),
  (0xC98C, 0x84EA_84EB_84ED_84EE_84EF_84F1_84F2_84F3_84F4_84F5_84F6_84F7),
  (0xC998, 0x84F8_84F9_84FA_84FB_84FD_84FE_8500_8501_8502_4F1E_6563_6851),
  (0xC9A4, 0x55D3_4E27_6414_9A9A_626B_5AC2_745F_8272_6DA9_68EE_50E7_838E),
  (0xC9B0, 0x7802_6740_5239_6C99_7EB1_50BB_5565_715E_7B5B_6652_73CA_82EB),
  (0xC9BC, 0x6749_5C71_5220_717D_886B_95EA_9655_64C5_8D61_81B3_5584_6C55),
  (0xC9C8, 0x6247_7F2E_5892_4F24_5546_8D4F_664C_4E0A_5C1A_88F3_68A2_634E),
  (0xC9D4, 0x7A0D_70E7_828D_52FA_97F6_5C11_54E8_90B5_7ECD_5962_8D4A_86C7),
  (0xC9E0, 0x820C_820D_8D66_6444_5C04_6151_6D89_793E_8BBE_7837_7533_547B),
  (0xC9EC, 0x4F38_8EAB_6DF1_5A20_7EC5_795E_6C88_5BA1_5A76_751A_80BE_614E),
  (0xC9F8, 0x6E17_58F0_751F_7525_7272_5347_7EF3),
  (0xCA40, 0x8503_8504_8505_8506_8507_8508_8509_850A_850B_850D_850E_850F),
  (0xCA4C, 0x8510_8512_8514_8515_8516_8518_8519_851B_851C_851D_851E_8520),
  (0xCA58, 0x8522_8523_8524_8525_8526_8527_8528_8529_852A_852D_852E_852F),
  (0xCA64, 0x8530_8531_8532_8533_8534_8535_8536_853E_853F_8540_8541_8542),
  (0xCA70, 0x8544_8545_8546_8547_854B_854C_854D_854E_854F_8550_8551_8552),
  (0xCA7C, 0x8553_8554_8555),
  (0xCA80, 0x8557_8558_855A_855B_855C_855D_855F_8560_8561_8562_8563_8565),
  (0xCA8C, 0x8566_8567_8569_856A_856B_856C_856D_856E_856F_8570_8571_8573),
  (0xCA98, 0x8575_8576_8577_8578_857C_857D_857F_8580_8581_7701_76DB_5269),
  (0xCAA4, 0x80DC_5723_5E08_5931_72EE_65BD_6E7F_8BD7_5C38_8671_5341_77F3),
  (0xCAB0, 0x62FE_65F6_4EC0_98DF_8680_5B9E_8BC6_53F2_77E2_4F7F_5C4E_9A76),
  (0xCABC, 0x59CB_5F0F_793A_58EB_4E16_67FF_4E8B_62ED_8A93_901D_52BF_662F),
  (0xCAC8, 0x55DC_566C_9002_4ED5_4F8D_91CA_9970_6C0F_5E02_6043_5BA4_89C6),
  (0xCAD4, 0x8BD5_6536_624B_9996_5B88_5BFF_6388_552E_53D7_7626_517D_852C),
  (0xCAE0, 0x67A2_68B3_6B8A_6292_8F93_53D4_8212_6DD1_758F_4E66_8D4E_5B70),
  (0xCAEC, 0x719F_85AF_6691_66D9_7F72_8700_9ECD_9F20_5C5E_672F_8FF0_6811),
  (0xCAF8, 0x675F_620D_7AD6_5885_5EB6_6570_6F31),
  (0xCB40, 0x8582_8583_8586_8588_8589_858A_858B_858C_858D_858E_8590_8591),
  (0xCB4C, 0x8592_8593_8594_8595_8596_8597_8598_8599_859A_859D_859E_859F),
  (0xCB58, 0x85A0_85A1_85A2_85A3_85A5_85A6_85A7_85A9_85AB_85AC_85AD_85B1),
  (0xCB64, 0x85B2_85B3_85B4_85B5_85B6_85B8_85BA_85BB_85BC_85BD_85BE_85BF),
  (0xCB70, 0x85C0_85C2_85C3_85C4_85C5_85C6_85C7_85C8_85CA_85CB_85CC_85CD),
  (0xCB7C, 0x85CE_85D1_85D2),
  (0xCB80, 0x85D4_85D6_85D7_85D8_85D9_85DA_85DB_85DD_85DE_85DF_85E0_85E1),
  (0xCB8C, 0x85E2_85E3_85E5_85E6_85E7_85E8_85EA_85EB_85EC_85ED_85EE_85EF),
  (0xCB98, 0x85F0_85F1_85F2_85F3_85F4_85F5_85F6_85F7_85F8_6055_5237_800D),
  (0xCBA4, 0x6454_8870_7529_5E05_6813_62F4_971C_53CC_723D_8C01_6C34_7761),
  (0xCBB0, 0x7A0E_542E_77AC_987A_821C_8BF4_7855_6714_70C1_65AF_6495_5636),
  (0xCBBC, 0x601D_79C1_53F8_4E1D_6B7B_8086_5BFA_55E3_56DB_4F3A_4F3C_9972),
  (0xCBC8, 0x5DF3_677E_8038_6002_9882_9001_5B8B_8BBC_8BF5_641C_8258_64DE),
  (0xCBD4, 0x55FD_82CF_9165_4FD7_7D20_901F_7C9F_50F3_5851_6EAF_5BBF_8BC9),
  (0xCBE0, 0x8083_9178_849C_7B97_867D_968B_968F_7EE5_9AD3_788E_5C81_7A57),
  (0xCBEC, 0x9042_96A7_795F_5B59_635F_7B0B_84D1_68AD_5506_7F29_7410_7D22),
  (0xCBF8, 0x9501_6240_584C_4ED6_5B83_5979_5854),
  (0xCC40, 0x85F9_85FA_85FC_85FD_85FE_8600_8601_8602_8603_8604_8606_8607),
  (0xCC4C, 0x8608_8609_860A_860B_860C_860D_860E_860F_8610_8612_8613_8614),
  (0xCC58, 0x8615_8617_8618_8619_861A_861B_861C_861D_861E_861F_8620_8621),
  (0xCC64, 0x8622_8623_8624_8625_8626_8628_862A_862B_862C_862D_862E_862F),
  (0xCC70, 0x8630_8631_8632_8633_8634_8635_8636_8637_8639_863A_863B_863D),
  (0xCC7C, 0x863E_863F_8640),
  (0xCC80, 0x8641_8642_8643_8644_8645_8646_8647_8648_8649_864A_864B_864C),
  (0xCC8C, 0x8652_8653_8655_8656_8657_8658_8659_865B_865C_865D_865F_8660),
  (0xCC98, 0x8661_8663_8664_8665_8666_8667_8668_8669_866A_736D_631E_8E4B),
  (0xCCA4, 0x8E0F_80CE_82D4_62AC_53F0_6CF0_915E_592A_6001_6C70_574D_644A),
  (0xCCB0, 0x8D2A_762B_6EE9_575B_6A80_75F0_6F6D_8C2D_8C08_5766_6BEF_8892),
  (0xCCBC, 0x78B3_63A2_53F9_70AD_6C64_5858_642A_5802_68E0_819B_5510_7CD6),
  (0xCCC8, 0x5018_8EBA_6DCC_8D9F_70EB_638F_6D9B_6ED4_7EE6_8404_6843_9003),
  (0xCCD4, 0x6DD8_9676_8BA8_5957_7279_85E4_817E_75BC_8A8A_68AF_5254_8E22),
  (0xCCE0, 0x9511_63D0_9898_8E44_557C_4F53_66FF_568F_60D5_6D95_5243_5C49),
  (0xCCEC, 0x5929_6DFB_586B_7530_751C_606C_8214_8146_6311_6761_8FE2_773A),
  (0xCCF8, 0x8DF3_8D34_94C1_5E16_5385_542C_70C3),
  (0xCD40, 0x866D_866F_8670_8672_8673_8674_8675_8676_8677_8678_8683_8684),
  (0xCD4C, 0x8685_8686_8687_8688_8689_868E_868F_8690_8691_8692_8694_8696),
  (0xCD58, 0x8697_8698_8699_869A_869B_869E_869F_86A0_86A1_86A2_86A5_86A6),
  (0xCD64, 0x86AB_86AD_86AE_86B2_86B3_86B7_86B8_86B9_86BB_86BC_86BD_86BE),
  (0xCD70, 0x86BF_86C1_86C2_86C3_86C5_86C8_86CC_86CD_86D2_86D3_86D5_86D6),
  (0xCD7C, 0x86D7_86DA_86DC),
  (0xCD80, 0x86DD_86E0_86E1_86E2_86E3_86E5_86E6_86E7_86E8_86EA_86EB_86EC),
  (0xCD8C, 0x86EF_86F5_86F6_86F7_86FA_86FB_86FC_86FD_86FF_8701_8704_8705),
  (0xCD98, 0x8706_870B_870C_870E_870F_8710_8711_8714_8716_6C40_5EF7_505C),
  (0xCDA4, 0x4EAD_5EAD_633A_8247_901A_6850_916E_77B3_540C_94DC_5F64_7AE5),
  (0xCDB0, 0x6876_6345_7B52_7EDF_75DB_5077_6295_5934_900F_51F8_79C3_7A81),
  (0xCDBC, 0x56FE_5F92_9014_6D82_5C60_571F_5410_5154_6E4D_56E2_63A8_9893),
  (0xCDC8, 0x817F_8715_892A_9000_541E_5C6F_81C0_62D6_6258_8131_9E35_9640),
  (0xCDD4, 0x9A6E_9A7C_692D_59A5_62D3_553E_6316_54C7_86D9_6D3C_5A03_74E6),
  (0xCDE0, 0x889C_6B6A_5916_8C4C_5F2F_6E7E_73A9_987D_4E38_70F7_5B8C_7897),
  (0xCDEC, 0x633D_665A_7696_60CB_5B9B_5A49_4E07_8155_6C6A_738B_4EA1_6789),
  (0xCDF8, 0x7F51_5F80_65FA_671B_5FD8_5984_5A01),
  (0xCE40, 0x8719_871B_871D_871F_8720_8724_8726_8727_8728_872A_872B_872C),
  (0xCE4C, 0x872D_872F_8730_8732_8733_8735_8736_8738_8739_873A_873C_873D),
  (0xCE58, 0x8740_8741_8742_8743_8744_8745_8746_874A_874B_874D_874F_8750),
  (0xCE64, 0x8751_8752_8754_8755_8756_8758_875A_875B_875C_875D_875E_875F),
  (0xCE70, 0x8761_8762_8766_8767_8768_8769_876A_876B_876C_876D_876F_8771),
  (0xCE7C, 0x8772_8773_8775),
  (0xCE80, 0x8777_8778_8779_877A_877F_8780_8781_8784_8786_8787_8789_878A),
  (0xCE8C, 0x878C_878E_878F_8790_8791_8792_8794_8795_8796_8798_8799_879A),
  (0xCE98, 0x879B_879C_879D_879E_87A0_87A1_87A2_87A3_87A4_5DCD_5FAE_5371),
  (0xCEA4, 0x97E6_8FDD_6845_56F4_552F_60DF_4E3A_6F4D_7EF4_82C7_840E_59D4),
  (0xCEB0, 0x4F1F_4F2A_5C3E_7EAC_672A_851A_5473_754F_80C3_5582_9B4F_4F4D),
  (0xCEBC, 0x6E2D_8C13_5C09_6170_536B_761F_6E29_868A_6587_95FB_7EB9_543B),
  (0xCEC8, 0x7A33_7D0A_95EE_55E1_7FC1_74EE_631D_8717_6DA1_7A9D_6211_65A1),
  (0xCED4, 0x5367_63E1_6C83_5DEB_545C_94A8_4E4C_6C61_8BEC_5C4B_65E0_829C),
  (0xCEE0, 0x68A7_543E_5434_6BCB_6B66_4E94_6342_5348_821E_4F0D_4FAE_575E),
  (0xCEEC, 0x620A_96FE_6664_7269_52FF_52A1_609F_8BEF_6614_7199_6790_897F),
  (0xCEF8, 0x7852_77FD_6670_563B_5438_9521_727A),
  (0xCF40, 0x87A5_87A6_87A7_87A9_87AA_87AE_87B0_87B1_87B2_87B4_87B6_87B7),
  (0xCF4C, 0x87B8_87B9_87BB_87BC_87BE_87BF_87C1_87C2_87C3_87C4_87C5_87C7),
  (0xCF58, 0x87C8_87C9_87CC_87CD_87CE_87CF_87D0_87D4_87D5_87D6_87D7_87D8),
  (0xCF64, 0x87D9_87DA_87DC_87DD_87DE_87DF_87E1_87E2_87E3_87E4_87E6_87E7),
  (0xCF70, 0x87E8_87E9_87EB_87EC_87ED_87EF_87F0_87F1_87F2_87F3_87F4_87F5),
  (0xCF7C, 0x87F6_87F7_87F8),
  (0xCF80, 0x87FA_87FB_87FC_87FD_87FF_8800_8801_8802_8804_8805_8806_8807),
  (0xCF8C, 0x8808_8809_880B_880C_880D_880E_880F_8810_8811_8812_8814_8817),
  (0xCF98, 0x8818_8819_881A_881C_881D_881E_881F_8820_8823_7A00_606F_5E0C),
  (0xCFA4, 0x6089_819D_5915_60DC_7184_70EF_6EAA_6C50_7280_6A84_88AD_5E2D),
  (0xCFB0, 0x4E60_5AB3_559C_94E3_6D17_7CFB_9699_620F_7EC6_778E_867E_5323),
  (0xCFBC, 0x971E_8F96_6687_5CE1_4FA0_72ED_4E0B_53A6_590F_5413_6380_9528),
  (0xCFC8, 0x5148_4ED9_9C9C_7EA4_54B8_8D24_8854_8237_95F2_6D8E_5F26_5ACC),
  (0xCFD4, 0x663E_9669_73B0_732E_53BF_817A_9985_7FA1_5BAA_9677_9650_7EBF),
  (0xCFE0, 0x76F8_53A2_9576_9999_7BB1_8944_6E58_4E61_7FD4_7965_8BE6_60F3),
  (0xCFEC, 0x54CD_4EAB_9879_5DF7_6A61_50CF_5411_8C61_8427_785D_9704_524A),
  (0xCFF8, 0x54EE_56A3_9500_6D88_5BB5_6DC6_6653),
  (0xD040, 0x8824_8825_8826_8827_8828_8829_882A_882B_882C_882D_882E_882F),
  (0xD04C, 0x8830_8831_8833_8834_8835_8836_8837_8838_883A_883B_883D_883E),
  (0xD058, 0x883F_8841_8842_8843_8846_8847_8848_8849_884A_884B_884E_884F),
  (0xD064, 0x8850_8851_8852_8853_8855_8856_8858_885A_885B_885C_885D_885E),
  (0xD070, 0x885F_8860_8866_8867_886A_886D_886F_8871_8873_8874_8875_8876),
  (0xD07C, 0x8878_8879_887A),
  (0xD080, 0x887B_887C_8880_8883_8886_8887_8889_888A_888C_888E_888F_8890),
  (0xD08C, 0x8891_8893_8894_8895_8897_8898_8899_889A_889B_889D_889E_889F),
  (0xD098, 0x88A0_88A1_88A3_88A5_88A6_88A7_88A8_88A9_88AA_5C0F_5B5D_6821),
  (0xD0A4, 0x8096_5578_7B11_6548_6954_4E9B_6B47_874E_978B_534F_631F_643A),
  (0xD0B0, 0x90AA_659C_80C1_8C10_5199_68B0_5378_87F9_61C8_6CC4_6CFB_8C22),
  (0xD0BC, 0x5C51_85AA_82AF_950C_6B23_8F9B_65B0_5FFB_5FC3_4FE1_8845_661F),
  (0xD0C8, 0x8165_7329_60FA_5174_5211_578B_5F62_90A2_884C_9192_5E78_674F),
  (0xD0D4, 0x6027_59D3_5144_51F6_80F8_5308_6C79_96C4_718A_4F11_4FEE_7F9E),
  (0xD0E0, 0x673D_55C5_9508_79C0_8896_7EE3_589F_620C_9700_865A_5618_987B),
  (0xD0EC, 0x5F90_8BB8_84C4_9157_53D9_65ED_5E8F_755C_6064_7D6E_5A7F_7EEA),
  (0xD0F8, 0x7EED_8F69_55A7_5BA3_60AC_65CB_7384),
  (0xD140, 0x88AC_88AE_88AF_88B0_88B2_88B3_88B4_88B5_88B6_88B8_88B9_88BA),
  (0xD14C, 0x88BB_88BD_88BE_88BF_88C0_88C3_88C4_88C7_88C8_88CA_88CB_88CC),
  (0xD158, 0x88CD_88CF_88D0_88D1_88D3_88D6_88D7_88DA_88DB_88DC_88DD_88DE),
  (0xD164, 0x88E0_88E1_88E6_88E7_88E9_88EA_88EB_88EC_88ED_88EE_88EF_88F2),
  (0xD170, 0x88F5_88F6_88F7_88FA_88FB_88FD_88FF_8900_8901_8903_8904_8905),
  (0xD17C, 0x8906_8907_8908),
  (0xD180, 0x8909_890B_890C_890D_890E_890F_8911_8914_8915_8916_8917_8918),
  (0xD18C, 0x891C_891D_891E_891F_8920_8922_8923_8924_8926_8927_8928_8929),
  (0xD198, 0x892C_892D_892E_892F_8931_8932_8933_8935_8937_9009_7663_7729),
  (0xD1A4, 0x7EDA_9774_859B_5B66_7A74_96EA_8840_52CB_718F_5FAA_65EC_8BE2),
  (0xD1B0, 0x5BFB_9A6F_5DE1_6B89_6C5B_8BAD_8BAF_900A_8FC5_538B_62BC_9E26),
  (0xD1BC, 0x9E2D_5440_4E2B_82BD_7259_869C_5D16_8859_6DAF_96C5_54D1_4E9A),
  (0xD1C8, 0x8BB6_7109_54BD_9609_70DF_6DF9_76D0_4E25_7814_8712_5CA9_5EF6),
  (0xD1D4, 0x8A00_989C_960E_708E_6CBF_5944_63A9_773C_884D_6F14_8273_5830),
  (0xD1E0, 0x71D5_538C_781A_96C1_5501_5F66_7130_5BB4_8C1A_9A8C_6B83_592E),
  (0xD1EC, 0x9E2F_79E7_6768_626C_4F6F_75A1_7F8A_6D0B_9633_6C27_4EF0_75D2),
  (0xD1F8, 0x517B_6837_6F3E_9080_8170_5996_7476),
  (0xD240, 0x8938_8939_893A_893B_893C_893D_893E_893F_8940_8942_8943_8945),
  (0xD24C, 0x8946_8947_8948_8949_894A_894B_894C_894D_894E_894F_8950_8951),
  (0xD258, 0x8952_8953_8954_8955_8956_8957_8958_8959_895A_895B_895C_895D),
  (0xD264, 0x8960_8961_8962_8963_8964_8965_8967_8968_8969_896A_896B_896C),
  (0xD270, 0x896D_896E_896F_8970_8971_8972_8973_8974_8975_8976_8977_8978),
  (0xD27C, 0x8979_897A_897C),
  (0xD280, 0x897D_897E_8980_8982_8984_8985_8987_8988_8989_898A_898B_898C),
  (0xD28C, 0x898D_898E_898F_8990_8991_8992_8993_8994_8995_8996_8997_8998),
  (0xD298, 0x8999_899A_899B_899C_899D_899E_899F_89A0_89A1_6447_5C27_9065),
  (0xD2A4, 0x7A91_8C23_59DA_54AC_8200_836F_8981_8000_6930_564E_8036_7237),
  (0xD2B0, 0x91CE_51B6_4E5F_9875_6396_4E1A_53F6_66F3_814B_591C_6DB2_4E00),
  (0xD2BC, 0x58F9_533B_63D6_94F1_4F9D_4F0A_8863_9890_5937_9057_79FB_4EEA),
  (0xD2C8, 0x80F0_7591_6C82_5B9C_59E8_5F5D_6905_8681_501A_5DF2_4E59_77E3),
  (0xD2D4, 0x4EE5_827A_6291_6613_9091_5C79_4EBF_5F79_81C6_9038_8084_75AB),
  (0xD2E0, 0x4EA6_88D4_610F_6BC5_5FC6_4E49_76CA_6EA2_8BE3_8BAE_8C0A_8BD1),
  (0xD2EC, 0x5F02_7FFC_7FCC_7ECE_8335_836B_56E0_6BB7_97F3_9634_59FB_541F),
  (0xD2F8, 0x94F6_6DEB_5BC5_996E_5C39_5F15_9690),
  (0xD340, 0x89A2_89A3_89A4_89A5_89A6_89A7_89A8_89A9_89AA_89AB_89AC_89AD),
  (0xD34C, 0x89AE_89AF_89B0_89B1_89B2_89B3_89B4_89B5_89B6_89B7_89B8_89B9),
  (0xD358, 0x89BA_89BB_89BC_89BD_89BE_89BF_89C0_89C3_89CD_89D3_89D4_89D5),
  (0xD364, 0x89D7_89D8_89D9_89DB_89DD_89DF_89E0_89E1_89E2_89E4_89E7_89E8),
  (0xD370, 0x89E9_89EA_89EC_89ED_89EE_89F0_89F1_89F2_89F4_89F5_89F6_89F7),
  (0xD37C, 0x89F8_89F9_89FA),
  (0xD380, 0x89FB_89FC_89FD_89FE_89FF_8A01_8A02_8A03_8A04_8A05_8A06_8A08),
  (0xD38C, 0x8A09_8A0A_8A0B_8A0C_8A0D_8A0E_8A0F_8A10_8A11_8A12_8A13_8A14),
  (0xD398, 0x8A15_8A16_8A17_8A18_8A19_8A1A_8A1B_8A1C_8A1D_5370_82F1_6A31),
  (0xD3A4, 0x5A74_9E70_5E94_7F28_83B9_8424_8425_8367_8747_8FCE_8D62_76C8),
  (0xD3B0, 0x5F71_9896_786C_6620_54DF_62E5_4F63_81C3_75C8_5EB8_96CD_8E0A),
  (0xD3BC, 0x86F9_548F_6CF3_6D8C_6C38_607F_52C7_7528_5E7D_4F18_60A0_5FE7),
  (0xD3C8, 0x5C24_7531_90AE_94C0_72B9_6CB9_6E38_9149_6709_53CB_53F3_4F51),
  (0xD3D4, 0x91C9_8BF1_53C8_5E7C_8FC2_6DE4_4E8E_76C2_6986_865E_611A_8206),
  (0xD3E0, 0x4F59_4FDE_903E_9C7C_6109_6E1D_6E14_9685_4E88_5A31_96E8_4E0E),
  (0xD3EC, 0x5C7F_79B9_5B87_8BED_7FBD_7389_57DF_828B_90C1_5401_9047_55BB),
  (0xD3F8, 0x5CEA_5FA1_6108_6B32_72F1_80B2_8A89),
  (0xD440, 0x8A1E_8A1F_8A20_8A21_8A22_8A23_8A24_8A25_8A26_8A27_8A28_8A29),
  (0xD44C, 0x8A2A_8A2B_8A2C_8A2D_8A2E_8A2F_8A30_8A31_8A32_8A33_8A34_8A35),
  (0xD458, 0x8A36_8A37_8A38_8A39_8A3A_8A3B_8A3C_8A3D_8A3F_8A40_8A41_8A42),
  (0xD464, 0x8A43_8A44_8A45_8A46_8A47_8A49_8A4A_8A4B_8A4C_8A4D_8A4E_8A4F),
  (0xD470, 0x8A50_8A51_8A52_8A53_8A54_8A55_8A56_8A57_8A58_8A59_8A5A_8A5B),
  (0xD47C, 0x8A5C_8A5D_8A5E),
  (0xD480, 0x8A5F_8A60_8A61_8A62_8A63_8A64_8A65_8A66_8A67_8A68_8A69_8A6A),
  (0xD48C, 0x8A6B_8A6C_8A6D_8A6E_8A6F_8A70_8A71_8A72_8A73_8A74_8A75_8A76),
  (0xD498, 0x8A77_8A78_8A7A_8A7B_8A7C_8A7D_8A7E_8A7F_8A80_6D74_5BD3_88D5),
  (0xD4A4, 0x9884_8C6B_9A6D_9E33_6E0A_51A4_5143_57A3_8881_539F_63F4_8F95),
  (0xD4B0, 0x56ED_5458_5706_733F_6E90_7F18_8FDC_82D1_613F_6028_9662_66F0),
  (0xD4BC, 0x7EA6_8D8A_8DC3_94A5_5CB3_7CA4_6708_60A6_9605_8018_4E91_90E7),
  (0xD4C8, 0x5300_9668_5141_8FD0_8574_915D_6655_97F5_5B55_531D_7838_6742),
  (0xD4D4, 0x683D_54C9_707E_5BB0_8F7D_518D_5728_54B1_6512_6682_8D5E_8D43),
  (0xD4E0, 0x810F_846C_906D_7CDF_51FF_85FB_67A3_65E9_6FA1_86A4_8E81_566A),
  (0xD4EC, 0x9020_7682_7076_71E5_8D23_62E9_5219_6CFD_8D3C_600E_589E_618E),
  (0xD4F8, 0x66FE_8D60_624E_55B3_6E23_672D_8F67),
  (0xD540, 0x8A81_8A82_8A83_8A84_8A85_8A86_8A87_8A88_8A8B_8A8C_8A8D_8A8E),
  (0xD54C, 0x8A8F_8A90_8A91_8A92_8A94_8A95_8A96_8A97_8A98_8A99_8A9A_8A9B),
  (0xD558, 0x8A9C_8A9D_8A9E_8A9F_8AA0_8AA1_8AA2_8AA3_8AA4_8AA5_8AA6_8AA7),
  (0xD564, 0x8AA8_8AA9_8AAA_8AAB_8AAC_8AAD_8AAE_8AAF_8AB0_8AB1_8AB2_8AB3),
  (0xD570, 0x8AB4_8AB5_8AB6_8AB7_8AB8_8AB9_8ABA_8ABB_8ABC_8ABD_8ABE_8ABF),
  (0xD57C, 0x8AC0_8AC1_8AC2),
  (0xD580, 0x8AC3_8AC4_8AC5_8AC6_8AC7_8AC8_8AC9_8ACA_8ACB_8ACC_8ACD_8ACE),
  (0xD58C, 0x8ACF_8AD0_8AD1_8AD2_8AD3_8AD4_8AD5_8AD6_8AD7_8AD8_8AD9_8ADA),
  (0xD598, 0x8ADB_8ADC_8ADD_8ADE_8ADF_8AE0_8AE1_8AE2_8AE3_94E1_95F8_7728),
  (0xD5A4, 0x6805_69A8_548B_4E4D_70B8_8BC8_6458_658B_5B85_7A84_503A_5BE8),
  (0xD5B0, 0x77BB_6BE1_8A79_7C98_6CBE_76CF_65A9_8F97_5D2D_5C55_8638_6808),
  (0xD5BC, 0x5360_6218_7AD9_6E5B_7EFD_6A1F_7AE0_5F70_6F33_5F20_638C_6DA8),
  (0xD5C8, 0x6756_4E08_5E10_8D26_4ED7_80C0_7634_969C_62DB_662D_627E_6CBC),
  (0xD5D4, 0x8D75_7167_7F69_5146_8087_53EC_906E_6298_54F2_86F0_8F99_8005),
  (0xD5E0, 0x9517_8517_8FD9_6D59_73CD_659F_771F_7504_7827_81FB_8D1E_9488),
  (0xD5EC, 0x4FA6_6795_75B9_8BCA_9707_632F_9547_9635_84B8_6323_7741_5F81),
  (0xD5F8, 0x72F0_4E89_6014_6574_62EF_6B63_653F),
  (0xD640, 0x8AE4_8AE5_8AE6_8AE7_8AE8_8AE9_8AEA_8AEB_8AEC_8AED_8AEE_8AEF),
  (0xD64C, 0x8AF0_8AF1_8AF2_8AF3_8AF4_8AF5_8AF6_8AF7_8AF8_8AF9_8AFA_8AFB),
  (0xD658, 0x8AFC_8AFD_8AFE_8AFF_8B00_8B01_8B02_8B03_8B04_8B05_8B06_8B08),
  (0xD664, 0x8B09_8B0A_8B0B_8B0C_8B0D_8B0E_8B0F_8B10_8B11_8B12_8B13_8B14),
  (0xD670, 0x8B15_8B16_8B17_8B18_8B19_8B1A_8B1B_8B1C_8B1D_8B1E_8B1F_8B20),
  (0xD67C, 0x8B21_8B22_8B23),
  (0xD680, 0x8B24_8B25_8B27_8B28_8B29_8B2A_8B2B_8B2C_8B2D_8B2E_8B2F_8B30),
  (0xD68C, 0x8B31_8B32_8B33_8B34_8B35_8B36_8B37_8B38_8B39_8B3A_8B3B_8B3C),
  (0xD698, 0x8B3D_8B3E_8B3F_8B40_8B41_8B42_8B43_8B44_8B45_5E27_75C7_90D1),
  (0xD6A4, 0x8BC1_829D_679D_652F_5431_8718_77E5_80A2_8102_6C41_4E4B_7EC7),
  (0xD6B0, 0x804C_76F4_690D_6B96_6267_503C_4F84_5740_6307_6B62_8DBE_53EA),
  (0xD6BC, 0x65E8_7EB8_5FD7_631A_63B7_81F3_81F4_7F6E_5E1C_5CD9_5236_667A),
  (0xD6C8, 0x79E9_7A1A_8D28_7099_75D4_6EDE_6CBB_7A92_4E2D_76C5_5FE0_949F),
  (0xD6D4, 0x8877_7EC8_79CD_80BF_91CD_4EF2_4F17_821F_5468_5DDE_6D32_8BCC),
  (0xD6E0, 0x7CA5_8F74_8098_5E1A_5492_76B1_5B99_663C_9AA4_73E0_682A_86DB),
  (0xD6EC, 0x6731_732A_8BF8_8BDB_9010_7AF9_70DB_716E_62C4_77A9_5631_4E3B),
  (0xD6F8, 0x8457_67F1_52A9_86C0_8D2E_94F8_7B51),
  (0xD740, 0x8B46_8B47_8B48_8B49_8B4A_8B4B_8B4C_8B4D_8B4E_8B4F_8B50_8B51),
  (0xD74C, 0x8B52_8B53_8B54_8B55_8B56_8B57_8B58_8B59_8B5A_8B5B_8B5C_8B5D),
  (0xD758, 0x8B5E_8B5F_8B60_8B61_8B62_8B63_8B64_8B65_8B67_8B68_8B69_8B6A),
  (0xD764, 0x8B6B_8B6D_8B6E_8B6F_8B70_8B71_8B72_8B73_8B74_8B75_8B76_8B77),
  (0xD770, 0x8B78_8B79_8B7A_8B7B_8B7C_8B7D_8B7E_8B7F_8B80_8B81_8B82_8B83),
  (0xD77C, 0x8B84_8B85_8B86),
  (0xD780, 0x8B87_8B88_8B89_8B8A_8B8B_8B8C_8B8D_8B8E_8B8F_8B90_8B91_8B92),
  (0xD78C, 0x8B93_8B94_8B95_8B96_8B97_8B98_8B99_8B9A_8B9B_8B9C_8B9D_8B9E),
  (0xD798, 0x8B9F_8BAC_8BB1_8BBB_8BC7_8BD0_8BEA_8C09_8C1E_4F4F_6CE8_795D),
  (0xD7A4, 0x9A7B_6293_722A_62FD_4E13_7816_8F6C_64B0_8D5A_7BC6_6869_5E84),
  (0xD7B0, 0x88C5_5986_649E_58EE_72B6_690E_9525_8FFD_8D58_5760_7F00_8C06),
  (0xD7BC, 0x51C6_6349_62D9_5353_684C_7422_8301_914C_5544_7740_707C_6D4A),
  (0xD7C8, 0x5179_54A8_8D44_59FF_6ECB_6DC4_5B5C_7D2B_4ED4_7C7D_6ED3_5B50),
  (0xD7D4, 0x81EA_6E0D_5B57_9B03_68D5_8E2A_5B97_7EFC_603B_7EB5_90B9_8D70),
  (0xD7E0, 0x594F_63CD_79DF_8DB3_5352_65CF_7956_8BC5_963B_7EC4_94BB_7E82),
  (0xD7EC, 0x5634_9189_6700_7F6A_5C0A_9075_6628_5DE6_4F50_67DE_505A_4F5C),
  (0xD7F8, 0x5750_5EA7_E810_E811_E812_E813_E814),
  (0xD840, 0x8C38_8C39_8C3A_8C3B_8C3C_8C3D_8C3E_8C3F_8C40_8C42_8C43_8C44),
  (0xD84C, 0x8C45_8C48_8C4A_8C4B_8C4D_8C4E_8C4F_8C50_8C51_8C52_8C53_8C54),
  (0xD858, 0x8C56_8C57_8C58_8C59_8C5B_8C5C_8C5D_8C5E_8C5F_8C60_8C63_8C64),
  (0xD864, 0x8C65_8C66_8C67_8C68_8C69_8C6C_8C6D_8C6E_8C6F_8C70_8C71_8C72),
  (0xD870, 0x8C74_8C75_8C76_8C77_8C7B_8C7C_8C7D_8C7E_8C7F_8C80_8C81_8C83),
  (0xD87C, 0x8C84_8C86_8C87),
  (0xD880, 0x8C88_8C8B_8C8D_8C8E_8C8F_8C90_8C91_8C92_8C93_8C95_8C96_8C97),
  (0xD88C, 0x8C99_8C9A_8C9B_8C9C_8C9D_8C9E_8C9F_8CA0_8CA1_8CA2_8CA3_8CA4),
  (0xD898, 0x8CA5_8CA6_8CA7_8CA8_8CA9_8CAA_8CAB_8CAC_8CAD_4E8D_4E0C_5140),
  (0xD8A4, 0x4E10_5EFF_5345_4E15_4E98_4E1E_9B32_5B6C_5669_4E28_79BA_4E3F),
  (0xD8B0, 0x5315_4E47_592D_723B_536E_6C10_56DF_80E4_9997_6BD3_777E_9F17),
  (0xD8BC, 0x4E36_4E9F_9F10_4E5C_4E69_4E93_8288_5B5B_556C_560F_4EC4_538D),
  (0xD8C8, 0x539D_53A3_53A5_53AE_9765_8D5D_531A_53F5_5326_532E_533E_8D5C),
  (0xD8D4, 0x5366_5363_5202_5208_520E_522D_5233_523F_5240_524C_525E_5261),
  (0xD8E0, 0x525C_84AF_527D_5282_5281_5290_5293_5182_7F54_4EBB_4EC3_4EC9),
  (0xD8EC, 0x4EC2_4EE8_4EE1_4EEB_4EDE_4F1B_4EF3_4F22_4F64_4EF5_4F25_4F27),
  (0xD8F8, 0x4F09_4F2B_4F5E_4F67_6538_4F5A_4F5D),
  (0xD940, 0x8CAE_8CAF_8CB0_8CB1_8CB2_8CB3_8CB4_8CB5_8CB6_8CB7_8CB8_8CB9),
  (0xD94C, 0x8CBA_8CBB_8CBC_8CBD_8CBE_8CBF_8CC0_8CC1_8CC2_8CC3_8CC4_8CC5),
  (0xD958, 0x8CC6_8CC7_8CC8_8CC9_8CCA_8CCB_8CCC_8CCD_8CCE_8CCF_8CD0_8CD1),
  (0xD964, 0x8CD2_8CD3_8CD4_8CD5_8CD6_8CD7_8CD8_8CD9_8CDA_8CDB_8CDC_8CDD),
  (0xD970, 0x8CDE_8CDF_8CE0_8CE1_8CE2_8CE3_8CE4_8CE5_8CE6_8CE7_8CE8_8CE9),
  (0xD97C, 0x8CEA_8CEB_8CEC),
  (0xD980, 0x8CED_8CEE_8CEF_8CF0_8CF1_8CF2_8CF3_8CF4_8CF5_8CF6_8CF7_8CF8),
  (0xD98C, 0x8CF9_8CFA_8CFB_8CFC_8CFD_8CFE_8CFF_8D00_8D01_8D02_8D03_8D04),
  (0xD998, 0x8D05_8D06_8D07_8D08_8D09_8D0A_8D0B_8D0C_8D0D_4F5F_4F57_4F32),
  (0xD9A4, 0x4F3D_4F76_4F74_4F91_4F89_4F83_4F8F_4F7E_4F7B_4FAA_4F7C_4FAC),
  (0xD9B0, 0x4F94_4FE6_4FE8_4FEA_4FC5_4FDA_4FE3_4FDC_4FD1_4FDF_4FF8_5029),
  (0xD9BC, 0x504C_4FF3_502C_500F_502E_502D_4FFE_501C_500C_5025_5028_507E),
  (0xD9C8, 0x5043_5055_5048_504E_506C_507B_50A5_50A7_50A9_50BA_50D6_5106),
  (0xD9D4, 0x50ED_50EC_50E6_50EE_5107_510B_4EDD_6C3D_4F58_4F65_4FCE_9FA0),
  (0xD9E0, 0x6C46_7C74_516E_5DFD_9EC9_9998_5181_5914_52F9_530D_8A07_5310),
  (0xD9EC, 0x51EB_5919_5155_4EA0_5156_4EB3_886E_88A4_4EB5_8114_88D2_7980),
  (0xD9F8, 0x5B34_8803_7FB8_51AB_51B1_51BD_51BC),
  (0xDA40, 0x8D0E_8D0F_8D10_8D11_8D12_8D13_8D14_8D15_8D16_8D17_8D18_8D19),
  (0xDA4C, 0x8D1A_8D1B_8D1C_8D20_8D51_8D52_8D57_8D5F_8D65_8D68_8D69_8D6A),
  (0xDA58, 0x8D6C_8D6E_8D6F_8D71_8D72_8D78_8D79_8D7A_8D7B_8D7C_8D7D_8D7E),
  (0xDA64, 0x8D7F_8D80_8D82_8D83_8D86_8D87_8D88_8D89_8D8C_8D8D_8D8E_8D8F),
  (0xDA70, 0x8D90_8D92_8D93_8D95_8D96_8D97_8D98_8D99_8D9A_8D9B_8D9C_8D9D),
  (0xDA7C, 0x8D9E_8DA0_8DA1),
  (0xDA80, 0x8DA2_8DA4_8DA5_8DA6_8DA7_8DA8_8DA9_8DAA_8DAB_8DAC_8DAD_8DAE),
  (0xDA8C, 0x8DAF_8DB0_8DB2_8DB6_8DB7_8DB9_8DBB_8DBD_8DC0_8DC1_8DC2_8DC5),
  (0xDA98, 0x8DC7_8DC8_8DC9_8DCA_8DCD_8DD0_8DD2_8DD3_8DD4_51C7_5196_51A2),
  (0xDAA4, 0x51A5_8BA0_8BA6_8BA7_8BAA_8BB4_8BB5_8BB7_8BC2_8BC3_8BCB_8BCF),
  (0xDAB0, 0x8BCE_8BD2_8BD3_8BD4_8BD6_8BD8_8BD9_8BDC_8BDF_8BE0_8BE4_8BE8),
  (0xDABC, 0x8BE9_8BEE_8BF0_8BF3_8BF6_8BF9_8BFC_8BFF_8C00_8C02_8C04_8C07),
  (0xDAC8, 0x8C0C_8C0F_8C11_8C12_8C14_8C15_8C16_8C19_8C1B_8C18_8C1D_8C1F),
  (0xDAD4, 0x8C20_8C21_8C25_8C27_8C2A_8C2B_8C2E_8C2F_8C32_8C33_8C35_8C36),
  (0xDAE0, 0x5369_537A_961D_9622_9621_9631_962A_963D_963C_9642_9649_9654),
  (0xDAEC, 0x965F_9667_966C_9672_9674_9688_968D_9697_96B0_9097_909B_909D),
  (0xDAF8, 0x9099_90AC_90A1_90B4_90B3_90B6_90BA),
  (0xDB40, 0x8DD5_8DD8_8DD9_8DDC_8DE0_8DE1_8DE2_8DE5_8DE6_8DE7_8DE9_8DED),
  (0xDB4C, 0x8DEE_8DF0_8DF1_8DF2_8DF4_8DF6_8DFC_8DFE_8DFF_8E00_8E01_8E02),
  (0xDB58, 0x8E03_8E04_8E06_8E07_8E08_8E0B_8E0D_8E0E_8E10_8E11_8E12_8E13),
  (0xDB64, 0x8E15_8E16_8E17_8E18_8E19_8E1A_8E1B_8E1C_8E20_8E21_8E24_8E25),
  (0xDB70, 0x8E26_8E27_8E28_8E2B_8E2D_8E30_8E32_8E33_8E34_8E36_8E37_8E38),
  (0xDB7C, 0x8E3B_8E3C_8E3E),
  (0xDB80, 0x8E3F_8E43_8E45_8E46_8E4C_8E4D_8E4E_8E4F_8E50_8E53_8E54_8E55),
  (0xDB8C, 0x8E56_8E57_8E58_8E5A_8E5B_8E5C_8E5D_8E5E_8E5F_8E60_8E61_8E62),
  (0xDB98, 0x8E63_8E64_8E65_8E67_8E68_8E6A_8E6B_8E6E_8E71_90B8_90B0_90CF),
  (0xDBA4, 0x90C5_90BE_90D0_90C4_90C7_90D3_90E6_90E2_90DC_90D7_90DB_90EB),
  (0xDBB0, 0x90EF_90FE_9104_9122_911E_9123_9131_912F_9139_9143_9146_520D),
  (0xDBBC, 0x5942_52A2_52AC_52AD_52BE_54FF_52D0_52D6_52F0_53DF_71EE_77CD),
  (0xDBC8, 0x5EF4_51F5_51FC_9B2F_53B6_5F01_755A_5DEF_574C_57A9_57A1_587E),
  (0xDBD4, 0x58BC_58C5_58D1_5729_572C_572A_5733_5739_572E_572F_575C_573B),
  (0xDBE0, 0x5742_5769_5785_576B_5786_577C_577B_5768_576D_5776_5773_57AD),
  (0xDBEC, 0x57A4_578C_57B2_57CF_57A7_57B4_5793_57A0_57D5_57D8_57DA_57D9),
  (0xDBF8, 0x57D2_57B8_57F4_57EF_57F8_57E4_57DD),
  (0xDC40, 0x8E73_8E75_8E77_8E78_8E79_8E7A_8E7B_8E7D_8E7E_8E80_8E82_8E83),
  (0xDC4C, 0x8E84_8E86_8E88_8E89_8E8A_8E8B_8E8C_8E8D_8E8E_8E91_8E92_8E93),
  (0xDC58, 0x8E95_8E96_8E97_8E98_8E99_8E9A_8E9B_8E9D_8E9F_8EA0_8EA1_8EA2),
  (0xDC64, 0x8EA3_8EA4_8EA5_8EA6_8EA7_8EA8_8EA9_8EAA_8EAD_8EAE_8EB0_8EB1),
  (0xDC70, 0x8EB3_8EB4_8EB5_8EB6_8EB7_8EB8_8EB9_8EBB_8EBC_8EBD_8EBE_8EBF),
  (0xDC7C, 0x8EC0_8EC1_8EC2),
  (0xDC80, 0x8EC3_8EC4_8EC5_8EC6_8EC7_8EC8_8EC9_8ECA_8ECB_8ECC_8ECD_8ECF),
  (0xDC8C, 0x8ED0_8ED1_8ED2_8ED3_8ED4_8ED5_8ED6_8ED7_8ED8_8ED9_8EDA_8EDB),
  (0xDC98, 0x8EDC_8EDD_8EDE_8EDF_8EE0_8EE1_8EE2_8EE3_8EE4_580B_580D_57FD),
  (0xDCA4, 0x57ED_5800_581E_5819_5844_5820_5865_586C_5881_5889_589A_5880),
  (0xDCB0, 0x99A8_9F19_61FF_8279_827D_827F_828F_828A_82A8_8284_828E_8291),
  (0xDCBC, 0x8297_8299_82AB_82B8_82BE_82B0_82C8_82CA_82E3_8298_82B7_82AE),
  (0xDCC8, 0x82CB_82CC_82C1_82A9_82B4_82A1_82AA_829F_82C4_82CE_82A4_82E1),
  (0xDCD4, 0x8309_82F7_82E4_830F_8307_82DC_82F4_82D2_82D8_830C_82FB_82D3),
  (0xDCE0, 0x8311_831A_8306_8314_8315_82E0_82D5_831C_8351_835B_835C_8308),
  (0xDCEC, 0x8392_833C_8334_8331_839B_835E_832F_834F_8347_8343_835F_8340),
  (0xDCF8, 0x8317_8360_832D_833A_8333_8366_8365),
  (0xDD40, 0x8EE5_8EE6_8EE7_8EE8_8EE9_8EEA_8EEB_8EEC_8EED_8EEE_8EEF_8EF0),
  (0xDD4C, 0x8EF1_8EF2_8EF3_8EF4_8EF5_8EF6_8EF7_8EF8_8EF9_8EFA_8EFB_8EFC),
  (0xDD58, 0x8EFD_8EFE_8EFF_8F00_8F01_8F02_8F03_8F04_8F05_8F06_8F07_8F08),
  (0xDD64, 0x8F09_8F0A_8F0B_8F0C_8F0D_8F0E_8F0F_8F10_8F11_8F12_8F13_8F14),
  (0xDD70, 0x8F15_8F16_8F17_8F18_8F19_8F1A_8F1B_8F1C_8F1D_8F1E_8F1F_8F20),
  (0xDD7C, 0x8F21_8F22_8F23),
  (0xDD80, 0x8F24_8F25_8F26_8F27_8F28_8F29_8F2A_8F2B_8F2C_8F2D_8F2E_8F2F),
  (0xDD8C, 0x8F30_8F31_8F32_8F33_8F34_8F35_8F36_8F37_8F38_8F39_8F3A_8F3B),
  (0xDD98, 0x8F3C_8F3D_8F3E_8F3F_8F40_8F41_8F42_8F43_8F44_8368_831B_8369),
  (0xDDA4, 0x836C_836A_836D_836E_83B0_8378_83B3_83B4_83A0_83AA_8393_839C),
  (0xDDB0, 0x8385_837C_83B6_83A9_837D_83B8_837B_8398_839E_83A8_83BA_83BC),
  (0xDDBC, 0x83C1_8401_83E5_83D8_5807_8418_840B_83DD_83FD_83D6_841C_8438),
  (0xDDC8, 0x8411_8406_83D4_83DF_840F_8403_83F8_83F9_83EA_83C5_83C0_8426),
  (0xDDD4, 0x83F0_83E1_845C_8451_845A_8459_8473_8487_8488_847A_8489_8478),
  (0xDDE0, 0x843C_8446_8469_8476_848C_848E_8431_846D_84C1_84CD_84D0_84E6),
  (0xDDEC, 0x84BD_84D3_84CA_84BF_84BA_84E0_84A1_84B9_84B4_8497_84E5_84E3),
  (0xDDF8, 0x850C_750D_8538_84F0_8539_851F_853A),
  (0xDE40, 0x8F45_8F46_8F47_8F48_8F49_8F4A_8F4B_8F4C_8F4D_8F4E_8F4F_8F50),
  (0xDE4C, 0x8F51_8F52_8F53_8F54_8F55_8F56_8F57_8F58_8F59_8F5A_8F5B_8F5C),
  (0xDE58, 0x8F5D_8F5E_8F5F_8F60_8F61_8F62_8F63_8F64_8F65_8F6A_8F80_8F8C),
  (0xDE64, 0x8F92_8F9D_8FA0_8FA1_8FA2_8FA4_8FA5_8FA6_8FA7_8FAA_8FAC_8FAD),
  (0xDE70, 0x8FAE_8FAF_8FB2_8FB3_8FB4_8FB5_8FB7_8FB8_8FBA_8FBB_8FBC_8FBF),
  (0xDE7C, 0x8FC0_8FC3_8FC6),
  (0xDE80, 0x8FC9_8FCA_8FCB_8FCC_8FCD_8FCF_8FD2_8FD6_8FD7_8FDA_8FE0_8FE1),
  (0xDE8C, 0x8FE3_8FE7_8FEC_8FEF_8FF1_8FF2_8FF4_8FF5_8FF6_8FFA_8FFB_8FFC),
  (0xDE98, 0x8FFE_8FFF_9007_9008_900C_900E_9013_9015_9018_8556_853B_84FF),
  (0xDEA4, 0x84FC_8559_8548_8568_8564_855E_857A_77A2_8543_8572_857B_85A4),
  (0xDEB0, 0x85A8_8587_858F_8579_85AE_859C_8585_85B9_85B7_85B0_85D3_85C1),
  (0xDEBC, 0x85DC_85FF_8627_8605_8629_8616_863C_5EFE_5F08_593C_5941_8037),
  (0xDEC8, 0x5955_595A_5958_530F_5C22_5C25_5C2C_5C34_624C_626A_629F_62BB),
  (0xDED4, 0x62CA_62DA_62D7_62EE_6322_62F6_6339_634B_6343_63AD_63F6_6371),
  (0xDEE0, 0x637A_638E_63B4_636D_63AC_638A_6369_63AE_63BC_63F2_63F8_63E0),
  (0xDEEC, 0x63FF_63C4_63DE_63CE_6452_63C6_63BE_6445_6441_640B_641B_6420),
  (0xDEF8, 0x640C_6426_6421_645E_6484_646D_6496),
  (0xDF40, 0x9019_901C_9023_9024_9025_9027_9028_9029_902A_902B_902C_9030),
  (0xDF4C, 0x9031_9032_9033_9034_9037_9039_903A_903D_903F_9040_9043_9045),
  (0xDF58, 0x9046_9048_9049_904A_904B_904C_904E_9054_9055_9056_9059_905A),
  (0xDF64, 0x905C_905D_905E_905F_9060_9061_9064_9066_9067_9069_906A_906B),
  (0xDF70, 0x906C_906F_9070_9071_9072_9073_9076_9077_9078_9079_907A_907B),
  (0xDF7C, 0x907C_907E_9081),
  (0xDF80, 0x9084_9085_9086_9087_9089_908A_908C_908D_908E_908F_9090_9092),
  (0xDF8C, 0x9094_9096_9098_909A_909C_909E_909F_90A0_90A4_90A5_90A7_90A8),
  (0xDF98, 0x90A9_90AB_90AD_90B2_90B7_90BC_90BD_90BF_90C0_647A_64B7_64B8),
  (0xDFA4, 0x6499_64BA_64C0_64D0_64D7_64E4_64E2_6509_6525_652E_5F0B_5FD2),
  (0xDFB0, 0x7519_5F11_535F_53F1_53FD_53E9_53E8_53FB_5412_5416_5406_544B),
  (0xDFBC, 0x5452_5453_5454_5456_5443_5421_5457_5459_5423_5432_5482_5494),
  (0xDFC8, 0x5477_5471_5464_549A_549B_5484_5476_5466_549D_54D0_54AD_54C2),
  (0xDFD4, 0x54B4_54D2_54A7_54A6_54D3_54D4_5472_54A3_54D5_54BB_54BF_54CC),
  (0xDFE0, 0x54D9_54DA_54DC_54A9_54AA_54A4_54DD_54CF_54DE_551B_54E7_5520),
  (0xDFEC, 0x54FD_5514_54F3_5522_5523_550F_5511_5527_552A_5567_558F_55B5),
  (0xDFF8, 0x5549_556D_5541_5555_553F_5550_553C),
  (0xE040, 0x90C2_90C3_90C6_90C8_90C9_90CB_90CC_90CD_90D2_90D4_90D5_90D6),
  (0xE04C, 0x90D8_90D9_90DA_90DE_90DF_90E0_90E3_90E4_90E5_90E9_90EA_90EC),
  (0xE058, 0x90EE_90F0_90F1_90F2_90F3_90F5_90F6_90F7_90F9_90FA_90FB_90FC),
  (0xE064, 0x90FF_9100_9101_9103_9105_9106_9107_9108_9109_910A_910B_910C),
  (0xE070, 0x910D_910E_910F_9110_9111_9112_9113_9114_9115_9116_9117_9118),
  (0xE07C, 0x911A_911B_911C),
  (0xE080, 0x911D_911F_9120_9121_9124_9125_9126_9127_9128_9129_912A_912B),
  (0xE08C, 0x912C_912D_912E_9130_9132_9133_9134_9135_9136_9137_9138_913A),
  (0xE098, 0x913B_913C_913D_913E_913F_9140_9141_9142_9144_5537_5556_5575),
  (0xE0A4, 0x5576_5577_5533_5530_555C_558B_55D2_5583_55B1_55B9_5588_5581),
  (0xE0B0, 0x559F_557E_55D6_5591_557B_55DF_55BD_55BE_5594_5599_55EA_55F7),
  (0xE0BC, 0x55C9_561F_55D1_55EB_55EC_55D4_55E6_55DD_55C4_55EF_55E5_55F2),
  (0xE0C8, 0x55F3_55CC_55CD_55E8_55F5_55E4_8F94_561E_5608_560C_5601_5624),
  (0xE0D4, 0x5623_55FE_5600_5627_562D_5658_5639_5657_562C_564D_5662_5659),
  (0xE0E0, 0x565C_564C_5654_5686_5664_5671_566B_567B_567C_5685_5693_56AF),
  (0xE0EC, 0x56D4_56D7_56DD_56E1_56F5_56EB_56F9_56FF_5704_570A_5709_571C),
  (0xE0F8, 0x5E0F_5E19_5E14_5E11_5E31_5E3B_5E3C),
  (0xE140, 0x9145_9147_9148_9151_9153_9154_9155_9156_9158_9159_915B_915C),
  (0xE14C, 0x915F_9160_9166_9167_9168_916B_916D_9173_917A_917B_917C_9180),
  (0xE158, 0x9181_9182_9183_9184_9186_9188_918A_918E_918F_9193_9194_9195),
  (0xE164, 0x9196_9197_9198_9199_919C_919D_919E_919F_91A0_91A1_91A4_91A5),
  (0xE170, 0x91A6_91A7_91A8_91A9_91AB_91AC_91B0_91B1_91B2_91B3_91B6_91B7),
  (0xE17C, 0x91B8_91B9_91BB),
  (0xE180, 0x91BC_91BD_91BE_91BF_91C0_91C1_91C2_91C3_91C4_91C5_91C6_91C8),
  (0xE18C, 0x91CB_91D0_91D2_91D3_91D4_91D5_91D6_91D7_91D8_91D9_91DA_91DB),
  (0xE198, 0x91DD_91DE_91DF_91E0_91E1_91E2_91E3_91E4_91E5_5E37_5E44_5E54),
  (0xE1A4, 0x5E5B_5E5E_5E61_5C8C_5C7A_5C8D_5C90_5C96_5C88_5C98_5C99_5C91),
  (0xE1B0, 0x5C9A_5C9C_5CB5_5CA2_5CBD_5CAC_5CAB_5CB1_5CA3_5CC1_5CB7_5CC4),
  (0xE1BC, 0x5CD2_5CE4_5CCB_5CE5_5D02_5D03_5D27_5D26_5D2E_5D24_5D1E_5D06),
  (0xE1C8, 0x5D1B_5D58_5D3E_5D34_5D3D_5D6C_5D5B_5D6F_5D5D_5D6B_5D4B_5D4A),
  (0xE1D4, 0x5D69_5D74_5D82_5D99_5D9D_8C73_5DB7_5DC5_5F73_5F77_5F82_5F87),
  (0xE1E0, 0x5F89_5F8C_5F95_5F99_5F9C_5FA8_5FAD_5FB5_5FBC_8862_5F61_72AD),
  (0xE1EC, 0x72B0_72B4_72B7_72B8_72C3_72C1_72CE_72CD_72D2_72E8_72EF_72E9),
  (0xE1F8, 0x72F2_72F4_72F7_7301_72F3_7303_72FA),
  (0xE240, 0x91E6_91E7_91E8_91E9_91EA_91EB_91EC_91ED_91EE_91EF_91F0_91F1),
  (0xE24C, 0x91F2_91F3_91F4_91F5_91F6_91F7_91F8_91F9_91FA_91FB_91FC_91FD),
  (0xE258, 0x91FE_91FF_9200_9201_9202_9203_9204_9205_9206_9207_9208_9209),
  (0xE264, 0x920A_920B_920C_920D_920E_920F_9210_9211_9212_9213_9214_9215),
  (0xE270, 0x9216_9217_9218_9219_921A_921B_921C_921D_921E_921F_9220_9221),
  (0xE27C, 0x9222_9223_9224),
  (0xE280, 0x9225_9226_9227_9228_9229_922A_922B_922C_922D_922E_922F_9230),
  (0xE28C, 0x9231_9232_9233_9234_9235_9236_9237_9238_9239_923A_923B_923C),
  (0xE298, 0x923D_923E_923F_9240_9241_9242_9243_9244_9245_72FB_7317_7313),
  (0xE2A4, 0x7321_730A_731E_731D_7315_7322_7339_7325_732C_7338_7331_7350),
  (0xE2B0, 0x734D_7357_7360_736C_736F_737E_821B_5925_98E7_5924_5902_9963),
  (0xE2BC, 0x9967_9968_9969_996A_996B_996C_9974_9977_997D_9980_9984_9987),
  (0xE2C8, 0x998A_998D_9990_9991_9993_9994_9995_5E80_5E91_5E8B_5E96_5EA5),
  (0xE2D4, 0x5EA0_5EB9_5EB5_5EBE_5EB3_8D53_5ED2_5ED1_5EDB_5EE8_5EEA_81BA),
  (0xE2E0, 0x5FC4_5FC9_5FD6_5FCF_6003_5FEE_6004_5FE1_5FE4_5FFE_6005_6006),
  (0xE2EC, 0x5FEA_5FED_5FF8_6019_6035_6026_601B_600F_600D_6029_602B_600A),
  (0xE2F8, 0x603F_6021_6078_6079_607B_607A_6042),
  (0xE340, 0x9246_9247_9248_9249_924A_924B_924C_924D_924E_924F_9250_9251),
  (0xE34C, 0x9252_9253_9254_9255_9256_9257_9258_9259_925A_925B_925C_925D),
  (0xE358, 0x925E_925F_9260_9261_9262_9263_9264_9265_9266_9267_9268_9269),
  (0xE364, 0x926A_926B_926C_926D_926E_926F_9270_9271_9272_9273_9275_9276),
  (0xE370, 0x9277_9278_9279_927A_927B_927C_927D_927E_927F_9280_9281_9282),
  (0xE37C, 0x9283_9284_9285),
  (0xE380, 0x9286_9287_9288_9289_928A_928B_928C_928D_928F_9290_9291_9292),
  (0xE38C, 0x9293_9294_9295_9296_9297_9298_9299_929A_929B_929C_929D_929E),
  (0xE398, 0x929F_92A0_92A1_92A2_92A3_92A4_92A5_92A6_92A7_606A_607D_6096),
  (0xE3A4, 0x609A_60AD_609D_6083_6092_608C_609B_60EC_60BB_60B1_60DD_60D8),
  (0xE3B0, 0x60C6_60DA_60B4_6120_6126_6115_6123_60F4_6100_610E_612B_614A),
  (0xE3BC, 0x6175_61AC_6194_61A7_61B7_61D4_61F5_5FDD_96B3_95E9_95EB_95F1),
  (0xE3C8, 0x95F3_95F5_95F6_95FC_95FE_9603_9604_9606_9608_960A_960B_960C),
  (0xE3D4, 0x960D_960F_9612_9615_9616_9617_9619_961A_4E2C_723F_6215_6C35),
  (0xE3E0, 0x6C54_6C5C_6C4A_6CA3_6C85_6C90_6C94_6C8C_6C68_6C69_6C74_6C76),
  (0xE3EC, 0x6C86_6CA9_6CD0_6CD4_6CAD_6CF7_6CF8_6CF1_6CD7_6CB2_6CE0_6CD6),
  (0xE3F8, 0x6CFA_6CEB_6CEE_6CB1_6CD3_6CEF_6CFE),
  (0xE440, 0x92A8_92A9_92AA_92AB_92AC_92AD_92AF_92B0_92B1_92B2_92B3_92B4),
  (0xE44C, 0x92B5_92B6_92B7_92B8_92B9_92BA_92BB_92BC_92BD_92BE_92BF_92C0),
  (0xE458, 0x92C1_92C2_92C3_92C4_92C5_92C6_92C7_92C9_92CA_92CB_92CC_92CD),
  (0xE464, 0x92CE_92CF_92D0_92D1_92D2_92D3_92D4_92D5_92D6_92D7_92D8_92D9),
  (0xE470, 0x92DA_92DB_92DC_92DD_92DE_92DF_92E0_92E1_92E2_92E3_92E4_92E5),
  (0xE47C, 0x92E6_92E7_92E8),
  (0xE480, 0x92E9_92EA_92EB_92EC_92ED_92EE_92EF_92F0_92F1_92F2_92F3_92F4),
  (0xE48C, 0x92F5_92F6_92F7_92F8_92F9_92FA_92FB_92FC_92FD_92FE_92FF_9300),
  (0xE498, 0x9301_9302_9303_9304_9305_9306_9307_9308_9309_6D39_6D27_6D0C),
  (0xE4A4, 0x6D43_6D48_6D07_6D04_6D19_6D0E_6D2B_6D4D_6D2E_6D35_6D1A_6D4F),
  (0xE4B0, 0x6D52_6D54_6D33_6D91_6D6F_6D9E_6DA0_6D5E_6D93_6D94_6D5C_6D60),
  (0xE4BC, 0x6D7C_6D63_6E1A_6DC7_6DC5_6DDE_6E0E_6DBF_6DE0_6E11_6DE6_6DDD),
  (0xE4C8, 0x6DD9_6E16_6DAB_6E0C_6DAE_6E2B_6E6E_6E4E_6E6B_6EB2_6E5F_6E86),
  (0xE4D4, 0x6E53_6E54_6E32_6E25_6E44_6EDF_6EB1_6E98_6EE0_6F2D_6EE2_6EA5),
  (0xE4E0, 0x6EA7_6EBD_6EBB_6EB7_6ED7_6EB4_6ECF_6E8F_6EC2_6E9F_6F62_6F46),
  (0xE4EC, 0x6F47_6F24_6F15_6EF9_6F2F_6F36_6F4B_6F74_6F2A_6F09_6F29_6F89),
  (0xE4F8, 0x6F8D_6F8C_6F78_6F72_6F7C_6F7A_6FD1),
  (0xE540, 0x930A_930B_930C_930D_930E_930F_9310_9311_9312_9313_9314_9315),
  (0xE54C, 0x9316_9317_9318_9319_931A_931B_931C_931D_931E_931F_9320_9321),
  (0xE558, 0x9322_9323_9324_9325_9326_9327_9328_9329_932A_932B_932C_932D),
  (0xE564, 0x932E_932F_9330_9331_9332_9333_9334_9335_9336_9337_9338_9339),
  (0xE570, 0x933A_933B_933C_933D_933F_9340_9341_9342_9343_9344_9345_9346),
  (0xE57C, 0x9347_9348_9349),
  (0xE580, 0x934A_934B_934C_934D_934E_934F_9350_9351_9352_9353_9354_9355),
  (0xE58C, 0x9356_9357_9358_9359_935A_935B_935C_935D_935E_935F_9360_9361),
  (0xE598, 0x9362_9363_9364_9365_9366_9367_9368_9369_936B_6FC9_6FA7_6FB9),
  (0xE5A4, 0x6FB6_6FC2_6FE1_6FEE_6FDE_6FE0_6FEF_701A_7023_701B_7039_7035),
  (0xE5B0, 0x704F_705E_5B80_5B84_5B95_5B93_5BA5_5BB8_752F_9A9E_6434_5BE4),
  (0xE5BC, 0x5BEE_8930_5BF0_8E47_8B07_8FB6_8FD3_8FD5_8FE5_8FEE_8FE4_8FE9),
  (0xE5C8, 0x8FE6_8FF3_8FE8_9005_9004_900B_9026_9011_900D_9016_9021_9035),
  (0xE5D4, 0x9036_902D_902F_9044_9051_9052_9050_9068_9058_9062_905B_66B9),
  (0xE5E0, 0x9074_907D_9082_9088_9083_908B_5F50_5F57_5F56_5F58_5C3B_54AB),
  (0xE5EC, 0x5C50_5C59_5B71_5C63_5C66_7FBC_5F2A_5F29_5F2D_8274_5F3C_9B3B),
  (0xE5F8, 0x5C6E_5981_5983_598D_59A9_59AA_59A3),
  (0xE640, 0x936C_936D_936E_936F_9370_9371_9372_9373_9374_9375_9376_9377),
  (0xE64C, 0x9378_9379_937A_937B_937C_937D_937E_937F_9380_9381_9382_9383),
  (0xE658, 0x9384_9385_9386_9387_9388_9389_938A_938B_938C_938D_938E_9390),
  (0xE664, 0x9391_9392_9393_9394_9395_9396_9397_9398_9399_939A_939B_939C),
  (0xE670, 0x939D_939E_939F_93A0_93A1_93A2_93A3_93A4_93A5_93A6_93A7_93A8),
  (0xE67C, 0x93A9_93AA_93AB),
  (0xE680, 0x93AC_93AD_93AE_93AF_93B0_93B1_93B2_93B3_93B4_93B5_93B6_93B7),
  (0xE68C, 0x93B8_93B9_93BA_93BB_93BC_93BD_93BE_93BF_93C0_93C1_93C2_93C3),
  (0xE698, 0x93C4_93C5_93C6_93C7_93C8_93C9_93CB_93CC_93CD_5997_59CA_59AB),
  (0xE6A4, 0x599E_59A4_59D2_59B2_59AF_59D7_59BE_5A05_5A06_59DD_5A08_59E3),
  (0xE6B0, 0x59D8_59F9_5A0C_5A09_5A32_5A34_5A11_5A23_5A13_5A40_5A67_5A4A),
  (0xE6BC, 0x5A55_5A3C_5A62_5A75_80EC_5AAA_5A9B_5A77_5A7A_5ABE_5AEB_5AB2),
  (0xE6C8, 0x5AD2_5AD4_5AB8_5AE0_5AE3_5AF1_5AD6_5AE6_5AD8_5ADC_5B09_5B17),
  (0xE6D4, 0x5B16_5B32_5B37_5B40_5C15_5C1C_5B5A_5B65_5B73_5B51_5B53_5B62),
  (0xE6E0, 0x9A75_9A77_9A78_9A7A_9A7F_9A7D_9A80_9A81_9A85_9A88_9A8A_9A90),
  (0xE6EC, 0x9A92_9A93_9A96_9A98_9A9B_9A9C_9A9D_9A9F_9AA0_9AA2_9AA3_9AA5),
  (0xE6F8, 0x9AA7_7E9F_7EA1_7EA3_7EA5_7EA8_7EA9),
  (0xE740, 0x93CE_93CF_93D0_93D1_93D2_93D3_93D4_93D5_93D7_93D8_93D9_93DA),
  (0xE74C, 0x93DB_93DC_93DD_93DE_93DF_93E0_93E1_93E2_93E3_93E4_93E5_93E6),
  (0xE758, 0x93E7_93E8_93E9_93EA_93EB_93EC_93ED_93EE_93EF_93F0_93F1_93F2),
  (0xE764, 0x93F3_93F4_93F5_93F6_93F7_93F8_93F9_93FA_93FB_93FC_93FD_93FE),
  (0xE770, 0x93FF_9400_9401_9402_9403_9404_9405_9406_9407_9408_9409_940A),
  (0xE77C, 0x940B_940C_940D),
  (0xE780, 0x940E_940F_9410_9411_9412_9413_9414_9415_9416_9417_9418_9419),
  (0xE78C, 0x941A_941B_941C_941D_941E_941F_9420_9421_9422_9423_9424_9425),
  (0xE798, 0x9426_9427_9428_9429_942A_942B_942C_942D_942E_7EAD_7EB0_7EBE),
  (0xE7A4, 0x7EC0_7EC1_7EC2_7EC9_7ECB_7ECC_7ED0_7ED4_7ED7_7EDB_7EE0_7EE1),
  (0xE7B0, 0x7EE8_7EEB_7EEE_7EEF_7EF1_7EF2_7F0D_7EF6_7EFA_7EFB_7EFE_7F01),
  (0xE7BC, 0x7F02_7F03_7F07_7F08_7F0B_7F0C_7F0F_7F11_7F12_7F17_7F19_7F1C),
  (0xE7C8, 0x7F1B_7F1F_7F21_7F22_7F23_7F24_7F25_7F26_7F27_7F2A_7F2B_7F2C),
  (0xE7D4, 0x7F2D_7F2F_7F30_7F31_7F32_7F33_7F35_5E7A_757F_5DDB_753E_9095),
  (0xE7E0, 0x738E_7391_73AE_73A2_739F_73CF_73C2_73D1_73B7_73B3_73C0_73C9),
  (0xE7EC, 0x73C8_73E5_73D9_987C_740A_73E9_73E7_73DE_73BA_73F2_740F_742A),
  (0xE7F8, 0x745B_7426_7425_7428_7430_742E_742C),
  (0xE840, 0x942F_9430_9431_9432_9433_9434_9435_9436_9437_9438_9439_943A),
  (0xE84C, 0x943B_943C_943D_943F_9440_9441_9442_9443_9444_9445_9446_9447),
  (0xE858, 0x9448_9449_944A_944B_944C_944D_944E_944F_9450_9451_9452_9453),
  (0xE864, 0x9454_9455_9456_9457_9458_9459_945A_945B_945C_945D_945E_945F),
  (0xE870, 0x9460_9461_9462_9463_9464_9465_9466_9467_9468_9469_946A_946C),
  (0xE87C, 0x946D_946E_946F),
  (0xE880, 0x9470_9471_9472_9473_9474_9475_9476_9477_9478_9479_947A_947B),
  (0xE88C, 0x947C_947D_947E_947F_9480_9481_9482_9483_9484_9491_9496_9498),
  (0xE898, 0x94C7_94CF_94D3_94D4_94DA_94E6_94FB_951C_9520_741B_741A_7441),
  (0xE8A4, 0x745C_7457_7455_7459_7477_746D_747E_749C_748E_7480_7481_7487),
  (0xE8B0, 0x748B_749E_74A8_74A9_7490_74A7_74D2_74BA_97EA_97EB_97EC_674C),
  (0xE8BC, 0x6753_675E_6748_6769_67A5_6787_676A_6773_6798_67A7_6775_67A8),
  (0xE8C8, 0x679E_67AD_678B_6777_677C_67F0_6809_67D8_680A_67E9_67B0_680C),
  (0xE8D4, 0x67D9_67B5_67DA_67B3_67DD_6800_67C3_67B8_67E2_680E_67C1_67FD),
  (0xE8E0, 0x6832_6833_6860_6861_684E_6862_6844_6864_6883_681D_6855_6866),
  (0xE8EC, 0x6841_6867_6840_683E_684A_6849_6829_68B5_688F_6874_6877_6893),
  (0xE8F8, 0x686B_68C2_696E_68FC_691F_6920_68F9),
  (0xE940, 0x9527_9533_953D_9543_9548_954B_9555_955A_9560_956E_9574_9575),
  (0xE94C, 0x9577_9578_9579_957A_957B_957C_957D_957E_9580_9581_9582_9583),
  (0xE958, 0x9584_9585_9586_9587_9588_9589_958A_958B_958C_958D_958E_958F),
  (0xE964, 0x9590_9591_9592_9593_9594_9595_9596_9597_9598_9599_959A_959B),
  (0xE970, 0x959C_959D_959E_959F_95A0_95A1_95A2_95A3_95A4_95A5_95A6_95A7),
  (0xE97C, 0x95A8_95A9_95AA),
  (0xE980, 0x95AB_95AC_95AD_95AE_95AF_95B0_95B1_95B2_95B3_95B4_95B5_95B6),
  (0xE98C, 0x95B7_95B8_95B9_95BA_95BB_95BC_95BD_95BE_95BF_95C0_95C1_95C2),
  (0xE998, 0x95C3_95C4_95C5_95C6_95C7_95C8_95C9_95CA_95CB_6924_68F0_690B),
  (0xE9A4, 0x6901_6957_68E3_6910_6971_6939_6960_6942_695D_6984_696B_6980),
  (0xE9B0, 0x6998_6978_6934_69CC_6987_6988_69CE_6989_6966_6963_6979_699B),
  (0xE9BC, 0x69A7_69BB_69AB_69AD_69D4_69B1_69C1_69CA_69DF_6995_69E0_698D),
  (0xE9C8, 0x69FF_6A2F_69ED_6A17_6A18_6A65_69F2_6A44_6A3E_6AA0_6A50_6A5B),
  (0xE9D4, 0x6A35_6A8E_6A79_6A3D_6A28_6A58_6A7C_6A91_6A90_6AA9_6A97_6AAB),
  (0xE9E0, 0x7337_7352_6B81_6B82_6B87_6B84_6B92_6B93_6B8D_6B9A_6B9B_6BA1),
  (0xE9EC, 0x6BAA_8F6B_8F6D_8F71_8F72_8F73_8F75_8F76_8F78_8F77_8F79_8F7A),
  (0xE9F8, 0x8F7C_8F7E_8F81_8F82_8F84_8F87_8F8B),
  (0xEA40, 0x95CC_95CD_95CE_95CF_95D0_95D1_95D2_95D3_95D4_95D5_95D6_95D7),
  (0xEA4C, 0x95D8_95D9_95DA_95DB_95DC_95DD_95DE_95DF_95E0_95E1_95E2_95E3),
  (0xEA58, 0x95E4_95E5_95E6_95E7_95EC_95FF_9607_9613_9618_961B_961E_9620),
  (0xEA64, 0x9623_9624_9625_9626_9627_9628_9629_962B_962C_962D_962F_9630),
  (0xEA70, 0x9637_9638_9639_963A_963E_9641_9643_964A_964E_964F_9651_9652),
  (0xEA7C, 0x9653_9656_9657),
  (0xEA80, 0x9658_9659_965A_965C_965D_965E_9660_9663_9665_9666_966B_966D),
  (0xEA8C, 0x966E_966F_9670_9671_9673_9678_9679_967A_967B_967C_967D_967E),
  (0xEA98, 0x967F_9680_9681_9682_9683_9684_9687_9689_968A_8F8D_8F8E_8F8F),
  (0xEAA4, 0x8F98_8F9A_8ECE_620B_6217_621B_621F_6222_6221_6225_6224_622C),
  (0xEAB0, 0x81E7_74EF_74F4_74FF_750F_7511_7513_6534_65EE_65EF_65F0_660A),
  (0xEABC, 0x6619_6772_6603_6615_6600_7085_66F7_661D_6634_6631_6636_6635),
  (0xEAC8, 0x8006_665F_6654_6641_664F_6656_6661_6657_6677_6684_668C_66A7),
  (0xEAD4, 0x669D_66BE_66DB_66DC_66E6_66E9_8D32_8D33_8D36_8D3B_8D3D_8D40),
  (0xEAE0, 0x8D45_8D46_8D48_8D49_8D47_8D4D_8D55_8D59_89C7_89CA_89CB_89CC),
  (0xEAEC, 0x89CE_89CF_89D0_89D1_726E_729F_725D_7266_726F_727E_727F_7284),
  (0xEAF8, 0x728B_728D_728F_7292_6308_6332_63B0),
  (0xEB40, 0x968C_968E_9691_9692_9693_9695_9696_969A_969B_969D_969E_969F),
  (0xEB4C, 0x96A0_96A1_96A2_96A3_96A4_96A5_96A6_96A8_96A9_96AA_96AB_96AC),
  (0xEB58, 0x96AD_96AE_96AF_96B1_96B2_96B4_96B5_96B7_96B8_96BA_96BB_96BF),
  (0xEB64, 0x96C2_96C3_96C8_96CA_96CB_96D0_96D1_96D3_96D4_96D6_96D7_96D8),
  (0xEB70, 0x96D9_96DA_96DB_96DC_96DD_96DE_96DF_96E1_96E2_96E3_96E4_96E5),
  (0xEB7C, 0x96E6_96E7_96EB),
  (0xEB80, 0x96EC_96ED_96EE_96F0_96F1_96F2_96F4_96F5_96F8_96FA_96FB_96FC),
  (0xEB8C, 0x96FD_96FF_9702_9703_9705_970A_970B_970C_9710_9711_9712_9714),
  (0xEB98, 0x9715_9717_9718_9719_971A_971B_971D_971F_9720_643F_64D8_8004),
  (0xEBA4, 0x6BEA_6BF3_6BFD_6BF5_6BF9_6C05_6C07_6C06_6C0D_6C15_6C18_6C19),
  (0xEBB0, 0x6C1A_6C21_6C29_6C24_6C2A_6C32_6535_6555_656B_724D_7252_7256),
  (0xEBBC, 0x7230_8662_5216_809F_809C_8093_80BC_670A_80BD_80B1_80AB_80AD),
  (0xEBC8, 0x80B4_80B7_80E7_80E8_80E9_80EA_80DB_80C2_80C4_80D9_80CD_80D7),
  (0xEBD4, 0x6710_80DD_80EB_80F1_80F4_80ED_810D_810E_80F2_80FC_6715_8112),
  (0xEBE0, 0x8C5A_8136_811E_812C_8118_8132_8148_814C_8153_8174_8159_815A),
  (0xEBEC, 0x8171_8160_8169_817C_817D_816D_8167_584D_5AB5_8188_8182_8191),
  (0xEBF8, 0x6ED5_81A3_81AA_81CC_6726_81CA_81BB),
  (0xEC40, 0x9721_9722_9723_9724_9725_9726_9727_9728_9729_972B_972C_972E),
  (0xEC4C, 0x972F_9731_9733_9734_9735_9736_9737_973A_973B_973C_973D_973F),
  (0xEC58, 0x9740_9741_9742_9743_9744_9745_9746_9747_9748_9749_974A_974B),
  (0xEC64, 0x974C_974D_974E_974F_9750_9751_9754_9755_9757_9758_975A_975C),
  (0xEC70, 0x975D_975F_9763_9764_9766_9767_9768_976A_976B_976C_976D_976E),
  (0xEC7C, 0x976F_9770_9771),
  (0xEC80, 0x9772_9775_9777_9778_9779_977A_977B_977D_977E_977F_9780_9781),
  (0xEC8C, 0x9782_9783_9784_9786_9787_9788_9789_978A_978C_978E_978F_9790),
  (0xEC98, 0x9793_9795_9796_9797_9799_979A_979B_979C_979D_81C1_81A6_6B24),
  (0xECA4, 0x6B37_6B39_6B43_6B46_6B59_98D1_98D2_98D3_98D5_98D9_98DA_6BB3),
  (0xECB0, 0x5F40_6BC2_89F3_6590_9F51_6593_65BC_65C6_65C4_65C3_65CC_65CE),
  (0xECBC, 0x65D2_65D6_7080_709C_7096_709D_70BB_70C0_70B7_70AB_70B1_70E8),
  (0xECC8, 0x70CA_7110_7113_7116_712F_7131_7173_715C_7168_7145_7172_714A),
  (0xECD4, 0x7178_717A_7198_71B3_71B5_71A8_71A0_71E0_71D4_71E7_71F9_721D),
  (0xECE0, 0x7228_706C_7118_7166_71B9_623E_623D_6243_6248_6249_793B_7940),
  (0xECEC, 0x7946_7949_795B_795C_7953_795A_7962_7957_7960_796F_7967_797A),
  (0xECF8, 0x7985_798A_799A_79A7_79B3_5FD1_5FD0),
  (0xED40, 0x979E_979F_97A1_97A2_97A4_97A5_97A6_97A7_97A8_97A9_97AA_97AC),
  (0xED4C, 0x97AE_97B0_97B1_97B3_97B5_97B6_97B7_97B8_97B9_97BA_97BB_97BC),
  (0xED58, 0x97BD_97BE_97BF_97C0_97C1_97C2_97C3_97C4_97C5_97C6_97C7_97C8),
  (0xED64, 0x97C9_97CA_97CB_97CC_97CD_97CE_97CF_97D0_97D1_97D2_97D3_97D4),
  (0xED70, 0x97D5_97D6_97D7_97D8_97D9_97DA_97DB_97DC_97DD_97DE_97DF_97E0),
  (0xED7C, 0x97E1_97E2_97E3),
  (0xED80, 0x97E4_97E5_97E8_97EE_97EF_97F0_97F1_97F2_97F4_97F7_97F8_97F9),
  (0xED8C, 0x97FA_97FB_97FC_97FD_97FE_97FF_9800_9801_9802_9803_9804_9805),
  (0xED98, 0x9806_9807_9808_9809_980A_980B_980C_980D_980E_603C_605D_605A),
  (0xEDA4, 0x6067_6041_6059_6063_60AB_6106_610D_615D_61A9_619D_61CB_61D1),
  (0xEDB0, 0x6206_8080_807F_6C93_6CF6_6DFC_77F6_77F8_7800_7809_7817_7818),
  (0xEDBC, 0x7811_65AB_782D_781C_781D_7839_783A_783B_781F_783C_7825_782C),
  (0xEDC8, 0x7823_7829_784E_786D_7856_7857_7826_7850_7847_784C_786A_789B),
  (0xEDD4, 0x7893_789A_7887_789C_78A1_78A3_78B2_78B9_78A5_78D4_78D9_78C9),
  (0xEDE0, 0x78EC_78F2_7905_78F4_7913_7924_791E_7934_9F9B_9EF9_9EFB_9EFC),
  (0xEDEC, 0x76F1_7704_770D_76F9_7707_7708_771A_7722_7719_772D_7726_7735),
  (0xEDF8, 0x7738_7750_7751_7747_7743_775A_7768),
  (0xEE40, 0x980F_9810_9811_9812_9813_9814_9815_9816_9817_9818_9819_981A),
  (0xEE4C, 0x981B_981C_981D_981E_981F_9820_9821_9822_9823_9824_9825_9826),
  (0xEE58, 0x9827_9828_9829_982A_982B_982C_982D_982E_982F_9830_9831_9832),
  (0xEE64, 0x9833_9834_9835_9836_9837_9838_9839_983A_983B_983C_983D_983E),
  (0xEE70, 0x983F_9840_9841_9842_9843_9844_9845_9846_9847_9848_9849_984A),
  (0xEE7C, 0x984B_984C_984D),
  (0xEE80, 0x984E_984F_9850_9851_9852_9853_9854_9855_9856_9857_9858_9859),
  (0xEE8C, 0x985A_985B_985C_985D_985E_985F_9860_9861_9862_9863_9864_9865),
  (0xEE98, 0x9866_9867_9868_9869_986A_986B_986C_986D_986E_7762_7765_777F),
  (0xEEA4, 0x778D_777D_7780_778C_7791_779F_77A0_77B0_77B5_77BD_753A_7540),
  (0xEEB0, 0x754E_754B_7548_755B_7572_7579_7583_7F58_7F61_7F5F_8A48_7F68),
  (0xEEBC, 0x7F74_7F71_7F79_7F81_7F7E_76CD_76E5_8832_9485_9486_9487_948B),
  (0xEEC8, 0x948A_948C_948D_948F_9490_9494_9497_9495_949A_949B_949C_94A3),
  (0xEED4, 0x94A4_94AB_94AA_94AD_94AC_94AF_94B0_94B2_94B4_94B6_94B7_94B8),
  (0xEEE0, 0x94B9_94BA_94BC_94BD_94BF_94C4_94C8_94C9_94CA_94CB_94CC_94CD),
  (0xEEEC, 0x94CE_94D0_94D1_94D2_94D5_94D6_94D7_94D9_94D8_94DB_94DE_94DF),
  (0xEEF8, 0x94E0_94E2_94E4_94E5_94E7_94E8_94EA),
  (0xEF40, 0x986F_9870_9871_9872_9873_9874_988B_988E_9892_9895_9899_98A3),
  (0xEF4C, 0x98A8_98A9_98AA_98AB_98AC_98AD_98AE_98AF_98B0_98B1_98B2_98B3),
  (0xEF58, 0x98B4_98B5_98B6_98B7_98B8_98B9_98BA_98BB_98BC_98BD_98BE_98BF),
  (0xEF64, 0x98C0_98C1_98C2_98C3_98C4_98C5_98C6_98C7_98C8_98C9_98CA_98CB),
  (0xEF70, 0x98CC_98CD_98CF_98D0_98D4_98D6_98D7_98DB_98DC_98DD_98E0_98E1),
  (0xEF7C, 0x98E2_98E3_98E4),
  (0xEF80, 0x98E5_98E6_98E9_98EA_98EB_98EC_98ED_98EE_98EF_98F0_98F1_98F2),
  (0xEF8C, 0x98F3_98F4_98F5_98F6_98F7_98F8_98F9_98FA_98FB_98FC_98FD_98FE),
  (0xEF98, 0x98FF_9900_9901_9902_9903_9904_9905_9906_9907_94E9_94EB_94EE),
  (0xEFA4, 0x94EF_94F3_94F4_94F5_94F7_94F9_94FC_94FD_94FF_9503_9502_9506),
  (0xEFB0, 0x9507_9509_950A_950D_950E_950F_9512_9513_9514_9515_9516_9518),
  (0xEFBC, 0x951B_951D_951E_951F_9522_952A_952B_9529_952C_9531_9532_9534),
  (0xEFC8, 0x9536_9537_9538_953C_953E_953F_9542_9535_9544_9545_9546_9549),
  (0xEFD4, 0x954C_954E_954F_9552_9553_9554_9556_9557_9558_9559_955B_955E),
  (0xEFE0, 0x955F_955D_9561_9562_9564_9565_9566_9567_9568_9569_956A_956B),
  (0xEFEC, 0x956C_956F_9571_9572_9573_953A_77E7_77EC_96C9_79D5_79ED_79E3),
  (0xEFF8, 0x79EB_7A06_5D47_7A03_7A02_7A1E_7A14),
  (0xF040, 0x9908_9909_990A_990B_990C_990E_990F_9911_9912_9913_9914_9915),
  (0xF04C, 0x9916_9917_9918_9919_991A_991B_991C_991D_991E_991F_9920_9921),
  (0xF058, 0x9922_9923_9924_9925_9926_9927_9928_9929_992A_992B_992C_992D),
  (0xF064, 0x992F_9930_9931_9932_9933_9934_9935_9936_9937_9938_9939_993A),
  (0xF070, 0x993B_993C_993D_993E_993F_9940_9941_9942_9943_9944_9945_9946),
  (0xF07C, 0x9947_9948_9949),
  (0xF080, 0x994A_994B_994C_994D_994E_994F_9950_9951_9952_9953_9956_9957),
  (0xF08C, 0x9958_9959_995A_995B_995C_995D_995E_995F_9960_9961_9962_9964),
  (0xF098, 0x9966_9973_9978_9979_997B_997E_9982_9983_9989_7A39_7A37_7A51),
  (0xF0A4, 0x9ECF_99A5_7A70_7688_768E_7693_7699_76A4_74DE_74E0_752C_9E20),
  (0xF0B0, 0x9E22_9E28_9E29_9E2A_9E2B_9E2C_9E32_9E31_9E36_9E38_9E37_9E39),
  (0xF0BC, 0x9E3A_9E3E_9E41_9E42_9E44_9E46_9E47_9E48_9E49_9E4B_9E4C_9E4E),
  (0xF0C8, 0x9E51_9E55_9E57_9E5A_9E5B_9E5C_9E5E_9E63_9E66_9E67_9E68_9E69),
  (0xF0D4, 0x9E6A_9E6B_9E6C_9E71_9E6D_9E73_7592_7594_7596_75A0_759D_75AC),
  (0xF0E0, 0x75A3_75B3_75B4_75B8_75C4_75B1_75B0_75C3_75C2_75D6_75CD_75E3),
  (0xF0EC, 0x75E8_75E6_75E4_75EB_75E7_7603_75F1_75FC_75FF_7610_7600_7605),
  (0xF0F8, 0x760C_7617_760A_7625_7618_7615_7619),
  (0xF140, 0x998C_998E_999A_999B_999C_999D_999E_999F_99A0_99A1_99A2_99A3),
  (0xF14C, 0x99A4_99A6_99A7_99A9_99AA_99AB_99AC_99AD_99AE_99AF_99B0_99B1),
  (0xF158, 0x99B2_99B3_99B4_99B5_99B6_99B7_99B8_99B9_99BA_99BB_99BC_99BD),
  (0xF164, 0x99BE_99BF_99C0_99C1_99C2_99C3_99C4_99C5_99C6_99C7_99C8_99C9),
  (0xF170, 0x99CA_99CB_99CC_99CD_99CE_99CF_99D0_99D1_99D2_99D3_99D4_99D5),
  (0xF17C, 0x99D6_99D7_99D8),
  (0xF180, 0x99D9_99DA_99DB_99DC_99DD_99DE_99DF_99E0_99E1_99E2_99E3_99E4),
  (0xF18C, 0x99E5_99E6_99E7_99E8_99E9_99EA_99EB_99EC_99ED_99EE_99EF_99F0),
  (0xF198, 0x99F1_99F2_99F3_99F4_99F5_99F6_99F7_99F8_99F9_761B_763C_7622),
  (0xF1A4, 0x7620_7640_762D_7630_763F_7635_7643_763E_7633_764D_765E_7654),
  (0xF1B0, 0x765C_7656_766B_766F_7FCA_7AE6_7A78_7A79_7A80_7A86_7A88_7A95),
  (0xF1BC, 0x7AA6_7AA0_7AAC_7AA8_7AAD_7AB3_8864_8869_8872_887D_887F_8882),
  (0xF1C8, 0x88A2_88C6_88B7_88BC_88C9_88E2_88CE_88E3_88E5_88F1_891A_88FC),
  (0xF1D4, 0x88E8_88FE_88F0_8921_8919_8913_891B_890A_8934_892B_8936_8941),
  (0xF1E0, 0x8966_897B_758B_80E5_76B2_76B4_77DC_8012_8014_8016_801C_8020),
  (0xF1EC, 0x8022_8025_8026_8027_8029_8028_8031_800B_8035_8043_8046_804D),
  (0xF1F8, 0x8052_8069_8071_8983_9878_9880_9883),
  (0xF240, 0x99FA_99FB_99FC_99FD_99FE_99FF_9A00_9A01_9A02_9A03_9A04_9A05),
  (0xF24C, 0x9A06_9A07_9A08_9A09_9A0A_9A0B_9A0C_9A0D_9A0E_9A0F_9A10_9A11),
  (0xF258, 0x9A12_9A13_9A14_9A15_9A16_9A17_9A18_9A19_9A1A_9A1B_9A1C_9A1D),
  (0xF264, 0x9A1E_9A1F_9A20_9A21_9A22_9A23_9A24_9A25_9A26_9A27_9A28_9A29),
  (0xF270, 0x9A2A_9A2B_9A2C_9A2D_9A2E_9A2F_9A30_9A31_9A32_9A33_9A34_9A35),
  (0xF27C, 0x9A36_9A37_9A38),
  (0xF280, 0x9A39_9A3A_9A3B_9A3C_9A3D_9A3E_9A3F_9A40_9A41_9A42_9A43_9A44),
  (0xF28C, 0x9A45_9A46_9A47_9A48_9A49_9A4A_9A4B_9A4C_9A4D_9A4E_9A4F_9A50),
  (0xF298, 0x9A51_9A52_9A53_9A54_9A55_9A56_9A57_9A58_9A59_9889_988C_988D),
  (0xF2A4, 0x988F_9894_989A_989B_989E_989F_98A1_98A2_98A5_98A6_864D_8654),
  (0xF2B0, 0x866C_866E_867F_867A_867C_867B_86A8_868D_868B_86AC_869D_86A7),
  (0xF2BC, 0x86A3_86AA_8693_86A9_86B6_86C4_86B5_86CE_86B0_86BA_86B1_86AF),
  (0xF2C8, 0x86C9_86CF_86B4_86E9_86F1_86F2_86ED_86F3_86D0_8713_86DE_86F4),
  (0xF2D4, 0x86DF_86D8_86D1_8703_8707_86F8_8708_870A_870D_8709_8723_873B),
  (0xF2E0, 0x871E_8725_872E_871A_873E_8748_8734_8731_8729_8737_873F_8782),
  (0xF2EC, 0x8722_877D_877E_877B_8760_8770_874C_876E_878B_8753_8763_877C),
  (0xF2F8, 0x8764_8759_8765_8793_87AF_87A8_87D2),
  (0xF340, 0x9A5A_9A5B_9A5C_9A5D_9A5E_9A5F_9A60_9A61_9A62_9A63_9A64_9A65),
  (0xF34C, 0x9A66_9A67_9A68_9A69_9A6A_9A6B_9A72_9A83_9A89_9A8D_9A8E_9A94),
  (0xF358, 0x9A95_9A99_9AA6_9AA9_9AAA_9AAB_9AAC_9AAD_9AAE_9AAF_9AB2_9AB3),
  (0xF364, 0x9AB4_9AB5_9AB9_9ABB_9ABD_9ABE_9ABF_9AC3_9AC4_9AC6_9AC7_9AC8),
  (0xF370, 0x9AC9_9ACA_9ACD_9ACE_9ACF_9AD0_9AD2_9AD4_9AD5_9AD6_9AD7_9AD9),
  (0xF37C, 0x9ADA_9ADB_9ADC),
  (0xF380, 0x9ADD_9ADE_9AE0_9AE2_9AE3_9AE4_9AE5_9AE7_9AE8_9AE9_9AEA_9AEC),
  (0xF38C, 0x9AEE_9AF0_9AF1_9AF2_9AF3_9AF4_9AF5_9AF6_9AF7_9AF8_9AFA_9AFC),
  (0xF398, 0x9AFD_9AFE_9AFF_9B00_9B01_9B02_9B04_9B05_9B06_87C6_8788_8785),
  (0xF3A4, 0x87AD_8797_8783_87AB_87E5_87AC_87B5_87B3_87CB_87D3_87BD_87D1),
  (0xF3B0, 0x87C0_87CA_87DB_87EA_87E0_87EE_8816_8813_87FE_880A_881B_8821),
  (0xF3BC, 0x8839_883C_7F36_7F42_7F44_7F45_8210_7AFA_7AFD_7B08_7B03_7B04),
  (0xF3C8, 0x7B15_7B0A_7B2B_7B0F_7B47_7B38_7B2A_7B19_7B2E_7B31_7B20_7B25),
  (0xF3D4, 0x7B24_7B33_7B3E_7B1E_7B58_7B5A_7B45_7B75_7B4C_7B5D_7B60_7B6E),
  (0xF3E0, 0x7B7B_7B62_7B72_7B71_7B90_7BA6_7BA7_7BB8_7BAC_7B9D_7BA8_7B85),
  (0xF3EC, 0x7BAA_7B9C_7BA2_7BAB_7BB4_7BD1_7BC1_7BCC_7BDD_7BDA_7BE5_7BE6),
  (0xF3F8, 0x7BEA_7C0C_7BFE_7BFC_7C0F_7C16_7C0B),
  (0xF440, 0x9B07_9B09_9B0A_9B0B_9B0C_9B0D_9B0E_9B10_9B11_9B12_9B14_9B15),
  (0xF44C, 0x9B16_9B17_9B18_9B19_9B1A_9B1B_9B1C_9B1D_9B1E_9B20_9B21_9B22),
  (0xF458, 0x9B24_9B25_9B26_9B27_9B28_9B29_9B2A_9B2B_9B2C_9B2D_9B2E_9B30),
  (0xF464, 0x9B31_9B33_9B34_9B35_9B36_9B37_9B38_9B39_9B3A_9B3D_9B3E_9B3F),
  (0xF470, 0x9B40_9B46_9B4A_9B4B_9B4C_9B4E_9B50_9B52_9B53_9B55_9B56_9B57),
  (0xF47C, 0x9B58_9B59_9B5A),
  (0xF480, 0x9B5B_9B5C_9B5D_9B5E_9B5F_9B60_9B61_9B62_9B63_9B64_9B65_9B66),
  (0xF48C, 0x9B67_9B68_9B69_9B6A_9B6B_9B6C_9B6D_9B6E_9B6F_9B70_9B71_9B72),
  (0xF498, 0x9B73_9B74_9B75_9B76_9B77_9B78_9B79_9B7A_9B7B_7C1F_7C2A_7C26),
  (0xF4A4, 0x7C38_7C41_7C40_81FE_8201_8202_8204_81EC_8844_8221_8222_8223),
  (0xF4B0, 0x822D_822F_8228_822B_8238_823B_8233_8234_823E_8244_8249_824B),
  (0xF4BC, 0x824F_825A_825F_8268_887E_8885_8888_88D8_88DF_895E_7F9D_7F9F),
  (0xF4C8, 0x7FA7_7FAF_7FB0_7FB2_7C7C_6549_7C91_7C9D_7C9C_7C9E_7CA2_7CB2),
  (0xF4D4, 0x7CBC_7CBD_7CC1_7CC7_7CCC_7CCD_7CC8_7CC5_7CD7_7CE8_826E_66A8),
  (0xF4E0, 0x7FBF_7FCE_7FD5_7FE5_7FE1_7FE6_7FE9_7FEE_7FF3_7CF8_7D77_7DA6),
  (0xF4EC, 0x7DAE_7E47_7E9B_9EB8_9EB4_8D73_8D84_8D94_8D91_8DB1_8D67_8D6D),
  (0xF4F8, 0x8C47_8C49_914A_9150_914E_914F_9164),
  (0xF540, 0x9B7C_9B7D_9B7E_9B7F_9B80_9B81_9B82_9B83_9B84_9B85_9B86_9B87),
  (0xF54C, 0x9B88_9B89_9B8A_9B8B_9B8C_9B8D_9B8E_9B8F_9B90_9B91_9B92_9B93),
  (0xF558, 0x9B94_9B95_9B96_9B97_9B98_9B99_9B9A_9B9B_9B9C_9B9D_9B9E_9B9F),
  (0xF564, 0x9BA0_9BA1_9BA2_9BA3_9BA4_9BA5_9BA6_9BA7_9BA8_9BA9_9BAA_9BAB),
  (0xF570, 0x9BAC_9BAD_9BAE_9BAF_9BB0_9BB1_9BB2_9BB3_9BB4_9BB5_9BB6_9BB7),
  (0xF57C, 0x9BB8_9BB9_9BBA),
  (0xF580, 0x9BBB_9BBC_9BBD_9BBE_9BBF_9BC0_9BC1_9BC2_9BC3_9BC4_9BC5_9BC6),
  (0xF58C, 0x9BC7_9BC8_9BC9_9BCA_9BCB_9BCC_9BCD_9BCE_9BCF_9BD0_9BD1_9BD2),
  (0xF598, 0x9BD3_9BD4_9BD5_9BD6_9BD7_9BD8_9BD9_9BDA_9BDB_9162_9161_9170),
  (0xF5A4, 0x9169_916F_917D_917E_9172_9174_9179_918C_9185_9190_918D_9191),
  (0xF5B0, 0x91A2_91A3_91AA_91AD_91AE_91AF_91B5_91B4_91BA_8C55_9E7E_8DB8),
  (0xF5BC, 0x8DEB_8E05_8E59_8E69_8DB5_8DBF_8DBC_8DBA_8DC4_8DD6_8DD7_8DDA),
  (0xF5C8, 0x8DDE_8DCE_8DCF_8DDB_8DC6_8DEC_8DF7_8DF8_8DE3_8DF9_8DFB_8DE4),
  (0xF5D4, 0x8E09_8DFD_8E14_8E1D_8E1F_8E2C_8E2E_8E23_8E2F_8E3A_8E40_8E39),
  (0xF5E0, 0x8E35_8E3D_8E31_8E49_8E41_8E42_8E51_8E52_8E4A_8E70_8E76_8E7C),
  (0xF5EC, 0x8E6F_8E74_8E85_8E8F_8E94_8E90_8E9C_8E9E_8C78_8C82_8C8A_8C85),
  (0xF5F8, 0x8C98_8C94_659B_89D6_89DE_89DA_89DC),
  (0xF640, 0x9BDC_9BDD_9BDE_9BDF_9BE0_9BE1_9BE2_9BE3_9BE4_9BE5_9BE6_9BE7),
  (0xF64C, 0x9BE8_9BE9_9BEA_9BEB_9BEC_9BED_9BEE_9BEF_9BF0_9BF1_9BF2_9BF3),
  (0xF658, 0x9BF4_9BF5_9BF6_9BF7_9BF8_9BF9_9BFA_9BFB_9BFC_9BFD_9BFE_9BFF),
  (0xF664, 0x9C00_9C01_9C02_9C03_9C04_9C05_9C06_9C07_9C08_9C09_9C0A_9C0B),
  (0xF670, 0x9C0C_9C0D_9C0E_9C0F_9C10_9C11_9C12_9C13_9C14_9C15_9C16_9C17),
  (0xF67C, 0x9C18_9C19_9C1A),
  (0xF680, 0x9C1B_9C1C_9C1D_9C1E_9C1F_9C20_9C21_9C22_9C23_9C24_9C25_9C26),
  (0xF68C, 0x9C27_9C28_9C29_9C2A_9C2B_9C2C_9C2D_9C2E_9C2F_9C30_9C31_9C32),
  (0xF698, 0x9C33_9C34_9C35_9C36_9C37_9C38_9C39_9C3A_9C3B_89E5_89EB_89EF),
  (0xF6A4, 0x8A3E_8B26_9753_96E9_96F3_96EF_9706_9701_9708_970F_970E_972A),
  (0xF6B0, 0x972D_9730_973E_9F80_9F83_9F85_9F86_9F87_9F88_9F89_9F8A_9F8C),
  (0xF6BC, 0x9EFE_9F0B_9F0D_96B9_96BC_96BD_96CE_96D2_77BF_96E0_928E_92AE),
  (0xF6C8, 0x92C8_933E_936A_93CA_938F_943E_946B_9C7F_9C82_9C85_9C86_9C87),
  (0xF6D4, 0x9C88_7A23_9C8B_9C8E_9C90_9C91_9C92_9C94_9C95_9C9A_9C9B_9C9E),
  (0xF6E0, 0x9C9F_9CA0_9CA1_9CA2_9CA3_9CA5_9CA6_9CA7_9CA8_9CA9_9CAB_9CAD),
  (0xF6EC, 0x9CAE_9CB0_9CB1_9CB2_9CB3_9CB4_9CB5_9CB6_9CB7_9CBA_9CBB_9CBC),
  (0xF6F8, 0x9CBD_9CC4_9CC5_9CC6_9CC7_9CCA_9CCB),
  (0xF740, 0x9C3C_9C3D_9C3E_9C3F_9C40_9C41_9C42_9C43_9C44_9C45_9C46_9C47),
  (0xF74C, 0x9C48_9C49_9C4A_9C4B_9C4C_9C4D_9C4E_9C4F_9C50_9C51_9C52_9C53),
  (0xF758, 0x9C54_9C55_9C56_9C57_9C58_9C59_9C5A_9C5B_9C5C_9C5D_9C5E_9C5F),
  (0xF764, 0x9C60_9C61_9C62_9C63_9C64_9C65_9C66_9C67_9C68_9C69_9C6A_9C6B),
  (0xF770, 0x9C6C_9C6D_9C6E_9C6F_9C70_9C71_9C72_9C73_9C74_9C75_9C76_9C77),
  (0xF77C, 0x9C78_9C79_9C7A),
  (0xF780, 0x9C7B_9C7D_9C7E_9C80_9C83_9C84_9C89_9C8A_9C8C_9C8F_9C93_9C96),
  (0xF78C, 0x9C97_9C98_9C99_9C9D_9CAA_9CAC_9CAF_9CB9_9CBE_9CBF_9CC0_9CC1),
  (0xF798, 0x9CC2_9CC8_9CC9_9CD1_9CD2_9CDA_9CDB_9CE0_9CE1_9CCC_9CCD_9CCE),
  (0xF7A4, 0x9CCF_9CD0_9CD3_9CD4_9CD5_9CD7_9CD8_9CD9_9CDC_9CDD_9CDF_9CE2),
  (0xF7B0, 0x977C_9785_9791_9792_9794_97AF_97AB_97A3_97B2_97B4_9AB1_9AB0),
  (0xF7BC, 0x9AB7_9E58_9AB6_9ABA_9ABC_9AC1_9AC0_9AC5_9AC2_9ACB_9ACC_9AD1),
  (0xF7C8, 0x9B45_9B43_9B47_9B49_9B48_9B4D_9B51_98E8_990D_992E_9955_9954),
  (0xF7D4, 0x9ADF_9AE1_9AE6_9AEF_9AEB_9AFB_9AED_9AF9_9B08_9B0F_9B13_9B1F),
  (0xF7E0, 0x9B23_9EBD_9EBE_7E3B_9E82_9E87_9E88_9E8B_9E92_93D6_9E9D_9E9F),
  (0xF7EC, 0x9EDB_9EDC_9EDD_9EE0_9EDF_9EE2_9EE9_9EE7_9EE5_9EEA_9EEF_9F22),
  (0xF7F8, 0x9F2C_9F2F_9F39_9F37_9F3D_9F3E_9F44),
  (0xF840, 0x9CE3_9CE4_9CE5_9CE6_9CE7_9CE8_9CE9_9CEA_9CEB_9CEC_9CED_9CEE),
  (0xF84C, 0x9CEF_9CF0_9CF1_9CF2_9CF3_9CF4_9CF5_9CF6_9CF7_9CF8_9CF9_9CFA),
  (0xF858, 0x9CFB_9CFC_9CFD_9CFE_9CFF_9D00_9D01_9D02_9D03_9D04_9D05_9D06),
  (0xF864, 0x9D07_9D08_9D09_9D0A_9D0B_9D0C_9D0D_9D0E_9D0F_9D10_9D11_9D12),
  (0xF870, 0x9D13_9D14_9D15_9D16_9D17_9D18_9D19_9D1A_9D1B_9D1C_9D1D_9D1E),
  (0xF87C, 0x9D1F_9D20_9D21),
  (0xF880, 0x9D22_9D23_9D24_9D25_9D26_9D27_9D28_9D29_9D2A_9D2B_9D2C_9D2D),
  (0xF88C, 0x9D2E_9D2F_9D30_9D31_9D32_9D33_9D34_9D35_9D36_9D37_9D38_9D39),
  (0xF898, 0x9D3A_9D3B_9D3C_9D3D_9D3E_9D3F_9D40_9D41_9D42_E234_E235_E236),
  (0xF8A4, 0xE237_E238_E239_E23A_E23B_E23C_E23D_E23E_E23F_E240_E241_E242),
  (0xF8B0, 0xE243_E244_E245_E246_E247_E248_E249_E24A_E24B_E24C_E24D_E24E),
  (0xF8BC, 0xE24F_E250_E251_E252_E253_E254_E255_E256_E257_E258_E259_E25A),
  (0xF8C8, 0xE25B_E25C_E25D_E25E_E25F_E260_E261_E262_E263_E264_E265_E266),
  (0xF8D4, 0xE267_E268_E269_E26A_E26B_E26C_E26D_E26E_E26F_E270_E271_E272),
  (0xF8E0, 0xE273_E274_E275_E276_E277_E278_E279_E27A_E27B_E27C_E27D_E27E),
  (0xF8EC, 0xE27F_E280_E281_E282_E283_E284_E285_E286_E287_E288_E289_E28A),
  (0xF8F8, 0xE28B_E28C_E28D_E28E_E28F_E290_E291),
  (0xF940, 0x9D43_9D44_9D45_9D46_9D47_9D48_9D49_9D4A_9D4B_9D4C_9D4D_9D4E),
  (0xF94C, 0x9D4F_9D50_9D51_9D52_9D53_9D54_9D55_9D56_9D57_9D58_9D59_9D5A),
  (0xF958, 0x9D5B_9D5C_9D5D_9D5E_9D5F_9D60_9D61_9D62_9D63_9D64_9D65_9D66),
  (0xF964, 0x9D67_9D68_9D69_9D6A_9D6B_9D6C_9D6D_9D6E_9D6F_9D70_9D71_9D72),
  (0xF970, 0x9D73_9D74_9D75_9D76_9D77_9D78_9D79_9D7A_9D7B_9D7C_9D7D_9D7E),
  (0xF97C, 0x9D7F_9D80_9D81),
  (0xF980, 0x9D82_9D83_9D84_9D85_9D86_9D87_9D88_9D89_9D8A_9D8B_9D8C_9D8D),
  (0xF98C, 0x9D8E_9D8F_9D90_9D91_9D92_9D93_9D94_9D95_9D96_9D97_9D98_9D99),
  (0xF998, 0x9D9A_9D9B_9D9C_9D9D_9D9E_9D9F_9DA0_9DA1_9DA2_E292_E293_E294),
  (0xF9A4, 0xE295_E296_E297_E298_E299_E29A_E29B_E29C_E29D_E29E_E29F_E2A0),
  (0xF9B0, 0xE2A1_E2A2_E2A3_E2A4_E2A5_E2A6_E2A7_E2A8_E2A9_E2AA_E2AB_E2AC),
  (0xF9BC, 0xE2AD_E2AE_E2AF_E2B0_E2B1_E2B2_E2B3_E2B4_E2B5_E2B6_E2B7_E2B8),
  (0xF9C8, 0xE2B9_E2BA_E2BB_E2BC_E2BD_E2BE_E2BF_E2C0_E2C1_E2C2_E2C3_E2C4),
  (0xF9D4, 0xE2C5_E2C6_E2C7_E2C8_E2C9_E2CA_E2CB_E2CC_E2CD_E2CE_E2CF_E2D0),
  (0xF9E0, 0xE2D1_E2D2_E2D3_E2D4_E2D5_E2D6_E2D7_E2D8_E2D9_E2DA_E2DB_E2DC),
  (0xF9EC, 0xE2DD_E2DE_E2DF_E2E0_E2E1_E2E2_E2E3_E2E4_E2E5_E2E6_E2E7_E2E8),
  (0xF9F8, 0xE2E9_E2EA_E2EB_E2EC_E2ED_E2EE_E2EF),
  (0xFA40, 0x9DA3_9DA4_9DA5_9DA6_9DA7_9DA8_9DA9_9DAA_9DAB_9DAC_9DAD_9DAE),
  (0xFA4C, 0x9DAF_9DB0_9DB1_9DB2_9DB3_9DB4_9DB5_9DB6_9DB7_9DB8_9DB9_9DBA),
  (0xFA58, 0x9DBB_9DBC_9DBD_9DBE_9DBF_9DC0_9DC1_9DC2_9DC3_9DC4_9DC5_9DC6),
  (0xFA64, 0x9DC7_9DC8_9DC9_9DCA_9DCB_9DCC_9DCD_9DCE_9DCF_9DD0_9DD1_9DD2),
  (0xFA70, 0x9DD3_9DD4_9DD5_9DD6_9DD7_9DD8_9DD9_9DDA_9DDB_9DDC_9DDD_9DDE),
  (0xFA7C, 0x9DDF_9DE0_9DE1),
  (0xFA80, 0x9DE2_9DE3_9DE4_9DE5_9DE6_9DE7_9DE8_9DE9_9DEA_9DEB_9DEC_9DED),
  (0xFA8C, 0x9DEE_9DEF_9DF0_9DF1_9DF2_9DF3_9DF4_9DF5_9DF6_9DF7_9DF8_9DF9),
  (0xFA98, 0x9DFA_9DFB_9DFC_9DFD_9DFE_9DFF_9E00_9E01_9E02_E2F0_E2F1_E2F2),
  (0xFAA4, 0xE2F3_E2F4_E2F5_E2F6_E2F7_E2F8_E2F9_E2FA_E2FB_E2FC_E2FD_E2FE),
  (0xFAB0, 0xE2FF_E300_E301_E302_E303_E304_E305_E306_E307_E308_E309_E30A),
  (0xFABC, 0xE30B_E30C_E30D_E30E_E30F_E310_E311_E312_E313_E314_E315_E316),
  (0xFAC8, 0xE317_E318_E319_E31A_E31B_E31C_E31D_E31E_E31F_E320_E321_E322),
  (0xFAD4, 0xE323_E324_E325_E326_E327_E328_E329_E32A_E32B_E32C_E32D_E32E),
  (0xFAE0, 0xE32F_E330_E331_E332_E333_E334_E335_E336_E337_E338_E339_E33A),
  (0xFAEC, 0xE33B_E33C_E33D_E33E_E33F_E340_E341_E342_E343_E344_E345_E346),
  (0xFAF8, 0xE347_E348_E349_E34A_E34B_E34C_E34D),
  (0xFB40, 0x9E03_9E04_9E05_9E06_9E07_9E08_9E09_9E0A_9E0B_9E0C_9E0D_9E0E),
  (0xFB4C, 0x9E0F_9E10_9E11_9E12_9E13_9E14_9E15_9E16_9E17_9E18_9E19_9E1A),
  (0xFB58, 0x9E1B_9E1C_9E1D_9E1E_9E24_9E27_9E2E_9E30_9E34_9E3B_9E3C_9E40),
  (0xFB64, 0x9E4D_9E50_9E52_9E53_9E54_9E56_9E59_9E5D_9E5F_9E60_9E61_9E62),
  (0xFB70, 0x9E65_9E6E_9E6F_9E72_9E74_9E75_9E76_9E77_9E78_9E79_9E7A_9E7B),
  (0xFB7C, 0x9E7C_9E7D_9E80),
  (0xFB80, 0x9E81_9E83_9E84_9E85_9E86_9E89_9E8A_9E8C_9E8D_9E8E_9E8F_9E90),
  (0xFB8C, 0x9E91_9E94_9E95_9E96_9E97_9E98_9E99_9E9A_9E9B_9E9C_9E9E_9EA0),
  (0xFB98, 0x9EA1_9EA2_9EA3_9EA4_9EA5_9EA7_9EA8_9EA9_9EAA_E34E_E34F_E350),
  (0xFBA4, 0xE351_E352_E353_E354_E355_E356_E357_E358_E359_E35A_E35B_E35C),
  (0xFBB0, 0xE35D_E35E_E35F_E360_E361_E362_E363_E364_E365_E366_E367_E368),
  (0xFBBC, 0xE369_E36A_E36B_E36C_E36D_E36E_E36F_E370_E371_E372_E373_E374),
  (0xFBC8, 0xE375_E376_E377_E378_E379_E37A_E37B_E37C_E37D_E37E_E37F_E380),
  (0xFBD4, 0xE381_E382_E383_E384_E385_E386_E387_E388_E389_E38A_E38B_E38C),
  (0xFBE0, 0xE38D_E38E_E38F_E390_E391_E392_E393_E394_E395_E396_E397_E398),
  (0xFBEC, 0xE399_E39A_E39B_E39C_E39D_E39E_E39F_E3A0_E3A1_E3A2_E3A3_E3A4),
  (0xFBF8, 0xE3A5_E3A6_E3A7_E3A8_E3A9_E3AA_E3AB),
  (0xFC40, 0x9EAB_9EAC_9EAD_9EAE_9EAF_9EB0_9EB1_9EB2_9EB3_9EB5_9EB6_9EB7),
  (0xFC4C, 0x9EB9_9EBA_9EBC_9EBF_9EC0_9EC1_9EC2_9EC3_9EC5_9EC6_9EC7_9EC8),
  (0xFC58, 0x9ECA_9ECB_9ECC_9ED0_9ED2_9ED3_9ED5_9ED6_9ED7_9ED9_9EDA_9EDE),
  (0xFC64, 0x9EE1_9EE3_9EE4_9EE6_9EE8_9EEB_9EEC_9EED_9EEE_9EF0_9EF1_9EF2),
  (0xFC70, 0x9EF3_9EF4_9EF5_9EF6_9EF7_9EF8_9EFA_9EFD_9EFF_9F00_9F01_9F02),
  (0xFC7C, 0x9F03_9F04_9F05),
  (0xFC80, 0x9F06_9F07_9F08_9F09_9F0A_9F0C_9F0F_9F11_9F12_9F14_9F15_9F16),
  (0xFC8C, 0x9F18_9F1A_9F1B_9F1C_9F1D_9F1E_9F1F_9F21_9F23_9F24_9F25_9F26),
  (0xFC98, 0x9F27_9F28_9F29_9F2A_9F2B_9F2D_9F2E_9F30_9F31_E3AC_E3AD_E3AE),
  (0xFCA4, 0xE3AF_E3B0_E3B1_E3B2_E3B3_E3B4_E3B5_E3B6_E3B7_E3B8_E3B9_E3BA),
  (0xFCB0, 0xE3BB_E3BC_E3BD_E3BE_E3BF_E3C0_E3C1_E3C2_E3C3_E3C4_E3C5_E3C6),
  (0xFCBC, 0xE3C7_E3C8_E3C9_E3CA_E3CB_E3CC_E3CD_E3CE_E3CF_E3D0_E3D1_E3D2),
  (0xFCC8, 0xE3D3_E3D4_E3D5_E3D6_E3D7_E3D8_E3D9_E3DA_E3DB_E3DC_E3DD_E3DE),
  (0xFCD4, 0xE3DF_E3E0_E3E1_E3E2_E3E3_E3E4_E3E5_E3E6_E3E7_E3E8_E3E9_E3EA),
  (0xFCE0, 0xE3EB_E3EC_E3ED_E3EE_E3EF_E3F0_E3F1_E3F2_E3F3_E3F4_E3F5_E3F6),
  (0xFCEC, 0xE3F7_E3F8_E3F9_E3FA_E3FB_E3FC_E3FD_E3FE_E3FF_E400_E401_E402),
  (0xFCF8, 0xE403_E404_E405_E406_E407_E408_E409),
  (0xFD40, 0x9F32_9F33_9F34_9F35_9F36_9F38_9F3A_9F3C_9F3F_9F40_9F41_9F42),
  (0xFD4C, 0x9F43_9F45_9F46_9F47_9F48_9F49_9F4A_9F4B_9F4C_9F4D_9F4E_9F4F),
  (0xFD58, 0x9F52_9F53_9F54_9F55_9F56_9F57_9F58_9F59_9F5A_9F5B_9F5C_9F5D),
  (0xFD64, 0x9F5E_9F5F_9F60_9F61_9F62_9F63_9F64_9F65_9F66_9F67_9F68_9F69),
  (0xFD70, 0x9F6A_9F6B_9F6C_9F6D_9F6E_9F6F_9F70_9F71_9F72_9F73_9F74_9F75),
  (0xFD7C, 0x9F76_9F77_9F78),
  (0xFD80, 0x9F79_9F7A_9F7B_9F7C_9F7D_9F7E_9F81_9F82_9F8D_9F8E_9F8F_9F90),
  (0xFD8C, 0x9F91_9F92_9F93_9F94_9F95_9F96_9F97_9F98_9F9C_9F9D_9F9E_9FA1),
  (0xFD98, 0x9FA2_9FA3_9FA4_9FA5_F92C_F979_F995_F9E7_F9F1_E40A_E40B_E40C),
  (0xFDA4, 0xE40D_E40E_E40F_E410_E411_E412_E413_E414_E415_E416_E417_E418),
  (0xFDB0, 0xE419_E41A_E41B_E41C_E41D_E41E_E41F_E420_E421_E422_E423_E424),
  (0xFDBC, 0xE425_E426_E427_E428_E429_E42A_E42B_E42C_E42D_E42E_E42F_E430),
  (0xFDC8, 0xE431_E432_E433_E434_E435_E436_E437_E438_E439_E43A_E43B_E43C),
  (0xFDD4, 0xE43D_E43E_E43F_E440_E441_E442_E443_E444_E445_E446_E447_E448),
  (0xFDE0, 0xE449_E44A_E44B_E44C_E44D_E44E_E44F_E450_E451_E452_E453_E454),
  (0xFDEC, 0xE455_E456_E457_E458_E459_E45A_E45B_E45C_E45D_E45E_E45F_E460),
  (0xFDF8, 0xE461_E462_E463_E464_E465_E466_E467),
  (0xFE40, 0xFA0C_FA0D_FA0E_FA0F_FA11_FA13_FA14_FA18_FA1F_FA20_FA21_FA23),
  (0xFE4C, 0xFA24_FA27_FA28_FA29_2E81_E816_E817_E818_2E84_3473_3447_2E88),
  (0xFE58, 0x2E8B_E81E_359E_361A_360E_2E8C_2E97_396E_3918_E826_39CF_39DF),
  (0xFE64, 0x3A73_39D0_E82B_E82C_3B4E_3C6E_3CE0_2EA7_E831_E832_2EAA_4056),
  (0xFE70, 0x415F_2EAE_4337_2EB3_2EB6_2EB7_E83B_43B1_43AC_2EBB_43DD_44D6),
  (0xFE7C, 0x4661_464C_E843),
  (0xFE80, 0x4723_4729_477C_478D_2ECA_4947_497A_497D_4982_4983_4985_4986),
  (0xFE8C, 0x499F_499B_49B7_49B6_E854_E855_4CA3_4C9F_4CA0_4CA1_4C77_4CA2),
  (0xFE98, 0x4D13_4D14_4D15_4D16_4D17_4D18_4D19_4DAE_E864_E468_E469_E46A),
  (0xFEA4, 0xE46B_E46C_E46D_E46E_E46F_E470_E471_E472_E473_E474_E475_E476),
  (0xFEB0, 0xE477_E478_E479_E47A_E47B_E47C_E47D_E47E_E47F_E480_E481_E482),
  (0xFEBC, 0xE483_E484_E485_E486_E487_E488_E489_E48A_E48B_E48C_E48D_E48E),
  (0xFEC8, 0xE48F_E490_E491_E492_E493_E494_E495_E496_E497_E498_E499_E49A),
  (0xFED4, 0xE49B_E49C_E49D_E49E_E49F_E4A0_E4A1_E4A2_E4A3_E4A4_E4A5_E4A6),
  (0xFEE0, 0xE4A7_E4A8_E4A9_E4AA_E4AB_E4AC_E4AD_E4AE_E4AF_E4B0_E4B1_E4B2),
  (0xFEEC, 0xE4B3_E4B4_E4B5_E4B6_E4B7_E4B8_E4B9_E4BA_E4BB_E4BC_E4BD_E4BE),
  (0xFEF8, 0xE4BF_E4C0_E4C1_E4C2_E4C3_E4C4_E4C5)]

/-- The rules of /repo/modules/to/_GBK.txt: character, code.  No two lines have the same character; sorted.  Lines `0100..`, if any, are
listed separately. -/
def gbkWrites : Chart := Chart.wide [
  (0xA4, 0xA1E8),
  (0xA7, 0xA1EC_A1A7),
  (0xB0, 0xA1E3_A1C0),
  (0xB7, 0xA1A4),
  (0xD7, 0xA1C1),
  (0xE0, 0xA8A4_A8A2),
  (0xE8, 0xA8A8_A8A6_A8BA),
  (0xEC, 0xA8AC_A8AA),
  (0xF2, 0xA8B0_A8AE),
  (0xF7, 0xA1C2),
  (0xF9, 0xA8B4_A8B2),
  (0xFC, 0xA8B9),
  (0x101, 0xA8A1),
  (0x113, 0xA8A5),
  (0x11B, 0xA8A7),
  (0x12B, 0xA8A9),
  (0x144, 0xA8BD),
  (0x148, 0xA8BE),
  (0x14D, 0xA8AD),
  (0x16B, 0xA8B1),
  (0x1CE, 0xA8A3),
  (0x1D0, 0xA8AB),
  (0x1D2, 0xA8AF),
  (0x1D4, 0xA8B3),
  (0x1D6, 0xA8B5),
  (0x1D8, 0xA8B6),
  (0x1DA, 0xA8B7),
  (0x1DC, 0xA8B8),
  (0x1F9, 0xA8BF),
  (0x251, 0xA8BB),
  (0x261, 0xA8C0),
  (0x2C7, 0xA1A6),
  (0x2C9, 0xA1A5_A840_A841),
  (0x2D9, 0xA842),
  (0x391, 0xA6A1_A6A2_A6A3_A6A4_A6A5_A6A6_A6A7_A6A8_A6A9_A6AA_A6AB_A6AC),
  (0x39D, 0xA6AD_A6AE_A6AF_A6B0_A6B1),
  (0x3A3, 0xA6B2_A6B3_A6B4_A6B5_A6B6_A6B7_A6B8),
  (0x3B1, 0xA6C1_A6C2_A6C3_A6C4_A6C5_A6C6_A6C7_A6C8_A6C9_A6CA_A6CB_A6CC),
  (0x3BD, 0xA6CD_A6CE_A6CF_A6D0_A6D1),
  (0x3C3, 0xA6D2_A6D3_A6D4_A6D5_A6D6_A6D7_A6D8),
  (0x401, 0xA7A7),
  (0x410, 0xA7A1_A7A2_A7A3_A7A4_A7A5_A7A6_A7A8_A7A9_A7AA_A7AB_A7AC_A7AD),
  (0x41C, 0xA7AE_A7AF_A7B0_A7B1_A7B2_A7B3_A7B4_A7B5_A7B6_A7B7_A7B8_A7B9),
  (0x428, 0xA7BA_A7BB_A7BC_A7BD_A7BE_A7BF_A7C0_A7C1_A7D1_A7D2_A7D3_A7D4),
  (0x434, 0xA7D5_A7D6_A7D8_A7D9_A7DA_A7DB_A7DC_A7DD_A7DE_A7DF_A7E0_A7E1),
  (0x440, 0xA7E2_A7E3_A7E4_A7E5_A7E6_A7E7_A7E8_A7E9_A7EA_A7EB_A7EC_A7ED),
  (0x44C, 0xA7EE_A7EF_A7F0_A7F1),
  (0x451, 0xA7D7),
  (0x2010, 0xA95C),
  (0x2013, 0xA843_A1AA_A844_A1AC),
  (0x2018, 0xA1AE_A1AF),
  (0x201C, 0xA1B0_A1B1),
  (0x2025, 0xA845_A1AD),
  (0x2030, 0xA1EB),
  (0x2032, 0xA1E4_A1E5),
  (0x2035, 0xA846),
  (0x203B, 0xA1F9),
  (0x20AC, 0xA2E3),
  (0x2103, 0xA1E6),
  (0x2105, 0xA847),
  (0x2109, 0xA848),
  (0x2116, 0xA1ED),
  (0x2121, 0xA959),
  (0x2160, 0xA2F1_A2F2_A2F3_A2F4_A2F5_A2F6_A2F7_A2F8_A2F9_A2FA_A2FB_A2FC),
  (0x2170, 0xA2A1_A2A2_A2A3_A2A4_A2A5_A2A6_A2A7_A2A8_A2A9_A2AA),
  (0x2190, 0xA1FB_A1FC_A1FA_A1FD),
  (0x2196, 0xA849_A84A_A84B_A84C),
  (0x2208, 0xA1CA),
  (0x220F, 0xA1C7),
  (0x2211, 0xA1C6),
  (0x2215, 0xA84D),
  (0x221A, 0xA1CC),
  (0x221D, 0xA1D8_A1DE_A84E_A1CF),
  (0x2223, 0xA84F),
  (0x2225, 0xA1CE),
  (0x2227, 0xA1C4_A1C5_A1C9_A1C8_A1D2),
  (0x222E, 0xA1D3),
  (0x2234, 0xA1E0_A1DF_A1C3_A1CB),
  (0x223D, 0xA1D7),
  (0x2248, 0xA1D6),
  (0x224C, 0xA1D5),
  (0x2252, 0xA850),
  (0x2260, 0xA1D9_A1D4),
  (0x2264, 0xA1DC_A1DD_A851_A852),
  (0x226E, 0xA1DA_A1DB),
  (0x2295, 0xA892),
  (0x2299, 0xA1D1),
  (0x22A5, 0xA1CD),
  (0x22BF, 0xA853),
  (0x2312, 0xA1D0),
  (0x2460, 0xA2D9_A2DA_A2DB_A2DC_A2DD_A2DE_A2DF_A2E0_A2E1_A2E2),
  (0x2474, 0xA2C5_A2C6_A2C7_A2C8_A2C9_A2CA_A2CB_A2CC_A2CD_A2CE_A2CF_A2D0),
  (0x2480, 0xA2D1_A2D2_A2D3_A2D4_A2D5_A2D6_A2D7_A2D8_A2B1_A2B2_A2B3_A2B4),
  (0x248C, 0xA2B5_A2B6_A2B7_A2B8_A2B9_A2BA_A2BB_A2BC_A2BD_A2BE_A2BF_A2C0),
  (0x2498, 0xA2C1_A2C2_A2C3_A2C4),
  (0x2500, 0xA9A4_A9A5_A9A6_A9A7_A9A8_A9A9_A9AA_A9AB_A9AC_A9AD_A9AE_A9AF),
  (0x250C, 0xA9B0_A9B1_A9B2_A9B3_A9B4_A9B5_A9B6_A9B7_A9B8_A9B9_A9BA_A9BB),
  (0x2518, 0xA9BC_A9BD_A9BE_A9BF_A9C0_A9C1_A9C2_A9C3_A9C4_A9C5_A9C6_A9C7),
  (0x2524, 0xA9C8_A9C9_A9CA_A9CB_A9CC_A9CD_A9CE_A9CF_A9D0_A9D1_A9D2_A9D3),
  (0x2530, 0xA9D4_A9D5_A9D6_A9D7_A9D8_A9D9_A9DA_A9DB_A9DC_A9DD_A9DE_A9DF),
  (0x253C, 0xA9E0_A9E1_A9E2_A9E3_A9E4_A9E5_A9E6_A9E7_A9E8_A9E9_A9EA_A9EB),
  (0x2548, 0xA9EC_A9ED_A9EE_A9EF),
  (0x2550, 0xA854_A855_A856_A857_A858_A859_A85A_A85B_A85C_A85D_A85E_A85F),
  (0x255C, 0xA860_A861_A862_A863_A864_A865_A866_A867_A868_A869_A86A_A86B),
  (0x2568, 0xA86C_A86D_A86E_A86F_A870_A871_A872_A873_A874_A875_A876_A877),
  (0x2581, 0xA878_A879_A87A_A87B_A87C_A87D_A87E_A880_A881_A882_A883_A884),
  (0x258D, 0xA885_A886_A887),
  (0x2593, 0xA888_A889_A88A),
  (0x25A0, 0xA1F6_A1F5),
  (0x25B2, 0xA1F8_A1F7),
  (0x25BC, 0xA88B_A88C),
  (0x25C6, 0xA1F4_A1F3),
  (0x25CB, 0xA1F0),
  (0x25CE, 0xA1F2_A1F1),
  (0x25E2, 0xA88D_A88E_A88F_A890),
  (0x2605, 0xA1EF_A1EE),
  (0x2609, 0xA891),
  (0x2640, 0xA1E2),
  (0x2642, 0xA1E1),
  (0x2E81, 0xFE50),
  (0x2E84, 0xFE54),
  (0x2E88, 0xFE57),
  (0x2E8B, 0xFE58_FE5D),
  (0x2E97, 0xFE5E),
  (0x2EA7, 0xFE6B),
  (0x2EAA, 0xFE6E),
  (0x2EAE, 0xFE71),
  (0x2EB3, 0xFE73),
  (0x2EB6, 0xFE74_FE75),
  (0x2EBB, 0xFE79),
  (0x2ECA, 0xFE84),
  (0x2FF0, 0xA98A_A98B_A98C_A98D_A98E_A98F_A990_A991_A992_A993_A994_A995),
  (0x3000, 0xA1A1_A1A2_A1A3_A1A8),
  (0x3005, 0xA1A9_A965_A996_A1B4_A1B5_A1B6_A1B7_A1B8_A1B9_A1BA_A1BB_A1BE),
  (0x3011, 0xA1BF_A893_A1FE_A1B2_A1B3_A1BC_A1BD),
  (0x301D, 0xA894_A895),
  (0x3021, 0xA940_A941_A942_A943_A944_A945_A946_A947_A948),
  (0x303E, 0xA989),
  (0x3041, 0xA4A1_A4A2_A4A3_A4A4_A4A5_A4A6_A4A7_A4A8_A4A9_A4AA_A4AB_A4AC),
  (0x304D, 0xA4AD_A4AE_A4AF_A4B0_A4B1_A4B2_A4B3_A4B4_A4B5_A4B6_A4B7_A4B8),
  (0x3059, 0xA4B9_A4BA_A4BB_A4BC_A4BD_A4BE_A4BF_A4C0_A4C1_A4C2_A4C3_A4C4),
  (0x3065, 0xA4C5_A4C6_A4C7_A4C8_A4C9_A4CA_A4CB_A4CC_A4CD_A4CE_A4CF_A4D0),
  (0x3071, 0xA4D1_A4D2_A4D3_A4D4_A4D5_A4D6_A4D7_A4D8_A4D9_A4DA_A4DB_A4DC),
  (0x307D, 0xA4DD_A4DE_A4DF_A4E0_A4E1_A4E2_A4E3_A4E4_A4E5_A4E6_A4E7_A4E8),
  (0x3089, 0xA4E9_A4EA_A4EB_A4EC_A4ED_A4EE_A4EF_A4F0_A4F1_A4F2_A4F3),
  (0x309B, 0xA961_A962_A966_A967),
  (0x30A1, 0xA5A1_A5A2_A5A3_A5A4_A5A5_A5A6_A5A7_A5A8_A5A9_A5AA_A5AB_A5AC),
  (0x30AD, 0xA5AD_A5AE_A5AF_A5B0_A5B1_A5B2_A5B3_A5B4_A5B5_A5B6_A5B7_A5B8),
  (0x30B9, 0xA5B9_A5BA_A5BB_A5BC_A5BD_A5BE_A5BF_A5C0_A5C1_A5C2_A5C3_A5C4),
  (0x30C5, 0xA5C5_A5C6_A5C7_A5C8_A5C9_A5CA_A5CB_A5CC_A5CD_A5CE_A5CF_A5D0),
  (0x30D1, 0xA5D1_A5D2_A5D3_A5D4_A5D5_A5D6_A5D7_A5D8_A5D9_A5DA_A5DB_A5DC),
  (0x30DD, 0xA5DD_A5DE_A5DF_A5E0_A5E1_A5E2_A5E3_A5E4_A5E5_A5E6_A5E7_A5E8),
  (0x30E9, 0xA5E9_A5EA_A5EB_A5EC_A5ED_A5EE_A5EF_A5F0_A5F1_A5F2_A5F3_A5F4),
  (0x30F5, 0xA5F5_A5F6),
  (0x30FC, 0xA960_A963_A964),
  (0x3105, 0xA8C5_A8C6_A8C7_A8C8_A8C9_A8CA_A8CB_A8CC_A8CD_A8CE_A8CF_A8D0),
  (0x3111, 0xA8D1_A8D2_A8D3_A8D4_A8D5_A8D6_A8D7_A8D8_A8D9_A8DA_A8DB_A8DC),
  (0x311D, 0xA8DD_A8DE_A8DF_A8E0_A8E1_A8E2_A8E3_A8E4_A8E5_A8E6_A8E7_A8E8),
  (0x3129, 0xA8E9),
  (0x3220, 0xA2E5_A2E6_A2E7_A2E8_A2E9_A2EA_A2EB_A2EC_A2ED_A2EE),
  (0x3231, 0xA95A),
  (0x32A3, 0xA949),
  (0x338E, 0xA94A_A94B),
  (0x339C, 0xA94C_A94D_A94E),
  (0x33A1, 0xA94F),
  (0x33C4, 0xA950),
  (0x33CE, 0xA951),
  (0x33D1, 0xA952_A953),
  (0x33D5, 0xA954),
  (0x3447, 0xFE56),
  (0x3473, 0xFE55),
  (0x359E, 0xFE5A),
  (0x360E, 0xFE5C),
  (0x361A, 0xFE5B),
  (0x3918, 0xFE60),
  (0x396E, 0xFE5F),
  (0x39CF, 0xFE62_FE65),
  (0x39DF, 0xFE63),
  (0x3A73, 0xFE64),
  (0x3B4E, 0xFE68),
  (0x3C6E, 0xFE69),
  (0x3CE0, 0xFE6A),
  (0x4056, 0xFE6F),
  (0x415F, 0xFE70),
  (0x4337, 0xFE72),
  (0x43AC, 0xFE78),
  (0x43B1, 0xFE77),
  (0x43DD, 0xFE7A),
  (0x44D6, 0xFE7B),
  (0x464C, 0xFE7D),
  (0x4661, 0xFE7C),
  (0x4723, 0xFE80),
  (0x4729, 0xFE81),
  (0x477C, 0xFE82),
  (0x478D, 0xFE83),
  (0x4947, 0xFE85),
  (0x497A, 0xFE86),
  (0x497D, 0xFE87),
  (0x4982, 0xFE88_FE89),
  (0x4985, 0xFE8A_FE8B),
  (0x499B, 0xFE8D),
  (0x499F, 0xFE8C),
  (0x49B6, 0xFE8F_FE8E),
  (0x4C77, 0xFE96),
  (0x4C9F, 0xFE93_FE94_FE95_FE97_FE92),
  (0x4D13, 0xFE98_FE99_FE9A_FE9B_FE9C_FE9D_FE9E),
  (0x4DAE, 0xFE9F),
  (0x4E00, 0xD2BB_B6A1_8140_C6DF_8141_8142_8143_CDF2_D5C9_C8FD_C9CF_CFC2),
  (0x4E0C, 0xD8A2_B2BB_D3EB_8144_D8A4_B3F3_8145_D7A8_C7D2_D8A7_CAC0_8146),
  (0x4E18, 0xC7F0_B1FB_D2B5_B4D4_B6AB_CBBF_D8A9_8147_8148_8149_B6AA_814A),
  (0x4E24, 0xC1BD_D1CF_814B_C9A5_D8AD_814C_B8F6_D1BE_E3DC_D6D0_814D_814E),
  (0x4E30, 0xB7E1_814F_B4AE_8150_C1D9_8151_D8BC_8152_CDE8_B5A4_CEAA_D6F7),
  (0x4E3C, 0x8153_C0F6_BED9_D8AF_8154_8155_8156_C4CB_8157_BEC3_8158_D8B1),
  (0x4E48, 0xC3B4_D2E5_8159_D6AE_CEDA_D5A7_BAF5_B7A6_C0D6_815A_C6B9_C5D2),
  (0x4E54, 0xC7C7_815B_B9D4_815C_B3CB_D2D2_815D_815E_D8BF_BEC5_C6F2_D2B2),
  (0x4E60, 0xCFB0_CFE7_815F_8160_8161_8162_CAE9_8163_8164_D8C0_8165_8166),
  (0x4E6C, 0x8167_8168_8169_816A_C2F2_C2D2_816B_C8E9_816C_816D_816E_816F),
  (0x4E78, 0x8170_8171_8172_8173_8174_8175_C7AC_8176_8177_8178_8179_817A),
  (0x4E84, 0x817B_817C_C1CB_817D_D3E8_D5F9_817E_CAC2_B6FE_D8A1_D3DA_BFF7),
  (0x4E90, 0x8180_D4C6_BBA5_D8C1_CEE5_BEAE_8181_8182_D8A8_8183_D1C7_D0A9),
  (0x4E9C, 0x8184_8185_8186_D8BD_D9EF_CDF6_BFBA_8187_BDBB_BAA5_D2E0_B2FA),
  (0x4EA8, 0xBAE0_C4B6_8188_CFED_BEA9_CDA4_C1C1_8189_818A_818B_C7D7_D9F1),
  (0x4EB4, 0x818C_D9F4_818D_818E_818F_8190_C8CB_D8E9_8191_8192_8193_D2DA),
  (0x4EC0, 0xCAB2_C8CA_D8EC_D8EA_D8C6_BDF6_C6CD_B3F0_8194_D8EB_BDF1_BDE9),
  (0x4ECC, 0x8195_C8D4_B4D3_8196_8197_C2D8_8198_B2D6_D7D0_CACB_CBFB_D5CC),
  (0x4ED8, 0xB8B6_CFC9_8199_819A_819B_D9DA_D8F0_C7AA_819C_D8EE_819D_B4FA),
  (0x4EE4, 0xC1EE_D2D4_819E_819F_D8ED_81A0_D2C7_D8EF_C3C7_81A1_81A2_81A3),
  (0x4EF0, 0xD1F6_81A4_D6D9_D8F2_81A5_D8F5_BCFE_BCDB_81A6_81A7_81A8_C8CE),
  (0x4EFC, 0x81A9_B7DD_81AA_B7C2_81AB_C6F3_81AC_81AD_81AE_81AF_81B0_81B1),
  (0x4F08, 0x81B2_D8F8_D2C1_81B3_81B4_CEE9_BCBF_B7FC_B7A5_D0DD_81B5_81B6),
  (0x4F14, 0x81B7_81B8_81B9_D6DA_D3C5_BBEF_BBE1_D8F1_81BA_81BB_C9A1_CEB0),
  (0x4F20, 0xB4AB_81BC_D8F3_81BD_C9CB_D8F6_C2D7_D8F7_81BE_81BF_CEB1_D8F9),
  (0x4F2C, 0x81C0_81C1_81C2_B2AE_B9C0_81C3_D9A3_81C4_B0E9_81C5_C1E6_81C6),
  (0x4F38, 0xC9EC_81C7_CBC5_81C8_CBC6_D9A4_81C9_81CA_81CB_81CC_81CD_B5E8),
  (0x4F44, 0x81CE_81CF_B5AB_81D0_81D1_81D2_81D3_81D4_81D5_CEBB_B5CD_D7A1),
  (0x4F50, 0xD7F4_D3D3_81D6_CCE5_81D7_BACE_81D8_D9A2_D9DC_D3E0_D8FD_B7F0),
  (0x4F5C, 0xD7F7_D8FE_D8FA_D9A1_C4E3_81D9_81DA_D3B6_D8F4_D9DD_81DB_D8FB),
  (0x4F68, 0x81DC_C5E5_81DD_81DE_C0D0_81DF_81E0_D1F0_B0DB_81E1_81E2_BCD1),
  (0x4F74, 0xD9A6_81E3_D9A5_81E4_81E5_81E6_81E7_D9AC_D9AE_81E8_D9AB_CAB9),
  (0x4F80, 0x81E9_81EA_81EB_D9A9_D6B6_81EC_81ED_81EE_B3DE_D9A8_81EF_C0FD),
  (0x4F8C, 0x81F0_CACC_81F1_D9AA_81F2_D9A7_81F3_81F4_D9B0_81F5_81F6_B6B1),
  (0x4F98, 0x81F7_81F8_81F9_B9A9_81FA_D2C0_81FB_81FC_CFC0_81FD_81FE_C2C2),
  (0x4FA4, 0x8240_BDC4_D5EC_B2E0_C7C8_BFEB_D9AD_8241_D9AF_8242_CEEA_BAEE),
  (0x4FB0, 0x8243_8244_8245_8246_8247_C7D6_8248_8249_824A_824B_824C_824D),
  (0x4FBC, 0x824E_824F_8250_B1E3_8251_8252_8253_B4D9_B6ED_D9B4_8254_8255),
  (0x4FC8, 0x8256_8257_BFA1_8258_8259_825A_D9DE_C7CE_C0FE_D9B8_825B_825C),
  (0x4FD4, 0x825D_825E_825F_CBD7_B7FD_8260_D9B5_8261_D9B7_B1A3_D3E1_D9B9),
  (0x4FE0, 0x8262_D0C5_8263_D9B6_8264_8265_D9B1_8266_D9B2_C1A9_D9B3_8267),
  (0x4FEC, 0x8268_BCF3_D0DE_B8A9_8269_BEE3_826A_D9BD_826B_826C_826D_826E),
  (0x4FF8, 0xD9BA_826F_B0B3_8270_8271_8272_D9C2_8273_8274_8275_8276_8277),
  (0x5004, 0x8278_8279_827A_827B_827C_827D_827E_8280_D9C4_B1B6_8281_D9BF),
  (0x5010, 0x8282_8283_B5B9_8284_BEF3_8285_8286_8287_CCC8_BAF2_D2D0_8288),
  (0x501C, 0xD9C3_8289_828A_BDE8_828B_B3AB_828C_828D_828E_D9C5_BEEB_828F),
  (0x5028, 0xD9C6_D9BB_C4DF_8290_D9BE_D9C1_D9C0_8291_8292_8293_8294_8295),
  (0x5034, 0x8296_8297_8298_8299_829A_829B_D5AE_829C_D6B5_829D_C7E3_829E),
  (0x5040, 0x829F_82A0_82A1_D9C8_82A2_82A3_82A4_BCD9_D9CA_82A5_82A6_82A7),
  (0x504C, 0xD9BC_82A8_D9CB_C6AB_82A9_82AA_82AB_82AC_82AD_D9C9_82AE_82AF),
  (0x5058, 0x82B0_82B1_D7F6_82B2_CDA3_82B3_82B4_82B5_82B6_82B7_82B8_82B9),
  (0x5064, 0x82BA_BDA1_82BB_82BC_82BD_82BE_82BF_82C0_D9CC_82C1_82C2_82C3),
  (0x5070, 0x82C4_82C5_82C6_82C7_82C8_82C9_C5BC_CDB5_82CA_82CB_82CC_D9CD),
  (0x507C, 0x82CD_82CE_D9C7_B3A5_BFFE_82CF_82D0_82D1_82D2_B8B5_82D3_82D4),
  (0x5088, 0xC0FC_82D5_82D6_82D7_82D8_B0F8_82D9_82DA_82DB_82DC_82DD_82DE),
  (0x5094, 0x82DF_82E0_82E1_82E2_82E3_82E4_82E5_82E6_82E7_82E8_82E9_82EA),
  (0x50A0, 0x82EB_82EC_82ED_B4F6_82EE_D9CE_82EF_D9CF_B4A2_D9D0_82F0_82F1),
  (0x50AC, 0xB4DF_82F2_82F3_82F4_82F5_82F6_B0C1_82F7_82F8_82F9_82FA_82FB),
  (0x50B8, 0x82FC_82FD_D9D1_C9B5_82FE_8340_8341_8342_8343_8344_8345_8346),
  (0x50C4, 0x8347_8348_8349_834A_834B_834C_834D_834E_834F_8350_8351_CFF1),
  (0x50D0, 0x8352_8353_8354_8355_8356_8357_D9D2_8358_8359_835A_C1C5_835B),
  (0x50DC, 0x835C_835D_835E_835F_8360_8361_8362_8363_8364_8365_D9D6_C9AE),
  (0x50E8, 0x8366_8367_8368_8369_D9D5_D9D4_D9D7_836A_836B_836C_836D_CBDB),
  (0x50F4, 0x836E_BDA9_836F_8370_8371_8372_8373_C6A7_8374_8375_8376_8377),
  (0x5100, 0x8378_8379_837A_837B_837C_837D_D9D3_D9D8_837E_8380_8381_D9D9),
  (0x510C, 0x8382_8383_8384_8385_8386_8387_C8E5_8388_8389_838A_838B_838C),
  (0x5118, 0x838D_838E_838F_8390_8391_8392_8393_8394_8395_C0DC_8396_8397),
  (0x5124, 0x8398_8399_839A_839B_839C_839D_839E_839F_83A0_83A1_83A2_83A3),
  (0x5130, 0x83A4_83A5_83A6_83A7_83A8_83A9_83AA_83AB_83AC_83AD_83AE_83AF),
  (0x513C, 0x83B0_83B1_83B2_B6F9_D8A3_D4CA_83B3_D4AA_D0D6_B3E4_D5D7_83B4),
  (0x5148, 0xCFC8_B9E2_83B5_BFCB_83B6_C3E2_83B7_83B8_83B9_B6D2_83BA_83BB),
  (0x5154, 0xCDC3_D9EE_D9F0_83BC_83BD_83BE_B5B3_83BF_B6B5_83C0_83C1_83C2),
  (0x5160, 0x83C3_83C4_BEA4_83C5_83C6_C8EB_83C7_83C8_C8AB_83C9_83CA_B0CB),
  (0x516C, 0xB9AB_C1F9_D9E2_83CB_C0BC_B9B2_83CC_B9D8_D0CB_B1F8_C6E4_BEDF),
  (0x5178, 0xB5E4_D7C8_83CD_D1F8_BCE6_CADE_83CE_83CF_BCBD_D9E6_D8E7_83D0),
  (0x5184, 0x83D1_C4DA_83D2_83D3_B8D4_C8BD_83D4_83D5_B2E1_D4D9_83D6_83D7),
  (0x5190, 0x83D8_83D9_C3B0_83DA_83DB_C3E1_DAA2_C8DF_83DC_D0B4_83DD_BEFC),
  (0x519C, 0xC5A9_83DE_83DF_83E0_B9DA_83E1_DAA3_83E2_D4A9_DAA4_83E3_83E4),
  (0x51A8, 0x83E5_83E6_83E7_D9FB_B6AC_83E8_83E9_B7EB_B1F9_D9FC_B3E5_BEF6),
  (0x51B4, 0x83EA_BFF6_D2B1_C0E4_83EB_83EC_83ED_B6B3_D9FE_D9FD_83EE_83EF),
  (0x51C0, 0xBEBB_83F0_83F1_83F2_C6E0_83F3_D7BC_DAA1_83F4_C1B9_83F5_B5F2),
  (0x51CC, 0xC1E8_83F6_83F7_BCF5_83F8_B4D5_83F9_83FA_83FB_83FC_83FD_83FE),
  (0x51D8, 0x8440_8441_8442_C1DD_8443_C4FD_8444_8445_BCB8_B7B2_8446_8447),
  (0x51E4, 0xB7EF_8448_8449_844A_844B_844C_844D_D9EC_844E_C6BE_844F_BFAD),
  (0x51F0, 0xBBCB_8450_8451_B5CA_8452_DBC9_D0D7_8453_CDB9_B0BC_B3F6_BBF7),
  (0x51FC, 0xDBCA_BAAF_8454_D4E4_B5B6_B5F3_D8D6_C8D0_8455_8456_B7D6_C7D0),
  (0x5208, 0xD8D7_8457_BFAF_8458_8459_DBBB_D8D8_845A_845B_D0CC_BBAE_845C),
  (0x5214, 0x845D_845E_EBBE_C1D0_C1F5_D4F2_B8D5_B4B4_845F_B3F5_8460_8461),
  (0x5220, 0xC9BE_8462_8463_8464_C5D0_8465_8466_8467_C5D9_C0FB_8468_B1F0),
  (0x522C, 0x8469_D8D9_B9CE_846A_B5BD_846B_846C_D8DA_846D_846E_D6C6_CBA2),
  (0x5238, 0xC8AF_C9B2_B4CC_BFCC_846F_B9F4_8470_D8DB_D8DC_B6E7_BCC1_CCEA),
  (0x5244, 0x8471_8472_8473_8474_8475_8476_CFF7_8477_D8DD_C7B0_8478_8479),
  (0x5250, 0xB9D0_BDA3_847A_847B_CCDE_847C_C6CA_847D_847E_8480_8481_8482),
  (0x525C, 0xD8E0_8483_D8DE_8484_8485_D8DF_8486_8487_8488_B0FE_8489_BEE7),
  (0x5268, 0x848A_CAA3_BCF4_848B_848C_848D_848E_B8B1_848F_8490_B8EE_8491),
  (0x5274, 0x8492_8493_8494_8495_8496_8497_8498_8499_849A_D8E2_849B_BDCB),
  (0x5280, 0x849C_D8E4_D8E3_849D_849E_849F_84A0_84A1_C5FC_84A2_84A3_84A4),
  (0x528C, 0x84A5_84A6_84A7_84A8_D8E5_84A9_84AA_D8E6_84AB_84AC_84AD_84AE),
  (0x5298, 0x84AF_84B0_84B1_C1A6_84B2_C8B0_B0EC_B9A6_BCD3_CEF1_DBBD_C1D3),
  (0x52A4, 0x84B3_84B4_84B5_84B6_B6AF_D6FA_C5AC_BDD9_DBBE_DBBF_84B7_84B8),
  (0x52B0, 0x84B9_C0F8_BEA2_C0CD_84BA_84BB_84BC_84BD_84BE_84BF_84C0_84C1),
  (0x52BC, 0x84C2_84C3_DBC0_CAC6_84C4_84C5_84C6_B2AA_84C7_84C8_84C9_D3C2),
  (0x52C8, 0x84CA_C3E3_84CB_D1AB_84CC_84CD_84CE_84CF_DBC2_84D0_C0D5_84D1),
  (0x52D4, 0x84D2_84D3_DBC3_84D4_BFB1_84D5_84D6_84D7_84D8_84D9_84DA_C4BC),
  (0x52E0, 0x84DB_84DC_84DD_84DE_C7DA_84DF_84E0_84E1_84E2_84E3_84E4_84E5),
  (0x52EC, 0x84E6_84E7_84E8_84E9_DBC4_84EA_84EB_84EC_84ED_84EE_84EF_84F0),
  (0x52F8, 0x84F1_D9E8_C9D7_84F2_84F3_84F4_B9B4_CEF0_D4C8_84F5_84F6_84F7),
  (0x5304, 0x84F8_B0FC_B4D2_84F9_D0D9_84FA_84FB_84FC_84FD_D9E9_84FE_DECB),
  (0x5310, 0xD9EB_8540_8541_8542_8543_D8B0_BBAF_B1B1_8544_B3D7_D8CE_8545),
  (0x531C, 0x8546_D4D1_8547_8548_BDB3_BFEF_8549_CFBB_854A_854B_D8D0_854C),
  (0x5328, 0x854D_854E_B7CB_854F_8550_8551_D8D1_8552_8553_8554_8555_8556),
  (0x5334, 0x8557_8558_8559_855A_855B_C6A5_C7F8_D2BD_855C_855D_D8D2_C4E4),
  (0x5340, 0x855E_CAAE_855F_C7A7_8560_D8A6_8561_C9FD_CEE7_BBDC_B0EB_8562),
  (0x534C, 0x8563_8564_BBAA_D0AD_8565_B1B0_D7E4_D7BF_8566_B5A5_C2F4_C4CF),
  (0x5358, 0x8567_8568_B2A9_8569_B2B7_856A_B1E5_DFB2_D5BC_BFA8_C2AC_D8D5),
  (0x5364, 0xC2B1_856B_D8D4_CED4_856C_DAE0_856D_CEC0_856E_856F_D8B4_C3AE),
  (0x5370, 0xD3A1_CEA3_8570_BCB4_C8B4_C2D1_8571_BEED_D0B6_8572_DAE1_8573),
  (0x537C, 0x8574_8575_8576_C7E4_8577_8578_B3A7_8579_B6F2_CCFC_C0FA_857A),
  (0x5388, 0x857B_C0F7_857C_D1B9_D1E1_D8C7_857D_857E_8580_8581_8582_8583),
  (0x5394, 0x8584_B2DE_8585_8586_C0E5_8587_BAF1_8588_8589_D8C8_858A_D4AD),
  (0x53A0, 0x858B_858C_CFE1_D8C9_858D_D8CA_CFC3_858E_B3F8_BEC7_858F_8590),
  (0x53AC, 0x8591_8592_D8CB_8593_8594_8595_8596_8597_8598_8599_DBCC_859A),
  (0x53B8, 0x859B_859C_859D_C8A5_859E_859F_85A0_CFD8_85A1_C8FE_B2CE_85A2),
  (0x53C4, 0x85A3_85A4_85A5_85A6_D3D6_B2E6_BCB0_D3D1_CBAB_B7B4_85A7_85A8),
  (0x53D0, 0x85A9_B7A2_85AA_85AB_CAE5_85AC_C8A1_CADC_B1E4_D0F0_85AD_C5D1),
  (0x53DC, 0x85AE_85AF_85B0_DBC5_B5FE_85B1_85B2_BFDA_B9C5_BEE4_C1ED_85B3),
  (0x53E8, 0xDFB6_DFB5_D6BB_BDD0_D5D9_B0C8_B6A3_BFC9_CCA8_DFB3_CAB7_D3D2),
  (0x53F4, 0x85B4_D8CF_D2B6_BAC5_CBBE_CCBE_85B5_DFB7_B5F0_DFB4_85B6_85B7),
  (0x5400, 0x85B8_D3F5_85B9_B3D4_B8F7_85BA_DFBA_85BB_BACF_BCAA_B5F5_85BC),
  (0x540C, 0xCDAC_C3FB_BAF3_C0F4_CDC2_CFF2_DFB8_CFC5_85BD_C2C0_DFB9_C2F0),
  (0x5418, 0x85BE_85BF_85C0_BEFD_85C1_C1DF_CDCC_D2F7_B7CD_DFC1_85C2_DFC4),
  (0x5424, 0x85C3_85C4_B7F1_B0C9_B6D6_B7D4_85C5_BAAC_CCFD_BFD4_CBB1_C6F4),
  (0x5430, 0x85C6_D6A8_DFC5_85C7_CEE2_B3B3_85C8_85C9_CEFC_B4B5_85CA_CEC7),
  (0x543C, 0xBAF0_85CB_CEE1_85CC_D1BD_85CD_85CE_DFC0_85CF_85D0_B4F4_85D1),
  (0x5448, 0xB3CA_85D2_B8E6_DFBB_85D3_85D4_85D5_85D6_C4C5_85D7_DFBC_DFBD),
  (0x5454, 0xDFBE_C5BB_DFBF_DFC2_D4B1_DFC3_85D8_C7BA_CED8_85D9_85DA_85DB),
  (0x5460, 0x85DC_85DD_C4D8_85DE_DFCA_85DF_DFCF_85E0_D6DC_85E1_85E2_85E3),
  (0x546C, 0x85E4_85E5_85E6_85E7_85E8_DFC9_DFDA_CEB6_85E9_BAC7_DFCE_DFC8),
  (0x5478, 0xC5DE_85EA_85EB_C9EB_BAF4_C3FC_85EC_85ED_BED7_85EE_DFC6_85EF),
  (0x5484, 0xDFCD_85F0_C5D8_85F1_85F2_85F3_85F4_D5A6_BACD_85F5_BECC_D3BD),
  (0x5490, 0xB8C0_85F6_D6E4_85F7_DFC7_B9BE_BFA7_85F8_85F9_C1FC_DFCB_DFCC),
  (0x549C, 0x85FA_DFD0_85FB_85FC_85FD_85FE_8640_DFDB_DFE5_8641_DFD7_DFD6),
  (0x54A8, 0xD7C9_DFE3_DFE4_E5EB_D2A7_DFD2_8642_BFA9_8643_D4DB_8644_BFC8),
  (0x54B4, 0xDFD4_8645_8646_8647_CFCC_8648_8649_DFDD_864A_D1CA_864B_DFDE),
  (0x54C0, 0xB0A7_C6B7_DFD3_864C_BAE5_864D_B6DF_CDDB_B9FE_D4D5_864E_864F),
  (0x54CC, 0xDFDF_CFEC_B0A5_DFE7_DFD1_D1C6_DFD5_DFD8_DFD9_DFDC_8650_BBA9),
  (0x54D8, 0x8651_DFE0_DFE1_8652_DFE2_DFE6_DFE8_D3B4_8653_8654_8655_8656),
  (0x54E4, 0x8657_B8E7_C5B6_DFEA_C9DA_C1A8_C4C4_8658_8659_BFDE_CFF8_865A),
  (0x54F0, 0x865B_865C_D5DC_DFEE_865D_865E_865F_8660_8661_8662_B2B8_8663),
  (0x54FC, 0xBADF_DFEC_8664_DBC1_8665_D1E4_8666_8667_8668_8669_CBF4_B4BD),
  (0x5508, 0x866A_B0A6_866B_866C_866D_866E_866F_DFF1_CCC6_DFF2_8670_8671),
  (0x5514, 0xDFED_8672_8673_8674_8675_8676_8677_DFE9_8678_8679_867A_867B),
  (0x5520, 0xDFEB_867C_DFEF_DFF0_BBBD_867D_867E_DFF3_8680_8681_DFF4_8682),
  (0x552C, 0xBBA3_8683_CADB_CEA8_E0A7_B3AA_8684_E0A6_8685_8686_8687_E0A1),
  (0x5538, 0x8688_8689_868A_868B_DFFE_868C_CDD9_DFFC_868D_DFFA_868E_BFD0),
  (0x5544, 0xD7C4_868F_C9CC_8690_8691_DFF8_B0A1_8692_8693_8694_8695_8696),
  (0x5550, 0xDFFD_8697_8698_8699_869A_DFFB_E0A2_869B_869C_869D_869E_869F),
  (0x555C, 0xE0A8_86A0_86A1_86A2_86A3_B7C8_86A4_86A5_C6A1_C9B6_C0B2_DFF5),
  (0x5568, 0x86A6_86A7_C5BE_86A8_D8C4_DFF9_C4F6_86A9_86AA_86AB_86AC_86AD),
  (0x5574, 0x86AE_E0A3_E0A4_E0A5_D0A5_86AF_86B0_E0B4_CCE4_86B1_E0B1_86B2),
  (0x5580, 0xBFA6_E0AF_CEB9_E0AB_C9C6_86B3_86B4_C0AE_E0AE_BAED_BAB0_E0A9),
  (0x558C, 0x86B5_86B6_86B7_DFF6_86B8_E0B3_86B9_86BA_E0B8_86BB_86BC_86BD),
  (0x5598, 0xB4AD_E0B9_86BE_86BF_CFB2_BAC8_86C0_E0B0_86C1_86C2_86C3_86C4),
  (0x55A4, 0x86C5_86C6_86C7_D0FA_86C8_86C9_86CA_86CB_86CC_86CD_86CE_86CF),
  (0x55B0, 0x86D0_E0AC_86D1_D4FB_86D2_DFF7_86D3_C5E7_86D4_E0AD_86D5_D3F7),
  (0x55BC, 0x86D6_E0B6_E0B7_86D7_86D8_86D9_86DA_86DB_E0C4_D0E1_86DC_86DD),
  (0x55C8, 0x86DE_E0BC_86DF_86E0_E0C9_E0CA_86E1_86E2_86E3_E0BE_E0AA_C9A4),
  (0x55D4, 0xE0C1_86E4_E0B2_86E5_86E6_86E7_86E8_86E9_CAC8_E0C3_86EA_E0B5),
  (0x55E0, 0x86EB_CECB_86EC_CBC3_E0CD_E0C6_E0C2_86ED_E0CB_86EE_E0BA_E0BF),
  (0x55EC, 0xE0C0_86EF_86F0_E0C5_86F1_86F2_E0C7_E0C8_86F3_E0CC_86F4_E0BB),
  (0x55F8, 0x86F5_86F6_86F7_86F8_86F9_CBD4_E0D5_86FA_E0D6_E0D2_86FB_86FC),
  (0x5604, 0x86FD_86FE_8740_8741_E0D0_BCCE_8742_8743_E0D1_8744_B8C2_D8C5),
  (0x5610, 0x8745_8746_8747_8748_8749_874A_874B_874C_D0EA_874D_874E_C2EF),
  (0x561C, 0x874F_8750_E0CF_E0BD_8751_8752_8753_E0D4_E0D3_8754_8755_E0D7),
  (0x5628, 0x8756_8757_8758_8759_E0DC_E0D8_875A_875B_875C_D6F6_B3B0_875D),
  (0x5634, 0xD7EC_875E_CBBB_875F_8760_E0DA_8761_CEFB_8762_8763_8764_BAD9),
  (0x5640, 0x8765_8766_8767_8768_8769_876A_876B_876C_876D_876E_876F_8770),
  (0x564C, 0xE0E1_E0DD_D2AD_8771_8772_8773_8774_8775_E0E2_8776_8777_E0DB),
  (0x5658, 0xE0D9_E0DF_8778_8779_E0E0_877A_877B_877C_877D_877E_E0DE_8780),
  (0x5664, 0xE0E4_8781_8782_8783_C6F7_D8AC_D4EB_E0E6_CAC9_8784_8785_8786),
  (0x5670, 0x8787_E0E5_8788_8789_878A_878B_B8C1_878C_878D_878E_878F_E0E7),
  (0x567C, 0xE0E8_8790_8791_8792_8793_8794_8795_8796_8797_E0E9_E0E3_8798),
  (0x5688, 0x8799_879A_879B_879C_879D_879E_BABF_CCE7_879F_87A0_87A1_E0EA),
  (0x5694, 0x87A2_87A3_87A4_87A5_87A6_87A7_87A8_87A9_87AA_87AB_87AC_87AD),
  (0x56A0, 0x87AE_87AF_87B0_CFF9_87B1_87B2_87B3_87B4_87B5_87B6_87B7_87B8),
  (0x56AC, 0x87B9_87BA_87BB_E0EB_87BC_87BD_87BE_87BF_87C0_87C1_87C2_C8C2),
  (0x56B8, 0x87C3_87C4_87C5_87C6_BDC0_87C7_87C8_87C9_87CA_87CB_87CC_87CD),
  (0x56C4, 0x87CE_87CF_87D0_87D1_87D2_87D3_C4D2_87D4_87D5_87D6_87D7_87D8),
  (0x56D0, 0x87D9_87DA_87DB_87DC_E0EC_87DD_87DE_E0ED_87DF_87E0_C7F4_CBC4),
  (0x56DC, 0x87E1_E0EE_BBD8_D8B6_D2F2_E0EF_CDC5_87E2_B6DA_87E3_87E4_87E5),
  (0x56E8, 0x87E6_87E7_87E8_E0F1_87E9_D4B0_87EA_87EB_C0A7_B4D1_87EC_87ED),
  (0x56F4, 0xCEA7_E0F0_87EE_87EF_87F0_E0F2_B9CC_87F1_87F2_B9FA_CDBC_E0F3),
  (0x5700, 0x87F3_87F4_87F5_C6D4_E0F4_87F6_D4B2_87F7_C8A6_E0F6_E0F5_87F8),
  (0x570C, 0x87F9_87FA_87FB_87FC_87FD_87FE_8840_8841_8842_8843_8844_8845),
  (0x5718, 0x8846_8847_8848_8849_E0F7_884A_884B_CDC1_884C_884D_884E_CAA5),
  (0x5724, 0x884F_8850_8851_8852_D4DA_DBD7_DBD9_8853_DBD8_B9E7_DBDC_DBDD),
  (0x5730, 0xB5D8_8854_8855_DBDA_8856_8857_8858_8859_885A_DBDB_B3A1_DBDF),
  (0x573C, 0x885B_885C_BBF8_885D_D6B7_885E_DBE0_885F_8860_8861_8862_BEF9),
  (0x5748, 0x8863_8864_B7BB_8865_DBD0_CCAE_BFB2_BBB5_D7F8_BFD3_8866_8867),
  (0x5754, 0x8868_8869_886A_BFE9_886B_886C_BCE1_CCB3_DBDE_B0D3_CEEB_B7D8),
  (0x5760, 0xD7B9_C6C2_886D_886E_C0A4_886F_CCB9_8870_DBE7_DBE1_C6BA_DBE3),
  (0x576C, 0x8871_DBE8_8872_C5F7_8873_8874_8875_DBEA_8876_8877_DBE9_BFC0),
  (0x5778, 0x8878_8879_887A_DBE6_DBE5_887B_887C_887D_887E_8880_B4B9_C0AC),
  (0x5784, 0xC2A2_DBE2_DBE4_8881_8882_8883_8884_D0CD_DBED_8885_8886_8887),
  (0x5790, 0x8888_8889_C0DD_DBF2_888A_888B_888C_888D_888E_888F_8890_B6E2),
  (0x579C, 0x8891_8892_8893_8894_DBF3_DBD2_B9B8_D4AB_DBEC_8895_BFD1_DBF0),
  (0x57A8, 0x8896_DBD1_8897_B5E6_8898_DBEB_BFE5_8899_889A_889B_DBEE_889C),
  (0x57B4, 0xDBF1_889D_889E_889F_DBF9_88A0_88A1_88A2_88A3_88A4_88A5_88A6),
  (0x57C0, 0x88A7_88A8_B9A1_B0A3_88A9_88AA_88AB_88AC_88AD_88AE_88AF_C2F1),
  (0x57CC, 0x88B0_88B1_B3C7_DBEF_88B2_88B3_DBF8_88B4_C6D2_DBF4_88B5_88B6),
  (0x57D8, 0xDBF5_DBF7_DBF6_88B7_88B8_DBFE_88B9_D3F2_B2BA_88BA_88BB_88BC),
  (0x57E4, 0xDBFD_88BD_88BE_88BF_88C0_88C1_88C2_88C3_88C4_DCA4_88C5_DBFB),
  (0x57F0, 0x88C6_88C7_88C8_88C9_DBFA_88CA_88CB_88CC_DBFC_C5E0_BBF9_88CD),
  (0x57FC, 0x88CE_DCA3_88CF_88D0_DCA5_88D1_CCC3_88D2_88D3_88D4_B6D1_DDC0),
  (0x5808, 0x88D5_88D6_88D7_DCA1_88D8_DCA2_88D9_88DA_88DB_C7B5_88DC_88DD),
  (0x5814, 0x88DE_B6E9_88DF_88E0_88E1_DCA7_88E2_88E3_88E4_88E5_DCA6_88E6),
  (0x5820, 0xDCA9_B1A4_88E7_88E8_B5CC_88E9_88EA_88EB_88EC_88ED_BFB0_88EE),
  (0x582C, 0x88EF_88F0_88F1_88F2_D1DF_88F3_88F4_88F5_88F6_B6C2_88F7_88F8),
  (0x5838, 0x88F9_88FA_88FB_88FC_88FD_88FE_8940_8941_8942_8943_8944_8945),
  (0x5844, 0xDCA8_8946_8947_8948_8949_894A_894B_894C_CBFA_EBF3_894D_894E),
  (0x5850, 0x894F_CBDC_8950_8951_CBFE_8952_8953_8954_CCC1_8955_8956_8957),
  (0x585C, 0x8958_8959_C8FB_895A_895B_895C_895D_895E_895F_DCAA_8960_8961),
  (0x5868, 0x8962_8963_8964_CCEE_DCAB_8965_8966_8967_8968_8969_896A_896B),
  (0x5874, 0x896C_896D_896E_896F_8970_8971_8972_8973_8974_8975_DBD3_8976),
  (0x5880, 0xDCAF_DCAC_8977_BEB3_8978_CAFB_8979_897A_897B_DCAD_897C_897D),
  (0x588C, 0x897E_8980_8981_8982_8983_8984_C9CA_C4B9_8985_8986_8987_8988),
  (0x5898, 0x8989_C7BD_DCAE_898A_898B_898C_D4F6_D0E6_898D_898E_898F_8990),
  (0x58A4, 0x8991_8992_8993_8994_C4AB_B6D5_8995_8996_8997_8998_8999_899A),
  (0x58B0, 0x899B_899C_899D_899E_899F_89A0_89A1_89A2_89A3_89A4_89A5_89A6),
  (0x58BC, 0xDBD4_89A7_89A8_89A9_89AA_B1DA_89AB_89AC_89AD_DBD5_89AE_89AF),
  (0x58C8, 0x89B0_89B1_89B2_89B3_89B4_89B5_89B6_89B7_89B8_DBD6_89B9_89BA),
  (0x58D4, 0x89BB_BABE_89BC_89BD_89BE_89BF_89C0_89C1_89C2_89C3_89C4_89C5),
  (0x58E0, 0x89C6_89C7_89C8_89C9_C8C0_89CA_89CB_89CC_89CD_89CE_89CF_CABF),
  (0x58EC, 0xC8C9_89D0_D7B3_89D1_C9F9_89D2_89D3_BFC7_89D4_89D5_BAF8_89D6),
  (0x58F8, 0x89D7_D2BC_89D8_89D9_89DA_89DB_89DC_89DD_89DE_89DF_E2BA_89E0),
  (0x5904, 0xB4A6_89E1_89E2_B1B8_89E3_89E4_89E5_89E6_89E7_B8B4_89E8_CFC4),
  (0x5910, 0x89E9_89EA_89EB_89EC_D9E7_CFA6_CDE2_89ED_89EE_D9ED_B6E0_89EF),
  (0x591C, 0xD2B9_89F0_89F1_B9BB_89F2_89F3_89F4_89F5_E2B9_E2B7_89F6_B4F3),
  (0x5928, 0x89F7_CCEC_CCAB_B7F2_89F8_D8B2_D1EB_BABB_89F9_CAA7_89FA_89FB),
  (0x5934, 0xCDB7_89FC_89FD_D2C4_BFE4_BCD0_B6E1_89FE_DEC5_8A40_8A41_8A42),
  (0x5940, 0x8A43_DEC6_DBBC_8A44_D1D9_8A45_8A46_C6E6_C4CE_B7EE_8A47_B7DC),
  (0x594C, 0x8A48_8A49_BFFC_D7E0_8A4A_C6F5_8A4B_8A4C_B1BC_DEC8_BDB1_CCD7),
  (0x5958, 0xDECA_8A4D_DEC9_8A4E_8A4F_8A50_8A51_8A52_B5EC_8A53_C9DD_8A54),
  (0x5964, 0x8A55_B0C2_8A56_8A57_8A58_8A59_8A5A_8A5B_8A5C_8A5D_8A5E_8A5F),
  (0x5970, 0x8A60_8A61_8A62_C5AE_C5AB_8A63_C4CC_8A64_BCE9_CBFD_8A65_8A66),
  (0x597C, 0x8A67_BAC3_8A68_8A69_8A6A_E5F9_C8E7_E5FA_CDFD_8A6B_D7B1_B8BE),
  (0x5988, 0xC2E8_8A6C_C8D1_8A6D_8A6E_E5FB_8A6F_8A70_8A71_8A72_B6CA_BCCB),
  (0x5994, 0x8A73_8A74_D1FD_E6A1_8A75_C3EE_8A76_8A77_8A78_8A79_E6A4_8A7A),
  (0x59A0, 0x8A7B_8A7C_8A7D_E5FE_E6A5_CDD7_8A7E_8A80_B7C1_E5FC_E5FD_E6A3),
  (0x59AC, 0x8A81_8A82_C4DD_E6A8_8A83_8A84_E6A7_8A85_8A86_8A87_8A88_8A89),
  (0x59B8, 0x8A8A_C3C3_8A8B_C6DE_8A8C_8A8D_E6AA_8A8E_8A8F_8A90_8A91_8A92),
  (0x59C4, 0x8A93_8A94_C4B7_8A95_8A96_8A97_E6A2_CABC_8A98_8A99_8A9A_8A9B),
  (0x59D0, 0xBDE3_B9C3_E6A6_D0D5_CEAF_8A9C_8A9D_E6A9_E6B0_8A9E_D2A6_8A9F),
  (0x59DC, 0xBDAA_E6AD_8AA0_8AA1_8AA2_8AA3_8AA4_E6AF_8AA5_C0D1_8AA6_8AA7),
  (0x59E8, 0xD2CC_8AA8_8AA9_8AAA_BCA7_8AAB_8AAC_8AAD_8AAE_8AAF_8AB0_8AB1),
  (0x59F4, 0x8AB2_8AB3_8AB4_8AB5_8AB6_E6B1_8AB7_D2F6_8AB8_8AB9_8ABA_D7CB),
  (0x5A00, 0x8ABB_CDFE_8ABC_CDDE_C2A6_E6AB_E6AC_BDBF_E6AE_E6B3_8ABD_8ABE),
  (0x5A0C, 0xE6B2_8ABF_8AC0_8AC1_8AC2_E6B6_8AC3_E6B8_8AC4_8AC5_8AC6_8AC7),
  (0x5A18, 0xC4EF_8AC8_8AC9_8ACA_C4C8_8ACB_8ACC_BEEA_C9EF_8ACD_8ACE_E6B7),
  (0x5A24, 0x8ACF_B6F0_8AD0_8AD1_8AD2_C3E4_8AD3_8AD4_8AD5_8AD6_8AD7_8AD8),
  (0x5A30, 0x8AD9_D3E9_E6B4_8ADA_E6B5_8ADB_C8A2_8ADC_8ADD_8ADE_8ADF_8AE0),
  (0x5A3C, 0xE6BD_8AE1_8AE2_8AE3_E6B9_8AE4_8AE5_8AE6_8AE7_8AE8_C6C5_8AE9),
  (0x5A48, 0x8AEA_CDF1_E6BB_8AEB_8AEC_8AED_8AEE_8AEF_8AF0_8AF1_8AF2_8AF3),
  (0x5A54, 0x8AF4_E6BC_8AF5_8AF6_8AF7_8AF8_BBE9_8AF9_8AFA_8AFB_8AFC_8AFD),
  (0x5A60, 0x8AFE_8B40_E6BE_8B41_8B42_8B43_8B44_E6BA_8B45_8B46_C0B7_8B47),
  (0x5A6C, 0x8B48_8B49_8B4A_8B4B_8B4C_8B4D_8B4E_8B4F_D3A4_E6BF_C9F4_E6C3),
  (0x5A78, 0x8B50_8B51_E6C4_8B52_8B53_8B54_8B55_D0F6_8B56_8B57_8B58_8B59),
  (0x5A84, 0x8B5A_8B5B_8B5C_8B5D_8B5E_8B5F_8B60_8B61_8B62_8B63_8B64_8B65),
  (0x5A90, 0x8B66_8B67_C3BD_8B68_8B69_8B6A_8B6B_8B6C_8B6D_8B6E_C3C4_E6C2),
  (0x5A9C, 0x8B6F_8B70_8B71_8B72_8B73_8B74_8B75_8B76_8B77_8B78_8B79_8B7A),
  (0x5AA8, 0x8B7B_8B7C_E6C1_8B7D_8B7E_8B80_8B81_8B82_8B83_8B84_E6C7_CFB1),
  (0x5AB4, 0x8B85_EBF4_8B86_8B87_E6CA_8B88_8B89_8B8A_8B8B_8B8C_E6C5_8B8D),
  (0x5AC0, 0x8B8E_BCDE_C9A9_8B8F_8B90_8B91_8B92_8B93_8B94_BCB5_8B95_8B96),
  (0x5ACC, 0xCFD3_8B97_8B98_8B99_8B9A_8B9B_E6C8_8B9C_E6C9_8B9D_E6CE_8B9E),
  (0x5AD8, 0xE6D0_8B9F_8BA0_8BA1_E6D1_8BA2_8BA3_8BA4_E6CB_B5D5_8BA5_E6CC),
  (0x5AE4, 0x8BA6_8BA7_E6CF_8BA8_8BA9_C4DB_8BAA_E6C6_8BAB_8BAC_8BAD_8BAE),
  (0x5AF0, 0x8BAF_E6CD_8BB0_8BB1_8BB2_8BB3_8BB4_8BB5_8BB6_8BB7_8BB8_8BB9),
  (0x5AFC, 0x8BBA_8BBB_8BBC_8BBD_8BBE_8BBF_8BC0_8BC1_8BC2_8BC3_8BC4_8BC5),
  (0x5B08, 0x8BC6_E6D2_8BC7_8BC8_8BC9_8BCA_8BCB_8BCC_8BCD_8BCE_8BCF_8BD0),
  (0x5B14, 0x8BD1_8BD2_E6D4_E6D3_8BD3_8BD4_8BD5_8BD6_8BD7_8BD8_8BD9_8BDA),
  (0x5B20, 0x8BDB_8BDC_8BDD_8BDE_8BDF_8BE0_8BE1_8BE2_8BE3_8BE4_8BE5_8BE6),
  (0x5B2C, 0x8BE7_8BE8_8BE9_8BEA_8BEB_8BEC_E6D5_8BED_D9F8_8BEE_8BEF_E6D6),
  (0x5B38, 0x8BF0_8BF1_8BF2_8BF3_8BF4_8BF5_8BF6_8BF7_E6D7_8BF8_8BF9_8BFA),
  (0x5B44, 0x8BFB_8BFC_8BFD_8BFE_8C40_8C41_8C42_8C43_8C44_8C45_8C46_8C47),
  (0x5B50, 0xD7D3_E6DD_8C48_E6DE_BFD7_D4D0_8C49_D7D6_B4E6_CBEF_E6DA_D8C3),
  (0x5B5C, 0xD7CE_D0A2_8C4A_C3CF_8C4B_8C4C_E6DF_BCBE_B9C2_E6DB_D1A7_8C4D),
  (0x5B68, 0x8C4E_BAA2_C2CF_8C4F_D8AB_8C50_8C51_8C52_CAEB_E5EE_8C53_E6DC),
  (0x5B74, 0x8C54_B7F5_8C55_8C56_8C57_8C58_C8E6_8C59_8C5A_C4F5_8C5B_8C5C),
  (0x5B80, 0xE5B2_C4FE_8C5D_CBFC_E5B3_D5AC_8C5E_D3EE_CAD8_B0B2_8C5F_CBCE),
  (0x5B8C, 0xCDEA_8C60_8C61_BAEA_8C62_8C63_8C64_E5B5_8C65_E5B4_8C66_D7DA),
  (0x5B98, 0xB9D9_D6E6_B6A8_CDF0_D2CB_B1A6_CAB5_8C67_B3E8_C9F3_BFCD_D0FB),
  (0x5BA4, 0xCAD2_E5B6_BBC2_8C68_8C69_8C6A_CFDC_B9AC_8C6B_8C6C_8C6D_8C6E),
  (0x5BB0, 0xD4D7_8C6F_8C70_BAA6_D1E7_CFFC_BCD2_8C71_E5B7_C8DD_8C72_8C73),
  (0x5BBC, 0x8C74_BFED_B1F6_CBDE_8C75_8C76_BCC5_8C77_BCC4_D2FA_C3DC_BFDC),
  (0x5BC8, 0x8C78_8C79_8C7A_8C7B_B8BB_8C7C_8C7D_8C7E_C3C2_8C80_BAAE_D4A2),
  (0x5BD4, 0x8C81_8C82_8C83_8C84_8C85_8C86_8C87_8C88_8C89_C7DE_C4AF_B2EC),
  (0x5BE0, 0x8C8A_B9D1_8C8B_8C8C_E5BB_C1C8_8C8D_8C8E_D5AF_8C8F_8C90_8C91),
  (0x5BEC, 0x8C92_8C93_E5BC_8C94_E5BE_8C95_8C96_8C97_8C98_8C99_8C9A_8C9B),
  (0x5BF8, 0xB4E7_B6D4_CBC2_D1B0_B5BC_8C9C_8C9D_CAD9_8C9E_B7E2_8C9F_8CA0),
  (0x5C04, 0xC9E4_8CA1_BDAB_8CA2_8CA3_CEBE_D7F0_8CA4_8CA5_8CA6_8CA7_D0A1),
  (0x5C10, 0x8CA8_C9D9_8CA9_8CAA_B6FB_E6D8_BCE2_8CAB_B3BE_8CAC_C9D0_8CAD),
  (0x5C1C, 0xE6D9_B3A2_8CAE_8CAF_8CB0_8CB1_DECC_8CB2_D3C8_DECD_8CB3_D2A2),
  (0x5C28, 0x8CB4_8CB5_8CB6_8CB7_DECE_8CB8_8CB9_8CBA_8CBB_BECD_8CBC_8CBD),
  (0x5C34, 0xDECF_8CBE_8CBF_8CC0_CAAC_D2FC_B3DF_E5EA_C4E1_BEA1_CEB2_C4F2),
  (0x5C40, 0xBED6_C6A8_B2E3_8CC1_8CC2_BED3_8CC3_8CC4_C7FC_CCEB_BDEC_CEDD),
  (0x5C4C, 0x8CC5_8CC6_CABA_C6C1_E5EC_D0BC_8CC7_8CC8_8CC9_D5B9_8CCA_8CCB),
  (0x5C58, 0x8CCC_E5ED_8CCD_8CCE_8CCF_8CD0_CAF4_8CD1_CDC0_C2C5_8CD2_E5EF),
  (0x5C64, 0x8CD3_C2C4_E5F0_8CD4_8CD5_8CD6_8CD7_8CD8_8CD9_8CDA_E5F8_CDCD),
  (0x5C70, 0x8CDB_C9BD_8CDC_8CDD_8CDE_8CDF_8CE0_8CE1_8CE2_D2D9_E1A8_8CE3),
  (0x5C7C, 0x8CE4_8CE5_8CE6_D3EC_8CE7_CBEA_C6F1_8CE8_8CE9_8CEA_8CEB_8CEC),
  (0x5C88, 0xE1AC_8CED_8CEE_8CEF_E1A7_E1A9_8CF0_8CF1_E1AA_E1AF_8CF2_8CF3),
  (0x5C94, 0xB2ED_8CF4_E1AB_B8DA_E1AD_E1AE_E1B0_B5BA_E1B1_8CF5_8CF6_8CF7),
  (0x5CA0, 0x8CF8_8CF9_E1B3_E1B8_8CFA_8CFB_8CFC_8CFD_8CFE_D1D2_8D40_E1B6),
  (0x5CAC, 0xE1B5_C1EB_8D41_8D42_8D43_E1B7_8D44_D4C0_8D45_E1B2_8D46_E1BA),
  (0x5CB8, 0xB0B6_8D47_8D48_8D49_8D4A_E1B4_8D4B_BFF9_8D4C_E1B9_8D4D_8D4E),
  (0x5CC4, 0xE1BB_8D4F_8D50_8D51_8D52_8D53_8D54_E1BE_8D55_8D56_8D57_8D58),
  (0x5CD0, 0x8D59_8D5A_E1BC_8D5B_8D5C_8D5D_8D5E_8D5F_8D60_D6C5_8D61_8D62),
  (0x5CDC, 0x8D63_8D64_8D65_8D66_8D67_CFBF_8D68_8D69_E1BD_E1BF_C2CD_8D6A),
  (0x5CE8, 0xB6EB_8D6B_D3F8_8D6C_8D6D_C7CD_8D6E_8D6F_B7E5_8D70_8D71_8D72),
  (0x5CF4, 0x8D73_8D74_8D75_8D76_8D77_8D78_8D79_BEFE_8D7A_8D7B_8D7C_8D7D),
  (0x5D00, 0x8D7E_8D80_E1C0_E1C1_8D81_8D82_E1C7_B3E7_8D83_8D84_8D85_8D86),
  (0x5D0C, 0x8D87_8D88_C6E9_8D89_8D8A_8D8B_8D8C_8D8D_B4DE_8D8E_D1C2_8D8F),
  (0x5D18, 0x8D90_8D91_8D92_E1C8_8D93_8D94_E1C6_8D95_8D96_8D97_8D98_8D99),
  (0x5D24, 0xE1C5_8D9A_E1C3_E1C2_8D9B_B1C0_8D9C_8D9D_8D9E_D5B8_E1C4_8D9F),
  (0x5D30, 0x8DA0_8DA1_8DA2_8DA3_E1CB_8DA4_8DA5_8DA6_8DA7_8DA8_8DA9_8DAA),
  (0x5D3C, 0x8DAB_E1CC_E1CA_8DAC_8DAD_8DAE_8DAF_8DB0_8DB1_8DB2_8DB3_EFFA),
  (0x5D48, 0x8DB4_8DB5_E1D3_E1D2_C7B6_8DB6_8DB7_8DB8_8DB9_8DBA_8DBB_8DBC),
  (0x5D54, 0x8DBD_8DBE_8DBF_8DC0_E1C9_8DC1_8DC2_E1CE_8DC3_E1D0_8DC4_8DC5),
  (0x5D60, 0x8DC6_8DC7_8DC8_8DC9_8DCA_8DCB_8DCC_8DCD_8DCE_E1D4_8DCF_E1D1),
  (0x5D6C, 0xE1CD_8DD0_8DD1_E1CF_8DD2_8DD3_8DD4_8DD5_E1D5_8DD6_8DD7_8DD8),
  (0x5D78, 0x8DD9_8DDA_8DDB_8DDC_8DDD_8DDE_8DDF_8DE0_8DE1_8DE2_E1D6_8DE3),
  (0x5D84, 0x8DE4_8DE5_8DE6_8DE7_8DE8_8DE9_8DEA_8DEB_8DEC_8DED_8DEE_8DEF),
  (0x5D90, 0x8DF0_8DF1_8DF2_8DF3_8DF4_8DF5_8DF6_8DF7_8DF8_E1D7_8DF9_8DFA),
  (0x5D9C, 0x8DFB_E1D8_8DFC_8DFD_8DFE_8E40_8E41_8E42_8E43_8E44_8E45_8E46),
  (0x5DA8, 0x8E47_8E48_8E49_8E4A_8E4B_8E4C_8E4D_8E4E_8E4F_8E50_8E51_8E52),
  (0x5DB4, 0x8E53_8E54_8E55_E1DA_8E56_8E57_8E58_8E59_8E5A_8E5B_8E5C_8E5D),
  (0x5DC0, 0x8E5E_8E5F_8E60_8E61_8E62_E1DB_8E63_8E64_8E65_8E66_8E67_8E68),
  (0x5DCC, 0x8E69_CEA1_8E6A_8E6B_8E6C_8E6D_8E6E_8E6F_8E70_8E71_8E72_8E73),
  (0x5DD8, 0x8E74_8E75_8E76_E7DD_8E77_B4A8_D6DD_8E78_8E79_D1B2_B3B2_8E7A),
  (0x5DE4, 0x8E7B_B9A4_D7F3_C7C9_BEDE_B9AE_8E7C_CED7_8E7D_8E7E_B2EE_DBCF),
  (0x5DF0, 0x8E80_BCBA_D2D1_CBC8_B0CD_8E81_8E82_CFEF_8E83_8E84_8E85_8E86),
  (0x5DFC, 0x8E87_D9E3_BDED_8E88_8E89_B1D2_CAD0_B2BC_8E8A_CBA7_B7AB_8E8B),
  (0x5E08, 0xCAA6_8E8C_8E8D_8E8E_CFA3_8E8F_8E90_E0F8_D5CA_E0FB_8E91_8E92),
  (0x5E14, 0xE0FA_C5C1_CCFB_8E93_C1B1_E0F9_D6E3_B2AF_D6C4_B5DB_8E94_8E95),
  (0x5E20, 0x8E96_8E97_8E98_8E99_8E9A_8E9B_B4F8_D6A1_8E9C_8E9D_8E9E_8E9F),
  (0x5E2C, 0x8EA0_CFAF_B0EF_8EA1_8EA2_E0FC_8EA3_8EA4_8EA5_8EA6_8EA7_E1A1),
  (0x5E38, 0xB3A3_8EA8_8EA9_E0FD_E0FE_C3B1_8EAA_8EAB_8EAC_8EAD_C3DD_8EAE),
  (0x5E44, 0xE1A2_B7F9_8EAF_8EB0_8EB1_8EB2_8EB3_8EB4_BBCF_8EB5_8EB6_8EB7),
  (0x5E50, 0x8EB8_8EB9_8EBA_8EBB_E1A3_C4BB_8EBC_8EBD_8EBE_8EBF_8EC0_E1A4),
  (0x5E5C, 0x8EC1_8EC2_E1A5_8EC3_8EC4_E1A6_B4B1_8EC5_8EC6_8EC7_8EC8_8EC9),
  (0x5E68, 0x8ECA_8ECB_8ECC_8ECD_8ECE_8ECF_8ED0_8ED1_8ED2_8ED3_B8C9_C6BD),
  (0x5E74, 0xC4EA_8ED4_B2A2_8ED5_D0D2_8ED6_E7DB_BBC3_D3D7_D3C4_8ED7_B9E3),
  (0x5E80, 0xE2CF_8ED8_8ED9_8EDA_D7AF_8EDB_C7EC_B1D3_8EDC_8EDD_B4B2_E2D1),
  (0x5E8C, 0x8EDE_8EDF_8EE0_D0F2_C2AE_E2D0_8EE1_BFE2_D3A6_B5D7_E2D2_B5EA),
  (0x5E98, 0x8EE2_C3ED_B8FD_8EE3_B8AE_8EE4_C5D3_B7CF_E2D4_8EE5_8EE6_8EE7),
  (0x5EA4, 0x8EE8_E2D3_B6C8_D7F9_8EE9_8EEA_8EEB_8EEC_8EED_CDA5_8EEE_8EEF),
  (0x5EB0, 0x8EF0_8EF1_8EF2_E2D8_8EF3_E2D6_CAFC_BFB5_D3B9_E2D5_8EF4_8EF5),
  (0x5EBC, 0x8EF6_8EF7_E2D7_8EF8_8EF9_8EFA_8EFB_8EFC_8EFD_8EFE_8F40_8F41),
  (0x5EC8, 0x8F42_C1AE_C0C8_8F43_8F44_8F45_8F46_8F47_8F48_E2DB_E2DA_C0AA),
  (0x5ED4, 0x8F49_8F4A_C1CE_8F4B_8F4C_8F4D_8F4E_E2DC_8F4F_8F50_8F51_8F52),
  (0x5EE0, 0x8F53_8F54_8F55_8F56_8F57_8F58_8F59_8F5A_E2DD_8F5B_E2DE_8F5C),
  (0x5EEC, 0x8F5D_8F5E_8F5F_8F60_8F61_8F62_8F63_8F64_DBC8_8F65_D1D3_CDA2),
  (0x5EF8, 0x8F66_8F67_BDA8_8F68_8F69_8F6A_DEC3_D8A5_BFAA_DBCD_D2EC_C6FA),
  (0x5F04, 0xC5AA_8F6B_8F6C_8F6D_DEC4_8F6E_B1D7_DFAE_8F6F_8F70_8F71_CABD),
  (0x5F10, 0x8F72_DFB1_8F73_B9AD_8F74_D2FD_8F75_B8A5_BAEB_8F76_8F77_B3DA),
  (0x5F1C, 0x8F78_8F79_8F7A_B5DC_D5C5_8F7B_8F7C_8F7D_8F7E_C3D6_CFD2_BBA1),
  (0x5F28, 0x8F80_E5F3_E5F2_8F81_8F82_E5F4_8F83_CDE4_8F84_C8F5_8F85_8F86),
  (0x5F34, 0x8F87_8F88_8F89_8F8A_8F8B_B5AF_C7BF_8F8C_E5F6_8F8D_8F8E_8F8F),
  (0x5F40, 0xECB0_8F90_8F91_8F92_8F93_8F94_8F95_8F96_8F97_8F98_8F99_8F9A),
  (0x5F4C, 0x8F9B_8F9C_8F9D_8F9E_E5E6_8F9F_B9E9_B5B1_8FA0_C2BC_E5E8_E5E7),
  (0x5F58, 0xE5E9_8FA1_8FA2_8FA3_8FA4_D2CD_8FA5_8FA6_8FA7_E1EA_D0CE_8FA8),
  (0x5F64, 0xCDAE_8FA9_D1E5_8FAA_8FAB_B2CA_B1EB_8FAC_B1F2_C5ED_8FAD_8FAE),
  (0x5F70, 0xD5C3_D3B0_8FAF_E1DC_8FB0_8FB1_8FB2_E1DD_8FB3_D2DB_8FB4_B3B9),
  (0x5F7C, 0xB1CB_8FB5_8FB6_8FB7_CDF9_D5F7_E1DE_8FB8_BEB6_B4FD_8FB9_E1DF),
  (0x5F88, 0xBADC_E1E0_BBB2_C2C9_E1E1_8FBA_8FBB_8FBC_D0EC_8FBD_CDBD_8FBE),
  (0x5F94, 0x8FBF_E1E2_8FC0_B5C3_C5C7_E1E3_8FC1_8FC2_E1E4_8FC3_8FC4_8FC5),
  (0x5FA0, 0x8FC6_D3F9_8FC7_8FC8_8FC9_8FCA_8FCB_8FCC_E1E5_8FCD_D1AD_8FCE),
  (0x5FAC, 0x8FCF_E1E6_CEA2_8FD0_8FD1_8FD2_8FD3_8FD4_8FD5_E1E7_8FD6_B5C2),
  (0x5FB8, 0x8FD7_8FD8_8FD9_8FDA_E1E8_BBD5_8FDB_8FDC_8FDD_8FDE_8FDF_D0C4),
  (0x5FC4, 0xE2E0_B1D8_D2E4_8FE0_8FE1_E2E1_8FE2_8FE3_BCC9_C8CC_8FE4_E2E3),
  (0x5FD0, 0xECFE_ECFD_DFAF_8FE5_8FE6_8FE7_E2E2_D6BE_CDFC_C3A6_8FE8_8FE9),
  (0x5FDC, 0x8FEA_E3C3_8FEB_8FEC_D6D2_E2E7_8FED_8FEE_E2E8_8FEF_8FF0_D3C7),
  (0x5FE8, 0x8FF1_8FF2_E2EC_BFEC_8FF3_E2ED_E2E5_8FF4_8FF5_B3C0_8FF6_8FF7),
  (0x5FF4, 0x8FF8_C4EE_8FF9_8FFA_E2EE_8FFB_8FFC_D0C3_8FFD_BAF6_E2E9_B7DE),
  (0x6000, 0xBBB3_CCAC_CBCB_E2E4_E2E6_E2EA_E2EB_8FFE_9040_9041_E2F7_9042),
  (0x600C, 0x9043_E2F4_D4F5_E2F3_9044_9045_C5AD_9046_D5FA_C5C2_B2C0_9047),
  (0x6018, 0x9048_E2EF_9049_E2F2_C1AF_CBBC_904A_904B_B5A1_E2F9_904C_904D),
  (0x6024, 0x904E_BCB1_E2F1_D0D4_D4B9_E2F5_B9D6_E2F6_904F_9050_9051_C7D3),
  (0x6030, 0x9052_9053_9054_9055_9056_E2F0_9057_9058_9059_905A_905B_D7DC),
  (0x603C, 0xEDA1_905C_905D_E2F8_905E_EDA5_E2FE_CAD1_905F_9060_9061_9062),
  (0x6048, 0x9063_9064_9065_C1B5_9066_BBD0_9067_9068_BFD6_9069_BAE3_906A),
  (0x6054, 0x906B_CBA1_906C_906D_906E_EDA6_EDA3_906F_9070_EDA2_9071_9072),
  (0x6060, 0x9073_9074_BBD6_EDA7_D0F4_9075_9076_EDA4_BADE_B6F7_E3A1_B6B2),
  (0x606C, 0xCCF1_B9A7_9077_CFA2_C7A1_9078_9079_BFD2_907A_907B_B6F1_907C),
  (0x6078, 0xE2FA_E2FB_E2FD_E2FC_C4D5_E3A2_907D_D3C1_907E_9080_9081_E3A7),
  (0x6084, 0xC7C4_9082_9083_9084_9085_CFA4_9086_9087_E3A9_BAB7_9088_9089),
  (0x6090, 0x908A_908B_E3A8_908C_BBDA_908D_E3A3_908E_908F_9090_E3A4_E3AA),
  (0x609C, 0x9091_E3A6_9092_CEF2_D3C6_9093_9094_BBBC_9095_9096_D4C3_9097),
  (0x60A8, 0xC4FA_9098_9099_EDA8_D0FC_E3A5_909A_C3F5_909B_E3AD_B1AF_909C),
  (0x60B4, 0xE3B2_909D_909E_909F_BCC2_90A0_90A1_E3AC_B5BF_90A2_90A3_90A4),
  (0x60C0, 0x90A5_90A6_90A7_90A8_90A9_C7E9_E3B0_90AA_90AB_90AC_BEAA_CDEF),
  (0x60CC, 0x90AD_90AE_90AF_90B0_90B1_BBF3_90B2_90B3_90B4_CCE8_90B5_90B6),
  (0x60D8, 0xE3AF_90B7_E3B1_90B8_CFA7_E3AE_90B9_CEA9_BBDD_90BA_90BB_90BC),
  (0x60E4, 0x90BD_90BE_B5EB_BEE5_B2D2_B3CD_90BF_B1B9_E3AB_B2D1_B5AC_B9DF),
  (0x60F0, 0xB6E8_90C0_90C1_CFEB_E3B7_90C2_BBCC_90C3_90C4_C8C7_D0CA_90C5),
  (0x60FC, 0x90C6_90C7_90C8_90C9_E3B8_B3EE_90CA_90CB_90CC_90CD_EDA9_90CE),
  (0x6108, 0xD3FA_D3E4_90CF_90D0_90D1_EDAA_E3B9_D2E2_90D2_90D3_90D4_90D5),
  (0x6114, 0x90D6_E3B5_90D7_90D8_90D9_90DA_D3DE_90DB_90DC_90DD_90DE_B8D0),
  (0x6120, 0xE3B3_90DF_90E0_E3B6_B7DF_90E1_E3B4_C0A2_90E2_90E3_90E4_E3BA),
  (0x612C, 0x90E5_90E6_90E7_90E8_90E9_90EA_90EB_90EC_90ED_90EE_90EF_90F0),
  (0x6138, 0x90F1_90F2_90F3_90F4_90F5_90F6_90F7_D4B8_90F8_90F9_90FA_90FB),
  (0x6144, 0x90FC_90FD_90FE_9140_B4C8_9141_E3BB_9142_BBC5_9143_C9F7_9144),
  (0x6150, 0x9145_C9E5_9146_9147_9148_C4BD_9149_914A_914B_914C_914D_914E),
  (0x615C, 0x914F_EDAB_9150_9151_9152_9153_C2FD_9154_9155_9156_9157_BBDB),
  (0x6168, 0xBFAE_9158_9159_915A_915B_915C_915D_915E_CEBF_915F_9160_9161),
  (0x6174, 0x9162_E3BC_9163_BFB6_9164_9165_9166_9167_9168_9169_916A_916B),
  (0x6180, 0x916C_916D_916E_916F_9170_9171_9172_9173_9174_9175_9176_B1EF),
  (0x618C, 0x9177_9178_D4F7_9179_917A_917B_917C_917D_E3BE_917E_9180_9181),
  (0x6198, 0x9182_9183_9184_9185_9186_EDAD_9187_9188_9189_918A_918B_918C),
  (0x61A4, 0x918D_918E_918F_E3BF_BAA9_EDAC_9190_9191_E3BD_9192_9193_9194),
  (0x61B0, 0x9195_9196_9197_9198_9199_919A_919B_E3C0_919C_919D_919E_919F),
  (0x61BC, 0x91A0_91A1_BAB6_91A2_91A3_91A4_B6AE_91A5_91A6_91A7_91A8_91A9),
  (0x61C8, 0xD0B8_91AA_B0C3_EDAE_91AB_91AC_91AD_91AE_91AF_EDAF_C0C1_91B0),
  (0x61D4, 0xE3C1_91B1_91B2_91B3_91B4_91B5_91B6_91B7_91B8_91B9_91BA_91BB),
  (0x61E0, 0x91BC_91BD_91BE_91BF_91C0_91C1_C5B3_91C2_91C3_91C4_91C5_91C6),
  (0x61EC, 0x91C7_91C8_91C9_91CA_91CB_91CC_91CD_91CE_91CF_E3C2_91D0_91D1),
  (0x61F8, 0x91D2_91D3_91D4_91D5_91D6_91D7_91D8_DCB2_91D9_91DA_91DB_91DC),
  (0x6204, 0x91DD_91DE_EDB0_91DF_B8EA_91E0_CEEC_EAA7_D0E7_CAF9_C8D6_CFB7),
  (0x6210, 0xB3C9_CED2_BDE4_91E1_91E2_E3DE_BBF2_EAA8_D5BD_91E3_C6DD_EAA9),
  (0x621C, 0x91E4_91E5_91E6_EAAA_91E7_EAAC_EAAB_91E8_EAAE_EAAD_91E9_91EA),
  (0x6228, 0x91EB_91EC_BDD8_91ED_EAAF_91EE_C2BE_91EF_91F0_91F1_91F2_B4C1),
  (0x6234, 0xB4F7_91F3_91F4_BBA7_91F5_91F6_91F7_91F8_91F9_ECE6_ECE5_B7BF),
  (0x6240, 0xCBF9_B1E2_91FA_ECE7_91FB_91FC_91FD_C9C8_ECE8_ECE9_91FE_CAD6),
  (0x624C, 0xDED0_B2C5_D4FA_9240_9241_C6CB_B0C7_B4F2_C8D3_9242_9243_9244),
  (0x6258, 0xCDD0_9245_9246_BFB8_9247_9248_9249_924A_924B_924C_924D_BFDB),
  (0x6264, 0x924E_924F_C7A4_D6B4_9250_C0A9_DED1_C9A8_D1EF_C5A4_B0E7_B3B6),
  (0x6270, 0xC8C5_9251_9252_B0E2_9253_9254_B7F6_9255_9256_C5FA_9257_9258),
  (0x627C, 0xB6F3_9259_D5D2_B3D0_BCBC_925A_925B_925C_B3AD_925D_925E_925F),
  (0x6288, 0x9260_BEF1_B0D1_9261_9262_9263_9264_9265_9266_D2D6_CAE3_D7A5),
  (0x6294, 0x9267_CDB6_B6B6_BFB9_D5DB_9268_B8A7_C5D7_9269_926A_926B_DED2),
  (0x62A0, 0xBFD9_C2D5_C7C0_926C_BBA4_B1A8_926D_926E_C5EA_926F_9270_C5FB),
  (0x62AC, 0xCCA7_9271_9272_9273_9274_B1A7_9275_9276_9277_B5D6_9278_9279),
  (0x62B8, 0x927A_C4A8_927B_DED3_D1BA_B3E9_927C_C3F2_927D_927E_B7F7_9280),
  (0x62C4, 0xD6F4_B5A3_B2F0_C4B4_C4E9_C0AD_DED4_9281_B0E8_C5C4_C1E0_9282),
  (0x62D0, 0xB9D5_9283_BEDC_CDD8_B0CE_9284_CDCF_DED6_BED0_D7BE_DED5_D5D0),
  (0x62DC, 0xB0DD_9285_9286_C4E2_9287_9288_C2A3_BCF0_9289_D3B5_C0B9_C5A1),
  (0x62E8, 0xB2A6_D4F1_928A_928B_C0A8_CAC3_DED7_D5FC_928C_B9B0_928D_C8AD),
  (0x62F4, 0xCBA9_928E_DED9_BFBD_928F_9290_9291_9292_C6B4_D7A7_CAB0_C4C3),
  (0x6300, 0x9293_B3D6_B9D2_9294_9295_9296_9297_D6B8_EAFC_B0B4_9298_9299),
  (0x630C, 0x929A_929B_BFE6_929C_929D_CCF4_929E_929F_92A0_92A1_CDDA_92A2),
  (0x6318, 0x92A3_92A4_D6BF_C2CE_92A5_CECE_CCA2_D0AE_C4D3_B5B2_DED8_D5F5),
  (0x6324, 0xBCB7_BBD3_92A6_92A7_B0A4_92A8_C5B2_B4EC_92A9_92AA_92AB_D5F1),
  (0x6330, 0x92AC_92AD_EAFD_92AE_92AF_92B0_92B1_92B2_92B3_DEDA_CDA6_92B4),
  (0x633C, 0x92B5_CDEC_92B6_92B7_92B8_92B9_CEE6_DEDC_92BA_CDB1_C0A6_92BB),
  (0x6348, 0x92BC_D7BD_92BD_DEDB_B0C6_BAB4_C9D3_C4F3_BEE8_92BE_92BF_92C0),
  (0x6354, 0x92C1_B2B6_92C2_92C3_92C4_92C5_92C6_92C7_92C8_92C9_C0CC_CBF0),
  (0x6360, 0x92CA_BCF1_BBBB_B5B7_92CB_92CC_92CD_C5F5_92CE_DEE6_92CF_92D0),
  (0x636C, 0x92D1_DEE3_BEDD_92D2_92D3_DEDF_92D4_92D5_92D6_92D7_B4B7_BDDD),
  (0x6378, 0x92D8_92D9_DEE0_C4ED_92DA_92DB_92DC_92DD_CFC6_92DE_B5E0_92DF),
  (0x6384, 0x92E0_92E1_92E2_B6DE_CADA_B5F4_DEE5_92E3_D5C6_92E4_DEE1_CCCD),
  (0x6390, 0xC6FE_92E5_C5C5_92E6_92E7_92E8_D2B4_92E9_BEF2_92EA_92EB_92EC),
  (0x639C, 0x92ED_92EE_92EF_92F0_C2D3_92F1_CCBD_B3B8_92F2_BDD3_92F3_BFD8),
  (0x63A8, 0xCDC6_D1DA_B4EB_92F4_DEE4_DEDD_DEE7_92F5_EAFE_92F6_92F7_C2B0),
  (0x63B4, 0xDEE2_92F8_92F9_D6C0_B5A7_92FA_B2F4_92FB_DEE8_92FC_DEF2_92FD),
  (0x63C0, 0x92FE_9340_9341_9342_DEED_9343_DEF1_9344_9345_C8E0_9346_9347),
  (0x63CC, 0x9348_D7E1_DEEF_C3E8_CCE1_9349_B2E5_934A_934B_934C_D2BE_934D),
  (0x63D8, 0x934E_934F_9350_9351_9352_9353_DEEE_9354_DEEB_CED5_9355_B4A7),
  (0x63E4, 0x9356_9357_9358_9359_935A_BFAB_BEBE_935B_935C_BDD2_935D_935E),
  (0x63F0, 0x935F_9360_DEE9_9361_D4AE_9362_DEDE_9363_DEEA_9364_9365_9366),
  (0x63FC, 0x9367_C0BF_9368_DEEC_B2F3_B8E9_C2A7_9369_936A_BDC1_936B_936C),
  (0x6408, 0x936D_936E_936F_DEF5_DEF8_9370_9371_B2AB_B4A4_9372_9373_B4EA),
  (0x6414, 0xC9A6_9374_9375_9376_9377_9378_9379_DEF6_CBD1_937A_B8E3_937B),
  (0x6420, 0xDEF7_DEFA_937C_937D_937E_9380_DEF9_9381_9382_9383_CCC2_9384),
  (0x642C, 0xB0E1_B4EE_9385_9386_9387_9388_9389_938A_E5BA_938B_938C_938D),
  (0x6438, 0x938E_938F_D0AF_9390_9391_B2EB_9392_EBA1_9393_DEF4_9394_9395),
  (0x6444, 0xC9E3_DEF3_B0DA_D2A1_B1F7_9396_CCAF_9397_9398_9399_939A_939B),
  (0x6450, 0x939C_939D_DEF0_939E_CBA4_939F_93A0_93A1_D5AA_93A2_93A3_93A4),
  (0x645C, 0x93A5_93A6_DEFB_93A7_93A8_93A9_93AA_93AB_93AC_93AD_93AE_B4DD),
  (0x6468, 0x93AF_C4A6_93B0_93B1_93B2_DEFD_93B3_93B4_93B5_93B6_93B7_93B8),
  (0x6474, 0x93B9_93BA_93BB_93BC_C3FE_C4A1_DFA1_93BD_93BE_93BF_93C0_93C1),
  (0x6480, 0x93C2_93C3_C1CC_93C4_DEFC_BEEF_93C5_C6B2_93C6_93C7_93C8_93C9),
  (0x648C, 0x93CA_93CB_93CC_93CD_93CE_B3C5_C8F6_93CF_93D0_CBBA_DEFE_93D1),
  (0x6498, 0x93D2_DFA4_93D3_93D4_93D5_93D6_D7B2_93D7_93D8_93D9_93DA_93DB),
  (0x64A4, 0xB3B7_93DC_93DD_93DE_93DF_C1C3_93E0_93E1_C7CB_B2A5_B4E9_93E2),
  (0x64B0, 0xD7AB_93E3_93E4_93E5_93E6_C4EC_93E7_DFA2_DFA3_93E8_DFA5_93E9),
  (0x64BC, 0xBAB3_93EA_93EB_93EC_DFA6_93ED_C0DE_93EE_93EF_C9C3_93F0_93F1),
  (0x64C8, 0x93F2_93F3_93F4_93F5_93F6_B2D9_C7E6_93F7_DFA7_93F8_C7DC_93F9),
  (0x64D4, 0x93FA_93FB_93FC_DFA8_EBA2_93FD_93FE_9440_9441_9442_CBD3_9443),
  (0x64E0, 0x9444_9445_DFAA_9446_DFA9_9447_B2C1_9448_9449_944A_944B_944C),
  (0x64EC, 0x944D_944E_944F_9450_9451_9452_9453_9454_9455_9456_9457_9458),
  (0x64F8, 0x9459_945A_945B_945C_945D_945E_945F_9460_C5CA_9461_9462_9463),
  (0x6504, 0x9464_9465_9466_9467_9468_DFAB_9469_946A_946B_946C_946D_946E),
  (0x6510, 0x946F_9470_D4DC_9471_9472_9473_9474_9475_C8C1_9476_9477_9478),
  (0x651C, 0x9479_947A_947B_947C_947D_947E_9480_9481_9482_DFAC_9483_9484),
  (0x6528, 0x9485_9486_9487_BEF0_9488_9489_DFAD_D6A7_948A_948B_948C_948D),
  (0x6534, 0xEAB7_EBB6_CAD5_948E_D8FC_B8C4_948F_B9A5_9490_9491_B7C5_D5FE),
  (0x6540, 0x9492_9493_9494_9495_9496_B9CA_9497_9498_D0A7_F4CD_9499_949A),
  (0x654C, 0xB5D0_949B_949C_C3F4_949D_BEC8_949E_949F_94A0_EBB7_B0BD_94A1),
  (0x6558, 0x94A2_BDCC_94A3_C1B2_94A4_B1D6_B3A8_94A5_94A6_94A7_B8D2_C9A2),
  (0x6564, 0x94A8_94A9_B6D8_94AA_94AB_94AC_94AD_EBB8_BEB4_94AE_94AF_94B0),
  (0x6570, 0xCAFD_94B1_C7C3_94B2_D5FB_94B3_94B4_B7F3_94B5_94B6_94B7_94B8),
  (0x657C, 0x94B9_94BA_94BB_94BC_94BD_94BE_94BF_94C0_94C1_94C2_94C3_CEC4),
  (0x6588, 0x94C4_94C5_94C6_D5AB_B1F3_94C7_94C8_94C9_ECB3_B0DF_94CA_ECB5),
  (0x6594, 0x94CB_94CC_94CD_B6B7_94CE_C1CF_94CF_F5FA_D0B1_94D0_94D1_D5E5),
  (0x65A0, 0x94D2_CED3_94D3_94D4_BDEF_B3E2_94D5_B8AB_94D6_D5B6_94D7_EDBD),
  (0x65AC, 0x94D8_B6CF_94D9_CBB9_D0C2_94DA_94DB_94DC_94DD_94DE_94DF_94E0),
  (0x65B8, 0x94E1_B7BD_94E2_94E3_ECB6_CAA9_94E4_94E5_94E6_C5D4_94E7_ECB9),
  (0x65C4, 0xECB8_C2C3_ECB7_94E8_94E9_94EA_94EB_D0FD_ECBA_94EC_ECBB_D7E5),
  (0x65D0, 0x94ED_94EE_ECBC_94EF_94F0_94F1_ECBD_C6EC_94F2_94F3_94F4_94F5),
  (0x65DC, 0x94F6_94F7_94F8_94F9_CEDE_94FA_BCC8_94FB_94FC_C8D5_B5A9_BEC9),
  (0x65E8, 0xD6BC_D4E7_94FD_94FE_D1AE_D0F1_EAB8_EAB9_EABA_BAB5_9540_9541),
  (0x65F4, 0x9542_9543_CAB1_BFF5_9544_9545_CDFA_9546_9547_9548_9549_954A),
  (0x6600, 0xEAC0_954B_B0BA_EABE_954C_954D_C0A5_954E_954F_9550_EABB_9551),
  (0x660C, 0xB2FD_9552_C3F7_BBE8_9553_9554_9555_D2D7_CEF4_EABF_9556_9557),
  (0x6618, 0x9558_EABC_9559_955A_955B_EAC3_955C_D0C7_D3B3_955D_955E_955F),
  (0x6624, 0x9560_B4BA_9561_C3C1_D7F2_9562_9563_9564_9565_D5D1_9566_CAC7),
  (0x6630, 0x9567_EAC5_9568_9569_EAC4_EAC7_EAC6_956A_956B_956C_956D_956E),
  (0x663C, 0xD6E7_956F_CFD4_9570_9571_EACB_9572_BBCE_9573_9574_9575_9576),
  (0x6648, 0x9577_9578_9579_BDFA_C9CE_957A_957B_EACC_957C_957D_C9B9_CFFE),
  (0x6654, 0xEACA_D4CE_EACD_EACF_957E_9580_CDED_9581_9582_9583_9584_EAC9),
  (0x6660, 0x9585_EACE_9586_9587_CEEE_9588_BBDE_9589_B3BF_958A_958B_958C),
  (0x666C, 0x958D_958E_C6D5_BEB0_CEFA_958F_9590_9591_C7E7_9592_BEA7_EAD0),
  (0x6678, 0x9593_9594_D6C7_9595_9596_9597_C1C0_9598_9599_959A_D4DD_959B),
  (0x6684, 0xEAD1_959C_959D_CFBE_959E_959F_95A0_95A1_EAD2_95A2_95A3_95A4),
  (0x6690, 0x95A5_CAEE_95A6_95A7_95A8_95A9_C5AF_B0B5_95AA_95AB_95AC_95AD),
  (0x669C, 0x95AE_EAD4_95AF_95B0_95B1_95B2_95B3_95B4_95B5_95B6_95B7_EAD3),
  (0x66A8, 0xF4DF_95B8_95B9_95BA_95BB_95BC_C4BA_95BD_95BE_95BF_95C0_95C1),
  (0x66B4, 0xB1A9_95C2_95C3_95C4_95C5_E5DF_95C6_95C7_95C8_95C9_EAD5_95CA),
  (0x66C0, 0x95CB_95CC_95CD_95CE_95CF_95D0_95D1_95D2_95D3_95D4_95D5_95D6),
  (0x66CC, 0x95D7_95D8_95D9_95DA_95DB_95DC_95DD_95DE_95DF_95E0_95E1_95E2),
  (0x66D8, 0x95E3_CAEF_95E4_EAD6_EAD7_C6D8_95E5_95E6_95E7_95E8_95E9_95EA),
  (0x66E4, 0x95EB_95EC_EAD8_95ED_95EE_EAD9_95EF_95F0_95F1_95F2_95F3_95F4),
  (0x66F0, 0xD4BB_95F5_C7FA_D2B7_B8FC_95F6_95F7_EAC2_95F8_B2DC_95F9_95FA),
  (0x66FC, 0xC2FC_95FB_D4F8_CCE6_D7EE_95FC_95FD_95FE_9640_9641_9642_9643),
  (0x6708, 0xD4C2_D3D0_EBC3_C5F3_9644_B7FE_9645_9646_EBD4_9647_9648_9649),
  (0x6714, 0xCBB7_EBDE_964A_C0CA_964B_964C_964D_CDFB_964E_B3AF_964F_C6DA),
  (0x6720, 0x9650_9651_9652_9653_9654_9655_EBFC_9656_C4BE_9657_CEB4_C4A9),
  (0x672C, 0xB1BE_D4FD_9658_CAF5_9659_D6EC_965A_965B_C6D3_B6E4_965C_965D),
  (0x6738, 0x965E_965F_BBFA_9660_9661_D0E0_9662_9663_C9B1_9664_D4D3_C8A8),
  (0x6744, 0x9665_9666_B8CB_9667_E8BE_C9BC_9668_9669_E8BB_966A_C0EE_D0D3),
  (0x6750, 0xB2C4_B4E5_966B_E8BC_966C_966D_D5C8_966E_966F_9670_9671_9672),
  (0x675C, 0xB6C5_9673_E8BD_CAF8_B8DC_CCF5_9674_9675_9676_C0B4_9677_9678),
  (0x6768, 0xD1EE_E8BF_E8C2_9679_967A_BABC_967B_B1AD_BDDC_967C_EABD_E8C3),
  (0x6774, 0x967D_E8C6_967E_E8CB_9680_9681_9682_9683_E8CC_9684_CBC9_B0E5),
  (0x6780, 0x9685_BCAB_9686_9687_B9B9_9688_9689_E8C1_968A_CDF7_968B_E8CA),
  (0x678C, 0x968C_968D_968E_968F_CEF6_9690_9691_9692_9693_D5ED_9694_C1D6),
  (0x6798, 0xE8C4_9695_C3B6_9696_B9FB_D6A6_E8C8_9697_9698_9699_CAE0_D4E6),
  (0x67A4, 0x969A_E8C0_969B_E8C5_E8C7_969C_C7B9_B7E3_969D_E8C9_969E_BFDD),
  (0x67B0, 0xE8D2_969F_96A0_E8D7_96A1_E8D5_BCDC_BCCF_E8DB_96A2_96A3_96A4),
  (0x67BC, 0x96A5_96A6_96A7_96A8_96A9_E8DE_96AA_E8DA_B1FA_96AB_96AC_96AD),
  (0x67C8, 0x96AE_96AF_96B0_96B1_96B2_96B3_96B4_B0D8_C4B3_B8CC_C6E2_C8BE),
  (0x67D4, 0xC8E1_96B5_96B6_96B7_E8CF_E8D4_E8D6_96B8_B9F1_E8D8_D7F5_96B9),
  (0x67E0, 0xC4FB_96BA_E8DC_96BB_96BC_B2E9_96BD_96BE_96BF_E8D1_96C0_96C1),
  (0x67EC, 0xBCED_96C2_96C3_BFC2_E8CD_D6F9_96C4_C1F8_B2F1_96C5_96C6_96C7),
  (0x67F8, 0x96C8_96C9_96CA_96CB_96CC_E8DF_96CD_CAC1_E8D9_96CE_96CF_96D0),
  (0x6804, 0x96D1_D5A4_96D2_B1EA_D5BB_E8CE_E8D0_B6B0_E8D3_96D3_E8DD_C0B8),
  (0x6810, 0x96D4_CAF7_96D5_CBA8_96D6_96D7_C6DC_C0F5_96D8_96D9_96DA_96DB),
  (0x681C, 0x96DC_E8E9_96DD_96DE_96DF_D0A3_96E0_96E1_96E2_96E3_96E4_96E5),
  (0x6828, 0x96E6_E8F2_D6EA_96E7_96E8_96E9_96EA_96EB_96EC_96ED_E8E0_E8E1),
  (0x6834, 0x96EE_96EF_96F0_D1F9_BACB_B8F9_96F1_96F2_B8F1_D4D4_E8EF_96F3),
  (0x6840, 0xE8EE_E8EC_B9F0_CCD2_E8E6_CEA6_BFF2_96F4_B0B8_E8F1_E8F0_96F5),
  (0x684C, 0xD7C0_96F6_E8E4_96F7_CDA9_C9A3_96F8_BBB8_BDDB_E8EA_96F9_96FA),
  (0x6858, 0x96FB_96FC_96FD_96FE_9740_9741_9742_9743_E8E2_E8E3_E8E5_B5B5),
  (0x6864, 0xE8E7_C7C5_E8EB_E8ED_BDB0_D7AE_9744_E8F8_9745_9746_9747_9748),
  (0x6870, 0x9749_974A_974B_974C_E8F5_974D_CDB0_E8F6_974E_974F_9750_9751),
  (0x687C, 0x9752_9753_9754_9755_9756_C1BA_9757_E8E8_9758_C3B7_B0F0_9759),
  (0x6888, 0x975A_975B_975C_975D_975E_975F_9760_E8F4_9761_9762_9763_E8F7),
  (0x6894, 0x9764_9765_9766_B9A3_9767_9768_9769_976A_976B_976C_976D_976E),
  (0x68A0, 0x976F_9770_C9D2_9771_9772_9773_C3CE_CEE0_C0E6_9774_9775_9776),
  (0x68AC, 0x9777_CBF3_9778_CCDD_D0B5_9779_977A_CAE1_977B_E8F3_977C_977D),
  (0x68B8, 0x977E_9780_9781_9782_9783_9784_9785_9786_BCEC_9787_E8F9_9788),
  (0x68C4, 0x9789_978A_978B_978C_978D_C3DE_978E_C6E5_978F_B9F7_9790_9791),
  (0x68D0, 0x9792_9793_B0F4_9794_9795_D7D8_9796_9797_BCAC_9798_C5EF_9799),
  (0x68DC, 0x979A_979B_979C_979D_CCC4_979E_979F_E9A6_97A0_97A1_97A2_97A3),
  (0x68E8, 0x97A4_97A5_97A6_97A7_97A8_97A9_C9AD_97AA_E9A2_C0E2_97AB_97AC),
  (0x68F4, 0x97AD_BFC3_97AE_97AF_97B0_E8FE_B9D7_97B1_E8FB_97B2_97B3_97B4),
  (0x6900, 0x97B5_E9A4_97B6_97B7_97B8_D2CE_97B9_97BA_97BB_97BC_97BD_E9A3),
  (0x690C, 0x97BE_D6B2_D7B5_97BF_E9A7_97C0_BDB7_97C1_97C2_97C3_97C4_97C5),
  (0x6918, 0x97C6_97C7_97C8_97C9_97CA_97CB_97CC_E8FC_E8FD_97CD_97CE_97CF),
  (0x6924, 0xE9A1_97D0_97D1_97D2_97D3_97D4_97D5_97D6_97D7_CDD6_97D8_97D9),
  (0x6930, 0xD2AC_97DA_97DB_97DC_E9B2_97DD_97DE_97DF_97E0_E9A9_97E1_97E2),
  (0x693C, 0x97E3_B4AA_97E4_B4BB_97E5_97E6_E9AB_97E7_97E8_97E9_97EA_97EB),
  (0x6948, 0x97EC_97ED_97EE_97EF_97F0_97F1_97F2_97F3_97F4_97F5_97F6_97F7),
  (0x6954, 0xD0A8_97F8_97F9_E9A5_97FA_97FB_B3FE_97FC_97FD_E9AC_C0E3_97FE),
  (0x6960, 0xE9AA_9840_9841_E9B9_9842_9843_E9B8_9844_9845_9846_9847_E9AE),
  (0x696C, 0x9848_9849_E8FA_984A_984B_E9A8_984C_984D_984E_984F_9850_BFAC),
  (0x6978, 0xE9B1_E9BA_9851_9852_C2A5_9853_9854_9855_E9AF_9856_B8C5_9857),
  (0x6984, 0xE9AD_9858_D3DC_E9B4_E9B5_E9B7_9859_985A_985B_E9C7_985C_985D),
  (0x6990, 0x985E_985F_9860_9861_C0C6_E9C5_9862_9863_E9B0_9864_9865_E9BB),
  (0x699C, 0xB0F1_9866_9867_9868_9869_986A_986B_986C_986D_986E_986F_E9BC),
  (0x69A8, 0xD5A5_9870_9871_E9BE_9872_E9BF_9873_9874_9875_E9C1_9876_9877),
  (0x69B4, 0xC1F1_9878_9879_C8B6_987A_987B_987C_E9BD_987D_987E_9880_9881),
  (0x69C0, 0x9882_E9C2_9883_9884_9885_9886_9887_9888_9889_988A_E9C3_988B),
  (0x69CC, 0xE9B3_988C_E9B6_988D_BBB1_988E_988F_9890_E9C0_9891_9892_9893),
  (0x69D8, 0x9894_9895_9896_BCF7_9897_9898_9899_E9C4_E9C6_989A_989B_989C),
  (0x69E4, 0x989D_989E_989F_98A0_98A1_98A2_98A3_98A4_98A5_E9CA_98A6_98A7),
  (0x69F0, 0x98A8_98A9_E9CE_98AA_98AB_98AC_98AD_98AE_98AF_98B0_98B1_98B2),
  (0x69FC, 0x98B3_B2DB_98B4_E9C8_98B5_98B6_98B7_98B8_98B9_98BA_98BB_98BC),
  (0x6A08, 0x98BD_98BE_B7AE_98BF_98C0_98C1_98C2_98C3_98C4_98C5_98C6_98C7),
  (0x6A14, 0x98C8_98C9_98CA_E9CB_E9CC_98CB_98CC_98CD_98CE_98CF_98D0_D5C1),
  (0x6A20, 0x98D1_C4A3_98D2_98D3_98D4_98D5_98D6_98D7_E9D8_98D8_BAE1_98D9),
  (0x6A2C, 0x98DA_98DB_98DC_E9C9_98DD_D3A3_98DE_98DF_98E0_E9D4_98E1_98E2),
  (0x6A38, 0x98E3_98E4_98E5_98E6_98E7_E9D7_E9D0_98E8_98E9_98EA_98EB_98EC),
  (0x6A44, 0xE9CF_98ED_98EE_C7C1_98EF_98F0_98F1_98F2_98F3_98F4_98F5_98F6),
  (0x6A50, 0xE9D2_98F7_98F8_98F9_98FA_98FB_98FC_98FD_E9D9_B3C8_98FE_E9D3),
  (0x6A5C, 0x9940_9941_9942_9943_9944_CFF0_9945_9946_9947_E9CD_9948_9949),
  (0x6A68, 0x994A_994B_994C_994D_994E_994F_9950_9951_9952_B3F7_9953_9954),
  (0x6A74, 0x9955_9956_9957_9958_9959_E9D6_995A_995B_E9DA_995C_995D_995E),
  (0x6A80, 0xCCB4_995F_9960_9961_CFAD_9962_9963_9964_9965_9966_9967_9968),
  (0x6A8C, 0x9969_996A_E9D5_996B_E9DC_E9DB_996C_996D_996E_996F_9970_E9DE),
  (0x6A98, 0x9971_9972_9973_9974_9975_9976_9977_9978_E9D1_9979_997A_997B),
  (0x6AA4, 0x997C_997D_997E_9980_9981_E9DD_9982_E9DF_C3CA_9983_9984_9985),
  (0x6AB0, 0x9986_9987_9988_9989_998A_998B_998C_998D_998E_998F_9990_9991),
  (0x6ABC, 0x9992_9993_9994_9995_9996_9997_9998_9999_999A_999B_999C_999D),
  (0x6AC8, 0x999E_999F_99A0_99A1_99A2_99A3_99A4_99A5_99A6_99A7_99A8_99A9),
  (0x6AD4, 0x99AA_99AB_99AC_99AD_99AE_99AF_99B0_99B1_99B2_99B3_99B4_99B5),
  (0x6AE0, 0x99B6_99B7_99B8_99B9_99BA_99BB_99BC_99BD_99BE_99BF_99C0_99C1),
  (0x6AEC, 0x99C2_99C3_99C4_99C5_99C6_99C7_99C8_99C9_99CA_99CB_99CC_99CD),
  (0x6AF8, 0x99CE_99CF_99D0_99D1_99D2_99D3_99D4_99D5_99D6_99D7_99D8_99D9),
  (0x6B04, 0x99DA_99DB_99DC_99DD_99DE_99DF_99E0_99E1_99E2_99E3_99E4_99E5),
  (0x6B10, 0x99E6_99E7_99E8_99E9_99EA_99EB_99EC_99ED_99EE_99EF_99F0_99F1),
  (0x6B1C, 0x99F2_99F3_99F4_99F5_C7B7_B4CE_BBB6_D0C0_ECA3_99F6_99F7_C5B7),
  (0x6B28, 0x99F8_99F9_99FA_99FB_99FC_99FD_99FE_9A40_9A41_9A42_D3FB_9A43),
  (0x6B34, 0x9A44_9A45_9A46_ECA4_9A47_ECA5_C6DB_9A48_9A49_9A4A_BFEE_9A4B),
  (0x6B40, 0x9A4C_9A4D_9A4E_ECA6_9A4F_9A50_ECA7_D0AA_9A51_C7B8_9A52_9A53),
  (0x6B4C, 0xB8E8_9A54_9A55_9A56_9A57_9A58_9A59_9A5A_9A5B_9A5C_9A5D_9A5E),
  (0x6B58, 0x9A5F_ECA8_9A60_9A61_9A62_9A63_9A64_9A65_9A66_9A67_D6B9_D5FD),
  (0x6B64, 0xB4CB_B2BD_CEE4_C6E7_9A68_9A69_CDE1_9A6A_9A6B_9A6C_9A6D_9A6E),
  (0x6B70, 0x9A6F_9A70_9A71_9A72_9A73_9A74_9A75_9A76_9A77_B4F5_9A78_CBC0),
  (0x6B7C, 0xBCDF_9A79_9A7A_9A7B_9A7C_E9E2_E9E3_D1EA_E9E5_9A7D_B4F9_E9E4),
  (0x6B88, 0x9A7E_D1B3_CAE2_B2D0_9A80_E9E8_9A81_9A82_9A83_9A84_E9E6_E9E7),
  (0x6B94, 0x9A85_9A86_D6B3_9A87_9A88_9A89_E9E9_E9EA_9A8A_9A8B_9A8C_9A8D),
  (0x6BA0, 0x9A8E_E9EB_9A8F_9A90_9A91_9A92_9A93_9A94_9A95_9A96_E9EC_9A97),
  (0x6BAC, 0x9A98_9A99_9A9A_9A9B_9A9C_9A9D_9A9E_ECAF_C5B9_B6CE_9A9F_D2F3),
  (0x6BB8, 0x9AA0_9AA1_9AA2_9AA3_9AA4_9AA5_9AA6_B5EE_9AA7_BBD9_ECB1_9AA8),
  (0x6BC4, 0x9AA9_D2E3_9AAA_9AAB_9AAC_9AAD_9AAE_CEE3_9AAF_C4B8_9AB0_C3BF),
  (0x6BD0, 0x9AB1_9AB2_B6BE_D8B9_B1C8_B1CF_B1D1_C5FE_9AB3_B1D0_9AB4_C3AB),
  (0x6BDC, 0x9AB5_9AB6_9AB7_9AB8_9AB9_D5B1_9ABA_9ABB_9ABC_9ABD_9ABE_9ABF),
  (0x6BE8, 0x9AC0_9AC1_EBA4_BAC1_9AC2_9AC3_9AC4_CCBA_9AC5_9AC6_9AC7_EBA5),
  (0x6BF4, 0x9AC8_EBA7_9AC9_9ACA_9ACB_EBA8_9ACC_9ACD_9ACE_EBA6_9ACF_9AD0),
  (0x6C00, 0x9AD1_9AD2_9AD3_9AD4_9AD5_EBA9_EBAB_EBAA_9AD6_9AD7_9AD8_9AD9),
  (0x6C0C, 0x9ADA_EBAC_9ADB_CACF_D8B5_C3F1_9ADC_C3A5_C6F8_EBAD_C4CA_9ADD),
  (0x6C18, 0xEBAE_EBAF_EBB0_B7D5_9ADE_9ADF_9AE0_B7FA_9AE1_EBB1_C7E2_9AE2),
  (0x6C24, 0xEBB3_9AE3_BAA4_D1F5_B0B1_EBB2_EBB4_9AE4_9AE5_9AE6_B5AA_C2C8),
  (0x6C30, 0xC7E8_9AE7_EBB5_9AE8_CBAE_E3DF_9AE9_9AEA_D3C0_9AEB_9AEC_9AED),
  (0x6C3C, 0x9AEE_D9DB_9AEF_9AF0_CDA1_D6AD_C7F3_9AF1_9AF2_9AF3_D9E0_BBE3),
  (0x6C48, 0x9AF4_BABA_E3E2_9AF5_9AF6_9AF7_9AF8_9AF9_CFAB_9AFA_9AFB_9AFC),
  (0x6C54, 0xE3E0_C9C7_9AFD_BAB9_9AFE_9B40_9B41_D1B4_E3E1_C8EA_B9AF_BDAD),
  (0x6C60, 0xB3D8_CEDB_9B42_9B43_CCC0_9B44_9B45_9B46_E3E8_E3E9_CDF4_9B47),
  (0x6C6C, 0x9B48_9B49_9B4A_9B4B_CCAD_9B4C_BCB3_9B4D_E3EA_9B4E_E3EB_9B4F),
  (0x6C78, 0x9B50_D0DA_9B51_9B52_9B53_C6FB_B7DA_9B54_9B55_C7DF_D2CA_CED6),
  (0x6C84, 0x9B56_E3E4_E3EC_9B57_C9F2_B3C1_9B58_9B59_E3E7_9B5A_9B5B_C6E3),
  (0x6C90, 0xE3E5_9B5C_9B5D_EDB3_E3E6_9B5E_9B5F_9B60_9B61_C9B3_9B62_C5E6),
  (0x6C9C, 0x9B63_9B64_9B65_B9B5_9B66_C3BB_9B67_E3E3_C5BD_C1A4_C2D9_B2D7),
  (0x6CA8, 0x9B68_E3ED_BBA6_C4AD_9B69_E3F0_BEDA_9B6A_9B6B_E3FB_E3F5_BAD3),
  (0x6CB4, 0x9B6C_9B6D_9B6E_9B6F_B7D0_D3CD_9B70_D6CE_D5D3_B9C1_D5B4_D1D8),
  (0x6CC0, 0x9B71_9B72_9B73_9B74_D0B9_C7F6_9B75_9B76_9B77_C8AA_B2B4_9B78),
  (0x6CCC, 0xC3DA_9B79_9B7A_9B7B_E3EE_9B7C_9B7D_E3FC_E3EF_B7A8_E3F7_E3F4),
  (0x6CD8, 0x9B7E_9B80_9B81_B7BA_9B82_9B83_C5A2_9B84_E3F6_C5DD_B2A8_C6FC),
  (0x6CE4, 0x9B85_C4E0_9B86_9B87_D7A2_9B88_C0E1_E3F9_9B89_9B8A_E3FA_E3FD),
  (0x6CF0, 0xCCA9_E3F3_9B8B_D3BE_9B8C_B1C3_EDB4_E3F1_E3F2_9B8D_E3F8_D0BA),
  (0x6CFC, 0xC6C3_D4F3_E3FE_9B8E_9B8F_BDE0_9B90_9B91_E4A7_9B92_9B93_E4A6),
  (0x6D08, 0x9B94_9B95_9B96_D1F3_E4A3_9B97_E4A9_9B98_9B99_9B9A_C8F7_9B9B),
  (0x6D14, 0x9B9C_9B9D_9B9E_CFB4_9B9F_E4A8_E4AE_C2E5_9BA0_9BA1_B6B4_9BA2),
  (0x6D20, 0x9BA3_9BA4_9BA5_9BA6_9BA7_BDF2_9BA8_E4A2_9BA9_9BAA_BAE9_E4AA),
  (0x6D2C, 0x9BAB_9BAC_E4AC_9BAD_9BAE_B6FD_D6DE_E4B2_9BAF_E4AD_9BB0_9BB1),
  (0x6D38, 0x9BB2_E4A1_9BB3_BBEE_CDDD_C7A2_C5C9_9BB4_9BB5_C1F7_9BB6_E4A4),
  (0x6D44, 0x9BB7_C7B3_BDAC_BDBD_E4A5_9BB8_D7C7_B2E2_9BB9_E4AB_BCC3_E4AF),
  (0x6D50, 0x9BBA_BBEB_E4B0_C5A8_E4B1_9BBB_9BBC_9BBD_9BBE_D5E3_BFA3_9BBF),
  (0x6D5C, 0xE4BA_9BC0_E4B7_9BC1_E4BB_9BC2_9BC3_E4BD_9BC4_9BC5_C6D6_9BC6),
  (0x6D68, 0x9BC7_BAC6_C0CB_9BC8_9BC9_9BCA_B8A1_E4B4_9BCB_9BCC_9BCD_9BCE),
  (0x6D74, 0xD4A1_9BCF_9BD0_BAA3_BDFE_9BD1_9BD2_9BD3_E4BC_9BD4_9BD5_9BD6),
  (0x6D80, 0x9BD7_9BD8_CDBF_9BD9_9BDA_C4F9_9BDB_9BDC_CFFB_C9E6_9BDD_9BDE),
  (0x6D8C, 0xD3BF_9BDF_CFD1_9BE0_9BE1_E4B3_9BE2_E4B8_E4B9_CCE9_9BE3_9BE4),
  (0x6D98, 0x9BE5_9BE6_9BE7_CCCE_9BE8_C0D4_E4B5_C1B0_E4B6_CED0_9BE9_BBC1),
  (0x6DA4, 0xB5D3_9BEA_C8F3_BDA7_D5C7_C9AC_B8A2_E4CA_9BEB_9BEC_E4CC_D1C4),
  (0x6DB0, 0x9BED_9BEE_D2BA_9BEF_9BF0_BAAD_9BF1_9BF2_BAD4_9BF3_9BF4_9BF5),
  (0x6DBC, 0x9BF6_9BF7_9BF8_E4C3_B5ED_9BF9_9BFA_9BFB_D7CD_E4C0_CFFD_E4BF),
  (0x6DC8, 0x9BFC_9BFD_9BFE_C1DC_CCCA_9C40_9C41_9C42_9C43_CAE7_9C44_9C45),
  (0x6DD4, 0x9C46_9C47_C4D7_9C48_CCD4_E4C8_9C49_9C4A_9C4B_E4C7_E4C1_9C4C),
  (0x6DE0, 0xE4C4_B5AD_9C4D_9C4E_D3D9_9C4F_E4C6_9C50_9C51_9C52_9C53_D2F9),
  (0x6DEC, 0xB4E3_9C54_BBB4_9C55_9C56_C9EE_9C57_B4BE_9C58_9C59_9C5A_BBEC),
  (0x6DF8, 0x9C5B_D1CD_9C5C_CCED_EDB5_9C5D_9C5E_9C5F_9C60_9C61_9C62_9C63),
  (0x6E04, 0x9C64_C7E5_9C65_9C66_9C67_9C68_D4A8_9C69_E4CB_D7D5_E4C2_9C6A),
  (0x6E10, 0xBDA5_E4C5_9C6B_9C6C_D3E6_9C6D_E4C9_C9F8_9C6E_9C6F_E4BE_9C70),
  (0x6E1C, 0x9C71_D3E5_9C72_9C73_C7FE_B6C9_9C74_D4FC_B2B3_E4D7_9C75_9C76),
  (0x6E28, 0x9C77_CEC2_9C78_E4CD_9C79_CEBC_9C7A_B8DB_9C7B_9C7C_E4D6_9C7D),
  (0x6E34, 0xBFCA_9C7E_9C80_9C81_D3CE_9C82_C3EC_9C83_9C84_9C85_9C86_9C87),
  (0x6E40, 0x9C88_9C89_9C8A_C5C8_E4D8_9C8B_9C8C_9C8D_9C8E_9C8F_9C90_9C91),
  (0x6E4C, 0x9C92_CDC4_E4CF_9C93_9C94_9C95_9C96_E4D4_E4D5_9C97_BAFE_9C98),
  (0x6E58, 0xCFE6_9C99_9C9A_D5BF_9C9B_9C9C_9C9D_E4D2_9C9E_9C9F_9CA0_9CA1),
  (0x6E64, 0x9CA2_9CA3_9CA4_9CA5_9CA6_9CA7_9CA8_E4D0_9CA9_9CAA_E4CE_9CAB),
  (0x6E70, 0x9CAC_9CAD_9CAE_9CAF_9CB0_9CB1_9CB2_9CB3_9CB4_9CB5_9CB6_9CB7),
  (0x6E7C, 0x9CB8_9CB9_CDE5_CAAA_9CBA_9CBB_9CBC_C0A3_9CBD_BDA6_E4D3_9CBE),
  (0x6E88, 0x9CBF_B8C8_9CC0_9CC1_9CC2_9CC3_9CC4_E4E7_D4B4_9CC5_9CC6_9CC7),
  (0x6E94, 0x9CC8_9CC9_9CCA_9CCB_E4DB_9CCC_9CCD_9CCE_C1EF_9CCF_9CD0_E4E9),
  (0x6EA0, 0x9CD1_9CD2_D2E7_9CD3_9CD4_E4DF_9CD5_E4E0_9CD6_9CD7_CFAA_9CD8),
  (0x6EAC, 0x9CD9_9CDA_9CDB_CBDD_9CDC_E4DA_E4D1_9CDD_E4E5_9CDE_C8DC_E4E3),
  (0x6EB8, 0x9CDF_9CE0_C4E7_E4E2_9CE1_E4E1_9CE2_9CE3_9CE4_B3FC_E4E8_9CE5),
  (0x6EC4, 0x9CE6_9CE7_9CE8_B5E1_9CE9_9CEA_9CEB_D7CC_9CEC_9CED_9CEE_E4E6),
  (0x6ED0, 0x9CEF_BBAC_9CF0_D7D2_CCCF_EBF8_9CF1_E4E4_9CF2_9CF3_B9F6_9CF4),
  (0x6EDC, 0x9CF5_9CF6_D6CD_E4D9_E4DC_C2FA_E4DE_9CF7_C2CB_C0C4_C2D0_9CF8),
  (0x6EE8, 0xB1F5_CCB2_9CF9_9CFA_9CFB_9CFC_9CFD_9CFE_9D40_9D41_9D42_9D43),
  (0x6EF4, 0xB5CE_9D44_9D45_9D46_9D47_E4EF_9D48_9D49_9D4A_9D4B_9D4C_9D4D),
  (0x6F00, 0x9D4E_9D4F_C6AF_9D50_9D51_9D52_C6E1_9D53_9D54_E4F5_9D55_9D56),
  (0x6F0C, 0x9D57_9D58_9D59_C2A9_9D5A_9D5B_9D5C_C0EC_D1DD_E4EE_9D5D_9D5E),
  (0x6F18, 0x9D5F_9D60_9D61_9D62_9D63_9D64_9D65_9D66_C4AE_9D67_9D68_9D69),
  (0x6F24, 0xE4ED_9D6A_9D6B_9D6C_9D6D_E4F6_E4F4_C2FE_9D6E_E4DD_9D6F_E4F0),
  (0x6F30, 0x9D70_CAFE_9D71_D5C4_9D72_9D73_E4F1_9D74_9D75_9D76_9D77_9D78),
  (0x6F3C, 0x9D79_9D7A_D1FA_9D7B_9D7C_9D7D_9D7E_9D80_9D81_9D82_E4EB_E4EC),
  (0x6F48, 0x9D83_9D84_9D85_E4F2_9D86_CEAB_9D87_9D88_9D89_9D8A_9D8B_9D8C),
  (0x6F54, 0x9D8D_9D8E_9D8F_9D90_C5CB_9D91_9D92_9D93_C7B1_9D94_C2BA_9D95),
  (0x6F60, 0x9D96_9D97_E4EA_9D98_9D99_9D9A_C1CA_9D9B_9D9C_9D9D_9D9E_9D9F),
  (0x6F6C, 0x9DA0_CCB6_B3B1_9DA1_9DA2_9DA3_E4FB_9DA4_E4F3_9DA5_9DA6_9DA7),
  (0x6F78, 0xE4FA_9DA8_E4FD_9DA9_E4FC_9DAA_9DAB_9DAC_9DAD_9DAE_9DAF_9DB0),
  (0x6F84, 0xB3CE_9DB1_9DB2_9DB3_B3BA_E4F7_9DB4_9DB5_E4F9_E4F8_C5EC_9DB6),
  (0x6F90, 0x9DB7_9DB8_9DB9_9DBA_9DBB_9DBC_9DBD_9DBE_9DBF_9DC0_9DC1_9DC2),
  (0x6F9C, 0xC0BD_9DC3_9DC4_9DC5_9DC6_D4E8_9DC7_9DC8_9DC9_9DCA_9DCB_E5A2),
  (0x6FA8, 0x9DCC_9DCD_9DCE_9DCF_9DD0_9DD1_9DD2_9DD3_9DD4_9DD5_9DD6_B0C4),
  (0x6FB4, 0x9DD7_9DD8_E5A4_9DD9_9DDA_E5A3_9DDB_9DDC_9DDD_9DDE_9DDF_9DE0),
  (0x6FC0, 0xBCA4_9DE1_E5A5_9DE2_9DE3_9DE4_9DE5_9DE6_9DE7_E5A1_9DE8_9DE9),
  (0x6FCC, 0x9DEA_9DEB_9DEC_9DED_9DEE_E4FE_B1F4_9DEF_9DF0_9DF1_9DF2_9DF3),
  (0x6FD8, 0x9DF4_9DF5_9DF6_9DF7_9DF8_9DF9_E5A8_9DFA_E5A9_E5A6_9DFB_9DFC),
  (0x6FE4, 0x9DFD_9DFE_9E40_9E41_9E42_9E43_9E44_9E45_9E46_9E47_E5A7_E5AA),
  (0x6FF0, 0x9E48_9E49_9E4A_9E4B_9E4C_9E4D_9E4E_9E4F_9E50_9E51_9E52_9E53),
  (0x6FFC, 0x9E54_9E55_9E56_9E57_9E58_9E59_9E5A_9E5B_9E5C_9E5D_9E5E_9E5F),
  (0x7008, 0x9E60_9E61_9E62_9E63_9E64_9E65_9E66_9E67_9E68_C6D9_9E69_9E6A),
  (0x7014, 0x9E6B_9E6C_9E6D_9E6E_9E6F_9E70_E5AB_E5AD_9E71_9E72_9E73_9E74),
  (0x7020, 0x9E75_9E76_9E77_E5AC_9E78_9E79_9E7A_9E7B_9E7C_9E7D_9E7E_9E80),
  (0x702C, 0x9E81_9E82_9E83_9E84_9E85_9E86_9E87_9E88_9E89_E5AF_9E8A_9E8B),
  (0x7038, 0x9E8C_E5AE_9E8D_9E8E_9E8F_9E90_9E91_9E92_9E93_9E94_9E95_9E96),
  (0x7044, 0x9E97_9E98_9E99_9E9A_9E9B_9E9C_9E9D_9E9E_B9E0_9E9F_9EA0_E5B0),
  (0x7050, 0x9EA1_9EA2_9EA3_9EA4_9EA5_9EA6_9EA7_9EA8_9EA9_9EAA_9EAB_9EAC),
  (0x705C, 0x9EAD_9EAE_E5B1_9EAF_9EB0_9EB1_9EB2_9EB3_9EB4_9EB5_9EB6_9EB7),
  (0x7068, 0x9EB8_9EB9_9EBA_BBF0_ECE1_C3F0_9EBB_B5C6_BBD2_9EBC_9EBD_9EBE),
  (0x7074, 0x9EBF_C1E9_D4EE_9EC0_BEC4_9EC1_9EC2_9EC3_D7C6_9EC4_D4D6_B2D3),
  (0x7080, 0xECBE_9EC5_9EC6_9EC7_9EC8_EAC1_9EC9_9ECA_9ECB_C2AF_B4B6_9ECC),
  (0x708C, 0x9ECD_9ECE_D1D7_9ECF_9ED0_9ED1_B3B4_9ED2_C8B2_BFBB_ECC0_9ED3),
  (0x7098, 0x9ED4_D6CB_9ED5_9ED6_ECBF_ECC1_9ED7_9ED8_9ED9_9EDA_9EDB_9EDC),
  (0x70A4, 0x9EDD_9EDE_9EDF_9EE0_9EE1_9EE2_9EE3_ECC5_BEE6_CCBF_C5DA_BEBC),
  (0x70B0, 0x9EE4_ECC6_9EE5_B1FE_9EE6_9EE7_9EE8_ECC4_D5A8_B5E3_9EE9_ECC2),
  (0x70BC, 0xC1B6_B3E3_9EEA_9EEB_ECC3_CBB8_C0C3_CCFE_9EEC_9EED_9EEE_9EEF),
  (0x70C8, 0xC1D2_9EF0_ECC8_9EF1_9EF2_9EF3_9EF4_9EF5_9EF6_9EF7_9EF8_9EF9),
  (0x70D4, 0x9EFA_9EFB_9EFC_9EFD_BAE6_C0D3_9EFE_D6F2_9F40_9F41_9F42_D1CC),
  (0x70E0, 0x9F43_9F44_9F45_9F46_BFBE_9F47_B7B3_C9D5_ECC7_BBE2_9F48_CCCC),
  (0x70EC, 0xBDFD_C8C8_9F49_CFA9_9F4A_9F4B_9F4C_9F4D_9F4E_9F4F_9F50_CDE9),
  (0x70F8, 0x9F51_C5EB_9F52_9F53_9F54_B7E9_9F55_9F56_9F57_9F58_9F59_9F5A),
  (0x7104, 0x9F5B_9F5C_9F5D_9F5E_9F5F_D1C9_BAB8_9F60_9F61_9F62_9F63_9F64),
  (0x7110, 0xECC9_9F65_9F66_ECCA_9F67_BBC0_ECCB_9F68_ECE2_B1BA_B7D9_9F69),
  (0x711C, 0x9F6A_9F6B_9F6C_9F6D_9F6E_9F6F_9F70_9F71_9F72_9F73_BDB9_9F74),
  (0x7128, 0x9F75_9F76_9F77_9F78_9F79_9F7A_9F7B_ECCC_D1E6_ECCD_9F7C_9F7D),
  (0x7134, 0x9F7E_9F80_C8BB_9F81_9F82_9F83_9F84_9F85_9F86_9F87_9F88_9F89),
  (0x7140, 0x9F8A_9F8B_9F8C_9F8D_9F8E_ECD1_9F8F_9F90_9F91_9F92_ECD3_9F93),
  (0x714C, 0xBBCD_9F94_BCE5_9F95_9F96_9F97_9F98_9F99_9F9A_9F9B_9F9C_9F9D),
  (0x7158, 0x9F9E_9F9F_9FA0_9FA1_ECCF_9FA2_C9B7_9FA3_9FA4_9FA5_9FA6_9FA7),
  (0x7164, 0xC3BA_9FA8_ECE3_D5D5_ECD0_9FA9_9FAA_9FAB_9FAC_9FAD_D6F3_9FAE),
  (0x7170, 0x9FAF_9FB0_ECD2_ECCE_9FB1_9FB2_9FB3_9FB4_ECD4_9FB5_ECD5_9FB6),
  (0x717C, 0x9FB7_C9BF_9FB8_9FB9_9FBA_9FBB_9FBC_9FBD_CFA8_9FBE_9FBF_9FC0),
  (0x7188, 0x9FC1_9FC2_D0DC_9FC3_9FC4_9FC5_9FC6_D1AC_9FC7_9FC8_9FC9_9FCA),
  (0x7194, 0xC8DB_9FCB_9FCC_9FCD_ECD6_CEF5_9FCE_9FCF_9FD0_9FD1_9FD2_CAEC),
  (0x71A0, 0xECDA_9FD3_9FD4_9FD5_9FD6_9FD7_9FD8_9FD9_ECD9_9FDA_9FDB_9FDC),
  (0x71AC, 0xB0BE_9FDD_9FDE_9FDF_9FE0_9FE1_9FE2_ECD7_9FE3_ECD8_9FE4_9FE5),
  (0x71B8, 0x9FE6_ECE4_9FE7_9FE8_9FE9_9FEA_9FEB_9FEC_9FED_9FEE_9FEF_C8BC),
  (0x71C4, 0x9FF0_9FF1_9FF2_9FF3_9FF4_9FF5_9FF6_9FF7_9FF8_9FF9_C1C7_9FFA),
  (0x71D0, 0x9FFB_9FFC_9FFD_9FFE_ECDC_D1E0_A040_A041_A042_A043_A044_A045),
  (0x71DC, 0xA046_A047_A048_A049_ECDB_A04A_A04B_A04C_A04D_D4EF_A04E_ECDD),
  (0x71E8, 0xA04F_A050_A051_A052_A053_A054_DBC6_A055_A056_A057_A058_A059),
  (0x71F4, 0xA05A_A05B_A05C_A05D_A05E_ECDE_A05F_A060_A061_A062_A063_A064),
  (0x7200, 0xA065_A066_A067_A068_A069_A06A_B1AC_A06B_A06C_A06D_A06E_A06F),
  (0x720C, 0xA070_A071_A072_A073_A074_A075_A076_A077_A078_A079_A07A_A07B),
  (0x7218, 0xA07C_A07D_A07E_A080_A081_ECDF_A082_A083_A084_A085_A086_A087),
  (0x7224, 0xA088_A089_A08A_A08B_ECE0_A08C_D7A6_A08D_C5C0_A08E_A08F_A090),
  (0x7230, 0xEBBC_B0AE_A091_A092_A093_BEF4_B8B8_D2AF_B0D6_B5F9_A094_D8B3),
  (0x723C, 0xA095_CBAC_A096_E3DD_A097_A098_A099_A09A_A09B_A09C_A09D_C6AC),
  (0x7248, 0xB0E6_A09E_A09F_A0A0_C5C6_EBB9_A0A1_A0A2_A0A3_A0A4_EBBA_A0A5),
  (0x7254, 0xA0A6_A0A7_EBBB_A0A8_A0A9_D1C0_A0AA_C5A3_A0AB_EAF2_A0AC_C4B2),
  (0x7260, 0xA0AD_C4B5_C0CE_A0AE_A0AF_A0B0_EAF3_C4C1_A0B1_CEEF_A0B2_A0B3),
  (0x726C, 0xA0B4_A0B5_EAF0_EAF4_A0B6_A0B7_C9FC_A0B8_A0B9_C7A3_A0BA_A0BB),
  (0x7278, 0xA0BC_CCD8_CEFE_A0BD_A0BE_A0BF_EAF5_EAF6_CFAC_C0E7_A0C0_A0C1),
  (0x7284, 0xEAF7_A0C2_A0C3_A0C4_A0C5_A0C6_B6BF_EAF8_A0C7_EAF9_A0C8_EAFA),
  (0x7290, 0xA0C9_A0CA_EAFB_A0CB_A0CC_A0CD_A0CE_A0CF_A0D0_A0D1_A0D2_A0D3),
  (0x729C, 0xA0D4_A0D5_A0D6_EAF1_A0D7_A0D8_A0D9_A0DA_A0DB_A0DC_A0DD_A0DE),
  (0x72A8, 0xA0DF_A0E0_A0E1_A0E2_C8AE_E1EB_A0E3_B7B8_E1EC_A0E4_A0E5_A0E6),
  (0x72B4, 0xE1ED_A0E7_D7B4_E1EE_E1EF_D3CC_A0E8_A0E9_A0EA_A0EB_A0EC_A0ED),
  (0x72C0, 0xA0EE_E1F1_BFF1_E1F0_B5D2_A0EF_A0F0_A0F1_B1B7_A0F2_A0F3_A0F4),
  (0x72CC, 0xA0F5_E1F3_E1F2_A0F6_BAFC_A0F7_E1F4_A0F8_A0F9_A0FA_A0FB_B9B7),
  (0x72D8, 0xA0FC_BED1_A0FD_A0FE_AA40_AA41_C4FC_AA42_BADD_BDC6_AA43_AA44),
  (0x72E4, 0xAA45_AA46_AA47_AA48_E1F5_E1F7_AA49_AA4A_B6C0_CFC1_CAA8_E1F6),
  (0x72F0, 0xD5F8_D3FC_E1F8_E1FC_E1F9_AA4B_AA4C_E1FA_C0EA_AA4D_E1FE_E2A1),
  (0x72FC, 0xC0C7_AA4E_AA4F_AA50_AA51_E1FB_AA52_E1FD_AA53_AA54_AA55_AA56),
  (0x7308, 0xAA57_AA58_E2A5_AA59_AA5A_AA5B_C1D4_AA5C_AA5D_AA5E_AA5F_E2A3),
  (0x7314, 0xAA60_E2A8_B2FE_E2A2_AA61_AA62_AA63_C3CD_B2C2_E2A7_E2A6_AA64),
  (0x7320, 0xAA65_E2A4_E2A9_AA66_AA67_E2AB_AA68_AA69_AA6A_D0C9_D6ED_C3A8),
  (0x732C, 0xE2AC_AA6B_CFD7_AA6C_AA6D_E2AE_AA6E_AA6F_BAEF_AA70_AA71_E9E0),
  (0x7338, 0xE2AD_E2AA_AA72_AA73_AA74_AA75_BBAB_D4B3_AA76_AA77_AA78_AA79),
  (0x7344, 0xAA7A_AA7B_AA7C_AA7D_AA7E_AA80_AA81_AA82_AA83_E2B0_AA84_AA85),
  (0x7350, 0xE2AF_AA86_E9E1_AA87_AA88_AA89_AA8A_E2B1_AA8B_AA8C_AA8D_AA8E),
  (0x735C, 0xAA8F_AA90_AA91_AA92_E2B2_AA93_AA94_AA95_AA96_AA97_AA98_AA99),
  (0x7368, 0xAA9A_AA9B_AA9C_AA9D_E2B3_CCA1_AA9E_E2B4_AA9F_AAA0_AB40_AB41),
  (0x7374, 0xAB42_AB43_AB44_AB45_AB46_AB47_AB48_AB49_AB4A_AB4B_E2B5_AB4C),
  (0x7380, 0xAB4D_AB4E_AB4F_AB50_D0FE_AB51_AB52_C2CA_AB53_D3F1_AB54_CDF5),
  (0x738C, 0xAB55_AB56_E7E0_AB57_AB58_E7E1_AB59_AB5A_AB5B_AB5C_BEC1_AB5D),
  (0x7398, 0xAB5E_AB5F_AB60_C2EA_AB61_AB62_AB63_E7E4_AB64_AB65_E7E3_AB66),
  (0x73A4, 0xAB67_AB68_AB69_AB6A_AB6B_CDE6_AB6C_C3B5_AB6D_AB6E_E7E2_BBB7),
  (0x73B0, 0xCFD6_AB6F_C1E1_E7E9_AB70_AB71_AB72_E7E8_AB73_AB74_E7F4_B2A3),
  (0x73BC, 0xAB75_AB76_AB77_AB78_E7EA_AB79_E7E6_AB7A_AB7B_AB7C_AB7D_AB7E),
  (0x73C8, 0xE7EC_E7EB_C9BA_AB80_AB81_D5E4_AB82_E7E5_B7A9_E7E7_AB83_AB84),
  (0x73D4, 0xAB85_AB86_AB87_AB88_AB89_E7EE_AB8A_AB8B_AB8C_AB8D_E7F3_AB8E),
  (0x73E0, 0xD6E9_AB8F_AB90_AB91_AB92_E7ED_AB93_E7F2_AB94_E7F1_AB95_AB96),
  (0x73EC, 0xAB97_B0E0_AB98_AB99_AB9A_AB9B_E7F5_AB9C_AB9D_AB9E_AB9F_ABA0),
  (0x73F8, 0xAC40_AC41_AC42_AC43_AC44_AC45_AC46_AC47_AC48_AC49_AC4A_C7F2),
  (0x7404, 0xAC4B_C0C5_C0ED_AC4C_AC4D_C1F0_E7F0_AC4E_AC4F_AC50_AC51_E7F6),
  (0x7410, 0xCBF6_AC52_AC53_AC54_AC55_AC56_AC57_AC58_AC59_AC5A_E8A2_E8A1),
  (0x741C, 0xAC5B_AC5C_AC5D_AC5E_AC5F_AC60_D7C1_AC61_AC62_E7FA_E7F9_AC63),
  (0x7428, 0xE7FB_AC64_E7F7_AC65_E7FE_AC66_E7FD_AC67_E7FC_AC68_AC69_C1D5),
  (0x7434, 0xC7D9_C5FD_C5C3_AC6A_AC6B_AC6C_AC6D_AC6E_C7ED_AC6F_AC70_AC71),
  (0x7440, 0xAC72_E8A3_AC73_AC74_AC75_AC76_AC77_AC78_AC79_AC7A_AC7B_AC7C),
  (0x744C, 0xAC7D_AC7E_AC80_AC81_AC82_AC83_AC84_AC85_AC86_E8A6_AC87_E8A5),
  (0x7458, 0xAC88_E8A7_BAF7_E7F8_E8A4_AC89_C8F0_C9AA_AC8A_AC8B_AC8C_AC8D),
  (0x7464, 0xAC8E_AC8F_AC90_AC91_AC92_AC93_AC94_AC95_AC96_E8A9_AC97_AC98),
  (0x7470, 0xB9E5_AC99_AC9A_AC9B_AC9C_AC9D_D1FE_E8A8_AC9E_AC9F_ACA0_AD40),
  (0x747C, 0xAD41_AD42_E8AA_AD43_E8AD_E8AE_AD44_C1A7_AD45_AD46_AD47_E8AF),
  (0x7488, 0xAD48_AD49_AD4A_E8B0_AD4B_AD4C_E8AC_AD4D_E8B4_AD4E_AD4F_AD50),
  (0x7494, 0xAD51_AD52_AD53_AD54_AD55_AD56_AD57_AD58_E8AB_AD59_E8B1_AD5A),
  (0x74A0, 0xAD5B_AD5C_AD5D_AD5E_AD5F_AD60_AD61_E8B5_E8B2_E8B3_AD62_AD63),
  (0x74AC, 0xAD64_AD65_AD66_AD67_AD68_AD69_AD6A_AD6B_AD6C_AD6D_AD6E_AD6F),
  (0x74B8, 0xAD70_AD71_E8B7_AD72_AD73_AD74_AD75_AD76_AD77_AD78_AD79_AD7A),
  (0x74C4, 0xAD7B_AD7C_AD7D_AD7E_AD80_AD81_AD82_AD83_AD84_AD85_AD86_AD87),
  (0x74D0, 0xAD88_AD89_E8B6_AD8A_AD8B_AD8C_AD8D_AD8E_AD8F_AD90_AD91_AD92),
  (0x74DC, 0xB9CF_AD93_F0AC_AD94_F0AD_AD95_C6B0_B0EA_C8BF_AD96_CDDF_AD97),
  (0x74E8, 0xAD98_AD99_AD9A_AD9B_AD9C_AD9D_CECD_EAB1_AD9E_AD9F_ADA0_AE40),
  (0x74F4, 0xEAB2_AE41_C6BF_B4C9_AE42_AE43_AE44_AE45_AE46_AE47_AE48_EAB3),
  (0x7500, 0xAE49_AE4A_AE4B_AE4C_D5E7_AE4D_AE4E_AE4F_AE50_AE51_AE52_AE53),
  (0x750C, 0xAE54_DDF9_AE55_EAB4_AE56_EAB5_AE57_EAB6_AE58_AE59_AE5A_AE5B),
  (0x7518, 0xB8CA_DFB0_C9F5_AE5C_CCF0_AE5D_AE5E_C9FA_AE5F_AE60_AE61_AE62),
  (0x7524, 0xAE63_C9FB_AE64_AE65_D3C3_CBA6_AE66_B8A6_F0AE_B1C2_AE67_E5B8),
  (0x7530, 0xCCEF_D3C9_BCD7_C9EA_AE68_B5E7_AE69_C4D0_B5E9_AE6A_EEAE_BBAD),
  (0x753C, 0xAE6B_AE6C_E7DE_AE6D_EEAF_AE6E_AE6F_AE70_AE71_B3A9_AE72_AE73),
  (0x7548, 0xEEB2_AE74_AE75_EEB1_BDE7_AE76_EEB0_CEB7_AE77_AE78_AE79_AE7A),
  (0x7554, 0xC5CF_AE7B_AE7C_AE7D_AE7E_C1F4_DBCE_EEB3_D0F3_AE80_AE81_AE82),
  (0x7560, 0xAE83_AE84_AE85_AE86_AE87_C2D4_C6E8_AE88_AE89_AE8A_B7AC_AE8B),
  (0x756C, 0xAE8C_AE8D_AE8E_AE8F_AE90_AE91_EEB4_AE92_B3EB_AE93_AE94_AE95),
  (0x7578, 0xBBFB_EEB5_AE96_AE97_AE98_AE99_AE9A_E7DC_AE9B_AE9C_AE9D_EEB6),
  (0x7584, 0xAE9E_AE9F_BDAE_AEA0_AF40_AF41_AF42_F1E2_AF43_AF44_AF45_CAE8),
  (0x7590, 0xAF46_D2C9_F0DA_AF47_F0DB_AF48_F0DC_C1C6_AF49_B8ED_BECE_AF4A),
  (0x759C, 0xAF4B_F0DE_AF4C_C5B1_F0DD_D1F1_AF4D_F0E0_B0CC_BDEA_AF4E_AF4F),
  (0x75A8, 0xAF50_AF51_AF52_D2DF_F0DF_AF53_B4AF_B7E8_F0E6_F0E5_C6A3_F0E1),
  (0x75B4, 0xF0E2_B4C3_AF54_AF55_F0E3_D5EE_AF56_AF57_CCDB_BED2_BCB2_AF58),
  (0x75C0, 0xAF59_AF5A_F0E8_F0E7_F0E4_B2A1_AF5B_D6A2_D3B8_BEB7_C8AC_AF5C),
  (0x75CC, 0xAF5D_F0EA_AF5E_AF5F_AF60_AF61_D1F7_AF62_D6CC_BADB_F0E9_AF63),
  (0x75D8, 0xB6BB_AF64_AF65_CDB4_AF66_AF67_C6A6_AF68_AF69_AF6A_C1A1_F0EB),
  (0x75E4, 0xF0EE_AF6B_F0ED_F0F0_F0EC_AF6C_BBBE_F0EF_AF6D_AF6E_AF6F_AF70),
  (0x75F0, 0xCCB5_F0F2_AF71_AF72_B3D5_AF73_AF74_AF75_AF76_B1D4_AF77_AF78),
  (0x75FC, 0xF0F3_AF79_AF7A_F0F4_F0F6_B4E1_AF7B_F0F1_AF7C_F0F7_AF7D_AF7E),
  (0x7608, 0xAF80_AF81_F0FA_AF82_F0F8_AF83_AF84_AF85_F0F5_AF86_AF87_AF88),
  (0x7614, 0xAF89_F0FD_AF8A_F0F9_F0FC_F0FE_AF8B_F1A1_AF8C_AF8D_AF8E_CEC1),
  (0x7620, 0xF1A4_AF8F_F1A3_AF90_C1F6_F0FB_CADD_AF91_AF92_B4F1_B1F1_CCB1),
  (0x762C, 0xAF93_F1A6_AF94_AF95_F1A7_AF96_AF97_F1AC_D5CE_F1A9_AF98_AF99),
  (0x7638, 0xC8B3_AF9A_AF9B_AF9C_F1A2_AF9D_F1AB_F1A8_F1A5_AF9E_AF9F_F1AA),
  (0x7644, 0xAFA0_B040_B041_B042_B043_B044_B045_B046_B0A9_F1AD_B047_B048),
  (0x7650, 0xB049_B04A_B04B_B04C_F1AF_B04D_F1B1_B04E_B04F_B050_B051_B052),
  (0x765C, 0xF1B0_B053_F1AE_B054_B055_B056_B057_D1A2_B058_B059_B05A_B05B),
  (0x7668, 0xB05C_B05D_B05E_F1B2_B05F_B060_B061_F1B3_B062_B063_B064_B065),
  (0x7674, 0xB066_B067_B068_B069_B9EF_B06A_B06B_B5C7_B06C_B0D7_B0D9_B06D),
  (0x7680, 0xB06E_B06F_D4ED_B070_B5C4_B071_BDD4_BBCA_F0A7_B072_B073_B8DE),
  (0x768C, 0xB074_B075_F0A8_B076_B077_B0A8_B078_F0A9_B079_B07A_CDEE_B07B),
  (0x7698, 0xB07C_F0AA_B07D_B07E_B080_B081_B082_B083_B084_B085_B086_B087),
  (0x76A4, 0xF0AB_B088_B089_B08A_B08B_B08C_B08D_B08E_B08F_B090_C6A4_B091),
  (0x76B0, 0xB092_D6E5_F1E4_B093_F1E5_B094_B095_B096_B097_B098_B099_B09A),
  (0x76BC, 0xB09B_B09C_B09D_C3F3_B09E_B09F_D3DB_B0A0_B140_D6D1_C5E8_B141),
  (0x76C8, 0xD3AF_B142_D2E6_B143_B144_EEC1_B0BB_D5B5_D1CE_BCE0_BAD0_B145),
  (0x76D4, 0xBFF8_B146_B8C7_B5C1_C5CC_B147_B148_CAA2_B149_B14A_B14B_C3CB),
  (0x76E0, 0xB14C_B14D_B14E_B14F_B150_EEC2_B151_B152_B153_B154_B155_B156),
  (0x76EC, 0xB157_B158_C4BF_B6A2_B159_EDEC_C3A4_B15A_D6B1_B15B_B15C_B15D),
  (0x76F8, 0xCFE0_EDEF_B15E_B15F_C5CE_B160_B6DC_B161_B162_CAA1_B163_B164),
  (0x7704, 0xEDED_B165_B166_EDF0_EDF1_C3BC_B167_BFB4_B168_EDEE_B169_B16A),
  (0x7710, 0xB16B_B16C_B16D_B16E_B16F_B170_B171_B172_B173_EDF4_EDF2_B174),
  (0x771C, 0xB175_B176_B177_D5E6_C3DF_B178_EDF3_B179_B17A_B17B_EDF6_B17C),
  (0x7728, 0xD5A3_D1A3_B17D_B17E_B180_EDF5_B181_C3D0_B182_B183_B184_B185),
  (0x7734, 0xB186_EDF7_BFF4_BEEC_EDF8_B187_CCF7_B188_D1DB_B189_B18A_B18B),
  (0x7740, 0xD7C5_D5F6_B18C_EDFC_B18D_B18E_B18F_EDFB_B190_B191_B192_B193),
  (0x774C, 0xB194_B195_B196_B197_EDF9_EDFA_B198_B199_B19A_B19B_B19C_B19D),
  (0x7758, 0xB19E_B19F_EDFD_BEA6_B1A0_B240_B241_B242_B243_CBAF_EEA1_B6BD),
  (0x7764, 0xB244_EEA2_C4C0_B245_EDFE_B246_B247_BDDE_B2C7_B248_B249_B24A),
  (0x7770, 0xB24B_B24C_B24D_B24E_B24F_B250_B251_B252_B253_B6C3_B254_B255),
  (0x777C, 0xB256_EEA5_D8BA_EEA3_EEA6_B257_B258_B259_C3E9_B3F2_B25A_B25B),
  (0x7788, 0xB25C_B25D_B25E_B25F_EEA7_EEA4_CFB9_B260_B261_EEA8_C2F7_B262),
  (0x7794, 0xB263_B264_B265_B266_B267_B268_B269_B26A_B26B_B26C_B26D_EEA9),
  (0x77A0, 0xEEAA_B26E_DEAB_B26F_B270_C6B3_B271_C7C6_B272_D6F5_B5C9_B273),
  (0x77AC, 0xCBB2_B274_B275_B276_EEAB_B277_B278_CDAB_B279_EEAC_B27A_B27B),
  (0x77B8, 0xB27C_B27D_B27E_D5B0_B280_EEAD_B281_F6C4_B282_B283_B284_B285),
  (0x77C4, 0xB286_B287_B288_B289_B28A_B28B_B28C_B28D_B28E_DBC7_B28F_B290),
  (0x77D0, 0xB291_B292_B293_B294_B295_B296_B297_B4A3_B298_B299_B29A_C3AC),
  (0x77DC, 0xF1E6_B29B_B29C_B29D_B29E_B29F_CAB8_D2D3_B2A0_D6AA_B340_EFF2),
  (0x77E8, 0xB341_BED8_B342_BDC3_EFF3_B6CC_B0AB_B343_B344_B345_B346_CAAF),
  (0x77F4, 0xB347_B348_EDB6_B349_EDB7_B34A_B34B_B34C_B34D_CEF9_B7AF_BFF3),
  (0x7800, 0xEDB8_C2EB_C9B0_B34E_B34F_B350_B351_B352_B353_EDB9_B354_B355),
  (0x780C, 0xC6F6_BFB3_B356_B357_B358_EDBC_C5F8_B359_D1D0_B35A_D7A9_EDBA),
  (0x7818, 0xEDBB_B35B_D1E2_B35C_EDBF_EDC0_B35D_EDC4_B35E_B35F_B360_EDC8),
  (0x7824, 0xB361_EDC6_EDCE_D5E8_B362_EDC9_B363_B364_EDC7_EDBE_B365_B366),
  (0x7830, 0xC5E9_B367_B368_B369_C6C6_B36A_B36B_C9E9_D4D2_EDC1_EDC2_EDC3),
  (0x783C, 0xEDC5_B36C_C0F9_B36D_B4A1_B36E_B36F_B370_B371_B9E8_B372_EDD0),
  (0x7848, 0xB373_B374_B375_B376_EDD1_B377_EDCA_B378_EDCF_B379_CEF8_B37A),
  (0x7854, 0xB37B_CBB6_EDCC_EDCD_B37C_B37D_B37E_B380_B381_CFF5_B382_B383),
  (0x7860, 0xB384_B385_B386_B387_B388_B389_B38A_B38B_B38C_B38D_EDD2_C1F2),
  (0x786C, 0xD3B2_EDCB_C8B7_B38E_B38F_B390_B391_B392_B393_B394_B395_BCEF),
  (0x7878, 0xB396_B397_B398_B399_C5F0_B39A_B39B_B39C_B39D_B39E_B39F_B3A0),
  (0x7884, 0xB440_B441_B442_EDD6_B443_B5EF_B444_B445_C2B5_B0AD_CBE9_B446),
  (0x7890, 0xB447_B1AE_B448_EDD4_B449_B44A_B44B_CDEB_B5E2_B44C_EDD5_EDD3),
  (0x789C, 0xEDD7_B44D_B44E_B5FA_B44F_EDD8_B450_EDD9_B451_EDDC_B452_B1CC),
  (0x78A8, 0xB453_B454_B455_B456_B457_B458_B459_B45A_C5F6_BCEE_EDDA_CCBC),
  (0x78B4, 0xB2EA_B45B_B45C_B45D_B45E_EDDB_B45F_B460_B461_B462_C4EB_B463),
  (0x78C0, 0xB464_B4C5_B465_B466_B467_B0F5_B468_B469_B46A_EDDF_C0DA_B4E8),
  (0x78CC, 0xB46B_B46C_B46D_B46E_C5CD_B46F_B470_B471_EDDD_BFC4_B472_B473),
  (0x78D8, 0xB474_EDDE_B475_B476_B477_B478_B479_B47A_B47B_B47C_B47D_B47E),
  (0x78E4, 0xB480_B481_B482_B483_C4A5_B484_B485_B486_EDE0_B487_B488_B489),
  (0x78F0, 0xB48A_B48B_EDE1_B48C_EDE3_B48D_B48E_C1D7_B48F_B490_BBC7_B491),
  (0x78FC, 0xB492_B493_B494_B495_B496_BDB8_B497_B498_B499_EDE2_B49A_B49B),
  (0x7908, 0xB49C_B49D_B49E_B49F_B4A0_B540_B541_B542_B543_B544_B545_EDE4),
  (0x7914, 0xB546_B547_B548_B549_B54A_B54B_B54C_B54D_B54E_B54F_EDE6_B550),
  (0x7920, 0xB551_B552_B553_B554_EDE5_B555_B556_B557_B558_B559_B55A_B55B),
  (0x792C, 0xB55C_B55D_B55E_B55F_B560_B561_B562_B563_EDE7_B564_B565_B566),
  (0x7938, 0xB567_B568_CABE_ECEA_C0F1_B569_C9E7_B56A_ECEB_C6EE_B56B_B56C),
  (0x7944, 0xB56D_B56E_ECEC_B56F_C6ED_ECED_B570_B571_B572_B573_B574_B575),
  (0x7950, 0xB576_B577_B578_ECF0_B579_B57A_D7E6_ECF3_B57B_B57C_ECF1_ECEE),
  (0x795C, 0xECEF_D7A3_C9F1_CBEE_ECF4_B57D_ECF2_B57E_B580_CFE9_B581_ECF6),
  (0x7968, 0xC6B1_B582_B583_B584_B585_BCC0_B586_ECF5_B587_B588_B589_B58A),
  (0x7974, 0xB58B_B58C_B58D_B5BB_BBF6_B58E_ECF7_B58F_B590_B591_B592_B593),
  (0x7980, 0xD9F7_BDFB_B594_B595_C2BB_ECF8_B596_B597_B598_B599_ECF9_B59A),
  (0x798C, 0xB59B_B59C_B59D_B8A3_B59E_B59F_B5A0_B640_B641_B642_B643_B644),
  (0x7998, 0xB645_B646_ECFA_B647_B648_B649_B64A_B64B_B64C_B64D_B64E_B64F),
  (0x79A4, 0xB650_B651_B652_ECFB_B653_B654_B655_B656_B657_B658_B659_B65A),
  (0x79B0, 0xB65B_B65C_B65D_ECFC_B65E_B65F_B660_B661_B662_D3ED_D8AE_C0EB),
  (0x79BC, 0xB663_C7DD_BACC_B664_D0E3_CBBD_B665_CDBA_B666_B667_B8D1_B668),
  (0x79C8, 0xB669_B1FC_B66A_C7EF_B66B_D6D6_B66C_B66D_B66E_BFC6_C3EB_B66F),
  (0x79D4, 0xB670_EFF5_B671_B672_C3D8_B673_B674_B675_B676_B677_B678_D7E2),
  (0x79E0, 0xB679_B67A_B67B_EFF7_B3D3_B67C_C7D8_D1ED_B67D_D6C8_B67E_EFF8),
  (0x79EC, 0xB680_EFF6_B681_BBFD_B3C6_B682_B683_B684_B685_B686_B687_B688),
  (0x79F8, 0xBDD5_B689_B68A_D2C6_B68B_BBE0_B68C_B68D_CFA1_B68E_EFFC_EFFB),
  (0x7A04, 0xB68F_B690_EFF9_B691_B692_B693_B694_B3CC_B695_C9D4_CBB0_B696),
  (0x7A10, 0xB697_B698_B699_B69A_EFFE_B69B_B69C_B0DE_B69D_B69E_D6C9_B69F),
  (0x7A1C, 0xB6A0_B740_EFFD_B741_B3ED_B742_B743_F6D5_B744_B745_B746_B747),
  (0x7A28, 0xB748_B749_B74A_B74B_B74C_B74D_B74E_B74F_B750_B751_B752_CEC8),
  (0x7A34, 0xB753_B754_B755_F0A2_B756_F0A1_B757_B5BE_BCDA_BBFC_B758_B8E5),
  (0x7A40, 0xB759_B75A_B75B_B75C_B75D_B75E_C4C2_B75F_B760_B761_B762_B763),
  (0x7A4C, 0xB764_B765_B766_B767_B768_F0A3_B769_B76A_B76B_B76C_B76D_CBEB),
  (0x7A58, 0xB76E_B76F_B770_B771_B772_B773_B774_B775_B776_B777_B778_B779),
  (0x7A64, 0xB77A_B77B_B77C_B77D_B77E_B780_B781_B782_B783_B784_B785_B786),
  (0x7A70, 0xF0A6_B787_B788_B789_D1A8_B78A_BEBF_C7EE_F1B6_F1B7_BFD5_B78B),
  (0x7A7C, 0xB78C_B78D_B78E_B4A9_F1B8_CDBB_B78F_C7D4_D5AD_B790_F1B9_B791),
  (0x7A88, 0xF1BA_B792_B793_B794_B795_C7CF_B796_B797_B798_D2A4_D6CF_B799),
  (0x7A94, 0xB79A_F1BB_BDD1_B4B0_BEBD_B79B_B79C_B79D_B4DC_CED1_B79E_BFDF),
  (0x7AA0, 0xF1BD_B79F_B7A0_B840_B841_BFFA_F1BC_B842_F1BF_B843_B844_B845),
  (0x7AAC, 0xF1BE_F1C0_B846_B847_B848_B849_B84A_F1C1_B84B_B84C_B84D_B84E),
  (0x7AB8, 0xB84F_B850_B851_B852_B853_B854_B855_C1FE_B856_B857_B858_B859),
  (0x7AC4, 0xB85A_B85B_B85C_B85D_B85E_B85F_B860_C1A2_B861_B862_B863_B864),
  (0x7AD0, 0xB865_B866_B867_B868_B869_B86A_CAFA_B86B_B86C_D5BE_B86D_B86E),
  (0x7ADC, 0xB86F_B870_BEBA_BEB9_D5C2_B871_B872_BFA2_B873_CDAF_F1B5_B874),
  (0x7AE8, 0xB875_B876_B877_B878_B879_BDDF_B87A_B6CB_B87B_B87C_B87D_B87E),
  (0x7AF4, 0xB880_B881_B882_B883_B884_D6F1_F3C3_B885_B886_F3C4_B887_B8CD),
  (0x7B00, 0xB888_B889_B88A_F3C6_F3C7_B88B_B0CA_B88C_F3C5_B88D_F3C9_CBF1),
  (0x7B0C, 0xB88E_B88F_B890_F3CB_B891_D0A6_B892_B893_B1CA_F3C8_B894_B895),
  (0x7B18, 0xB896_F3CF_B897_B5D1_B898_B899_F3D7_B89A_F3D2_B89B_B89C_B89D),
  (0x7B24, 0xF3D4_F3D3_B7FB_B89E_B1BF_B89F_F3CE_F3CA_B5DA_B8A0_F3D0_B940),
  (0x7B30, 0xB941_F3D1_B942_F3D5_B943_B944_B945_B946_F3CD_B947_BCE3_B948),
  (0x7B3C, 0xC1FD_B949_F3D6_B94A_B94B_B94C_B94D_B94E_B94F_F3DA_B950_F3CC),
  (0x7B48, 0xB951_B5C8_B952_BDEE_F3DC_B953_B954_B7A4_BFF0_D6FE_CDB2_B955),
  (0x7B54, 0xB4F0_B956_B2DF_B957_F3D8_B958_F3D9_C9B8_B959_F3DD_B95A_B95B),
  (0x7B60, 0xF3DE_B95C_F3E1_B95D_B95E_B95F_B960_B961_B962_B963_B964_B965),
  (0x7B6C, 0xB966_B967_F3DF_B968_B969_F3E3_F3E2_B96A_B96B_F3DB_B96C_BFEA),
  (0x7B78, 0xB96D_B3EF_B96E_F3E0_B96F_B970_C7A9_B971_BCF2_B972_B973_B974),
  (0x7B84, 0xB975_F3EB_B976_B977_B978_B979_B97A_B97B_B97C_B9BF_B97D_B97E),
  (0x7B90, 0xF3E4_B980_B981_B982_B2AD_BBFE_B983_CBE3_B984_B985_B986_B987),
  (0x7B9C, 0xF3ED_F3E9_B988_B989_B98A_B9DC_F3EE_B98B_B98C_B98D_F3E5_F3E6),
  (0x7BA8, 0xF3EA_C2E1_F3EC_F3EF_F3E8_BCFD_B98E_B98F_B990_CFE4_B991_B992),
  (0x7BB4, 0xF3F0_B993_B994_B995_F3E7_B996_B997_B998_B999_B99A_B99B_B99C),
  (0x7BC0, 0xB99D_F3F2_B99E_B99F_B9A0_BA40_D7AD_C6AA_BA41_BA42_BA43_BA44),
  (0x7BCC, 0xF3F3_BA45_BA46_BA47_BA48_F3F1_BA49_C2A8_BA4A_BA4B_BA4C_BA4D),
  (0x7BD8, 0xBA4E_B8DD_F3F5_BA4F_BA50_F3F4_BA51_BA52_BA53_B4DB_BA54_BA55),
  (0x7BE4, 0xBA56_F3F6_F3F7_BA57_BA58_BA59_F3F8_BA5A_BA5B_BA5C_C0BA_BA5D),
  (0x7BF0, 0xBA5E_C0E9_BA5F_BA60_BA61_BA62_BA63_C5F1_BA64_BA65_BA66_BA67),
  (0x7BFC, 0xF3FB_BA68_F3FA_BA69_BA6A_BA6B_BA6C_BA6D_BA6E_BA6F_BA70_B4D8),
  (0x7C08, 0xBA71_BA72_BA73_F3FE_F3F9_BA74_BA75_F3FC_BA76_BA77_BA78_BA79),
  (0x7C14, 0xBA7A_BA7B_F3FD_BA7C_BA7D_BA7E_BA80_BA81_BA82_BA83_BA84_F4A1),
  (0x7C20, 0xBA85_BA86_BA87_BA88_BA89_BA8A_F4A3_BBC9_BA8B_BA8C_F4A2_BA8D),
  (0x7C2C, 0xBA8E_BA8F_BA90_BA91_BA92_BA93_BA94_BA95_BA96_BA97_BA98_BA99),
  (0x7C38, 0xF4A4_BA9A_BA9B_BA9C_BA9D_BA9E_BA9F_B2BE_F4A6_F4A5_BAA0_BB40),
  (0x7C44, 0xBB41_BB42_BB43_BB44_BB45_BB46_BB47_BB48_BB49_BCAE_BB4A_BB4B),
  (0x7C50, 0xBB4C_BB4D_BB4E_BB4F_BB50_BB51_BB52_BB53_BB54_BB55_BB56_BB57),
  (0x7C5C, 0xBB58_BB59_BB5A_BB5B_BB5C_BB5D_BB5E_BB5F_BB60_BB61_BB62_BB63),
  (0x7C68, 0xBB64_BB65_BB66_BB67_BB68_BB69_BB6A_BB6B_BB6C_BB6D_BB6E_C3D7),
  (0x7C74, 0xD9E1_BB6F_BB70_BB71_BB72_BB73_BB74_C0E0_F4CC_D7D1_BB75_BB76),
  (0x7C80, 0xBB77_BB78_BB79_BB7A_BB7B_BB7C_BB7D_BB7E_BB80_B7DB_BB81_BB82),
  (0x7C8C, 0xBB83_BB84_BB85_BB86_BB87_F4CE_C1A3_BB88_BB89_C6C9_BB8A_B4D6),
  (0x7C98, 0xD5B3_BB8B_BB8C_BB8D_F4D0_F4CF_F4D1_CBDA_BB8E_BB8F_F4D2_BB90),
  (0x7CA4, 0xD4C1_D6E0_BB91_BB92_BB93_BB94_B7E0_BB95_BB96_BB97_C1B8_BB98),
  (0x7CB0, 0xBB99_C1BB_F4D3_BEAC_BB9A_BB9B_BB9C_BB9D_BB9E_B4E2_BB9F_BBA0),
  (0x7CBC, 0xF4D4_F4D5_BEAB_BC40_BC41_F4D6_BC42_BC43_BC44_F4DB_BC45_F4D7),
  (0x7CC8, 0xF4DA_BC46_BAFD_BC47_F4D8_F4D9_BC48_BC49_BC4A_BC4B_BC4C_BC4D),
  (0x7CD4, 0xBC4E_B8E2_CCC7_F4DC_BC4F_B2DA_BC50_BC51_C3D3_BC52_BC53_D4E3),
  (0x7CE0, 0xBFB7_BC54_BC55_BC56_BC57_BC58_BC59_BC5A_F4DD_BC5B_BC5C_BC5D),
  (0x7CEC, 0xBC5E_BC5F_BC60_C5B4_BC61_BC62_BC63_BC64_BC65_BC66_BC67_BC68),
  (0x7CF8, 0xF4E9_BC69_BC6A_CFB5_BC6B_BC6C_BC6D_BC6E_BC6F_BC70_BC71_BC72),
  (0x7D04, 0xBC73_BC74_BC75_BC76_BC77_BC78_CEC9_BC79_BC7A_BC7B_BC7C_BC7D),
  (0x7D10, 0xBC7E_BC80_BC81_BC82_BC83_BC84_BC85_BC86_BC87_BC88_BC89_BC8A),
  (0x7D1C, 0xBC8B_BC8C_BC8D_BC8E_CBD8_BC8F_CBF7_BC90_BC91_BC92_BC93_BDF4),
  (0x7D28, 0xBC94_BC95_BC96_D7CF_BC97_BC98_BC99_C0DB_BC9A_BC9B_BC9C_BC9D),
  (0x7D34, 0xBC9E_BC9F_BCA0_BD40_BD41_BD42_BD43_BD44_BD45_BD46_BD47_BD48),
  (0x7D40, 0xBD49_BD4A_BD4B_BD4C_BD4D_BD4E_BD4F_BD50_BD51_BD52_BD53_BD54),
  (0x7D4C, 0xBD55_BD56_BD57_BD58_BD59_BD5A_BD5B_BD5C_BD5D_BD5E_BD5F_BD60),
  (0x7D58, 0xBD61_BD62_BD63_BD64_BD65_BD66_BD67_BD68_BD69_BD6A_BD6B_BD6C),
  (0x7D64, 0xBD6D_BD6E_BD6F_BD70_BD71_BD72_BD73_BD74_BD75_BD76_D0F5_BD77),
  (0x7D70, 0xBD78_BD79_BD7A_BD7B_BD7C_BD7D_BD7E_F4EA_BD80_BD81_BD82_BD83),
  (0x7D7C, 0xBD84_BD85_BD86_BD87_BD88_BD89_BD8A_BD8B_BD8C_BD8D_BD8E_BD8F),
  (0x7D88, 0xBD90_BD91_BD92_BD93_BD94_BD95_BD96_BD97_BD98_BD99_BD9A_BD9B),
  (0x7D94, 0xBD9C_BD9D_BD9E_BD9F_BDA0_BE40_BE41_BE42_BE43_BE44_BE45_BE46),
  (0x7DA0, 0xBE47_BE48_BE49_BE4A_BE4B_BE4C_F4EB_BE4D_BE4E_BE4F_BE50_BE51),
  (0x7DAC, 0xBE52_BE53_F4EC_BE54_BE55_BE56_BE57_BE58_BE59_BE5A_BE5B_BE5C),
  (0x7DB8, 0xBE5D_BE5E_BE5F_BE60_BE61_BE62_BE63_BE64_BE65_BE66_BE67_BE68),
  (0x7DC4, 0xBE69_BE6A_BE6B_BE6C_BE6D_BE6E_BE6F_BE70_BE71_BE72_BE73_BE74),
  (0x7DD0, 0xBE75_BE76_BE77_BE78_BE79_BE7A_BE7B_BE7C_BE7D_BE7E_BE80_BE81),
  (0x7DDC, 0xBE82_BE83_BE84_BE85_BE86_BE87_BE88_BE89_BE8A_BE8B_BE8C_BE8D),
  (0x7DE8, 0xBE8E_BE8F_BE90_BE91_BE92_BE93_BE94_BE95_BE96_BE97_BE98_BE99),
  (0x7DF4, 0xBE9A_BE9B_BE9C_BE9D_BE9E_BE9F_BEA0_BF40_BF41_BF42_BF43_BF44),
  (0x7E00, 0xBF45_BF46_BF47_BF48_BF49_BF4A_BF4B_BF4C_BF4D_BF4E_BF4F_BF50),
  (0x7E0C, 0xBF51_BF52_BF53_BF54_BF55_BF56_BF57_BF58_BF59_BF5A_BF5B_BF5C),
  (0x7E18, 0xBF5D_BF5E_BF5F_BF60_BF61_BF62_BF63_BF64_BF65_BF66_BF67_BF68),
  (0x7E24, 0xBF69_BF6A_BF6B_BF6C_BF6D_BF6E_BF6F_BF70_BF71_BF72_BF73_BF74),
  (0x7E30, 0xBF75_BF76_BF77_BF78_BF79_BF7A_BF7B_BF7C_BF7D_BF7E_BF80_F7E3),
  (0x7E3C, 0xBF81_BF82_BF83_BF84_BF85_B7B1_BF86_BF87_BF88_BF89_BF8A_F4ED),
  (0x7E48, 0xBF8B_BF8C_BF8D_BF8E_BF8F_BF90_BF91_BF92_BF93_BF94_BF95_BF96),
  (0x7E54, 0xBF97_BF98_BF99_BF9A_BF9B_BF9C_BF9D_BF9E_BF9F_BFA0_C040_C041),
  (0x7E60, 0xC042_C043_C044_C045_C046_C047_C048_C049_C04A_C04B_C04C_C04D),
  (0x7E6C, 0xC04E_C04F_C050_C051_C052_C053_C054_C055_C056_C057_C058_C059),
  (0x7E78, 0xC05A_C05B_C05C_C05D_C05E_C05F_C060_C061_C062_C063_D7EB_C064),
  (0x7E84, 0xC065_C066_C067_C068_C069_C06A_C06B_C06C_C06D_C06E_C06F_C070),
  (0x7E90, 0xC071_C072_C073_C074_C075_C076_C077_C078_C079_C07A_C07B_F4EE),
  (0x7E9C, 0xC07C_C07D_C07E_E6F9_BEC0_E6FA_BAEC_E6FB_CFCB_E6FC_D4BC_BCB6),
  (0x7EA8, 0xE6FD_E6FE_BCCD_C8D2_CEB3_E7A1_C080_B4BF_E7A2_C9B4_B8D9_C4C9),
  (0x7EB4, 0xC081_D7DD_C2DA_B7D7_D6BD_CEC6_B7C4_C082_C083_C5A6_E7A3_CFDF),
  (0x7EC0, 0xE7A4_E7A5_E7A6_C1B7_D7E9_C9F0_CFB8_D6AF_D6D5_E7A7_B0ED_E7A8),
  (0x7ECC, 0xE7A9_C9DC_D2EF_BEAD_E7AA_B0F3_C8DE_BDE1_E7AB_C8C6_C084_E7AC),
  (0x7ED8, 0xBBE6_B8F8_D1A4_E7AD_C2E7_BEF8_BDCA_CDB3_E7AE_E7AF_BEEE_D0E5),
  (0x7EE4, 0xC085_CBE7_CCD0_BCCC_E7B0_BCA8_D0F7_E7B1_C086_D0F8_E7B2_E7B3),
  (0x7EF0, 0xB4C2_E7B4_E7B5_C9FE_CEAC_C3E0_E7B7_B1C1_B3F1_C087_E7B8_E7B9),
  (0x7EFC, 0xD7DB_D5C0_E7BA_C2CC_D7BA_E7BB_E7BC_E7BD_BCEA_C3E5_C0C2_E7BE),
  (0x7F08, 0xE7BF_BCA9_C088_E7C0_E7C1_E7B6_B6D0_E7C2_C089_E7C3_E7C4_BBBA),
  (0x7F14, 0xB5DE_C2C6_B1E0_E7C5_D4B5_E7C6_B8BF_E7C8_E7C7_B7EC_C08A_E7C9),
  (0x7F20, 0xB2F8_E7CA_E7CB_E7CC_E7CD_E7CE_E7CF_E7D0_D3A7_CBF5_E7D1_E7D2),
  (0x7F2C, 0xE7D3_E7D4_C9C9_E7D5_E7D6_E7D7_E7D8_E7D9_BDC9_E7DA_F3BE_C08B),
  (0x7F38, 0xB8D7_C08C_C8B1_C08D_C08E_C08F_C090_C091_C092_C093_F3BF_C094),
  (0x7F44, 0xF3C0_F3C1_C095_C096_C097_C098_C099_C09A_C09B_C09C_C09D_C09E),
  (0x7F50, 0xB9DE_CDF8_C09F_C0A0_D8E8_BAB1_C140_C2DE_EEB7_C141_B7A3_C142),
  (0x7F5C, 0xC143_C144_C145_EEB9_C146_EEB8_B0D5_C147_C148_C149_C14A_C14B),
  (0x7F68, 0xEEBB_D5D6_D7EF_C14C_C14D_C14E_D6C3_C14F_C150_EEBD_CAF0_C151),
  (0x7F74, 0xEEBC_C152_C153_C154_C155_EEBE_C156_C157_C158_C159_EEC0_C15A),
  (0x7F80, 0xC15B_EEBF_C15C_C15D_C15E_C15F_C160_C161_C162_C163_D1F2_C164),
  (0x7F8C, 0xC7BC_C165_C3C0_C166_C167_C168_C169_C16A_B8E1_C16B_C16C_C16D),
  (0x7F98, 0xC16E_C16F_C1E7_C170_C171_F4C6_D0DF_F4C7_C172_CFDB_C173_C174),
  (0x7FA4, 0xC8BA_C175_C176_F4C8_C177_C178_C179_C17A_C17B_C17C_C17D_F4C9),
  (0x7FB0, 0xF4CA_C17E_F4CB_C180_C181_C182_C183_C184_D9FA_B8FE_C185_C186),
  (0x7FBC, 0xE5F1_D3F0_C187_F4E0_C188_CECC_C189_C18A_C18B_B3E1_C18C_C18D),
  (0x7FC8, 0xC18E_C18F_F1B4_C190_D2EE_C191_F4E1_C192_C193_C194_C195_C196),
  (0x7FD4, 0xCFE8_F4E2_C197_C198_C7CC_C199_C19A_C19B_C19C_C19D_C19E_B5D4),
  (0x7FE0, 0xB4E4_F4E4_C19F_C1A0_C240_F4E3_F4E5_C241_C242_F4E6_C243_C244),
  (0x7FEC, 0xC245_C246_F4E7_C247_BAB2_B0BF_C248_F4E8_C249_C24A_C24B_C24C),
  (0x7FF8, 0xC24D_C24E_C24F_B7AD_D2ED_C250_C251_C252_D2AB_C0CF_C253_BFBC),
  (0x8004, 0xEBA3_D5DF_EAC8_C254_C255_C256_C257_F1F3_B6F8_CBA3_C258_C259),
  (0x8010, 0xC4CD_C25A_F1E7_C25B_F1E8_B8FB_F1E9_BAC4_D4C5_B0D2_C25C_C25D),
  (0x801C, 0xF1EA_C25E_C25F_C260_F1EB_C261_F1EC_C262_C263_F1ED_F1EE_F1EF),
  (0x8028, 0xF1F1_F1F0_C5D5_C264_C265_C266_C267_C268_C269_F1F2_C26A_B6FA),
  (0x8034, 0xC26B_F1F4_D2AE_DEC7_CBCA_C26C_C26D_B3DC_C26E_B5A2_C26F_B9A2),
  (0x8040, 0xC270_C271_C4F4_F1F5_C272_C273_F1F6_C274_C275_C276_C1C4_C1FB),
  (0x804C, 0xD6B0_F1F7_C277_C278_C279_C27A_F1F8_C27B_C1AA_C27C_C27D_C27E),
  (0x8058, 0xC6B8_C280_BEDB_C281_C282_C283_C284_C285_C286_C287_C288_C289),
  (0x8064, 0xC28A_C28B_C28C_C28D_C28E_F1F9_B4CF_C28F_C290_C291_C292_C293),
  (0x8070, 0xC294_F1FA_C295_C296_C297_C298_C299_C29A_C29B_C29C_C29D_C29E),
  (0x807C, 0xC29F_C2A0_C340_EDB2_EDB1_C341_C342_CBE0_D2DE_C343_CBC1_D5D8),
  (0x8088, 0xC344_C8E2_C345_C0DF_BCA1_C346_C347_C348_C349_C34A_C34B_EBC1),
  (0x8094, 0xC34C_C34D_D0A4_C34E_D6E2_C34F_B6C7_B8D8_EBC0_B8CE_C350_EBBF),
  (0x80A0, 0xB3A6_B9C9_D6AB_C351_B7F4_B7CA_C352_C353_C354_BCE7_B7BE_EBC6),
  (0x80AC, 0xC355_EBC7_B0B9_BFCF_C356_EBC5_D3FD_C357_EBC8_C358_C359_EBC9),
  (0x80B8, 0xC35A_C35B_B7CE_C35C_EBC2_EBC4_C9F6_D6D7_D5CD_D0B2_EBCF_CEB8),
  (0x80C4, 0xEBD0_C35D_B5A8_C35E_C35F_C360_C361_C362_B1B3_EBD2_CCA5_C363),
  (0x80D0, 0xC364_C365_C366_C367_C368_C369_C5D6_EBD3_C36A_EBD1_C5DF_EBCE),
  (0x80DC, 0xCAA4_EBD5_B0FB_C36B_C36C_BAFA_C36D_C36E_D8B7_F1E3_C36F_EBCA),
  (0x80E8, 0xEBCB_EBCC_EBCD_EBD6_E6C0_EBD9_C370_BFE8_D2C8_EBD7_EBDC_B8EC),
  (0x80F4, 0xEBD8_C371_BDBA_C372_D0D8_C373_B0B7_C374_EBDD_C4DC_C375_C376),
  (0x8100, 0xC377_C378_D6AC_C379_C37A_C37B_B4E0_C37C_C37D_C2F6_BCB9_C37E),
  (0x810C, 0xC380_EBDA_EBDB_D4E0_C6EA_C4D4_EBDF_C5A7_D9F5_C381_B2B1_C382),
  (0x8118, 0xEBE4_C383_BDC5_C384_C385_C386_EBE2_C387_C388_C389_C38A_C38B),
  (0x8124, 0xC38C_C38D_C38E_C38F_C390_C391_C392_C393_EBE3_C394_C395_B8AC),
  (0x8130, 0xC396_CDD1_EBE5_C397_C398_C399_EBE1_C39A_C1B3_C39B_C39C_C39D),
  (0x813C, 0xC39E_C39F_C6A2_C3A0_C440_C441_C442_C443_C444_C445_CCF3_C446),
  (0x8148, 0xEBE6_C447_C0B0_D2B8_EBE7_C448_C449_C44A_B8AF_B8AD_C44B_EBE8),
  (0x8154, 0xC7BB_CDF3_C44C_C44D_C44E_EBEA_EBEB_C44F_C450_C451_C452_C453),
  (0x8160, 0xEBED_C454_C455_C456_C457_D0C8_C458_EBF2_C459_EBEE_C45A_C45B),
  (0x816C, 0xC45C_EBF1_C8F9_C45D_D1FC_EBEC_C45E_C45F_EBE9_C460_C461_C462),
  (0x8178, 0xC463_B8B9_CFD9_C4E5_EBEF_EBF0_CCDA_CDC8_B0F2_C464_EBF6_C465),
  (0x8184, 0xC466_C467_C468_C469_EBF5_C46A_B2B2_C46B_C46C_C46D_C46E_B8E0),
  (0x8190, 0xC46F_EBF7_C470_C471_C472_C473_C474_C475_B1EC_C476_C477_CCC5),
  (0x819C, 0xC4A4_CFA5_C478_C479_C47A_C47B_C47C_EBF9_C47D_C47E_ECA2_C480),
  (0x81A8, 0xC5F2_C481_EBFA_C482_C483_C484_C485_C486_C487_C488_C489_C9C5),
  (0x81B4, 0xC48A_C48B_C48C_C48D_C48E_C48F_E2DF_EBFE_C490_C491_C492_C493),
  (0x81C0, 0xCDCE_ECA1_B1DB_D3B7_C494_C495_D2DC_C496_C497_C498_EBFD_C499),
  (0x81CC, 0xEBFB_C49A_C49B_C49C_C49D_C49E_C49F_C4A0_C540_C541_C542_C543),
  (0x81D8, 0xC544_C545_C546_C547_C548_C549_C54A_C54B_C54C_C54D_C54E_B3BC),
  (0x81E4, 0xC54F_C550_C551_EAB0_C552_C553_D7D4_C554_F4AB_B3F4_C555_C556),
  (0x81F0, 0xC557_C558_C559_D6C1_D6C2_C55A_C55B_C55C_C55D_C55E_C55F_D5E9),
  (0x81FC, 0xBECA_C560_F4A7_C561_D2A8_F4A8_F4A9_C562_F4AA_BECB_D3DF_C563),
  (0x8208, 0xC564_C565_C566_C567_C9E0_C9E1_C568_C569_F3C2_C56A_CAE6_C56B),
  (0x8214, 0xCCF2_C56C_C56D_C56E_C56F_C570_C571_E2B6_CBB4_C572_CEE8_D6DB),
  (0x8220, 0xC573_F4AD_F4AE_F4AF_C574_C575_C576_C577_F4B2_C578_BABD_F4B3),
  (0x822C, 0xB0E3_F4B0_C579_F4B1_BDA2_B2D5_C57A_F4B6_F4B7_B6E6_B2B0_CFCF),
  (0x8238, 0xF4B4_B4AC_C57B_F4B5_C57C_C57D_F4B8_C57E_C580_C581_C582_C583),
  (0x8244, 0xF4B9_C584_C585_CDA7_C586_F4BA_C587_F4BB_C588_C589_C58A_F4BC),
  (0x8250, 0xC58B_C58C_C58D_C58E_C58F_C590_C591_C592_CBD2_C593_F4BD_C594),
  (0x825C, 0xC595_C596_C597_F4BE_C598_C599_C59A_C59B_C59C_C59D_C59E_C59F),
  (0x8268, 0xF4BF_C5A0_C640_C641_C642_C643_F4DE_C1BC_BCE8_C644_C9AB_D1DE),
  (0x8274, 0xE5F5_C645_C646_C647_C648_DCB3_D2D5_C649_C64A_DCB4_B0AC_DCB5),
  (0x8280, 0xC64B_C64C_BDDA_C64D_DCB9_C64E_C64F_C650_D8C2_C651_DCB7_D3F3),
  (0x828C, 0xC652_C9D6_DCBA_DCB6_C653_DCBB_C3A2_C654_C655_C656_C657_DCBC),
  (0x8298, 0xDCC5_DCBD_C658_C659_CEDF_D6A5_C65A_DCCF_C65B_DCCD_C65C_C65D),
  (0x82A4, 0xDCD2_BDE6_C2AB_C65E_DCB8_DCCB_DCCE_DCBE_B7D2_B0C5_DCC7_D0BE),
  (0x82B0, 0xDCC1_BBA8_C65F_B7BC_DCCC_C660_C661_DCC6_DCBF_C7DB_C662_C663),
  (0x82BC, 0xC664_D1BF_DCC0_C665_C666_DCCA_C667_C668_DCD0_C669_C66A_CEAD),
  (0x82C8, 0xDCC2_C66B_DCC3_DCC8_DCC9_B2D4_DCD1_CBD5_C66C_D4B7_DCDB_DCDF),
  (0x82D4, 0xCCA6_DCE6_C66D_C3E7_DCDC_C66E_C66F_BFC1_DCD9_C670_B0FA_B9B6),
  (0x82E0, 0xDCE5_DCD3_C671_DCC4_DCD6_C8F4_BFE0_C672_C673_C674_C675_C9BB),
  (0x82EC, 0xC676_C677_C678_B1BD_C679_D3A2_C67A_C67B_DCDA_C67C_C67D_DCD5),
  (0x82F8, 0xC67E_C6BB_C680_DCDE_C681_C682_C683_C684_C685_D7C2_C3AF_B7B6),
  (0x8304, 0xC7D1_C3A9_DCE2_DCD8_DCEB_DCD4_C686_C687_DCDD_C688_BEA5_DCD7),
  (0x8310, 0xC689_DCE0_C68A_C68B_DCE3_DCE4_C68C_DCF8_C68D_C68E_DCE1_DDA2),
  (0x831C, 0xDCE7_C68F_C690_C691_C692_C693_C694_C695_C696_C697_C698_BCEB),
  (0x8328, 0xB4C4_C699_C69A_C3A3_B2E7_DCFA_C69B_DCF2_C69C_DCEF_C69D_DCFC),
  (0x8334, 0xDCEE_D2F0_B2E8_C69E_C8D7_C8E3_DCFB_C69F_DCED_C6A0_C740_C741),
  (0x8340, 0xDCF7_C742_C743_DCF5_C744_C745_BEA3_DCF4_C746_B2DD_C747_C748),
  (0x834C, 0xC749_C74A_C74B_DCF3_BCF6_DCE8_BBC4_C74C_C0F3_C74D_C74E_C74F),
  (0x8358, 0xC750_C751_BCD4_DCE9_DCEA_C752_DCF1_DCF6_DCF9_B5B4_C753_C8D9),
  (0x8364, 0xBBE7_DCFE_DCFD_D3AB_DDA1_DDA3_DDA5_D2F1_DDA4_DDA6_DDA7_D2A9),
  (0x8370, 0xC754_C755_C756_C757_C758_C759_C75A_BAC9_DDA9_C75B_C75C_DDB6),
  (0x837C, 0xDDB1_DDB4_C75D_C75E_C75F_C760_C761_C762_C763_DDB0_C6CE_C764),
  (0x8388, 0xC765_C0F2_C766_C767_C768_C769_C9AF_C76A_C76B_C76C_DCEC_DDAE),
  (0x8394, 0xC76D_C76E_C76F_C770_DDB7_C771_C772_DCF0_DDAF_C773_DDB8_C774),
  (0x83A0, 0xDDAC_C775_C776_C777_C778_C779_C77A_C77B_DDB9_DDB3_DDAD_C4AA),
  (0x83AC, 0xC77C_C77D_C77E_C780_DDA8_C0B3_C1AB_DDAA_DDAB_C781_DDB2_BBF1),
  (0x83B8, 0xDDB5_D3A8_DDBA_C782_DDBB_C3A7_C783_C784_DDD2_DDBC_C785_C786),
  (0x83C4, 0xC787_DDD1_C788_B9BD_C789_C78A_BED5_C78B_BEFA_C78C_C78D_BACA),
  (0x83D0, 0xC78E_C78F_C790_C791_DDCA_C792_DDC5_C793_DDBF_C794_C795_C796),
  (0x83DC, 0xB2CB_DDC3_C797_DDCB_B2A4_DDD5_C798_C799_C79A_DDBE_C79B_C79C),
  (0x83E8, 0xC79D_C6D0_DDD0_C79E_C79F_C7A0_C840_C841_DDD4_C1E2_B7C6_C842),
  (0x83F4, 0xC843_C844_C845_C846_DDCE_DDCF_C847_C848_C849_DDC4_C84A_C84B),
  (0x8400, 0xC84C_DDBD_C84D_DDCD_CCD1_C84E_DDC9_C84F_C850_C851_C852_DDC2),
  (0x840C, 0xC3C8_C6BC_CEAE_DDCC_C853_DDC8_C854_C855_C856_C857_C858_C859),
  (0x8418, 0xDDC1_C85A_C85B_C85C_DDC6_C2DC_C85D_C85E_C85F_C860_C861_C862),
  (0x8424, 0xD3A9_D3AA_DDD3_CFF4_C8F8_C863_C864_C865_C866_C867_C868_C869),
  (0x8430, 0xC86A_DDE6_C86B_C86C_C86D_C86E_C86F_C870_DDC7_C871_C872_C873),
  (0x843C, 0xDDE0_C2E4_C874_C875_C876_C877_C878_C879_C87A_C87B_DDE1_C87C),
  (0x8448, 0xC87D_C87E_C880_C881_C882_C883_C884_C885_C886_DDD7_C887_C888),
  (0x8454, 0xC889_C88A_C88B_D6F8_C88C_DDD9_DDD8_B8F0_DDD6_C88D_C88E_C88F),
  (0x8460, 0xC890_C6CF_C891_B6AD_C892_C893_C894_C895_C896_DDE2_C897_BAF9),
  (0x846C, 0xD4E1_DDE7_C898_C899_C89A_B4D0_C89B_DDDA_C89C_BFFB_DDE3_C89D),
  (0x8478, 0xDDDF_C89E_DDDD_C89F_C8A0_C940_C941_C942_C943_C944_B5D9_C945),
  (0x8484, 0xC946_C947_C948_DDDB_DDDC_DDDE_C949_BDAF_DDE4_C94A_DDE5_C94B),
  (0x8490, 0xC94C_C94D_C94E_C94F_C950_C951_C952_DDF5_C953_C3C9_C954_C955),
  (0x849C, 0xCBE2_C956_C957_C958_C959_DDF2_C95A_C95B_C95C_C95D_C95E_C95F),
  (0x84A8, 0xC960_C961_C962_C963_C964_C965_C966_D8E1_C967_C968_C6D1_C969),
  (0x84B4, 0xDDF4_C96A_C96B_C96C_D5F4_DDF3_DDF0_C96D_C96E_DDEC_C96F_DDEF),
  (0x84C0, 0xC970_DDE8_C971_C972_D0EE_C973_C974_C975_C976_C8D8_DDEE_C977),
  (0x84CC, 0xC978_DDE9_C979_C97A_DDEA_CBF2_C97B_DDED_C97C_C97D_B1CD_C97E),
  (0x84D8, 0xC980_C981_C982_C983_C984_C0B6_C985_BCBB_DDF1_C986_C987_DDF7),
  (0x84E4, 0xC988_DDF6_DDEB_C989_C98A_C98B_C98C_C98D_C5EE_C98E_C98F_C990),
  (0x84F0, 0xDDFB_C991_C992_C993_C994_C995_C996_C997_C998_C999_C99A_C99B),
  (0x84FC, 0xDEA4_C99C_C99D_DEA3_C99E_C99F_C9A0_CA40_CA41_CA42_CA43_CA44),
  (0x8508, 0xCA45_CA46_CA47_CA48_DDF8_CA49_CA4A_CA4B_CA4C_C3EF_CA4D_C2FB),
  (0x8514, 0xCA4E_CA4F_CA50_D5E1_CA51_CA52_CEB5_CA53_CA54_CA55_CA56_DDFD),
  (0x8520, 0xCA57_B2CC_CA58_CA59_CA5A_CA5B_CA5C_CA5D_CA5E_CA5F_CA60_C4E8),
  (0x852C, 0xCADF_CA61_CA62_CA63_CA64_CA65_CA66_CA67_CA68_CA69_CA6A_C7BE),
  (0x8538, 0xDDFA_DDFC_DDFE_DEA2_B0AA_B1CE_CA6B_CA6C_CA6D_CA6E_CA6F_DEAC),
  (0x8544, 0xCA70_CA71_CA72_CA73_DEA6_BDB6_C8EF_CA74_CA75_CA76_CA77_CA78),
  (0x8550, 0xCA79_CA7A_CA7B_CA7C_CA7D_CA7E_DEA1_CA80_CA81_DEA5_CA82_CA83),
  (0x855C, 0xCA84_CA85_DEA9_CA86_CA87_CA88_CA89_CA8A_DEA8_CA8B_CA8C_CA8D),
  (0x8568, 0xDEA7_CA8E_CA8F_CA90_CA91_CA92_CA93_CA94_CA95_CA96_DEAD_CA97),
  (0x8574, 0xD4CC_CA98_CA99_CA9A_CA9B_DEB3_DEAA_DEAE_CA9C_CA9D_C0D9_CA9E),
  (0x8580, 0xCA9F_CAA0_CB40_CB41_B1A1_DEB6_CB42_DEB1_CB43_CB44_CB45_CB46),
  (0x858C, 0xCB47_CB48_CB49_DEB2_CB4A_CB4B_CB4C_CB4D_CB4E_CB4F_CB50_CB51),
  (0x8598, 0xCB52_CB53_CB54_D1A6_DEB5_CB55_CB56_CB57_CB58_CB59_CB5A_CB5B),
  (0x85A4, 0xDEAF_CB5C_CB5D_CB5E_DEB0_CB5F_D0BD_CB60_CB61_CB62_DEB4_CAED),
  (0x85B0, 0xDEB9_CB63_CB64_CB65_CB66_CB67_CB68_DEB8_CB69_DEB7_CB6A_CB6B),
  (0x85BC, 0xCB6C_CB6D_CB6E_CB6F_CB70_DEBB_CB71_CB72_CB73_CB74_CB75_CB76),
  (0x85C8, 0xCB77_BDE5_CB78_CB79_CB7A_CB7B_CB7C_B2D8_C3EA_CB7D_CB7E_DEBA),
  (0x85D4, 0xCB80_C5BA_CB81_CB82_CB83_CB84_CB85_CB86_DEBC_CB87_CB88_CB89),
  (0x85E0, 0xCB8A_CB8B_CB8C_CB8D_CCD9_CB8E_CB8F_CB90_CB91_B7AA_CB92_CB93),
  (0x85EC, 0xCB94_CB95_CB96_CB97_CB98_CB99_CB9A_CB9B_CB9C_CB9D_CB9E_CB9F),
  (0x85F8, 0xCBA0_CC40_CC41_D4E5_CC42_CC43_CC44_DEBD_CC45_CC46_CC47_CC48),
  (0x8604, 0xCC49_DEBF_CC4A_CC4B_CC4C_CC4D_CC4E_CC4F_CC50_CC51_CC52_CC53),
  (0x8610, 0xCC54_C4A2_CC55_CC56_CC57_CC58_DEC1_CC59_CC5A_CC5B_CC5C_CC5D),
  (0x861C, 0xCC5E_CC5F_CC60_CC61_CC62_CC63_CC64_CC65_CC66_CC67_CC68_DEBE),
  (0x8628, 0xCC69_DEC0_CC6A_CC6B_CC6C_CC6D_CC6E_CC6F_CC70_CC71_CC72_CC73),
  (0x8634, 0xCC74_CC75_CC76_CC77_D5BA_CC78_CC79_CC7A_DEC2_CC7B_CC7C_CC7D),
  (0x8640, 0xCC7E_CC80_CC81_CC82_CC83_CC84_CC85_CC86_CC87_CC88_CC89_CC8A),
  (0x864C, 0xCC8B_F2AE_BBA2_C2B2_C5B0_C2C7_CC8C_CC8D_F2AF_CC8E_CC8F_CC90),
  (0x8658, 0xCC91_CC92_D0E9_CC93_CC94_CC95_D3DD_CC96_CC97_CC98_EBBD_CC99),
  (0x8664, 0xCC9A_CC9B_CC9C_CC9D_CC9E_CC9F_CCA0_B3E6_F2B0_CD40_F2B1_CD41),
  (0x8670, 0xCD42_CAAD_CD43_CD44_CD45_CD46_CD47_CD48_CD49_BAE7_F2B3_F2B5),
  (0x867C, 0xF2B4_CBE4_CFBA_F2B2_CAB4_D2CF_C2EC_CD4A_CD4B_CD4C_CD4D_CD4E),
  (0x8688, 0xCD4F_CD50_CEC3_F2B8_B0F6_F2B7_CD51_CD52_CD53_CD54_CD55_F2BE),
  (0x8694, 0xCD56_B2CF_CD57_CD58_CD59_CD5A_CD5B_CD5C_D1C1_F2BA_CD5D_CD5E),
  (0x86A0, 0xCD5F_CD60_CD61_F2BC_D4E9_CD62_CD63_F2BB_F2B6_F2BF_F2BD_CD64),
  (0x86AC, 0xF2B9_CD65_CD66_F2C7_F2C4_F2C6_CD67_CD68_F2CA_F2C2_F2C0_CD69),
  (0x86B8, 0xCD6A_CD6B_F2C5_CD6C_CD6D_CD6E_CD6F_CD70_D6FB_CD71_CD72_CD73),
  (0x86C4, 0xF2C1_CD74_C7F9_C9DF_CD75_F2C8_B9C6_B5B0_CD76_CD77_F2C3_F2C9),
  (0x86D0, 0xF2D0_F2D6_CD78_CD79_BBD7_CD7A_CD7B_CD7C_F2D5_CDDC_CD7D_D6EB),
  (0x86DC, 0xCD7E_CD80_F2D2_F2D4_CD81_CD82_CD83_CD84_B8F2_CD85_CD86_CD87),
  (0x86E8, 0xCD88_F2CB_CD89_CD8A_CD8B_F2CE_C2F9_CD8C_D5DD_F2CC_F2CD_F2CF),
  (0x86F4, 0xF2D3_CD8D_CD8E_CD8F_F2D9_D3BC_CD90_CD91_CD92_CD93_B6EA_CD94),
  (0x8700, 0xCAF1_CD95_B7E4_F2D7_CD96_CD97_CD98_F2D8_F2DA_F2DD_F2DB_CD99),
  (0x870C, 0xCD9A_F2DC_CD9B_CD9C_CD9D_CD9E_D1D1_F2D1_CD9F_CDC9_CDA0_CECF),
  (0x8718, 0xD6A9_CE40_F2E3_CE41_C3DB_CE42_F2E0_CE43_CE44_C0AF_F2EC_F2DE),
  (0x8724, 0xCE45_F2E1_CE46_CE47_CE48_F2E8_CE49_CE4A_CE4B_CE4C_F2E2_CE4D),
  (0x8730, 0xCE4E_F2E7_CE4F_CE50_F2E6_CE51_CE52_F2E9_CE53_CE54_CE55_F2DF),
  (0x873C, 0xCE56_CE57_F2E4_F2EA_CE58_CE59_CE5A_CE5B_CE5C_CE5D_CE5E_D3AC),
  (0x8748, 0xF2E5_B2F5_CE5F_CE60_F2F2_CE61_D0AB_CE62_CE63_CE64_CE65_F2F5),
  (0x8754, 0xCE66_CE67_CE68_BBC8_CE69_F2F9_CE6A_CE6B_CE6C_CE6D_CE6E_CE6F),
  (0x8760, 0xF2F0_CE70_CE71_F2F6_F2F8_F2FA_CE72_CE73_CE74_CE75_CE76_CE77),
  (0x876C, 0xCE78_CE79_F2F3_CE7A_F2F1_CE7B_CE7C_CE7D_BAFB_CE7E_B5FB_CE80),
  (0x8778, 0xCE81_CE82_CE83_F2EF_F2F7_F2ED_F2EE_CE84_CE85_CE86_F2EB_F3A6),
  (0x8784, 0xCE87_F3A3_CE88_CE89_F3A2_CE8A_CE8B_F2F4_CE8C_C8DA_CE8D_CE8E),
  (0x8790, 0xCE8F_CE90_CE91_F2FB_CE92_CE93_CE94_F3A5_CE95_CE96_CE97_CE98),
  (0x879C, 0xCE99_CE9A_CE9B_C3F8_CE9C_CE9D_CE9E_CE9F_CEA0_CF40_CF41_CF42),
  (0x87A8, 0xF2FD_CF43_CF44_F3A7_F3A9_F3A4_CF45_F2FC_CF46_CF47_CF48_F3AB),
  (0x87B4, 0xCF49_F3AA_CF4A_CF4B_CF4C_CF4D_C2DD_CF4E_CF4F_F3AE_CF50_CF51),
  (0x87C0, 0xF3B0_CF52_CF53_CF54_CF55_CF56_F3A1_CF57_CF58_CF59_F3B1_F3AC),
  (0x87CC, 0xCF5A_CF5B_CF5C_CF5D_CF5E_F3AF_F2FE_F3AD_CF5F_CF60_CF61_CF62),
  (0x87D8, 0xCF63_CF64_CF65_F3B2_CF66_CF67_CF68_CF69_F3B4_CF6A_CF6B_CF6C),
  (0x87E4, 0xCF6D_F3A8_CF6E_CF6F_CF70_CF71_F3B3_CF72_CF73_CF74_F3B5_CF75),
  (0x87F0, 0xCF76_CF77_CF78_CF79_CF7A_CF7B_CF7C_CF7D_CF7E_D0B7_CF80_CF81),
  (0x87FC, 0xCF82_CF83_F3B8_CF84_CF85_CF86_CF87_D9F9_CF88_CF89_CF8A_CF8B),
  (0x8808, 0xCF8C_CF8D_F3B9_CF8E_CF8F_CF90_CF91_CF92_CF93_CF94_CF95_F3B7),
  (0x8814, 0xCF96_C8E4_F3B6_CF97_CF98_CF99_CF9A_F3BA_CF9B_CF9C_CF9D_CF9E),
  (0x8820, 0xCF9F_F3BB_B4C0_CFA0_D040_D041_D042_D043_D044_D045_D046_D047),
  (0x882C, 0xD048_D049_D04A_D04B_D04C_D04D_EEC3_D04E_D04F_D050_D051_D052),
  (0x8838, 0xD053_F3BC_D054_D055_F3BD_D056_D057_D058_D1AA_D059_D05A_D05B),
  (0x8844, 0xF4AC_D0C6_D05C_D05D_D05E_D05F_D060_D061_D0D0_D1DC_D062_D063),
  (0x8850, 0xD064_D065_D066_D067_CFCE_D068_D069_BDD6_D06A_D1C3_D06B_D06C),
  (0x885C, 0xD06D_D06E_D06F_D070_D071_BAE2_E1E9_D2C2_F1C2_B2B9_D072_D073),
  (0x8868, 0xB1ED_F1C3_D074_C9C0_B3C4_D075_D9F2_D076_CBA5_D077_F1C4_D078),
  (0x8874, 0xD079_D07A_D07B_D6D4_D07C_D07D_D07E_D080_D081_F1C5_F4C0_F1C6),
  (0x8880, 0xD082_D4AC_F1C7_D083_B0C0_F4C1_D084_D085_F4C2_D086_D087_B4FC),
  (0x888C, 0xD088_C5DB_D089_D08A_D08B_D08C_CCBB_D08D_D08E_D08F_D0E4_D090),
  (0x8898, 0xD091_D092_D093_D094_CDE0_D095_D096_D097_D098_D099_F1C8_D09A),
  (0x88A4, 0xD9F3_D09B_D09C_D09D_D09E_D09F_D0A0_B1BB_D140_CFAE_D141_D142),
  (0x88B0, 0xD143_B8A4_D144_D145_D146_D147_D148_F1CA_D149_D14A_D14B_D14C),
  (0x88BC, 0xF1CB_D14D_D14E_D14F_D150_B2C3_C1D1_D151_D152_D7B0_F1C9_D153),
  (0x88C8, 0xD154_F1CC_D155_D156_D157_D158_F1CE_D159_D15A_D15B_D9F6_D15C),
  (0x88D4, 0xD2E1_D4A3_D15D_D15E_F4C3_C8B9_D15F_D160_D161_D162_D163_F4C4),
  (0x88E0, 0xD164_D165_F1CD_F1CF_BFE3_F1D0_D166_D167_F1D4_D168_D169_D16A),
  (0x88EC, 0xD16B_D16C_D16D_D16E_F1D6_F1D1_D16F_C9D1_C5E1_D170_D171_D172),
  (0x88F8, 0xC2E3_B9FC_D173_D174_F1D3_D175_F1D5_D176_D177_D178_B9D3_D179),
  (0x8904, 0xD17A_D17B_D17C_D17D_D17E_D180_F1DB_D181_D182_D183_D184_D185),
  (0x8910, 0xBAD6_D186_B0FD_F1D9_D187_D188_D189_D18A_D18B_F1D8_F1D2_F1DA),
  (0x891C, 0xD18C_D18D_D18E_D18F_D190_F1D7_D191_D192_D193_C8EC_D194_D195),
  (0x8928, 0xD196_D197_CDCA_F1DD_D198_D199_D19A_D19B_E5BD_D19C_D19D_D19E),
  (0x8934, 0xF1DC_D19F_F1DE_D1A0_D240_D241_D242_D243_D244_D245_D246_D247),
  (0x8940, 0xD248_F1DF_D249_D24A_CFE5_D24B_D24C_D24D_D24E_D24F_D250_D251),
  (0x894C, 0xD252_D253_D254_D255_D256_D257_D258_D259_D25A_D25B_D25C_D25D),
  (0x8958, 0xD25E_D25F_D260_D261_D262_D263_F4C5_BDF3_D264_D265_D266_D267),
  (0x8964, 0xD268_D269_F1E0_D26A_D26B_D26C_D26D_D26E_D26F_D270_D271_D272),
  (0x8970, 0xD273_D274_D275_D276_D277_D278_D279_D27A_D27B_D27C_D27D_F1E1),
  (0x897C, 0xD27E_D280_D281_CEF7_D282_D2AA_D283_F1FB_D284_D285_B8B2_D286),
  (0x8988, 0xD287_D288_D289_D28A_D28B_D28C_D28D_D28E_D28F_D290_D291_D292),
  (0x8994, 0xD293_D294_D295_D296_D297_D298_D299_D29A_D29B_D29C_D29D_D29E),
  (0x89A0, 0xD29F_D2A0_D340_D341_D342_D343_D344_D345_D346_D347_D348_D349),
  (0x89AC, 0xD34A_D34B_D34C_D34D_D34E_D34F_D350_D351_D352_D353_D354_D355),
  (0x89B8, 0xD356_D357_D358_D359_D35A_D35B_D35C_D35D_D35E_BCFB_B9DB_D35F),
  (0x89C4, 0xB9E6_C3D9_CAD3_EAE8_C0C0_BEF5_EAE9_EAEA_EAEB_D360_EAEC_EAED),
  (0x89D0, 0xEAEE_EAEF_BDC7_D361_D362_D363_F5FB_D364_D365_D366_F5FD_D367),
  (0x89DC, 0xF5FE_D368_F5FC_D369_D36A_D36B_D36C_BDE2_D36D_F6A1_B4A5_D36E),
  (0x89E8, 0xD36F_D370_D371_F6A2_D372_D373_D374_F6A3_D375_D376_D377_ECB2),
  (0x89F4, 0xD378_D379_D37A_D37B_D37C_D37D_D37E_D380_D381_D382_D383_D384),
  (0x8A00, 0xD1D4_D385_D386_D387_D388_D389_D38A_D9EA_D38B_D38C_D38D_D38E),
  (0x8A0C, 0xD38F_D390_D391_D392_D393_D394_D395_D396_D397_D398_D399_D39A),
  (0x8A18, 0xD39B_D39C_D39D_D39E_D39F_D3A0_D440_D441_D442_D443_D444_D445),
  (0x8A24, 0xD446_D447_D448_D449_D44A_D44B_D44C_D44D_D44E_D44F_D450_D451),
  (0x8A30, 0xD452_D453_D454_D455_D456_D457_D458_D459_D45A_D45B_D45C_D45D),
  (0x8A3C, 0xD45E_D45F_F6A4_D460_D461_D462_D463_D464_D465_D466_D467_D468),
  (0x8A48, 0xEEBA_D469_D46A_D46B_D46C_D46D_D46E_D46F_D470_D471_D472_D473),
  (0x8A54, 0xD474_D475_D476_D477_D478_D479_D47A_D47B_D47C_D47D_D47E_D480),
  (0x8A60, 0xD481_D482_D483_D484_D485_D486_D487_D488_D489_D48A_D48B_D48C),
  (0x8A6C, 0xD48D_D48E_D48F_D490_D491_D492_D493_D494_D495_D496_D497_D498),
  (0x8A78, 0xD499_D5B2_D49A_D49B_D49C_D49D_D49E_D49F_D4A0_D540_D541_D542),
  (0x8A84, 0xD543_D544_D545_D546_D547_D3FE_CCDC_D548_D549_D54A_D54B_D54C),
  (0x8A90, 0xD54D_D54E_D54F_CAC4_D550_D551_D552_D553_D554_D555_D556_D557),
  (0x8A9C, 0xD558_D559_D55A_D55B_D55C_D55D_D55E_D55F_D560_D561_D562_D563),
  (0x8AA8, 0xD564_D565_D566_D567_D568_D569_D56A_D56B_D56C_D56D_D56E_D56F),
  (0x8AB4, 0xD570_D571_D572_D573_D574_D575_D576_D577_D578_D579_D57A_D57B),
  (0x8AC0, 0xD57C_D57D_D57E_D580_D581_D582_D583_D584_D585_D586_D587_D588),
  (0x8ACC, 0xD589_D58A_D58B_D58C_D58D_D58E_D58F_D590_D591_D592_D593_D594),
  (0x8AD8, 0xD595_D596_D597_D598_D599_D59A_D59B_D59C_D59D_D59E_D59F_D5A0),
  (0x8AE4, 0xD640_D641_D642_D643_D644_D645_D646_D647_D648_D649_D64A_D64B),
  (0x8AF0, 0xD64C_D64D_D64E_D64F_D650_D651_D652_D653_D654_D655_D656_D657),
  (0x8AFC, 0xD658_D659_D65A_D65B_D65C_D65D_D65E_D65F_D660_D661_D662_E5C0),
  (0x8B08, 0xD663_D664_D665_D666_D667_D668_D669_D66A_D66B_D66C_D66D_D66E),
  (0x8B14, 0xD66F_D670_D671_D672_D673_D674_D675_D676_D677_D678_D679_D67A),
  (0x8B20, 0xD67B_D67C_D67D_D67E_D680_D681_F6A5_D682_D683_D684_D685_D686),
  (0x8B2C, 0xD687_D688_D689_D68A_D68B_D68C_D68D_D68E_D68F_D690_D691_D692),
  (0x8B38, 0xD693_D694_D695_D696_D697_D698_D699_D69A_D69B_D69C_D69D_D69E),
  (0x8B44, 0xD69F_D6A0_D740_D741_D742_D743_D744_D745_D746_D747_D748_D749),
  (0x8B50, 0xD74A_D74B_D74C_D74D_D74E_D74F_D750_D751_D752_D753_D754_D755),
  (0x8B5C, 0xD756_D757_D758_D759_D75A_D75B_D75C_D75D_D75E_D75F_BEAF_D760),
  (0x8B68, 0xD761_D762_D763_D764_C6A9_D765_D766_D767_D768_D769_D76A_D76B),
  (0x8B74, 0xD76C_D76D_D76E_D76F_D770_D771_D772_D773_D774_D775_D776_D777),
  (0x8B80, 0xD778_D779_D77A_D77B_D77C_D77D_D77E_D780_D781_D782_D783_D784),
  (0x8B8C, 0xD785_D786_D787_D788_D789_D78A_D78B_D78C_D78D_D78E_D78F_D790),
  (0x8B98, 0xD791_D792_D793_D794_D795_D796_D797_D798_DAA5_BCC6_B6A9_B8BC),
  (0x8BA4, 0xC8CF_BCA5_DAA6_DAA7_CCD6_C8C3_DAA8_C6FD_D799_D1B5_D2E9_D1B6),
  (0x8BB0, 0xBCC7_D79A_BDB2_BBE4_DAA9_DAAA_D1C8_DAAB_D0ED_B6EF_C2DB_D79B),
  (0x8BBC, 0xCBCF_B7ED_C9E8_B7C3_BEF7_D6A4_DAAC_DAAD_C6C0_D7E7_CAB6_D79C),
  (0x8BC8, 0xD5A9_CBDF_D5EF_DAAE_D6DF_B4CA_DAB0_DAAF_D79D_D2EB_DAB1_DAB2),
  (0x8BD4, 0xDAB3_CAD4_DAB4_CAAB_DAB5_DAB6_B3CF_D6EF_DAB7_BBB0_B5AE_DAB8),
  (0x8BE0, 0xDAB9_B9EE_D1AF_D2E8_DABA_B8C3_CFEA_B2EF_DABB_DABC_D79E_BDEB),
  (0x8BEC, 0xCEDC_D3EF_DABD_CEF3_DABE_D3D5_BBE5_DABF_CBB5_CBD0_DAC0_C7EB),
  (0x8BF8, 0xD6EE_DAC1_C5B5_B6C1_DAC2_B7CC_BFCE_DAC3_DAC4_CBAD_DAC5_B5F7),
  (0x8C04, 0xDAC6_C1C2_D7BB_DAC7_CCB8_D79F_D2EA_C4B1_DAC8_B5FD_BBD1_DAC9),
  (0x8C10, 0xD0B3_DACA_DACB_CEBD_DACC_DACD_DACE_B2F7_DAD1_DACF_D1E8_DAD0),
  (0x8C1C, 0xC3D5_DAD2_D7A0_DAD3_DAD4_DAD5_D0BB_D2A5_B0F9_DAD6_C7AB_DAD7),
  (0x8C28, 0xBDF7_C3A1_DAD8_DAD9_C3FD_CCB7_DADA_DADB_C0BE_C6D7_DADC_DADD),
  (0x8C34, 0xC7B4_DADE_DADF_B9C8_D840_D841_D842_D843_D844_D845_D846_D847),
  (0x8C40, 0xD848_BBED_D849_D84A_D84B_D84C_B6B9_F4F8_D84D_F4F9_D84E_D84F),
  (0x8C4C, 0xCDE3_D850_D851_D852_D853_D854_D855_D856_D857_F5B9_D858_D859),
  (0x8C58, 0xD85A_D85B_EBE0_D85C_D85D_D85E_D85F_D860_D861_CFF3_BBBF_D862),
  (0x8C64, 0xD863_D864_D865_D866_D867_D868_BAC0_D4A5_D869_D86A_D86B_D86C),
  (0x8C70, 0xD86D_D86E_D86F_E1D9_D870_D871_D872_D873_F5F4_B1AA_B2F2_D874),
  (0x8C7C, 0xD875_D876_D877_D878_D879_D87A_F5F5_D87B_D87C_F5F7_D87D_D87E),
  (0x8C88, 0xD880_BAD1_F5F6_D881_C3B2_D882_D883_D884_D885_D886_D887_D888),
  (0x8C94, 0xF5F9_D889_D88A_D88B_F5F8_D88C_D88D_D88E_D88F_D890_D891_D892),
  (0x8CA0, 0xD893_D894_D895_D896_D897_D898_D899_D89A_D89B_D89C_D89D_D89E),
  (0x8CAC, 0xD89F_D8A0_D940_D941_D942_D943_D944_D945_D946_D947_D948_D949),
  (0x8CB8, 0xD94A_D94B_D94C_D94D_D94E_D94F_D950_D951_D952_D953_D954_D955),
  (0x8CC4, 0xD956_D957_D958_D959_D95A_D95B_D95C_D95D_D95E_D95F_D960_D961),
  (0x8CD0, 0xD962_D963_D964_D965_D966_D967_D968_D969_D96A_D96B_D96C_D96D),
  (0x8CDC, 0xD96E_D96F_D970_D971_D972_D973_D974_D975_D976_D977_D978_D979),
  (0x8CE8, 0xD97A_D97B_D97C_D97D_D97E_D980_D981_D982_D983_D984_D985_D986),
  (0x8CF4, 0xD987_D988_D989_D98A_D98B_D98C_D98D_D98E_D98F_D990_D991_D992),
  (0x8D00, 0xD993_D994_D995_D996_D997_D998_D999_D99A_D99B_D99C_D99D_D99E),
  (0x8D0C, 0xD99F_D9A0_DA40_DA41_DA42_DA43_DA44_DA45_DA46_DA47_DA48_DA49),
  (0x8D18, 0xDA4A_DA4B_DA4C_DA4D_DA4E_B1B4_D5EA_B8BA_DA4F_B9B1_B2C6_D4F0),
  (0x8D24, 0xCFCD_B0DC_D5CB_BBF5_D6CA_B7B7_CCB0_C6B6_B1E1_B9BA_D6FC_B9E1),
  (0x8D30, 0xB7A1_BCFA_EADA_EADB_CCF9_B9F3_EADC_B4FB_C3B3_B7D1_BAD8_EADD),
  (0x8D3C, 0xD4F4_EADE_BCD6_BBDF_EADF_C1DE_C2B8_D4DF_D7CA_EAE0_EAE1_EAE4),
  (0x8D48, 0xEAE2_EAE3_C9DE_B8B3_B6C4_EAE5_CAEA_C9CD_B4CD_DA50_DA51_E2D9),
  (0x8D54, 0xC5E2_EAE6_C0B5_DA52_D7B8_EAE7_D7AC_C8FC_D8D3_D8CD_D4DE_DA53),
  (0x8D60, 0xD4F9_C9C4_D3AE_B8D3_B3E0_DA54_C9E2_F4F6_DA55_DA56_DA57_BAD5),
  (0x8D6C, 0xDA58_F4F7_DA59_DA5A_D7DF_DA5B_DA5C_F4F1_B8B0_D5D4_B8CF_C6F0),
  (0x8D78, 0xDA5D_DA5E_DA5F_DA60_DA61_DA62_DA63_DA64_DA65_B3C3_DA66_DA67),
  (0x8D84, 0xF4F2_B3AC_DA68_DA69_DA6A_DA6B_D4BD_C7F7_DA6C_DA6D_DA6E_DA6F),
  (0x8D90, 0xDA70_F4F4_DA71_DA72_F4F3_DA73_DA74_DA75_DA76_DA77_DA78_DA79),
  (0x8D9C, 0xDA7A_DA7B_DA7C_CCCB_DA7D_DA7E_DA80_C8A4_DA81_DA82_DA83_DA84),
  (0x8DA8, 0xDA85_DA86_DA87_DA88_DA89_DA8A_DA8B_DA8C_DA8D_F4F5_DA8E_D7E3),
  (0x8DB4, 0xC5BF_F5C0_DA8F_DA90_F5BB_DA91_F5C3_DA92_F5C2_DA93_D6BA_F5C1),
  (0x8DC0, 0xDA94_DA95_DA96_D4BE_F5C4_DA97_F5CC_DA98_DA99_DA9A_DA9B_B0CF),
  (0x8DCC, 0xB5F8_DA9C_F5C9_F5CA_DA9D_C5DC_DA9E_DA9F_DAA0_DB40_F5C5_F5C6),
  (0x8DD8, 0xDB41_DB42_F5C7_F5CB_DB43_BEE0_F5C8_B8FA_DB44_DB45_DB46_F5D0),
  (0x8DE4, 0xF5D3_DB47_DB48_DB49_BFE7_DB4A_B9F2_F5BC_F5CD_DB4B_DB4C_C2B7),
  (0x8DF0, 0xDB4D_DB4E_DB4F_CCF8_DB50_BCF9_DB51_F5CE_F5CF_F5D1_B6E5_F5D2),
  (0x8DFC, 0xDB52_F5D5_DB53_DB54_DB55_DB56_DB57_DB58_DB59_F5BD_DB5A_DB5B),
  (0x8E08, 0xDB5C_F5D4_D3BB_DB5D_B3EC_DB5E_DB5F_CCA4_DB60_DB61_DB62_DB63),
  (0x8E14, 0xF5D6_DB64_DB65_DB66_DB67_DB68_DB69_DB6A_DB6B_F5D7_BEE1_F5D8),
  (0x8E20, 0xDB6C_DB6D_CCDF_F5DB_DB6E_DB6F_DB70_DB71_DB72_B2C8_D7D9_DB73),
  (0x8E2C, 0xF5D9_DB74_F5DA_F5DC_DB75_F5E2_DB76_DB77_DB78_F5E0_DB79_DB7A),
  (0x8E38, 0xDB7B_F5DF_F5DD_DB7C_DB7D_F5E1_DB7E_DB80_F5DE_F5E4_F5E5_DB81),
  (0x8E44, 0xCCE3_DB82_DB83_E5BF_B5B8_F5E3_F5E8_CCA3_DB84_DB85_DB86_DB87),
  (0x8E50, 0xDB88_F5E6_F5E7_DB89_DB8A_DB8B_DB8C_DB8D_DB8E_F5BE_DB8F_DB90),
  (0x8E5C, 0xDB91_DB92_DB93_DB94_DB95_DB96_DB97_DB98_DB99_DB9A_B1C4_DB9B),
  (0x8E68, 0xDB9C_F5BF_DB9D_DB9E_B5C5_B2E4_DB9F_F5EC_F5E9_DBA0_B6D7_DC40),
  (0x8E74, 0xF5ED_DC41_F5EA_DC42_DC43_DC44_DC45_DC46_F5EB_DC47_DC48_B4DA),
  (0x8E80, 0xDC49_D4EA_DC4A_DC4B_DC4C_F5EE_DC4D_B3F9_DC4E_DC4F_DC50_DC51),
  (0x8E8C, 0xDC52_DC53_DC54_F5EF_F5F1_DC55_DC56_DC57_F5F0_DC58_DC59_DC5A),
  (0x8E98, 0xDC5B_DC5C_DC5D_DC5E_F5F2_DC5F_F5F3_DC60_DC61_DC62_DC63_DC64),
  (0x8EA4, 0xDC65_DC66_DC67_DC68_DC69_DC6A_DC6B_C9ED_B9AA_DC6C_DC6D_C7FB),
  (0x8EB0, 0xDC6E_DC6F_B6E3_DC70_DC71_DC72_DC73_DC74_DC75_DC76_CCC9_DC77),
  (0x8EBC, 0xDC78_DC79_DC7A_DC7B_DC7C_DC7D_DC7E_DC80_DC81_DC82_DC83_DC84),
  (0x8EC8, 0xDC85_DC86_DC87_DC88_DC89_DC8A_EAA6_DC8B_DC8C_DC8D_DC8E_DC8F),
  (0x8ED4, 0xDC90_DC91_DC92_DC93_DC94_DC95_DC96_DC97_DC98_DC99_DC9A_DC9B),
  (0x8EE0, 0xDC9C_DC9D_DC9E_DC9F_DCA0_DD40_DD41_DD42_DD43_DD44_DD45_DD46),
  (0x8EEC, 0xDD47_DD48_DD49_DD4A_DD4B_DD4C_DD4D_DD4E_DD4F_DD50_DD51_DD52),
  (0x8EF8, 0xDD53_DD54_DD55_DD56_DD57_DD58_DD59_DD5A_DD5B_DD5C_DD5D_DD5E),
  (0x8F04, 0xDD5F_DD60_DD61_DD62_DD63_DD64_DD65_DD66_DD67_DD68_DD69_DD6A),
  (0x8F10, 0xDD6B_DD6C_DD6D_DD6E_DD6F_DD70_DD71_DD72_DD73_DD74_DD75_DD76),
  (0x8F1C, 0xDD77_DD78_DD79_DD7A_DD7B_DD7C_DD7D_DD7E_DD80_DD81_DD82_DD83),
  (0x8F28, 0xDD84_DD85_DD86_DD87_DD88_DD89_DD8A_DD8B_DD8C_DD8D_DD8E_DD8F),
  (0x8F34, 0xDD90_DD91_DD92_DD93_DD94_DD95_DD96_DD97_DD98_DD99_DD9A_DD9B),
  (0x8F40, 0xDD9C_DD9D_DD9E_DD9F_DDA0_DE40_DE41_DE42_DE43_DE44_DE45_DE46),
  (0x8F4C, 0xDE47_DE48_DE49_DE4A_DE4B_DE4C_DE4D_DE4E_DE4F_DE50_DE51_DE52),
  (0x8F58, 0xDE53_DE54_DE55_DE56_DE57_DE58_DE59_DE5A_DE5B_DE5C_DE5D_DE5E),
  (0x8F64, 0xDE5F_DE60_B3B5_D4FE_B9EC_D0F9_DE61_E9ED_D7AA_E9EE_C2D6_C8ED),
  (0x8F70, 0xBAE4_E9EF_E9F0_E9F1_D6E1_E9F2_E9F3_E9F5_E9F4_E9F6_E9F7_C7E1),
  (0x8F7C, 0xE9F8_D4D8_E9F9_BDCE_DE62_E9FA_E9FB_BDCF_E9FC_B8A8_C1BE_E9FD),
  (0x8F88, 0xB1B2_BBD4_B9F5_E9FE_DE63_EAA1_EAA2_EAA3_B7F8_BCAD_DE64_CAE4),
  (0x8F94, 0xE0CE_D4AF_CFBD_D5B7_EAA4_D5DE_EAA5_D0C1_B9BC_DE65_B4C7_B1D9),
  (0x8FA0, 0xDE66_DE67_DE68_C0B1_DE69_DE6A_DE6B_DE6C_B1E6_B1E7_DE6D_B1E8),
  (0x8FAC, 0xDE6E_DE6F_DE70_DE71_B3BD_C8E8_DE72_DE73_DE74_DE75_E5C1_DE76),
  (0x8FB8, 0xDE77_B1DF_DE78_DE79_DE7A_C1C9_B4EF_DE7B_DE7C_C7A8_D3D8_DE7D),
  (0x8FC4, 0xC6F9_D1B8_DE7E_B9FD_C2F5_DE80_DE81_DE82_DE83_DE84_D3AD_DE85),
  (0x8FD0, 0xD4CB_BDFC_DE86_E5C2_B7B5_E5C3_DE87_DE88_BBB9_D5E2_DE89_BDF8),
  (0x8FDC, 0xD4B6_CEA5_C1AC_B3D9_DE8A_DE8B_CCF6_DE8C_E5C6_E5C4_E5C8_DE8D),
  (0x8FE8, 0xE5CA_E5C7_B5CF_C6C8_DE8E_B5FC_E5C5_DE8F_CAF6_DE90_DE91_E5C9),
  (0x8FF4, 0xDE92_DE93_DE94_C3D4_B1C5_BCA3_DE95_DE96_DE97_D7B7_DE98_DE99),
  (0x9000, 0xCDCB_CBCD_CACA_CCD3_E5CC_E5CB_C4E6_DE9A_DE9B_D1A1_D1B7_E5CD),
  (0x900C, 0xDE9C_E5D0_DE9D_CDB8_D6F0_E5CF_B5DD_DE9E_CDBE_DE9F_E5D1_B6BA),
  (0x9018, 0xDEA0_DF40_CDA8_B9E4_DF41_CAC5_B3D1_CBD9_D4EC_E5D2_B7EA_DF42),
  (0x9024, 0xDF43_DF44_E5CE_DF45_DF46_DF47_DF48_DF49_DF4A_E5D5_B4FE_E5D6),
  (0x9030, 0xDF4B_DF4C_DF4D_DF4E_DF4F_E5D3_E5D4_DF50_D2DD_DF51_DF52_C2DF),
  (0x903C, 0xB1C6_DF53_D3E2_DF54_DF55_B6DD_CBEC_DF56_E5D7_DF57_DF58_D3F6),
  (0x9048, 0xDF59_DF5A_DF5B_DF5C_DF5D_B1E9_DF5E_B6F4_E5DA_E5D8_E5D9_B5C0),
  (0x9054, 0xDF5F_DF60_DF61_D2C5_E5DC_DF62_DF63_E5DE_DF64_DF65_DF66_DF67),
  (0x9060, 0xDF68_DF69_E5DD_C7B2_DF6A_D2A3_DF6B_DF6C_E5DB_DF6D_DF6E_DF6F),
  (0x906C, 0xDF70_D4E2_D5DA_DF71_DF72_DF73_DF74_DF75_E5E0_D7F1_DF76_DF77),
  (0x9078, 0xDF78_DF79_DF7A_DF7B_DF7C_E5E1_DF7D_B1DC_D1FB_DF7E_E5E2_E5E4),
  (0x9084, 0xDF80_DF81_DF82_DF83_E5E3_DF84_DF85_E5E5_DF86_DF87_DF88_DF89),
  (0x9090, 0xDF8A_D2D8_DF8B_B5CB_DF8C_E7DF_DF8D_DAF5_DF8E_DAF8_DF8F_DAF6),
  (0x909C, 0xDF90_DAF7_DF91_DF92_DF93_DAFA_D0CF_C4C7_DF94_DF95_B0EE_DF96),
  (0x90A8, 0xDF97_DF98_D0B0_DF99_DAF9_DF9A_D3CA_BAAA_DBA2_C7F1_DF9B_DAFC),
  (0x90B4, 0xDAFB_C9DB_DAFD_DF9C_DBA1_D7DE_DAFE_C1DA_DF9D_DF9E_DBA5_DF9F),
  (0x90C0, 0xDFA0_D3F4_E040_E041_DBA7_DBA4_E042_DBA8_E043_E044_BDBC_E045),
  (0x90CC, 0xE046_E047_C0C9_DBA3_DBA6_D6A3_E048_DBA9_E049_E04A_E04B_DBAD),
  (0x90D8, 0xE04C_E04D_E04E_DBAE_DBAC_BAC2_E04F_E050_E051_BFA4_DBAB_E052),
  (0x90E4, 0xE053_E054_DBAA_D4C7_B2BF_E055_E056_DBAF_E057_B9F9_E058_DBB0),
  (0x90F0, 0xE059_E05A_E05B_E05C_B3BB_E05D_E05E_E05F_B5A6_E060_E061_E062),
  (0x90FC, 0xE063_B6BC_DBB1_E064_E065_E066_B6F5_E067_DBB2_E068_E069_E06A),
  (0x9108, 0xE06B_E06C_E06D_E06E_E06F_E070_E071_E072_E073_E074_E075_E076),
  (0x9114, 0xE077_E078_E079_E07A_E07B_B1C9_E07C_E07D_E07E_E080_DBB4_E081),
  (0x9120, 0xE082_E083_DBB3_DBB5_E084_E085_E086_E087_E088_E089_E08A_E08B),
  (0x912C, 0xE08C_E08D_E08E_DBB7_E08F_DBB6_E090_E091_E092_E093_E094_E095),
  (0x9138, 0xE096_DBB8_E097_E098_E099_E09A_E09B_E09C_E09D_E09E_E09F_DBB9),
  (0x9144, 0xE0A0_E140_DBBA_E141_E142_D3CF_F4FA_C7F5_D7C3_C5E4_F4FC_F4FD),
  (0x9150, 0xF4FB_E143_BEC6_E144_E145_E146_E147_D0EF_E148_E149_B7D3_E14A),
  (0x915C, 0xE14B_D4CD_CCAA_E14C_E14D_F5A2_F5A1_BAA8_F4FE_CBD6_E14E_E14F),
  (0x9168, 0xE150_F5A4_C0D2_E151_B3EA_E152_CDAA_F5A5_F5A3_BDB4_F5A8_E153),
  (0x9174, 0xF5A9_BDCD_C3B8_BFE1_CBE1_F5AA_E154_E155_E156_F5A6_F5A7_C4F0),
  (0x9180, 0xE157_E158_E159_E15A_E15B_F5AC_E15C_B4BC_E15D_D7ED_E15E_B4D7),
  (0x918C, 0xF5AB_F5AE_E15F_E160_F5AD_F5AF_D0D1_E161_E162_E163_E164_E165),
  (0x9198, 0xE166_E167_C3D1_C8A9_E168_E169_E16A_E16B_E16C_E16D_F5B0_F5B1),
  (0x91A4, 0xE16E_E16F_E170_E171_E172_E173_F5B2_E174_E175_F5B3_F5B4_F5B5),
  (0x91B0, 0xE176_E177_E178_E179_F5B7_F5B6_E17A_E17B_E17C_E17D_F5B8_E17E),
  (0x91BC, 0xE180_E181_E182_E183_E184_E185_E186_E187_E188_E189_E18A_B2C9),
  (0x91C8, 0xE18B_D3D4_CACD_E18C_C0EF_D6D8_D2B0_C1BF_E18D_BDF0_E18E_E18F),
  (0x91D4, 0xE190_E191_E192_E193_E194_E195_E196_E197_B8AA_E198_E199_E19A),
  (0x91E0, 0xE19B_E19C_E19D_E19E_E19F_E1A0_E240_E241_E242_E243_E244_E245),
  (0x91EC, 0xE246_E247_E248_E249_E24A_E24B_E24C_E24D_E24E_E24F_E250_E251),
  (0x91F8, 0xE252_E253_E254_E255_E256_E257_E258_E259_E25A_E25B_E25C_E25D),
  (0x9204, 0xE25E_E25F_E260_E261_E262_E263_E264_E265_E266_E267_E268_E269),
  (0x9210, 0xE26A_E26B_E26C_E26D_E26E_E26F_E270_E271_E272_E273_E274_E275),
  (0x921C, 0xE276_E277_E278_E279_E27A_E27B_E27C_E27D_E27E_E280_E281_E282),
  (0x9228, 0xE283_E284_E285_E286_E287_E288_E289_E28A_E28B_E28C_E28D_E28E),
  (0x9234, 0xE28F_E290_E291_E292_E293_E294_E295_E296_E297_E298_E299_E29A),
  (0x9240, 0xE29B_E29C_E29D_E29E_E29F_E2A0_E340_E341_E342_E343_E344_E345),
  (0x924C, 0xE346_E347_E348_E349_E34A_E34B_E34C_E34D_E34E_E34F_E350_E351),
  (0x9258, 0xE352_E353_E354_E355_E356_E357_E358_E359_E35A_E35B_E35C_E35D),
  (0x9264, 0xE35E_E35F_E360_E361_E362_E363_E364_E365_E366_E367_E368_E369),
  (0x9270, 0xE36A_E36B_E36C_E36D_BCF8_E36E_E36F_E370_E371_E372_E373_E374),
  (0x927C, 0xE375_E376_E377_E378_E379_E37A_E37B_E37C_E37D_E37E_E380_E381),
  (0x9288, 0xE382_E383_E384_E385_E386_E387_F6C6_E388_E389_E38A_E38B_E38C),
  (0x9294, 0xE38D_E38E_E38F_E390_E391_E392_E393_E394_E395_E396_E397_E398),
  (0x92A0, 0xE399_E39A_E39B_E39C_E39D_E39E_E39F_E3A0_E440_E441_E442_E443),
  (0x92AC, 0xE444_E445_F6C7_E446_E447_E448_E449_E44A_E44B_E44C_E44D_E44E),
  (0x92B8, 0xE44F_E450_E451_E452_E453_E454_E455_E456_E457_E458_E459_E45A),
  (0x92C4, 0xE45B_E45C_E45D_E45E_F6C8_E45F_E460_E461_E462_E463_E464_E465),
  (0x92D0, 0xE466_E467_E468_E469_E46A_E46B_E46C_E46D_E46E_E46F_E470_E471),
  (0x92DC, 0xE472_E473_E474_E475_E476_E477_E478_E479_E47A_E47B_E47C_E47D),
  (0x92E8, 0xE47E_E480_E481_E482_E483_E484_E485_E486_E487_E488_E489_E48A),
  (0x92F4, 0xE48B_E48C_E48D_E48E_E48F_E490_E491_E492_E493_E494_E495_E496),
  (0x9300, 0xE497_E498_E499_E49A_E49B_E49C_E49D_E49E_E49F_E4A0_E540_E541),
  (0x930C, 0xE542_E543_E544_E545_E546_E547_E548_E549_E54A_E54B_E54C_E54D),
  (0x9318, 0xE54E_E54F_E550_E551_E552_E553_E554_E555_E556_E557_E558_E559),
  (0x9324, 0xE55A_E55B_E55C_E55D_E55E_E55F_E560_E561_E562_E563_E564_E565),
  (0x9330, 0xE566_E567_E568_E569_E56A_E56B_E56C_E56D_E56E_E56F_E570_E571),
  (0x933C, 0xE572_E573_F6C9_E574_E575_E576_E577_E578_E579_E57A_E57B_E57C),
  (0x9348, 0xE57D_E57E_E580_E581_E582_E583_E584_E585_E586_E587_E588_E589),
  (0x9354, 0xE58A_E58B_E58C_E58D_E58E_E58F_E590_E591_E592_E593_E594_E595),
  (0x9360, 0xE596_E597_E598_E599_E59A_E59B_E59C_E59D_E59E_E59F_F6CA_E5A0),
  (0x936C, 0xE640_E641_E642_E643_E644_E645_E646_E647_E648_E649_E64A_E64B),
  (0x9378, 0xE64C_E64D_E64E_E64F_E650_E651_E652_E653_E654_E655_E656_E657),
  (0x9384, 0xE658_E659_E65A_E65B_E65C_E65D_E65E_E65F_E660_E661_E662_F6CC),
  (0x9390, 0xE663_E664_E665_E666_E667_E668_E669_E66A_E66B_E66C_E66D_E66E),
  (0x939C, 0xE66F_E670_E671_E672_E673_E674_E675_E676_E677_E678_E679_E67A),
  (0x93A8, 0xE67B_E67C_E67D_E67E_E680_E681_E682_E683_E684_E685_E686_E687),
  (0x93B4, 0xE688_E689_E68A_E68B_E68C_E68D_E68E_E68F_E690_E691_E692_E693),
  (0x93C0, 0xE694_E695_E696_E697_E698_E699_E69A_E69B_E69C_E69D_F6CB_E69E),
  (0x93CC, 0xE69F_E6A0_E740_E741_E742_E743_E744_E745_E746_E747_F7E9_E748),
  (0x93D8, 0xE749_E74A_E74B_E74C_E74D_E74E_E74F_E750_E751_E752_E753_E754),
  (0x93E4, 0xE755_E756_E757_E758_E759_E75A_E75B_E75C_E75D_E75E_E75F_E760),
  (0x93F0, 0xE761_E762_E763_E764_E765_E766_E767_E768_E769_E76A_E76B_E76C),
  (0x93FC, 0xE76D_E76E_E76F_E770_E771_E772_E773_E774_E775_E776_E777_E778),
  (0x9408, 0xE779_E77A_E77B_E77C_E77D_E77E_E780_E781_E782_E783_E784_E785),
  (0x9414, 0xE786_E787_E788_E789_E78A_E78B_E78C_E78D_E78E_E78F_E790_E791),
  (0x9420, 0xE792_E793_E794_E795_E796_E797_E798_E799_E79A_E79B_E79C_E79D),
  (0x942C, 0xE79E_E79F_E7A0_E840_E841_E842_E843_E844_E845_E846_E847_E848),
  (0x9438, 0xE849_E84A_E84B_E84C_E84D_E84E_F6CD_E84F_E850_E851_E852_E853),
  (0x9444, 0xE854_E855_E856_E857_E858_E859_E85A_E85B_E85C_E85D_E85E_E85F),
  (0x9450, 0xE860_E861_E862_E863_E864_E865_E866_E867_E868_E869_E86A_E86B),
  (0x945C, 0xE86C_E86D_E86E_E86F_E870_E871_E872_E873_E874_E875_E876_E877),
  (0x9468, 0xE878_E879_E87A_F6CE_E87B_E87C_E87D_E87E_E880_E881_E882_E883),
  (0x9474, 0xE884_E885_E886_E887_E888_E889_E88A_E88B_E88C_E88D_E88E_E88F),
  (0x9480, 0xE890_E891_E892_E893_E894_EEC4_EEC5_EEC6_D5EB_B6A4_EEC8_EEC7),
  (0x948C, 0xEEC9_EECA_C7A5_EECB_EECC_E895_B7B0_B5F6_EECD_EECF_E896_EECE),
  (0x9498, 0xE897_B8C6_EED0_EED1_EED2_B6DB_B3AE_D6D3_C4C6_B1B5_B8D6_EED3),
  (0x94A4, 0xEED4_D4BF_C7D5_BEFB_CED9_B9B3_EED6_EED5_EED8_EED7_C5A5_EED9),
  (0x94B0, 0xEEDA_C7AE_EEDB_C7AF_EEDC_B2A7_EEDD_EEDE_EEDF_EEE0_EEE1_D7EA),
  (0x94BC, 0xEEE2_EEE3_BCD8_EEE4_D3CB_CCFA_B2AC_C1E5_EEE5_C7A6_C3AD_E898),
  (0x94C8, 0xEEE6_EEE7_EEE8_EEE9_EEEA_EEEB_EEEC_E899_EEED_EEEE_EEEF_E89A),
  (0x94D4, 0xE89B_EEF0_EEF1_EEF2_EEF4_EEF3_E89C_EEF5_CDAD_C2C1_EEF6_EEF7),
  (0x94E0, 0xEEF8_D5A1_EEF9_CFB3_EEFA_EEFB_E89D_EEFC_EEFD_EFA1_EEFE_EFA2),
  (0x94EC, 0xB8F5_C3FA_EFA3_EFA4_BDC2_D2BF_B2F9_EFA5_EFA6_EFA7_D2F8_EFA8),
  (0x94F8, 0xD6FD_EFA9_C6CC_E89E_EFAA_EFAB_C1B4_EFAC_CFFA_CBF8_EFAE_EFAD),
  (0x9504, 0xB3FA_B9F8_EFAF_EFB0_D0E2_EFB1_EFB2_B7E6_D0BF_EFB3_EFB4_EFB5),
  (0x9510, 0xC8F1_CCE0_EFB6_EFB7_EFB8_EFB9_EFBA_D5E0_EFBB_B4ED_C3AA_EFBC),
  (0x951C, 0xE89F_EFBD_EFBE_EFBF_E8A0_CEFD_EFC0_C2E0_B4B8_D7B6_BDF5_E940),
  (0x9528, 0xCFC7_EFC3_EFC1_EFC2_EFC4_B6A7_BCFC_BEE2_C3CC_EFC5_EFC6_E941),
  (0x9534, 0xEFC7_EFCF_EFC8_EFC9_EFCA_C7C2_EFF1_B6CD_EFCB_E942_EFCC_EFCD),
  (0x9540, 0xB6C6_C3BE_EFCE_E943_EFD0_EFD1_EFD2_D5F2_E944_EFD3_C4F7_E945),
  (0x954C, 0xEFD4_C4F8_EFD5_EFD6_B8E4_B0F7_EFD7_EFD8_EFD9_E946_EFDA_EFDB),
  (0x9558, 0xEFDC_EFDD_E947_EFDE_BEB5_EFE1_EFDF_EFE0_E948_EFE2_EFE3_C1CD),
  (0x9564, 0xEFE4_EFE5_EFE6_EFE7_EFE8_EFE9_EFEA_EFEB_EFEC_C0D8_E949_EFED),
  (0x9570, 0xC1AD_EFEE_EFEF_EFF0_E94A_E94B_CFE2_E94C_E94D_E94E_E94F_E950),
  (0x957C, 0xE951_E952_E953_B3A4_E954_E955_E956_E957_E958_E959_E95A_E95B),
  (0x9588, 0xE95C_E95D_E95E_E95F_E960_E961_E962_E963_E964_E965_E966_E967),
  (0x9594, 0xE968_E969_E96A_E96B_E96C_E96D_E96E_E96F_E970_E971_E972_E973),
  (0x95A0, 0xE974_E975_E976_E977_E978_E979_E97A_E97B_E97C_E97D_E97E_E980),
  (0x95AC, 0xE981_E982_E983_E984_E985_E986_E987_E988_E989_E98A_E98B_E98C),
  (0x95B8, 0xE98D_E98E_E98F_E990_E991_E992_E993_E994_E995_E996_E997_E998),
  (0x95C4, 0xE999_E99A_E99B_E99C_E99D_E99E_E99F_E9A0_EA40_EA41_EA42_EA43),
  (0x95D0, 0xEA44_EA45_EA46_EA47_EA48_EA49_EA4A_EA4B_EA4C_EA4D_EA4E_EA4F),
  (0x95DC, 0xEA50_EA51_EA52_EA53_EA54_EA55_EA56_EA57_EA58_EA59_EA5A_EA5B),
  (0x95E8, 0xC3C5_E3C5_C9C1_E3C6_EA5C_B1D5_CECA_B4B3_C8F2_E3C7_CFD0_E3C8),
  (0x95F4, 0xBCE4_E3C9_E3CA_C3C6_D5A2_C4D6_B9EB_CEC5_E3CB_C3F6_E3CC_EA5D),
  (0x9600, 0xB7A7_B8F3_BAD2_E3CD_E3CE_D4C4_E3CF_EA5E_E3D0_D1CB_E3D1_E3D2),
  (0x960C, 0xE3D3_E3D4_D1D6_E3D5_B2FB_C0BB_E3D6_EA5F_C0AB_E3D7_E3D8_E3D9),
  (0x9618, 0xEA60_E3DA_E3DB_EA61_B8B7_DAE2_EA62_B6D3_EA63_DAE4_DAE3_EA64),
  (0x9624, 0xEA65_EA66_EA67_EA68_EA69_EA6A_DAE6_EA6B_EA6C_EA6D_C8EE_EA6E),
  (0x9630, 0xEA6F_DAE5_B7C0_D1F4_D2F5_D5F3_BDD7_EA70_EA71_EA72_EA73_D7E8),
  (0x963C, 0xDAE8_DAE7_EA74_B0A2_CDD3_EA75_DAE9_EA76_B8BD_BCCA_C2BD_C2A4),
  (0x9648, 0xB3C2_DAEA_EA77_C2AA_C4B0_BDB5_EA78_EA79_CFDE_EA7A_EA7B_EA7C),
  (0x9654, 0xDAEB_C9C2_EA7D_EA7E_EA80_EA81_EA82_B1DD_EA83_EA84_EA85_DAEC),
  (0x9660, 0xEA86_B6B8_D4BA_EA87_B3FD_EA88_EA89_DAED_D4C9_CFD5_C5E3_EA8A),
  (0x966C, 0xDAEE_EA8B_EA8C_EA8D_EA8E_EA8F_DAEF_EA90_DAF0_C1EA_CCD5_CFDD),
  (0x9678, 0xEA91_EA92_EA93_EA94_EA95_EA96_EA97_EA98_EA99_EA9A_EA9B_EA9C),
  (0x9684, 0xEA9D_D3E7_C2A1_EA9E_DAF1_EA9F_EAA0_CBE5_EB40_DAF2_EB41_CBE6),
  (0x9690, 0xD2FE_EB42_EB43_EB44_B8F4_EB45_EB46_DAF3_B0AF_CFB6_EB47_EB48),
  (0x969C, 0xD5CF_EB49_EB4A_EB4B_EB4C_EB4D_EB4E_EB4F_EB50_EB51_EB52_CBED),
  (0x96A8, 0xEB53_EB54_EB55_EB56_EB57_EB58_EB59_EB5A_DAF4_EB5B_EB5C_E3C4),
  (0x96B4, 0xEB5D_EB5E_C1A5_EB5F_EB60_F6BF_EB61_EB62_F6C0_F6C1_C4D1_EB63),
  (0x96C0, 0xC8B8_D1E3_EB64_EB65_D0DB_D1C5_BCAF_B9CD_EB66_EFF4_EB67_EB68),
  (0x96CC, 0xB4C6_D3BA_F6C2_B3FB_EB69_EB6A_F6C3_EB6B_EB6C_B5F1_EB6D_EB6E),
  (0x96D8, 0xEB6F_EB70_EB71_EB72_EB73_EB74_EB75_EB76_F6C5_EB77_EB78_EB79),
  (0x96E4, 0xEB7A_EB7B_EB7C_EB7D_D3EA_F6A7_D1A9_EB7E_EB80_EB81_EB82_F6A9),
  (0x96F0, 0xEB83_EB84_EB85_F6A8_EB86_EB87_C1E3_C0D7_EB88_B1A2_EB89_EB8A),
  (0x96FC, 0xEB8B_EB8C_CEED_EB8D_D0E8_F6AB_EB8E_EB8F_CFF6_EB90_F6AA_D5F0),
  (0x9708, 0xF6AC_C3B9_EB91_EB92_EB93_BBF4_F6AE_F6AD_EB94_EB95_EB96_C4DE),
  (0x9714, 0xEB97_EB98_C1D8_EB99_EB9A_EB9B_EB9C_EB9D_CBAA_EB9E_CFBC_EB9F),
  (0x9720, 0xEBA0_EC40_EC41_EC42_EC43_EC44_EC45_EC46_EC47_EC48_F6AF_EC49),
  (0x972C, 0xEC4A_F6B0_EC4B_EC4C_F6B1_EC4D_C2B6_EC4E_EC4F_EC50_EC51_EC52),
  (0x9738, 0xB0D4_C5F9_EC53_EC54_EC55_EC56_F6B2_EC57_EC58_EC59_EC5A_EC5B),
  (0x9744, 0xEC5C_EC5D_EC5E_EC5F_EC60_EC61_EC62_EC63_EC64_EC65_EC66_EC67),
  (0x9750, 0xEC68_EC69_C7E0_F6A6_EC6A_EC6B_BEB8_EC6C_EC6D_BEB2_EC6E_B5E5),
  (0x975C, 0xEC6F_EC70_B7C7_EC71_BFBF_C3D2_C3E6_EC72_EC73_D8CC_EC74_EC75),
  (0x9768, 0xEC76_B8EF_EC77_EC78_EC79_EC7A_EC7B_EC7C_EC7D_EC7E_EC80_BDF9),
  (0x9774, 0xD1A5_EC81_B0D0_EC82_EC83_EC84_EC85_EC86_F7B0_EC87_EC88_EC89),
  (0x9780, 0xEC8A_EC8B_EC8C_EC8D_EC8E_F7B1_EC8F_EC90_EC91_EC92_EC93_D0AC),
  (0x978C, 0xEC94_B0B0_EC95_EC96_EC97_F7B2_F7B3_EC98_F7B4_EC99_EC9A_EC9B),
  (0x9798, 0xC7CA_EC9C_EC9D_EC9E_EC9F_ECA0_ED40_ED41_BECF_ED42_ED43_F7B7),
  (0x97A4, 0xED44_ED45_ED46_ED47_ED48_ED49_ED4A_F7B6_ED4B_B1DE_ED4C_F7B5),
  (0x97B0, 0xED4D_ED4E_F7B8_ED4F_F7B9_ED50_ED51_ED52_ED53_ED54_ED55_ED56),
  (0x97BC, 0xED57_ED58_ED59_ED5A_ED5B_ED5C_ED5D_ED5E_ED5F_ED60_ED61_ED62),
  (0x97C8, 0xED63_ED64_ED65_ED66_ED67_ED68_ED69_ED6A_ED6B_ED6C_ED6D_ED6E),
  (0x97D4, 0xED6F_ED70_ED71_ED72_ED73_ED74_ED75_ED76_ED77_ED78_ED79_ED7A),
  (0x97E0, 0xED7B_ED7C_ED7D_ED7E_ED80_ED81_CEA4_C8CD_ED82_BAAB_E8B8_E8B9),
  (0x97EC, 0xE8BA_BEC2_ED83_ED84_ED85_ED86_ED87_D2F4_ED88_D4CF_C9D8_ED89),
  (0x97F8, 0xED8A_ED8B_ED8C_ED8D_ED8E_ED8F_ED90_ED91_ED92_ED93_ED94_ED95),
  (0x9804, 0xED96_ED97_ED98_ED99_ED9A_ED9B_ED9C_ED9D_ED9E_ED9F_EDA0_EE40),
  (0x9810, 0xEE41_EE42_EE43_EE44_EE45_EE46_EE47_EE48_EE49_EE4A_EE4B_EE4C),
  (0x981C, 0xEE4D_EE4E_EE4F_EE50_EE51_EE52_EE53_EE54_EE55_EE56_EE57_EE58),
  (0x9828, 0xEE59_EE5A_EE5B_EE5C_EE5D_EE5E_EE5F_EE60_EE61_EE62_EE63_EE64),
  (0x9834, 0xEE65_EE66_EE67_EE68_EE69_EE6A_EE6B_EE6C_EE6D_EE6E_EE6F_EE70),
  (0x9840, 0xEE71_EE72_EE73_EE74_EE75_EE76_EE77_EE78_EE79_EE7A_EE7B_EE7C),
  (0x984C, 0xEE7D_EE7E_EE80_EE81_EE82_EE83_EE84_EE85_EE86_EE87_EE88_EE89),
  (0x9858, 0xEE8A_EE8B_EE8C_EE8D_EE8E_EE8F_EE90_EE91_EE92_EE93_EE94_EE95),
  (0x9864, 0xEE96_EE97_EE98_EE99_EE9A_EE9B_EE9C_EE9D_EE9E_EE9F_EEA0_EF40),
  (0x9870, 0xEF41_EF42_EF43_EF44_EF45_D2B3_B6A5_C7EA_F1FC_CFEE_CBB3_D0EB),
  (0x987C, 0xE7EF_CDE7_B9CB_B6D9_F1FD_B0E4_CBCC_F1FE_D4A4_C2AD_C1EC_C6C4),
  (0x9888, 0xBEB1_F2A1_BCD5_EF46_F2A2_F2A3_EF47_F2A4_D2C3_C6B5_EF48_CDC7),
  (0x9894, 0xF2A5_EF49_D3B1_BFC5_CCE2_EF4A_F2A6_F2A7_D1D5_B6EE_F2A8_F2A9),
  (0x98A0, 0xB5DF_F2AA_F2AB_EF4B_B2FC_F2AC_F2AD_C8A7_EF4C_EF4D_EF4E_EF4F),
  (0x98AC, 0xEF50_EF51_EF52_EF53_EF54_EF55_EF56_EF57_EF58_EF59_EF5A_EF5B),
  (0x98B8, 0xEF5C_EF5D_EF5E_EF5F_EF60_EF61_EF62_EF63_EF64_EF65_EF66_EF67),
  (0x98C4, 0xEF68_EF69_EF6A_EF6B_EF6C_EF6D_EF6E_EF6F_EF70_EF71_B7E7_EF72),
  (0x98D0, 0xEF73_ECA9_ECAA_ECAB_EF74_ECAC_EF75_EF76_C6AE_ECAD_ECAE_EF77),
  (0x98DC, 0xEF78_EF79_B7C9_CAB3_EF7A_EF7B_EF7C_EF7D_EF7E_EF80_EF81_E2B8),
  (0x98E8, 0xF7CF_EF82_EF83_EF84_EF85_EF86_EF87_EF88_EF89_EF8A_EF8B_EF8C),
  (0x98F4, 0xEF8D_EF8E_EF8F_EF90_EF91_EF92_EF93_EF94_EF95_EF96_EF97_EF98),
  (0x9900, 0xEF99_EF9A_EF9B_EF9C_EF9D_EF9E_EF9F_EFA0_F040_F041_F042_F043),
  (0x990C, 0xF044_F7D0_F045_F046_B2CD_F047_F048_F049_F04A_F04B_F04C_F04D),
  (0x9918, 0xF04E_F04F_F050_F051_F052_F053_F054_F055_F056_F057_F058_F059),
  (0x9924, 0xF05A_F05B_F05C_F05D_F05E_F05F_F060_F061_F062_F063_F7D1_F064),
  (0x9930, 0xF065_F066_F067_F068_F069_F06A_F06B_F06C_F06D_F06E_F06F_F070),
  (0x993C, 0xF071_F072_F073_F074_F075_F076_F077_F078_F079_F07A_F07B_F07C),
  (0x9948, 0xF07D_F07E_F080_F081_F082_F083_F084_F085_F086_F087_F088_F089),
  (0x9954, 0xF7D3_F7D2_F08A_F08B_F08C_F08D_F08E_F08F_F090_F091_F092_F093),
  (0x9960, 0xF094_F095_F096_E2BB_F097_BCA2_F098_E2BC_E2BD_E2BE_E2BF_E2C0),
  (0x996C, 0xE2C1_B7B9_D2FB_BDA4_CACE_B1A5_CBC7_F099_E2C2_B6FC_C8C4_E2C3),
  (0x9978, 0xF09A_F09B_BDC8_F09C_B1FD_E2C4_F09D_B6F6_E2C5_C4D9_F09E_F09F),
  (0x9984, 0xE2C6_CFDA_B9DD_E2C7_C0A1_F0A0_E2C8_B2F6_F140_E2C9_F141_C1F3),
  (0x9990, 0xE2CA_E2CB_C2F8_E2CC_E2CD_E2CE_CAD7_D8B8_D9E5_CFE3_F142_F143),
  (0x999C, 0xF144_F145_F146_F147_F148_F149_F14A_F14B_F14C_F0A5_F14D_F14E),
  (0x99A8, 0xDCB0_F14F_F150_F151_F152_F153_F154_F155_F156_F157_F158_F159),
  (0x99B4, 0xF15A_F15B_F15C_F15D_F15E_F15F_F160_F161_F162_F163_F164_F165),
  (0x99C0, 0xF166_F167_F168_F169_F16A_F16B_F16C_F16D_F16E_F16F_F170_F171),
  (0x99CC, 0xF172_F173_F174_F175_F176_F177_F178_F179_F17A_F17B_F17C_F17D),
  (0x99D8, 0xF17E_F180_F181_F182_F183_F184_F185_F186_F187_F188_F189_F18A),
  (0x99E4, 0xF18B_F18C_F18D_F18E_F18F_F190_F191_F192_F193_F194_F195_F196),
  (0x99F0, 0xF197_F198_F199_F19A_F19B_F19C_F19D_F19E_F19F_F1A0_F240_F241),
  (0x99FC, 0xF242_F243_F244_F245_F246_F247_F248_F249_F24A_F24B_F24C_F24D),
  (0x9A08, 0xF24E_F24F_F250_F251_F252_F253_F254_F255_F256_F257_F258_F259),
  (0x9A14, 0xF25A_F25B_F25C_F25D_F25E_F25F_F260_F261_F262_F263_F264_F265),
  (0x9A20, 0xF266_F267_F268_F269_F26A_F26B_F26C_F26D_F26E_F26F_F270_F271),
  (0x9A2C, 0xF272_F273_F274_F275_F276_F277_F278_F279_F27A_F27B_F27C_F27D),
  (0x9A38, 0xF27E_F280_F281_F282_F283_F284_F285_F286_F287_F288_F289_F28A),
  (0x9A44, 0xF28B_F28C_F28D_F28E_F28F_F290_F291_F292_F293_F294_F295_F296),
  (0x9A50, 0xF297_F298_F299_F29A_F29B_F29C_F29D_F29E_F29F_F2A0_F340_F341),
  (0x9A5C, 0xF342_F343_F344_F345_F346_F347_F348_F349_F34A_F34B_F34C_F34D),
  (0x9A68, 0xF34E_F34F_F350_F351_C2ED_D4A6_CDD4_D1B1_B3DB_C7FD_F352_B2B5),
  (0x9A74, 0xC2BF_E6E0_CABB_E6E1_E6E2_BED4_E6E3_D7A4_CDD5_E6E5_BCDD_E6E4),
  (0x9A80, 0xE6E6_E6E7_C2EE_F353_BDBE_E6E8_C2E6_BAA7_E6E9_F354_E6EA_B3D2),
  (0x9A8C, 0xD1E9_F355_F356_BFA5_E6EB_C6EF_E6EC_E6ED_F357_F358_E6EE_C6AD),
  (0x9A98, 0xE6EF_F359_C9A7_E6F0_E6F1_E6F2_E5B9_E6F3_E6F4_C2E2_E6F5_E6F6),
  (0x9AA4, 0xD6E8_E6F7_F35A_E6F8_B9C7_F35B_F35C_F35D_F35E_F35F_F360_F361),
  (0x9AB0, 0xF7BB_F7BA_F362_F363_F364_F365_F7BE_F7BC_BAA1_F366_F7BF_F367),
  (0x9ABC, 0xF7C0_F368_F369_F36A_F7C2_F7C1_F7C4_F36B_F36C_F7C3_F36D_F36E),
  (0x9AC8, 0xF36F_F370_F371_F7C5_F7C6_F372_F373_F374_F375_F7C7_F376_CBE8),
  (0x9AD4, 0xF377_F378_F379_F37A_B8DF_F37B_F37C_F37D_F37E_F380_F381_F7D4),
  (0x9AE0, 0xF382_F7D5_F383_F384_F385_F386_F7D6_F387_F388_F389_F38A_F7D8),
  (0x9AEC, 0xF38B_F7DA_F38C_F7D7_F38D_F38E_F38F_F390_F391_F392_F393_F394),
  (0x9AF8, 0xF395_F7DB_F396_F7D9_F397_F398_F399_F39A_F39B_F39C_F39D_D7D7),
  (0x9B04, 0xF39E_F39F_F3A0_F440_F7DC_F441_F442_F443_F444_F445_F446_F7DD),
  (0x9B10, 0xF447_F448_F449_F7DE_F44A_F44B_F44C_F44D_F44E_F44F_F450_F451),
  (0x9B1C, 0xF452_F453_F454_F7DF_F455_F456_F457_F7E0_F458_F459_F45A_F45B),
  (0x9B28, 0xF45C_F45D_F45E_F45F_F460_F461_F462_DBCB_F463_F464_D8AA_F465),
  (0x9B34, 0xF466_F467_F468_F469_F46A_F46B_F46C_E5F7_B9ED_F46D_F46E_F46F),
  (0x9B40, 0xF470_BFFD_BBEA_F7C9_C6C7_F7C8_F471_F7CA_F7CC_F7CB_F472_F473),
  (0x9B4C, 0xF474_F7CD_F475_CEBA_F476_F7CE_F477_F478_C4A7_F479_F47A_F47B),
  (0x9B58, 0xF47C_F47D_F47E_F480_F481_F482_F483_F484_F485_F486_F487_F488),
  (0x9B64, 0xF489_F48A_F48B_F48C_F48D_F48E_F48F_F490_F491_F492_F493_F494),
  (0x9B70, 0xF495_F496_F497_F498_F499_F49A_F49B_F49C_F49D_F49E_F49F_F4A0),
  (0x9B7C, 0xF540_F541_F542_F543_F544_F545_F546_F547_F548_F549_F54A_F54B),
  (0x9B88, 0xF54C_F54D_F54E_F54F_F550_F551_F552_F553_F554_F555_F556_F557),
  (0x9B94, 0xF558_F559_F55A_F55B_F55C_F55D_F55E_F55F_F560_F561_F562_F563),
  (0x9BA0, 0xF564_F565_F566_F567_F568_F569_F56A_F56B_F56C_F56D_F56E_F56F),
  (0x9BAC, 0xF570_F571_F572_F573_F574_F575_F576_F577_F578_F579_F57A_F57B),
  (0x9BB8, 0xF57C_F57D_F57E_F580_F581_F582_F583_F584_F585_F586_F587_F588),
  (0x9BC4, 0xF589_F58A_F58B_F58C_F58D_F58E_F58F_F590_F591_F592_F593_F594),
  (0x9BD0, 0xF595_F596_F597_F598_F599_F59A_F59B_F59C_F59D_F59E_F59F_F5A0),
  (0x9BDC, 0xF640_F641_F642_F643_F644_F645_F646_F647_F648_F649_F64A_F64B),
  (0x9BE8, 0xF64C_F64D_F64E_F64F_F650_F651_F652_F653_F654_F655_F656_F657),
  (0x9BF4, 0xF658_F659_F65A_F65B_F65C_F65D_F65E_F65F_F660_F661_F662_F663),
  (0x9C00, 0xF664_F665_F666_F667_F668_F669_F66A_F66B_F66C_F66D_F66E_F66F),
  (0x9C0C, 0xF670_F671_F672_F673_F674_F675_F676_F677_F678_F679_F67A_F67B),
  (0x9C18, 0xF67C_F67D_F67E_F680_F681_F682_F683_F684_F685_F686_F687_F688),
  (0x9C24, 0xF689_F68A_F68B_F68C_F68D_F68E_F68F_F690_F691_F692_F693_F694),
  (0x9C30, 0xF695_F696_F697_F698_F699_F69A_F69B_F69C_F69D_F69E_F69F_F6A0),
  (0x9C3C, 0xF740_F741_F742_F743_F744_F745_F746_F747_F748_F749_F74A_F74B),
  (0x9C48, 0xF74C_F74D_F74E_F74F_F750_F751_F752_F753_F754_F755_F756_F757),
  (0x9C54, 0xF758_F759_F75A_F75B_F75C_F75D_F75E_F75F_F760_F761_F762_F763),
  (0x9C60, 0xF764_F765_F766_F767_F768_F769_F76A_F76B_F76C_F76D_F76E_F76F),
  (0x9C6C, 0xF770_F771_F772_F773_F774_F775_F776_F777_F778_F779_F77A_F77B),
  (0x9C78, 0xF77C_F77D_F77E_F780_D3E3_F781_F782_F6CF_F783_C2B3_F6D0_F784),
  (0x9C84, 0xF785_F6D1_F6D2_F6D3_F6D4_F786_F787_F6D6_F788_B1AB_F6D7_F789),
  (0x9C90, 0xF6D8_F6D9_F6DA_F78A_F6DB_F6DC_F78B_F78C_F78D_F78E_F6DD_F6DE),
  (0x9C9C, 0xCFCA_F78F_F6DF_F6E0_F6E1_F6E2_F6E3_F6E4_C0F0_F6E5_F6E6_F6E7),
  (0x9CA8, 0xF6E8_F6E9_F790_F6EA_F791_F6EB_F6EC_F792_F6ED_F6EE_F6EF_F6F0),
  (0x9CB4, 0xF6F1_F6F2_F6F3_F6F4_BEA8_F793_F6F5_F6F6_F6F7_F6F8_F794_F795),
  (0x9CC0, 0xF796_F797_F798_C8FA_F6F9_F6FA_F6FB_F6FC_F799_F79A_F6FD_F6FE),
  (0x9CCC, 0xF7A1_F7A2_F7A3_F7A4_F7A5_F79B_F79C_F7A6_F7A7_F7A8_B1EE_F7A9),
  (0x9CD8, 0xF7AA_F7AB_F79D_F79E_F7AC_F7AD_C1DB_F7AE_F79F_F7A0_F7AF_F840),
  (0x9CE4, 0xF841_F842_F843_F844_F845_F846_F847_F848_F849_F84A_F84B_F84C),
  (0x9CF0, 0xF84D_F84E_F84F_F850_F851_F852_F853_F854_F855_F856_F857_F858),
  (0x9CFC, 0xF859_F85A_F85B_F85C_F85D_F85E_F85F_F860_F861_F862_F863_F864),
  (0x9D08, 0xF865_F866_F867_F868_F869_F86A_F86B_F86C_F86D_F86E_F86F_F870),
  (0x9D14, 0xF871_F872_F873_F874_F875_F876_F877_F878_F879_F87A_F87B_F87C),
  (0x9D20, 0xF87D_F87E_F880_F881_F882_F883_F884_F885_F886_F887_F888_F889),
  (0x9D2C, 0xF88A_F88B_F88C_F88D_F88E_F88F_F890_F891_F892_F893_F894_F895),
  (0x9D38, 0xF896_F897_F898_F899_F89A_F89B_F89C_F89D_F89E_F89F_F8A0_F940),
  (0x9D44, 0xF941_F942_F943_F944_F945_F946_F947_F948_F949_F94A_F94B_F94C),
  (0x9D50, 0xF94D_F94E_F94F_F950_F951_F952_F953_F954_F955_F956_F957_F958),
  (0x9D5C, 0xF959_F95A_F95B_F95C_F95D_F95E_F95F_F960_F961_F962_F963_F964),
  (0x9D68, 0xF965_F966_F967_F968_F969_F96A_F96B_F96C_F96D_F96E_F96F_F970),
  (0x9D74, 0xF971_F972_F973_F974_F975_F976_F977_F978_F979_F97A_F97B_F97C),
  (0x9D80, 0xF97D_F97E_F980_F981_F982_F983_F984_F985_F986_F987_F988_F989),
  (0x9D8C, 0xF98A_F98B_F98C_F98D_F98E_F98F_F990_F991_F992_F993_F994_F995),
  (0x9D98, 0xF996_F997_F998_F999_F99A_F99B_F99C_F99D_F99E_F99F_F9A0_FA40),
  (0x9DA4, 0xFA41_FA42_FA43_FA44_FA45_FA46_FA47_FA48_FA49_FA4A_FA4B_FA4C),
  (0x9DB0, 0xFA4D_FA4E_FA4F_FA50_FA51_FA52_FA53_FA54_FA55_FA56_FA57_FA58),
  (0x9DBC, 0xFA59_FA5A_FA5B_FA5C_FA5D_FA5E_FA5F_FA60_FA61_FA62_FA63_FA64),
  (0x9DC8, 0xFA65_FA66_FA67_FA68_FA69_FA6A_FA6B_FA6C_FA6D_FA6E_FA6F_FA70),
  (0x9DD4, 0xFA71_FA72_FA73_FA74_FA75_FA76_FA77_FA78_FA79_FA7A_FA7B_FA7C),
  (0x9DE0, 0xFA7D_FA7E_FA80_FA81_FA82_FA83_FA84_FA85_FA86_FA87_FA88_FA89),
  (0x9DEC, 0xFA8A_FA8B_FA8C_FA8D_FA8E_FA8F_FA90_FA91_FA92_FA93_FA94_FA95),
  (0x9DF8, 0xFA96_FA97_FA98_FA99_FA9A_FA9B_FA9C_FA9D_FA9E_FA9F_FAA0_FB40),
  (0x9E04, 0xFB41_FB42_FB43_FB44_FB45_FB46_FB47_FB48_FB49_FB4A_FB4B_FB4C),
  (0x9E10, 0xFB4D_FB4E_FB4F_FB50_FB51_FB52_FB53_FB54_FB55_FB56_FB57_FB58),
  (0x9E1C, 0xFB59_FB5A_FB5B_C4F1_F0AF_BCA6_F0B0_C3F9_FB5C_C5B8_D1BB_FB5D),
  (0x9E28, 0xF0B1_F0B2_F0B3_F0B4_F0B5_D1BC_FB5E_D1EC_FB5F_F0B7_F0B6_D4A7),
  (0x9E34, 0xFB60_CDD2_F0B8_F0BA_F0B9_F0BB_F0BC_FB61_FB62_B8EB_F0BD_BAE8),
  (0x9E40, 0xFB63_F0BE_F0BF_BEE9_F0C0_B6EC_F0C1_F0C2_F0C3_F0C4_C8B5_F0C5),
  (0x9E4C, 0xF0C6_FB64_F0C7_C5F4_FB65_F0C8_FB66_FB67_FB68_F0C9_FB69_F0CA),
  (0x9E58, 0xF7BD_FB6A_F0CB_F0CC_F0CD_FB6B_F0CE_FB6C_FB6D_FB6E_FB6F_F0CF),
  (0x9E64, 0xBAD7_FB70_F0D0_F0D1_F0D2_F0D3_F0D4_F0D5_F0D6_F0D8_FB71_FB72),
  (0x9E70, 0xD3A5_F0D7_FB73_F0D9_FB74_FB75_FB76_FB77_FB78_FB79_FB7A_FB7B),
  (0x9E7C, 0xFB7C_FB7D_F5BA_C2B9_FB7E_FB80_F7E4_FB81_FB82_FB83_FB84_F7E5),
  (0x9E88, 0xF7E6_FB85_FB86_F7E7_FB87_FB88_FB89_FB8A_FB8B_FB8C_F7E8_C2B4),
  (0x9E94, 0xFB8D_FB8E_FB8F_FB90_FB91_FB92_FB93_FB94_FB95_F7EA_FB96_F7EB),
  (0x9EA0, 0xFB97_FB98_FB99_FB9A_FB9B_FB9C_C2F3_FB9D_FB9E_FB9F_FBA0_FC40),
  (0x9EAC, 0xFC41_FC42_FC43_FC44_FC45_FC46_FC47_FC48_F4F0_FC49_FC4A_FC4B),
  (0x9EB8, 0xF4EF_FC4C_FC4D_C2E9_FC4E_F7E1_F7E2_FC4F_FC50_FC51_FC52_FC53),
  (0x9EC4, 0xBBC6_FC54_FC55_FC56_FC57_D9E4_FC58_FC59_FC5A_CAF2_C0E8_F0A4),
  (0x9ED0, 0xFC5B_BADA_FC5C_FC5D_C7AD_FC5E_FC5F_FC60_C4AC_FC61_FC62_F7EC),
  (0x9EDC, 0xF7ED_F7EE_FC63_F7F0_F7EF_FC64_F7F1_FC65_FC66_F7F4_FC67_F7F3),
  (0x9EE8, 0xFC68_F7F2_F7F5_FC69_FC6A_FC6B_FC6C_F7F6_FC6D_FC6E_FC6F_FC70),
  (0x9EF4, 0xFC71_FC72_FC73_FC74_FC75_EDE9_FC76_EDEA_EDEB_FC77_F6BC_FC78),
  (0x9F00, 0xFC79_FC7A_FC7B_FC7C_FC7D_FC7E_FC80_FC81_FC82_FC83_FC84_F6BD),
  (0x9F0C, 0xFC85_F6BE_B6A6_FC86_D8BE_FC87_FC88_B9C4_FC89_FC8A_FC8B_D8BB),
  (0x9F18, 0xFC8C_DCB1_FC8D_FC8E_FC8F_FC90_FC91_FC92_CAF3_FC93_F7F7_FC94),
  (0x9F24, 0xFC95_FC96_FC97_FC98_FC99_FC9A_FC9B_FC9C_F7F8_FC9D_FC9E_F7F9),
  (0x9F30, 0xFC9F_FCA0_FD40_FD41_FD42_FD43_FD44_F7FB_FD45_F7FA_FD46_B1C7),
  (0x9F3C, 0xFD47_F7FC_F7FD_FD48_FD49_FD4A_FD4B_FD4C_F7FE_FD4D_FD4E_FD4F),
  (0x9F48, 0xFD50_FD51_FD52_FD53_FD54_FD55_FD56_FD57_C6EB_ECB4_FD58_FD59),
  (0x9F54, 0xFD5A_FD5B_FD5C_FD5D_FD5E_FD5F_FD60_FD61_FD62_FD63_FD64_FD65),
  (0x9F60, 0xFD66_FD67_FD68_FD69_FD6A_FD6B_FD6C_FD6D_FD6E_FD6F_FD70_FD71),
  (0x9F6C, 0xFD72_FD73_FD74_FD75_FD76_FD77_FD78_FD79_FD7A_FD7B_FD7C_FD7D),
  (0x9F78, 0xFD7E_FD80_FD81_FD82_FD83_FD84_FD85_B3DD_F6B3_FD86_FD87_F6B4),
  (0x9F84, 0xC1E4_F6B5_F6B6_F6B7_F6B8_F6B9_F6BA_C8A3_F6BB_FD88_FD89_FD8A),
  (0x9F90, 0xFD8B_FD8C_FD8D_FD8E_FD8F_FD90_FD91_FD92_FD93_C1FA_B9A8_EDE8),
  (0x9F9C, 0xFD94_FD95_FD96_B9EA_D9DF_FD97_FD98_FD99_FD9A_FD9B),
  (0xE000, 0xAAA1_AAA2_AAA3_AAA4_AAA5_AAA6_AAA7_AAA8_AAA9_AAAA_AAAB_AAAC),
  (0xE00C, 0xAAAD_AAAE_AAAF_AAB0_AAB1_AAB2_AAB3_AAB4_AAB5_AAB6_AAB7_AAB8),
  (0xE018, 0xAAB9_AABA_AABB_AABC_AABD_AABE_AABF_AAC0_AAC1_AAC2_AAC3_AAC4),
  (0xE024, 0xAAC5_AAC6_AAC7_AAC8_AAC9_AACA_AACB_AACC_AACD_AACE_AACF_AAD0),
  (0xE030, 0xAAD1_AAD2_AAD3_AAD4_AAD5_AAD6_AAD7_AAD8_AAD9_AADA_AADB_AADC),
  (0xE03C, 0xAADD_AADE_AADF_AAE0_AAE1_AAE2_AAE3_AAE4_AAE5_AAE6_AAE7_AAE8),
  (0xE048, 0xAAE9_AAEA_AAEB_AAEC_AAED_AAEE_AAEF_AAF0_AAF1_AAF2_AAF3_AAF4),
  (0xE054, 0xAAF5_AAF6_AAF7_AAF8_AAF9_AAFA_AAFB_AAFC_AAFD_AAFE_ABA1_ABA2),
  (0xE060, 0xABA3_ABA4_ABA5_ABA6_ABA7_ABA8_ABA9_ABAA_ABAB_ABAC_ABAD_ABAE),
  (0xE06C, 0xABAF_ABB0_ABB1_ABB2_ABB3_ABB4_ABB5_ABB6_ABB7_ABB8_ABB9_ABBA),
  (0xE078, 0xABBB_ABBC_ABBD_ABBE_ABBF_ABC0_ABC1_ABC2_ABC3_ABC4_ABC5_ABC6),
  (0xE084, 0xABC7_ABC8_ABC9_ABCA_ABCB_ABCC_ABCD_ABCE_ABCF_ABD0_ABD1_ABD2),
  (0xE090, 0xABD3_ABD4_ABD5_ABD6_ABD7_ABD8_ABD9_ABDA_ABDB_ABDC_ABDD_ABDE),
  (0xE09C, 0xABDF_ABE0_ABE1_ABE2_ABE3_ABE4_ABE5_ABE6_ABE7_ABE8_ABE9_ABEA),
  (0xE0A8, 0xABEB_ABEC_ABED_ABEE_ABEF_ABF0_ABF1_ABF2_ABF3_ABF4_ABF5_ABF6),
  (0xE0B4, 0xABF7_ABF8_ABF9_ABFA_ABFB_ABFC_ABFD_ABFE_ACA1_ACA2_ACA3_ACA4),
  (0xE0C0, 0xACA5_ACA6_ACA7_ACA8_ACA9_ACAA_ACAB_ACAC_ACAD_ACAE_ACAF_ACB0),
  (0xE0CC, 0xACB1_ACB2_ACB3_ACB4_ACB5_ACB6_ACB7_ACB8_ACB9_ACBA_ACBB_ACBC),
  (0xE0D8, 0xACBD_ACBE_ACBF_ACC0_ACC1_ACC2_ACC3_ACC4_ACC5_ACC6_ACC7_ACC8),
  (0xE0E4, 0xACC9_ACCA_ACCB_ACCC_ACCD_ACCE_ACCF_ACD0_ACD1_ACD2_ACD3_ACD4),
  (0xE0F0, 0xACD5_ACD6_ACD7_ACD8_ACD9_ACDA_ACDB_ACDC_ACDD_ACDE_ACDF_ACE0),
  (0xE0FC, 0xACE1_ACE2_ACE3_ACE4_ACE5_ACE6_ACE7_ACE8_ACE9_ACEA_ACEB_ACEC),
  (0xE108, 0xACED_ACEE_ACEF_ACF0_ACF1_ACF2_ACF3_ACF4_ACF5_ACF6_ACF7_ACF8),
  (0xE114, 0xACF9_ACFA_ACFB_ACFC_ACFD_ACFE_ADA1_ADA2_ADA3_ADA4_ADA5_ADA6),
  (0xE120, 0xADA7_ADA8_ADA9_ADAA_ADAB_ADAC_ADAD_ADAE_ADAF_ADB0_ADB1_ADB2),
  (0xE12C, 0xADB3_ADB4_ADB5_ADB6_ADB7_ADB8_ADB9_ADBA_ADBB_ADBC_ADBD_ADBE),
  (0xE138, 0xADBF_ADC0_ADC1_ADC2_ADC3_ADC4_ADC5_ADC6_ADC7_ADC8_ADC9_ADCA),
  (0xE144, 0xADCB_ADCC_ADCD_ADCE_ADCF_ADD0_ADD1_ADD2_ADD3_ADD4_ADD5_ADD6),
  (0xE150, 0xADD7_ADD8_ADD9_ADDA_ADDB_ADDC_ADDD_ADDE_ADDF_ADE0_ADE1_ADE2),
  (0xE15C, 0xADE3_ADE4_ADE5_ADE6_ADE7_ADE8_ADE9_ADEA_ADEB_ADEC_ADED_ADEE),
  (0xE168, 0xADEF_ADF0_ADF1_ADF2_ADF3_ADF4_ADF5_ADF6_ADF7_ADF8_ADF9_ADFA),
  (0xE174, 0xADFB_ADFC_ADFD_ADFE_AEA1_AEA2_AEA3_AEA4_AEA5_AEA6_AEA7_AEA8),
  (0xE180, 0xAEA9_AEAA_AEAB_AEAC_AEAD_AEAE_AEAF_AEB0_AEB1_AEB2_AEB3_AEB4),
  (0xE18C, 0xAEB5_AEB6_AEB7_AEB8_AEB9_AEBA_AEBB_AEBC_AEBD_AEBE_AEBF_AEC0),
  (0xE198, 0xAEC1_AEC2_AEC3_AEC4_AEC5_AEC6_AEC7_AEC8_AEC9_AECA_AECB_AECC),
  (0xE1A4, 0xAECD_AECE_AECF_AED0_AED1_AED2_AED3_AED4_AED5_AED6_AED7_AED8),
  (0xE1B0, 0xAED9_AEDA_AEDB_AEDC_AEDD_AEDE_AEDF_AEE0_AEE1_AEE2_AEE3_AEE4),
  (0xE1BC, 0xAEE5_AEE6_AEE7_AEE8_AEE9_AEEA_AEEB_AEEC_AEED_AEEE_AEEF_AEF0),
  (0xE1C8, 0xAEF1_AEF2_AEF3_AEF4_AEF5_AEF6_AEF7_AEF8_AEF9_AEFA_AEFB_AEFC),
  (0xE1D4, 0xAEFD_AEFE_AFA1_AFA2_AFA3_AFA4_AFA5_AFA6_AFA7_AFA8_AFA9_AFAA),
  (0xE1E0, 0xAFAB_AFAC_AFAD_AFAE_AFAF_AFB0_AFB1_AFB2_AFB3_AFB4_AFB5_AFB6),
  (0xE1EC, 0xAFB7_AFB8_AFB9_AFBA_AFBB_AFBC_AFBD_AFBE_AFBF_AFC0_AFC1_AFC2),
  (0xE1F8, 0xAFC3_AFC4_AFC5_AFC6_AFC7_AFC8_AFC9_AFCA_AFCB_AFCC_AFCD_AFCE),
  (0xE204, 0xAFCF_AFD0_AFD1_AFD2_AFD3_AFD4_AFD5_AFD6_AFD7_AFD8_AFD9_AFDA),
  (0xE210, 0xAFDB_AFDC_AFDD_AFDE_AFDF_AFE0_AFE1_AFE2_AFE3_AFE4_AFE5_AFE6),
  (0xE21C, 0xAFE7_AFE8_AFE9_AFEA_AFEB_AFEC_AFED_AFEE_AFEF_AFF0_AFF1_AFF2),
  (0xE228, 0xAFF3_AFF4_AFF5_AFF6_AFF7_AFF8_AFF9_AFFA_AFFB_AFFC_AFFD_AFFE),
  (0xE234, 0xF8A1_F8A2_F8A3_F8A4_F8A5_F8A6_F8A7_F8A8_F8A9_F8AA_F8AB_F8AC),
  (0xE240, 0xF8AD_F8AE_F8AF_F8B0_F8B1_F8B2_F8B3_F8B4_F8B5_F8B6_F8B7_F8B8),
  (0xE24C, 0xF8B9_F8BA_F8BB_F8BC_F8BD_F8BE_F8BF_F8C0_F8C1_F8C2_F8C3_F8C4),
  (0xE258, 0xF8C5_F8C6_F8C7_F8C8_F8C9_F8CA_F8CB_F8CC_F8CD_F8CE_F8CF_F8D0),
  (0xE264, 0xF8D1_F8D2_F8D3_F8D4_F8D5_F8D6_F8D7_F8D8_F8D9_F8DA_F8DB_F8DC),
  (0xE270, 0xF8DD_F8DE_F8DF_F8E0_F8E1_F8E2_F8E3_F8E4_F8E5_F8E6_F8E7_F8E8),
  (0xE27C, 0xF8E9_F8EA_F8EB_F8EC_F8ED_F8EE_F8EF_F8F0_F8F1_F8F2_F8F3_F8F4),
  (0xE288, 0xF8F5_F8F6_F8F7_F8F8_F8F9_F8FA_F8FB_F8FC_F8FD_F8FE_F9A1_F9A2),
  (0xE294, 0xF9A3_F9A4_F9A5_F9A6_F9A7_F9A8_F9A9_F9AA_F9AB_F9AC_F9AD_F9AE),
  (0xE2A0, 0xF9AF_F9B0_F9B1_F9B2_F9B3_F9B4_F9B5_F9B6_F9B7_F9B8_F9B9_F9BA),
  (0xE2AC, 0xF9BB_F9BC_F9BD_F9BE_F9BF_F9C0_F9C1_F9C2_F9C3_F9C4_F9C5_F9C6),
  (0xE2B8, 0xF9C7_F9C8_F9C9_F9CA_F9CB_F9CC_F9CD_F9CE_F9CF_F9D0_F9D1_F9D2),
  (0xE2C4, 0xF9D3_F9D4_F9D5_F9D6_F9D7_F9D8_F9D9_F9DA_F9DB_F9DC_F9DD_F9DE),
  (0xE2D0, 0xF9DF_F9E0_F9E1_F9E2_F9E3_F9E4_F9E5_F9E6_F9E7_F9E8_F9E9_F9EA),
  (0xE2DC, 0xF9EB_F9EC_F9ED_F9EE_F9EF_F9F0_F9F1_F9F2_F9F3_F9F4_F9F5_F9F6),
  (0xE2E8, 0xF9F7_F9F8_F9F9_F9FA_F9FB_F9FC_F9FD_F9FE_FAA1_FAA2_FAA3_FAA4),
  (0xE2F4, 0xFAA5_FAA6_FAA7_FAA8_FAA9_FAAA_FAAB_FAAC_FAAD_FAAE_FAAF_FAB0),
  (0xE300, 0xFAB1_FAB2_FAB3_FAB4_FAB5_FAB6_FAB7_FAB8_FAB9_FABA_FABB_FABC),
  (0xE30C, 0xFABD_FABE_FABF_FAC0_FAC1_FAC2_FAC3_FAC4_FAC5_FAC6_FAC7_FAC8),
  (0xE318, 0xFAC9_FACA_FACB_FACC_FACD_FACE_FACF_FAD0_FAD1_FAD2_FAD3_FAD4),
  (0xE324, 0xFAD5_FAD6_FAD7_FAD8_FAD9_FADA_FADB_FADC_FADD_FADE_FADF_FAE0),
  (0xE330, 0xFAE1_FAE2_FAE3_FAE4_FAE5_FAE6_FAE7_FAE8_FAE9_FAEA_FAEB_FAEC),
  (0xE33C, 0xFAED_FAEE_FAEF_FAF0_FAF1_FAF2_FAF3_FAF4_FAF5_FAF6_FAF7_FAF8),
  (0xE348, 0xFAF9_FAFA_FAFB_FAFC_FAFD_FAFE_FBA1_FBA2_FBA3_FBA4_FBA5_FBA6),
  (0xE354, 0xFBA7_FBA8_FBA9_FBAA_FBAB_FBAC_FBAD_FBAE_FBAF_FBB0_FBB1_FBB2),
  (0xE360, 0xFBB3_FBB4_FBB5_FBB6_FBB7_FBB8_FBB9_FBBA_FBBB_FBBC_FBBD_FBBE),
  (0xE36C, 0xFBBF_FBC0_FBC1_FBC2_FBC3_FBC4_FBC5_FBC6_FBC7_FBC8_FBC9_FBCA),
  (0xE378, 0xFBCB_FBCC_FBCD_FBCE_FBCF_FBD0_FBD1_FBD2_FBD3_FBD4_FBD5_FBD6),
  (0xE384, 0xFBD7_FBD8_FBD9_FBDA_FBDB_FBDC_FBDD_FBDE_FBDF_FBE0_FBE1_FBE2),
  (0xE390, 0xFBE3_FBE4_FBE5_FBE6_FBE7_FBE8_FBE9_FBEA_FBEB_FBEC_FBED_FBEE),
  (0xE39C, 0xFBEF_FBF0_FBF1_FBF2_FBF3_FBF4_FBF5_FBF6_FBF7_FBF8_FBF9_FBFA),
  (0xE3A8, 0xFBFB_FBFC_FBFD_FBFE_FCA1_FCA2_FCA3_FCA4_FCA5_FCA6_FCA7_FCA8),
  (0xE3B4, 0xFCA9_FCAA_FCAB_FCAC_FCAD_FCAE_FCAF_FCB0_FCB1_FCB2_FCB3_FCB4),
  (0xE3C0, 0xFCB5_FCB6_FCB7_FCB8_FCB9_FCBA_FCBB_FCBC_FCBD_FCBE_FCBF_FCC0),
  (0xE3CC, 0xFCC1_FCC2_FCC3_FCC4_FCC5_FCC6_FCC7_FCC8_FCC9_FCCA_FCCB_FCCC),
  (0xE3D8, 0xFCCD_FCCE_FCCF_FCD0_FCD1_FCD2_FCD3_FCD4_FCD5_FCD6_FCD7_FCD8),
  (0xE3E4, 0xFCD9_FCDA_FCDB_FCDC_FCDD_FCDE_FCDF_FCE0_FCE1_FCE2_FCE3_FCE4),
  (0xE3F0, 0xFCE5_FCE6_FCE7_FCE8_FCE9_FCEA_FCEB_FCEC_FCED_FCEE_FCEF_FCF0),
  (0xE3FC, 0xFCF1_FCF2_FCF3_FCF4_FCF5_FCF6_FCF7_FCF8_FCF9_FCFA_FCFB_FCFC),
  (0xE408, 0xFCFD_FCFE_FDA1_FDA2_FDA3_FDA4_FDA5_FDA6_FDA7_FDA8_FDA9_FDAA),
  (0xE414, 0xFDAB_FDAC_FDAD_FDAE_FDAF_FDB0_FDB1_FDB2_FDB3_FDB4_FDB5_FDB6),
  (0xE420, 0xFDB7_FDB8_FDB9_FDBA_FDBB_FDBC_FDBD_FDBE_FDBF_FDC0_FDC1_FDC2),
  (0xE42C, 0xFDC3_FDC4_FDC5_FDC6_FDC7_FDC8_FDC9_FDCA_FDCB_FDCC_FDCD_FDCE),
  (0xE438, 0xFDCF_FDD0_FDD1_FDD2_FDD3_FDD4_FDD5_FDD6_FDD7_FDD8_FDD9_FDDA),
  (0xE444, 0xFDDB_FDDC_FDDD_FDDE_FDDF_FDE0_FDE1_FDE2_FDE3_FDE4_FDE5_FDE6),
  (0xE450, 0xFDE7_FDE8_FDE9_FDEA_FDEB_FDEC_FDED_FDEE_FDEF_FDF0_FDF1_FDF2),
  (0xE45C, 0xFDF3_FDF4_FDF5_FDF6_FDF7_FDF8_FDF9_FDFA_FDFB_FDFC_FDFD_FDFE),
  (0xE468, 0xFEA1_FEA2_FEA3_FEA4_FEA5_FEA6_FEA7_FEA8_FEA9_FEAA_FEAB_FEAC),
  (0xE474, 0xFEAD_FEAE_FEAF_FEB0_FEB1_FEB2_FEB3_FEB4_FEB5_FEB6_FEB7_FEB8),
  (0xE480, 0xFEB9_FEBA_FEBB_FEBC_FEBD_FEBE_FEBF_FEC0_FEC1_FEC2_FEC3_FEC4),
  (0xE48C, 0xFEC5_FEC6_FEC7_FEC8_FEC9_FECA_FECB_FECC_FECD_FECE_FECF_FED0),
  (0xE498, 0xFED1_FED2_FED3_FED4_FED5_FED6_FED7_FED8_FED9_FEDA_FEDB_FEDC),
  (0xE4A4, 0xFEDD_FEDE_FEDF_FEE0_FEE1_FEE2_FEE3_FEE4_FEE5_FEE6_FEE7_FEE8),
  (0xE4B0, 0xFEE9_FEEA_FEEB_FEEC_FEED_FEEE_FEEF_FEF0_FEF1_FEF2_FEF3_FEF4),
  (0xE4BC, 0xFEF5_FEF6_FEF7_FEF8_FEF9_FEFA_FEFB_FEFC_FEFD_FEFE_A140_A141),
  (0xE4C8, 0xA142_A143_A144_A145_A146_A147_A148_A149_A14A_A14B_A14C_A14D),
  (0xE4D4, 0xA14E_A14F_A150_A151_A152_A153_A154_A155_A156_A157_A158_A159),
  (0xE4E0, 0xA15A_A15B_A15C_A15D_A15E_A15F_A160_A161_A162_A163_A164_A165),
  (0xE4EC, 0xA166_A167_A168_A169_A16A_A16B_A16C_A16D_A16E_A16F_A170_A171),
  (0xE4F8, 0xA172_A173_A174_A175_A176_A177_A178_A179_A17A_A17B_A17C_A17D),
  (0xE504, 0xA17E_A180_A181_A182_A183_A184_A185_A186_A187_A188_A189_A18A),
  (0xE510, 0xA18B_A18C_A18D_A18E_A18F_A190_A191_A192_A193_A194_A195_A196),
  (0xE51C, 0xA197_A198_A199_A19A_A19B_A19C_A19D_A19E_A19F_A1A0_A240_A241),
  (0xE528, 0xA242_A243_A244_A245_A246_A247_A248_A249_A24A_A24B_A24C_A24D),
  (0xE534, 0xA24E_A24F_A250_A251_A252_A253_A254_A255_A256_A257_A258_A259),
  (0xE540, 0xA25A_A25B_A25C_A25D_A25E_A25F_A260_A261_A262_A263_A264_A265),
  (0xE54C, 0xA266_A267_A268_A269_A26A_A26B_A26C_A26D_A26E_A26F_A270_A271),
  (0xE558, 0xA272_A273_A274_A275_A276_A277_A278_A279_A27A_A27B_A27C_A27D),
  (0xE564, 0xA27E_A280_A281_A282_A283_A284_A285_A286_A287_A288_A289_A28A),
  (0xE570, 0xA28B_A28C_A28D_A28E_A28F_A290_A291_A292_A293_A294_A295_A296),
  (0xE57C, 0xA297_A298_A299_A29A_A29B_A29C_A29D_A29E_A29F_A2A0_A340_A341),
  (0xE588, 0xA342_A343_A344_A345_A346_A347_A348_A349_A34A_A34B_A34C_A34D),
  (0xE594, 0xA34E_A34F_A350_A351_A352_A353_A354_A355_A356_A357_A358_A359),
  (0xE5A0, 0xA35A_A35B_A35C_A35D_A35E_A35F_A360_A361_A362_A363_A364_A365),
  (0xE5AC, 0xA366_A367_A368_A369_A36A_A36B_A36C_A36D_A36E_A36F_A370_A371),
  (0xE5B8, 0xA372_A373_A374_A375_A376_A377_A378_A379_A37A_A37B_A37C_A37D),
  (0xE5C4, 0xA37E_A380_A381_A382_A383_A384_A385_A386_A387_A388_A389_A38A),
  (0xE5D0, 0xA38B_A38C_A38D_A38E_A38F_A390_A391_A392_A393_A394_A395_A396),
  (0xE5DC, 0xA397_A398_A399_A39A_A39B_A39C_A39D_A39E_A39F_A3A0_A440_A441),
  (0xE5E8, 0xA442_A443_A444_A445_A446_A447_A448_A449_A44A_A44B_A44C_A44D),
  (0xE5F4, 0xA44E_A44F_A450_A451_A452_A453_A454_A455_A456_A457_A458_A459),
  (0xE600, 0xA45A_A45B_A45C_A45D_A45E_A45F_A460_A461_A462_A463_A464_A465),
  (0xE60C, 0xA466_A467_A468_A469_A46A_A46B_A46C_A46D_A46E_A46F_A470_A471),
  (0xE618, 0xA472_A473_A474_A475_A476_A477_A478_A479_A47A_A47B_A47C_A47D),
  (0xE624, 0xA47E_A480_A481_A482_A483_A484_A485_A486_A487_A488_A489_A48A),
  (0xE630, 0xA48B_A48C_A48D_A48E_A48F_A490_A491_A492_A493_A494_A495_A496),
  (0xE63C, 0xA497_A498_A499_A49A_A49B_A49C_A49D_A49E_A49F_A4A0_A540_A541),
  (0xE648, 0xA542_A543_A544_A545_A546_A547_A548_A549_A54A_A54B_A54C_A54D),
  (0xE654, 0xA54E_A54F_A550_A551_A552_A553_A554_A555_A556_A557_A558_A559),
  (0xE660, 0xA55A_A55B_A55C_A55D_A55E_A55F_A560_A561_A562_A563_A564_A565),
  (0xE66C, 0xA566_A567_A568_A569_A56A_A56B_A56C_A56D_A56E_A56F_A570_A571),
  (0xE678, 0xA572_A573_A574_A575_A576_A577_A578_A579_A57A_A57B_A57C_A57D),
  (0xE684, 0xA57E_A580_A581_A582_A583_A584_A585_A586_A587_A588_A589_A58A),
  (0xE690, 0xA58B_A58C_A58D_A58E_A58F_A590_A591_A592_A593_A594_A595_A596),
  (0xE69C, 0xA597_A598_A599_A59A_A59B_A59C_A59D_A59E_A59F_A5A0_A640_A641),
  (0xE6A8, 0xA642_A643_A644_A645_A646_A647_A648_A649_A64A_A64B_A64C_A64D),
  (0xE6B4, 0xA64E_A64F_A650_A651_A652_A653_A654_A655_A656_A657_A658_A659),
  (0xE6C0, 0xA65A_A65B_A65C_A65D_A65E_A65F_A660_A661_A662_A663_A664_A665),
  (0xE6CC, 0xA666_A667_A668_A669_A66A_A66B_A66C_A66D_A66E_A66F_A670_A671),
  (0xE6D8, 0xA672_A673_A674_A675_A676_A677_A678_A679_A67A_A67B_A67C_A67D),
  (0xE6E4, 0xA67E_A680_A681_A682_A683_A684_A685_A686_A687_A688_A689_A68A),
  (0xE6F0, 0xA68B_A68C_A68D_A68E_A68F_A690_A691_A692_A693_A694_A695_A696),
  (0xE6FC, 0xA697_A698_A699_A69A_A69B_A69C_A69D_A69E_A69F_A6A0_A740_A741),
  (0xE708, 0xA742_A743_A744_A745_A746_A747_A748_A749_A74A_A74B_A74C_A74D),
  (0xE714, 0xA74E_A74F_A750_A751_A752_A753_A754_A755_A756_A757_A758_A759),
  (0xE720, 0xA75A_A75B_A75C_A75D_A75E_A75F_A760_A761_A762_A763_A764_A765),
  (0xE72C, 0xA766_A767_A768_A769_A76A_A76B_A76C_A76D_A76E_A76F_A770_A771),
  (0xE738, 0xA772_A773_A774_A775_A776_A777_A778_A779_A77A_A77B_A77C_A77D),
  (0xE744, 0xA77E_A780_A781_A782_A783_A784_A785_A786_A787_A788_A789_A78A),
  (0xE750, 0xA78B_A78C_A78D_A78E_A78F_A790_A791_A792_A793_A794_A795_A796),
  (0xE75C, 0xA797_A798_A799_A79A_A79B_A79C_A79D_A79E_A79F_A7A0_A2AB_A2AC),
  (0xE768, 0xA2AD_A2AE_A2AF_A2B0),
  (0xE76D, 0xA2E4_A2EF_A2F0_A2FD_A2FE_A4F4_A4F5_A4F6_A4F7_A4F8_A4F9_A4FA),
  (0xE779, 0xA4FB_A4FC_A4FD_A4FE_A5F7_A5F8_A5F9_A5FA_A5FB_A5FC_A5FD_A5FE),
  (0xE785, 0xA6B9_A6BA_A6BB_A6BC_A6BD_A6BE_A6BF_A6C0_A6D9_A6DA_A6DB_A6DC),
  (0xE791, 0xA6DD_A6DE_A6DF_A6EC_A6ED_A6F3_A6F6_A6F7_A6F8_A6F9_A6FA_A6FB),
  (0xE79D, 0xA6FC_A6FD_A6FE_A7C2_A7C3_A7C4_A7C5_A7C6_A7C7_A7C8_A7C9_A7CA),
  (0xE7A9, 0xA7CB_A7CC_A7CD_A7CE_A7CF_A7D0_A7F2_A7F3_A7F4_A7F5_A7F6_A7F7),
  (0xE7B5, 0xA7F8_A7F9_A7FA_A7FB_A7FC_A7FD_A7FE_A896_A897_A898_A899_A89A),
  (0xE7C1, 0xA89B_A89C_A89D_A89E_A89F_A8A0_A8BC),
  (0xE7C9, 0xA8C1_A8C2_A8C3_A8C4_A8EA_A8EB_A8EC_A8ED_A8EE_A8EF_A8F0_A8F1),
  (0xE7D5, 0xA8F2_A8F3_A8F4_A8F5_A8F6_A8F7_A8F8_A8F9_A8FA_A8FB_A8FC_A8FD),
  (0xE7E1, 0xA8FE_A958_A95B_A95D_A95E_A95F),
  (0xE7F4, 0xA997_A998_A999_A99A_A99B_A99C_A99D_A99E_A99F_A9A0_A9A1_A9A2),
  (0xE800, 0xA9A3_A9F0_A9F1_A9F2_A9F3_A9F4_A9F5_A9F6_A9F7_A9F8_A9F9_A9FA),
  (0xE80C, 0xA9FB_A9FC_A9FD_A9FE_D7FA_D7FB_D7FC_D7FD_D7FE),
  (0xE816, 0xFE51_FE52_FE53),
  (0xE81E, 0xFE59),
  (0xE826, 0xFE61),
  (0xE82B, 0xFE66_FE67),
  (0xE831, 0xFE6C_FE6D),
  (0xE83B, 0xFE76),
  (0xE843, 0xFE7E),
  (0xE854, 0xFE90_FE91),
  (0xE864, 0xFEA0),
  (0xF92C, 0xFD9C),
  (0xF979, 0xFD9D),
  (0xF995, 0xFD9E),
  (0xF9E7, 0xFD9F),
  (0xF9F1, 0xFDA0),
  (0xFA0C, 0xFE40_FE41_FE42_FE43),
  (0xFA11, 0xFE44),
  (0xFA13, 0xFE45_FE46),
  (0xFA18, 0xFE47),
  (0xFA1F, 0xFE48_FE49_FE4A),
  (0xFA23, 0xFE4B_FE4C),
  (0xFA27, 0xFE4D_FE4E_FE4F),
  (0xFE30, 0xA955_A6F2),
  (0xFE33, 0xA6F4_A6F5_A6E0_A6E1_A6F0_A6F1_A6E2_A6E3_A6EE_A6EF_A6E6_A6E7),
  (0xFE3F, 0xA6E4_A6E5_A6E8_A6E9_A6EA_A6EB),
  (0xFE49, 0xA968_A969_A96A_A96B_A96C_A96D_A96E_A96F_A970_A971),
  (0xFE54, 0xA972_A973_A974_A975),
  (0xFE59, 0xA976_A977_A978_A979_A97A_A97B_A97C_A97D_A97E_A980_A981_A982),
  (0xFE65, 0xA983_A984),
  (0xFE68, 0xA985_A986_A987_A988),
  (0xFF01, 0xA3A1_A3A2_A3A3_A1E7_A3A5_A3A6_A3A7_A3A8_A3A9_A3AA_A3AB_A3AC),
  (0xFF0D, 0xA3AD_A3AE_A3AF_A3B0_A3B1_A3B2_A3B3_A3B4_A3B5_A3B6_A3B7_A3B8),
  (0xFF19, 0xA3B9_A3BA_A3BB_A3BC_A3BD_A3BE_A3BF_A3C0_A3C1_A3C2_A3C3_A3C4),
  (0xFF25, 0xA3C5_A3C6_A3C7_A3C8_A3C9_A3CA_A3CB_A3CC_A3CD_A3CE_A3CF_A3D0),
  (0xFF31, 0xA3D1_A3D2_A3D3_A3D4_A3D5_A3D6_A3D7_A3D8_A3D9_A3DA_A3DB_A3DC),
  (0xFF3D, 0xA3DD_A3DE_A3DF_A3E0_A3E1_A3E2_A3E3_A3E4_A3E5_A3E6_A3E7_A3E8),
  (0xFF49, 0xA3E9_A3EA_A3EB_A3EC_A3ED_A3EE_A3EF_A3F0_A3F1_A3F2_A3F3_A3F4),
  (0xFF55, 0xA3F5_A3F6_A3F7_A3F8_A3F9_A3FA_A3FB_A3FC_A3FD_A1AB),
  (0xFFE0, 0xA1E9_A1EA_A956_A3FE_A957_A3A4)]

/-- /repo/modules/from/_GBK.txt and /repo/modules/to/_GBK.txt. -/
def gbk : Charset where
  reads := gbkReads
  writes := gbkWrites

end Verif.Charsets
