import Verif.Spec.Charset
/-
Generated by tools/charsets.py from rule files of /repo/modules/from and /repo/modules/to.
-/
namespace Verif.Charsets
open Verif.Spec

set_option maxRecDepth 100000

/-- The rules of /repo/modules/from/_BIG5-2003.txt: code, character.  No two lines have the same code, so their order does not matter; here they
are sorted. -/
def big52003Reads : Chart := Chart.wide [
  (0x8140, 0xEEB8_EEB9_EEBA_EEBB_EEBC_EEBD_EEBE_EEBF_EEC0_EEC1_EEC2_EEC3),
  (0x814C, 0xEEC4_EEC5_EEC6_EEC7_EEC8_EEC9_EECA_EECB_EECC_EECD_EECE_EECF),
  (0x8158, 0xEED0_EED1_EED2_EED3_EED4_EED5_EED6_EED7_EED8_EED9_EEDA_EEDB),
  (0x8164, 0xEEDC_EEDD_EEDE_EEDF_EEE0_EEE1_EEE2_EEE3_EEE4_EEE5_EEE6_EEE7),
  (0x8170, 0xEEE8_EEE9_EEEA_EEEB_EEEC_EEED_EEEE_EEEF_EEF0_EEF1_EEF2_EEF3),
  (0x817C, 0xEEF4_EEF5_EEF6),
  (0x81A1, 0xEEF7_EEF8_EEF9_EEFA_EEFB_EEFC_EEFD_EEFE_EEFF_EF00_EF01_EF02),
  (0x81AD, 0xEF03_EF04_EF05_EF06_EF07_EF08_EF09_EF0A_EF0B_EF0C_EF0D_EF0E),
  (0x81B9, 0xEF0F_EF10_EF11_EF12_EF13_EF14_EF15_EF16_EF17_EF18_EF19_EF1A),
  (0x81C5, 0xEF1B_EF1C_EF1D_EF1E_EF1F_EF20_EF21_EF22_EF23_EF24_EF25_EF26),
  (0x81D1, 0xEF27_EF28_EF29_EF2A_EF2B_EF2C_EF2D_EF2E_EF2F_EF30_EF31_EF32),
  (0x81DD, 0xEF33_EF34_EF35_EF36_EF37_EF38_EF39_EF3A_EF3B_EF3C_EF3D_EF3E),
  (0x81E9, 0xEF3F_EF40_EF41_EF42_EF43_EF44_EF45_EF46_EF47_EF48_EF49_EF4A),
  (0x81F5, 0xEF4B_EF4C_EF4D_EF4E_EF4F_EF50_EF51_EF52_EF53_EF54),
  (0x8240, 0xEF55_EF56_EF57_EF58_EF59_EF5A_EF5B_EF5C_EF5D_EF5E_EF5F_EF60),
  (0x824C, 0xEF61_EF62_EF63_EF64_EF65_EF66_EF67_EF68_EF69_EF6A_EF6B_EF6C),
  (0x8258, 0xEF6D_EF6E_EF6F_EF70_EF71_EF72_EF73_EF74_EF75_EF76_EF77_EF78),
  (0x8264, 0xEF79_EF7A_EF7B_EF7C_EF7D_EF7E_EF7F_EF80_EF81_EF82_EF83_EF84),
  (0x8270, 0xEF85_EF86_EF87_EF88_EF89_EF8A_EF8B_EF8C_EF8D_EF8E_EF8F_EF90),
  (0x827C, 0xEF91_EF92_EF93),
  (0x82A1, 0xEF94_EF95_EF96_EF97_EF98_EF99_EF9A_EF9B_EF9C_EF9D_EF9E_EF9F),
  (0x82AD, 0xEFA0_EFA1_EFA2_EFA3_EFA4_EFA5_EFA6_EFA7_EFA8_EFA9_EFAA_EFAB),
  (0x82B9, 0xEFAC_EFAD_EFAE_EFAF_EFB0_EFB1_EFB2_EFB3_EFB4_EFB5_EFB6_EFB7),
  (0x82C5, 0xEFB8_EFB9_EFBA_EFBB_EFBC_EFBD_EFBE_EFBF_EFC0_EFC1_EFC2_EFC3),
  (0x82D1, 0xEFC4_EFC5_EFC6_EFC7_EFC8_EFC9_EFCA_EFCB_EFCC_EFCD_EFCE_EFCF),
  (0x82DD, 0xEFD0_EFD1_EFD2_EFD3_EFD4_EFD5_EFD6_EFD7_EFD8_EFD9_EFDA_EFDB),
  (0x82E9, 0xEFDC_EFDD_EFDE_EFDF_EFE0_EFE1_EFE2_EFE3_EFE4_EFE5_EFE6_EFE7),
  (0x82F5, 0xEFE8_EFE9_EFEA_EFEB_EFEC_EFED_EFEE_EFEF_EFF0_EFF1),
  (0x8340, 0xEFF2_EFF3_EFF4_EFF5_EFF6_EFF7_EFF8_EFF9_EFFA_EFFB_EFFC_EFFD),
  (0x834C, 0xEFFE_EFFF_F000_F001_F002_F003_F004_F005_F006_F007_F008_F009),
  (0x8358, 0xF00A_F00B_F00C_F00D_F00E_F00F_F010_F011_F012_F013_F014_F015),
  (0x8364, 0xF016_F017_F018_F019_F01A_F01B_F01C_F01D_F01E_F01F_F020_F021),
  (0x8370, 0xF022_F023_F024_F025_F026_F027_F028_F029_F02A_F02B_F02C_F02D),
  (0x837C, 0xF02E_F02F_F030),
  (0x83A1, 0xF031_F032_F033_F034_F035_F036_F037_F038_F039_F03A_F03B_F03C),
  (0x83AD, 0xF03D_F03E_F03F_F040_F041_F042_F043_F044_F045_F046_F047_F048),
  (0x83B9, 0xF049_F04A_F04B_F04C_F04D_F04E_F04F_F050_F051_F052_F053_F054),
  (0x83C5, 0xF055_F056_F057_F058_F059_F05A_F05B_F05C_F05D_F05E_F05F_F060),
  (0x83D1, 0xF061_F062_F063_F064_F065_F066_F067_F068_F069_F06A_F06B_F06C),
  (0x83DD, 0xF06D_F06E_F06F_F070_F071_F072_F073_F074_F075_F076_F077_F078),
  (0x83E9, 0xF079_F07A_F07B_F07C_F07D_F07E_F07F_F080_F081_F082_F083_F084),
  (0x83F5, 0xF085_F086_F087_F088_F089_F08A_F08B_F08C_F08D_F08E),
  (0x8440, 0xF08F_F090_F091_F092_F093_F094_F095_F096_F097_F098_F099_F09A),
  (0x844C, 0xF09B_F09C_F09D_F09E_F09F_F0A0_F0A1_F0A2_F0A3_F0A4_F0A5_F0A6),
  (0x8458, 0xF0A7_F0A8_F0A9_F0AA_F0AB_F0AC_F0AD_F0AE_F0AF_F0B0_F0B1_F0B2),
  (0x8464, 0xF0B3_F0B4_F0B5_F0B6_F0B7_F0B8_F0B9_F0BA_F0BB_F0BC_F0BD_F0BE),
  (0x8470, 0xF0BF_F0C0_F0C1_F0C2_F0C3_F0C4_F0C5_F0C6_F0C7_F0C8_F0C9_F0CA),
  (0x847C, 0xF0CB_F0CC_F0CD),
  (0x84A1, 0xF0CE_F0CF_F0D0_F0D1_F0D2_F0D3_F0D4_F0D5_F0D6_F0D7_F0D8_F0D9),
  (0x84AD, 0xF0DA_F0DB_F0DC_F0DD_F0DE_F0DF_F0E0_F0E1_F0E2_F0E3_F0E4_F0E5),
  (0x84B9, 0xF0E6_F0E7_F0E8_F0E9_F0EA_F0EB_F0EC_F0ED_F0EE_F0EF_F0F0_F0F1),
  (0x84C5, 0xF0F2_F0F3_F0F4_F0F5_F0F6_F0F7_F0F8_F0F9_F0FA_F0FB_F0FC_F0FD),
  (0x84D1, 0xF0FE_F0FF_F100_F101_F102_F103_F104_F105_F106_F107_F108_F109),
  (0x84DD, 0xF10A_F10B_F10C_F10D_F10E_F10F_F110_F111_F112_F113_F114_F115),
  (0x84E9, 0xF116_F117_F118_F119_F11A_F11B_F11C_F11D_F11E_F11F_F120_F121),
  (0x84F5, 0xF122_F123_F124_F125_F126_F127_F128_F129_F12A_F12B),
  (0x8540, 0xF12C_F12D_F12E_F12F_F130_F131_F132_F133_F134_F135_F136_F137),
  (0x854C, 0xF138_F139_F13A_F13B_F13C_F13D_F13E_F13F_F140_F141_F142_F143),
  (0x8558, 0xF144_F145_F146_F147_F148_F149_F14A_F14B_F14C_F14D_F14E_F14F),
  (0x8564, 0xF150_F151_F152_F153_F154_F155_F156_F157_F158_F159_F15A_F15B),
  (0x8570, 0xF15C_F15D_F15E_F15F_F160_F161_F162_F163_F164_F165_F166_F167),
  (0x857C, 0xF168_F169_F16A),
  (0x85A1, 0xF16B_F16C_F16D_F16E_F16F_F170_F171_F172_F173_F174_F175_F176),
  (0x85AD, 0xF177_F178_F179_F17A_F17B_F17C_F17D_F17E_F17F_F180_F181_F182),
  (0x85B9, 0xF183_F184_F185_F186_F187_F188_F189_F18A_F18B_F18C_F18D_F18E),
  (0x85C5, 0xF18F_F190_F191_F192_F193_F194_F195_F196_F197_F198_F199_F19A),
  (0x85D1, 0xF19B_F19C_F19D_F19E_F19F_F1A0_F1A1_F1A2_F1A3_F1A4_F1A5_F1A6),
  (0x85DD, 0xF1A7_F1A8_F1A9_F1AA_F1AB_F1AC_F1AD_F1AE_F1AF_F1B0_F1B1_F1B2),
  (0x85E9, 0xF1B3_F1B4_F1B5_F1B6_F1B7_F1B8_F1B9_F1BA_F1BB_F1BC_F1BD_F1BE),
  (0x85F5, 0xF1BF_F1C0_F1C1_F1C2_F1C3_F1C4_F1C5_F1C6_F1C7_F1C8),
  (0x8640, 0xF1C9_F1CA_F1CB_F1CC_F1CD_F1CE_F1CF_F1D0_F1D1_F1D2_F1D3_F1D4),
  (0x864C, 0xF1D5_F1D6_F1D7_F1D8_F1D9_F1DA_F1DB_F1DC_F1DD_F1DE_F1DF_F1E0),
  (0x8658, 0xF1E1_F1E2_F1E3_F1E4_F1E5_F1E6_F1E7_F1E8_F1E9_F1EA_F1EB_F1EC),
  (0x8664, 0xF1ED_F1EE_F1EF_F1F0_F1F1_F1F2_F1F3_F1F4_F1F5_F1F6_F1F7_F1F8),
  (0x8670, 0xF1F9_F1FA_F1FB_F1FC_F1FD_F1FE_F1FF_F200_F201_F202_F203_F204),
  (0x867C, 0xF205_F206_F207),
  (0x86A1, 0xF208_F209_F20A_F20B_F20C_F20D_F20E_F20F_F210_F211_F212_F213),
  (0x86AD, 0xF214_F215_F216_F217_F218_F219_F21A_F21B_F21C_F21D_F21E_F21F),
  (0x86B9, 0xF220_F221_F222_F223_F224_F225_F226_F227_F228_F229_F22A_F22B),
  (0x86C5, 0xF22C_F22D_F22E_F22F_F230_F231_F232_F233_F234_F235_F236_F237),
  (0x86D1, 0xF238_F239_F23A_F23B_F23C_F23D_F23E_F23F_F240_F241_F242_F243),
  (0x86DD, 0xF244_F245_F246_F247_F248_F249_F24A_F24B_F24C_F24D_F24E_F24F),
  (0x86E9, 0xF250_F251_F252_F253_F254_F255_F256_F257_F258_F259_F25A_F25B),
  (0x86F5, 0xF25C_F25D_F25E_F25F_F260_F261_F262_F263_F264_F265),
  (0x8740, 0xF266_F267_F268_F269_F26A_F26B_F26C_F26D_F26E_F26F_F270_F271),
  (0x874C, 0xF272_F273_F274_F275_F276_F277_F278_F279_F27A_F27B_F27C_F27D),
  (0x8758, 0xF27E_F27F_F280_F281_F282_F283_F284_F285_F286_F287_F288_F289),
  (0x8764, 0xF28A_F28B_F28C_F28D_F28E_F28F_F290_F291_F292_F293_F294_F295),
  (0x8770, 0xF296_F297_F298_F299_F29A_F29B_F29C_F29D_F29E_F29F_F2A0_F2A1),
  (0x877C, 0xF2A2_F2A3_F2A4),
  (0x87A1, 0xF2A5_F2A6_F2A7_F2A8_F2A9_F2AA_F2AB_F2AC_F2AD_F2AE_F2AF_F2B0),
  (0x87AD, 0xF2B1_F2B2_F2B3_F2B4_F2B5_F2B6_F2B7_F2B8_F2B9_F2BA_F2BB_F2BC),
  (0x87B9, 0xF2BD_F2BE_F2BF_F2C0_F2C1_F2C2_F2C3_F2C4_F2C5_F2C6_F2C7_F2C8),
  (0x87C5, 0xF2C9_F2CA_F2CB_F2CC_F2CD_F2CE_F2CF_F2D0_F2D1_F2D2_F2D3_F2D4),
  (0x87D1, 0xF2D5_F2D6_F2D7_F2D8_F2D9_F2DA_F2DB_F2DC_F2DD_F2DE_F2DF_F2E0),
  (0x87DD, 0xF2E1_F2E2_F2E3_F2E4_F2E5_F2E6_F2E7_F2E8_F2E9_F2EA_F2EB_F2EC),
  (0x87E9, 0xF2ED_F2EE_F2EF_F2F0_F2F1_F2F2_F2F3_F2F4_F2F5_F2F6_F2F7_F2F8),
  (0x87F5, 0xF2F9_F2FA_F2FB_F2FC_F2FD_F2FE_F2FF_F300_F301_F302),
  (0x8840, 0xF303_F304_F305_F306_F307_F308_F309_F30A_F30B_F30C_F30D_F30E),
  (0x884C, 0xF30F_F310_F311_F312_F313_F314_F315_F316_F317_F318_F319_F31A),
  (0x8858, 0xF31B_F31C_F31D_F31E_F31F_F320_F321_F322_F323_F324_F325_F326),
  (0x8864, 0xF327_F328_F329_F32A_F32B_F32C_F32D_F32E_F32F_F330_F331_F332),
  (0x8870, 0xF333_F334_F335_F336_F337_F338_F339_F33A_F33B_F33C_F33D_F33E),
  (0x887C, 0xF33F_F340_F341),
  (0x88A1, 0xF342_F343_F344_F345_F346_F347_F348_F349_F34A_F34B_F34C_F34D),
  (0x88AD, 0xF34E_F34F_F350_F351_F352_F353_F354_F355_F356_F357_F358_F359),
  (0x88B9, 0xF35A_F35B_F35C_F35D_F35E_F35F_F360_F361_F362_F363_F364_F365),
  (0x88C5, 0xF366_F367_F368_F369_F36A_F36B_F36C_F36D_F36E_F36F_F370_F371),
  (0x88D1, 0xF372_F373_F374_F375_F376_F377_F378_F379_F37A_F37B_F37C_F37D),
  (0x88DD, 0xF37E_F37F_F380_F381_F382_F383_F384_F385_F386_F387_F388_F389),
  (0x88E9, 0xF38A_F38B_F38C_F38D_F38E_F38F_F390_F391_F392_F393_F394_F395),
  (0x88F5, 0xF396_F397_F398_F399_F39A_F39B_F39C_F39D_F39E_F39F),
  (0x8940, 0xF3A0_F3A1_F3A2_F3A3_F3A4_F3A5_F3A6_F3A7_F3A8_F3A9_F3AA_F3AB),
  (0x894C, 0xF3AC_F3AD_F3AE_F3AF_F3B0_F3B1_F3B2_F3B3_F3B4_F3B5_F3B6_F3B7),
  (0x8958, 0xF3B8_F3B9_F3BA_F3BB_F3BC_F3BD_F3BE_F3BF_F3C0_F3C1_F3C2_F3C3),
  (0x8964, 0xF3C4_F3C5_F3C6_F3C7_F3C8_F3C9_F3CA_F3CB_F3CC_F3CD_F3CE_F3CF),
  (0x8970, 0xF3D0_F3D1_F3D2_F3D3_F3D4_F3D5_F3D6_F3D7_F3D8_F3D9_F3DA_F3DB),
  (0x897C, 0xF3DC_F3DD_F3DE),
  (0x89A1, 0xF3DF_F3E0_F3E1_F3E2_F3E3_F3E4_F3E5_F3E6_F3E7_F3E8_F3E9_F3EA),
  (0x89AD, 0xF3EB_F3EC_F3ED_F3EE_F3EF_F3F0_F3F1_F3F2_F3F3_F3F4_F3F5_F3F6),
  (0x89B9, 0xF3F7_F3F8_F3F9_F3FA_F3FB_F3FC_F3FD_F3FE_F3FF_F400_F401_F402),
  (0x89C5, 0xF403_F404_F405_F406_F407_F408_F409_F40A_F40B_F40C_F40D_F40E),
  (0x89D1, 0xF40F_F410_F411_F412_F413_F414_F415_F416_F417_F418_F419_F41A),
  (0x89DD, 0xF41B_F41C_F41D_F41E_F41F_F420_F421_F422_F423_F424_F425_F426),
  (0x89E9, 0xF427_F428_F429_F42A_F42B_F42C_F42D_F42E_F42F_F430_F431_F432),
  (0x89F5, 0xF433_F434_F435_F436_F437_F438_F439_F43A_F43B_F43C),
  (0x8A40, 0xF43D_F43E_F43F_F440_F441_F442_F443_F444_F445_F446_F447_F448),
  (0x8A4C, 0xF449_F44A_F44B_F44C_F44D_F44E_F44F_F450_F451_F452_F453_F454),
  (0x8A58, 0xF455_F456_F457_F458_F459_F45A_F45B_F45C_F45D_F45E_F45F_F460),
  (0x8A64, 0xF461_F462_F463_F464_F465_F466_F467_F468_F469_F46A_F46B_F46C),
  (0x8A70, 0xF46D_F46E_F46F_F470_F471_F472_F473_F474_F475_F476_F477_F478),
  (0x8A7C, 0xF479_F47A_F47B),
  (0x8AA1, 0xF47C_F47D_F47E_F47F_F480_F481_F482_F483_F484_F485_F486_F487),
  (0x8AAD, 0xF488_F489_F48A_F48B_F48C_F48D_F48E_F48F_F490_F491_F492_F493),
  (0x8AB9, 0xF494_F495_F496_F497_F498_F499_F49A_F49B_F49C_F49D_F49E_F49F),
  (0x8AC5, 0xF4A0_F4A1_F4A2_F4A3_F4A4_F4A5_F4A6_F4A7_F4A8_F4A9_F4AA_F4AB),
  (0x8AD1, 0xF4AC_F4AD_F4AE_F4AF_F4B0_F4B1_F4B2_F4B3_F4B4_F4B5_F4B6_F4B7),
  (0x8ADD, 0xF4B8_F4B9_F4BA_F4BB_F4BC_F4BD_F4BE_F4BF_F4C0_F4C1_F4C2_F4C3),
  (0x8AE9, 0xF4C4_F4C5_F4C6_F4C7_F4C8_F4C9_F4CA_F4CB_F4CC_F4CD_F4CE_F4CF),
  (0x8AF5, 0xF4D0_F4D1_F4D2_F4D3_F4D4_F4D5_F4D6_F4D7_F4D8_F4D9),
  (0x8B40, 0xF4DA_F4DB_F4DC_F4DD_F4DE_F4DF_F4E0_F4E1_F4E2_F4E3_F4E4_F4E5),
  (0x8B4C, 0xF4E6_F4E7_F4E8_F4E9_F4EA_F4EB_F4EC_F4ED_F4EE_F4EF_F4F0_F4F1),
  (0x8B58, 0xF4F2_F4F3_F4F4_F4F5_F4F6_F4F7_F4F8_F4F9_F4FA_F4FB_F4FC_F4FD),
  (0x8B64, 0xF4FE_F4FF_F500_F501_F502_F503_F504_F505_F506_F507_F508_F509),
  (0x8B70, 0xF50A_F50B_F50C_F50D_F50E_F50F_F510_F511_F512_F513_F514_F515),
  (0x8B7C, 0xF516_F517_F518),
  (0x8BA1, 0xF519_F51A_F51B_F51C_F51D_F51E_F51F_F520_F521_F522_F523_F524),
  (0x8BAD, 0xF525_F526_F527_F528_F529_F52A_F52B_F52C_F52D_F52E_F52F_F530),
  (0x8BB9, 0xF531_F532_F533_F534_F535_F536_F537_F538_F539_F53A_F53B_F53C),
  (0x8BC5, 0xF53D_F53E_F53F_F540_F541_F542_F543_F544_F545_F546_F547_F548),
  (0x8BD1, 0xF549_F54A_F54B_F54C_F54D_F54E_F54F_F550_F551_F552_F553_F554),
  (0x8BDD, 0xF555_F556_F557_F558_F559_F55A_F55B_F55C_F55D_F55E_F55F_F560),
  (0x8BE9, 0xF561_F562_F563_F564_F565_F566_F567_F568_F569_F56A_F56B_F56C),
  (0x8BF5, 0xF56D_F56E_F56F_F570_F571_F572_F573_F574_F575_F576),
  (0x8C40, 0xF577_F578_F579_F57A_F57B_F57C_F57D_F57E_F57F_F580_F581_F582),
  (0x8C4C, 0xF583_F584_F585_F586_F587_F588_F589_F58A_F58B_F58C_F58D_F58E),
  (0x8C58, 0xF58F_F590_F591_F592_F593_F594_F595_F596_F597_F598_F599_F59A),
  (0x8C64, 0xF59B_F59C_F59D_F59E_F59F_F5A0_F5A1_F5A2_F5A3_F5A4_F5A5_F5A6),
  (0x8C70, 0xF5A7_F5A8_F5A9_F5AA_F5AB_F5AC_F5AD_F5AE_F5AF_F5B0_F5B1_F5B2),
  (0x8C7C, 0xF5B3_F5B4_F5B5),
  (0x8CA1, 0xF5B6_F5B7_F5B8_F5B9_F5BA_F5BB_F5BC_F5BD_F5BE_F5BF_F5C0_F5C1),
  (0x8CAD, 0xF5C2_F5C3_F5C4_F5C5_F5C6_F5C7_F5C8_F5C9_F5CA_F5CB_F5CC_F5CD),
  (0x8CB9, 0xF5CE_F5CF_F5D0_F5D1_F5D2_F5D3_F5D4_F5D5_F5D6_F5D7_F5D8_F5D9),
  (0x8CC5, 0xF5DA_F5DB_F5DC_F5DD_F5DE_F5DF_F5E0_F5E1_F5E2_F5E3_F5E4_F5E5),
  (0x8CD1, 0xF5E6_F5E7_F5E8_F5E9_F5EA_F5EB_F5EC_F5ED_F5EE_F5EF_F5F0_F5F1),
  (0x8CDD, 0xF5F2_F5F3_F5F4_F5F5_F5F6_F5F7_F5F8_F5F9_F5FA_F5FB_F5FC_F5FD),
  (0x8CE9, 0xF5FE_F5FF_F600_F601_F602_F603_F604_F605_F606_F607_F608_F609),
  (0x8CF5, 0xF60A_F60B_F60C_F60D_F60E_F60F_F610_F611_F612_F613),
  (0x8D40, 0xF614_F615_F616_F617_F618_F619_F61A_F61B_F61C_F61D_F61E_F61F),
  (0x8D4C, 0xF620_F621_F622_F623_F624_F625_F626_F627_F628_F629_F62A_F62B),
  (0x8D58, 0xF62C_F62D_F62E_F62F_F630_F631_F632_F633_F634_F635_F636_F637),
  (0x8D64, 0xF638_F639_F63A_F63B_F63C_F63D_F63E_F63F_F640_F641_F642_F643),
  (0x8D70, 0xF644_F645_F646_F647_F648_F649_F64A_F64B_F64C_F64D_F64E_F64F),
  (0x8D7C, 0xF650_F651_F652),
  (0x8DA1, 0xF653_F654_F655_F656_F657_F658_F659_F65A_F65B_F65C_F65D_F65E),
  (0x8DAD, 0xF65F_F660_F661_F662_F663_F664_F665_F666_F667_F668_F669_F66A),
  (0x8DB9, 0xF66B_F66C_F66D_F66E_F66F_F670_F671_F672_F673_F674_F675_F676),
  (0x8DC5, 0xF677_F678_F679_F67A_F67B_F67C_F67D_F67E_F67F_F680_F681_F682),
  (0x8DD1, 0xF683_F684_F685_F686_F687_F688_F689_F68A_F68B_F68C_F68D_F68E),
  (0x8DDD, 0xF68F_F690_F691_F692_F693_F694_F695_F696_F697_F698_F699_F69A),
  (0x8DE9, 0xF69B_F69C_F69D_F69E_F69F_F6A0_F6A1_F6A2_F6A3_F6A4_F6A5_F6A6),
  (0x8DF5, 0xF6A7_F6A8_F6A9_F6AA_F6AB_F6AC_F6AD_F6AE_F6AF_F6B0),
  (0x8E40, 0xE311_E312_E313_E314_E315_E316_E317_E318_E319_E31A_E31B_E31C),
  (0x8E4C, 0xE31D_E31E_E31F_E320_E321_E322_E323_E324_E325_E326_E327_E328),
  (0x8E58, 0xE329_E32A_E32B_E32C_E32D_E32E_E32F_E330_E331_E332_E333_E334),
  (0x8E64, 0xE335_E336_E337_E338_E339_E33A_E33B_E33C_E33D_E33E_E33F_E340),
  (0x8E70, 0xE341_E342_E343_E344_E345_E346_E347_E348_E349_E34A_E34B_E34C),
  (0x8E7C, 0xE34D_E34E_E34F),
  (0x8EA1, 0xE350_E351_E352_E353_E354_E355_E356_E357_E358_E359_E35A_E35B),
  (0x8EAD, 0xE35C_E35D_E35E_E35F_E360_E361_E362_E363_E364_E365_E366_E367),
  (0x8EB9, 0xE368_E369_E36A_E36B_E36C_E36D_E36E_E36F_E370_E371_E372_E373),
  (0x8EC5, 0xE374_E375_E376_E377_E378_E379_E37A_E37B_E37C_E37D_E37E_E37F),
  (0x8ED1, 0xE380_E381_E382_E383_E384_E385_E386_E387_E388_E389_E38A_E38B),
  (0x8EDD, 0xE38C_E38D_E38E_E38F_E390_E391_E392_E393_E394_E395_E396_E397),
  (0x8EE9, 0xE398_E399_E39A_E39B_E39C_E39D_E39E_E39F_E3A0_E3A1_E3A2_E3A3),
  (0x8EF5, 0xE3A4_E3A5_E3A6_E3A7_E3A8_E3A9_E3AA_E3AB_E3AC_E3AD),
  (0x8F40, 0xE3AE_E3AF_E3B0_E3B1_E3B2_E3B3_E3B4_E3B5_E3B6_E3B7_E3B8_E3B9),
  (0x8F4C, 0xE3BA_E3BB_E3BC_E3BD_E3BE_E3BF_E3C0_E3C1_E3C2_E3C3_E3C4_E3C5),
  (0x8F58, 0xE3C6_E3C7_E3C8_E3C9_E3CA_E3CB_E3CC_E3CD_E3CE_E3CF_E3D0_E3D1),
  (0x8F64, 0xE3D2_E3D3_E3D4_E3D5_E3D6_E3D7_E3D8_E3D9_E3DA_E3DB_E3DC_E3DD),
  (0x8F70, 0xE3DE_E3DF_E3E0_E3E1_E3E2_E3E3_E3E4_E3E5_E3E6_E3E7_E3E8_E3E9),
  (0x8F7C, 0xE3EA_E3EB_E3EC),
  (0x8FA1, 0xE3ED_E3EE_E3EF_E3F0_E3F1_E3F2_E3F3_E3F4_E3F5_E3F6_E3F7_E3F8),
  (0x8FAD, 0xE3F9_E3FA_E3FB_E3FC_E3FD_E3FE_E3FF_E400_E401_E402_E403_E404),
  (0x8FB9, 0xE405_E406_E407_E408_E409_E40A_E40B_E40C_E40D_E40E_E40F_E410),
  (0x8FC5, 0xE411_E412_E413_E414_E415_E416_E417_E418_E419_E41A_E41B_E41C),
  (0x8FD1, 0xE41D_E41E_E41F_E420_E421_E422_E423_E424_E425_E426_E427_E428),
  (0x8FDD, 0xE429_E42A_E42B_E42C_E42D_E42E_E42F_E430_E431_E432_E433_E434),
  (0x8FE9, 0xE435_E436_E437_E438_E439_E43A_E43B_E43C_E43D_E43E_E43F_E440),
  (0x8FF5, 0xE441_E442_E443_E444_E445_E446_E447_E448_E449_E44A),
  (0x9040, 0xE44B_E44C_E44D_E44E_E44F_E450_E451_E452_E453_E454_E455_E456),
  (0x904C, 0xE457_E458_E459_E45A_E45B_E45C_E45D_E45E_E45F_E460_E461_E462),
  (0x9058, 0xE463_E464_E465_E466_E467_E468_E469_E46A_E46B_E46C_E46D_E46E),
  (0x9064, 0xE46F_E470_E471_E472_E473_E474_E475_E476_E477_E478_E479_E47A),
  (0x9070, 0xE47B_E47C_E47D_E47E_E47F_E480_E481_E482_E483_E484_E485_E486),
  (0x907C, 0xE487_E488_E489),
  (0x90A1, 0xE48A_E48B_E48C_E48D_E48E_E48F_E490_E491_E492_E493_E494_E495),
  (0x90AD, 0xE496_E497_E498_E499_E49A_E49B_E49C_E49D_E49E_E49F_E4A0_E4A1),
  (0x90B9, 0xE4A2_E4A3_E4A4_E4A5_E4A6_E4A7_E4A8_E4A9_E4AA_E4AB_E4AC_E4AD),
  (0x90C5, 0xE4AE_E4AF_E4B0_E4B1_E4B2_E4B3_E4B4_E4B5_E4B6_E4B7_E4B8_E4B9),
  (0x90D1, 0xE4BA_E4BB_E4BC_E4BD_E4BE_E4BF_E4C0_E4C1_E4C2_E4C3_E4C4_E4C5),
  (0x90DD, 0xE4C6_E4C7_E4C8_E4C9_E4CA_E4CB_E4CC_E4CD_E4CE_E4CF_E4D0_E4D1),
  (0x90E9, 0xE4D2_E4D3_E4D4_E4D5_E4D6_E4D7_E4D8_E4D9_E4DA_E4DB_E4DC_E4DD),
  (0x90F5, 0xE4DE_E4DF_E4E0_E4E1_E4E2_E4E3_E4E4_E4E5_E4E6_E4E7),
  (0x9140, 0xE4E8_E4E9_E4EA_E4EB_E4EC_E4ED_E4EE_E4EF_E4F0_E4F1_E4F2_E4F3),
  (0x914C, 0xE4F4_E4F5_E4F6_E4F7_E4F8_E4F9_E4FA_E4FB_E4FC_E4FD_E4FE_E4FF),
  (0x9158, 0xE500_E501_E502_E503_E504_E505_E506_E507_E508_E509_E50A_E50B),
  (0x9164, 0xE50C_E50D_E50E_E50F_E510_E511_E512_E513_E514_E515_E516_E517),
  (0x9170, 0xE518_E519_E51A_E51B_E51C_E51D_E51E_E51F_E520_E521_E522_E523),
  (0x917C, 0xE524_E525_E526),
  (0x91A1, 0xE527_E528_E529_E52A_E52B_E52C_E52D_E52E_E52F_E530_E531_E532),
  (0x91AD, 0xE533_E534_E535_E536_E537_E538_E539_E53A_E53B_E53C_E53D_E53E),
  (0x91B9, 0xE53F_E540_E541_E542_E543_E544_E545_E546_E547_E548_E549_E54A),
  (0x91C5, 0xE54B_E54C_E54D_E54E_E54F_E550_E551_E552_E553_E554_E555_E556),
  (0x91D1, 0xE557_E558_E559_E55A_E55B_E55C_E55D_E55E_E55F_E560_E561_E562),
  (0x91DD, 0xE563_E564_E565_E566_E567_E568_E569_E56A_E56B_E56C_E56D_E56E),
  (0x91E9, 0xE56F_E570_E571_E572_E573_E574_E575_E576_E577_E578_E579_E57A),
  (0x91F5, 0xE57B_E57C_E57D_E57E_E57F_E580_E581_E582_E583_E584),
  (0x9240, 0xE585_E586_E587_E588_E589_E58A_E58B_E58C_E58D_E58E_E58F_E590),
  (0x924C, 0xE591_E592_E593_E594_E595_E596_E597_E598_E599_E59A_E59B_E59C),
  (0x9258, 0xE59D_E59E_E59F_E5A0_E5A1_E5A2_E5A3_E5A4_E5A5_E5A6_E5A7_E5A8),
  (0x9264, 0xE5A9_E5AA_E5AB_E5AC_E5AD_E5AE_E5AF_E5B0_E5B1_E5B2_E5B3_E5B4),
  (0x9270, 0xE5B5_E5B6_E5B7_E5B8_E5B9_E5BA_E5BB_E5BC_E5BD_E5BE_E5BF_E5C0),
  (0x927C, 0xE5C1_E5C2_E5C3),
  (0x92A1, 0xE5C4_E5C5_E5C6_E5C7_E5C8_E5C9_E5CA_E5CB_E5CC_E5CD_E5CE_E5CF),
  (0x92AD, 0xE5D0_E5D1_E5D2_E5D3_E5D4_E5D5_E5D6_E5D7_E5D8_E5D9_E5DA_E5DB),
  (0x92B9, 0xE5DC_E5DD_E5DE_E5DF_E5E0_E5E1_E5E2_E5E3_E5E4_E5E5_E5E6_E5E7),
  (0x92C5, 0xE5E8_E5E9_E5EA_E5EB_E5EC_E5ED_E5EE_E5EF_E5F0_E5F1_E5F2_E5F3),
  (0x92D1, 0xE5F4_E5F5_E5F6_E5F7_E5F8_E5F9_E5FA_E5FB_E5FC_E5FD_E5FE_E5FF),
  (0x92DD, 0xE600_E601_E602_E603_E604_E605_E606_E607_E608_E609_E60A_E60B),
  (0x92E9, 0xE60C_E60D_E60E_E60F_E610_E611_E612_E613_E614_E615_E616_E617),
  (0x92F5, 0xE618_E619_E61A_E61B_E61C_E61D_E61E_E61F_E620_E621),
  (0x9340, 0xE622_E623_E624_E625_E626_E627_E628_E629_E62A_E62B_E62C_E62D),
  (0x934C, 0xE62E_E62F_E630_E631_E632_E633_E634_E635_E636_E637_E638_E639),
  (0x9358, 0xE63A_E63B_E63C_E63D_E63E_E63F_E640_E641_E642_E643_E644_E645),
  (0x9364, 0xE646_E647_E648_E649_E64A_E64B_E64C_E64D_E64E_E64F_E650_E651),
  (0x9370, 0xE652_E653_E654_E655_E656_E657_E658_E659_E65A_E65B_E65C_E65D),
  (0x937C, 0xE65E_E65F_E660),
  (0x93A1, 0xE661_E662_E663_E664_E665_E666_E667_E668_E669_E66A_E66B_E66C),
  (0x93AD, 0xE66D_E66E_E66F_E670_E671_E672_E673_E674_E675_E676_E677_E678),
  (0x93B9, 0xE679_E67A_E67B_E67C_E67D_E67E_E67F_E680_E681_E682_E683_E684),
  (0x93C5, 0xE685_E686_E687_E688_E689_E68A_E68B_E68C_E68D_E68E_E68F_E690),
  (0x93D1, 0xE691_E692_E693_E694_E695_E696_E697_E698_E699_E69A_E69B_E69C),
  (0x93DD, 0xE69D_E69E_E69F_E6A0_E6A1_E6A2_E6A3_E6A4_E6A5_E6A6_E6A7_E6A8),
  (0x93E9, 0xE6A9_E6AA_E6AB_E6AC_E6AD_E6AE_E6AF_E6B0_E6B1_E6B2_E6B3_E6B4),
  (0x93F5, 0xE6B5_E6B6_E6B7_E6B8_E6B9_E6BA_E6BB_E6BC_E6BD_E6BE),
  (0x9440, 0xE6BF_E6C0_E6C1_E6C2_E6C3_E6C4_E6C5_E6C6_E6C7_E6C8_E6C9_E6CA),
  (0x944C, 0xE6CB_E6CC_E6CD_E6CE_E6CF_E6D0_E6D1_E6D2_E6D3_E6D4_E6D5_E6D6),
  (0x9458, 0xE6D7_E6D8_E6D9_E6DA_E6DB_E6DC_E6DD_E6DE_E6DF_E6E0_E6E1_E6E2),
  (0x9464, 0xE6E3_E6E4_E6E5_E6E6_E6E7_E6E8_E6E9_E6EA_E6EB_E6EC_E6ED_E6EE),
  (0x9470, 0xE6EF_E6F0_E6F1_E6F2_E6F3_E6F4_E6F5_E6F6_E6F7_E6F8_E6F9_E6FA),
  (0x947C, 0xE6FB_E6FC_E6FD),
  (0x94A1, 0xE6FE_E6FF_E700_E701_E702_E703_E704_E705_E706_E707_E708_E709),
  (0x94AD, 0xE70A_E70B_E70C_E70D_E70E_E70F_E710_E711_E712_E713_E714_E715),
  (0x94B9, 0xE716_E717_E718_E719_E71A_E71B_E71C_E71D_E71E_E71F_E720_E721),
  (0x94C5, 0xE722_E723_E724_E725_E726_E727_E728_E729_E72A_E72B_E72C_E72D),
  (0x94D1, 0xE72E_E72F_E730_E731_E732_E733_E734_E735_E736_E737_E738_E739),
  (0x94DD, 0xE73A_E73B_E73C_E73D_E73E_E73F_E740_E741_E742_E743_E744_E745),
  (0x94E9, 0xE746_E747_E748_E749_E74A_E74B_E74C_E74D_E74E_E74F_E750_E751),
  (0x94F5, 0xE752_E753_E754_E755_E756_E757_E758_E759_E75A_E75B),
  (0x9540, 0xE75C_E75D_E75E_E75F_E760_E761_E762_E763_E764_E765_E766_E767),
  (0x954C, 0xE768_E769_E76A_E76B_E76C_E76D_E76E_E76F_E770_E771_E772_E773),
  (0x9558, 0xE774_E775_E776_E777_E778_E779_E77A_E77B_E77C_E77D_E77E_E77F),
  (0x9564, 0xE780_E781_E782_E783_E784_E785_E786_E787_E788_E789_E78A_E78B),
  (0x9570, 0xE78C_E78D_E78E_E78F_E790_E791_E792_E793_E794_E795_E796_E797),
  (0x957C, 0xE798_E799_E79A),
  (0x95A1, 0xE79B_E79C_E79D_E79E_E79F_E7A0_E7A1_E7A2_E7A3_E7A4_E7A5_E7A6),
  (0x95AD, 0xE7A7_E7A8_E7A9_E7AA_E7AB_E7AC_E7AD_E7AE_E7AF_E7B0_E7B1_E7B2),
  (0x95B9, 0xE7B3_E7B4_E7B5_E7B6_E7B7_E7B8_E7B9_E7BA_E7BB_E7BC_E7BD_E7BE),
  (0x95C5, 0xE7BF_E7C0_E7C1_E7C2_E7C3_E7C4_E7C5_E7C6_E7C7_E7C8_E7C9_E7CA),
  (0x95D1, 0xE7CB_E7CC_E7CD_E7CE_E7CF_E7D0_E7D1_E7D2_E7D3_E7D4_E7D5_E7D6),
  (0x95DD, 0xE7D7_E7D8_E7D9_E7DA_E7DB_E7DC_E7DD_E7DE_E7DF_E7E0_E7E1_E7E2),
  (0x95E9, 0xE7E3_E7E4_E7E5_E7E6_E7E7_E7E8_E7E9_E7EA_E7EB_E7EC_E7ED_E7EE),
  (0x95F5, 0xE7EF_E7F0_E7F1_E7F2_E7F3_E7F4_E7F5_E7F6_E7F7_E7F8),
  (0x9640, 0xE7F9_E7FA_E7FB_E7FC_E7FD_E7FE_E7FF_E800_E801_E802_E803_E804),
  (0x964C, 0xE805_E806_E807_E808_E809_E80A_E80B_E80C_E80D_E80E_E80F_E810),
  (0x9658, 0xE811_E812_E813_E814_E815_E816_E817_E818_E819_E81A_E81B_E81C),
  (0x9664, 0xE81D_E81E_E81F_E820_E821_E822_E823_E824_E825_E826_E827_E828),
  (0x9670, 0xE829_E82A_E82B_E82C_E82D_E82E_E82F_E830_E831_E832_E833_E834),
  (0x967C, 0xE835_E836_E837),
  (0x96A1, 0xE838_E839_E83A_E83B_E83C_E83D_E83E_E83F_E840_E841_E842_E843),
  (0x96AD, 0xE844_E845_E846_E847_E848_E849_E84A_E84B_E84C_E84D_E84E_E84F),
  (0x96B9, 0xE850_E851_E852_E853_E854_E855_E856_E857_E858_E859_E85A_E85B),
  (0x96C5, 0xE85C_E85D_E85E_E85F_E860_E861_E862_E863_E864_E865_E866_E867),
  (0x96D1, 0xE868_E869_E86A_E86B_E86C_E86D_E86E_E86F_E870_E871_E872_E873),
  (0x96DD, 0xE874_E875_E876_E877_E878_E879_E87A_E87B_E87C_E87D_E87E_E87F),
  (0x96E9, 0xE880_E881_E882_E883_E884_E885_E886_E887_E888_E889_E88A_E88B),
  (0x96F5, 0xE88C_E88D_E88E_E88F_E890_E891_E892_E893_E894_E895),
  (0x9740, 0xE896_E897_E898_E899_E89A_E89B_E89C_E89D_E89E_E89F_E8A0_E8A1),
  (0x974C, 0xE8A2_E8A3_E8A4_E8A5_E8A6_E8A7_E8A8_E8A9_E8AA_E8AB_E8AC_E8AD),
  (0x9758, 0xE8AE_E8AF_E8B0_E8B1_E8B2_E8B3_E8B4_E8B5_E8B6_E8B7_E8B8_E8B9),
  (0x9764, 0xE8BA_E8BB_E8BC_E8BD_E8BE_E8BF_E8C0_E8C1_E8C2_E8C3_E8C4_E8C5),
  (0x9770, 0xE8C6_E8C7_E8C8_E8C9_E8CA_E8CB_E8CC_E8CD_E8CE_E8CF_E8D0_E8D1),
  (0x977C, 0xE8D2_E8D3_E8D4),
  (0x97A1, 0xE8D5_E8D6_E8D7_E8D8_E8D9_E8DA_E8DB_E8DC_E8DD_E8DE_E8DF_E8E0),
  (0x97AD, 0xE8E1_E8E2_E8E3_E8E4_E8E5_E8E6_E8E7_E8E8_E8E9_E8EA_E8EB_E8EC),
  (0x97B9, 0xE8ED_E8EE_E8EF_E8F0_E8F1_E8F2_E8F3_E8F4_E8F5_E8F6_E8F7_E8F8),
  (0x97C5, 0xE8F9_E8FA_E8FB_E8FC_E8FD_E8FE_E8FF_E900_E901_E902_E903_E904),
  (0x97D1, 0xE905_E906_E907_E908_E909_E90A_E90B_E90C_E90D_E90E_E90F_E910),
  (0x97DD, 0xE911_E912_E913_E914_E915_E916_E917_E918_E919_E91A_E91B_E91C),
  (0x97E9, 0xE91D_E91E_E91F_E920_E921_E922_E923_E924_E925_E926_E927_E928),
  (0x97F5, 0xE929_E92A_E92B_E92C_E92D_E92E_E92F_E930_E931_E932),
  (0x9840, 0xE933_E934_E935_E936_E937_E938_E939_E93A_E93B_E93C_E93D_E93E),
  (0x984C, 0xE93F_E940_E941_E942_E943_E944_E945_E946_E947_E948_E949_E94A),
  (0x9858, 0xE94B_E94C_E94D_E94E_E94F_E950_E951_E952_E953_E954_E955_E956),
  (0x9864, 0xE957_E958_E959_E95A_E95B_E95C_E95D_E95E_E95F_E960_E961_E962),
  (0x9870, 0xE963_E964_E965_E966_E967_E968_E969_E96A_E96B_E96C_E96D_E96E),
  (0x987C, 0xE96F_E970_E971),
  (0x98A1, 0xE972_E973_E974_E975_E976_E977_E978_E979_E97A_E97B_E97C_E97D),
  (0x98AD, 0xE97E_E97F_E980_E981_E982_E983_E984_E985_E986_E987_E988_E989),
  (0x98B9, 0xE98A_E98B_E98C_E98D_E98E_E98F_E990_E991_E992_E993_E994_E995),
  (0x98C5, 0xE996_E997_E998_E999_E99A_E99B_E99C_E99D_E99E_E99F_E9A0_E9A1),
  (0x98D1, 0xE9A2_E9A3_E9A4_E9A5_E9A6_E9A7_E9A8_E9A9_E9AA_E9AB_E9AC_E9AD),
  (0x98DD, 0xE9AE_E9AF_E9B0_E9B1_E9B2_E9B3_E9B4_E9B5_E9B6_E9B7_E9B8_E9B9),
  (0x98E9, 0xE9BA_E9BB_E9BC_E9BD_E9BE_E9BF_E9C0_E9C1_E9C2_E9C3_E9C4_E9C5),
  (0x98F5, 0xE9C6_E9C7_E9C8_E9C9_E9CA_E9CB_E9CC_E9CD_E9CE_E9CF),
  (0x9940, 0xE9D0_E9D1_E9D2_E9D3_E9D4_E9D5_E9D6_E9D7_E9D8_E9D9_E9DA_E9DB),
  (0x994C, 0xE9DC_E9DD_E9DE_E9DF_E9E0_E9E1_E9E2_E9E3_E9E4_E9E5_E9E6_E9E7),
  (0x9958, 0xE9E8_E9E9_E9EA_E9EB_E9EC_E9ED_E9EE_E9EF_E9F0_E9F1_E9F2_E9F3),
  (0x9964, 0xE9F4_E9F5_E9F6_E9F7_E9F8_E9F9_E9FA_E9FB_E9FC_E9FD_E9FE_E9FF),
  (0x9970, 0xEA00_EA01_EA02_EA03_EA04_EA05_EA06_EA07_EA08_EA09_EA0A_EA0B),
  (0x997C, 0xEA0C_EA0D_EA0E),
  (0x99A1, 0xEA0F_EA10_EA11_EA12_EA13_EA14_EA15_EA16_EA17_EA18_EA19_EA1A),
  (0x99AD, 0xEA1B_EA1C_EA1D_EA1E_EA1F_EA20_EA21_EA22_EA23_EA24_EA25_EA26),
  (0x99B9, 0xEA27_EA28_EA29_EA2A_EA2B_EA2C_EA2D_EA2E_EA2F_EA30_EA31_EA32),
  (0x99C5, 0xEA33_EA34_EA35_EA36_EA37_EA38_EA39_EA3A_EA3B_EA3C_EA3D_EA3E),
  (0x99D1, 0xEA3F_EA40_EA41_EA42_EA43_EA44_EA45_EA46_EA47_EA48_EA49_EA4A),
  (0x99DD, 0xEA4B_EA4C_EA4D_EA4E_EA4F_EA50_EA51_EA52_EA53_EA54_EA55_EA56),
  (0x99E9, 0xEA57_EA58_EA59_EA5A_EA5B_EA5C_EA5D_EA5E_EA5F_EA60_EA61_EA62),
  (0x99F5, 0xEA63_EA64_EA65_EA66_EA67_EA68_EA69_EA6A_EA6B_EA6C),
  (0x9A40, 0xEA6D_EA6E_EA6F_EA70_EA71_EA72_EA73_EA74_EA75_EA76_EA77_EA78),
  (0x9A4C, 0xEA79_EA7A_EA7B_EA7C_EA7D_EA7E_EA7F_EA80_EA81_EA82_EA83_EA84),
  (0x9A58, 0xEA85_EA86_EA87_EA88_EA89_EA8A_EA8B_EA8C_EA8D_EA8E_EA8F_EA90),
  (0x9A64, 0xEA91_EA92_EA93_EA94_EA95_EA96_EA97_EA98_EA99_EA9A_EA9B_EA9C),
  (0x9A70, 0xEA9D_EA9E_EA9F_EAA0_EAA1_EAA2_EAA3_EAA4_EAA5_EAA6_EAA7_EAA8),
  (0x9A7C, 0xEAA9_EAAA_EAAB),
  (0x9AA1, 0xEAAC_EAAD_EAAE_EAAF_EAB0_EAB1_EAB2_EAB3_EAB4_EAB5_EAB6_EAB7),
  (0x9AAD, 0xEAB8_EAB9_EABA_EABB_EABC_EABD_EABE_EABF_EAC0_EAC1_EAC2_EAC3),
  (0x9AB9, 0xEAC4_EAC5_EAC6_EAC7_EAC8_EAC9_EACA_EACB_EACC_EACD_EACE_EACF),
  (0x9AC5, 0xEAD0_EAD1_EAD2_EAD3_EAD4_EAD5_EAD6_EAD7_EAD8_EAD9_EADA_EADB),
  (0x9AD1, 0xEADC_EADD_EADE_EADF_EAE0_EAE1_EAE2_EAE3_EAE4_EAE5_EAE6_EAE7),
  (0x9ADD, 0xEAE8_EAE9_EAEA_EAEB_EAEC_EAED_EAEE_EAEF_EAF0_EAF1_EAF2_EAF3),
  (0x9AE9, 0xEAF4_EAF5_EAF6_EAF7_EAF8_EAF9_EAFA_EAFB_EAFC_EAFD_EAFE_EAFF),
  (0x9AF5, 0xEB00_EB01_EB02_EB03_EB04_EB05_EB06_EB07_EB08_EB09),
  (0x9B40, 0xEB0A_EB0B_EB0C_EB0D_EB0E_EB0F_EB10_EB11_EB12_EB13_EB14_EB15),
  (0x9B4C, 0xEB16_EB17_EB18_EB19_EB1A_EB1B_EB1C_EB1D_EB1E_EB1F_EB20_EB21),
  (0x9B58, 0xEB22_EB23_EB24_EB25_EB26_EB27_EB28_EB29_EB2A_EB2B_EB2C_EB2D),
  (0x9B64, 0xEB2E_EB2F_EB30_EB31_EB32_EB33_EB34_EB35_EB36_EB37_EB38_EB39),
  (0x9B70, 0xEB3A_EB3B_EB3C_EB3D_EB3E_EB3F_EB40_EB41_EB42_EB43_EB44_EB45),
  (0x9B7C, 0xEB46_EB47_EB48),
  (0x9BA1, 0xEB49_EB4A_EB4B_EB4C_EB4D_EB4E_EB4F_EB50_EB51_EB52_EB53_EB54),
  (0x9BAD, 0xEB55_EB56_EB57_EB58_EB59_EB5A_EB5B_EB5C_EB5D_EB5E_EB5F_EB60),
  (0x9BB9, 0xEB61_EB62_EB63_EB64_EB65_EB66_EB67_EB68_EB69_EB6A_EB6B_EB6C),
  (0x9BC5, 0xEB6D_EB6E_EB6F_EB70_EB71_EB72_EB73_EB74_EB75_EB76_EB77_EB78),
  (0x9BD1, 0xEB79_EB7A_EB7B_EB7C_EB7D_EB7E_EB7F_EB80_EB81_EB82_EB83_EB84),
  (0x9BDD, 0xEB85_EB86_EB87_EB88_EB89_EB8A_EB8B_EB8C_EB8D_EB8E_EB8F_EB90),
  (0x9BE9, 0xEB91_EB92_EB93_EB94_EB95_EB96_EB97_EB98_EB99_EB9A_EB9B_EB9C),
  (0x9BF5, 0xEB9D_EB9E_EB9F_EBA0_EBA1_EBA2_EBA3_EBA4_EBA5_EBA6),
  (0x9C40, 0xEBA7_EBA8_EBA9_EBAA_EBAB_EBAC_EBAD_EBAE_EBAF_EBB0_EBB1_EBB2),
  (0x9C4C, 0xEBB3_EBB4_EBB5_EBB6_EBB7_EBB8_EBB9_EBBA_EBBB_EBBC_EBBD_EBBE),
  (0x9C58, 0xEBBF_EBC0_EBC1_EBC2_EBC3_EBC4_EBC5_EBC6_EBC7_EBC8_EBC9_EBCA),
  (0x9C64, 0xEBCB_EBCC_EBCD_EBCE_EBCF_EBD0_EBD1_EBD2_EBD3_EBD4_EBD5_EBD6),
  (0x9C70, 0xEBD7_EBD8_EBD9_EBDA_EBDB_EBDC_EBDD_EBDE_EBDF_EBE0_EBE1_EBE2),
  (0x9C7C, 0xEBE3_EBE4_EBE5),
  (0x9CA1, 0xEBE6_EBE7_EBE8_EBE9_EBEA_EBEB_EBEC_EBED_EBEE_EBEF_EBF0_EBF1),
  (0x9CAD, 0xEBF2_EBF3_EBF4_EBF5_EBF6_EBF7_EBF8_EBF9_EBFA_EBFB_EBFC_EBFD),
  (0x9CB9, 0xEBFE_EBFF_EC00_EC01_EC02_EC03_EC04_EC05_EC06_EC07_EC08_EC09),
  (0x9CC5, 0xEC0A_EC0B_EC0C_EC0D_EC0E_EC0F_EC10_EC11_EC12_EC13_EC14_EC15),
  (0x9CD1, 0xEC16_EC17_EC18_EC19_EC1A_EC1B_EC1C_EC1D_EC1E_EC1F_EC20_EC21),
  (0x9CDD, 0xEC22_EC23_EC24_EC25_EC26_EC27_EC28_EC29_EC2A_EC2B_EC2C_EC2D),
  (0x9CE9, 0xEC2E_EC2F_EC30_EC31_EC32_EC33_EC34_EC35_EC36_EC37_EC38_EC39),
  (0x9CF5, 0xEC3A_EC3B_EC3C_EC3D_EC3E_EC3F_EC40_EC41_EC42_EC43),
  (0x9D40, 0xEC44_EC45_EC46_EC47_EC48_EC49_EC4A_EC4B_EC4C_EC4D_EC4E_EC4F),
  (0x9D4C, 0xEC50_EC51_EC52_EC53_EC54_EC55_EC56_EC57_EC58_EC59_EC5A_EC5B),
  (0x9D58, 0xEC5C_EC5D_EC5E_EC5F_EC60_EC61_EC62_EC63_EC64_EC65_EC66_EC67),
  (0x9D64, 0xEC68_EC69_EC6A_EC6B_EC6C_EC6D_EC6E_EC6F_EC70_EC71_EC72_EC73),
  (0x9D70, 0xEC74_EC75_EC76_EC77_EC78_EC79_EC7A_EC7B_EC7C_EC7D_EC7E_EC7F),
  (0x9D7C, 0xEC80_EC81_EC82),
  (0x9DA1, 0xEC83_EC84_EC85_EC86_EC87_EC88_EC89_EC8A_EC8B_EC8C_EC8D_EC8E),
  (0x9DAD, 0xEC8F_EC90_EC91_EC92_EC93_EC94_EC95_EC96_EC97_EC98_EC99_EC9A),
  (0x9DB9, 0xEC9B_EC9C_EC9D_EC9E_EC9F_ECA0_ECA1_ECA2_ECA3_ECA4_ECA5_ECA6),
  (0x9DC5, 0xECA7_ECA8_ECA9_ECAA_ECAB_ECAC_ECAD_ECAE_ECAF_ECB0_ECB1_ECB2),
  (0x9DD1, 0xECB3_ECB4_ECB5_ECB6_ECB7_ECB8_ECB9_ECBA_ECBB_ECBC_ECBD_ECBE),
  (0x9DDD, 0xECBF_ECC0_ECC1_ECC2_ECC3_ECC4_ECC5_ECC6_ECC7_ECC8_ECC9_ECCA),
  (0x9DE9, 0xECCB_ECCC_ECCD_ECCE_ECCF_ECD0_ECD1_ECD2_ECD3_ECD4_ECD5_ECD6),
  (0x9DF5, 0xECD7_ECD8_ECD9_ECDA_ECDB_ECDC_ECDD_ECDE_ECDF_ECE0),
  (0x9E40, 0xECE1_ECE2_ECE3_ECE4_ECE5_ECE6_ECE7_ECE8_ECE9_ECEA_ECEB_ECEC),
  (0x9E4C, 0xECED_ECEE_ECEF_ECF0_ECF1_ECF2_ECF3_ECF4_ECF5_ECF6_ECF7_ECF8),
  (0x9E58, 0xECF9_ECFA_ECFB_ECFC_ECFD_ECFE_ECFF_ED00_ED01_ED02_ED03_ED04),
  (0x9E64, 0xED05_ED06_ED07_ED08_ED09_ED0A_ED0B_ED0C_ED0D_ED0E_ED0F_ED10),
  (0x9E70, 0xED11_ED12_ED13_ED14_ED15_ED16_ED17_ED18_ED19_ED1A_ED1B_ED1C),
  (0x9E7C, 0xED1D_ED1E_ED1F),
  (0x9EA1, 0xED20_ED21_ED22_ED23_ED24_ED25_ED26_ED27_ED28_ED29_ED2A_ED2B),
  (0x9EAD, 0xED2C_ED2D_ED2E_ED2F_ED30_ED31_ED32_ED33_ED34_ED35_ED36_ED37),
  (0x9EB9, 0xED38_ED39_ED3A_ED3B_ED3C_ED3D_ED3E_ED3F_ED40_ED41_ED42_ED43),
  (0x9EC5, 0xED44_ED45_ED46_ED47_ED48_ED49_ED4A_ED4B_ED4C_ED4D_ED4E_ED4F),
  (0x9ED1, 0xED50_ED51_ED52_ED53_ED54_ED55_ED56_ED57_ED58_ED59_ED5A_ED5B),
  (0x9EDD, 0xED5C_ED5D_ED5E_ED5F_ED60_ED61_ED62_ED63_ED64_ED65_ED66_ED67),
  (0x9EE9, 0xED68_ED69_ED6A_ED6B_ED6C_ED6D_ED6E_ED6F_ED70_ED71_ED72_ED73),
  (0x9EF5, 0xED74_ED75_ED76_ED77_ED78_ED79_ED7A_ED7B_ED7C_ED7D),
  (0x9F40, 0xED7E_ED7F_ED80_ED81_ED82_ED83_ED84_ED85_ED86_ED87_ED88_ED89),
  (0x9F4C, 0xED8A_ED8B_ED8C_ED8D_ED8E_ED8F_ED90_ED91_ED92_ED93_ED94_ED95),
  (0x9F58, 0xED96_ED97_ED98_ED99_ED9A_ED9B_ED9C_ED9D_ED9E_ED9F_EDA0_EDA1),
  (0x9F64, 0xEDA2_EDA3_EDA4_EDA5_EDA6_EDA7_EDA8_EDA9_EDAA_EDAB_EDAC_EDAD),
  (0x9F70, 0xEDAE_EDAF_EDB0_EDB1_EDB2_EDB3_EDB4_EDB5_EDB6_EDB7_EDB8_EDB9),
  (0x9F7C, 0xEDBA_EDBB_EDBC),
  (0x9FA1, 0xEDBD_EDBE_EDBF_EDC0_EDC1_EDC2_EDC3_EDC4_EDC5_EDC6_EDC7_EDC8),
  (0x9FAD, 0xEDC9_EDCA_EDCB_EDCC_EDCD_EDCE_EDCF_EDD0_EDD1_EDD2_EDD3_EDD4),
  (0x9FB9, 0xEDD5_EDD6_EDD7_EDD8_EDD9_EDDA_EDDB_EDDC_EDDD_EDDE_EDDF_EDE0),
  (0x9FC5, 0xEDE1_EDE2_EDE3_EDE4_EDE5_EDE6_EDE7_EDE8_EDE9_EDEA_EDEB_EDEC),
  (0x9FD1, 0xEDED_EDEE_EDEF_EDF0_EDF1_EDF2_EDF3_EDF4_EDF5_EDF6_EDF7_EDF8),
  (0x9FDD, 0xEDF9_EDFA_EDFB_EDFC_EDFD_EDFE_EDFF_EE00_EE01_EE02_EE03_EE04),
  (0x9FE9, 0xEE05_EE06_EE07_EE08_EE09_EE0A_EE0B_EE0C_EE0D_EE0E_EE0F_EE10),
  (0x9FF5, 0xEE11_EE12_EE13_EE14_EE15_EE16_EE17_EE18_EE19_EE1A),
  (0xA040, 0xEE1B_EE1C_EE1D_EE1E_EE1F_EE20_EE21_EE22_EE23_EE24_EE25_EE26),
  (0xA04C, 0xEE27_EE28_EE29_EE2A_EE2B_EE2C_EE2D_EE2E_EE2F_EE30_EE31_EE32),
  (0xA058, 0xEE33_EE34_EE35_EE36_EE37_EE38_EE39_EE3A_EE3B_EE3C_EE3D_EE3E),
  (0xA064, 0xEE3F_EE40_EE41_EE42_EE43_EE44_EE45_EE46_EE47_EE48_EE49_EE4A),
  (0xA070, 0xEE4B_EE4C_EE4D_EE4E_EE4F_EE50_EE51_EE52_EE53_EE54_EE55_EE56),
  (0xA07C, 0xEE57_EE58_EE59),
  (0xA0A1, 0xEE5A_EE5B_EE5C_EE5D_EE5E_EE5F_EE60_EE61_EE62_EE63_EE64_EE65),
  (0xA0AD, 0xEE66_EE67_EE68_EE69_EE6A_EE6B_EE6C_EE6D_EE6E_EE6F_EE70_EE71),
  (0xA0B9, 0xEE72_EE73_EE74_EE75_EE76_EE77_EE78_EE79_EE7A_EE7B_EE7C_EE7D),
  (0xA0C5, 0xEE7E_EE7F_EE80_EE81_EE82_EE83_EE84_EE85_EE86_EE87_EE88_EE89),
  (0xA0D1, 0xEE8A_EE8B_EE8C_EE8D_EE8E_EE8F_EE90_EE91_EE92_EE93_EE94_EE95),
  (0xA0DD, 0xEE96_EE97_EE98_EE99_EE9A_EE9B_EE9C_EE9D_EE9E_EE9F_EEA0_EEA1),
  (0xA0E9, 0xEEA2_EEA3_EEA4_EEA5_EEA6_EEA7_EEA8_EEA9_EEAA_EEAB_EEAC_EEAD),
  (0xA0F5, 0xEEAE_EEAF_EEB0_EEB1_EEB2_EEB3_EEB4_EEB5_EEB6_EEB7),
  (0xA140, 0x3000_FF0C_3001_3002_FF0E_2027_FF1B_FF1A_FF1F_FF01_FE30_2026),
  (0xA14C, 0x2025_FE50_FE51_FE52_00B7_FE54_FE55_FE56_FE57_FF5C_2015_FE31),
  (0xA158, 0x2014_FE33_2574_FE34_FE4F_FF08_FF09_FE35_FE36_FF5B_FF5D_FE37),
  (0xA164, 0xFE38_3014_3015_FE39_FE3A_3010_3011_FE3B_FE3C_300A_300B_FE3D),
  (0xA170, 0xFE3E_3008_3009_FE3F_FE40_300C_300D_FE41_FE42_300E_300F_FE43),
  (0xA17C, 0xFE44_FE59_FE5A),
  (0xA1A1, 0xFE5B_FE5C_FE5D_FE5E_2018_2019_201C_201D_301D_301E_2035_2032),
  (0xA1AD, 0xFF03_FF06_FF0A_203B_00A7_3003_25CB_25CF_25B3_25B2_25CE_2606),
  (0xA1B9, 0x2605_25C7_25C6_25A1_25A0_25BD_25BC_32A3_2105_203E_FFE3_FF3F),
  (0xA1C5, 0x02CD_FE49_FE4A_FE4D_FE4E_FE4B_FE4C_FE5F_FE60_FE61_FF0B_FF0D),
  (0xA1D1, 0x00D7_00F7_00B1_221A_FF1C_FF1E_FF1D_2266_2267_2260_221E_2252),
  (0xA1DD, 0x2261_FE62_FE63_FE64_FE65_FE66_FF5E_2229_222A_22A5_2220_221F),
  (0xA1E9, 0x22BF_33D2_33D1_222B_222E_2235_2234_2640_2642_2295_2299_2191),
  (0xA1F5, 0x2193_2190_2192_2196_2197_2199_2198_2225_2223_FF0F),
  (0xA240, 0xFF3C_2215_FE68_FF04_FFE5_3012_FFE0_FFE1_FF05_FF20_2103_2109),
  (0xA24C, 0xFE69_FE6A_FE6B_33D5_339C_339D_339E_33CE_33A1_338E_338F_33C4),
  (0xA258, 0x00B0_5159_515B_515E_515D_5161_5163_55E7_74E9_7CCE_2581_2582),
  (0xA264, 0x2583_2584_2585_2586_2587_2588_258F_258E_258D_258C_258B_258A),
  (0xA270, 0x2589_253C_2534_252C_2524_251C_2594_2500_2502_2595_250C_2510),
  (0xA27C, 0x2514_2518_256D),
  (0xA2A1, 0x256E_2570_256F_2501_251D_253F_2525_25E2_25E3_25E5_25E4_2571),
  (0xA2AD, 0x2572_2573_FF10_FF11_FF12_FF13_FF14_FF15_FF16_FF17_FF18_FF19),
  (0xA2B9, 0x2160_2161_2162_2163_2164_2165_2166_2167_2168_2169_3021_3022),
  (0xA2C5, 0x3023_3024_3025_3026_3027_3028_3029_3038_3039_303A_FF21_FF22),
  (0xA2D1, 0xFF23_FF24_FF25_FF26_FF27_FF28_FF29_FF2A_FF2B_FF2C_FF2D_FF2E),
  (0xA2DD, 0xFF2F_FF30_FF31_FF32_FF33_FF34_FF35_FF36_FF37_FF38_FF39_FF3A),
  (0xA2E9, 0xFF41_FF42_FF43_FF44_FF45_FF46_FF47_FF48_FF49_FF4A_FF4B_FF4C),
  (0xA2F5, 0xFF4D_FF4E_FF4F_FF50_FF51_FF52_FF53_FF54_FF55_FF56),
  (0xA340, 0xFF57_FF58_FF59_FF5A_0391_0392_0393_0394_0395_0396_0397_0398),
  (0xA34C, 0x0399_039A_039B_039C_039D_039E_039F_03A0_03A1_03A3_03A4_03A5),
  (0xA358, 0x03A6_03A7_03A8_03A9_03B1_03B2_03B3_03B4_03B5_03B6_03B7_03B8),
  (0xA364, 0x03B9_03BA_03BB_03BC_03BD_03BE_03BF_03C0_03C1_03C3_03C4_03C5),
  (0xA370, 0x03C6_03C7_03C8_03C9_3105_3106_3107_3108_3109_310A_310B_310C),
  (0xA37C, 0x310D_310E_310F),
  (0xA3A1, 0x3110_3111_3112_3113_3114_3115_3116_3117_3118_3119_311A_311B),
  (0xA3AD, 0x311C_311D_311E_311F_3120_3121_3122_3123_3124_3125_3126_3127),
  (0xA3B9, 0x3128_3129_02D9_02C9_02CA_02C7_02CB_2400_2401_2402_2403_2404),
  (0xA3C5, 0x2405_2406_2407_2408_2409_240A_240B_240C_240D_240E_240F_2410),
  (0xA3D1, 0x2411_2412_2413_2414_2415_2416_2417_2418_2419_241A_241B_241C),
  (0xA3DD, 0x241D_241E_241F_2421_20AC),
  (0xA440, 0x4E00_4E59_4E01_4E03_4E43_4E5D_4E86_4E8C_4EBA_513F_5165_516B),
  (0xA44C, 0x51E0_5200_5201_529B_5315_5341_535C_53C8_4E09_4E0B_4E08_4E0A),
  (0xA458, 0x4E2B_4E38_51E1_4E45_4E48_4E5F_4E5E_4E8E_4EA1_5140_5203_52FA),
  (0xA464, 0x5343_53C9_53E3_571F_58EB_5915_5927_5973_5B50_5B51_5B53_5BF8),
  (0xA470, 0x5C0F_5C22_5C38_5C71_5DDD_5DE5_5DF1_5DF2_5DF3_5DFE_5E72_5EFE),
  (0xA47C, 0x5F0B_5F13_624D),
  (0xA4A1, 0x4E11_4E10_4E0D_4E2D_4E30_4E39_4E4B_5C39_4E88_4E91_4E95_4E92),
  (0xA4AD, 0x4E94_4EA2_4EC1_4EC0_4EC3_4EC6_4EC7_4ECD_4ECA_4ECB_4EC4_5143),
  (0xA4B9, 0x5141_5167_516D_516E_516C_5197_51F6_5206_5207_5208_52FB_52FE),
  (0xA4C5, 0x52FF_5316_5339_5348_5347_5345_535E_5384_53CB_53CA_53CD_58EC),
  (0xA4D1, 0x5929_592B_592A_592D_5B54_5C11_5C24_5C3A_5C6F_5DF4_5E7B_5EFF),
  (0xA4DD, 0x5F14_5F15_5FC3_6208_6236_624B_624E_652F_6587_6597_65A4_65B9),
  (0xA4E9, 0x65E5_66F0_6708_6728_6B20_6B62_6B79_6BCB_6BD4_6BDB_6C0F_6C34),
  (0xA4F5, 0x706B_722A_7236_723B_7247_7259_725B_72AC_738B_4E19),
  (0xA540, 0x4E16_4E15_4E14_4E18_4E3B_4E4D_4E4F_4E4E_4EE5_4ED8_4ED4_4ED5),
  (0xA54C, 0x4ED6_4ED7_4EE3_4EE4_4ED9_4EDE_5145_5144_5189_518A_51AC_51F9),
  (0xA558, 0x51FA_51F8_520A_52A0_529F_5305_5306_5317_531D_4EDF_534A_5349),
  (0xA564, 0x5361_5360_536F_536E_53BB_53EF_53E4_53F3_53EC_53EE_53E9_53E8),
  (0xA570, 0x53FC_53F8_53F5_53EB_53E6_53EA_53F2_53F1_53F0_53E5_53ED_53FB),
  (0xA57C, 0x56DB_56DA_5916),
  (0xA5A1, 0x592E_5931_5974_5976_5B55_5B83_5C3C_5DE8_5DE7_5DE6_5E02_5E03),
  (0xA5AD, 0x5E73_5E7C_5F01_5F18_5F17_5FC5_620A_6253_6254_6252_6251_65A5),
  (0xA5B9, 0x65E6_672E_672C_672A_672B_672D_6B63_6BCD_6C11_6C10_6C38_6C41),
  (0xA5C5, 0x6C40_6C3E_72AF_7384_7389_74DC_74E6_7518_751F_7528_7529_7530),
  (0xA5D1, 0x7531_7532_7533_758B_767D_76AE_76BF_76EE_77DB_77E2_77F3_793A),
  (0xA5DD, 0x79BE_7A74_7ACB_4E1E_4E1F_4E52_4E53_4E69_4E99_4EA4_4EA6_4EA5),
  (0xA5E9, 0x4EFF_4F09_4F19_4F0A_4F15_4F0D_4F10_4F11_4F0F_4EF2_4EF6_4EFB),
  (0xA5F5, 0x4EF0_4EF3_4EFD_4F01_4F0B_5149_5147_5146_5148_5168),
  (0xA640, 0x5171_518D_51B0_5217_5211_5212_520E_5216_52A3_5308_5321_5320),
  (0xA64C, 0x5370_5371_5409_540F_540C_540A_5410_5401_540B_5404_5411_540D),
  (0xA658, 0x5408_5403_540E_5406_5412_56E0_56DE_56DD_5733_5730_5728_572D),
  (0xA664, 0x572C_572F_5729_5919_591A_5937_5938_5984_5978_5983_597D_5979),
  (0xA670, 0x5982_5981_5B57_5B58_5B87_5B88_5B85_5B89_5BFA_5C16_5C79_5DDE),
  (0xA67C, 0x5E06_5E76_5E74),
  (0xA6A1, 0x5F0F_5F1B_5FD9_5FD6_620E_620C_620D_6210_6263_625B_6258_6536),
  (0xA6AD, 0x65E9_65E8_65EC_65ED_66F2_66F3_6709_673D_6734_6731_6735_6B21),
  (0xA6B9, 0x6B64_6B7B_6C16_6C5D_6C57_6C59_6C5F_6C60_6C50_6C55_6C61_6C5B),
  (0xA6C5, 0x6C4D_6C4E_7070_725F_725D_767E_7AF9_7C73_7CF8_7F36_7F8A_7FBD),
  (0xA6D1, 0x8001_8003_800C_8012_8033_807F_8089_808B_808C_81E3_81EA_81F3),
  (0xA6DD, 0x81FC_820C_821B_821F_826E_8272_827E_866B_8840_884C_8863_897F),
  (0xA6E9, 0x9621_4E32_4EA8_4F4D_4F4F_4F47_4F57_4F5E_4F34_4F5B_4F55_4F30),
  (0xA6F5, 0x4F50_4F51_4F3D_4F3A_4F38_4F43_4F54_4F3C_4F46_4F63),
  (0xA740, 0x4F5C_4F60_4F2F_4F4E_4F36_4F59_4F5D_4F48_4F5A_514C_514B_514D),
  (0xA74C, 0x5175_51B6_51B7_5225_5224_5229_522A_5228_52AB_52A9_52AA_52AC),
  (0xA758, 0x5323_5373_5375_541D_542D_541E_543E_5426_544E_5427_5446_5443),
  (0xA764, 0x5433_5448_5442_541B_5429_544A_5439_543B_5438_542E_5435_5436),
  (0xA770, 0x5420_543C_5440_5431_542B_541F_542C_56EA_56F0_56E4_56EB_574A),
  (0xA77C, 0x5751_5740_574D),
  (0xA7A1, 0x5747_574E_573E_5750_574F_573B_58EF_593E_599D_5992_59A8_599E),
  (0xA7AD, 0x59A3_5999_5996_598D_59A4_5993_598A_59A5_5B5D_5B5C_5B5A_5B5B),
  (0xA7B9, 0x5B8C_5B8B_5B8F_5C2C_5C40_5C41_5C3F_5C3E_5C90_5C91_5C94_5C8C),
  (0xA7C5, 0x5DEB_5E0C_5E8F_5E87_5E8A_5EF7_5F04_5F1F_5F64_5F62_5F77_5F79),
  (0xA7D1, 0x5FD8_5FCC_5FD7_5FCD_5FF1_5FEB_5FF8_5FEA_6212_6211_6284_6297),
  (0xA7DD, 0x6296_6280_6276_6289_626D_628A_627C_627E_6279_6273_6292_626F),
  (0xA7E9, 0x6298_626E_6295_6293_6291_6286_6539_653B_6538_65F1_66F4_675F),
  (0xA7F5, 0x674E_674F_6750_6751_675C_6756_675E_6749_6746_6760),
  (0xA840, 0x6753_6757_6B65_6BCF_6C42_6C5E_6C99_6C81_6C88_6C89_6C85_6C9B),
  (0xA84C, 0x6C6A_6C7A_6C90_6C70_6C8C_6C68_6C96_6C92_6C7D_6C83_6C72_6C7E),
  (0xA858, 0x6C74_6C86_6C76_6C8D_6C94_6C98_6C82_7076_707C_707D_7078_7262),
  (0xA864, 0x7261_7260_72C4_72C2_7396_752C_752B_7537_7538_7682_76EF_77E3),
  (0xA870, 0x79C1_79C0_79BF_7A76_7CFB_7F55_8096_8093_809D_8098_809B_809A),
  (0xA87C, 0x80B2_826F_8292),
  (0xA8A1, 0x828B_828D_898B_89D2_8A00_8C37_8C46_8C55_8C9D_8D64_8D70_8DB3),
  (0xA8AD, 0x8EAB_8ECA_8F9B_8FB0_8FC2_8FC6_8FC5_8FC4_5DE1_9091_90A2_90AA),
  (0xA8B9, 0x90A6_90A3_9149_91C6_91CC_9632_962E_9631_962A_962C_4E26_4E56),
  (0xA8C5, 0x4E73_4E8B_4E9B_4E9E_4EAB_4EAC_4F6F_4F9D_4F8D_4F73_4F7F_4F6C),
  (0xA8D1, 0x4F9B_4F8B_4F86_4F83_4F70_4F75_4F88_4F69_4F7B_4F96_4F7E_4F8F),
  (0xA8DD, 0x4F91_4F7A_5154_5152_5155_5169_5177_5176_5178_51BD_51FD_523B),
  (0xA8E9, 0x5238_5237_523A_5230_522E_5236_5241_52BE_52BB_5352_5354_5353),
  (0xA8F5, 0x5351_5366_5377_5378_5379_53D6_53D4_53D7_5473_5475),
  (0xA940, 0x5496_5478_5495_5480_547B_5477_5484_5492_5486_547C_5490_5471),
  (0xA94C, 0x5476_548C_549A_5462_5468_548B_547D_548E_56FA_5783_5777_576A),
  (0xA958, 0x5769_5761_5766_5764_577C_591C_5949_5947_5948_5944_5954_59BE),
  (0xA964, 0x59BB_59D4_59B9_59AE_59D1_59C6_59D0_59CD_59CB_59D3_59CA_59AF),
  (0xA970, 0x59B3_59D2_59C5_5B5F_5B64_5B63_5B97_5B9A_5B98_5B9C_5B99_5B9B),
  (0xA97C, 0x5C1A_5C48_5C45),
  (0xA9A1, 0x5C46_5CB7_5CA1_5CB8_5CA9_5CAB_5CB1_5CB3_5E18_5E1A_5E16_5E15),
  (0xA9AD, 0x5E1B_5E11_5E78_5E9A_5E97_5E9C_5E95_5E96_5EF6_5F26_5F27_5F29),
  (0xA9B9, 0x5F80_5F81_5F7F_5F7C_5FDD_5FE0_5FFD_5FF5_5FFF_600F_6014_602F),
  (0xA9C5, 0x6035_6016_602A_6015_6021_6027_6029_602B_601B_6216_6215_623F),
  (0xA9D1, 0x623E_6240_627F_62C9_62CC_62C4_62BF_62C2_62B9_62D2_62DB_62AB),
  (0xA9DD, 0x62D3_62D4_62CB_62C8_62A8_62BD_62BC_62D0_62D9_62C7_62CD_62B5),
  (0xA9E9, 0x62DA_62B1_62D8_62D6_62D7_62C6_62AC_62CE_653E_65A7_65BC_65FA),
  (0xA9F5, 0x6614_6613_660C_6606_6602_660E_6600_660F_6615_660A),
  (0xAA40, 0x6607_670D_670B_676D_678B_6795_6771_679C_6773_6777_6787_679D),
  (0xAA4C, 0x6797_676F_6770_677F_6789_677E_6790_6775_679A_6793_677C_676A),
  (0xAA58, 0x6772_6B23_6B66_6B67_6B7F_6C13_6C1B_6CE3_6CE8_6CF3_6CB1_6CCC),
  (0xAA64, 0x6CE5_6CB3_6CBD_6CBE_6CBC_6CE2_6CAB_6CD5_6CD3_6CB8_6CC4_6CB9),
  (0xAA70, 0x6CC1_6CAE_6CD7_6CC5_6CF1_6CBF_6CBB_6CE1_6CDB_6CCA_6CAC_6CEF),
  (0xAA7C, 0x6CDC_6CD6_6CE0),
  (0xAAA1, 0x7095_708E_7092_708A_7099_722C_722D_7238_7248_7267_7269_72C0),
  (0xAAAD, 0x72CE_72D9_72D7_72D0_73A9_73A8_739F_73AB_73A5_753D_759D_7599),
  (0xAAB9, 0x759A_7684_76C2_76F2_76F4_77E5_77FD_793E_7940_7941_79C9_79C8),
  (0xAAC5, 0x7A7A_7A79_7AFA_7CFE_7F54_7F8C_7F8B_8005_80BA_80A5_80A2_80B1),
  (0xAAD1, 0x80A1_80AB_80A9_80B4_80AA_80AF_81E5_81FE_820D_82B3_829D_8299),
  (0xAADD, 0x82AD_82BD_829F_82B9_82B1_82AC_82A5_82AF_82B8_82A3_82B0_82BE),
  (0xAAE9, 0x82B7_864E_8671_521D_8868_8ECB_8FCE_8FD4_8FD1_90B5_90B8_90B1),
  (0xAAF5, 0x90B6_91C7_91D1_9577_9580_961C_9640_963F_963B_9644),
  (0xAB40, 0x9642_96B9_96E8_9752_975E_4E9F_4EAD_4EAE_4FE1_4FB5_4FAF_4FBF),
  (0xAB4C, 0x4FE0_4FD1_4FCF_4FDD_4FC3_4FB6_4FD8_4FDF_4FCA_4FD7_4FAE_4FD0),
  (0xAB58, 0x4FC4_4FC2_4FDA_4FCE_4FDE_4FB7_5157_5192_5191_51A0_524E_5243),
  (0xAB64, 0x524A_524D_524C_524B_5247_52C7_52C9_52C3_52C1_530D_5357_537B),
  (0xAB70, 0x539A_53DB_54AC_54C0_54A8_54CE_54C9_54B8_54A6_54B3_54C7_54C2),
  (0xAB7C, 0x54BD_54AA_54C1),
  (0xABA1, 0x54C4_54C8_54AF_54AB_54B1_54BB_54A9_54A7_54BF_56FF_5782_578B),
  (0xABAD, 0x57A0_57A3_57A2_57CE_57AE_5793_5955_5951_594F_594E_5950_59DC),
  (0xABB9, 0x59D8_59FF_59E3_59E8_5A03_59E5_59EA_59DA_59E6_5A01_59FB_5B69),
  (0xABC5, 0x5BA3_5BA6_5BA4_5BA2_5BA5_5C01_5C4E_5C4F_5C4D_5C4B_5CD9_5CD2),
  (0xABD1, 0x5DF7_5E1D_5E25_5E1F_5E7D_5EA0_5EA6_5EFA_5F08_5F2D_5F65_5F88),
  (0xABDD, 0x5F85_5F8A_5F8B_5F87_5F8C_5F89_6012_601D_6020_6025_600E_6028),
  (0xABE9, 0x604D_6070_6068_6062_6046_6043_606C_606B_606A_6064_6241_62DC),
  (0xABF5, 0x6316_6309_62FC_62ED_6301_62EE_62FD_6307_62F1_62F7),
  (0xAC40, 0x62EF_62EC_62FE_62F4_6311_6302_653F_6545_65AB_65BD_65E2_6625),
  (0xAC4C, 0x662D_6620_6627_662F_661F_6628_6631_6624_66F7_67FF_67D3_67F1),
  (0xAC58, 0x67D4_67D0_67EC_67B6_67AF_67F5_67E9_67EF_67C4_67D1_67B4_67DA),
  (0xAC64, 0x67E5_67B8_67CF_67DE_67F3_67B0_67D9_67E2_67DD_67D2_6B6A_6B83),
  (0xAC70, 0x6B86_6BB5_6BD2_6BD7_6C1F_6CC9_6D0B_6D32_6D2A_6D41_6D25_6D0C),
  (0xAC7C, 0x6D31_6D1E_6D17),
  (0xACA1, 0x6D3B_6D3D_6D3E_6D36_6D1B_6CF5_6D39_6D27_6D38_6D29_6D2E_6D35),
  (0xACAD, 0x6D0E_6D2B_70AB_70BA_70B3_70AC_70AF_70AD_70B8_70AE_70A4_7230),
  (0xACB9, 0x7272_726F_7274_72E9_72E0_72E1_73B7_73CA_73BB_73B2_73CD_73C0),
  (0xACC5, 0x73B3_751A_752D_754F_754C_754E_754B_75AB_75A4_75A5_75A2_75A3),
  (0xACD1, 0x7678_7686_7687_7688_76C8_76C6_76C3_76C5_7701_76F9_76F8_7709),
  (0xACDD, 0x770B_76FE_76FC_7707_77DC_7802_7814_780C_780D_7946_7949_7948),
  (0xACE9, 0x7947_79B9_79BA_79D1_79D2_79CB_7A7F_7A81_7AFF_7AFD_7C7D_7D02),
  (0xACF5, 0x7D05_7D00_7D09_7D07_7D04_7D06_7F38_7F8E_7FBF_8004),
  (0xAD40, 0x8010_800D_8011_8036_80D6_80E5_80DA_80C3_80C4_80CC_80E1_80DB),
  (0xAD4C, 0x80CE_80DE_80E4_80DD_81F4_8222_82E7_8303_8305_82E3_82DB_82E6),
  (0xAD58, 0x8304_82E5_8302_8309_82D2_82D7_82F1_8301_82DC_82D4_82D1_82DE),
  (0xAD64, 0x82D3_82DF_82EF_8306_8650_8679_867B_867A_884D_886B_8981_89D4),
  (0xAD70, 0x8A08_8A02_8A03_8C9E_8CA0_8D74_8D73_8DB4_8ECD_8ECC_8FF0_8FE6),
  (0xAD7C, 0x8FE2_8FEA_8FE5),
  (0xADA1, 0x8FED_8FEB_8FE4_8FE8_90CA_90CE_90C1_90C3_914B_914A_91CD_9582),
  (0xADAD, 0x9650_964B_964C_964D_9762_9769_97CB_97ED_97F3_9801_98A8_98DB),
  (0xADB9, 0x98DF_9996_9999_4E58_4EB3_500C_500D_5023_4FEF_5026_5025_4FF8),
  (0xADC5, 0x5029_5016_5006_503C_501F_501A_5012_5011_4FFA_5000_5014_5028),
  (0xADD1, 0x4FF1_5021_500B_5019_5018_4FF3_4FEE_502D_502A_4FFE_502B_5009),
  (0xADDD, 0x517C_51A4_51A5_51A2_51CD_51CC_51C6_51CB_5256_525C_5254_525B),
  (0xADE9, 0x525D_532A_537F_539F_539D_53DF_54E8_5510_5501_5537_54FC_54E5),
  (0xADF5, 0x54F2_5506_54FA_5514_54E9_54ED_54E1_5509_54EE_54EA),
  (0xAE40, 0x54E6_5527_5507_54FD_550F_5703_5704_57C2_57D4_57CB_57C3_5809),
  (0xAE4C, 0x590F_5957_5958_595A_5A11_5A18_5A1C_5A1F_5A1B_5A13_59EC_5A20),
  (0xAE58, 0x5A23_5A29_5A25_5A0C_5A09_5B6B_5C58_5BB0_5BB3_5BB6_5BB4_5BAE),
  (0xAE64, 0x5BB5_5BB9_5BB8_5C04_5C51_5C55_5C50_5CED_5CFD_5CFB_5CEA_5CE8),
  (0xAE70, 0x5CF0_5CF6_5D01_5CF4_5DEE_5E2D_5E2B_5EAB_5EAD_5EA7_5F31_5F92),
  (0xAE7C, 0x5F91_5F90_6059),
  (0xAEA1, 0x6063_6065_6050_6055_606D_6069_606F_6084_609F_609A_608D_6094),
  (0xAEAD, 0x608C_6085_6096_6247_62F3_6308_62FF_634E_633E_632F_6355_6342),
  (0xAEB9, 0x6346_634F_6349_633A_6350_633D_632A_632B_6328_634D_634C_6548),
  (0xAEC5, 0x6549_6599_65C1_65C5_6642_6649_664F_6643_6652_664C_6645_6641),
  (0xAED1, 0x66F8_6714_6715_6717_6821_6838_6848_6846_6853_6839_6842_6854),
  (0xAEDD, 0x6829_68B3_6817_684C_6851_683D_67F4_6850_6840_683C_6843_682A),
  (0xAEE9, 0x6845_6813_6818_6841_6B8A_6B89_6BB7_6C23_6C27_6C28_6C26_6C24),
  (0xAEF5, 0x6CF0_6D6A_6D95_6D88_6D87_6D66_6D78_6D77_6D59_6D93),
  (0xAF40, 0x6D6C_6D89_6D6E_6D5A_6D74_6D69_6D8C_6D8A_6D79_6D85_6D65_6D94),
  (0xAF4C, 0x70CA_70D8_70E4_70D9_70C8_70CF_7239_7279_72FC_72F9_72FD_72F8),
  (0xAF58, 0x72F7_7386_73ED_7409_73EE_73E0_73EA_73DE_7554_755D_755C_755A),
  (0xAF64, 0x7559_75BE_75C5_75C7_75B2_75B3_75BD_75BC_75B9_75C2_75B8_768B),
  (0xAF70, 0x76B0_76CA_76CD_76CE_7729_771F_7720_7728_77E9_7830_7827_7838),
  (0xAF7C, 0x781D_7834_7837),
  (0xAFA1, 0x7825_782D_7820_781F_7832_7955_7950_7960_795F_7956_795E_795D),
  (0xAFAD, 0x7957_795A_79E4_79E3_79E7_79DF_79E6_79E9_79D8_7A84_7A88_7AD9),
  (0xAFB9, 0x7B06_7B11_7C89_7D21_7D17_7D0B_7D0A_7D20_7D22_7D14_7D10_7D15),
  (0xAFC5, 0x7D1A_7D1C_7D0D_7D19_7D1B_7F3A_7F5F_7F94_7FC5_7FC1_8006_8018),
  (0xAFD1, 0x8015_8019_8017_803D_803F_80F1_8102_80F0_8105_80ED_80F4_8106),
  (0xAFDD, 0x80F8_80F3_8108_80FD_810A_80FC_80EF_81ED_81EC_8200_8210_822A),
  (0xAFE9, 0x822B_8228_822C_82BB_832B_8352_8354_834A_8338_8350_8349_8335),
  (0xAFF5, 0x8334_834F_8332_8339_8336_8317_8340_8331_8328_8343),
  (0xB040, 0x8654_868A_86AA_8693_86A4_86A9_868C_86A3_869C_8870_8877_8881),
  (0xB04C, 0x8882_887D_8879_8A18_8A10_8A0E_8A0C_8A15_8A0A_8A17_8A13_8A16),
  (0xB058, 0x8A0F_8A11_8C48_8C7A_8C79_8CA1_8CA2_8D77_8EAC_8ED2_8ED4_8ECF),
  (0xB064, 0x8FB1_9001_9006_8FF7_9000_8FFA_8FF4_9003_8FFD_9005_8FF8_9095),
  (0xB070, 0x90E1_90DD_90E2_9152_914D_914C_91D8_91DD_91D7_91DC_91D9_9583),
  (0xB07C, 0x9662_9663_9661),
  (0xB0A1, 0x965B_965D_9664_9658_965E_96BB_98E2_99AC_9AA8_9AD8_9B25_9B32),
  (0xB0AD, 0x9B3C_4E7E_507A_507D_505C_5047_5043_504C_505A_5049_5065_5076),
  (0xB0B9, 0x504E_5055_5075_5074_5077_504F_500F_506F_506D_515C_5195_51F0),
  (0xB0C5, 0x526A_526F_52D2_52D9_52D8_52D5_5310_530F_5319_533F_5340_533E),
  (0xB0D1, 0x53C3_66FC_5546_556A_5566_5544_555E_5561_5543_554A_5531_5556),
  (0xB0DD, 0x554F_5555_552F_5564_5538_552E_555C_552C_5563_5533_5541_5557),
  (0xB0E9, 0x5708_570B_5709_57DF_5805_580A_5806_57E0_57E4_57FA_5802_5835),
  (0xB0F5, 0x57F7_57F9_5920_5962_5A36_5A41_5A49_5A66_5A6A_5A40),
  (0xB140, 0x5A3C_5A62_5A5A_5A46_5A4A_5B70_5BC7_5BC5_5BC4_5BC2_5BBF_5BC6),
  (0xB14C, 0x5C09_5C08_5C07_5C60_5C5C_5C5D_5D07_5D06_5D0E_5D1B_5D16_5D22),
  (0xB158, 0x5D11_5D29_5D14_5D19_5D24_5D27_5D17_5DE2_5E38_5E36_5E33_5E37),
  (0xB164, 0x5EB7_5EB8_5EB6_5EB5_5EBE_5F35_5F37_5F57_5F6C_5F69_5F6B_5F97),
  (0xB170, 0x5F99_5F9E_5F98_5FA1_5FA0_5F9C_607F_60A3_6089_60A0_60A8_60CB),
  (0xB17C, 0x60B4_60E6_60BD),
  (0xB1A1, 0x60C5_60BB_60B5_60DC_60BC_60D8_60D5_60C6_60DF_60B8_60DA_60C7),
  (0xB1AD, 0x621A_621B_6248_63A0_63A7_6372_6396_63A2_63A5_6377_6367_6398),
  (0xB1B9, 0x63AA_6371_63A9_6389_6383_639B_636B_63A8_6384_6388_6399_63A1),
  (0xB1C5, 0x63AC_6392_638F_6380_637B_6369_6368_637A_655D_6556_6551_6559),
  (0xB1D1, 0x6557_555F_654F_6558_6555_6554_659C_659B_65AC_65CF_65CB_65CC),
  (0xB1DD, 0x65CE_665D_665A_6664_6668_6666_665E_66F9_52D7_671B_6881_68AF),
  (0xB1E9, 0x68A2_6893_68B5_687F_6876_68B1_68A7_6897_68B0_6883_68C4_68AD),
  (0xB1F5, 0x6886_6885_6894_689D_68A8_689F_68A1_6882_6B32_6BBA),
  (0xB240, 0x6BEB_6BEC_6C2B_6D8E_6DBC_6DF3_6DD9_6DB2_6DE1_6DCC_6DE4_6DFB),
  (0xB24C, 0x6DFA_6E05_6DC7_6DCB_6DAF_6DD1_6DAE_6DDE_6DF9_6DB8_6DF7_6DF5),
  (0xB258, 0x6DC5_6DD2_6E1A_6DB5_6DDA_6DEB_6DD8_6DEA_6DF1_6DEE_6DE8_6DC6),
  (0xB264, 0x6DC4_6DAA_6DEC_6DBF_6DE6_70F9_7109_710A_70FD_70EF_723D_727D),
  (0xB270, 0x7281_731C_731B_7316_7313_7319_7387_7405_740A_7403_7406_73FE),
  (0xB27C, 0x740D_74E0_74F6),
  (0xB2A1, 0x74F7_751C_7522_7565_7566_7562_7570_758F_75D4_75D5_75B5_75CA),
  (0xB2AD, 0x75CD_768E_76D4_76D2_76DB_7737_773E_773C_7736_7738_773A_786B),
  (0xB2B9, 0x7843_784E_7965_7968_796D_79FB_7A92_7A95_7B20_7B28_7B1B_7B2C),
  (0xB2C5, 0x7B26_7B19_7B1E_7B2E_7C92_7C97_7C95_7D46_7D43_7D71_7D2E_7D39),
  (0xB2D1, 0x7D3C_7D40_7D30_7D33_7D44_7D2F_7D42_7D32_7D31_7F3D_7F9E_7F9A),
  (0xB2DD, 0x7FCC_7FCE_7FD2_801C_804A_8046_812F_8116_8123_812B_8129_8130),
  (0xB2E9, 0x8124_8202_8235_8237_8236_8239_838E_839E_8398_8378_83A2_8396),
  (0xB2F5, 0x83BD_83AB_8392_838A_8393_8389_83A0_8377_837B_837C),
  (0xB340, 0x8386_83A7_8655_5F6A_86C7_86C0_86B6_86C4_86B5_86C6_86CB_86B1),
  (0xB34C, 0x86AF_86C9_8853_889E_8888_88AB_8892_8896_888D_888B_8993_898F),
  (0xB358, 0x8A2A_8A1D_8A23_8A25_8A31_8A2D_8A1F_8A1B_8A22_8C49_8C5A_8CA9),
  (0xB364, 0x8CAC_8CAB_8CA8_8CAA_8CA7_8D67_8D66_8DBE_8DBA_8EDB_8EDF_9019),
  (0xB370, 0x900D_901A_9017_9023_901F_901D_9010_9015_901E_9020_900F_9022),
  (0xB37C, 0x9016_901B_9014),
  (0xB3A1, 0x90E8_90ED_90FD_9157_91CE_91F5_91E6_91E3_91E7_91ED_91E9_9589),
  (0xB3AD, 0x966A_9675_9673_9678_9670_9674_9676_9677_966C_96C0_96EA_96E9),
  (0xB3B9, 0x7AE0_7ADF_9802_9803_9B5A_9CE5_9E75_9E7F_9EA5_9EBB_50A2_508D),
  (0xB3C5, 0x5085_5099_5091_5080_5096_5098_509A_6700_51F1_5272_5274_5275),
  (0xB3D1, 0x5269_52DE_52DD_52DB_535A_53A5_557B_5580_55A7_557C_558A_559D),
  (0xB3DD, 0x5598_5582_559C_55AA_5594_5587_558B_5583_55B3_55AE_559F_553E),
  (0xB3E9, 0x55B2_559A_55BB_55AC_55B1_557E_5589_55AB_5599_570D_582F_582A),
  (0xB3F5, 0x5834_5824_5830_5831_5821_581D_5820_58F9_58FA_5960),
  (0xB440, 0x5A77_5A9A_5A7F_5A92_5A9B_5AA7_5B73_5B71_5BD2_5BCC_5BD3_5BD0),
  (0xB44C, 0x5C0A_5C0B_5C31_5D4C_5D50_5D34_5D47_5DFD_5E45_5E3D_5E40_5E43),
  (0xB458, 0x5E7E_5ECA_5EC1_5EC2_5EC4_5F3C_5F6D_5FA9_5FAA_5FA8_60D1_60E1),
  (0xB464, 0x60B2_60B6_60E0_611C_6123_60FA_6115_60F0_60FB_60F4_6168_60F1),
  (0xB470, 0x610E_60F6_6109_6100_6112_621F_6249_63A3_638C_63CF_63C0_63E9),
  (0xB47C, 0x63C9_63C6_63CD),
  (0xB4A1, 0x63D2_63E3_63D0_63E1_63D6_63ED_63EE_6376_63F4_63EA_63DB_6452),
  (0xB4AD, 0x63DA_63F9_655E_6566_6562_6563_6591_6590_65AF_666E_6670_6674),
  (0xB4B9, 0x6676_666F_6691_667A_667E_6677_66FE_66FF_671F_671D_68FA_68D5),
  (0xB4C5, 0x68E0_68D8_68D7_6905_68DF_68F5_68EE_68E7_68F9_68D2_68F2_68E3),
  (0xB4D1, 0x68CB_68CD_690D_6912_690E_68C9_68DA_696E_68FB_6B3E_6B3A_6B3D),
  (0xB4DD, 0x6B98_6B96_6BBC_6BEF_6C2E_6C2F_6C2C_6E2F_6E38_6E54_6E21_6E32),
  (0xB4E9, 0x6E67_6E4A_6E20_6E25_6E23_6E1B_6E5B_6E58_6E24_6E56_6E6E_6E2D),
  (0xB4F5, 0x6E26_6E6F_6E34_6E4D_6E3A_6E2C_6E43_6E1D_6E3E_6ECB),
  (0xB540, 0x6E89_6E19_6E4E_6E63_6E44_6E72_6E69_6E5F_7119_711A_7126_7130),
  (0xB54C, 0x7121_7136_716E_711C_724C_7284_7280_7336_7325_7334_7329_743A),
  (0xB558, 0x742A_7433_7422_7425_7435_7436_7434_742F_741B_7426_7428_7525),
  (0xB564, 0x7526_756B_756A_75E2_75DB_75E3_75D9_75D8_75DE_75E0_767B_767C),
  (0xB570, 0x7696_7693_76B4_76DC_774F_77ED_785D_786C_786F_7A0D_7A08_7A0B),
  (0xB57C, 0x7A05_7A00_7A98),
  (0xB5A1, 0x7A97_7A96_7AE5_7AE3_7B49_7B56_7B46_7B50_7B52_7B54_7B4D_7B4B),
  (0xB5AD, 0x7B4F_7B51_7C9F_7CA5_7D5E_7D50_7D68_7D55_7D2B_7D6E_7D72_7D61),
  (0xB5B9, 0x7D66_7D62_7D70_7D73_5584_7FD4_7FD5_800B_8052_8085_8155_8154),
  (0xB5C5, 0x814B_8151_814E_8139_8146_813E_814C_8153_8174_8212_821C_83E9),
  (0xB5D1, 0x8403_83F8_840D_83E0_83C5_840B_83C1_83EF_83F1_83F4_8457_840A),
  (0xB5DD, 0x83F0_840C_83CC_83FD_83F2_83CA_8438_840E_8404_83DC_8407_83D4),
  (0xB5E9, 0x83DF_865B_86DF_86D9_86ED_86D4_86DB_86E4_86D0_86DE_8857_88C1),
  (0xB5F5, 0x88C2_88B1_8983_8996_8A3B_8A60_8A55_8A5E_8A3C_8A41),
  (0xB640, 0x8A54_8A5B_8A50_8A46_8A34_8A3A_8A36_8A56_8C61_8C82_8CAF_8CBC),
  (0xB64C, 0x8CB3_8CBD_8CC1_8CBB_8CC0_8CB4_8CB7_8CB6_8CBF_8CB8_8D8A_8D85),
  (0xB658, 0x8D81_8DCE_8DDD_8DCB_8DDA_8DD1_8DCC_8DDB_8DC6_8EFB_8EF8_8EFC),
  (0xB664, 0x8F9C_902E_9035_9031_9038_9032_9036_9102_90F5_9109_90FE_9163),
  (0xB670, 0x9165_91CF_9214_9215_9223_9209_921E_920D_9210_9207_9211_9594),
  (0xB67C, 0x958F_958B_9591),
  (0xB6A1, 0x9593_9592_958E_968A_968E_968B_967D_9685_9686_968D_9672_9684),
  (0xB6AD, 0x96C1_96C5_96C4_96C6_96C7_96EF_96F2_97CC_9805_9806_9808_98E7),
  (0xB6B9, 0x98EA_98EF_98E9_98F2_98ED_99AE_99AD_9EC3_9ECD_9ED1_4E82_50AD),
  (0xB6C5, 0x50B5_50B2_50B3_50C5_50BE_50AC_50B7_50BB_50AF_50C7_527F_5277),
  (0xB6D1, 0x527D_52DF_52E6_52E4_52E2_52E3_532F_55DF_55E8_55D3_55E6_55CE),
  (0xB6DD, 0x55DC_55C7_55D1_55E3_55E4_55EF_55DA_55E1_55C5_55C6_55E5_55C9),
  (0xB6E9, 0x5712_5713_585E_5851_5858_5857_585A_5854_586B_584C_586D_584A),
  (0xB6F5, 0x5862_5852_584B_5967_5AC1_5AC9_5ACC_5ABE_5ABD_5ABC),
  (0xB740, 0x5AB3_5AC2_5AB2_5D69_5D6F_5E4C_5E79_5EC9_5EC8_5F12_5F59_5FAC),
  (0xB74C, 0x5FAE_611A_610F_6148_611F_60F3_611B_60F9_6101_6108_614E_614C),
  (0xB758, 0x6144_614D_613E_6134_6127_610D_6106_6137_6221_6222_6413_643E),
  (0xB764, 0x641E_642A_642D_643D_642C_640F_641C_6414_640D_6436_6416_6417),
  (0xB770, 0x6406_656C_659F_65B0_6697_6689_6687_6688_6696_6684_6698_668D),
  (0xB77C, 0x6703_6994_696D),
  (0xB7A1, 0x695A_6977_6960_6954_6975_6930_6982_694A_6968_696B_695E_6953),
  (0xB7AD, 0x6979_6986_695D_6963_695B_6B47_6B72_6BC0_6BBF_6BD3_6BFD_6EA2),
  (0xB7B9, 0x6EAF_6ED3_6EB6_6EC2_6E90_6E9D_6EC7_6EC5_6EA5_6E98_6EBC_6EBA),
  (0xB7C5, 0x6EAB_6ED1_6E96_6E9C_6EC4_6ED4_6EAA_6EA7_6EB4_714E_7159_7169),
  (0xB7D1, 0x7164_7149_7167_715C_716C_7166_714C_7165_715E_7146_7168_7156),
  (0xB7DD, 0x723A_7252_7337_7345_733F_733E_746F_745A_7455_745F_745E_7441),
  (0xB7E9, 0x743F_7459_745B_745C_7576_7578_7600_75F0_7601_75F2_75F1_75FA),
  (0xB7F5, 0x75FF_75F4_75F3_76DE_76DF_775B_776B_7766_775E_7763),
  (0xB840, 0x7779_776A_776C_775C_7765_7768_7762_77EE_788E_78B0_7897_7898),
  (0xB84C, 0x788C_7889_787C_7891_7893_787F_797A_797F_7981_842C_79BD_7A1C),
  (0xB858, 0x7A1A_7A20_7A14_7A1F_7A1E_7A9F_7AA0_7B77_7BC0_7B60_7B6E_7B67),
  (0xB864, 0x7CB1_7CB3_7CB5_7D93_7D79_7D91_7D81_7D8F_7D5B_7F6E_7F69_7F6A),
  (0xB870, 0x7F72_7FA9_7FA8_7FA4_8056_8058_8086_8084_8171_8170_8178_8165),
  (0xB87C, 0x816E_8173_816B),
  (0xB8A1, 0x8179_817A_8166_8205_8247_8482_8477_843D_8431_8475_8466_846B),
  (0xB8AD, 0x8449_846C_845B_843C_8435_8461_8463_8469_846D_8446_865E_865C),
  (0xB8B9, 0x865F_86F9_8713_8708_8707_8700_86FE_86FB_8702_8703_8706_870A),
  (0xB8C5, 0x8859_88DF_88D4_88D9_88DC_88D8_88DD_88E1_88CA_88D5_88D2_899C),
  (0xB8D1, 0x89E3_8A6B_8A72_8A73_8A66_8A69_8A70_8A87_8A7C_8A63_8AA0_8A71),
  (0xB8DD, 0x8A85_8A6D_8A62_8A6E_8A6C_8A79_8A7B_8A3E_8A68_8C62_8C8A_8C89),
  (0xB8E9, 0x8CCA_8CC7_8CC8_8CC4_8CB2_8CC3_8CC2_8CC5_8DE1_8DDF_8DE8_8DEF),
  (0xB8F5, 0x8DF3_8DFA_8DEA_8DE4_8DE6_8EB2_8F03_8F09_8EFE_8F0A),
  (0xB940, 0x8F9F_8FB2_904B_904A_9053_9042_9054_903C_9055_9050_9047_904F),
  (0xB94C, 0x904E_904D_9051_903E_9041_9112_9117_916C_916A_9169_91C9_9237),
  (0xB958, 0x9257_9238_923D_9240_923E_925B_924B_9264_9251_9234_9249_924D),
  (0xB964, 0x9245_9239_923F_925A_9598_9698_9694_9695_96CD_96CB_96C9_96CA),
  (0xB970, 0x96F7_96FB_96F9_96F6_9756_9774_9776_9810_9811_9813_980A_9812),
  (0xB97C, 0x980C_98FC_98F4),
  (0xB9A1, 0x98FD_98FE_99B3_99B1_99B4_9AE1_9CE9_9E82_9F0E_9F13_9F20_50E7),
  (0xB9AD, 0x50EE_50E5_50D6_50ED_50DA_50D5_50CF_50D1_50F1_50CE_50E9_5162),
  (0xB9B9, 0x51F3_5283_5282_5331_53AD_55FE_5600_561B_5617_55FD_5614_5606),
  (0xB9C5, 0x5609_560D_560E_55F7_5616_561F_5608_5610_55F6_5718_5716_5875),
  (0xB9D1, 0x587E_5883_5893_588A_5879_5885_587D_58FD_5925_5922_5924_596A),
  (0xB9DD, 0x5969_5AE1_5AE6_5AE9_5AD7_5AD6_5AD8_5AE3_5B75_5BDE_5BE7_5BE1),
  (0xB9E9, 0x5BE5_5BE6_5BE8_5BE2_5BE4_5BDF_5C0D_5C62_5D84_5D87_5E5B_5E63),
  (0xB9F5, 0x5E55_5E57_5E54_5ED3_5ED6_5F0A_5F46_5F70_5FB9_6147),
  (0xBA40, 0x613F_614B_6177_6162_6163_615F_615A_6158_6175_622A_6487_6458),
  (0xBA4C, 0x6454_64A4_6478_645F_647A_6451_6467_6434_646D_647B_6572_65A1),
  (0xBA58, 0x65D7_65D6_66A2_66A8_669D_699C_69A8_6995_69C1_69AE_69D3_69CB),
  (0xBA64, 0x699B_69B7_69BB_69AB_69B4_69D0_69CD_69AD_69CC_69A6_69C3_69A3),
  (0xBA70, 0x6B49_6B4C_6C33_6F33_6F14_6EFE_6F13_6EF4_6F29_6F3E_6F20_6F2C),
  (0xBA7C, 0x6F0F_6F02_6F22),
  (0xBAA1, 0x6EFF_6EEF_6F06_6F31_6F38_6F32_6F23_6F15_6F2B_6F2F_6F88_6F2A),
  (0xBAAD, 0x6EEC_6F01_6EF2_6ECC_6EF7_7194_7199_717D_718A_7184_7192_723E),
  (0xBAB9, 0x7292_7296_7344_7350_7464_7463_746A_7470_746D_7504_7591_7627),
  (0xBAC5, 0x760D_760B_7609_7613_76E1_76E3_7784_777D_777F_7761_78C1_789F),
  (0xBAD1, 0x78A7_78B3_78A9_78A3_798E_798F_798D_7A2E_7A31_7AAA_7AA9_7AED),
  (0xBADD, 0x7AEF_7BA1_7B95_7B8B_7B75_7B97_7B9D_7B94_7B8F_7BB8_7B87_7B84),
  (0xBAE9, 0x7CB9_7CBD_7CBE_7DBB_7DB0_7D9C_7DBD_7DBE_7DA0_7DCA_7DB4_7DB2),
  (0xBAF5, 0x7DB1_7DBA_7DA2_7DBF_7DB5_7DB8_7DAD_7DD2_7DC7_7DAC),
  (0xBB40, 0x7F70_7FE0_7FE1_7FDF_805E_805A_8087_8150_8180_818F_8188_818A),
  (0xBB4C, 0x817F_8182_81E7_81FA_8207_8214_821E_824B_84C9_84BF_84C6_84C4),
  (0xBB58, 0x8499_849E_84B2_849C_84CB_84B8_84C0_84D3_8490_84BC_84D1_84CA),
  (0xBB64, 0x873F_871C_873B_8722_8725_8734_8718_8755_8737_8729_88F3_8902),
  (0xBB70, 0x88F4_88F9_88F8_88FD_88E8_891A_88EF_8AA6_8A8C_8A9E_8AA3_8A8D),
  (0xBB7C, 0x8AA1_8A93_8AA4),
  (0xBBA1, 0x8AAA_8AA5_8AA8_8A98_8A91_8A9A_8AA7_8C6A_8C8D_8C8C_8CD3_8CD1),
  (0xBBAD, 0x8CD2_8D6B_8D99_8D95_8DFC_8F14_8F12_8F15_8F13_8FA3_9060_9058),
  (0xBBB9, 0x905C_9063_9059_905E_9062_905D_905B_9119_9118_911E_9175_9178),
  (0xBBC5, 0x9177_9174_9278_9280_9285_9298_9296_927B_9293_929C_92A8_927C),
  (0xBBD1, 0x9291_95A1_95A8_95A9_95A3_95A5_95A4_9699_969C_969B_96CC_96D2),
  (0xBBDD, 0x9700_977C_9785_97F6_9817_9818_98AF_98B1_9903_9905_990C_9909),
  (0xBBE9, 0x99C1_9AAF_9AB0_9AE6_9B41_9B42_9CF4_9CF6_9CF3_9EBC_9F3B_9F4A),
  (0xBBF5, 0x5104_5100_50FB_50F5_50F9_5102_5108_5109_5105_51DC),
  (0xBC40, 0x5287_5288_5289_528D_528A_52F0_53B2_562E_563B_5639_5632_563F),
  (0xBC4C, 0x5634_5629_5653_564E_5657_5674_5636_562F_5630_5880_589F_589E),
  (0xBC58, 0x58B3_589C_58AE_58A9_58A6_596D_5B09_5AFB_5B0B_5AF5_5B0C_5B08),
  (0xBC64, 0x5BEE_5BEC_5BE9_5BEB_5C64_5C65_5D9D_5D94_5E62_5E5F_5E61_5EE2),
  (0xBC70, 0x5EDA_5EDF_5EDD_5EE3_5EE0_5F48_5F71_5FB7_5FB5_6176_6167_616E),
  (0xBC7C, 0x615D_6155_6182),
  (0xBCA1, 0x617C_6170_616B_617E_61A7_6190_61AB_618E_61AC_619A_61A4_6194),
  (0xBCAD, 0x61AE_622E_6469_646F_6479_649E_64B2_6488_6490_64B0_64A5_6493),
  (0xBCB9, 0x6495_64A9_6492_64AE_64AD_64AB_649A_64AC_6499_64A2_64B3_6575),
  (0xBCC5, 0x6577_6578_66AE_66AB_66B4_66B1_6A23_6A1F_69E8_6A01_6A1E_6A19),
  (0xBCD1, 0x69FD_6A21_6A13_6A0A_69F3_6A02_6A05_69ED_6A11_6B50_6B4E_6BA4),
  (0xBCDD, 0x6BC5_6BC6_6F3F_6F7C_6F84_6F51_6F66_6F54_6F86_6F6D_6F5B_6F78),
  (0xBCE9, 0x6F6E_6F8E_6F7A_6F70_6F64_6F97_6F58_6ED5_6F6F_6F60_6F5F_719F),
  (0xBCF5, 0x71AC_71B1_71A8_7256_729B_734E_7357_7469_748B_7483),
  (0xBD40, 0x747E_7480_757F_7620_7629_761F_7624_7626_7621_7622_769A_76BA),
  (0xBD4C, 0x76E4_778E_7787_778C_7791_778B_78CB_78C5_78BA_78CA_78BE_78D5),
  (0xBD58, 0x78BC_78D0_7A3F_7A3C_7A40_7A3D_7A37_7A3B_7AAF_7AAE_7BAD_7BB1),
  (0xBD64, 0x7BC4_7BB4_7BC6_7BC7_7BC1_7BA0_7BCC_7CCA_7DE0_7DF4_7DEF_7DFB),
  (0xBD70, 0x7DD8_7DEC_7DDD_7DE8_7DE3_7DDA_7DDE_7DE9_7D9E_7DD9_7DF2_7DF9),
  (0xBD7C, 0x7F75_7F77_7FAF),
  (0xBDA1, 0x7FE9_8026_819B_819C_819D_81A0_819A_8198_8517_853D_851A_84EE),
  (0xBDAD, 0x852C_852D_8513_8511_8523_8521_8514_84EC_8525_84FF_8506_8782),
  (0xBDB9, 0x8774_8776_8760_8766_8778_8768_8759_8757_874C_8753_885B_885D),
  (0xBDC5, 0x8910_8907_8912_8913_8915_890A_8ABC_8AD2_8AC7_8AC4_8A95_8ACB),
  (0xBDD1, 0x8AF8_8AB2_8AC9_8AC2_8ABF_8AB0_8AD6_8ACD_8AB6_8AB9_8ADB_8C4C),
  (0xBDDD, 0x8C4E_8C6C_8CE0_8CDE_8CE6_8CE4_8CEC_8CED_8CE2_8CE3_8CDC_8CEA),
  (0xBDE9, 0x8CE1_8D6D_8D9F_8DA3_8E2B_8E10_8E1D_8E22_8E0F_8E29_8E1F_8E21),
  (0xBDF5, 0x8E1E_8EBA_8F1D_8F1B_8F1F_8F29_8F26_8F2A_8F1C_8F1E),
  (0xBE40, 0x8F25_9069_906E_9068_906D_9077_9130_912D_9127_9131_9187_9189),
  (0xBE4C, 0x918B_9183_92C5_92BB_92B7_92EA_92AC_92E4_92C1_92B3_92BC_92D2),
  (0xBE58, 0x92C7_92F0_92B2_95AD_95B1_9704_9706_9707_9709_9760_978D_978B),
  (0xBE64, 0x978F_9821_982B_981C_98B3_990A_9913_9912_9918_99DD_99D0_99DF),
  (0xBE70, 0x99DB_99D1_99D5_99D2_99D9_9AB7_9AEE_9AEF_9B27_9B45_9B44_9B77),
  (0xBE7C, 0x9B6F_9D06_9D09),
  (0xBEA1, 0x9D03_9EA9_9EBE_9ECE_58A8_9F52_5112_5118_5114_5110_5115_5180),
  (0xBEAD, 0x51AA_51DD_5291_5293_52F3_5659_566B_5679_5669_5664_5678_566A),
  (0xBEB9, 0x5668_5665_5671_566F_566C_5662_5676_58C1_58BE_58C7_58C5_596E),
  (0xBEC5, 0x5B1D_5B34_5B78_5BF0_5C0E_5F4A_61B2_6191_61A9_618A_61CD_61B6),
  (0xBED1, 0x61BE_61CA_61C8_6230_64C5_64C1_64CB_64BB_64BC_64DA_64C4_64C7),
  (0xBEDD, 0x64C2_64CD_64BF_64D2_64D4_64BE_6574_66C6_66C9_66B9_66C4_66C7),
  (0xBEE9, 0x66B8_6A3D_6A38_6A3A_6A59_6A6B_6A58_6A39_6A44_6A62_6A61_6A4B),
  (0xBEF5, 0x6A47_6A35_6A5F_6A48_6B59_6B77_6C05_6FC2_6FB1_6FA1),
  (0xBF40, 0x6FC3_6FA4_6FC1_6FA7_6FB3_6FC0_6FB9_6FB6_6FA6_6FA0_6FB4_71BE),
  (0xBF4C, 0x71C9_71D0_71D2_71C8_71D5_71B9_71CE_71D9_71DC_71C3_71C4_7368),
  (0xBF58, 0x749C_74A3_7498_749F_749E_74E2_750C_750D_7634_7638_763A_76E7),
  (0xBF64, 0x76E5_77A0_779E_779F_77A5_78E8_78DA_78EC_78E7_79A6_7A4D_7A4E),
  (0xBF70, 0x7A46_7A4C_7A4B_7ABA_7BD9_7C11_7BC9_7BE4_7BDB_7BE1_7BE9_7BE6),
  (0xBF7C, 0x7CD5_7CD6_7E0A),
  (0xBFA1, 0x7E11_7E08_7E1B_7E23_7E1E_7E1D_7E09_7E10_7F79_7FB2_7FF0_7FF1),
  (0xBFAD, 0x7FEE_8028_81B3_81A9_81A8_81FB_8208_8258_8259_854A_8559_8548),
  (0xBFB9, 0x8568_8569_8543_8549_856D_856A_855E_8783_879F_879E_87A2_878D),
  (0xBFC5, 0x8861_892A_8932_8925_892B_8921_89AA_89A6_8AE6_8AFA_8AEB_8AF1),
  (0xBFD1, 0x8B00_8ADC_8AE7_8AEE_8AFE_8B01_8B02_8AF7_8AED_8AF3_8AF6_8AFC),
  (0xBFDD, 0x8C6B_8C6D_8C93_8CF4_8E44_8E31_8E34_8E42_8E39_8E35_8F3B_8F2F),
  (0xBFE9, 0x8F38_8F33_8FA8_8FA6_9075_9074_9078_9072_907C_907A_9134_9192),
  (0xBFF5, 0x9320_9336_92F8_9333_932F_9322_92FC_932B_9304_931A),
  (0xC040, 0x9310_9326_9321_9315_932E_9319_95BB_96A7_96A8_96AA_96D5_970E),
  (0xC04C, 0x9711_9716_970D_9713_970F_975B_975C_9766_9798_9830_9838_983B),
  (0xC058, 0x9837_982D_9839_9824_9910_9928_991E_991B_9921_991A_99ED_99E2),
  (0xC064, 0x99F1_9AB8_9ABC_9AFB_9AED_9B28_9B91_9D15_9D23_9D26_9D28_9D12),
  (0xC070, 0x9D1B_9ED8_9ED4_9F8D_9F9C_512A_511F_5121_5132_52F5_568E_5680),
  (0xC07C, 0x5690_5685_5687),
  (0xC0A1, 0x568F_58D5_58D3_58D1_58CE_5B30_5B2A_5B24_5B7A_5C37_5C68_5DBC),
  (0xC0AD, 0x5DBA_5DBD_5DB8_5E6B_5F4C_5FBD_61C9_61C2_61C7_61E6_61CB_6232),
  (0xC0B9, 0x6234_64CE_64CA_64D8_64E0_64F0_64E6_64EC_64F1_64E2_64ED_6582),
  (0xC0C5, 0x6583_66D9_66D6_6A80_6A94_6A84_6AA2_6A9C_6ADB_6AA3_6A7E_6A97),
  (0xC0D1, 0x6A90_6AA0_6B5C_6BAE_6BDA_6C08_6FD8_6FF1_6FDF_6FE0_6FDB_6FE4),
  (0xC0DD, 0x6FEB_6FEF_6F80_6FEC_6FE1_6FE9_6FD5_6FEE_6FF0_71E7_71DF_71EE),
  (0xC0E9, 0x71E6_71E5_71ED_71EC_71F4_71E0_7235_7246_7370_7372_74A9_74B0),
  (0xC0F5, 0x74A6_74A8_7646_7642_764C_76EA_77B3_77AA_77B0_77AC),
  (0xC140, 0x77A7_77AD_77EF_78F7_78FA_78F4_78EF_7901_79A7_79AA_7A57_7ABF),
  (0xC14C, 0x7C07_7C0D_7BFE_7BF7_7C0C_7BE0_7CE0_7CDC_7CDE_7CE2_7CDF_7CD9),
  (0xC158, 0x7CDD_7E2E_7E3E_7E46_7E37_7E32_7E43_7E2B_7E3D_7E31_7E45_7E41),
  (0xC164, 0x7E34_7E39_7E48_7E35_7E3F_7E2F_7F44_7FF3_7FFC_8071_8072_8070),
  (0xC170, 0x806F_8073_81C6_81C3_81BA_81C2_81C0_81BF_81BD_81C9_81BE_81E8),
  (0xC17C, 0x8209_8271_85AA),
  (0xC1A1, 0x8584_857E_859C_8591_8594_85AF_859B_8587_85A8_858A_8667_87C0),
  (0xC1AD, 0x87D1_87B3_87D2_87C6_87AB_87BB_87BA_87C8_87CB_893B_8936_8944),
  (0xC1B9, 0x8938_893D_89AC_8B0E_8B17_8B19_8B1B_8B0A_8B20_8B1D_8B04_8B10),
  (0xC1C5, 0x8C41_8C3F_8C73_8CFA_8CFD_8CFC_8CF8_8CFB_8DA8_8E49_8E4B_8E48),
  (0xC1D1, 0x8E4A_8F44_8F3E_8F42_8F45_8F3F_907F_907D_9084_9081_9082_9080),
  (0xC1DD, 0x9139_91A3_919E_919C_934D_9382_9328_9375_934A_9365_934B_9318),
  (0xC1E9, 0x937E_936C_935B_9370_935A_9354_95CA_95CB_95CC_95C8_95C6_96B1),
  (0xC1F5, 0x96B8_96D6_971C_971E_97A0_97D3_9846_98B6_9935_9A01),
  (0xC240, 0x99FF_9BAE_9BAB_9BAA_9BAD_9D3B_9D3F_9E8B_9ECF_9EDE_9EDC_9EDD),
  (0xC24C, 0x9EDB_9F3E_9F4B_53E2_5695_56AE_58D9_58D8_5B38_5F5E_61E3_6233),
  (0xC258, 0x64F4_64F2_64FE_6506_64FA_64FB_64F7_65B7_66DC_6726_6AB3_6AAC),
  (0xC264, 0x6AC3_6ABB_6AB8_6AC2_6AAE_6AAF_6B5F_6B78_6BAF_7009_700B_6FFE),
  (0xC270, 0x7006_6FFA_7011_700F_71FB_71FC_71FE_71F8_7377_7375_74A7_74BF),
  (0xC27C, 0x7515_7656_7658),
  (0xC2A1, 0x7652_77BD_77BF_77BB_77BC_790E_79AE_7A61_7A62_7A60_7AC4_7AC5),
  (0xC2AD, 0x7C2B_7C27_7C2A_7C1E_7C23_7C21_7CE7_7E54_7E55_7E5E_7E5A_7E61),
  (0xC2B9, 0x7E52_7E59_7F48_7FF9_7FFB_8077_8076_81CD_81CF_820A_85CF_85A9),
  (0xC2C5, 0x85CD_85D0_85C9_85B0_85BA_85B9_85A6_87EF_87EC_87F2_87E0_8986),
  (0xC2D1, 0x89B2_89F4_8B28_8B39_8B2C_8B2B_8C50_8D05_8E59_8E63_8E66_8E64),
  (0xC2DD, 0x8E5F_8E55_8EC0_8F49_8F4D_9087_9083_9088_91AB_91AC_91D0_9394),
  (0xC2E9, 0x938A_9396_93A2_93B3_93AE_93AC_93B0_9398_939A_9397_95D4_95D6),
  (0xC2F5, 0x95D0_95D5_96E2_96DC_96D9_96DB_96DE_9724_97A3_97A6),
  (0xC340, 0x97AD_97F9_984D_984F_984C_984E_9853_98BA_993E_993F_993D_992E),
  (0xC34C, 0x99A5_9A0E_9AC1_9B03_9B06_9B4F_9B4E_9B4D_9BCA_9BC9_9BFD_9BC8),
  (0xC358, 0x9BC0_9D51_9D5D_9D60_9EE0_9F15_9F2C_5133_56A5_58DE_58DF_58E2),
  (0xC364, 0x5BF5_9F90_5EEC_61F2_61F7_61F6_61F5_6500_650F_66E0_66DD_6AE5),
  (0xC370, 0x6ADD_6ADA_6AD3_701B_701F_7028_701A_701D_7015_7018_7206_720D),
  (0xC37C, 0x7258_72A2_7378),
  (0xC3A1, 0x737A_74BD_74CA_74E3_7587_7586_765F_7661_77C7_7919_79B1_7A6B),
  (0xC3AD, 0x7A69_7C3E_7C3F_7C38_7C3D_7C37_7C40_7E6B_7E6D_7E79_7E69_7E6A),
  (0xC3B9, 0x7F85_7E73_7FB6_7FB9_7FB8_81D8_85E9_85DD_85EA_85D5_85E4_85E5),
  (0xC3C5, 0x85F7_87FB_8805_880D_87F9_87FE_8960_895F_8956_895E_8B41_8B5C),
  (0xC3D1, 0x8B58_8B49_8B5A_8B4E_8B4F_8B46_8B59_8D08_8D0A_8E7C_8E72_8E87),
  (0xC3DD, 0x8E76_8E6C_8E7A_8E74_8F54_8F4E_8FAD_908A_908B_91B1_91AE_93E1),
  (0xC3E9, 0x93D1_93DF_93C3_93C8_93DC_93DD_93D6_93E2_93CD_93D8_93E4_93D7),
  (0xC3F5, 0x93E8_95DC_96B4_96E3_972A_9727_9761_97DC_97FB_985E),
  (0xC440, 0x9858_985B_98BC_9945_9949_9A16_9A19_9B0D_9BE8_9BE7_9BD6_9BDB),
  (0xC44C, 0x9D89_9D61_9D72_9D6A_9D6C_9E92_9E97_9E93_9EB4_52F8_56A8_56B7),
  (0xC458, 0x56B6_56B4_56BC_58E4_5B40_5B43_5B7D_5BF6_5DC9_61F8_61FA_6518),
  (0xC464, 0x6514_6519_66E6_6727_6AEC_703E_7030_7032_7210_737B_74CF_7662),
  (0xC470, 0x7665_7926_792A_792C_792B_7AC7_7AF6_7C4C_7C43_7C4D_7CEF_7CF0),
  (0xC47C, 0x8FAE_7E7D_7E7C),
  (0xC4A1, 0x7E82_7F4C_8000_81DA_8266_85FB_85F9_8611_85FA_8606_860B_8607),
  (0xC4AD, 0x860A_8814_8815_8964_89BA_89F8_8B70_8B6C_8B66_8B6F_8B5F_8B6B),
  (0xC4B9, 0x8D0F_8D0D_8E89_8E81_8E85_8E82_91B4_91CB_9418_9403_93FD_95E1),
  (0xC4C5, 0x9730_98C4_9952_9951_99A8_9A2B_9A30_9A37_9A35_9C13_9C0D_9E79),
  (0xC4D1, 0x9EB5_9EE8_9F2F_9F5F_9F63_9F61_5137_5138_56C1_56C0_56C2_5914),
  (0xC4DD, 0x5C6C_5DCD_61FC_61FE_651D_651C_6595_66E9_6AFB_6B04_6AFA_6BB2),
  (0xC4E9, 0x704C_721B_72A7_74D6_74D4_7669_77D3_7C50_7E8F_7E8C_7FBC_8617),
  (0xC4F5, 0x862D_861A_8823_8822_8821_881F_896A_896C_89BD_8B74),
  (0xC540, 0x8B77_8B7D_8D13_8E8A_8E8D_8E8B_8F5F_8FAF_91BA_942E_9433_9435),
  (0xC54C, 0x943A_9438_9432_942B_95E2_9738_9739_9732_97FF_9867_9865_9957),
  (0xC558, 0x9A45_9A43_9A40_9A3E_9ACF_9B54_9B51_9C2D_9C25_9DAF_9DB4_9DC2),
  (0xC564, 0x9DB8_9E9D_9EEF_9F19_9F5C_9F66_9F67_513C_513B_56C8_56CA_56C9),
  (0xC570, 0x5B7F_5DD4_5DD2_5F4E_61FF_6524_6B0A_6B61_7051_7058_7380_74E4),
  (0xC57C, 0x758A_766E_766C),
  (0xC5A1, 0x79B3_7C60_7C5F_807E_807D_81DF_8972_896F_89FC_8B80_8D16_8D17),
  (0xC5AD, 0x8E91_8E93_8F61_9148_9444_9451_9452_973D_973E_97C3_97C1_986B),
  (0xC5B9, 0x9955_9A55_9A4D_9AD2_9B1A_9C49_9C31_9C3E_9C3B_9DD3_9DD7_9F34),
  (0xC5C5, 0x9F6C_9F6A_9F94_56CC_5DD6_6200_6523_652B_652A_66EC_6B10_74DA),
  (0xC5D1, 0x7ACA_7C64_7C63_7C65_7E93_7E96_7E94_81E2_8638_863F_8831_8B8A),
  (0xC5DD, 0x9090_908F_9463_9460_9464_9768_986F_995C_9A5A_9A5B_9A57_9AD3),
  (0xC5E9, 0x9AD4_9AD1_9C54_9C57_9C56_9DE5_9E9F_9EF4_56D1_58E9_652C_705E),
  (0xC5F5, 0x7671_7672_77D7_7F50_7F88_8836_8839_8862_8B93_8B92),
  (0xC640, 0x8B96_8277_8D1B_91C0_946A_9742_9748_9744_97C6_9870_9A5F_9B22),
  (0xC64C, 0x9B58_9C5F_9DF9_9DFA_9E7C_9E7D_9F07_9F77_9F72_5EF3_6B16_7063),
  (0xC658, 0x7C6C_7C6E_883B_89C0_8EA1_91C1_9472_9470_9871_995E_9AD6_9B23),
  (0xC664, 0x9ECC_7064_77DA_8B9A_9477_97C9_9A62_9A65_7E9C_8B9C_8EAA_91C5),
  (0xC670, 0x947D_947E_947C_9C77_9C78_9EF7_8C54_947F_9E1A_7228_9A6A_9B31),
  (0xC67C, 0x9E1B_9E1E_7C72),
  (0xC6A1, 0x2460_2461_2462_2463_2464_2465_2466_2467_2468_2469_2474_2475),
  (0xC6AD, 0x2476_2477_2478_2479_247A_247B_247C_247D_2170_2171_2172_2173),
  (0xC6B9, 0x2174_2175_2176_2177_2178_2179_2F02_2F03_2F05_2F07_2F0C_2F0D),
  (0xC6C5, 0x2F0E_2F13_2F16_2F19_2F1B_2F22_2F27_2F2E_2F33_2F34_2F35_2F39),
  (0xC6D1, 0x2F3A_2F41_2F46_2F67_2F68_2FA1_2FAA_00A8_FF3E_30FD_30FE_309D),
  (0xC6DD, 0x309E),
  (0xC6E0, 0x3005_3006_3007_30FC_FF3B_FF3D_273D_3041_3042_3043_3044_3045),
  (0xC6EC, 0x3046_3047_3048_3049_304A_304B_304C_304D_304E_304F_3050_3051),
  (0xC6F8, 0x3052_3053_3054_3055_3056_3057_3058),
  (0xC740, 0x3059_305A_305B_305C_305D_305E_305F_3060_3061_3062_3063_3064),
  (0xC74C, 0x3065_3066_3067_3068_3069_306A_306B_306C_306D_306E_306F_3070),
  (0xC758, 0x3071_3072_3073_3074_3075_3076_3077_3078_3079_307A_307B_307C),
  (0xC764, 0x307D_307E_307F_3080_3081_3082_3083_3084_3085_3086_3087_3088),
  (0xC770, 0x3089_308A_308B_308C_308D_308E_308F_3090_3091_3092_3093_30A1),
  (0xC77C, 0x30A2_30A3_30A4),
  (0xC7A1, 0x30A5_30A6_30A7_30A8_30A9_30AA_30AB_30AC_30AD_30AE_30AF_30B0),
  (0xC7AD, 0x30B1_30B2_30B3_30B4_30B5_30B6_30B7_30B8_30B9_30BA_30BB_30BC),
  (0xC7B9, 0x30BD_30BE_30BF_30C0_30C1_30C2_30C3_30C4_30C5_30C6_30C7_30C8),
  (0xC7C5, 0x30C9_30CA_30CB_30CC_30CD_30CE_30CF_30D0_30D1_30D2_30D3_30D4),
  (0xC7D1, 0x30D5_30D6_30D7_30D8_30D9_30DA_30DB_30DC_30DD_30DE_30DF_30E0),
  (0xC7DD, 0x30E1_30E2_30E3_30E4_30E5_30E6_30E7_30E8_30E9_30EA_30EB_30EC),
  (0xC7E9, 0x30ED_30EE_30EF_30F0_30F1_30F2_30F3_30F4_30F5_30F6),
  (0xC940, 0x4E42_4E5C_51F5_531A_5382_4E07_4E0C_4E47_4E8D_56D7_FA0C_5C6E),
  (0xC94C, 0x5F73_4E0F_5187_4E0E_4E2E_4E93_4EC2_4EC9_4EC8_5198_52FC_536C),
  (0xC958, 0x53B9_5720_5903_592C_5C10_5DFF_65E1_6BB3_6BCC_6C14_723F_4E31),
  (0xC964, 0x4E3C_4EE8_4EDC_4EE9_4EE1_4EDD_4EDA_520C_531C_534C_5722_5723),
  (0xC970, 0x5917_592F_5B81_5B84_5C12_5C3B_5C74_5C73_5E04_5E80_5E82_5FC9),
  (0xC97C, 0x6209_6250_6C15),
  (0xC9A1, 0x6C36_6C43_6C3F_6C3B_72AE_72B0_738A_79B8_808A_961E_4F0E_4F18),
  (0xC9AD, 0x4F2C_4EF5_4F14_4EF1_4F00_4EF7_4F08_4F1D_4F02_4F05_4F22_4F13),
  (0xC9B9, 0x4F04_4EF4_4F12_51B1_5213_5209_5210_52A6_5322_531F_534D_538A),
  (0xC9C5, 0x5407_56E1_56DF_572E_572A_5734_593C_5980_597C_5985_597B_597E),
  (0xC9D1, 0x5977_597F_5B56_5C15_5C25_5C7C_5C7A_5C7B_5C7E_5DDF_5E75_5E84),
  (0xC9DD, 0x5F02_5F1A_5F74_5FD5_5FD4_5FCF_625C_625E_6264_6261_6266_6262),
  (0xC9E9, 0x6259_6260_625A_6265_65EF_65EE_673E_6739_6738_673B_673A_673F),
  (0xC9F5, 0x673C_6733_6C18_6C46_6C52_6C5C_6C4F_6C4A_6C54_6C4B),
  (0xCA40, 0x6C4C_7071_725E_72B4_72B5_738E_752A_767F_7A75_7F51_8278_827C),
  (0xCA4C, 0x8280_827D_827F_864D_897E_9099_9097_9098_909B_9094_9622_9624),
  (0xCA58, 0x9620_9623_4F56_4F3B_4F62_4F49_4F53_4F64_4F3E_4F67_4F52_4F5F),
  (0xCA64, 0x4F41_4F58_4F2D_4F33_4F3F_4F61_518F_51B9_521C_521E_5221_52AD),
  (0xCA70, 0x52AE_5309_5363_5372_538E_538F_5430_5437_542A_5454_5445_5419),
  (0xCA7C, 0x541C_5425_5418),
  (0xCAA1, 0x543D_544F_5441_5428_5424_5447_56EE_56E7_56E5_5741_5745_574C),
  (0xCAAD, 0x5749_574B_5752_5906_5940_59A6_5998_59A0_5997_598E_59A2_5990),
  (0xCAB9, 0x598F_59A7_59A1_5B8E_5B92_5C28_5C2A_5C8D_5C8F_5C88_5C8B_5C89),
  (0xCAC5, 0x5C92_5C8A_5C86_5C93_5C95_5DE0_5E0A_5E0E_5E8B_5E89_5E8C_5E88),
  (0xCAD1, 0x5E8D_5F05_5F1D_5F78_5F76_5FD2_5FD1_5FD0_5FED_5FE8_5FEE_5FF3),
  (0xCADD, 0x5FE1_5FE4_5FE3_5FFA_5FEF_5FF7_5FFB_6000_5FF4_623A_6283_628C),
  (0xCAE9, 0x628E_628F_6294_6287_6271_627B_627A_6270_6281_6288_6277_627D),
  (0xCAF5, 0x6272_6274_6537_65F0_65F4_65F3_65F2_65F5_6745_6747),
  (0xCB40, 0x6759_6755_674C_6748_675D_674D_675A_674B_6BD0_6C19_6C1A_6C78),
  (0xCB4C, 0x6C67_6C6B_6C84_6C8B_6C8F_6C71_6C6F_6C69_6C9A_6C6D_6C87_6C95),
  (0xCB58, 0x6C9C_6C66_6C73_6C65_6C7B_6C8E_7074_707A_7263_72BF_72BD_72C3),
  (0xCB64, 0x72C6_72C1_72BA_72C5_7395_7397_7393_7394_7392_753A_7539_7594),
  (0xCB70, 0x7595_7681_793D_8034_8095_8099_8090_8092_809C_8290_828F_8285),
  (0xCB7C, 0x828E_8291_8293),
  (0xCBA1, 0x828A_8283_8284_8C78_8FC9_8FBF_909F_90A1_90A5_909E_90A7_90A0),
  (0xCBAD, 0x9630_9628_962F_962D_4E33_4F98_4F7C_4F85_4F7D_4F80_4F87_4F76),
  (0xCBB9, 0x4F74_4F89_4F84_4F77_4F4C_4F97_4F6A_4F9A_4F79_4F81_4F78_4F90),
  (0xCBC5, 0x4F9C_4F94_4F9E_4F92_4F82_4F95_4F6B_4F6E_519E_51BC_51BE_5235),
  (0xCBD1, 0x5232_5233_5246_5231_52BC_530A_530B_533C_5392_5394_5487_547F),
  (0xCBDD, 0x5481_5491_5482_5488_546B_547A_547E_5465_546C_5474_5466_548D),
  (0xCBE9, 0x546F_5461_5460_5498_5463_5467_5464_56F7_56F9_576F_5772_576D),
  (0xCBF5, 0x576B_5771_5770_5776_5780_5775_577B_5773_5774_5762),
  (0xCC40, 0x5768_577D_590C_5945_59B5_59BA_59CF_59CE_59B2_59CC_59C1_59B6),
  (0xCC4C, 0x59BC_59C3_59D6_59B1_59BD_59C0_59C8_59B4_59C7_5B62_5B65_5B93),
  (0xCC58, 0x5B95_5C44_5C47_5CAE_5CA4_5CA0_5CB5_5CAF_5CA8_5CAC_5C9F_5CA3),
  (0xCC64, 0x5CAD_5CA2_5CAA_5CA7_5C9D_5CA5_5CB6_5CB0_5CA6_5E17_5E14_5E19),
  (0xCC70, 0x5F28_5F22_5F23_5F24_5F54_5F82_5F7E_5F7D_5FDE_5FE5_602D_6026),
  (0xCC7C, 0x6019_6032_600B),
  (0xCCA1, 0x6034_600A_6017_6033_601A_601E_602C_6022_600D_6010_602E_6013),
  (0xCCAD, 0x6011_600C_6009_601C_6214_623D_62AD_62B4_62D1_62BE_62AA_62B6),
  (0xCCB9, 0x62CA_62AE_62B3_62AF_62BB_62A9_62B0_62B8_653D_65A8_65BB_6609),
  (0xCCC5, 0x65FC_6604_6612_6608_65FB_6603_660B_660D_6605_65FD_6611_6610),
  (0xCCD1, 0x66F6_670A_6785_676C_678E_6792_6776_677B_6798_6786_6784_6774),
  (0xCCDD, 0x678D_678C_677A_679F_6791_6799_6783_677D_6781_6778_6779_6794),
  (0xCCE9, 0x6B25_6B80_6B7E_6BDE_6C1D_6C93_6CEC_6CEB_6CEE_6CD9_6CB6_6CD4),
  (0xCCF5, 0x6CAD_6CE7_6CB7_6CD0_6CC2_6CBA_6CC3_6CC6_6CED_6CF2),
  (0xCD40, 0x6CD2_6CDD_6CB4_6C8A_6C9D_6C80_6CDE_6CC0_6D30_6CCD_6CC7_6CB0),
  (0xCD4C, 0x6CF9_6CCF_6CE9_6CD1_7094_7098_7085_7093_7086_7084_7091_7096),
  (0xCD58, 0x7082_709A_7083_726A_72D6_72CB_72D8_72C9_72DC_72D2_72D4_72DA),
  (0xCD64, 0x72CC_72D1_73A4_73A1_73AD_73A6_73A2_73A0_73AC_739D_74DD_74E8),
  (0xCD70, 0x753F_7540_753E_758C_7598_76AF_76F3_76F1_76F0_76F5_77F8_77FC),
  (0xCD7C, 0x77F9_77FB_77FA),
  (0xCDA1, 0x77F7_7942_793F_79C5_7A78_7A7B_7AFB_7C75_7CFD_8035_808F_80AE),
  (0xCDAD, 0x80A3_80B8_80B5_80AD_8220_82A0_82C0_82AB_829A_8298_829B_82B5),
  (0xCDB9, 0x82A7_82AE_82BC_829E_82BA_82B4_82A8_82A1_82A9_82C2_82A4_82C3),
  (0xCDC5, 0x82B6_82A2_8670_866F_866D_866E_8C56_8FD2_8FCB_8FD3_8FCD_8FD6),
  (0xCDD1, 0x8FD5_8FD7_90B2_90B4_90AF_90B3_90B0_9639_963D_963C_963A_9643),
  (0xCDDD, 0x4FCD_4FC5_4FD3_4FB2_4FC9_4FCB_4FC1_4FD4_4FDC_4FD9_4FBB_4FB3),
  (0xCDE9, 0x4FDB_4FC7_4FD6_4FBA_4FC0_4FB9_4FEC_5244_5249_52C0_52C2_533D),
  (0xCDF5, 0x537C_5397_5396_5399_5398_54BA_54A1_54AD_54A5_54CF),
  (0xCE40, 0x54C3_830D_54B7_54AE_54D6_54B6_54C5_54C6_54A0_5470_54BC_54A2),
  (0xCE4C, 0x54BE_5472_54DE_54B0_57B5_579E_579F_57A4_578C_5797_579D_579B),
  (0xCE58, 0x5794_5798_578F_5799_57A5_579A_5795_58F4_590D_5953_59E1_59DE),
  (0xCE64, 0x59EE_5A00_59F1_59DD_59FA_59FD_59FC_59F6_59E4_59F2_59F7_59DB),
  (0xCE70, 0x59E9_59F3_59F5_59E0_59FE_59F4_59ED_5BA8_5C4C_5CD0_5CD8_5CCC),
  (0xCE7C, 0x5CD7_5CCB_5CDB),
  (0xCEA1, 0x5CDE_5CDA_5CC9_5CC7_5CCA_5CD6_5CD3_5CD4_5CCF_5CC8_5CC6_5CCE),
  (0xCEAD, 0x5CDF_5CF8_5DF9_5E21_5E22_5E23_5E20_5E24_5EB0_5EA4_5EA2_5E9B),
  (0xCEB9, 0x5EA3_5EA5_5F07_5F2E_5F56_5F86_6037_6039_6054_6072_605E_6045),
  (0xCEC5, 0x6053_6047_6049_605B_604C_6040_6042_605F_6024_6044_6058_6066),
  (0xCED1, 0x606E_6242_6243_62CF_630D_630B_62F5_630E_6303_62EB_62F9_630F),
  (0xCEDD, 0x630C_62F8_62F6_6300_6313_6314_62FA_6315_62FB_62F0_6541_6543),
  (0xCEE9, 0x65AA_65BF_6636_6621_6632_6635_661C_6626_6622_6633_662B_663A),
  (0xCEF5, 0x661D_6634_6639_662E_670F_6710_67C1_67F2_67C8_67BA),
  (0xCF40, 0x67DC_67BB_67F8_67D8_67C0_67B7_67C5_67EB_67E4_67DF_67B5_67CD),
  (0xCF4C, 0x67B3_67F7_67F6_67EE_67E3_67C2_67B9_67CE_67E7_67F0_67B2_67FC),
  (0xCF58, 0x67C6_67ED_67CC_67AE_67E6_67DB_67FA_67C9_67CA_67C3_67EA_67CB),
  (0xCF64, 0x6B28_6B82_6B84_6BB6_6BD6_6BD8_6BE0_6C20_6C21_6D28_6D34_6D2D),
  (0xCF70, 0x6D1F_6D3C_6D3F_6D12_6D0A_6CDA_6D33_6D04_6D19_6D3A_6D1A_6D11),
  (0xCF7C, 0x6D00_6D1D_6D42),
  (0xCFA1, 0x6D01_6D18_6D37_6D03_6D0F_6D40_6D07_6D20_6D2C_6D08_6D22_6D09),
  (0xCFAD, 0x6D10_70B7_709F_70BE_70B1_70B0_70A1_70B4_70B5_70A9_7241_7249),
  (0xCFB9, 0x724A_726C_7270_7273_726E_72CA_72E4_72E8_72EB_72DF_72EA_72E6),
  (0xCFC5, 0x72E3_7385_73CC_73C2_73C8_73C5_73B9_73B6_73B5_73B4_73EB_73BF),
  (0xCFD1, 0x73C7_73BE_73C3_73C6_73B8_73CB_74EC_74EE_752E_7547_7548_75A7),
  (0xCFDD, 0x75AA_7679_76C4_7708_7703_7704_7705_770A_76F7_76FB_76FA_77E7),
  (0xCFE9, 0x77E8_7806_7811_7812_7805_7810_780F_780E_7809_7803_7813_794A),
  (0xCFF5, 0x794C_794B_7945_7944_79D5_79CD_79CF_79D6_79CE_7A80),
  (0xD040, 0x7A7E_7AD1_7B00_7B01_7C7A_7C78_7C79_7C7F_7C80_7C81_7D03_7D08),
  (0xD04C, 0x7D01_7F58_7F91_7F8D_7FBE_8007_800E_800F_8014_8037_80D8_80C7),
  (0xD058, 0x80E0_80D1_80C8_80C2_80D0_80C5_80E3_80D9_80DC_80CA_80D5_80C9),
  (0xD064, 0x80CF_80D7_80E6_80CD_81FF_8221_8294_82D9_82FE_82F9_8307_82E8),
  (0xD070, 0x8300_82D5_833A_82EB_82D6_82F4_82EC_82E1_82F2_82F5_830C_82FB),
  (0xD07C, 0x82F6_82F0_82EA),
  (0xD0A1, 0x82E4_82E0_82FA_82F3_82ED_8677_8674_867C_8673_8841_884E_8867),
  (0xD0AD, 0x886A_8869_89D3_8A04_8A07_8D72_8FE3_8FE1_8FEE_8FE0_90F1_90BD),
  (0xD0B9, 0x90BF_90D5_90C5_90BE_90C7_90CB_90C8_91D4_91D3_9654_964F_9651),
  (0xD0C5, 0x9653_964A_964E_501E_5005_5007_5013_5022_5030_501B_4FF5_4FF4),
  (0xD0D1, 0x5033_5037_502C_4FF6_4FF7_5017_501C_5020_5027_5035_502F_5031),
  (0xD0DD, 0x500E_515A_5194_5193_51CA_51C4_51C5_51C8_51CE_5261_525A_5252),
  (0xD0E9, 0x525E_525F_5255_5262_52CD_530E_539E_5526_54E2_5517_5512_54E7),
  (0xD0F5, 0x54F3_54E4_551A_54FF_5504_5508_54EB_5511_5505_54F1),
  (0xD140, 0x550A_54FB_54F7_54F8_54E0_550E_5503_550B_5701_5702_57CC_5832),
  (0xD14C, 0x57D5_57D2_57BA_57C6_57BD_57BC_57B8_57B6_57BF_57C7_57D0_57B9),
  (0xD158, 0x57C1_590E_594A_5A19_5A16_5A2D_5A2E_5A15_5A0F_5A17_5A0A_5A1E),
  (0xD164, 0x5A33_5B6C_5BA7_5BAD_5BAC_5C03_5C56_5C54_5CEC_5CFF_5CEE_5CF1),
  (0xD170, 0x5CF7_5D00_5CF9_5E29_5E28_5EA8_5EAE_5EAA_5EAC_5F33_5F30_5F67),
  (0xD17C, 0x605D_605A_6067),
  (0xD1A1, 0x6041_60A2_6088_6080_6092_6081_609D_6083_6095_609B_6097_6087),
  (0xD1AD, 0x609C_608E_6219_6246_62F2_6310_6356_632C_6344_6345_6336_6343),
  (0xD1B9, 0x63E4_6339_634B_634A_633C_6329_6341_6334_6358_6354_6359_632D),
  (0xD1C5, 0x6347_6333_635A_6351_6338_6357_6340_6348_654A_6546_65C6_65C3),
  (0xD1D1, 0x65C4_65C2_664A_665F_6647_6651_6712_6713_681F_681A_6849_6832),
  (0xD1DD, 0x6833_683B_684B_684F_6816_6831_681C_6835_682B_682D_682F_684E),
  (0xD1E9, 0x6844_6834_681D_6812_6814_6826_6828_682E_684D_683A_6825_6820),
  (0xD1F5, 0x6B2C_6B2F_6B2D_6B31_6B34_6B6D_8082_6B88_6BE6_6BE4),
  (0xD240, 0x6BE8_6BE3_6BE2_6BE7_6C25_6D7A_6D63_6D64_6D76_6D0D_6D61_6D92),
  (0xD24C, 0x6D58_6D62_6D6D_6D6F_6D91_6D8D_6DEF_6D7F_6D86_6D5E_6D67_6D60),
  (0xD258, 0x6D97_6D70_6D7C_6D5F_6D82_6D98_6D2F_6D68_6D8B_6D7E_6D80_6D84),
  (0xD264, 0x6D16_6D83_6D7B_6D7D_6D75_6D90_70DC_70D3_70D1_70DD_70CB_7F39),
  (0xD270, 0x70E2_70D7_70D2_70DE_70E0_70D4_70CD_70C5_70C6_70C7_70DA_70CE),
  (0xD27C, 0x70E1_7242_7278),
  (0xD2A1, 0x7277_7276_7300_72FA_72F4_72FE_72F6_72F3_72FB_7301_73D3_73D9),
  (0xD2AD, 0x73E5_73D6_73BC_73E7_73E3_73E9_73DC_73D2_73DB_73D4_73DD_73DA),
  (0xD2B9, 0x73D7_73D8_73E8_74DE_74DF_74F4_74F5_7521_755B_755F_75B0_75C1),
  (0xD2C5, 0x75BB_75C4_75C0_75BF_75B6_75BA_768A_76C9_771D_771B_7710_7713),
  (0xD2D1, 0x7712_7723_7711_7715_7719_771A_7722_7727_7823_782C_7822_7835),
  (0xD2DD, 0x782F_7828_782E_782B_7821_7829_7833_782A_7831_7954_795B_794F),
  (0xD2E9, 0x795C_7953_7952_7951_79EB_79EC_79E0_79EE_79ED_79EA_79DC_79DE),
  (0xD2F5, 0x79DD_7A86_7A89_7A85_7A8B_7A8C_7A8A_7A87_7AD8_7B10),
  (0xD340, 0x7B04_7B13_7B05_7B0F_7B08_7B0A_7B0E_7B09_7B12_7C84_7C91_7C8A),
  (0xD34C, 0x7C8C_7C88_7C8D_7C85_7D1E_7D1D_7D11_7D0E_7D18_7D16_7D13_7D1F),
  (0xD358, 0x7D12_7D0F_7D0C_7F5C_7F61_7F5E_7F60_7F5D_7F5B_7F96_7F92_7FC3),
  (0xD364, 0x7FC2_7FC0_8016_803E_8039_80FA_80F2_80F9_80F5_8101_80FB_8100),
  (0xD370, 0x8201_822F_8225_8333_832D_8344_8319_8351_8325_8356_833F_8341),
  (0xD37C, 0x8326_831C_8322),
  (0xD3A1, 0x8342_834E_831B_832A_8308_833C_834D_8316_8324_8320_8337_832F),
  (0xD3AD, 0x8329_8347_8345_834C_8353_831E_832C_834B_8327_8348_8653_8652),
  (0xD3B9, 0x86A2_86A8_8696_868D_8691_869E_8687_8697_8686_868B_869A_8685),
  (0xD3C5, 0x86A5_8699_86A1_86A7_8695_8698_868E_869D_8690_8694_8843_8844),
  (0xD3D1, 0x886D_8875_8876_8872_8880_8871_887F_886F_8883_887E_8874_887C),
  (0xD3DD, 0x8A12_8C47_8C57_8C7B_8CA4_8CA3_8D76_8D78_8DB5_8DB7_8DB6_8ED1),
  (0xD3E9, 0x8ED3_8FFE_8FF5_9002_8FFF_8FFB_9004_8FFC_8FF6_90D6_90E0_90D9),
  (0xD3F5, 0x90DA_90E3_90DF_90E5_90D8_90DB_90D7_90DC_90E4_9150),
  (0xD440, 0x914E_914F_91D5_91E2_91DA_965C_965F_96BC_98E3_9ADF_9B2F_4E7F),
  (0xD44C, 0x5070_506A_5061_505E_5060_5053_504B_505D_5072_5048_504D_5041),
  (0xD458, 0x505B_504A_5062_5015_5045_505F_5069_506B_5063_5064_5046_5040),
  (0xD464, 0x506E_5073_5057_5051_51D0_526B_526D_526C_526E_52D6_52D3_532D),
  (0xD470, 0x539C_5575_5576_553C_554D_5550_5534_552A_5551_5562_5536_5535),
  (0xD47C, 0x5530_5552_5545),
  (0xD4A1, 0x550C_5532_5565_554E_5539_5548_552D_553B_5540_554B_570A_5707),
  (0xD4AD, 0x57FB_5814_57E2_57F6_57DC_57F4_5800_57ED_57FD_5808_57F8_580B),
  (0xD4B9, 0x57F3_57CF_5807_57EE_57E3_57F2_57E5_57EC_57E1_580E_57FC_5810),
  (0xD4C5, 0x57E7_5801_580C_57F1_57E9_57F0_580D_5804_595C_5A60_5A58_5A55),
  (0xD4D1, 0x5A67_5A5E_5A38_5A35_5A6D_5A50_5A5F_5A65_5A6C_5A53_5A64_5A57),
  (0xD4DD, 0x5A43_5A5D_5A52_5A44_5A5B_5A48_5A8E_5A3E_5A4D_5A39_5A4C_5A70),
  (0xD4E9, 0x5A69_5A47_5A51_5A56_5A42_5A5C_5B72_5B6E_5BC1_5BC0_5C59_5D1E),
  (0xD4F5, 0x5D0B_5D1D_5D1A_5D20_5D0C_5D28_5D0D_5D26_5D25_5D0F),
  (0xD540, 0x5D30_5D12_5D23_5D1F_5D2E_5E3E_5E34_5EB1_5EB4_5EB9_5EB2_5EB3),
  (0xD54C, 0x5F36_5F38_5F9B_5F96_5F9F_608A_6090_6086_60BE_60B0_60BA_60D3),
  (0xD558, 0x60D4_60CF_60E4_60D9_60DD_60C8_60B1_60DB_60B7_60CA_60BF_60C3),
  (0xD564, 0x60CD_60C0_6332_6365_638A_6382_637D_63BD_639E_63AD_639D_6397),
  (0xD570, 0x63AB_638E_636F_6387_6390_636E_63AF_6375_639C_636D_63AE_637C),
  (0xD57C, 0x63A4_633B_639F),
  (0xD5A1, 0x6378_6385_6381_6391_638D_6370_6553_65CD_6665_6661_665B_6659),
  (0xD5AD, 0x665C_6662_6718_6879_6887_6890_689C_686D_686E_68AE_68AB_6956),
  (0xD5B9, 0x686F_68A3_68AC_68A9_6875_6874_68B2_688F_6877_6892_687C_686B),
  (0xD5C5, 0x6872_68AA_6880_6871_687E_689B_6896_688B_68A0_6889_68A4_6878),
  (0xD5D1, 0x687B_6891_688C_688A_687D_6B36_6B33_6B37_6B38_6B91_6B8F_6B8D),
  (0xD5DD, 0x6B8E_6B8C_6C2A_6DC0_6DAB_6DB4_6DB3_6E74_6DAC_6DE9_6DE2_6DB7),
  (0xD5E9, 0x6DF6_6DD4_6E00_6DC8_6DE0_6DDF_6DD6_6DBE_6DE5_6DDC_6DDD_6DDB),
  (0xD5F5, 0x6DF4_6DCA_6DBD_6DED_6DF0_6DBA_6DD5_6DC2_6DCF_6DC9),
  (0xD640, 0x6DD0_6DF2_6DD3_6DFD_6DD7_6DCD_6DE3_6DBB_70FA_710D_70F7_7117),
  (0xD64C, 0x70F4_710C_70F0_7104_70F3_7110_70FC_70FF_7106_7113_7100_70F8),
  (0xD658, 0x70F6_710B_7102_710E_727E_727B_727C_727F_731D_7317_7307_7311),
  (0xD664, 0x7318_730A_7308_72FF_730F_731E_7388_73F6_73F8_73F5_7404_7401),
  (0xD670, 0x73FD_7407_7400_73FA_73FC_73FF_740C_740B_73F4_7408_7564_7563),
  (0xD67C, 0x75CE_75D2_75CF),
  (0xD6A1, 0x75CB_75CC_75D1_75D0_768F_7689_76D3_7739_772F_772D_7731_7732),
  (0xD6AD, 0x7734_7733_773D_7725_773B_7735_7848_7852_7849_784D_784A_784C),
  (0xD6B9, 0x7826_7845_7850_7964_7967_7969_796A_7963_796B_7961_79BB_79FA),
  (0xD6C5, 0x79F8_79F6_79F7_7A8F_7A94_7A90_7B35_7B47_7B34_7B25_7B30_7B22),
  (0xD6D1, 0x7B24_7B33_7B18_7B2A_7B1D_7B31_7B2B_7B2D_7B2F_7B32_7B38_7B1A),
  (0xD6DD, 0x7B23_7C94_7C98_7C96_7CA3_7D35_7D3D_7D38_7D36_7D3A_7D45_7D2C),
  (0xD6E9, 0x7D29_7D41_7D47_7D3E_7D3F_7D4A_7D3B_7D28_7F63_7F95_7F9C_7F9D),
  (0xD6F5, 0x7F9B_7FCA_7FCB_7FCD_7FD0_7FD1_7FC7_7FCF_7FC9_801F),
  (0xD740, 0x801E_801B_8047_8043_8048_8118_8125_8119_811B_812D_811F_812C),
  (0xD74C, 0x811E_8121_8115_8127_811D_8122_8211_8238_8233_823A_8234_8232),
  (0xD758, 0x8274_8390_83A3_83A8_838D_837A_8373_83A4_8374_838F_8381_8395),
  (0xD764, 0x8399_8375_8394_83A9_837D_8383_838C_839D_839B_83AA_838B_837E),
  (0xD770, 0x83A5_83AF_8388_8397_83B0_837F_83A6_8387_83AE_8376_839A_8659),
  (0xD77C, 0x8656_86BF_86B7),
  (0xD7A1, 0x86C2_86C1_86C5_86BA_86B0_86C8_86B9_86B3_86B8_86CC_86B4_86BB),
  (0xD7AD, 0x86BC_86C3_86BD_86BE_8852_8889_8895_88A8_88A2_88AA_889A_8891),
  (0xD7B9, 0x88A1_889F_8898_88A7_8899_889B_8897_88A4_88AC_888C_8893_888E),
  (0xD7C5, 0x8982_89D6_89D9_89D5_8A30_8A27_8A2C_8A1E_8C39_8C3B_8C5C_8C5D),
  (0xD7D1, 0x8C7D_8CA5_8D7D_8D7B_8D79_8DBC_8DC2_8DB9_8DBF_8DC1_8ED8_8EDE),
  (0xD7DD, 0x8EDD_8EDC_8ED7_8EE0_8EE1_9024_900B_9011_901C_900C_9021_90EF),
  (0xD7E9, 0x90EA_90F0_90F4_90F2_90F3_90D4_90EB_90EC_90E9_9156_9158_915A),
  (0xD7F5, 0x9153_9155_91EC_91F4_91F1_91F3_91F8_91E4_91F9_91EA),
  (0xD840, 0x91EB_91F7_91E8_91EE_957A_9586_9588_967C_966D_966B_9671_966F),
  (0xD84C, 0x96BF_976A_9804_98E5_9997_509B_5095_5094_509E_508B_50A3_5083),
  (0xD858, 0x508C_508E_509D_5068_509C_5092_5082_5087_515F_51D4_5312_5311),
  (0xD864, 0x53A4_53A7_5591_55A8_55A5_55AD_5577_5645_55A2_5593_5588_558F),
  (0xD870, 0x55B5_5581_55A3_5592_55A4_557D_558C_55A6_557F_5595_55A1_558E),
  (0xD87C, 0x570C_5829_5837),
  (0xD8A1, 0x5819_581E_5827_5823_5828_57F5_5848_5825_581C_581B_5833_583F),
  (0xD8AD, 0x5836_582E_5839_5838_582D_582C_583B_5961_5AAF_5A94_5A9F_5A7A),
  (0xD8B9, 0x5AA2_5A9E_5A78_5AA6_5A7C_5AA5_5AAC_5A95_5AAE_5A37_5A84_5A8A),
  (0xD8C5, 0x5A97_5A83_5A8B_5AA9_5A7B_5A7D_5A8C_5A9C_5A8F_5A93_5A9D_5BEA),
  (0xD8D1, 0x5BCD_5BCB_5BD4_5BD1_5BCA_5BCE_5C0C_5C30_5D37_5D43_5D6B_5D41),
  (0xD8DD, 0x5D4B_5D3F_5D35_5D51_5D4E_5D55_5D33_5D3A_5D52_5D3D_5D31_5D59),
  (0xD8E9, 0x5D42_5D39_5D49_5D38_5D3C_5D32_5D36_5D40_5D45_5E44_5E41_5F58),
  (0xD8F5, 0x5FA6_5FA5_5FAB_60C9_60B9_60CC_60E2_60CE_60C4_6114),
  (0xD940, 0x60F2_610A_6116_6105_60F5_6113_60F8_60FC_60FE_60C1_6103_6118),
  (0xD94C, 0x611D_6110_60FF_6104_610B_624A_6394_63B1_63B0_63CE_63E5_63E8),
  (0xD958, 0x63EF_63C3_649D_63F3_63CA_63E0_63F6_63D5_63F2_63F5_6461_63DF),
  (0xD964, 0x63BE_63DD_63DC_63C4_63D8_63D3_63C2_63C7_63CC_63CB_63C8_63F0),
  (0xD970, 0x63D7_63D9_6532_6567_656A_6564_655C_6568_6565_658C_659D_659E),
  (0xD97C, 0x65AE_65D0_65D2),
  (0xD9A1, 0x667C_666C_667B_6680_6671_6679_666A_6672_6701_690C_68D3_6904),
  (0xD9AD, 0x68DC_692A_68EC_68EA_68F1_690F_68D6_68F7_68EB_68E4_68F6_6913),
  (0xD9B9, 0x6910_68F3_68E1_6907_68CC_6908_6970_68B4_6911_68EF_68C6_6914),
  (0xD9C5, 0x68F8_68D0_68FD_68FC_68E8_690B_690A_6917_68CE_68C8_68DD_68DE),
  (0xD9D1, 0x68E6_68F4_68D1_6906_68D4_68E9_6915_6925_68C7_6B39_6B3B_6B3F),
  (0xD9DD, 0x6B3C_6B94_6B97_6B99_6B95_6BBD_6BF0_6BF2_6BF3_6C30_6DFC_6E46),
  (0xD9E9, 0x6E47_6E1F_6E49_6E88_6E3C_6E3D_6E45_6E62_6E2B_6E3F_6E41_6E5D),
  (0xD9F5, 0x6E73_6E1C_6E33_6E4B_6E40_6E51_6E3B_6E03_6E2E_6E5E),
  (0xDA40, 0x6E68_6E5C_6E61_6E31_6E28_6E60_6E71_6E6B_6E39_6E22_6E30_6E53),
  (0xDA4C, 0x6E65_6E27_6E78_6E64_6E77_6E55_6E79_6E52_6E66_6E35_6E36_6E5A),
  (0xDA58, 0x7120_711E_712F_70FB_712E_7131_7123_7125_7122_7132_711F_7128),
  (0xDA64, 0x713A_711B_724B_725A_7288_7289_7286_7285_728B_7312_730B_7330),
  (0xDA70, 0x7322_7331_7333_7327_7332_732D_7326_7323_7335_730C_742E_742C),
  (0xDA7C, 0x7430_742B_7416),
  (0xDAA1, 0x741A_7421_742D_7431_7424_7423_741D_7429_7420_7432_74FB_752F),
  (0xDAAD, 0x756F_756C_75E7_75DA_75E1_75E6_75DD_75DF_75E4_75D7_7695_7692),
  (0xDAB9, 0x76DA_7746_7747_7744_774D_7745_774A_774E_774B_774C_77DE_77EC),
  (0xDAC5, 0x7860_7864_7865_785C_786D_7871_786A_786E_7870_7869_7868_785E),
  (0xDAD1, 0x7862_7974_7973_7972_7970_7A02_7A0A_7A03_7A0C_7A04_7A99_7AE6),
  (0xDADD, 0x7AE4_7B4A_7B3B_7B44_7B48_7B4C_7B4E_7B40_7B58_7B45_7CA2_7C9E),
  (0xDAE9, 0x7CA8_7CA1_7D58_7D6F_7D63_7D53_7D56_7D67_7D6A_7D4F_7D6D_7D5C),
  (0xDAF5, 0x7D6B_7D52_7D54_7D69_7D51_7D5F_7D4E_7F3E_7F3F_7F65),
  (0xDB40, 0x7F66_7FA2_7FA0_7FA1_7FD7_8051_804F_8050_80FE_80D4_8143_814A),
  (0xDB4C, 0x8152_814F_8147_813D_814D_813A_81E6_81EE_81F7_81F8_81F9_8204),
  (0xDB58, 0x823C_823D_823F_8275_833B_83CF_83F9_8423_83C0_83E8_8412_83E7),
  (0xDB64, 0x83E4_83FC_83F6_8410_83C6_83C8_83EB_83E3_83BF_8401_83DD_83E5),
  (0xDB70, 0x83D8_83FF_83E1_83CB_83CE_83D6_83F5_83C9_8409_840F_83DE_8411),
  (0xDB7C, 0x8406_83C2_83F3),
  (0xDBA1, 0x83D5_83FA_83C7_83D1_83EA_8413_83C3_83EC_83EE_83C4_83FB_83D7),
  (0xDBAD, 0x83E2_841B_83DB_83FE_86D8_86E2_86E6_86D3_86E3_86DA_86EA_86DD),
  (0xDBB9, 0x86EB_86DC_86EC_86E9_86D7_86E8_86D1_8848_8856_8855_88BA_88D7),
  (0xDBC5, 0x88B9_88B8_88C0_88BE_88B6_88BC_88B7_88BD_88B2_8901_88C9_8995),
  (0xDBD1, 0x8998_8997_89DD_89DA_89DB_8A4E_8A4D_8A39_8A59_8A40_8A57_8A58),
  (0xDBDD, 0x8A44_8A45_8A52_8A48_8A51_8A4A_8A4C_8A4F_8C5F_8C81_8C80_8CBA),
  (0xDBE9, 0x8CBE_8CB0_8CB9_8CB5_8D84_8D80_8D89_8DD8_8DD3_8DCD_8DC7_8DD6),
  (0xDBF5, 0x8DDC_8DCF_8DD5_8DD9_8DC8_8DD7_8DC5_8EEF_8EF7_8EFA),
  (0xDC40, 0x8EF9_8EE6_8EEE_8EE5_8EF5_8EE7_8EE8_8EF6_8EEB_8EF1_8EEC_8EF4),
  (0xDC4C, 0x8EE9_902D_9034_902F_9106_912C_9104_90FF_90FC_9108_90F9_90FB),
  (0xDC58, 0x9101_9100_9107_9105_9103_9161_9164_915F_9162_9160_9201_920A),
  (0xDC64, 0x9225_9203_921A_9226_920F_920C_9200_9212_91FF_91FD_9206_9204),
  (0xDC70, 0x9227_9202_921C_9224_9219_9217_9205_9216_957B_958D_958C_9590),
  (0xDC7C, 0x9687_967E_9688),
  (0xDCA1, 0x9689_9683_9680_96C2_96C8_96C3_96F1_96F0_976C_9770_976E_9807),
  (0xDCAD, 0x98A9_98EB_9CE6_9EF9_4E83_4E84_4EB6_50BD_50BF_50C6_50AE_50C4),
  (0xDCB9, 0x50CA_50B4_50C8_50C2_50B0_50C1_50BA_50B1_50CB_50C9_50B6_50B8),
  (0xDCC5, 0x51D7_527A_5278_527B_527C_55C3_55DB_55CC_55D0_55CB_55CA_55DD),
  (0xDCD1, 0x55C0_55D4_55C4_55E9_55BF_55D2_558D_55CF_55D5_55E2_55D6_55C8),
  (0xDCDD, 0x55F2_55CD_55D9_55C2_5714_5853_5868_5864_584F_584D_5849_586F),
  (0xDCE9, 0x5855_584E_585D_5859_5865_585B_583D_5863_5871_58FC_5AC7_5AC4),
  (0xDCF5, 0x5ACB_5ABA_5AB8_5AB1_5AB5_5AB0_5ABF_5AC8_5ABB_5AC6),
  (0xDD40, 0x5AB7_5AC0_5ACA_5AB4_5AB6_5ACD_5AB9_5A90_5BD6_5BD8_5BD9_5C1F),
  (0xDD4C, 0x5C33_5D71_5D63_5D4A_5D65_5D72_5D6C_5D5E_5D68_5D67_5D62_5DF0),
  (0xDD58, 0x5E4F_5E4E_5E4A_5E4D_5E4B_5EC5_5ECC_5EC6_5ECB_5EC7_5F40_5FAF),
  (0xDD64, 0x5FAD_60F7_6149_614A_612B_6145_6136_6132_612E_6146_612F_614F),
  (0xDD70, 0x6129_6140_6220_9168_6223_6225_6224_63C5_63F1_63EB_6410_6412),
  (0xDD7C, 0x6409_6420_6424),
  (0xDDA1, 0x6433_6443_641F_6415_6418_6439_6437_6422_6423_640C_6426_6430),
  (0xDDAD, 0x6428_6441_6435_642F_640A_641A_6440_6425_6427_640B_63E7_641B),
  (0xDDB9, 0x642E_6421_640E_656F_6592_65D3_6686_668C_6695_6690_668B_668A),
  (0xDDC5, 0x6699_6694_6678_6720_6966_695F_6938_694E_6962_6971_693F_6945),
  (0xDDD1, 0x696A_6939_6942_6957_6959_697A_6948_6949_6935_696C_6933_693D),
  (0xDDDD, 0x6965_68F0_6978_6934_6969_6940_696F_6944_6976_6958_6941_6974),
  (0xDDE9, 0x694C_693B_694B_6937_695C_694F_6951_6932_6952_692F_697B_693C),
  (0xDDF5, 0x6B46_6B45_6B43_6B42_6B48_6B41_6B9B_FA0D_6BFB_6BFC),
  (0xDE40, 0x6BF9_6BF7_6BF8_6E9B_6ED6_6EC8_6E8F_6EC0_6E9F_6E93_6E94_6EA0),
  (0xDE4C, 0x6EB1_6EB9_6EC6_6ED2_6EBD_6EC1_6E9E_6EC9_6EB7_6EB0_6ECD_6EA6),
  (0xDE58, 0x6ECF_6EB2_6EBE_6EC3_6EDC_6ED8_6E99_6E92_6E8E_6E8D_6EA4_6EA1),
  (0xDE64, 0x6EBF_6EB3_6ED0_6ECA_6E97_6EAE_6EA3_7147_7154_7152_7163_7160),
  (0xDE70, 0x7141_715D_7162_7172_7178_716A_7161_7142_7158_7143_714B_7170),
  (0xDE7C, 0x715F_7150_7153),
  (0xDEA1, 0x7144_714D_715A_724F_728D_728C_7291_7290_728E_733C_7342_733B),
  (0xDEAD, 0x733A_7340_734A_7349_7444_744A_744B_7452_7451_7457_7440_744F),
  (0xDEB9, 0x7450_744E_7442_7446_744D_7454_74E1_74FF_74FE_74FD_751D_7579),
  (0xDEC5, 0x7577_6983_75EF_760F_7603_75F7_75FE_75FC_75F9_75F8_7610_75FB),
  (0xDED1, 0x75F6_75ED_75F5_75FD_7699_76B5_76DD_7755_775F_7760_7752_7756),
  (0xDEDD, 0x775A_7769_7767_7754_7759_776D_77E0_7887_789A_7894_788F_7884),
  (0xDEE9, 0x7895_7885_7886_78A1_7883_7879_7899_7880_7896_787B_797C_7982),
  (0xDEF5, 0x797D_7979_7A11_7A18_7A19_7A12_7A17_7A15_7A22_7A13),
  (0xDF40, 0x7A1B_7A10_7AA3_7AA2_7A9E_7AEB_7B66_7B64_7B6D_7B74_7B69_7B72),
  (0xDF4C, 0x7B65_7B73_7B71_7B70_7B61_7B78_7B76_7B63_7CB2_7CB4_7CAF_7D88),
  (0xDF58, 0x7D86_7D80_7D8D_7D7F_7D85_7D7A_7D8E_7D7B_7D83_7D7C_7D8C_7D94),
  (0xDF64, 0x7D84_7D7D_7D92_7F6D_7F6B_7F67_7F68_7F6C_7FA6_7FA5_7FA7_7FDB),
  (0xDF70, 0x7FDC_8021_8164_8160_8177_815C_8169_815B_8162_8172_6721_815E),
  (0xDF7C, 0x8176_8167_816F),
  (0xDFA1, 0x8144_8161_821D_8249_8244_8240_8242_8245_84F1_843F_8456_8476),
  (0xDFAD, 0x8479_848F_848D_8465_8451_8440_8486_8467_8430_844D_847D_845A),
  (0xDFB9, 0x8459_8474_8473_845D_8507_845E_8437_843A_8434_847A_8443_8478),
  (0xDFC5, 0x8432_8445_8429_83D9_844B_842F_8442_842D_845F_8470_8439_844E),
  (0xDFD1, 0x844C_8452_846F_84C5_848E_843B_8447_8436_8433_8468_847E_8444),
  (0xDFDD, 0x842B_8460_8454_846E_8450_870B_8704_86F7_870C_86FA_86D6_86F5),
  (0xDFE9, 0x874D_86F8_870E_8709_8701_86F6_870D_8705_88D6_88CB_88CD_88CE),
  (0xDFF5, 0x88DE_88DB_88DA_88CC_88D0_8985_899B_89DF_89E5_89E4),
  (0xE040, 0x89E1_89E0_89E2_89DC_89E6_8A76_8A86_8A7F_8A61_8A3F_8A77_8A82),
  (0xE04C, 0x8A84_8A75_8A83_8A81_8A74_8A7A_8C3C_8C4B_8C4A_8C65_8C64_8C66),
  (0xE058, 0x8C86_8C84_8C85_8CCC_8D68_8D69_8D91_8D8C_8D8E_8D8F_8D8D_8D93),
  (0xE064, 0x8D94_8D90_8D92_8DF0_8DE0_8DEC_8DF1_8DEE_8DD0_8DE9_8DE3_8DE2),
  (0xE070, 0x8DE7_8DF2_8DEB_8DF4_8F06_8EFF_8F01_8F00_8F05_8F07_8F08_8F02),
  (0xE07C, 0x8F0B_9052_903F),
  (0xE0A1, 0x9044_9049_903D_9110_910D_910F_9111_9116_9114_910B_910E_916E),
  (0xE0AD, 0x916F_9248_9252_9230_923A_9266_9233_9265_925E_9283_922E_924A),
  (0xE0B9, 0x9246_926D_926C_924F_9260_9267_926F_9236_9261_9270_9231_9254),
  (0xE0C5, 0x9263_9250_9272_924E_9253_924C_9256_9232_959F_959C_959E_959B),
  (0xE0D1, 0x9692_9693_9691_9697_96CE_96FA_96FD_96F8_96F5_9773_9777_9778),
  (0xE0DD, 0x9772_980F_980D_980E_98AC_98F6_98F9_99AF_99B2_99B0_99B5_9AAD),
  (0xE0E9, 0x9AAB_9B5B_9CEA_9CED_9CE7_9E80_9EFD_50E6_50D4_50D7_50E8_50F3),
  (0xE0F5, 0x50DB_50EA_50DD_50E4_50D3_50EC_50F0_50EF_50E3_50E0),
  (0xE140, 0x51D8_5280_5281_52E9_52EB_5330_53AC_5627_5615_560C_5612_55FC),
  (0xE14C, 0x560F_561C_5601_5613_5602_55FA_561D_5604_55FF_55F9_5889_587C),
  (0xE158, 0x5890_5898_5886_5881_587F_5874_588B_587A_5887_5891_588E_5876),
  (0xE164, 0x5882_5888_587B_5894_588F_58FE_596B_5ADC_5AEE_5AE5_5AD5_5AEA),
  (0xE170, 0x5ADA_5AED_5AEB_5AF3_5AE2_5AE0_5ADB_5AEC_5ADE_5ADD_5AD9_5AE8),
  (0xE17C, 0x5ADF_5B77_5BE0),
  (0xE1A1, 0x5BE3_5C63_5D82_5D80_5D7D_5D86_5D7A_5D81_5D77_5D8A_5D89_5D88),
  (0xE1AD, 0x5D7E_5D7C_5D8D_5D79_5D7F_5E58_5E59_5E53_5ED8_5ED1_5ED7_5ECE),
  (0xE1B9, 0x5EDC_5ED5_5ED9_5ED2_5ED4_5F44_5F43_5F6F_5FB6_612C_6128_6141),
  (0xE1C5, 0x615E_6171_6173_6152_6153_6172_616C_6180_6174_6154_617A_615B),
  (0xE1D1, 0x6165_613B_616A_6161_6156_6229_6227_622B_642B_644D_645B_645D),
  (0xE1DD, 0x6474_6476_6472_6473_647D_6475_6466_64A6_644E_6482_645E_645C),
  (0xE1E9, 0x644B_6453_6460_6450_647F_643F_646C_646B_6459_6465_6477_6573),
  (0xE1F5, 0x65A0_66A1_66A0_669F_6705_6704_6722_69B1_69B6_69C9),
  (0xE240, 0x69A0_69CE_6996_69B0_69AC_69BC_6991_6999_698E_69A7_698D_69A9),
  (0xE24C, 0x69BE_69AF_69BF_69C4_69BD_69A4_69D4_69B9_69CA_699A_69CF_69B3),
  (0xE258, 0x6993_69AA_69A1_699E_69D9_6997_6990_69C2_69B5_69A5_69C6_6B4A),
  (0xE264, 0x6B4D_6B4B_6B9E_6B9F_6BA0_6BC3_6BC4_6BFE_6ECE_6EF5_6EF1_6F03),
  (0xE270, 0x6F25_6EF8_6F37_6EFB_6F2E_6F09_6F4E_6F19_6F1A_6F27_6F18_6F3B),
  (0xE27C, 0x6F12_6EED_6F0A),
  (0xE2A1, 0x6F36_6F73_6EF9_6EEE_6F2D_6F40_6F30_6F3C_6F35_6EEB_6F07_6F0E),
  (0xE2AD, 0x6F43_6F05_6EFD_6EF6_6F39_6F1C_6EFC_6F3A_6F1F_6F0D_6F1E_6F08),
  (0xE2B9, 0x6F21_7187_7190_7189_7180_7185_7182_718F_717B_7186_7181_7197),
  (0xE2C5, 0x7244_7253_7297_7295_7293_7343_734D_7351_734C_7462_7473_7471),
  (0xE2D1, 0x7475_7472_7467_746E_7500_7502_7503_757D_7590_7616_7608_760C),
  (0xE2DD, 0x7615_7611_760A_7614_76B8_7781_777C_7785_7782_776E_7780_776F),
  (0xE2E9, 0x777E_7783_78B2_78AA_78B4_78AD_78A8_787E_78AB_789E_78A5_78A0),
  (0xE2F5, 0x78AC_78A2_78A4_7998_798A_798B_7996_7995_7994_7993),
  (0xE340, 0x7997_7988_7992_7990_7A2B_7A4A_7A30_7A2F_7A28_7A26_7AA8_7AAB),
  (0xE34C, 0x7AAC_7AEE_7B88_7B9C_7B8A_7B91_7B90_7B96_7B8D_7B8C_7B9B_7B8E),
  (0xE358, 0x7B85_7B98_5284_7B99_7BA4_7B82_7CBB_7CBF_7CBC_7CBA_7DA7_7DB7),
  (0xE364, 0x7DC2_7DA3_7DAA_7DC1_7DC0_7DC5_7D9D_7DCE_7DC4_7DC6_7DCB_7DCC),
  (0xE370, 0x7DAF_7DB9_7D96_7DBC_7D9F_7DA6_7DAE_7DA9_7DA1_7DC9_7F73_7FE2),
  (0xE37C, 0x7FE3_7FE5_7FDE),
  (0xE3A1, 0x8024_805D_805C_8189_8186_8183_8187_818D_818C_818B_8215_8497),
  (0xE3AD, 0x84A4_84A1_849F_84BA_84CE_84C2_84AC_84AE_84AB_84B9_84B4_84C1),
  (0xE3B9, 0x84CD_84AA_849A_84B1_84D0_849D_84A7_84BB_84A2_8494_84C7_84CC),
  (0xE3C5, 0x849B_84A9_84AF_84A8_84D6_8498_84B6_84CF_84A0_84D7_84D4_84D2),
  (0xE3D1, 0x84DB_84B0_8491_8661_8733_8723_8728_876B_8740_872E_871E_8721),
  (0xE3DD, 0x8719_871B_8743_872C_8741_873E_8746_8720_8732_872A_872D_873C),
  (0xE3E9, 0x8712_873A_8731_8735_8742_8726_8727_8738_8724_871A_8730_8711),
  (0xE3F5, 0x88F7_88E7_88F1_88F2_88FA_88FE_88EE_88FC_88F6_88FB),
  (0xE440, 0x88F0_88EC_88EB_899D_89A1_899F_899E_89E9_89EB_89E8_8AAB_8A99),
  (0xE44C, 0x8A8B_8A92_8A8F_8A96_8C3D_8C68_8C69_8CD5_8CCF_8CD7_8D96_8E09),
  (0xE458, 0x8E02_8DFF_8E0D_8DFD_8E0A_8E03_8E07_8E06_8E05_8DFE_8E00_8E04),
  (0xE464, 0x8F10_8F11_8F0E_8F0D_9123_911C_9120_9122_911F_911D_911A_9124),
  (0xE470, 0x9121_911B_917A_9172_9179_9173_92A5_92A4_9276_929B_927A_92A0),
  (0xE47C, 0x9294_92AA_928D),
  (0xE4A1, 0x92A6_929A_92AB_9279_9297_927F_92A3_92EE_928E_9282_9295_92A2),
  (0xE4AD, 0x927D_9288_92A1_928A_9286_928C_9299_92A7_927E_9287_92A9_929D),
  (0xE4B9, 0x928B_922D_969E_96A1_96FF_9758_977D_977A_977E_9783_9780_9782),
  (0xE4C5, 0x977B_9784_9781_977F_97CE_97CD_9816_98AD_98AE_9902_9900_9907),
  (0xE4D1, 0x999D_999C_99C3_99B9_99BB_99BA_99C2_99BD_99C7_9AB1_9AE3_9AE7),
  (0xE4DD, 0x9B3E_9B3F_9B60_9B61_9B5F_9CF1_9CF2_9CF5_9EA7_50FF_5103_5130),
  (0xE4E9, 0x50F8_5106_5107_50F6_50FE_510B_510C_50FD_510A_528B_528C_52F1),
  (0xE4F5, 0x52EF_5648_5642_564C_5635_5641_564A_5649_5646_5658),
  (0xE540, 0x565A_5640_5633_563D_562C_563E_5638_562A_563A_571A_58AB_589D),
  (0xE54C, 0x58B1_58A0_58A3_58AF_58AC_58A5_58A1_58FF_5AFF_5AF4_5AFD_5AF7),
  (0xE558, 0x5AF6_5B03_5AF8_5B02_5AF9_5B01_5B07_5B05_5B0F_5C67_5D99_5D97),
  (0xE564, 0x5D9F_5D92_5DA2_5D93_5D95_5DA0_5D9C_5DA1_5D9A_5D9E_5E69_5E5D),
  (0xE570, 0x5E60_5E5C_7DF3_5EDB_5EDE_5EE1_5F49_5FB2_618B_6183_6179_61B1),
  (0xE57C, 0x61B0_61A2_6189),
  (0xE5A1, 0x619B_6193_61AF_61AD_619F_6192_61AA_61A1_618D_6166_61B3_622D),
  (0xE5AD, 0x646E_6470_6496_64A0_6485_6497_649C_648F_648B_648A_648C_64A3),
  (0xE5B9, 0x649F_6468_64B1_6498_6576_657A_6579_657B_65B2_65B3_66B5_66B0),
  (0xE5C5, 0x66A9_66B2_66B7_66AA_66AF_6A00_6A06_6A17_69E5_69F8_6A15_69F1),
  (0xE5D1, 0x69E4_6A20_69FF_69EC_69E2_6A1B_6A1D_69FE_6A27_69F2_69EE_6A14),
  (0xE5DD, 0x69F7_69E7_6A40_6A08_69E6_69FB_6A0D_69FC_69EB_6A09_6A04_6A18),
  (0xE5E9, 0x6A25_6A0F_69F6_6A26_6A07_69F4_6A16_6B51_6BA5_6BA3_6BA2_6BA6),
  (0xE5F5, 0x6C01_6C00_6BFF_6C02_6F41_6F26_6F7E_6F87_6FC6_6F92),
  (0xE640, 0x6F8D_6F89_6F8C_6F62_6F4F_6F85_6F5A_6F96_6F76_6F6C_6F82_6F55),
  (0xE64C, 0x6F72_6F52_6F50_6F57_6F94_6F93_6F5D_6F00_6F61_6F6B_6F7D_6F67),
  (0xE658, 0x6F90_6F53_6F8B_6F69_6F7F_6F95_6F63_6F77_6F6A_6F7B_71B2_71AF),
  (0xE664, 0x719B_71B0_71A0_719A_71A9_71B5_719D_71A5_719E_71A4_71A1_71AA),
  (0xE670, 0x719C_71A7_71B3_7298_729A_7358_7352_735E_735F_7360_735D_735B),
  (0xE67C, 0x7361_735A_7359),
  (0xE6A1, 0x7362_7487_7489_748A_7486_7481_747D_7485_7488_747C_7479_7508),
  (0xE6AD, 0x7507_757E_7625_761E_7619_761D_761C_7623_761A_7628_761B_769C),
  (0xE6B9, 0x769D_769E_769B_778D_778F_7789_7788_78CD_78BB_78CF_78CC_78D1),
  (0xE6C5, 0x78CE_78D4_78C8_78C3_78C4_78C9_799A_79A1_79A0_799C_79A2_799B),
  (0xE6D1, 0x6B76_7A39_7AB2_7AB4_7AB3_7BB7_7BCB_7BBE_7BAC_7BCE_7BAF_7BB9),
  (0xE6DD, 0x7BCA_7BB5_7CC5_7CC8_7CCC_7CCB_7DF7_7DDB_7DEA_7DE7_7DD7_7DE1),
  (0xE6E9, 0x7E03_7DFA_7DE6_7DF6_7DF1_7DF0_7DEE_7DDF_7F76_7FAC_7FB0_7FAD),
  (0xE6F5, 0x7FED_7FEB_7FEA_7FEC_7FE6_7FE8_8064_8067_81A3_819F),
  (0xE740, 0x819E_8195_81A2_8199_8197_8216_824F_8253_8252_8250_824E_8251),
  (0xE74C, 0x8524_853B_850F_8500_8529_850E_8509_850D_851F_850A_8527_851C),
  (0xE758, 0x84FB_852B_84FA_8508_850C_84F4_852A_84F2_8515_84F7_84EB_84F3),
  (0xE764, 0x84FC_8512_84EA_84E9_8516_84FE_8528_851D_852E_8502_84FD_851E),
  (0xE770, 0x84F6_8531_8526_84E7_84E8_84F0_84EF_84F9_8518_8520_8530_850B),
  (0xE77C, 0x8519_852F_8662),
  (0xE7A1, 0x8756_8763_8764_8777_87E1_8773_8758_8754_875B_8752_8761_875A),
  (0xE7AD, 0x8751_875E_876D_876A_8750_874E_875F_875D_876F_876C_877A_876E),
  (0xE7B9, 0x875C_8765_874F_877B_8775_8762_8767_8769_885A_8905_890C_8914),
  (0xE7C5, 0x890B_8917_8918_8919_8906_8916_8911_890E_8909_89A2_89A4_89A3),
  (0xE7D1, 0x89ED_89F0_89EC_8ACF_8AC6_8AB8_8AD3_8AD1_8AD4_8AD5_8ABB_8AD7),
  (0xE7DD, 0x8ABE_8AC0_8AC5_8AD8_8AC3_8ABA_8ABD_8AD9_8C3E_8C4D_8C8F_8CE5),
  (0xE7E9, 0x8CDF_8CD9_8CE8_8CDA_8CDD_8CE7_8DA0_8D9C_8DA1_8D9B_8E20_8E23),
  (0xE7F5, 0x8E25_8E24_8E2E_8E15_8E1B_8E16_8E11_8E19_8E26_8E27),
  (0xE840, 0x8E14_8E12_8E18_8E13_8E1C_8E17_8E1A_8F2C_8F24_8F18_8F1A_8F20),
  (0xE84C, 0x8F23_8F16_8F17_9073_9070_906F_9067_906B_912F_912B_9129_912A),
  (0xE858, 0x9132_9126_912E_9185_9186_918A_9181_9182_9184_9180_92D0_92C3),
  (0xE864, 0x92C4_92C0_92D9_92B6_92CF_92F1_92DF_92D8_92E9_92D7_92DD_92CC),
  (0xE870, 0x92EF_92C2_92E8_92CA_92C8_92CE_92E6_92CD_92D5_92C9_92E0_92DE),
  (0xE87C, 0x92E7_92D1_92D3),
  (0xE8A1, 0x92B5_92E1_92C6_92B4_957C_95AC_95AB_95AE_95B0_96A4_96A2_96D3),
  (0xE8AD, 0x9705_9708_9702_975A_978A_978E_9788_97D0_97CF_981E_981D_9826),
  (0xE8B9, 0x9829_9828_9820_981B_9827_98B2_9908_98FA_9911_9914_9916_9917),
  (0xE8C5, 0x9915_99DC_99CD_99CF_99D3_99D4_99CE_99C9_99D6_99D8_99CB_99D7),
  (0xE8D1, 0x99CC_9AB3_9AEC_9AEB_9AF3_9AF2_9AF1_9B46_9B43_9B67_9B74_9B71),
  (0xE8DD, 0x9B66_9B76_9B75_9B70_9B68_9B64_9B6C_9CFC_9CFA_9CFD_9CFF_9CF7),
  (0xE8E9, 0x9D07_9D00_9CF9_9CFB_9D08_9D05_9D04_9E83_9ED3_9F0F_9F10_511C),
  (0xE8F5, 0x5113_5117_511A_5111_51DE_5334_53E1_5670_5660_566E),
  (0xE940, 0x5673_5666_5663_566D_5672_565E_5677_571C_571B_58C8_58BD_58C9),
  (0xE94C, 0x58BF_58BA_58C2_58BC_58C6_5B17_5B19_5B1B_5B21_5B14_5B13_5B10),
  (0xE958, 0x5B16_5B28_5B1A_5B20_5B1E_5BEF_5DAC_5DB1_5DA9_5DA7_5DB5_5DB0),
  (0xE964, 0x5DAE_5DAA_5DA8_5DB2_5DAD_5DAF_5DB4_5E67_5E68_5E66_5E6F_5EE9),
  (0xE970, 0x5EE7_5EE6_5EE8_5EE5_5F4B_5FBC_619D_61A8_6196_61C5_61B4_61C6),
  (0xE97C, 0x61C1_61CC_61BA),
  (0xE9A1, 0x61BF_61B8_618C_64D7_64D6_64D0_64CF_64C9_64BD_6489_64C3_64DB),
  (0xE9AD, 0x64F3_64D9_6533_657F_657C_65A2_66C8_66BE_66C0_66CA_66CB_66CF),
  (0xE9B9, 0x66BD_66BB_66BA_66CC_6723_6A34_6A66_6A49_6A67_6A32_6A68_6A3E),
  (0xE9C5, 0x6A5D_6A6D_6A76_6A5B_6A51_6A28_6A5A_6A3B_6A3F_6A41_6A6A_6A64),
  (0xE9D1, 0x6A50_6A4F_6A54_6A6F_6A69_6A60_6A3C_6A5E_6A56_6A55_6A4D_6A4E),
  (0xE9DD, 0x6A46_6B55_6B54_6B56_6BA7_6BAA_6BAB_6BC8_6BC7_6C04_6C03_6C06),
  (0xE9E9, 0x6FAD_6FCB_6FA3_6FC7_6FBC_6FCE_6FC8_6F5E_6FC4_6FBD_6F9E_6FCA),
  (0xE9F5, 0x6FA8_7004_6FA5_6FAE_6FBA_6FAC_6FAA_6FCF_6FBF_6FB8),
  (0xEA40, 0x6FA2_6FC9_6FAB_6FCD_6FAF_6FB2_6FB0_71C5_71C2_71BF_71B8_71D6),
  (0xEA4C, 0x71C0_71C1_71CB_71D4_71CA_71C7_71CF_71BD_71D8_71BC_71C6_71DA),
  (0xEA58, 0x71DB_729D_729E_7369_7366_7367_736C_7365_736B_736A_747F_749A),
  (0xEA64, 0x74A0_7494_7492_7495_74A1_750B_7580_762F_762D_7631_763D_7633),
  (0xEA70, 0x763C_7635_7632_7630_76BB_76E6_779A_779D_77A1_779C_779B_77A2),
  (0xEA7C, 0x77A3_7795_7799),
  (0xEAA1, 0x7797_78DD_78E9_78E5_78EA_78DE_78E3_78DB_78E1_78E2_78ED_78DF),
  (0xEAAD, 0x78E0_79A4_7A44_7A48_7A47_7AB6_7AB8_7AB5_7AB1_7AB7_7BDE_7BE3),
  (0xEAB9, 0x7BE7_7BDD_7BD5_7BE5_7BDA_7BE8_7BF9_7BD4_7BEA_7BE2_7BDC_7BEB),
  (0xEAC5, 0x7BD8_7BDF_7CD2_7CD4_7CD7_7CD0_7CD1_7E12_7E21_7E17_7E0C_7E1F),
  (0xEAD1, 0x7E20_7E13_7E0E_7E1C_7E15_7E1A_7E22_7E0B_7E0F_7E16_7E0D_7E14),
  (0xEADD, 0x7E25_7E24_7F43_7F7B_7F7C_7F7A_7FB1_7FEF_802A_8029_806C_81B1),
  (0xEAE9, 0x81A6_81AE_81B9_81B5_81AB_81B0_81AC_81B4_81B2_81B7_81A7_81F2),
  (0xEAF5, 0x8255_8256_8257_8556_8545_856B_854D_8553_8561_8558),
  (0xEB40, 0x8540_8546_8564_8541_8562_8544_8551_8547_8563_853E_855B_8571),
  (0xEB4C, 0x854E_856E_8575_8555_8567_8560_858C_8566_855D_8554_8565_856C),
  (0xEB58, 0x8663_8665_8664_879B_878F_8797_8793_8792_8788_8781_8796_8798),
  (0xEB64, 0x8779_8787_87A3_8785_8790_8791_879D_8784_8794_879C_879A_8789),
  (0xEB70, 0x891E_8926_8930_892D_892E_8927_8931_8922_8929_8923_892F_892C),
  (0xEB7C, 0x891F_89F1_8AE0),
  (0xEBA1, 0x8AE2_8AF2_8AF4_8AF5_8ADD_8B14_8AE4_8ADF_8AF0_8AC8_8ADE_8AE1),
  (0xEBAD, 0x8AE8_8AFF_8AEF_8AFB_8C91_8C92_8C90_8CF5_8CEE_8CF1_8CF0_8CF3),
  (0xEBB9, 0x8D6C_8D6E_8DA5_8DA7_8E33_8E3E_8E38_8E40_8E45_8E36_8E3C_8E3D),
  (0xEBC5, 0x8E41_8E30_8E3F_8EBD_8F36_8F2E_8F35_8F32_8F39_8F37_8F34_9076),
  (0xEBD1, 0x9079_907B_9086_90FA_9133_9135_9136_9193_9190_9191_918D_918F),
  (0xEBDD, 0x9327_931E_9308_931F_9306_930F_937A_9338_933C_931B_9323_9312),
  (0xEBE9, 0x9301_9346_932D_930E_930D_92CB_931D_92FA_9325_9313_92F9_92F7),
  (0xEBF5, 0x9334_9302_9324_92FF_9329_9339_9335_932A_9314_930C),
  (0xEC40, 0x930B_92FE_9309_9300_92FB_9316_95BC_95CD_95BE_95B9_95BA_95B6),
  (0xEC4C, 0x95BF_95B5_95BD_96A9_96D4_970B_9712_9710_9799_9797_9794_97F0),
  (0xEC58, 0x97F8_9835_982F_9832_9924_991F_9927_9929_999E_99EE_99EC_99E5),
  (0xEC64, 0x99E4_99F0_99E3_99EA_99E9_99E7_9AB9_9ABF_9AB4_9ABB_9AF6_9AFA),
  (0xEC70, 0x9AF9_9AF7_9B33_9B80_9B85_9B87_9B7C_9B7E_9B7B_9B82_9B93_9B92),
  (0xEC7C, 0x9B90_9B7A_9B95),
  (0xECA1, 0x9B7D_9B88_9D25_9D17_9D20_9D1E_9D14_9D29_9D1D_9D18_9D22_9D10),
  (0xECAD, 0x9D19_9D1F_9E88_9E86_9E87_9EAE_9EAD_9ED5_9ED6_9EFA_9F12_9F3D),
  (0xECB9, 0x5126_5125_5122_5124_5120_5129_52F4_5693_568C_568D_5686_5684),
  (0xECC5, 0x5683_567E_5682_567F_5681_58D6_58D4_58CF_58D2_5B2D_5B25_5B32),
  (0xECD1, 0x5B23_5B2C_5B27_5B26_5B2F_5B2E_5B7B_5BF1_5BF2_5DB7_5E6C_5E6A),
  (0xECDD, 0x5FBE_5FBB_61C3_61B5_61BC_61E7_61E0_61E5_61E4_61E8_61DE_64EF),
  (0xECE9, 0x64E9_64E3_64EB_64E4_64E8_6581_6580_65B6_65DA_66D2_6A8D_6A96),
  (0xECF5, 0x6A81_6AA5_6A89_6A9F_6A9B_6AA1_6A9E_6A87_6A93_6A8E),
  (0xED40, 0x6A95_6A83_6AA8_6AA4_6A91_6A7F_6AA6_6A9A_6A85_6A8C_6A92_6B5B),
  (0xED4C, 0x6BAD_6C09_6FCC_6FA9_6FF4_6FD4_6FE3_6FDC_6FED_6FE7_6FE6_6FDE),
  (0xED58, 0x6FF2_6FDD_6FE2_6FE8_71E1_71F1_71E8_71F2_71E4_71F0_71E2_7373),
  (0xED64, 0x736E_736F_7497_74B2_74AB_7490_74AA_74AD_74B1_74A5_74AF_7510),
  (0xED70, 0x7511_7512_750F_7584_7643_7648_7649_7647_76A4_76E9_77B5_77AB),
  (0xED7C, 0x77B2_77B7_77B6),
  (0xEDA1, 0x77B4_77B1_77A8_77F0_78F3_78FD_7902_78FB_78FC_78F2_7905_78F9),
  (0xEDAD, 0x78FE_7904_79AB_79A8_7A5C_7A5B_7A56_7A58_7A54_7A5A_7ABE_7AC0),
  (0xEDB9, 0x7AC1_7C05_7C0F_7BF2_7C00_7BFF_7BFB_7C0E_7BF4_7C0B_7BF3_7C02),
  (0xEDC5, 0x7C09_7C03_7C01_7BF8_7BFD_7C06_7BF0_7BF1_7C10_7C0A_7CE8_7E2D),
  (0xEDD1, 0x7E3C_7E42_7E33_9848_7E38_7E2A_7E49_7E40_7E47_7E29_7E4C_7E30),
  (0xEDDD, 0x7E3B_7E36_7E44_7E3A_7F45_7F7F_7F7E_7F7D_7FF4_7FF2_802C_81BB),
  (0xEDE9, 0x81C4_81CC_81CA_81C5_81C7_81BC_81E9_825B_825A_825C_8583_8580),
  (0xEDF5, 0x858F_85A7_8595_85A0_858B_85A3_857B_85A4_859A_859E),
  (0xEE40, 0x8577_857C_8589_85A1_857A_8578_8557_858E_8596_8586_858D_8599),
  (0xEE4C, 0x859D_8581_85A2_8582_8588_8585_8579_8576_8598_8590_859F_8668),
  (0xEE58, 0x87BE_87AA_87AD_87C5_87B0_87AC_87B9_87B5_87BC_87AE_87C9_87C3),
  (0xEE64, 0x87C2_87CC_87B7_87AF_87C4_87CA_87B4_87B6_87BF_87B8_87BD_87DE),
  (0xEE70, 0x87B2_8935_8933_893C_893E_8941_8952_8937_8942_89AD_89AF_89AE),
  (0xEE7C, 0x89F2_89F3_8B1E),
  (0xEEA1, 0x8B18_8B16_8B11_8B05_8B0B_8B22_8B0F_8B12_8B15_8B07_8B0D_8B08),
  (0xEEAD, 0x8B06_8B1C_8B13_8B1A_8C4F_8C70_8C72_8C71_8C6F_8C95_8C94_8CF9),
  (0xEEB9, 0x8D6F_8E4E_8E4D_8E53_8E50_8E4C_8E47_8F43_8F40_9085_907E_9138),
  (0xEEC5, 0x919A_91A2_919B_9199_919F_91A1_919D_91A0_93A1_9383_93AF_9364),
  (0xEED1, 0x9356_9347_937C_9358_935C_9376_9349_9350_9351_9360_936D_938F),
  (0xEEDD, 0x934C_936A_9379_9357_9355_9352_934F_9371_9377_937B_9361_935E),
  (0xEEE9, 0x9363_9367_9380_934E_9359_95C7_95C0_95C9_95C3_95C5_95B7_96AE),
  (0xEEF5, 0x96B0_96AC_9720_971F_9718_971D_9719_979A_97A1_979C),
  (0xEF40, 0x979E_979D_97D5_97D4_97F1_9841_9844_984A_9849_9845_9843_9925),
  (0xEF4C, 0x992B_992C_992A_9933_9932_992F_992D_9931_9930_9998_99A3_99A1),
  (0xEF58, 0x9A02_99FA_99F4_99F7_99F9_99F8_99F6_99FB_99FD_99FE_99FC_9A03),
  (0xEF64, 0x9ABE_9AFE_9AFD_9B01_9AFC_9B48_9B9A_9BA8_9B9E_9B9B_9BA6_9BA1),
  (0xEF70, 0x9BA5_9BA4_9B86_9BA2_9BA0_9BAF_9D33_9D41_9D67_9D36_9D2E_9D2F),
  (0xEF7C, 0x9D31_9D38_9D30),
  (0xEFA1, 0x9D45_9D42_9D43_9D3E_9D37_9D40_9D3D_7FF5_9D2D_9E8A_9E89_9E8D),
  (0xEFAD, 0x9EB0_9EC8_9EDA_9EFB_9EFF_9F24_9F23_9F22_9F54_9FA0_5131_512D),
  (0xEFB9, 0x512E_5698_569C_5697_569A_569D_5699_5970_5B3C_5C69_5C6A_5DC0),
  (0xEFC5, 0x5E6D_5E6E_61D8_61DF_61ED_61EE_61F1_61EA_61F0_61EB_61D6_61E9),
  (0xEFD1, 0x64FF_6504_64FD_64F8_6501_6503_64FC_6594_65DB_66DA_66DB_66D8),
  (0xEFDD, 0x6AC5_6AB9_6ABD_6AE1_6AC6_6ABA_6AB6_6AB7_6AC7_6AB4_6AAD_6B5E),
  (0xEFE9, 0x6BC9_6C0B_7007_700C_700D_7001_7005_7014_700E_6FFF_7000_6FFB),
  (0xEFF5, 0x7026_6FFC_6FF7_700A_7201_71FF_71F9_7203_71FD_7376),
  (0xF040, 0x74B8_74C0_74B5_74C1_74BE_74B6_74BB_74C2_7514_7513_765C_7664),
  (0xF04C, 0x7659_7650_7653_7657_765A_76A6_76BD_76EC_77C2_77BA_78FF_790C),
  (0xF058, 0x7913_7914_7909_7910_7912_7911_79AD_79AC_7A5F_7C1C_7C29_7C19),
  (0xF064, 0x7C20_7C1F_7C2D_7C1D_7C26_7C28_7C22_7C25_7C30_7E5C_7E50_7E56),
  (0xF070, 0x7E63_7E58_7E62_7E5F_7E51_7E60_7E57_7E53_7FB5_7FB3_7FF7_7FF8),
  (0xF07C, 0x8075_81D1_81D2),
  (0xF0A1, 0x81D0_825F_825E_85B4_85C6_85C0_85C3_85C2_85B3_85B5_85BD_85C7),
  (0xF0AD, 0x85C4_85BF_85CB_85CE_85C8_85C5_85B1_85B6_85D2_8624_85B8_85B7),
  (0xF0B9, 0x85BE_8669_87E7_87E6_87E2_87DB_87EB_87EA_87E5_87DF_87F3_87E4),
  (0xF0C5, 0x87D4_87DC_87D3_87ED_87D8_87E3_87A4_87D7_87D9_8801_87F4_87E8),
  (0xF0D1, 0x87DD_8953_894B_894F_894C_8946_8950_8951_8949_8B2A_8B27_8B23),
  (0xF0DD, 0x8B33_8B30_8B35_8B47_8B2F_8B3C_8B3E_8B31_8B25_8B37_8B26_8B36),
  (0xF0E9, 0x8B2E_8B24_8B3B_8B3D_8B3A_8C42_8C75_8C99_8C98_8C97_8CFE_8D04),
  (0xF0F5, 0x8D02_8D00_8E5C_8E62_8E60_8E57_8E56_8E5E_8E65_8E67),
  (0xF140, 0x8E5B_8E5A_8E61_8E5D_8E69_8E54_8F46_8F47_8F48_8F4B_9128_913A),
  (0xF14C, 0x913B_913E_91A8_91A5_91A7_91AF_91AA_93B5_938C_9392_93B7_939B),
  (0xF158, 0x939D_9389_93A7_938E_93AA_939E_93A6_9395_9388_9399_939F_938D),
  (0xF164, 0x93B1_9391_93B2_93A4_93A8_93B4_93A3_93A5_95D2_95D3_95D1_96B3),
  (0xF170, 0x96D7_96DA_5DC2_96DF_96D8_96DD_9723_9722_9725_97AC_97AE_97A8),
  (0xF17C, 0x97AB_97A4_97AA),
  (0xF1A1, 0x97A2_97A5_97D7_97D9_97D6_97D8_97FA_9850_9851_9852_98B8_9941),
  (0xF1AD, 0x993C_993A_9A0F_9A0B_9A09_9A0D_9A04_9A11_9A0A_9A05_9A07_9A06),
  (0xF1B9, 0x9AC0_9ADC_9B08_9B04_9B05_9B29_9B35_9B4A_9B4C_9B4B_9BC7_9BC6),
  (0xF1C5, 0x9BC3_9BBF_9BC1_9BB5_9BB8_9BD3_9BB6_9BC4_9BB9_9BBD_9D5C_9D53),
  (0xF1D1, 0x9D4F_9D4A_9D5B_9D4B_9D59_9D56_9D4C_9D57_9D52_9D54_9D5F_9D58),
  (0xF1DD, 0x9D5A_9E8E_9E8C_9EDF_9F01_9F00_9F16_9F25_9F2B_9F2A_9F29_9F28),
  (0xF1E9, 0x9F4C_9F55_5134_5135_5296_52F7_53B4_56AB_56AD_56A6_56A7_56AA),
  (0xF1F5, 0x56AC_58DA_58DD_58DB_5912_5B3D_5B3E_5B3F_5DC3_5E70),
  (0xF240, 0x5FBF_61FB_6507_6510_650D_6509_650C_650E_6584_65DE_65DD_66DE),
  (0xF24C, 0x6AE7_6AE0_6ACC_6AD1_6AD9_6ACB_6ADF_6ADC_6AD0_6AEB_6ACF_6ACD),
  (0xF258, 0x6ADE_6B60_6BB0_6C0C_7019_7027_7020_7016_702B_7021_7022_7023),
  (0xF264, 0x7029_7017_7024_701C_702A_720C_720A_7207_7202_7205_72A5_72A6),
  (0xF270, 0x72A4_72A3_72A1_74CB_74C5_74B7_74C3_7516_7660_77C9_77CA_77C4),
  (0xF27C, 0x77F1_791D_791B),
  (0xF2A1, 0x7921_791C_7917_791E_79B0_7A67_7A68_7C33_7C3C_7C39_7C2C_7C3B),
  (0xF2AD, 0x7CEC_7CEA_7E76_7E75_7E78_7E70_7E77_7E6F_7E7A_7E72_7E74_7E68),
  (0xF2B9, 0x7F4B_7F4A_7F83_7F86_7FB7_7FFD_7FFE_8078_81D7_81D5_8264_8261),
  (0xF2C5, 0x8263_85EB_85F1_85ED_85D9_85E1_85E8_85DA_85D7_85EC_85F2_85F8),
  (0xF2D1, 0x85D8_85DF_85E3_85DC_85D1_85F0_85E6_85EF_85DE_85E2_8800_87FA),
  (0xF2DD, 0x8803_87F6_87F7_8809_880C_880B_8806_87FC_8808_87FF_880A_8802),
  (0xF2E9, 0x8962_895A_895B_8957_8961_895C_8958_895D_8959_8988_89B7_89B6),
  (0xF2F5, 0x89F6_8B50_8B48_8B4A_8B40_8B53_8B56_8B54_8B4B_8B55),
  (0xF340, 0x8B51_8B42_8B52_8B57_8C43_8C77_8C76_8C9A_8D06_8D07_8D09_8DAC),
  (0xF34C, 0x8DAA_8DAD_8DAB_8E6D_8E78_8E73_8E6A_8E6F_8E7B_8EC2_8F52_8F51),
  (0xF358, 0x8F4F_8F50_8F53_8FB4_9140_913F_91B0_91AD_93DE_93C7_93CF_93C2),
  (0xF364, 0x93DA_93D0_93F9_93EC_93CC_93D9_93A9_93E6_93CA_93D4_93EE_93E3),
  (0xF370, 0x93D5_93C4_93CE_93C0_93D2_93E7_957D_95DA_95DB_96E1_9729_972B),
  (0xF37C, 0x972C_9728_9726),
  (0xF3A1, 0x97B3_97B7_97B6_97DD_97DE_97DF_985C_9859_985D_9857_98BF_98BD),
  (0xF3AD, 0x98BB_98BE_9948_9947_9943_99A6_99A7_9A1A_9A15_9A25_9A1D_9A24),
  (0xF3B9, 0x9A1B_9A22_9A20_9A27_9A23_9A1E_9A1C_9A14_9AC2_9B0B_9B0A_9B0E),
  (0xF3C5, 0x9B0C_9B37_9BEA_9BEB_9BE0_9BDE_9BE4_9BE6_9BE2_9BF0_9BD4_9BD7),
  (0xF3D1, 0x9BEC_9BDC_9BD9_9BE5_9BD5_9BE1_9BDA_9D77_9D81_9D8A_9D84_9D88),
  (0xF3DD, 0x9D71_9D80_9D78_9D86_9D8B_9D8C_9D7D_9D6B_9D74_9D75_9D70_9D69),
  (0xF3E9, 0x9D85_9D73_9D7B_9D82_9D6F_9D79_9D7F_9D87_9D68_9E94_9E91_9EC0),
  (0xF3F5, 0x9EFC_9F2D_9F40_9F41_9F4D_9F56_9F57_9F58_5337_56B2),
  (0xF440, 0x56B5_56B3_58E3_5B45_5DC6_5DC7_5EEE_5EEF_5FC0_5FC1_61F9_6517),
  (0xF44C, 0x6516_6515_6513_65DF_66E8_66E3_66E4_6AF3_6AF0_6AEA_6AE8_6AF9),
  (0xF458, 0x6AF1_6AEE_6AEF_703C_7035_702F_7037_7034_7031_7042_7038_703F),
  (0xF464, 0x703A_7039_7040_703B_7033_7041_7213_7214_72A8_737D_737C_74BA),
  (0xF470, 0x76AB_76AA_76BE_76ED_77CC_77CE_77CF_77CD_77F2_7925_7923_7927),
  (0xF47C, 0x7928_7924_7929),
  (0xF4A1, 0x79B2_7A6E_7A6C_7A6D_7AF7_7C49_7C48_7C4A_7C47_7C45_7CEE_7E7B),
  (0xF4AD, 0x7E7E_7E81_7E80_7FBA_7FFF_8079_81DB_81D9_820B_8268_8269_8622),
  (0xF4B9, 0x85FF_8601_85FE_861B_8600_85F6_8604_8609_8605_860C_85FD_8819),
  (0xF4C5, 0x8810_8811_8817_8813_8816_8963_8966_89B9_89F7_8B60_8B6A_8B5D),
  (0xF4D1, 0x8B68_8B63_8B65_8B67_8B6D_8DAE_8E86_8E88_8E84_8F59_8F56_8F57),
  (0xF4DD, 0x8F55_8F58_8F5A_908D_9143_9141_91B7_91B5_91B2_91B3_940B_9413),
  (0xF4E9, 0x93FB_9420_940F_9414_93FE_9415_9410_9428_9419_940D_93F5_9400),
  (0xF4F5, 0x93F7_9407_940E_9416_9412_93FA_9409_93F8_940A_93FF),
  (0xF540, 0x93FC_940C_93F6_9411_9406_95DE_95E0_95DF_972E_972F_97B9_97BB),
  (0xF54C, 0x97FD_97FE_9860_9862_9863_985F_98C1_98C2_9950_994E_9959_994C),
  (0xF558, 0x994B_9953_9A32_9A34_9A31_9A2C_9A2A_9A36_9A29_9A2E_9A38_9A2D),
  (0xF564, 0x9AC7_9ACA_9AC6_9B10_9B12_9B11_9C0B_9C08_9BF7_9C05_9C12_9BF8),
  (0xF570, 0x9C40_9C07_9C0E_9C06_9C17_9C14_9C09_9D9F_9D99_9DA4_9D9D_9D92),
  (0xF57C, 0x9D98_9D90_9D9B),
  (0xF5A1, 0x9DA0_9D94_9D9C_9DAA_9D97_9DA1_9D9A_9DA2_9DA8_9D9E_9DA3_9DBF),
  (0xF5AD, 0x9DA9_9D96_9DA6_9DA7_9E99_9E9B_9E9A_9EE5_9EE4_9EE7_9EE6_9F30),
  (0xF5B9, 0x9F2E_9F5B_9F60_9F5E_9F5D_9F59_9F91_513A_5139_5298_5297_56C3),
  (0xF5C5, 0x56BD_56BE_5B48_5B47_5DCB_5DCF_5EF1_61FD_651B_6B02_6AFC_6B03),
  (0xF5D1, 0x6AF8_6B00_7043_7044_704A_7048_7049_7045_7046_721D_721A_7219),
  (0xF5DD, 0x737E_7517_766A_77D0_792D_7931_792F_7C54_7C53_7CF2_7E8A_7E87),
  (0xF5E9, 0x7E88_7E8B_7E86_7E8D_7F4D_7FBB_8030_81DD_8618_862A_8626_861F),
  (0xF5F5, 0x8623_861C_8619_8627_862E_8621_8620_8629_861E_8625),
  (0xF640, 0x8829_881D_881B_8820_8824_881C_882B_884A_896D_8969_896E_896B),
  (0xF64C, 0x89FA_8B79_8B78_8B45_8B7A_8B7B_8D10_8D14_8DAF_8E8E_8E8C_8F5E),
  (0xF658, 0x8F5B_8F5D_9146_9144_9145_91B9_943F_943B_9436_9429_943D_943C),
  (0xF664, 0x9430_9439_942A_9437_942C_9440_9431_95E5_95E4_95E3_9735_973A),
  (0xF670, 0x97BF_97E1_9864_98C9_98C6_98C0_9958_9956_9A39_9A3D_9A46_9A44),
  (0xF67C, 0x9A42_9A41_9A3A),
  (0xF6A1, 0x9A3F_9ACD_9B15_9B17_9B18_9B16_9B3A_9B52_9C2B_9C1D_9C1C_9C2C),
  (0xF6AD, 0x9C23_9C28_9C29_9C24_9C21_9DB7_9DB6_9DBC_9DC1_9DC7_9DCA_9DCF),
  (0xF6B9, 0x9DBE_9DC5_9DC3_9DBB_9DB5_9DCE_9DB9_9DBA_9DAC_9DC8_9DB1_9DAD),
  (0xF6C5, 0x9DCC_9DB3_9DCD_9DB2_9E7A_9E9C_9EEB_9EEE_9EED_9F1B_9F18_9F1A),
  (0xF6D1, 0x9F31_9F4E_9F65_9F64_9F92_4EB9_56C6_56C5_56CB_5971_5B4B_5B4C),
  (0xF6DD, 0x5DD5_5DD1_5EF2_6521_6520_6526_6522_6B0B_6B08_6B09_6C0D_7055),
  (0xF6E9, 0x7056_7057_7052_721E_721F_72A9_737F_74D8_74D5_74D9_74D7_766D),
  (0xF6F5, 0x76AD_7935_79B4_7A70_7A71_7C57_7C5C_7C59_7C5B_7C5A),
  (0xF740, 0x7CF4_7CF1_7E91_7F4F_7F87_81DE_826B_8634_8635_8633_862C_8632),
  (0xF74C, 0x8636_882C_8828_8826_882A_8825_8971_89BF_89BE_89FB_8B7E_8B84),
  (0xF758, 0x8B82_8B86_8B85_8B7F_8D15_8E95_8E94_8E9A_8E92_8E90_8E96_8E97),
  (0xF764, 0x8F60_8F62_9147_944C_9450_944A_944B_944F_9447_9445_9448_9449),
  (0xF770, 0x9446_973F_97E3_986A_9869_98CB_9954_995B_9A4E_9A53_9A54_9A4C),
  (0xF77C, 0x9A4F_9A48_9A4A),
  (0xF7A1, 0x9A49_9A52_9A50_9AD0_9B19_9B2B_9B3B_9B56_9B55_9C46_9C48_9C3F),
  (0xF7AD, 0x9C44_9C39_9C33_9C41_9C3C_9C37_9C34_9C32_9C3D_9C36_9DDB_9DD2),
  (0xF7B9, 0x9DDE_9DDA_9DCB_9DD0_9DDC_9DD1_9DDF_9DE9_9DD9_9DD8_9DD6_9DF5),
  (0xF7C5, 0x9DD5_9DDD_9EB6_9EF0_9F35_9F33_9F32_9F42_9F6B_9F95_9FA2_513D),
  (0xF7D1, 0x5299_58E8_58E7_5972_5B4D_5DD8_882F_5F4F_6201_6203_6204_6529),
  (0xF7DD, 0x6525_6596_66EB_6B11_6B12_6B0F_6BCA_705B_705A_7222_7382_7381),
  (0xF7E9, 0x7383_7670_77D4_7C67_7C66_7E95_826C_863A_8640_8639_863C_8631),
  (0xF7F5, 0x863B_863E_8830_8832_882E_8833_8976_8974_8973_89FE),
  (0xF840, 0x8B8C_8B8E_8B8B_8B88_8C45_8D19_8E98_8F64_8F63_91BC_9462_9455),
  (0xF84C, 0x945D_9457_945E_97C4_97C5_9800_9A56_9A59_9B1E_9B1F_9B20_9C52),
  (0xF858, 0x9C58_9C50_9C4A_9C4D_9C4B_9C55_9C59_9C4C_9C4E_9DFB_9DF7_9DEF),
  (0xF864, 0x9DE3_9DEB_9DF8_9DE4_9DF6_9DE1_9DEE_9DE6_9DF2_9DF0_9DE2_9DEC),
  (0xF870, 0x9DF4_9DF3_9DE8_9DED_9EC2_9ED0_9EF2_9EF3_9F06_9F1C_9F38_9F37),
  (0xF87C, 0x9F36_9F43_9F4F),
  (0xF8A1, 0x9F71_9F70_9F6E_9F6F_56D3_56CD_5B4E_5C6D_652D_66ED_66EE_6B13),
  (0xF8AD, 0x705F_7061_705D_7060_7223_74DB_74E5_77D5_7938_79B7_79B6_7C6A),
  (0xF8B9, 0x7E97_7F89_826D_8643_8838_8837_8835_884B_8B94_8B95_8E9E_8E9F),
  (0xF8C5, 0x8EA0_8E9D_91BE_91BD_91C2_946B_9468_9469_96E5_9746_9743_9747),
  (0xF8D1, 0x97C7_97E5_9A5E_9AD5_9B59_9C63_9C67_9C66_9C62_9C5E_9C60_9E02),
  (0xF8DD, 0x9DFE_9E07_9E03_9E06_9E05_9E00_9E01_9E09_9DFF_9DFD_9E04_9EA0),
  (0xF8E9, 0x9F1E_9F46_9F74_9F75_9F76_56D4_652E_65B8_6B18_6B19_6B17_6B1A),
  (0xF8F5, 0x7062_7226_72AA_77D8_77D9_7939_7C69_7C6B_7CF6_7E9A),
  (0xF940, 0x7E98_7E9B_7E99_81E0_81E1_8646_8647_8648_8979_897A_897C_897B),
  (0xF94C, 0x89FF_8B98_8B99_8EA5_8EA4_8EA3_946E_946D_946F_9471_9473_9749),
  (0xF958, 0x9872_995F_9C68_9C6E_9C6D_9E0B_9E0D_9E10_9E0F_9E12_9E11_9EA1),
  (0xF964, 0x9EF5_9F09_9F47_9F78_9F7B_9F7A_9F79_571E_7066_7C6F_883C_8DB2),
  (0xF970, 0x8EA6_91C3_9474_9478_9476_9475_9A60_9C74_9C73_9C71_9C75_9E14),
  (0xF97C, 0x9E13_9EF6_9F0A),
  (0xF9A1, 0x9FA4_7068_7065_7CF7_866A_883E_883D_883F_8B9E_8C9C_8EA9_8EC9),
  (0xF9AD, 0x974B_9873_9874_98CC_9961_99AB_9A64_9A66_9A67_9B24_9E15_9E17),
  (0xF9B9, 0x9F48_6207_6B1E_7227_864C_8EA8_9482_9480_9481_9A69_9A68_9B2E),
  (0xF9C5, 0x9E19_7229_864B_8B9F_9483_9C79_9EB7_7675_9A6B_9C7A_9E1D_7069),
  (0xF9D1, 0x706A_9EA4_9F7E_9F49_9F98_7881_92B9_88CF_58BB_6052_7CA7_5AFA),
  (0xF9DD, 0x2554_2566_2557_2560_256C_2563_255A_2569_255D_2552_2564_2555),
  (0xF9E9, 0x255E_256A_2561_2558_2567_255B_2553_2565_2556_255F_256B_2562),
  (0xF9F5, 0x2559_2568_255C_2551_2550_2554_2557_255A_255D_2593),
  (0xFA40, 0xE000_E001_E002_E003_E004_E005_E006_E007_E008_E009_E00A_E00B),
  (0xFA4C, 0xE00C_E00D_E00E_E00F_E010_E011_E012_E013_E014_E015_E016_E017),
  (0xFA58, 0xE018_E019_E01A_E01B_E01C_E01D_E01E_E01F_E020_E021_E022_E023),
  (0xFA64, 0xE024_E025_E026_E027_E028_E029_E02A_E02B_E02C_E02D_E02E_E02F),
  (0xFA70, 0xE030_E031_E032_E033_E034_E035_E036_E037_E038_E039_E03A_E03B),
  (0xFA7C, 0xE03C_E03D_E03E),
  (0xFAA1, 0xE03F_E040_E041_E042_E043_E044_E045_E046_E047_E048_E049_E04A),
  (0xFAAD, 0xE04B_E04C_E04D_E04E_E04F_E050_E051_E052_E053_E054_E055_E056),
  (0xFAB9, 0xE057_E058_E059_E05A_E05B_E05C_E05D_E05E_E05F_E060_E061_E062),
  (0xFAC5, 0xE063_E064_E065_E066_E067_E068_E069_E06A_E06B_E06C_E06D_E06E),
  (0xFAD1, 0xE06F_E070_E071_E072_E073_E074_E075_E076_E077_E078_E079_E07A),
  (0xFADD, 0xE07B_E07C_E07D_E07E_E07F_E080_E081_E082_E083_E084_E085_E086),
  (0xFAE9, 0xE087_E088_E089_E08A_E08B_E08C_E08D_E08E_E08F_E090_E091_E092),
  (0xFAF5, 0xE093_E094_E095_E096_E097_E098_E099_E09A_E09B_E09C),
  (0xFB40, 0xE09D_E09E_E09F_E0A0_E0A1_E0A2_E0A3_E0A4_E0A5_E0A6_E0A7_E0A8),
  (0xFB4C, 0xE0A9_E0AA_E0AB_E0AC_E0AD_E0AE_E0AF_E0B0_E0B1_E0B2_E0B3_E0B4),
  (0xFB58, 0xE0B5_E0B6_E0B7_E0B8_E0B9_E0BA_E0BB_E0BC_E0BD_E0BE_E0BF_E0C0),
  (0xFB64, 0xE0C1_E0C2_E0C3_E0C4_E0C5_E0C6_E0C7_E0C8_E0C9_E0CA_E0CB_E0CC),
  (0xFB70, 0xE0CD_E0CE_E0CF_E0D0_E0D1_E0D2_E0D3_E0D4_E0D5_E0D6_E0D7_E0D8),
  (0xFB7C, 0xE0D9_E0DA_E0DB),
  (0xFBA1, 0xE0DC_E0DD_E0DE_E0DF_E0E0_E0E1_E0E2_E0E3_E0E4_E0E5_E0E6_E0E7),
  (0xFBAD, 0xE0E8_E0E9_E0EA_E0EB_E0EC_E0ED_E0EE_E0EF_E0F0_E0F1_E0F2_E0F3),
  (0xFBB9, 0xE0F4_E0F5_E0F6_E0F7_E0F8_E0F9_E0FA_E0FB_E0FC_E0FD_E0FE_E0FF),
  (0xFBC5, 0xE100_E101_E102_E103_E104_E105_E106_E107_E108_E109_E10A_E10B),
  (0xFBD1, 0xE10C_E10D_E10E_E10F_E110_E111_E112_E113_E114_E115_E116_E117),
  (0xFBDD, 0xE118_E119_E11A_E11B_E11C_E11D_E11E_E11F_E120_E121_E122_E123),
  (0xFBE9, 0xE124_E125_E126_E127_E128_E129_E12A_E12B_E12C_E12D_E12E_E12F),
  (0xFBF5, 0xE130_E131_E132_E133_E134_E135_E136_E137_E138_E139),
  (0xFC40, 0xE13A_E13B_E13C_E13D_E13E_E13F_E140_E141_E142_E143_E144_E145),
  (0xFC4C, 0xE146_E147_E148_E149_E14A_E14B_E14C_E14D_E14E_E14F_E150_E151),
  (0xFC58, 0xE152_E153_E154_E155_E156_E157_E158_E159_E15A_E15B_E15C_E15D),
  (0xFC64, 0xE15E_E15F_E160_E161_E162_E163_E164_E165_E166_E167_E168_E169),
  (0xFC70, 0xE16A_E16B_E16C_E16D_E16E_E16F_E170_E171_E172_E173_E174_E175),
  (0xFC7C, 0xE176_E177_E178),
  (0xFCA1, 0xE179_E17A_E17B_E17C_E17D_E17E_E17F_E180_E181_E182_E183_E184),
  (0xFCAD, 0xE185_E186_E187_E188_E189_E18A_E18B_E18C_E18D_E18E_E18F_E190),
  (0xFCB9, 0xE191_E192_E193_E194_E195_E196_E197_E198_E199_E19A_E19B_E19C),
  (0xFCC5, 0xE19D_E19E_E19F_E1A0_E1A1_E1A2_E1A3_E1A4_E1A5_E1A6_E1A7_E1A8),
  (0xFCD1, 0xE1A9_E1AA_E1AB_E1AC_E1AD_E1AE_E1AF_E1B0_E1B1_E1B2_E1B3_E1B4),
  (0xFCDD, 0xE1B5_E1B6_E1B7_E1B8_E1B9_E1BA_E1BB_E1BC_E1BD_E1BE_E1BF_E1C0),
  (0xFCE9, 0xE1C1_E1C2_E1C3_E1C4_E1C5_E1C6_E1C7_E1C8_E1C9_E1CA_E1CB_E1CC),
  (0xFCF5, 0xE1CD_E1CE_E1CF_E1D0_E1D1_E1D2_E1D3_E1D4_E1D5_E1D6),
  (0xFD40, 0xE1D7_E1D8_E1D9_E1DA_E1DB_E1DC_E1DD_E1DE_E1DF_E1E0_E1E1_E1E2),
  (0xFD4C, 0xE1E3_E1E4_E1E5_E1E6_E1E7_E1E8_E1E9_E1EA_E1EB_E1EC_E1ED_E1EE),
  (0xFD58, 0xE1EF_E1F0_E1F1_E1F2_E1F3_E1F4_E1F5_E1F6_E1F7_E1F8_E1F9_E1FA),
  (0xFD64, 0xE1FB_E1FC_E1FD_E1FE_E1FF_E200_E201_E202_E203_E204_E205_E206),
  (0xFD70, 0xE207_E208_E209_E20A_E20B_E20C_E20D_E20E_E20F_E210_E211_E212),
  (0xFD7C, 0xE213_E214_E215),
  (0xFDA1, 0xE216_E217_E218_E219_E21A_E21B_E21C_E21D_E21E_E21F_E220_E221),
  (0xFDAD, 0xE222_E223_E224_E225_E226_E227_E228_E229_E22A_E22B_E22C_E22D),
  (0xFDB9, 0xE22E_E22F_E230_E231_E232_E233_E234_E235_E236_E237_E238_E239),
  (0xFDC5, 0xE23A_E23B_E23C_E23D_E23E_E23F_E240_E241_E242_E243_E244_E245),
  (0xFDD1, 0xE246_E247_E248_E249_E24A_E24B_E24C_E24D_E24E_E24F_E250_E251),
  (0xFDDD, 0xE252_E253_E254_E255_E256_E257_E258_E259_E25A_E25B_E25C_E25D),
  (0xFDE9, 0xE25E_E25F_E260_E261_E262_E263_E264_E265_E266_E267_E268_E269),
  (0xFDF5, 0xE26A_E26B_E26C_E26D_E26E_E26F_E270_E271_E272_E273),
  (0xFE40, 0xE274_E275_E276_E277_E278_E279_E27A_E27B_E27C_E27D_E27E_E27F),
  (0xFE4C, 0xE280_E281_E282_E283_E284_E285_E286_E287_E288_E289_E28A_E28B),
  (0xFE58, 0xE28C_E28D_E28E_E28F_E290_E291_E292_E293_E294_E295_E296_E297),
  (0xFE64, 0xE298_E299_E29A_E29B_E29C_E29D_E29E_E29F_E2A0_E2A1_E2A2_E2A3),
  (0xFE70, 0xE2A4_E2A5_E2A6_E2A7_E2A8_E2A9_E2AA_E2AB_E2AC_E2AD_E2AE_E2AF),
  (0xFE7C, 0xE2B0_E2B1_E2B2),
  (0xFEA1, 0xE2B3_E2B4_E2B5_E2B6_E2B7_E2B8_E2B9_E2BA_E2BB_E2BC_E2BD_E2BE),
  (0xFEAD, 0xE2BF_E2C0_E2C1_E2C2_E2C3_E2C4_E2C5_E2C6_E2C7_E2C8_E2C9_E2CA),
  (0xFEB9, 0xE2CB_E2CC_E2CD_E2CE_E2CF_E2D0_E2D1_E2D2_E2D3_E2D4_E2D5_E2D6),
  (0xFEC5, 0xE2D7_E2D8_E2D9_E2DA_E2DB_E2DC_E2DD_E2DE_E2DF_E2E0_E2E1_E2E2),
  (0xFED1, 0xE2E3_E2E4_E2E5_E2E6_E2E7_E2E8_E2E9_E2EA_E2EB_E2EC_E2ED_E2EE),
  (0xFEDD, 0xE2EF_E2F0_E2F1_E2F2_E2F3_E2F4_E2F5_E2F6_E2F7_E2F8_E2F9_E2FA),
  (0xFEE9, 0xE2FB_E2FC_E2FD_E2FE_E2FF_E300_E301_E302_E303_E304_E305_E306),
  (0xFEF5, 0xE307_E308_E309_E30A_E30B_E30C_E30D_E30E_E30F_E310)]

/-- /repo/modules/from/_BIG5-2003.txt; there is no file for writing. -/
def big52003 : Charset where
  reads := big52003Reads
  writes := []

/-- The rules of /repo/modules/from/_BIG5-ETEN.txt: code, character.  No two lines have the same code, so their order does not matter; here they
are sorted. -/
def big5EtenReads : Chart := [
  (0xA140, [0x3000, 0xFF0C, 0x3001, 0x3002, 0xFF0E, 0x2027, 0xFF1B, 0xFF1A, 0xFF1F, 0xFF01, 0xFE30, 0x2026]),
  (0xA14C, [0x2025, 0xFE50, 0xFE51, 0xFE52, 0xB7, 0xFE54, 0xFE55, 0xFE56, 0xFE57, 0xFF5C, 0x2013, 0xFE31]),
  (0xA158, [0x2014, 0xFE33, 0x2574, 0xFE34, 0xFE4F, 0xFF08, 0xFF09, 0xFE35, 0xFE36, 0xFF5B, 0xFF5D, 0xFE37]),
  (0xA164, [0xFE38, 0x3014, 0x3015, 0xFE39, 0xFE3A, 0x3010, 0x3011, 0xFE3B, 0xFE3C, 0x300A, 0x300B, 0xFE3D]),
  (0xA170, [0xFE3E, 0x3008, 0x3009, 0xFE3F, 0xFE40, 0x300C, 0x300D, 0xFE41, 0xFE42, 0x300E, 0x300F, 0xFE43]),
  (0xA17C, [0xFE44, 0xFE59, 0xFE5A]),
  (0xA1A1, [0xFE5B, 0xFE5C, 0xFE5D, 0xFE5E, 0x2018, 0x2019, 0x201C, 0x201D, 0x301D, 0x301E, 0x2035, 0x2032]),
  (0xA1AD, [0xFF03, 0xFF06, 0xFF0A, 0x203B, 0xA7, 0x3003, 0x25CB, 0x25CF, 0x25B3, 0x25B2, 0x25CE, 0x2606]),
  (0xA1B9, [0x2605, 0x25C7, 0x25C6, 0x25A1, 0x25A0, 0x25BD, 0x25BC, 0x32A3, 0x2105, 0xAF, 0xFFE3, 0xFF3F]),
  (0xA1C5, [0x2CD, 0xFE49, 0xFE4A, 0xFE4D, 0xFE4E, 0xFE4B, 0xFE4C, 0xFE5F, 0xFE60, 0xFE61, 0xFF0B, 0xFF0D]),
  (0xA1D1, [0xD7, 0xF7, 0xB1, 0x221A, 0xFF1C, 0xFF1E, 0xFF1D, 0x2266, 0x2267, 0x2260, 0x221E, 0x2252]),
  (0xA1DD, [0x2261, 0xFE62, 0xFE63, 0xFE64, 0xFE65, 0xFE66, 0xFF5E, 0x2229, 0x222A, 0x22A5, 0x2220, 0x221F]),
  (0xA1E9, [0x22BF, 0x33D2, 0x33D1, 0x222B, 0x222E, 0x2235, 0x2234, 0x2640, 0x2642, 0x2295, 0x2299, 0x2191]),
  (0xA1F5, [0x2193, 0x2190, 0x2192, 0x2196, 0x2197, 0x2199, 0x2198, 0x2225, 0x2223, 0xFF0F]),
  (0xA240, [0xFF3C, 0x2215, 0xFE68, 0xFF04, 0xFFE5, 0x3012, 0xFFE0, 0xFFE1, 0xFF05, 0xFF20, 0x2103, 0x2109]),
  (0xA24C, [0xFE69, 0xFE6A, 0xFE6B, 0x33D5, 0x339C, 0x339D, 0x339E, 0x33CE, 0x33A1, 0x338E, 0x338F, 0x33C4]),
  (0xA258, [0xB0, 0x5159, 0x515B, 0x515E, 0x515D, 0x5161, 0x5163, 0x55E7, 0x74E9, 0x7CCE, 0x2581, 0x2582]),
  (0xA264, [0x2583, 0x2584, 0x2585, 0x2586, 0x2587, 0x2588, 0x258F, 0x258E, 0x258D, 0x258C, 0x258B, 0x258A]),
  (0xA270, [0x2589, 0x253C, 0x2534, 0x252C, 0x2524, 0x251C, 0x2594, 0x2500, 0x2502, 0x2595, 0x250C, 0x2510]),
  (0xA27C, [0x2514, 0x2518, 0x256D]),
  (0xA2A1, [0x256E, 0x2570, 0x256F, 0x2550, 0x255E, 0x256A, 0x2561, 0x25E2, 0x25E3, 0x25E5, 0x25E4, 0x2571]),
  (0xA2AD, [0x2572, 0x2573, 0xFF10, 0xFF11, 0xFF12, 0xFF13, 0xFF14, 0xFF15, 0xFF16, 0xFF17, 0xFF18, 0xFF19]),
  (0xA2B9, [0x2160, 0x2161, 0x2162, 0x2163, 0x2164, 0x2165, 0x2166, 0x2167, 0x2168, 0x2169, 0x3021, 0x3022]),
  (0xA2C5, [0x3023, 0x3024, 0x3025, 0x3026, 0x3027, 0x3028, 0x3029, 0x3038, 0x3039, 0x303A, 0xFF21, 0xFF22]),
  (0xA2D1, [0xFF23, 0xFF24, 0xFF25, 0xFF26, 0xFF27, 0xFF28, 0xFF29, 0xFF2A, 0xFF2B, 0xFF2C, 0xFF2D, 0xFF2E]),
  (0xA2DD, [0xFF2F, 0xFF30, 0xFF31, 0xFF32, 0xFF33, 0xFF34, 0xFF35, 0xFF36, 0xFF37, 0xFF38, 0xFF39, 0xFF3A]),
  (0xA2E9, [0xFF41, 0xFF42, 0xFF43, 0xFF44, 0xFF45, 0xFF46, 0xFF47, 0xFF48, 0xFF49, 0xFF4A, 0xFF4B, 0xFF4C]),
  (0xA2F5, [0xFF4D, 0xFF4E, 0xFF4F, 0xFF50, 0xFF51, 0xFF52, 0xFF53, 0xFF54, 0xFF55, 0xFF56]),
  (0xA340, [0xFF57, 0xFF58, 0xFF59, 0xFF5A, 0x391, 0x392, 0x393, 0x394, 0x395, 0x396, 0x397, 0x398]),
  (0xA34C, [0x399, 0x39A, 0x39B, 0x39C, 0x39D, 0x39E, 0x39F, 0x3A0, 0x3A1, 0x3A3, 0x3A4, 0x3A5]),
  (0xA358, [0x3A6, 0x3A7, 0x3A8, 0x3A9, 0x3B1, 0x3B2, 0x3B3, 0x3B4, 0x3B5, 0x3B6, 0x3B7, 0x3B8]),
  (0xA364, [0x3B9, 0x3BA, 0x3BB, 0x3BC, 0x3BD, 0x3BE, 0x3BF, 0x3C0, 0x3C1, 0x3C3, 0x3C4, 0x3C5]),
  (0xA370, [0x3C6, 0x3C7, 0x3C8, 0x3C9, 0x3105, 0x3106, 0x3107, 0x3108, 0x3109, 0x310A, 0x310B, 0x310C]),
  (0xA37C, [0x310D, 0x310E, 0x310F]),
  (0xA3A1, [0x3110, 0x3111, 0x3112, 0x3113, 0x3114, 0x3115, 0x3116, 0x3117, 0x3118, 0x3119, 0x311A, 0x311B]),
  (0xA3AD, [0x311C, 0x311D, 0x311E, 0x311F, 0x3120, 0x3121, 0x3122, 0x3123, 0x3124, 0x3125, 0x3126, 0x3127]),
  (0xA3B9, [0x3128, 0x3129, 0x2D9, 0x2C9, 0x2CA, 0x2C7, 0x2CB]),
  (0xA3E1, [0x20AC]),
  (0xA440, [0x4E00, 0x4E59, 0x4E01, 0x4E03, 0x4E43, 0x4E5D, 0x4E86, 0x4E8C, 0x4EBA, 0x513F, 0x5165, 0x516B]),
  (0xA44C, [0x51E0, 0x5200, 0x5201, 0x529B, 0x5315, 0x5341, 0x535C, 0x53C8, 0x4E09, 0x4E0B, 0x4E08, 0x4E0A]),
  (0xA458, [0x4E2B, 0x4E38, 0x51E1, 0x4E45, 0x4E48, 0x4E5F, 0x4E5E, 0x4E8E, 0x4EA1, 0x5140, 0x5203, 0x52FA]),
  (0xA464, [0x5343, 0x53C9, 0x53E3, 0x571F, 0x58EB, 0x5915, 0x5927, 0x5973, 0x5B50, 0x5B51, 0x5B53, 0x5BF8]),
  (0xA470, [0x5C0F, 0x5C22, 0x5C38, 0x5C71, 0x5DDD, 0x5DE5, 0x5DF1, 0x5DF2, 0x5DF3, 0x5DFE, 0x5E72, 0x5EFE]),
  (0xA47C, [0x5F0B, 0x5F13, 0x624D]),
  (0xA4A1, [0x4E11, 0x4E10, 0x4E0D, 0x4E2D, 0x4E30, 0x4E39, 0x4E4B, 0x5C39, 0x4E88, 0x4E91, 0x4E95, 0x4E92]),
  (0xA4AD, [0x4E94, 0x4EA2, 0x4EC1, 0x4EC0, 0x4EC3, 0x4EC6, 0x4EC7, 0x4ECD, 0x4ECA, 0x4ECB, 0x4EC4, 0x5143]),
  (0xA4B9, [0x5141, 0x5167, 0x516D, 0x516E, 0x516C, 0x5197, 0x51F6, 0x5206, 0x5207, 0x5208, 0x52FB, 0x52FE]),
  (0xA4C5, [0x52FF, 0x5316, 0x5339, 0x5348, 0x5347, 0x5345, 0x535E, 0x5384, 0x53CB, 0x53CA, 0x53CD, 0x58EC]),
  (0xA4D1, [0x5929, 0x592B, 0x592A, 0x592D, 0x5B54, 0x5C11, 0x5C24, 0x5C3A, 0x5C6F, 0x5DF4, 0x5E7B, 0x5EFF]),
  (0xA4DD, [0x5F14, 0x5F15, 0x5FC3, 0x6208, 0x6236, 0x624B, 0x624E, 0x652F, 0x6587, 0x6597, 0x65A4, 0x65B9]),
  (0xA4E9, [0x65E5, 0x66F0, 0x6708, 0x6728, 0x6B20, 0x6B62, 0x6B79, 0x6BCB, 0x6BD4, 0x6BDB, 0x6C0F, 0x6C34]),
  (0xA4F5, [0x706B, 0x722A, 0x7236, 0x723B, 0x7247, 0x7259, 0x725B, 0x72AC, 0x738B, 0x4E19]),
  (0xA540, [0x4E16, 0x4E15, 0x4E14, 0x4E18, 0x4E3B, 0x4E4D, 0x4E4F, 0x4E4E, 0x4EE5, 0x4ED8, 0x4ED4, 0x4ED5]),
  (0xA54C, [0x4ED6, 0x4ED7, 0x4EE3, 0x4EE4, 0x4ED9, 0x4EDE, 0x5145, 0x5144, 0x5189, 0x518A, 0x51AC, 0x51F9]),
  (0xA558, [0x51FA, 0x51F8, 0x520A, 0x52A0, 0x529F, 0x5305, 0x5306, 0x5317, 0x531D, 0x4EDF, 0x534A, 0x5349]),
  (0xA564, [0x5361, 0x5360, 0x536F, 0x536E, 0x53BB, 0x53EF, 0x53E4, 0x53F3, 0x53EC, 0x53EE, 0x53E9, 0x53E8]),
  (0xA570, [0x53FC, 0x53F8, 0x53F5, 0x53EB, 0x53E6, 0x53EA, 0x53F2, 0x53F1, 0x53F0, 0x53E5, 0x53ED, 0x53FB]),
  (0xA57C, [0x56DB, 0x56DA, 0x5916]),
  (0xA5A1, [0x592E, 0x5931, 0x5974, 0x5976, 0x5B55, 0x5B83, 0x5C3C, 0x5DE8, 0x5DE7, 0x5DE6, 0x5E02, 0x5E03]),
  (0xA5AD, [0x5E73, 0x5E7C, 0x5F01, 0x5F18, 0x5F17, 0x5FC5, 0x620A, 0x6253, 0x6254, 0x6252, 0x6251, 0x65A5]),
  (0xA5B9, [0x65E6, 0x672E, 0x672C, 0x672A, 0x672B, 0x672D, 0x6B63, 0x6BCD, 0x6C11, 0x6C10, 0x6C38, 0x6C41]),
  (0xA5C5, [0x6C40, 0x6C3E, 0x72AF, 0x7384, 0x7389, 0x74DC, 0x74E6, 0x7518, 0x751F, 0x7528, 0x7529, 0x7530]),
  (0xA5D1, [0x7531, 0x7532, 0x7533, 0x758B, 0x767D, 0x76AE, 0x76BF, 0x76EE, 0x77DB, 0x77E2, 0x77F3, 0x793A]),
  (0xA5DD, [0x79BE, 0x7A74, 0x7ACB, 0x4E1E, 0x4E1F, 0x4E52, 0x4E53, 0x4E69, 0x4E99, 0x4EA4, 0x4EA6, 0x4EA5]),
  (0xA5E9, [0x4EFF, 0x4F09, 0x4F19, 0x4F0A, 0x4F15, 0x4F0D, 0x4F10, 0x4F11, 0x4F0F, 0x4EF2, 0x4EF6, 0x4EFB]),
  (0xA5F5, [0x4EF0, 0x4EF3, 0x4EFD, 0x4F01, 0x4F0B, 0x5149, 0x5147, 0x5146, 0x5148, 0x5168]),
  (0xA640, [0x5171, 0x518D, 0x51B0, 0x5217, 0x5211, 0x5212, 0x520E, 0x5216, 0x52A3, 0x5308, 0x5321, 0x5320]),
  (0xA64C, [0x5370, 0x5371, 0x5409, 0x540F, 0x540C, 0x540A, 0x5410, 0x5401, 0x540B, 0x5404, 0x5411, 0x540D]),
  (0xA658, [0x5408, 0x5403, 0x540E, 0x5406, 0x5412, 0x56E0, 0x56DE, 0x56DD, 0x5733, 0x5730, 0x5728, 0x572D]),
  (0xA664, [0x572C, 0x572F, 0x5729, 0x5919, 0x591A, 0x5937, 0x5938, 0x5984, 0x5978, 0x5983, 0x597D, 0x5979]),
  (0xA670, [0x5982, 0x5981, 0x5B57, 0x5B58, 0x5B87, 0x5B88, 0x5B85, 0x5B89, 0x5BFA, 0x5C16, 0x5C79, 0x5DDE]),
  (0xA67C, [0x5E06, 0x5E76, 0x5E74]),
  (0xA6A1, [0x5F0F, 0x5F1B, 0x5FD9, 0x5FD6, 0x620E, 0x620C, 0x620D, 0x6210, 0x6263, 0x625B, 0x6258, 0x6536]),
  (0xA6AD, [0x65E9, 0x65E8, 0x65EC, 0x65ED, 0x66F2, 0x66F3, 0x6709, 0x673D, 0x6734, 0x6731, 0x6735, 0x6B21]),
  (0xA6B9, [0x6B64, 0x6B7B, 0x6C16, 0x6C5D, 0x6C57, 0x6C59, 0x6C5F, 0x6C60, 0x6C50, 0x6C55, 0x6C61, 0x6C5B]),
  (0xA6C5, [0x6C4D, 0x6C4E, 0x7070, 0x725F, 0x725D, 0x767E, 0x7AF9, 0x7C73, 0x7CF8, 0x7F36, 0x7F8A, 0x7FBD]),
  (0xA6D1, [0x8001, 0x8003, 0x800C, 0x8012, 0x8033, 0x807F, 0x8089, 0x808B, 0x808C, 0x81E3, 0x81EA, 0x81F3]),
  (0xA6DD, [0x81FC, 0x820C, 0x821B, 0x821F, 0x826E, 0x8272, 0x827E, 0x866B, 0x8840, 0x884C, 0x8863, 0x897F]),
  (0xA6E9, [0x9621, 0x4E32, 0x4EA8, 0x4F4D, 0x4F4F, 0x4F47, 0x4F57, 0x4F5E, 0x4F34, 0x4F5B, 0x4F55, 0x4F30]),
  (0xA6F5, [0x4F50, 0x4F51, 0x4F3D, 0x4F3A, 0x4F38, 0x4F43, 0x4F54, 0x4F3C, 0x4F46, 0x4F63]),
  (0xA740, [0x4F5C, 0x4F60, 0x4F2F, 0x4F4E, 0x4F36, 0x4F59, 0x4F5D, 0x4F48, 0x4F5A, 0x514C, 0x514B, 0x514D]),
  (0xA74C, [0x5175, 0x51B6, 0x51B7, 0x5225, 0x5224, 0x5229, 0x522A, 0x5228, 0x52AB, 0x52A9, 0x52AA, 0x52AC]),
  (0xA758, [0x5323, 0x5373, 0x5375, 0x541D, 0x542D, 0x541E, 0x543E, 0x5426, 0x544E, 0x5427, 0x5446, 0x5443]),
  (0xA764, [0x5433, 0x5448, 0x5442, 0x541B, 0x5429, 0x544A, 0x5439, 0x543B, 0x5438, 0x542E, 0x5435, 0x5436]),
  (0xA770, [0x5420, 0x543C, 0x5440, 0x5431, 0x542B, 0x541F, 0x542C, 0x56EA, 0x56F0, 0x56E4, 0x56EB, 0x574A]),
  (0xA77C, [0x5751, 0x5740, 0x574D]),
  (0xA7A1, [0x5747, 0x574E, 0x573E, 0x5750, 0x574F, 0x573B, 0x58EF, 0x593E, 0x599D, 0x5992, 0x59A8, 0x599E]),
  (0xA7AD, [0x59A3, 0x5999, 0x5996, 0x598D, 0x59A4, 0x5993, 0x598A, 0x59A5, 0x5B5D, 0x5B5C, 0x5B5A, 0x5B5B]),
  (0xA7B9, [0x5B8C, 0x5B8B, 0x5B8F, 0x5C2C, 0x5C40, 0x5C41, 0x5C3F, 0x5C3E, 0x5C90, 0x5C91, 0x5C94, 0x5C8C]),
  (0xA7C5, [0x5DEB, 0x5E0C, 0x5E8F, 0x5E87, 0x5E8A, 0x5EF7, 0x5F04, 0x5F1F, 0x5F64, 0x5F62, 0x5F77, 0x5F79]),
  (0xA7D1, [0x5FD8, 0x5FCC, 0x5FD7, 0x5FCD, 0x5FF1, 0x5FEB, 0x5FF8, 0x5FEA, 0x6212, 0x6211, 0x6284, 0x6297]),
  (0xA7DD, [0x6296, 0x6280, 0x6276, 0x6289, 0x626D, 0x628A, 0x627C, 0x627E, 0x6279, 0x6273, 0x6292, 0x626F]),
  (0xA7E9, [0x6298, 0x626E, 0x6295, 0x6293, 0x6291, 0x6286, 0x6539, 0x653B, 0x6538, 0x65F1, 0x66F4, 0x675F]),
  (0xA7F5, [0x674E, 0x674F, 0x6750, 0x6751, 0x675C, 0x6756, 0x675E, 0x6749, 0x6746, 0x6760]),
  (0xA840, [0x6753, 0x6757, 0x6B65, 0x6BCF, 0x6C42, 0x6C5E, 0x6C99, 0x6C81, 0x6C88, 0x6C89, 0x6C85, 0x6C9B]),
  (0xA84C, [0x6C6A, 0x6C7A, 0x6C90, 0x6C70, 0x6C8C, 0x6C68, 0x6C96, 0x6C92, 0x6C7D, 0x6C83, 0x6C72, 0x6C7E]),
  (0xA858, [0x6C74, 0x6C86, 0x6C76, 0x6C8D, 0x6C94, 0x6C98, 0x6C82, 0x7076, 0x707C, 0x707D, 0x7078, 0x7262]),
  (0xA864, [0x7261, 0x7260, 0x72C4, 0x72C2, 0x7396, 0x752C, 0x752B, 0x7537, 0x7538, 0x7682, 0x76EF, 0x77E3]),
  (0xA870, [0x79C1, 0x79C0, 0x79BF, 0x7A76, 0x7CFB, 0x7F55, 0x8096, 0x8093, 0x809D, 0x8098, 0x809B, 0x809A]),
  (0xA87C, [0x80B2, 0x826F, 0x8292]),
  (0xA8A1, [0x828B, 0x828D, 0x898B, 0x89D2, 0x8A00, 0x8C37, 0x8C46, 0x8C55, 0x8C9D, 0x8D64, 0x8D70, 0x8DB3]),
  (0xA8AD, [0x8EAB, 0x8ECA, 0x8F9B, 0x8FB0, 0x8FC2, 0x8FC6, 0x8FC5, 0x8FC4, 0x5DE1, 0x9091, 0x90A2, 0x90AA]),
  (0xA8B9, [0x90A6, 0x90A3, 0x9149, 0x91C6, 0x91CC, 0x9632, 0x962E, 0x9631, 0x962A, 0x962C, 0x4E26, 0x4E56]),
  (0xA8C5, [0x4E73, 0x4E8B, 0x4E9B, 0x4E9E, 0x4EAB, 0x4EAC, 0x4F6F, 0x4F9D, 0x4F8D, 0x4F73, 0x4F7F, 0x4F6C]),
  (0xA8D1, [0x4F9B, 0x4F8B, 0x4F86, 0x4F83, 0x4F70, 0x4F75, 0x4F88, 0x4F69, 0x4F7B, 0x4F96, 0x4F7E, 0x4F8F]),
  (0xA8DD, [0x4F91, 0x4F7A, 0x5154, 0x5152, 0x5155, 0x5169, 0x5177, 0x5176, 0x5178, 0x51BD, 0x51FD, 0x523B]),
  (0xA8E9, [0x5238, 0x5237, 0x523A, 0x5230, 0x522E, 0x5236, 0x5241, 0x52BE, 0x52BB, 0x5352, 0x5354, 0x5353]),
  (0xA8F5, [0x5351, 0x5366, 0x5377, 0x5378, 0x5379, 0x53D6, 0x53D4, 0x53D7, 0x5473, 0x5475]),
  (0xA940, [0x5496, 0x5478, 0x5495, 0x5480, 0x547B, 0x5477, 0x5484, 0x5492, 0x5486, 0x547C, 0x5490, 0x5471]),
  (0xA94C, [0x5476, 0x548C, 0x549A, 0x5462, 0x5468, 0x548B, 0x547D, 0x548E, 0x56FA, 0x5783, 0x5777, 0x576A]),
  (0xA958, [0x5769, 0x5761, 0x5766, 0x5764, 0x577C, 0x591C, 0x5949, 0x5947, 0x5948, 0x5944, 0x5954, 0x59BE]),
  (0xA964, [0x59BB, 0x59D4, 0x59B9, 0x59AE, 0x59D1, 0x59C6, 0x59D0, 0x59CD, 0x59CB, 0x59D3, 0x59CA, 0x59AF]),
  (0xA970, [0x59B3, 0x59D2, 0x59C5, 0x5B5F, 0x5B64, 0x5B63, 0x5B97, 0x5B9A, 0x5B98, 0x5B9C, 0x5B99, 0x5B9B]),
  (0xA97C, [0x5C1A, 0x5C48, 0x5C45]),
  (0xA9A1, [0x5C46, 0x5CB7, 0x5CA1, 0x5CB8, 0x5CA9, 0x5CAB, 0x5CB1, 0x5CB3, 0x5E18, 0x5E1A, 0x5E16, 0x5E15]),
  (0xA9AD, [0x5E1B, 0x5E11, 0x5E78, 0x5E9A, 0x5E97, 0x5E9C, 0x5E95, 0x5E96, 0x5EF6, 0x5F26, 0x5F27, 0x5F29]),
  (0xA9B9, [0x5F80, 0x5F81, 0x5F7F, 0x5F7C, 0x5FDD, 0x5FE0, 0x5FFD, 0x5FF5, 0x5FFF, 0x600F, 0x6014, 0x602F]),
  (0xA9C5, [0x6035, 0x6016, 0x602A, 0x6015, 0x6021, 0x6027, 0x6029, 0x602B, 0x601B, 0x6216, 0x6215, 0x623F]),
  (0xA9D1, [0x623E, 0x6240, 0x627F, 0x62C9, 0x62CC, 0x62C4, 0x62BF, 0x62C2, 0x62B9, 0x62D2, 0x62DB, 0x62AB]),
  (0xA9DD, [0x62D3, 0x62D4, 0x62CB, 0x62C8, 0x62A8, 0x62BD, 0x62BC, 0x62D0, 0x62D9, 0x62C7, 0x62CD, 0x62B5]),
  (0xA9E9, [0x62DA, 0x62B1, 0x62D8, 0x62D6, 0x62D7, 0x62C6, 0x62AC, 0x62CE, 0x653E, 0x65A7, 0x65BC, 0x65FA]),
  (0xA9F5, [0x6614, 0x6613, 0x660C, 0x6606, 0x6602, 0x660E, 0x6600, 0x660F, 0x6615, 0x660A]),
  (0xAA40, [0x6607, 0x670D, 0x670B, 0x676D, 0x678B, 0x6795, 0x6771, 0x679C, 0x6773, 0x6777, 0x6787, 0x679D]),
  (0xAA4C, [0x6797, 0x676F, 0x6770, 0x677F, 0x6789, 0x677E, 0x6790, 0x6775, 0x679A, 0x6793, 0x677C, 0x676A]),
  (0xAA58, [0x6772, 0x6B23, 0x6B66, 0x6B67, 0x6B7F, 0x6C13, 0x6C1B, 0x6CE3, 0x6CE8, 0x6CF3, 0x6CB1, 0x6CCC]),
  (0xAA64, [0x6CE5, 0x6CB3, 0x6CBD, 0x6CBE, 0x6CBC, 0x6CE2, 0x6CAB, 0x6CD5, 0x6CD3, 0x6CB8, 0x6CC4, 0x6CB9]),
  (0xAA70, [0x6CC1, 0x6CAE, 0x6CD7, 0x6CC5, 0x6CF1, 0x6CBF, 0x6CBB, 0x6CE1, 0x6CDB, 0x6CCA, 0x6CAC, 0x6CEF]),
  (0xAA7C, [0x6CDC, 0x6CD6, 0x6CE0]),
  (0xAAA1, [0x7095, 0x708E, 0x7092, 0x708A, 0x7099, 0x722C, 0x722D, 0x7238, 0x7248, 0x7267, 0x7269, 0x72C0]),
  (0xAAAD, [0x72CE, 0x72D9, 0x72D7, 0x72D0, 0x73A9, 0x73A8, 0x739F, 0x73AB, 0x73A5, 0x753D, 0x759D, 0x7599]),
  (0xAAB9, [0x759A, 0x7684, 0x76C2, 0x76F2, 0x76F4, 0x77E5, 0x77FD, 0x793E, 0x7940, 0x7941, 0x79C9, 0x79C8]),
  (0xAAC5, [0x7A7A, 0x7A79, 0x7AFA, 0x7CFE, 0x7F54, 0x7F8C, 0x7F8B, 0x8005, 0x80BA, 0x80A5, 0x80A2, 0x80B1]),
  (0xAAD1, [0x80A1, 0x80AB, 0x80A9, 0x80B4, 0x80AA, 0x80AF, 0x81E5, 0x81FE, 0x820D, 0x82B3, 0x829D, 0x8299]),
  (0xAADD, [0x82AD, 0x82BD, 0x829F, 0x82B9, 0x82B1, 0x82AC, 0x82A5, 0x82AF, 0x82B8, 0x82A3, 0x82B0, 0x82BE]),
  (0xAAE9, [0x82B7, 0x864E, 0x8671, 0x521D, 0x8868, 0x8ECB, 0x8FCE, 0x8FD4, 0x8FD1, 0x90B5, 0x90B8, 0x90B1]),
  (0xAAF5, [0x90B6, 0x91C7, 0x91D1, 0x9577, 0x9580, 0x961C, 0x9640, 0x963F, 0x963B, 0x9644]),
  (0xAB40, [0x9642, 0x96B9, 0x96E8, 0x9752, 0x975E, 0x4E9F, 0x4EAD, 0x4EAE, 0x4FE1, 0x4FB5, 0x4FAF, 0x4FBF]),
  (0xAB4C, [0x4FE0, 0x4FD1, 0x4FCF, 0x4FDD, 0x4FC3, 0x4FB6, 0x4FD8, 0x4FDF, 0x4FCA, 0x4FD7, 0x4FAE, 0x4FD0]),
  (0xAB58, [0x4FC4, 0x4FC2, 0x4FDA, 0x4FCE, 0x4FDE, 0x4FB7, 0x5157, 0x5192, 0x5191, 0x51A0, 0x524E, 0x5243]),
  (0xAB64, [0x524A, 0x524D, 0x524C, 0x524B, 0x5247, 0x52C7, 0x52C9, 0x52C3, 0x52C1, 0x530D, 0x5357, 0x537B]),
  (0xAB70, [0x539A, 0x53DB, 0x54AC, 0x54C0, 0x54A8, 0x54CE, 0x54C9, 0x54B8, 0x54A6, 0x54B3, 0x54C7, 0x54C2]),
  (0xAB7C, [0x54BD, 0x54AA, 0x54C1]),
  (0xABA1, [0x54C4, 0x54C8, 0x54AF, 0x54AB, 0x54B1, 0x54BB, 0x54A9, 0x54A7, 0x54BF, 0x56FF, 0x5782, 0x578B]),
  (0xABAD, [0x57A0, 0x57A3, 0x57A2, 0x57CE, 0x57AE, 0x5793, 0x5955, 0x5951, 0x594F, 0x594E, 0x5950, 0x59DC]),
  (0xABB9, [0x59D8, 0x59FF, 0x59E3, 0x59E8, 0x5A03, 0x59E5, 0x59EA, 0x59DA, 0x59E6, 0x5A01, 0x59FB, 0x5B69]),
  (0xABC5, [0x5BA3, 0x5BA6, 0x5BA4, 0x5BA2, 0x5BA5, 0x5C01, 0x5C4E, 0x5C4F, 0x5C4D, 0x5C4B, 0x5CD9, 0x5CD2]),
  (0xABD1, [0x5DF7, 0x5E1D, 0x5E25, 0x5E1F, 0x5E7D, 0x5EA0, 0x5EA6, 0x5EFA, 0x5F08, 0x5F2D, 0x5F65, 0x5F88]),
  (0xABDD, [0x5F85, 0x5F8A, 0x5F8B, 0x5F87, 0x5F8C, 0x5F89, 0x6012, 0x601D, 0x6020, 0x6025, 0x600E, 0x6028]),
  (0xABE9, [0x604D, 0x6070, 0x6068, 0x6062, 0x6046, 0x6043, 0x606C, 0x606B, 0x606A, 0x6064, 0x6241, 0x62DC]),
  (0xABF5, [0x6316, 0x6309, 0x62FC, 0x62ED, 0x6301, 0x62EE, 0x62FD, 0x6307, 0x62F1, 0x62F7]),
  (0xAC40, [0x62EF, 0x62EC, 0x62FE, 0x62F4, 0x6311, 0x6302, 0x653F, 0x6545, 0x65AB, 0x65BD, 0x65E2, 0x6625]),
  (0xAC4C, [0x662D, 0x6620, 0x6627, 0x662F, 0x661F, 0x6628, 0x6631, 0x6624, 0x66F7, 0x67FF, 0x67D3, 0x67F1]),
  (0xAC58, [0x67D4, 0x67D0, 0x67EC, 0x67B6, 0x67AF, 0x67F5, 0x67E9, 0x67EF, 0x67C4, 0x67D1, 0x67B4, 0x67DA]),
  (0xAC64, [0x67E5, 0x67B8, 0x67CF, 0x67DE, 0x67F3, 0x67B0, 0x67D9, 0x67E2, 0x67DD, 0x67D2, 0x6B6A, 0x6B83]),
  (0xAC70, [0x6B86, 0x6BB5, 0x6BD2, 0x6BD7, 0x6C1F, 0x6CC9, 0x6D0B, 0x6D32, 0x6D2A, 0x6D41, 0x6D25, 0x6D0C]),
  (0xAC7C, [0x6D31, 0x6D1E, 0x6D17]),
  (0xACA1, [0x6D3B, 0x6D3D, 0x6D3E, 0x6D36, 0x6D1B, 0x6CF5, 0x6D39, 0x6D27, 0x6D38, 0x6D29, 0x6D2E, 0x6D35]),
  (0xACAD, [0x6D0E, 0x6D2B, 0x70AB, 0x70BA, 0x70B3, 0x70AC, 0x70AF, 0x70AD, 0x70B8, 0x70AE, 0x70A4, 0x7230]),
  (0xACB9, [0x7272, 0x726F, 0x7274, 0x72E9, 0x72E0, 0x72E1, 0x73B7, 0x73CA, 0x73BB, 0x73B2, 0x73CD, 0x73C0]),
  (0xACC5, [0x73B3, 0x751A, 0x752D, 0x754F, 0x754C, 0x754E, 0x754B, 0x75AB, 0x75A4, 0x75A5, 0x75A2, 0x75A3]),
  (0xACD1, [0x7678, 0x7686, 0x7687, 0x7688, 0x76C8, 0x76C6, 0x76C3, 0x76C5, 0x7701, 0x76F9, 0x76F8, 0x7709]),
  (0xACDD, [0x770B, 0x76FE, 0x76FC, 0x7707, 0x77DC, 0x7802, 0x7814, 0x780C, 0x780D, 0x7946, 0x7949, 0x7948]),
  (0xACE9, [0x7947, 0x79B9, 0x79BA, 0x79D1, 0x79D2, 0x79CB, 0x7A7F, 0x7A81, 0x7AFF, 0x7AFD, 0x7C7D, 0x7D02]),
  (0xACF5, [0x7D05, 0x7D00, 0x7D09, 0x7D07, 0x7D04, 0x7D06, 0x7F38, 0x7F8E, 0x7FBF, 0x8004]),
  (0xAD40, [0x8010, 0x800D, 0x8011, 0x8036, 0x80D6, 0x80E5, 0x80DA, 0x80C3, 0x80C4, 0x80CC, 0x80E1, 0x80DB]),
  (0xAD4C, [0x80CE, 0x80DE, 0x80E4, 0x80DD, 0x81F4, 0x8222, 0x82E7, 0x8303, 0x8305, 0x82E3, 0x82DB, 0x82E6]),
  (0xAD58, [0x8304, 0x82E5, 0x8302, 0x8309, 0x82D2, 0x82D7, 0x82F1, 0x8301, 0x82DC, 0x82D4, 0x82D1, 0x82DE]),
  (0xAD64, [0x82D3, 0x82DF, 0x82EF, 0x8306, 0x8650, 0x8679, 0x867B, 0x867A, 0x884D, 0x886B, 0x8981, 0x89D4]),
  (0xAD70, [0x8A08, 0x8A02, 0x8A03, 0x8C9E, 0x8CA0, 0x8D74, 0x8D73, 0x8DB4, 0x8ECD, 0x8ECC, 0x8FF0, 0x8FE6]),
  (0xAD7C, [0x8FE2, 0x8FEA, 0x8FE5]),
  (0xADA1, [0x8FED, 0x8FEB, 0x8FE4, 0x8FE8, 0x90CA, 0x90CE, 0x90C1, 0x90C3, 0x914B, 0x914A, 0x91CD, 0x9582]),
  (0xADAD, [0x9650, 0x964B, 0x964C, 0x964D, 0x9762, 0x9769, 0x97CB, 0x97ED, 0x97F3, 0x9801, 0x98A8, 0x98DB]),
  (0xADB9, [0x98DF, 0x9996, 0x9999, 0x4E58, 0x4EB3, 0x500C, 0x500D, 0x5023, 0x4FEF, 0x5026, 0x5025, 0x4FF8]),
  (0xADC5, [0x5029, 0x5016, 0x5006, 0x503C, 0x501F, 0x501A, 0x5012, 0x5011, 0x4FFA, 0x5000, 0x5014, 0x5028]),
  (0xADD1, [0x4FF1, 0x5021, 0x500B, 0x5019, 0x5018, 0x4FF3, 0x4FEE, 0x502D, 0x502A, 0x4FFE, 0x502B, 0x5009]),
  (0xADDD, [0x517C, 0x51A4, 0x51A5, 0x51A2, 0x51CD, 0x51CC, 0x51C6, 0x51CB, 0x5256, 0x525C, 0x5254, 0x525B]),
  (0xADE9, [0x525D, 0x532A, 0x537F, 0x539F, 0x539D, 0x53DF, 0x54E8, 0x5510, 0x5501, 0x5537, 0x54FC, 0x54E5]),
  (0xADF5, [0x54F2, 0x5506, 0x54FA, 0x5514, 0x54E9, 0x54ED, 0x54E1, 0x5509, 0x54EE, 0x54EA]),
  (0xAE40, [0x54E6, 0x5527, 0x5507, 0x54FD, 0x550F, 0x5703, 0x5704, 0x57C2, 0x57D4, 0x57CB, 0x57C3, 0x5809]),
  (0xAE4C, [0x590F, 0x5957, 0x5958, 0x595A, 0x5A11, 0x5A18, 0x5A1C, 0x5A1F, 0x5A1B, 0x5A13, 0x59EC, 0x5A20]),
  (0xAE58, [0x5A23, 0x5A29, 0x5A25, 0x5A0C, 0x5A09, 0x5B6B, 0x5C58, 0x5BB0, 0x5BB3, 0x5BB6, 0x5BB4, 0x5BAE]),
  (0xAE64, [0x5BB5, 0x5BB9, 0x5BB8, 0x5C04, 0x5C51, 0x5C55, 0x5C50, 0x5CED, 0x5CFD, 0x5CFB, 0x5CEA, 0x5CE8]),
  (0xAE70, [0x5CF0, 0x5CF6, 0x5D01, 0x5CF4, 0x5DEE, 0x5E2D, 0x5E2B, 0x5EAB, 0x5EAD, 0x5EA7, 0x5F31, 0x5F92]),
  (0xAE7C, [0x5F91, 0x5F90, 0x6059]),
  (0xAEA1, [0x6063, 0x6065, 0x6050, 0x6055, 0x606D, 0x6069, 0x606F, 0x6084, 0x609F, 0x609A, 0x608D, 0x6094]),
  (0xAEAD, [0x608C, 0x6085, 0x6096, 0x6247, 0x62F3, 0x6308, 0x62FF, 0x634E, 0x633E, 0x632F, 0x6355, 0x6342]),
  (0xAEB9, [0x6346, 0x634F, 0x6349, 0x633A, 0x6350, 0x633D, 0x632A, 0x632B, 0x6328, 0x634D, 0x634C, 0x6548]),
  (0xAEC5, [0x6549, 0x6599, 0x65C1, 0x65C5, 0x6642, 0x6649, 0x664F, 0x6643, 0x6652, 0x664C, 0x6645, 0x6641]),
  (0xAED1, [0x66F8, 0x6714, 0x6715, 0x6717, 0x6821, 0x6838, 0x6848, 0x6846, 0x6853, 0x6839, 0x6842, 0x6854]),
  (0xAEDD, [0x6829, 0x68B3, 0x6817, 0x684C, 0x6851, 0x683D, 0x67F4, 0x6850, 0x6840, 0x683C, 0x6843, 0x682A]),
  (0xAEE9, [0x6845, 0x6813, 0x6818, 0x6841, 0x6B8A, 0x6B89, 0x6BB7, 0x6C23, 0x6C27, 0x6C28, 0x6C26, 0x6C24]),
  (0xAEF5, [0x6CF0, 0x6D6A, 0x6D95, 0x6D88, 0x6D87, 0x6D66, 0x6D78, 0x6D77, 0x6D59, 0x6D93]),
  (0xAF40, [0x6D6C, 0x6D89, 0x6D6E, 0x6D5A, 0x6D74, 0x6D69, 0x6D8C, 0x6D8A, 0x6D79, 0x6D85, 0x6D65, 0x6D94]),
  (0xAF4C, [0x70CA, 0x70D8, 0x70E4, 0x70D9, 0x70C8, 0x70CF, 0x7239, 0x7279, 0x72FC, 0x72F9, 0x72FD, 0x72F8]),
  (0xAF58, [0x72F7, 0x7386, 0x73ED, 0x7409, 0x73EE, 0x73E0, 0x73EA, 0x73DE, 0x7554, 0x755D, 0x755C, 0x755A]),
  (0xAF64, [0x7559, 0x75BE, 0x75C5, 0x75C7, 0x75B2, 0x75B3, 0x75BD, 0x75BC, 0x75B9, 0x75C2, 0x75B8, 0x768B]),
  (0xAF70, [0x76B0, 0x76CA, 0x76CD, 0x76CE, 0x7729, 0x771F, 0x7720, 0x7728, 0x77E9, 0x7830, 0x7827, 0x7838]),
  (0xAF7C, [0x781D, 0x7834, 0x7837]),
  (0xAFA1, [0x7825, 0x782D, 0x7820, 0x781F, 0x7832, 0x7955, 0x7950, 0x7960, 0x795F, 0x7956, 0x795E, 0x795D]),
  (0xAFAD, [0x7957, 0x795A, 0x79E4, 0x79E3, 0x79E7, 0x79DF, 0x79E6, 0x79E9, 0x79D8, 0x7A84, 0x7A88, 0x7AD9]),
  (0xAFB9, [0x7B06, 0x7B11, 0x7C89, 0x7D21, 0x7D17, 0x7D0B, 0x7D0A, 0x7D20, 0x7D22, 0x7D14, 0x7D10, 0x7D15]),
  (0xAFC5, [0x7D1A, 0x7D1C, 0x7D0D, 0x7D19, 0x7D1B, 0x7F3A, 0x7F5F, 0x7F94, 0x7FC5, 0x7FC1, 0x8006, 0x8018]),
  (0xAFD1, [0x8015, 0x8019, 0x8017, 0x803D, 0x803F, 0x80F1, 0x8102, 0x80F0, 0x8105, 0x80ED, 0x80F4, 0x8106]),
  (0xAFDD, [0x80F8, 0x80F3, 0x8108, 0x80FD, 0x810A, 0x80FC, 0x80EF, 0x81ED, 0x81EC, 0x8200, 0x8210, 0x822A]),
  (0xAFE9, [0x822B, 0x8228, 0x822C, 0x82BB, 0x832B, 0x8352, 0x8354, 0x834A, 0x8338, 0x8350, 0x8349, 0x8335]),
  (0xAFF5, [0x8334, 0x834F, 0x8332, 0x8339, 0x8336, 0x8317, 0x8340, 0x8331, 0x8328, 0x8343]),
  (0xB040, [0x8654, 0x868A, 0x86AA, 0x8693, 0x86A4, 0x86A9, 0x868C, 0x86A3, 0x869C, 0x8870, 0x8877, 0x8881]),
  (0xB04C, [0x8882, 0x887D, 0x8879, 0x8A18, 0x8A10, 0x8A0E, 0x8A0C, 0x8A15, 0x8A0A, 0x8A17, 0x8A13, 0x8A16]),
  (0xB058, [0x8A0F, 0x8A11, 0x8C48, 0x8C7A, 0x8C79, 0x8CA1, 0x8CA2, 0x8D77, 0x8EAC, 0x8ED2, 0x8ED4, 0x8ECF]),
  (0xB064, [0x8FB1, 0x9001, 0x9006, 0x8FF7, 0x9000, 0x8FFA, 0x8FF4, 0x9003, 0x8FFD, 0x9005, 0x8FF8, 0x9095]),
  (0xB070, [0x90E1, 0x90DD, 0x90E2, 0x9152, 0x914D, 0x914C, 0x91D8, 0x91DD, 0x91D7, 0x91DC, 0x91D9, 0x9583]),
  (0xB07C, [0x9662, 0x9663, 0x9661]),
  (0xB0A1, [0x965B, 0x965D, 0x9664, 0x9658, 0x965E, 0x96BB, 0x98E2, 0x99AC, 0x9AA8, 0x9AD8, 0x9B25, 0x9B32]),
  (0xB0AD, [0x9B3C, 0x4E7E, 0x507A, 0x507D, 0x505C, 0x5047, 0x5043, 0x504C, 0x505A, 0x5049, 0x5065, 0x5076]),
  (0xB0B9, [0x504E, 0x5055, 0x5075, 0x5074, 0x5077, 0x504F, 0x500F, 0x506F, 0x506D, 0x515C, 0x5195, 0x51F0]),
  (0xB0C5, [0x526A, 0x526F, 0x52D2, 0x52D9, 0x52D8, 0x52D5, 0x5310, 0x530F, 0x5319, 0x533F, 0x5340, 0x533E]),
  (0xB0D1, [0x53C3, 0x66FC, 0x5546, 0x556A, 0x5566, 0x5544, 0x555E, 0x5561, 0x5543, 0x554A, 0x5531, 0x5556]),
  (0xB0DD, [0x554F, 0x5555, 0x552F, 0x5564, 0x5538, 0x552E, 0x555C, 0x552C, 0x5563, 0x5533, 0x5541, 0x5557]),
  (0xB0E9, [0x5708, 0x570B, 0x5709, 0x57DF, 0x5805, 0x580A, 0x5806, 0x57E0, 0x57E4, 0x57FA, 0x5802, 0x5835]),
  (0xB0F5, [0x57F7, 0x57F9, 0x5920, 0x5962, 0x5A36, 0x5A41, 0x5A49, 0x5A66, 0x5A6A, 0x5A40]),
  (0xB140, [0x5A3C, 0x5A62, 0x5A5A, 0x5A46, 0x5A4A, 0x5B70, 0x5BC7, 0x5BC5, 0x5BC4, 0x5BC2, 0x5BBF, 0x5BC6]),
  (0xB14C, [0x5C09, 0x5C08, 0x5C07, 0x5C60, 0x5C5C, 0x5C5D, 0x5D07, 0x5D06, 0x5D0E, 0x5D1B, 0x5D16, 0x5D22]),
  (0xB158, [0x5D11, 0x5D29, 0x5D14, 0x5D19, 0x5D24, 0x5D27, 0x5D17, 0x5DE2, 0x5E38, 0x5E36, 0x5E33, 0x5E37]),
  (0xB164, [0x5EB7, 0x5EB8, 0x5EB6, 0x5EB5, 0x5EBE, 0x5F35, 0x5F37, 0x5F57, 0x5F6C, 0x5F69, 0x5F6B, 0x5F97]),
  (0xB170, [0x5F99, 0x5F9E, 0x5F98, 0x5FA1, 0x5FA0, 0x5F9C, 0x607F, 0x60A3, 0x6089, 0x60A0, 0x60A8, 0x60CB]),
  (0xB17C, [0x60B4, 0x60E6, 0x60BD]),
  (0xB1A1, [0x60C5, 0x60BB, 0x60B5, 0x60DC, 0x60BC, 0x60D8, 0x60D5, 0x60C6, 0x60DF, 0x60B8, 0x60DA, 0x60C7]),
  (0xB1AD, [0x621A, 0x621B, 0x6248, 0x63A0, 0x63A7, 0x6372, 0x6396, 0x63A2, 0x63A5, 0x6377, 0x6367, 0x6398]),
  (0xB1B9, [0x63AA, 0x6371, 0x63A9, 0x6389, 0x6383, 0x639B, 0x636B, 0x63A8, 0x6384, 0x6388, 0x6399, 0x63A1]),
  (0xB1C5, [0x63AC, 0x6392, 0x638F, 0x6380, 0x637B, 0x6369, 0x6368, 0x637A, 0x655D, 0x6556, 0x6551, 0x6559]),
  (0xB1D1, [0x6557, 0x555F, 0x654F, 0x6558, 0x6555, 0x6554, 0x659C, 0x659B, 0x65AC, 0x65CF, 0x65CB, 0x65CC]),
  (0xB1DD, [0x65CE, 0x665D, 0x665A, 0x6664, 0x6668, 0x6666, 0x665E, 0x66F9, 0x52D7, 0x671B, 0x6881, 0x68AF]),
  (0xB1E9, [0x68A2, 0x6893, 0x68B5, 0x687F, 0x6876, 0x68B1, 0x68A7, 0x6897, 0x68B0, 0x6883, 0x68C4, 0x68AD]),
  (0xB1F5, [0x6886, 0x6885, 0x6894, 0x689D, 0x68A8, 0x689F, 0x68A1, 0x6882, 0x6B32, 0x6BBA]),
  (0xB240, [0x6BEB, 0x6BEC, 0x6C2B, 0x6D8E, 0x6DBC, 0x6DF3, 0x6DD9, 0x6DB2, 0x6DE1, 0x6DCC, 0x6DE4, 0x6DFB]),
  (0xB24C, [0x6DFA, 0x6E05, 0x6DC7, 0x6DCB, 0x6DAF, 0x6DD1, 0x6DAE, 0x6DDE, 0x6DF9, 0x6DB8, 0x6DF7, 0x6DF5]),
  (0xB258, [0x6DC5, 0x6DD2, 0x6E1A, 0x6DB5, 0x6DDA, 0x6DEB, 0x6DD8, 0x6DEA, 0x6DF1, 0x6DEE, 0x6DE8, 0x6DC6]),
  (0xB264, [0x6DC4, 0x6DAA, 0x6DEC, 0x6DBF, 0x6DE6, 0x70F9, 0x7109, 0x710A, 0x70FD, 0x70EF, 0x723D, 0x727D]),
  (0xB270, [0x7281, 0x731C, 0x731B, 0x7316, 0x7313, 0x7319, 0x7387, 0x7405, 0x740A, 0x7403, 0x7406, 0x73FE]),
  (0xB27C, [0x740D, 0x74E0, 0x74F6]),
  (0xB2A1, [0x74F7, 0x751C, 0x7522, 0x7565, 0x7566, 0x7562, 0x7570, 0x758F, 0x75D4, 0x75D5, 0x75B5, 0x75CA]),
  (0xB2AD, [0x75CD, 0x768E, 0x76D4, 0x76D2, 0x76DB, 0x7737, 0x773E, 0x773C, 0x7736, 0x7738, 0x773A, 0x786B]),
  (0xB2B9, [0x7843, 0x784E, 0x7965, 0x7968, 0x796D, 0x79FB, 0x7A92, 0x7A95, 0x7B20, 0x7B28, 0x7B1B, 0x7B2C]),
  (0xB2C5, [0x7B26, 0x7B19, 0x7B1E, 0x7B2E, 0x7C92, 0x7C97, 0x7C95, 0x7D46, 0x7D43, 0x7D71, 0x7D2E, 0x7D39]),
  (0xB2D1, [0x7D3C, 0x7D40, 0x7D30, 0x7D33, 0x7D44, 0x7D2F, 0x7D42, 0x7D32, 0x7D31, 0x7F3D, 0x7F9E, 0x7F9A]),
  (0xB2DD, [0x7FCC, 0x7FCE, 0x7FD2, 0x801C, 0x804A, 0x8046, 0x812F, 0x8116, 0x8123, 0x812B, 0x8129, 0x8130]),
  (0xB2E9, [0x8124, 0x8202, 0x8235, 0x8237, 0x8236, 0x8239, 0x838E, 0x839E, 0x8398, 0x8378, 0x83A2, 0x8396]),
  (0xB2F5, [0x83BD, 0x83AB, 0x8392, 0x838A, 0x8393, 0x8389, 0x83A0, 0x8377, 0x837B, 0x837C]),
  (0xB340, [0x8386, 0x83A7, 0x8655, 0x5F6A, 0x86C7, 0x86C0, 0x86B6, 0x86C4, 0x86B5, 0x86C6, 0x86CB, 0x86B1]),
  (0xB34C, [0x86AF, 0x86C9, 0x8853, 0x889E, 0x8888, 0x88AB, 0x8892, 0x8896, 0x888D, 0x888B, 0x8993, 0x898F]),
  (0xB358, [0x8A2A, 0x8A1D, 0x8A23, 0x8A25, 0x8A31, 0x8A2D, 0x8A1F, 0x8A1B, 0x8A22, 0x8C49, 0x8C5A, 0x8CA9]),
  (0xB364, [0x8CAC, 0x8CAB, 0x8CA8, 0x8CAA, 0x8CA7, 0x8D67, 0x8D66, 0x8DBE, 0x8DBA, 0x8EDB, 0x8EDF, 0x9019]),
  (0xB370, [0x900D, 0x901A, 0x9017, 0x9023, 0x901F, 0x901D, 0x9010, 0x9015, 0x901E, 0x9020, 0x900F, 0x9022]),
  (0xB37C, [0x9016, 0x901B, 0x9014]),
  (0xB3A1, [0x90E8, 0x90ED, 0x90FD, 0x9157, 0x91CE, 0x91F5, 0x91E6, 0x91E3, 0x91E7, 0x91ED, 0x91E9, 0x9589]),
  (0xB3AD, [0x966A, 0x9675, 0x9673, 0x9678, 0x9670, 0x9674, 0x9676, 0x9677, 0x966C, 0x96C0, 0x96EA, 0x96E9]),
  (0xB3B9, [0x7AE0, 0x7ADF, 0x9802, 0x9803, 0x9B5A, 0x9CE5, 0x9E75, 0x9E7F, 0x9EA5, 0x9EBB, 0x50A2, 0x508D]),
  (0xB3C5, [0x5085, 0x5099, 0x5091, 0x5080, 0x5096, 0x5098, 0x509A, 0x6700, 0x51F1, 0x5272, 0x5274, 0x5275]),
  (0xB3D1, [0x5269, 0x52DE, 0x52DD, 0x52DB, 0x535A, 0x53A5, 0x557B, 0x5580, 0x55A7, 0x557C, 0x558A, 0x559D]),
  (0xB3DD, [0x5598, 0x5582, 0x559C, 0x55AA, 0x5594, 0x5587, 0x558B, 0x5583, 0x55B3, 0x55AE, 0x559F, 0x553E]),
  (0xB3E9, [0x55B2, 0x559A, 0x55BB, 0x55AC, 0x55B1, 0x557E, 0x5589, 0x55AB, 0x5599, 0x570D, 0x582F, 0x582A]),
  (0xB3F5, [0x5834, 0x5824, 0x5830, 0x5831, 0x5821, 0x581D, 0x5820, 0x58F9, 0x58FA, 0x5960]),
  (0xB440, [0x5A77, 0x5A9A, 0x5A7F, 0x5A92, 0x5A9B, 0x5AA7, 0x5B73, 0x5B71, 0x5BD2, 0x5BCC, 0x5BD3, 0x5BD0]),
  (0xB44C, [0x5C0A, 0x5C0B, 0x5C31, 0x5D4C, 0x5D50, 0x5D34, 0x5D47, 0x5DFD, 0x5E45, 0x5E3D, 0x5E40, 0x5E43]),
  (0xB458, [0x5E7E, 0x5ECA, 0x5EC1, 0x5EC2, 0x5EC4, 0x5F3C, 0x5F6D, 0x5FA9, 0x5FAA, 0x5FA8, 0x60D1, 0x60E1]),
  (0xB464, [0x60B2, 0x60B6, 0x60E0, 0x611C, 0x6123, 0x60FA, 0x6115, 0x60F0, 0x60FB, 0x60F4, 0x6168, 0x60F1]),
  (0xB470, [0x610E, 0x60F6, 0x6109, 0x6100, 0x6112, 0x621F, 0x6249, 0x63A3, 0x638C, 0x63CF, 0x63C0, 0x63E9]),
  (0xB47C, [0x63C9, 0x63C6, 0x63CD]),
  (0xB4A1, [0x63D2, 0x63E3, 0x63D0, 0x63E1, 0x63D6, 0x63ED, 0x63EE, 0x6376, 0x63F4, 0x63EA, 0x63DB, 0x6452]),
  (0xB4AD, [0x63DA, 0x63F9, 0x655E, 0x6566, 0x6562, 0x6563, 0x6591, 0x6590, 0x65AF, 0x666E, 0x6670, 0x6674]),
  (0xB4B9, [0x6676, 0x666F, 0x6691, 0x667A, 0x667E, 0x6677, 0x66FE, 0x66FF, 0x671F, 0x671D, 0x68FA, 0x68D5]),
  (0xB4C5, [0x68E0, 0x68D8, 0x68D7, 0x6905, 0x68DF, 0x68F5, 0x68EE, 0x68E7, 0x68F9, 0x68D2, 0x68F2, 0x68E3]),
  (0xB4D1, [0x68CB, 0x68CD, 0x690D, 0x6912, 0x690E, 0x68C9, 0x68DA, 0x696E, 0x68FB, 0x6B3E, 0x6B3A, 0x6B3D]),
  (0xB4DD, [0x6B98, 0x6B96, 0x6BBC, 0x6BEF, 0x6C2E, 0x6C2F, 0x6C2C, 0x6E2F, 0x6E38, 0x6E54, 0x6E21, 0x6E32]),
  (0xB4E9, [0x6E67, 0x6E4A, 0x6E20, 0x6E25, 0x6E23, 0x6E1B, 0x6E5B, 0x6E58, 0x6E24, 0x6E56, 0x6E6E, 0x6E2D]),
  (0xB4F5, [0x6E26, 0x6E6F, 0x6E34, 0x6E4D, 0x6E3A, 0x6E2C, 0x6E43, 0x6E1D, 0x6E3E, 0x6ECB]),
  (0xB540, [0x6E89, 0x6E19, 0x6E4E, 0x6E63, 0x6E44, 0x6E72, 0x6E69, 0x6E5F, 0x7119, 0x711A, 0x7126, 0x7130]),
  (0xB54C, [0x7121, 0x7136, 0x716E, 0x711C, 0x724C, 0x7284, 0x7280, 0x7336, 0x7325, 0x7334, 0x7329, 0x743A]),
  (0xB558, [0x742A, 0x7433, 0x7422, 0x7425, 0x7435, 0x7436, 0x7434, 0x742F, 0x741B, 0x7426, 0x7428, 0x7525]),
  (0xB564, [0x7526, 0x756B, 0x756A, 0x75E2, 0x75DB, 0x75E3, 0x75D9, 0x75D8, 0x75DE, 0x75E0, 0x767B, 0x767C]),
  (0xB570, [0x7696, 0x7693, 0x76B4, 0x76DC, 0x774F, 0x77ED, 0x785D, 0x786C, 0x786F, 0x7A0D, 0x7A08, 0x7A0B]),
  (0xB57C, [0x7A05, 0x7A00, 0x7A98]),
  (0xB5A1, [0x7A97, 0x7A96, 0x7AE5, 0x7AE3, 0x7B49, 0x7B56, 0x7B46, 0x7B50, 0x7B52, 0x7B54, 0x7B4D, 0x7B4B]),
  (0xB5AD, [0x7B4F, 0x7B51, 0x7C9F, 0x7CA5, 0x7D5E, 0x7D50, 0x7D68, 0x7D55, 0x7D2B, 0x7D6E, 0x7D72, 0x7D61]),
  (0xB5B9, [0x7D66, 0x7D62, 0x7D70, 0x7D73, 0x5584, 0x7FD4, 0x7FD5, 0x800B, 0x8052, 0x8085, 0x8155, 0x8154]),
  (0xB5C5, [0x814B, 0x8151, 0x814E, 0x8139, 0x8146, 0x813E, 0x814C, 0x8153, 0x8174, 0x8212, 0x821C, 0x83E9]),
  (0xB5D1, [0x8403, 0x83F8, 0x840D, 0x83E0, 0x83C5, 0x840B, 0x83C1, 0x83EF, 0x83F1, 0x83F4, 0x8457, 0x840A]),
  (0xB5DD, [0x83F0, 0x840C, 0x83CC, 0x83FD, 0x83F2, 0x83CA, 0x8438, 0x840E, 0x8404, 0x83DC, 0x8407, 0x83D4]),
  (0xB5E9, [0x83DF, 0x865B, 0x86DF, 0x86D9, 0x86ED, 0x86D4, 0x86DB, 0x86E4, 0x86D0, 0x86DE, 0x8857, 0x88C1]),
  (0xB5F5, [0x88C2, 0x88B1, 0x8983, 0x8996, 0x8A3B, 0x8A60, 0x8A55, 0x8A5E, 0x8A3C, 0x8A41]),
  (0xB640, [0x8A54, 0x8A5B, 0x8A50, 0x8A46, 0x8A34, 0x8A3A, 0x8A36, 0x8A56, 0x8C61, 0x8C82, 0x8CAF, 0x8CBC]),
  (0xB64C, [0x8CB3, 0x8CBD, 0x8CC1, 0x8CBB, 0x8CC0, 0x8CB4, 0x8CB7, 0x8CB6, 0x8CBF, 0x8CB8, 0x8D8A, 0x8D85]),
  (0xB658, [0x8D81, 0x8DCE, 0x8DDD, 0x8DCB, 0x8DDA, 0x8DD1, 0x8DCC, 0x8DDB, 0x8DC6, 0x8EFB, 0x8EF8, 0x8EFC]),
  (0xB664, [0x8F9C, 0x902E, 0x9035, 0x9031, 0x9038, 0x9032, 0x9036, 0x9102, 0x90F5, 0x9109, 0x90FE, 0x9163]),
  (0xB670, [0x9165, 0x91CF, 0x9214, 0x9215, 0x9223, 0x9209, 0x921E, 0x920D, 0x9210, 0x9207, 0x9211, 0x9594]),
  (0xB67C, [0x958F, 0x958B, 0x9591]),
  (0xB6A1, [0x9593, 0x9592, 0x958E, 0x968A, 0x968E, 0x968B, 0x967D, 0x9685, 0x9686, 0x968D, 0x9672, 0x9684]),
  (0xB6AD, [0x96C1, 0x96C5, 0x96C4, 0x96C6, 0x96C7, 0x96EF, 0x96F2, 0x97CC, 0x9805, 0x9806, 0x9808, 0x98E7]),
  (0xB6B9, [0x98EA, 0x98EF, 0x98E9, 0x98F2, 0x98ED, 0x99AE, 0x99AD, 0x9EC3, 0x9ECD, 0x9ED1, 0x4E82, 0x50AD]),
  (0xB6C5, [0x50B5, 0x50B2, 0x50B3, 0x50C5, 0x50BE, 0x50AC, 0x50B7, 0x50BB, 0x50AF, 0x50C7, 0x527F, 0x5277]),
  (0xB6D1, [0x527D, 0x52DF, 0x52E6, 0x52E4, 0x52E2, 0x52E3, 0x532F, 0x55DF, 0x55E8, 0x55D3, 0x55E6, 0x55CE]),
  (0xB6DD, [0x55DC, 0x55C7, 0x55D1, 0x55E3, 0x55E4, 0x55EF, 0x55DA, 0x55E1, 0x55C5, 0x55C6, 0x55E5, 0x55C9]),
  (0xB6E9, [0x5712, 0x5713, 0x585E, 0x5851, 0x5858, 0x5857, 0x585A, 0x5854, 0x586B, 0x584C, 0x586D, 0x584A]),
  (0xB6F5, [0x5862, 0x5852, 0x584B, 0x5967, 0x5AC1, 0x5AC9, 0x5ACC, 0x5ABE, 0x5ABD, 0x5ABC]),
  (0xB740, [0x5AB3, 0x5AC2, 0x5AB2, 0x5D69, 0x5D6F, 0x5E4C, 0x5E79, 0x5EC9, 0x5EC8, 0x5F12, 0x5F59, 0x5FAC]),
  (0xB74C, [0x5FAE, 0x611A, 0x610F, 0x6148, 0x611F, 0x60F3, 0x611B, 0x60F9, 0x6101, 0x6108, 0x614E, 0x614C]),
  (0xB758, [0x6144, 0x614D, 0x613E, 0x6134, 0x6127, 0x610D, 0x6106, 0x6137, 0x6221, 0x6222, 0x6413, 0x643E]),
  (0xB764, [0x641E, 0x642A, 0x642D, 0x643D, 0x642C, 0x640F, 0x641C, 0x6414, 0x640D, 0x6436, 0x6416, 0x6417]),
  (0xB770, [0x6406, 0x656C, 0x659F, 0x65B0, 0x6697, 0x6689, 0x6687, 0x6688, 0x6696, 0x6684, 0x6698, 0x668D]),
  (0xB77C, [0x6703, 0x6994, 0x696D]),
  (0xB7A1, [0x695A, 0x6977, 0x6960, 0x6954, 0x6975, 0x6930, 0x6982, 0x694A, 0x6968, 0x696B, 0x695E, 0x6953]),
  (0xB7AD, [0x6979, 0x6986, 0x695D, 0x6963, 0x695B, 0x6B47, 0x6B72, 0x6BC0, 0x6BBF, 0x6BD3, 0x6BFD, 0x6EA2]),
  (0xB7B9, [0x6EAF, 0x6ED3, 0x6EB6, 0x6EC2, 0x6E90, 0x6E9D, 0x6EC7, 0x6EC5, 0x6EA5, 0x6E98, 0x6EBC, 0x6EBA]),
  (0xB7C5, [0x6EAB, 0x6ED1, 0x6E96, 0x6E9C, 0x6EC4, 0x6ED4, 0x6EAA, 0x6EA7, 0x6EB4, 0x714E, 0x7159, 0x7169]),
  (0xB7D1, [0x7164, 0x7149, 0x7167, 0x715C, 0x716C, 0x7166, 0x714C, 0x7165, 0x715E, 0x7146, 0x7168, 0x7156]),
  (0xB7DD, [0x723A, 0x7252, 0x7337, 0x7345, 0x733F, 0x733E, 0x746F, 0x745A, 0x7455, 0x745F, 0x745E, 0x7441]),
  (0xB7E9, [0x743F, 0x7459, 0x745B, 0x745C, 0x7576, 0x7578, 0x7600, 0x75F0, 0x7601, 0x75F2, 0x75F1, 0x75FA]),
  (0xB7F5, [0x75FF, 0x75F4, 0x75F3, 0x76DE, 0x76DF, 0x775B, 0x776B, 0x7766, 0x775E, 0x7763]),
  (0xB840, [0x7779, 0x776A, 0x776C, 0x775C, 0x7765, 0x7768, 0x7762, 0x77EE, 0x788E, 0x78B0, 0x7897, 0x7898]),
  (0xB84C, [0x788C, 0x7889, 0x787C, 0x7891, 0x7893, 0x787F, 0x797A, 0x797F, 0x7981, 0x842C, 0x79BD, 0x7A1C]),
  (0xB858, [0x7A1A, 0x7A20, 0x7A14, 0x7A1F, 0x7A1E, 0x7A9F, 0x7AA0, 0x7B77, 0x7BC0, 0x7B60, 0x7B6E, 0x7B67]),
  (0xB864, [0x7CB1, 0x7CB3, 0x7CB5, 0x7D93, 0x7D79, 0x7D91, 0x7D81, 0x7D8F, 0x7D5B, 0x7F6E, 0x7F69, 0x7F6A]),
  (0xB870, [0x7F72, 0x7FA9, 0x7FA8, 0x7FA4, 0x8056, 0x8058, 0x8086, 0x8084, 0x8171, 0x8170, 0x8178, 0x8165]),
  (0xB87C, [0x816E, 0x8173, 0x816B]),
  (0xB8A1, [0x8179, 0x817A, 0x8166, 0x8205, 0x8247, 0x8482, 0x8477, 0x843D, 0x8431, 0x8475, 0x8466, 0x846B]),
  (0xB8AD, [0x8449, 0x846C, 0x845B, 0x843C, 0x8435, 0x8461, 0x8463, 0x8469, 0x846D, 0x8446, 0x865E, 0x865C]),
  (0xB8B9, [0x865F, 0x86F9, 0x8713, 0x8708, 0x8707, 0x8700, 0x86FE, 0x86FB, 0x8702, 0x8703, 0x8706, 0x870A]),
  (0xB8C5, [0x8859, 0x88DF, 0x88D4, 0x88D9, 0x88DC, 0x88D8, 0x88DD, 0x88E1, 0x88CA, 0x88D5, 0x88D2, 0x899C]),
  (0xB8D1, [0x89E3, 0x8A6B, 0x8A72, 0x8A73, 0x8A66, 0x8A69, 0x8A70, 0x8A87, 0x8A7C, 0x8A63, 0x8AA0, 0x8A71]),
  (0xB8DD, [0x8A85, 0x8A6D, 0x8A62, 0x8A6E, 0x8A6C, 0x8A79, 0x8A7B, 0x8A3E, 0x8A68, 0x8C62, 0x8C8A, 0x8C89]),
  (0xB8E9, [0x8CCA, 0x8CC7, 0x8CC8, 0x8CC4, 0x8CB2, 0x8CC3, 0x8CC2, 0x8CC5, 0x8DE1, 0x8DDF, 0x8DE8, 0x8DEF]),
  (0xB8F5, [0x8DF3, 0x8DFA, 0x8DEA, 0x8DE4, 0x8DE6, 0x8EB2, 0x8F03, 0x8F09, 0x8EFE, 0x8F0A]),
  (0xB940, [0x8F9F, 0x8FB2, 0x904B, 0x904A, 0x9053, 0x9042, 0x9054, 0x903C, 0x9055, 0x9050, 0x9047, 0x904F]),
  (0xB94C, [0x904E, 0x904D, 0x9051, 0x903E, 0x9041, 0x9112, 0x9117, 0x916C, 0x916A, 0x9169, 0x91C9, 0x9237]),
  (0xB958, [0x9257, 0x9238, 0x923D, 0x9240, 0x923E, 0x925B, 0x924B, 0x9264, 0x9251, 0x9234, 0x9249, 0x924D]),
  (0xB964, [0x9245, 0x9239, 0x923F, 0x925A, 0x9598, 0x9698, 0x9694, 0x9695, 0x96CD, 0x96CB, 0x96C9, 0x96CA]),
  (0xB970, [0x96F7, 0x96FB, 0x96F9, 0x96F6, 0x9756, 0x9774, 0x9776, 0x9810, 0x9811, 0x9813, 0x980A, 0x9812]),
  (0xB97C, [0x980C, 0x98FC, 0x98F4]),
  (0xB9A1, [0x98FD, 0x98FE, 0x99B3, 0x99B1, 0x99B4, 0x9AE1, 0x9CE9, 0x9E82, 0x9F0E, 0x9F13, 0x9F20, 0x50E7]),
  (0xB9AD, [0x50EE, 0x50E5, 0x50D6, 0x50ED, 0x50DA, 0x50D5, 0x50CF, 0x50D1, 0x50F1, 0x50CE, 0x50E9, 0x5162]),
  (0xB9B9, [0x51F3, 0x5283, 0x5282, 0x5331, 0x53AD, 0x55FE, 0x5600, 0x561B, 0x5617, 0x55FD, 0x5614, 0x5606]),
  (0xB9C5, [0x5609, 0x560D, 0x560E, 0x55F7, 0x5616, 0x561F, 0x5608, 0x5610, 0x55F6, 0x5718, 0x5716, 0x5875]),
  (0xB9D1, [0x587E, 0x5883, 0x5893, 0x588A, 0x5879, 0x5885, 0x587D, 0x58FD, 0x5925, 0x5922, 0x5924, 0x596A]),
  (0xB9DD, [0x5969, 0x5AE1, 0x5AE6, 0x5AE9, 0x5AD7, 0x5AD6, 0x5AD8, 0x5AE3, 0x5B75, 0x5BDE, 0x5BE7, 0x5BE1]),
  (0xB9E9, [0x5BE5, 0x5BE6, 0x5BE8, 0x5BE2, 0x5BE4, 0x5BDF, 0x5C0D, 0x5C62, 0x5D84, 0x5D87, 0x5E5B, 0x5E63]),
  (0xB9F5, [0x5E55, 0x5E57, 0x5E54, 0x5ED3, 0x5ED6, 0x5F0A, 0x5F46, 0x5F70, 0x5FB9, 0x6147]),
  (0xBA40, [0x613F, 0x614B, 0x6177, 0x6162, 0x6163, 0x615F, 0x615A, 0x6158, 0x6175, 0x622A, 0x6487, 0x6458]),
  (0xBA4C, [0x6454, 0x64A4, 0x6478, 0x645F, 0x647A, 0x6451, 0x6467, 0x6434, 0x646D, 0x647B, 0x6572, 0x65A1]),
  (0xBA58, [0x65D7, 0x65D6, 0x66A2, 0x66A8, 0x669D, 0x699C, 0x69A8, 0x6995, 0x69C1, 0x69AE, 0x69D3, 0x69CB]),
  (0xBA64, [0x699B, 0x69B7, 0x69BB, 0x69AB, 0x69B4, 0x69D0, 0x69CD, 0x69AD, 0x69CC, 0x69A6, 0x69C3, 0x69A3]),
  (0xBA70, [0x6B49, 0x6B4C, 0x6C33, 0x6F33, 0x6F14, 0x6EFE, 0x6F13, 0x6EF4, 0x6F29, 0x6F3E, 0x6F20, 0x6F2C]),
  (0xBA7C, [0x6F0F, 0x6F02, 0x6F22]),
  (0xBAA1, [0x6EFF, 0x6EEF, 0x6F06, 0x6F31, 0x6F38, 0x6F32, 0x6F23, 0x6F15, 0x6F2B, 0x6F2F, 0x6F88, 0x6F2A]),
  (0xBAAD, [0x6EEC, 0x6F01, 0x6EF2, 0x6ECC, 0x6EF7, 0x7194, 0x7199, 0x717D, 0x718A, 0x7184, 0x7192, 0x723E]),
  (0xBAB9, [0x7292, 0x7296, 0x7344, 0x7350, 0x7464, 0x7463, 0x746A, 0x7470, 0x746D, 0x7504, 0x7591, 0x7627]),
  (0xBAC5, [0x760D, 0x760B, 0x7609, 0x7613, 0x76E1, 0x76E3, 0x7784, 0x777D, 0x777F, 0x7761, 0x78C1, 0x789F]),
  (0xBAD1, [0x78A7, 0x78B3, 0x78A9, 0x78A3, 0x798E, 0x798F, 0x798D, 0x7A2E, 0x7A31, 0x7AAA, 0x7AA9, 0x7AED]),
  (0xBADD, [0x7AEF, 0x7BA1, 0x7B95, 0x7B8B, 0x7B75, 0x7B97, 0x7B9D, 0x7B94, 0x7B8F, 0x7BB8, 0x7B87, 0x7B84]),
  (0xBAE9, [0x7CB9, 0x7CBD, 0x7CBE, 0x7DBB, 0x7DB0, 0x7D9C, 0x7DBD, 0x7DBE, 0x7DA0, 0x7DCA, 0x7DB4, 0x7DB2]),
  (0xBAF5, [0x7DB1, 0x7DBA, 0x7DA2, 0x7DBF, 0x7DB5, 0x7DB8, 0x7DAD, 0x7DD2, 0x7DC7, 0x7DAC]),
  (0xBB40, [0x7F70, 0x7FE0, 0x7FE1, 0x7FDF, 0x805E, 0x805A, 0x8087, 0x8150, 0x8180, 0x818F, 0x8188, 0x818A]),
  (0xBB4C, [0x817F, 0x8182, 0x81E7, 0x81FA, 0x8207, 0x8214, 0x821E, 0x824B, 0x84C9, 0x84BF, 0x84C6, 0x84C4]),
  (0xBB58, [0x8499, 0x849E, 0x84B2, 0x849C, 0x84CB, 0x84B8, 0x84C0, 0x84D3, 0x8490, 0x84BC, 0x84D1, 0x84CA]),
  (0xBB64, [0x873F, 0x871C, 0x873B, 0x8722, 0x8725, 0x8734, 0x8718, 0x8755, 0x8737, 0x8729, 0x88F3, 0x8902]),
  (0xBB70, [0x88F4, 0x88F9, 0x88F8, 0x88FD, 0x88E8, 0x891A, 0x88EF, 0x8AA6, 0x8A8C, 0x8A9E, 0x8AA3, 0x8A8D]),
  (0xBB7C, [0x8AA1, 0x8A93, 0x8AA4]),
  (0xBBA1, [0x8AAA, 0x8AA5, 0x8AA8, 0x8A98, 0x8A91, 0x8A9A, 0x8AA7, 0x8C6A, 0x8C8D, 0x8C8C, 0x8CD3, 0x8CD1]),
  (0xBBAD, [0x8CD2, 0x8D6B, 0x8D99, 0x8D95, 0x8DFC, 0x8F14, 0x8F12, 0x8F15, 0x8F13, 0x8FA3, 0x9060, 0x9058]),
  (0xBBB9, [0x905C, 0x9063, 0x9059, 0x905E, 0x9062, 0x905D, 0x905B, 0x9119, 0x9118, 0x911E, 0x9175, 0x9178]),
  (0xBBC5, [0x9177, 0x9174, 0x9278, 0x9280, 0x9285, 0x9298, 0x9296, 0x927B, 0x9293, 0x929C, 0x92A8, 0x927C]),
  (0xBBD1, [0x9291, 0x95A1, 0x95A8, 0x95A9, 0x95A3, 0x95A5, 0x95A4, 0x9699, 0x969C, 0x969B, 0x96CC, 0x96D2]),
  (0xBBDD, [0x9700, 0x977C, 0x9785, 0x97F6, 0x9817, 0x9818, 0x98AF, 0x98B1, 0x9903, 0x9905, 0x990C, 0x9909]),
  (0xBBE9, [0x99C1, 0x9AAF, 0x9AB0, 0x9AE6, 0x9B41, 0x9B42, 0x9CF4, 0x9CF6, 0x9CF3, 0x9EBC, 0x9F3B, 0x9F4A]),
  (0xBBF5, [0x5104, 0x5100, 0x50FB, 0x50F5, 0x50F9, 0x5102, 0x5108, 0x5109, 0x5105, 0x51DC]),
  (0xBC40, [0x5287, 0x5288, 0x5289, 0x528D, 0x528A, 0x52F0, 0x53B2, 0x562E, 0x563B, 0x5639, 0x5632, 0x563F]),
  (0xBC4C, [0x5634, 0x5629, 0x5653, 0x564E, 0x5657, 0x5674, 0x5636, 0x562F, 0x5630, 0x5880, 0x589F, 0x589E]),
  (0xBC58, [0x58B3, 0x589C, 0x58AE, 0x58A9, 0x58A6, 0x596D, 0x5B09, 0x5AFB, 0x5B0B, 0x5AF5, 0x5B0C, 0x5B08]),
  (0xBC64, [0x5BEE, 0x5BEC, 0x5BE9, 0x5BEB, 0x5C64, 0x5C65, 0x5D9D, 0x5D94, 0x5E62, 0x5E5F, 0x5E61, 0x5EE2]),
  (0xBC70, [0x5EDA, 0x5EDF, 0x5EDD, 0x5EE3, 0x5EE0, 0x5F48, 0x5F71, 0x5FB7, 0x5FB5, 0x6176, 0x6167, 0x616E]),
  (0xBC7C, [0x615D, 0x6155, 0x6182]),
  (0xBCA1, [0x617C, 0x6170, 0x616B, 0x617E, 0x61A7, 0x6190, 0x61AB, 0x618E, 0x61AC, 0x619A, 0x61A4, 0x6194]),
  (0xBCAD, [0x61AE, 0x622E, 0x6469, 0x646F, 0x6479, 0x649E, 0x64B2, 0x6488, 0x6490, 0x64B0, 0x64A5, 0x6493]),
  (0xBCB9, [0x6495, 0x64A9, 0x6492, 0x64AE, 0x64AD, 0x64AB, 0x649A, 0x64AC, 0x6499, 0x64A2, 0x64B3, 0x6575]),
  (0xBCC5, [0x6577, 0x6578, 0x66AE, 0x66AB, 0x66B4, 0x66B1, 0x6A23, 0x6A1F, 0x69E8, 0x6A01, 0x6A1E, 0x6A19]),
  (0xBCD1, [0x69FD, 0x6A21, 0x6A13, 0x6A0A, 0x69F3, 0x6A02, 0x6A05, 0x69ED, 0x6A11, 0x6B50, 0x6B4E, 0x6BA4]),
  (0xBCDD, [0x6BC5, 0x6BC6, 0x6F3F, 0x6F7C, 0x6F84, 0x6F51, 0x6F66, 0x6F54, 0x6F86, 0x6F6D, 0x6F5B, 0x6F78]),
  (0xBCE9, [0x6F6E, 0x6F8E, 0x6F7A, 0x6F70, 0x6F64, 0x6F97, 0x6F58, 0x6ED5, 0x6F6F, 0x6F60, 0x6F5F, 0x719F]),
  (0xBCF5, [0x71AC, 0x71B1, 0x71A8, 0x7256, 0x729B, 0x734E, 0x7357, 0x7469, 0x748B, 0x7483]),
  (0xBD40, [0x747E, 0x7480, 0x757F, 0x7620, 0x7629, 0x761F, 0x7624, 0x7626, 0x7621, 0x7622, 0x769A, 0x76BA]),
  (0xBD4C, [0x76E4, 0x778E, 0x7787, 0x778C, 0x7791, 0x778B, 0x78CB, 0x78C5, 0x78BA, 0x78CA, 0x78BE, 0x78D5]),
  (0xBD58, [0x78BC, 0x78D0, 0x7A3F, 0x7A3C, 0x7A40, 0x7A3D, 0x7A37, 0x7A3B, 0x7AAF, 0x7AAE, 0x7BAD, 0x7BB1]),
  (0xBD64, [0x7BC4, 0x7BB4, 0x7BC6, 0x7BC7, 0x7BC1, 0x7BA0, 0x7BCC, 0x7CCA, 0x7DE0, 0x7DF4, 0x7DEF, 0x7DFB]),
  (0xBD70, [0x7DD8, 0x7DEC, 0x7DDD, 0x7DE8, 0x7DE3, 0x7DDA, 0x7DDE, 0x7DE9, 0x7D9E, 0x7DD9, 0x7DF2, 0x7DF9]),
  (0xBD7C, [0x7F75, 0x7F77, 0x7FAF]),
  (0xBDA1, [0x7FE9, 0x8026, 0x819B, 0x819C, 0x819D, 0x81A0, 0x819A, 0x8198, 0x8517, 0x853D, 0x851A, 0x84EE]),
  (0xBDAD, [0x852C, 0x852D, 0x8513, 0x8511, 0x8523, 0x8521, 0x8514, 0x84EC, 0x8525, 0x84FF, 0x8506, 0x8782]),
  (0xBDB9, [0x8774, 0x8776, 0x8760, 0x8766, 0x8778, 0x8768, 0x8759, 0x8757, 0x874C, 0x8753, 0x885B, 0x885D]),
  (0xBDC5, [0x8910, 0x8907, 0x8912, 0x8913, 0x8915, 0x890A, 0x8ABC, 0x8AD2, 0x8AC7, 0x8AC4, 0x8A95, 0x8ACB]),
  (0xBDD1, [0x8AF8, 0x8AB2, 0x8AC9, 0x8AC2, 0x8ABF, 0x8AB0, 0x8AD6, 0x8ACD, 0x8AB6, 0x8AB9, 0x8ADB, 0x8C4C]),
  (0xBDDD, [0x8C4E, 0x8C6C, 0x8CE0, 0x8CDE, 0x8CE6, 0x8CE4, 0x8CEC, 0x8CED, 0x8CE2, 0x8CE3, 0x8CDC, 0x8CEA]),
  (0xBDE9, [0x8CE1, 0x8D6D, 0x8D9F, 0x8DA3, 0x8E2B, 0x8E10, 0x8E1D, 0x8E22, 0x8E0F, 0x8E29, 0x8E1F, 0x8E21]),
  (0xBDF5, [0x8E1E, 0x8EBA, 0x8F1D, 0x8F1B, 0x8F1F, 0x8F29, 0x8F26, 0x8F2A, 0x8F1C, 0x8F1E]),
  (0xBE40, [0x8F25, 0x9069, 0x906E, 0x9068, 0x906D, 0x9077, 0x9130, 0x912D, 0x9127, 0x9131, 0x9187, 0x9189]),
  (0xBE4C, [0x918B, 0x9183, 0x92C5, 0x92BB, 0x92B7, 0x92EA, 0x92AC, 0x92E4, 0x92C1, 0x92B3, 0x92BC, 0x92D2]),
  (0xBE58, [0x92C7, 0x92F0, 0x92B2, 0x95AD, 0x95B1, 0x9704, 0x9706, 0x9707, 0x9709, 0x9760, 0x978D, 0x978B]),
  (0xBE64, [0x978F, 0x9821, 0x982B, 0x981C, 0x98B3, 0x990A, 0x9913, 0x9912, 0x9918, 0x99DD, 0x99D0, 0x99DF]),
  (0xBE70, [0x99DB, 0x99D1, 0x99D5, 0x99D2, 0x99D9, 0x9AB7, 0x9AEE, 0x9AEF, 0x9B27, 0x9B45, 0x9B44, 0x9B77]),
  (0xBE7C, [0x9B6F, 0x9D06, 0x9D09]),
  (0xBEA1, [0x9D03, 0x9EA9, 0x9EBE, 0x9ECE, 0x58A8, 0x9F52, 0x5112, 0x5118, 0x5114, 0x5110, 0x5115, 0x5180]),
  (0xBEAD, [0x51AA, 0x51DD, 0x5291, 0x5293, 0x52F3, 0x5659, 0x566B, 0x5679, 0x5669, 0x5664, 0x5678, 0x566A]),
  (0xBEB9, [0x5668, 0x5665, 0x5671, 0x566F, 0x566C, 0x5662, 0x5676, 0x58C1, 0x58BE, 0x58C7, 0x58C5, 0x596E]),
  (0xBEC5, [0x5B1D, 0x5B34, 0x5B78, 0x5BF0, 0x5C0E, 0x5F4A, 0x61B2, 0x6191, 0x61A9, 0x618A, 0x61CD, 0x61B6]),
  (0xBED1, [0x61BE, 0x61CA, 0x61C8, 0x6230, 0x64C5, 0x64C1, 0x64CB, 0x64BB, 0x64BC, 0x64DA, 0x64C4, 0x64C7]),
  (0xBEDD, [0x64C2, 0x64CD, 0x64BF, 0x64D2, 0x64D4, 0x64BE, 0x6574, 0x66C6, 0x66C9, 0x66B9, 0x66C4, 0x66C7]),
  (0xBEE9, [0x66B8, 0x6A3D, 0x6A38, 0x6A3A, 0x6A59, 0x6A6B, 0x6A58, 0x6A39, 0x6A44, 0x6A62, 0x6A61, 0x6A4B]),
  (0xBEF5, [0x6A47, 0x6A35, 0x6A5F, 0x6A48, 0x6B59, 0x6B77, 0x6C05, 0x6FC2, 0x6FB1, 0x6FA1]),
  (0xBF40, [0x6FC3, 0x6FA4, 0x6FC1, 0x6FA7, 0x6FB3, 0x6FC0, 0x6FB9, 0x6FB6, 0x6FA6, 0x6FA0, 0x6FB4, 0x71BE]),
  (0xBF4C, [0x71C9, 0x71D0, 0x71D2, 0x71C8, 0x71D5, 0x71B9, 0x71CE, 0x71D9, 0x71DC, 0x71C3, 0x71C4, 0x7368]),
  (0xBF58, [0x749C, 0x74A3, 0x7498, 0x749F, 0x749E, 0x74E2, 0x750C, 0x750D, 0x7634, 0x7638, 0x763A, 0x76E7]),
  (0xBF64, [0x76E5, 0x77A0, 0x779E, 0x779F, 0x77A5, 0x78E8, 0x78DA, 0x78EC, 0x78E7, 0x79A6, 0x7A4D, 0x7A4E]),
  (0xBF70, [0x7A46, 0x7A4C, 0x7A4B, 0x7ABA, 0x7BD9, 0x7C11, 0x7BC9, 0x7BE4, 0x7BDB, 0x7BE1, 0x7BE9, 0x7BE6]),
  (0xBF7C, [0x7CD5, 0x7CD6, 0x7E0A]),
  (0xBFA1, [0x7E11, 0x7E08, 0x7E1B, 0x7E23, 0x7E1E, 0x7E1D, 0x7E09, 0x7E10, 0x7F79, 0x7FB2, 0x7FF0, 0x7FF1]),
  (0xBFAD, [0x7FEE, 0x8028, 0x81B3, 0x81A9, 0x81A8, 0x81FB, 0x8208, 0x8258, 0x8259, 0x854A, 0x8559, 0x8548]),
  (0xBFB9, [0x8568, 0x8569, 0x8543, 0x8549, 0x856D, 0x856A, 0x855E, 0x8783, 0x879F, 0x879E, 0x87A2, 0x878D]),
  (0xBFC5, [0x8861, 0x892A, 0x8932, 0x8925, 0x892B, 0x8921, 0x89AA, 0x89A6, 0x8AE6, 0x8AFA, 0x8AEB, 0x8AF1]),
  (0xBFD1, [0x8B00, 0x8ADC, 0x8AE7, 0x8AEE, 0x8AFE, 0x8B01, 0x8B02, 0x8AF7, 0x8AED, 0x8AF3, 0x8AF6, 0x8AFC]),
  (0xBFDD, [0x8C6B, 0x8C6D, 0x8C93, 0x8CF4, 0x8E44, 0x8E31, 0x8E34, 0x8E42, 0x8E39, 0x8E35, 0x8F3B, 0x8F2F]),
  (0xBFE9, [0x8F38, 0x8F33, 0x8FA8, 0x8FA6, 0x9075, 0x9074, 0x9078, 0x9072, 0x907C, 0x907A, 0x9134, 0x9192]),
  (0xBFF5, [0x9320, 0x9336, 0x92F8, 0x9333, 0x932F, 0x9322, 0x92FC, 0x932B, 0x9304, 0x931A]),
  (0xC040, [0x9310, 0x9326, 0x9321, 0x9315, 0x932E, 0x9319, 0x95BB, 0x96A7, 0x96A8, 0x96AA, 0x96D5, 0x970E]),
  (0xC04C, [0x9711, 0x9716, 0x970D, 0x9713, 0x970F, 0x975B, 0x975C, 0x9766, 0x9798, 0x9830, 0x9838, 0x983B]),
  (0xC058, [0x9837, 0x982D, 0x9839, 0x9824, 0x9910, 0x9928, 0x991E, 0x991B, 0x9921, 0x991A, 0x99ED, 0x99E2]),
  (0xC064, [0x99F1, 0x9AB8, 0x9ABC, 0x9AFB, 0x9AED, 0x9B28, 0x9B91, 0x9D15, 0x9D23, 0x9D26, 0x9D28, 0x9D12]),
  (0xC070, [0x9D1B, 0x9ED8, 0x9ED4, 0x9F8D, 0x9F9C, 0x512A, 0x511F, 0x5121, 0x5132, 0x52F5, 0x568E, 0x5680]),
  (0xC07C, [0x5690, 0x5685, 0x5687]),
  (0xC0A1, [0x568F, 0x58D5, 0x58D3, 0x58D1, 0x58CE, 0x5B30, 0x5B2A, 0x5B24, 0x5B7A, 0x5C37, 0x5C68, 0x5DBC]),
  (0xC0AD, [0x5DBA, 0x5DBD, 0x5DB8, 0x5E6B, 0x5F4C, 0x5FBD, 0x61C9, 0x61C2, 0x61C7, 0x61E6, 0x61CB, 0x6232]),
  (0xC0B9, [0x6234, 0x64CE, 0x64CA, 0x64D8, 0x64E0, 0x64F0, 0x64E6, 0x64EC, 0x64F1, 0x64E2, 0x64ED, 0x6582]),
  (0xC0C5, [0x6583, 0x66D9, 0x66D6, 0x6A80, 0x6A94, 0x6A84, 0x6AA2, 0x6A9C, 0x6ADB, 0x6AA3, 0x6A7E, 0x6A97]),
  (0xC0D1, [0x6A90, 0x6AA0, 0x6B5C, 0x6BAE, 0x6BDA, 0x6C08, 0x6FD8, 0x6FF1, 0x6FDF, 0x6FE0, 0x6FDB, 0x6FE4]),
  (0xC0DD, [0x6FEB, 0x6FEF, 0x6F80, 0x6FEC, 0x6FE1, 0x6FE9, 0x6FD5, 0x6FEE, 0x6FF0, 0x71E7, 0x71DF, 0x71EE]),
  (0xC0E9, [0x71E6, 0x71E5, 0x71ED, 0x71EC, 0x71F4, 0x71E0, 0x7235, 0x7246, 0x7370, 0x7372, 0x74A9, 0x74B0]),
  (0xC0F5, [0x74A6, 0x74A8, 0x7646, 0x7642, 0x764C, 0x76EA, 0x77B3, 0x77AA, 0x77B0, 0x77AC]),
  (0xC140, [0x77A7, 0x77AD, 0x77EF, 0x78F7, 0x78FA, 0x78F4, 0x78EF, 0x7901, 0x79A7, 0x79AA, 0x7A57, 0x7ABF]),
  (0xC14C, [0x7C07, 0x7C0D, 0x7BFE, 0x7BF7, 0x7C0C, 0x7BE0, 0x7CE0, 0x7CDC, 0x7CDE, 0x7CE2, 0x7CDF, 0x7CD9]),
  (0xC158, [0x7CDD, 0x7E2E, 0x7E3E, 0x7E46, 0x7E37, 0x7E32, 0x7E43, 0x7E2B, 0x7E3D, 0x7E31, 0x7E45, 0x7E41]),
  (0xC164, [0x7E34, 0x7E39, 0x7E48, 0x7E35, 0x7E3F, 0x7E2F, 0x7F44, 0x7FF3, 0x7FFC, 0x8071, 0x8072, 0x8070]),
  (0xC170, [0x806F, 0x8073, 0x81C6, 0x81C3, 0x81BA, 0x81C2, 0x81C0, 0x81BF, 0x81BD, 0x81C9, 0x81BE, 0x81E8]),
  (0xC17C, [0x8209, 0x8271, 0x85AA]),
  (0xC1A1, [0x8584, 0x857E, 0x859C, 0x8591, 0x8594, 0x85AF, 0x859B, 0x8587, 0x85A8, 0x858A, 0x8667, 0x87C0]),
  (0xC1AD, [0x87D1, 0x87B3, 0x87D2, 0x87C6, 0x87AB, 0x87BB, 0x87BA, 0x87C8, 0x87CB, 0x893B, 0x8936, 0x8944]),
  (0xC1B9, [0x8938, 0x893D, 0x89AC, 0x8B0E, 0x8B17, 0x8B19, 0x8B1B, 0x8B0A, 0x8B20, 0x8B1D, 0x8B04, 0x8B10]),
  (0xC1C5, [0x8C41, 0x8C3F, 0x8C73, 0x8CFA, 0x8CFD, 0x8CFC, 0x8CF8, 0x8CFB, 0x8DA8, 0x8E49, 0x8E4B, 0x8E48]),
  (0xC1D1, [0x8E4A, 0x8F44, 0x8F3E, 0x8F42, 0x8F45, 0x8F3F, 0x907F, 0x907D, 0x9084, 0x9081, 0x9082, 0x9080]),
  (0xC1DD, [0x9139, 0x91A3, 0x919E, 0x919C, 0x934D, 0x9382, 0x9328, 0x9375, 0x934A, 0x9365, 0x934B, 0x9318]),
  (0xC1E9, [0x937E, 0x936C, 0x935B, 0x9370, 0x935A, 0x9354, 0x95CA, 0x95CB, 0x95CC, 0x95C8, 0x95C6, 0x96B1]),
  (0xC1F5, [0x96B8, 0x96D6, 0x971C, 0x971E, 0x97A0, 0x97D3, 0x9846, 0x98B6, 0x9935, 0x9A01]),
  (0xC240, [0x99FF, 0x9BAE, 0x9BAB, 0x9BAA, 0x9BAD, 0x9D3B, 0x9D3F, 0x9E8B, 0x9ECF, 0x9EDE, 0x9EDC, 0x9EDD]),
  (0xC24C, [0x9EDB, 0x9F3E, 0x9F4B, 0x53E2, 0x5695, 0x56AE, 0x58D9, 0x58D8, 0x5B38, 0x5F5E, 0x61E3, 0x6233]),
  (0xC258, [0x64F4, 0x64F2, 0x64FE, 0x6506, 0x64FA, 0x64FB, 0x64F7, 0x65B7, 0x66DC, 0x6726, 0x6AB3, 0x6AAC]),
  (0xC264, [0x6AC3, 0x6ABB, 0x6AB8, 0x6AC2, 0x6AAE, 0x6AAF, 0x6B5F, 0x6B78, 0x6BAF, 0x7009, 0x700B, 0x6FFE]),
  (0xC270, [0x7006, 0x6FFA, 0x7011, 0x700F, 0x71FB, 0x71FC, 0x71FE, 0x71F8, 0x7377, 0x7375, 0x74A7, 0x74BF]),
  (0xC27C, [0x7515, 0x7656, 0x7658]),
  (0xC2A1, [0x7652, 0x77BD, 0x77BF, 0x77BB, 0x77BC, 0x790E, 0x79AE, 0x7A61, 0x7A62, 0x7A60, 0x7AC4, 0x7AC5]),
  (0xC2AD, [0x7C2B, 0x7C27, 0x7C2A, 0x7C1E, 0x7C23, 0x7C21, 0x7CE7, 0x7E54, 0x7E55, 0x7E5E, 0x7E5A, 0x7E61]),
  (0xC2B9, [0x7E52, 0x7E59, 0x7F48, 0x7FF9, 0x7FFB, 0x8077, 0x8076, 0x81CD, 0x81CF, 0x820A, 0x85CF, 0x85A9]),
  (0xC2C5, [0x85CD, 0x85D0, 0x85C9, 0x85B0, 0x85BA, 0x85B9, 0x85A6, 0x87EF, 0x87EC, 0x87F2, 0x87E0, 0x8986]),
  (0xC2D1, [0x89B2, 0x89F4, 0x8B28, 0x8B39, 0x8B2C, 0x8B2B, 0x8C50, 0x8D05, 0x8E59, 0x8E63, 0x8E66, 0x8E64]),
  (0xC2DD, [0x8E5F, 0x8E55, 0x8EC0, 0x8F49, 0x8F4D, 0x9087, 0x9083, 0x9088, 0x91AB, 0x91AC, 0x91D0, 0x9394]),
  (0xC2E9, [0x938A, 0x9396, 0x93A2, 0x93B3, 0x93AE, 0x93AC, 0x93B0, 0x9398, 0x939A, 0x9397, 0x95D4, 0x95D6]),
  (0xC2F5, [0x95D0, 0x95D5, 0x96E2, 0x96DC, 0x96D9, 0x96DB, 0x96DE, 0x9724, 0x97A3, 0x97A6]),
  (0xC340, [0x97AD, 0x97F9, 0x984D, 0x984F, 0x984C, 0x984E, 0x9853, 0x98BA, 0x993E, 0x993F, 0x993D, 0x992E]),
  (0xC34C, [0x99A5, 0x9A0E, 0x9AC1, 0x9B03, 0x9B06, 0x9B4F, 0x9B4E, 0x9B4D, 0x9BCA, 0x9BC9, 0x9BFD, 0x9BC8]),
  (0xC358, [0x9BC0, 0x9D51, 0x9D5D, 0x9D60, 0x9EE0, 0x9F15, 0x9F2C, 0x5133, 0x56A5, 0x58DE, 0x58DF, 0x58E2]),
  (0xC364, [0x5BF5, 0x9F90, 0x5EEC, 0x61F2, 0x61F7, 0x61F6, 0x61F5, 0x6500, 0x650F, 0x66E0, 0x66DD, 0x6AE5]),
  (0xC370, [0x6ADD, 0x6ADA, 0x6AD3, 0x701B, 0x701F, 0x7028, 0x701A, 0x701D, 0x7015, 0x7018, 0x7206, 0x720D]),
  (0xC37C, [0x7258, 0x72A2, 0x7378]),
  (0xC3A1, [0x737A, 0x74BD, 0x74CA, 0x74E3, 0x7587, 0x7586, 0x765F, 0x7661, 0x77C7, 0x7919, 0x79B1, 0x7A6B]),
  (0xC3AD, [0x7A69, 0x7C3E, 0x7C3F, 0x7C38, 0x7C3D, 0x7C37, 0x7C40, 0x7E6B, 0x7E6D, 0x7E79, 0x7E69, 0x7E6A]),
  (0xC3B9, [0x7F85, 0x7E73, 0x7FB6, 0x7FB9, 0x7FB8, 0x81D8, 0x85E9, 0x85DD, 0x85EA, 0x85D5, 0x85E4, 0x85E5]),
  (0xC3C5, [0x85F7, 0x87FB, 0x8805, 0x880D, 0x87F9, 0x87FE, 0x8960, 0x895F, 0x8956, 0x895E, 0x8B41, 0x8B5C]),
  (0xC3D1, [0x8B58, 0x8B49, 0x8B5A, 0x8B4E, 0x8B4F, 0x8B46, 0x8B59, 0x8D08, 0x8D0A, 0x8E7C, 0x8E72, 0x8E87]),
  (0xC3DD, [0x8E76, 0x8E6C, 0x8E7A, 0x8E74, 0x8F54, 0x8F4E, 0x8FAD, 0x908A, 0x908B, 0x91B1, 0x91AE, 0x93E1]),
  (0xC3E9, [0x93D1, 0x93DF, 0x93C3, 0x93C8, 0x93DC, 0x93DD, 0x93D6, 0x93E2, 0x93CD, 0x93D8, 0x93E4, 0x93D7]),
  (0xC3F5, [0x93E8, 0x95DC, 0x96B4, 0x96E3, 0x972A, 0x9727, 0x9761, 0x97DC, 0x97FB, 0x985E]),
  (0xC440, [0x9858, 0x985B, 0x98BC, 0x9945, 0x9949, 0x9A16, 0x9A19, 0x9B0D, 0x9BE8, 0x9BE7, 0x9BD6, 0x9BDB]),
  (0xC44C, [0x9D89, 0x9D61, 0x9D72, 0x9D6A, 0x9D6C, 0x9E92, 0x9E97, 0x9E93, 0x9EB4, 0x52F8, 0x56A8, 0x56B7]),
  (0xC458, [0x56B6, 0x56B4, 0x56BC, 0x58E4, 0x5B40, 0x5B43, 0x5B7D, 0x5BF6, 0x5DC9, 0x61F8, 0x61FA, 0x6518]),
  (0xC464, [0x6514, 0x6519, 0x66E6, 0x6727, 0x6AEC, 0x703E, 0x7030, 0x7032, 0x7210, 0x737B, 0x74CF, 0x7662]),
  (0xC470, [0x7665, 0x7926, 0x792A, 0x792C, 0x792B, 0x7AC7, 0x7AF6, 0x7C4C, 0x7C43, 0x7C4D, 0x7CEF, 0x7CF0]),
  (0xC47C, [0x8FAE, 0x7E7D, 0x7E7C]),
  (0xC4A1, [0x7E82, 0x7F4C, 0x8000, 0x81DA, 0x8266, 0x85FB, 0x85F9, 0x8611, 0x85FA, 0x8606, 0x860B, 0x8607]),
  (0xC4AD, [0x860A, 0x8814, 0x8815, 0x8964, 0x89BA, 0x89F8, 0x8B70, 0x8B6C, 0x8B66, 0x8B6F, 0x8B5F, 0x8B6B]),
  (0xC4B9, [0x8D0F, 0x8D0D, 0x8E89, 0x8E81, 0x8E85, 0x8E82, 0x91B4, 0x91CB, 0x9418, 0x9403, 0x93FD, 0x95E1]),
  (0xC4C5, [0x9730, 0x98C4, 0x9952, 0x9951, 0x99A8, 0x9A2B, 0x9A30, 0x9A37, 0x9A35, 0x9C13, 0x9C0D, 0x9E79]),
  (0xC4D1, [0x9EB5, 0x9EE8, 0x9F2F, 0x9F5F, 0x9F63, 0x9F61, 0x5137, 0x5138, 0x56C1, 0x56C0, 0x56C2, 0x5914]),
  (0xC4DD, [0x5C6C, 0x5DCD, 0x61FC, 0x61FE, 0x651D, 0x651C, 0x6595, 0x66E9, 0x6AFB, 0x6B04, 0x6AFA, 0x6BB2]),
  (0xC4E9, [0x704C, 0x721B, 0x72A7, 0x74D6, 0x74D4, 0x7669, 0x77D3, 0x7C50, 0x7E8F, 0x7E8C, 0x7FBC, 0x8617]),
  (0xC4F5, [0x862D, 0x861A, 0x8823, 0x8822, 0x8821, 0x881F, 0x896A, 0x896C, 0x89BD, 0x8B74]),
  (0xC540, [0x8B77, 0x8B7D, 0x8D13, 0x8E8A, 0x8E8D, 0x8E8B, 0x8F5F, 0x8FAF, 0x91BA, 0x942E, 0x9433, 0x9435]),
  (0xC54C, [0x943A, 0x9438, 0x9432, 0x942B, 0x95E2, 0x9738, 0x9739, 0x9732, 0x97FF, 0x9867, 0x9865, 0x9957]),
  (0xC558, [0x9A45, 0x9A43, 0x9A40, 0x9A3E, 0x9ACF, 0x9B54, 0x9B51, 0x9C2D, 0x9C25, 0x9DAF, 0x9DB4, 0x9DC2]),
  (0xC564, [0x9DB8, 0x9E9D, 0x9EEF, 0x9F19, 0x9F5C, 0x9F66, 0x9F67, 0x513C, 0x513B, 0x56C8, 0x56CA, 0x56C9]),
  (0xC570, [0x5B7F, 0x5DD4, 0x5DD2, 0x5F4E, 0x61FF, 0x6524, 0x6B0A, 0x6B61, 0x7051, 0x7058, 0x7380, 0x74E4]),
  (0xC57C, [0x758A, 0x766E, 0x766C]),
  (0xC5A1, [0x79B3, 0x7C60, 0x7C5F, 0x807E, 0x807D, 0x81DF, 0x8972, 0x896F, 0x89FC, 0x8B80, 0x8D16, 0x8D17]),
  (0xC5AD, [0x8E91, 0x8E93, 0x8F61, 0x9148, 0x9444, 0x9451, 0x9452, 0x973D, 0x973E, 0x97C3, 0x97C1, 0x986B]),
  (0xC5B9, [0x9955, 0x9A55, 0x9A4D, 0x9AD2, 0x9B1A, 0x9C49, 0x9C31, 0x9C3E, 0x9C3B, 0x9DD3, 0x9DD7, 0x9F34]),
  (0xC5C5, [0x9F6C, 0x9F6A, 0x9F94, 0x56CC, 0x5DD6, 0x6200, 0x6523, 0x652B, 0x652A, 0x66EC, 0x6B10, 0x74DA]),
  (0xC5D1, [0x7ACA, 0x7C64, 0x7C63, 0x7C65, 0x7E93, 0x7E96, 0x7E94, 0x81E2, 0x8638, 0x863F, 0x8831, 0x8B8A]),
  (0xC5DD, [0x9090, 0x908F, 0x9463, 0x9460, 0x9464, 0x9768, 0x986F, 0x995C, 0x9A5A, 0x9A5B, 0x9A57, 0x9AD3]),
  (0xC5E9, [0x9AD4, 0x9AD1, 0x9C54, 0x9C57, 0x9C56, 0x9DE5, 0x9E9F, 0x9EF4, 0x56D1, 0x58E9, 0x652C, 0x705E]),
  (0xC5F5, [0x7671, 0x7672, 0x77D7, 0x7F50, 0x7F88, 0x8836, 0x8839, 0x8862, 0x8B93, 0x8B92]),
  (0xC640, [0x8B96, 0x8277, 0x8D1B, 0x91C0, 0x946A, 0x9742, 0x9748, 0x9744, 0x97C6, 0x9870, 0x9A5F, 0x9B22]),
  (0xC64C, [0x9B58, 0x9C5F, 0x9DF9, 0x9DFA, 0x9E7C, 0x9E7D, 0x9F07, 0x9F77, 0x9F72, 0x5EF3, 0x6B16, 0x7063]),
  (0xC658, [0x7C6C, 0x7C6E, 0x883B, 0x89C0, 0x8EA1, 0x91C1, 0x9472, 0x9470, 0x9871, 0x995E, 0x9AD6, 0x9B23]),
  (0xC664, [0x9ECC, 0x7064, 0x77DA, 0x8B9A, 0x9477, 0x97C9, 0x9A62, 0x9A65, 0x7E9C, 0x8B9C, 0x8EAA, 0x91C5]),
  (0xC670, [0x947D, 0x947E, 0x947C, 0x9C77, 0x9C78, 0x9EF7, 0x8C54, 0x947F, 0x9E1A, 0x7228, 0x9A6A, 0x9B31]),
  (0xC67C, [0x9E1B, 0x9E1E, 0x7C72]),
  (0xC6A1, [0x2460, 0x2461, 0x2462, 0x2463, 0x2464, 0x2465, 0x2466, 0x2467, 0x2468, 0x2469, 0x2474, 0x2475]),
  (0xC6AD, [0x2476, 0x2477, 0x2478, 0x2479, 0x247A, 0x247B, 0x247C, 0x247D, 0x2170, 0x2171, 0x2172, 0x2173]),
  (0xC6B9, [0x2174, 0x2175, 0x2176, 0x2177, 0x2178, 0x2179, 0x2F02, 0x2F03, 0x2F05, 0x2F07, 0x2F0C, 0x2F0D]),
  (0xC6C5, [0x2F0E, 0x2F13, 0x2F16, 0x2F19, 0x2F1B, 0x2F22, 0x2F27, 0x2F2E, 0x2F33, 0x2F34, 0x2F35, 0x2F39]),
  (0xC6D1, [0x2F3A, 0x2F41, 0x2F46, 0x2F67, 0x2F68, 0x2FA1, 0x2FAA, 0xA8, 0x2C6, 0x30FD, 0x30FE, 0x309D]),
  (0xC6DD, [0x309E, 0xF6EE, 0xF6EF, 0x3005, 0x3006, 0x3007, 0x30FC, 0xFF3B, 0xFF3D, 0x273D, 0x3041, 0x3042]),
  (0xC6E9, [0x3043, 0x3044, 0x3045, 0x3046, 0x3047, 0x3048, 0x3049, 0x304A, 0x304B, 0x304C, 0x304D, 0x304E]),
  (0xC6F5, [0x304F, 0x3050, 0x3051, 0x3052, 0x3053, 0x3054, 0x3055, 0x3056, 0x3057, 0x3058]),
  (0xC740, [0x3059, 0x305A, 0x305B, 0x305C, 0x305D, 0x305E, 0x305F, 0x3060, 0x3061, 0x3062, 0x3063, 0x3064]),
  (0xC74C, [0x3065, 0x3066, 0x3067, 0x3068, 0x3069, 0x306A, 0x306B, 0x306C, 0x306D, 0x306E, 0x306F, 0x3070]),
  (0xC758, [0x3071, 0x3072, 0x3073, 0x3074, 0x3075, 0x3076, 0x3077, 0x3078, 0x3079, 0x307A, 0x307B, 0x307C]),
  (0xC764, [0x307D, 0x307E, 0x307F, 0x3080, 0x3081, 0x3082, 0x3083, 0x3084, 0x3085, 0x3086, 0x3087, 0x3088]),
  (0xC770, [0x3089, 0x308A, 0x308B, 0x308C, 0x308D, 0x308E, 0x308F, 0x3090, 0x3091, 0x3092, 0x3093, 0x30A1]),
  (0xC77C, [0x30A2, 0x30A3, 0x30A4]),
  (0xC7A1, [0x30A5, 0x30A6, 0x30A7, 0x30A8, 0x30A9, 0x30AA, 0x30AB, 0x30AC, 0x30AD, 0x30AE, 0x30AF, 0x30B0]),
  (0xC7AD, [0x30B1, 0x30B2, 0x30B3, 0x30B4, 0x30B5, 0x30B6, 0x30B7, 0x30B8, 0x30B9, 0x30BA, 0x30BB, 0x30BC]),
  (0xC7B9, [0x30BD, 0x30BE, 0x30BF, 0x30C0, 0x30C1, 0x30C2, 0x30C3, 0x30C4, 0x30C5, 0x30C6, 0x30C7, 0x30C8]),
  (0xC7C5, [0x30C9, 0x30CA, 0x30CB, 0x30CC, 0x30CD, 0x30CE, 0x30CF, 0x30D0, 0x30D1, 0x30D2, 0x30D3, 0x30D4]),
  (0xC7D1, [0x30D5, 0x30D6, 0x30D7, 0x30D8, 0x30D9, 0x30DA, 0x30DB, 0x30DC, 0x30DD, 0x30DE, 0x30DF, 0x30E0]),
  (0xC7DD, [0x30E1, 0x30E2, 0x30E3, 0x30E4, 0x30E5, 0x30E6, 0x30E7, 0x30E8, 0x30E9, 0x30EA, 0x30EB, 0x30EC]),
  (0xC7E9, [0x30ED, 0x30EE, 0x30EF, 0x30F0, 0x30F1, 0x30F2, 0x30F3, 0x30F4, 0x30F5, 0x30F6, 0x410, 0x411]),
  (0xC7F5, [0x412, 0x413, 0x414, 0x415, 0x401, 0x416, 0x417, 0x418, 0x419, 0x41A]),
  (0xC840, [0x41B, 0x41C, 0x41D, 0x41E, 0x41F, 0x420, 0x421, 0x422, 0x423, 0x424, 0x425, 0x426]),
  (0xC84C, [0x427, 0x428, 0x429, 0x42A, 0x42B, 0x42C, 0x42D, 0x42E, 0x42F, 0x430, 0x431, 0x432]),
  (0xC858, [0x433, 0x434, 0x435, 0x451, 0x436, 0x437, 0x438, 0x439, 0x43A, 0x43B, 0x43C, 0x43D]),
  (0xC864, [0x43E, 0x43F, 0x440, 0x441, 0x442, 0x443, 0x444, 0x445, 0x446, 0x447, 0x448, 0x449]),
  (0xC870, [0x44A, 0x44B, 0x44C, 0x44D, 0x44E, 0x44F, 0x21E7, 0x21B8, 0x21B9, 0xF7E5, 0x200CC, 0x4E5A]),
  (0xC87C, [0x2008A, 0x5202, 0xF7EA]),
  (0xC8A1, [0xF7EB, 0x5188, 0xF7ED, 0x27607, 0xF7EF, 0xF7F0, 0xF7F1, 0xF7F2, 0xF7F3, 0xF7F4, 0xF7F5, 0xF7F6]),
  (0xC8AD, [0xF7F7, 0xF7F8, 0xF7F9, 0xF7FA, 0xF7FB, 0xF7FC, 0xF7FD, 0xF7FE, 0xF7FF, 0xF800, 0xF801, 0xF802]),
  (0xC8B9, [0xF803, 0xF804, 0xF805, 0xF806, 0xF807, 0xF808, 0xF809, 0xF80A, 0xF80B, 0xF80C, 0xF80D, 0xF80E]),
  (0xC8C5, [0xF80F, 0xF810, 0xF811, 0xF812, 0xF813, 0xF814, 0xF815, 0xF816, 0xFFE2, 0xFFE4, 0xFF07, 0xFF02]),
  (0xC8D1, [0x3231, 0x2116, 0x2121, 0x309B, 0x309C, 0x2E80, 0x2E84, 0x2E86, 0x2E87, 0x2E88, 0x2E8A, 0x2E8C]),
  (0xC8DD, [0x2E8D, 0x2E95, 0x2E9C, 0x2E9D, 0x2EA5, 0x2EA7, 0x2EAA, 0x2EAC, 0x2EAE, 0x2EB6, 0x2EBC, 0x2EBE]),
  (0xC8E9, [0x2EC6, 0x2ECA, 0x2ECC, 0x2ECD, 0x2ECF, 0x2ED6, 0x2ED7, 0x2EDE, 0x2EE3]),
  (0xC8F5, [0x283, 0x250, 0x25B, 0x254, 0x275, 0x153, 0xF8, 0x14B, 0x28A, 0x26A]),
  (0xC940, [0x4E42, 0x4E5C, 0x51F5, 0x531A, 0x5382, 0x4E07, 0x4E0C, 0x4E47, 0x4E8D, 0x56D7, 0xFA0C, 0x5C6E]),
  (0xC94C, [0x5F73, 0x4E0F, 0x5187, 0x4E0E, 0x4E2E, 0x4E93, 0x4EC2, 0x4EC9, 0x4EC8, 0x5198, 0x52FC, 0x536C]),
  (0xC958, [0x53B9, 0x5720, 0x5903, 0x592C, 0x5C10, 0x5DFF, 0x65E1, 0x6BB3, 0x6BCC, 0x6C14, 0x723F, 0x4E31]),
  (0xC964, [0x4E3C, 0x4EE8, 0x4EDC, 0x4EE9, 0x4EE1, 0x4EDD, 0x4EDA, 0x520C, 0x531C, 0x534C, 0x5722, 0x5723]),
  (0xC970, [0x5917, 0x592F, 0x5B81, 0x5B84, 0x5C12, 0x5C3B, 0x5C74, 0x5C73, 0x5E04, 0x5E80, 0x5E82, 0x5FC9]),
  (0xC97C, [0x6209, 0x6250, 0x6C15]),
  (0xC9A1, [0x6C36, 0x6C43, 0x6C3F, 0x6C3B, 0x72AE, 0x72B0, 0x738A, 0x79B8, 0x808A, 0x961E, 0x4F0E, 0x4F18]),
  (0xC9AD, [0x4F2C, 0x4EF5, 0x4F14, 0x4EF1, 0x4F00, 0x4EF7, 0x4F08, 0x4F1D, 0x4F02, 0x4F05, 0x4F22, 0x4F13]),
  (0xC9B9, [0x4F04, 0x4EF4, 0x4F12, 0x51B1, 0x5213, 0x5209, 0x5210, 0x52A6, 0x5322, 0x531F, 0x534D, 0x538A]),
  (0xC9C5, [0x5407, 0x56E1, 0x56DF, 0x572E, 0x572A, 0x5734, 0x593C, 0x5980, 0x597C, 0x5985, 0x597B, 0x597E]),
  (0xC9D1, [0x5977, 0x597F, 0x5B56, 0x5C15, 0x5C25, 0x5C7C, 0x5C7A, 0x5C7B, 0x5C7E, 0x5DDF, 0x5E75, 0x5E84]),
  (0xC9DD, [0x5F02, 0x5F1A, 0x5F74, 0x5FD5, 0x5FD4, 0x5FCF, 0x625C, 0x625E, 0x6264, 0x6261, 0x6266, 0x6262]),
  (0xC9E9, [0x6259, 0x6260, 0x625A, 0x6265, 0x65EF, 0x65EE, 0x673E, 0x6739, 0x6738, 0x673B, 0x673A, 0x673F]),
  (0xC9F5, [0x673C, 0x6733, 0x6C18, 0x6C46, 0x6C52, 0x6C5C, 0x6C4F, 0x6C4A, 0x6C54, 0x6C4B]),
  (0xCA40, [0x6C4C, 0x7071, 0x725E, 0x72B4, 0x72B5, 0x738E, 0x752A, 0x767F, 0x7A75, 0x7F51, 0x8278, 0x827C]),
  (0xCA4C, [0x8280, 0x827D, 0x827F, 0x864D, 0x897E, 0x9099, 0x9097, 0x9098, 0x909B, 0x9094, 0x9622, 0x9624]),
  (0xCA58, [0x9620, 0x9623, 0x4F56, 0x4F3B, 0x4F62, 0x4F49, 0x4F53, 0x4F64, 0x4F3E, 0x4F67, 0x4F52, 0x4F5F]),
  (0xCA64, [0x4F41, 0x4F58, 0x4F2D, 0x4F33, 0x4F3F, 0x4F61, 0x518F, 0x51B9, 0x521C, 0x521E, 0x5221, 0x52AD]),
  (0xCA70, [0x52AE, 0x5309, 0x5363, 0x5372, 0x538E, 0x538F, 0x5430, 0x5437, 0x542A, 0x5454, 0x5445, 0x5419]),
  (0xCA7C, [0x541C, 0x5425, 0x5418]),
  (0xCAA1, [0x543D, 0x544F, 0x5441, 0x5428, 0x5424, 0x5447, 0x56EE, 0x56E7, 0x56E5, 0x5741, 0x5745, 0x574C]),
  (0xCAAD, [0x5749, 0x574B, 0x5752, 0x5906, 0x5940, 0x59A6, 0x5998, 0x59A0, 0x5997, 0x598E, 0x59A2, 0x5990]),
  (0xCAB9, [0x598F, 0x59A7, 0x59A1, 0x5B8E, 0x5B92, 0x5C28, 0x5C2A, 0x5C8D, 0x5C8F, 0x5C88, 0x5C8B, 0x5C89]),
  (0xCAC5, [0x5C92, 0x5C8A, 0x5C86, 0x5C93, 0x5C95, 0x5DE0, 0x5E0A, 0x5E0E, 0x5E8B, 0x5E89, 0x5E8C, 0x5E88]),
  (0xCAD1, [0x5E8D, 0x5F05, 0x5F1D, 0x5F78, 0x5F76, 0x5FD2, 0x5FD1, 0x5FD0, 0x5FED, 0x5FE8, 0x5FEE, 0x5FF3]),
  (0xCADD, [0x5FE1, 0x5FE4, 0x5FE3, 0x5FFA, 0x5FEF, 0x5FF7, 0x5FFB, 0x6000, 0x5FF4, 0x623A, 0x6283, 0x628C]),
  (0xCAE9, [0x628E, 0x628F, 0x6294, 0x6287, 0x6271, 0x627B, 0x627A, 0x6270, 0x6281, 0x6288, 0x6277, 0x627D]),
  (0xCAF5, [0x6272, 0x6274, 0x6537, 0x65F0, 0x65F4, 0x65F3, 0x65F2, 0x65F5, 0x6745, 0x6747]),
  (0xCB40, [0x6759, 0x6755, 0x674C, 0x6748, 0x675D, 0x674D, 0x675A, 0x674B, 0x6BD0, 0x6C19, 0x6C1A, 0x6C78]),
  (0xCB4C, [0x6C67, 0x6C6B, 0x6C84, 0x6C8B, 0x6C8F, 0x6C71, 0x6C6F, 0x6C69, 0x6C9A, 0x6C6D, 0x6C87, 0x6C95]),
  (0xCB58, [0x6C9C, 0x6C66, 0x6C73, 0x6C65, 0x6C7B, 0x6C8E, 0x7074, 0x707A, 0x7263, 0x72BF, 0x72BD, 0x72C3]),
  (0xCB64, [0x72C6, 0x72C1, 0x72BA, 0x72C5, 0x7395, 0x7397, 0x7393, 0x7394, 0x7392, 0x753A, 0x7539, 0x7594]),
  (0xCB70, [0x7595, 0x7681, 0x793D, 0x8034, 0x8095, 0x8099, 0x8090, 0x8092, 0x809C, 0x8290, 0x828F, 0x8285]),
  (0xCB7C, [0x828E, 0x8291, 0x8293]),
  (0xCBA1, [0x828A, 0x8283, 0x8284, 0x8C78, 0x8FC9, 0x8FBF, 0x909F, 0x90A1, 0x90A5, 0x909E, 0x90A7, 0x90A0]),
  (0xCBAD, [0x9630, 0x9628, 0x962F, 0x962D, 0x4E33, 0x4F98, 0x4F7C, 0x4F85, 0x4F7D, 0x4F80, 0x4F87, 0x4F76]),
  (0xCBB9, [0x4F74, 0x4F89, 0x4F84, 0x4F77, 0x4F4C, 0x4F97, 0x4F6A, 0x4F9A, 0x4F79, 0x4F81, 0x4F78, 0x4F90]),
  (0xCBC5, [0x4F9C, 0x4F94, 0x4F9E, 0x4F92, 0x4F82, 0x4F95, 0x4F6B, 0x4F6E, 0x519E, 0x51BC, 0x51BE, 0x5235]),
  (0xCBD1, [0x5232, 0x5233, 0x5246, 0x5231, 0x52BC, 0x530A, 0x530B, 0x533C, 0x5392, 0x5394, 0x5487, 0x547F]),
  (0xCBDD, [0x5481, 0x5491, 0x5482, 0x5488, 0x546B, 0x547A, 0x547E, 0x5465, 0x546C, 0x5474, 0x5466, 0x548D]),
  (0xCBE9, [0x546F, 0x5461, 0x5460, 0x5498, 0x5463, 0x5467, 0x5464, 0x56F7, 0x56F9, 0x576F, 0x5772, 0x576D]),
  (0xCBF5, [0x576B, 0x5771, 0x5770, 0x5776, 0x5780, 0x5775, 0x577B, 0x5773, 0x5774, 0x5762]),
  (0xCC40, [0x5768, 0x577D, 0x590C, 0x5945, 0x59B5, 0x59BA, 0x59CF, 0x59CE, 0x59B2, 0x59CC, 0x59C1, 0x59B6]),
  (0xCC4C, [0x59BC, 0x59C3, 0x59D6, 0x59B1, 0x59BD, 0x59C0, 0x59C8, 0x59B4, 0x59C7, 0x5B62, 0x5B65, 0x5B93]),
  (0xCC58, [0x5B95, 0x5C44, 0x5C47, 0x5CAE, 0x5CA4, 0x5CA0, 0x5CB5, 0x5CAF, 0x5CA8, 0x5CAC, 0x5C9F, 0x5CA3]),
  (0xCC64, [0x5CAD, 0x5CA2, 0x5CAA, 0x5CA7, 0x5C9D, 0x5CA5, 0x5CB6, 0x5CB0, 0x5CA6, 0x5E17, 0x5E14, 0x5E19]),
  (0xCC70, [0x5F28, 0x5F22, 0x5F23, 0x5F24, 0x5F54, 0x5F82, 0x5F7E, 0x5F7D, 0x5FDE, 0x5FE5, 0x602D, 0x6026]),
  (0xCC7C, [0x6019, 0x6032, 0x600B]),
  (0xCCA1, [0x6034, 0x600A, 0x6017, 0x6033, 0x601A, 0x601E, 0x602C, 0x6022, 0x600D, 0x6010, 0x602E, 0x6013]),
  (0xCCAD, [0x6011, 0x600C, 0x6009, 0x601C, 0x6214, 0x623D, 0x62AD, 0x62B4, 0x62D1, 0x62BE, 0x62AA, 0x62B6]),
  (0xCCB9, [0x62CA, 0x62AE, 0x62B3, 0x62AF, 0x62BB, 0x62A9, 0x62B0, 0x62B8, 0x653D, 0x65A8, 0x65BB, 0x6609]),
  (0xCCC5, [0x65FC, 0x6604, 0x6612, 0x6608, 0x65FB, 0x6603, 0x660B, 0x660D, 0x6605, 0x65FD, 0x6611, 0x6610]),
  (0xCCD1, [0x66F6, 0x670A, 0x6785, 0x676C, 0x678E, 0x6792, 0x6776, 0x677B, 0x6798, 0x6786, 0x6784, 0x6774]),
  (0xCCDD, [0x678D, 0x678C, 0x677A, 0x679F, 0x6791, 0x6799, 0x6783, 0x677D, 0x6781, 0x6778, 0x6779, 0x6794]),
  (0xCCE9, [0x6B25, 0x6B80, 0x6B7E, 0x6BDE, 0x6C1D, 0x6C93, 0x6CEC, 0x6CEB, 0x6CEE, 0x6CD9, 0x6CB6, 0x6CD4]),
  (0xCCF5, [0x6CAD, 0x6CE7, 0x6CB7, 0x6CD0, 0x6CC2, 0x6CBA, 0x6CC3, 0x6CC6, 0x6CED, 0x6CF2]),
  (0xCD40, [0x6CD2, 0x6CDD, 0x6CB4, 0x6C8A, 0x6C9D, 0x6C80, 0x6CDE, 0x6CC0, 0x6D30, 0x6CCD, 0x6CC7, 0x6CB0]),
  (0xCD4C, [0x6CF9, 0x6CCF, 0x6CE9, 0x6CD1, 0x7094, 0x7098, 0x7085, 0x7093, 0x7086, 0x7084, 0x7091, 0x7096]),
  (0xCD58, [0x7082, 0x709A, 0x7083, 0x726A, 0x72D6, 0x72CB, 0x72D8, 0x72C9, 0x72DC, 0x72D2, 0x72D4, 0x72DA]),
  (0xCD64, [0x72CC, 0x72D1, 0x73A4, 0x73A1, 0x73AD, 0x73A6, 0x73A2, 0x73A0, 0x73AC, 0x739D, 0x74DD, 0x74E8]),
  (0xCD70, [0x753F, 0x7540, 0x753E, 0x758C, 0x7598, 0x76AF, 0x76F3, 0x76F1, 0x76F0, 0x76F5, 0x77F8, 0x77FC]),
  (0xCD7C, [0x77F9, 0x77FB, 0x77FA]),
  (0xCDA1, [0x77F7, 0x7942, 0x793F, 0x79C5, 0x7A78, 0x7A7B, 0x7AFB, 0x7C75, 0x7CFD, 0x8035, 0x808F, 0x80AE]),
  (0xCDAD, [0x80A3, 0x80B8, 0x80B5, 0x80AD, 0x8220, 0x82A0, 0x82C0, 0x82AB, 0x829A, 0x8298, 0x829B, 0x82B5]),
  (0xCDB9, [0x82A7, 0x82AE, 0x82BC, 0x829E, 0x82BA, 0x82B4, 0x82A8, 0x82A1, 0x82A9, 0x82C2, 0x82A4, 0x82C3]),
  (0xCDC5, [0x82B6, 0x82A2, 0x8670, 0x866F, 0x866D, 0x866E, 0x8C56, 0x8FD2, 0x8FCB, 0x8FD3, 0x8FCD, 0x8FD6]),
  (0xCDD1, [0x8FD5, 0x8FD7, 0x90B2, 0x90B4, 0x90AF, 0x90B3, 0x90B0, 0x9639, 0x963D, 0x963C, 0x963A, 0x9643]),
  (0xCDDD, [0x4FCD, 0x4FC5, 0x4FD3, 0x4FB2, 0x4FC9, 0x4FCB, 0x4FC1, 0x4FD4, 0x4FDC, 0x4FD9, 0x4FBB, 0x4FB3]),
  (0xCDE9, [0x4FDB, 0x4FC7, 0x4FD6, 0x4FBA, 0x4FC0, 0x4FB9, 0x4FEC, 0x5244, 0x5249, 0x52C0, 0x52C2, 0x533D]),
  (0xCDF5, [0x537C, 0x5397, 0x5396, 0x5399, 0x5398, 0x54BA, 0x54A1, 0x54AD, 0x54A5, 0x54CF]),
  (0xCE40, [0x54C3, 0x830D, 0x54B7, 0x54AE, 0x54D6, 0x54B6, 0x54C5, 0x54C6, 0x54A0, 0x5470, 0x54BC, 0x54A2]),
  (0xCE4C, [0x54BE, 0x5472, 0x54DE, 0x54B0, 0x57B5, 0x579E, 0x579F, 0x57A4, 0x578C, 0x5797, 0x579D, 0x579B]),
  (0xCE58, [0x5794, 0x5798, 0x578F, 0x5799, 0x57A5, 0x579A, 0x5795, 0x58F4, 0x590D, 0x5953, 0x59E1, 0x59DE]),
  (0xCE64, [0x59EE, 0x5A00, 0x59F1, 0x59DD, 0x59FA, 0x59FD, 0x59FC, 0x59F6, 0x59E4, 0x59F2, 0x59F7, 0x59DB]),
  (0xCE70, [0x59E9, 0x59F3, 0x59F5, 0x59E0, 0x59FE, 0x59F4, 0x59ED, 0x5BA8, 0x5C4C, 0x5CD0, 0x5CD8, 0x5CCC]),
  (0xCE7C, [0x5CD7, 0x5CCB, 0x5CDB]),
  (0xCEA1, [0x5CDE, 0x5CDA, 0x5CC9, 0x5CC7, 0x5CCA, 0x5CD6, 0x5CD3, 0x5CD4, 0x5CCF, 0x5CC8, 0x5CC6, 0x5CCE]),
  (0xCEAD, [0x5CDF, 0x5CF8, 0x5DF9, 0x5E21, 0x5E22, 0x5E23, 0x5E20, 0x5E24, 0x5EB0, 0x5EA4, 0x5EA2, 0x5E9B]),
  (0xCEB9, [0x5EA3, 0x5EA5, 0x5F07, 0x5F2E, 0x5F56, 0x5F86, 0x6037, 0x6039, 0x6054, 0x6072, 0x605E, 0x6045]),
  (0xCEC5, [0x6053, 0x6047, 0x6049, 0x605B, 0x604C, 0x6040, 0x6042, 0x605F, 0x6024, 0x6044, 0x6058, 0x6066]),
  (0xCED1, [0x606E, 0x6242, 0x6243, 0x62CF, 0x630D, 0x630B, 0x62F5, 0x630E, 0x6303, 0x62EB, 0x62F9, 0x630F]),
  (0xCEDD, [0x630C, 0x62F8, 0x62F6, 0x6300, 0x6313, 0x6314, 0x62FA, 0x6315, 0x62FB, 0x62F0, 0x6541, 0x6543]),
  (0xCEE9, [0x65AA, 0x65BF, 0x6636, 0x6621, 0x6632, 0x6635, 0x661C, 0x6626, 0x6622, 0x6633, 0x662B, 0x663A]),
  (0xCEF5, [0x661D, 0x6634, 0x6639, 0x662E, 0x670F, 0x6710, 0x67C1, 0x67F2, 0x67C8, 0x67BA]),
  (0xCF40, [0x67DC, 0x67BB, 0x67F8, 0x67D8, 0x67C0, 0x67B7, 0x67C5, 0x67EB, 0x67E4, 0x67DF, 0x67B5, 0x67CD]),
  (0xCF4C, [0x67B3, 0x67F7, 0x67F6, 0x67EE, 0x67E3, 0x67C2, 0x67B9, 0x67CE, 0x67E7, 0x67F0, 0x67B2, 0x67FC]),
  (0xCF58, [0x67C6, 0x67ED, 0x67CC, 0x67AE, 0x67E6, 0x67DB, 0x67FA, 0x67C9, 0x67CA, 0x67C3, 0x67EA, 0x67CB]),
  (0xCF64, [0x6B28, 0x6B82, 0x6B84, 0x6BB6, 0x6BD6, 0x6BD8, 0x6BE0, 0x6C20, 0x6C21, 0x6D28, 0x6D34, 0x6D2D]),
  (0xCF70, [0x6D1F, 0x6D3C, 0x6D3F, 0x6D12, 0x6D0A, 0x6CDA, 0x6D33, 0x6D04, 0x6D19, 0x6D3A, 0x6D1A, 0x6D11]),
  (0xCF7C, [0x6D00, 0x6D1D, 0x6D42]),
  (0xCFA1, [0x6D01, 0x6D18, 0x6D37, 0x6D03, 0x6D0F, 0x6D40, 0x6D07, 0x6D20, 0x6D2C, 0x6D08, 0x6D22, 0x6D09]),
  (0xCFAD, [0x6D10, 0x70B7, 0x709F, 0x70BE, 0x70B1, 0x70B0, 0x70A1, 0x70B4, 0x70B5, 0x70A9, 0x7241, 0x7249]),
  (0xCFB9, [0x724A, 0x726C, 0x7270, 0x7273, 0x726E, 0x72CA, 0x72E4, 0x72E8, 0x72EB, 0x72DF, 0x72EA, 0x72E6]),
  (0xCFC5, [0x72E3, 0x7385, 0x73CC, 0x73C2, 0x73C8, 0x73C5, 0x73B9, 0x73B6, 0x73B5, 0x73B4, 0x73EB, 0x73BF]),
  (0xCFD1, [0x73C7, 0x73BE, 0x73C3, 0x73C6, 0x73B8, 0x73CB, 0x74EC, 0x74EE, 0x752E, 0x7547, 0x7548, 0x75A7]),
  (0xCFDD, [0x75AA, 0x7679, 0x76C4, 0x7708, 0x7703, 0x7704, 0x7705, 0x770A, 0x76F7, 0x76FB, 0x76FA, 0x77E7]),
  (0xCFE9, [0x77E8, 0x7806, 0x7811, 0x7812, 0x7805, 0x7810, 0x780F, 0x780E, 0x7809, 0x7803, 0x7813, 0x794A]),
  (0xCFF5, [0x794C, 0x794B, 0x7945, 0x7944, 0x79D5, 0x79CD, 0x79CF, 0x79D6, 0x79CE, 0x7A80]),
  (0xD040, [0x7A7E, 0x7AD1, 0x7B00, 0x7B01, 0x7C7A, 0x7C78, 0x7C79, 0x7C7F, 0x7C80, 0x7C81, 0x7D03, 0x7D08]),
  (0xD04C, [0x7D01, 0x7F58, 0x7F91, 0x7F8D, 0x7FBE, 0x8007, 0x800E, 0x800F, 0x8014, 0x8037, 0x80D8, 0x80C7]),
  (0xD058, [0x80E0, 0x80D1, 0x80C8, 0x80C2, 0x80D0, 0x80C5, 0x80E3, 0x80D9, 0x80DC, 0x80CA, 0x80D5, 0x80C9]),
  (0xD064, [0x80CF, 0x80D7, 0x80E6, 0x80CD, 0x81FF, 0x8221, 0x8294, 0x82D9, 0x82FE, 0x82F9, 0x8307, 0x82E8]),
  (0xD070, [0x8300, 0x82D5, 0x833A, 0x82EB, 0x82D6, 0x82F4, 0x82EC, 0x82E1, 0x82F2, 0x82F5, 0x830C, 0x82FB]),
  (0xD07C, [0x82F6, 0x82F0, 0x82EA]),
  (0xD0A1, [0x82E4, 0x82E0, 0x82FA, 0x82F3, 0x82ED, 0x8677, 0x8674, 0x867C, 0x8673, 0x8841, 0x884E, 0x8867]),
  (0xD0AD, [0x886A, 0x8869, 0x89D3, 0x8A04, 0x8A07, 0x8D72, 0x8FE3, 0x8FE1, 0x8FEE, 0x8FE0, 0x90F1, 0x90BD]),
  (0xD0B9, [0x90BF, 0x90D5, 0x90C5, 0x90BE, 0x90C7, 0x90CB, 0x90C8, 0x91D4, 0x91D3, 0x9654, 0x964F, 0x9651]),
  (0xD0C5, [0x9653, 0x964A, 0x964E, 0x501E, 0x5005, 0x5007, 0x5013, 0x5022, 0x5030, 0x501B, 0x4FF5, 0x4FF4]),
  (0xD0D1, [0x5033, 0x5037, 0x502C, 0x4FF6, 0x4FF7, 0x5017, 0x501C, 0x5020, 0x5027, 0x5035, 0x502F, 0x5031]),
  (0xD0DD, [0x500E, 0x515A, 0x5194, 0x5193, 0x51CA, 0x51C4, 0x51C5, 0x51C8, 0x51CE, 0x5261, 0x525A, 0x5252]),
  (0xD0E9, [0x525E, 0x525F, 0x5255, 0x5262, 0x52CD, 0x530E, 0x539E, 0x5526, 0x54E2, 0x5517, 0x5512, 0x54E7]),
  (0xD0F5, [0x54F3, 0x54E4, 0x551A, 0x54FF, 0x5504, 0x5508, 0x54EB, 0x5511, 0x5505, 0x54F1]),
  (0xD140, [0x550A, 0x54FB, 0x54F7, 0x54F8, 0x54E0, 0x550E, 0x5503, 0x550B, 0x5701, 0x5702, 0x57CC, 0x5832]),
  (0xD14C, [0x57D5, 0x57D2, 0x57BA, 0x57C6, 0x57BD, 0x57BC, 0x57B8, 0x57B6, 0x57BF, 0x57C7, 0x57D0, 0x57B9]),
  (0xD158, [0x57C1, 0x590E, 0x594A, 0x5A19, 0x5A16, 0x5A2D, 0x5A2E, 0x5A15, 0x5A0F, 0x5A17, 0x5A0A, 0x5A1E]),
  (0xD164, [0x5A33, 0x5B6C, 0x5BA7, 0x5BAD, 0x5BAC, 0x5C03, 0x5C56, 0x5C54, 0x5CEC, 0x5CFF, 0x5CEE, 0x5CF1]),
  (0xD170, [0x5CF7, 0x5D00, 0x5CF9, 0x5E29, 0x5E28, 0x5EA8, 0x5EAE, 0x5EAA, 0x5EAC, 0x5F33, 0x5F30, 0x5F67]),
  (0xD17C, [0x605D, 0x605A, 0x6067]),
  (0xD1A1, [0x6041, 0x60A2, 0x6088, 0x6080, 0x6092, 0x6081, 0x609D, 0x6083, 0x6095, 0x609B, 0x6097, 0x6087]),
  (0xD1AD, [0x609C, 0x608E, 0x6219, 0x6246, 0x62F2, 0x6310, 0x6356, 0x632C, 0x6344, 0x6345, 0x6336, 0x6343]),
  (0xD1B9, [0x63E4, 0x6339, 0x634B, 0x634A, 0x633C, 0x6329, 0x6341, 0x6334, 0x6358, 0x6354, 0x6359, 0x632D]),
  (0xD1C5, [0x6347, 0x6333, 0x635A, 0x6351, 0x6338, 0x6357, 0x6340, 0x6348, 0x654A, 0x6546, 0x65C6, 0x65C3]),
  (0xD1D1, [0x65C4, 0x65C2, 0x664A, 0x665F, 0x6647, 0x6651, 0x6712, 0x6713, 0x681F, 0x681A, 0x6849, 0x6832]),
  (0xD1DD, [0x6833, 0x683B, 0x684B, 0x684F, 0x6816, 0x6831, 0x681C, 0x6835, 0x682B, 0x682D, 0x682F, 0x684E]),
  (0xD1E9, [0x6844, 0x6834, 0x681D, 0x6812, 0x6814, 0x6826, 0x6828, 0x682E, 0x684D, 0x683A, 0x6825, 0x6820]),
  (0xD1F5, [0x6B2C, 0x6B2F, 0x6B2D, 0x6B31, 0x6B34, 0x6B6D, 0x8082, 0x6B88, 0x6BE6, 0x6BE4]),
  (0xD240, [0x6BE8, 0x6BE3, 0x6BE2, 0x6BE7, 0x6C25, 0x6D7A, 0x6D63, 0x6D64, 0x6D76, 0x6D0D, 0x6D61, 0x6D92]),
  (0xD24C, [0x6D58, 0x6D62, 0x6D6D, 0x6D6F, 0x6D91, 0x6D8D, 0x6DEF, 0x6D7F, 0x6D86, 0x6D5E, 0x6D67, 0x6D60]),
  (0xD258, [0x6D97, 0x6D70, 0x6D7C, 0x6D5F, 0x6D82, 0x6D98, 0x6D2F, 0x6D68, 0x6D8B, 0x6D7E, 0x6D80, 0x6D84]),
  (0xD264, [0x6D16, 0x6D83, 0x6D7B, 0x6D7D, 0x6D75, 0x6D90, 0x70DC, 0x70D3, 0x70D1, 0x70DD, 0x70CB, 0x7F39]),
  (0xD270, [0x70E2, 0x70D7, 0x70D2, 0x70DE, 0x70E0, 0x70D4, 0x70CD, 0x70C5, 0x70C6, 0x70C7, 0x70DA, 0x70CE]),
  (0xD27C, [0x70E1, 0x7242, 0x7278]),
  (0xD2A1, [0x7277, 0x7276, 0x7300, 0x72FA, 0x72F4, 0x72FE, 0x72F6, 0x72F3, 0x72FB, 0x7301, 0x73D3, 0x73D9]),
  (0xD2AD, [0x73E5, 0x73D6, 0x73BC, 0x73E7, 0x73E3, 0x73E9, 0x73DC, 0x73D2, 0x73DB, 0x73D4, 0x73DD, 0x73DA]),
  (0xD2B9, [0x73D7, 0x73D8, 0x73E8, 0x74DE, 0x74DF, 0x74F4, 0x74F5, 0x7521, 0x755B, 0x755F, 0x75B0, 0x75C1]),
  (0xD2C5, [0x75BB, 0x75C4, 0x75C0, 0x75BF, 0x75B6, 0x75BA, 0x768A, 0x76C9, 0x771D, 0x771B, 0x7710, 0x7713]),
  (0xD2D1, [0x7712, 0x7723, 0x7711, 0x7715, 0x7719, 0x771A, 0x7722, 0x7727, 0x7823, 0x782C, 0x7822, 0x7835]),
  (0xD2DD, [0x782F, 0x7828, 0x782E, 0x782B, 0x7821, 0x7829, 0x7833, 0x782A, 0x7831, 0x7954, 0x795B, 0x794F]),
  (0xD2E9, [0x795C, 0x7953, 0x7952, 0x7951, 0x79EB, 0x79EC, 0x79E0, 0x79EE, 0x79ED, 0x79EA, 0x79DC, 0x79DE]),
  (0xD2F5, [0x79DD, 0x7A86, 0x7A89, 0x7A85, 0x7A8B, 0x7A8C, 0x7A8A, 0x7A87, 0x7AD8, 0x7B10]),
  (0xD340, [0x7B04, 0x7B13, 0x7B05, 0x7B0F, 0x7B08, 0x7B0A, 0x7B0E, 0x7B09, 0x7B12, 0x7C84, 0x7C91, 0x7C8A]),
  (0xD34C, [0x7C8C, 0x7C88, 0x7C8D, 0x7C85, 0x7D1E, 0x7D1D, 0x7D11, 0x7D0E, 0x7D18, 0x7D16, 0x7D13, 0x7D1F]),
  (0xD358, [0x7D12, 0x7D0F, 0x7D0C, 0x7F5C, 0x7F61, 0x7F5E, 0x7F60, 0x7F5D, 0x7F5B, 0x7F96, 0x7F92, 0x7FC3]),
  (0xD364, [0x7FC2, 0x7FC0, 0x8016, 0x803E, 0x8039, 0x80FA, 0x80F2, 0x80F9, 0x80F5, 0x8101, 0x80FB, 0x8100]),
  (0xD370, [0x8201, 0x822F, 0x8225, 0x8333, 0x832D, 0x8344, 0x8319, 0x8351, 0x8325, 0x8356, 0x833F, 0x8341]),
  (0xD37C, [0x8326, 0x831C, 0x8322]),
  (0xD3A1, [0x8342, 0x834E, 0x831B, 0x832A, 0x8308, 0x833C, 0x834D, 0x8316, 0x8324, 0x8320, 0x8337, 0x832F]),
  (0xD3AD, [0x8329, 0x8347, 0x8345, 0x834C, 0x8353, 0x831E, 0x832C, 0x834B, 0x8327, 0x8348, 0x8653, 0x8652]),
  (0xD3B9, [0x86A2, 0x86A8, 0x8696, 0x868D, 0x8691, 0x869E, 0x8687, 0x8697, 0x8686, 0x868B, 0x869A, 0x8685]),
  (0xD3C5, [0x86A5, 0x8699, 0x86A1, 0x86A7, 0x8695, 0x8698, 0x868E, 0x869D, 0x8690, 0x8694, 0x8843, 0x8844]),
  (0xD3D1, [0x886D, 0x8875, 0x8876, 0x8872, 0x8880, 0x8871, 0x887F, 0x886F, 0x8883, 0x887E, 0x8874, 0x887C]),
  (0xD3DD, [0x8A12, 0x8C47, 0x8C57, 0x8C7B, 0x8CA4, 0x8CA3, 0x8D76, 0x8D78, 0x8DB5, 0x8DB7, 0x8DB6, 0x8ED1]),
  (0xD3E9, [0x8ED3, 0x8FFE, 0x8FF5, 0x9002, 0x8FFF, 0x8FFB, 0x9004, 0x8FFC, 0x8FF6, 0x90D6, 0x90E0, 0x90D9]),
  (0xD3F5, [0x90DA, 0x90E3, 0x90DF, 0x90E5, 0x90D8, 0x90DB, 0x90D7, 0x90DC, 0x90E4, 0x9150]),
  (0xD440, [0x914E, 0x914F, 0x91D5, 0x91E2, 0x91DA, 0x965C, 0x965F, 0x96BC, 0x98E3, 0x9ADF, 0x9B2F, 0x4E7F]),
  (0xD44C, [0x5070, 0x506A, 0x5061, 0x505E, 0x5060, 0x5053, 0x504B, 0x505D, 0x5072, 0x5048, 0x504D, 0x5041]),
  (0xD458, [0x505B, 0x504A, 0x5062, 0x5015, 0x5045, 0x505F, 0x5069, 0x506B, 0x5063, 0x5064, 0x5046, 0x5040]),
  (0xD464, [0x506E, 0x5073, 0x5057, 0x5051, 0x51D0, 0x526B, 0x526D, 0x526C, 0x526E, 0x52D6, 0x52D3, 0x532D]),
  (0xD470, [0x539C, 0x5575, 0x5576, 0x553C, 0x554D, 0x5550, 0x5534, 0x552A, 0x5551, 0x5562, 0x5536, 0x5535]),
  (0xD47C, [0x5530, 0x5552, 0x5545]),
  (0xD4A1, [0x550C, 0x5532, 0x5565, 0x554E, 0x5539, 0x5548, 0x552D, 0x553B, 0x5540, 0x554B, 0x570A, 0x5707]),
  (0xD4AD, [0x57FB, 0x5814, 0x57E2, 0x57F6, 0x57DC, 0x57F4, 0x5800, 0x57ED, 0x57FD, 0x5808, 0x57F8, 0x580B]),
  (0xD4B9, [0x57F3, 0x57CF, 0x5807, 0x57EE, 0x57E3, 0x57F2, 0x57E5, 0x57EC, 0x57E1, 0x580E, 0x57FC, 0x5810]),
  (0xD4C5, [0x57E7, 0x5801, 0x580C, 0x57F1, 0x57E9, 0x57F0, 0x580D, 0x5804, 0x595C, 0x5A60, 0x5A58, 0x5A55]),
  (0xD4D1, [0x5A67, 0x5A5E, 0x5A38, 0x5A35, 0x5A6D, 0x5A50, 0x5A5F, 0x5A65, 0x5A6C, 0x5A53, 0x5A64, 0x5A57]),
  (0xD4DD, [0x5A43, 0x5A5D, 0x5A52, 0x5A44, 0x5A5B, 0x5A48, 0x5A8E, 0x5A3E, 0x5A4D, 0x5A39, 0x5A4C, 0x5A70]),
  (0xD4E9, [0x5A69, 0x5A47, 0x5A51, 0x5A56, 0x5A42, 0x5A5C, 0x5B72, 0x5B6E, 0x5BC1, 0x5BC0, 0x5C59, 0x5D1E]),
  (0xD4F5, [0x5D0B, 0x5D1D, 0x5D1A, 0x5D20, 0x5D0C, 0x5D28, 0x5D0D, 0x5D26, 0x5D25, 0x5D0F]),
  (0xD540, [0x5D30, 0x5D12, 0x5D23, 0x5D1F, 0x5D2E, 0x5E3E, 0x5E34, 0x5EB1, 0x5EB4, 0x5EB9, 0x5EB2, 0x5EB3]),
  (0xD54C, [0x5F36, 0x5F38, 0x5F9B, 0x5F96, 0x5F9F, 0x608A, 0x6090, 0x6086, 0x60BE, 0x60B0, 0x60BA, 0x60D3]),
  (0xD558, [0x60D4, 0x60CF, 0x60E4, 0x60D9, 0x60DD, 0x60C8, 0x60B1, 0x60DB, 0x60B7, 0x60CA, 0x60BF, 0x60C3]),
  (0xD564, [0x60CD, 0x60C0, 0x6332, 0x6365, 0x638A, 0x6382, 0x637D, 0x63BD, 0x639E, 0x63AD, 0x639D, 0x6397]),
  (0xD570, [0x63AB, 0x638E, 0x636F, 0x6387, 0x6390, 0x636E, 0x63AF, 0x6375, 0x639C, 0x636D, 0x63AE, 0x637C]),
  (0xD57C, [0x63A4, 0x633B, 0x639F]),
  (0xD5A1, [0x6378, 0x6385, 0x6381, 0x6391, 0x638D, 0x6370, 0x6553, 0x65CD, 0x6665, 0x6661, 0x665B, 0x6659]),
  (0xD5AD, [0x665C, 0x6662, 0x6718, 0x6879, 0x6887, 0x6890, 0x689C, 0x686D, 0x686E, 0x68AE, 0x68AB, 0x6956]),
  (0xD5B9, [0x686F, 0x68A3, 0x68AC, 0x68A9, 0x6875, 0x6874, 0x68B2, 0x688F, 0x6877, 0x6892, 0x687C, 0x686B]),
  (0xD5C5, [0x6872, 0x68AA, 0x6880, 0x6871, 0x687E, 0x689B, 0x6896, 0x688B, 0x68A0, 0x6889, 0x68A4, 0x6878]),
  (0xD5D1, [0x687B, 0x6891, 0x688C, 0x688A, 0x687D, 0x6B36, 0x6B33, 0x6B37, 0x6B38, 0x6B91, 0x6B8F, 0x6B8D]),
  (0xD5DD, [0x6B8E, 0x6B8C, 0x6C2A, 0x6DC0, 0x6DAB, 0x6DB4, 0x6DB3, 0x6E74, 0x6DAC, 0x6DE9, 0x6DE2, 0x6DB7]),
  (0xD5E9, [0x6DF6, 0x6DD4, 0x6E00, 0x6DC8, 0x6DE0, 0x6DDF, 0x6DD6, 0x6DBE, 0x6DE5, 0x6DDC, 0x6DDD, 0x6DDB]),
  (0xD5F5, [0x6DF4, 0x6DCA, 0x6DBD, 0x6DED, 0x6DF0, 0x6DBA, 0x6DD5, 0x6DC2, 0x6DCF, 0x6DC9]),
  (0xD640, [0x6DD0, 0x6DF2, 0x6DD3, 0x6DFD, 0x6DD7, 0x6DCD, 0x6DE3, 0x6DBB, 0x70FA, 0x710D, 0x70F7, 0x7117]),
  (0xD64C, [0x70F4, 0x710C, 0x70F0, 0x7104, 0x70F3, 0x7110, 0x70FC, 0x70FF, 0x7106, 0x7113, 0x7100, 0x70F8]),
  (0xD658, [0x70F6, 0x710B, 0x7102, 0x710E, 0x727E, 0x727B, 0x727C, 0x727F, 0x731D, 0x7317, 0x7307, 0x7311]),
  (0xD664, [0x7318, 0x730A, 0x7308, 0x72FF, 0x730F, 0x731E, 0x7388, 0x73F6, 0x73F8, 0x73F5, 0x7404, 0x7401]),
  (0xD670, [0x73FD, 0x7407, 0x7400, 0x73FA, 0x73FC, 0x73FF, 0x740C, 0x740B, 0x73F4, 0x7408, 0x7564, 0x7563]),
  (0xD67C, [0x75CE, 0x75D2, 0x75CF]),
  (0xD6A1, [0x75CB, 0x75CC, 0x75D1, 0x75D0, 0x768F, 0x7689, 0x76D3, 0x7739, 0x772F, 0x772D, 0x7731, 0x7732]),
  (0xD6AD, [0x7734, 0x7733, 0x773D, 0x7725, 0x773B, 0x7735, 0x7848, 0x7852, 0x7849, 0x784D, 0x784A, 0x784C]),
  (0xD6B9, [0x7826, 0x7845, 0x7850, 0x7964, 0x7967, 0x7969, 0x796A, 0x7963, 0x796B, 0x7961, 0x79BB, 0x79FA]),
  (0xD6C5, [0x79F8, 0x79F6, 0x79F7, 0x7A8F, 0x7A94, 0x7A90, 0x7B35, 0x7B47, 0x7B34, 0x7B25, 0x7B30, 0x7B22]),
  (0xD6D1, [0x7B24, 0x7B33, 0x7B18, 0x7B2A, 0x7B1D, 0x7B31, 0x7B2B, 0x7B2D, 0x7B2F, 0x7B32, 0x7B38, 0x7B1A]),
  (0xD6DD, [0x7B23, 0x7C94, 0x7C98, 0x7C96, 0x7CA3, 0x7D35, 0x7D3D, 0x7D38, 0x7D36, 0x7D3A, 0x7D45, 0x7D2C]),
  (0xD6E9, [0x7D29, 0x7D41, 0x7D47, 0x7D3E, 0x7D3F, 0x7D4A, 0x7D3B, 0x7D28, 0x7F63, 0x7F95, 0x7F9C, 0x7F9D]),
  (0xD6F5, [0x7F9B, 0x7FCA, 0x7FCB, 0x7FCD, 0x7FD0, 0x7FD1, 0x7FC7, 0x7FCF, 0x7FC9, 0x801F]),
  (0xD740, [0x801E, 0x801B, 0x8047, 0x8043, 0x8048, 0x8118, 0x8125, 0x8119, 0x811B, 0x812D, 0x811F, 0x812C]),
  (0xD74C, [0x811E, 0x8121, 0x8115, 0x8127, 0x811D, 0x8122, 0x8211, 0x8238, 0x8233, 0x823A, 0x8234, 0x8232]),
  (0xD758, [0x8274, 0x8390, 0x83A3, 0x83A8, 0x838D, 0x837A, 0x8373, 0x83A4, 0x8374, 0x838F, 0x8381, 0x8395]),
  (0xD764, [0x8399, 0x8375, 0x8394, 0x83A9, 0x837D, 0x8383, 0x838C, 0x839D, 0x839B, 0x83AA, 0x838B, 0x837E]),
  (0xD770, [0x83A5, 0x83AF, 0x8388, 0x8397, 0x83B0, 0x837F, 0x83A6, 0x8387, 0x83AE, 0x8376, 0x839A, 0x8659]),
  (0xD77C, [0x8656, 0x86BF, 0x86B7]),
  (0xD7A1, [0x86C2, 0x86C1, 0x86C5, 0x86BA, 0x86B0, 0x86C8, 0x86B9, 0x86B3, 0x86B8, 0x86CC, 0x86B4, 0x86BB]),
  (0xD7AD, [0x86BC, 0x86C3, 0x86BD, 0x86BE, 0x8852, 0x8889, 0x8895, 0x88A8, 0x88A2, 0x88AA, 0x889A, 0x8891]),
  (0xD7B9, [0x88A1, 0x889F, 0x8898, 0x88A7, 0x8899, 0x889B, 0x8897, 0x88A4, 0x88AC, 0x888C, 0x8893, 0x888E]),
  (0xD7C5, [0x8982, 0x89D6, 0x89D9, 0x89D5, 0x8A30, 0x8A27, 0x8A2C, 0x8A1E, 0x8C39, 0x8C3B, 0x8C5C, 0x8C5D]),
  (0xD7D1, [0x8C7D, 0x8CA5, 0x8D7D, 0x8D7B, 0x8D79, 0x8DBC, 0x8DC2, 0x8DB9, 0x8DBF, 0x8DC1, 0x8ED8, 0x8EDE]),
  (0xD7DD, [0x8EDD, 0x8EDC, 0x8ED7, 0x8EE0, 0x8EE1, 0x9024, 0x900B, 0x9011, 0x901C, 0x900C, 0x9021, 0x90EF]),
  (0xD7E9, [0x90EA, 0x90F0, 0x90F4, 0x90F2, 0x90F3, 0x90D4, 0x90EB, 0x90EC, 0x90E9, 0x9156, 0x9158, 0x915A]),
  (0xD7F5, [0x9153, 0x9155, 0x91EC, 0x91F4, 0x91F1, 0x91F3, 0x91F8, 0x91E4, 0x91F9, 0x91EA]),
  (0xD840, [0x91EB, 0x91F7, 0x91E8, 0x91EE, 0x957A, 0x9586, 0x9588, 0x967C, 0x966D, 0x966B, 0x9671, 0x966F]),
  (0xD84C, [0x96BF, 0x976A, 0x9804, 0x98E5, 0x9997, 0x509B, 0x5095, 0x5094, 0x509E, 0x508B, 0x50A3, 0x5083]),
  (0xD858, [0x508C, 0x508E, 0x509D, 0x5068, 0x509C, 0x5092, 0x5082, 0x5087, 0x515F, 0x51D4, 0x5312, 0x5311]),
  (0xD864, [0x53A4, 0x53A7, 0x5591, 0x55A8, 0x55A5, 0x55AD, 0x5577, 0x5645, 0x55A2, 0x5593, 0x5588, 0x558F]),
  (0xD870, [0x55B5, 0x5581, 0x55A3, 0x5592, 0x55A4, 0x557D, 0x558C, 0x55A6, 0x557F, 0x5595, 0x55A1, 0x558E]),
  (0xD87C, [0x570C, 0x5829, 0x5837]),
  (0xD8A1, [0x5819, 0x581E, 0x5827, 0x5823, 0x5828, 0x57F5, 0x5848, 0x5825, 0x581C, 0x581B, 0x5833, 0x583F]),
  (0xD8AD, [0x5836, 0x582E, 0x5839, 0x5838, 0x582D, 0x582C, 0x583B, 0x5961, 0x5AAF, 0x5A94, 0x5A9F, 0x5A7A]),
  (0xD8B9, [0x5AA2, 0x5A9E, 0x5A78, 0x5AA6, 0x5A7C, 0x5AA5, 0x5AAC, 0x5A95, 0x5AAE, 0x5A37, 0x5A84, 0x5A8A]),
  (0xD8C5, [0x5A97, 0x5A83, 0x5A8B, 0x5AA9, 0x5A7B, 0x5A7D, 0x5A8C, 0x5A9C, 0x5A8F, 0x5A93, 0x5A9D, 0x5BEA]),
  (0xD8D1, [0x5BCD, 0x5BCB, 0x5BD4, 0x5BD1, 0x5BCA, 0x5BCE, 0x5C0C, 0x5C30, 0x5D37, 0x5D43, 0x5D6B, 0x5D41]),
  (0xD8DD, [0x5D4B, 0x5D3F, 0x5D35, 0x5D51, 0x5D4E, 0x5D55, 0x5D33, 0x5D3A, 0x5D52, 0x5D3D, 0x5D31, 0x5D59]),
  (0xD8E9, [0x5D42, 0x5D39, 0x5D49, 0x5D38, 0x5D3C, 0x5D32, 0x5D36, 0x5D40, 0x5D45, 0x5E44, 0x5E41, 0x5F58]),
  (0xD8F5, [0x5FA6, 0x5FA5, 0x5FAB, 0x60C9, 0x60B9, 0x60CC, 0x60E2, 0x60CE, 0x60C4, 0x6114]),
  (0xD940, [0x60F2, 0x610A, 0x6116, 0x6105, 0x60F5, 0x6113, 0x60F8, 0x60FC, 0x60FE, 0x60C1, 0x6103, 0x6118]),
  (0xD94C, [0x611D, 0x6110, 0x60FF, 0x6104, 0x610B, 0x624A, 0x6394, 0x63B1, 0x63B0, 0x63CE, 0x63E5, 0x63E8]),
  (0xD958, [0x63EF, 0x63C3, 0x649D, 0x63F3, 0x63CA, 0x63E0, 0x63F6, 0x63D5, 0x63F2, 0x63F5, 0x6461, 0x63DF]),
  (0xD964, [0x63BE, 0x63DD, 0x63DC, 0x63C4, 0x63D8, 0x63D3, 0x63C2, 0x63C7, 0x63CC, 0x63CB, 0x63C8, 0x63F0]),
  (0xD970, [0x63D7, 0x63D9, 0x6532, 0x6567, 0x656A, 0x6564, 0x655C, 0x6568, 0x6565, 0x658C, 0x659D, 0x659E]),
  (0xD97C, [0x65AE, 0x65D0, 0x65D2]),
  (0xD9A1, [0x667C, 0x666C, 0x667B, 0x6680, 0x6671, 0x6679, 0x666A, 0x6672, 0x6701, 0x690C, 0x68D3, 0x6904]),
  (0xD9AD, [0x68DC, 0x692A, 0x68EC, 0x68EA, 0x68F1, 0x690F, 0x68D6, 0x68F7, 0x68EB, 0x68E4, 0x68F6, 0x6913]),
  (0xD9B9, [0x6910, 0x68F3, 0x68E1, 0x6907, 0x68CC, 0x6908, 0x6970, 0x68B4, 0x6911, 0x68EF, 0x68C6, 0x6914]),
  (0xD9C5, [0x68F8, 0x68D0, 0x68FD, 0x68FC, 0x68E8, 0x690B, 0x690A, 0x6917, 0x68CE, 0x68C8, 0x68DD, 0x68DE]),
  (0xD9D1, [0x68E6, 0x68F4, 0x68D1, 0x6906, 0x68D4, 0x68E9, 0x6915, 0x6925, 0x68C7, 0x6B39, 0x6B3B, 0x6B3F]),
  (0xD9DD, [0x6B3C, 0x6B94, 0x6B97, 0x6B99, 0x6B95, 0x6BBD, 0x6BF0, 0x6BF2, 0x6BF3, 0x6C30, 0x6DFC, 0x6E46]),
  (0xD9E9, [0x6E47, 0x6E1F, 0x6E49, 0x6E88, 0x6E3C, 0x6E3D, 0x6E45, 0x6E62, 0x6E2B, 0x6E3F, 0x6E41, 0x6E5D]),
  (0xD9F5, [0x6E73, 0x6E1C, 0x6E33, 0x6E4B, 0x6E40, 0x6E51, 0x6E3B, 0x6E03, 0x6E2E, 0x6E5E]),
  (0xDA40, [0x6E68, 0x6E5C, 0x6E61, 0x6E31, 0x6E28, 0x6E60, 0x6E71, 0x6E6B, 0x6E39, 0x6E22, 0x6E30, 0x6E53]),
  (0xDA4C, [0x6E65, 0x6E27, 0x6E78, 0x6E64, 0x6E77, 0x6E55, 0x6E79, 0x6E52, 0x6E66, 0x6E35, 0x6E36, 0x6E5A]),
  (0xDA58, [0x7120, 0x711E, 0x712F, 0x70FB, 0x712E, 0x7131, 0x7123, 0x7125, 0x7122, 0x7132, 0x711F, 0x7128]),
  (0xDA64, [0x713A, 0x711B, 0x724B, 0x725A, 0x7288, 0x7289, 0x7286, 0x7285, 0x728B, 0x7312, 0x730B, 0x7330]),
  (0xDA70, [0x7322, 0x7331, 0x7333, 0x7327, 0x7332, 0x732D, 0x7326, 0x7323, 0x7335, 0x730C, 0x742E, 0x742C]),
  (0xDA7C, [0x7430, 0x742B, 0x7416]),
  (0xDAA1, [0x741A, 0x7421, 0x742D, 0x7431, 0x7424, 0x7423, 0x741D, 0x7429, 0x7420, 0x7432, 0x74FB, 0x752F]),
  (0xDAAD, [0x756F, 0x756C, 0x75E7, 0x75DA, 0x75E1, 0x75E6, 0x75DD, 0x75DF, 0x75E4, 0x75D7, 0x7695, 0x7692]),
  (0xDAB9, [0x76DA, 0x7746, 0x7747, 0x7744, 0x774D, 0x7745, 0x774A, 0x774E, 0x774B, 0x774C, 0x77DE, 0x77EC]),
  (0xDAC5, [0x7860, 0x7864, 0x7865, 0x785C, 0x786D, 0x7871, 0x786A, 0x786E, 0x7870, 0x7869, 0x7868, 0x785E]),
  (0xDAD1, [0x7862, 0x7974, 0x7973, 0x7972, 0x7970, 0x7A02, 0x7A0A, 0x7A03, 0x7A0C, 0x7A04, 0x7A99, 0x7AE6]),
  (0xDADD, [0x7AE4, 0x7B4A, 0x7B3B, 0x7B44, 0x7B48, 0x7B4C, 0x7B4E, 0x7B40, 0x7B58, 0x7B45, 0x7CA2, 0x7C9E]),
  (0xDAE9, [0x7CA8, 0x7CA1, 0x7D58, 0x7D6F, 0x7D63, 0x7D53, 0x7D56, 0x7D67, 0x7D6A, 0x7D4F, 0x7D6D, 0x7D5C]),
  (0xDAF5, [0x7D6B, 0x7D52, 0x7D54, 0x7D69, 0x7D51, 0x7D5F, 0x7D4E, 0x7F3E, 0x7F3F, 0x7F65]),
  (0xDB40, [0x7F66, 0x7FA2, 0x7FA0, 0x7FA1, 0x7FD7, 0x8051, 0x804F, 0x8050, 0x80FE, 0x80D4, 0x8143, 0x814A]),
  (0xDB4C, [0x8152, 0x814F, 0x8147, 0x813D, 0x814D, 0x813A, 0x81E6, 0x81EE, 0x81F7, 0x81F8, 0x81F9, 0x8204]),
  (0xDB58, [0x823C, 0x823D, 0x823F, 0x8275, 0x833B, 0x83CF, 0x83F9, 0x8423, 0x83C0, 0x83E8, 0x8412, 0x83E7]),
  (0xDB64, [0x83E4, 0x83FC, 0x83F6, 0x8410, 0x83C6, 0x83C8, 0x83EB, 0x83E3, 0x83BF, 0x8401, 0x83DD, 0x83E5]),
  (0xDB70, [0x83D8, 0x83FF, 0x83E1, 0x83CB, 0x83CE, 0x83D6, 0x83F5, 0x83C9, 0x8409, 0x840F, 0x83DE, 0x8411]),
  (0xDB7C, [0x8406, 0x83C2, 0x83F3]),
  (0xDBA1, [0x83D5, 0x83FA, 0x83C7, 0x83D1, 0x83EA, 0x8413, 0x83C3, 0x83EC, 0x83EE, 0x83C4, 0x83FB, 0x83D7]),
  (0xDBAD, [0x83E2, 0x841B, 0x83DB, 0x83FE, 0x86D8, 0x86E2, 0x86E6, 0x86D3, 0x86E3, 0x86DA, 0x86EA, 0x86DD]),
  (0xDBB9, [0x86EB, 0x86DC, 0x86EC, 0x86E9, 0x86D7, 0x86E8, 0x86D1, 0x8848, 0x8856, 0x8855, 0x88BA, 0x88D7]),
  (0xDBC5, [0x88B9, 0x88B8, 0x88C0, 0x88BE, 0x88B6, 0x88BC, 0x88B7, 0x88BD, 0x88B2, 0x8901, 0x88C9, 0x8995]),
  (0xDBD1, [0x8998, 0x8997, 0x89DD, 0x89DA, 0x89DB, 0x8A4E, 0x8A4D, 0x8A39, 0x8A59, 0x8A40, 0x8A57, 0x8A58]),
  (0xDBDD, [0x8A44, 0x8A45, 0x8A52, 0x8A48, 0x8A51, 0x8A4A, 0x8A4C, 0x8A4F, 0x8C5F, 0x8C81, 0x8C80, 0x8CBA]),
  (0xDBE9, [0x8CBE, 0x8CB0, 0x8CB9, 0x8CB5, 0x8D84, 0x8D80, 0x8D89, 0x8DD8, 0x8DD3, 0x8DCD, 0x8DC7, 0x8DD6]),
  (0xDBF5, [0x8DDC, 0x8DCF, 0x8DD5, 0x8DD9, 0x8DC8, 0x8DD7, 0x8DC5, 0x8EEF, 0x8EF7, 0x8EFA]),
  (0xDC40, [0x8EF9, 0x8EE6, 0x8EEE, 0x8EE5, 0x8EF5, 0x8EE7, 0x8EE8, 0x8EF6, 0x8EEB, 0x8EF1, 0x8EEC, 0x8EF4]),
  (0xDC4C, [0x8EE9, 0x902D, 0x9034, 0x902F, 0x9106, 0x912C, 0x9104, 0x90FF, 0x90FC, 0x9108, 0x90F9, 0x90FB]),
  (0xDC58, [0x9101, 0x9100, 0x9107, 0x9105, 0x9103, 0x9161, 0x9164, 0x915F, 0x9162, 0x9160, 0x9201, 0x920A]),
  (0xDC64, [0x9225, 0x9203, 0x921A, 0x9226, 0x920F, 0x920C, 0x9200, 0x9212, 0x91FF, 0x91FD, 0x9206, 0x9204]),
  (0xDC70, [0x9227, 0x9202, 0x921C, 0x9224, 0x9219, 0x9217, 0x9205, 0x9216, 0x957B, 0x958D, 0x958C, 0x9590]),
  (0xDC7C, [0x9687, 0x967E, 0x9688]),
  (0xDCA1, [0x9689, 0x9683, 0x9680, 0x96C2, 0x96C8, 0x96C3, 0x96F1, 0x96F0, 0x976C, 0x9770, 0x976E, 0x9807]),
  (0xDCAD, [0x98A9, 0x98EB, 0x9CE6, 0x9EF9, 0x4E83, 0x4E84, 0x4EB6, 0x50BD, 0x50BF, 0x50C6, 0x50AE, 0x50C4]),
  (0xDCB9, [0x50CA, 0x50B4, 0x50C8, 0x50C2, 0x50B0, 0x50C1, 0x50BA, 0x50B1, 0x50CB, 0x50C9, 0x50B6, 0x50B8]),
  (0xDCC5, [0x51D7, 0x527A, 0x5278, 0x527B, 0x527C, 0x55C3, 0x55DB, 0x55CC, 0x55D0, 0x55CB, 0x55CA, 0x55DD]),
  (0xDCD1, [0x55C0, 0x55D4, 0x55C4, 0x55E9, 0x55BF, 0x55D2, 0x558D, 0x55CF, 0x55D5, 0x55E2, 0x55D6, 0x55C8]),
  (0xDCDD, [0x55F2, 0x55CD, 0x55D9, 0x55C2, 0x5714, 0x5853, 0x5868, 0x5864, 0x584F, 0x584D, 0x5849, 0x586F]),
  (0xDCE9, [0x5855, 0x584E, 0x585D, 0x5859, 0x5865, 0x585B, 0x583D, 0x5863, 0x5871, 0x58FC, 0x5AC7, 0x5AC4]),
  (0xDCF5, [0x5ACB, 0x5ABA, 0x5AB8, 0x5AB1, 0x5AB5, 0x5AB0, 0x5ABF, 0x5AC8, 0x5ABB, 0x5AC6]),
  (0xDD40, [0x5AB7, 0x5AC0, 0x5ACA, 0x5AB4, 0x5AB6, 0x5ACD, 0x5AB9, 0x5A90, 0x5BD6, 0x5BD8, 0x5BD9, 0x5C1F]),
  (0xDD4C, [0x5C33, 0x5D71, 0x5D63, 0x5D4A, 0x5D65, 0x5D72, 0x5D6C, 0x5D5E, 0x5D68, 0x5D67, 0x5D62, 0x5DF0]),
  (0xDD58, [0x5E4F, 0x5E4E, 0x5E4A, 0x5E4D, 0x5E4B, 0x5EC5, 0x5ECC, 0x5EC6, 0x5ECB, 0x5EC7, 0x5F40, 0x5FAF]),
  (0xDD64, [0x5FAD, 0x60F7, 0x6149, 0x614A, 0x612B, 0x6145, 0x6136, 0x6132, 0x612E, 0x6146, 0x612F, 0x614F]),
  (0xDD70, [0x6129, 0x6140, 0x6220, 0x9168, 0x6223, 0x6225, 0x6224, 0x63C5, 0x63F1, 0x63EB, 0x6410, 0x6412]),
  (0xDD7C, [0x6409, 0x6420, 0x6424]),
  (0xDDA1, [0x6433, 0x6443, 0x641F, 0x6415, 0x6418, 0x6439, 0x6437, 0x6422, 0x6423, 0x640C, 0x6426, 0x6430]),
  (0xDDAD, [0x6428, 0x6441, 0x6435, 0x642F, 0x640A, 0x641A, 0x6440, 0x6425, 0x6427, 0x640B, 0x63E7, 0x641B]),
  (0xDDB9, [0x642E, 0x6421, 0x640E, 0x656F, 0x6592, 0x65D3, 0x6686, 0x668C, 0x6695, 0x6690, 0x668B, 0x668A]),
  (0xDDC5, [0x6699, 0x6694, 0x6678, 0x6720, 0x6966, 0x695F, 0x6938, 0x694E, 0x6962, 0x6971, 0x693F, 0x6945]),
  (0xDDD1, [0x696A, 0x6939, 0x6942, 0x6957, 0x6959, 0x697A, 0x6948, 0x6949, 0x6935, 0x696C, 0x6933, 0x693D]),
  (0xDDDD, [0x6965, 0x68F0, 0x6978, 0x6934, 0x6969, 0x6940, 0x696F, 0x6944, 0x6976, 0x6958, 0x6941, 0x6974]),
  (0xDDE9, [0x694C, 0x693B, 0x694B, 0x6937, 0x695C, 0x694F, 0x6951, 0x6932, 0x6952, 0x692F, 0x697B, 0x693C]),
  (0xDDF5, [0x6B46, 0x6B45, 0x6B43, 0x6B42, 0x6B48, 0x6B41, 0x6B9B, 0xFA0D, 0x6BFB, 0x6BFC]),
  (0xDE40, [0x6BF9, 0x6BF7, 0x6BF8, 0x6E9B, 0x6ED6, 0x6EC8, 0x6E8F, 0x6EC0, 0x6E9F, 0x6E93, 0x6E94, 0x6EA0]),
  (0xDE4C, [0x6EB1, 0x6EB9, 0x6EC6, 0x6ED2, 0x6EBD, 0x6EC1, 0x6E9E, 0x6EC9, 0x6EB7, 0x6EB0, 0x6ECD, 0x6EA6]),
  (0xDE58, [0x6ECF, 0x6EB2, 0x6EBE, 0x6EC3, 0x6EDC, 0x6ED8, 0x6E99, 0x6E92, 0x6E8E, 0x6E8D, 0x6EA4, 0x6EA1]),
  (0xDE64, [0x6EBF, 0x6EB3, 0x6ED0, 0x6ECA, 0x6E97, 0x6EAE, 0x6EA3, 0x7147, 0x7154, 0x7152, 0x7163, 0x7160]),
  (0xDE70, [0x7141, 0x715D, 0x7162, 0x7172, 0x7178, 0x716A, 0x7161, 0x7142, 0x7158, 0x7143, 0x714B, 0x7170]),
  (0xDE7C, [0x715F, 0x7150, 0x7153]),
  (0xDEA1, [0x7144, 0x714D, 0x715A, 0x724F, 0x728D, 0x728C, 0x7291, 0x7290, 0x728E, 0x733C, 0x7342, 0x733B]),
  (0xDEAD, [0x733A, 0x7340, 0x734A, 0x7349, 0x7444, 0x744A, 0x744B, 0x7452, 0x7451, 0x7457, 0x7440, 0x744F]),
  (0xDEB9, [0x7450, 0x744E, 0x7442, 0x7446, 0x744D, 0x7454, 0x74E1, 0x74FF, 0x74FE, 0x74FD, 0x751D, 0x7579]),
  (0xDEC5, [0x7577, 0x6983, 0x75EF, 0x760F, 0x7603, 0x75F7, 0x75FE, 0x75FC, 0x75F9, 0x75F8, 0x7610, 0x75FB]),
  (0xDED1, [0x75F6, 0x75ED, 0x75F5, 0x75FD, 0x7699, 0x76B5, 0x76DD, 0x7755, 0x775F, 0x7760, 0x7752, 0x7756]),
  (0xDEDD, [0x775A, 0x7769, 0x7767, 0x7754, 0x7759, 0x776D, 0x77E0, 0x7887, 0x789A, 0x7894, 0x788F, 0x7884]),
  (0xDEE9, [0x7895, 0x7885, 0x7886, 0x78A1, 0x7883, 0x7879, 0x7899, 0x7880, 0x7896, 0x787B, 0x797C, 0x7982]),
  (0xDEF5, [0x797D, 0x7979, 0x7A11, 0x7A18, 0x7A19, 0x7A12, 0x7A17, 0x7A15, 0x7A22, 0x7A13]),
  (0xDF40, [0x7A1B, 0x7A10, 0x7AA3, 0x7AA2, 0x7A9E, 0x7AEB, 0x7B66, 0x7B64, 0x7B6D, 0x7B74, 0x7B69, 0x7B72]),
  (0xDF4C, [0x7B65, 0x7B73, 0x7B71, 0x7B70, 0x7B61, 0x7B78, 0x7B76, 0x7B63, 0x7CB2, 0x7CB4, 0x7CAF, 0x7D88]),
  (0xDF58, [0x7D86, 0x7D80, 0x7D8D, 0x7D7F, 0x7D85, 0x7D7A, 0x7D8E, 0x7D7B, 0x7D83, 0x7D7C, 0x7D8C, 0x7D94]),
  (0xDF64, [0x7D84, 0x7D7D, 0x7D92, 0x7F6D, 0x7F6B, 0x7F67, 0x7F68, 0x7F6C, 0x7FA6, 0x7FA5, 0x7FA7, 0x7FDB]),
  (0xDF70, [0x7FDC, 0x8021, 0x8164, 0x8160, 0x8177, 0x815C, 0x8169, 0x815B, 0x8162, 0x8172, 0x6721, 0x815E]),
  (0xDF7C, [0x8176, 0x8167, 0x816F]),
  (0xDFA1, [0x8144, 0x8161, 0x821D, 0x8249, 0x8244, 0x8240, 0x8242, 0x8245, 0x84F1, 0x843F, 0x8456, 0x8476]),
  (0xDFAD, [0x8479, 0x848F, 0x848D, 0x8465, 0x8451, 0x8440, 0x8486, 0x8467, 0x8430, 0x844D, 0x847D, 0x845A]),
  (0xDFB9, [0x8459, 0x8474, 0x8473, 0x845D, 0x8507, 0x845E, 0x8437, 0x843A, 0x8434, 0x847A, 0x8443, 0x8478]),
  (0xDFC5, [0x8432, 0x8445, 0x8429, 0x83D9, 0x844B, 0x842F, 0x8442, 0x842D, 0x845F, 0x8470, 0x8439, 0x844E]),
  (0xDFD1, [0x844C, 0x8452, 0x846F, 0x84C5, 0x848E, 0x843B, 0x8447, 0x8436, 0x8433, 0x8468, 0x847E, 0x8444]),
  (0xDFDD, [0x842B, 0x8460, 0x8454, 0x846E, 0x8450, 0x870B, 0x8704, 0x86F7, 0x870C, 0x86FA, 0x86D6, 0x86F5]),
  (0xDFE9, [0x874D, 0x86F8, 0x870E, 0x8709, 0x8701, 0x86F6, 0x870D, 0x8705, 0x88D6, 0x88CB, 0x88CD, 0x88CE]),
  (0xDFF5, [0x88DE, 0x88DB, 0x88DA, 0x88CC, 0x88D0, 0x8985, 0x899B, 0x89DF, 0x89E5, 0x89E4]),
  (0xE040, [0x89E1, 0x89E0, 0x89E2, 0x89DC, 0x89E6, 0x8A76, 0x8A86, 0x8A7F, 0x8A61, 0x8A3F, 0x8A77, 0x8A82]),
  (0xE04C, [0x8A84, 0x8A75, 0x8A83, 0x8A81, 0x8A74, 0x8A7A, 0x8C3C, 0x8C4B, 0x8C4A, 0x8C65, 0x8C64, 0x8C66]),
  (0xE058, [0x8C86, 0x8C84, 0x8C85, 0x8CCC, 0x8D68, 0x8D69, 0x8D91, 0x8D8C, 0x8D8E, 0x8D8F, 0x8D8D, 0x8D93]),
  (0xE064, [0x8D94, 0x8D90, 0x8D92, 0x8DF0, 0x8DE0, 0x8DEC, 0x8DF1, 0x8DEE, 0x8DD0, 0x8DE9, 0x8DE3, 0x8DE2]),
  (0xE070, [0x8DE7, 0x8DF2, 0x8DEB, 0x8DF4, 0x8F06, 0x8EFF, 0x8F01, 0x8F00, 0x8F05, 0x8F07, 0x8F08, 0x8F02]),
  (0xE07C, [0x8F0B, 0x9052, 0x903F]),
  (0xE0A1, [0x9044, 0x9049, 0x903D, 0x9110, 0x910D, 0x910F, 0x9111, 0x9116, 0x9114, 0x910B, 0x910E, 0x916E]),
  (0xE0AD, [0x916F, 0x9248, 0x9252, 0x9230, 0x923A, 0x9266, 0x9233, 0x9265, 0x925E, 0x9283, 0x922E, 0x924A]),
  (0xE0B9, [0x9246, 0x926D, 0x926C, 0x924F, 0x9260, 0x9267, 0x926F, 0x9236, 0x9261, 0x9270, 0x9231, 0x9254]),
  (0xE0C5, [0x9263, 0x9250, 0x9272, 0x924E, 0x9253, 0x924C, 0x9256, 0x9232, 0x959F, 0x959C, 0x959E, 0x959B]),
  (0xE0D1, [0x9692, 0x9693, 0x9691, 0x9697, 0x96CE, 0x96FA, 0x96FD, 0x96F8, 0x96F5, 0x9773, 0x9777, 0x9778]),
  (0xE0DD, [0x9772, 0x980F, 0x980D, 0x980E, 0x98AC, 0x98F6, 0x98F9, 0x99AF, 0x99B2, 0x99B0, 0x99B5, 0x9AAD]),
  (0xE0E9, [0x9AAB, 0x9B5B, 0x9CEA, 0x9CED, 0x9CE7, 0x9E80, 0x9EFD, 0x50E6, 0x50D4, 0x50D7, 0x50E8, 0x50F3]),
  (0xE0F5, [0x50DB, 0x50EA, 0x50DD, 0x50E4, 0x50D3, 0x50EC, 0x50F0, 0x50EF, 0x50E3, 0x50E0]),
  (0xE140, [0x51D8, 0x5280, 0x5281, 0x52E9, 0x52EB, 0x5330, 0x53AC, 0x5627, 0x5615, 0x560C, 0x5612, 0x55FC]),
  (0xE14C, [0x560F, 0x561C, 0x5601, 0x5613, 0x5602, 0x55FA, 0x561D, 0x5604, 0x55FF, 0x55F9, 0x5889, 0x587C]),
  (0xE158, [0x5890, 0x5898, 0x5886, 0x5881, 0x587F, 0x5874, 0x588B, 0x587A, 0x5887, 0x5891, 0x588E, 0x5876]),
  (0xE164, [0x5882, 0x5888, 0x587B, 0x5894, 0x588F, 0x58FE, 0x596B, 0x5ADC, 0x5AEE, 0x5AE5, 0x5AD5, 0x5AEA]),
  (0xE170, [0x5ADA, 0x5AED, 0x5AEB, 0x5AF3, 0x5AE2, 0x5AE0, 0x5ADB, 0x5AEC, 0x5ADE, 0x5ADD, 0x5AD9, 0x5AE8]),
  (0xE17C, [0x5ADF, 0x5B77, 0x5BE0]),
  (0xE1A1, [0x5BE3, 0x5C63, 0x5D82, 0x5D80, 0x5D7D, 0x5D86, 0x5D7A, 0x5D81, 0x5D77, 0x5D8A, 0x5D89, 0x5D88]),
  (0xE1AD, [0x5D7E, 0x5D7C, 0x5D8D, 0x5D79, 0x5D7F, 0x5E58, 0x5E59, 0x5E53, 0x5ED8, 0x5ED1, 0x5ED7, 0x5ECE]),
  (0xE1B9, [0x5EDC, 0x5ED5, 0x5ED9, 0x5ED2, 0x5ED4, 0x5F44, 0x5F43, 0x5F6F, 0x5FB6, 0x612C, 0x6128, 0x6141]),
  (0xE1C5, [0x615E, 0x6171, 0x6173, 0x6152, 0x6153, 0x6172, 0x616C, 0x6180, 0x6174, 0x6154, 0x617A, 0x615B]),
  (0xE1D1, [0x6165, 0x613B, 0x616A, 0x6161, 0x6156, 0x6229, 0x6227, 0x622B, 0x642B, 0x644D, 0x645B, 0x645D]),
  (0xE1DD, [0x6474, 0x6476, 0x6472, 0x6473, 0x647D, 0x6475, 0x6466, 0x64A6, 0x644E, 0x6482, 0x645E, 0x645C]),
  (0xE1E9, [0x644B, 0x6453, 0x6460, 0x6450, 0x647F, 0x643F, 0x646C, 0x646B, 0x6459, 0x6465, 0x6477, 0x6573]),
  (0xE1F5, [0x65A0, 0x66A1, 0x66A0, 0x669F, 0x6705, 0x6704, 0x6722, 0x69B1, 0x69B6, 0x69C9]),
  (0xE240, [0x69A0, 0x69CE, 0x6996, 0x69B0, 0x69AC, 0x69BC, 0x6991, 0x6999, 0x698E, 0x69A7, 0x698D, 0x69A9]),
  (0xE24C, [0x69BE, 0x69AF, 0x69BF, 0x69C4, 0x69BD, 0x69A4, 0x69D4, 0x69B9, 0x69CA, 0x699A, 0x69CF, 0x69B3]),
  (0xE258, [0x6993, 0x69AA, 0x69A1, 0x699E, 0x69D9, 0x6997, 0x6990, 0x69C2, 0x69B5, 0x69A5, 0x69C6, 0x6B4A]),
  (0xE264, [0x6B4D, 0x6B4B, 0x6B9E, 0x6B9F, 0x6BA0, 0x6BC3, 0x6BC4, 0x6BFE, 0x6ECE, 0x6EF5, 0x6EF1, 0x6F03]),
  (0xE270, [0x6F25, 0x6EF8, 0x6F37, 0x6EFB, 0x6F2E, 0x6F09, 0x6F4E, 0x6F19, 0x6F1A, 0x6F27, 0x6F18, 0x6F3B]),
  (0xE27C, [0x6F12, 0x6EED, 0x6F0A]),
  (0xE2A1, [0x6F36, 0x6F73, 0x6EF9, 0x6EEE, 0x6F2D, 0x6F40, 0x6F30, 0x6F3C, 0x6F35, 0x6EEB, 0x6F07, 0x6F0E]),
  (0xE2AD, [0x6F43, 0x6F05, 0x6EFD, 0x6EF6, 0x6F39, 0x6F1C, 0x6EFC, 0x6F3A, 0x6F1F, 0x6F0D, 0x6F1E, 0x6F08]),
  (0xE2B9, [0x6F21, 0x7187, 0x7190, 0x7189, 0x7180, 0x7185, 0x7182, 0x718F, 0x717B, 0x7186, 0x7181, 0x7197]),
  (0xE2C5, [0x7244, 0x7253, 0x7297, 0x7295, 0x7293, 0x7343, 0x734D, 0x7351, 0x734C, 0x7462, 0x7473, 0x7471]),
  (0xE2D1, [0x7475, 0x7472, 0x7467, 0x746E, 0x7500, 0x7502, 0x7503, 0x757D, 0x7590, 0x7616, 0x7608, 0x760C]),
  (0xE2DD, [0x7615, 0x7611, 0x760A, 0x7614, 0x76B8, 0x7781, 0x777C, 0x7785, 0x7782, 0x776E, 0x7780, 0x776F]),
  (0xE2E9, [0x777E, 0x7783, 0x78B2, 0x78AA, 0x78B4, 0x78AD, 0x78A8, 0x787E, 0x78AB, 0x789E, 0x78A5, 0x78A0]),
  (0xE2F5, [0x78AC, 0x78A2, 0x78A4, 0x7998, 0x798A, 0x798B, 0x7996, 0x7995, 0x7994, 0x7993]),
  (0xE340, [0x7997, 0x7988, 0x7992, 0x7990, 0x7A2B, 0x7A4A, 0x7A30, 0x7A2F, 0x7A28, 0x7A26, 0x7AA8, 0x7AAB]),
  (0xE34C, [0x7AAC, 0x7AEE, 0x7B88, 0x7B9C, 0x7B8A, 0x7B91, 0x7B90, 0x7B96, 0x7B8D, 0x7B8C, 0x7B9B, 0x7B8E]),
  (0xE358, [0x7B85, 0x7B98, 0x5284, 0x7B99, 0x7BA4, 0x7B82, 0x7CBB, 0x7CBF, 0x7CBC, 0x7CBA, 0x7DA7, 0x7DB7]),
  (0xE364, [0x7DC2, 0x7DA3, 0x7DAA, 0x7DC1, 0x7DC0, 0x7DC5, 0x7D9D, 0x7DCE, 0x7DC4, 0x7DC6, 0x7DCB, 0x7DCC]),
  (0xE370, [0x7DAF, 0x7DB9, 0x7D96, 0x7DBC, 0x7D9F, 0x7DA6, 0x7DAE, 0x7DA9, 0x7DA1, 0x7DC9, 0x7F73, 0x7FE2]),
  (0xE37C, [0x7FE3, 0x7FE5, 0x7FDE]),
  (0xE3A1, [0x8024, 0x805D, 0x805C, 0x8189, 0x8186, 0x8183, 0x8187, 0x818D, 0x818C, 0x818B, 0x8215, 0x8497]),
  (0xE3AD, [0x84A4, 0x84A1, 0x849F, 0x84BA, 0x84CE, 0x84C2, 0x84AC, 0x84AE, 0x84AB, 0x84B9, 0x84B4, 0x84C1]),
  (0xE3B9, [0x84CD, 0x84AA, 0x849A, 0x84B1, 0x84D0, 0x849D, 0x84A7, 0x84BB, 0x84A2, 0x8494, 0x84C7, 0x84CC]),
  (0xE3C5, [0x849B, 0x84A9, 0x84AF, 0x84A8, 0x84D6, 0x8498, 0x84B6, 0x84CF, 0x84A0, 0x84D7, 0x84D4, 0x84D2]),
  (0xE3D1, [0x84DB, 0x84B0, 0x8491, 0x8661, 0x8733, 0x8723, 0x8728, 0x876B, 0x8740, 0x872E, 0x871E, 0x8721]),
  (0xE3DD, [0x8719, 0x871B, 0x8743, 0x872C, 0x8741, 0x873E, 0x8746, 0x8720, 0x8732, 0x872A, 0x872D, 0x873C]),
  (0xE3E9, [0x8712, 0x873A, 0x8731, 0x8735, 0x8742, 0x8726, 0x8727, 0x8738, 0x8724, 0x871A, 0x8730, 0x8711]),
  (0xE3F5, [0x88F7, 0x88E7, 0x88F1, 0x88F2, 0x88FA, 0x88FE, 0x88EE, 0x88FC, 0x88F6, 0x88FB]),
  (0xE440, [0x88F0, 0x88EC, 0x88EB, 0x899D, 0x89A1, 0x899F, 0x899E, 0x89E9, 0x89EB, 0x89E8, 0x8AAB, 0x8A99]),
  (0xE44C, [0x8A8B, 0x8A92, 0x8A8F, 0x8A96, 0x8C3D, 0x8C68, 0x8C69, 0x8CD5, 0x8CCF, 0x8CD7, 0x8D96, 0x8E09]),
  (0xE458, [0x8E02, 0x8DFF, 0x8E0D, 0x8DFD, 0x8E0A, 0x8E03, 0x8E07, 0x8E06, 0x8E05, 0x8DFE, 0x8E00, 0x8E04]),
  (0xE464, [0x8F10, 0x8F11, 0x8F0E, 0x8F0D, 0x9123, 0x911C, 0x9120, 0x9122, 0x911F, 0x911D, 0x911A, 0x9124]),
  (0xE470, [0x9121, 0x911B, 0x917A, 0x9172, 0x9179, 0x9173, 0x92A5, 0x92A4, 0x9276, 0x929B, 0x927A, 0x92A0]),
  (0xE47C, [0x9294, 0x92AA, 0x928D]),
  (0xE4A1, [0x92A6, 0x929A, 0x92AB, 0x9279, 0x9297, 0x927F, 0x92A3, 0x92EE, 0x928E, 0x9282, 0x9295, 0x92A2]),
  (0xE4AD, [0x927D, 0x9288, 0x92A1, 0x928A, 0x9286, 0x928C, 0x9299, 0x92A7, 0x927E, 0x9287, 0x92A9, 0x929D]),
  (0xE4B9, [0x928B, 0x922D, 0x969E, 0x96A1, 0x96FF, 0x9758, 0x977D, 0x977A, 0x977E, 0x9783, 0x9780, 0x9782]),
  (0xE4C5, [0x977B, 0x9784, 0x9781, 0x977F, 0x97CE, 0x97CD, 0x9816, 0x98AD, 0x98AE, 0x9902, 0x9900, 0x9907]),
  (0xE4D1, [0x999D, 0x999C, 0x99C3, 0x99B9, 0x99BB, 0x99BA, 0x99C2, 0x99BD, 0x99C7, 0x9AB1, 0x9AE3, 0x9AE7]),
  (0xE4DD, [0x9B3E, 0x9B3F, 0x9B60, 0x9B61, 0x9B5F, 0x9CF1, 0x9CF2, 0x9CF5, 0x9EA7, 0x50FF, 0x5103, 0x5130]),
  (0xE4E9, [0x50F8, 0x5106, 0x5107, 0x50F6, 0x50FE, 0x510B, 0x510C, 0x50FD, 0x510A, 0x528B, 0x528C, 0x52F1]),
  (0xE4F5, [0x52EF, 0x5648, 0x5642, 0x564C, 0x5635, 0x5641, 0x564A, 0x5649, 0x5646, 0x5658]),
  (0xE540, [0x565A, 0x5640, 0x5633, 0x563D, 0x562C, 0x563E, 0x5638, 0x562A, 0x563A, 0x571A, 0x58AB, 0x589D]),
  (0xE54C, [0x58B1, 0x58A0, 0x58A3, 0x58AF, 0x58AC, 0x58A5, 0x58A1, 0x58FF, 0x5AFF, 0x5AF4, 0x5AFD, 0x5AF7]),
  (0xE558, [0x5AF6, 0x5B03, 0x5AF8, 0x5B02, 0x5AF9, 0x5B01, 0x5B07, 0x5B05, 0x5B0F, 0x5C67, 0x5D99, 0x5D97]),
  (0xE564, [0x5D9F, 0x5D92, 0x5DA2, 0x5D93, 0x5D95, 0x5DA0, 0x5D9C, 0x5DA1, 0x5D9A, 0x5D9E, 0x5E69, 0x5E5D]),
  (0xE570, [0x5E60, 0x5E5C, 0x7DF3, 0x5EDB, 0x5EDE, 0x5EE1, 0x5F49, 0x5FB2, 0x618B, 0x6183, 0x6179, 0x61B1]),
  (0xE57C, [0x61B0, 0x61A2, 0x6189]),
  (0xE5A1, [0x619B, 0x6193, 0x61AF, 0x61AD, 0x619F, 0x6192, 0x61AA, 0x61A1, 0x618D, 0x6166, 0x61B3, 0x622D]),
  (0xE5AD, [0x646E, 0x6470, 0x6496, 0x64A0, 0x6485, 0x6497, 0x649C, 0x648F, 0x648B, 0x648A, 0x648C, 0x64A3]),
  (0xE5B9, [0x649F, 0x6468, 0x64B1, 0x6498, 0x6576, 0x657A, 0x6579, 0x657B, 0x65B2, 0x65B3, 0x66B5, 0x66B0]),
  (0xE5C5, [0x66A9, 0x66B2, 0x66B7, 0x66AA, 0x66AF, 0x6A00, 0x6A06, 0x6A17, 0x69E5, 0x69F8, 0x6A15, 0x69F1]),
  (0xE5D1, [0x69E4, 0x6A20, 0x69FF, 0x69EC, 0x69E2, 0x6A1B, 0x6A1D, 0x69FE, 0x6A27, 0x69F2, 0x69EE, 0x6A14]),
  (0xE5DD, [0x69F7, 0x69E7, 0x6A40, 0x6A08, 0x69E6, 0x69FB, 0x6A0D, 0x69FC, 0x69EB, 0x6A09, 0x6A04, 0x6A18]),
  (0xE5E9, [0x6A25, 0x6A0F, 0x69F6, 0x6A26, 0x6A07, 0x69F4, 0x6A16, 0x6B51, 0x6BA5, 0x6BA3, 0x6BA2, 0x6BA6]),
  (0xE5F5, [0x6C01, 0x6C00, 0x6BFF, 0x6C02, 0x6F41, 0x6F26, 0x6F7E, 0x6F87, 0x6FC6, 0x6F92]),
  (0xE640, [0x6F8D, 0x6F89, 0x6F8C, 0x6F62, 0x6F4F, 0x6F85, 0x6F5A, 0x6F96, 0x6F76, 0x6F6C, 0x6F82, 0x6F55]),
  (0xE64C, [0x6F72, 0x6F52, 0x6F50, 0x6F57, 0x6F94, 0x6F93, 0x6F5D, 0x6F00, 0x6F61, 0x6F6B, 0x6F7D, 0x6F67]),
  (0xE658, [0x6F90, 0x6F53, 0x6F8B, 0x6F69, 0x6F7F, 0x6F95, 0x6F63, 0x6F77, 0x6F6A, 0x6F7B, 0x71B2, 0x71AF]),
  (0xE664, [0x719B, 0x71B0, 0x71A0, 0x719A, 0x71A9, 0x71B5, 0x719D, 0x71A5, 0x719E, 0x71A4, 0x71A1, 0x71AA]),
  (0xE670, [0x719C, 0x71A7, 0x71B3, 0x7298, 0x729A, 0x7358, 0x7352, 0x735E, 0x735F, 0x7360, 0x735D, 0x735B]),
  (0xE67C, [0x7361, 0x735A, 0x7359]),
  (0xE6A1, [0x7362, 0x7487, 0x7489, 0x748A, 0x7486, 0x7481, 0x747D, 0x7485, 0x7488, 0x747C, 0x7479, 0x7508]),
  (0xE6AD, [0x7507, 0x757E, 0x7625, 0x761E, 0x7619, 0x761D, 0x761C, 0x7623, 0x761A, 0x7628, 0x761B, 0x769C]),
  (0xE6B9, [0x769D, 0x769E, 0x769B, 0x778D, 0x778F, 0x7789, 0x7788, 0x78CD, 0x78BB, 0x78CF, 0x78CC, 0x78D1]),
  (0xE6C5, [0x78CE, 0x78D4, 0x78C8, 0x78C3, 0x78C4, 0x78C9, 0x799A, 0x79A1, 0x79A0, 0x799C, 0x79A2, 0x799B]),
  (0xE6D1, [0x6B76, 0x7A39, 0x7AB2, 0x7AB4, 0x7AB3, 0x7BB7, 0x7BCB, 0x7BBE, 0x7BAC, 0x7BCE, 0x7BAF, 0x7BB9]),
  (0xE6DD, [0x7BCA, 0x7BB5, 0x7CC5, 0x7CC8, 0x7CCC, 0x7CCB, 0x7DF7, 0x7DDB, 0x7DEA, 0x7DE7, 0x7DD7, 0x7DE1]),
  (0xE6E9, [0x7E03, 0x7DFA, 0x7DE6, 0x7DF6, 0x7DF1, 0x7DF0, 0x7DEE, 0x7DDF, 0x7F76, 0x7FAC, 0x7FB0, 0x7FAD]),
  (0xE6F5, [0x7FED, 0x7FEB, 0x7FEA, 0x7FEC, 0x7FE6, 0x7FE8, 0x8064, 0x8067, 0x81A3, 0x819F]),
  (0xE740, [0x819E, 0x8195, 0x81A2, 0x8199, 0x8197, 0x8216, 0x824F, 0x8253, 0x8252, 0x8250, 0x824E, 0x8251]),
  (0xE74C, [0x8524, 0x853B, 0x850F, 0x8500, 0x8529, 0x850E, 0x8509, 0x850D, 0x851F, 0x850A, 0x8527, 0x851C]),
  (0xE758, [0x84FB, 0x852B, 0x84FA, 0x8508, 0x850C, 0x84F4, 0x852A, 0x84F2, 0x8515, 0x84F7, 0x84EB, 0x84F3]),
  (0xE764, [0x84FC, 0x8512, 0x84EA, 0x84E9, 0x8516, 0x84FE, 0x8528, 0x851D, 0x852E, 0x8502, 0x84FD, 0x851E]),
  (0xE770, [0x84F6, 0x8531, 0x8526, 0x84E7, 0x84E8, 0x84F0, 0x84EF, 0x84F9, 0x8518, 0x8520, 0x8530, 0x850B]),
  (0xE77C, [0x8519, 0x852F, 0x8662]),
  (0xE7A1, [0x8756, 0x8763, 0x8764, 0x8777, 0x87E1, 0x8773, 0x8758, 0x8754, 0x875B, 0x8752, 0x8761, 0x875A]),
  (0xE7AD, [0x8751, 0x875E, 0x876D, 0x876A, 0x8750, 0x874E, 0x875F, 0x875D, 0x876F, 0x876C, 0x877A, 0x876E]),
  (0xE7B9, [0x875C, 0x8765, 0x874F, 0x877B, 0x8775, 0x8762, 0x8767, 0x8769, 0x885A, 0x8905, 0x890C, 0x8914]),
  (0xE7C5, [0x890B, 0x8917, 0x8918, 0x8919, 0x8906, 0x8916, 0x8911, 0x890E, 0x8909, 0x89A2, 0x89A4, 0x89A3]),
  (0xE7D1, [0x89ED, 0x89F0, 0x89EC, 0x8ACF, 0x8AC6, 0x8AB8, 0x8AD3, 0x8AD1, 0x8AD4, 0x8AD5, 0x8ABB, 0x8AD7]),
  (0xE7DD, [0x8ABE, 0x8AC0, 0x8AC5, 0x8AD8, 0x8AC3, 0x8ABA, 0x8ABD, 0x8AD9, 0x8C3E, 0x8C4D, 0x8C8F, 0x8CE5]),
  (0xE7E9, [0x8CDF, 0x8CD9, 0x8CE8, 0x8CDA, 0x8CDD, 0x8CE7, 0x8DA0, 0x8D9C, 0x8DA1, 0x8D9B, 0x8E20, 0x8E23]),
  (0xE7F5, [0x8E25, 0x8E24, 0x8E2E, 0x8E15, 0x8E1B, 0x8E16, 0x8E11, 0x8E19, 0x8E26, 0x8E27]),
  (0xE840, [0x8E14, 0x8E12, 0x8E18, 0x8E13, 0x8E1C, 0x8E17, 0x8E1A, 0x8F2C, 0x8F24, 0x8F18, 0x8F1A, 0x8F20]),
  (0xE84C, [0x8F23, 0x8F16, 0x8F17, 0x9073, 0x9070, 0x906F, 0x9067, 0x906B, 0x912F, 0x912B, 0x9129, 0x912A]),
  (0xE858, [0x9132, 0x9126, 0x912E, 0x9185, 0x9186, 0x918A, 0x9181, 0x9182, 0x9184, 0x9180, 0x92D0, 0x92C3]),
  (0xE864, [0x92C4, 0x92C0, 0x92D9, 0x92B6, 0x92CF, 0x92F1, 0x92DF, 0x92D8, 0x92E9, 0x92D7, 0x92DD, 0x92CC]),
  (0xE870, [0x92EF, 0x92C2, 0x92E8, 0x92CA, 0x92C8, 0x92CE, 0x92E6, 0x92CD, 0x92D5, 0x92C9, 0x92E0, 0x92DE]),
  (0xE87C, [0x92E7, 0x92D1, 0x92D3]),
  (0xE8A1, [0x92B5, 0x92E1, 0x92C6, 0x92B4, 0x957C, 0x95AC, 0x95AB, 0x95AE, 0x95B0, 0x96A4, 0x96A2, 0x96D3]),
  (0xE8AD, [0x9705, 0x9708, 0x9702, 0x975A, 0x978A, 0x978E, 0x9788, 0x97D0, 0x97CF, 0x981E, 0x981D, 0x9826]),
  (0xE8B9, [0x9829, 0x9828, 0x9820, 0x981B, 0x9827, 0x98B2, 0x9908, 0x98FA, 0x9911, 0x9914, 0x9916, 0x9917]),
  (0xE8C5, [0x9915, 0x99DC, 0x99CD, 0x99CF, 0x99D3, 0x99D4, 0x99CE, 0x99C9, 0x99D6, 0x99D8, 0x99CB, 0x99D7]),
  (0xE8D1, [0x99CC, 0x9AB3, 0x9AEC, 0x9AEB, 0x9AF3, 0x9AF2, 0x9AF1, 0x9B46, 0x9B43, 0x9B67, 0x9B74, 0x9B71]),
  (0xE8DD, [0x9B66, 0x9B76, 0x9B75, 0x9B70, 0x9B68, 0x9B64, 0x9B6C, 0x9CFC, 0x9CFA, 0x9CFD, 0x9CFF, 0x9CF7]),
  (0xE8E9, [0x9D07, 0x9D00, 0x9CF9, 0x9CFB, 0x9D08, 0x9D05, 0x9D04, 0x9E83, 0x9ED3, 0x9F0F, 0x9F10, 0x511C]),
  (0xE8F5, [0x5113, 0x5117, 0x511A, 0x5111, 0x51DE, 0x5334, 0x53E1, 0x5670, 0x5660, 0x566E]),
  (0xE940, [0x5673, 0x5666, 0x5663, 0x566D, 0x5672, 0x565E, 0x5677, 0x571C, 0x571B, 0x58C8, 0x58BD, 0x58C9]),
  (0xE94C, [0x58BF, 0x58BA, 0x58C2, 0x58BC, 0x58C6, 0x5B17, 0x5B19, 0x5B1B, 0x5B21, 0x5B14, 0x5B13, 0x5B10]),
  (0xE958, [0x5B16, 0x5B28, 0x5B1A, 0x5B20, 0x5B1E, 0x5BEF, 0x5DAC, 0x5DB1, 0x5DA9, 0x5DA7, 0x5DB5, 0x5DB0]),
  (0xE964, [0x5DAE, 0x5DAA, 0x5DA8, 0x5DB2, 0x5DAD, 0x5DAF, 0x5DB4, 0x5E67, 0x5E68, 0x5E66, 0x5E6F, 0x5EE9]),
  (0xE970, [0x5EE7, 0x5EE6, 0x5EE8, 0x5EE5, 0x5F4B, 0x5FBC, 0x619D, 0x61A8, 0x6196, 0x61C5, 0x61B4, 0x61C6]),
  (0xE97C, [0x61C1, 0x61CC, 0x61BA]),
  (0xE9A1, [0x61BF, 0x61B8, 0x618C, 0x64D7, 0x64D6, 0x64D0, 0x64CF, 0x64C9, 0x64BD, 0x6489, 0x64C3, 0x64DB]),
  (0xE9AD, [0x64F3, 0x64D9, 0x6533, 0x657F, 0x657C, 0x65A2, 0x66C8, 0x66BE, 0x66C0, 0x66CA, 0x66CB, 0x66CF]),
  (0xE9B9, [0x66BD, 0x66BB, 0x66BA, 0x66CC, 0x6723, 0x6A34, 0x6A66, 0x6A49, 0x6A67, 0x6A32, 0x6A68, 0x6A3E]),
  (0xE9C5, [0x6A5D, 0x6A6D, 0x6A76, 0x6A5B, 0x6A51, 0x6A28, 0x6A5A, 0x6A3B, 0x6A3F, 0x6A41, 0x6A6A, 0x6A64]),
  (0xE9D1, [0x6A50, 0x6A4F, 0x6A54, 0x6A6F, 0x6A69, 0x6A60, 0x6A3C, 0x6A5E, 0x6A56, 0x6A55, 0x6A4D, 0x6A4E]),
  (0xE9DD, [0x6A46, 0x6B55, 0x6B54, 0x6B56, 0x6BA7, 0x6BAA, 0x6BAB, 0x6BC8, 0x6BC7, 0x6C04, 0x6C03, 0x6C06]),
  (0xE9E9, [0x6FAD, 0x6FCB, 0x6FA3, 0x6FC7, 0x6FBC, 0x6FCE, 0x6FC8, 0x6F5E, 0x6FC4, 0x6FBD, 0x6F9E, 0x6FCA]),
  (0xE9F5, [0x6FA8, 0x7004, 0x6FA5, 0x6FAE, 0x6FBA, 0x6FAC, 0x6FAA, 0x6FCF, 0x6FBF, 0x6FB8]),
  (0xEA40, [0x6FA2, 0x6FC9, 0x6FAB, 0x6FCD, 0x6FAF, 0x6FB2, 0x6FB0, 0x71C5, 0x71C2, 0x71BF, 0x71B8, 0x71D6]),
  (0xEA4C, [0x71C0, 0x71C1, 0x71CB, 0x71D4, 0x71CA, 0x71C7, 0x71CF, 0x71BD, 0x71D8, 0x71BC, 0x71C6, 0x71DA]),
  (0xEA58, [0x71DB, 0x729D, 0x729E, 0x7369, 0x7366, 0x7367, 0x736C, 0x7365, 0x736B, 0x736A, 0x747F, 0x749A]),
  (0xEA64, [0x74A0, 0x7494, 0x7492, 0x7495, 0x74A1, 0x750B, 0x7580, 0x762F, 0x762D, 0x7631, 0x763D, 0x7633]),
  (0xEA70, [0x763C, 0x7635, 0x7632, 0x7630, 0x76BB, 0x76E6, 0x779A, 0x779D, 0x77A1, 0x779C, 0x779B, 0x77A2]),
  (0xEA7C, [0x77A3, 0x7795, 0x7799]),
  (0xEAA1, [0x7797, 0x78DD, 0x78E9, 0x78E5, 0x78EA, 0x78DE, 0x78E3, 0x78DB, 0x78E1, 0x78E2, 0x78ED, 0x78DF]),
  (0xEAAD, [0x78E0, 0x79A4, 0x7A44, 0x7A48, 0x7A47, 0x7AB6, 0x7AB8, 0x7AB5, 0x7AB1, 0x7AB7, 0x7BDE, 0x7BE3]),
  (0xEAB9, [0x7BE7, 0x7BDD, 0x7BD5, 0x7BE5, 0x7BDA, 0x7BE8, 0x7BF9, 0x7BD4, 0x7BEA, 0x7BE2, 0x7BDC, 0x7BEB]),
  (0xEAC5, [0x7BD8, 0x7BDF, 0x7CD2, 0x7CD4, 0x7CD7, 0x7CD0, 0x7CD1, 0x7E12, 0x7E21, 0x7E17, 0x7E0C, 0x7E1F]),
  (0xEAD1, [0x7E20, 0x7E13, 0x7E0E, 0x7E1C, 0x7E15, 0x7E1A, 0x7E22, 0x7E0B, 0x7E0F, 0x7E16, 0x7E0D, 0x7E14]),
  (0xEADD, [0x7E25, 0x7E24, 0x7F43, 0x7F7B, 0x7F7C, 0x7F7A, 0x7FB1, 0x7FEF, 0x802A, 0x8029, 0x806C, 0x81B1]),
  (0xEAE9, [0x81A6, 0x81AE, 0x81B9, 0x81B5, 0x81AB, 0x81B0, 0x81AC, 0x81B4, 0x81B2, 0x81B7, 0x81A7, 0x81F2]),
  (0xEAF5, [0x8255, 0x8256, 0x8257, 0x8556, 0x8545, 0x856B, 0x854D, 0x8553, 0x8561, 0x8558]),
  (0xEB40, [0x8540, 0x8546, 0x8564, 0x8541, 0x8562, 0x8544, 0x8551, 0x8547, 0x8563, 0x853E, 0x855B, 0x8571]),
  (0xEB4C, [0x854E, 0x856E, 0x8575, 0x8555, 0x8567, 0x8560, 0x858C, 0x8566, 0x855D, 0x8554, 0x8565, 0x856C]),
  (0xEB58, [0x8663, 0x8665, 0x8664, 0x879B, 0x878F, 0x8797, 0x8793, 0x8792, 0x8788, 0x8781, 0x8796, 0x8798]),
  (0xEB64, [0x8779, 0x8787, 0x87A3, 0x8785, 0x8790, 0x8791, 0x879D, 0x8784, 0x8794, 0x879C, 0x879A, 0x8789]),
  (0xEB70, [0x891E, 0x8926, 0x8930, 0x892D, 0x892E, 0x8927, 0x8931, 0x8922, 0x8929, 0x8923, 0x892F, 0x892C]),
  (0xEB7C, [0x891F, 0x89F1, 0x8AE0]),
  (0xEBA1, [0x8AE2, 0x8AF2, 0x8AF4, 0x8AF5, 0x8ADD, 0x8B14, 0x8AE4, 0x8ADF, 0x8AF0, 0x8AC8, 0x8ADE, 0x8AE1]),
  (0xEBAD, [0x8AE8, 0x8AFF, 0x8AEF, 0x8AFB, 0x8C91, 0x8C92, 0x8C90, 0x8CF5, 0x8CEE, 0x8CF1, 0x8CF0, 0x8CF3]),
  (0xEBB9, [0x8D6C, 0x8D6E, 0x8DA5, 0x8DA7, 0x8E33, 0x8E3E, 0x8E38, 0x8E40, 0x8E45, 0x8E36, 0x8E3C, 0x8E3D]),
  (0xEBC5, [0x8E41, 0x8E30, 0x8E3F, 0x8EBD, 0x8F36, 0x8F2E, 0x8F35, 0x8F32, 0x8F39, 0x8F37, 0x8F34, 0x9076]),
  (0xEBD1, [0x9079, 0x907B, 0x9086, 0x90FA, 0x9133, 0x9135, 0x9136, 0x9193, 0x9190, 0x9191, 0x918D, 0x918F]),
  (0xEBDD, [0x9327, 0x931E, 0x9308, 0x931F, 0x9306, 0x930F, 0x937A, 0x9338, 0x933C, 0x931B, 0x9323, 0x9312]),
  (0xEBE9, [0x9301, 0x9346, 0x932D, 0x930E, 0x930D, 0x92CB, 0x931D, 0x92FA, 0x9325, 0x9313, 0x92F9, 0x92F7]),
  (0xEBF5, [0x9334, 0x9302, 0x9324, 0x92FF, 0x9329, 0x9339, 0x9335, 0x932A, 0x9314, 0x930C]),
  (0xEC40, [0x930B, 0x92FE, 0x9309, 0x9300, 0x92FB, 0x9316, 0x95BC, 0x95CD, 0x95BE, 0x95B9, 0x95BA, 0x95B6]),
  (0xEC4C, [0x95BF, 0x95B5, 0x95BD, 0x96A9, 0x96D4, 0x970B, 0x9712, 0x9710, 0x9799, 0x9797, 0x9794, 0x97F0]),
  (0xEC58, [0x97F8, 0x9835, 0x982F, 0x9832, 0x9924, 0x991F, 0x9927, 0x9929, 0x999E, 0x99EE, 0x99EC, 0x99E5]),
  (0xEC64, [0x99E4, 0x99F0, 0x99E3, 0x99EA, 0x99E9, 0x99E7, 0x9AB9, 0x9ABF, 0x9AB4, 0x9ABB, 0x9AF6, 0x9AFA]),
  (0xEC70, [0x9AF9, 0x9AF7, 0x9B33, 0x9B80, 0x9B85, 0x9B87, 0x9B7C, 0x9B7E, 0x9B7B, 0x9B82, 0x9B93, 0x9B92]),
  (0xEC7C, [0x9B90, 0x9B7A, 0x9B95]),
  (0xECA1, [0x9B7D, 0x9B88, 0x9D25, 0x9D17, 0x9D20, 0x9D1E, 0x9D14, 0x9D29, 0x9D1D, 0x9D18, 0x9D22, 0x9D10]),
  (0xECAD, [0x9D19, 0x9D1F, 0x9E88, 0x9E86, 0x9E87, 0x9EAE, 0x9EAD, 0x9ED5, 0x9ED6, 0x9EFA, 0x9F12, 0x9F3D]),
  (0xECB9, [0x5126, 0x5125, 0x5122, 0x5124, 0x5120, 0x5129, 0x52F4, 0x5693, 0x568C, 0x568D, 0x5686, 0x5684]),
  (0xECC5, [0x5683, 0x567E, 0x5682, 0x567F, 0x5681, 0x58D6, 0x58D4, 0x58CF, 0x58D2, 0x5B2D, 0x5B25, 0x5B32]),
  (0xECD1, [0x5B23, 0x5B2C, 0x5B27, 0x5B26, 0x5B2F, 0x5B2E, 0x5B7B, 0x5BF1, 0x5BF2, 0x5DB7, 0x5E6C, 0x5E6A]),
  (0xECDD, [0x5FBE, 0x5FBB, 0x61C3, 0x61B5, 0x61BC, 0x61E7, 0x61E0, 0x61E5, 0x61E4, 0x61E8, 0x61DE, 0x64EF]),
  (0xECE9, [0x64E9, 0x64E3, 0x64EB, 0x64E4, 0x64E8, 0x6581, 0x6580, 0x65B6, 0x65DA, 0x66D2, 0x6A8D, 0x6A96]),
  (0xECF5, [0x6A81, 0x6AA5, 0x6A89, 0x6A9F, 0x6A9B, 0x6AA1, 0x6A9E, 0x6A87, 0x6A93, 0x6A8E]),
  (0xED40, [0x6A95, 0x6A83, 0x6AA8, 0x6AA4, 0x6A91, 0x6A7F, 0x6AA6, 0x6A9A, 0x6A85, 0x6A8C, 0x6A92, 0x6B5B]),
  (0xED4C, [0x6BAD, 0x6C09, 0x6FCC, 0x6FA9, 0x6FF4, 0x6FD4, 0x6FE3, 0x6FDC, 0x6FED, 0x6FE7, 0x6FE6, 0x6FDE]),
  (0xED58, [0x6FF2, 0x6FDD, 0x6FE2, 0x6FE8, 0x71E1, 0x71F1, 0x71E8, 0x71F2, 0x71E4, 0x71F0, 0x71E2, 0x7373]),
  (0xED64, [0x736E, 0x736F, 0x7497, 0x74B2, 0x74AB, 0x7490, 0x74AA, 0x74AD, 0x74B1, 0x74A5, 0x74AF, 0x7510]),
  (0xED70, [0x7511, 0x7512, 0x750F, 0x7584, 0x7643, 0x7648, 0x7649, 0x7647, 0x76A4, 0x76E9, 0x77B5, 0x77AB]),
  (0xED7C, [0x77B2, 0x77B7, 0x77B6]),
  (0xEDA1, [0x77B4, 0x77B1, 0x77A8, 0x77F0, 0x78F3, 0x78FD, 0x7902, 0x78FB, 0x78FC, 0x78F2, 0x7905, 0x78F9]),
  (0xEDAD, [0x78FE, 0x7904, 0x79AB, 0x79A8, 0x7A5C, 0x7A5B, 0x7A56, 0x7A58, 0x7A54, 0x7A5A, 0x7ABE, 0x7AC0]),
  (0xEDB9, [0x7AC1, 0x7C05, 0x7C0F, 0x7BF2, 0x7C00, 0x7BFF, 0x7BFB, 0x7C0E, 0x7BF4, 0x7C0B, 0x7BF3, 0x7C02]),
  (0xEDC5, [0x7C09, 0x7C03, 0x7C01, 0x7BF8, 0x7BFD, 0x7C06, 0x7BF0, 0x7BF1, 0x7C10, 0x7C0A, 0x7CE8, 0x7E2D]),
  (0xEDD1, [0x7E3C, 0x7E42, 0x7E33, 0x9848, 0x7E38, 0x7E2A, 0x7E49, 0x7E40, 0x7E47, 0x7E29, 0x7E4C, 0x7E30]),
  (0xEDDD, [0x7E3B, 0x7E36, 0x7E44, 0x7E3A, 0x7F45, 0x7F7F, 0x7F7E, 0x7F7D, 0x7FF4, 0x7FF2, 0x802C, 0x81BB]),
  (0xEDE9, [0x81C4, 0x81CC, 0x81CA, 0x81C5, 0x81C7, 0x81BC, 0x81E9, 0x825B, 0x825A, 0x825C, 0x8583, 0x8580]),
  (0xEDF5, [0x858F, 0x85A7, 0x8595, 0x85A0, 0x858B, 0x85A3, 0x857B, 0x85A4, 0x859A, 0x859E]),
  (0xEE40, [0x8577, 0x857C, 0x8589, 0x85A1, 0x857A, 0x8578, 0x8557, 0x858E, 0x8596, 0x8586, 0x858D, 0x8599]),
  (0xEE4C, [0x859D, 0x8581, 0x85A2, 0x8582, 0x8588, 0x8585, 0x8579, 0x8576, 0x8598, 0x8590, 0x859F, 0x8668]),
  (0xEE58, [0x87BE, 0x87AA, 0x87AD, 0x87C5, 0x87B0, 0x87AC, 0x87B9, 0x87B5, 0x87BC, 0x87AE, 0x87C9, 0x87C3]),
  (0xEE64, [0x87C2, 0x87CC, 0x87B7, 0x87AF, 0x87C4, 0x87CA, 0x87B4, 0x87B6, 0x87BF, 0x87B8, 0x87BD, 0x87DE]),
  (0xEE70, [0x87B2, 0x8935, 0x8933, 0x893C, 0x893E, 0x8941, 0x8952, 0x8937, 0x8942, 0x89AD, 0x89AF, 0x89AE]),
  (0xEE7C, [0x89F2, 0x89F3, 0x8B1E]),
  (0xEEA1, [0x8B18, 0x8B16, 0x8B11, 0x8B05, 0x8B0B, 0x8B22, 0x8B0F, 0x8B12, 0x8B15, 0x8B07, 0x8B0D, 0x8B08]),
  (0xEEAD, [0x8B06, 0x8B1C, 0x8B13, 0x8B1A, 0x8C4F, 0x8C70, 0x8C72, 0x8C71, 0x8C6F, 0x8C95, 0x8C94, 0x8CF9]),
  (0xEEB9, [0x8D6F, 0x8E4E, 0x8E4D, 0x8E53, 0x8E50, 0x8E4C, 0x8E47, 0x8F43, 0x8F40, 0x9085, 0x907E, 0x9138]),
  (0xEEC5, [0x919A, 0x91A2, 0x919B, 0x9199, 0x919F, 0x91A1, 0x919D, 0x91A0, 0x93A1, 0x9383, 0x93AF, 0x9364]),
  (0xEED1, [0x9356, 0x9347, 0x937C, 0x9358, 0x935C, 0x9376, 0x9349, 0x9350, 0x9351, 0x9360, 0x936D, 0x938F]),
  (0xEEDD, [0x934C, 0x936A, 0x9379, 0x9357, 0x9355, 0x9352, 0x934F, 0x9371, 0x9377, 0x937B, 0x9361, 0x935E]),
  (0xEEE9, [0x9363, 0x9367, 0x9380, 0x934E, 0x9359, 0x95C7, 0x95C0, 0x95C9, 0x95C3, 0x95C5, 0x95B7, 0x96AE]),
  (0xEEF5, [0x96B0, 0x96AC, 0x9720, 0x971F, 0x9718, 0x971D, 0x9719, 0x979A, 0x97A1, 0x979C]),
  (0xEF40, [0x979E, 0x979D, 0x97D5, 0x97D4, 0x97F1, 0x9841, 0x9844, 0x984A, 0x9849, 0x9845, 0x9843, 0x9925]),
  (0xEF4C, [0x992B, 0x992C, 0x992A, 0x9933, 0x9932, 0x992F, 0x992D, 0x9931, 0x9930, 0x9998, 0x99A3, 0x99A1]),
  (0xEF58, [0x9A02, 0x99FA, 0x99F4, 0x99F7, 0x99F9, 0x99F8, 0x99F6, 0x99FB, 0x99FD, 0x99FE, 0x99FC, 0x9A03]),
  (0xEF64, [0x9ABE, 0x9AFE, 0x9AFD, 0x9B01, 0x9AFC, 0x9B48, 0x9B9A, 0x9BA8, 0x9B9E, 0x9B9B, 0x9BA6, 0x9BA1]),
  (0xEF70, [0x9BA5, 0x9BA4, 0x9B86, 0x9BA2, 0x9BA0, 0x9BAF, 0x9D33, 0x9D41, 0x9D67, 0x9D36, 0x9D2E, 0x9D2F]),
  (0xEF7C, [0x9D31, 0x9D38, 0x9D30]),
  (0xEFA1, [0x9D45, 0x9D42, 0x9D43, 0x9D3E, 0x9D37, 0x9D40, 0x9D3D, 0x7FF5, 0x9D2D, 0x9E8A, 0x9E89, 0x9E8D]),
  (0xEFAD, [0x9EB0, 0x9EC8, 0x9EDA, 0x9EFB, 0x9EFF, 0x9F24, 0x9F23, 0x9F22, 0x9F54, 0x9FA0, 0x5131, 0x512D]),
  (0xEFB9, [0x512E, 0x5698, 0x569C, 0x5697, 0x569A, 0x569D, 0x5699, 0x5970, 0x5B3C, 0x5C69, 0x5C6A, 0x5DC0]),
  (0xEFC5, [0x5E6D, 0x5E6E, 0x61D8, 0x61DF, 0x61ED, 0x61EE, 0x61F1, 0x61EA, 0x61F0, 0x61EB, 0x61D6, 0x61E9]),
  (0xEFD1, [0x64FF, 0x6504, 0x64FD, 0x64F8, 0x6501, 0x6503, 0x64FC, 0x6594, 0x65DB, 0x66DA, 0x66DB, 0x66D8]),
  (0xEFDD, [0x6AC5, 0x6AB9, 0x6ABD, 0x6AE1, 0x6AC6, 0x6ABA, 0x6AB6, 0x6AB7, 0x6AC7, 0x6AB4, 0x6AAD, 0x6B5E]),
  (0xEFE9, [0x6BC9, 0x6C0B, 0x7007, 0x700C, 0x700D, 0x7001, 0x7005, 0x7014, 0x700E, 0x6FFF, 0x7000, 0x6FFB]),
  (0xEFF5, [0x7026, 0x6FFC, 0x6FF7, 0x700A, 0x7201, 0x71FF, 0x71F9, 0x7203, 0x71FD, 0x7376]),
  (0xF040, [0x74B8, 0x74C0, 0x74B5, 0x74C1, 0x74BE, 0x74B6, 0x74BB, 0x74C2, 0x7514, 0x7513, 0x765C, 0x7664]),
  (0xF04C, [0x7659, 0x7650, 0x7653, 0x7657, 0x765A, 0x76A6, 0x76BD, 0x76EC, 0x77C2, 0x77BA, 0x78FF, 0x790C]),
  (0xF058, [0x7913, 0x7914, 0x7909, 0x7910, 0x7912, 0x7911, 0x79AD, 0x79AC, 0x7A5F, 0x7C1C, 0x7C29, 0x7C19]),
  (0xF064, [0x7C20, 0x7C1F, 0x7C2D, 0x7C1D, 0x7C26, 0x7C28, 0x7C22, 0x7C25, 0x7C30, 0x7E5C, 0x7E50, 0x7E56]),
  (0xF070, [0x7E63, 0x7E58, 0x7E62, 0x7E5F, 0x7E51, 0x7E60, 0x7E57, 0x7E53, 0x7FB5, 0x7FB3, 0x7FF7, 0x7FF8]),
  (0xF07C, [0x8075, 0x81D1, 0x81D2]),
  (0xF0A1, [0x81D0, 0x825F, 0x825E, 0x85B4, 0x85C6, 0x85C0, 0x85C3, 0x85C2, 0x85B3, 0x85B5, 0x85BD, 0x85C7]),
  (0xF0AD, [0x85C4, 0x85BF, 0x85CB, 0x85CE, 0x85C8, 0x85C5, 0x85B1, 0x85B6, 0x85D2, 0x8624, 0x85B8, 0x85B7]),
  (0xF0B9, [0x85BE, 0x8669, 0x87E7, 0x87E6, 0x87E2, 0x87DB, 0x87EB, 0x87EA, 0x87E5, 0x87DF, 0x87F3, 0x87E4]),
  (0xF0C5, [0x87D4, 0x87DC, 0x87D3, 0x87ED, 0x87D8, 0x87E3, 0x87A4, 0x87D7, 0x87D9, 0x8801, 0x87F4, 0x87E8]),
  (0xF0D1, [0x87DD, 0x8953, 0x894B, 0x894F, 0x894C, 0x8946, 0x8950, 0x8951, 0x8949, 0x8B2A, 0x8B27, 0x8B23]),
  (0xF0DD, [0x8B33, 0x8B30, 0x8B35, 0x8B47, 0x8B2F, 0x8B3C, 0x8B3E, 0x8B31, 0x8B25, 0x8B37, 0x8B26, 0x8B36]),
  (0xF0E9, [0x8B2E, 0x8B24, 0x8B3B, 0x8B3D, 0x8B3A, 0x8C42, 0x8C75, 0x8C99, 0x8C98, 0x8C97, 0x8CFE, 0x8D04]),
  (0xF0F5, [0x8D02, 0x8D00, 0x8E5C, 0x8E62, 0x8E60, 0x8E57, 0x8E56, 0x8E5E, 0x8E65, 0x8E67]),
  (0xF140, [0x8E5B, 0x8E5A, 0x8E61, 0x8E5D, 0x8E69, 0x8E54, 0x8F46, 0x8F47, 0x8F48, 0x8F4B, 0x9128, 0x913A]),
  (0xF14C, [0x913B, 0x913E, 0x91A8, 0x91A5, 0x91A7, 0x91AF, 0x91AA, 0x93B5, 0x938C, 0x9392, 0x93B7, 0x939B]),
  (0xF158, [0x939D, 0x9389, 0x93A7, 0x938E, 0x93AA, 0x939E, 0x93A6, 0x9395, 0x9388, 0x9399, 0x939F, 0x938D]),
  (0xF164, [0x93B1, 0x9391, 0x93B2, 0x93A4, 0x93A8, 0x93B4, 0x93A3, 0x93A5, 0x95D2, 0x95D3, 0x95D1, 0x96B3]),
  (0xF170, [0x96D7, 0x96DA, 0x5DC2, 0x96DF, 0x96D8, 0x96DD, 0x9723, 0x9722, 0x9725, 0x97AC, 0x97AE, 0x97A8]),
  (0xF17C, [0x97AB, 0x97A4, 0x97AA]),
  (0xF1A1, [0x97A2, 0x97A5, 0x97D7, 0x97D9, 0x97D6, 0x97D8, 0x97FA, 0x9850, 0x9851, 0x9852, 0x98B8, 0x9941]),
  (0xF1AD, [0x993C, 0x993A, 0x9A0F, 0x9A0B, 0x9A09, 0x9A0D, 0x9A04, 0x9A11, 0x9A0A, 0x9A05, 0x9A07, 0x9A06]),
  (0xF1B9, [0x9AC0, 0x9ADC, 0x9B08, 0x9B04, 0x9B05, 0x9B29, 0x9B35, 0x9B4A, 0x9B4C, 0x9B4B, 0x9BC7, 0x9BC6]),
  (0xF1C5, [0x9BC3, 0x9BBF, 0x9BC1, 0x9BB5, 0x9BB8, 0x9BD3, 0x9BB6, 0x9BC4, 0x9BB9, 0x9BBD, 0x9D5C, 0x9D53]),
  (0xF1D1, [0x9D4F, 0x9D4A, 0x9D5B, 0x9D4B, 0x9D59, 0x9D56, 0x9D4C, 0x9D57, 0x9D52, 0x9D54, 0x9D5F, 0x9D58]),
  (0xF1DD, [0x9D5A, 0x9E8E, 0x9E8C, 0x9EDF, 0x9F01, 0x9F00, 0x9F16, 0x9F25, 0x9F2B, 0x9F2A, 0x9F29, 0x9F28]),
  (0xF1E9, [0x9F4C, 0x9F55, 0x5134, 0x5135, 0x5296, 0x52F7, 0x53B4, 0x56AB, 0x56AD, 0x56A6, 0x56A7, 0x56AA]),
  (0xF1F5, [0x56AC, 0x58DA, 0x58DD, 0x58DB, 0x5912, 0x5B3D, 0x5B3E, 0x5B3F, 0x5DC3, 0x5E70]),
  (0xF240, [0x5FBF, 0x61FB, 0x6507, 0x6510, 0x650D, 0x6509, 0x650C, 0x650E, 0x6584, 0x65DE, 0x65DD, 0x66DE]),
  (0xF24C, [0x6AE7, 0x6AE0, 0x6ACC, 0x6AD1, 0x6AD9, 0x6ACB, 0x6ADF, 0x6ADC, 0x6AD0, 0x6AEB, 0x6ACF, 0x6ACD]),
  (0xF258, [0x6ADE, 0x6B60, 0x6BB0, 0x6C0C, 0x7019, 0x7027, 0x7020, 0x7016, 0x702B, 0x7021, 0x7022, 0x7023]),
  (0xF264, [0x7029, 0x7017, 0x7024, 0x701C, 0x702A, 0x720C, 0x720A, 0x7207, 0x7202, 0x7205, 0x72A5, 0x72A6]),
  (0xF270, [0x72A4, 0x72A3, 0x72A1, 0x74CB, 0x74C5, 0x74B7, 0x74C3, 0x7516, 0x7660, 0x77C9, 0x77CA, 0x77C4]),
  (0xF27C, [0x77F1, 0x791D, 0x791B]),
  (0xF2A1, [0x7921, 0x791C, 0x7917, 0x791E, 0x79B0, 0x7A67, 0x7A68, 0x7C33, 0x7C3C, 0x7C39, 0x7C2C, 0x7C3B]),
  (0xF2AD, [0x7CEC, 0x7CEA, 0x7E76, 0x7E75, 0x7E78, 0x7E70, 0x7E77, 0x7E6F, 0x7E7A, 0x7E72, 0x7E74, 0x7E68]),
  (0xF2B9, [0x7F4B, 0x7F4A, 0x7F83, 0x7F86, 0x7FB7, 0x7FFD, 0x7FFE, 0x8078, 0x81D7, 0x81D5, 0x8264, 0x8261]),
  (0xF2C5, [0x8263, 0x85EB, 0x85F1, 0x85ED, 0x85D9, 0x85E1, 0x85E8, 0x85DA, 0x85D7, 0x85EC, 0x85F2, 0x85F8]),
  (0xF2D1, [0x85D8, 0x85DF, 0x85E3, 0x85DC, 0x85D1, 0x85F0, 0x85E6, 0x85EF, 0x85DE, 0x85E2, 0x8800, 0x87FA]),
  (0xF2DD, [0x8803, 0x87F6, 0x87F7, 0x8809, 0x880C, 0x880B, 0x8806, 0x87FC, 0x8808, 0x87FF, 0x880A, 0x8802]),
  (0xF2E9, [0x8962, 0x895A, 0x895B, 0x8957, 0x8961, 0x895C, 0x8958, 0x895D, 0x8959, 0x8988, 0x89B7, 0x89B6]),
  (0xF2F5, [0x89F6, 0x8B50, 0x8B48, 0x8B4A, 0x8B40, 0x8B53, 0x8B56, 0x8B54, 0x8B4B, 0x8B55]),
  (0xF340, [0x8B51, 0x8B42, 0x8B52, 0x8B57, 0x8C43, 0x8C77, 0x8C76, 0x8C9A, 0x8D06, 0x8D07, 0x8D09, 0x8DAC]),
  (0xF34C, [0x8DAA, 0x8DAD, 0x8DAB, 0x8E6D, 0x8E78, 0x8E73, 0x8E6A, 0x8E6F, 0x8E7B, 0x8EC2, 0x8F52, 0x8F51]),
  (0xF358, [0x8F4F, 0x8F50, 0x8F53, 0x8FB4, 0x9140, 0x913F, 0x91B0, 0x91AD, 0x93DE, 0x93C7, 0x93CF, 0x93C2]),
  (0xF364, [0x93DA, 0x93D0, 0x93F9, 0x93EC, 0x93CC, 0x93D9, 0x93A9, 0x93E6, 0x93CA, 0x93D4, 0x93EE, 0x93E3]),
  (0xF370, [0x93D5, 0x93C4, 0x93CE, 0x93C0, 0x93D2, 0x93E7, 0x957D, 0x95DA, 0x95DB, 0x96E1, 0x9729, 0x972B]),
  (0xF37C, [0x972C, 0x9728, 0x9726]),
  (0xF3A1, [0x97B3, 0x97B7, 0x97B6, 0x97DD, 0x97DE, 0x97DF, 0x985C, 0x9859, 0x985D, 0x9857, 0x98BF, 0x98BD]),
  (0xF3AD, [0x98BB, 0x98BE, 0x9948, 0x9947, 0x9943, 0x99A6, 0x99A7, 0x9A1A, 0x9A15, 0x9A25, 0x9A1D, 0x9A24]),
  (0xF3B9, [0x9A1B, 0x9A22, 0x9A20, 0x9A27, 0x9A23, 0x9A1E, 0x9A1C, 0x9A14, 0x9AC2, 0x9B0B, 0x9B0A, 0x9B0E]),
  (0xF3C5, [0x9B0C, 0x9B37, 0x9BEA, 0x9BEB, 0x9BE0, 0x9BDE, 0x9BE4, 0x9BE6, 0x9BE2, 0x9BF0, 0x9BD4, 0x9BD7]),
  (0xF3D1, [0x9BEC, 0x9BDC, 0x9BD9, 0x9BE5, 0x9BD5, 0x9BE1, 0x9BDA, 0x9D77, 0x9D81, 0x9D8A, 0x9D84, 0x9D88]),
  (0xF3DD, [0x9D71, 0x9D80, 0x9D78, 0x9D86, 0x9D8B, 0x9D8C, 0x9D7D, 0x9D6B, 0x9D74, 0x9D75, 0x9D70, 0x9D69]),
  (0xF3E9, [0x9D85, 0x9D73, 0x9D7B, 0x9D82, 0x9D6F, 0x9D79, 0x9D7F, 0x9D87, 0x9D68, 0x9E94, 0x9E91, 0x9EC0]),
  (0xF3F5, [0x9EFC, 0x9F2D, 0x9F40, 0x9F41, 0x9F4D, 0x9F56, 0x9F57, 0x9F58, 0x5337, 0x56B2]),
  (0xF440, [0x56B5, 0x56B3, 0x58E3, 0x5B45, 0x5DC6, 0x5DC7, 0x5EEE, 0x5EEF, 0x5FC0, 0x5FC1, 0x61F9, 0x6517]),
  (0xF44C, [0x6516, 0x6515, 0x6513, 0x65DF, 0x66E8, 0x66E3, 0x66E4, 0x6AF3, 0x6AF0, 0x6AEA, 0x6AE8, 0x6AF9]),
  (0xF458, [0x6AF1, 0x6AEE, 0x6AEF, 0x703C, 0x7035, 0x702F, 0x7037, 0x7034, 0x7031, 0x7042, 0x7038, 0x703F]),
  (0xF464, [0x703A, 0x7039, 0x7040, 0x703B, 0x7033, 0x7041, 0x7213, 0x7214, 0x72A8, 0x737D, 0x737C, 0x74BA]),
  (0xF470, [0x76AB, 0x76AA, 0x76BE, 0x76ED, 0x77CC, 0x77CE, 0x77CF, 0x77CD, 0x77F2, 0x7925, 0x7923, 0x7927]),
  (0xF47C, [0x7928, 0x7924, 0x7929]),
  (0xF4A1, [0x79B2, 0x7A6E, 0x7A6C, 0x7A6D, 0x7AF7, 0x7C49, 0x7C48, 0x7C4A, 0x7C47, 0x7C45, 0x7CEE, 0x7E7B]),
  (0xF4AD, [0x7E7E, 0x7E81, 0x7E80, 0x7FBA, 0x7FFF, 0x8079, 0x81DB, 0x81D9, 0x820B, 0x8268, 0x8269, 0x8622]),
  (0xF4B9, [0x85FF, 0x8601, 0x85FE, 0x861B, 0x8600, 0x85F6, 0x8604, 0x8609, 0x8605, 0x860C, 0x85FD, 0x8819]),
  (0xF4C5, [0x8810, 0x8811, 0x8817, 0x8813, 0x8816, 0x8963, 0x8966, 0x89B9, 0x89F7, 0x8B60, 0x8B6A, 0x8B5D]),
  (0xF4D1, [0x8B68, 0x8B63, 0x8B65, 0x8B67, 0x8B6D, 0x8DAE, 0x8E86, 0x8E88, 0x8E84, 0x8F59, 0x8F56, 0x8F57]),
  (0xF4DD, [0x8F55, 0x8F58, 0x8F5A, 0x908D, 0x9143, 0x9141, 0x91B7, 0x91B5, 0x91B2, 0x91B3, 0x940B, 0x9413]),
  (0xF4E9, [0x93FB, 0x9420, 0x940F, 0x9414, 0x93FE, 0x9415, 0x9410, 0x9428, 0x9419, 0x940D, 0x93F5, 0x9400]),
  (0xF4F5, [0x93F7, 0x9407, 0x940E, 0x9416, 0x9412, 0x93FA, 0x9409, 0x93F8, 0x940A, 0x93FF]),
  (0xF540, [0x93FC, 0x940C, 0x93F6, 0x9411, 0x9406, 0x95DE, 0x95E0, 0x95DF, 0x972E, 0x972F, 0x97B9, 0x97BB]),
  (0xF54C, [0x97FD, 0x97FE, 0x9860, 0x9862, 0x9863, 0x985F, 0x98C1, 0x98C2, 0x9950, 0x994E, 0x9959, 0x994C]),
  (0xF558, [0x994B, 0x9953, 0x9A32, 0x9A34, 0x9A31, 0x9A2C, 0x9A2A, 0x9A36, 0x9A29, 0x9A2E, 0x9A38, 0x9A2D]),
  (0xF564, [0x9AC7, 0x9ACA, 0x9AC6, 0x9B10, 0x9B12, 0x9B11, 0x9C0B, 0x9C08, 0x9BF7, 0x9C05, 0x9C12, 0x9BF8]),
  (0xF570, [0x9C40, 0x9C07, 0x9C0E, 0x9C06, 0x9C17, 0x9C14, 0x9C09, 0x9D9F, 0x9D99, 0x9DA4, 0x9D9D, 0x9D92]),
  (0xF57C, [0x9D98, 0x9D90, 0x9D9B]),
  (0xF5A1, [0x9DA0, 0x9D94, 0x9D9C, 0x9DAA, 0x9D97, 0x9DA1, 0x9D9A, 0x9DA2, 0x9DA8, 0x9D9E, 0x9DA3, 0x9DBF]),
  (0xF5AD, [0x9DA9, 0x9D96, 0x9DA6, 0x9DA7, 0x9E99, 0x9E9B, 0x9E9A, 0x9EE5, 0x9EE4, 0x9EE7, 0x9EE6, 0x9F30]),
  (0xF5B9, [0x9F2E, 0x9F5B, 0x9F60, 0x9F5E, 0x9F5D, 0x9F59, 0x9F91, 0x513A, 0x5139, 0x5298, 0x5297, 0x56C3]),
  (0xF5C5, [0x56BD, 0x56BE, 0x5B48, 0x5B47, 0x5DCB, 0x5DCF, 0x5EF1, 0x61FD, 0x651B, 0x6B02, 0x6AFC, 0x6B03]),
  (0xF5D1, [0x6AF8, 0x6B00, 0x7043, 0x7044, 0x704A, 0x7048, 0x7049, 0x7045, 0x7046, 0x721D, 0x721A, 0x7219]),
  (0xF5DD, [0x737E, 0x7517, 0x766A, 0x77D0, 0x792D, 0x7931, 0x792F, 0x7C54, 0x7C53, 0x7CF2, 0x7E8A, 0x7E87]),
  (0xF5E9, [0x7E88, 0x7E8B, 0x7E86, 0x7E8D, 0x7F4D, 0x7FBB, 0x8030, 0x81DD, 0x8618, 0x862A, 0x8626, 0x861F]),
  (0xF5F5, [0x8623, 0x861C, 0x8619, 0x8627, 0x862E, 0x8621, 0x8620, 0x8629, 0x861E, 0x8625]),
  (0xF640, [0x8829, 0x881D, 0x881B, 0x8820, 0x8824, 0x881C, 0x882B, 0x884A, 0x896D, 0x8969, 0x896E, 0x896B]),
  (0xF64C, [0x89FA, 0x8B79, 0x8B78, 0x8B45, 0x8B7A, 0x8B7B, 0x8D10, 0x8D14, 0x8DAF, 0x8E8E, 0x8E8C, 0x8F5E]),
  (0xF658, [0x8F5B, 0x8F5D, 0x9146, 0x9144, 0x9145, 0x91B9, 0x943F, 0x943B, 0x9436, 0x9429, 0x943D, 0x943C]),
  (0xF664, [0x9430, 0x9439, 0x942A, 0x9437, 0x942C, 0x9440, 0x9431, 0x95E5, 0x95E4, 0x95E3, 0x9735, 0x973A]),
  (0xF670, [0x97BF, 0x97E1, 0x9864, 0x98C9, 0x98C6, 0x98C0, 0x9958, 0x9956, 0x9A39, 0x9A3D, 0x9A46, 0x9A44]),
  (0xF67C, [0x9A42, 0x9A41, 0x9A3A]),
  (0xF6A1, [0x9A3F, 0x9ACD, 0x9B15, 0x9B17, 0x9B18, 0x9B16, 0x9B3A, 0x9B52, 0x9C2B, 0x9C1D, 0x9C1C, 0x9C2C]),
  (0xF6AD, [0x9C23, 0x9C28, 0x9C29, 0x9C24, 0x9C21, 0x9DB7, 0x9DB6, 0x9DBC, 0x9DC1, 0x9DC7, 0x9DCA, 0x9DCF]),
  (0xF6B9, [0x9DBE, 0x9DC5, 0x9DC3, 0x9DBB, 0x9DB5, 0x9DCE, 0x9DB9, 0x9DBA, 0x9DAC, 0x9DC8, 0x9DB1, 0x9DAD]),
  (0xF6C5, [0x9DCC, 0x9DB3, 0x9DCD, 0x9DB2, 0x9E7A, 0x9E9C, 0x9EEB, 0x9EEE, 0x9EED, 0x9F1B, 0x9F18, 0x9F1A]),
  (0xF6D1, [0x9F31, 0x9F4E, 0x9F65, 0x9F64, 0x9F92, 0x4EB9, 0x56C6, 0x56C5, 0x56CB, 0x5971, 0x5B4B, 0x5B4C]),
  (0xF6DD, [0x5DD5, 0x5DD1, 0x5EF2, 0x6521, 0x6520, 0x6526, 0x6522, 0x6B0B, 0x6B08, 0x6B09, 0x6C0D, 0x7055]),
  (0xF6E9, [0x7056, 0x7057, 0x7052, 0x721E, 0x721F, 0x72A9, 0x737F, 0x74D8, 0x74D5, 0x74D9, 0x74D7, 0x766D]),
  (0xF6F5, [0x76AD, 0x7935, 0x79B4, 0x7A70, 0x7A71, 0x7C57, 0x7C5C, 0x7C59, 0x7C5B, 0x7C5A]),
  (0xF740, [0x7CF4, 0x7CF1, 0x7E91, 0x7F4F, 0x7F87, 0x81DE, 0x826B, 0x8634, 0x8635, 0x8633, 0x862C, 0x8632]),
  (0xF74C, [0x8636, 0x882C, 0x8828, 0x8826, 0x882A, 0x8825, 0x8971, 0x89BF, 0x89BE, 0x89FB, 0x8B7E, 0x8B84]),
  (0xF758, [0x8B82, 0x8B86, 0x8B85, 0x8B7F, 0x8D15, 0x8E95, 0x8E94, 0x8E9A, 0x8E92, 0x8E90, 0x8E96, 0x8E97]),
  (0xF764, [0x8F60, 0x8F62, 0x9147, 0x944C, 0x9450, 0x944A, 0x944B, 0x944F, 0x9447, 0x9445, 0x9448, 0x9449]),
  (0xF770, [0x9446, 0x973F, 0x97E3, 0x986A, 0x9869, 0x98CB, 0x9954, 0x995B, 0x9A4E, 0x9A53, 0x9A54, 0x9A4C]),
  (0xF77C, [0x9A4F, 0x9A48, 0x9A4A]),
  (0xF7A1, [0x9A49, 0x9A52, 0x9A50, 0x9AD0, 0x9B19, 0x9B2B, 0x9B3B, 0x9B56, 0x9B55, 0x9C46, 0x9C48, 0x9C3F]),
  (0xF7AD, [0x9C44, 0x9C39, 0x9C33, 0x9C41, 0x9C3C, 0x9C37, 0x9C34, 0x9C32, 0x9C3D, 0x9C36, 0x9DDB, 0x9DD2]),
  (0xF7B9, [0x9DDE, 0x9DDA, 0x9DCB, 0x9DD0, 0x9DDC, 0x9DD1, 0x9DDF, 0x9DE9, 0x9DD9, 0x9DD8, 0x9DD6, 0x9DF5]),
  (0xF7C5, [0x9DD5, 0x9DDD, 0x9EB6, 0x9EF0, 0x9F35, 0x9F33, 0x9F32, 0x9F42, 0x9F6B, 0x9F95, 0x9FA2, 0x513D]),
  (0xF7D1, [0x5299, 0x58E8, 0x58E7, 0x5972, 0x5B4D, 0x5DD8, 0x882F, 0x5F4F, 0x6201, 0x6203, 0x6204, 0x6529]),
  (0xF7DD, [0x6525, 0x6596, 0x66EB, 0x6B11, 0x6B12, 0x6B0F, 0x6BCA, 0x705B, 0x705A, 0x7222, 0x7382, 0x7381]),
  (0xF7E9, [0x7383, 0x7670, 0x77D4, 0x7C67, 0x7C66, 0x7E95, 0x826C, 0x863A, 0x8640, 0x8639, 0x863C, 0x8631]),
  (0xF7F5, [0x863B, 0x863E, 0x8830, 0x8832, 0x882E, 0x8833, 0x8976, 0x8974, 0x8973, 0x89FE]),
  (0xF840, [0x8B8C, 0x8B8E, 0x8B8B, 0x8B88, 0x8C45, 0x8D19, 0x8E98, 0x8F64, 0x8F63, 0x91BC, 0x9462, 0x9455]),
  (0xF84C, [0x945D, 0x9457, 0x945E, 0x97C4, 0x97C5, 0x9800, 0x9A56, 0x9A59, 0x9B1E, 0x9B1F, 0x9B20, 0x9C52]),
  (0xF858, [0x9C58, 0x9C50, 0x9C4A, 0x9C4D, 0x9C4B, 0x9C55, 0x9C59, 0x9C4C, 0x9C4E, 0x9DFB, 0x9DF7, 0x9DEF]),
  (0xF864, [0x9DE3, 0x9DEB, 0x9DF8, 0x9DE4, 0x9DF6, 0x9DE1, 0x9DEE, 0x9DE6, 0x9DF2, 0x9DF0, 0x9DE2, 0x9DEC]),
  (0xF870, [0x9DF4, 0x9DF3, 0x9DE8, 0x9DED, 0x9EC2, 0x9ED0, 0x9EF2, 0x9EF3, 0x9F06, 0x9F1C, 0x9F38, 0x9F37]),
  (0xF87C, [0x9F36, 0x9F43, 0x9F4F]),
  (0xF8A1, [0x9F71, 0x9F70, 0x9F6E, 0x9F6F, 0x56D3, 0x56CD, 0x5B4E, 0x5C6D, 0x652D, 0x66ED, 0x66EE, 0x6B13]),
  (0xF8AD, [0x705F, 0x7061, 0x705D, 0x7060, 0x7223, 0x74DB, 0x74E5, 0x77D5, 0x7938, 0x79B7, 0x79B6, 0x7C6A]),
  (0xF8B9, [0x7E97, 0x7F89, 0x826D, 0x8643, 0x8838, 0x8837, 0x8835, 0x884B, 0x8B94, 0x8B95, 0x8E9E, 0x8E9F]),
  (0xF8C5, [0x8EA0, 0x8E9D, 0x91BE, 0x91BD, 0x91C2, 0x946B, 0x9468, 0x9469, 0x96E5, 0x9746, 0x9743, 0x9747]),
  (0xF8D1, [0x97C7, 0x97E5, 0x9A5E, 0x9AD5, 0x9B59, 0x9C63, 0x9C67, 0x9C66, 0x9C62, 0x9C5E, 0x9C60, 0x9E02]),
  (0xF8DD, [0x9DFE, 0x9E07, 0x9E03, 0x9E06, 0x9E05, 0x9E00, 0x9E01, 0x9E09, 0x9DFF, 0x9DFD, 0x9E04, 0x9EA0]),
  (0xF8E9, [0x9F1E, 0x9F46, 0x9F74, 0x9F75, 0x9F76, 0x56D4, 0x652E, 0x65B8, 0x6B18, 0x6B19, 0x6B17, 0x6B1A]),
  (0xF8F5, [0x7062, 0x7226, 0x72AA, 0x77D8, 0x77D9, 0x7939, 0x7C69, 0x7C6B, 0x7CF6, 0x7E9A]),
  (0xF940, [0x7E98, 0x7E9B, 0x7E99, 0x81E0, 0x81E1, 0x8646, 0x8647, 0x8648, 0x8979, 0x897A, 0x897C, 0x897B]),
  (0xF94C, [0x89FF, 0x8B98, 0x8B99, 0x8EA5, 0x8EA4, 0x8EA3, 0x946E, 0x946D, 0x946F, 0x9471, 0x9473, 0x9749]),
  (0xF958, [0x9872, 0x995F, 0x9C68, 0x9C6E, 0x9C6D, 0x9E0B, 0x9E0D, 0x9E10, 0x9E0F, 0x9E12, 0x9E11, 0x9EA1]),
  (0xF964, [0x9EF5, 0x9F09, 0x9F47, 0x9F78, 0x9F7B, 0x9F7A, 0x9F79, 0x571E, 0x7066, 0x7C6F, 0x883C, 0x8DB2]),
  (0xF970, [0x8EA6, 0x91C3, 0x9474, 0x9478, 0x9476, 0x9475, 0x9A60, 0x9C74, 0x9C73, 0x9C71, 0x9C75, 0x9E14]),
  (0xF97C, [0x9E13, 0x9EF6, 0x9F0A]),
  (0xF9A1, [0x9FA4, 0x7068, 0x7065, 0x7CF7, 0x866A, 0x883E, 0x883D, 0x883F, 0x8B9E, 0x8C9C, 0x8EA9, 0x8EC9]),
  (0xF9AD, [0x974B, 0x9873, 0x9874, 0x98CC, 0x9961, 0x99AB, 0x9A64, 0x9A66, 0x9A67, 0x9B24, 0x9E15, 0x9E17]),
  (0xF9B9, [0x9F48, 0x6207, 0x6B1E, 0x7227, 0x864C, 0x8EA8, 0x9482, 0x9480, 0x9481, 0x9A69, 0x9A68, 0x9B2E]),
  (0xF9C5, [0x9E19, 0x7229, 0x864B, 0x8B9F, 0x9483, 0x9C79, 0x9EB7, 0x7675, 0x9A6B, 0x9C7A, 0x9E1D, 0x7069]),
  (0xF9D1, [0x706A, 0x9EA4, 0x9F7E, 0x9F49, 0x9F98, 0x7881, 0x92B9, 0x88CF, 0x58BB, 0x6052, 0x7CA7, 0x5AFA]),
  (0xF9DD, [0x2554, 0x2566, 0x2557, 0x2560, 0x256C, 0x2563, 0x255A, 0x2569, 0x255D, 0x2552, 0x2564, 0x2555]),
  (0xF9E9, [0x255E, 0x256A, 0x2561, 0x2558, 0x2567, 0x255B, 0x2553, 0x2565, 0x2556, 0x255F, 0x256B, 0x2562]),
  (0xF9F5, [0x2559, 0x2568, 0x255C, 0x2551, 0x2550, 0x256D, 0x256E, 0x2570, 0x256F, 0x2593])]

/-- /repo/modules/from/_BIG5-ETEN.txt; there is no file for writing. -/
def big5Eten : Charset where
  reads := big5EtenReads
  writes := []

/-- The rules of /repo/modules/from/_BIG5E.txt: code, character.  No two lines have the same code, so their order does not matter; here they
are sorted. -/
def big5eReads : Chart := Chart.wide [
  (0x8140, 0x7E27_7E26_806E_81AF_81AD_81AA_8218_856F_854C_8542_855C_8570),
  (0x814C, 0x855F_855A_854B_853F_878A_878B_87A1_878E_8799_885E_885F_8924),
  (0x8158, 0x89A7_8AEA_8AFD_8AF9_8AE3_8AE5_8AEC_8CF2_8CEF_8DA6_8E3B_8E43),
  (0x8164, 0x8E32_8F31_8F30_8F2D_8F3C_8FA7_8FA5_9137_9195_918E_9196_9345),
  (0x8170, 0x930A_92FD_9317_931C_9307_9331_9332_932C_9330_9303_9305_95C2),
  (0x817C, 0x95B8_95C1_96AB),
  (0x81A1, 0x96B7_9715_9714_970C_9717_9793_97D2_9836_9831_9833_983C_982E),
  (0x81AD, 0x983A_983D_98B5_9922_9923_9920_991C_991D_99A0_99EF_99E8_99EB),
  (0x81B9, 0x99E1_99E6_9AF8_9AF5_9B83_9B94_9B84_9B8B_9B8F_9B8C_9B89_9B8E),
  (0x81C5, 0x9D24_9D0F_9D13_9D0A_9D2A_9D1A_9D27_9D16_9D21_9E85_9EAC_9EC6),
  (0x81D1, 0x9EC5_9ED7_9F53_5128_5127_51DF_5335_53B3_568A_567D_5689_58CD),
  (0x81DD, 0x58D0_5B2B_5B33_5B29_5B35_5B31_5B37_5C36_5DBE_5DB9_5DBB_61E2),
  (0x81E9, 0x61DB_61DD_61DC_61DA_61D9_64DF_64E1_64EE_65B5_66D4_66D5_66D0),
  (0x81F5, 0x66D1_66CE_66D7_6A7D_6A8A_6AA7_6A99_6A82_6A88_6A86),
  (0x8240, 0x6A98_6A9D_6A8F_6AAA_6B5D_6C0A_6FD7_6FD6_6FE5_6FD9_6FDA_6FEA),
  (0x824C, 0x6FF6_71E3_71E9_71EB_71EF_71F3_71EA_7371_74AE_74B3_74AC_7583),
  (0x8258, 0x7645_764E_7644_76A3_76A5_77A6_77A4_77A9_77AF_78F0_78F8_78F1),
  (0x8264, 0x7A49_7AC2_7AF2_7AF3_7BFA_7BF6_7BFC_7C18_7C08_7C12_7CDB_7CDA),
  (0x8270, 0x7E2C_7E4D_7F46_7FF6_802B_8074_81B8_81C8_8592_8593_857F_85AB),
  (0x827C, 0x8597_85AC_87CE),
  (0x82A1, 0x87CD_87C1_87B1_87C7_8940_893F_8939_8943_89AB_8B1F_8B09_8B0C),
  (0x82AD, 0x8C40_8C96_8CF6_8CF7_8E46_8E4F_8F3D_8F41_9366_9378_935D_9369),
  (0x82B9, 0x9374_937D_936E_9372_9373_9362_9348_9353_935F_9368_937F_936B),
  (0x82C5, 0x95C4_96AF_96AD_96B2_971A_971B_979B_979F_9840_9847_98B7_99A2),
  (0x82D1, 0x9A00_99F3_99F5_9ABD_9B00_9B02_9B34_9B49_9B9F_9BA3_9BCD_9B99),
  (0x82DD, 0x9B9D_9D39_9D44_9D35_9EAF_512F_9F8E_569F_569B_569E_5696_5694),
  (0x82E9, 0x56A0_5B3B_5B3A_5DC1_5F4D_5F5D_61F3_64F6_64E5_64EA_64E7_6505),
  (0x82F5, 0x64F9_6AAB_6AED_6AB2_6AB0_6AB5_6ABE_6AC1_6AC8_6AC0),
  (0x8340, 0x6ABC_6AB1_6AC4_6ABF_7008_7003_6FFD_7010_7002_7013_71FA_7200),
  (0x834C, 0x74B9_74BC_765B_7651_764F_76EB_77B8_77B9_77C1_77C0_77BE_790B),
  (0x8358, 0x7907_790A_7908_790D_7906_7915_79AF_7AF5_7C2E_7C1B_7C1A_7C24),
  (0x8364, 0x7CE6_7CE3_7E5D_7E4F_7E66_7E5B_7F47_7FB4_7FFA_802E_81CE_8219),
  (0x8370, 0x85CC_85B2_85BB_85C1_87E9_87EE_87F0_87D6_880E_87DA_8948_894A),
  (0x837C, 0x894E_894D_89B1),
  (0x83A1, 0x89B0_89B3_8B38_8B32_8B2D_8B34_8B29_8C74_8D03_8DA9_8E58_8EBF),
  (0x83AD, 0x8EC1_8F4A_8FAC_9089_913D_913C_91A9_93A0_9390_9393_938B_93AD),
  (0x83B9, 0x93BB_93B8_939C_95D8_95D7_975D_97A9_97DA_9854_9855_984B_983F),
  (0x83C5, 0x98B9_9938_9936_9940_993B_9939_99A4_9A08_9A0C_9A10_9B07_9BD2),
  (0x83D1, 0x9BC2_9BBB_9BCC_9BCB_9D4D_9D63_9D4E_9D50_9D55_9D5E_9E90_9EB2),
  (0x83DD, 0x9EB1_9ECA_9F02_9F27_9F26_56AF_58E0_58DC_5B39_5B7C_5BF3_5C6B),
  (0x83E9, 0x5DC4_650B_6508_650A_65DC_66E1_66DF_6ACE_6AD4_6AE3_6AD7_6AE2),
  (0x83F5, 0x6AD8_6AD5_6AD2_701E_702C_7025_6FF3_7204_7208_7215),
  (0x8440, 0x74C4_74C9_74C7_74C8_76A9_77C6_77C5_7918_791A_7920_7A66_7A64),
  (0x844C, 0x7A6A_7C35_7C34_7E6C_7E6E_7E71_81D4_81D6_821A_8262_8265_8276),
  (0x8458, 0x85DB_85D6_85E7_85F4_87FD_87D5_8807_880F_87F8_8987_89B5_89F5),
  (0x8464, 0x8B3F_8B43_8B4C_8D0B_8E6B_8E68_8E70_8E75_8E77_8EC3_93E9_93EA),
  (0x8470, 0x93CB_93C5_93C6_93ED_93D3_93E5_93DB_93EB_93E0_93C1_95DD_97B2),
  (0x847C, 0x97B4_97B1_97B5),
  (0x84A1, 0x97F2_9856_9944_9A26_9A1F_9A18_9A21_9A17_9B09_9BC5_9BDF_9BE3),
  (0x84AD, 0x9BE9_9BEE_9D66_9D7A_9D6E_9D91_9D83_9D76_9D7E_9D6D_9E95_9EE3),
  (0x84B9, 0x9F03_9F04_9F17_5136_5336_5B42_5B44_5B46_5B7E_5DCA_5DC8_5DCC),
  (0x84C5, 0x5EF0_6585_66E5_66E7_6AF4_6AE9_703D_7036_7216_7212_720F_7217),
  (0x84D1, 0x7211_720B_74CD_74D0_74CC_74CE_74D1_7589_7A6F_7C4B_7C44_7C55),
  (0x84DD, 0x7E7F_8B71_802F_807A_807B_807C_85FC_8610_8602_85EE_8603_860D),
  (0x84E9, 0x8613_8608_860F_8818_8812_8967_8965_89BB_8B69_8B62_8B6E_8B61),
  (0x84F5, 0x8B64_8B4D_8C51_8E83_8EC6_941F_9404_9417_9408_9405),
  (0x8540, 0x93F3_941E_9402_941A_941B_9427_941C_96B5_9733_9734_9731_97B8),
  (0x854C, 0x97BA_97FC_98C3_994D_9A2F_9AC9_9AC8_9AC4_9B2A_9B38_9B50_9C0A),
  (0x8558, 0x9BFB_9C04_9BFC_9BFE_9C02_9BF6_9C1B_9BF9_9C15_9C10_9BFF_9C00),
  (0x8564, 0x9C0C_9D95_9DA5_9E98_9EC1_9F5A_5164_56BB_58E6_5B49_5BF7_5DD0),
  (0x8570, 0x5FC2_6511_6AFF_6AFE_6AFD_6B01_704B_704D_7047_74D3_7668_7667),
  (0x857C, 0x77D1_7930_7932),
  (0x85A1, 0x792E_9F9D_7AC9_7AC8_7C56_7C51_7E85_7E89_7E8E_7E84_826A_862B),
  (0x85AD, 0x862F_8628_8616_8615_861D_881A_89BC_8B75_8B7C_8D11_8D12_8F5C),
  (0x85B9, 0x91BB_93F4_942D_96E4_9737_9736_9767_97BE_97BD_97E2_9868_9866),
  (0x85C5, 0x98C8_98CA_98C7_98DC_994F_99A9_9A3C_9A3B_9ACE_9B14_9B53_9C2E),
  (0x85D1, 0x9C1F_9DB0_9DBD_9DAE_9DC4_9E7B_9E9E_9F05_9F69_9FA1_56C7_571D),
  (0x85DD, 0x5B4A_5DD3_5F72_6202_6235_6527_651E_651F_6B07_6B06_7054_721C),
  (0x85E9, 0x7220_7AF8_7C5D_7C58_7E92_7F4E_8827_8B81_8B83_8C44_9442_944D),
  (0x85F5, 0x9454_944E_9443_973C_9740_97C0_995A_9A51_9ADD_9C38),
  (0x8640, 0x9C45_9C3A_9C35_9EF1_9F93_529A_8641_5DD7_6528_7053_7059_7221),
  (0x864C, 0x766F_7937_79B5_7C62_7C5E_7CF5_863D_882D_8989_8B8D_8B87_8B90),
  (0x8658, 0x8D1A_8E99_945F_9456_9461_945B_945A_945C_9465_9741_986E_986C),
  (0x8664, 0x986D_99AA_9A5C_9A58_9ADE_9C4F_9C51_9C53_9DFC_9F39_513E_56D2),
  (0x8670, 0x5B4F_6B14_7A72_7A73_8B91_91BF_946C_96E6_9745_97C8_97E4_995D),
  (0x867C, 0x9B21_9B2C_9B57),
  (0x86A1, 0x9C5D_9C61_9C65_9E08_9F45_6205_66EF_6B1B_6B1D_7225_7224_7C6D),
  (0x86AD, 0x8642_8649_8978_898A_8B97_8C9B_8D1C_8EA2_9C6C_9C6F_9E0E_9F08),
  (0x86B9, 0x9F1D_9FA3_5F60_6B1C_7CF3_8B9B_8EA7_91C4_947A_9A61_9A63_9AD7),
  (0x86C5, 0x9C76_9FA5_7067_72AB_864A_897D_8B9D_8C53_8F65_947B_98CD_98DD),
  (0x86D1, 0x9B30_9E16_96E7_9E18_9EA2_9F7C_7E9E_9484_9E1C_7C71_97CA_9EA3),
  (0x86DD, 0x9C7B_9F97_9750_8FB6_51F7_5FC8_4F99_5153_577A_5787_6788_80B7),
  (0x86E9, 0x82BF_82CA_9638_6312_662A_7700_7702_5034_57D3_75B7_832E_96BA),
  (0x86F5, 0x532C_65C8_7314_7B29_5086_508A_5844_5845_5FA4_8020),
  (0x8740, 0x83BE_5843_7A16_9170_50D2_9B62_6F8A_8772_9AF0_9EA8_5292_878C),
  (0x874C, 0x9ABA_9B81_9384_9AFF_9BB3_9BB0_9EC7_9721_7C36_8B5E_9401_941D),
  (0x8758, 0x994A_8B73_9DD4_77D6_3007),
  (0x8E40, 0x4EA0_51AB_52F9_4E28_4E36_4E3F_4E85_4E05_4E04_5182_5196_5338),
  (0x8E4C, 0x5369_53B6_4E2A_4E87_4E49_51E2_4E46_4E8F_4EBC_4EBE_5166_51E3),
  (0x8E58, 0x5204_529C_5344_5902_590A_5B80_5DDB_5E7A_5E7F_5EF4_5F50_5F51),
  (0x8E64, 0x5F61_961D_4E63_4E62_4EA3_5185_4EC5_4ECF_4ECE_4ECC_5184_5186),
  (0x8E70, 0x51E4_5205_529E_529D_52FD_5300_533A_5346_535D_5386_53B7_53CC),
  (0x8E7C, 0x53CE_5721_5E00),
  (0x8EA1, 0x5F0C_6237_6238_6534_6535_65E0_738D_4E97_4EE0_4EE7_4EE6_56D8),
  (0x8EAD, 0x518B_518C_5199_51E5_520B_5304_5303_5307_531E_535F_536D_5389),
  (0x8EB9, 0x53BA_53D0_53F6_53F7_53F9_53F4_5724_5904_5918_5932_5930_5934),
  (0x8EC5, 0x5975_5B82_5BF9_5C14_5E81_5E83_5F0D_5F52_5FCA_5FC7_6239_624F),
  (0x8ED1, 0x65E7_672F_6B7A_6C39_6C37_6C44_6C45_738C_7592_7676_9093_9092),
  (0x8EDD, 0x4E21_4E20_4E22_4E68_4E89_4E98_4EF9_4EEF_4EF8_4F06_4F03_4EFC),
  (0x8EE9, 0x4EEE_4F16_4F28_4F1C_4F07_4F1A_4EFA_4F17_514A_5172_51B4_51B3),
  (0x8EF5, 0x51B2_51E8_5214_520F_5215_5218_52A8_534B_534F_5350),
  (0x8F40, 0x538B_53BE_53D2_5416_53FF_5400_5405_5413_5415_56E3_5735_5736),
  (0x8F4C, 0x5731_5732_58EE_5905_4E54_5936_597A_5986_5B86_5F53_5C18_5C3D),
  (0x8F58, 0x5C78_5C80_5E08_5EF5_5F0E_5FD3_5FDA_5FDB_620F_625D_625F_6267),
  (0x8F64, 0x6257_9F50_65EB_65EA_6737_6732_6736_6B22_6BCE_6C58_6C51_6C77),
  (0x8F70, 0x6C3C_6C5A_6C53_706F_7072_706E_7073_72B1_72B2_738F_793C_808D),
  (0x8F7C, 0x808E_827B_8D71),
  (0x8FA1, 0x8FB9_9096_909A_4E24_4E71_4E9C_4F45_4F4A_4F39_4F37_4F32_4F42),
  (0x8FAD, 0x4F44_4F4B_4F40_4F35_4F31_5151_5150_514E_519D_51B5_51B8_51EC),
  (0x8FB9, 0x5223_5227_5226_521F_522B_5220_52B4_52B3_5325_533B_5374_544D),
  (0x8FC5, 0x543A_5444_544C_5423_541A_5432_544B_5421_5434_5449_5450_5422),
  (0x8FD1, 0x543F_5451_545A_542F_56E9_56F2_56F3_56EF_56ED_56EC_56E6_5748),
  (0x8FDD, 0x5744_573F_573C_5753_5756_575F_5743_5758_5757_5746_573D_5742),
  (0x8FE9, 0x5754_5755_58F1_58F2_58F0_590B_9EA6_56F1_593D_5994_598C_599C),
  (0x8FF5, 0x599F_599B_5989_599A_6588_5B8D_5BFE_5BFF_5BFD_5C2B),
  (0x9040, 0x5C84_5C8E_5C9C_5C85_5DF5_5E09_5E0B_5E92_5E90_5F03_5F1E_5F63),
  (0x904C, 0x5FE7_5FFE_5FE6_5FDC_5FCE_5FFC_5FDF_5FEC_5FF6_5FF2_5FF0_5FF9),
  (0x9058, 0x6213_623B_623C_6282_6278_628B_629E_62A5_629B_629C_6299_628D),
  (0x9064, 0x6285_629D_6275_65F6_66F5_675B_6754_6752_6758_6744_674A_6761),
  (0x9070, 0x6C7F_6C91_6C9E_6C6E_6C7C_6C9F_6C75_6C56_6CA2_6C79_6CA1_6CAA),
  (0x907C, 0x6CA0_7079_7077),
  (0x90A1, 0x707E_7075_707B_7264_72BB_72BC_72C7_72B9_72BE_72B6_7398_7593),
  (0x90AD, 0x7680_7683_76C0_76C1_77F4_77F5_7ACC_7ACD_7CFA_809F_8091_8097),
  (0x90B9, 0x8094_8286_828C_8295_866C_8FB5_8FBE_8FC7_8FC1_90A9_90A4_90A8),
  (0x90C5, 0x9627_9626_962B_9633_9634_9629_4E3D_4E9D_4F93_4F8A_4F6D_4F8E),
  (0x90D1, 0x4FA0_4FA2_4FA1_4F9F_4FA3_4F72_4F8C_5156_5190_51ED_51FE_522F),
  (0x90DD, 0x523C_5234_5239_52B9_52B5_52BF_5355_5376_537A_5393_53C1_53C2),
  (0x90E9, 0x53D5_5485_545F_5493_5489_5479_9EFE_548F_5469_546D_5494_546A),
  (0x90F5, 0x548A_56FD_56FB_56F8_56FC_56F6_5765_5781_5763_5767),
  (0x9140, 0x576E_5778_577F_58F3_594B_594C_59AD_59C4_59C2_59B0_59BF_59C9),
  (0x914C, 0x59B8_59AC_59B7_59D7_5B60_5B96_5B9E_5B94_5B9F_5B9D_5C00_5C19),
  (0x9158, 0x5C49_5C4A_5CBB_5CC1_5CB9_5C9E_5CB4_5CBA_5DF6_5E13_5E12_5E77),
  (0x9164, 0x5E98_5E99_5E9D_5EF8_5EF9_5F06_5F21_5F25_5F55_5F84_5F83_6030),
  (0x9170, 0x6007_6036_5FE9_603D_6008_62BA_62B2_62B7_62E4_62A7_62D5_62E1),
  (0x917C, 0x62DD_62A6_62C1),
  (0x91A1, 0x62C5_62C0_62DF_62E0_62DE_6589_65A6_65BA_65FF_6617_6618_6601),
  (0x91AD, 0x65FE_670C_676B_6796_6782_678A_67A3_67A2_678F_67F9_6780_6B26),
  (0x91B9, 0x6B27_6B68_6B69_6B81_6BB4_6BD1_6C1C_6C97_6C6C_6CDF_6CEA_6CE4),
  (0x91C5, 0x6CD8_6CB2_6CCE_6CC8_708B_7088_7090_708F_7087_7089_708D_7081),
  (0x91D1, 0x708C_7240_7265_7266_7268_72CD_72D3_72DB_72CF_73A7_73A3_739E),
  (0x91DD, 0x73AF_73AA_739C_7542_7544_753B_7541_759B_759E_79C4_79C3_79C6),
  (0x91E9, 0x79C7_79CA_7ACF_7C76_7C74_7CFF_7CFC_7F59_80A8_80B0_80B3_80A4),
  (0x91F5, 0x80B6_80A7_80AC_80A6_5367_820E_82C4_833E_829C_82AA),
  (0x9240, 0x82C9_82A6_82B2_8FCC_8FD9_8FCA_8FD8_8FCF_90B7_90AD_90B9_9637),
  (0x924C, 0x9641_963E_96B6_9751_9763_4E57_4E79_4EB2_4EB0_4EAF_4EB1_4FD2),
  (0x9258, 0x4FD5_4FBE_4FB8_4FB0_4FB1_4FC8_4FC6_4FCC_4FE5_4FE3_4FB4_516A),
  (0x9264, 0x519F_51C1_51C2_51C3_5245_5248_524F_52C5_52CA_52C4_5327_5358),
  (0x9270, 0x537D_53DD_53DC_53DA_53D9_54B9_54D0_54B4_54CA_54A3_54DA_54A4),
  (0x927C, 0x54B2_549E_549F),
  (0x92A1, 0x54B5_54CD_54CC_5700_57AC_5791_578E_578D_5792_57A1_5790_57A6),
  (0x92AD, 0x57A8_579C_5796_57A7_58F5_5909_5908_5952_59DF_59EB_59EF_59F0),
  (0x92B9, 0x59D5_5A0D_5A04_59F9_5A02_59F8_59E2_59D9_59E7_5B6A_5BAB_5C1B),
  (0x92C5, 0x5C2F_663C_5CD1_5CDC_5CE6_5CE1_5CCD_5CE2_5CDD_5CE5_5DFB_5DFA),
  (0x92D1, 0x5E1E_5EA1_5EFC_5EFB_5F2F_5F66_605C_604E_6051_6023_6031_607C),
  (0x92DD, 0x6060_604A_6061_6218_631F_6317_62EA_6321_6304_6305_6531_6544),
  (0x92E9, 0x6540_6542_65BE_6629_661B_6623_662C_661A_6630_663B_661E_6637),
  (0x92F5, 0x6638_670E_67E8_67D6_67C7_67BC_6852_67BF_67D5_67FE),
  (0x9340, 0x8363_67FB_67B1_6801_6805_6800_67D7_6B2A_6B6B_6BE1_6D23_6CFF),
  (0x934C, 0x6D14_6D05_6D13_6D06_6D21_6D15_6CAF_6CF4_6D02_6D45_6D26_6D44),
  (0x9358, 0x6D24_70A5_70A3_70A2_70BB_70A0_70AA_70A8_70B6_70B2_70A7_70B9),
  (0x9364, 0x722E_723C_726D_72E7_72ED_72EC_72E5_72E2_73C4_73BD_73CF_73C9),
  (0x9370, 0x73C1_73D0_73CE_74ED_74EB_74EF_7549_7550_7546_754A_754D_75A6),
  (0x937C, 0x75A8_76C7_76FF),
  (0x93A1, 0x76FD_77E6_780A_7804_780B_7807_7815_7808_79D3_79D4_79D0_79D7),
  (0x93AD, 0x7A7C_7A7D_7A83_7A82_7AD4_7AD5_7AD3_7AD0_7AD2_7AFE_7AFC_7C77),
  (0x93B9, 0x7C7C_7C7B_7F8F_80D3_80CB_80D2_8109_80E2_80DF_80C6_8224_82F7),
  (0x93C5, 0x82D8_82DD_82F8_82FC_82E9_82EE_82D0_830E_82E2_830B_82FD_5179),
  (0x93D1, 0x8676_8678_8675_867D_8842_8866_898C_8A05_8A06_8C9F_8FF1_8FE7),
  (0x93DD, 0x8FE9_8FEF_90C2_90BC_90C6_90C0_90CD_90C9_90C4_9581_9CEC_5032),
  (0x93E9, 0x4FF9_501D_4FFF_5004_4FF0_5003_5002_4FFC_4FF2_5024_5008_5036),
  (0x93F5, 0x502E_5010_5038_5039_4FFD_5056_4FFB_51A3_51A6_51A1),
  (0x9440, 0x51C7_51C9_5260_5264_5259_5265_5267_5257_5263_5253_52CF_52CE),
  (0x944C, 0x52D0_52D1_52CC_550D_54F4_5513_54EF_54F5_54F9_5502_5500_5518),
  (0x9458, 0x54F0_54F6_5519_5705_57C9_57B7_57CD_57BE_57BB_57DB_57C8_57C4),
  (0x9464, 0x57C5_57D1_57CA_57C0_5A21_5A2A_5A1D_5A0B_5A22_5A24_5A14_5A31),
  (0x9470, 0x5A2F_5A1A_5A12_5A26_5BBC_5BBB_5BB7_5C05_5C06_5C52_5C53_5CFA),
  (0x947C, 0x5CEB_5CF3_5CF5),
  (0x94A1, 0x5CE9_5CEF_5E2A_5E30_5E2E_5E2C_5E2F_5EAF_5EA9_5EFD_5F32_5F8E),
  (0x94AD, 0x5F93_5F8F_604F_6099_607E_6074_604B_6073_6075_6056_60A9_608B),
  (0x94B9, 0x60A6_6093_60AE_609E_60A7_6245_632E_6352_6330_635B_6319_631B),
  (0x94C5, 0x6331_635D_6337_6335_6353_635C_633F_654B_658B_659A_6650_6646),
  (0x94D1, 0x664E_6640_664B_6648_6660_6644_664D_6837_6824_681B_6836_682C),
  (0x94DD, 0x6819_6856_6847_683E_681E_6815_6822_6827_6859_6858_6855_6830),
  (0x94E9, 0x6823_6B2E_6B2B_6B30_6B6C_6B8B_6BE9_6BEA_6BE5_6D6B_6D73_6D57),
  (0x94F5, 0x6D5D_6D56_6D8F_6D5B_6D1C_6D9A_6D9B_6D99_6D81_6D71),
  (0x9540, 0x6D72_6D5C_6D96_70C4_70DB_70CC_70D0_70E3_70DF_70D6_70EE_70D5),
  (0x954C, 0x727A_72F5_7302_73E2_73EC_73D5_73F9_73DF_73E6_73E4_73E1_74F3),
  (0x9558, 0x7556_7555_7558_7557_755E_75C3_75B4_75B1_76CB_76CC_772A_7716),
  (0x9564, 0x770F_773F_772B_770E_7724_7721_7718_77DD_7824_7836_7958_7959),
  (0x9570, 0x7962_79DA_79D9_79E1_79E5_79E8_79DB_79E2_79F0_7ADA_7ADD_7ADB),
  (0x957C, 0x7ADC_7B0D_7B0B),
  (0x95A1, 0x7B14_7C8E_7C86_7C87_7C83_7C8B_7D24_7D25_7F62_7F93_7F99_7F97),
  (0x95AD, 0x7FC4_7FC6_800A_8040_803C_803B_80F6_80FF_80EE_8104_8103_8107),
  (0x95B9, 0x80F7_822D_8227_8229_831F_8357_8321_8318_8358_8684_869F_869B),
  (0x95C5, 0x8689_86A6_8692_868F_86A0_884F_8878_887A_886E_887B_8884_8873),
  (0x95D1, 0x8A0D_8A0B_8A19_8ED0_8FF9_9009_9008_90DE_9151_91DB_91DF_91DE),
  (0x95DD, 0x91D6_91E0_9585_9660_9659_9656_96BD_5042_5059_5044_5066_5052),
  (0x95E9, 0x5054_5071_5050_507B_507C_5058_5079_506C_5078_51A8_51D1_51CF),
  (0x95F5, 0x5268_5276_52D4_53A0_53C4_5558_554C_5568_5549_555D),
  (0x9640, 0x5529_5554_5553_555A_553A_553F_552B_57EA_57EF_57DD_57FE_57DE),
  (0x964C, 0x57E6_57E8_57FF_5803_58F7_68A6_591F_595B_595D_595E_5A2B_5A3B),
  (0x9658, 0x5A61_5A3A_5A6E_5A4B_5A6B_5A45_5A4E_5A68_5A3D_5A71_5A3F_5A6F),
  (0x9664, 0x5A75_5A73_5A2C_5A59_5A54_5A4F_5A63_5BC8_5BC3_5C5B_5C61_5D21),
  (0x9670, 0x5D0A_5D09_5D2C_5D08_5D2A_5D15_5D10_5D13_5D2F_5D18_5DE3_5E39),
  (0x967C, 0x5E35_5E3A_5E32),
  (0x96A1, 0x5EBB_5EBA_5F34_5F39_6098_60D0_60D7_60AA_60A1_60A4_60EE_60E7),
  (0x96AD, 0x60E8_60DE_637E_638B_6379_6386_6393_6373_636A_636C_637F_63B2),
  (0x96B9, 0x63BA_6366_6374_655A_654E_654D_658D_658E_65AD_65C7_65CA_65C9),
  (0x96C5, 0x65E3_6657_6663_6667_671A_6719_6716_689E_68B6_6898_6873_689A),
  (0x96D1, 0x688E_68B7_68DB_68A5_686C_68C1_6884_6895_687A_6899_68B8_68B9),
  (0x96DD, 0x6870_6B35_6B90_6BBB_6BED_6DC1_6DC3_6DCE_6DAD_6E04_6DB9_6DE7),
  (0x96E9, 0x6E08_6E06_6E0A_6DB0_6DF8_6E0C_6DB1_6E02_6E07_6E09_6E01_6E17),
  (0x96F5, 0x6DFF_6E12_7103_7107_7101_70F5_70F1_7108_70F2_710F),
  (0x9740, 0x70FE_731A_7310_730E_7402_73F3_73FB_751B_7523_7561_7568_7567),
  (0x974C, 0x75D3_7690_76D5_76D7_76D6_7730_7726_7740_771E_7847_784B_7851),
  (0x9758, 0x784F_7842_7846_796E_796C_79F2_79F1_79F5_79F3_79F9_7A9A_7A93),
  (0x9764, 0x7A91_7AE1_7B21_7B1C_7B16_7B17_7B36_7B1F_7C93_7C99_7C9A_7C9C),
  (0x9770, 0x7D49_7D34_7D37_7D2D_7D4C_7D48_7F3B_8008_801A_801D_8049_8045),
  (0x977C, 0x8044_7C9B_812A),
  (0x97A1, 0x812E_8131_811A_8134_8117_831D_8371_8384_8380_8372_83A1_8379),
  (0x97AD, 0x8391_839F_83AD_8323_8385_839C_83B7_8658_865A_8657_86B2_86AE),
  (0x97B9, 0x8845_889C_8894_88A3_888F_88A5_88A9_88A6_888A_88A0_8890_8992),
  (0x97C5, 0x8991_8994_8A26_8A32_8A28_8A1C_8A2B_8A20_8A29_8A21_8C3A_8C5B),
  (0x97D1, 0x8C58_8C7C_8CA6_8CAE_8CAD_8D65_8D7E_8D7C_8D7F_8D7A_8DBD_8DC0),
  (0x97DD, 0x8DBB_8EAD_8EAF_8ED6_8ED9_9012_900E_9025_9013_90EE_90AB_90F7),
  (0x97E9, 0x9159_9154_91F2_91F0_91E5_91F6_9587_965A_966E_9679_98E1_98E6),
  (0x97F5, 0x9EC4_9ED2_4E80_4E81_508F_5097_5088_5089_5081_5160),
  (0x9840, 0x5E42_51D3_51D2_51D6_5273_5270_53A8_53A6_53C5_5597_55DE_5596),
  (0x984C, 0x55B4_5585_559B_55A0_5559_5586_55AF_557A_559E_55A9_570F_570E),
  (0x9858, 0x581A_581F_583C_5818_583E_5826_583A_5822_58FB_5963_5964_5AA8),
  (0x9864, 0x5AA3_5A82_5A88_5AA1_5A85_5A98_5A99_5A89_5A81_5A96_5A80_5A91),
  (0x9870, 0x5ACF_5A87_5AA0_5A79_5A86_5AAB_5AAA_5AA4_5A8D_5A7E_5BD5_5C1E),
  (0x987C, 0x5C5F_5C5E_5D44),
  (0x98A1, 0x5D3E_5D48_5D1C_5D5B_5D4D_5D57_5D53_5D4F_5D3B_5D46_5E46_5E47),
  (0x98AD, 0x5E48_5EC0_5EBD_5EBF_5F11_5F3E_5F3B_5F3A_5FA7_60EA_6107_6122),
  (0x98B9, 0x610C_60B3_60D6_60D2_60E3_60E5_60E9_6111_60FD_611E_6120_6121),
  (0x98C5, 0x621E_63E2_63DE_63E6_63F8_63FE_63C1_63BF_63F7_63D1_655F_6560),
  (0x98D1, 0x6561_65D1_667D_666B_667F_6673_6681_666D_6669_671E_68ED_6903),
  (0x98DD, 0x68FE_68E5_691E_6902_6909_68CA_6900_6901_6918_68E2_68CF_692E),
  (0x98E9, 0x68C5_68FF_691C_68C3_6B6F_6B6E_6BBE_6BF4_6C2D_6DB6_6E75_6E1E),
  (0x98F5, 0x6E18_6E48_6E4F_6E42_6E6A_6E70_6DFE_6E6D_6E7B_6E7E),
  (0x9940, 0x6E59_6E57_6E80_6E50_6E29_6E76_6E2A_6E4C_712A_7135_712C_7137),
  (0x994C, 0x711D_7138_7134_712B_7133_7127_7124_712D_7232_7283_7282_7287),
  (0x9958, 0x7306_7324_7338_732A_732C_732B_732F_7328_7417_7419_7438_741F),
  (0x9964, 0x7414_743C_73F7_741C_7415_7418_7439_74F9_7524_756E_756D_7571),
  (0x9970, 0x758E_75E5_7694_76B3_76D9_7748_7749_7743_7742_77DF_7863_7876),
  (0x997C, 0x785F_7866_7966),
  (0x99A1, 0x7971_7976_7984_7975_79FF_7A07_7A0E_7A09_7AE7_7AE2_7B55_7B43),
  (0x99AD, 0x7B57_7B6C_7B42_7B53_7B41_7CA0_7CA6_7CA4_7D74_7D59_7D60_7D57),
  (0x99B9, 0x7D6C_7D7E_7D64_7D5A_7D5D_7D76_7D4D_7D75_7FD3_7FD6_8060_804E),
  (0x99C5, 0x8145_813B_8148_8142_8149_8140_8114_8141_81EF_81F6_8203_83ED),
  (0x99D1, 0x83DA_8418_83D2_8408_8400_8417_8346_8414_83D3_8405_841F_8402),
  (0x99DD, 0x8416_83CD_83E6_865D_86D5_86E1_86EE_8847_8846_88BB_88BF_88B4),
  (0x99E9, 0x88B5_899A_8A43_8A5A_8A35_8A38_8A42_8A49_8A5D_8A4B_8A3D_8C60),
  (0x99F5, 0x8C5E_8C7F_8C7E_8C83_8CB1_8D87_8D88_8D83_8D86_8D8B),
  (0x9A40, 0x8D82_8DCA_8DD2_8DD4_8DC9_8EB0_8EF2_8EE4_8EF3_8EEA_8EFD_8F9D),
  (0x9A4C, 0x902B_902A_9028_9029_902C_903A_9030_9037_903B_910A_91FE_9220),
  (0x9A58, 0x920B_9218_9222_921B_9208_920E_9213_9595_968C_967B_967F_9681),
  (0x9A64, 0x9682_96EE_96ED_96EC_975F_976F_976D_98F0_9AA9_9AE0_4EB7_50CC),
  (0x9A70, 0x50BC_50AA_50B9_50AB_50C3_50CD_517E_527E_5279_52E1_52E0_52E7),
  (0x9A7C, 0x5380_53AB_53AA),
  (0x9AA1, 0x53A9_53E0_55EA_55D7_55C1_5715_586C_585C_5850_5861_586A_5869),
  (0x9AAD, 0x5856_5860_5866_585F_5923_5966_5968_5ACE_5AC5_5AC3_5AD0_5B74),
  (0x9AB9, 0x5B76_5BDC_5BD7_5BDA_5BDB_5C20_5D6D_5D66_5D64_5D6E_5D60_5F42),
  (0x9AC5, 0x5F5A_5F6E_6130_613A_612A_6143_6119_6131_613D_6408_6432_6438),
  (0x9AD1, 0x6431_6419_6411_6429_641D_643C_6446_6447_643A_6407_656B_6570),
  (0x9ADD, 0x656D_65E4_6693_668F_6692_668E_6946_6931_693E_697C_6943_6973),
  (0x9AE9, 0x6955_6985_694D_6950_6947_6967_6936_6964_6961_697D_6B44_6B40),
  (0x9AF5, 0x6B71_6B73_6B9C_6BC1_6BFA_6C31_6C32_6EB8_6EA8_6E91),
  (0x9B40, 0x6EBB_6E9A_6EA9_6EB5_6E6C_6EE8_6EDD_6EDA_6EE6_6EAC_6ED9_6EE3),
  (0x9B4C, 0x6EE9_6EDB_716F_7148_714A_716B_714F_7157_7174_7145_7151_716D),
  (0x9B58, 0x7251_7250_724E_7341_732E_7346_7427_7448_7453_743D_745D_7456),
  (0x9B64, 0x741E_7447_7443_7458_7449_744C_7445_743E_7501_751E_757A_75EE),
  (0x9B70, 0x7602_7697_7698_775D_7764_7753_7758_7882_7890_788A_787A_787D),
  (0x9B7C, 0x788B_7878_788D),
  (0x9BA1, 0x7888_7892_797E_7983_7980_7A0F_7A1D_7AA1_7AA4_7AE9_7AEA_7B62),
  (0x9BAD, 0x7B6B_7B5E_7B79_7B6F_7B68_7CAE_7CB0_7D90_7D8A_7D8B_7D99_7D95),
  (0x9BB9, 0x7D87_7D78_7D97_7D89_7D98_7FA3_7FDD_8057_8163_816A_816C_815D),
  (0x9BC5, 0x8175_815F_817D_816D_8241_844F_8484_847F_8448_842A_847B_8472),
  (0x9BD1, 0x8464_842E_845C_8453_8441_84C8_8462_8480_843E_8483_8471_844A),
  (0x9BDD, 0x8455_8458_86FC_86FD_8715_8716_86FF_8858_88E0_89E7_8A6A_8A80),
  (0x9BE9, 0x8A6F_8A65_8A78_8A7D_8A88_8A64_8A7E_8A67_8C63_8C88_8CCD_8CC9),
  (0x9BF5, 0x8DED_8EB1_8F04_8F9E_8FA0_9043_9046_9048_9045_9040),
  (0x9C40, 0x904C_910C_9113_9115_916B_9167_925D_9255_9235_9259_922F_923C),
  (0x9C4C, 0x928F_925C_926A_9262_925F_926B_926E_923B_9244_9241_959A_9599),
  (0x9C58, 0x968F_9696_96F4_96FC_9755_9779_97EE_97F5_980B_98F3_98F7_98FF),
  (0x9C64, 0x98F5_98EC_98F1_999A_9AE2_9B3D_9B5D_9CE8_9CEB_9CEF_9CEE_9E81),
  (0x9C70, 0x9F14_50D0_50D9_50DC_50D8_50E1_50EB_50F4_50E2_50DE_51F4_52ED),
  (0x9C7C, 0x52EA_5332_53AE),
  (0x9CA1, 0x53B0_55FB_5603_560B_5607_55F8_5628_561E_5618_5611_5651_5605),
  (0x9CAD, 0x5717_5892_588C_5878_5884_5873_58AD_5897_5895_5877_5872_5896),
  (0x9CB9, 0x588D_5910_596C_5AE7_5AE4_5AEF_5626_5AF0_5D7B_5D83_5D8B_5D8C),
  (0x9CC5, 0x5D78_5E52_5ED0_5ECF_5FB3_5FB4_617B_616F_6181_613C_6142_6138),
  (0x9CD1, 0x6133_6160_6169_617D_6186_622C_6228_644C_6457_647C_6455_6462),
  (0x9CDD, 0x6471_646A_6456_643B_6481_644F_647E_6464_6571_66A5_669A_669C),
  (0x9CE9, 0x66A6_66A4_698F_69C5_69C8_6992_69B2_69E3_69C0_69D6_69D1_699F),
  (0x9CF5, 0x69A2_69D2_69E1_69D5_699D_6998_6B74_6BA1_6EF0_6EF3),
  (0x9D40, 0x6F1B_6F0C_6F1D_6F34_6F28_6F17_6F44_6F42_6F04_6F11_6EFA_6F4A),
  (0x9D4C, 0x7191_718E_718B_718D_717F_718C_717E_717C_7183_7188_7294_7355),
  (0x9D58, 0x7353_734F_7354_746C_7465_7466_7461_746B_7468_7476_7460_7474),
  (0x9D64, 0x7506_760E_7607_76B9_76B7_76E2_7774_7777_7776_7775_7778_7771),
  (0x9D70, 0x777A_715B_777B_78A6_78AE_78B8_78B1_78AF_7989_7987_7A29_7A2A),
  (0x9D7C, 0x7A2D_7A2C_7A32),
  (0x9DA1, 0x7AEC_7AF0_7B81_7B9E_7B83_7B92_7BA3_7B9F_7B93_7B86_7CB8_7CB7),
  (0x9DAD, 0x7DC8_7DB6_7DD1_7DA8_7DAB_7DB3_7DCD_7DCF_7DA4_7F41_7F6F_7F71),
  (0x9DB9, 0x8023_805B_8061_805F_8181_8184_8213_824A_824C_84BD_8495_8492),
  (0x9DC5, 0x84C3_8496_84A5_84B5_84B3_84A3_84E4_84D8_84D5_84B7_84AD_84DA),
  (0x9DD1, 0x8493_8736_873D_872B_8747_8739_8745_871D_88FF_88EA_88F5_8900),
  (0x9DDD, 0x88ED_8903_88E9_89EA_8A9B_8A8E_8AA2_8A9C_8A94_8A90_8AA9_8AAC),
  (0x9DE9, 0x8A9F_8A9D_8C67_8CD0_8CD6_8CD4_8D98_8D9A_8D97_8E0B_8E08_8E01),
  (0x9DF5, 0x8EB4_8EB3_8FA1_8FA2_905A_9061_905F_9125_917B_9176),
  (0x9E40, 0x917C_9289_92F6_92B1_92AD_9292_9281_9284_92AE_9290_929E_95A2),
  (0x9E4C, 0x95A7_96A0_969D_969F_96D0_96D1_9759_9764_9819_9814_9815_981A),
  (0x9E58, 0x9906_98F8_9901_99BE_99BC_99B7_99B6_99C0_99B8_99C4_99BF_9ADA),
  (0x9E64, 0x9AE4_9AE9_9AE8_9AEA_9AE5_9B26_9B40_9EBD_510E_50F7_50FC_510D),
  (0x9E70, 0x5101_51DA_51D9_51DB_5286_528E_52EE_5333_53B1_5647_562D_5654),
  (0x9E7C, 0x564B_5652_5631),
  (0x9EA1, 0x5644_5656_5650_562B_564D_5637_564F_58A2_58B7_58B2_58AA_58B5),
  (0x9EAD, 0x58B0_58B4_58A4_58A7_5926_5AFE_5B04_5AFC_5B06_5B0A_5B0D_5B00),
  (0x9EB9, 0x5B0E_5D91_5D8F_5D90_5D98_5DA4_5D9B_5DA3_5D96_5DE4_5E5A_5E5E),
  (0x9EC5, 0x5FB8_6157_615C_61A6_6195_6188_61A3_618F_6164_6159_6178_6185),
  (0x9ED1, 0x6187_619E_6198_619C_622F_6480_649B_648E_648D_6494_64C6_64A8),
  (0x9EDD, 0x6483_64B9_6486_64B4_64AF_6491_64AA_64A1_64A7_66B6_66B3_66BC),
  (0x9EE9, 0x66AC_66AD_6A0E_6A1C_6A1A_6A0B_69EF_6A0C_69F0_6A22_69D8_6A12),
  (0x9EF5, 0x69FA_6A2A_6A10_6A29_69F9_69EA_6A2C_6A24_69E9_6B52),
  (0x9F40, 0x6B4F_6B53_6F10_6F65_6F75_6FD0_6F5C_6F3D_6F71_6F91_6F0B_6F79),
  (0x9F4C, 0x6F81_6F8F_6F59_6F74_71AE_71A3_71AD_71AB_71A6_71A2_52F2_7257),
  (0x9F58, 0x7255_7299_734B_747A_748C_7484_7482_7493_747B_7509_778A_7790),
  (0x9F64, 0x78C6_78D3_78C0_78D2_78C7_78C2_799F_799D_799E_7A41_7A38_7A3A),
  (0x9F70, 0x7A42_7A3E_7AB0_7BAE_7BB3_7BBF_7BCD_7BB2_7CC4_7CCD_7CC2_7CC6),
  (0x9F7C, 0x7CC3_7CC9_7CC7),
  (0x9FA1, 0x7DF8_7DED_7DE2_7DDC_7E02_7E01_7DD6_7DE4_7DFE_7E00_7DFC_7DFD),
  (0x9FAD, 0x7DF5_7DFF_7DEB_7DE5_7F78_7FAE_7FE7_8065_806A_8066_8068_806B),
  (0x9FB9, 0x8194_81A1_8192_8196_8193_8501_84F8_84F5_8504_851B_8503_8533),
  (0x9FC5, 0x8534_84ED_8535_8505_877D_8771_885C_88E6_890F_891B_89A9_89A5),
  (0x9FD1, 0x89EE_8AB1_8ACC_8ACE_8AB7_8AB5_8AE9_8AB4_8AB3_8AC1_8AAF_8ACA),
  (0x9FDD, 0x8AD0_8C8E_8CE9_8CDB_8CEB_8DA4_8DA2_8D9D_8E2A_8E28_8EB8_8EB6),
  (0x9FE9, 0x8EB9_8EB7_8F22_8F2B_8F27_8F19_8FA4_8FB3_9071_906A_9188_918C),
  (0x9FF5, 0x92BF_92B8_92BE_92DC_92E5_92D4_92D6_92DA_92ED_92F3),
  (0xA040, 0x92DB_92E2_92EB_95AF_95B2_95B3_96A3_96A5_970A_9787_9789_978C),
  (0xA04C, 0x97EF_982A_9822_981F_9919_99CA_99DA_99DE_99C8_99E0_9AB6_9AB5),
  (0xA058, 0x9AF4_9B6B_9B69_9B72_9B63_9D0D_9D01_9D0C_9CF8_9CFE_9D02_9E84),
  (0xA064, 0x9EAB_9EAA_511D_5116_512B_511E_511B_5290_5294_5314_5667_567B),
  (0xA070, 0x565F_5661_58C3_58CA_58C0_58C4_5901_5B1F_5B18_5B11_5B15_5B12),
  (0xA07C, 0x5B1C_5B22_5B79),
  (0xA0A1, 0x5DA6_5DB3_5DAB_5EEA_5F5B_61B7_61CE_61B9_61BD_61CF_61C0_6199),
  (0xA0AD, 0x6197_61BB_61D0_61C4_6231_64D3_64C0_64DC_64D1_64C8_64D5_66C3),
  (0xA0B9, 0x66BF_66C5_66CD_66C1_6706_6724_6A63_6A42_6A52_6A43_6A33_6A6C),
  (0xA0C5, 0x6A57_6A4C_6A6E_6A37_6A71_6A4A_6A36_6A53_6A45_6A70_6A5C_6B58),
  (0xA0D1, 0x6B57_6FBB_6FBE_6FB5_6FD3_6F9F_6FB7_6FF5_71B7_71BB_71D1_71BA),
  (0xA0DD, 0x71B6_71CC_71D3_749B_7496_74A2_749D_750A_750E_7581_762C_7637),
  (0xA0E9, 0x7636_763B_76A1_7798_7796_78D6_78EB_78DC_79A5_79A9_9834_7A53),
  (0xA0F5, 0x7A45_7A4F_7ABD_7ABB_7AF1_7BEC_7BED_7CD3_7CE1_7E19),
  (0xA140, 0x3000_FF0C_3001_3002_FF0E_2027_FF1B_FF1A_FF1F_FF01_FE30_2026),
  (0xA14C, 0x2025_FE50_FE51_FE52_00B7_FE54_FE55_FE56_FE57_FF5C_2013_FE31),
  (0xA158, 0x2014_FE33_2574_FE34_FE4F_FF08_FF09_FE35_FE36_FF5B_FF5D_FE37),
  (0xA164, 0xFE38_3014_3015_FE39_FE3A_3010_3011_FE3B_FE3C_300A_300B_FE3D),
  (0xA170, 0xFE3E_3008_3009_FE3F_FE40_300C_300D_FE41_FE42_300E_300F_FE43),
  (0xA17C, 0xFE44_FE59_FE5A),
  (0xA1A1, 0xFE5B_FE5C_FE5D_FE5E_2018_2019_201C_201D_301D_301E_2035_2032),
  (0xA1AD, 0xFF03_FF06_FF0A_203B_00A7_3003_25CB_25CF_25B3_25B2_25CE_2606),
  (0xA1B9, 0x2605_25C7_25C6_25A1_25A0_25BD_25BC_32A3_2105_00AF_FFE3_FF3F),
  (0xA1C5, 0x02CD_FE49_FE4A_FE4D_FE4E_FE4B_FE4C_FE5F_FE60_FE61_FF0B_FF0D),
  (0xA1D1, 0x00D7_00F7_00B1_221A_FF1C_FF1E_FF1D_2266_2267_2260_221E_2252),
  (0xA1DD, 0x2261_FE62_FE63_FE64_FE65_FE66_FF5E_2229_222A_22A5_2220_221F),
  (0xA1E9, 0x22BF_33D2_33D1_222B_222E_2235_2234_2640_2642_2295_2299_2191),
  (0xA1F5, 0x2193_2190_2192_2196_2197_2199_2198_2225_2223_FF0F),
  (0xA240, 0xFF3C_2215_FE68_FF04_FFE5_3012_FFE0_FFE1_FF05_FF20_2103_2109),
  (0xA24C, 0xFE69_FE6A_FE6B_33D5_339C_339D_339E_33CE_33A1_338E_338F_33C4),
  (0xA258, 0x00B0_5159_515B_515E_515D_5161_5163_55E7_74E9_7CCE_2581_2582),
  (0xA264, 0x2583_2584_2585_2586_2587_2588_258F_258E_258D_258C_258B_258A),
  (0xA270, 0x2589_253C_2534_252C_2524_251C_2594_2500_2502_2595_250C_2510),
  (0xA27C, 0x2514_2518_256D),
  (0xA2A1, 0x256E_2570_256F_2550_255E_256A_2561_25E2_25E3_25E5_25E4_2571),
  (0xA2AD, 0x2572_2573_FF10_FF11_FF12_FF13_FF14_FF15_FF16_FF17_FF18_FF19),
  (0xA2B9, 0x2160_2161_2162_2163_2164_2165_2166_2167_2168_2169_3021_3022),
  (0xA2C5, 0x3023_3024_3025_3026_3027_3028_3029_3038_3039_303A_FF21_FF22),
  (0xA2D1, 0xFF23_FF24_FF25_FF26_FF27_FF28_FF29_FF2A_FF2B_FF2C_FF2D_FF2E),
  (0xA2DD, 0xFF2F_FF30_FF31_FF32_FF33_FF34_FF35_FF36_FF37_FF38_FF39_FF3A),
  (0xA2E9, 0xFF41_FF42_FF43_FF44_FF45_FF46_FF47_FF48_FF49_FF4A_FF4B_FF4C),
  (0xA2F5, 0xFF4D_FF4E_FF4F_FF50_FF51_FF52_FF53_FF54_FF55_FF56),
  (0xA340, 0xFF57_FF58_FF59_FF5A_0391_0392_0393_0394_0395_0396_0397_0398),
  (0xA34C, 0x0399_039A_039B_039C_039D_039E_039F_03A0_03A1_03A3_03A4_03A5),
  (0xA358, 0x03A6_03A7_03A8_03A9_03B1_03B2_03B3_03B4_03B5_03B6_03B7_03B8),
  (0xA364, 0x03B9_03BA_03BB_03BC_03BD_03BE_03BF_03C0_03C1_03C3_03C4_03C5),
  (0xA370, 0x03C6_03C7_03C8_03C9_3105_3106_3107_3108_3109_310A_310B_310C),
  (0xA37C, 0x310D_310E_310F),
  (0xA3A1, 0x3110_3111_3112_3113_3114_3115_3116_3117_3118_3119_311A_311B),
  (0xA3AD, 0x311C_311D_311E_311F_3120_3121_3122_3123_3124_3125_3126_3127),
  (0xA3B9, 0x3128_3129_02D9_02C9_02CA_02C7_02CB),
  (0xA440, 0x4E00_4E59_4E01_4E03_4E43_4E5D_4E86_4E8C_4EBA_513F_5165_516B),
  (0xA44C, 0x51E0_5200_5201_529B_5315_5341_535C_53C8_4E09_4E0B_4E08_4E0A),
  (0xA458, 0x4E2B_4E38_51E1_4E45_4E48_4E5F_4E5E_4E8E_4EA1_5140_5203_52FA),
  (0xA464, 0x5343_53C9_53E3_571F_58EB_5915_5927_5973_5B50_5B51_5B53_5BF8),
  (0xA470, 0x5C0F_5C22_5C38_5C71_5DDD_5DE5_5DF1_5DF2_5DF3_5DFE_5E72_5EFE),
  (0xA47C, 0x5F0B_5F13_624D),
  (0xA4A1, 0x4E11_4E10_4E0D_4E2D_4E30_4E39_4E4B_5C39_4E88_4E91_4E95_4E92),
  (0xA4AD, 0x4E94_4EA2_4EC1_4EC0_4EC3_4EC6_4EC7_4ECD_4ECA_4ECB_4EC4_5143),
  (0xA4B9, 0x5141_5167_516D_516E_516C_5197_51F6_5206_5207_5208_52FB_52FE),
  (0xA4C5, 0x52FF_5316_5339_5348_5347_5345_535E_5384_53CB_53CA_53CD_58EC),
  (0xA4D1, 0x5929_592B_592A_592D_5B54_5C11_5C24_5C3A_5C6F_5DF4_5E7B_5EFF),
  (0xA4DD, 0x5F14_5F15_5FC3_6208_6236_624B_624E_652F_6587_6597_65A4_65B9),
  (0xA4E9, 0x65E5_66F0_6708_6728_6B20_6B62_6B79_6BCB_6BD4_6BDB_6C0F_6C34),
  (0xA4F5, 0x706B_722A_7236_723B_7247_7259_725B_72AC_738B_4E19),
  (0xA540, 0x4E16_4E15_4E14_4E18_4E3B_4E4D_4E4F_4E4E_4EE5_4ED8_4ED4_4ED5),
  (0xA54C, 0x4ED6_4ED7_4EE3_4EE4_4ED9_4EDE_5145_5144_5189_518A_51AC_51F9),
  (0xA558, 0x51FA_51F8_520A_52A0_529F_5305_5306_5317_531D_4EDF_534A_5349),
  (0xA564, 0x5361_5360_536F_536E_53BB_53EF_53E4_53F3_53EC_53EE_53E9_53E8),
  (0xA570, 0x53FC_53F8_53F5_53EB_53E6_53EA_53F2_53F1_53F0_53E5_53ED_53FB),
  (0xA57C, 0x56DB_56DA_5916),
  (0xA5A1, 0x592E_5931_5974_5976_5B55_5B83_5C3C_5DE8_5DE7_5DE6_5E02_5E03),
  (0xA5AD, 0x5E73_5E7C_5F01_5F18_5F17_5FC5_620A_6253_6254_6252_6251_65A5),
  (0xA5B9, 0x65E6_672E_672C_672A_672B_672D_6B63_6BCD_6C11_6C10_6C38_6C41),
  (0xA5C5, 0x6C40_6C3E_72AF_7384_7389_74DC_74E6_7518_751F_7528_7529_7530),
  (0xA5D1, 0x7531_7532_7533_758B_767D_76AE_76BF_76EE_77DB_77E2_77F3_793A),
  (0xA5DD, 0x79BE_7A74_7ACB_4E1E_4E1F_4E52_4E53_4E69_4E99_4EA4_4EA6_4EA5),
  (0xA5E9, 0x4EFF_4F09_4F19_4F0A_4F15_4F0D_4F10_4F11_4F0F_4EF2_4EF6_4EFB),
  (0xA5F5, 0x4EF0_4EF3_4EFD_4F01_4F0B_5149_5147_5146_5148_5168),
  (0xA640, 0x5171_518D_51B0_5217_5211_5212_520E_5216_52A3_5308_5321_5320),
  (0xA64C, 0x5370_5371_5409_540F_540C_540A_5410_5401_540B_5404_5411_540D),
  (0xA658, 0x5408_5403_540E_5406_5412_56E0_56DE_56DD_5733_5730_5728_572D),
  (0xA664, 0x572C_572F_5729_5919_591A_5937_5938_5984_5978_5983_597D_5979),
  (0xA670, 0x5982_5981_5B57_5B58_5B87_5B88_5B85_5B89_5BFA_5C16_5C79_5DDE),
  (0xA67C, 0x5E06_5E76_5E74),
  (0xA6A1, 0x5F0F_5F1B_5FD9_5FD6_620E_620C_620D_6210_6263_625B_6258_6536),
  (0xA6AD, 0x65E9_65E8_65EC_65ED_66F2_66F3_6709_673D_6734_6731_6735_6B21),
  (0xA6B9, 0x6B64_6B7B_6C16_6C5D_6C57_6C59_6C5F_6C60_6C50_6C55_6C61_6C5B),
  (0xA6C5, 0x6C4D_6C4E_7070_725F_725D_767E_7AF9_7C73_7CF8_7F36_7F8A_7FBD),
  (0xA6D1, 0x8001_8003_800C_8012_8033_807F_8089_808B_808C_81E3_81EA_81F3),
  (0xA6DD, 0x81FC_820C_821B_821F_826E_8272_827E_866B_8840_884C_8863_897F),
  (0xA6E9, 0x9621_4E32_4EA8_4F4D_4F4F_4F47_4F57_4F5E_4F34_4F5B_4F55_4F30),
  (0xA6F5, 0x4F50_4F51_4F3D_4F3A_4F38_4F43_4F54_4F3C_4F46_4F63),
  (0xA740, 0x4F5C_4F60_4F2F_4F4E_4F36_4F59_4F5D_4F48_4F5A_514C_514B_514D),
  (0xA74C, 0x5175_51B6_51B7_5225_5224_5229_522A_5228_52AB_52A9_52AA_52AC),
  (0xA758, 0x5323_5373_5375_541D_542D_541E_543E_5426_544E_5427_5446_5443),
  (0xA764, 0x5433_5448_5442_541B_5429_544A_5439_543B_5438_542E_5435_5436),
  (0xA770, 0x5420_543C_5440_5431_542B_541F_542C_56EA_56F0_56E4_56EB_574A),
  (0xA77C, 0x5751_5740_574D),
  (0xA7A1, 0x5747_574E_573E_5750_574F_573B_58EF_593E_599D_5992_59A8_599E),
  (0xA7AD, 0x59A3_5999_5996_598D_59A4_5993_598A_59A5_5B5D_5B5C_5B5A_5B5B),
  (0xA7B9, 0x5B8C_5B8B_5B8F_5C2C_5C40_5C41_5C3F_5C3E_5C90_5C91_5C94_5C8C),
  (0xA7C5, 0x5DEB_5E0C_5E8F_5E87_5E8A_5EF7_5F04_5F1F_5F64_5F62_5F77_5F79),
  (0xA7D1, 0x5FD8_5FCC_5FD7_5FCD_5FF1_5FEB_5FF8_5FEA_6212_6211_6284_6297),
  (0xA7DD, 0x6296_6280_6276_6289_626D_628A_627C_627E_6279_6273_6292_626F),
  (0xA7E9, 0x6298_626E_6295_6293_6291_6286_6539_653B_6538_65F1_66F4_675F),
  (0xA7F5, 0x674E_674F_6750_6751_675C_6756_675E_6749_6746_6760),
  (0xA840, 0x6753_6757_6B65_6BCF_6C42_6C5E_6C99_6C81_6C88_6C89_6C85_6C9B),
  (0xA84C, 0x6C6A_6C7A_6C90_6C70_6C8C_6C68_6C96_6C92_6C7D_6C83_6C72_6C7E),
  (0xA858, 0x6C74_6C86_6C76_6C8D_6C94_6C98_6C82_7076_707C_707D_7078_7262),
  (0xA864, 0x7261_7260_72C4_72C2_7396_752C_752B_7537_7538_7682_76EF_77E3),
  (0xA870, 0x79C1_79C0_79BF_7A76_7CFB_7F55_8096_8093_809D_8098_809B_809A),
  (0xA87C, 0x80B2_826F_8292),
  (0xA8A1, 0x828B_828D_898B_89D2_8A00_8C37_8C46_8C55_8C9D_8D64_8D70_8DB3),
  (0xA8AD, 0x8EAB_8ECA_8F9B_8FB0_8FC2_8FC6_8FC5_8FC4_5DE1_9091_90A2_90AA),
  (0xA8B9, 0x90A6_90A3_9149_91C6_91CC_9632_962E_9631_962A_962C_4E26_4E56),
  (0xA8C5, 0x4E73_4E8B_4E9B_4E9E_4EAB_4EAC_4F6F_4F9D_4F8D_4F73_4F7F_4F6C),
  (0xA8D1, 0x4F9B_4F8B_4F86_4F83_4F70_4F75_4F88_4F69_4F7B_4F96_4F7E_4F8F),
  (0xA8DD, 0x4F91_4F7A_5154_5152_5155_5169_5177_5176_5178_51BD_51FD_523B),
  (0xA8E9, 0x5238_5237_523A_5230_522E_5236_5241_52BE_52BB_5352_5354_5353),
  (0xA8F5, 0x5351_5366_5377_5378_5379_53D6_53D4_53D7_5473_5475),
  (0xA940, 0x5496_5478_5495_5480_547B_5477_5484_5492_5486_547C_5490_5471),
  (0xA94C, 0x5476_548C_549A_5462_5468_548B_547D_548E_56FA_5783_5777_576A),
  (0xA958, 0x5769_5761_5766_5764_577C_591C_5949_5947_5948_5944_5954_59BE),
  (0xA964, 0x59BB_59D4_59B9_59AE_59D1_59C6_59D0_59CD_59CB_59D3_59CA_59AF),
  (0xA970, 0x59B3_59D2_59C5_5B5F_5B64_5B63_5B97_5B9A_5B98_5B9C_5B99_5B9B),
  (0xA97C, 0x5C1A_5C48_5C45),
  (0xA9A1, 0x5C46_5CB7_5CA1_5CB8_5CA9_5CAB_5CB1_5CB3_5E18_5E1A_5E16_5E15),
  (0xA9AD, 0x5E1B_5E11_5E78_5E9A_5E97_5E9C_5E95_5E96_5EF6_5F26_5F27_5F29),
  (0xA9B9, 0x5F80_5F81_5F7F_5F7C_5FDD_5FE0_5FFD_5FF5_5FFF_600F_6014_602F),
  (0xA9C5, 0x6035_6016_602A_6015_6021_6027_6029_602B_601B_6216_6215_623F),
  (0xA9D1, 0x623E_6240_627F_62C9_62CC_62C4_62BF_62C2_62B9_62D2_62DB_62AB),
  (0xA9DD, 0x62D3_62D4_62CB_62C8_62A8_62BD_62BC_62D0_62D9_62C7_62CD_62B5),
  (0xA9E9, 0x62DA_62B1_62D8_62D6_62D7_62C6_62AC_62CE_653E_65A7_65BC_65FA),
  (0xA9F5, 0x6614_6613_660C_6606_6602_660E_6600_660F_6615_660A),
  (0xAA40, 0x6607_670D_670B_676D_678B_6795_6771_679C_6773_6777_6787_679D),
  (0xAA4C, 0x6797_676F_6770_677F_6789_677E_6790_6775_679A_6793_677C_676A),
  (0xAA58, 0x6772_6B23_6B66_6B67_6B7F_6C13_6C1B_6CE3_6CE8_6CF3_6CB1_6CCC),
  (0xAA64, 0x6CE5_6CB3_6CBD_6CBE_6CBC_6CE2_6CAB_6CD5_6CD3_6CB8_6CC4_6CB9),
  (0xAA70, 0x6CC1_6CAE_6CD7_6CC5_6CF1_6CBF_6CBB_6CE1_6CDB_6CCA_6CAC_6CEF),
  (0xAA7C, 0x6CDC_6CD6_6CE0),
  (0xAAA1, 0x7095_708E_7092_708A_7099_722C_722D_7238_7248_7267_7269_72C0),
  (0xAAAD, 0x72CE_72D9_72D7_72D0_73A9_73A8_739F_73AB_73A5_753D_759D_7599),
  (0xAAB9, 0x759A_7684_76C2_76F2_76F4_77E5_77FD_793E_7940_7941_79C9_79C8),
  (0xAAC5, 0x7A7A_7A79_7AFA_7CFE_7F54_7F8C_7F8B_8005_80BA_80A5_80A2_80B1),
  (0xAAD1, 0x80A1_80AB_80A9_80B4_80AA_80AF_81E5_81FE_820D_82B3_829D_8299),
  (0xAADD, 0x82AD_82BD_829F_82B9_82B1_82AC_82A5_82AF_82B8_82A3_82B0_82BE),
  (0xAAE9, 0x82B7_864E_8671_521D_8868_8ECB_8FCE_8FD4_8FD1_90B5_90B8_90B1),
  (0xAAF5, 0x90B6_91C7_91D1_9577_9580_961C_9640_963F_963B_9644),
  (0xAB40, 0x9642_96B9_96E8_9752_975E_4E9F_4EAD_4EAE_4FE1_4FB5_4FAF_4FBF),
  (0xAB4C, 0x4FE0_4FD1_4FCF_4FDD_4FC3_4FB6_4FD8_4FDF_4FCA_4FD7_4FAE_4FD0),
  (0xAB58, 0x4FC4_4FC2_4FDA_4FCE_4FDE_4FB7_5157_5192_5191_51A0_524E_5243),
  (0xAB64, 0x524A_524D_524C_524B_5247_52C7_52C9_52C3_52C1_530D_5357_537B),
  (0xAB70, 0x539A_53DB_54AC_54C0_54A8_54CE_54C9_54B8_54A6_54B3_54C7_54C2),
  (0xAB7C, 0x54BD_54AA_54C1),
  (0xABA1, 0x54C4_54C8_54AF_54AB_54B1_54BB_54A9_54A7_54BF_56FF_5782_578B),
  (0xABAD, 0x57A0_57A3_57A2_57CE_57AE_5793_5955_5951_594F_594E_5950_59DC),
  (0xABB9, 0x59D8_59FF_59E3_59E8_5A03_59E5_59EA_59DA_59E6_5A01_59FB_5B69),
  (0xABC5, 0x5BA3_5BA6_5BA4_5BA2_5BA5_5C01_5C4E_5C4F_5C4D_5C4B_5CD9_5CD2),
  (0xABD1, 0x5DF7_5E1D_5E25_5E1F_5E7D_5EA0_5EA6_5EFA_5F08_5F2D_5F65_5F88),
  (0xABDD, 0x5F85_5F8A_5F8B_5F87_5F8C_5F89_6012_601D_6020_6025_600E_6028),
  (0xABE9, 0x604D_6070_6068_6062_6046_6043_606C_606B_606A_6064_6241_62DC),
  (0xABF5, 0x6316_6309_62FC_62ED_6301_62EE_62FD_6307_62F1_62F7),
  (0xAC40, 0x62EF_62EC_62FE_62F4_6311_6302_653F_6545_65AB_65BD_65E2_6625),
  (0xAC4C, 0x662D_6620_6627_662F_661F_6628_6631_6624_66F7_67FF_67D3_67F1),
  (0xAC58, 0x67D4_67D0_67EC_67B6_67AF_67F5_67E9_67EF_67C4_67D1_67B4_67DA),
  (0xAC64, 0x67E5_67B8_67CF_67DE_67F3_67B0_67D9_67E2_67DD_67D2_6B6A_6B83),
  (0xAC70, 0x6B86_6BB5_6BD2_6BD7_6C1F_6CC9_6D0B_6D32_6D2A_6D41_6D25_6D0C),
  (0xAC7C, 0x6D31_6D1E_6D17),
  (0xACA1, 0x6D3B_6D3D_6D3E_6D36_6D1B_6CF5_6D39_6D27_6D38_6D29_6D2E_6D35),
  (0xACAD, 0x6D0E_6D2B_70AB_70BA_70B3_70AC_70AF_70AD_70B8_70AE_70A4_7230),
  (0xACB9, 0x7272_726F_7274_72E9_72E0_72E1_73B7_73CA_73BB_73B2_73CD_73C0),
  (0xACC5, 0x73B3_751A_752D_754F_754C_754E_754B_75AB_75A4_75A5_75A2_75A3),
  (0xACD1, 0x7678_7686_7687_7688_76C8_76C6_76C3_76C5_7701_76F9_76F8_7709),
  (0xACDD, 0x770B_76FE_76FC_7707_77DC_7802_7814_780C_780D_7946_7949_7948),
  (0xACE9, 0x7947_79B9_79BA_79D1_79D2_79CB_7A7F_7A81_7AFF_7AFD_7C7D_7D02),
  (0xACF5, 0x7D05_7D00_7D09_7D07_7D04_7D06_7F38_7F8E_7FBF_8004),
  (0xAD40, 0x8010_800D_8011_8036_80D6_80E5_80DA_80C3_80C4_80CC_80E1_80DB),
  (0xAD4C, 0x80CE_80DE_80E4_80DD_81F4_8222_82E7_8303_8305_82E3_82DB_82E6),
  (0xAD58, 0x8304_82E5_8302_8309_82D2_82D7_82F1_8301_82DC_82D4_82D1_82DE),
  (0xAD64, 0x82D3_82DF_82EF_8306_8650_8679_867B_867A_884D_886B_8981_89D4),
  (0xAD70, 0x8A08_8A02_8A03_8C9E_8CA0_8D74_8D73_8DB4_8ECD_8ECC_8FF0_8FE6),
  (0xAD7C, 0x8FE2_8FEA_8FE5),
  (0xADA1, 0x8FED_8FEB_8FE4_8FE8_90CA_90CE_90C1_90C3_914B_914A_91CD_9582),
  (0xADAD, 0x9650_964B_964C_964D_9762_9769_97CB_97ED_97F3_9801_98A8_98DB),
  (0xADB9, 0x98DF_9996_9999_4E58_4EB3_500C_500D_5023_4FEF_5026_5025_4FF8),
  (0xADC5, 0x5029_5016_5006_503C_501F_501A_5012_5011_4FFA_5000_5014_5028),
  (0xADD1, 0x4FF1_5021_500B_5019_5018_4FF3_4FEE_502D_502A_4FFE_502B_5009),
  (0xADDD, 0x517C_51A4_51A5_51A2_51CD_51CC_51C6_51CB_5256_525C_5254_525B),
  (0xADE9, 0x525D_532A_537F_539F_539D_53DF_54E8_5510_5501_5537_54FC_54E5),
  (0xADF5, 0x54F2_5506_54FA_5514_54E9_54ED_54E1_5509_54EE_54EA),
  (0xAE40, 0x54E6_5527_5507_54FD_550F_5703_5704_57C2_57D4_57CB_57C3_5809),
  (0xAE4C, 0x590F_5957_5958_595A_5A11_5A18_5A1C_5A1F_5A1B_5A13_59EC_5A20),
  (0xAE58, 0x5A23_5A29_5A25_5A0C_5A09_5B6B_5C58_5BB0_5BB3_5BB6_5BB4_5BAE),
  (0xAE64, 0x5BB5_5BB9_5BB8_5C04_5C51_5C55_5C50_5CED_5CFD_5CFB_5CEA_5CE8),
  (0xAE70, 0x5CF0_5CF6_5D01_5CF4_5DEE_5E2D_5E2B_5EAB_5EAD_5EA7_5F31_5F92),
  (0xAE7C, 0x5F91_5F90_6059),
  (0xAEA1, 0x6063_6065_6050_6055_606D_6069_606F_6084_609F_609A_608D_6094),
  (0xAEAD, 0x608C_6085_6096_6247_62F3_6308_62FF_634E_633E_632F_6355_6342),
  (0xAEB9, 0x6346_634F_6349_633A_6350_633D_632A_632B_6328_634D_634C_6548),
  (0xAEC5, 0x6549_6599_65C1_65C5_6642_6649_664F_6643_6652_664C_6645_6641),
  (0xAED1, 0x66F8_6714_6715_6717_6821_6838_6848_6846_6853_6839_6842_6854),
  (0xAEDD, 0x6829_68B3_6817_684C_6851_683D_67F4_6850_6840_683C_6843_682A),
  (0xAEE9, 0x6845_6813_6818_6841_6B8A_6B89_6BB7_6C23_6C27_6C28_6C26_6C24),
  (0xAEF5, 0x6CF0_6D6A_6D95_6D88_6D87_6D66_6D78_6D77_6D59_6D93),
  (0xAF40, 0x6D6C_6D89_6D6E_6D5A_6D74_6D69_6D8C_6D8A_6D79_6D85_6D65_6D94),
  (0xAF4C, 0x70CA_70D8_70E4_70D9_70C8_70CF_7239_7279_72FC_72F9_72FD_72F8),
  (0xAF58, 0x72F7_7386_73ED_7409_73EE_73E0_73EA_73DE_7554_755D_755C_755A),
  (0xAF64, 0x7559_75BE_75C5_75C7_75B2_75B3_75BD_75BC_75B9_75C2_75B8_768B),
  (0xAF70, 0x76B0_76CA_76CD_76CE_7729_771F_7720_7728_77E9_7830_7827_7838),
  (0xAF7C, 0x781D_7834_7837),
  (0xAFA1, 0x7825_782D_7820_781F_7832_7955_7950_7960_795F_7956_795E_795D),
  (0xAFAD, 0x7957_795A_79E4_79E3_79E7_79DF_79E6_79E9_79D8_7A84_7A88_7AD9),
  (0xAFB9, 0x7B06_7B11_7C89_7D21_7D17_7D0B_7D0A_7D20_7D22_7D14_7D10_7D15),
  (0xAFC5, 0x7D1A_7D1C_7D0D_7D19_7D1B_7F3A_7F5F_7F94_7FC5_7FC1_8006_8018),
  (0xAFD1, 0x8015_8019_8017_803D_803F_80F1_8102_80F0_8105_80ED_80F4_8106),
  (0xAFDD, 0x80F8_80F3_8108_80FD_810A_80FC_80EF_81ED_81EC_8200_8210_822A),
  (0xAFE9, 0x822B_8228_822C_82BB_832B_8352_8354_834A_8338_8350_8349_8335),
  (0xAFF5, 0x8334_834F_8332_8339_8336_8317_8340_8331_8328_8343),
  (0xB040, 0x8654_868A_86AA_8693_86A4_86A9_868C_86A3_869C_8870_8877_8881),
  (0xB04C, 0x8882_887D_8879_8A18_8A10_8A0E_8A0C_8A15_8A0A_8A17_8A13_8A16),
  (0xB058, 0x8A0F_8A11_8C48_8C7A_8C79_8CA1_8CA2_8D77_8EAC_8ED2_8ED4_8ECF),
  (0xB064, 0x8FB1_9001_9006_8FF7_9000_8FFA_8FF4_9003_8FFD_9005_8FF8_9095),
  (0xB070, 0x90E1_90DD_90E2_9152_914D_914C_91D8_91DD_91D7_91DC_91D9_9583),
  (0xB07C, 0x9662_9663_9661),
  (0xB0A1, 0x965B_965D_9664_9658_965E_96BB_98E2_99AC_9AA8_9AD8_9B25_9B32),
  (0xB0AD, 0x9B3C_4E7E_507A_507D_505C_5047_5043_504C_505A_5049_5065_5076),
  (0xB0B9, 0x504E_5055_5075_5074_5077_504F_500F_506F_506D_515C_5195_51F0),
  (0xB0C5, 0x526A_526F_52D2_52D9_52D8_52D5_5310_530F_5319_533F_5340_533E),
  (0xB0D1, 0x53C3_66FC_5546_556A_5566_5544_555E_5561_5543_554A_5531_5556),
  (0xB0DD, 0x554F_5555_552F_5564_5538_552E_555C_552C_5563_5533_5541_5557),
  (0xB0E9, 0x5708_570B_5709_57DF_5805_580A_5806_57E0_57E4_57FA_5802_5835),
  (0xB0F5, 0x57F7_57F9_5920_5962_5A36_5A41_5A49_5A66_5A6A_5A40),
  (0xB140, 0x5A3C_5A62_5A5A_5A46_5A4A_5B70_5BC7_5BC5_5BC4_5BC2_5BBF_5BC6),
  (0xB14C, 0x5C09_5C08_5C07_5C60_5C5C_5C5D_5D07_5D06_5D0E_5D1B_5D16_5D22),
  (0xB158, 0x5D11_5D29_5D14_5D19_5D24_5D27_5D17_5DE2_5E38_5E36_5E33_5E37),
  (0xB164, 0x5EB7_5EB8_5EB6_5EB5_5EBE_5F35_5F37_5F57_5F6C_5F69_5F6B_5F97),
  (0xB170, 0x5F99_5F9E_5F98_5FA1_5FA0_5F9C_607F_60A3_6089_60A0_60A8_60CB),
  (0xB17C, 0x60B4_60E6_60BD),
  (0xB1A1, 0x60C5_60BB_60B5_60DC_60BC_60D8_60D5_60C6_60DF_60B8_60DA_60C7),
  (0xB1AD, 0x621A_621B_6248_63A0_63A7_6372_6396_63A2_63A5_6377_6367_6398),
  (0xB1B9, 0x63AA_6371_63A9_6389_6383_639B_636B_63A8_6384_6388_6399_63A1),
  (0xB1C5, 0x63AC_6392_638F_6380_637B_6369_6368_637A_655D_6556_6551_6559),
  (0xB1D1, 0x6557_555F_654F_6558_6555_6554_659C_659B_65AC_65CF_65CB_65CC),
  (0xB1DD, 0x65CE_665D_665A_6664_6668_6666_665E_66F9_52D7_671B_6881_68AF),
  (0xB1E9, 0x68A2_6893_68B5_687F_6876_68B1_68A7_6897_68B0_6883_68C4_68AD),
  (0xB1F5, 0x6886_6885_6894_689D_68A8_689F_68A1_6882_6B32_6BBA),
  (0xB240, 0x6BEB_6BEC_6C2B_6D8E_6DBC_6DF3_6DD9_6DB2_6DE1_6DCC_6DE4_6DFB),
  (0xB24C, 0x6DFA_6E05_6DC7_6DCB_6DAF_6DD1_6DAE_6DDE_6DF9_6DB8_6DF7_6DF5),
  (0xB258, 0x6DC5_6DD2_6E1A_6DB5_6DDA_6DEB_6DD8_6DEA_6DF1_6DEE_6DE8_6DC6),
  (0xB264, 0x6DC4_6DAA_6DEC_6DBF_6DE6_70F9_7109_710A_70FD_70EF_723D_727D),
  (0xB270, 0x7281_731C_731B_7316_7313_7319_7387_7405_740A_7403_7406_73FE),
  (0xB27C, 0x740D_74E0_74F6),
  (0xB2A1, 0x74F7_751C_7522_7565_7566_7562_7570_758F_75D4_75D5_75B5_75CA),
  (0xB2AD, 0x75CD_768E_76D4_76D2_76DB_7737_773E_773C_7736_7738_773A_786B),
  (0xB2B9, 0x7843_784E_7965_7968_796D_79FB_7A92_7A95_7B20_7B28_7B1B_7B2C),
  (0xB2C5, 0x7B26_7B19_7B1E_7B2E_7C92_7C97_7C95_7D46_7D43_7D71_7D2E_7D39),
  (0xB2D1, 0x7D3C_7D40_7D30_7D33_7D44_7D2F_7D42_7D32_7D31_7F3D_7F9E_7F9A),
  (0xB2DD, 0x7FCC_7FCE_7FD2_801C_804A_8046_812F_8116_8123_812B_8129_8130),
  (0xB2E9, 0x8124_8202_8235_8237_8236_8239_838E_839E_8398_8378_83A2_8396),
  (0xB2F5, 0x83BD_83AB_8392_838A_8393_8389_83A0_8377_837B_837C),
  (0xB340, 0x8386_83A7_8655_5F6A_86C7_86C0_86B6_86C4_86B5_86C6_86CB_86B1),
  (0xB34C, 0x86AF_86C9_8853_889E_8888_88AB_8892_8896_888D_888B_8993_898F),
  (0xB358, 0x8A2A_8A1D_8A23_8A25_8A31_8A2D_8A1F_8A1B_8A22_8C49_8C5A_8CA9),
  (0xB364, 0x8CAC_8CAB_8CA8_8CAA_8CA7_8D67_8D66_8DBE_8DBA_8EDB_8EDF_9019),
  (0xB370, 0x900D_901A_9017_9023_901F_901D_9010_9015_901E_9020_900F_9022),
  (0xB37C, 0x9016_901B_9014),
  (0xB3A1, 0x90E8_90ED_90FD_9157_91CE_91F5_91E6_91E3_91E7_91ED_91E9_9589),
  (0xB3AD, 0x966A_9675_9673_9678_9670_9674_9676_9677_966C_96C0_96EA_96E9),
  (0xB3B9, 0x7AE0_7ADF_9802_9803_9B5A_9CE5_9E75_9E7F_9EA5_9EBB_50A2_508D),
  (0xB3C5, 0x5085_5099_5091_5080_5096_5098_509A_6700_51F1_5272_5274_5275),
  (0xB3D1, 0x5269_52DE_52DD_52DB_535A_53A5_557B_5580_55A7_557C_558A_559D),
  (0xB3DD, 0x5598_5582_559C_55AA_5594_5587_558B_5583_55B3_55AE_559F_553E),
  (0xB3E9, 0x55B2_559A_55BB_55AC_55B1_557E_5589_55AB_5599_570D_582F_582A),
  (0xB3F5, 0x5834_5824_5830_5831_5821_581D_5820_58F9_58FA_5960),
  (0xB440, 0x5A77_5A9A_5A7F_5A92_5A9B_5AA7_5B73_5B71_5BD2_5BCC_5BD3_5BD0),
  (0xB44C, 0x5C0A_5C0B_5C31_5D4C_5D50_5D34_5D47_5DFD_5E45_5E3D_5E40_5E43),
  (0xB458, 0x5E7E_5ECA_5EC1_5EC2_5EC4_5F3C_5F6D_5FA9_5FAA_5FA8_60D1_60E1),
  (0xB464, 0x60B2_60B6_60E0_611C_6123_60FA_6115_60F0_60FB_60F4_6168_60F1),
  (0xB470, 0x610E_60F6_6109_6100_6112_621F_6249_63A3_638C_63CF_63C0_63E9),
  (0xB47C, 0x63C9_63C6_63CD),
  (0xB4A1, 0x63D2_63E3_63D0_63E1_63D6_63ED_63EE_6376_63F4_63EA_63DB_6452),
  (0xB4AD, 0x63DA_63F9_655E_6566_6562_6563_6591_6590_65AF_666E_6670_6674),
  (0xB4B9, 0x6676_666F_6691_667A_667E_6677_66FE_66FF_671F_671D_68FA_68D5),
  (0xB4C5, 0x68E0_68D8_68D7_6905_68DF_68F5_68EE_68E7_68F9_68D2_68F2_68E3),
  (0xB4D1, 0x68CB_68CD_690D_6912_690E_68C9_68DA_696E_68FB_6B3E_6B3A_6B3D),
  (0xB4DD, 0x6B98_6B96_6BBC_6BEF_6C2E_6C2F_6C2C_6E2F_6E38_6E54_6E21_6E32),
  (0xB4E9, 0x6E67_6E4A_6E20_6E25_6E23_6E1B_6E5B_6E58_6E24_6E56_6E6E_6E2D),
  (0xB4F5, 0x6E26_6E6F_6E34_6E4D_6E3A_6E2C_6E43_6E1D_6E3E_6ECB),
  (0xB540, 0x6E89_6E19_6E4E_6E63_6E44_6E72_6E69_6E5F_7119_711A_7126_7130),
  (0xB54C, 0x7121_7136_716E_711C_724C_7284_7280_7336_7325_7334_7329_743A),
  (0xB558, 0x742A_7433_7422_7425_7435_7436_7434_742F_741B_7426_7428_7525),
  (0xB564, 0x7526_756B_756A_75E2_75DB_75E3_75D9_75D8_75DE_75E0_767B_767C),
  (0xB570, 0x7696_7693_76B4_76DC_774F_77ED_785D_786C_786F_7A0D_7A08_7A0B),
  (0xB57C, 0x7A05_7A00_7A98),
  (0xB5A1, 0x7A97_7A96_7AE5_7AE3_7B49_7B56_7B46_7B50_7B52_7B54_7B4D_7B4B),
  (0xB5AD, 0x7B4F_7B51_7C9F_7CA5_7D5E_7D50_7D68_7D55_7D2B_7D6E_7D72_7D61),
  (0xB5B9, 0x7D66_7D62_7D70_7D73_5584_7FD4_7FD5_800B_8052_8085_8155_8154),
  (0xB5C5, 0x814B_8151_814E_8139_8146_813E_814C_8153_8174_8212_821C_83E9),
  (0xB5D1, 0x8403_83F8_840D_83E0_83C5_840B_83C1_83EF_83F1_83F4_8457_840A),
  (0xB5DD, 0x83F0_840C_83CC_83FD_83F2_83CA_8438_840E_8404_83DC_8407_83D4),
  (0xB5E9, 0x83DF_865B_86DF_86D9_86ED_86D4_86DB_86E4_86D0_86DE_8857_88C1),
  (0xB5F5, 0x88C2_88B1_8983_8996_8A3B_8A60_8A55_8A5E_8A3C_8A41),
  (0xB640, 0x8A54_8A5B_8A50_8A46_8A34_8A3A_8A36_8A56_8C61_8C82_8CAF_8CBC),
  (0xB64C, 0x8CB3_8CBD_8CC1_8CBB_8CC0_8CB4_8CB7_8CB6_8CBF_8CB8_8D8A_8D85),
  (0xB658, 0x8D81_8DCE_8DDD_8DCB_8DDA_8DD1_8DCC_8DDB_8DC6_8EFB_8EF8_8EFC),
  (0xB664, 0x8F9C_902E_9035_9031_9038_9032_9036_9102_90F5_9109_90FE_9163),
  (0xB670, 0x9165_91CF_9214_9215_9223_9209_921E_920D_9210_9207_9211_9594),
  (0xB67C, 0x958F_958B_9591),
  (0xB6A1, 0x9593_9592_958E_968A_968E_968B_967D_9685_9686_968D_9672_9684),
  (0xB6AD, 0x96C1_96C5_96C4_96C6_96C7_96EF_96F2_97CC_9805_9806_9808_98E7),
  (0xB6B9, 0x98EA_98EF_98E9_98F2_98ED_99AE_99AD_9EC3_9ECD_9ED1_4E82_50AD),
  (0xB6C5, 0x50B5_50B2_50B3_50C5_50BE_50AC_50B7_50BB_50AF_50C7_527F_5277),
  (0xB6D1, 0x527D_52DF_52E6_52E4_52E2_52E3_532F_55DF_55E8_55D3_55E6_55CE),
  (0xB6DD, 0x55DC_55C7_55D1_55E3_55E4_55EF_55DA_55E1_55C5_55C6_55E5_55C9),
  (0xB6E9, 0x5712_5713_585E_5851_5858_5857_585A_5854_586B_584C_586D_584A),
  (0xB6F5, 0x5862_5852_584B_5967_5AC1_5AC9_5ACC_5ABE_5ABD_5ABC),
  (0xB740, 0x5AB3_5AC2_5AB2_5D69_5D6F_5E4C_5E79_5EC9_5EC8_5F12_5F59_5FAC),
  (0xB74C, 0x5FAE_611A_610F_6148_611F_60F3_611B_60F9_6101_6108_614E_614C),
  (0xB758, 0x6144_614D_613E_6134_6127_610D_6106_6137_6221_6222_6413_643E),
  (0xB764, 0x641E_642A_642D_643D_642C_640F_641C_6414_640D_6436_6416_6417),
  (0xB770, 0x6406_656C_659F_65B0_6697_6689_6687_6688_6696_6684_6698_668D),
  (0xB77C, 0x6703_6994_696D),
  (0xB7A1, 0x695A_6977_6960_6954_6975_6930_6982_694A_6968_696B_695E_6953),
  (0xB7AD, 0x6979_6986_695D_6963_695B_6B47_6B72_6BC0_6BBF_6BD3_6BFD_6EA2),
  (0xB7B9, 0x6EAF_6ED3_6EB6_6EC2_6E90_6E9D_6EC7_6EC5_6EA5_6E98_6EBC_6EBA),
  (0xB7C5, 0x6EAB_6ED1_6E96_6E9C_6EC4_6ED4_6EAA_6EA7_6EB4_714E_7159_7169),
  (0xB7D1, 0x7164_7149_7167_715C_716C_7166_714C_7165_715E_7146_7168_7156),
  (0xB7DD, 0x723A_7252_7337_7345_733F_733E_746F_745A_7455_745F_745E_7441),
  (0xB7E9, 0x743F_7459_745B_745C_7576_7578_7600_75F0_7601_75F2_75F1_75FA),
  (0xB7F5, 0x75FF_75F4_75F3_76DE_76DF_775B_776B_7766_775E_7763),
  (0xB840, 0x7779_776A_776C_775C_7765_7768_7762_77EE_788E_78B0_7897_7898),
  (0xB84C, 0x788C_7889_787C_7891_7893_787F_797A_797F_7981_842C_79BD_7A1C),
  (0xB858, 0x7A1A_7A20_7A14_7A1F_7A1E_7A9F_7AA0_7B77_7BC0_7B60_7B6E_7B67),
  (0xB864, 0x7CB1_7CB3_7CB5_7D93_7D79_7D91_7D81_7D8F_7D5B_7F6E_7F69_7F6A),
  (0xB870, 0x7F72_7FA9_7FA8_7FA4_8056_8058_8086_8084_8171_8170_8178_8165),
  (0xB87C, 0x816E_8173_816B),
  (0xB8A1, 0x8179_817A_8166_8205_8247_8482_8477_843D_8431_8475_8466_846B),
  (0xB8AD, 0x8449_846C_845B_843C_8435_8461_8463_8469_846D_8446_865E_865C),
  (0xB8B9, 0x865F_86F9_8713_8708_8707_8700_86FE_86FB_8702_8703_8706_870A),
  (0xB8C5, 0x8859_88DF_88D4_88D9_88DC_88D8_88DD_88E1_88CA_88D5_88D2_899C),
  (0xB8D1, 0x89E3_8A6B_8A72_8A73_8A66_8A69_8A70_8A87_8A7C_8A63_8AA0_8A71),
  (0xB8DD, 0x8A85_8A6D_8A62_8A6E_8A6C_8A79_8A7B_8A3E_8A68_8C62_8C8A_8C89),
  (0xB8E9, 0x8CCA_8CC7_8CC8_8CC4_8CB2_8CC3_8CC2_8CC5_8DE1_8DDF_8DE8_8DEF),
  (0xB8F5, 0x8DF3_8DFA_8DEA_8DE4_8DE6_8EB2_8F03_8F09_8EFE_8F0A),
  (0xB940, 0x8F9F_8FB2_904B_904A_9053_9042_9054_903C_9055_9050_9047_904F),
  (0xB94C, 0x904E_904D_9051_903E_9041_9112_9117_916C_916A_9169_91C9_9237),
  (0xB958, 0x9257_9238_923D_9240_923E_925B_924B_9264_9251_9234_9249_924D),
  (0xB964, 0x9245_9239_923F_925A_9598_9698_9694_9695_96CD_96CB_96C9_96CA),
  (0xB970, 0x96F7_96FB_96F9_96F6_9756_9774_9776_9810_9811_9813_980A_9812),
  (0xB97C, 0x980C_98FC_98F4),
  (0xB9A1, 0x98FD_98FE_99B3_99B1_99B4_9AE1_9CE9_9E82_9F0E_9F13_9F20_50E7),
  (0xB9AD, 0x50EE_50E5_50D6_50ED_50DA_50D5_50CF_50D1_50F1_50CE_50E9_5162),
  (0xB9B9, 0x51F3_5283_5282_5331_53AD_55FE_5600_561B_5617_55FD_5614_5606),
  (0xB9C5, 0x5609_560D_560E_55F7_5616_561F_5608_5610_55F6_5718_5716_5875),
  (0xB9D1, 0x587E_5883_5893_588A_5879_5885_587D_58FD_5925_5922_5924_596A),
  (0xB9DD, 0x5969_5AE1_5AE6_5AE9_5AD7_5AD6_5AD8_5AE3_5B75_5BDE_5BE7_5BE1),
  (0xB9E9, 0x5BE5_5BE6_5BE8_5BE2_5BE4_5BDF_5C0D_5C62_5D84_5D87_5E5B_5E63),
  (0xB9F5, 0x5E55_5E57_5E54_5ED3_5ED6_5F0A_5F46_5F70_5FB9_6147),
  (0xBA40, 0x613F_614B_6177_6162_6163_615F_615A_6158_6175_622A_6487_6458),
  (0xBA4C, 0x6454_64A4_6478_645F_647A_6451_6467_6434_646D_647B_6572_65A1),
  (0xBA58, 0x65D7_65D6_66A2_66A8_669D_699C_69A8_6995_69C1_69AE_69D3_69CB),
  (0xBA64, 0x699B_69B7_69BB_69AB_69B4_69D0_69CD_69AD_69CC_69A6_69C3_69A3),
  (0xBA70, 0x6B49_6B4C_6C33_6F33_6F14_6EFE_6F13_6EF4_6F29_6F3E_6F20_6F2C),
  (0xBA7C, 0x6F0F_6F02_6F22),
  (0xBAA1, 0x6EFF_6EEF_6F06_6F31_6F38_6F32_6F23_6F15_6F2B_6F2F_6F88_6F2A),
  (0xBAAD, 0x6EEC_6F01_6EF2_6ECC_6EF7_7194_7199_717D_718A_7184_7192_723E),
  (0xBAB9, 0x7292_7296_7344_7350_7464_7463_746A_7470_746D_7504_7591_7627),
  (0xBAC5, 0x760D_760B_7609_7613_76E1_76E3_7784_777D_777F_7761_78C1_789F),
  (0xBAD1, 0x78A7_78B3_78A9_78A3_798E_798F_798D_7A2E_7A31_7AAA_7AA9_7AED),
  (0xBADD, 0x7AEF_7BA1_7B95_7B8B_7B75_7B97_7B9D_7B94_7B8F_7BB8_7B87_7B84),
  (0xBAE9, 0x7CB9_7CBD_7CBE_7DBB_7DB0_7D9C_7DBD_7DBE_7DA0_7DCA_7DB4_7DB2),
  (0xBAF5, 0x7DB1_7DBA_7DA2_7DBF_7DB5_7DB8_7DAD_7DD2_7DC7_7DAC),
  (0xBB40, 0x7F70_7FE0_7FE1_7FDF_805E_805A_8087_8150_8180_818F_8188_818A),
  (0xBB4C, 0x817F_8182_81E7_81FA_8207_8214_821E_824B_84C9_84BF_84C6_84C4),
  (0xBB58, 0x8499_849E_84B2_849C_84CB_84B8_84C0_84D3_8490_84BC_84D1_84CA),
  (0xBB64, 0x873F_871C_873B_8722_8725_8734_8718_8755_8737_8729_88F3_8902),
  (0xBB70, 0x88F4_88F9_88F8_88FD_88E8_891A_88EF_8AA6_8A8C_8A9E_8AA3_8A8D),
  (0xBB7C, 0x8AA1_8A93_8AA4),
  (0xBBA1, 0x8AAA_8AA5_8AA8_8A98_8A91_8A9A_8AA7_8C6A_8C8D_8C8C_8CD3_8CD1),
  (0xBBAD, 0x8CD2_8D6B_8D99_8D95_8DFC_8F14_8F12_8F15_8F13_8FA3_9060_9058),
  (0xBBB9, 0x905C_9063_9059_905E_9062_905D_905B_9119_9118_911E_9175_9178),
  (0xBBC5, 0x9177_9174_9278_9280_9285_9298_9296_927B_9293_929C_92A8_927C),
  (0xBBD1, 0x9291_95A1_95A8_95A9_95A3_95A5_95A4_9699_969C_969B_96CC_96D2),
  (0xBBDD, 0x9700_977C_9785_97F6_9817_9818_98AF_98B1_9903_9905_990C_9909),
  (0xBBE9, 0x99C1_9AAF_9AB0_9AE6_9B41_9B42_9CF4_9CF6_9CF3_9EBC_9F3B_9F4A),
  (0xBBF5, 0x5104_5100_50FB_50F5_50F9_5102_5108_5109_5105_51DC),
  (0xBC40, 0x5287_5288_5289_528D_528A_52F0_53B2_562E_563B_5639_5632_563F),
  (0xBC4C, 0x5634_5629_5653_564E_5657_5674_5636_562F_5630_5880_589F_589E),
  (0xBC58, 0x58B3_589C_58AE_58A9_58A6_596D_5B09_5AFB_5B0B_5AF5_5B0C_5B08),
  (0xBC64, 0x5BEE_5BEC_5BE9_5BEB_5C64_5C65_5D9D_5D94_5E62_5E5F_5E61_5EE2),
  (0xBC70, 0x5EDA_5EDF_5EDD_5EE3_5EE0_5F48_5F71_5FB7_5FB5_6176_6167_616E),
  (0xBC7C, 0x615D_6155_6182),
  (0xBCA1, 0x617C_6170_616B_617E_61A7_6190_61AB_618E_61AC_619A_61A4_6194),
  (0xBCAD, 0x61AE_622E_6469_646F_6479_649E_64B2_6488_6490_64B0_64A5_6493),
  (0xBCB9, 0x6495_64A9_6492_64AE_64AD_64AB_649A_64AC_6499_64A2_64B3_6575),
  (0xBCC5, 0x6577_6578_66AE_66AB_66B4_66B1_6A23_6A1F_69E8_6A01_6A1E_6A19),
  (0xBCD1, 0x69FD_6A21_6A13_6A0A_69F3_6A02_6A05_69ED_6A11_6B50_6B4E_6BA4),
  (0xBCDD, 0x6BC5_6BC6_6F3F_6F7C_6F84_6F51_6F66_6F54_6F86_6F6D_6F5B_6F78),
  (0xBCE9, 0x6F6E_6F8E_6F7A_6F70_6F64_6F97_6F58_6ED5_6F6F_6F60_6F5F_719F),
  (0xBCF5, 0x71AC_71B1_71A8_7256_729B_734E_7357_7469_748B_7483),
  (0xBD40, 0x747E_7480_757F_7620_7629_761F_7624_7626_7621_7622_769A_76BA),
  (0xBD4C, 0x76E4_778E_7787_778C_7791_778B_78CB_78C5_78BA_78CA_78BE_78D5),
  (0xBD58, 0x78BC_78D0_7A3F_7A3C_7A40_7A3D_7A37_7A3B_7AAF_7AAE_7BAD_7BB1),
  (0xBD64, 0x7BC4_7BB4_7BC6_7BC7_7BC1_7BA0_7BCC_7CCA_7DE0_7DF4_7DEF_7DFB),
  (0xBD70, 0x7DD8_7DEC_7DDD_7DE8_7DE3_7DDA_7DDE_7DE9_7D9E_7DD9_7DF2_7DF9),
  (0xBD7C, 0x7F75_7F77_7FAF),
  (0xBDA1, 0x7FE9_8026_819B_819C_819D_81A0_819A_8198_8517_853D_851A_84EE),
  (0xBDAD, 0x852C_852D_8513_8511_8523_8521_8514_84EC_8525_84FF_8506_8782),
  (0xBDB9, 0x8774_8776_8760_8766_8778_8768_8759_8757_874C_8753_885B_885D),
  (0xBDC5, 0x8910_8907_8912_8913_8915_890A_8ABC_8AD2_8AC7_8AC4_8A95_8ACB),
  (0xBDD1, 0x8AF8_8AB2_8AC9_8AC2_8ABF_8AB0_8AD6_8ACD_8AB6_8AB9_8ADB_8C4C),
  (0xBDDD, 0x8C4E_8C6C_8CE0_8CDE_8CE6_8CE4_8CEC_8CED_8CE2_8CE3_8CDC_8CEA),
  (0xBDE9, 0x8CE1_8D6D_8D9F_8DA3_8E2B_8E10_8E1D_8E22_8E0F_8E29_8E1F_8E21),
  (0xBDF5, 0x8E1E_8EBA_8F1D_8F1B_8F1F_8F29_8F26_8F2A_8F1C_8F1E),
  (0xBE40, 0x8F25_9069_906E_9068_906D_9077_9130_912D_9127_9131_9187_9189),
  (0xBE4C, 0x918B_9183_92C5_92BB_92B7_92EA_92AC_92E4_92C1_92B3_92BC_92D2),
  (0xBE58, 0x92C7_92F0_92B2_95AD_95B1_9704_9706_9707_9709_9760_978D_978B),
  (0xBE64, 0x978F_9821_982B_981C_98B3_990A_9913_9912_9918_99DD_99D0_99DF),
  (0xBE70, 0x99DB_99D1_99D5_99D2_99D9_9AB7_9AEE_9AEF_9B27_9B45_9B44_9B77),
  (0xBE7C, 0x9B6F_9D06_9D09),
  (0xBEA1, 0x9D03_9EA9_9EBE_9ECE_58A8_9F52_5112_5118_5114_5110_5115_5180),
  (0xBEAD, 0x51AA_51DD_5291_5293_52F3_5659_566B_5679_5669_5664_5678_566A),
  (0xBEB9, 0x5668_5665_5671_566F_566C_5662_5676_58C1_58BE_58C7_58C5_596E),
  (0xBEC5, 0x5B1D_5B34_5B78_5BF0_5C0E_5F4A_61B2_6191_61A9_618A_61CD_61B6),
  (0xBED1, 0x61BE_61CA_61C8_6230_64C5_64C1_64CB_64BB_64BC_64DA_64C4_64C7),
  (0xBEDD, 0x64C2_64CD_64BF_64D2_64D4_64BE_6574_66C6_66C9_66B9_66C4_66C7),
  (0xBEE9, 0x66B8_6A3D_6A38_6A3A_6A59_6A6B_6A58_6A39_6A44_6A62_6A61_6A4B),
  (0xBEF5, 0x6A47_6A35_6A5F_6A48_6B59_6B77_6C05_6FC2_6FB1_6FA1),
  (0xBF40, 0x6FC3_6FA4_6FC1_6FA7_6FB3_6FC0_6FB9_6FB6_6FA6_6FA0_6FB4_71BE),
  (0xBF4C, 0x71C9_71D0_71D2_71C8_71D5_71B9_71CE_71D9_71DC_71C3_71C4_7368),
  (0xBF58, 0x749C_74A3_7498_749F_749E_74E2_750C_750D_7634_7638_763A_76E7),
  (0xBF64, 0x76E5_77A0_779E_779F_77A5_78E8_78DA_78EC_78E7_79A6_7A4D_7A4E),
  (0xBF70, 0x7A46_7A4C_7A4B_7ABA_7BD9_7C11_7BC9_7BE4_7BDB_7BE1_7BE9_7BE6),
  (0xBF7C, 0x7CD5_7CD6_7E0A),
  (0xBFA1, 0x7E11_7E08_7E1B_7E23_7E1E_7E1D_7E09_7E10_7F79_7FB2_7FF0_7FF1),
  (0xBFAD, 0x7FEE_8028_81B3_81A9_81A8_81FB_8208_8258_8259_854A_8559_8548),
  (0xBFB9, 0x8568_8569_8543_8549_856D_856A_855E_8783_879F_879E_87A2_878D),
  (0xBFC5, 0x8861_892A_8932_8925_892B_8921_89AA_89A6_8AE6_8AFA_8AEB_8AF1),
  (0xBFD1, 0x8B00_8ADC_8AE7_8AEE_8AFE_8B01_8B02_8AF7_8AED_8AF3_8AF6_8AFC),
  (0xBFDD, 0x8C6B_8C6D_8C93_8CF4_8E44_8E31_8E34_8E42_8E39_8E35_8F3B_8F2F),
  (0xBFE9, 0x8F38_8F33_8FA8_8FA6_9075_9074_9078_9072_907C_907A_9134_9192),
  (0xBFF5, 0x9320_9336_92F8_9333_932F_9322_92FC_932B_9304_931A),
  (0xC040, 0x9310_9326_9321_9315_932E_9319_95BB_96A7_96A8_96AA_96D5_970E),
  (0xC04C, 0x9711_9716_970D_9713_970F_975B_975C_9766_9798_9830_9838_983B),
  (0xC058, 0x9837_982D_9839_9824_9910_9928_991E_991B_9921_991A_99ED_99E2),
  (0xC064, 0x99F1_9AB8_9ABC_9AFB_9AED_9B28_9B91_9D15_9D23_9D26_9D28_9D12),
  (0xC070, 0x9D1B_9ED8_9ED4_9F8D_9F9C_512A_511F_5121_5132_52F5_568E_5680),
  (0xC07C, 0x5690_5685_5687),
  (0xC0A1, 0x568F_58D5_58D3_58D1_58CE_5B30_5B2A_5B24_5B7A_5C37_5C68_5DBC),
  (0xC0AD, 0x5DBA_5DBD_5DB8_5E6B_5F4C_5FBD_61C9_61C2_61C7_61E6_61CB_6232),
  (0xC0B9, 0x6234_64CE_64CA_64D8_64E0_64F0_64E6_64EC_64F1_64E2_64ED_6582),
  (0xC0C5, 0x6583_66D9_66D6_6A80_6A94_6A84_6AA2_6A9C_6ADB_6AA3_6A7E_6A97),
  (0xC0D1, 0x6A90_6AA0_6B5C_6BAE_6BDA_6C08_6FD8_6FF1_6FDF_6FE0_6FDB_6FE4),
  (0xC0DD, 0x6FEB_6FEF_6F80_6FEC_6FE1_6FE9_6FD5_6FEE_6FF0_71E7_71DF_71EE),
  (0xC0E9, 0x71E6_71E5_71ED_71EC_71F4_71E0_7235_7246_7370_7372_74A9_74B0),
  (0xC0F5, 0x74A6_74A8_7646_7642_764C_76EA_77B3_77AA_77B0_77AC),
  (0xC140, 0x77A7_77AD_77EF_78F7_78FA_78F4_78EF_7901_79A7_79AA_7A57_7ABF),
  (0xC14C, 0x7C07_7C0D_7BFE_7BF7_7C0C_7BE0_7CE0_7CDC_7CDE_7CE2_7CDF_7CD9),
  (0xC158, 0x7CDD_7E2E_7E3E_7E46_7E37_7E32_7E43_7E2B_7E3D_7E31_7E45_7E41),
  (0xC164, 0x7E34_7E39_7E48_7E35_7E3F_7E2F_7F44_7FF3_7FFC_8071_8072_8070),
  (0xC170, 0x806F_8073_81C6_81C3_81BA_81C2_81C0_81BF_81BD_81C9_81BE_81E8),
  (0xC17C, 0x8209_8271_85AA),
  (0xC1A1, 0x8584_857E_859C_8591_8594_85AF_859B_8587_85A8_858A_8667_87C0),
  (0xC1AD, 0x87D1_87B3_87D2_87C6_87AB_87BB_87BA_87C8_87CB_893B_8936_8944),
  (0xC1B9, 0x8938_893D_89AC_8B0E_8B17_8B19_8B1B_8B0A_8B20_8B1D_8B04_8B10),
  (0xC1C5, 0x8C41_8C3F_8C73_8CFA_8CFD_8CFC_8CF8_8CFB_8DA8_8E49_8E4B_8E48),
  (0xC1D1, 0x8E4A_8F44_8F3E_8F42_8F45_8F3F_907F_907D_9084_9081_9082_9080),
  (0xC1DD, 0x9139_91A3_919E_919C_934D_9382_9328_9375_934A_9365_934B_9318),
  (0xC1E9, 0x937E_936C_935B_9370_935A_9354_95CA_95CB_95CC_95C8_95C6_96B1),
  (0xC1F5, 0x96B8_96D6_971C_971E_97A0_97D3_9846_98B6_9935_9A01),
  (0xC240, 0x99FF_9BAE_9BAB_9BAA_9BAD_9D3B_9D3F_9E8B_9ECF_9EDE_9EDC_9EDD),
  (0xC24C, 0x9EDB_9F3E_9F4B_53E2_5695_56AE_58D9_58D8_5B38_5F5E_61E3_6233),
  (0xC258, 0x64F4_64F2_64FE_6506_64FA_64FB_64F7_65B7_66DC_6726_6AB3_6AAC),
  (0xC264, 0x6AC3_6ABB_6AB8_6AC2_6AAE_6AAF_6B5F_6B78_6BAF_7009_700B_6FFE),
  (0xC270, 0x7006_6FFA_7011_700F_71FB_71FC_71FE_71F8_7377_7375_74A7_74BF),
  (0xC27C, 0x7515_7656_7658),
  (0xC2A1, 0x7652_77BD_77BF_77BB_77BC_790E_79AE_7A61_7A62_7A60_7AC4_7AC5),
  (0xC2AD, 0x7C2B_7C27_7C2A_7C1E_7C23_7C21_7CE7_7E54_7E55_7E5E_7E5A_7E61),
  (0xC2B9, 0x7E52_7E59_7F48_7FF9_7FFB_8077_8076_81CD_81CF_820A_85CF_85A9),
  (0xC2C5, 0x85CD_85D0_85C9_85B0_85BA_85B9_85A6_87EF_87EC_87F2_87E0_8986),
  (0xC2D1, 0x89B2_89F4_8B28_8B39_8B2C_8B2B_8C50_8D05_8E59_8E63_8E66_8E64),
  (0xC2DD, 0x8E5F_8E55_8EC0_8F49_8F4D_9087_9083_9088_91AB_91AC_91D0_9394),
  (0xC2E9, 0x938A_9396_93A2_93B3_93AE_93AC_93B0_9398_939A_9397_95D4_95D6),
  (0xC2F5, 0x95D0_95D5_96E2_96DC_96D9_96DB_96DE_9724_97A3_97A6),
  (0xC340, 0x97AD_97F9_984D_984F_984C_984E_9853_98BA_993E_993F_993D_992E),
  (0xC34C, 0x99A5_9A0E_9AC1_9B03_9B06_9B4F_9B4E_9B4D_9BCA_9BC9_9BFD_9BC8),
  (0xC358, 0x9BC0_9D51_9D5D_9D60_9EE0_9F15_9F2C_5133_56A5_58DE_58DF_58E2),
  (0xC364, 0x5BF5_9F90_5EEC_61F2_61F7_61F6_61F5_6500_650F_66E0_66DD_6AE5),
  (0xC370, 0x6ADD_6ADA_6AD3_701B_701F_7028_701A_701D_7015_7018_7206_720D),
  (0xC37C, 0x7258_72A2_7378),
  (0xC3A1, 0x737A_74BD_74CA_74E3_7587_7586_765F_7661_77C7_7919_79B1_7A6B),
  (0xC3AD, 0x7A69_7C3E_7C3F_7C38_7C3D_7C37_7C40_7E6B_7E6D_7E79_7E69_7E6A),
  (0xC3B9, 0x7F85_7E73_7FB6_7FB9_7FB8_81D8_85E9_85DD_85EA_85D5_85E4_85E5),
  (0xC3C5, 0x85F7_87FB_8805_880D_87F9_87FE_8960_895F_8956_895E_8B41_8B5C),
  (0xC3D1, 0x8B58_8B49_8B5A_8B4E_8B4F_8B46_8B59_8D08_8D0A_8E7C_8E72_8E87),
  (0xC3DD, 0x8E76_8E6C_8E7A_8E74_8F54_8F4E_8FAD_908A_908B_91B1_91AE_93E1),
  (0xC3E9, 0x93D1_93DF_93C3_93C8_93DC_93DD_93D6_93E2_93CD_93D8_93E4_93D7),
  (0xC3F5, 0x93E8_95DC_96B4_96E3_972A_9727_9761_97DC_97FB_985E),
  (0xC440, 0x9858_985B_98BC_9945_9949_9A16_9A19_9B0D_9BE8_9BE7_9BD6_9BDB),
  (0xC44C, 0x9D89_9D61_9D72_9D6A_9D6C_9E92_9E97_9E93_9EB4_52F8_56A8_56B7),
  (0xC458, 0x56B6_56B4_56BC_58E4_5B40_5B43_5B7D_5BF6_5DC9_61F8_61FA_6518),
  (0xC464, 0x6514_6519_66E6_6727_6AEC_703E_7030_7032_7210_737B_74CF_7662),
  (0xC470, 0x7665_7926_792A_792C_792B_7AC7_7AF6_7C4C_7C43_7C4D_7CEF_7CF0),
  (0xC47C, 0x8FAE_7E7D_7E7C),
  (0xC4A1, 0x7E82_7F4C_8000_81DA_8266_85FB_85F9_8611_85FA_8606_860B_8607),
  (0xC4AD, 0x860A_8814_8815_8964_89BA_89F8_8B70_8B6C_8B66_8B6F_8B5F_8B6B),
  (0xC4B9, 0x8D0F_8D0D_8E89_8E81_8E85_8E82_91B4_91CB_9418_9403_93FD_95E1),
  (0xC4C5, 0x9730_98C4_9952_9951_99A8_9A2B_9A30_9A37_9A35_9C13_9C0D_9E79),
  (0xC4D1, 0x9EB5_9EE8_9F2F_9F5F_9F63_9F61_5137_5138_56C1_56C0_56C2_5914),
  (0xC4DD, 0x5C6C_5DCD_61FC_61FE_651D_651C_6595_66E9_6AFB_6B04_6AFA_6BB2),
  (0xC4E9, 0x704C_721B_72A7_74D6_74D4_7669_77D3_7C50_7E8F_7E8C_7FBC_8617),
  (0xC4F5, 0x862D_861A_8823_8822_8821_881F_896A_896C_89BD_8B74),
  (0xC540, 0x8B77_8B7D_8D13_8E8A_8E8D_8E8B_8F5F_8FAF_91BA_942E_9433_9435),
  (0xC54C, 0x943A_9438_9432_942B_95E2_9738_9739_9732_97FF_9867_9865_9957),
  (0xC558, 0x9A45_9A43_9A40_9A3E_9ACF_9B54_9B51_9C2D_9C25_9DAF_9DB4_9DC2),
  (0xC564, 0x9DB8_9E9D_9EEF_9F19_9F5C_9F66_9F67_513C_513B_56C8_56CA_56C9),
  (0xC570, 0x5B7F_5DD4_5DD2_5F4E_61FF_6524_6B0A_6B61_7051_7058_7380_74E4),
  (0xC57C, 0x758A_766E_766C),
  (0xC5A1, 0x79B3_7C60_7C5F_807E_807D_81DF_8972_896F_89FC_8B80_8D16_8D17),
  (0xC5AD, 0x8E91_8E93_8F61_9148_9444_9451_9452_973D_973E_97C3_97C1_986B),
  (0xC5B9, 0x9955_9A55_9A4D_9AD2_9B1A_9C49_9C31_9C3E_9C3B_9DD3_9DD7_9F34),
  (0xC5C5, 0x9F6C_9F6A_9F94_56CC_5DD6_6200_6523_652B_652A_66EC_6B10_74DA),
  (0xC5D1, 0x7ACA_7C64_7C63_7C65_7E93_7E96_7E94_81E2_8638_863F_8831_8B8A),
  (0xC5DD, 0x9090_908F_9463_9460_9464_9768_986F_995C_9A5A_9A5B_9A57_9AD3),
  (0xC5E9, 0x9AD4_9AD1_9C54_9C57_9C56_9DE5_9E9F_9EF4_56D1_58E9_652C_705E),
  (0xC5F5, 0x7671_7672_77D7_7F50_7F88_8836_8839_8862_8B93_8B92),
  (0xC640, 0x8B96_8277_8D1B_91C0_946A_9742_9748_9744_97C6_9870_9A5F_9B22),
  (0xC64C, 0x9B58_9C5F_9DF9_9DFA_9E7C_9E7D_9F07_9F77_9F72_5EF3_6B16_7063),
  (0xC658, 0x7C6C_7C6E_883B_89C0_8EA1_91C1_9472_9470_9871_995E_9AD6_9B23),
  (0xC664, 0x9ECC_7064_77DA_8B9A_9477_97C9_9A62_9A65_7E9C_8B9C_8EAA_91C5),
  (0xC670, 0x947D_947E_947C_9C77_9C78_9EF7_8C54_947F_9E1A_7228_9A6A_9B31),
  (0xC67C, 0x9E1B_9E1E_7C72),
  (0xC940, 0x4E42_4E5C_51F5_531A_5382_4E07_4E0C_4E47_4E8D_56D7_FA0C_5C6E),
  (0xC94C, 0x5F73_4E0F_5187_4E0E_4E2E_4E93_4EC2_4EC9_4EC8_5198_52FC_536C),
  (0xC958, 0x53B9_5720_5903_592C_5C10_5DFF_65E1_6BB3_6BCC_6C14_723F_4E31),
  (0xC964, 0x4E3C_4EE8_4EDC_4EE9_4EE1_4EDD_4EDA_520C_531C_534C_5722_5723),
  (0xC970, 0x5917_592F_5B81_5B84_5C12_5C3B_5C74_5C73_5E04_5E80_5E82_5FC9),
  (0xC97C, 0x6209_6250_6C15),
  (0xC9A1, 0x6C36_6C43_6C3F_6C3B_72AE_72B0_738A_79B8_808A_961E_4F0E_4F18),
  (0xC9AD, 0x4F2C_4EF5_4F14_4EF1_4F00_4EF7_4F08_4F1D_4F02_4F05_4F22_4F13),
  (0xC9B9, 0x4F04_4EF4_4F12_51B1_5213_5209_5210_52A6_5322_531F_534D_538A),
  (0xC9C5, 0x5407_56E1_56DF_572E_572A_5734_593C_5980_597C_5985_597B_597E),
  (0xC9D1, 0x5977_597F_5B56_5C15_5C25_5C7C_5C7A_5C7B_5C7E_5DDF_5E75_5E84),
  (0xC9DD, 0x5F02_5F1A_5F74_5FD5_5FD4_5FCF_625C_625E_6264_6261_6266_6262),
  (0xC9E9, 0x6259_6260_625A_6265_65EF_65EE_673E_6739_6738_673B_673A_673F),
  (0xC9F5, 0x673C_6733_6C18_6C46_6C52_6C5C_6C4F_6C4A_6C54_6C4B),
  (0xCA40, 0x6C4C_7071_725E_72B4_72B5_738E_752A_767F_7A75_7F51_8278_827C),
  (0xCA4C, 0x8280_827D_827F_864D_897E_9099_9097_9098_909B_9094_9622_9624),
  (0xCA58, 0x9620_9623_4F56_4F3B_4F62_4F49_4F53_4F64_4F3E_4F67_4F52_4F5F),
  (0xCA64, 0x4F41_4F58_4F2D_4F33_4F3F_4F61_518F_51B9_521C_521E_5221_52AD),
  (0xCA70, 0x52AE_5309_5363_5372_538E_538F_5430_5437_542A_5454_5445_5419),
  (0xCA7C, 0x541C_5425_5418),
  (0xCAA1, 0x543D_544F_5441_5428_5424_5447_56EE_56E7_56E5_5741_5745_574C),
  (0xCAAD, 0x5749_574B_5752_5906_5940_59A6_5998_59A0_5997_598E_59A2_5990),
  (0xCAB9, 0x598F_59A7_59A1_5B8E_5B92_5C28_5C2A_5C8D_5C8F_5C88_5C8B_5C89),
  (0xCAC5, 0x5C92_5C8A_5C86_5C93_5C95_5DE0_5E0A_5E0E_5E8B_5E89_5E8C_5E88),
  (0xCAD1, 0x5E8D_5F05_5F1D_5F78_5F76_5FD2_5FD1_5FD0_5FED_5FE8_5FEE_5FF3),
  (0xCADD, 0x5FE1_5FE4_5FE3_5FFA_5FEF_5FF7_5FFB_6000_5FF4_623A_6283_628C),
  (0xCAE9, 0x628E_628F_6294_6287_6271_627B_627A_6270_6281_6288_6277_627D),
  (0xCAF5, 0x6272_6274_6537_65F0_65F4_65F3_65F2_65F5_6745_6747),
  (0xCB40, 0x6759_6755_674C_6748_675D_674D_675A_674B_6BD0_6C19_6C1A_6C78),
  (0xCB4C, 0x6C67_6C6B_6C84_6C8B_6C8F_6C71_6C6F_6C69_6C9A_6C6D_6C87_6C95),
  (0xCB58, 0x6C9C_6C66_6C73_6C65_6C7B_6C8E_7074_707A_7263_72BF_72BD_72C3),
  (0xCB64, 0x72C6_72C1_72BA_72C5_7395_7397_7393_7394_7392_753A_7539_7594),
  (0xCB70, 0x7595_7681_793D_8034_8095_8099_8090_8092_809C_8290_828F_8285),
  (0xCB7C, 0x828E_8291_8293),
  (0xCBA1, 0x828A_8283_8284_8C78_8FC9_8FBF_909F_90A1_90A5_909E_90A7_90A0),
  (0xCBAD, 0x9630_9628_962F_962D_4E33_4F98_4F7C_4F85_4F7D_4F80_4F87_4F76),
  (0xCBB9, 0x4F74_4F89_4F84_4F77_4F4C_4F97_4F6A_4F9A_4F79_4F81_4F78_4F90),
  (0xCBC5, 0x4F9C_4F94_4F9E_4F92_4F82_4F95_4F6B_4F6E_519E_51BC_51BE_5235),
  (0xCBD1, 0x5232_5233_5246_5231_52BC_530A_530B_533C_5392_5394_5487_547F),
  (0xCBDD, 0x5481_5491_5482_5488_546B_547A_547E_5465_546C_5474_5466_548D),
  (0xCBE9, 0x546F_5461_5460_5498_5463_5467_5464_56F7_56F9_576F_5772_576D),
  (0xCBF5, 0x576B_5771_5770_5776_5780_5775_577B_5773_5774_5762),
  (0xCC40, 0x5768_577D_590C_5945_59B5_59BA_59CF_59CE_59B2_59CC_59C1_59B6),
  (0xCC4C, 0x59BC_59C3_59D6_59B1_59BD_59C0_59C8_59B4_59C7_5B62_5B65_5B93),
  (0xCC58, 0x5B95_5C44_5C47_5CAE_5CA4_5CA0_5CB5_5CAF_5CA8_5CAC_5C9F_5CA3),
  (0xCC64, 0x5CAD_5CA2_5CAA_5CA7_5C9D_5CA5_5CB6_5CB0_5CA6_5E17_5E14_5E19),
  (0xCC70, 0x5F28_5F22_5F23_5F24_5F54_5F82_5F7E_5F7D_5FDE_5FE5_602D_6026),
  (0xCC7C, 0x6019_6032_600B),
  (0xCCA1, 0x6034_600A_6017_6033_601A_601E_602C_6022_600D_6010_602E_6013),
  (0xCCAD, 0x6011_600C_6009_601C_6214_623D_62AD_62B4_62D1_62BE_62AA_62B6),
  (0xCCB9, 0x62CA_62AE_62B3_62AF_62BB_62A9_62B0_62B8_653D_65A8_65BB_6609),
  (0xCCC5, 0x65FC_6604_6612_6608_65FB_6603_660B_660D_6605_65FD_6611_6610),
  (0xCCD1, 0x66F6_670A_6785_676C_678E_6792_6776_677B_6798_6786_6784_6774),
  (0xCCDD, 0x678D_678C_677A_679F_6791_6799_6783_677D_6781_6778_6779_6794),
  (0xCCE9, 0x6B25_6B80_6B7E_6BDE_6C1D_6C93_6CEC_6CEB_6CEE_6CD9_6CB6_6CD4),
  (0xCCF5, 0x6CAD_6CE7_6CB7_6CD0_6CC2_6CBA_6CC3_6CC6_6CED_6CF2),
  (0xCD40, 0x6CD2_6CDD_6CB4_6C8A_6C9D_6C80_6CDE_6CC0_6D30_6CCD_6CC7_6CB0),
  (0xCD4C, 0x6CF9_6CCF_6CE9_6CD1_7094_7098_7085_7093_7086_7084_7091_7096),
  (0xCD58, 0x7082_709A_7083_726A_72D6_72CB_72D8_72C9_72DC_72D2_72D4_72DA),
  (0xCD64, 0x72CC_72D1_73A4_73A1_73AD_73A6_73A2_73A0_73AC_739D_74DD_74E8),
  (0xCD70, 0x753F_7540_753E_758C_7598_76AF_76F3_76F1_76F0_76F5_77F8_77FC),
  (0xCD7C, 0x77F9_77FB_77FA),
  (0xCDA1, 0x77F7_7942_793F_79C5_7A78_7A7B_7AFB_7C75_7CFD_8035_808F_80AE),
  (0xCDAD, 0x80A3_80B8_80B5_80AD_8220_82A0_82C0_82AB_829A_8298_829B_82B5),
  (0xCDB9, 0x82A7_82AE_82BC_829E_82BA_82B4_82A8_82A1_82A9_82C2_82A4_82C3),
  (0xCDC5, 0x82B6_82A2_8670_866F_866D_866E_8C56_8FD2_8FCB_8FD3_8FCD_8FD6),
  (0xCDD1, 0x8FD5_8FD7_90B2_90B4_90AF_90B3_90B0_9639_963D_963C_963A_9643),
  (0xCDDD, 0x4FCD_4FC5_4FD3_4FB2_4FC9_4FCB_4FC1_4FD4_4FDC_4FD9_4FBB_4FB3),
  (0xCDE9, 0x4FDB_4FC7_4FD6_4FBA_4FC0_4FB9_4FEC_5244_5249_52C0_52C2_533D),
  (0xCDF5, 0x537C_5397_5396_5399_5398_54BA_54A1_54AD_54A5_54CF),
  (0xCE40, 0x54C3_830D_54B7_54AE_54D6_54B6_54C5_54C6_54A0_5470_54BC_54A2),
  (0xCE4C, 0x54BE_5472_54DE_54B0_57B5_579E_579F_57A4_578C_5797_579D_579B),
  (0xCE58, 0x5794_5798_578F_5799_57A5_579A_5795_58F4_590D_5953_59E1_59DE),
  (0xCE64, 0x59EE_5A00_59F1_59DD_59FA_59FD_59FC_59F6_59E4_59F2_59F7_59DB),
  (0xCE70, 0x59E9_59F3_59F5_59E0_59FE_59F4_59ED_5BA8_5C4C_5CD0_5CD8_5CCC),
  (0xCE7C, 0x5CD7_5CCB_5CDB),
  (0xCEA1, 0x5CDE_5CDA_5CC9_5CC7_5CCA_5CD6_5CD3_5CD4_5CCF_5CC8_5CC6_5CCE),
  (0xCEAD, 0x5CDF_5CF8_5DF9_5E21_5E22_5E23_5E20_5E24_5EB0_5EA4_5EA2_5E9B),
  (0xCEB9, 0x5EA3_5EA5_5F07_5F2E_5F56_5F86_6037_6039_6054_6072_605E_6045),
  (0xCEC5, 0x6053_6047_6049_605B_604C_6040_6042_605F_6024_6044_6058_6066),
  (0xCED1, 0x606E_6242_6243_62CF_630D_630B_62F5_630E_6303_62EB_62F9_630F),
  (0xCEDD, 0x630C_62F8_62F6_6300_6313_6314_62FA_6315_62FB_62F0_6541_6543),
  (0xCEE9, 0x65AA_65BF_6636_6621_6632_6635_661C_6626_6622_6633_662B_663A),
  (0xCEF5, 0x661D_6634_6639_662E_670F_6710_67C1_67F2_67C8_67BA),
  (0xCF40, 0x67DC_67BB_67F8_67D8_67C0_67B7_67C5_67EB_67E4_67DF_67B5_67CD),
  (0xCF4C, 0x67B3_67F7_67F6_67EE_67E3_67C2_67B9_67CE_67E7_67F0_67B2_67FC),
  (0xCF58, 0x67C6_67ED_67CC_67AE_67E6_67DB_67FA_67C9_67CA_67C3_67EA_67CB),
  (0xCF64, 0x6B28_6B82_6B84_6BB6_6BD6_6BD8_6BE0_6C20_6C21_6D28_6D34_6D2D),
  (0xCF70, 0x6D1F_6D3C_6D3F_6D12_6D0A_6CDA_6D33_6D04_6D19_6D3A_6D1A_6D11),
  (0xCF7C, 0x6D00_6D1D_6D42),
  (0xCFA1, 0x6D01_6D18_6D37_6D03_6D0F_6D40_6D07_6D20_6D2C_6D08_6D22_6D09),
  (0xCFAD, 0x6D10_70B7_709F_70BE_70B1_70B0_70A1_70B4_70B5_70A9_7241_7249),
  (0xCFB9, 0x724A_726C_7270_7273_726E_72CA_72E4_72E8_72EB_72DF_72EA_72E6),
  (0xCFC5, 0x72E3_7385_73CC_73C2_73C8_73C5_73B9_73B6_73B5_73B4_73EB_73BF),
  (0xCFD1, 0x73C7_73BE_73C3_73C6_73B8_73CB_74EC_74EE_752E_7547_7548_75A7),
  (0xCFDD, 0x75AA_7679_76C4_7708_7703_7704_7705_770A_76F7_76FB_76FA_77E7),
  (0xCFE9, 0x77E8_7806_7811_7812_7805_7810_780F_780E_7809_7803_7813_794A),
  (0xCFF5, 0x794C_794B_7945_7944_79D5_79CD_79CF_79D6_79CE_7A80),
  (0xD040, 0x7A7E_7AD1_7B00_7B01_7C7A_7C78_7C79_7C7F_7C80_7C81_7D03_7D08),
  (0xD04C, 0x7D01_7F58_7F91_7F8D_7FBE_8007_800E_800F_8014_8037_80D8_80C7),
  (0xD058, 0x80E0_80D1_80C8_80C2_80D0_80C5_80E3_80D9_80DC_80CA_80D5_80C9),
  (0xD064, 0x80CF_80D7_80E6_80CD_81FF_8221_8294_82D9_82FE_82F9_8307_82E8),
  (0xD070, 0x8300_82D5_833A_82EB_82D6_82F4_82EC_82E1_82F2_82F5_830C_82FB),
  (0xD07C, 0x82F6_82F0_82EA),
  (0xD0A1, 0x82E4_82E0_82FA_82F3_82ED_8677_8674_867C_8673_8841_884E_8867),
  (0xD0AD, 0x886A_8869_89D3_8A04_8A07_8D72_8FE3_8FE1_8FEE_8FE0_90F1_90BD),
  (0xD0B9, 0x90BF_90D5_90C5_90BE_90C7_90CB_90C8_91D4_91D3_9654_964F_9651),
  (0xD0C5, 0x9653_964A_964E_501E_5005_5007_5013_5022_5030_501B_4FF5_4FF4),
  (0xD0D1, 0x5033_5037_502C_4FF6_4FF7_5017_501C_5020_5027_5035_502F_5031),
  (0xD0DD, 0x500E_515A_5194_5193_51CA_51C4_51C5_51C8_51CE_5261_525A_5252),
  (0xD0E9, 0x525E_525F_5255_5262_52CD_530E_539E_5526_54E2_5517_5512_54E7),
  (0xD0F5, 0x54F3_54E4_551A_54FF_5504_5508_54EB_5511_5505_54F1),
  (0xD140, 0x550A_54FB_54F7_54F8_54E0_550E_5503_550B_5701_5702_57CC_5832),
  (0xD14C, 0x57D5_57D2_57BA_57C6_57BD_57BC_57B8_57B6_57BF_57C7_57D0_57B9),
  (0xD158, 0x57C1_590E_594A_5A19_5A16_5A2D_5A2E_5A15_5A0F_5A17_5A0A_5A1E),
  (0xD164, 0x5A33_5B6C_5BA7_5BAD_5BAC_5C03_5C56_5C54_5CEC_5CFF_5CEE_5CF1),
  (0xD170, 0x5CF7_5D00_5CF9_5E29_5E28_5EA8_5EAE_5EAA_5EAC_5F33_5F30_5F67),
  (0xD17C, 0x605D_605A_6067),
  (0xD1A1, 0x6041_60A2_6088_6080_6092_6081_609D_6083_6095_609B_6097_6087),
  (0xD1AD, 0x609C_608E_6219_6246_62F2_6310_6356_632C_6344_6345_6336_6343),
  (0xD1B9, 0x63E4_6339_634B_634A_633C_6329_6341_6334_6358_6354_6359_632D),
  (0xD1C5, 0x6347_6333_635A_6351_6338_6357_6340_6348_654A_6546_65C6_65C3),
  (0xD1D1, 0x65C4_65C2_664A_665F_6647_6651_6712_6713_681F_681A_6849_6832),
  (0xD1DD, 0x6833_683B_684B_684F_6816_6831_681C_6835_682B_682D_682F_684E),
  (0xD1E9, 0x6844_6834_681D_6812_6814_6826_6828_682E_684D_683A_6825_6820),
  (0xD1F5, 0x6B2C_6B2F_6B2D_6B31_6B34_6B6D_8082_6B88_6BE6_6BE4),
  (0xD240, 0x6BE8_6BE3_6BE2_6BE7_6C25_6D7A_6D63_6D64_6D76_6D0D_6D61_6D92),
  (0xD24C, 0x6D58_6D62_6D6D_6D6F_6D91_6D8D_6DEF_6D7F_6D86_6D5E_6D67_6D60),
  (0xD258, 0x6D97_6D70_6D7C_6D5F_6D82_6D98_6D2F_6D68_6D8B_6D7E_6D80_6D84),
  (0xD264, 0x6D16_6D83_6D7B_6D7D_6D75_6D90_70DC_70D3_70D1_70DD_70CB_7F39),
  (0xD270, 0x70E2_70D7_70D2_70DE_70E0_70D4_70CD_70C5_70C6_70C7_70DA_70CE),
  (0xD27C, 0x70E1_7242_7278),
  (0xD2A1, 0x7277_7276_7300_72FA_72F4_72FE_72F6_72F3_72FB_7301_73D3_73D9),
  (0xD2AD, 0x73E5_73D6_73BC_73E7_73E3_73E9_73DC_73D2_73DB_73D4_73DD_73DA),
  (0xD2B9, 0x73D7_73D8_73E8_74DE_74DF_74F4_74F5_7521_755B_755F_75B0_75C1),
  (0xD2C5, 0x75BB_75C4_75C0_75BF_75B6_75BA_768A_76C9_771D_771B_7710_7713),
  (0xD2D1, 0x7712_7723_7711_7715_7719_771A_7722_7727_7823_782C_7822_7835),
  (0xD2DD, 0x782F_7828_782E_782B_7821_7829_7833_782A_7831_7954_795B_794F),
  (0xD2E9, 0x795C_7953_7952_7951_79EB_79EC_79E0_79EE_79ED_79EA_79DC_79DE),
  (0xD2F5, 0x79DD_7A86_7A89_7A85_7A8B_7A8C_7A8A_7A87_7AD8_7B10),
  (0xD340, 0x7B04_7B13_7B05_7B0F_7B08_7B0A_7B0E_7B09_7B12_7C84_7C91_7C8A),
  (0xD34C, 0x7C8C_7C88_7C8D_7C85_7D1E_7D1D_7D11_7D0E_7D18_7D16_7D13_7D1F),
  (0xD358, 0x7D12_7D0F_7D0C_7F5C_7F61_7F5E_7F60_7F5D_7F5B_7F96_7F92_7FC3),
  (0xD364, 0x7FC2_7FC0_8016_803E_8039_80FA_80F2_80F9_80F5_8101_80FB_8100),
  (0xD370, 0x8201_822F_8225_8333_832D_8344_8319_8351_8325_8356_833F_8341),
  (0xD37C, 0x8326_831C_8322),
  (0xD3A1, 0x8342_834E_831B_832A_8308_833C_834D_8316_8324_8320_8337_832F),
  (0xD3AD, 0x8329_8347_8345_834C_8353_831E_832C_834B_8327_8348_8653_8652),
  (0xD3B9, 0x86A2_86A8_8696_868D_8691_869E_8687_8697_8686_868B_869A_8685),
  (0xD3C5, 0x86A5_8699_86A1_86A7_8695_8698_868E_869D_8690_8694_8843_8844),
  (0xD3D1, 0x886D_8875_8876_8872_8880_8871_887F_886F_8883_887E_8874_887C),
  (0xD3DD, 0x8A12_8C47_8C57_8C7B_8CA4_8CA3_8D76_8D78_8DB5_8DB7_8DB6_8ED1),
  (0xD3E9, 0x8ED3_8FFE_8FF5_9002_8FFF_8FFB_9004_8FFC_8FF6_90D6_90E0_90D9),
  (0xD3F5, 0x90DA_90E3_90DF_90E5_90D8_90DB_90D7_90DC_90E4_9150),
  (0xD440, 0x914E_914F_91D5_91E2_91DA_965C_965F_96BC_98E3_9ADF_9B2F_4E7F),
  (0xD44C, 0x5070_506A_5061_505E_5060_5053_504B_505D_5072_5048_504D_5041),
  (0xD458, 0x505B_504A_5062_5015_5045_505F_5069_506B_5063_5064_5046_5040),
  (0xD464, 0x506E_5073_5057_5051_51D0_526B_526D_526C_526E_52D6_52D3_532D),
  (0xD470, 0x539C_5575_5576_553C_554D_5550_5534_552A_5551_5562_5536_5535),
  (0xD47C, 0x5530_5552_5545),
  (0xD4A1, 0x550C_5532_5565_554E_5539_5548_552D_553B_5540_554B_570A_5707),
  (0xD4AD, 0x57FB_5814_57E2_57F6_57DC_57F4_5800_57ED_57FD_5808_57F8_580B),
  (0xD4B9, 0x57F3_57CF_5807_57EE_57E3_57F2_57E5_57EC_57E1_580E_57FC_5810),
  (0xD4C5, 0x57E7_5801_580C_57F1_57E9_57F0_580D_5804_595C_5A60_5A58_5A55),
  (0xD4D1, 0x5A67_5A5E_5A38_5A35_5A6D_5A50_5A5F_5A65_5A6C_5A53_5A64_5A57),
  (0xD4DD, 0x5A43_5A5D_5A52_5A44_5A5B_5A48_5A8E_5A3E_5A4D_5A39_5A4C_5A70),
  (0xD4E9, 0x5A69_5A47_5A51_5A56_5A42_5A5C_5B72_5B6E_5BC1_5BC0_5C59_5D1E),
  (0xD4F5, 0x5D0B_5D1D_5D1A_5D20_5D0C_5D28_5D0D_5D26_5D25_5D0F),
  (0xD540, 0x5D30_5D12_5D23_5D1F_5D2E_5E3E_5E34_5EB1_5EB4_5EB9_5EB2_5EB3),
  (0xD54C, 0x5F36_5F38_5F9B_5F96_5F9F_608A_6090_6086_60BE_60B0_60BA_60D3),
  (0xD558, 0x60D4_60CF_60E4_60D9_60DD_60C8_60B1_60DB_60B7_60CA_60BF_60C3),
  (0xD564, 0x60CD_60C0_6332_6365_638A_6382_637D_63BD_639E_63AD_639D_6397),
  (0xD570, 0x63AB_638E_636F_6387_6390_636E_63AF_6375_639C_636D_63AE_637C),
  (0xD57C, 0x63A4_633B_639F),
  (0xD5A1, 0x6378_6385_6381_6391_638D_6370_6553_65CD_6665_6661_665B_6659),
  (0xD5AD, 0x665C_6662_6718_6879_6887_6890_689C_686D_686E_68AE_68AB_6956),
  (0xD5B9, 0x686F_68A3_68AC_68A9_6875_6874_68B2_688F_6877_6892_687C_686B),
  (0xD5C5, 0x6872_68AA_6880_6871_687E_689B_6896_688B_68A0_6889_68A4_6878),
  (0xD5D1, 0x687B_6891_688C_688A_687D_6B36_6B33_6B37_6B38_6B91_6B8F_6B8D),
  (0xD5DD, 0x6B8E_6B8C_6C2A_6DC0_6DAB_6DB4_6DB3_6E74_6DAC_6DE9_6DE2_6DB7),
  (0xD5E9, 0x6DF6_6DD4_6E00_6DC8_6DE0_6DDF_6DD6_6DBE_6DE5_6DDC_6DDD_6DDB),
  (0xD5F5, 0x6DF4_6DCA_6DBD_6DED_6DF0_6DBA_6DD5_6DC2_6DCF_6DC9),
  (0xD640, 0x6DD0_6DF2_6DD3_6DFD_6DD7_6DCD_6DE3_6DBB_70FA_710D_70F7_7117),
  (0xD64C, 0x70F4_710C_70F0_7104_70F3_7110_70FC_70FF_7106_7113_7100_70F8),
  (0xD658, 0x70F6_710B_7102_710E_727E_727B_727C_727F_731D_7317_7307_7311),
  (0xD664, 0x7318_730A_7308_72FF_730F_731E_7388_73F6_73F8_73F5_7404_7401),
  (0xD670, 0x73FD_7407_7400_73FA_73FC_73FF_740C_740B_73F4_7408_7564_7563),
  (0xD67C, 0x75CE_75D2_75CF),
  (0xD6A1, 0x75CB_75CC_75D1_75D0_768F_7689_76D3_7739_772F_772D_7731_7732),
  (0xD6AD, 0x7734_7733_773D_7725_773B_7735_7848_7852_7849_784D_784A_784C),
  (0xD6B9, 0x7826_7845_7850_7964_7967_7969_796A_7963_796B_7961_79BB_79FA),
  (0xD6C5, 0x79F8_79F6_79F7_7A8F_7A94_7A90_7B35_7B47_7B34_7B25_7B30_7B22),
  (0xD6D1, 0x7B24_7B33_7B18_7B2A_7B1D_7B31_7B2B_7B2D_7B2F_7B32_7B38_7B1A),
  (0xD6DD, 0x7B23_7C94_7C98_7C96_7CA3_7D35_7D3D_7D38_7D36_7D3A_7D45_7D2C),
  (0xD6E9, 0x7D29_7D41_7D47_7D3E_7D3F_7D4A_7D3B_7D28_7F63_7F95_7F9C_7F9D),
  (0xD6F5, 0x7F9B_7FCA_7FCB_7FCD_7FD0_7FD1_7FC7_7FCF_7FC9_801F),
  (0xD740, 0x801E_801B_8047_8043_8048_8118_8125_8119_811B_812D_811F_812C),
  (0xD74C, 0x811E_8121_8115_8127_811D_8122_8211_8238_8233_823A_8234_8232),
  (0xD758, 0x8274_8390_83A3_83A8_838D_837A_8373_83A4_8374_838F_8381_8395),
  (0xD764, 0x8399_8375_8394_83A9_837D_8383_838C_839D_839B_83AA_838B_837E),
  (0xD770, 0x83A5_83AF_8388_8397_83B0_837F_83A6_8387_83AE_8376_839A_8659),
  (0xD77C, 0x8656_86BF_86B7),
  (0xD7A1, 0x86C2_86C1_86C5_86BA_86B0_86C8_86B9_86B3_86B8_86CC_86B4_86BB),
  (0xD7AD, 0x86BC_86C3_86BD_86BE_8852_8889_8895_88A8_88A2_88AA_889A_8891),
  (0xD7B9, 0x88A1_889F_8898_88A7_8899_889B_8897_88A4_88AC_888C_8893_888E),
  (0xD7C5, 0x8982_89D6_89D9_89D5_8A30_8A27_8A2C_8A1E_8C39_8C3B_8C5C_8C5D),
  (0xD7D1, 0x8C7D_8CA5_8D7D_8D7B_8D79_8DBC_8DC2_8DB9_8DBF_8DC1_8ED8_8EDE),
  (0xD7DD, 0x8EDD_8EDC_8ED7_8EE0_8EE1_9024_900B_9011_901C_900C_9021_90EF),
  (0xD7E9, 0x90EA_90F0_90F4_90F2_90F3_90D4_90EB_90EC_90E9_9156_9158_915A),
  (0xD7F5, 0x9153_9155_91EC_91F4_91F1_91F3_91F8_91E4_91F9_91EA),
  (0xD840, 0x91EB_91F7_91E8_91EE_957A_9586_9588_967C_966D_966B_9671_966F),
  (0xD84C, 0x96BF_976A_9804_98E5_9997_509B_5095_5094_509E_508B_50A3_5083),
  (0xD858, 0x508C_508E_509D_5068_509C_5092_5082_5087_515F_51D4_5312_5311),
  (0xD864, 0x53A4_53A7_5591_55A8_55A5_55AD_5577_5645_55A2_5593_5588_558F),
  (0xD870, 0x55B5_5581_55A3_5592_55A4_557D_558C_55A6_557F_5595_55A1_558E),
  (0xD87C, 0x570C_5829_5837),
  (0xD8A1, 0x5819_581E_5827_5823_5828_57F5_5848_5825_581C_581B_5833_583F),
  (0xD8AD, 0x5836_582E_5839_5838_582D_582C_583B_5961_5AAF_5A94_5A9F_5A7A),
  (0xD8B9, 0x5AA2_5A9E_5A78_5AA6_5A7C_5AA5_5AAC_5A95_5AAE_5A37_5A84_5A8A),
  (0xD8C5, 0x5A97_5A83_5A8B_5AA9_5A7B_5A7D_5A8C_5A9C_5A8F_5A93_5A9D_5BEA),
  (0xD8D1, 0x5BCD_5BCB_5BD4_5BD1_5BCA_5BCE_5C0C_5C30_5D37_5D43_5D6B_5D41),
  (0xD8DD, 0x5D4B_5D3F_5D35_5D51_5D4E_5D55_5D33_5D3A_5D52_5D3D_5D31_5D59),
  (0xD8E9, 0x5D42_5D39_5D49_5D38_5D3C_5D32_5D36_5D40_5D45_5E44_5E41_5F58),
  (0xD8F5, 0x5FA6_5FA5_5FAB_60C9_60B9_60CC_60E2_60CE_60C4_6114),
  (0xD940, 0x60F2_610A_6116_6105_60F5_6113_60F8_60FC_60FE_60C1_6103_6118),
  (0xD94C, 0x611D_6110_60FF_6104_610B_624A_6394_63B1_63B0_63CE_63E5_63E8),
  (0xD958, 0x63EF_63C3_649D_63F3_63CA_63E0_63F6_63D5_63F2_63F5_6461_63DF),
  (0xD964, 0x63BE_63DD_63DC_63C4_63D8_63D3_63C2_63C7_63CC_63CB_63C8_63F0),
  (0xD970, 0x63D7_63D9_6532_6567_656A_6564_655C_6568_6565_658C_659D_659E),
  (0xD97C, 0x65AE_65D0_65D2),
  (0xD9A1, 0x667C_666C_667B_6680_6671_6679_666A_6672_6701_690C_68D3_6904),
  (0xD9AD, 0x68DC_692A_68EC_68EA_68F1_690F_68D6_68F7_68EB_68E4_68F6_6913),
  (0xD9B9, 0x6910_68F3_68E1_6907_68CC_6908_6970_68B4_6911_68EF_68C6_6914),
  (0xD9C5, 0x68F8_68D0_68FD_68FC_68E8_690B_690A_6917_68CE_68C8_68DD_68DE),
  (0xD9D1, 0x68E6_68F4_68D1_6906_68D4_68E9_6915_6925_68C7_6B39_6B3B_6B3F),
  (0xD9DD, 0x6B3C_6B94_6B97_6B99_6B95_6BBD_6BF0_6BF2_6BF3_6C30_6DFC_6E46),
  (0xD9E9, 0x6E47_6E1F_6E49_6E88_6E3C_6E3D_6E45_6E62_6E2B_6E3F_6E41_6E5D),
  (0xD9F5, 0x6E73_6E1C_6E33_6E4B_6E40_6E51_6E3B_6E03_6E2E_6E5E),
  (0xDA40, 0x6E68_6E5C_6E61_6E31_6E28_6E60_6E71_6E6B_6E39_6E22_6E30_6E53),
  (0xDA4C, 0x6E65_6E27_6E78_6E64_6E77_6E55_6E79_6E52_6E66_6E35_6E36_6E5A),
  (0xDA58, 0x7120_711E_712F_70FB_712E_7131_7123_7125_7122_7132_711F_7128),
  (0xDA64, 0x713A_711B_724B_725A_7288_7289_7286_7285_728B_7312_730B_7330),
  (0xDA70, 0x7322_7331_7333_7327_7332_732D_7326_7323_7335_730C_742E_742C),
  (0xDA7C, 0x7430_742B_7416),
  (0xDAA1, 0x741A_7421_742D_7431_7424_7423_741D_7429_7420_7432_74FB_752F),
  (0xDAAD, 0x756F_756C_75E7_75DA_75E1_75E6_75DD_75DF_75E4_75D7_7695_7692),
  (0xDAB9, 0x76DA_7746_7747_7744_774D_7745_774A_774E_774B_774C_77DE_77EC),
  (0xDAC5, 0x7860_7864_7865_785C_786D_7871_786A_786E_7870_7869_7868_785E),
  (0xDAD1, 0x7862_7974_7973_7972_7970_7A02_7A0A_7A03_7A0C_7A04_7A99_7AE6),
  (0xDADD, 0x7AE4_7B4A_7B3B_7B44_7B48_7B4C_7B4E_7B40_7B58_7B45_7CA2_7C9E),
  (0xDAE9, 0x7CA8_7CA1_7D58_7D6F_7D63_7D53_7D56_7D67_7D6A_7D4F_7D6D_7D5C),
  (0xDAF5, 0x7D6B_7D52_7D54_7D69_7D51_7D5F_7D4E_7F3E_7F3F_7F65),
  (0xDB40, 0x7F66_7FA2_7FA0_7FA1_7FD7_8051_804F_8050_80FE_80D4_8143_814A),
  (0xDB4C, 0x8152_814F_8147_813D_814D_813A_81E6_81EE_81F7_81F8_81F9_8204),
  (0xDB58, 0x823C_823D_823F_8275_833B_83CF_83F9_8423_83C0_83E8_8412_83E7),
  (0xDB64, 0x83E4_83FC_83F6_8410_83C6_83C8_83EB_83E3_83BF_8401_83DD_83E5),
  (0xDB70, 0x83D8_83FF_83E1_83CB_83CE_83D6_83F5_83C9_8409_840F_83DE_8411),
  (0xDB7C, 0x8406_83C2_83F3),
  (0xDBA1, 0x83D5_83FA_83C7_83D1_83EA_8413_83C3_83EC_83EE_83C4_83FB_83D7),
  (0xDBAD, 0x83E2_841B_83DB_83FE_86D8_86E2_86E6_86D3_86E3_86DA_86EA_86DD),
  (0xDBB9, 0x86EB_86DC_86EC_86E9_86D7_86E8_86D1_8848_8856_8855_88BA_88D7),
  (0xDBC5, 0x88B9_88B8_88C0_88BE_88B6_88BC_88B7_88BD_88B2_8901_88C9_8995),
  (0xDBD1, 0x8998_8997_89DD_89DA_89DB_8A4E_8A4D_8A39_8A59_8A40_8A57_8A58),
  (0xDBDD, 0x8A44_8A45_8A52_8A48_8A51_8A4A_8A4C_8A4F_8C5F_8C81_8C80_8CBA),
  (0xDBE9, 0x8CBE_8CB0_8CB9_8CB5_8D84_8D80_8D89_8DD8_8DD3_8DCD_8DC7_8DD6),
  (0xDBF5, 0x8DDC_8DCF_8DD5_8DD9_8DC8_8DD7_8DC5_8EEF_8EF7_8EFA),
  (0xDC40, 0x8EF9_8EE6_8EEE_8EE5_8EF5_8EE7_8EE8_8EF6_8EEB_8EF1_8EEC_8EF4),
  (0xDC4C, 0x8EE9_902D_9034_902F_9106_912C_9104_90FF_90FC_9108_90F9_90FB),
  (0xDC58, 0x9101_9100_9107_9105_9103_9161_9164_915F_9162_9160_9201_920A),
  (0xDC64, 0x9225_9203_921A_9226_920F_920C_9200_9212_91FF_91FD_9206_9204),
  (0xDC70, 0x9227_9202_921C_9224_9219_9217_9205_9216_957B_958D_958C_9590),
  (0xDC7C, 0x9687_967E_9688),
  (0xDCA1, 0x9689_9683_9680_96C2_96C8_96C3_96F1_96F0_976C_9770_976E_9807),
  (0xDCAD, 0x98A9_98EB_9CE6_9EF9_4E83_4E84_4EB6_50BD_50BF_50C6_50AE_50C4),
  (0xDCB9, 0x50CA_50B4_50C8_50C2_50B0_50C1_50BA_50B1_50CB_50C9_50B6_50B8),
  (0xDCC5, 0x51D7_527A_5278_527B_527C_55C3_55DB_55CC_55D0_55CB_55CA_55DD),
  (0xDCD1, 0x55C0_55D4_55C4_55E9_55BF_55D2_558D_55CF_55D5_55E2_55D6_55C8),
  (0xDCDD, 0x55F2_55CD_55D9_55C2_5714_5853_5868_5864_584F_584D_5849_586F),
  (0xDCE9, 0x5855_584E_585D_5859_5865_585B_583D_5863_5871_58FC_5AC7_5AC4),
  (0xDCF5, 0x5ACB_5ABA_5AB8_5AB1_5AB5_5AB0_5ABF_5AC8_5ABB_5AC6),
  (0xDD40, 0x5AB7_5AC0_5ACA_5AB4_5AB6_5ACD_5AB9_5A90_5BD6_5BD8_5BD9_5C1F),
  (0xDD4C, 0x5C33_5D71_5D63_5D4A_5D65_5D72_5D6C_5D5E_5D68_5D67_5D62_5DF0),
  (0xDD58, 0x5E4F_5E4E_5E4A_5E4D_5E4B_5EC5_5ECC_5EC6_5ECB_5EC7_5F40_5FAF),
  (0xDD64, 0x5FAD_60F7_6149_614A_612B_6145_6136_6132_612E_6146_612F_614F),
  (0xDD70, 0x6129_6140_6220_9168_6223_6225_6224_63C5_63F1_63EB_6410_6412),
  (0xDD7C, 0x6409_6420_6424),
  (0xDDA1, 0x6433_6443_641F_6415_6418_6439_6437_6422_6423_640C_6426_6430),
  (0xDDAD, 0x6428_6441_6435_642F_640A_641A_6440_6425_6427_640B_63E7_641B),
  (0xDDB9, 0x642E_6421_640E_656F_6592_65D3_6686_668C_6695_6690_668B_668A),
  (0xDDC5, 0x6699_6694_6678_6720_6966_695F_6938_694E_6962_6971_693F_6945),
  (0xDDD1, 0x696A_6939_6942_6957_6959_697A_6948_6949_6935_696C_6933_693D),
  (0xDDDD, 0x6965_68F0_6978_6934_6969_6940_696F_6944_6976_6958_6941_6974),
  (0xDDE9, 0x694C_693B_694B_6937_695C_694F_6951_6932_6952_692F_697B_693C),
  (0xDDF5, 0x6B46_6B45_6B43_6B42_6B48_6B41_6B9B_FA0D_6BFB_6BFC),
  (0xDE40, 0x6BF9_6BF7_6BF8_6E9B_6ED6_6EC8_6E8F_6EC0_6E9F_6E93_6E94_6EA0),
  (0xDE4C, 0x6EB1_6EB9_6EC6_6ED2_6EBD_6EC1_6E9E_6EC9_6EB7_6EB0_6ECD_6EA6),
  (0xDE58, 0x6ECF_6EB2_6EBE_6EC3_6EDC_6ED8_6E99_6E92_6E8E_6E8D_6EA4_6EA1),
  (0xDE64, 0x6EBF_6EB3_6ED0_6ECA_6E97_6EAE_6EA3_7147_7154_7152_7163_7160),
  (0xDE70, 0x7141_715D_7162_7172_7178_716A_7161_7142_7158_7143_714B_7170),
  (0xDE7C, 0x715F_7150_7153),
  (0xDEA1, 0x7144_714D_715A_724F_728D_728C_7291_7290_728E_733C_7342_733B),
  (0xDEAD, 0x733A_7340_734A_7349_7444_744A_744B_7452_7451_7457_7440_744F),
  (0xDEB9, 0x7450_744E_7442_7446_744D_7454_74E1_74FF_74FE_74FD_751D_7579),
  (0xDEC5, 0x7577_6983_75EF_760F_7603_75F7_75FE_75FC_75F9_75F8_7610_75FB),
  (0xDED1, 0x75F6_75ED_75F5_75FD_7699_76B5_76DD_7755_775F_7760_7752_7756),
  (0xDEDD, 0x775A_7769_7767_7754_7759_776D_77E0_7887_789A_7894_788F_7884),
  (0xDEE9, 0x7895_7885_7886_78A1_7883_7879_7899_7880_7896_787B_797C_7982),
  (0xDEF5, 0x797D_7979_7A11_7A18_7A19_7A12_7A17_7A15_7A22_7A13),
  (0xDF40, 0x7A1B_7A10_7AA3_7AA2_7A9E_7AEB_7B66_7B64_7B6D_7B74_7B69_7B72),
  (0xDF4C, 0x7B65_7B73_7B71_7B70_7B61_7B78_7B76_7B63_7CB2_7CB4_7CAF_7D88),
  (0xDF58, 0x7D86_7D80_7D8D_7D7F_7D85_7D7A_7D8E_7D7B_7D83_7D7C_7D8C_7D94),
  (0xDF64, 0x7D84_7D7D_7D92_7F6D_7F6B_7F67_7F68_7F6C_7FA6_7FA5_7FA7_7FDB),
  (0xDF70, 0x7FDC_8021_8164_8160_8177_815C_8169_815B_8162_8172_6721_815E),
  (0xDF7C, 0x8176_8167_816F),
  (0xDFA1, 0x8144_8161_821D_8249_8244_8240_8242_8245_84F1_843F_8456_8476),
  (0xDFAD, 0x8479_848F_848D_8465_8451_8440_8486_8467_8430_844D_847D_845A),
  (0xDFB9, 0x8459_8474_8473_845D_8507_845E_8437_843A_8434_847A_8443_8478),
  (0xDFC5, 0x8432_8445_8429_83D9_844B_842F_8442_842D_845F_8470_8439_844E),
  (0xDFD1, 0x844C_8452_846F_84C5_848E_843B_8447_8436_8433_8468_847E_8444),
  (0xDFDD, 0x842B_8460_8454_846E_8450_870B_8704_86F7_870C_86FA_86D6_86F5),
  (0xDFE9, 0x874D_86F8_870E_8709_8701_86F6_870D_8705_88D6_88CB_88CD_88CE),
  (0xDFF5, 0x88DE_88DB_88DA_88CC_88D0_8985_899B_89DF_89E5_89E4),
  (0xE040, 0x89E1_89E0_89E2_89DC_89E6_8A76_8A86_8A7F_8A61_8A3F_8A77_8A82),
  (0xE04C, 0x8A84_8A75_8A83_8A81_8A74_8A7A_8C3C_8C4B_8C4A_8C65_8C64_8C66),
  (0xE058, 0x8C86_8C84_8C85_8CCC_8D68_8D69_8D91_8D8C_8D8E_8D8F_8D8D_8D93),
  (0xE064, 0x8D94_8D90_8D92_8DF0_8DE0_8DEC_8DF1_8DEE_8DD0_8DE9_8DE3_8DE2),
  (0xE070, 0x8DE7_8DF2_8DEB_8DF4_8F06_8EFF_8F01_8F00_8F05_8F07_8F08_8F02),
  (0xE07C, 0x8F0B_9052_903F),
  (0xE0A1, 0x9044_9049_903D_9110_910D_910F_9111_9116_9114_910B_910E_916E),
  (0xE0AD, 0x916F_9248_9252_9230_923A_9266_9233_9265_925E_9283_922E_924A),
  (0xE0B9, 0x9246_926D_926C_924F_9260_9267_926F_9236_9261_9270_9231_9254),
  (0xE0C5, 0x9263_9250_9272_924E_9253_924C_9256_9232_959F_959C_959E_959B),
  (0xE0D1, 0x9692_9693_9691_9697_96CE_96FA_96FD_96F8_96F5_9773_9777_9778),
  (0xE0DD, 0x9772_980F_980D_980E_98AC_98F6_98F9_99AF_99B2_99B0_99B5_9AAD),
  (0xE0E9, 0x9AAB_9B5B_9CEA_9CED_9CE7_9E80_9EFD_50E6_50D4_50D7_50E8_50F3),
  (0xE0F5, 0x50DB_50EA_50DD_50E4_50D3_50EC_50F0_50EF_50E3_50E0),
  (0xE140, 0x51D8_5280_5281_52E9_52EB_5330_53AC_5627_5615_560C_5612_55FC),
  (0xE14C, 0x560F_561C_5601_5613_5602_55FA_561D_5604_55FF_55F9_5889_587C),
  (0xE158, 0x5890_5898_5886_5881_587F_5874_588B_587A_5887_5891_588E_5876),
  (0xE164, 0x5882_5888_587B_5894_588F_58FE_596B_5ADC_5AEE_5AE5_5AD5_5AEA),
  (0xE170, 0x5ADA_5AED_5AEB_5AF3_5AE2_5AE0_5ADB_5AEC_5ADE_5ADD_5AD9_5AE8),
  (0xE17C, 0x5ADF_5B77_5BE0),
  (0xE1A1, 0x5BE3_5C63_5D82_5D80_5D7D_5D86_5D7A_5D81_5D77_5D8A_5D89_5D88),
  (0xE1AD, 0x5D7E_5D7C_5D8D_5D79_5D7F_5E58_5E59_5E53_5ED8_5ED1_5ED7_5ECE),
  (0xE1B9, 0x5EDC_5ED5_5ED9_5ED2_5ED4_5F44_5F43_5F6F_5FB6_612C_6128_6141),
  (0xE1C5, 0x615E_6171_6173_6152_6153_6172_616C_6180_6174_6154_617A_615B),
  (0xE1D1, 0x6165_613B_616A_6161_6156_6229_6227_622B_642B_644D_645B_645D),
  (0xE1DD, 0x6474_6476_6472_6473_647D_6475_6466_64A6_644E_6482_645E_645C),
  (0xE1E9, 0x644B_6453_6460_6450_647F_643F_646C_646B_6459_6465_6477_6573),
  (0xE1F5, 0x65A0_66A1_66A0_669F_6705_6704_6722_69B1_69B6_69C9),
  (0xE240, 0x69A0_69CE_6996_69B0_69AC_69BC_6991_6999_698E_69A7_698D_69A9),
  (0xE24C, 0x69BE_69AF_69BF_69C4_69BD_69A4_69D4_69B9_69CA_699A_69CF_69B3),
  (0xE258, 0x6993_69AA_69A1_699E_69D9_6997_6990_69C2_69B5_69A5_69C6_6B4A),
  (0xE264, 0x6B4D_6B4B_6B9E_6B9F_6BA0_6BC3_6BC4_6BFE_6ECE_6EF5_6EF1_6F03),
  (0xE270, 0x6F25_6EF8_6F37_6EFB_6F2E_6F09_6F4E_6F19_6F1A_6F27_6F18_6F3B),
  (0xE27C, 0x6F12_6EED_6F0A),
  (0xE2A1, 0x6F36_6F73_6EF9_6EEE_6F2D_6F40_6F30_6F3C_6F35_6EEB_6F07_6F0E),
  (0xE2AD, 0x6F43_6F05_6EFD_6EF6_6F39_6F1C_6EFC_6F3A_6F1F_6F0D_6F1E_6F08),
  (0xE2B9, 0x6F21_7187_7190_7189_7180_7185_7182_718F_717B_7186_7181_7197),
  (0xE2C5, 0x7244_7253_7297_7295_7293_7343_734D_7351_734C_7462_7473_7471),
  (0xE2D1, 0x7475_7472_7467_746E_7500_7502_7503_757D_7590_7616_7608_760C),
  (0xE2DD, 0x7615_7611_760A_7614_76B8_7781_777C_7785_7782_776E_7780_776F),
  (0xE2E9, 0x777E_7783_78B2_78AA_78B4_78AD_78A8_787E_78AB_789E_78A5_78A0),
  (0xE2F5, 0x78AC_78A2_78A4_7998_798A_798B_7996_7995_7994_7993),
  (0xE340, 0x7997_7988_7992_7990_7A2B_7A4A_7A30_7A2F_7A28_7A26_7AA8_7AAB),
  (0xE34C, 0x7AAC_7AEE_7B88_7B9C_7B8A_7B91_7B90_7B96_7B8D_7B8C_7B9B_7B8E),
  (0xE358, 0x7B85_7B98_5284_7B99_7BA4_7B82_7CBB_7CBF_7CBC_7CBA_7DA7_7DB7),
  (0xE364, 0x7DC2_7DA3_7DAA_7DC1_7DC0_7DC5_7D9D_7DCE_7DC4_7DC6_7DCB_7DCC),
  (0xE370, 0x7DAF_7DB9_7D96_7DBC_7D9F_7DA6_7DAE_7DA9_7DA1_7DC9_7F73_7FE2),
  (0xE37C, 0x7FE3_7FE5_7FDE),
  (0xE3A1, 0x8024_805D_805C_8189_8186_8183_8187_818D_818C_818B_8215_8497),
  (0xE3AD, 0x84A4_84A1_849F_84BA_84CE_84C2_84AC_84AE_84AB_84B9_84B4_84C1),
  (0xE3B9, 0x84CD_84AA_849A_84B1_84D0_849D_84A7_84BB_84A2_8494_84C7_84CC),
  (0xE3C5, 0x849B_84A9_84AF_84A8_84D6_8498_84B6_84CF_84A0_84D7_84D4_84D2),
  (0xE3D1, 0x84DB_84B0_8491_8661_8733_8723_8728_876B_8740_872E_871E_8721),
  (0xE3DD, 0x8719_871B_8743_872C_8741_873E_8746_8720_8732_872A_872D_873C),
  (0xE3E9, 0x8712_873A_8731_8735_8742_8726_8727_8738_8724_871A_8730_8711),
  (0xE3F5, 0x88F7_88E7_88F1_88F2_88FA_88FE_88EE_88FC_88F6_88FB),
  (0xE440, 0x88F0_88EC_88EB_899D_89A1_899F_899E_89E9_89EB_89E8_8AAB_8A99),
  (0xE44C, 0x8A8B_8A92_8A8F_8A96_8C3D_8C68_8C69_8CD5_8CCF_8CD7_8D96_8E09),
  (0xE458, 0x8E02_8DFF_8E0D_8DFD_8E0A_8E03_8E07_8E06_8E05_8DFE_8E00_8E04),
  (0xE464, 0x8F10_8F11_8F0E_8F0D_9123_911C_9120_9122_911F_911D_911A_9124),
  (0xE470, 0x9121_911B_917A_9172_9179_9173_92A5_92A4_9276_929B_927A_92A0),
  (0xE47C, 0x9294_92AA_928D),
  (0xE4A1, 0x92A6_929A_92AB_9279_9297_927F_92A3_92EE_928E_9282_9295_92A2),
  (0xE4AD, 0x927D_9288_92A1_928A_9286_928C_9299_92A7_927E_9287_92A9_929D),
  (0xE4B9, 0x928B_922D_969E_96A1_96FF_9758_977D_977A_977E_9783_9780_9782),
  (0xE4C5, 0x977B_9784_9781_977F_97CE_97CD_9816_98AD_98AE_9902_9900_9907),
  (0xE4D1, 0x999D_999C_99C3_99B9_99BB_99BA_99C2_99BD_99C7_9AB1_9AE3_9AE7),
  (0xE4DD, 0x9B3E_9B3F_9B60_9B61_9B5F_9CF1_9CF2_9CF5_9EA7_50FF_5103_5130),
  (0xE4E9, 0x50F8_5106_5107_50F6_50FE_510B_510C_50FD_510A_528B_528C_52F1),
  (0xE4F5, 0x52EF_5648_5642_564C_5635_5641_564A_5649_5646_5658),
  (0xE540, 0x565A_5640_5633_563D_562C_563E_5638_562A_563A_571A_58AB_589D),
  (0xE54C, 0x58B1_58A0_58A3_58AF_58AC_58A5_58A1_58FF_5AFF_5AF4_5AFD_5AF7),
  (0xE558, 0x5AF6_5B03_5AF8_5B02_5AF9_5B01_5B07_5B05_5B0F_5C67_5D99_5D97),
  (0xE564, 0x5D9F_5D92_5DA2_5D93_5D95_5DA0_5D9C_5DA1_5D9A_5D9E_5E69_5E5D),
  (0xE570, 0x5E60_5E5C_7DF3_5EDB_5EDE_5EE1_5F49_5FB2_618B_6183_6179_61B1),
  (0xE57C, 0x61B0_61A2_6189),
  (0xE5A1, 0x619B_6193_61AF_61AD_619F_6192_61AA_61A1_618D_6166_61B3_622D),
  (0xE5AD, 0x646E_6470_6496_64A0_6485_6497_649C_648F_648B_648A_648C_64A3),
  (0xE5B9, 0x649F_6468_64B1_6498_6576_657A_6579_657B_65B2_65B3_66B5_66B0),
  (0xE5C5, 0x66A9_66B2_66B7_66AA_66AF_6A00_6A06_6A17_69E5_69F8_6A15_69F1),
  (0xE5D1, 0x69E4_6A20_69FF_69EC_69E2_6A1B_6A1D_69FE_6A27_69F2_69EE_6A14),
  (0xE5DD, 0x69F7_69E7_6A40_6A08_69E6_69FB_6A0D_69FC_69EB_6A09_6A04_6A18),
  (0xE5E9, 0x6A25_6A0F_69F6_6A26_6A07_69F4_6A16_6B51_6BA5_6BA3_6BA2_6BA6),
  (0xE5F5, 0x6C01_6C00_6BFF_6C02_6F41_6F26_6F7E_6F87_6FC6_6F92),
  (0xE640, 0x6F8D_6F89_6F8C_6F62_6F4F_6F85_6F5A_6F96_6F76_6F6C_6F82_6F55),
  (0xE64C, 0x6F72_6F52_6F50_6F57_6F94_6F93_6F5D_6F00_6F61_6F6B_6F7D_6F67),
  (0xE658, 0x6F90_6F53_6F8B_6F69_6F7F_6F95_6F63_6F77_6F6A_6F7B_71B2_71AF),
  (0xE664, 0x719B_71B0_71A0_719A_71A9_71B5_719D_71A5_719E_71A4_71A1_71AA),
  (0xE670, 0x719C_71A7_71B3_7298_729A_7358_7352_735E_735F_7360_735D_735B),
  (0xE67C, 0x7361_735A_7359),
  (0xE6A1, 0x7362_7487_7489_748A_7486_7481_747D_7485_7488_747C_7479_7508),
  (0xE6AD, 0x7507_757E_7625_761E_7619_761D_761C_7623_761A_7628_761B_769C),
  (0xE6B9, 0x769D_769E_769B_778D_778F_7789_7788_78CD_78BB_78CF_78CC_78D1),
  (0xE6C5, 0x78CE_78D4_78C8_78C3_78C4_78C9_799A_79A1_79A0_799C_79A2_799B),
  (0xE6D1, 0x6B76_7A39_7AB2_7AB4_7AB3_7BB7_7BCB_7BBE_7BAC_7BCE_7BAF_7BB9),
  (0xE6DD, 0x7BCA_7BB5_7CC5_7CC8_7CCC_7CCB_7DF7_7DDB_7DEA_7DE7_7DD7_7DE1),
  (0xE6E9, 0x7E03_7DFA_7DE6_7DF6_7DF1_7DF0_7DEE_7DDF_7F76_7FAC_7FB0_7FAD),
  (0xE6F5, 0x7FED_7FEB_7FEA_7FEC_7FE6_7FE8_8064_8067_81A3_819F),
  (0xE740, 0x819E_8195_81A2_8199_8197_8216_824F_8253_8252_8250_824E_8251),
  (0xE74C, 0x8524_853B_850F_8500_8529_850E_8509_850D_851F_850A_8527_851C),
  (0xE758, 0x84FB_852B_84FA_8508_850C_84F4_852A_84F2_8515_84F7_84EB_84F3),
  (0xE764, 0x84FC_8512_84EA_84E9_8516_84FE_8528_851D_852E_8502_84FD_851E),
  (0xE770, 0x84F6_8531_8526_84E7_84E8_84F0_84EF_84F9_8518_8520_8530_850B),
  (0xE77C, 0x8519_852F_8662),
  (0xE7A1, 0x8756_8763_8764_8777_87E1_8773_8758_8754_875B_8752_8761_875A),
  (0xE7AD, 0x8751_875E_876D_876A_8750_874E_875F_875D_876F_876C_877A_876E),
  (0xE7B9, 0x875C_8765_874F_877B_8775_8762_8767_8769_885A_8905_890C_8914),
  (0xE7C5, 0x890B_8917_8918_8919_8906_8916_8911_890E_8909_89A2_89A4_89A3),
  (0xE7D1, 0x89ED_89F0_89EC_8ACF_8AC6_8AB8_8AD3_8AD1_8AD4_8AD5_8ABB_8AD7),
  (0xE7DD, 0x8ABE_8AC0_8AC5_8AD8_8AC3_8ABA_8ABD_8AD9_8C3E_8C4D_8C8F_8CE5),
  (0xE7E9, 0x8CDF_8CD9_8CE8_8CDA_8CDD_8CE7_8DA0_8D9C_8DA1_8D9B_8E20_8E23),
  (0xE7F5, 0x8E25_8E24_8E2E_8E15_8E1B_8E16_8E11_8E19_8E26_8E27),
  (0xE840, 0x8E14_8E12_8E18_8E13_8E1C_8E17_8E1A_8F2C_8F24_8F18_8F1A_8F20),
  (0xE84C, 0x8F23_8F16_8F17_9073_9070_906F_9067_906B_912F_912B_9129_912A),
  (0xE858, 0x9132_9126_912E_9185_9186_918A_9181_9182_9184_9180_92D0_92C3),
  (0xE864, 0x92C4_92C0_92D9_92B6_92CF_92F1_92DF_92D8_92E9_92D7_92DD_92CC),
  (0xE870, 0x92EF_92C2_92E8_92CA_92C8_92CE_92E6_92CD_92D5_92C9_92E0_92DE),
  (0xE87C, 0x92E7_92D1_92D3),
  (0xE8A1, 0x92B5_92E1_92C6_92B4_957C_95AC_95AB_95AE_95B0_96A4_96A2_96D3),
  (0xE8AD, 0x9705_9708_9702_975A_978A_978E_9788_97D0_97CF_981E_981D_9826),
  (0xE8B9, 0x9829_9828_9820_981B_9827_98B2_9908_98FA_9911_9914_9916_9917),
  (0xE8C5, 0x9915_99DC_99CD_99CF_99D3_99D4_99CE_99C9_99D6_99D8_99CB_99D7),
  (0xE8D1, 0x99CC_9AB3_9AEC_9AEB_9AF3_9AF2_9AF1_9B46_9B43_9B67_9B74_9B71),
  (0xE8DD, 0x9B66_9B76_9B75_9B70_9B68_9B64_9B6C_9CFC_9CFA_9CFD_9CFF_9CF7),
  (0xE8E9, 0x9D07_9D00_9CF9_9CFB_9D08_9D05_9D04_9E83_9ED3_9F0F_9F10_511C),
  (0xE8F5, 0x5113_5117_511A_5111_51DE_5334_53E1_5670_5660_566E),
  (0xE940, 0x5673_5666_5663_566D_5672_565E_5677_571C_571B_58C8_58BD_58C9),
  (0xE94C, 0x58BF_58BA_58C2_58BC_58C6_5B17_5B19_5B1B_5B21_5B14_5B13_5B10),
  (0xE958, 0x5B16_5B28_5B1A_5B20_5B1E_5BEF_5DAC_5DB1_5DA9_5DA7_5DB5_5DB0),
  (0xE964, 0x5DAE_5DAA_5DA8_5DB2_5DAD_5DAF_5DB4_5E67_5E68_5E66_5E6F_5EE9),
  (0xE970, 0x5EE7_5EE6_5EE8_5EE5_5F4B_5FBC_619D_61A8_6196_61C5_61B4_61C6),
  (0xE97C, 0x61C1_61CC_61BA),
  (0xE9A1, 0x61BF_61B8_618C_64D7_64D6_64D0_64CF_64C9_64BD_6489_64C3_64DB),
  (0xE9AD, 0x64F3_64D9_6533_657F_657C_65A2_66C8_66BE_66C0_66CA_66CB_66CF),
  (0xE9B9, 0x66BD_66BB_66BA_66CC_6723_6A34_6A66_6A49_6A67_6A32_6A68_6A3E),
  (0xE9C5, 0x6A5D_6A6D_6A76_6A5B_6A51_6A28_6A5A_6A3B_6A3F_6A41_6A6A_6A64),
  (0xE9D1, 0x6A50_6A4F_6A54_6A6F_6A69_6A60_6A3C_6A5E_6A56_6A55_6A4D_6A4E),
  (0xE9DD, 0x6A46_6B55_6B54_6B56_6BA7_6BAA_6BAB_6BC8_6BC7_6C04_6C03_6C06),
  (0xE9E9, 0x6FAD_6FCB_6FA3_6FC7_6FBC_6FCE_6FC8_6F5E_6FC4_6FBD_6F9E_6FCA),
  (0xE9F5, 0x6FA8_7004_6FA5_6FAE_6FBA_6FAC_6FAA_6FCF_6FBF_6FB8),
  (0xEA40, 0x6FA2_6FC9_6FAB_6FCD_6FAF_6FB2_6FB0_71C5_71C2_71BF_71B8_71D6),
  (0xEA4C, 0x71C0_71C1_71CB_71D4_71CA_71C7_71CF_71BD_71D8_71BC_71C6_71DA),
  (0xEA58, 0x71DB_729D_729E_7369_7366_7367_736C_7365_736B_736A_747F_749A),
  (0xEA64, 0x74A0_7494_7492_7495_74A1_750B_7580_762F_762D_7631_763D_7633),
  (0xEA70, 0x763C_7635_7632_7630_76BB_76E6_779A_779D_77A1_779C_779B_77A2),
  (0xEA7C, 0x77A3_7795_7799),
  (0xEAA1, 0x7797_78DD_78E9_78E5_78EA_78DE_78E3_78DB_78E1_78E2_78ED_78DF),
  (0xEAAD, 0x78E0_79A4_7A44_7A48_7A47_7AB6_7AB8_7AB5_7AB1_7AB7_7BDE_7BE3),
  (0xEAB9, 0x7BE7_7BDD_7BD5_7BE5_7BDA_7BE8_7BF9_7BD4_7BEA_7BE2_7BDC_7BEB),
  (0xEAC5, 0x7BD8_7BDF_7CD2_7CD4_7CD7_7CD0_7CD1_7E12_7E21_7E17_7E0C_7E1F),
  (0xEAD1, 0x7E20_7E13_7E0E_7E1C_7E15_7E1A_7E22_7E0B_7E0F_7E16_7E0D_7E14),
  (0xEADD, 0x7E25_7E24_7F43_7F7B_7F7C_7F7A_7FB1_7FEF_802A_8029_806C_81B1),
  (0xEAE9, 0x81A6_81AE_81B9_81B5_81AB_81B0_81AC_81B4_81B2_81B7_81A7_81F2),
  (0xEAF5, 0x8255_8256_8257_8556_8545_856B_854D_8553_8561_8558),
  (0xEB40, 0x8540_8546_8564_8541_8562_8544_8551_8547_8563_853E_855B_8571),
  (0xEB4C, 0x854E_856E_8575_8555_8567_8560_858C_8566_855D_8554_8565_856C),
  (0xEB58, 0x8663_8665_8664_879B_878F_8797_8793_8792_8788_8781_8796_8798),
  (0xEB64, 0x8779_8787_87A3_8785_8790_8791_879D_8784_8794_879C_879A_8789),
  (0xEB70, 0x891E_8926_8930_892D_892E_8927_8931_8922_8929_8923_892F_892C),
  (0xEB7C, 0x891F_89F1_8AE0),
  (0xEBA1, 0x8AE2_8AF2_8AF4_8AF5_8ADD_8B14_8AE4_8ADF_8AF0_8AC8_8ADE_8AE1),
  (0xEBAD, 0x8AE8_8AFF_8AEF_8AFB_8C91_8C92_8C90_8CF5_8CEE_8CF1_8CF0_8CF3),
  (0xEBB9, 0x8D6C_8D6E_8DA5_8DA7_8E33_8E3E_8E38_8E40_8E45_8E36_8E3C_8E3D),
  (0xEBC5, 0x8E41_8E30_8E3F_8EBD_8F36_8F2E_8F35_8F32_8F39_8F37_8F34_9076),
  (0xEBD1, 0x9079_907B_9086_90FA_9133_9135_9136_9193_9190_9191_918D_918F),
  (0xEBDD, 0x9327_931E_9308_931F_9306_930F_937A_9338_933C_931B_9323_9312),
  (0xEBE9, 0x9301_9346_932D_930E_930D_92CB_931D_92FA_9325_9313_92F9_92F7),
  (0xEBF5, 0x9334_9302_9324_92FF_9329_9339_9335_932A_9314_930C),
  (0xEC40, 0x930B_92FE_9309_9300_92FB_9316_95BC_95CD_95BE_95B9_95BA_95B6),
  (0xEC4C, 0x95BF_95B5_95BD_96A9_96D4_970B_9712_9710_9799_9797_9794_97F0),
  (0xEC58, 0x97F8_9835_982F_9832_9924_991F_9927_9929_999E_99EE_99EC_99E5),
  (0xEC64, 0x99E4_99F0_99E3_99EA_99E9_99E7_9AB9_9ABF_9AB4_9ABB_9AF6_9AFA),
  (0xEC70, 0x9AF9_9AF7_9B33_9B80_9B85_9B87_9B7C_9B7E_9B7B_9B82_9B93_9B92),
  (0xEC7C, 0x9B90_9B7A_9B95),
  (0xECA1, 0x9B7D_9B88_9D25_9D17_9D20_9D1E_9D14_9D29_9D1D_9D18_9D22_9D10),
  (0xECAD, 0x9D19_9D1F_9E88_9E86_9E87_9EAE_9EAD_9ED5_9ED6_9EFA_9F12_9F3D),
  (0xECB9, 0x5126_5125_5122_5124_5120_5129_52F4_5693_568C_568D_5686_5684),
  (0xECC5, 0x5683_567E_5682_567F_5681_58D6_58D4_58CF_58D2_5B2D_5B25_5B32),
  (0xECD1, 0x5B23_5B2C_5B27_5B26_5B2F_5B2E_5B7B_5BF1_5BF2_5DB7_5E6C_5E6A),
  (0xECDD, 0x5FBE_5FBB_61C3_61B5_61BC_61E7_61E0_61E5_61E4_61E8_61DE_64EF),
  (0xECE9, 0x64E9_64E3_64EB_64E4_64E8_6581_6580_65B6_65DA_66D2_6A8D_6A96),
  (0xECF5, 0x6A81_6AA5_6A89_6A9F_6A9B_6AA1_6A9E_6A87_6A93_6A8E),
  (0xED40, 0x6A95_6A83_6AA8_6AA4_6A91_6A7F_6AA6_6A9A_6A85_6A8C_6A92_6B5B),
  (0xED4C, 0x6BAD_6C09_6FCC_6FA9_6FF4_6FD4_6FE3_6FDC_6FED_6FE7_6FE6_6FDE),
  (0xED58, 0x6FF2_6FDD_6FE2_6FE8_71E1_71F1_71E8_71F2_71E4_71F0_71E2_7373),
  (0xED64, 0x736E_736F_7497_74B2_74AB_7490_74AA_74AD_74B1_74A5_74AF_7510),
  (0xED70, 0x7511_7512_750F_7584_7643_7648_7649_7647_76A4_76E9_77B5_77AB),
  (0xED7C, 0x77B2_77B7_77B6),
  (0xEDA1, 0x77B4_77B1_77A8_77F0_78F3_78FD_7902_78FB_78FC_78F2_7905_78F9),
  (0xEDAD, 0x78FE_7904_79AB_79A8_7A5C_7A5B_7A56_7A58_7A54_7A5A_7ABE_7AC0),
  (0xEDB9, 0x7AC1_7C05_7C0F_7BF2_7C00_7BFF_7BFB_7C0E_7BF4_7C0B_7BF3_7C02),
  (0xEDC5, 0x7C09_7C03_7C01_7BF8_7BFD_7C06_7BF0_7BF1_7C10_7C0A_7CE8_7E2D),
  (0xEDD1, 0x7E3C_7E42_7E33_9848_7E38_7E2A_7E49_7E40_7E47_7E29_7E4C_7E30),
  (0xEDDD, 0x7E3B_7E36_7E44_7E3A_7F45_7F7F_7F7E_7F7D_7FF4_7FF2_802C_81BB),
  (0xEDE9, 0x81C4_81CC_81CA_81C5_81C7_81BC_81E9_825B_825A_825C_8583_8580),
  (0xEDF5, 0x858F_85A7_8595_85A0_858B_85A3_857B_85A4_859A_859E),
  (0xEE40, 0x8577_857C_8589_85A1_857A_8578_8557_858E_8596_8586_858D_8599),
  (0xEE4C, 0x859D_8581_85A2_8582_8588_8585_8579_8576_8598_8590_859F_8668),
  (0xEE58, 0x87BE_87AA_87AD_87C5_87B0_87AC_87B9_87B5_87BC_87AE_87C9_87C3),
  (0xEE64, 0x87C2_87CC_87B7_87AF_87C4_87CA_87B4_87B6_87BF_87B8_87BD_87DE),
  (0xEE70, 0x87B2_8935_8933_893C_893E_8941_8952_8937_8942_89AD_89AF_89AE),
  (0xEE7C, 0x89F2_89F3_8B1E),
  (0xEEA1, 0x8B18_8B16_8B11_8B05_8B0B_8B22_8B0F_8B12_8B15_8B07_8B0D_8B08),
  (0xEEAD, 0x8B06_8B1C_8B13_8B1A_8C4F_8C70_8C72_8C71_8C6F_8C95_8C94_8CF9),
  (0xEEB9, 0x8D6F_8E4E_8E4D_8E53_8E50_8E4C_8E47_8F43_8F40_9085_907E_9138),
  (0xEEC5, 0x919A_91A2_919B_9199_919F_91A1_919D_91A0_93A1_9383_93AF_9364),
  (0xEED1, 0x9356_9347_937C_9358_935C_9376_9349_9350_9351_9360_936D_938F),
  (0xEEDD, 0x934C_936A_9379_9357_9355_9352_934F_9371_9377_937B_9361_935E),
  (0xEEE9, 0x9363_9367_9380_934E_9359_95C7_95C0_95C9_95C3_95C5_95B7_96AE),
  (0xEEF5, 0x96B0_96AC_9720_971F_9718_971D_9719_979A_97A1_979C),
  (0xEF40, 0x979E_979D_97D5_97D4_97F1_9841_9844_984A_9849_9845_9843_9925),
  (0xEF4C, 0x992B_992C_992A_9933_9932_992F_992D_9931_9930_9998_99A3_99A1),
  (0xEF58, 0x9A02_99FA_99F4_99F7_99F9_99F8_99F6_99FB_99FD_99FE_99FC_9A03),
  (0xEF64, 0x9ABE_9AFE_9AFD_9B01_9AFC_9B48_9B9A_9BA8_9B9E_9B9B_9BA6_9BA1),
  (0xEF70, 0x9BA5_9BA4_9B86_9BA2_9BA0_9BAF_9D33_9D41_9D67_9D36_9D2E_9D2F),
  (0xEF7C, 0x9D31_9D38_9D30),
  (0xEFA1, 0x9D45_9D42_9D43_9D3E_9D37_9D40_9D3D_7FF5_9D2D_9E8A_9E89_9E8D),
  (0xEFAD, 0x9EB0_9EC8_9EDA_9EFB_9EFF_9F24_9F23_9F22_9F54_9FA0_5131_512D),
  (0xEFB9, 0x512E_5698_569C_5697_569A_569D_5699_5970_5B3C_5C69_5C6A_5DC0),
  (0xEFC5, 0x5E6D_5E6E_61D8_61DF_61ED_61EE_61F1_61EA_61F0_61EB_61D6_61E9),
  (0xEFD1, 0x64FF_6504_64FD_64F8_6501_6503_64FC_6594_65DB_66DA_66DB_66D8),
  (0xEFDD, 0x6AC5_6AB9_6ABD_6AE1_6AC6_6ABA_6AB6_6AB7_6AC7_6AB4_6AAD_6B5E),
  (0xEFE9, 0x6BC9_6C0B_7007_700C_700D_7001_7005_7014_700E_6FFF_7000_6FFB),
  (0xEFF5, 0x7026_6FFC_6FF7_700A_7201_71FF_71F9_7203_71FD_7376),
  (0xF040, 0x74B8_74C0_74B5_74C1_74BE_74B6_74BB_74C2_7514_7513_765C_7664),
  (0xF04C, 0x7659_7650_7653_7657_765A_76A6_76BD_76EC_77C2_77BA_78FF_790C),
  (0xF058, 0x7913_7914_7909_7910_7912_7911_79AD_79AC_7A5F_7C1C_7C29_7C19),
  (0xF064, 0x7C20_7C1F_7C2D_7C1D_7C26_7C28_7C22_7C25_7C30_7E5C_7E50_7E56),
  (0xF070, 0x7E63_7E58_7E62_7E5F_7E51_7E60_7E57_7E53_7FB5_7FB3_7FF7_7FF8),
  (0xF07C, 0x8075_81D1_81D2),
  (0xF0A1, 0x81D0_825F_825E_85B4_85C6_85C0_85C3_85C2_85B3_85B5_85BD_85C7),
  (0xF0AD, 0x85C4_85BF_85CB_85CE_85C8_85C5_85B1_85B6_85D2_8624_85B8_85B7),
  (0xF0B9, 0x85BE_8669_87E7_87E6_87E2_87DB_87EB_87EA_87E5_87DF_87F3_87E4),
  (0xF0C5, 0x87D4_87DC_87D3_87ED_87D8_87E3_87A4_87D7_87D9_8801_87F4_87E8),
  (0xF0D1, 0x87DD_8953_894B_894F_894C_8946_8950_8951_8949_8B2A_8B27_8B23),
  (0xF0DD, 0x8B33_8B30_8B35_8B47_8B2F_8B3C_8B3E_8B31_8B25_8B37_8B26_8B36),
  (0xF0E9, 0x8B2E_8B24_8B3B_8B3D_8B3A_8C42_8C75_8C99_8C98_8C97_8CFE_8D04),
  (0xF0F5, 0x8D02_8D00_8E5C_8E62_8E60_8E57_8E56_8E5E_8E65_8E67),
  (0xF140, 0x8E5B_8E5A_8E61_8E5D_8E69_8E54_8F46_8F47_8F48_8F4B_9128_913A),
  (0xF14C, 0x913B_913E_91A8_91A5_91A7_91AF_91AA_93B5_938C_9392_93B7_939B),
  (0xF158, 0x939D_9389_93A7_938E_93AA_939E_93A6_9395_9388_9399_939F_938D),
  (0xF164, 0x93B1_9391_93B2_93A4_93A8_93B4_93A3_93A5_95D2_95D3_95D1_96B3),
  (0xF170, 0x96D7_96DA_5DC2_96DF_96D8_96DD_9723_9722_9725_97AC_97AE_97A8),
  (0xF17C, 0x97AB_97A4_97AA),
  (0xF1A1, 0x97A2_97A5_97D7_97D9_97D6_97D8_97FA_9850_9851_9852_98B8_9941),
  (0xF1AD, 0x993C_993A_9A0F_9A0B_9A09_9A0D_9A04_9A11_9A0A_9A05_9A07_9A06),
  (0xF1B9, 0x9AC0_9ADC_9B08_9B04_9B05_9B29_9B35_9B4A_9B4C_9B4B_9BC7_9BC6),
  (0xF1C5, 0x9BC3_9BBF_9BC1_9BB5_9BB8_9BD3_9BB6_9BC4_9BB9_9BBD_9D5C_9D53),
  (0xF1D1, 0x9D4F_9D4A_9D5B_9D4B_9D59_9D56_9D4C_9D57_9D52_9D54_9D5F_9D58),
  (0xF1DD, 0x9D5A_9E8E_9E8C_9EDF_9F01_9F00_9F16_9F25_9F2B_9F2A_9F29_9F28),
  (0xF1E9, 0x9F4C_9F55_5134_5135_5296_52F7_53B4_56AB_56AD_56A6_56A7_56AA),
  (0xF1F5, 0x56AC_58DA_58DD_58DB_5912_5B3D_5B3E_5B3F_5DC3_5E70),
  (0xF240, 0x5FBF_61FB_6507_6510_650D_6509_650C_650E_6584_65DE_65DD_66DE),
  (0xF24C, 0x6AE7_6AE0_6ACC_6AD1_6AD9_6ACB_6ADF_6ADC_6AD0_6AEB_6ACF_6ACD),
  (0xF258, 0x6ADE_6B60_6BB0_6C0C_7019_7027_7020_7016_702B_7021_7022_7023),
  (0xF264, 0x7029_7017_7024_701C_702A_720C_720A_7207_7202_7205_72A5_72A6),
  (0xF270, 0x72A4_72A3_72A1_74CB_74C5_74B7_74C3_7516_7660_77C9_77CA_77C4),
  (0xF27C, 0x77F1_791D_791B),
  (0xF2A1, 0x7921_791C_7917_791E_79B0_7A67_7A68_7C33_7C3C_7C39_7C2C_7C3B),
  (0xF2AD, 0x7CEC_7CEA_7E76_7E75_7E78_7E70_7E77_7E6F_7E7A_7E72_7E74_7E68),
  (0xF2B9, 0x7F4B_7F4A_7F83_7F86_7FB7_7FFD_7FFE_8078_81D7_81D5_8264_8261),
  (0xF2C5, 0x8263_85EB_85F1_85ED_85D9_85E1_85E8_85DA_85D7_85EC_85F2_85F8),
  (0xF2D1, 0x85D8_85DF_85E3_85DC_85D1_85F0_85E6_85EF_85DE_85E2_8800_87FA),
  (0xF2DD, 0x8803_87F6_87F7_8809_880C_880B_8806_87FC_8808_87FF_880A_8802),
  (0xF2E9, 0x8962_895A_895B_8957_8961_895C_8958_895D_8959_8988_89B7_89B6),
  (0xF2F5, 0x89F6_8B50_8B48_8B4A_8B40_8B53_8B56_8B54_8B4B_8B55),
  (0xF340, 0x8B51_8B42_8B52_8B57_8C43_8C77_8C76_8C9A_8D06_8D07_8D09_8DAC),
  (0xF34C, 0x8DAA_8DAD_8DAB_8E6D_8E78_8E73_8E6A_8E6F_8E7B_8EC2_8F52_8F51),
  (0xF358, 0x8F4F_8F50_8F53_8FB4_9140_913F_91B0_91AD_93DE_93C7_93CF_93C2),
  (0xF364, 0x93DA_93D0_93F9_93EC_93CC_93D9_93A9_93E6_93CA_93D4_93EE_93E3),
  (0xF370, 0x93D5_93C4_93CE_93C0_93D2_93E7_957D_95DA_95DB_96E1_9729_972B),
  (0xF37C, 0x972C_9728_9726),
  (0xF3A1, 0x97B3_97B7_97B6_97DD_97DE_97DF_985C_9859_985D_9857_98BF_98BD),
  (0xF3AD, 0x98BB_98BE_9948_9947_9943_99A6_99A7_9A1A_9A15_9A25_9A1D_9A24),
  (0xF3B9, 0x9A1B_9A22_9A20_9A27_9A23_9A1E_9A1C_9A14_9AC2_9B0B_9B0A_9B0E),
  (0xF3C5, 0x9B0C_9B37_9BEA_9BEB_9BE0_9BDE_9BE4_9BE6_9BE2_9BF0_9BD4_9BD7),
  (0xF3D1, 0x9BEC_9BDC_9BD9_9BE5_9BD5_9BE1_9BDA_9D77_9D81_9D8A_9D84_9D88),
  (0xF3DD, 0x9D71_9D80_9D78_9D86_9D8B_9D8C_9D7D_9D6B_9D74_9D75_9D70_9D69),
  (0xF3E9, 0x9D85_9D73_9D7B_9D82_9D6F_9D79_9D7F_9D87_9D68_9E94_9E91_9EC0),
  (0xF3F5, 0x9EFC_9F2D_9F40_9F41_9F4D_9F56_9F57_9F58_5337_56B2),
  (0xF440, 0x56B5_56B3_58E3_5B45_5DC6_5DC7_5EEE_5EEF_5FC0_5FC1_61F9_6517),
  (0xF44C, 0x6516_6515_6513_65DF_66E8_66E3_66E4_6AF3_6AF0_6AEA_6AE8_6AF9),
  (0xF458, 0x6AF1_6AEE_6AEF_703C_7035_702F_7037_7034_7031_7042_7038_703F),
  (0xF464, 0x703A_7039_7040_703B_7033_7041_7213_7214_72A8_737D_737C_74BA),
  (0xF470, 0x76AB_76AA_76BE_76ED_77CC_77CE_77CF_77CD_77F2_7925_7923_7927),
  (0xF47C, 0x7928_7924_7929),
  (0xF4A1, 0x79B2_7A6E_7A6C_7A6D_7AF7_7C49_7C48_7C4A_7C47_7C45_7CEE_7E7B),
  (0xF4AD, 0x7E7E_7E81_7E80_7FBA_7FFF_8079_81DB_81D9_820B_8268_8269_8622),
  (0xF4B9, 0x85FF_8601_85FE_861B_8600_85F6_8604_8609_8605_860C_85FD_8819),
  (0xF4C5, 0x8810_8811_8817_8813_8816_8963_8966_89B9_89F7_8B60_8B6A_8B5D),
  (0xF4D1, 0x8B68_8B63_8B65_8B67_8B6D_8DAE_8E86_8E88_8E84_8F59_8F56_8F57),
  (0xF4DD, 0x8F55_8F58_8F5A_908D_9143_9141_91B7_91B5_91B2_91B3_940B_9413),
  (0xF4E9, 0x93FB_9420_940F_9414_93FE_9415_9410_9428_9419_940D_93F5_9400),
  (0xF4F5, 0x93F7_9407_940E_9416_9412_93FA_9409_93F8_940A_93FF),
  (0xF540, 0x93FC_940C_93F6_9411_9406_95DE_95E0_95DF_972E_972F_97B9_97BB),
  (0xF54C, 0x97FD_97FE_9860_9862_9863_985F_98C1_98C2_9950_994E_9959_994C),
  (0xF558, 0x994B_9953_9A32_9A34_9A31_9A2C_9A2A_9A36_9A29_9A2E_9A38_9A2D),
  (0xF564, 0x9AC7_9ACA_9AC6_9B10_9B12_9B11_9C0B_9C08_9BF7_9C05_9C12_9BF8),
  (0xF570, 0x9C40_9C07_9C0E_9C06_9C17_9C14_9C09_9D9F_9D99_9DA4_9D9D_9D92),
  (0xF57C, 0x9D98_9D90_9D9B),
  (0xF5A1, 0x9DA0_9D94_9D9C_9DAA_9D97_9DA1_9D9A_9DA2_9DA8_9D9E_9DA3_9DBF),
  (0xF5AD, 0x9DA9_9D96_9DA6_9DA7_9E99_9E9B_9E9A_9EE5_9EE4_9EE7_9EE6_9F30),
  (0xF5B9, 0x9F2E_9F5B_9F60_9F5E_9F5D_9F59_9F91_513A_5139_5298_5297_56C3),
  (0xF5C5, 0x56BD_56BE_5B48_5B47_5DCB_5DCF_5EF1_61FD_651B_6B02_6AFC_6B03),
  (0xF5D1, 0x6AF8_6B00_7043_7044_704A_7048_7049_7045_7046_721D_721A_7219),
  (0xF5DD, 0x737E_7517_766A_77D0_792D_7931_792F_7C54_7C53_7CF2_7E8A_7E87),
  (0xF5E9, 0x7E88_7E8B_7E86_7E8D_7F4D_7FBB_8030_81DD_8618_862A_8626_861F),
  (0xF5F5, 0x8623_861C_8619_8627_862E_8621_8620_8629_861E_8625),
  (0xF640, 0x8829_881D_881B_8820_8824_881C_882B_884A_896D_8969_896E_896B),
  (0xF64C, 0x89FA_8B79_8B78_8B45_8B7A_8B7B_8D10_8D14_8DAF_8E8E_8E8C_8F5E),
  (0xF658, 0x8F5B_8F5D_9146_9144_9145_91B9_943F_943B_9436_9429_943D_943C),
  (0xF664, 0x9430_9439_942A_9437_942C_9440_9431_95E5_95E4_95E3_9735_973A),
  (0xF670, 0x97BF_97E1_9864_98C9_98C6_98C0_9958_9956_9A39_9A3D_9A46_9A44),
  (0xF67C, 0x9A42_9A41_9A3A),
  (0xF6A1, 0x9A3F_9ACD_9B15_9B17_9B18_9B16_9B3A_9B52_9C2B_9C1D_9C1C_9C2C),
  (0xF6AD, 0x9C23_9C28_9C29_9C24_9C21_9DB7_9DB6_9DBC_9DC1_9DC7_9DCA_9DCF),
  (0xF6B9, 0x9DBE_9DC5_9DC3_9DBB_9DB5_9DCE_9DB9_9DBA_9DAC_9DC8_9DB1_9DAD),
  (0xF6C5, 0x9DCC_9DB3_9DCD_9DB2_9E7A_9E9C_9EEB_9EEE_9EED_9F1B_9F18_9F1A),
  (0xF6D1, 0x9F31_9F4E_9F65_9F64_9F92_4EB9_56C6_56C5_56CB_5971_5B4B_5B4C),
  (0xF6DD, 0x5DD5_5DD1_5EF2_6521_6520_6526_6522_6B0B_6B08_6B09_6C0D_7055),
  (0xF6E9, 0x7056_7057_7052_721E_721F_72A9_737F_74D8_74D5_74D9_74D7_766D),
  (0xF6F5, 0x76AD_7935_79B4_7A70_7A71_7C57_7C5C_7C59_7C5B_7C5A),
  (0xF740, 0x7CF4_7CF1_7E91_7F4F_7F87_81DE_826B_8634_8635_8633_862C_8632),
  (0xF74C, 0x8636_882C_8828_8826_882A_8825_8971_89BF_89BE_89FB_8B7E_8B84),
  (0xF758, 0x8B82_8B86_8B85_8B7F_8D15_8E95_8E94_8E9A_8E92_8E90_8E96_8E97),
  (0xF764, 0x8F60_8F62_9147_944C_9450_944A_944B_944F_9447_9445_9448_9449),
  (0xF770, 0x9446_973F_97E3_986A_9869_98CB_9954_995B_9A4E_9A53_9A54_9A4C),
  (0xF77C, 0x9A4F_9A48_9A4A),
  (0xF7A1, 0x9A49_9A52_9A50_9AD0_9B19_9B2B_9B3B_9B56_9B55_9C46_9C48_9C3F),
  (0xF7AD, 0x9C44_9C39_9C33_9C41_9C3C_9C37_9C34_9C32_9C3D_9C36_9DDB_9DD2),
  (0xF7B9, 0x9DDE_9DDA_9DCB_9DD0_9DDC_9DD1_9DDF_9DE9_9DD9_9DD8_9DD6_9DF5),
  (0xF7C5, 0x9DD5_9DDD_9EB6_9EF0_9F35_9F33_9F32_9F42_9F6B_9F95_9FA2_513D),
  (0xF7D1, 0x5299_58E8_58E7_5972_5B4D_5DD8_882F_5F4F_6201_6203_6204_6529),
  (0xF7DD, 0x6525_6596_66EB_6B11_6B12_6B0F_6BCA_705B_705A_7222_7382_7381),
  (0xF7E9, 0x7383_7670_77D4_7C67_7C66_7E95_826C_863A_8640_8639_863C_8631),
  (0xF7F5, 0x863B_863E_8830_8832_882E_8833_8976_8974_8973_89FE),
  (0xF840, 0x8B8C_8B8E_8B8B_8B88_8C45_8D19_8E98_8F64_8F63_91BC_9462_9455),
  (0xF84C, 0x945D_9457_945E_97C4_97C5_9800_9A56_9A59_9B1E_9B1F_9B20_9C52),
  (0xF858, 0x9C58_9C50_9C4A_9C4D_9C4B_9C55_9C59_9C4C_9C4E_9DFB_9DF7_9DEF),
  (0xF864, 0x9DE3_9DEB_9DF8_9DE4_9DF6_9DE1_9DEE_9DE6_9DF2_9DF0_9DE2_9DEC),
  (0xF870, 0x9DF4_9DF3_9DE8_9DED_9EC2_9ED0_9EF2_9EF3_9F06_9F1C_9F38_9F37),
  (0xF87C, 0x9F36_9F43_9F4F),
  (0xF8A1, 0x9F71_9F70_9F6E_9F6F_56D3_56CD_5B4E_5C6D_652D_66ED_66EE_6B13),
  (0xF8AD, 0x705F_7061_705D_7060_7223_74DB_74E5_77D5_7938_79B7_79B6_7C6A),
  (0xF8B9, 0x7E97_7F89_826D_8643_8838_8837_8835_884B_8B94_8B95_8E9E_8E9F),
  (0xF8C5, 0x8EA0_8E9D_91BE_91BD_91C2_946B_9468_9469_96E5_9746_9743_9747),
  (0xF8D1, 0x97C7_97E5_9A5E_9AD5_9B59_9C63_9C67_9C66_9C62_9C5E_9C60_9E02),
  (0xF8DD, 0x9DFE_9E07_9E03_9E06_9E05_9E00_9E01_9E09_9DFF_9DFD_9E04_9EA0),
  (0xF8E9, 0x9F1E_9F46_9F74_9F75_9F76_56D4_652E_65B8_6B18_6B19_6B17_6B1A),
  (0xF8F5, 0x7062_7226_72AA_77D8_77D9_7939_7C69_7C6B_7CF6_7E9A),
  (0xF940, 0x7E98_7E9B_7E99_81E0_81E1_8646_8647_8648_8979_897A_897C_897B),
  (0xF94C, 0x89FF_8B98_8B99_8EA5_8EA4_8EA3_946E_946D_946F_9471_9473_9749),
  (0xF958, 0x9872_995F_9C68_9C6E_9C6D_9E0B_9E0D_9E10_9E0F_9E12_9E11_9EA1),
  (0xF964, 0x9EF5_9F09_9F47_9F78_9F7B_9F7A_9F79_571E_7066_7C6F_883C_8DB2),
  (0xF970, 0x8EA6_91C3_9474_9478_9476_9475_9A60_9C74_9C73_9C71_9C75_9E14),
  (0xF97C, 0x9E13_9EF6_9F0A),
  (0xF9A1, 0x9FA4_7068_7065_7CF7_866A_883E_883D_883F_8B9E_8C9C_8EA9_8EC9),
  (0xF9AD, 0x974B_9873_9874_98CC_9961_99AB_9A64_9A66_9A67_9B24_9E15_9E17),
  (0xF9B9, 0x9F48_6207_6B1E_7227_864C_8EA8_9482_9480_9481_9A69_9A68_9B2E),
  (0xF9C5, 0x9E19_7229_864B_8B9F_9483_9C79_9EB7_7675_9A6B_9C7A_9E1D_7069),
  (0xF9D1, 0x706A_9EA4_9F7E_9F49_9F98_7881_92B9_88CF_58BB_6052_7CA7_5AFA),
  (0xF9DD, 0x2554_2566_2557_2560_256C_2563_255A_2569_255D_2552_2564_2555),
  (0xF9E9, 0x255E_256A_2561_2558_2567_255B_2553_2565_2556_255F_256B_2562),
  (0xF9F5, 0x2559_2568_255C_2551_2550_256D_256E_2570_256F_2593)]

/-- /repo/modules/from/_BIG5E.txt; there is no file for writing. -/
def big5e : Charset where
  reads := big5eReads
  writes := []

/-- The rules of /repo/modules/from/_UAO241.txt: code, character.  No two lines have the same code, so their order does not matter; here they
are sorted. -/
def uao241Reads : Chart := Chart.wide [
  (0x8140, 0x4E17_4E22_4E2C_4E55_4E62_4E8A_4EB0_4EEB_4EED_4EFC_4F1C_4F8A),
  (0x814C, 0x4FFF_5042_5050_5078_50D8_50DE_50F4_5116_514A_5151_5164_516A),
  (0x8158, 0x5185_5190_519D_51A6_51A8_51A9_51C7_51D6_51DB_51EC_51FC_520B),
  (0x8164, 0x5214_5215_5220_522B_5239_524F_5271_5290_5292_5294_529C_52AF),
  (0x8170, 0x52B5_52D0_5300_5307_5324_5346_535F_5393_53B0_53DD_5423_5450),
  (0x817C, 0x5451_548A_549D),
  (0x81A1, 0x54A3_54B4_54D0_5523_553F_554C_5553_555D_556C_559E_55A9_55EC),
  (0x81AD, 0x55F5_5623_5650_567C_568A_5694_56A0_56AF_56D8_5700_5759_5765),
  (0x81B9, 0x577F_5785_5789_57A1_57AC_57B4_57C0_57C8_57D3_57EF_5844_586C),
  (0x81C5, 0x5892_589A_58B2_58B8_58E5_58FB_5902_590B_5910_5918_591B_748C),
  (0x81D1, 0x748D_7499_749B_74A4_74B4_74B9_74C8_74CC_74D0_74D3_7542_7555),
  (0x81DD, 0x756E_758D_759E_75DC_762C_764F_7651_7673_7674_76A5_76D9_770E),
  (0x81E9, 0x770F_7758_7772_7777_7778_777A_777B_7798_77AF_77BE_77C3_77C5),
  (0x81F5, 0x77CB_77DD_77E6_77F4_781E_783D_7842_7844_784B_7851),
  (0x8240, 0x5516_58F7_9834_845B_7114_8276_8956_9D2C_9D0E_8EAF_6062_6666),
  (0x824C, 0x86CE_64B9_938C_565B_6F45_8ACC_7149_5DCC_8749_9A28_7BAA_8D0B),
  (0x8258, 0x9957_5C2D_7E4B_981A_5026_6372_9E78_783F_9EB9_9EBA_8CCE_8B83),
  (0x8264, 0xEF79_848B_91A4_7A63_64B0_5DFD_5E96_8061_6955_7AEA_7026_68BC),
  (0x8270, 0x7977_6D9C_8FE9_7962_56A2_877F_5265_7984_6E8C_9197_7B86_982C),
  (0x827C, 0x685D_4FAD_85AE),
  (0x82A1, 0x7BED_874B_5036_690D_6B96_614E_5177_771F_5024_7F6E_76F4_69D9),
  (0x82AD, 0x60E3_62F6_545F_9784_564C_50C5_5618_865E_5932_595B_595D_5963),
  (0x82B9, 0x596C_599B_59D7_59EB_5A1A_5AAA_5AD0_5AF1_5B36_5BC9_5BF3_5C13),
  (0x82C5, 0x5C1C_5C1E_5C53_5C99_5C9C_5CBA_5CBB_5CC1_5CF5_5CFA_5D15_5D18),
  (0x82D1, 0x5D3E_5D53_5D5C_5D6D_5D73_5D74_5D8C_5D90_5DB9_5DD0_5DD3_5E47),
  (0x82DD, 0x5E64_5ECF_5ED0_5EEA_5EF0_5F09_5F0C_5F11_5F21_5F34_5F41_5F45),
  (0x82E9, 0x5F51_5F5C_5F66_5F83_5FF0_604A_6060_608B_60A6_60DE_6111_6120),
  (0x82F5, 0x6121_613C_613D_6198_61B7_61F4_6213_621D_621E_6237),
  (0x8340, 0x5E7A_6C10_53CE_4F2B_4F4E_5434_56F1_58EE_5939_5986_5C2C_51B3),
  (0x834C, 0x51B2_707E_89C1_89D2_8D1D_8F66_4E9A_6765_4ED1_4E24_534F_5C4A),
  (0x8358, 0x5188_5E95_62B5_4E1C_4E89_72B6_7C7C_7EA0_5367_8F67_90B8_957F),
  (0x8364, 0x95E8_4FA0_4FA3_5156_5219_52B2_5374_5942_5E05_67E2_6C79_4E3A),
  (0x8370, 0x7EA3_7EA2_7EAA_7EAB_7EA5_7EA6_7EA1_80DD_82CE_8BA1_8BA2_8BA3),
  (0x837C, 0x8D1E_8D1F_519B),
  (0x83A1, 0x8F68_95E9_97E6_9875_98CE_98DE_4FE9_4EEC_4F25_4E2A_4F26_4ED3),
  (0x83AD, 0x51BB_521A_5265_5458_5A31_5B59_5CE1_5C9B_5C98_5E08_5E93_5F84),
  (0x83B9, 0x631F_65F6_664B_4E66_6CFE_6D43_4E4C_72ED_72C8_4EA9_7825_79EA),
  (0x83C5, 0x7EBA_7EB1_7EB9_7EAF_7EBD_7EB0_7EA7_7EAD_7EB3_7EB8_7EB7_80C1),
  (0x83D1, 0x8109_520D_8BB0_8BA6_8BA8_8BA7_8BAA_8BAF_8BAD_8BAB_5C82_8D22),
  (0x83DD, 0x8D21_8F69_8F6B_9489_9488_948A_948B_95EA_9635_9655_9649_9965),
  (0x83E9, 0x9A6C_9AA8_4F2A_4F1F_4FA6_4FA7_52A1_52A8_533A_53C2_54D1_95EE),
  (0x83F5, 0x8854_56FD_575A_57A9_6267_591F_5A04_5987_4E13_5C06),
  (0x8440, 0x5C49_5CE5_5C97_5E26_5E10_5F20_5F3A_4ECE_5F95_51C4_6005_626B),
  (0x844C, 0x6302_626A_62A1_6323_8D25_542F_659B_65A9_663C_52D6_5F03_6761),
  (0x8458, 0x67AD_6740_6C22_51C9_6D45_6E0A_6CEA_6CA6_51C0_7275_72F0_73B0),
  (0x8464, 0x4EA7_6BD5_5F02_4F17_7ECA_7EDF_7ECD_7ECB_7ECC_7EC6_7EC5_7EC4),
  (0x8470, 0x7EC8_7EC1_7EC2_94B5_4E60_835A_830E_8392_5E84_82CB_5904_672F),
  (0x847C, 0x886E_89C5_89C4),
  (0x84A1, 0x8BBF_8BB6_8BC0_8BB7_8BB8_8BBE_8BBC_8BB9_8D29_8D23_8D2F_8D27),
  (0x84AD, 0x8D2A_8D2B_8F6D_8F6F_8FD9_8FDE_8FF3_9497_9493_948F_9492_95ED),
  (0x84B9, 0x9648_9646_9634_9876_9877_9C7C_9E1F_5364_9EA6_5907_4F27_4F1E),
  (0x84C5, 0x51EF_5240_521B_52B3_52CB_4E27_5355_54DF_5524_4E54_56F4_5C27),
  (0x84D1, 0x573A_62A5_57DA_58F6_5A32_5BFB_5C9A_5E27_5E0F_5395_53A9_6076),
  (0x84DD, 0x95F7_60EC_607B_607C_62E3_6325_6362_626C_67A3_680B_6808_94A6),
  (0x84E9, 0x6B8B_58F3_6C2F_6C29_6D8C_51D1_6E6E_6DA1_6C64_6D4B_6D51_6DA3),
  (0x84F5, 0x65E0_72B9_82CF_753B_75C9_53D1_76D7_781A_79C6_7A97),
  (0x8540, 0x7B14_7B0B_7EDE_7ED3_7ED2_7EDD_4E1D_7EDC_7ED9_7EDA_7ED6_7EDB),
  (0x854C, 0x8083_80BE_80C0_534E_83B1_82CC_865A_89C6_8BC4_8BCD_8BC1_8BC2),
  (0x8558, 0x8BCF_8BC5_8BC8_8BCB_8BC9_8BCA_8BC3_8D2E_8D34_8D30_8D3B_8D32),
  (0x8564, 0x8D39_8D3A_8D35_4E70_8D2C_8D38_8D37_8F72_8F74_8F76_8FDB_90AE),
  (0x8570, 0x4E61_949E_94AE_9499_94A0_94A7_949D_94A4_94A3_95F5_95F0_5F00),
  (0x857C, 0x95F2_95F4_95F3),
  (0x85A1, 0x961F_9636_9633_97E7_9879_987A_987B_996A_996D_9968_996E_996C),
  (0x85AD, 0x51AF_9A6D_4E71_503A_4F20_4EC5_503E_4F24_506C_94F2_52BF_79EF),
  (0x85B9, 0x6C47_5417_545C_545B_56ED_5706_6D82_5757_575E_57D8_8314_5965),
  (0x85C5, 0x5988_7231_5FFE_6006_607A_635F_62A2_6363_6784_6656_6655_65F8),
  (0x85D1, 0x4F1A_4E1A_6781_6768_6862_67AB_5C81_6C9F_706D_6E7F_6ED1_6CA7),
  (0x85DD, 0x70E6_70BC_7080_7115_7237_72EE_733E_73F2_5F53_76CF_7750_7741),
  (0x85E9, 0x96CE_788C_8282_7B15_7CA4_7ECF_7EE2_7ED1_7EE5_7EE6_4E49_7FA1),
  (0x85F5, 0x5723_80A0_811A_80BF_8111_8364_82C7_53F6_83B4_865E),
  (0x8640, 0x864F_53F7_8708_86AC_8865_88C5_8BE7_8BE5_8BE6_8BD5_8BD7_8BD8),
  (0x864C, 0x8BD9_8BE3_8BDA_8BDD_8BDB_8BE1_8BE2_8BE0_8BDF_8D3C_8D44_8D3E),
  (0x8658, 0x8D3F_8D40_8D41_8D42_8D45_8F83_8F7D_8F7C_8F7E_519C_8FD0_8FBE),
  (0x8664, 0x8FDD_8FC7_90B9_94B4_94B3_94B9_94B8_94BE_94C0_94C5_94A9_94C2),
  (0x8670, 0x94C3_94C9_94CB_949C_94CD_94BF_94C6_95F8_9668_96BD_7535_9884),
  (0x867C, 0x987D_987F_987C),
  (0x86A1, 0x9881_9882_9972_9974_9971_9970_9A70_9A6E_9A6F_9E20_4FA5_4FA8),
  (0x86AD, 0x532E_538C_5C1D_5455_53F9_55BD_5567_54D4_56E2_56FE_5C18_57AB),
  (0x86B9, 0x5811_5BFF_68A6_593A_5941_59AA_5B9E_5BDD_5BF9_5C61_5D2D_5C96),
  (0x86C5, 0x5E01_5E3C_5F7B_6001_60EF_6078_60ED_60E8_6402_63B4_63BA_7545),
  (0x86D1, 0x8363_67AA_6EDA_6E0D_6C49_6EE1_6EDE_6E10_6DA8_6D9F_6CAA_6E14),
  (0x86DD, 0x6E17_6DA4_8367_5C14_8366_72F1_7410_739B_759F_75A1_75AF_75EA),
  (0x86E9, 0x5C3D_76D1_7855_796F_7978_79CD_79F0_6D3C_7A9D_7B3A_7B5D_7EFD),
  (0x86F5, 0x7EFE_7EFC_7EF0_7EEB_7EFF_7D27_7F00_7EB2_7EEE_7EF8),
  (0x8740, 0x7EF5_7EB6_7EF4_7EEA_7F01_7EF6_7F5A_95FB_8385_76D6_836A_82CD),
  (0x874C, 0x8680_8BF5_8BED_8BEC_8BA4_8BEB_8BEF_8BF4_8BF0_8BF2_8BF1_8BF3),
  (0x8758, 0x8BEE_5BBE_8D48_8D4A_8D75_8D76_8F85_8F84_8F7B_8FDC_900A_9012),
  (0x8764, 0x94F0_94F6_94DC_94ED_94E2_94EC_94E8_94F5_94E3_9602_95FA_95FD),
  (0x8770, 0x9601_9600_9645_9887_9886_98D2_997A_997C_9975_9977_9A73_80AE),
  (0x877C, 0x9AB0_9E23_9E22),
  (0x87A1, 0x51E4_9F50_4EBF_4EEA_4EF7_4FAC_4FA9_4FED_5267_5218_5251_523D),
  (0x87AD, 0x5389_5520_5634_54D7_5618_55B7_5578_53FD_589F_575F_5760_5815),
  (0x87B9, 0x5A34_5A75_59A9_5A07_5A06_5BBD_5BA1_5199_5C42_5D94_5E1C_5E9F),
  (0x87C5, 0x53A8_5E99_53AE_5E7F_5F39_5E86_8651_5FE7_6002_60AF_60EE_6124),
  (0x87D1, 0x6003_631A_6251_635E_62E8_6320_629A_63B8_63FF_654C_6570_6682),
  (0x87DD, 0x6635_6837_6869_67A2_6807_697C_6868_4E50_679E_6B27_6B87_6BB4),
  (0x87E9, 0x6D46_6CFC_6D01_6D47_6E83_6DA6_6DA7_6D54_70ED_5956_83B9_75AE),
  (0x87F5, 0x7691_76B1_76D8_786E_7801_7A91_7A77_7F14_7EC3_7EAC),
  (0x8840, 0x7F04_7F05_7F09_7F16_7F18_7EBF_7F0E_7F13_7F0D_7F02_7F08_7F07),
  (0x884C, 0x9A82_7F62_80F6_80A4_83B2_836B_848B_867E_8717_536B_8C0A_8C05),
  (0x8858, 0x8C08_8C06_8BDE_8BF7_8BF8_8BFE_8BFF_8C04_8C03_8C01_8BBA_8BE4),
  (0x8864, 0x8C07_8BFD_8C00_7AD6_8D54_8D4F_8D4B_8D31_8D26_8D4C_8D24_5356),
  (0x8870, 0x8D50_8D28_8D53_8DF5_8F89_8F86_8F8D_8F88_8F87_8F6E_8F8E_8F8B),
  (0x887C, 0x8F8A_9002_8FC1),
  (0x88A1, 0x90BB_90D1_9093_950C_9511_9500_94FA_94D0_9504_94DD_9510_9509),
  (0x88AD, 0x950B_94A1_9502_95FE_9605_5DE9_9889_988C_517B_997F_9981_9A7C),
  (0x88B9, 0x9A7B_9A77_9A76_9A7D_9A7E_9A79_9A78_9AB7_95F9_9C7F_9C81_9E29),
  (0x88C5, 0x9E26_9EB8_9F7F_4FE6_50A7_4FAA_5E42_5242_5428_54DD_55F3_57A6),
  (0x88D1, 0x575B_594B_8885_5B66_5BFC_5BAA_51ED_60EB_61D4_5FC6_6218_62E5),
  (0x88DD, 0x6321_631E_636E_63B3_62E9_6361_62C5_631D_5386_6653_6654_6619),
  (0x88E9, 0x6866_6A2A_6811_692D_6865_673A_6861_6DC0_6D53_6CFD_6D4A_6CA3),
  (0x88F5, 0x6FA6_6E11_70BD_70E7_706F_70EB_7116_72EC_7391_74EF),
  (0x8940, 0x7618_5362_7792_7816_789B_79EF_9896_7A23_7AA5_7B03_7B5B_7F22),
  (0x894C, 0x7F23_8426_7F1A_53BF_7F1F_7F1C_7F19_7EC9_817B_5174_8231_8361),
  (0x8958, 0x8427_829C_8682_8424_88E4_4EB2_89CE_8C1B_8C1A_8C0F_8BB3_8C0B),
  (0x8964, 0x8C0D_8C10_8C18_8BFA_8C12_8C13_8BBD_8C15_8C19_8C0C_8C16_8D56),
  (0x8970, 0x8F90_8F91_8F93_8F8F_529E_9009_8FDF_8FBD_9057_90BA_952D_952F),
  (0x897C, 0x9530_9519_94B1),
  (0x89A1, 0x94A2_9521_5F55_94EE_9525_9526_951F_9522_9531_960E_968F_9669),
  (0x89AD, 0x9759_817C_988A_9888_9891_9894_5934_9893_9890_9986_996F_9984),
  (0x89B9, 0x9985_9A87_9A88_9A86_9AB8_9ABC_9C8D_9E35_9E2A_9E2F_9E2D_9E33),
  (0x89C5, 0x9F99_9F9F_4F18_507F_50A8_52B1_549B_5413_538B_57D9_5A74_5AD4),
  (0x89D1, 0x5B37_5C34_5C66_5C7F_5D58_5E2E_5F25_5E94_6073_620F_51FB_6324),
  (0x89DD, 0x62E7_62DF_6401_655B_6BD9_66A7_6863_68C0_6867_6809_6A2F_6B93),
  (0x89E9, 0x6BE1_6CDE_6EE8_6D4E_6D9B_6EE5_6DA9_6F4D_8425_707F_70DB_70E9),
  (0x89F5, 0x5899_72DE_83B7_73AF_7477_75E8_7597_77EB_78FA_77F6),
  (0x8A40, 0x7BD3_7CAA_9546_7CC1_7F29_7EE9_7F2A_7F15_7F27_7EF7_7F1D_603B),
  (0x8A4C, 0x7EB5_7F2B_7EA4_7F25_7E66_7F26_58F0_806A_8054_8038_8113_80C6),
  (0x8A58, 0x8138_810D_4E34_4E3E_8270_8537_84DF_4E8F_877C_8748_4EB5_891B),
  (0x8A64, 0x89CA_8C1C_8C24_8C26_8BB2_8C0E_8C23_8C22_8A8A_8C27_8D5A_8D5B),
  (0x8A70, 0x8D2D_8D59_8D8B_8F96_8F97_6BC2_8F95_8206_8FD8_8FC8_915D_9540),
  (0x8A7C, 0x9541_951A_952E),
  (0x8AA1, 0x9532_9505_9524_953A_9539_953B_953E_9537_9614_9615_9611_95F1),
  (0x8AAD, 0x9690_96B6_867D_97E9_9897_98D3_9A8B_9A8F_9C9C_9C9B_9C94_9C91),
  (0x8AB9, 0x9E3F_9E3D_70B9_658B_4E1B_565C_5739_5792_5A76_61D1_6269_63B7),
  (0x8AC5, 0x6270_64B5_6446_64DE_64B7_65AD_69DF_67DC_69DB_67E0_6B24_5F52),
  (0x8AD1, 0x6BA1_6CFB_6E16_6EE4_6E0E_6E85_6D4F_70EC_7118_72B7_730E_74EE),
  (0x8ADD, 0x75A0_7751_7840_793C_7A51_79FD_7A9C_7A8D_7BAB_7C27_7BAA_7BD1),
  (0x8AE9, 0x7B80_7CAE_7EC7_7F2E_7ED5_7F2D_7EE3_7F2F_7FD8_804C_8042_8110),
  (0x8AF5, 0x8191_65E7_8428_84DD_8360_86F2_8749_89D0_89DE_8C1F),
  (0x8B40, 0x8C28_8C2C_8C2A_8D58_8E52_8FF9_8DF8_8EAF_8F6C_8F99_8FE9_533B),
  (0x8B4C, 0x9171_9551_9501_94A8_954D_9547_9550_9552_9549_9616_95EF_9617),
  (0x8B58, 0x9619_6742_53CC_96CF_9E21_989D_989C_9898_989A_989B_998F_998A),
  (0x8B64, 0x9988_9A91_9AC1_9CA8_9CA4_9CAB_9CA7_9E43_9E45_9E44_5784_575C),
  (0x8B70, 0x5BA0_5E9E_5E90_60E9_6000_61D2_62E2_65F7_6A71_691F_6988_6A79),
  (0x8B7C, 0x6F47_6FD1_6CA5),
  (0x8BA1, 0x6FD2_6CF8_70C1_724D_728A_517D_736D_73BA_743C_7574_762A_788D),
  (0x8BAD, 0x7977_7A33_7B7E_8327_7ECE_7EF3_7ED8_7F57_7F34_81BB_827A_85AE),
  (0x8BB9, 0x836F_8681_8747_88C6_8884_8C31_8BC6_8C2D_8C32_8BA5_8C2F_8D60),
  (0x8BC5, 0x8D5E_8DF7_8F9A_8F7F_8F9E_8FB9_955C_955D_955E_94FE_9557_9558),
  (0x8BD1, 0x9556_9559_9535_9542_94FF_933E_5173_9647_96BE_96FE_97EC_97F5),
  (0x8BDD, 0x7C7B_98A0_98D5_9992_9991_9A9B_9A97_9CB8_9CB3_9CAD_9CB7_9E51),
  (0x8BE9, 0x9E49_9E4A_9E4C_9E4F_4E3D_9EB4_529D_5499_5624_4E25_5B9D_60AC),
  (0x8BF5, 0x5FCF_62E6_6400_80E7_6987_6F9C_6F4B_7089_73D1_77FF),
  (0x8C40, 0x783A_77FE_783E_7AA6_7ADE_7B79_7BEE_8FAB_7F24_7EE7_7F42_80EA),
  (0x8C4C, 0x8230_853C_853A_82A6_82F9_8574_869D_8934_89C9_89E6_8BAE_8BD1),
  (0x8C58, 0x8C35_8D62_8D61_8DB8_91CA_949F_94D9_9508_9610_98D8_9976_9965),
  (0x8C64, 0x9A9E_817E_9A9A_9CC3_9CC5_515A_9F83_9F84_4FEA_55EB_556D_56A3),
  (0x8C70, 0x5C5E_60E7_6151_6444_643A_6593_6A31_680F_68C2_6B7C_70C2_727A),
  (0x8C7C, 0x9576_748E_765E),
  (0x8CA1, 0x7F20_7EED_5170_85D3_86CE_89C8_8C34_62A4_8A89_8D43_8E0C_8DC3),
  (0x8CAD, 0x8DFB_8F70_8FA9_9570_956D_94C1_94DB_94CE_956F_954C_54CD_987E),
  (0x8CB9, 0x98A2_98E8_9A71_9AA0_84E6_9AA1_9AC5_9CCD_9CCF_83BA_9E64_9E5E),
  (0x8CC5, 0x9F87_9F88_556E_4FE8_50A5_5453_5B6A_5DC5_5CE6_5F2F_644A_6743),
  (0x8CD1, 0x6B22_6EE9_7321_53E0_763E_7663_7B3C_7C41_804B_810F_88AD_886C),
  (0x8CDD, 0x8BFB_8D4E_8D5D_8E2F_8E2C_8F94_90E6_94F8_9274_9701_9791_7E6E),
  (0x8CE9, 0x98A4_9A84_9A81_9CD6_9CA2_9CD4_9CD7_9E67_9E25_9F39_9F89_9F8A),
  (0x8CF5, 0x9F9A_604B_631B_6405_74D2_7A83_7F28_81E2_841D_86CA),
  (0x8D40, 0x53D8_9026_903B_9573_94C4_9765_663E_990D_60CA_9A7F_9A8C_9AD3),
  (0x8D4C, 0x9AD1_9CDD_9CDE_9CDC_9E36_5631_575D_63FD_762B_766B_7F81_8695),
  (0x8D58, 0x8BA9_8C17_8C36_8273_8D63_917F_96F3_7075_972D_98A6_9AA4_9B13),
  (0x8D64, 0x9B47_9C8E_9E70_9E6D_7877_76D0_9CCC_9F8C_9F8B_5385_6984_6E7E),
  (0x8D70, 0x7BF1_7BA9_86EE_89C2_8E51_8845_94A5_9885_998B_9ACB_9EC9_6EE6),
  (0x8D7C, 0x77A9_954A_97AF),
  (0x8DA1, 0x9A74_9AA5_7F06_8C20_8E8F_917D_94BB_92AE_9523_9CC4_9C88_9EE9),
  (0x8DAD, 0x51FF_9E66_9A8A_9E73_9E3E_94BA_4EC2_864D_6B92_57A7_577B_620B),
  (0x8DB9, 0x4FE3_522D_538D_5459_537A_7EA8_8307_9487_9486_5457_5F2A_7953),
  (0x8DC5, 0x7EBE_90CF_948C_5250_5326_56F5_57AD_5A05_5CBD_5D03_6D9E_6E0C),
  (0x8DD1, 0x70C3_7726_7EC0_7ED0_80EB_948E_9490_9495_948D_95EB_59AB_5D5B),
  (0x8DDD, 0x607D_6860_67A8_6CA9_6D48_7572_7817_7ED7_83DD_89C7_8BB5_8BCE),
  (0x8DE9, 0x8BD2_8D36_8D33_8F7A_8F75_8F78_902F_90D3_9104_94AB_94AC_949B),
  (0x8DF5, 0x94AF_94AD_94AA_95F6_9667_9878_996B_9EF9_4F1B_507B),
  (0x8E40, 0x4F65_5522_57B2_5DEF_5FAD_709C_8315_72F2_73AE_7EE8_7EE0_7EE1),
  (0x8E4C, 0x7F9F_836D_86F1_8BD3_8BD6_8BE9_8BD4_8BDC_8D91_8F82_8F81_90AC),
  (0x8E58, 0x94CA_94C8_94B0_94B2_94B6_950D_94CC_94BD_94BC_9883_9880_51EB),
  (0x8E64, 0x9EFE_507E_551B_5D5D_5E3B_60AB_60AD_6004_622C_6217_629F_62A0),
  (0x8E70, 0x63BC_6864_6769_8365_6D52_6CA4_709D_76B2_7800_7EFB_7EF2_7EEF),
  (0x8E7C, 0x7EFA_83B3_89CB),
  (0x8EA1, 0x8BF6_8D47_94F1_94D2_94D1_94D5_94DF_94EB_94EF_94EA_94F7_94D6),
  (0x8EAD, 0x94E5_98D1_523F_52A2_54D3_5452_5D02_5CE4_5E91_6126_6322_6920),
  (0x8EB9, 0x6BF5_988D_6D9D_6F62_6DA0_6ED7_740F_7481_7617_7F03_7F17_7F0C),
  (0x8EC5, 0x7F0F_7F11_835C_848C_8311_82C1_8BF9_8BFC_8C02_8D55_90F8_9512),
  (0x8ED1, 0x94D7_94FD_9513_950A_94E4_9506_9507_9514_9606_9603_9753_988F),
  (0x8EDD, 0x997D_9A75_9A80_9C82_9E28_54D2_54D5_54D9_5AD2_5CC4_603F_6B9A),
  (0x8EE9, 0x6D4D_70E8_7303_72EF_789C_7AAD_7E17_7F1B_8487_8368_8489_835E),
  (0x8EF5, 0x83B8_8297_86F3_8BE8_8C11_8C14_8C1D_90D0_9529_952C),
  (0x8F40, 0x9516_9517_94FC_951B_9515_951E_9494_960F_9608_9609_960A_960C),
  (0x8F4C, 0x960D_9E32_9E31_54DC_5E31_6079_6448_E3C1_6CF6_7315_7513_7605),
  (0x8F58, 0x75EB_7857_7BA6_7B5A_7CE8_7F21_8027_835F_83B6_86F0_88E2_89CF),
  (0x8F64, 0x8C21_8BCC_8C25_8DC4_9538_9534_94E1_9536_9612_9967_9C92_9C95),
  (0x8F70, 0x9E38_9E39_9E3A_9F80_603C_6445_64B8_6CFA_7596_7F0B_8069_8369),
  (0x8F7C, 0x87E5_866E_8BB4),
  (0x8FA1, 0x8C29_8D5C_8D3D_8F98_909D_9553_94E0_953C_954F_84E5_97EA_9969),
  (0x8FAD, 0x9A90_9A92_9A93_960B_9CA9_9CA0_9E48_9E41_9E46_53A3_5456_5786),
  (0x8FB9, 0x69E0_680E_6C07_6CF7_6F46_7962_7F32_7F33_7F74_8223_86CF_867F),
  (0x8FC5, 0x88E3_89D1_89EF_8C2E_955B_955F_956A_9546_94E9_97EB_98A1_9990),
  (0x8FD1, 0x9AC2_9CB5_9CB6_9CBB_9CB1_9E4E_9E2B_9EFC_55BE_6484_680A_67A5),
  (0x8FDD, 0x680C_7F31_804D_830F_82C8_8572_86F4_877E_94F4_9566_9568_9561),
  (0x8FE9, 0x9563_9544_956B_94E7_9564_94F9_961A_989F_9994_9A7A_9A9D_9A9F),
  (0x8FF5, 0x9A98_9E57_9E5A_9E5C_9F86_9F85_50A9_5CBF_75C8_64BA),
  (0x9040, 0x6989_6EE0_783B_7C9D_7EA9_7F2C_8539_8D46_9571_95FC_98D9_9AA2),
  (0x904C, 0x9A96_9A9C_9CA5_9CCE_9CD0_9E63_9E58_9E7E_5181_5A08_7055_6512),
  (0x9058, 0x763F_7BA8_7C74_823B_89CC_8DF9_8DDE_8F79_9554_956C_9AA3_9A85),
  (0x9064, 0x9CD5_9CA3_9CA6_9E68_9E37_9F9B_683E_6924_84E0_96E0_8F73_9CDF),
  (0x9070, 0x9C9F_9E69_9E6C_9E6A_9E6B_9E47_704F_7C16_8C30_9ACC_7B3E_7C9C),
  (0x907C, 0x7F35_8114_8E7F),
  (0x90A1, 0x9567_9C9A_8DB1_8E9C_917E_8C33_989E_98A7_9AA7_9E2C_6206_9604),
  (0x90AD, 0x9CA1_9E42_79B8_62D4_8DCB_73D0_5BAB_62D0_6BC1_51CF_7984_5415),
  (0x90B9, 0x6F5C_889C_90E7_5179_6238_629B_6327_63BB_63DE_63FA_6491_64C0),
  (0x90C5, 0x64E1_64F6_6505_6535_654E_656B_6588_65D9_661E_663B_663F_6644),
  (0x90D1, 0x6657_6669_6673_6683_66BC_66BF_66C1_66F5_66FA_66FB_670E_6716),
  (0x90DD, 0x6737_6764_6766_67A6_67A7_67A9_67FB_67FD_6800_6801_6805_681E),
  (0x90E9, 0x684A_6852_6855_6859_688D_68B9_68CF_5088_9528_9C97_6922_6926),
  (0x90F5, 0x00DC_E4DF_E4E0_00FC_E4E2_E4E3_00DC_00FC_6936_6961),
  (0x9140, 0x82C5_82CA_82D8_8318_831A_8323_8346_835B_8362_836C_836E_839C),
  (0x914C, 0x839F_83B5_83BC_83F7_842A_8448_845C_8462_8484_8488_84DC_84E3),
  (0x9158, 0x8538_855A_8597_85AB_85C1_8613_8616_220B_8715_8770_877D_878B),
  (0x9164, 0x87A8_87C7_87D0_8807_880E_8827_88AE_2208_88B5_88BF_88E5_88F5),
  (0x9170, 0x891C_891D_8977_89E7_8A37_8AAC_8ADA_8B5B_8B71_8C2B_8C3A_8C7C),
  (0x917C, 0x8C8E_8CAE_8D12),
  (0x91A1, 0x8D49_8D4D_8D71_8E08_8E3A_8E70_8E99_8EB0_8EB1_8EC5_8EC6_8ECE),
  (0x91AD, 0x8EE3_8F0C_8F71_8F77_8FA7_8FEF_900E_9039_9065_9089_90DE_9115),
  (0x91B9, 0x91D6_91DB_91DE_91E1_91E5_91F6_91FC_9229_922C_FF07_9259_9277),
  (0x91C5, 0x92ED_933A_E54D_E54E_722B_5182_5196_4E37_516B_513F_E555_E556),
  (0x91D1, 0x6729_6C3A_5382_7592_8080_8864_4E06_E55E_E55F_E560_2E97_52F9),
  (0x91DD, 0x5315_2021_E565_3404_E567_E568_E569_E56A_E56B_51F5_E56D_5C6E),
  (0x91E9, 0xE56F_56D7_4EA0_51AB_2E80_69C7_E575_254E_25D8_25D9_2642_25B6),
  (0x91F5, 0x25C4_2195_203C_00B6_2200_21A8_2194_2302_E583_E584),
  (0x9240, 0x4E9C_60AA_5727_56F2_533B_58F1_9038_96A0_6804_55B6_99C5_8B01),
  (0x924C, 0x5186_7E01_5FDC_6B27_6BB4_685C_5965_7A4F_4EEE_4FA1_753B_7070),
  (0x9258, 0x4F1A_6094_6D77_7D75_58CA_61D0_62E1_6BBB_899A_5B66_697D_559D),
  (0x9264, 0x6E07_E5AA_5DFB_9665_52E7_5BDB_6F22_95A2_6B53_89B3_6C17_5E30),
  (0x9270, 0x622F_72A0_8650_65E7_6025_62E0_6319_865A_5CE1_631F_72ED_90F7),
  (0x927C, 0x97FF_6681_52E4),
  (0x92A1, 0x8B39_533A_99C6_52F2_E5C8_5F84_830E_6075_63B2_6E13_7D4C_86CD),
  (0x92AD, 0x8EFD_7D99_9D8F_6483_770C_5039_5263_967A_570F_691C_6A29_9855),
  (0x92B9, 0x9A13_53B3_5449_5A2F_8AA4_5E83_6E2F_9271_53F7_56FD_9ED2_7A40),
  (0x92C5, 0x7815_6E08_658E_6B73_5264_96D1_53C2_685F_60E8_8CDB_6B8B_6B6F),
  (0x92D1, 0x5150_8F9E_6E7F_5B9F_5199_820E_6368_91C8_5BFF_53CE_8846_5F93),
  (0x92DD, 0x6E0B_7363_7E26_7C9B_51E6_5C06_79F0_6E09_713C_5968_6761_72B6),
  (0x92E9, 0x4E57_6D44_5270_7573_7E04_58CC_5B22_8B72_91B8_89E6_5631_5BDD),
  (0x92F5, 0x5C3D_56F3_7C8B_9154_7A42_968F_9AC4_67A2_6570_636E),
  (0x9340, 0x702C_58F0_6589_9759_7A83_6442_7D76_5C02_6D45_6226_8DF5_92AD),
  (0x934C, 0x6F5C_9077_9078_7E4A_7985_758E_58EE_4E89_8358_635C_633F_5DE3),
  (0x9358, 0x7A93_88C5_50E7_5C64_7DCF_9A12_5897_618E_8535_8D08_81D3_5C5E),
  (0x9364, 0x7D9A_5815_5BFE_5E2F_6EDE_6EDD_629E_6CA2_6FEF_5358_5606_56E3),
  (0x9370, 0x65AD_5F3E_9045_663C_92F3_5E81_5FB4_8074_61F2_585A_9013_9244),
  (0x937C, 0x70B9_8EE2_4F1D),
  (0x93A1, 0x96FB_706F_5F53_515A_76D7_7A32_95D8_5FB3_6BD2_72EC_8AAD_5C4A),
  (0x93AD, 0x96E3_5F10_60A9_8133_62DD_5EC3_58F2_6885_535A_8584_9EA6_7E1B),
  (0x93B9, 0x767A_9AEA_629C_6D5C_6D5C_654F_6577_4FAE_6255_4ECF_8FBA_5909),
  (0x93C5, 0x6B69_8217_7C3F_5305_5B9D_62B1_6CE1_80DE_7832_8C4A_98FD_58A8),
  (0x93D1, 0x6BCE_6E80_8108_9ED9_8A33_85AC_8E8D_4E0E_8A89_6447_69D8_8B21),
  (0x93DD, 0x66DC_6765_983C_4E71_89A7_7ADC_9686_65C5_4E21_731F_7DD1_6D99),
  (0x93E9, 0x5841_793C_52B1_623B_970A_9F62_66A6_6B74_604B_7DF4_932C_7089),
  (0x93F5, 0x52B4_697C_9332_6E7E_5F25_4E80_66FD_59C9_5B8D_5D8B),
  (0x9440, 0x6A2B_691B_55B0_7C82_8FBC_698A_54B2_9D2B_96EB_6919_63C3_99C4),
  (0x944C, 0x51E7_6802_8FBB_50CD_5CE0_6803_51EA_5302_7872_7551_7560_567A),
  (0x9458, 0x92F2_5840_67FE_4FE3_6762_7C7E_5301_4FE4_4FE5_51E9_53FA_54D8),
  (0x9464, 0x56CE_5726_5737_5738_5788_57B3_57AA_57B0_57D6_5870_58B9_58D7),
  (0x9470, 0x5C76_5CBC_5CC5_5CBE_5D76_5F16_603A_63B5_6741_6763_67A1_68BA),
  (0x947C, 0x6925_6928_6A7A),
  (0x94A1, 0x6923_6921_697E_6981_69DD_6A2E_6A72_6B1F_6BDF_6E15_7195_74E7),
  (0x94AD, 0x74F2_74F0_74F1_74F8_7505_7569_766A_7874_7ACD_7ACF_7AD5_7AD3),
  (0x94B9, 0x7AE1_7AF0_7B02_7C13_7C17_7C90_7CAD_7CC0_7CD8_7D9B_7E05_7E67),
  (0x94C5, 0x7E83_7E90_81A4_825D_8422_84D9_8630_86AB_86EF_88B0_88C3_88C4),
  (0x94D1, 0x8904_E72F_8EBE_8EC8_8F4C_8FB7_8FDA_9027_9056_9335_933B_93B9),
  (0x94DD, 0x958A_9596_9779_9786_9790_98AA_9B96_9B97_9BB4_9BCF_9BD1_9BD2),
  (0x94E9, 0x9BF2_9BF1_9C30_9C47_9C5A_9CF0_9D46_9D64_9DAB_4E44_544F_6318),
  (0x94F5, 0x9BB1_9C69_9D47_9D65_9C2F_9EBF_51B4_546A_67A0_9B8E),
  (0x9540, 0x90A8_51B2_362D_62C5_52C5_67B1_54CD_6052_53C1_70F1_5803_555F),
  (0x954C, 0x920E_7740_743C_714A_6ED9_53E0_732E_88CF_788D_7FA3_7DAB_8E2A),
  (0x9558, 0x945B_636C_5FA7_5C05_803B_5CEF_39B8_7151_8CCD_97EE_5872_5A63),
  (0x9564, 0x7F78_5D57_616F_6998_7D89_7CAE_7DB3_6F81_5AFA_58BB_7255_764E),
  (0x9570, 0x8F2D_92B9_9D5E_9EAF_7F47_9DC4_8D18_51B3_866C_54A4_53A6_5226),
  (0x957C, 0x6736_4E21_5374),
  (0x95A1, 0x5EF9_52B9_548F_5EF8_59AC_6031_7240_8117_763B_5F0D_664B_66A8),
  (0x95AD, 0x6164_634F_70DF_6D24_7CA7_7CC9_53D9_654D_5742_73CF_80C6_3551),
  (0x95B9, 0x6B35_7881_53CC_732B_732A_73C9_754A_59F9_71C4_750E_7DDC_99E1),
  (0x95C5, 0x89A9_6FF6_3A57_64EA_3BED_6CA1_6E7C_7567_5869_5869_5204_E7CA),
  (0x95D1, 0x6187_643A_81EF_E7CE_51B5_51D1_6C79_591F_8FF9_98F1_6537_8109),
  (0x95DD, 0x88B4_3A2A_8EAD_7F97_9A10_7D25_6AC8_518C_5227_E7E0_811A_53A0),
  (0x95E9, 0x53A2_6C5A_6C37_8218_5586_5EFB_51C9_78B1_9262_536D_51C3_E7EE),
  (0x95F5, 0x8471_8987_976D_8B90_96A3_5EFC_96B7_514E_9C10_6630),
  (0x9640, 0x9255_7808_9345_9273_9369_E7FE_E7FF_E800_E801_91DF_91DA_7854),
  (0x964C, 0x7866_7888_78B6_78C7_78D2_78D7_212B_21CB_78E4_78EE_78F0_78F1),
  (0x9658, 0x78F5_7932_7933_7936_7958_3013_7959_7971_797E_7983_7986_7987),
  (0x9664, 0x7991_7999_799F_79A5_79E2_79F1_79F4_7A2A_7A3A_7A45_7A65_7ABC),
  (0x9670, 0x7AC2_7AC9_7ADB_7AE9_7AFE_7B0C_7B27_7B29_7B42_7B43_7B55_7B6F),
  (0x967C, 0x7BB2_69DE_69F9),
  (0x96A1, 0x9176_815A_82F7_544B_8132_80BD_8418_915E_9170_918C_8148_E843),
  (0x96AD, 0x4436_8159_809F_E847_5549_5421_54DA_5432_55B9_5494_E84E_7852),
  (0x96B9, 0x7845_784C_E852_84BD_841C_82C4_E856_847B_8B2D_E859_574B_E85B),
  (0x96C5, 0xE85C_5745_87CE_5660_55EA_567B_80BC_E863_78B8_6A0C_54CC_7BD0),
  (0x96D1, 0x7BEC_7BFA_7C15_7C1B_7C35_7C44_7C6D_7C8E_7CB8_7CC3_7CE6_7CED),
  (0x96DD, 0x7CF3_7CF5_7CF9_E877_7CFC_7D8B_7D97_7DA4_7DA8_7DCD_7DD0_7DD3),
  (0x96E9, 0x7DE5_7DFD_6A12_6A22_6A30_6A36_6A65_E887_E888_E889_E88A_E88B),
  (0x96F5, 0xE88C_E88D_E88E_6A73_6A78_E891_E892_6A7C_6AA9_6AAA),
  (0x9740, 0x24EA_2460_2461_2462_2463_2464_2465_2466_2467_2468_2469_246A),
  (0x974C, 0x246B_246C_246D_246E_246F_2470_2471_2472_2473_9344_93AD_93C6),
  (0x9758, 0x93E5_941A_9421_943E_9441_9453_945A_949A_94B7_94D8_94DE_94F3),
  (0x9764, 0x9503_950E_950F_9518_951D_952A_952B_953F_9545_954E_9562_9565),
  (0x9770, 0x9569_9572_9587_9599_95A0_95B2_9666_969D_96AF_96B2_9733_973B),
  (0x977C, 0x974D_974F_9751),
  (0x97A1, 0x9755_9764_976B_9771_9792_97B2_97F2_983D_9854_98A5_98C3_98DA),
  (0x97AD, 0x98EE_991D_9920_9963_9980_9987_998D_9993_9995_99BC_99C8_99F2),
  (0x97B9, 0x9AB6_9AD9_9ADE_9B0F_9B49_9B72_9B83_9B9F_9BBB_9BE3_9BF5_9C00),
  (0x97C5, 0x9C04_9C1B_24B6_24B7_24B8_24B9_24BA_24BB_24BC_24BD_24BE_24BF),
  (0x97D1, 0x24C0_24C1_24C2_24C3_24C4_24C5_24C6_24C7_24C8_24C9_24CA_24CB),
  (0x97DD, 0x24CC_24CD_24CE_24CF_24D0_24D1_24D2_24D3_24D4_24D5_24D6_24D7),
  (0x97E9, 0x24D8_24D9_24DA_24DB_24DC_24DD_24DE_24DF_24E0_24E1_24E2_24E3),
  (0x97F5, 0x24E4_24E5_24E6_24E7_24E8_24E9_00AE_2122_E931_E932),
  (0x9840, 0x9C76_278A_278B_278C_278D_278E_278F_2790_2791_2792_2793_9C85),
  (0x984C, 0x9C86_9C87_9C8B_9C90_9C9E_9CAE_9CB0_9CB2_9CB4_9CBA_9CBC_9CBD),
  (0x9858, 0x9CC6_9CC7_9CCA_9CCB_9CD3_9CD8_9CD9_9CE2_9CEB_9CEC_9D2A_9D48),
  (0x9864, 0x9D50_9D7A_9DC6_9E4B_9E55_9E5B_9E71_9EAA_9EBD_9EC4_9EE2_9EEA),
  (0x9870, 0x9F08_9F0B_9F0D_9F21_9F44_9F51_9F9D_FA0E_FA0F_FA11_FA13_FA14),
  (0x987C, 0xFA18_FA1F_FA20),
  (0x98A1, 0xFA21_FA23_FA24_FA27_FA28_FA29_4E04_4E2F_4E81_4E87_4EA3_4EB7),
  (0x98AD, 0x4EBC_4EF8_4F28_4F29_4F37_4F42_4F45_4F4B_4F72_4FA2_4FB0_4FBD),
  (0x98B9, 0x4FC8_4FCC_4FF0_4FF2_4FF9_5003_5008_5034_503B_5058_5066_5081),
  (0x98C5, 0x5090_50BC_50D0_50DF_50E1_50FC_510D_512B_5160_51AE_51B8_51D2),
  (0x98D1, 0x51E2_5205_5234_523C_5259_5268_5279_52A4_52CC_5327_5342_535D),
  (0x98DD, 0x537D_537E_53C5_53D0_53D2_53FE_546D_5485_5493_549E_54B9_54E3),
  (0x98E9, 0x54EF_550D_5518_5525_5528_552B_5547_5579_5590_55B4_55C1_55D7),
  (0x98F5, 0x55D8_55FB_4FB4_5621_2203_5652_E9CC_263B_E9CE_E9CF),
  (0x9940, 0x565D_2474_2475_2476_2477_2478_2479_247A_247B_247C_247D_247E),
  (0x994C, 0x247F_2480_2481_2482_2483_2484_2485_2486_2487_5661_5689_568B),
  (0x9958, 0x569E_56A1_56B1_56B9_56BF_56D6_56EF_5715_571D_5732_573D_573F),
  (0x9964, 0x5743_21D4_577E_578A_578D_5790_579C_57BB_57BE_57C4_57DE_57FE),
  (0x9970, 0x5812_5822_5847_585C_585F_5873_58A7_58AA_58B0_58B5_58B6_58CB),
  (0x997C, 0x58D0_58E0_5905),
  (0x99A1, 0x5911_5989_5994_599A_599F_59B0_59B8_59C4_59EF_59F0_59F8_5A02),
  (0x99AD, 0x5A0B_5A0D_5A12_5A21_5A24_5A27_5A2A_5A2B_5A2C_5A3D_5A45_5A54),
  (0x99B9, 0x5A59_5A61_5A68_5A6B_5A6E_5A71_5A79_5A7E_5A81_5A82_5A86_5A88),
  (0x99C5, 0x5A91_5A99_5AA0_5AA1_5AAB_5AC3_5ACE_5ACF_5AD3_5AE4_5AF0_5AFE),
  (0x99D1, 0x5B0D_5B11_5B15_5B1F_5B2B_5B41_5B44_5B46_5B4A_5B4F_5B68_5B74),
  (0x99DD, 0x5B76_5B7C_5B82_5B90_249C_249D_249E_249F_24A0_24A1_24A2_24A3),
  (0x99E9, 0x24A4_24A5_24A6_24A7_24A8_24A9_24AA_24AB_24AC_24AD_24AE_24AF),
  (0x99F5, 0x24B0_24B1_24B2_24B3_24B4_24B5_EA69_3232_3231_6AAB),
  (0x9A40, 0x5B96_2488_2489_248A_248B_248C_248D_248E_248F_2490_2491_2492),
  (0x9A4C, 0x2493_2494_2495_2496_2497_2498_2499_249A_249B_5BD5_5BD7_5C23),
  (0x9A58, 0x5C85_5C9E_5CC2_5D10_5D2C_5D2F_5D48_5D56_5D70_5D7B_5D85_5DA4),
  (0x9A64, 0x5DAB_5DB6_5DC1_5DD7_5E09_5E48_5E92_5EBD_5F0E_5F72_5FB1_5FC2),
  (0x9A70, 0x5FDB_5FDF_6023_607E_60D7_6107_610C_6119_6122_6150_6160_6181),
  (0x9A7C, 0x6195_61B9_61C0),
  (0x9AA1, 0x61CF_61D3_61DA_6290_6331_2283_6337_6379_638B_63C1_63E2_63E6),
  (0x9AAD, 0x63FB_63FE_6407_6432_6438_643B_645A_6471_647C_648D_64AF_64B4),
  (0x9AB9, 0x64B6_64DD_64E5_650A_6511_651F_655F_656D_6586_65B5_65BE_65D1),
  (0x9AC5, 0x65D4_65E3_65FF_6618_6623_6663_666B_667D_6685_6692_669A_66A4),
  (0x9AD1, 0x66AD_66B3_66B6_66CD_66CE_6702_670C_6719_6744_676B_678F_67A4),
  (0x9ADD, 0x67BF_67D6_67D7_2282_680D_6810_681B_6836_6847_6856_6884_6888),
  (0x9AE9, 0x68BD_68C3_68C5_6902_6903_6909_6918_6943_6946_6964_6967_6972),
  (0x9AF5, 0x6985_699F_69A2_69D1_69D5_69D6_9A21_9A26_9A2F_6AC1),
  (0x9B40, 0x59BF_69E1_6A03_6A1A_6A1C_6A2C_6A2D_6A33_6A43_6A45_6A4C_6A53),
  (0x9B4C, 0x6A57_6A63_6A74_6A82_6A8A_6A8F_6A99_6AA7_6AB1_6AB5_6ABE_6AC9),
  (0x9B58, 0x6AD4_6AD8_6AF6_6B57_6B7A_6BDC_6C1C_6C31_6C58_6C6E_6C75_6C7F),
  (0x9B64, 0x6CAF_6CCB_6CDF_6CFF_6D02_6D05_6D06_6D26_6D57_6D5B_6D71_6D81),
  (0x9B70, 0x6D8F_6DA5_6DB1_6DFE_6E02_6E04_6E0F_6E18_6E2A_6E50_6E59_6E9A),
  (0x9B7C, 0x6EB5_6EB8_6EDB),
  (0x9BA1, 0x6EFA_6F04_6F0B_6F0C_6F16_6F17_6F34_6F3D_6F56_6F79_6F8A_6F9D),
  (0x9BAD, 0x6F9F_6FBB_6FBE_6FD3_6FD9_6FF8_7003_704B_704D_7050_7054_705C),
  (0x9BB9, 0x7067_7077_7079_708B_708F_70A0_70A3_70A5_70A6_70A7_70C4_70CC),
  (0x9BC5, 0x70D0_70D6_026A_025B_00E6_028C_0251_0254_028A_025D_0259_025A),
  (0x9BD1, 0x025C_0261_1E43_1E49_014A_1E3B_0275_00F0_0283_0292_02A7_02A4),
  (0x9BDD, 0x00E3_EB86_EB87_026F_0278_0287_EB8B_00C7_0153_0252_FF47_02CB),
  (0x9BE9, 0x02CF_FF41_FF42_FF44_FF45_FF46_FF48_FF49_FF4A_FF4B_FF4C_FF4D),
  (0x9BF5, 0xFF4E_FF4F_FF50_FF52_FF53_FF54_FF55_FF56_FF57_FF5A),
  (0x9C40, 0x70F5_3220_3221_3222_3223_3224_3225_3226_3227_3228_3229_70FE),
  (0x9C4C, 0x7105_711D_7129_712B_712C_7133_7135_713B_713E_7140_714F_716B),
  (0x9C58, 0x7175_7177_717C_717E_718C_718E_7191_7196_71A2_71A3_71AD_71B4),
  (0x9C64, 0x71B7_71BA_71D1_71DD_71EB_7200_7209_720E_720F_7216_7217_7224),
  (0x9C70, 0x5AA4_722E_2286_7257_725C_7294_7304_7310_7341_7374_738C_738F),
  (0x9C7C, 0x7398_739C_739E),
  (0x9CA1, 0x73A7_73AA_73D5_73E1_73E2_73E4_73E6_73EF_73F3_2287_73F9_73FB),
  (0x9CAD, 0x7402_7411_7412_7414_7415_7417_7419_741C_741E_741F_7437_7438),
  (0x9CB9, 0x7439_7443_7445_7447_7448_7449_7453_7456_7465_746B_746C_7474),
  (0x9CC5, 0x747A_7482_5382_5E7F_4E28_5E7A_5196_5B80_5369_2E87_EC14_5303),
  (0x9CD1, 0x2612_8279_4491_2E8C_2E8A_4E36_EC1C_531A_EC1E_EC1F_2E95_EC21),
  (0x9CDD, 0xEC22_2514_4E5A_8FB6_5EF4_5188_4E85_EC29_4E3F_EC2B_EC2C_4E5B),
  (0x9CE9, 0x53B6_8F66_7E9F_8BA0_8D1D_9E1F_95E8_9485_961D_624C_6C35_4EBB),
  (0x9CF5, 0x5FC4_706C_2EAE_53E3_6AE2_9A3B_9A3C_9A58_9A5C_9A63),
  (0x9D40, 0x260E_2192_2190_2191_2193_21E8_21E6_21E7_21E9_21E8_21E6_21E7),
  (0x9D4C, 0x21E9_261E_261C_261B_261F_3016_3017_25CB_2715_2713_56FB_263D),
  (0x9D58, 0x591D_664D_7225_2729_2721_263A_2639_EC63_EC64_EC65_EC66_EC67),
  (0x9D64, 0x5C78_266C_266A_5AD1_5BB7_5CFC_EC6E_2709_2702_EC71_EC72_EC73),
  (0x9D70, 0xEC74_5CD5_676E_7461_749D_7F53_8593_274F_EC7C_EC7D_5D78_5F3B),
  (0x9D7C, 0xEC80_2501_2503),
  (0x9DA1, 0xEC83_EC84_EC85_EC86_EC87_EC88_EC89_EC8A_EC8B_EC8C_EC8D_EC8E),
  (0x9DAD, 0xEC8F_EC90_EC91_9AB2_9AE0_9B14_9B34_9B39_9B40_9B50_9B7F_263C),
  (0x9DB9, 0x7D95_2601_9734_2602_EC9F_ECA0_ECA1_2708_ECA3_ECA4_ECA5_ECA6),
  (0x9DC5, 0xECA7_ECA8_ECA9_213B_2121_66E7_6E57_ECAE_7157_79CA_2116_816C),
  (0x9DD1, 0x8AF9_9856_ECB5_ECB6_2620_ECB8_2664_2660_2667_2663_2662_2666),
  (0x9DDD, 0x2661_2665_ECC1_ECC2_6AE4_211E_33C2_33D8_33A1_ECC8_33A5_ECCA),
  (0x9DE9, 0xECCB_ECCC_ECCD_ECCE_2611_9B81_9B8B_9B8D_9BDD_9BE9_9BED_9BF4),
  (0x9DF5, 0x9C1F_9C20_9C26_9C53_9C5D_9C7B_9D0C_9D16_21B2_6B05),
  (0x9E40, 0x8CE9_8CF2_8D03_8D11_8D1C_8D7A_8DA9_8DC0_8E01_8E0E_8E46_8E68),
  (0x9E4C, 0x8E71_8E7E_8E80_8EB6_8EB9_8EBC_8EC3_8EE4_8EED_8EF2_8F30_8F41),
  (0x9E58, 0x8F4A_8FA5_8FB3_8FB8_8FCA_8FCF_9008_9033_9037_9064_906C_91A9),
  (0x9E64, 0x91B6_91C4_91FA_9208_9213_9221_9228_922B_9235_923C_9241_9258),
  (0x9E70, 0x925D_925F_926B_926E_9281_9284_9289_928F_92B1_92BA_92BF_92D4),
  (0x9E7C, 0x92DB_92E3_92E5),
  (0x9EA1, 0x92EB_92EC_92F4_92F6_92FD_9303_9307_9330_9331_9340_9342_9343),
  (0x9EAD, 0x935F_9362_9366_9368_9373_9374_9378_937D_9381_9384_9386_9387),
  (0x9EB9, 0x9390_939C_93A0_93B8_93BB_93BD_93BF_93CB_93D3_93DB_93E0_93F0),
  (0x9EC5, 0x93F1_93F3_93F4_9401_9404_9408_9417_941B_941D_9424_9425_9426),
  (0x9ED1, 0x942D_9442_9443_944D_9454_9458_9465_9467_946C_9479_947B_9578),
  (0x9EDD, 0x9585_95A6_95AA_9656_967B_96A5_96F4_971B_9736_9740_9741_9757),
  (0x9EE9, 0x9787_9789_979B_97B1_97BD_97C0_97C2_97D2_97E0_9814_9815_9823),
  (0x9EF5, 0x9833_9868_98B7_98B9_98C7_98CA_98E0_98E1_98EC_98F5),
  (0x9F40, 0x9D21_9D34_9D39_9D49_9D4E_9D6D_2237_9D6E_9D7C_9D83_9D93_9DA5),
  (0x9F4C, 0x222C_9DBD_6B81_6BB1_9C4F_9E90_9DC0_ED91_ED92_262F_2630_2637),
  (0x9F58, 0x2633_2634_2635_2632_2636_2631_9DC9_9DD4_9DFC_9E0A_9E0C_9E0E),
  (0x9F64, 0x9E18_9E7B_9E85_9EA2_9EAC_9EB1_9EC1_9EC6_9EC7_9EF1_9EF8_9F27),
  (0x9F70, 0x990E_9919_991C_9937_995D_9962_999B_99A4_99AA_99B8_99E0_99E6),
  (0x9F7C, 0x99F5_9A1F_7DFE),
  (0x9FA1, 0x7E07_7E5B_7E65_7E6C_7F37_7F40_7F41_7F49_7F52_7F8F_7F93_7FB4),
  (0x9FAD, 0x7FDD_7FE7_7FFA_8002_8008_802E_802F_803C_80A7_810C_812A_8134),
  (0x9FB9, 0x8142_8156_8184_81A5_81E4_8254_8265_827B_8287_82BF_82E2_82EE),
  (0x9FC5, 0x82F8_82FC_82FF_830B_831D_833D_8357_8391_83AC_83CD_83ED_8405),
  (0x9FD1, 0x8414_8416_8421_842E_843E_844A_8453_8455_8458_8464_8472_847F),
  (0x9FDD, 0x8480_8492_8493_8496_84A3_84BE_84DE_84E1_84E2_84E4_84F8_8503),
  (0x9FE9, 0x8505_8510_8533_2010_8542_854C_8552_855F_856F_8570_8573_85D6),
  (0x9FF5, 0x85E0_85EE_85FC_860D_860F_8614_8628_8642_8645_8672),
  (0xA040, 0x889C_5B6D_8137_EE1E_9938_5572_556B_EE22_35CE_5571_55BA_55F1),
  (0xA04C, 0x35D2_55F0_5605_5622_562D_5643_561E_5692_7CCD_541A_5413_5497),
  (0xA058, 0x66F1_7534_544D_56A4_569F_64D3_632E_63F8_651E_4E78_6BEA_6C32),
  (0xA064, 0x6C3D_6C62_6CB2_6DF8_6E29_6E76_6E82_6E86_6EBB_6EDF_6EE2_6F11),
  (0xA070, 0x6F24_6F74_6F91_6FB5_6FF3_6FF5_70BB_70C0_710F_2202_7155_7173),
  (0xA07C, 0x717A_EE58_5223),
  (0xA0A1, 0xEE5A_3451_EE5C_8FCC_EE5E_EE5F_00C0_00C8_00CC_00D2_00D9_00C1),
  (0xA0AD, 0x00CD_00D3_00DA_0101_0113_012B_014D_016B_01D6_00C4_00CB_00CF),
  (0xA0B9, 0x00D6_00DC_00C6_00C7_00D1_00C3_00D5_00E1_00E9_00ED_00F3_00FA),
  (0xA0C5, 0x01D8_00E4_00EB_00EF_00F6_00FC_00E6_00E7_00F1_00E3_00F5_01CE),
  (0xA0D1, 0x011B_01D0_01D2_01D4_01DA_00C5_00C9_7188_00D8_00D0_1EF2_00DE),
  (0xA0DD, 0x00DF_00AA_00A1_00E0_00E8_00EC_00F2_00F9_01DC_00E5_7198_71D7),
  (0xA0E9, 0x00F8_00F0_1EF3_00FE_00FF_00BA_00BF_00E2_00EA_00EE_00F4_00FB),
  (0xA0F5, 0x71F5_00C2_00CA_00CE_00D4_00DB_00B8_00A4_EEB6_0192),
  (0xA140, 0x3000_FF0C_3001_3002_FF0E_2027_FF1B_FF1A_FF1F_FF01_FE30_2026),
  (0xA14C, 0x2025_FE50_FE51_FE52_00B7_FE54_FE55_FE56_FE57_FF5C_2013_FE31),
  (0xA158, 0x2014_FE33_2574_FE34_FE4F_FF08_FF09_FE35_FE36_FF5B_FF5D_FE37),
  (0xA164, 0xFE38_3014_3015_FE39_FE3A_3010_3011_FE3B_FE3C_300A_300B_FE3D),
  (0xA170, 0xFE3E_3008_3009_FE3F_FE40_300C_300D_FE41_FE42_300E_300F_FE43),
  (0xA17C, 0xFE44_FE59_FE5A),
  (0xA1A1, 0xFE5B_FE5C_FE5D_FE5E_2018_2019_201C_201D_301D_301E_2035_2032),
  (0xA1AD, 0xFF03_FF06_FF0A_203B_00A7_3003_25CB_25CF_25B3_25B2_25CE_2606),
  (0xA1B9, 0x2605_25C7_25C6_25A1_25A0_25BD_25BC_32A3_2105_00AF_FFE3_FF3F),
  (0xA1C5, 0x02CD_FE49_FE4A_FE4D_FE4E_FE4B_FE4C_FE5F_FE60_FE61_FF0B_FF0D),
  (0xA1D1, 0x00D7_00F7_00B1_221A_FF1C_FF1E_FF1D_2266_2267_2260_221E_2252),
  (0xA1DD, 0x2261_FE62_FE63_FE64_FE65_FE66_FF5E_2229_222A_22A5_2220_221F),
  (0xA1E9, 0x22BF_33D2_33D1_222B_222E_2235_2234_2640_2642_2295_2299_2191),
  (0xA1F5, 0x2193_2190_2192_2196_2197_2199_2198_2225_2223_FF0F),
  (0xA240, 0xFF3C_2215_FE68_FF04_FFE5_3012_FFE0_FFE1_FF05_FF20_2103_2109),
  (0xA24C, 0xFE69_FE6A_FE6B_33D5_339C_339D_339E_33CE_33A1_338E_338F_33C4),
  (0xA258, 0x00B0_5159_515B_515E_515D_5161_5163_55E7_74E9_7CCE_2581_2582),
  (0xA264, 0x2583_2584_2585_2586_2587_2588_258F_258E_258D_258C_258B_258A),
  (0xA270, 0x2589_253C_2534_252C_2524_251C_2594_2500_2502_2595_250C_2510),
  (0xA27C, 0x2514_2518_256D),
  (0xA2A1, 0x256E_2570_256F_2550_255E_256A_2561_25E2_25E3_25E5_25E4_2571),
  (0xA2AD, 0x2572_2573_FF10_FF11_FF12_FF13_FF14_FF15_FF16_FF17_FF18_FF19),
  (0xA2B9, 0x2160_2161_2162_2163_2164_2165_2166_2167_2168_2169_3021_3022),
  (0xA2C5, 0x3023_3024_3025_3026_3027_3028_3029_5341_5344_5345_FF21_FF22),
  (0xA2D1, 0xFF23_FF24_FF25_FF26_FF27_FF28_FF29_FF2A_FF2B_FF2C_FF2D_FF2E),
  (0xA2DD, 0xFF2F_FF30_FF31_FF32_FF33_FF34_FF35_FF36_FF37_FF38_FF39_FF3A),
  (0xA2E9, 0xFF41_FF42_FF43_FF44_FF45_FF46_FF47_FF48_FF49_FF4A_FF4B_FF4C),
  (0xA2F5, 0xFF4D_FF4E_FF4F_FF50_FF51_FF52_FF53_FF54_FF55_FF56),
  (0xA340, 0xFF57_FF58_FF59_FF5A_0391_0392_0393_0394_0395_0396_0397_0398),
  (0xA34C, 0x0399_039A_039B_039C_039D_039E_039F_03A0_03A1_03A3_03A4_03A5),
  (0xA358, 0x03A6_03A7_03A8_03A9_03B1_03B2_03B3_03B4_03B5_03B6_03B7_03B8),
  (0xA364, 0x03B9_03BA_03BB_03BC_03BD_03BE_03BF_03C0_03C1_03C3_03C4_03C5),
  (0xA370, 0x03C6_03C7_03C8_03C9_3105_3106_3107_3108_3109_310A_310B_310C),
  (0xA37C, 0x310D_310E_310F),
  (0xA3A1, 0x3110_3111_3112_3113_3114_3115_3116_3117_3118_3119_311A_311B),
  (0xA3AD, 0x311C_311D_311E_311F_3120_3121_3122_3123_3124_3125_3126_3127),
  (0xA3B9, 0x3128_3129_02D9_02C9_02CA_02C7_02CB_2400_2401_2402_2403_2404),
  (0xA3C5, 0x2405_2406_2407_2408_2409_240A_240B_240C_240D_240E_240F_2410),
  (0xA3D1, 0x2411_2412_2413_2414_2415_2416_2417_2418_2419_241A_241B_241C),
  (0xA3DD, 0x241D_241E_241F_2421_20AC_F849_F84A_F84B_F84C_F84D_F84E_F84F),
  (0xA3E9, 0xF850_F851_F852_F853_F854_F855_F856_F857_F858_F859_F85A_F85B),
  (0xA3F5, 0xF85C_F85D_F85E_F85F_F860_F861_F862_F863_F864_F865),
  (0xA440, 0x4E00_4E59_4E01_4E03_4E43_4E5D_4E86_4E8C_4EBA_513F_5165_516B),
  (0xA44C, 0x51E0_5200_5201_529B_5315_5341_535C_53C8_4E09_4E0B_4E08_4E0A),
  (0xA458, 0x4E2B_4E38_51E1_4E45_4E48_4E5F_4E5E_4E8E_4EA1_5140_5203_52FA),
  (0xA464, 0x5343_53C9_53E3_571F_58EB_5915_5927_5973_5B50_5B51_5B53_5BF8),
  (0xA470, 0x5C0F_5C22_5C38_5C71_5DDD_5DE5_5DF1_5DF2_5DF3_5DFE_5E72_5EFE),
  (0xA47C, 0x5F0B_5F13_624D),
  (0xA4A1, 0x4E11_4E10_4E0D_4E2D_4E30_4E39_4E4B_5C39_4E88_4E91_4E95_4E92),
  (0xA4AD, 0x4E94_4EA2_4EC1_4EC0_4EC3_4EC6_4EC7_4ECD_4ECA_4ECB_4EC4_5143),
  (0xA4B9, 0x5141_5167_516D_516E_516C_5197_51F6_5206_5207_5208_52FB_52FE),
  (0xA4C5, 0x52FF_5316_5339_5348_5347_5345_535E_5384_53CB_53CA_53CD_58EC),
  (0xA4D1, 0x5929_592B_592A_592D_5B54_5C11_5C24_5C3A_5C6F_5DF4_5E7B_5EFF),
  (0xA4DD, 0x5F14_5F15_5FC3_6208_6236_624B_624E_652F_6587_6597_65A4_65B9),
  (0xA4E9, 0x65E5_66F0_6708_6728_6B20_6B62_6B79_6BCB_6BD4_6BDB_6C0F_6C34),
  (0xA4F5, 0x706B_722A_7236_723B_7247_7259_725B_72AC_738B_4E19),
  (0xA540, 0x4E16_4E15_4E14_4E18_4E3B_4E4D_4E4F_4E4E_4EE5_4ED8_4ED4_4ED5),
  (0xA54C, 0x4ED6_4ED7_4EE3_4EE4_4ED9_4EDE_5145_5144_5189_518A_51AC_51F9),
  (0xA558, 0x51FA_51F8_520A_52A0_529F_5305_5306_5317_531D_4EDF_534A_5349),
  (0xA564, 0x5361_5360_536F_536E_53BB_53EF_53E4_53F3_53EC_53EE_53E9_53E8),
  (0xA570, 0x53FC_53F8_53F5_53EB_53E6_53EA_53F2_53F1_53F0_53E5_53ED_53FB),
  (0xA57C, 0x56DB_56DA_5916),
  (0xA5A1, 0x592E_5931_5974_5976_5B55_5B83_5C3C_5DE8_5DE7_5DE6_5E02_5E03),
  (0xA5AD, 0x5E73_5E7C_5F01_5F18_5F17_5FC5_620A_6253_6254_6252_6251_65A5),
  (0xA5B9, 0x65E6_672E_672C_672A_672B_672D_6B63_6BCD_6C11_6C10_6C38_6C41),
  (0xA5C5, 0x6C40_6C3E_72AF_7384_7389_74DC_74E6_7518_751F_7528_7529_7530),
  (0xA5D1, 0x7531_7532_7533_758B_767D_76AE_76BF_76EE_77DB_77E2_77F3_793A),
  (0xA5DD, 0x79BE_7A74_7ACB_4E1E_4E1F_4E52_4E53_4E69_4E99_4EA4_4EA6_4EA5),
  (0xA5E9, 0x4EFF_4F09_4F19_4F0A_4F15_4F0D_4F10_4F11_4F0F_4EF2_4EF6_4EFB),
  (0xA5F5, 0x4EF0_4EF3_4EFD_4F01_4F0B_5149_5147_5146_5148_5168),
  (0xA640, 0x5171_518D_51B0_5217_5211_5212_520E_5216_52A3_5308_5321_5320),
  (0xA64C, 0x5370_5371_5409_540F_540C_540A_5410_5401_540B_5404_5411_540D),
  (0xA658, 0x5408_5403_540E_5406_5412_56E0_56DE_56DD_5733_5730_5728_572D),
  (0xA664, 0x572C_572F_5729_5919_591A_5937_5938_5984_5978_5983_597D_5979),
  (0xA670, 0x5982_5981_5B57_5B58_5B87_5B88_5B85_5B89_5BFA_5C16_5C79_5DDE),
  (0xA67C, 0x5E06_5E76_5E74),
  (0xA6A1, 0x5F0F_5F1B_5FD9_5FD6_620E_620C_620D_6210_6263_625B_6258_6536),
  (0xA6AD, 0x65E9_65E8_65EC_65ED_66F2_66F3_6709_673D_6734_6731_6735_6B21),
  (0xA6B9, 0x6B64_6B7B_6C16_6C5D_6C57_6C59_6C5F_6C60_6C50_6C55_6C61_6C5B),
  (0xA6C5, 0x6C4D_6C4E_7070_725F_725D_767E_7AF9_7C73_7CF8_7F36_7F8A_7FBD),
  (0xA6D1, 0x8001_8003_800C_8012_8033_807F_8089_808B_808C_81E3_81EA_81F3),
  (0xA6DD, 0x81FC_820C_821B_821F_826E_8272_827E_866B_8840_884C_8863_897F),
  (0xA6E9, 0x9621_4E32_4EA8_4F4D_4F4F_4F47_4F57_4F5E_4F34_4F5B_4F55_4F30),
  (0xA6F5, 0x4F50_4F51_4F3D_4F3A_4F38_4F43_4F54_4F3C_4F46_4F63),
  (0xA740, 0x4F5C_4F60_4F2F_4F4E_4F36_4F59_4F5D_4F48_4F5A_514C_514B_514D),
  (0xA74C, 0x5175_51B6_51B7_5225_5224_5229_522A_5228_52AB_52A9_52AA_52AC),
  (0xA758, 0x5323_5373_5375_541D_542D_541E_543E_5426_544E_5427_5446_5443),
  (0xA764, 0x5433_5448_5442_541B_5429_544A_5439_543B_5438_542E_5435_5436),
  (0xA770, 0x5420_543C_5440_5431_542B_541F_542C_56EA_56F0_56E4_56EB_574A),
  (0xA77C, 0x5751_5740_574D),
  (0xA7A1, 0x5747_574E_573E_5750_574F_573B_58EF_593E_599D_5992_59A8_599E),
  (0xA7AD, 0x59A3_5999_5996_598D_59A4_5993_598A_59A5_5B5D_5B5C_5B5A_5B5B),
  (0xA7B9, 0x5B8C_5B8B_5B8F_5C2C_5C40_5C41_5C3F_5C3E_5C90_5C91_5C94_5C8C),
  (0xA7C5, 0x5DEB_5E0C_5E8F_5E87_5E8A_5EF7_5F04_5F1F_5F64_5F62_5F77_5F79),
  (0xA7D1, 0x5FD8_5FCC_5FD7_5FCD_5FF1_5FEB_5FF8_5FEA_6212_6211_6284_6297),
  (0xA7DD, 0x6296_6280_6276_6289_626D_628A_627C_627E_6279_6273_6292_626F),
  (0xA7E9, 0x6298_626E_6295_6293_6291_6286_6539_653B_6538_65F1_66F4_675F),
  (0xA7F5, 0x674E_674F_6750_6751_675C_6756_675E_6749_6746_6760),
  (0xA840, 0x6753_6757_6B65_6BCF_6C42_6C5E_6C99_6C81_6C88_6C89_6C85_6C9B),
  (0xA84C, 0x6C6A_6C7A_6C90_6C70_6C8C_6C68_6C96_6C92_6C7D_6C83_6C72_6C7E),
  (0xA858, 0x6C74_6C86_6C76_6C8D_6C94_6C98_6C82_7076_707C_707D_7078_7262),
  (0xA864, 0x7261_7260_72C4_72C2_7396_752C_752B_7537_7538_7682_76EF_77E3),
  (0xA870, 0x79C1_79C0_79BF_7A76_7CFB_7F55_8096_8093_809D_8098_809B_809A),
  (0xA87C, 0x80B2_826F_8292),
  (0xA8A1, 0x828B_828D_898B_89D2_8A00_8C37_8C46_8C55_8C9D_8D64_8D70_8DB3),
  (0xA8AD, 0x8EAB_8ECA_8F9B_8FB0_8FC2_8FC6_8FC5_8FC4_5DE1_9091_90A2_90AA),
  (0xA8B9, 0x90A6_90A3_9149_91C6_91CC_9632_962E_9631_962A_962C_4E26_4E56),
  (0xA8C5, 0x4E73_4E8B_4E9B_4E9E_4EAB_4EAC_4F6F_4F9D_4F8D_4F73_4F7F_4F6C),
  (0xA8D1, 0x4F9B_4F8B_4F86_4F83_4F70_4F75_4F88_4F69_4F7B_4F96_4F7E_4F8F),
  (0xA8DD, 0x4F91_4F7A_5154_5152_5155_5169_5177_5176_5178_51BD_51FD_523B),
  (0xA8E9, 0x5238_5237_523A_5230_522E_5236_5241_52BE_52BB_5352_5354_5353),
  (0xA8F5, 0x5351_5366_5377_5378_5379_53D6_53D4_53D7_5473_5475),
  (0xA940, 0x5496_5478_5495_5480_547B_5477_5484_5492_5486_547C_5490_5471),
  (0xA94C, 0x5476_548C_549A_5462_5468_548B_547D_548E_56FA_5783_5777_576A),
  (0xA958, 0x5769_5761_5766_5764_577C_591C_5949_5947_5948_5944_5954_59BE),
  (0xA964, 0x59BB_59D4_59B9_59AE_59D1_59C6_59D0_59CD_59CB_59D3_59CA_59AF),
  (0xA970, 0x59B3_59D2_59C5_5B5F_5B64_5B63_5B97_5B9A_5B98_5B9C_5B99_5B9B),
  (0xA97C, 0x5C1A_5C48_5C45),
  (0xA9A1, 0x5C46_5CB7_5CA1_5CB8_5CA9_5CAB_5CB1_5CB3_5E18_5E1A_5E16_5E15),
  (0xA9AD, 0x5E1B_5E11_5E78_5E9A_5E97_5E9C_5E95_5E96_5EF6_5F26_5F27_5F29),
  (0xA9B9, 0x5F80_5F81_5F7F_5F7C_5FDD_5FE0_5FFD_5FF5_5FFF_600F_6014_602F),
  (0xA9C5, 0x6035_6016_602A_6015_6021_6027_6029_602B_601B_6216_6215_623F),
  (0xA9D1, 0x623E_6240_627F_62C9_62CC_62C4_62BF_62C2_62B9_62D2_62DB_62AB),
  (0xA9DD, 0x62D3_62D4_62CB_62C8_62A8_62BD_62BC_62D0_62D9_62C7_62CD_62B5),
  (0xA9E9, 0x62DA_62B1_62D8_62D6_62D7_62C6_62AC_62CE_653E_65A7_65BC_65FA),
  (0xA9F5, 0x6614_6613_660C_6606_6602_660E_6600_660F_6615_660A),
  (0xAA40, 0x6607_670D_670B_676D_678B_6795_6771_679C_6773_6777_6787_679D),
  (0xAA4C, 0x6797_676F_6770_677F_6789_677E_6790_6775_679A_6793_677C_676A),
  (0xAA58, 0x6772_6B23_6B66_6B67_6B7F_6C13_6C1B_6CE3_6CE8_6CF3_6CB1_6CCC),
  (0xAA64, 0x6CE5_6CB3_6CBD_6CBE_6CBC_6CE2_6CAB_6CD5_6CD3_6CB8_6CC4_6CB9),
  (0xAA70, 0x6CC1_6CAE_6CD7_6CC5_6CF1_6CBF_6CBB_6CE1_6CDB_6CCA_6CAC_6CEF),
  (0xAA7C, 0x6CDC_6CD6_6CE0),
  (0xAAA1, 0x7095_708E_7092_708A_7099_722C_722D_7238_7248_7267_7269_72C0),
  (0xAAAD, 0x72CE_72D9_72D7_72D0_73A9_73A8_739F_73AB_73A5_753D_759D_7599),
  (0xAAB9, 0x759A_7684_76C2_76F2_76F4_77E5_77FD_793E_7940_7941_79C9_79C8),
  (0xAAC5, 0x7A7A_7A79_7AFA_7CFE_7F54_7F8C_7F8B_8005_80BA_80A5_80A2_80B1),
  (0xAAD1, 0x80A1_80AB_80A9_80B4_80AA_80AF_81E5_81FE_820D_82B3_829D_8299),
  (0xAADD, 0x82AD_82BD_829F_82B9_82B1_82AC_82A5_82AF_82B8_82A3_82B0_82BE),
  (0xAAE9, 0x82B7_864E_8671_521D_8868_8ECB_8FCE_8FD4_8FD1_90B5_90B8_90B1),
  (0xAAF5, 0x90B6_91C7_91D1_9577_9580_961C_9640_963F_963B_9644),
  (0xAB40, 0x9642_96B9_96E8_9752_975E_4E9F_4EAD_4EAE_4FE1_4FB5_4FAF_4FBF),
  (0xAB4C, 0x4FE0_4FD1_4FCF_4FDD_4FC3_4FB6_4FD8_4FDF_4FCA_4FD7_4FAE_4FD0),
  (0xAB58, 0x4FC4_4FC2_4FDA_4FCE_4FDE_4FB7_5157_5192_5191_51A0_524E_5243),
  (0xAB64, 0x524A_524D_524C_524B_5247_52C7_52C9_52C3_52C1_530D_5357_537B),
  (0xAB70, 0x539A_53DB_54AC_54C0_54A8_54CE_54C9_54B8_54A6_54B3_54C7_54C2),
  (0xAB7C, 0x54BD_54AA_54C1),
  (0xABA1, 0x54C4_54C8_54AF_54AB_54B1_54BB_54A9_54A7_54BF_56FF_5782_578B),
  (0xABAD, 0x57A0_57A3_57A2_57CE_57AE_5793_5955_5951_594F_594E_5950_59DC),
  (0xABB9, 0x59D8_59FF_59E3_59E8_5A03_59E5_59EA_59DA_59E6_5A01_59FB_5B69),
  (0xABC5, 0x5BA3_5BA6_5BA4_5BA2_5BA5_5C01_5C4E_5C4F_5C4D_5C4B_5CD9_5CD2),
  (0xABD1, 0x5DF7_5E1D_5E25_5E1F_5E7D_5EA0_5EA6_5EFA_5F08_5F2D_5F65_5F88),
  (0xABDD, 0x5F85_5F8A_5F8B_5F87_5F8C_5F89_6012_601D_6020_6025_600E_6028),
  (0xABE9, 0x604D_6070_6068_6062_6046_6043_606C_606B_606A_6064_6241_62DC),
  (0xABF5, 0x6316_6309_62FC_62ED_6301_62EE_62FD_6307_62F1_62F7),
  (0xAC40, 0x62EF_62EC_62FE_62F4_6311_6302_653F_6545_65AB_65BD_65E2_6625),
  (0xAC4C, 0x662D_6620_6627_662F_661F_6628_6631_6624_66F7_67FF_67D3_67F1),
  (0xAC58, 0x67D4_67D0_67EC_67B6_67AF_67F5_67E9_67EF_67C4_67D1_67B4_67DA),
  (0xAC64, 0x67E5_67B8_67CF_67DE_67F3_67B0_67D9_67E2_67DD_67D2_6B6A_6B83),
  (0xAC70, 0x6B86_6BB5_6BD2_6BD7_6C1F_6CC9_6D0B_6D32_6D2A_6D41_6D25_6D0C),
  (0xAC7C, 0x6D31_6D1E_6D17),
  (0xACA1, 0x6D3B_6D3D_6D3E_6D36_6D1B_6CF5_6D39_6D27_6D38_6D29_6D2E_6D35),
  (0xACAD, 0x6D0E_6D2B_70AB_70BA_70B3_70AC_70AF_70AD_70B8_70AE_70A4_7230),
  (0xACB9, 0x7272_726F_7274_72E9_72E0_72E1_73B7_73CA_73BB_73B2_73CD_73C0),
  (0xACC5, 0x73B3_751A_752D_754F_754C_754E_754B_75AB_75A4_75A5_75A2_75A3),
  (0xACD1, 0x7678_7686_7687_7688_76C8_76C6_76C3_76C5_7701_76F9_76F8_7709),
  (0xACDD, 0x770B_76FE_76FC_7707_77DC_7802_7814_780C_780D_7946_7949_7948),
  (0xACE9, 0x7947_79B9_79BA_79D1_79D2_79CB_7A7F_7A81_7AFF_7AFD_7C7D_7D02),
  (0xACF5, 0x7D05_7D00_7D09_7D07_7D04_7D06_7F38_7F8E_7FBF_8004),
  (0xAD40, 0x8010_800D_8011_8036_80D6_80E5_80DA_80C3_80C4_80CC_80E1_80DB),
  (0xAD4C, 0x80CE_80DE_80E4_80DD_81F4_8222_82E7_8303_8305_82E3_82DB_82E6),
  (0xAD58, 0x8304_82E5_8302_8309_82D2_82D7_82F1_8301_82DC_82D4_82D1_82DE),
  (0xAD64, 0x82D3_82DF_82EF_8306_8650_8679_867B_867A_884D_886B_8981_89D4),
  (0xAD70, 0x8A08_8A02_8A03_8C9E_8CA0_8D74_8D73_8DB4_8ECD_8ECC_8FF0_8FE6),
  (0xAD7C, 0x8FE2_8FEA_8FE5),
  (0xADA1, 0x8FED_8FEB_8FE4_8FE8_90CA_90CE_90C1_90C3_914B_914A_91CD_9582),
  (0xADAD, 0x9650_964B_964C_964D_9762_9769_97CB_97ED_97F3_9801_98A8_98DB),
  (0xADB9, 0x98DF_9996_9999_4E58_4EB3_500C_500D_5023_4FEF_5026_5025_4FF8),
  (0xADC5, 0x5029_5016_5006_503C_501F_501A_5012_5011_4FFA_5000_5014_5028),
  (0xADD1, 0x4FF1_5021_500B_5019_5018_4FF3_4FEE_502D_502A_4FFE_502B_5009),
  (0xADDD, 0x517C_51A4_51A5_51A2_51CD_51CC_51C6_51CB_5256_525C_5254_525B),
  (0xADE9, 0x525D_532A_537F_539F_539D_53DF_54E8_5510_5501_5537_54FC_54E5),
  (0xADF5, 0x54F2_5506_54FA_5514_54E9_54ED_54E1_5509_54EE_54EA),
  (0xAE40, 0x54E6_5527_5507_54FD_550F_5703_5704_57C2_57D4_57CB_57C3_5809),
  (0xAE4C, 0x590F_5957_5958_595A_5A11_5A18_5A1C_5A1F_5A1B_5A13_59EC_5A20),
  (0xAE58, 0x5A23_5A29_5A25_5A0C_5A09_5B6B_5C58_5BB0_5BB3_5BB6_5BB4_5BAE),
  (0xAE64, 0x5BB5_5BB9_5BB8_5C04_5C51_5C55_5C50_5CED_5CFD_5CFB_5CEA_5CE8),
  (0xAE70, 0x5CF0_5CF6_5D01_5CF4_5DEE_5E2D_5E2B_5EAB_5EAD_5EA7_5F31_5F92),
  (0xAE7C, 0x5F91_5F90_6059),
  (0xAEA1, 0x6063_6065_6050_6055_606D_6069_606F_6084_609F_609A_608D_6094),
  (0xAEAD, 0x608C_6085_6096_6247_62F3_6308_62FF_634E_633E_632F_6355_6342),
  (0xAEB9, 0x6346_634F_6349_633A_6350_633D_632A_632B_6328_634D_634C_6548),
  (0xAEC5, 0x6549_6599_65C1_65C5_6642_6649_664F_6643_6652_664C_6645_6641),
  (0xAED1, 0x66F8_6714_6715_6717_6821_6838_6848_6846_6853_6839_6842_6854),
  (0xAEDD, 0x6829_68B3_6817_684C_6851_683D_67F4_6850_6840_683C_6843_682A),
  (0xAEE9, 0x6845_6813_6818_6841_6B8A_6B89_6BB7_6C23_6C27_6C28_6C26_6C24),
  (0xAEF5, 0x6CF0_6D6A_6D95_6D88_6D87_6D66_6D78_6D77_6D59_6D93),
  (0xAF40, 0x6D6C_6D89_6D6E_6D5A_6D74_6D69_6D8C_6D8A_6D79_6D85_6D65_6D94),
  (0xAF4C, 0x70CA_70D8_70E4_70D9_70C8_70CF_7239_7279_72FC_72F9_72FD_72F8),
  (0xAF58, 0x72F7_7386_73ED_7409_73EE_73E0_73EA_73DE_7554_755D_755C_755A),
  (0xAF64, 0x7559_75BE_75C5_75C7_75B2_75B3_75BD_75BC_75B9_75C2_75B8_768B),
  (0xAF70, 0x76B0_76CA_76CD_76CE_7729_771F_7720_7728_77E9_7830_7827_7838),
  (0xAF7C, 0x781D_7834_7837),
  (0xAFA1, 0x7825_782D_7820_781F_7832_7955_7950_7960_795F_7956_795E_795D),
  (0xAFAD, 0x7957_795A_79E4_79E3_79E7_79DF_79E6_79E9_79D8_7A84_7A88_7AD9),
  (0xAFB9, 0x7B06_7B11_7C89_7D21_7D17_7D0B_7D0A_7D20_7D22_7D14_7D10_7D15),
  (0xAFC5, 0x7D1A_7D1C_7D0D_7D19_7D1B_7F3A_7F5F_7F94_7FC5_7FC1_8006_8018),
  (0xAFD1, 0x8015_8019_8017_803D_803F_80F1_8102_80F0_8105_80ED_80F4_8106),
  (0xAFDD, 0x80F8_80F3_8108_80FD_810A_80FC_80EF_81ED_81EC_8200_8210_822A),
  (0xAFE9, 0x822B_8228_822C_82BB_832B_8352_8354_834A_8338_8350_8349_8335),
  (0xAFF5, 0x8334_834F_8332_8339_8336_8317_8340_8331_8328_8343),
  (0xB040, 0x8654_868A_86AA_8693_86A4_86A9_868C_86A3_869C_8870_8877_8881),
  (0xB04C, 0x8882_887D_8879_8A18_8A10_8A0E_8A0C_8A15_8A0A_8A17_8A13_8A16),
  (0xB058, 0x8A0F_8A11_8C48_8C7A_8C79_8CA1_8CA2_8D77_8EAC_8ED2_8ED4_8ECF),
  (0xB064, 0x8FB1_9001_9006_8FF7_9000_8FFA_8FF4_9003_8FFD_9005_8FF8_9095),
  (0xB070, 0x90E1_90DD_90E2_9152_914D_914C_91D8_91DD_91D7_91DC_91D9_9583),
  (0xB07C, 0x9662_9663_9661),
  (0xB0A1, 0x965B_965D_9664_9658_965E_96BB_98E2_99AC_9AA8_9AD8_9B25_9B32),
  (0xB0AD, 0x9B3C_4E7E_507A_507D_505C_5047_5043_504C_505A_5049_5065_5076),
  (0xB0B9, 0x504E_5055_5075_5074_5077_504F_500F_506F_506D_515C_5195_51F0),
  (0xB0C5, 0x526A_526F_52D2_52D9_52D8_52D5_5310_530F_5319_533F_5340_533E),
  (0xB0D1, 0x53C3_66FC_5546_556A_5566_5544_555E_5561_5543_554A_5531_5556),
  (0xB0DD, 0x554F_5555_552F_5564_5538_552E_555C_552C_5563_5533_5541_5557),
  (0xB0E9, 0x5708_570B_5709_57DF_5805_580A_5806_57E0_57E4_57FA_5802_5835),
  (0xB0F5, 0x57F7_57F9_5920_5962_5A36_5A41_5A49_5A66_5A6A_5A40),
  (0xB140, 0x5A3C_5A62_5A5A_5A46_5A4A_5B70_5BC7_5BC5_5BC4_5BC2_5BBF_5BC6),
  (0xB14C, 0x5C09_5C08_5C07_5C60_5C5C_5C5D_5D07_5D06_5D0E_5D1B_5D16_5D22),
  (0xB158, 0x5D11_5D29_5D14_5D19_5D24_5D27_5D17_5DE2_5E38_5E36_5E33_5E37),
  (0xB164, 0x5EB7_5EB8_5EB6_5EB5_5EBE_5F35_5F37_5F57_5F6C_5F69_5F6B_5F97),
  (0xB170, 0x5F99_5F9E_5F98_5FA1_5FA0_5F9C_607F_60A3_6089_60A0_60A8_60CB),
  (0xB17C, 0x60B4_60E6_60BD),
  (0xB1A1, 0x60C5_60BB_60B5_60DC_60BC_60D8_60D5_60C6_60DF_60B8_60DA_60C7),
  (0xB1AD, 0x621A_621B_6248_63A0_63A7_6372_6396_63A2_63A5_6377_6367_6398),
  (0xB1B9, 0x63AA_6371_63A9_6389_6383_639B_636B_63A8_6384_6388_6399_63A1),
  (0xB1C5, 0x63AC_6392_638F_6380_637B_6369_6368_637A_655D_6556_6551_6559),
  (0xB1D1, 0x6557_555F_654F_6558_6555_6554_659C_659B_65AC_65CF_65CB_65CC),
  (0xB1DD, 0x65CE_665D_665A_6664_6668_6666_665E_66F9_52D7_671B_6881_68AF),
  (0xB1E9, 0x68A2_6893_68B5_687F_6876_68B1_68A7_6897_68B0_6883_68C4_68AD),
  (0xB1F5, 0x6886_6885_6894_689D_68A8_689F_68A1_6882_6B32_6BBA),
  (0xB240, 0x6BEB_6BEC_6C2B_6D8E_6DBC_6DF3_6DD9_6DB2_6DE1_6DCC_6DE4_6DFB),
  (0xB24C, 0x6DFA_6E05_6DC7_6DCB_6DAF_6DD1_6DAE_6DDE_6DF9_6DB8_6DF7_6DF5),
  (0xB258, 0x6DC5_6DD2_6E1A_6DB5_6DDA_6DEB_6DD8_6DEA_6DF1_6DEE_6DE8_6DC6),
  (0xB264, 0x6DC4_6DAA_6DEC_6DBF_6DE6_70F9_7109_710A_70FD_70EF_723D_727D),
  (0xB270, 0x7281_731C_731B_7316_7313_7319_7387_7405_740A_7403_7406_73FE),
  (0xB27C, 0x740D_74E0_74F6),
  (0xB2A1, 0x74F7_751C_7522_7565_7566_7562_7570_758F_75D4_75D5_75B5_75CA),
  (0xB2AD, 0x75CD_768E_76D4_76D2_76DB_7737_773E_773C_7736_7738_773A_786B),
  (0xB2B9, 0x7843_784E_7965_7968_796D_79FB_7A92_7A95_7B20_7B28_7B1B_7B2C),
  (0xB2C5, 0x7B26_7B19_7B1E_7B2E_7C92_7C97_7C95_7D46_7D43_7D71_7D2E_7D39),
  (0xB2D1, 0x7D3C_7D40_7D30_7D33_7D44_7D2F_7D42_7D32_7D31_7F3D_7F9E_7F9A),
  (0xB2DD, 0x7FCC_7FCE_7FD2_801C_804A_8046_812F_8116_8123_812B_8129_8130),
  (0xB2E9, 0x8124_8202_8235_8237_8236_8239_838E_839E_8398_8378_83A2_8396),
  (0xB2F5, 0x83BD_83AB_8392_838A_8393_8389_83A0_8377_837B_837C),
  (0xB340, 0x8386_83A7_8655_5F6A_86C7_86C0_86B6_86C4_86B5_86C6_86CB_86B1),
  (0xB34C, 0x86AF_86C9_8853_889E_8888_88AB_8892_8896_888D_888B_8993_898F),
  (0xB358, 0x8A2A_8A1D_8A23_8A25_8A31_8A2D_8A1F_8A1B_8A22_8C49_8C5A_8CA9),
  (0xB364, 0x8CAC_8CAB_8CA8_8CAA_8CA7_8D67_8D66_8DBE_8DBA_8EDB_8EDF_9019),
  (0xB370, 0x900D_901A_9017_9023_901F_901D_9010_9015_901E_9020_900F_9022),
  (0xB37C, 0x9016_901B_9014),
  (0xB3A1, 0x90E8_90ED_90FD_9157_91CE_91F5_91E6_91E3_91E7_91ED_91E9_9589),
  (0xB3AD, 0x966A_9675_9673_9678_9670_9674_9676_9677_966C_96C0_96EA_96E9),
  (0xB3B9, 0x7AE0_7ADF_9802_9803_9B5A_9CE5_9E75_9E7F_9EA5_9EBB_50A2_508D),
  (0xB3C5, 0x5085_5099_5091_5080_5096_5098_509A_6700_51F1_5272_5274_5275),
  (0xB3D1, 0x5269_52DE_52DD_52DB_535A_53A5_557B_5580_55A7_557C_558A_559D),
  (0xB3DD, 0x5598_5582_559C_55AA_5594_5587_558B_5583_55B3_55AE_559F_553E),
  (0xB3E9, 0x55B2_559A_55BB_55AC_55B1_557E_5589_55AB_5599_570D_582F_582A),
  (0xB3F5, 0x5834_5824_5830_5831_5821_581D_5820_58F9_58FA_5960),
  (0xB440, 0x5A77_5A9A_5A7F_5A92_5A9B_5AA7_5B73_5B71_5BD2_5BCC_5BD3_5BD0),
  (0xB44C, 0x5C0A_5C0B_5C31_5D4C_5D50_5D34_5D47_5DFD_5E45_5E3D_5E40_5E43),
  (0xB458, 0x5E7E_5ECA_5EC1_5EC2_5EC4_5F3C_5F6D_5FA9_5FAA_5FA8_60D1_60E1),
  (0xB464, 0x60B2_60B6_60E0_611C_6123_60FA_6115_60F0_60FB_60F4_6168_60F1),
  (0xB470, 0x610E_60F6_6109_6100_6112_621F_6249_63A3_638C_63CF_63C0_63E9),
  (0xB47C, 0x63C9_63C6_63CD),
  (0xB4A1, 0x63D2_63E3_63D0_63E1_63D6_63ED_63EE_6376_63F4_63EA_63DB_6452),
  (0xB4AD, 0x63DA_63F9_655E_6566_6562_6563_6591_6590_65AF_666E_6670_6674),
  (0xB4B9, 0x6676_666F_6691_667A_667E_6677_66FE_66FF_671F_671D_68FA_68D5),
  (0xB4C5, 0x68E0_68D8_68D7_6905_68DF_68F5_68EE_68E7_68F9_68D2_68F2_68E3),
  (0xB4D1, 0x68CB_68CD_690D_6912_690E_68C9_68DA_696E_68FB_6B3E_6B3A_6B3D),
  (0xB4DD, 0x6B98_6B96_6BBC_6BEF_6C2E_6C2F_6C2C_6E2F_6E38_6E54_6E21_6E32),
  (0xB4E9, 0x6E67_6E4A_6E20_6E25_6E23_6E1B_6E5B_6E58_6E24_6E56_6E6E_6E2D),
  (0xB4F5, 0x6E26_6E6F_6E34_6E4D_6E3A_6E2C_6E43_6E1D_6E3E_6ECB),
  (0xB540, 0x6E89_6E19_6E4E_6E63_6E44_6E72_6E69_6E5F_7119_711A_7126_7130),
  (0xB54C, 0x7121_7136_716E_711C_724C_7284_7280_7336_7325_7334_7329_743A),
  (0xB558, 0x742A_7433_7422_7425_7435_7436_7434_742F_741B_7426_7428_7525),
  (0xB564, 0x7526_756B_756A_75E2_75DB_75E3_75D9_75D8_75DE_75E0_767B_767C),
  (0xB570, 0x7696_7693_76B4_76DC_774F_77ED_785D_786C_786F_7A0D_7A08_7A0B),
  (0xB57C, 0x7A05_7A00_7A98),
  (0xB5A1, 0x7A97_7A96_7AE5_7AE3_7B49_7B56_7B46_7B50_7B52_7B54_7B4D_7B4B),
  (0xB5AD, 0x7B4F_7B51_7C9F_7CA5_7D5E_7D50_7D68_7D55_7D2B_7D6E_7D72_7D61),
  (0xB5B9, 0x7D66_7D62_7D70_7D73_5584_7FD4_7FD5_800B_8052_8085_8155_8154),
  (0xB5C5, 0x814B_8151_814E_8139_8146_813E_814C_8153_8174_8212_821C_83E9),
  (0xB5D1, 0x8403_83F8_840D_83E0_83C5_840B_83C1_83EF_83F1_83F4_8457_840A),
  (0xB5DD, 0x83F0_840C_83CC_83FD_83F2_83CA_8438_840E_8404_83DC_8407_83D4),
  (0xB5E9, 0x83DF_865B_86DF_86D9_86ED_86D4_86DB_86E4_86D0_86DE_8857_88C1),
  (0xB5F5, 0x88C2_88B1_8983_8996_8A3B_8A60_8A55_8A5E_8A3C_8A41),
  (0xB640, 0x8A54_8A5B_8A50_8A46_8A34_8A3A_8A36_8A56_8C61_8C82_8CAF_8CBC),
  (0xB64C, 0x8CB3_8CBD_8CC1_8CBB_8CC0_8CB4_8CB7_8CB6_8CBF_8CB8_8D8A_8D85),
  (0xB658, 0x8D81_8DCE_8DDD_8DCB_8DDA_8DD1_8DCC_8DDB_8DC6_8EFB_8EF8_8EFC),
  (0xB664, 0x8F9C_902E_9035_9031_9038_9032_9036_9102_90F5_9109_90FE_9163),
  (0xB670, 0x9165_91CF_9214_9215_9223_9209_921E_920D_9210_9207_9211_9594),
  (0xB67C, 0x958F_958B_9591),
  (0xB6A1, 0x9593_9592_958E_968A_968E_968B_967D_9685_9686_968D_9672_9684),
  (0xB6AD, 0x96C1_96C5_96C4_96C6_96C7_96EF_96F2_97CC_9805_9806_9808_98E7),
  (0xB6B9, 0x98EA_98EF_98E9_98F2_98ED_99AE_99AD_9EC3_9ECD_9ED1_4E82_50AD),
  (0xB6C5, 0x50B5_50B2_50B3_50C5_50BE_50AC_50B7_50BB_50AF_50C7_527F_5277),
  (0xB6D1, 0x527D_52DF_52E6_52E4_52E2_52E3_532F_55DF_55E8_55D3_55E6_55CE),
  (0xB6DD, 0x55DC_55C7_55D1_55E3_55E4_55EF_55DA_55E1_55C5_55C6_55E5_55C9),
  (0xB6E9, 0x5712_5713_585E_5851_5858_5857_585A_5854_586B_584C_586D_584A),
  (0xB6F5, 0x5862_5852_584B_5967_5AC1_5AC9_5ACC_5ABE_5ABD_5ABC),
  (0xB740, 0x5AB3_5AC2_5AB2_5D69_5D6F_5E4C_5E79_5EC9_5EC8_5F12_5F59_5FAC),
  (0xB74C, 0x5FAE_611A_610F_6148_611F_60F3_611B_60F9_6101_6108_614E_614C),
  (0xB758, 0x6144_614D_613E_6134_6127_610D_6106_6137_6221_6222_6413_643E),
  (0xB764, 0x641E_642A_642D_643D_642C_640F_641C_6414_640D_6436_6416_6417),
  (0xB770, 0x6406_656C_659F_65B0_6697_6689_6687_6688_6696_6684_6698_668D),
  (0xB77C, 0x6703_6994_696D),
  (0xB7A1, 0x695A_6977_6960_6954_6975_6930_6982_694A_6968_696B_695E_6953),
  (0xB7AD, 0x6979_6986_695D_6963_695B_6B47_6B72_6BC0_6BBF_6BD3_6BFD_6EA2),
  (0xB7B9, 0x6EAF_6ED3_6EB6_6EC2_6E90_6E9D_6EC7_6EC5_6EA5_6E98_6EBC_6EBA),
  (0xB7C5, 0x6EAB_6ED1_6E96_6E9C_6EC4_6ED4_6EAA_6EA7_6EB4_714E_7159_7169),
  (0xB7D1, 0x7164_7149_7167_715C_716C_7166_714C_7165_715E_7146_7168_7156),
  (0xB7DD, 0x723A_7252_7337_7345_733F_733E_746F_745A_7455_745F_745E_7441),
  (0xB7E9, 0x743F_7459_745B_745C_7576_7578_7600_75F0_7601_75F2_75F1_75FA),
  (0xB7F5, 0x75FF_75F4_75F3_76DE_76DF_775B_776B_7766_775E_7763),
  (0xB840, 0x7779_776A_776C_775C_7765_7768_7762_77EE_788E_78B0_7897_7898),
  (0xB84C, 0x788C_7889_787C_7891_7893_787F_797A_797F_7981_842C_79BD_7A1C),
  (0xB858, 0x7A1A_7A20_7A14_7A1F_7A1E_7A9F_7AA0_7B77_7BC0_7B60_7B6E_7B67),
  (0xB864, 0x7CB1_7CB3_7CB5_7D93_7D79_7D91_7D81_7D8F_7D5B_7F6E_7F69_7F6A),
  (0xB870, 0x7F72_7FA9_7FA8_7FA4_8056_8058_8086_8084_8171_8170_8178_8165),
  (0xB87C, 0x816E_8173_816B),
  (0xB8A1, 0x8179_817A_8166_8205_8247_8482_8477_843D_8431_8475_8466_846B),
  (0xB8AD, 0x8449_846C_845B_843C_8435_8461_8463_8469_846D_8446_865E_865C),
  (0xB8B9, 0x865F_86F9_8713_8708_8707_8700_86FE_86FB_8702_8703_8706_870A),
  (0xB8C5, 0x8859_88DF_88D4_88D9_88DC_88D8_88DD_88E1_88CA_88D5_88D2_899C),
  (0xB8D1, 0x89E3_8A6B_8A72_8A73_8A66_8A69_8A70_8A87_8A7C_8A63_8AA0_8A71),
  (0xB8DD, 0x8A85_8A6D_8A62_8A6E_8A6C_8A79_8A7B_8A3E_8A68_8C62_8C8A_8C89),
  (0xB8E9, 0x8CCA_8CC7_8CC8_8CC4_8CB2_8CC3_8CC2_8CC5_8DE1_8DDF_8DE8_8DEF),
  (0xB8F5, 0x8DF3_8DFA_8DEA_8DE4_8DE6_8EB2_8F03_8F09_8EFE_8F0A),
  (0xB940, 0x8F9F_8FB2_904B_904A_9053_9042_9054_903C_9055_9050_9047_904F),
  (0xB94C, 0x904E_904D_9051_903E_9041_9112_9117_916C_916A_9169_91C9_9237),
  (0xB958, 0x9257_9238_923D_9240_923E_925B_924B_9264_9251_9234_9249_924D),
  (0xB964, 0x9245_9239_923F_925A_9598_9698_9694_9695_96CD_96CB_96C9_96CA),
  (0xB970, 0x96F7_96FB_96F9_96F6_9756_9774_9776_9810_9811_9813_980A_9812),
  (0xB97C, 0x980C_98FC_98F4),
  (0xB9A1, 0x98FD_98FE_99B3_99B1_99B4_9AE1_9CE9_9E82_9F0E_9F13_9F20_50E7),
  (0xB9AD, 0x50EE_50E5_50D6_50ED_50DA_50D5_50CF_50D1_50F1_50CE_50E9_5162),
  (0xB9B9, 0x51F3_5283_5282_5331_53AD_55FE_5600_561B_5617_55FD_5614_5606),
  (0xB9C5, 0x5609_560D_560E_55F7_5616_561F_5608_5610_55F6_5718_5716_5875),
  (0xB9D1, 0x587E_5883_5893_588A_5879_5885_587D_58FD_5925_5922_5924_596A),
  (0xB9DD, 0x5969_5AE1_5AE6_5AE9_5AD7_5AD6_5AD8_5AE3_5B75_5BDE_5BE7_5BE1),
  (0xB9E9, 0x5BE5_5BE6_5BE8_5BE2_5BE4_5BDF_5C0D_5C62_5D84_5D87_5E5B_5E63),
  (0xB9F5, 0x5E55_5E57_5E54_5ED3_5ED6_5F0A_5F46_5F70_5FB9_6147),
  (0xBA40, 0x613F_614B_6177_6162_6163_615F_615A_6158_6175_622A_6487_6458),
  (0xBA4C, 0x6454_64A4_6478_645F_647A_6451_6467_6434_646D_647B_6572_65A1),
  (0xBA58, 0x65D7_65D6_66A2_66A8_669D_699C_69A8_6995_69C1_69AE_69D3_69CB),
  (0xBA64, 0x699B_69B7_69BB_69AB_69B4_69D0_69CD_69AD_69CC_69A6_69C3_69A3),
  (0xBA70, 0x6B49_6B4C_6C33_6F33_6F14_6EFE_6F13_6EF4_6F29_6F3E_6F20_6F2C),
  (0xBA7C, 0x6F0F_6F02_6F22),
  (0xBAA1, 0x6EFF_6EEF_6F06_6F31_6F38_6F32_6F23_6F15_6F2B_6F2F_6F88_6F2A),
  (0xBAAD, 0x6EEC_6F01_6EF2_6ECC_6EF7_7194_7199_717D_718A_7184_7192_723E),
  (0xBAB9, 0x7292_7296_7344_7350_7464_7463_746A_7470_746D_7504_7591_7627),
  (0xBAC5, 0x760D_760B_7609_7613_76E1_76E3_7784_777D_777F_7761_78C1_789F),
  (0xBAD1, 0x78A7_78B3_78A9_78A3_798E_798F_798D_7A2E_7A31_7AAA_7AA9_7AED),
  (0xBADD, 0x7AEF_7BA1_7B95_7B8B_7B75_7B97_7B9D_7B94_7B8F_7BB8_7B87_7B84),
  (0xBAE9, 0x7CB9_7CBD_7CBE_7DBB_7DB0_7D9C_7DBD_7DBE_7DA0_7DCA_7DB4_7DB2),
  (0xBAF5, 0x7DB1_7DBA_7DA2_7DBF_7DB5_7DB8_7DAD_7DD2_7DC7_7DAC),
  (0xBB40, 0x7F70_7FE0_7FE1_7FDF_805E_805A_8087_8150_8180_818F_8188_818A),
  (0xBB4C, 0x817F_8182_81E7_81FA_8207_8214_821E_824B_84C9_84BF_84C6_84C4),
  (0xBB58, 0x8499_849E_84B2_849C_84CB_84B8_84C0_84D3_8490_84BC_84D1_84CA),
  (0xBB64, 0x873F_871C_873B_8722_8725_8734_8718_8755_8737_8729_88F3_8902),
  (0xBB70, 0x88F4_88F9_88F8_88FD_88E8_891A_88EF_8AA6_8A8C_8A9E_8AA3_8A8D),
  (0xBB7C, 0x8AA1_8A93_8AA4),
  (0xBBA1, 0x8AAA_8AA5_8AA8_8A98_8A91_8A9A_8AA7_8C6A_8C8D_8C8C_8CD3_8CD1),
  (0xBBAD, 0x8CD2_8D6B_8D99_8D95_8DFC_8F14_8F12_8F15_8F13_8FA3_9060_9058),
  (0xBBB9, 0x905C_9063_9059_905E_9062_905D_905B_9119_9118_911E_9175_9178),
  (0xBBC5, 0x9177_9174_9278_9280_9285_9298_9296_927B_9293_929C_92A8_927C),
  (0xBBD1, 0x9291_95A1_95A8_95A9_95A3_95A5_95A4_9699_969C_969B_96CC_96D2),
  (0xBBDD, 0x9700_977C_9785_97F6_9817_9818_98AF_98B1_9903_9905_990C_9909),
  (0xBBE9, 0x99C1_9AAF_9AB0_9AE6_9B41_9B42_9CF4_9CF6_9CF3_9EBC_9F3B_9F4A),
  (0xBBF5, 0x5104_5100_50FB_50F5_50F9_5102_5108_5109_5105_51DC),
  (0xBC40, 0x5287_5288_5289_528D_528A_52F0_53B2_562E_563B_5639_5632_563F),
  (0xBC4C, 0x5634_5629_5653_564E_5657_5674_5636_562F_5630_5880_589F_589E),
  (0xBC58, 0x58B3_589C_58AE_58A9_58A6_596D_5B09_5AFB_5B0B_5AF5_5B0C_5B08),
  (0xBC64, 0x5BEE_5BEC_5BE9_5BEB_5C64_5C65_5D9D_5D94_5E62_5E5F_5E61_5EE2),
  (0xBC70, 0x5EDA_5EDF_5EDD_5EE3_5EE0_5F48_5F71_5FB7_5FB5_6176_6167_616E),
  (0xBC7C, 0x615D_6155_6182),
  (0xBCA1, 0x617C_6170_616B_617E_61A7_6190_61AB_618E_61AC_619A_61A4_6194),
  (0xBCAD, 0x61AE_622E_6469_646F_6479_649E_64B2_6488_6490_64B0_64A5_6493),
  (0xBCB9, 0x6495_64A9_6492_64AE_64AD_64AB_649A_64AC_6499_64A2_64B3_6575),
  (0xBCC5, 0x6577_6578_66AE_66AB_66B4_66B1_6A23_6A1F_69E8_6A01_6A1E_6A19),
  (0xBCD1, 0x69FD_6A21_6A13_6A0A_69F3_6A02_6A05_69ED_6A11_6B50_6B4E_6BA4),
  (0xBCDD, 0x6BC5_6BC6_6F3F_6F7C_6F84_6F51_6F66_6F54_6F86_6F6D_6F5B_6F78),
  (0xBCE9, 0x6F6E_6F8E_6F7A_6F70_6F64_6F97_6F58_6ED5_6F6F_6F60_6F5F_719F),
  (0xBCF5, 0x71AC_71B1_71A8_7256_729B_734E_7357_7469_748B_7483),
  (0xBD40, 0x747E_7480_757F_7620_7629_761F_7624_7626_7621_7622_769A_76BA),
  (0xBD4C, 0x76E4_778E_7787_778C_7791_778B_78CB_78C5_78BA_78CA_78BE_78D5),
  (0xBD58, 0x78BC_78D0_7A3F_7A3C_7A40_7A3D_7A37_7A3B_7AAF_7AAE_7BAD_7BB1),
  (0xBD64, 0x7BC4_7BB4_7BC6_7BC7_7BC1_7BA0_7BCC_7CCA_7DE0_7DF4_7DEF_7DFB),
  (0xBD70, 0x7DD8_7DEC_7DDD_7DE8_7DE3_7DDA_7DDE_7DE9_7D9E_7DD9_7DF2_7DF9),
  (0xBD7C, 0x7F75_7F77_7FAF),
  (0xBDA1, 0x7FE9_8026_819B_819C_819D_81A0_819A_8198_8517_853D_851A_84EE),
  (0xBDAD, 0x852C_852D_8513_8511_8523_8521_8514_84EC_8525_84FF_8506_8782),
  (0xBDB9, 0x8774_8776_8760_8766_8778_8768_8759_8757_874C_8753_885B_885D),
  (0xBDC5, 0x8910_8907_8912_8913_8915_890A_8ABC_8AD2_8AC7_8AC4_8A95_8ACB),
  (0xBDD1, 0x8AF8_8AB2_8AC9_8AC2_8ABF_8AB0_8AD6_8ACD_8AB6_8AB9_8ADB_8C4C),
  (0xBDDD, 0x8C4E_8C6C_8CE0_8CDE_8CE6_8CE4_8CEC_8CED_8CE2_8CE3_8CDC_8CEA),
  (0xBDE9, 0x8CE1_8D6D_8D9F_8DA3_8E2B_8E10_8E1D_8E22_8E0F_8E29_8E1F_8E21),
  (0xBDF5, 0x8E1E_8EBA_8F1D_8F1B_8F1F_8F29_8F26_8F2A_8F1C_8F1E),
  (0xBE40, 0x8F25_9069_906E_9068_906D_9077_9130_912D_9127_9131_9187_9189),
  (0xBE4C, 0x918B_9183_92C5_92BB_92B7_92EA_92AC_92E4_92C1_92B3_92BC_92D2),
  (0xBE58, 0x92C7_92F0_92B2_95AD_95B1_9704_9706_9707_9709_9760_978D_978B),
  (0xBE64, 0x978F_9821_982B_981C_98B3_990A_9913_9912_9918_99DD_99D0_99DF),
  (0xBE70, 0x99DB_99D1_99D5_99D2_99D9_9AB7_9AEE_9AEF_9B27_9B45_9B44_9B77),
  (0xBE7C, 0x9B6F_9D06_9D09),
  (0xBEA1, 0x9D03_9EA9_9EBE_9ECE_58A8_9F52_5112_5118_5114_5110_5115_5180),
  (0xBEAD, 0x51AA_51DD_5291_5293_52F3_5659_566B_5679_5669_5664_5678_566A),
  (0xBEB9, 0x5668_5665_5671_566F_566C_5662_5676_58C1_58BE_58C7_58C5_596E),
  (0xBEC5, 0x5B1D_5B34_5B78_5BF0_5C0E_5F4A_61B2_6191_61A9_618A_61CD_61B6),
  (0xBED1, 0x61BE_61CA_61C8_6230_64C5_64C1_64CB_64BB_64BC_64DA_64C4_64C7),
  (0xBEDD, 0x64C2_64CD_64BF_64D2_64D4_64BE_6574_66C6_66C9_66B9_66C4_66C7),
  (0xBEE9, 0x66B8_6A3D_6A38_6A3A_6A59_6A6B_6A58_6A39_6A44_6A62_6A61_6A4B),
  (0xBEF5, 0x6A47_6A35_6A5F_6A48_6B59_6B77_6C05_6FC2_6FB1_6FA1),
  (0xBF40, 0x6FC3_6FA4_6FC1_6FA7_6FB3_6FC0_6FB9_6FB6_6FA6_6FA0_6FB4_71BE),
  (0xBF4C, 0x71C9_71D0_71D2_71C8_71D5_71B9_71CE_71D9_71DC_71C3_71C4_7368),
  (0xBF58, 0x749C_74A3_7498_749F_749E_74E2_750C_750D_7634_7638_763A_76E7),
  (0xBF64, 0x76E5_77A0_779E_779F_77A5_78E8_78DA_78EC_78E7_79A6_7A4D_7A4E),
  (0xBF70, 0x7A46_7A4C_7A4B_7ABA_7BD9_7C11_7BC9_7BE4_7BDB_7BE1_7BE9_7BE6),
  (0xBF7C, 0x7CD5_7CD6_7E0A),
  (0xBFA1, 0x7E11_7E08_7E1B_7E23_7E1E_7E1D_7E09_7E10_7F79_7FB2_7FF0_7FF1),
  (0xBFAD, 0x7FEE_8028_81B3_81A9_81A8_81FB_8208_8258_8259_854A_8559_8548),
  (0xBFB9, 0x8568_8569_8543_8549_856D_856A_855E_8783_879F_879E_87A2_878D),
  (0xBFC5, 0x8861_892A_8932_8925_892B_8921_89AA_89A6_8AE6_8AFA_8AEB_8AF1),
  (0xBFD1, 0x8B00_8ADC_8AE7_8AEE_8AFE_8B01_8B02_8AF7_8AED_8AF3_8AF6_8AFC),
  (0xBFDD, 0x8C6B_8C6D_8C93_8CF4_8E44_8E31_8E34_8E42_8E39_8E35_8F3B_8F2F),
  (0xBFE9, 0x8F38_8F33_8FA8_8FA6_9075_9074_9078_9072_907C_907A_9134_9192),
  (0xBFF5, 0x9320_9336_92F8_9333_932F_9322_92FC_932B_9304_931A),
  (0xC040, 0x9310_9326_9321_9315_932E_9319_95BB_96A7_96A8_96AA_96D5_970E),
  (0xC04C, 0x9711_9716_970D_9713_970F_975B_975C_9766_9798_9830_9838_983B),
  (0xC058, 0x9837_982D_9839_9824_9910_9928_991E_991B_9921_991A_99ED_99E2),
  (0xC064, 0x99F1_9AB8_9ABC_9AFB_9AED_9B28_9B91_9D15_9D23_9D26_9D28_9D12),
  (0xC070, 0x9D1B_9ED8_9ED4_9F8D_9F9C_512A_511F_5121_5132_52F5_568E_5680),
  (0xC07C, 0x5690_5685_5687),
  (0xC0A1, 0x568F_58D5_58D3_58D1_58CE_5B30_5B2A_5B24_5B7A_5C37_5C68_5DBC),
  (0xC0AD, 0x5DBA_5DBD_5DB8_5E6B_5F4C_5FBD_61C9_61C2_61C7_61E6_61CB_6232),
  (0xC0B9, 0x6234_64CE_64CA_64D8_64E0_64F0_64E6_64EC_64F1_64E2_64ED_6582),
  (0xC0C5, 0x6583_66D9_66D6_6A80_6A94_6A84_6AA2_6A9C_6ADB_6AA3_6A7E_6A97),
  (0xC0D1, 0x6A90_6AA0_6B5C_6BAE_6BDA_6C08_6FD8_6FF1_6FDF_6FE0_6FDB_6FE4),
  (0xC0DD, 0x6FEB_6FEF_6F80_6FEC_6FE1_6FE9_6FD5_6FEE_6FF0_71E7_71DF_71EE),
  (0xC0E9, 0x71E6_71E5_71ED_71EC_71F4_71E0_7235_7246_7370_7372_74A9_74B0),
  (0xC0F5, 0x74A6_74A8_7646_7642_764C_76EA_77B3_77AA_77B0_77AC),
  (0xC140, 0x77A7_77AD_77EF_78F7_78FA_78F4_78EF_7901_79A7_79AA_7A57_7ABF),
  (0xC14C, 0x7C07_7C0D_7BFE_7BF7_7C0C_7BE0_7CE0_7CDC_7CDE_7CE2_7CDF_7CD9),
  (0xC158, 0x7CDD_7E2E_7E3E_7E46_7E37_7E32_7E43_7E2B_7E3D_7E31_7E45_7E41),
  (0xC164, 0x7E34_7E39_7E48_7E35_7E3F_7E2F_7F44_7FF3_7FFC_8071_8072_8070),
  (0xC170, 0x806F_8073_81C6_81C3_81BA_81C2_81C0_81BF_81BD_81C9_81BE_81E8),
  (0xC17C, 0x8209_8271_85AA),
  (0xC1A1, 0x8584_857E_859C_8591_8594_85AF_859B_8587_85A8_858A_8667_87C0),
  (0xC1AD, 0x87D1_87B3_87D2_87C6_87AB_87BB_87BA_87C8_87CB_893B_8936_8944),
  (0xC1B9, 0x8938_893D_89AC_8B0E_8B17_8B19_8B1B_8B0A_8B20_8B1D_8B04_8B10),
  (0xC1C5, 0x8C41_8C3F_8C73_8CFA_8CFD_8CFC_8CF8_8CFB_8DA8_8E49_8E4B_8E48),
  (0xC1D1, 0x8E4A_8F44_8F3E_8F42_8F45_8F3F_907F_907D_9084_9081_9082_9080),
  (0xC1DD, 0x9139_91A3_919E_919C_934D_9382_9328_9375_934A_9365_934B_9318),
  (0xC1E9, 0x937E_936C_935B_9370_935A_9354_95CA_95CB_95CC_95C8_95C6_96B1),
  (0xC1F5, 0x96B8_96D6_971C_971E_97A0_97D3_9846_98B6_9935_9A01),
  (0xC240, 0x99FF_9BAE_9BAB_9BAA_9BAD_9D3B_9D3F_9E8B_9ECF_9EDE_9EDC_9EDD),
  (0xC24C, 0x9EDB_9F3E_9F4B_53E2_5695_56AE_58D9_58D8_5B38_5F5D_61E3_6233),
  (0xC258, 0x64F4_64F2_64FE_6506_64FA_64FB_64F7_65B7_66DC_6726_6AB3_6AAC),
  (0xC264, 0x6AC3_6ABB_6AB8_6AC2_6AAE_6AAF_6B5F_6B78_6BAF_7009_700B_6FFE),
  (0xC270, 0x7006_6FFA_7011_700F_71FB_71FC_71FE_71F8_7377_7375_74A7_74BF),
  (0xC27C, 0x7515_7656_7658),
  (0xC2A1, 0x7652_77BD_77BF_77BB_77BC_790E_79AE_7A61_7A62_7A60_7AC4_7AC5),
  (0xC2AD, 0x7C2B_7C27_7C2A_7C1E_7C23_7C21_7CE7_7E54_7E55_7E5E_7E5A_7E61),
  (0xC2B9, 0x7E52_7E59_7F48_7FF9_7FFB_8077_8076_81CD_81CF_820A_85CF_85A9),
  (0xC2C5, 0x85CD_85D0_85C9_85B0_85BA_85B9_85A6_87EF_87EC_87F2_87E0_8986),
  (0xC2D1, 0x89B2_89F4_8B28_8B39_8B2C_8B2B_8C50_8D05_8E59_8E63_8E66_8E64),
  (0xC2DD, 0x8E5F_8E55_8EC0_8F49_8F4D_9087_9083_9088_91AB_91AC_91D0_9394),
  (0xC2E9, 0x938A_9396_93A2_93B3_93AE_93AC_93B0_9398_939A_9397_95D4_95D6),
  (0xC2F5, 0x95D0_95D5_96E2_96DC_96D9_96DB_96DE_9724_97A3_97A6),
  (0xC340, 0x97AD_97F9_984D_984F_984C_984E_9853_98BA_993E_993F_993D_992E),
  (0xC34C, 0x99A5_9A0E_9AC1_9B03_9B06_9B4F_9B4E_9B4D_9BCA_9BC9_9BFD_9BC8),
  (0xC358, 0x9BC0_9D51_9D5D_9D60_9EE0_9F15_9F2C_5133_56A5_58DE_58DF_58E2),
  (0xC364, 0x5BF5_9F90_5EEC_61F2_61F7_61F6_61F5_6500_650F_66E0_66DD_6AE5),
  (0xC370, 0x6ADD_6ADA_6AD3_701B_701F_7028_701A_701D_7015_7018_7206_720D),
  (0xC37C, 0x7258_72A2_7378),
  (0xC3A1, 0x737A_74BD_74CA_74E3_7587_7586_765F_7661_77C7_7919_79B1_7A6B),
  (0xC3AD, 0x7A69_7C3E_7C3F_7C38_7C3D_7C37_7C40_7E6B_7E6D_7E79_7E69_7E6A),
  (0xC3B9, 0x7F85_7E73_7FB6_7FB9_7FB8_81D8_85E9_85DD_85EA_85D5_85E4_85E5),
  (0xC3C5, 0x85F7_87FB_8805_880D_87F9_87FE_8960_895F_8956_895E_8B41_8B5C),
  (0xC3D1, 0x8B58_8B49_8B5A_8B4E_8B4F_8B46_8B59_8D08_8D0A_8E7C_8E72_8E87),
  (0xC3DD, 0x8E76_8E6C_8E7A_8E74_8F54_8F4E_8FAD_908A_908B_91B1_91AE_93E1),
  (0xC3E9, 0x93D1_93DF_93C3_93C8_93DC_93DD_93D6_93E2_93CD_93D8_93E4_93D7),
  (0xC3F5, 0x93E8_95DC_96B4_96E3_972A_9727_9761_97DC_97FB_985E),
  (0xC440, 0x9858_985B_98BC_9945_9949_9A16_9A19_9B0D_9BE8_9BE7_9BD6_9BDB),
  (0xC44C, 0x9D89_9D61_9D72_9D6A_9D6C_9E92_9E97_9E93_9EB4_52F8_56A8_56B7),
  (0xC458, 0x56B6_56B4_56BC_58E4_5B40_5B43_5B7D_5BF6_5DC9_61F8_61FA_6518),
  (0xC464, 0x6514_6519_66E6_6727_6AEC_703E_7030_7032_7210_737B_74CF_7662),
  (0xC470, 0x7665_7926_792A_792C_792B_7AC7_7AF6_7C4C_7C43_7C4D_7CEF_7CF0),
  (0xC47C, 0x8FAE_7E7D_7E7C),
  (0xC4A1, 0x7E82_7F4C_8000_81DA_8266_85FB_85F9_8611_85FA_8606_860B_8607),
  (0xC4AD, 0x860A_8814_8815_8964_89BA_89F8_8B70_8B6C_8B66_8B6F_8B5F_8B6B),
  (0xC4B9, 0x8D0F_8D0D_8E89_8E81_8E85_8E82_91B4_91CB_9418_9403_93FD_95E1),
  (0xC4C5, 0x9730_98C4_9952_9951_99A8_9A2B_9A30_9A37_9A35_9C13_9C0D_9E79),
  (0xC4D1, 0x9EB5_9EE8_9F2F_9F5F_9F63_9F61_5137_5138_56C1_56C0_56C2_5914),
  (0xC4DD, 0x5C6C_5DCD_61FC_61FE_651D_651C_6595_66E9_6AFB_6B04_6AFA_6BB2),
  (0xC4E9, 0x704C_721B_72A7_74D6_74D4_7669_77D3_7C50_7E8F_7E8C_7FBC_8617),
  (0xC4F5, 0x862D_861A_8823_8822_8821_881F_896A_896C_89BD_8B74),
  (0xC540, 0x8B77_8B7D_8D13_8E8A_8E8D_8E8B_8F5F_8FAF_91BA_942E_9433_9435),
  (0xC54C, 0x943A_9438_9432_942B_95E2_9738_9739_9732_97FF_9867_9865_9957),
  (0xC558, 0x9A45_9A43_9A40_9A3E_9ACF_9B54_9B51_9C2D_9C25_9DAF_9DB4_9DC2),
  (0xC564, 0x9DB8_9E9D_9EEF_9F19_9F5C_9F66_9F67_513C_513B_56C8_56CA_56C9),
  (0xC570, 0x5B7F_5DD4_5DD2_5F4E_61FF_6524_6B0A_6B61_7051_7058_7380_74E4),
  (0xC57C, 0x758A_766E_766C),
  (0xC5A1, 0x79B3_7C60_7C5F_807E_807D_81DF_8972_896F_89FC_8B80_8D16_8D17),
  (0xC5AD, 0x8E91_8E93_8F61_9148_9444_9451_9452_973D_973E_97C3_97C1_986B),
  (0xC5B9, 0x9955_9A55_9A4D_9AD2_9B1A_9C49_9C31_9C3E_9C3B_9DD3_9DD7_9F34),
  (0xC5C5, 0x9F6C_9F6A_9F94_56CC_5DD6_6200_6523_652B_652A_66EC_6B10_74DA),
  (0xC5D1, 0x7ACA_7C64_7C63_7C65_7E93_7E96_7E94_81E2_8638_863F_8831_8B8A),
  (0xC5DD, 0x9090_908F_9463_9460_9464_9768_986F_995C_9A5A_9A5B_9A57_9AD3),
  (0xC5E9, 0x9AD4_9AD1_9C54_9C57_9C56_9DE5_9E9F_9EF4_56D1_58E9_652C_705E),
  (0xC5F5, 0x7671_7672_77D7_7F50_7F88_8836_8839_8862_8B93_8B92),
  (0xC640, 0x8B96_8277_8D1B_91C0_946A_9742_9748_9744_97C6_9870_9A5F_9B22),
  (0xC64C, 0x9B58_9C5F_9DF9_9DFA_9E7C_9E7D_9F07_9F77_9F72_5EF3_6B16_7063),
  (0xC658, 0x7C6C_7C6E_883B_89C0_8EA1_91C1_9472_9470_9871_995E_9AD6_9B23),
  (0xC664, 0x9ECC_7064_77DA_8B9A_9477_97C9_9A62_9A65_7E9C_8B9C_8EAA_91C5),
  (0xC670, 0x947D_947E_947C_9C77_9C78_9EF7_8C54_947F_9E1A_7228_9A6A_9B31),
  (0xC67C, 0x9E1B_9E1E_7C72),
  (0xC6A1, 0x2460_2461_2462_2463_2464_2465_2466_2467_2468_2469_2474_2475),
  (0xC6AD, 0x2476_2477_2478_2479_247A_247B_247C_247D_2170_2171_2172_2173),
  (0xC6B9, 0x2174_2175_2176_2177_2178_2179_4E36_4E3F_4E85_4EA0_5182_5196),
  (0xC6C5, 0x51AB_52F9_5338_5369_53B6_590A_5B80_5DDB_5E7A_5E7F_5EF4_5F50),
  (0xC6D1, 0x5F61_6534_65E0_7592_7676_8FB5_96B6_00A8_02C6_30FD_30FE_309D),
  (0xC6DD, 0x309E_3003_4EDD_3005_3006_3007_30FC_FF3B_FF3D_273D_3041_3042),
  (0xC6E9, 0x3043_3044_3045_3046_3047_3048_3049_304A_304B_304C_304D_304E),
  (0xC6F5, 0x304F_3050_3051_3052_3053_3054_3055_3056_3057_3058),
  (0xC740, 0x3059_305A_305B_305C_305D_305E_305F_3060_3061_3062_3063_3064),
  (0xC74C, 0x3065_3066_3067_3068_3069_306A_306B_306C_306D_306E_306F_3070),
  (0xC758, 0x3071_3072_3073_3074_3075_3076_3077_3078_3079_307A_307B_307C),
  (0xC764, 0x307D_307E_307F_3080_3081_3082_3083_3084_3085_3086_3087_3088),
  (0xC770, 0x3089_308A_308B_308C_308D_308E_308F_3090_3091_3092_3093_30A1),
  (0xC77C, 0x30A2_30A3_30A4),
  (0xC7A1, 0x30A5_30A6_30A7_30A8_30A9_30AA_30AB_30AC_30AD_30AE_30AF_30B0),
  (0xC7AD, 0x30B1_30B2_30B3_30B4_30B5_30B6_30B7_30B8_30B9_30BA_30BB_30BC),
  (0xC7B9, 0x30BD_30BE_30BF_30C0_30C1_30C2_30C3_30C4_30C5_30C6_30C7_30C8),
  (0xC7C5, 0x30C9_30CA_30CB_30CC_30CD_30CE_30CF_30D0_30D1_30D2_30D3_30D4),
  (0xC7D1, 0x30D5_30D6_30D7_30D8_30D9_30DA_30DB_30DC_30DD_30DE_30DF_30E0),
  (0xC7DD, 0x30E1_30E2_30E3_30E4_30E5_30E6_30E7_30E8_30E9_30EA_30EB_30EC),
  (0xC7E9, 0x30ED_30EE_30EF_30F0_30F1_30F2_30F3_30F4_30F5_30F6_0410_0411),
  (0xC7F5, 0x0412_0413_0414_0415_0401_0416_0417_0418_0419_041A),
  (0xC840, 0x041B_041C_041D_041E_041F_0420_0421_0422_0423_0424_0425_0426),
  (0xC84C, 0x0427_0428_0429_042A_042B_042C_042D_042E_042F_0430_0431_0432),
  (0xC858, 0x0433_0434_0435_0451_0436_0437_0438_0439_043A_043B_043C_043D),
  (0xC864, 0x043E_043F_0440_0441_0442_0443_0444_0445_0446_0447_0448_0449),
  (0xC870, 0x044A_044B_044C_044D_044E_044F_21E7_21B8_21B9_31CF_F7E6_4E5A),
  (0xC87C, 0xF7E8_5202_4491),
  (0xC8A1, 0x9FB0_5188_9FB1_F7EE_F7EF_F7F0_F7F1_F7F2_F7F3_F7F4_F7F5_F7F6),
  (0xC8AD, 0xF7F7_F7F8_F7F9_F7FA_309B_309C_3094_30F7_30F8_30F9_30FA_30FB),
  (0xC8B9, 0xFF61_FF62_FF63_FF64_FF65_FF66_FF67_FF68_FF69_FF6A_FF6B_FF6C),
  (0xC8C5, 0xFF6D_FF6E_FF6F_FF70_FF71_FF72_FF73_FF74_FFE2_FFE4_FF07_FF02),
  (0xC8D1, 0x3231_2116_2121_FF75_FF76_FF77_FF78_FF79_FF7A_FF7B_FF7C_FF7D),
  (0xC8DD, 0xFF7E_FF7F_FF80_FF81_FF82_FF83_FF84_FF85_FF86_FF87_FF88_FF89),
  (0xC8E9, 0xFF8A_FF8B_FF8C_FF8D_FF8E_FF8F_FF90_FF91_FF92_FF93_FF94_FF95),
  (0xC8F5, 0xFF96_FF97_FF98_FF99_FF9A_FF9B_FF9C_FF9D_FF9E_FF9F),
  (0xC940, 0x4E42_4E5C_51F5_531A_5382_4E07_4E0C_4E47_4E8D_56D7_FA0C_5C6E),
  (0xC94C, 0x5F73_4E0F_5187_4E0E_4E2E_4E93_4EC2_4EC9_4EC8_5198_52FC_536C),
  (0xC958, 0x53B9_5720_5903_592C_5C10_5DFF_65E1_6BB3_6BCC_6C14_723F_4E31),
  (0xC964, 0x4E3C_4EE8_4EDC_4EE9_4EE1_4EDD_4EDA_520C_531C_534C_5722_5723),
  (0xC970, 0x5917_592F_5B81_5B84_5C12_5C3B_5C74_5C73_5E04_5E80_5E82_5FC9),
  (0xC97C, 0x6209_6250_6C15),
  (0xC9A1, 0x6C36_6C43_6C3F_6C3B_72AE_72B0_738A_79B8_808A_961E_4F0E_4F18),
  (0xC9AD, 0x4F2C_4EF5_4F14_4EF1_4F00_4EF7_4F08_4F1D_4F02_4F05_4F22_4F13),
  (0xC9B9, 0x4F04_4EF4_4F12_51B1_5213_5209_5210_52A6_5322_531F_534D_538A),
  (0xC9C5, 0x5407_56E1_56DF_572E_572A_5734_593C_5980_597C_5985_597B_597E),
  (0xC9D1, 0x5977_597F_5B56_5C15_5C25_5C7C_5C7A_5C7B_5C7E_5DDF_5E75_5E84),
  (0xC9DD, 0x5F02_5F1A_5F74_5FD5_5FD4_5FCF_625C_625E_6264_6261_6266_6262),
  (0xC9E9, 0x6259_6260_625A_6265_65EF_65EE_673E_6739_6738_673B_673A_673F),
  (0xC9F5, 0x673C_6733_6C18_6C46_6C52_6C5C_6C4F_6C4A_6C54_6C4B),
  (0xCA40, 0x6C4C_7071_725E_72B4_72B5_738E_752A_767F_7A75_7F51_8278_827C),
  (0xCA4C, 0x8280_827D_827F_864D_897E_9099_9097_9098_909B_9094_9622_9624),
  (0xCA58, 0x9620_9623_4F56_4F3B_4F62_4F49_4F53_4F64_4F3E_4F67_4F52_4F5F),
  (0xCA64, 0x4F41_4F58_4F2D_4F33_4F3F_4F61_518F_51B9_521C_521E_5221_52AD),
  (0xCA70, 0x52AE_5309_5363_5372_538E_538F_5430_5437_542A_5454_5445_5419),
  (0xCA7C, 0x541C_5425_5418),
  (0xCAA1, 0x543D_544F_5441_5428_5424_5447_56EE_56E7_56E5_5741_5745_574C),
  (0xCAAD, 0x5749_574B_5752_5906_5940_59A6_5998_59A0_5997_598E_59A2_5990),
  (0xCAB9, 0x598F_59A7_59A1_5B8E_5B92_5C28_5C2A_5C8D_5C8F_5C88_5C8B_5C89),
  (0xCAC5, 0x5C92_5C8A_5C86_5C93_5C95_5DE0_5E0A_5E0E_5E8B_5E89_5E8C_5E88),
  (0xCAD1, 0x5E8D_5F05_5F1D_5F78_5F76_5FD2_5FD1_5FD0_5FED_5FE8_5FEE_5FF3),
  (0xCADD, 0x5FE1_5FE4_5FE3_5FFA_5FEF_5FF7_5FFB_6000_5FF4_623A_6283_628C),
  (0xCAE9, 0x628E_628F_6294_6287_6271_627B_627A_6270_6281_6288_6277_627D),
  (0xCAF5, 0x6272_6274_6537_65F0_65F4_65F3_65F2_65F5_6745_6747),
  (0xCB40, 0x6759_6755_674C_6748_675D_674D_675A_674B_6BD0_6C19_6C1A_6C78),
  (0xCB4C, 0x6C67_6C6B_6C84_6C8B_6C8F_6C71_6C6F_6C69_6C9A_6C6D_6C87_6C95),
  (0xCB58, 0x6C9C_6C66_6C73_6C65_6C7B_6C8E_7074_707A_7263_72BF_72BD_72C3),
  (0xCB64, 0x72C6_72C1_72BA_72C5_7395_7397_7393_7394_7392_753A_7539_7594),
  (0xCB70, 0x7595_7681_793D_8034_8095_8099_8090_8092_809C_8290_828F_8285),
  (0xCB7C, 0x828E_8291_8293),
  (0xCBA1, 0x828A_8283_8284_8C78_8FC9_8FBF_909F_90A1_90A5_909E_90A7_90A0),
  (0xCBAD, 0x9630_9628_962F_962D_4E33_4F98_4F7C_4F85_4F7D_4F80_4F87_4F76),
  (0xCBB9, 0x4F74_4F89_4F84_4F77_4F4C_4F97_4F6A_4F9A_4F79_4F81_4F78_4F90),
  (0xCBC5, 0x4F9C_4F94_4F9E_4F92_4F82_4F95_4F6B_4F6E_519E_51BC_51BE_5235),
  (0xCBD1, 0x5232_5233_5246_5231_52BC_530A_530B_533C_5392_5394_5487_547F),
  (0xCBDD, 0x5481_5491_5482_5488_546B_547A_547E_5465_546C_5474_5466_548D),
  (0xCBE9, 0x546F_5461_5460_5498_5463_5467_5464_56F7_56F9_576F_5772_576D),
  (0xCBF5, 0x576B_5771_5770_5776_5780_5775_577B_5773_5774_5762),
  (0xCC40, 0x5768_577D_590C_5945_59B5_59BA_59CF_59CE_59B2_59CC_59C1_59B6),
  (0xCC4C, 0x59BC_59C3_59D6_59B1_59BD_59C0_59C8_59B4_59C7_5B62_5B65_5B93),
  (0xCC58, 0x5B95_5C44_5C47_5CAE_5CA4_5CA0_5CB5_5CAF_5CA8_5CAC_5C9F_5CA3),
  (0xCC64, 0x5CAD_5CA2_5CAA_5CA7_5C9D_5CA5_5CB6_5CB0_5CA6_5E17_5E14_5E19),
  (0xCC70, 0x5F28_5F22_5F23_5F24_5F54_5F82_5F7E_5F7D_5FDE_5FE5_602D_6026),
  (0xCC7C, 0x6019_6032_600B),
  (0xCCA1, 0x6034_600A_6017_6033_601A_601E_602C_6022_600D_6010_602E_6013),
  (0xCCAD, 0x6011_600C_6009_601C_6214_623D_62AD_62B4_62D1_62BE_62AA_62B6),
  (0xCCB9, 0x62CA_62AE_62B3_62AF_62BB_62A9_62B0_62B8_653D_65A8_65BB_6609),
  (0xCCC5, 0x65FC_6604_6612_6608_65FB_6603_660B_660D_6605_65FD_6611_6610),
  (0xCCD1, 0x66F6_670A_6785_676C_678E_6792_6776_677B_6798_6786_6784_6774),
  (0xCCDD, 0x678D_678C_677A_679F_6791_6799_6783_677D_6781_6778_6779_6794),
  (0xCCE9, 0x6B25_6B80_6B7E_6BDE_6C1D_6C93_6CEC_6CEB_6CEE_6CD9_6CB6_6CD4),
  (0xCCF5, 0x6CAD_6CE7_6CB7_6CD0_6CC2_6CBA_6CC3_6CC6_6CED_6CF2),
  (0xCD40, 0x6CD2_6CDD_6CB4_6C8A_6C9D_6C80_6CDE_6CC0_6D30_6CCD_6CC7_6CB0),
  (0xCD4C, 0x6CF9_6CCF_6CE9_6CD1_7094_7098_7085_7093_7086_7084_7091_7096),
  (0xCD58, 0x7082_709A_7083_726A_72D6_72CB_72D8_72C9_72DC_72D2_72D4_72DA),
  (0xCD64, 0x72CC_72D1_73A4_73A1_73AD_73A6_73A2_73A0_73AC_739D_74DD_74E8),
  (0xCD70, 0x753F_7540_753E_758C_7598_76AF_76F3_76F1_76F0_76F5_77F8_77FC),
  (0xCD7C, 0x77F9_77FB_77FA),
  (0xCDA1, 0x77F7_7942_793F_79C5_7A78_7A7B_7AFB_7C75_7CFD_8035_808F_80AE),
  (0xCDAD, 0x80A3_80B8_80B5_80AD_8220_82A0_82C0_82AB_829A_8298_829B_82B5),
  (0xCDB9, 0x82A7_82AE_82BC_829E_82BA_82B4_82A8_82A1_82A9_82C2_82A4_82C3),
  (0xCDC5, 0x82B6_82A2_8670_866F_866D_866E_8C56_8FD2_8FCB_8FD3_8FCD_8FD6),
  (0xCDD1, 0x8FD5_8FD7_90B2_90B4_90AF_90B3_90B0_9639_963D_963C_963A_9643),
  (0xCDDD, 0x4FCD_4FC5_4FD3_4FB2_4FC9_4FCB_4FC1_4FD4_4FDC_4FD9_4FBB_4FB3),
  (0xCDE9, 0x4FDB_4FC7_4FD6_4FBA_4FC0_4FB9_4FEC_5244_5249_52C0_52C2_533D),
  (0xCDF5, 0x537C_5397_5396_5399_5398_54BA_54A1_54AD_54A5_54CF),
  (0xCE40, 0x54C3_830D_54B7_54AE_54D6_54B6_54C5_54C6_54A0_5470_54BC_54A2),
  (0xCE4C, 0x54BE_5472_54DE_54B0_57B5_579E_579F_57A4_578C_5797_579D_579B),
  (0xCE58, 0x5794_5798_578F_5799_57A5_579A_5795_58F4_590D_5953_59E1_59DE),
  (0xCE64, 0x59EE_5A00_59F1_59DD_59FA_59FD_59FC_59F6_59E4_59F2_59F7_59DB),
  (0xCE70, 0x59E9_59F3_59F5_59E0_59FE_59F4_59ED_5BA8_5C4C_5CD0_5CD8_5CCC),
  (0xCE7C, 0x5CD7_5CCB_5CDB),
  (0xCEA1, 0x5CDE_5CDA_5CC9_5CC7_5CCA_5CD6_5CD3_5CD4_5CCF_5CC8_5CC6_5CCE),
  (0xCEAD, 0x5CDF_5CF8_5DF9_5E21_5E22_5E23_5E20_5E24_5EB0_5EA4_5EA2_5E9B),
  (0xCEB9, 0x5EA3_5EA5_5F07_5F2E_5F56_5F86_6037_6039_6054_6072_605E_6045),
  (0xCEC5, 0x6053_6047_6049_605B_604C_6040_6042_605F_6024_6044_6058_6066),
  (0xCED1, 0x606E_6242_6243_62CF_630D_630B_62F5_630E_6303_62EB_62F9_630F),
  (0xCEDD, 0x630C_62F8_62F6_6300_6313_6314_62FA_6315_62FB_62F0_6541_6543),
  (0xCEE9, 0x65AA_65BF_6636_6621_6632_6635_661C_6626_6622_6633_662B_663A),
  (0xCEF5, 0x661D_6634_6639_662E_670F_6710_67C1_67F2_67C8_67BA),
  (0xCF40, 0x67DC_67BB_67F8_67D8_67C0_67B7_67C5_67EB_67E4_67DF_67B5_67CD),
  (0xCF4C, 0x67B3_67F7_67F6_67EE_67E3_67C2_67B9_67CE_67E7_67F0_67B2_67FC),
  (0xCF58, 0x67C6_67ED_67CC_67AE_67E6_67DB_67FA_67C9_67CA_67C3_67EA_67CB),
  (0xCF64, 0x6B28_6B82_6B84_6BB6_6BD6_6BD8_6BE0_6C20_6C21_6D28_6D34_6D2D),
  (0xCF70, 0x6D1F_6D3C_6D3F_6D12_6D0A_6CDA_6D33_6D04_6D19_6D3A_6D1A_6D11),
  (0xCF7C, 0x6D00_6D1D_6D42),
  (0xCFA1, 0x6D01_6D18_6D37_6D03_6D0F_6D40_6D07_6D20_6D2C_6D08_6D22_6D09),
  (0xCFAD, 0x6D10_70B7_709F_70BE_70B1_70B0_70A1_70B4_70B5_70A9_7241_7249),
  (0xCFB9, 0x724A_726C_7270_7273_726E_72CA_72E4_72E8_72EB_72DF_72EA_72E6),
  (0xCFC5, 0x72E3_7385_73CC_73C2_73C8_73C5_73B9_73B6_73B5_73B4_73EB_73BF),
  (0xCFD1, 0x73C7_73BE_73C3_73C6_73B8_73CB_74EC_74EE_752E_7547_7548_75A7),
  (0xCFDD, 0x75AA_7679_76C4_7708_7703_7704_7705_770A_76F7_76FB_76FA_77E7),
  (0xCFE9, 0x77E8_7806_7811_7812_7805_7810_780F_780E_7809_7803_7813_794A),
  (0xCFF5, 0x794C_794B_7945_7944_79D5_79CD_79CF_79D6_79CE_7A80),
  (0xD040, 0x7A7E_7AD1_7B00_7B01_7C7A_7C78_7C79_7C7F_7C80_7C81_7D03_7D08),
  (0xD04C, 0x7D01_7F58_7F91_7F8D_7FBE_8007_800E_800F_8014_8037_80D8_80C7),
  (0xD058, 0x80E0_80D1_80C8_80C2_80D0_80C5_80E3_80D9_80DC_80CA_80D5_80C9),
  (0xD064, 0x80CF_80D7_80E6_80CD_81FF_8221_8294_82D9_82FE_82F9_8307_82E8),
  (0xD070, 0x8300_82D5_833A_82EB_82D6_82F4_82EC_82E1_82F2_82F5_830C_82FB),
  (0xD07C, 0x82F6_82F0_82EA),
  (0xD0A1, 0x82E4_82E0_82FA_82F3_82ED_8677_8674_867C_8673_8841_884E_8867),
  (0xD0AD, 0x886A_8869_89D3_8A04_8A07_8D72_8FE3_8FE1_8FEE_8FE0_90F1_90BD),
  (0xD0B9, 0x90BF_90D5_90C5_90BE_90C7_90CB_90C8_91D4_91D3_9654_964F_9651),
  (0xD0C5, 0x9653_964A_964E_501E_5005_5007_5013_5022_5030_501B_4FF5_4FF4),
  (0xD0D1, 0x5033_5037_502C_4FF6_4FF7_5017_501C_5020_5027_5035_502F_5031),
  (0xD0DD, 0x500E_515A_5194_5193_51CA_51C4_51C5_51C8_51CE_5261_525A_5252),
  (0xD0E9, 0x525E_525F_5255_5262_52CD_530E_539E_5526_54E2_5517_5512_54E7),
  (0xD0F5, 0x54F3_54E4_551A_54FF_5504_5508_54EB_5511_5505_54F1),
  (0xD140, 0x550A_54FB_54F7_54F8_54E0_550E_5503_550B_5701_5702_57CC_5832),
  (0xD14C, 0x57D5_57D2_57BA_57C6_57BD_57BC_57B8_57B6_57BF_57C7_57D0_57B9),
  (0xD158, 0x57C1_590E_594A_5A19_5A16_5A2D_5A2E_5A15_5A0F_5A17_5A0A_5A1E),
  (0xD164, 0x5A33_5B6C_5BA7_5BAD_5BAC_5C03_5C56_5C54_5CEC_5CFF_5CEE_5CF1),
  (0xD170, 0x5CF7_5D00_5CF9_5E29_5E28_5EA8_5EAE_5EAA_5EAC_5F33_5F30_5F67),
  (0xD17C, 0x605D_605A_6067),
  (0xD1A1, 0x6041_60A2_6088_6080_6092_6081_609D_6083_6095_609B_6097_6087),
  (0xD1AD, 0x609C_608E_6219_6246_62F2_6310_6356_632C_6344_6345_6336_6343),
  (0xD1B9, 0x63E4_6339_634B_634A_633C_6329_6341_6334_6358_6354_6359_632D),
  (0xD1C5, 0x6347_6333_635A_6351_6338_6357_6340_6348_654A_6546_65C6_65C3),
  (0xD1D1, 0x65C4_65C2_664A_665F_6647_6651_6712_6713_681F_681A_6849_6832),
  (0xD1DD, 0x6833_683B_684B_684F_6816_6831_681C_6835_682B_682D_682F_684E),
  (0xD1E9, 0x6844_6834_681D_6812_6814_6826_6828_682E_684D_683A_6825_6820),
  (0xD1F5, 0x6B2C_6B2F_6B2D_6B31_6B34_6B6D_8082_6B88_6BE6_6BE4),
  (0xD240, 0x6BE8_6BE3_6BE2_6BE7_6C25_6D7A_6D63_6D64_6D76_6D0D_6D61_6D92),
  (0xD24C, 0x6D58_6D62_6D6D_6D6F_6D91_6D8D_6DEF_6D7F_6D86_6D5E_6D67_6D60),
  (0xD258, 0x6D97_6D70_6D7C_6D5F_6D82_6D98_6D2F_6D68_6D8B_6D7E_6D80_6D84),
  (0xD264, 0x6D16_6D83_6D7B_6D7D_6D75_6D90_70DC_70D3_70D1_70DD_70CB_7F39),
  (0xD270, 0x70E2_70D7_70D2_70DE_70E0_70D4_70CD_70C5_70C6_70C7_70DA_70CE),
  (0xD27C, 0x70E1_7242_7278),
  (0xD2A1, 0x7277_7276_7300_72FA_72F4_72FE_72F6_72F3_72FB_7301_73D3_73D9),
  (0xD2AD, 0x73E5_73D6_73BC_73E7_73E3_73E9_73DC_73D2_73DB_73D4_73DD_73DA),
  (0xD2B9, 0x73D7_73D8_73E8_74DE_74DF_74F4_74F5_7521_755B_755F_75B0_75C1),
  (0xD2C5, 0x75BB_75C4_75C0_75BF_75B6_75BA_768A_76C9_771D_771B_7710_7713),
  (0xD2D1, 0x7712_7723_7711_7715_7719_771A_7722_7727_7823_782C_7822_7835),
  (0xD2DD, 0x782F_7828_782E_782B_7821_7829_7833_782A_7831_7954_795B_794F),
  (0xD2E9, 0x795C_7953_7952_7951_79EB_79EC_79E0_79EE_79ED_79EA_79DC_79DE),
  (0xD2F5, 0x79DD_7A86_7A89_7A85_7A8B_7A8C_7A8A_7A87_7AD8_7B10),
  (0xD340, 0x7B04_7B13_7B05_7B0F_7B08_7B0A_7B0E_7B09_7B12_7C84_7C91_7C8A),
  (0xD34C, 0x7C8C_7C88_7C8D_7C85_7D1E_7D1D_7D11_7D0E_7D18_7D16_7D13_7D1F),
  (0xD358, 0x7D12_7D0F_7D0C_7F5C_7F61_7F5E_7F60_7F5D_7F5B_7F96_7F92_7FC3),
  (0xD364, 0x7FC2_7FC0_8016_803E_8039_80FA_80F2_80F9_80F5_8101_80FB_8100),
  (0xD370, 0x8201_822F_8225_8333_832D_8344_8319_8351_8325_8356_833F_8341),
  (0xD37C, 0x8326_831C_8322),
  (0xD3A1, 0x8342_834E_831B_832A_8308_833C_834D_8316_8324_8320_8337_832F),
  (0xD3AD, 0x8329_8347_8345_834C_8353_831E_832C_834B_8327_8348_8653_8652),
  (0xD3B9, 0x86A2_86A8_8696_868D_8691_869E_8687_8697_8686_868B_869A_8685),
  (0xD3C5, 0x86A5_8699_86A1_86A7_8695_8698_868E_869D_8690_8694_8843_8844),
  (0xD3D1, 0x886D_8875_8876_8872_8880_8871_887F_886F_8883_887E_8874_887C),
  (0xD3DD, 0x8A12_8C47_8C57_8C7B_8CA4_8CA3_8D76_8D78_8DB5_8DB7_8DB6_8ED1),
  (0xD3E9, 0x8ED3_8FFE_8FF5_9002_8FFF_8FFB_9004_8FFC_8FF6_90D6_90E0_90D9),
  (0xD3F5, 0x90DA_90E3_90DF_90E5_90D8_90DB_90D7_90DC_90E4_9150),
  (0xD440, 0x914E_914F_91D5_91E2_91DA_965C_965F_96BC_98E3_9ADF_9B2F_4E7F),
  (0xD44C, 0x5070_506A_5061_505E_5060_5053_504B_505D_5072_5048_504D_5041),
  (0xD458, 0x505B_504A_5062_5015_5045_505F_5069_506B_5063_5064_5046_5040),
  (0xD464, 0x506E_5073_5057_5051_51D0_526B_526D_526C_526E_52D6_52D3_532D),
  (0xD470, 0x539C_5575_5576_553C_554D_5550_5534_552A_5551_5562_5536_5535),
  (0xD47C, 0x5530_5552_5545),
  (0xD4A1, 0x550C_5532_5565_554E_5539_5548_552D_553B_5540_554B_570A_5707),
  (0xD4AD, 0x57FB_5814_57E2_57F6_57DC_57F4_5800_57ED_57FD_5808_57F8_580B),
  (0xD4B9, 0x57F3_57CF_5807_57EE_57E3_57F2_57E5_57EC_57E1_580E_57FC_5810),
  (0xD4C5, 0x57E7_5801_580C_57F1_57E9_57F0_580D_5804_595C_5A60_5A58_5A55),
  (0xD4D1, 0x5A67_5A5E_5A38_5A35_5A6D_5A50_5A5F_5A65_5A6C_5A53_5A64_5A57),
  (0xD4DD, 0x5A43_5A5D_5A52_5A44_5A5B_5A48_5A8E_5A3E_5A4D_5A39_5A4C_5A70),
  (0xD4E9, 0x5A69_5A47_5A51_5A56_5A42_5A5C_5B72_5B6E_5BC1_5BC0_5C59_5D1E),
  (0xD4F5, 0x5D0B_5D1D_5D1A_5D20_5D0C_5D28_5D0D_5D26_5D25_5D0F),
  (0xD540, 0x5D30_5D12_5D23_5D1F_5D2E_5E3E_5E34_5EB1_5EB4_5EB9_5EB2_5EB3),
  (0xD54C, 0x5F36_5F38_5F9B_5F96_5F9F_608A_6090_6086_60BE_60B0_60BA_60D3),
  (0xD558, 0x60D4_60CF_60E4_60D9_60DD_60C8_60B1_60DB_60B7_60CA_60BF_60C3),
  (0xD564, 0x60CD_60C0_6332_6365_638A_6382_637D_63BD_639E_63AD_639D_6397),
  (0xD570, 0x63AB_638E_636F_6387_6390_636E_63AF_6375_639C_636D_63AE_637C),
  (0xD57C, 0x63A4_633B_639F),
  (0xD5A1, 0x6378_6385_6381_6391_638D_6370_6553_65CD_6665_6661_665B_6659),
  (0xD5AD, 0x665C_6662_6718_6879_6887_6890_689C_686D_686E_68AE_68AB_6956),
  (0xD5B9, 0x686F_68A3_68AC_68A9_6875_6874_68B2_688F_6877_6892_687C_686B),
  (0xD5C5, 0x6872_68AA_6880_6871_687E_689B_6896_688B_68A0_6889_68A4_6878),
  (0xD5D1, 0x687B_6891_688C_688A_687D_6B36_6B33_6B37_6B38_6B91_6B8F_6B8D),
  (0xD5DD, 0x6B8E_6B8C_6C2A_6DC0_6DAB_6DB4_6DB3_6E74_6DAC_6DE9_6DE2_6DB7),
  (0xD5E9, 0x6DF6_6DD4_6E00_6DC8_6DE0_6DDF_6DD6_6DBE_6DE5_6DDC_6DDD_6DDB),
  (0xD5F5, 0x6DF4_6DCA_6DBD_6DED_6DF0_6DBA_6DD5_6DC2_6DCF_6DC9),
  (0xD640, 0x6DD0_6DF2_6DD3_6DFD_6DD7_6DCD_6DE3_6DBB_70FA_710D_70F7_7117),
  (0xD64C, 0x70F4_710C_70F0_7104_70F3_7110_70FC_70FF_7106_7113_7100_70F8),
  (0xD658, 0x70F6_710B_7102_710E_727E_727B_727C_727F_731D_7317_7307_7311),
  (0xD664, 0x7318_730A_7308_72FF_730F_731E_7388_73F6_73F8_73F5_7404_7401),
  (0xD670, 0x73FD_7407_7400_73FA_73FC_73FF_740C_740B_73F4_7408_7564_7563),
  (0xD67C, 0x75CE_75D2_75CF),
  (0xD6A1, 0x75CB_75CC_75D1_75D0_768F_7689_76D3_7739_772F_772D_7731_7732),
  (0xD6AD, 0x7734_7733_773D_7725_773B_7735_7848_7852_7849_784D_784A_784C),
  (0xD6B9, 0x7826_7845_7850_7964_7967_7969_796A_7963_796B_7961_79BB_79FA),
  (0xD6C5, 0x79F8_79F6_79F7_7A8F_7A94_7A90_7B35_7B47_7B34_7B25_7B30_7B22),
  (0xD6D1, 0x7B24_7B33_7B18_7B2A_7B1D_7B31_7B2B_7B2D_7B2F_7B32_7B38_7B1A),
  (0xD6DD, 0x7B23_7C94_7C98_7C96_7CA3_7D35_7D3D_7D38_7D36_7D3A_7D45_7D2C),
  (0xD6E9, 0x7D29_7D41_7D47_7D3E_7D3F_7D4A_7D3B_7D28_7F63_7F95_7F9C_7F9D),
  (0xD6F5, 0x7F9B_7FCA_7FCB_7FCD_7FD0_7FD1_7FC7_7FCF_7FC9_801F),
  (0xD740, 0x801E_801B_8047_8043_8048_8118_8125_8119_811B_812D_811F_812C),
  (0xD74C, 0x811E_8121_8115_8127_811D_8122_8211_8238_8233_823A_8234_8232),
  (0xD758, 0x8274_8390_83A3_83A8_838D_837A_8373_83A4_8374_838F_8381_8395),
  (0xD764, 0x8399_8375_8394_83A9_837D_8383_838C_839D_839B_83AA_838B_837E),
  (0xD770, 0x83A5_83AF_8388_8397_83B0_837F_83A6_8387_83AE_8376_839A_8659),
  (0xD77C, 0x8656_86BF_86B7),
  (0xD7A1, 0x86C2_86C1_86C5_86BA_86B0_86C8_86B9_86B3_86B8_86CC_86B4_86BB),
  (0xD7AD, 0x86BC_86C3_86BD_86BE_8852_8889_8895_88A8_88A2_88AA_889A_8891),
  (0xD7B9, 0x88A1_889F_8898_88A7_8899_889B_8897_88A4_88AC_888C_8893_888E),
  (0xD7C5, 0x8982_89D6_89D9_89D5_8A30_8A27_8A2C_8A1E_8C39_8C3B_8C5C_8C5D),
  (0xD7D1, 0x8C7D_8CA5_8D7D_8D7B_8D79_8DBC_8DC2_8DB9_8DBF_8DC1_8ED8_8EDE),
  (0xD7DD, 0x8EDD_8EDC_8ED7_8EE0_8EE1_9024_900B_9011_901C_900C_9021_90EF),
  (0xD7E9, 0x90EA_90F0_90F4_90F2_90F3_90D4_90EB_90EC_90E9_9156_9158_915A),
  (0xD7F5, 0x9153_9155_91EC_91F4_91F1_91F3_91F8_91E4_91F9_91EA),
  (0xD840, 0x91EB_91F7_91E8_91EE_957A_9586_9588_967C_966D_966B_9671_966F),
  (0xD84C, 0x96BF_976A_9804_98E5_9997_509B_5095_5094_509E_508B_50A3_5083),
  (0xD858, 0x508C_508E_509D_5068_509C_5092_5082_5087_515F_51D4_5312_5311),
  (0xD864, 0x53A4_53A7_5591_55A8_55A5_55AD_5577_5645_55A2_5593_5588_558F),
  (0xD870, 0x55B5_5581_55A3_5592_55A4_557D_558C_55A6_557F_5595_55A1_558E),
  (0xD87C, 0x570C_5829_5837),
  (0xD8A1, 0x5819_581E_5827_5823_5828_57F5_5848_5825_581C_581B_5833_583F),
  (0xD8AD, 0x5836_582E_5839_5838_582D_582C_583B_5961_5AAF_5A94_5A9F_5A7A),
  (0xD8B9, 0x5AA2_5A9E_5A78_5AA6_5A7C_5AA5_5AAC_5A95_5AAE_5A37_5A84_5A8A),
  (0xD8C5, 0x5A97_5A83_5A8B_5AA9_5A7B_5A7D_5A8C_5A9C_5A8F_5A93_5A9D_5BEA),
  (0xD8D1, 0x5BCD_5BCB_5BD4_5BD1_5BCA_5BCE_5C0C_5C30_5D37_5D43_5D6B_5D41),
  (0xD8DD, 0x5D4B_5D3F_5D35_5D51_5D4E_5D55_5D33_5D3A_5D52_5D3D_5D31_5D59),
  (0xD8E9, 0x5D42_5D39_5D49_5D38_5D3C_5D32_5D36_5D40_5D45_5E44_5E41_5F58),
  (0xD8F5, 0x5FA6_5FA5_5FAB_60C9_60B9_60CC_60E2_60CE_60C4_6114),
  (0xD940, 0x60F2_610A_6116_6105_60F5_6113_60F8_60FC_60FE_60C1_6103_6118),
  (0xD94C, 0x611D_6110_60FF_6104_610B_624A_6394_63B1_63B0_63CE_63E5_63E8),
  (0xD958, 0x63EF_63C3_649D_63F3_63CA_63E0_63F6_63D5_63F2_63F5_6461_63DF),
  (0xD964, 0x63BE_63DD_63DC_63C4_63D8_63D3_63C2_63C7_63CC_63CB_63C8_63F0),
  (0xD970, 0x63D7_63D9_6532_6567_656A_6564_655C_6568_6565_658C_659D_659E),
  (0xD97C, 0x65AE_65D0_65D2),
  (0xD9A1, 0x667C_666C_667B_6680_6671_6679_666A_6672_6701_690C_68D3_6904),
  (0xD9AD, 0x68DC_692A_68EC_68EA_68F1_690F_68D6_68F7_68EB_68E4_68F6_6913),
  (0xD9B9, 0x6910_68F3_68E1_6907_68CC_6908_6970_68B4_6911_68EF_68C6_6914),
  (0xD9C5, 0x68F8_68D0_68FD_68FC_68E8_690B_690A_6917_68CE_68C8_68DD_68DE),
  (0xD9D1, 0x68E6_68F4_68D1_6906_68D4_68E9_6915_6925_68C7_6B39_6B3B_6B3F),
  (0xD9DD, 0x6B3C_6B94_6B97_6B99_6B95_6BBD_6BF0_6BF2_6BF3_6C30_6DFC_6E46),
  (0xD9E9, 0x6E47_6E1F_6E49_6E88_6E3C_6E3D_6E45_6E62_6E2B_6E3F_6E41_6E5D),
  (0xD9F5, 0x6E73_6E1C_6E33_6E4B_6E40_6E51_6E3B_6E03_6E2E_6E5E),
  (0xDA40, 0x6E68_6E5C_6E61_6E31_6E28_6E60_6E71_6E6B_6E39_6E22_6E30_6E53),
  (0xDA4C, 0x6E65_6E27_6E78_6E64_6E77_6E55_6E79_6E52_6E66_6E35_6E36_6E5A),
  (0xDA58, 0x7120_711E_712F_70FB_712E_7131_7123_7125_7122_7132_711F_7128),
  (0xDA64, 0x713A_711B_724B_725A_7288_7289_7286_7285_728B_7312_730B_7330),
  (0xDA70, 0x7322_7331_7333_7327_7332_732D_7326_7323_7335_730C_742E_742C),
  (0xDA7C, 0x7430_742B_7416),
  (0xDAA1, 0x741A_7421_742D_7431_7424_7423_741D_7429_7420_7432_74FB_752F),
  (0xDAAD, 0x756F_756C_75E7_75DA_75E1_75E6_75DD_75DF_75E4_75D7_7695_7692),
  (0xDAB9, 0x76DA_7746_7747_7744_774D_7745_774A_774E_774B_774C_77DE_77EC),
  (0xDAC5, 0x7860_7864_7865_785C_786D_7871_786A_786E_7870_7869_7868_785E),
  (0xDAD1, 0x7862_7974_7973_7972_7970_7A02_7A0A_7A03_7A0C_7A04_7A99_7AE6),
  (0xDADD, 0x7AE4_7B4A_7B3B_7B44_7B48_7B4C_7B4E_7B40_7B58_7B45_7CA2_7C9E),
  (0xDAE9, 0x7CA8_7CA1_7D58_7D6F_7D63_7D53_7D56_7D67_7D6A_7D4F_7D6D_7D5C),
  (0xDAF5, 0x7D6B_7D52_7D54_7D69_7D51_7D5F_7D4E_7F3E_7F3F_7F65),
  (0xDB40, 0x7F66_7FA2_7FA0_7FA1_7FD7_8051_804F_8050_80FE_80D4_8143_814A),
  (0xDB4C, 0x8152_814F_8147_813D_814D_813A_81E6_81EE_81F7_81F8_81F9_8204),
  (0xDB58, 0x823C_823D_823F_8275_833B_83CF_83F9_8423_83C0_83E8_8412_83E7),
  (0xDB64, 0x83E4_83FC_83F6_8410_83C6_83C8_83EB_83E3_83BF_8401_83DD_83E5),
  (0xDB70, 0x83D8_83FF_83E1_83CB_83CE_83D6_83F5_83C9_8409_840F_83DE_8411),
  (0xDB7C, 0x8406_83C2_83F3),
  (0xDBA1, 0x83D5_83FA_83C7_83D1_83EA_8413_83C3_83EC_83EE_83C4_83FB_83D7),
  (0xDBAD, 0x83E2_841B_83DB_83FE_86D8_86E2_86E6_86D3_86E3_86DA_86EA_86DD),
  (0xDBB9, 0x86EB_86DC_86EC_86E9_86D7_86E8_86D1_8848_8856_8855_88BA_88D7),
  (0xDBC5, 0x88B9_88B8_88C0_88BE_88B6_88BC_88B7_88BD_88B2_8901_88C9_8995),
  (0xDBD1, 0x8998_8997_89DD_89DA_89DB_8A4E_8A4D_8A39_8A59_8A40_8A57_8A58),
  (0xDBDD, 0x8A44_8A45_8A52_8A48_8A51_8A4A_8A4C_8A4F_8C5F_8C81_8C80_8CBA),
  (0xDBE9, 0x8CBE_8CB0_8CB9_8CB5_8D84_8D80_8D89_8DD8_8DD3_8DCD_8DC7_8DD6),
  (0xDBF5, 0x8DDC_8DCF_8DD5_8DD9_8DC8_8DD7_8DC5_8EEF_8EF7_8EFA),
  (0xDC40, 0x8EF9_8EE6_8EEE_8EE5_8EF5_8EE7_8EE8_8EF6_8EEB_8EF1_8EEC_8EF4),
  (0xDC4C, 0x8EE9_902D_9034_902F_9106_912C_9104_90FF_90FC_9108_90F9_90FB),
  (0xDC58, 0x9101_9100_9107_9105_9103_9161_9164_915F_9162_9160_9201_920A),
  (0xDC64, 0x9225_9203_921A_9226_920F_920C_9200_9212_91FF_91FD_9206_9204),
  (0xDC70, 0x9227_9202_921C_9224_9219_9217_9205_9216_957B_958D_958C_9590),
  (0xDC7C, 0x9687_967E_9688),
  (0xDCA1, 0x9689_9683_9680_96C2_96C8_96C3_96F1_96F0_976C_9770_976E_9807),
  (0xDCAD, 0x98A9_98EB_9CE6_9EF9_4E83_4E84_4EB6_50BD_50BF_50C6_50AE_50C4),
  (0xDCB9, 0x50CA_50B4_50C8_50C2_50B0_50C1_50BA_50B1_50CB_50C9_50B6_50B8),
  (0xDCC5, 0x51D7_527A_5278_527B_527C_55C3_55DB_55CC_55D0_55CB_55CA_55DD),
  (0xDCD1, 0x55C0_55D4_55C4_55E9_55BF_55D2_558D_55CF_55D5_55E2_55D6_55C8),
  (0xDCDD, 0x55F2_55CD_55D9_55C2_5714_5853_5868_5864_584F_584D_5849_586F),
  (0xDCE9, 0x5855_584E_585D_5859_5865_585B_583D_5863_5871_58FC_5AC7_5AC4),
  (0xDCF5, 0x5ACB_5ABA_5AB8_5AB1_5AB5_5AB0_5ABF_5AC8_5ABB_5AC6),
  (0xDD40, 0x5AB7_5AC0_5ACA_5AB4_5AB6_5ACD_5AB9_5A90_5BD6_5BD8_5BD9_5C1F),
  (0xDD4C, 0x5C33_5D71_5D63_5D4A_5D65_5D72_5D6C_5D5E_5D68_5D67_5D62_5DF0),
  (0xDD58, 0x5E4F_5E4E_5E4A_5E4D_5E4B_5EC5_5ECC_5EC6_5ECB_5EC7_5F40_5FAF),
  (0xDD64, 0x5FAD_60F7_6149_614A_612B_6145_6136_6132_612E_6146_612F_614F),
  (0xDD70, 0x6129_6140_6220_9168_6223_6225_6224_63C5_63F1_63EB_6410_6412),
  (0xDD7C, 0x6409_6420_6424),
  (0xDDA1, 0x6433_6443_641F_6415_6418_6439_6437_6422_6423_640C_6426_6430),
  (0xDDAD, 0x6428_6441_6435_642F_640A_641A_6440_6425_6427_640B_63E7_641B),
  (0xDDB9, 0x642E_6421_640E_656F_6592_65D3_6686_668C_6695_6690_668B_668A),
  (0xDDC5, 0x6699_6694_6678_6720_6966_695F_6938_694E_6962_6971_693F_6945),
  (0xDDD1, 0x696A_6939_6942_6957_6959_697A_6948_6949_6935_696C_6933_693D),
  (0xDDDD, 0x6965_68F0_6978_6934_6969_6940_696F_6944_6976_6958_6941_6974),
  (0xDDE9, 0x694C_693B_694B_6937_695C_694F_6951_6932_6952_692F_697B_693C),
  (0xDDF5, 0x6B46_6B45_6B43_6B42_6B48_6B41_6B9B_FA0D_6BFB_6BFC),
  (0xDE40, 0x6BF9_6BF7_6BF8_6E9B_6ED6_6EC8_6E8F_6EC0_6E9F_6E93_6E94_6EA0),
  (0xDE4C, 0x6EB1_6EB9_6EC6_6ED2_6EBD_6EC1_6E9E_6EC9_6EB7_6EB0_6ECD_6EA6),
  (0xDE58, 0x6ECF_6EB2_6EBE_6EC3_6EDC_6ED8_6E99_6E92_6E8E_6E8D_6EA4_6EA1),
  (0xDE64, 0x6EBF_6EB3_6ED0_6ECA_6E97_6EAE_6EA3_7147_7154_7152_7163_7160),
  (0xDE70, 0x7141_715D_7162_7172_7178_716A_7161_7142_7158_7143_714B_7170),
  (0xDE7C, 0x715F_7150_7153),
  (0xDEA1, 0x7144_714D_715A_724F_728D_728C_7291_7290_728E_733C_7342_733B),
  (0xDEAD, 0x733A_7340_734A_7349_7444_744A_744B_7452_7451_7457_7440_744F),
  (0xDEB9, 0x7450_744E_7442_7446_744D_7454_74E1_74FF_74FE_74FD_751D_7579),
  (0xDEC5, 0x7577_6983_75EF_760F_7603_75F7_75FE_75FC_75F9_75F8_7610_75FB),
  (0xDED1, 0x75F6_75ED_75F5_75FD_7699_76B5_76DD_7755_775F_7760_7752_7756),
  (0xDEDD, 0x775A_7769_7767_7754_7759_776D_77E0_7887_789A_7894_788F_7884),
  (0xDEE9, 0x7895_7885_7886_78A1_7883_7879_7899_7880_7896_787B_797C_7982),
  (0xDEF5, 0x797D_7979_7A11_7A18_7A19_7A12_7A17_7A15_7A22_7A13),
  (0xDF40, 0x7A1B_7A10_7AA3_7AA2_7A9E_7AEB_7B66_7B64_7B6D_7B74_7B69_7B72),
  (0xDF4C, 0x7B65_7B73_7B71_7B70_7B61_7B78_7B76_7B63_7CB2_7CB4_7CAF_7D88),
  (0xDF58, 0x7D86_7D80_7D8D_7D7F_7D85_7D7A_7D8E_7D7B_7D83_7D7C_7D8C_7D94),
  (0xDF64, 0x7D84_7D7D_7D92_7F6D_7F6B_7F67_7F68_7F6C_7FA6_7FA5_7FA7_7FDB),
  (0xDF70, 0x7FDC_8021_8164_8160_8177_815C_8169_815B_8162_8172_6721_815E),
  (0xDF7C, 0x8176_8167_816F),
  (0xDFA1, 0x8144_8161_821D_8249_8244_8240_8242_8245_84F1_843F_8456_8476),
  (0xDFAD, 0x8479_848F_848D_8465_8451_8440_8486_8467_8430_844D_847D_845A),
  (0xDFB9, 0x8459_8474_8473_845D_8507_845E_8437_843A_8434_847A_8443_8478),
  (0xDFC5, 0x8432_8445_8429_83D9_844B_842F_8442_842D_845F_8470_8439_844E),
  (0xDFD1, 0x844C_8452_846F_84C5_848E_843B_8447_8436_8433_8468_847E_8444),
  (0xDFDD, 0x842B_8460_8454_846E_8450_870B_8704_86F7_870C_86FA_86D6_86F5),
  (0xDFE9, 0x874D_86F8_870E_8709_8701_86F6_870D_8705_88D6_88CB_88CD_88CE),
  (0xDFF5, 0x88DE_88DB_88DA_88CC_88D0_8985_899B_89DF_89E5_89E4),
  (0xE040, 0x89E1_89E0_89E2_89DC_89E6_8A76_8A86_8A7F_8A61_8A3F_8A77_8A82),
  (0xE04C, 0x8A84_8A75_8A83_8A81_8A74_8A7A_8C3C_8C4B_8C4A_8C65_8C64_8C66),
  (0xE058, 0x8C86_8C84_8C85_8CCC_8D68_8D69_8D91_8D8C_8D8E_8D8F_8D8D_8D93),
  (0xE064, 0x8D94_8D90_8D92_8DF0_8DE0_8DEC_8DF1_8DEE_8DD0_8DE9_8DE3_8DE2),
  (0xE070, 0x8DE7_8DF2_8DEB_8DF4_8F06_8EFF_8F01_8F00_8F05_8F07_8F08_8F02),
  (0xE07C, 0x8F0B_9052_903F),
  (0xE0A1, 0x9044_9049_903D_9110_910D_910F_9111_9116_9114_910B_910E_916E),
  (0xE0AD, 0x916F_9248_9252_9230_923A_9266_9233_9265_925E_9283_922E_924A),
  (0xE0B9, 0x9246_926D_926C_924F_9260_9267_926F_9236_9261_9270_9231_9254),
  (0xE0C5, 0x9263_9250_9272_924E_9253_924C_9256_9232_959F_959C_959E_959B),
  (0xE0D1, 0x9692_9693_9691_9697_96CE_96FA_96FD_96F8_96F5_9773_9777_9778),
  (0xE0DD, 0x9772_980F_980D_980E_98AC_98F6_98F9_99AF_99B2_99B0_99B5_9AAD),
  (0xE0E9, 0x9AAB_9B5B_9CEA_9CED_9CE7_9E80_9EFD_50E6_50D4_50D7_50E8_50F3),
  (0xE0F5, 0x50DB_50EA_50DD_50E4_50D3_50EC_50F0_50EF_50E3_50E0),
  (0xE140, 0x51D8_5280_5281_52E9_52EB_5330_53AC_5627_5615_560C_5612_55FC),
  (0xE14C, 0x560F_561C_5601_5613_5602_55FA_561D_5604_55FF_55F9_5889_587C),
  (0xE158, 0x5890_5898_5886_5881_587F_5874_588B_587A_5887_5891_588E_5876),
  (0xE164, 0x5882_5888_587B_5894_588F_58FE_596B_5ADC_5AEE_5AE5_5AD5_5AEA),
  (0xE170, 0x5ADA_5AED_5AEB_5AF3_5AE2_5AE0_5ADB_5AEC_5ADE_5ADD_5AD9_5AE8),
  (0xE17C, 0x5ADF_5B77_5BE0),
  (0xE1A1, 0x5BE3_5C63_5D82_5D80_5D7D_5D86_5D7A_5D81_5D77_5D8A_5D89_5D88),
  (0xE1AD, 0x5D7E_5D7C_5D8D_5D79_5D7F_5E58_5E59_5E53_5ED8_5ED1_5ED7_5ECE),
  (0xE1B9, 0x5EDC_5ED5_5ED9_5ED2_5ED4_5F44_5F43_5F6F_5FB6_612C_6128_6141),
  (0xE1C5, 0x615E_6171_6173_6152_6153_6172_616C_6180_6174_6154_617A_615B),
  (0xE1D1, 0x6165_613B_616A_6161_6156_6229_6227_622B_642B_644D_645B_645D),
  (0xE1DD, 0x6474_6476_6472_6473_647D_6475_6466_64A6_644E_6482_645E_645C),
  (0xE1E9, 0x644B_6453_6460_6450_647F_643F_646C_646B_6459_6465_6477_6573),
  (0xE1F5, 0x65A0_66A1_66A0_669F_6705_6704_6722_69B1_69B6_69C9),
  (0xE240, 0x69A0_69CE_6996_69B0_69AC_69BC_6991_6999_698E_69A7_698D_69A9),
  (0xE24C, 0x69BE_69AF_69BF_69C4_69BD_69A4_69D4_69B9_69CA_699A_69CF_69B3),
  (0xE258, 0x6993_69AA_69A1_699E_69D9_6997_6990_69C2_69B5_69A5_69C6_6B4A),
  (0xE264, 0x6B4D_6B4B_6B9E_6B9F_6BA0_6BC3_6BC4_6BFE_6ECE_6EF5_6EF1_6F03),
  (0xE270, 0x6F25_6EF8_6F37_6EFB_6F2E_6F09_6F4E_6F19_6F1A_6F27_6F18_6F3B),
  (0xE27C, 0x6F12_6EED_6F0A),
  (0xE2A1, 0x6F36_6F73_6EF9_6EEE_6F2D_6F40_6F30_6F3C_6F35_6EEB_6F07_6F0E),
  (0xE2AD, 0x6F43_6F05_6EFD_6EF6_6F39_6F1C_6EFC_6F3A_6F1F_6F0D_6F1E_6F08),
  (0xE2B9, 0x6F21_7187_7190_7189_7180_7185_7182_718F_717B_7186_7181_7197),
  (0xE2C5, 0x7244_7253_7297_7295_7293_7343_734D_7351_734C_7462_7473_7471),
  (0xE2D1, 0x7475_7472_7467_746E_7500_7502_7503_757D_7590_7616_7608_760C),
  (0xE2DD, 0x7615_7611_760A_7614_76B8_7781_777C_7785_7782_776E_7780_776F),
  (0xE2E9, 0x777E_7783_78B2_78AA_78B4_78AD_78A8_787E_78AB_789E_78A5_78A0),
  (0xE2F5, 0x78AC_78A2_78A4_7998_798A_798B_7996_7995_7994_7993),
  (0xE340, 0x7997_7988_7992_7990_7A2B_7A4A_7A30_7A2F_7A28_7A26_7AA8_7AAB),
  (0xE34C, 0x7AAC_7AEE_7B88_7B9C_7B8A_7B91_7B90_7B96_7B8D_7B8C_7B9B_7B8E),
  (0xE358, 0x7B85_7B98_5284_7B99_7BA4_7B82_7CBB_7CBF_7CBC_7CBA_7DA7_7DB7),
  (0xE364, 0x7DC2_7DA3_7DAA_7DC1_7DC0_7DC5_7D9D_7DCE_7DC4_7DC6_7DCB_7DCC),
  (0xE370, 0x7DAF_7DB9_7D96_7DBC_7D9F_7DA6_7DAE_7DA9_7DA1_7DC9_7F73_7FE2),
  (0xE37C, 0x7FE3_7FE5_7FDE),
  (0xE3A1, 0x8024_805D_805C_8189_8186_8183_8187_818D_818C_818B_8215_8497),
  (0xE3AD, 0x84A4_84A1_849F_84BA_84CE_84C2_84AC_84AE_84AB_84B9_84B4_84C1),
  (0xE3B9, 0x84CD_84AA_849A_84B1_84D0_849D_84A7_84BB_84A2_8494_84C7_84CC),
  (0xE3C5, 0x849B_84A9_84AF_84A8_84D6_8498_84B6_84CF_84A0_84D7_84D4_84D2),
  (0xE3D1, 0x84DB_84B0_8491_8661_8733_8723_8728_876B_8740_872E_871E_8721),
  (0xE3DD, 0x8719_871B_8743_872C_8741_873E_8746_8720_8732_872A_872D_873C),
  (0xE3E9, 0x8712_873A_8731_8735_8742_8726_8727_8738_8724_871A_8730_8711),
  (0xE3F5, 0x88F7_88E7_88F1_88F2_88FA_88FE_88EE_88FC_88F6_88FB),
  (0xE440, 0x88F0_88EC_88EB_899D_89A1_899F_899E_89E9_89EB_89E8_8AAB_8A99),
  (0xE44C, 0x8A8B_8A92_8A8F_8A96_8C3D_8C68_8C69_8CD5_8CCF_8CD7_8D96_8E09),
  (0xE458, 0x8E02_8DFF_8E0D_8DFD_8E0A_8E03_8E07_8E06_8E05_8DFE_8E00_8E04),
  (0xE464, 0x8F10_8F11_8F0E_8F0D_9123_911C_9120_9122_911F_911D_911A_9124),
  (0xE470, 0x9121_911B_917A_9172_9179_9173_92A5_92A4_9276_929B_927A_92A0),
  (0xE47C, 0x9294_92AA_928D),
  (0xE4A1, 0x92A6_929A_92AB_9279_9297_927F_92A3_92EE_928E_9282_9295_92A2),
  (0xE4AD, 0x927D_9288_92A1_928A_9286_928C_9299_92A7_927E_9287_92A9_929D),
  (0xE4B9, 0x928B_922D_969E_96A1_96FF_9758_977D_977A_977E_9783_9780_9782),
  (0xE4C5, 0x977B_9784_9781_977F_97CE_97CD_9816_98AD_98AE_9902_9900_9907),
  (0xE4D1, 0x999D_999C_99C3_99B9_99BB_99BA_99C2_99BD_99C7_9AB1_9AE3_9AE7),
  (0xE4DD, 0x9B3E_9B3F_9B60_9B61_9B5F_9CF1_9CF2_9CF5_9EA7_50FF_5103_5130),
  (0xE4E9, 0x50F8_5106_5107_50F6_50FE_510B_510C_50FD_510A_528B_528C_52F1),
  (0xE4F5, 0x52EF_5648_5642_564C_5635_5641_564A_5649_5646_5658),
  (0xE540, 0x565A_5640_5633_563D_562C_563E_5638_562A_563A_571A_58AB_589D),
  (0xE54C, 0x58B1_58A0_58A3_58AF_58AC_58A5_58A1_58FF_5AFF_5AF4_5AFD_5AF7),
  (0xE558, 0x5AF6_5B03_5AF8_5B02_5AF9_5B01_5B07_5B05_5B0F_5C67_5D99_5D97),
  (0xE564, 0x5D9F_5D92_5DA2_5D93_5D95_5DA0_5D9C_5DA1_5D9A_5D9E_5E69_5E5D),
  (0xE570, 0x5E60_5E5C_7DF3_5EDB_5EDE_5EE1_5F49_5FB2_618B_6183_6179_61B1),
  (0xE57C, 0x61B0_61A2_6189),
  (0xE5A1, 0x619B_6193_61AF_61AD_619F_6192_61AA_61A1_618D_6166_61B3_622D),
  (0xE5AD, 0x646E_6470_6496_64A0_6485_6497_649C_648F_648B_648A_648C_64A3),
  (0xE5B9, 0x649F_6468_64B1_6498_6576_657A_6579_657B_65B2_65B3_66B5_66B0),
  (0xE5C5, 0x66A9_66B2_66B7_66AA_66AF_6A00_6A06_6A17_69E5_69F8_6A15_69F1),
  (0xE5D1, 0x69E4_6A20_69FF_69EC_69E2_6A1B_6A1D_69FE_6A27_69F2_69EE_6A14),
  (0xE5DD, 0x69F7_69E7_6A40_6A08_69E6_69FB_6A0D_69FC_69EB_6A09_6A04_6A18),
  (0xE5E9, 0x6A25_6A0F_69F6_6A26_6A07_69F4_6A16_6B51_6BA5_6BA3_6BA2_6BA6),
  (0xE5F5, 0x6C01_6C00_6BFF_6C02_6F41_6F26_6F7E_6F87_6FC6_6F92),
  (0xE640, 0x6F8D_6F89_6F8C_6F62_6F4F_6F85_6F5A_6F96_6F76_6F6C_6F82_6F55),
  (0xE64C, 0x6F72_6F52_6F50_6F57_6F94_6F93_6F5D_6F00_6F61_6F6B_6F7D_6F67),
  (0xE658, 0x6F90_6F53_6F8B_6F69_6F7F_6F95_6F63_6F77_6F6A_6F7B_71B2_71AF),
  (0xE664, 0x719B_71B0_71A0_719A_71A9_71B5_719D_71A5_719E_71A4_71A1_71AA),
  (0xE670, 0x719C_71A7_71B3_7298_729A_7358_7352_735E_735F_7360_735D_735B),
  (0xE67C, 0x7361_735A_7359),
  (0xE6A1, 0x7362_7487_7489_748A_7486_7481_747D_7485_7488_747C_7479_7508),
  (0xE6AD, 0x7507_757E_7625_761E_7619_761D_761C_7623_761A_7628_761B_769C),
  (0xE6B9, 0x769D_769E_769B_778D_778F_7789_7788_78CD_78BB_78CF_78CC_78D1),
  (0xE6C5, 0x78CE_78D4_78C8_78C3_78C4_78C9_799A_79A1_79A0_799C_79A2_799B),
  (0xE6D1, 0x6B76_7A39_7AB2_7AB4_7AB3_7BB7_7BCB_7BBE_7BAC_7BCE_7BAF_7BB9),
  (0xE6DD, 0x7BCA_7BB5_7CC5_7CC8_7CCC_7CCB_7DF7_7DDB_7DEA_7DE7_7DD7_7DE1),
  (0xE6E9, 0x7E03_7DFA_7DE6_7DF6_7DF1_7DF0_7DEE_7DDF_7F76_7FAC_7FB0_7FAD),
  (0xE6F5, 0x7FED_7FEB_7FEA_7FEC_7FE6_7FE8_8064_8067_81A3_819F),
  (0xE740, 0x819E_8195_81A2_8199_8197_8216_824F_8253_8252_8250_824E_8251),
  (0xE74C, 0x8524_853B_850F_8500_8529_850E_8509_850D_851F_850A_8527_851C),
  (0xE758, 0x84FB_852B_84FA_8508_850C_84F4_852A_84F2_8515_84F7_84EB_84F3),
  (0xE764, 0x84FC_8512_84EA_84E9_8516_84FE_8528_851D_852E_8502_84FD_851E),
  (0xE770, 0x84F6_8531_8526_84E7_84E8_84F0_84EF_84F9_8518_8520_8530_850B),
  (0xE77C, 0x8519_852F_8662),
  (0xE7A1, 0x8756_8763_8764_8777_87E1_8773_8758_8754_875B_8752_8761_875A),
  (0xE7AD, 0x8751_875E_876D_876A_8750_874E_875F_875D_876F_876C_877A_876E),
  (0xE7B9, 0x875C_8765_874F_877B_8775_8762_8767_8769_885A_8905_890C_8914),
  (0xE7C5, 0x890B_8917_8918_8919_8906_8916_8911_890E_8909_89A2_89A4_89A3),
  (0xE7D1, 0x89ED_89F0_89EC_8ACF_8AC6_8AB8_8AD3_8AD1_8AD4_8AD5_8ABB_8AD7),
  (0xE7DD, 0x8ABE_8AC0_8AC5_8AD8_8AC3_8ABA_8ABD_8AD9_8C3E_8C4D_8C8F_8CE5),
  (0xE7E9, 0x8CDF_8CD9_8CE8_8CDA_8CDD_8CE7_8DA0_8D9C_8DA1_8D9B_8E20_8E23),
  (0xE7F5, 0x8E25_8E24_8E2E_8E15_8E1B_8E16_8E11_8E19_8E26_8E27),
  (0xE840, 0x8E14_8E12_8E18_8E13_8E1C_8E17_8E1A_8F2C_8F24_8F18_8F1A_8F20),
  (0xE84C, 0x8F23_8F16_8F17_9073_9070_906F_9067_906B_912F_912B_9129_912A),
  (0xE858, 0x9132_9126_912E_9185_9186_918A_9181_9182_9184_9180_92D0_92C3),
  (0xE864, 0x92C4_92C0_92D9_92B6_92CF_92F1_92DF_92D8_92E9_92D7_92DD_92CC),
  (0xE870, 0x92EF_92C2_92E8_92CA_92C8_92CE_92E6_92CD_92D5_92C9_92E0_92DE),
  (0xE87C, 0x92E7_92D1_92D3),
  (0xE8A1, 0x92B5_92E1_92C6_92B4_957C_95AC_95AB_95AE_95B0_96A4_96A2_96D3),
  (0xE8AD, 0x9705_9708_9702_975A_978A_978E_9788_97D0_97CF_981E_981D_9826),
  (0xE8B9, 0x9829_9828_9820_981B_9827_98B2_9908_98FA_9911_9914_9916_9917),
  (0xE8C5, 0x9915_99DC_99CD_99CF_99D3_99D4_99CE_99C9_99D6_99D8_99CB_99D7),
  (0xE8D1, 0x99CC_9AB3_9AEC_9AEB_9AF3_9AF2_9AF1_9B46_9B43_9B67_9B74_9B71),
  (0xE8DD, 0x9B66_9B76_9B75_9B70_9B68_9B64_9B6C_9CFC_9CFA_9CFD_9CFF_9CF7),
  (0xE8E9, 0x9D07_9D00_9CF9_9CFB_9D08_9D05_9D04_9E83_9ED3_9F0F_9F10_511C),
  (0xE8F5, 0x5113_5117_511A_5111_51DE_5334_53E1_5670_5660_566E),
  (0xE940, 0x5673_5666_5663_566D_5672_565E_5677_571C_571B_58C8_58BD_58C9),
  (0xE94C, 0x58BF_58BA_58C2_58BC_58C6_5B17_5B19_5B1B_5B21_5B14_5B13_5B10),
  (0xE958, 0x5B16_5B28_5B1A_5B20_5B1E_5BEF_5DAC_5DB1_5DA9_5DA7_5DB5_5DB0),
  (0xE964, 0x5DAE_5DAA_5DA8_5DB2_5DAD_5DAF_5DB4_5E67_5E68_5E66_5E6F_5EE9),
  (0xE970, 0x5EE7_5EE6_5EE8_5EE5_5F4B_5FBC_619D_61A8_6196_61C5_61B4_61C6),
  (0xE97C, 0x61C1_61CC_61BA),
  (0xE9A1, 0x61BF_61B8_618C_64D7_64D6_64D0_64CF_64C9_64BD_6489_64C3_64DB),
  (0xE9AD, 0x64F3_64D9_6533_657F_657C_65A2_66C8_66BE_66C0_66CA_66CB_66CF),
  (0xE9B9, 0x66BD_66BB_66BA_66CC_6723_6A34_6A66_6A49_6A67_6A32_6A68_6A3E),
  (0xE9C5, 0x6A5D_6A6D_6A76_6A5B_6A51_6A28_6A5A_6A3B_6A3F_6A41_6A6A_6A64),
  (0xE9D1, 0x6A50_6A4F_6A54_6A6F_6A69_6A60_6A3C_6A5E_6A56_6A55_6A4D_6A4E),
  (0xE9DD, 0x6A46_6B55_6B54_6B56_6BA7_6BAA_6BAB_6BC8_6BC7_6C04_6C03_6C06),
  (0xE9E9, 0x6FAD_6FCB_6FA3_6FC7_6FBC_6FCE_6FC8_6F5E_6FC4_6FBD_6F9E_6FCA),
  (0xE9F5, 0x6FA8_7004_6FA5_6FAE_6FBA_6FAC_6FAA_6FCF_6FBF_6FB8),
  (0xEA40, 0x6FA2_6FC9_6FAB_6FCD_6FAF_6FB2_6FB0_71C5_71C2_71BF_71B8_71D6),
  (0xEA4C, 0x71C0_71C1_71CB_71D4_71CA_71C7_71CF_71BD_71D8_71BC_71C6_71DA),
  (0xEA58, 0x71DB_729D_729E_7369_7366_7367_736C_7365_736B_736A_747F_749A),
  (0xEA64, 0x74A0_7494_7492_7495_74A1_750B_7580_762F_762D_7631_763D_7633),
  (0xEA70, 0x763C_7635_7632_7630_76BB_76E6_779A_779D_77A1_779C_779B_77A2),
  (0xEA7C, 0x77A3_7795_7799),
  (0xEAA1, 0x7797_78DD_78E9_78E5_78EA_78DE_78E3_78DB_78E1_78E2_78ED_78DF),
  (0xEAAD, 0x78E0_79A4_7A44_7A48_7A47_7AB6_7AB8_7AB5_7AB1_7AB7_7BDE_7BE3),
  (0xEAB9, 0x7BE7_7BDD_7BD5_7BE5_7BDA_7BE8_7BF9_7BD4_7BEA_7BE2_7BDC_7BEB),
  (0xEAC5, 0x7BD8_7BDF_7CD2_7CD4_7CD7_7CD0_7CD1_7E12_7E21_7E17_7E0C_7E1F),
  (0xEAD1, 0x7E20_7E13_7E0E_7E1C_7E15_7E1A_7E22_7E0B_7E0F_7E16_7E0D_7E14),
  (0xEADD, 0x7E25_7E24_7F43_7F7B_7F7C_7F7A_7FB1_7FEF_802A_8029_806C_81B1),
  (0xEAE9, 0x81A6_81AE_81B9_81B5_81AB_81B0_81AC_81B4_81B2_81B7_81A7_81F2),
  (0xEAF5, 0x8255_8256_8257_8556_8545_856B_854D_8553_8561_8558),
  (0xEB40, 0x8540_8546_8564_8541_8562_8544_8551_8547_8563_853E_855B_8571),
  (0xEB4C, 0x854E_856E_8575_8555_8567_8560_858C_8566_855D_8554_8565_856C),
  (0xEB58, 0x8663_8665_8664_879B_878F_8797_8793_8792_8788_8781_8796_8798),
  (0xEB64, 0x8779_8787_87A3_8785_8790_8791_879D_8784_8794_879C_879A_8789),
  (0xEB70, 0x891E_8926_8930_892D_892E_8927_8931_8922_8929_8923_892F_892C),
  (0xEB7C, 0x891F_89F1_8AE0),
  (0xEBA1, 0x8AE2_8AF2_8AF4_8AF5_8ADD_8B14_8AE4_8ADF_8AF0_8AC8_8ADE_8AE1),
  (0xEBAD, 0x8AE8_8AFF_8AEF_8AFB_8C91_8C92_8C90_8CF5_8CEE_8CF1_8CF0_8CF3),
  (0xEBB9, 0x8D6C_8D6E_8DA5_8DA7_8E33_8E3E_8E38_8E40_8E45_8E36_8E3C_8E3D),
  (0xEBC5, 0x8E41_8E30_8E3F_8EBD_8F36_8F2E_8F35_8F32_8F39_8F37_8F34_9076),
  (0xEBD1, 0x9079_907B_9086_90FA_9133_9135_9136_9193_9190_9191_918D_918F),
  (0xEBDD, 0x9327_931E_9308_931F_9306_930F_937A_9338_933C_931B_9323_9312),
  (0xEBE9, 0x9301_9346_932D_930E_930D_92CB_931D_92FA_9325_9313_92F9_92F7),
  (0xEBF5, 0x9334_9302_9324_92FF_9329_9339_9335_932A_9314_930C),
  (0xEC40, 0x930B_92FE_9309_9300_92FB_9316_95BC_95CD_95BE_95B9_95BA_95B6),
  (0xEC4C, 0x95BF_95B5_95BD_96A9_96D4_970B_9712_9710_9799_9797_9794_97F0),
  (0xEC58, 0x97F8_9835_982F_9832_9924_991F_9927_9929_999E_99EE_99EC_99E5),
  (0xEC64, 0x99E4_99F0_99E3_99EA_99E9_99E7_9AB9_9ABF_9AB4_9ABB_9AF6_9AFA),
  (0xEC70, 0x9AF9_9AF7_9B33_9B80_9B85_9B87_9B7C_9B7E_9B7B_9B82_9B93_9B92),
  (0xEC7C, 0x9B90_9B7A_9B95),
  (0xECA1, 0x9B7D_9B88_9D25_9D17_9D20_9D1E_9D14_9D29_9D1D_9D18_9D22_9D10),
  (0xECAD, 0x9D19_9D1F_9E88_9E86_9E87_9EAE_9EAD_9ED5_9ED6_9EFA_9F12_9F3D),
  (0xECB9, 0x5126_5125_5122_5124_5120_5129_52F4_5693_568C_568D_5686_5684),
  (0xECC5, 0x5683_567E_5682_567F_5681_58D6_58D4_58CF_58D2_5B2D_5B25_5B32),
  (0xECD1, 0x5B23_5B2C_5B27_5B26_5B2F_5B2E_5B7B_5BF1_5BF2_5DB7_5E6C_5E6A),
  (0xECDD, 0x5FBE_5FBB_61C3_61B5_61BC_61E7_61E0_61E5_61E4_61E8_61DE_64EF),
  (0xECE9, 0x64E9_64E3_64EB_64E4_64E8_6581_6580_65B6_65DA_66D2_6A8D_6A96),
  (0xECF5, 0x6A81_6AA5_6A89_6A9F_6A9B_6AA1_6A9E_6A87_6A93_6A8E),
  (0xED40, 0x6A95_6A83_6AA8_6AA4_6A91_6A7F_6AA6_6A9A_6A85_6A8C_6A92_6B5B),
  (0xED4C, 0x6BAD_6C09_6FCC_6FA9_6FF4_6FD4_6FE3_6FDC_6FED_6FE7_6FE6_6FDE),
  (0xED58, 0x6FF2_6FDD_6FE2_6FE8_71E1_71F1_71E8_71F2_71E4_71F0_71E2_7373),
  (0xED64, 0x736E_736F_7497_74B2_74AB_7490_74AA_74AD_74B1_74A5_74AF_7510),
  (0xED70, 0x7511_7512_750F_7584_7643_7648_7649_7647_76A4_76E9_77B5_77AB),
  (0xED7C, 0x77B2_77B7_77B6),
  (0xEDA1, 0x77B4_77B1_77A8_77F0_78F3_78FD_7902_78FB_78FC_78F2_7905_78F9),
  (0xEDAD, 0x78FE_7904_79AB_79A8_7A5C_7A5B_7A56_7A58_7A54_7A5A_7ABE_7AC0),
  (0xEDB9, 0x7AC1_7C05_7C0F_7BF2_7C00_7BFF_7BFB_7C0E_7BF4_7C0B_7BF3_7C02),
  (0xEDC5, 0x7C09_7C03_7C01_7BF8_7BFD_7C06_7BF0_7BF1_7C10_7C0A_7CE8_7E2D),
  (0xEDD1, 0x7E3C_7E42_7E33_9848_7E38_7E2A_7E49_7E40_7E47_7E29_7E4C_7E30),
  (0xEDDD, 0x7E3B_7E36_7E44_7E3A_7F45_7F7F_7F7E_7F7D_7FF4_7FF2_802C_81BB),
  (0xEDE9, 0x81C4_81CC_81CA_81C5_81C7_81BC_81E9_825B_825A_825C_8583_8580),
  (0xEDF5, 0x858F_85A7_8595_85A0_858B_85A3_857B_85A4_859A_859E),
  (0xEE40, 0x8577_857C_8589_85A1_857A_8578_8557_858E_8596_8586_858D_8599),
  (0xEE4C, 0x859D_8581_85A2_8582_8588_8585_8579_8576_8598_8590_859F_8668),
  (0xEE58, 0x87BE_87AA_87AD_87C5_87B0_87AC_87B9_87B5_87BC_87AE_87C9_87C3),
  (0xEE64, 0x87C2_87CC_87B7_87AF_87C4_87CA_87B4_87B6_87BF_87B8_87BD_87DE),
  (0xEE70, 0x87B2_8935_8933_893C_893E_8941_8952_8937_8942_89AD_89AF_89AE),
  (0xEE7C, 0x89F2_89F3_8B1E),
  (0xEEA1, 0x8B18_8B16_8B11_8B05_8B0B_8B22_8B0F_8B12_8B15_8B07_8B0D_8B08),
  (0xEEAD, 0x8B06_8B1C_8B13_8B1A_8C4F_8C70_8C72_8C71_8C6F_8C95_8C94_8CF9),
  (0xEEB9, 0x8D6F_8E4E_8E4D_8E53_8E50_8E4C_8E47_8F43_8F40_9085_907E_9138),
  (0xEEC5, 0x919A_91A2_919B_9199_919F_91A1_919D_91A0_93A1_9383_93AF_9364),
  (0xEED1, 0x9356_9347_937C_9358_935C_9376_9349_9350_9351_9360_936D_938F),
  (0xEEDD, 0x934C_936A_9379_9357_9355_9352_934F_9371_9377_937B_9361_935E),
  (0xEEE9, 0x9363_9367_9380_934E_9359_95C7_95C0_95C9_95C3_95C5_95B7_96AE),
  (0xEEF5, 0x96B0_96AC_9720_971F_9718_971D_9719_979A_97A1_979C),
  (0xEF40, 0x979E_979D_97D5_97D4_97F1_9841_9844_984A_9849_9845_9843_9925),
  (0xEF4C, 0x992B_992C_992A_9933_9932_992F_992D_9931_9930_9998_99A3_99A1),
  (0xEF58, 0x9A02_99FA_99F4_99F7_99F9_99F8_99F6_99FB_99FD_99FE_99FC_9A03),
  (0xEF64, 0x9ABE_9AFE_9AFD_9B01_9AFC_9B48_9B9A_9BA8_9B9E_9B9B_9BA6_9BA1),
  (0xEF70, 0x9BA5_9BA4_9B86_9BA2_9BA0_9BAF_9D33_9D41_9D67_9D36_9D2E_9D2F),
  (0xEF7C, 0x9D31_9D38_9D30),
  (0xEFA1, 0x9D45_9D42_9D43_9D3E_9D37_9D40_9D3D_7FF5_9D2D_9E8A_9E89_9E8D),
  (0xEFAD, 0x9EB0_9EC8_9EDA_9EFB_9EFF_9F24_9F23_9F22_9F54_9FA0_5131_512D),
  (0xEFB9, 0x512E_5698_569C_5697_569A_569D_5699_5970_5B3C_5C69_5C6A_5DC0),
  (0xEFC5, 0x5E6D_5E6E_61D8_61DF_61ED_61EE_61F1_61EA_61F0_61EB_61D6_61E9),
  (0xEFD1, 0x64FF_6504_64FD_64F8_6501_6503_64FC_6594_65DB_66DA_66DB_66D8),
  (0xEFDD, 0x6AC5_6AB9_6ABD_6AE1_6AC6_6ABA_6AB6_6AB7_6AC7_6AB4_6AAD_6B5E),
  (0xEFE9, 0x6BC9_6C0B_7007_700C_700D_7001_7005_7014_700E_6FFF_7000_6FFB),
  (0xEFF5, 0x7026_6FFC_6FF7_700A_7201_71FF_71F9_7203_71FD_7376),
  (0xF040, 0x74B8_74C0_74B5_74C1_74BE_74B6_74BB_74C2_7514_7513_765C_7664),
  (0xF04C, 0x7659_7650_7653_7657_765A_76A6_76BD_76EC_77C2_77BA_78FF_790C),
  (0xF058, 0x7913_7914_7909_7910_7912_7911_79AD_79AC_7A5F_7C1C_7C29_7C19),
  (0xF064, 0x7C20_7C1F_7C2D_7C1D_7C26_7C28_7C22_7C25_7C30_7E5C_7E50_7E56),
  (0xF070, 0x7E63_7E58_7E62_7E5F_7E51_7E60_7E57_7E53_7FB5_7FB3_7FF7_7FF8),
  (0xF07C, 0x8075_81D1_81D2),
  (0xF0A1, 0x81D0_825F_825E_85B4_85C6_85C0_85C3_85C2_85B3_85B5_85BD_85C7),
  (0xF0AD, 0x85C4_85BF_85CB_85CE_85C8_85C5_85B1_85B6_85D2_8624_85B8_85B7),
  (0xF0B9, 0x85BE_8669_87E7_87E6_87E2_87DB_87EB_87EA_87E5_87DF_87F3_87E4),
  (0xF0C5, 0x87D4_87DC_87D3_87ED_87D8_87E3_87A4_87D7_87D9_8801_87F4_87E8),
  (0xF0D1, 0x87DD_8953_894B_894F_894C_8946_8950_8951_8949_8B2A_8B27_8B23),
  (0xF0DD, 0x8B33_8B30_8B35_8B47_8B2F_8B3C_8B3E_8B31_8B25_8B37_8B26_8B36),
  (0xF0E9, 0x8B2E_8B24_8B3B_8B3D_8B3A_8C42_8C75_8C99_8C98_8C97_8CFE_8D04),
  (0xF0F5, 0x8D02_8D00_8E5C_8E62_8E60_8E57_8E56_8E5E_8E65_8E67),
  (0xF140, 0x8E5B_8E5A_8E61_8E5D_8E69_8E54_8F46_8F47_8F48_8F4B_9128_913A),
  (0xF14C, 0x913B_913E_91A8_91A5_91A7_91AF_91AA_93B5_938C_9392_93B7_939B),
  (0xF158, 0x939D_9389_93A7_938E_93AA_939E_93A6_9395_9388_9399_939F_938D),
  (0xF164, 0x93B1_9391_93B2_93A4_93A8_93B4_93A3_93A5_95D2_95D3_95D1_96B3),
  (0xF170, 0x96D7_96DA_5DC2_96DF_96D8_96DD_9723_9722_9725_97AC_97AE_97A8),
  (0xF17C, 0x97AB_97A4_97AA),
  (0xF1A1, 0x97A2_97A5_97D7_97D9_97D6_97D8_97FA_9850_9851_9852_98B8_9941),
  (0xF1AD, 0x993C_993A_9A0F_9A0B_9A09_9A0D_9A04_9A11_9A0A_9A05_9A07_9A06),
  (0xF1B9, 0x9AC0_9ADC_9B08_9B04_9B05_9B29_9B35_9B4A_9B4C_9B4B_9BC7_9BC6),
  (0xF1C5, 0x9BC3_9BBF_9BC1_9BB5_9BB8_9BD3_9BB6_9BC4_9BB9_9BBD_9D5C_9D53),
  (0xF1D1, 0x9D4F_9D4A_9D5B_9D4B_9D59_9D56_9D4C_9D57_9D52_9D54_9D5F_9D58),
  (0xF1DD, 0x9D5A_9E8E_9E8C_9EDF_9F01_9F00_9F16_9F25_9F2B_9F2A_9F29_9F28),
  (0xF1E9, 0x9F4C_9F55_5134_5135_5296_52F7_53B4_56AB_56AD_56A6_56A7_56AA),
  (0xF1F5, 0x56AC_58DA_58DD_58DB_5912_5B3D_5B3E_5B3F_5DC3_5E70),
  (0xF240, 0x5FBF_61FB_6507_6510_650D_6509_650C_650E_6584_65DE_65DD_66DE),
  (0xF24C, 0x6AE7_6AE0_6ACC_6AD1_6AD9_6ACB_6ADF_6ADC_6AD0_6AEB_6ACF_6ACD),
  (0xF258, 0x6ADE_6B60_6BB0_6C0C_7019_7027_7020_7016_702B_7021_7022_7023),
  (0xF264, 0x7029_7017_7024_701C_702A_720C_720A_7207_7202_7205_72A5_72A6),
  (0xF270, 0x72A4_72A3_72A1_74CB_74C5_74B7_74C3_7516_7660_77C9_77CA_77C4),
  (0xF27C, 0x77F1_791D_791B),
  (0xF2A1, 0x7921_791C_7917_791E_79B0_7A67_7A68_7C33_7C3C_7C39_7C2C_7C3B),
  (0xF2AD, 0x7CEC_7CEA_7E76_7E75_7E78_7E70_7E77_7E6F_7E7A_7E72_7E74_7E68),
  (0xF2B9, 0x7F4B_7F4A_7F83_7F86_7FB7_7FFD_7FFE_8078_81D7_81D5_8264_8261),
  (0xF2C5, 0x8263_85EB_85F1_85ED_85D9_85E1_85E8_85DA_85D7_85EC_85F2_85F8),
  (0xF2D1, 0x85D8_85DF_85E3_85DC_85D1_85F0_85E6_85EF_85DE_85E2_8800_87FA),
  (0xF2DD, 0x8803_87F6_87F7_8809_880C_880B_8806_87FC_8808_87FF_880A_8802),
  (0xF2E9, 0x8962_895A_895B_8957_8961_895C_8958_895D_8959_8988_89B7_89B6),
  (0xF2F5, 0x89F6_8B50_8B48_8B4A_8B40_8B53_8B56_8B54_8B4B_8B55),
  (0xF340, 0x8B51_8B42_8B52_8B57_8C43_8C77_8C76_8C9A_8D06_8D07_8D09_8DAC),
  (0xF34C, 0x8DAA_8DAD_8DAB_8E6D_8E78_8E73_8E6A_8E6F_8E7B_8EC2_8F52_8F51),
  (0xF358, 0x8F4F_8F50_8F53_8FB4_9140_913F_91B0_91AD_93DE_93C7_93CF_93C2),
  (0xF364, 0x93DA_93D0_93F9_93EC_93CC_93D9_93A9_93E6_93CA_93D4_93EE_93E3),
  (0xF370, 0x93D5_93C4_93CE_93C0_93D2_93E7_957D_95DA_95DB_96E1_9729_972B),
  (0xF37C, 0x972C_9728_9726),
  (0xF3A1, 0x97B3_97B7_97B6_97DD_97DE_97DF_985C_9859_985D_9857_98BF_98BD),
  (0xF3AD, 0x98BB_98BE_9948_9947_9943_99A6_99A7_9A1A_9A15_9A25_9A1D_9A24),
  (0xF3B9, 0x9A1B_9A22_9A20_9A27_9A23_9A1E_9A1C_9A14_9AC2_9B0B_9B0A_9B0E),
  (0xF3C5, 0x9B0C_9B37_9BEA_9BEB_9BE0_9BDE_9BE4_9BE6_9BE2_9BF0_9BD4_9BD7),
  (0xF3D1, 0x9BEC_9BDC_9BD9_9BE5_9BD5_9BE1_9BDA_9D77_9D81_9D8A_9D84_9D88),
  (0xF3DD, 0x9D71_9D80_9D78_9D86_9D8B_9D8C_9D7D_9D6B_9D74_9D75_9D70_9D69),
  (0xF3E9, 0x9D85_9D73_9D7B_9D82_9D6F_9D79_9D7F_9D87_9D68_9E94_9E91_9EC0),
  (0xF3F5, 0x9EFC_9F2D_9F40_9F41_9F4D_9F56_9F57_9F58_5337_56B2),
  (0xF440, 0x56B5_56B3_58E3_5B45_5DC6_5DC7_5EEE_5EEF_5FC0_5FC1_61F9_6517),
  (0xF44C, 0x6516_6515_6513_65DF_66E8_66E3_66E4_6AF3_6AF0_6AEA_6AE8_6AF9),
  (0xF458, 0x6AF1_6AEE_6AEF_703C_7035_702F_7037_7034_7031_7042_7038_703F),
  (0xF464, 0x703A_7039_7040_703B_7033_7041_7213_7214_72A8_737D_737C_74BA),
  (0xF470, 0x76AB_76AA_76BE_76ED_77CC_77CE_77CF_77CD_77F2_7925_7923_7927),
  (0xF47C, 0x7928_7924_7929),
  (0xF4A1, 0x79B2_7A6E_7A6C_7A6D_7AF7_7C49_7C48_7C4A_7C47_7C45_7CEE_7E7B),
  (0xF4AD, 0x7E7E_7E81_7E80_7FBA_7FFF_8079_81DB_81D9_820B_8268_8269_8622),
  (0xF4B9, 0x85FF_8601_85FE_861B_8600_85F6_8604_8609_8605_860C_85FD_8819),
  (0xF4C5, 0x8810_8811_8817_8813_8816_8963_8966_89B9_89F7_8B60_8B6A_8B5D),
  (0xF4D1, 0x8B68_8B63_8B65_8B67_8B6D_8DAE_8E86_8E88_8E84_8F59_8F56_8F57),
  (0xF4DD, 0x8F55_8F58_8F5A_908D_9143_9141_91B7_91B5_91B2_91B3_940B_9413),
  (0xF4E9, 0x93FB_9420_940F_9414_93FE_9415_9410_9428_9419_940D_93F5_9400),
  (0xF4F5, 0x93F7_9407_940E_9416_9412_93FA_9409_93F8_940A_93FF),
  (0xF540, 0x93FC_940C_93F6_9411_9406_95DE_95E0_95DF_972E_972F_97B9_97BB),
  (0xF54C, 0x97FD_97FE_9860_9862_9863_985F_98C1_98C2_9950_994E_9959_994C),
  (0xF558, 0x994B_9953_9A32_9A34_9A31_9A2C_9A2A_9A36_9A29_9A2E_9A38_9A2D),
  (0xF564, 0x9AC7_9ACA_9AC6_9B10_9B12_9B11_9C0B_9C08_9BF7_9C05_9C12_9BF8),
  (0xF570, 0x9C40_9C07_9C0E_9C06_9C17_9C14_9C09_9D9F_9D99_9DA4_9D9D_9D92),
  (0xF57C, 0x9D98_9D90_9D9B),
  (0xF5A1, 0x9DA0_9D94_9D9C_9DAA_9D97_9DA1_9D9A_9DA2_9DA8_9D9E_9DA3_9DBF),
  (0xF5AD, 0x9DA9_9D96_9DA6_9DA7_9E99_9E9B_9E9A_9EE5_9EE4_9EE7_9EE6_9F30),
  (0xF5B9, 0x9F2E_9F5B_9F60_9F5E_9F5D_9F59_9F91_513A_5139_5298_5297_56C3),
  (0xF5C5, 0x56BD_56BE_5B48_5B47_5DCB_5DCF_5EF1_61FD_651B_6B02_6AFC_6B03),
  (0xF5D1, 0x6AF8_6B00_7043_7044_704A_7048_7049_7045_7046_721D_721A_7219),
  (0xF5DD, 0x737E_7517_766A_77D0_792D_7931_792F_7C54_7C53_7CF2_7E8A_7E87),
  (0xF5E9, 0x7E88_7E8B_7E86_7E8D_7F4D_7FBB_8030_81DD_8618_862A_8626_861F),
  (0xF5F5, 0x8623_861C_8619_8627_862E_8621_8620_8629_861E_8625),
  (0xF640, 0x8829_881D_881B_8820_8824_881C_882B_884A_896D_8969_896E_896B),
  (0xF64C, 0x89FA_8B79_8B78_8B45_8B7A_8B7B_8D10_8D14_8DAF_8E8E_8E8C_8F5E),
  (0xF658, 0x8F5B_8F5D_9146_9144_9145_91B9_943F_943B_9436_9429_943D_943C),
  (0xF664, 0x9430_9439_942A_9437_942C_9440_9431_95E5_95E4_95E3_9735_973A),
  (0xF670, 0x97BF_97E1_9864_98C9_98C6_98C0_9958_9956_9A39_9A3D_9A46_9A44),
  (0xF67C, 0x9A42_9A41_9A3A),
  (0xF6A1, 0x9A3F_9ACD_9B15_9B17_9B18_9B16_9B3A_9B52_9C2B_9C1D_9C1C_9C2C),
  (0xF6AD, 0x9C23_9C28_9C29_9C24_9C21_9DB7_9DB6_9DBC_9DC1_9DC7_9DCA_9DCF),
  (0xF6B9, 0x9DBE_9DC5_9DC3_9DBB_9DB5_9DCE_9DB9_9DBA_9DAC_9DC8_9DB1_9DAD),
  (0xF6C5, 0x9DCC_9DB3_9DCD_9DB2_9E7A_9E9C_9EEB_9EEE_9EED_9F1B_9F18_9F1A),
  (0xF6D1, 0x9F31_9F4E_9F65_9F64_9F92_4EB9_56C6_56C5_56CB_5971_5B4B_5B4C),
  (0xF6DD, 0x5DD5_5DD1_5EF2_6521_6520_6526_6522_6B0B_6B08_6B09_6C0D_7055),
  (0xF6E9, 0x7056_7057_7052_721E_721F_72A9_737F_74D8_74D5_74D9_74D7_766D),
  (0xF6F5, 0x76AD_7935_79B4_7A70_7A71_7C57_7C5C_7C59_7C5B_7C5A),
  (0xF740, 0x7CF4_7CF1_7E91_7F4F_7F87_81DE_826B_8634_8635_8633_862C_8632),
  (0xF74C, 0x8636_882C_8828_8826_882A_8825_8971_89BF_89BE_89FB_8B7E_8B84),
  (0xF758, 0x8B82_8B86_8B85_8B7F_8D15_8E95_8E94_8E9A_8E92_8E90_8E96_8E97),
  (0xF764, 0x8F60_8F62_9147_944C_9450_944A_944B_944F_9447_9445_9448_9449),
  (0xF770, 0x9446_973F_97E3_986A_9869_98CB_9954_995B_9A4E_9A53_9A54_9A4C),
  (0xF77C, 0x9A4F_9A48_9A4A),
  (0xF7A1, 0x9A49_9A52_9A50_9AD0_9B19_9B2B_9B3B_9B56_9B55_9C46_9C48_9C3F),
  (0xF7AD, 0x9C44_9C39_9C33_9C41_9C3C_9C37_9C34_9C32_9C3D_9C36_9DDB_9DD2),
  (0xF7B9, 0x9DDE_9DDA_9DCB_9DD0_9DDC_9DD1_9DDF_9DE9_9DD9_9DD8_9DD6_9DF5),
  (0xF7C5, 0x9DD5_9DDD_9EB6_9EF0_9F35_9F33_9F32_9F42_9F6B_9F95_9FA2_513D),
  (0xF7D1, 0x5299_58E8_58E7_5972_5B4D_5DD8_882F_5F4F_6201_6203_6204_6529),
  (0xF7DD, 0x6525_6596_66EB_6B11_6B12_6B0F_6BCA_705B_705A_7222_7382_7381),
  (0xF7E9, 0x7383_7670_77D4_7C67_7C66_7E95_826C_863A_8640_8639_863C_8631),
  (0xF7F5, 0x863B_863E_8830_8832_882E_8833_8976_8974_8973_89FE),
  (0xF840, 0x8B8C_8B8E_8B8B_8B88_8C45_8D19_8E98_8F64_8F63_91BC_9462_9455),
  (0xF84C, 0x945D_9457_945E_97C4_97C5_9800_9A56_9A59_9B1E_9B1F_9B20_9C52),
  (0xF858, 0x9C58_9C50_9C4A_9C4D_9C4B_9C55_9C59_9C4C_9C4E_9DFB_9DF7_9DEF),
  (0xF864, 0x9DE3_9DEB_9DF8_9DE4_9DF6_9DE1_9DEE_9DE6_9DF2_9DF0_9DE2_9DEC),
  (0xF870, 0x9DF4_9DF3_9DE8_9DED_9EC2_9ED0_9EF2_9EF3_9F06_9F1C_9F38_9F37),
  (0xF87C, 0x9F36_9F43_9F4F),
  (0xF8A1, 0x9F71_9F70_9F6E_9F6F_56D3_56CD_5B4E_5C6D_652D_66ED_66EE_6B13),
  (0xF8AD, 0x705F_7061_705D_7060_7223_74DB_74E5_77D5_7938_79B7_79B6_7C6A),
  (0xF8B9, 0x7E97_7F89_826D_8643_8838_8837_8835_884B_8B94_8B95_8E9E_8E9F),
  (0xF8C5, 0x8EA0_8E9D_91BE_91BD_91C2_946B_9468_9469_96E5_9746_9743_9747),
  (0xF8D1, 0x97C7_97E5_9A5E_9AD5_9B59_9C63_9C67_9C66_9C62_9C5E_9C60_9E02),
  (0xF8DD, 0x9DFE_9E07_9E03_9E06_9E05_9E00_9E01_9E09_9DFF_9DFD_9E04_9EA0),
  (0xF8E9, 0x9F1E_9F46_9F74_9F75_9F76_56D4_652E_65B8_6B18_6B19_6B17_6B1A),
  (0xF8F5, 0x7062_7226_72AA_77D8_77D9_7939_7C69_7C6B_7CF6_7E9A),
  (0xF940, 0x7E98_7E9B_7E99_81E0_81E1_8646_8647_8648_8979_897A_897C_897B),
  (0xF94C, 0x89FF_8B98_8B99_8EA5_8EA4_8EA3_946E_946D_946F_9471_9473_9749),
  (0xF958, 0x9872_995F_9C68_9C6E_9C6D_9E0B_9E0D_9E10_9E0F_9E12_9E11_9EA1),
  (0xF964, 0x9EF5_9F09_9F47_9F78_9F7B_9F7A_9F79_571E_7066_7C6F_883C_8DB2),
  (0xF970, 0x8EA6_91C3_9474_9478_9476_9475_9A60_9C74_9C73_9C71_9C75_9E14),
  (0xF97C, 0x9E13_9EF6_9F0A),
  (0xF9A1, 0x9FA4_7068_7065_7CF7_866A_883E_883D_883F_8B9E_8C9C_8EA9_8EC9),
  (0xF9AD, 0x974B_9873_9874_98CC_9961_99AB_9A64_9A66_9A67_9B24_9E15_9E17),
  (0xF9B9, 0x9F48_6207_6B1E_7227_864C_8EA8_9482_9480_9481_9A69_9A68_9B2E),
  (0xF9C5, 0x9E19_7229_864B_8B9F_9483_9C79_9EB7_7675_9A6B_9C7A_9E1D_7069),
  (0xF9D1, 0x706A_9EA4_9F7E_9F49_9F98_7881_92B9_88CF_58BB_6052_7CA7_5AFA),
  (0xF9DD, 0x2554_2566_2557_2560_256C_2563_255A_2569_255D_2552_2564_2555),
  (0xF9E9, 0x255E_256A_2561_2558_2567_255B_2553_2565_2556_255F_256B_2562),
  (0xF9F5, 0x2559_2568_255C_2551_2550_256D_256E_2570_256F_2593),
  (0xFA40, 0xE000_E001_E002_E003_E004_E005_E006_E007_E008_E009_E00A_E00B),
  (0xFA4C, 0xE00C_E00D_E00E_E00F_E010_E011_E012_E013_E014_E015_E016_E017),
  (0xFA58, 0xE018_E019_E01A_E01B_E01C_E01D_E01E_E01F_E020_E021_E022_E023),
  (0xFA64, 0x7232_723C_7266_7282_728F_729F_72AD_72B1_72B8_72BE_72CD_72DB),
  (0xFA70, 0x7324_732F_7338_7339_73BD_73CE_73F1_7476_74A2_7501_7519_7523),
  (0xFA7C, 0x753C_7544_7549),
  (0xFAA1, 0x754D_756D_7582_7583_7589_75AC_75D6_75E9_7640_764D_7654_7668),
  (0xFAAD, 0x7680_7683_7690_76B7_76B9_770D_771E_7743_7818_781C_7839_783C),
  (0xFAB9, 0x7847_7856_787A_78B5_78B9_78C6_78D9_7907_7930_7934_793B_7980),
  (0xFAC5, 0x799D_79C3_79E1_7A06_7A0E_7A43_7A50_7AC3_7AD2_7AE2_7AE7_7AF8),
  (0xFAD1, 0x7B36_7B62_7B6C_7B7A_7B7B_7B9A_7B9E_7B9F_7BA2_7BA7_7BF6_7C12),
  (0xFADD, 0x7C14_7C4F_7C56_7C58_7CAB_7CFA_7D48_7D4B_7D77_7DD4_7DD5_7DD6),
  (0xFAE9, 0x7DE4_7E4D_7E5D_7E7F_7E89_7E8E_7E92_7ED4_7EF1_7F12_7F30_7F71),
  (0xFAF5, 0x7F82_7FAE_7FC6_8020_8022_8025_8031_805F_8068_80AC),
  (0xFB40, 0x80B7_519A_5416_5414_34DF_4C7D_62C3_E0A4_E0A5_E0A6_54CB_E0A8),
  (0xFB4C, 0x55BC_80B6_51A7_E0AC_E0AD_E0AE_5513_8226_E0B1_551E_55DE_63B9),
  (0xFB58, 0x6898_E0B6_5502_5569_75B4_63FC_9E84_922A_E0BD_E0BE_E0BF_88C7),
  (0xFB64, 0x609E_5625_7145_5AF2_E0C5_528F_564F_7793_8786_8E2D_81B6_35FE),
  (0xFB70, 0x71F6_E0CE_8804_9385_E0D1_E0D2_7666_E0D4_9C72_E0D6_62CE_E0D8),
  (0xFB7C, 0x9E96_4989_7CD3),
  (0xFBA1, 0x8EDA_9EAB_64E7_E0DF_82AA_6767_6D72_7906_79C4_7F4E_87EE_E0E7),
  (0xFBAD, 0x83BE_862F_89A5_460F_E0EC_98C8_9940_994D_9A0C_9AD7_9E98_9F26),
  (0xFBB9, 0xE0F4_4F03_E0F6_4F39_4F32_4FAB_5056_E0FB_502E_50A6_50D9_510E),
  (0xFBC5, 0x50ED_5101_51F4_521F_5260_5257_529A_52D1_52E0_52E1_51D3_51DF),
  (0xFBD1, 0x7546_51FE_5332_532C_5333_53AB_53AA_9F8E_5469_549C_53DA_6ACA),
  (0xFBDD, 0x5573_E119_35D6_E11B_5611_564D_E11E_5654_35F3_E121_5746_577A),
  (0xFBE9, 0x5767_583A_57E6_57DD_5840_E129_5826_58DC_59B7_59D9_5C20_E12F),
  (0xFBF5, 0x5CD1_5CE9_5D46_5D8E_E134_5DF5_5E0B_5E12_5E2E_5E5E),
  (0xFC40, 0xE13A_5F4D_7A7D_5BC3_7ABB_E13F_E140_5FA4_5FBA_5FBC_E144_6077),
  (0xFC4C, 0x60A4_60B3_60FD_6130_E14A_619C_6159_617D_615C_637F_61E2_70D5),
  (0xFC58, 0x6239_6268_6285_6282_62A6_62D5_6364_6335_6490_3A5C_6648_6667),
  (0xFC64, 0x671E_6803_67AC_67F9_68B6_692C_6901_6900_68CA_6973_6980_693E),
  (0xFC70, 0xE16A_69B2_69C0_698A_69FA_69E9_6AB2_6A52_6A9D_6B1D_6B52_6BFA),
  (0xFC7C, 0x3CD1_6CCE_6E4F),
  (0xFCA1, 0x6DB9_6F44_E17B_6FDA_7081_79CC_7134_3DCC_7176_E182_E183_7215),
  (0xFCAD, 0x7250_7287_732C_72B2_72E2_7302_7348_7328_734F_7371_6585_E190),
  (0xFCB9, 0x745D_7468_751E_7553_757A_76A1_76CC_7724_772B_4065_7853_78D3),
  (0xFCC5, 0x78D8_9D7E_78AF_E1A0_6142_79A9_9C3A_79D4_E1A5_7A2D_7A3E_7A49),
  (0xFCD1, 0x7ADD_7ADA_75C3_7607_7602_E1AE_7667_766F_5620_8A67_9F17_7B1F),
  (0xFCDD, 0x7B92_7BA3_7BCF_E1B8_7BFC_7C42_7C51_7C5D_7C70_7C7E_7C86_7C83),
  (0xFCE9, 0x7CAC_7CC7_7CC2_E1C4_7CDA_E1C6_7D4D_7D5A_7DF5_7E27_7E6E_9E95),
  (0xFCF5, 0x5273_801D_8062_8063_8066_805B_80A6_8103_9E81_81C8),
  (0xFD40, 0xE1D7_8FA0_81F6_821A_E1DB_8771_87A9_878C_9E9E_87C1_9E1C_E1E2),
  (0xFD4C, 0x87D6_87F5_880F_8818_882D_8842_8845_9C35_886E_88AA_88A0_629D),
  (0xFD58, 0x8943_894D_7172_885E_E1F3_82FD_44B7_82D0_8385_9D02_9F69_8420),
  (0xFD64, 0xE1FB_84DA_84AD_44FB_854B_E200_8602_8610_63D1_8989_898A_8994),
  (0xFD70, 0x9C45_89BC_8A7E_8A49_8B0C_8B43_8B81_8B4C_E20F_8CAD_8CEB_8CF7),
  (0xFD7C, 0x8D0C_8D82_8DA6),
  (0xFDA1, 0x8DD4_8E28_8E4F_8E77_8E75_8EA7_8F19_E21D_8F5C_9D44_90C4_9151),
  (0xFDAD, 0xE222_915C_9159_9167_917C_918E_91BB_9EA8_9056_904C_91FE_9262),
  (0xFDB9, 0x92BE_936B_936E_93BA_9427_9597_95A7_E235_9638_E237_9683_9696),
  (0xFDC5, 0x9681_96BD_9703_9721_9731_975F_979F_97B4_97B8_97BA_97BE_97C8),
  (0xFDD1, 0x9EBF_981F_982E_9FA5_9847_984B_9866_986C_98B4_9F5A_98DC_98E6),
  (0xFDDD, 0x9942_9939_993B_9F53_994A_9F45_4B7E_99DA_7AC8_9ABA_9ABD_9F02),
  (0xFDE9, 0x9B2A_E25F_9B2D_9AE2_9B02_9AFF_4C07_9B09_4C04_4C3B_9B8F_9B9D),
  (0xFDF5, 0x9BB0_9C0C_9C15_9C0A_9BFF_9C2E_80E8_80E9_80EC_810E),
  (0xFE40, 0x6C39_4E6A_9641_58F2_7962_6822_E27A_E27B_8107_57D7_44EA_6435),
  (0xFE4C, 0x8534_40DF_E282_691A_9C02_75B1_83D3_7171_6A0B_E289_6A7A_9AF4),
  (0xFE58, 0xE28C_E28D_77B9_6530_6D96_5637_6725_6A2B_7D5D_9061_4E98_7CA6),
  (0xFE64, 0x7B39_E299_5975_36C7_707F_E29D_6E8B_E29F_E2A0_975D_92D0_5754),
  (0xFE70, 0xE2A4_3ED9_E2A6_E2A7_6199_7460_713F_792E_5A96_9348_668E_4FFD),
  (0xFE7C, 0x9341_3654_5D75),
  (0xFEA1, 0x701E_657B_708D_5ECD_E2B7_60A7_7AB0_5F63_E2BB_73F7_E2BD_7468),
  (0xFEAD, 0x75B4_E2C0_9B69_00BD_2153_2154_00BC_00BE_2155_2156_2157_2158),
  (0xFEB9, 0x2159_215A_8692_86A0_86AD_86B2_87A5_87B1_215B_215C_215D_215E),
  (0xFEC5, 0x87DA_884F_8860_8887_888F_8890_88E6_88FF_8900_8924_8947_8954),
  (0xFED1, 0x8965_8980_8991_8A1C_8A29_8A2B_8A38_8A3D_2312_8A90_8A94_8A9C),
  (0xFEDD, 0x8AA9_8AAF_8AB4_8AEA_8B1F_2030_8B3F_8B4D_8B5E_8B62_8B69_8B9B),
  (0xFEE9, 0x8C51_8C9B_8C9F_8CD4_8CD6_8112_8131_8136_815F_816D_817D_8193),
  (0xFEF5, 0x81AA_81B8_81C1_8229_822D_822E_823E_8262_826A_8288)]

/-- /repo/modules/from/_UAO241.txt; there is no file for writing. -/
def uao241 : Charset where
  reads := uao241Reads
  writes := []

end Verif.Charsets
