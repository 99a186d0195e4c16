import Verif.Spec.Charset
/-
Generated by tools/charsets.py from rule files of /repo/modules/from and /repo/modules/to.
-/
namespace Verif.Charsets
open Verif.Spec

set_option maxRecDepth 100000

/-- The rules of /repo/modules/from/_CP949.txt: code, character.  No two lines have the same code, so their order does not matter; here they
are sorted. -/
def cp949Reads : Chart := Chart.wide [
  (0x8141, 0xAC02_AC03_AC05_AC06_AC0B_AC0C_AC0D_AC0E_AC0F_AC18_AC1E_AC1F),
  (0x814D, 0xAC21_AC22_AC23_AC25_AC26_AC27_AC28_AC29_AC2A_AC2B_AC2E_AC32),
  (0x8159, 0xAC33_AC34),
  (0x8161, 0xAC35_AC36_AC37_AC3A_AC3B_AC3D_AC3E_AC3F_AC41_AC42_AC43_AC44),
  (0x816D, 0xAC45_AC46_AC47_AC48_AC49_AC4A_AC4C_AC4E_AC4F_AC50_AC51_AC52),
  (0x8179, 0xAC53_AC55),
  (0x8181, 0xAC56_AC57_AC59_AC5A_AC5B_AC5D_AC5E_AC5F_AC60_AC61_AC62_AC63),
  (0x818D, 0xAC64_AC65_AC66_AC67_AC68_AC69_AC6A_AC6B_AC6C_AC6D_AC6E_AC6F),
  (0x8199, 0xAC72_AC73_AC75_AC76_AC79_AC7B_AC7C_AC7D_AC7E_AC7F_AC82_AC87),
  (0x81A5, 0xAC88_AC8D_AC8E_AC8F_AC91_AC92_AC93_AC95_AC96_AC97_AC98_AC99),
  (0x81B1, 0xAC9A_AC9B_AC9E_ACA2_ACA3_ACA4_ACA5_ACA6_ACA7_ACAB_ACAD_ACAE),
  (0x81BD, 0xACB1_ACB2_ACB3_ACB4_ACB5_ACB6_ACB7_ACBA_ACBE_ACBF_ACC0_ACC2),
  (0x81C9, 0xACC3_ACC5_ACC6_ACC7_ACC9_ACCA_ACCB_ACCD_ACCE_ACCF_ACD0_ACD1),
  (0x81D5, 0xACD2_ACD3_ACD4_ACD6_ACD8_ACD9_ACDA_ACDB_ACDC_ACDD_ACDE_ACDF),
  (0x81E1, 0xACE2_ACE3_ACE5_ACE6_ACE9_ACEB_ACED_ACEE_ACF2_ACF4_ACF7_ACF8),
  (0x81ED, 0xACF9_ACFA_ACFB_ACFE_ACFF_AD01_AD02_AD03_AD05_AD07_AD08_AD09),
  (0x81F9, 0xAD0A_AD0B_AD0E_AD10_AD12_AD13),
  (0x8241, 0xAD14_AD15_AD16_AD17_AD19_AD1A_AD1B_AD1D_AD1E_AD1F_AD21_AD22),
  (0x824D, 0xAD23_AD24_AD25_AD26_AD27_AD28_AD2A_AD2B_AD2E_AD2F_AD30_AD31),
  (0x8259, 0xAD32_AD33),
  (0x8261, 0xAD36_AD37_AD39_AD3A_AD3B_AD3D_AD3E_AD3F_AD40_AD41_AD42_AD43),
  (0x826D, 0xAD46_AD48_AD4A_AD4B_AD4C_AD4D_AD4E_AD4F_AD51_AD52_AD53_AD55),
  (0x8279, 0xAD56_AD57),
  (0x8281, 0xAD59_AD5A_AD5B_AD5C_AD5D_AD5E_AD5F_AD60_AD62_AD64_AD65_AD66),
  (0x828D, 0xAD67_AD68_AD69_AD6A_AD6B_AD6E_AD6F_AD71_AD72_AD77_AD78_AD79),
  (0x8299, 0xAD7A_AD7E_AD80_AD83_AD84_AD85_AD86_AD87_AD8A_AD8B_AD8D_AD8E),
  (0x82A5, 0xAD8F_AD91_AD92_AD93_AD94_AD95_AD96_AD97_AD98_AD99_AD9A_AD9B),
  (0x82B1, 0xAD9E_AD9F_ADA0_ADA1_ADA2_ADA3_ADA5_ADA6_ADA7_ADA8_ADA9_ADAA),
  (0x82BD, 0xADAB_ADAC_ADAD_ADAE_ADAF_ADB0_ADB1_ADB2_ADB3_ADB4_ADB5_ADB6),
  (0x82C9, 0xADB8_ADB9_ADBA_ADBB_ADBC_ADBD_ADBE_ADBF_ADC2_ADC3_ADC5_ADC6),
  (0x82D5, 0xADC7_ADC9_ADCA_ADCB_ADCC_ADCD_ADCE_ADCF_ADD2_ADD4_ADD5_ADD6),
  (0x82E1, 0xADD7_ADD8_ADD9_ADDA_ADDB_ADDD_ADDE_ADDF_ADE1_ADE2_ADE3_ADE5),
  (0x82ED, 0xADE6_ADE7_ADE8_ADE9_ADEA_ADEB_ADEC_ADED_ADEE_ADEF_ADF0_ADF1),
  (0x82F9, 0xADF2_ADF3_ADF4_ADF5_ADF6_ADF7),
  (0x8341, 0xADFA_ADFB_ADFD_ADFE_AE02_AE03_AE04_AE05_AE06_AE07_AE0A_AE0C),
  (0x834D, 0xAE0E_AE0F_AE10_AE11_AE12_AE13_AE15_AE16_AE17_AE18_AE19_AE1A),
  (0x8359, 0xAE1B_AE1C),
  (0x8361, 0xAE1D_AE1E_AE1F_AE20_AE21_AE22_AE23_AE24_AE25_AE26_AE27_AE28),
  (0x836D, 0xAE29_AE2A_AE2B_AE2C_AE2D_AE2E_AE2F_AE32_AE33_AE35_AE36_AE39),
  (0x8379, 0xAE3B_AE3C),
  (0x8381, 0xAE3D_AE3E_AE3F_AE42_AE44_AE47_AE48_AE49_AE4B_AE4F_AE51_AE52),
  (0x838D, 0xAE53_AE55_AE57_AE58_AE59_AE5A_AE5B_AE5E_AE62_AE63_AE64_AE66),
  (0x8399, 0xAE67_AE6A_AE6B_AE6D_AE6E_AE6F_AE71_AE72_AE73_AE74_AE75_AE76),
  (0x83A5, 0xAE77_AE7A_AE7E_AE7F_AE80_AE81_AE82_AE83_AE86_AE87_AE88_AE89),
  (0x83B1, 0xAE8A_AE8B_AE8D_AE8E_AE8F_AE90_AE91_AE92_AE93_AE94_AE95_AE96),
  (0x83BD, 0xAE97_AE98_AE99_AE9A_AE9B_AE9C_AE9D_AE9E_AE9F_AEA0_AEA1_AEA2),
  (0x83C9, 0xAEA3_AEA4_AEA5_AEA6_AEA7_AEA8_AEA9_AEAA_AEAB_AEAC_AEAD_AEAE),
  (0x83D5, 0xAEAF_AEB0_AEB1_AEB2_AEB3_AEB4_AEB5_AEB6_AEB7_AEB8_AEB9_AEBA),
  (0x83E1, 0xAEBB_AEBF_AEC1_AEC2_AEC3_AEC5_AEC6_AEC7_AEC8_AEC9_AECA_AECB),
  (0x83ED, 0xAECE_AED2_AED3_AED4_AED5_AED6_AED7_AEDA_AEDB_AEDD_AEDE_AEDF),
  (0x83F9, 0xAEE0_AEE1_AEE2_AEE3_AEE4_AEE5),
  (0x8441, 0xAEE6_AEE7_AEE9_AEEA_AEEC_AEEE_AEEF_AEF0_AEF1_AEF2_AEF3_AEF5),
  (0x844D, 0xAEF6_AEF7_AEF9_AEFA_AEFB_AEFD_AEFE_AEFF_AF00_AF01_AF02_AF03),
  (0x8459, 0xAF04_AF05),
  (0x8461, 0xAF06_AF09_AF0A_AF0B_AF0C_AF0E_AF0F_AF11_AF12_AF13_AF14_AF15),
  (0x846D, 0xAF16_AF17_AF18_AF19_AF1A_AF1B_AF1C_AF1D_AF1E_AF1F_AF20_AF21),
  (0x8479, 0xAF22_AF23),
  (0x8481, 0xAF24_AF25_AF26_AF27_AF28_AF29_AF2A_AF2B_AF2E_AF2F_AF31_AF33),
  (0x848D, 0xAF35_AF36_AF37_AF38_AF39_AF3A_AF3B_AF3E_AF40_AF44_AF45_AF46),
  (0x8499, 0xAF47_AF4A_AF4B_AF4C_AF4D_AF4E_AF4F_AF51_AF52_AF53_AF54_AF55),
  (0x84A5, 0xAF56_AF57_AF58_AF59_AF5A_AF5B_AF5E_AF5F_AF60_AF61_AF62_AF63),
  (0x84B1, 0xAF66_AF67_AF68_AF69_AF6A_AF6B_AF6C_AF6D_AF6E_AF6F_AF70_AF71),
  (0x84BD, 0xAF72_AF73_AF74_AF75_AF76_AF77_AF78_AF7A_AF7B_AF7C_AF7D_AF7E),
  (0x84C9, 0xAF7F_AF81_AF82_AF83_AF85_AF86_AF87_AF89_AF8A_AF8B_AF8C_AF8D),
  (0x84D5, 0xAF8E_AF8F_AF92_AF93_AF94_AF96_AF97_AF98_AF99_AF9A_AF9B_AF9D),
  (0x84E1, 0xAF9E_AF9F_AFA0_AFA1_AFA2_AFA3_AFA4_AFA5_AFA6_AFA7_AFA8_AFA9),
  (0x84ED, 0xAFAA_AFAB_AFAC_AFAD_AFAE_AFAF_AFB0_AFB1_AFB2_AFB3_AFB4_AFB5),
  (0x84F9, 0xAFB6_AFB7_AFBA_AFBB_AFBD_AFBE),
  (0x8541, 0xAFBF_AFC1_AFC2_AFC3_AFC4_AFC5_AFC6_AFCA_AFCC_AFCF_AFD0_AFD1),
  (0x854D, 0xAFD2_AFD3_AFD5_AFD6_AFD7_AFD8_AFD9_AFDA_AFDB_AFDD_AFDE_AFDF),
  (0x8559, 0xAFE0_AFE1),
  (0x8561, 0xAFE2_AFE3_AFE4_AFE5_AFE6_AFE7_AFEA_AFEB_AFEC_AFED_AFEE_AFEF),
  (0x856D, 0xAFF2_AFF3_AFF5_AFF6_AFF7_AFF9_AFFA_AFFB_AFFC_AFFD_AFFE_AFFF),
  (0x8579, 0xB002_B003),
  (0x8581, 0xB005_B006_B007_B008_B009_B00A_B00B_B00D_B00E_B00F_B011_B012),
  (0x858D, 0xB013_B015_B016_B017_B018_B019_B01A_B01B_B01E_B01F_B020_B021),
  (0x8599, 0xB022_B023_B024_B025_B026_B027_B029_B02A_B02B_B02C_B02D_B02E),
  (0x85A5, 0xB02F_B030_B031_B032_B033_B034_B035_B036_B037_B038_B039_B03A),
  (0x85B1, 0xB03B_B03C_B03D_B03E_B03F_B040_B041_B042_B043_B046_B047_B049),
  (0x85BD, 0xB04B_B04D_B04F_B050_B051_B052_B056_B058_B05A_B05B_B05C_B05E),
  (0x85C9, 0xB05F_B060_B061_B062_B063_B064_B065_B066_B067_B068_B069_B06A),
  (0x85D5, 0xB06B_B06C_B06D_B06E_B06F_B070_B071_B072_B073_B074_B075_B076),
  (0x85E1, 0xB077_B078_B079_B07A_B07B_B07E_B07F_B081_B082_B083_B085_B086),
  (0x85ED, 0xB087_B088_B089_B08A_B08B_B08E_B090_B092_B093_B094_B095_B096),
  (0x85F9, 0xB097_B09B_B09D_B09E_B0A3_B0A4),
  (0x8641, 0xB0A5_B0A6_B0A7_B0AA_B0B0_B0B2_B0B6_B0B7_B0B9_B0BA_B0BB_B0BD),
  (0x864D, 0xB0BE_B0BF_B0C0_B0C1_B0C2_B0C3_B0C6_B0CA_B0CB_B0CC_B0CD_B0CE),
  (0x8659, 0xB0CF_B0D2),
  (0x8661, 0xB0D3_B0D5_B0D6_B0D7_B0D9_B0DA_B0DB_B0DC_B0DD_B0DE_B0DF_B0E1),
  (0x866D, 0xB0E2_B0E3_B0E4_B0E6_B0E7_B0E8_B0E9_B0EA_B0EB_B0EC_B0ED_B0EE),
  (0x8679, 0xB0EF_B0F0),
  (0x8681, 0xB0F1_B0F2_B0F3_B0F4_B0F5_B0F6_B0F7_B0F8_B0F9_B0FA_B0FB_B0FC),
  (0x868D, 0xB0FD_B0FE_B0FF_B100_B101_B102_B103_B104_B105_B106_B107_B10A),
  (0x8699, 0xB10D_B10E_B10F_B111_B114_B115_B116_B117_B11A_B11E_B11F_B120),
  (0x86A5, 0xB121_B122_B126_B127_B129_B12A_B12B_B12D_B12E_B12F_B130_B131),
  (0x86B1, 0xB132_B133_B136_B13A_B13B_B13C_B13D_B13E_B13F_B142_B143_B145),
  (0x86BD, 0xB146_B147_B149_B14A_B14B_B14C_B14D_B14E_B14F_B152_B153_B156),
  (0x86C9, 0xB157_B159_B15A_B15B_B15D_B15E_B15F_B161_B162_B163_B164_B165),
  (0x86D5, 0xB166_B167_B168_B169_B16A_B16B_B16C_B16D_B16E_B16F_B170_B171),
  (0x86E1, 0xB172_B173_B174_B175_B176_B177_B17A_B17B_B17D_B17E_B17F_B181),
  (0x86ED, 0xB183_B184_B185_B186_B187_B18A_B18C_B18E_B18F_B190_B191_B195),
  (0x86F9, 0xB196_B197_B199_B19A_B19B_B19D),
  (0x8741, 0xB19E_B19F_B1A0_B1A1_B1A2_B1A3_B1A4_B1A5_B1A6_B1A7_B1A9_B1AA),
  (0x874D, 0xB1AB_B1AC_B1AD_B1AE_B1AF_B1B0_B1B1_B1B2_B1B3_B1B4_B1B5_B1B6),
  (0x8759, 0xB1B7_B1B8),
  (0x8761, 0xB1B9_B1BA_B1BB_B1BC_B1BD_B1BE_B1BF_B1C0_B1C1_B1C2_B1C3_B1C4),
  (0x876D, 0xB1C5_B1C6_B1C7_B1C8_B1C9_B1CA_B1CB_B1CD_B1CE_B1CF_B1D1_B1D2),
  (0x8779, 0xB1D3_B1D5),
  (0x8781, 0xB1D6_B1D7_B1D8_B1D9_B1DA_B1DB_B1DE_B1E0_B1E1_B1E2_B1E3_B1E4),
  (0x878D, 0xB1E5_B1E6_B1E7_B1EA_B1EB_B1ED_B1EE_B1EF_B1F1_B1F2_B1F3_B1F4),
  (0x8799, 0xB1F5_B1F6_B1F7_B1F8_B1FA_B1FC_B1FE_B1FF_B200_B201_B202_B203),
  (0x87A5, 0xB206_B207_B209_B20A_B20D_B20E_B20F_B210_B211_B212_B213_B216),
  (0x87B1, 0xB218_B21A_B21B_B21C_B21D_B21E_B21F_B221_B222_B223_B224_B225),
  (0x87BD, 0xB226_B227_B228_B229_B22A_B22B_B22C_B22D_B22E_B22F_B230_B231),
  (0x87C9, 0xB232_B233_B235_B236_B237_B238_B239_B23A_B23B_B23D_B23E_B23F),
  (0x87D5, 0xB240_B241_B242_B243_B244_B245_B246_B247_B248_B249_B24A_B24B),
  (0x87E1, 0xB24C_B24D_B24E_B24F_B250_B251_B252_B253_B254_B255_B256_B257),
  (0x87ED, 0xB259_B25A_B25B_B25D_B25E_B25F_B261_B262_B263_B264_B265_B266),
  (0x87F9, 0xB267_B26A_B26B_B26C_B26D_B26E),
  (0x8841, 0xB26F_B270_B271_B272_B273_B276_B277_B278_B279_B27A_B27B_B27D),
  (0x884D, 0xB27E_B27F_B280_B281_B282_B283_B286_B287_B288_B28A_B28B_B28C),
  (0x8859, 0xB28D_B28E),
  (0x8861, 0xB28F_B292_B293_B295_B296_B297_B29B_B29C_B29D_B29E_B29F_B2A2),
  (0x886D, 0xB2A4_B2A7_B2A8_B2A9_B2AB_B2AD_B2AE_B2AF_B2B1_B2B2_B2B3_B2B5),
  (0x8879, 0xB2B6_B2B7),
  (0x8881, 0xB2B8_B2B9_B2BA_B2BB_B2BC_B2BD_B2BE_B2BF_B2C0_B2C1_B2C2_B2C3),
  (0x888D, 0xB2C4_B2C5_B2C6_B2C7_B2CA_B2CB_B2CD_B2CE_B2CF_B2D1_B2D3_B2D4),
  (0x8899, 0xB2D5_B2D6_B2D7_B2DA_B2DC_B2DE_B2DF_B2E0_B2E1_B2E3_B2E7_B2E9),
  (0x88A5, 0xB2EA_B2F0_B2F1_B2F2_B2F6_B2FC_B2FD_B2FE_B302_B303_B305_B306),
  (0x88B1, 0xB307_B309_B30A_B30B_B30C_B30D_B30E_B30F_B312_B316_B317_B318),
  (0x88BD, 0xB319_B31A_B31B_B31D_B31E_B31F_B320_B321_B322_B323_B324_B325),
  (0x88C9, 0xB326_B327_B328_B329_B32A_B32B_B32C_B32D_B32E_B32F_B330_B331),
  (0x88D5, 0xB332_B333_B334_B335_B336_B337_B338_B339_B33A_B33B_B33C_B33D),
  (0x88E1, 0xB33E_B33F_B340_B341_B342_B343_B344_B345_B346_B347_B348_B349),
  (0x88ED, 0xB34A_B34B_B34C_B34D_B34E_B34F_B350_B351_B352_B353_B357_B359),
  (0x88F9, 0xB35A_B35D_B360_B361_B362_B363),
  (0x8941, 0xB366_B368_B36A_B36C_B36D_B36F_B372_B373_B375_B376_B377_B379),
  (0x894D, 0xB37A_B37B_B37C_B37D_B37E_B37F_B382_B386_B387_B388_B389_B38A),
  (0x8959, 0xB38B_B38D),
  (0x8961, 0xB38E_B38F_B391_B392_B393_B395_B396_B397_B398_B399_B39A_B39B),
  (0x896D, 0xB39C_B39D_B39E_B39F_B3A2_B3A3_B3A4_B3A5_B3A6_B3A7_B3A9_B3AA),
  (0x8979, 0xB3AB_B3AD),
  (0x8981, 0xB3AE_B3AF_B3B0_B3B1_B3B2_B3B3_B3B4_B3B5_B3B6_B3B7_B3B8_B3B9),
  (0x898D, 0xB3BA_B3BB_B3BC_B3BD_B3BE_B3BF_B3C0_B3C1_B3C2_B3C3_B3C6_B3C7),
  (0x8999, 0xB3C9_B3CA_B3CD_B3CF_B3D1_B3D2_B3D3_B3D6_B3D8_B3DA_B3DC_B3DE),
  (0x89A5, 0xB3DF_B3E1_B3E2_B3E3_B3E5_B3E6_B3E7_B3E9_B3EA_B3EB_B3EC_B3ED),
  (0x89B1, 0xB3EE_B3EF_B3F0_B3F1_B3F2_B3F3_B3F4_B3F5_B3F6_B3F7_B3F8_B3F9),
  (0x89BD, 0xB3FA_B3FB_B3FD_B3FE_B3FF_B400_B401_B402_B403_B404_B405_B406),
  (0x89C9, 0xB407_B408_B409_B40A_B40B_B40C_B40D_B40E_B40F_B411_B412_B413),
  (0x89D5, 0xB414_B415_B416_B417_B419_B41A_B41B_B41D_B41E_B41F_B421_B422),
  (0x89E1, 0xB423_B424_B425_B426_B427_B42A_B42C_B42D_B42E_B42F_B430_B431),
  (0x89ED, 0xB432_B433_B435_B436_B437_B438_B439_B43A_B43B_B43C_B43D_B43E),
  (0x89F9, 0xB43F_B440_B441_B442_B443_B444),
  (0x8A41, 0xB445_B446_B447_B448_B449_B44A_B44B_B44C_B44D_B44E_B44F_B452),
  (0x8A4D, 0xB453_B455_B456_B457_B459_B45A_B45B_B45C_B45D_B45E_B45F_B462),
  (0x8A59, 0xB464_B466),
  (0x8A61, 0xB467_B468_B469_B46A_B46B_B46D_B46E_B46F_B470_B471_B472_B473),
  (0x8A6D, 0xB474_B475_B476_B477_B478_B479_B47A_B47B_B47C_B47D_B47E_B47F),
  (0x8A79, 0xB481_B482),
  (0x8A81, 0xB483_B484_B485_B486_B487_B489_B48A_B48B_B48C_B48D_B48E_B48F),
  (0x8A8D, 0xB490_B491_B492_B493_B494_B495_B496_B497_B498_B499_B49A_B49B),
  (0x8A99, 0xB49C_B49E_B49F_B4A0_B4A1_B4A2_B4A3_B4A5_B4A6_B4A7_B4A9_B4AA),
  (0x8AA5, 0xB4AB_B4AD_B4AE_B4AF_B4B0_B4B1_B4B2_B4B3_B4B4_B4B6_B4B8_B4BA),
  (0x8AB1, 0xB4BB_B4BC_B4BD_B4BE_B4BF_B4C1_B4C2_B4C3_B4C5_B4C6_B4C7_B4C9),
  (0x8ABD, 0xB4CA_B4CB_B4CC_B4CD_B4CE_B4CF_B4D1_B4D2_B4D3_B4D4_B4D6_B4D7),
  (0x8AC9, 0xB4D8_B4D9_B4DA_B4DB_B4DE_B4DF_B4E1_B4E2_B4E5_B4E7_B4E8_B4E9),
  (0x8AD5, 0xB4EA_B4EB_B4EE_B4F0_B4F2_B4F3_B4F4_B4F5_B4F6_B4F7_B4F9_B4FA),
  (0x8AE1, 0xB4FB_B4FC_B4FD_B4FE_B4FF_B500_B501_B502_B503_B504_B505_B506),
  (0x8AED, 0xB507_B508_B509_B50A_B50B_B50C_B50D_B50E_B50F_B510_B511_B512),
  (0x8AF9, 0xB513_B516_B517_B519_B51A_B51D),
  (0x8B41, 0xB51E_B51F_B520_B521_B522_B523_B526_B52B_B52C_B52D_B52E_B52F),
  (0x8B4D, 0xB532_B533_B535_B536_B537_B539_B53A_B53B_B53C_B53D_B53E_B53F),
  (0x8B59, 0xB542_B546),
  (0x8B61, 0xB547_B548_B549_B54A_B54E_B54F_B551_B552_B553_B555_B556_B557),
  (0x8B6D, 0xB558_B559_B55A_B55B_B55E_B562_B563_B564_B565_B566_B567_B568),
  (0x8B79, 0xB569_B56A),
  (0x8B81, 0xB56B_B56C_B56D_B56E_B56F_B570_B571_B572_B573_B574_B575_B576),
  (0x8B8D, 0xB577_B578_B579_B57A_B57B_B57C_B57D_B57E_B57F_B580_B581_B582),
  (0x8B99, 0xB583_B584_B585_B586_B587_B588_B589_B58A_B58B_B58C_B58D_B58E),
  (0x8BA5, 0xB58F_B590_B591_B592_B593_B594_B595_B596_B597_B598_B599_B59A),
  (0x8BB1, 0xB59B_B59C_B59D_B59E_B59F_B5A2_B5A3_B5A5_B5A6_B5A7_B5A9_B5AC),
  (0x8BBD, 0xB5AD_B5AE_B5AF_B5B2_B5B6_B5B7_B5B8_B5B9_B5BA_B5BE_B5BF_B5C1),
  (0x8BC9, 0xB5C2_B5C3_B5C5_B5C6_B5C7_B5C8_B5C9_B5CA_B5CB_B5CE_B5D2_B5D3),
  (0x8BD5, 0xB5D4_B5D5_B5D6_B5D7_B5D9_B5DA_B5DB_B5DC_B5DD_B5DE_B5DF_B5E0),
  (0x8BE1, 0xB5E1_B5E2_B5E3_B5E4_B5E5_B5E6_B5E7_B5E8_B5E9_B5EA_B5EB_B5ED),
  (0x8BED, 0xB5EE_B5EF_B5F0_B5F1_B5F2_B5F3_B5F4_B5F5_B5F6_B5F7_B5F8_B5F9),
  (0x8BF9, 0xB5FA_B5FB_B5FC_B5FD_B5FE_B5FF),
  (0x8C41, 0xB600_B601_B602_B603_B604_B605_B606_B607_B608_B609_B60A_B60B),
  (0x8C4D, 0xB60C_B60D_B60E_B60F_B612_B613_B615_B616_B617_B619_B61A_B61B),
  (0x8C59, 0xB61C_B61D),
  (0x8C61, 0xB61E_B61F_B620_B621_B622_B623_B624_B626_B627_B628_B629_B62A),
  (0x8C6D, 0xB62B_B62D_B62E_B62F_B630_B631_B632_B633_B635_B636_B637_B638),
  (0x8C79, 0xB639_B63A),
  (0x8C81, 0xB63B_B63C_B63D_B63E_B63F_B640_B641_B642_B643_B644_B645_B646),
  (0x8C8D, 0xB647_B649_B64A_B64B_B64C_B64D_B64E_B64F_B650_B651_B652_B653),
  (0x8C99, 0xB654_B655_B656_B657_B658_B659_B65A_B65B_B65C_B65D_B65E_B65F),
  (0x8CA5, 0xB660_B661_B662_B663_B665_B666_B667_B669_B66A_B66B_B66C_B66D),
  (0x8CB1, 0xB66E_B66F_B670_B671_B672_B673_B674_B675_B676_B677_B678_B679),
  (0x8CBD, 0xB67A_B67B_B67C_B67D_B67E_B67F_B680_B681_B682_B683_B684_B685),
  (0x8CC9, 0xB686_B687_B688_B689_B68A_B68B_B68C_B68D_B68E_B68F_B690_B691),
  (0x8CD5, 0xB692_B693_B694_B695_B696_B697_B698_B699_B69A_B69B_B69E_B69F),
  (0x8CE1, 0xB6A1_B6A2_B6A3_B6A5_B6A6_B6A7_B6A8_B6A9_B6AA_B6AD_B6AE_B6AF),
  (0x8CED, 0xB6B0_B6B2_B6B3_B6B4_B6B5_B6B6_B6B7_B6B8_B6B9_B6BA_B6BB_B6BC),
  (0x8CF9, 0xB6BD_B6BE_B6BF_B6C0_B6C1_B6C2),
  (0x8D41, 0xB6C3_B6C4_B6C5_B6C6_B6C7_B6C8_B6C9_B6CA_B6CB_B6CC_B6CD_B6CE),
  (0x8D4D, 0xB6CF_B6D0_B6D1_B6D2_B6D3_B6D5_B6D6_B6D7_B6D8_B6D9_B6DA_B6DB),
  (0x8D59, 0xB6DC_B6DD),
  (0x8D61, 0xB6DE_B6DF_B6E0_B6E1_B6E2_B6E3_B6E4_B6E5_B6E6_B6E7_B6E8_B6E9),
  (0x8D6D, 0xB6EA_B6EB_B6EC_B6ED_B6EE_B6EF_B6F1_B6F2_B6F3_B6F5_B6F6_B6F7),
  (0x8D79, 0xB6F9_B6FA),
  (0x8D81, 0xB6FB_B6FC_B6FD_B6FE_B6FF_B702_B703_B704_B706_B707_B708_B709),
  (0x8D8D, 0xB70A_B70B_B70C_B70D_B70E_B70F_B710_B711_B712_B713_B714_B715),
  (0x8D99, 0xB716_B717_B718_B719_B71A_B71B_B71C_B71D_B71E_B71F_B720_B721),
  (0x8DA5, 0xB722_B723_B724_B725_B726_B727_B72A_B72B_B72D_B72E_B731_B732),
  (0x8DB1, 0xB733_B734_B735_B736_B737_B73A_B73C_B73D_B73E_B73F_B740_B741),
  (0x8DBD, 0xB742_B743_B745_B746_B747_B749_B74A_B74B_B74D_B74E_B74F_B750),
  (0x8DC9, 0xB751_B752_B753_B756_B757_B758_B759_B75A_B75B_B75C_B75D_B75E),
  (0x8DD5, 0xB75F_B761_B762_B763_B765_B766_B767_B769_B76A_B76B_B76C_B76D),
  (0x8DE1, 0xB76E_B76F_B772_B774_B776_B777_B778_B779_B77A_B77B_B77E_B77F),
  (0x8DED, 0xB781_B782_B783_B785_B786_B787_B788_B789_B78A_B78B_B78E_B793),
  (0x8DF9, 0xB794_B795_B79A_B79B_B79D_B79E),
  (0x8E41, 0xB79F_B7A1_B7A2_B7A3_B7A4_B7A5_B7A6_B7A7_B7AA_B7AE_B7AF_B7B0),
  (0x8E4D, 0xB7B1_B7B2_B7B3_B7B6_B7B7_B7B9_B7BA_B7BB_B7BC_B7BD_B7BE_B7BF),
  (0x8E59, 0xB7C0_B7C1),
  (0x8E61, 0xB7C2_B7C3_B7C4_B7C5_B7C6_B7C8_B7CA_B7CB_B7CC_B7CD_B7CE_B7CF),
  (0x8E6D, 0xB7D0_B7D1_B7D2_B7D3_B7D4_B7D5_B7D6_B7D7_B7D8_B7D9_B7DA_B7DB),
  (0x8E79, 0xB7DC_B7DD),
  (0x8E81, 0xB7DE_B7DF_B7E0_B7E1_B7E2_B7E3_B7E4_B7E5_B7E6_B7E7_B7E8_B7E9),
  (0x8E8D, 0xB7EA_B7EB_B7EE_B7EF_B7F1_B7F2_B7F3_B7F5_B7F6_B7F7_B7F8_B7F9),
  (0x8E99, 0xB7FA_B7FB_B7FE_B802_B803_B804_B805_B806_B80A_B80B_B80D_B80E),
  (0x8EA5, 0xB80F_B811_B812_B813_B814_B815_B816_B817_B81A_B81C_B81E_B81F),
  (0x8EB1, 0xB820_B821_B822_B823_B826_B827_B829_B82A_B82B_B82D_B82E_B82F),
  (0x8EBD, 0xB830_B831_B832_B833_B836_B83A_B83B_B83C_B83D_B83E_B83F_B841),
  (0x8EC9, 0xB842_B843_B845_B846_B847_B848_B849_B84A_B84B_B84C_B84D_B84E),
  (0x8ED5, 0xB84F_B850_B852_B854_B855_B856_B857_B858_B859_B85A_B85B_B85E),
  (0x8EE1, 0xB85F_B861_B862_B863_B865_B866_B867_B868_B869_B86A_B86B_B86E),
  (0x8EED, 0xB870_B872_B873_B874_B875_B876_B877_B879_B87A_B87B_B87D_B87E),
  (0x8EF9, 0xB87F_B880_B881_B882_B883_B884),
  (0x8F41, 0xB885_B886_B887_B888_B889_B88A_B88B_B88C_B88E_B88F_B890_B891),
  (0x8F4D, 0xB892_B893_B894_B895_B896_B897_B898_B899_B89A_B89B_B89C_B89D),
  (0x8F59, 0xB89E_B89F),
  (0x8F61, 0xB8A0_B8A1_B8A2_B8A3_B8A4_B8A5_B8A6_B8A7_B8A9_B8AA_B8AB_B8AC),
  (0x8F6D, 0xB8AD_B8AE_B8AF_B8B1_B8B2_B8B3_B8B5_B8B6_B8B7_B8B9_B8BA_B8BB),
  (0x8F79, 0xB8BC_B8BD),
  (0x8F81, 0xB8BE_B8BF_B8C2_B8C4_B8C6_B8C7_B8C8_B8C9_B8CA_B8CB_B8CD_B8CE),
  (0x8F8D, 0xB8CF_B8D1_B8D2_B8D3_B8D5_B8D6_B8D7_B8D8_B8D9_B8DA_B8DB_B8DC),
  (0x8F99, 0xB8DE_B8E0_B8E2_B8E3_B8E4_B8E5_B8E6_B8E7_B8EA_B8EB_B8ED_B8EE),
  (0x8FA5, 0xB8EF_B8F1_B8F2_B8F3_B8F4_B8F5_B8F6_B8F7_B8FA_B8FC_B8FE_B8FF),
  (0x8FB1, 0xB900_B901_B902_B903_B905_B906_B907_B908_B909_B90A_B90B_B90C),
  (0x8FBD, 0xB90D_B90E_B90F_B910_B911_B912_B913_B914_B915_B916_B917_B919),
  (0x8FC9, 0xB91A_B91B_B91C_B91D_B91E_B91F_B921_B922_B923_B924_B925_B926),
  (0x8FD5, 0xB927_B928_B929_B92A_B92B_B92C_B92D_B92E_B92F_B930_B931_B932),
  (0x8FE1, 0xB933_B934_B935_B936_B937_B938_B939_B93A_B93B_B93E_B93F_B941),
  (0x8FED, 0xB942_B943_B945_B946_B947_B948_B949_B94A_B94B_B94D_B94E_B950),
  (0x8FF9, 0xB952_B953_B954_B955_B956_B957),
  (0x9041, 0xB95A_B95B_B95D_B95E_B95F_B961_B962_B963_B964_B965_B966_B967),
  (0x904D, 0xB96A_B96C_B96E_B96F_B970_B971_B972_B973_B976_B977_B979_B97A),
  (0x9059, 0xB97B_B97D),
  (0x9061, 0xB97E_B97F_B980_B981_B982_B983_B986_B988_B98B_B98C_B98F_B990),
  (0x906D, 0xB991_B992_B993_B994_B995_B996_B997_B998_B999_B99A_B99B_B99C),
  (0x9079, 0xB99D_B99E),
  (0x9081, 0xB99F_B9A0_B9A1_B9A2_B9A3_B9A4_B9A5_B9A6_B9A7_B9A8_B9A9_B9AA),
  (0x908D, 0xB9AB_B9AE_B9AF_B9B1_B9B2_B9B3_B9B5_B9B6_B9B7_B9B8_B9B9_B9BA),
  (0x9099, 0xB9BB_B9BE_B9C0_B9C2_B9C3_B9C4_B9C5_B9C6_B9C7_B9CA_B9CB_B9CD),
  (0x90A5, 0xB9D3_B9D4_B9D5_B9D6_B9D7_B9DA_B9DC_B9DF_B9E0_B9E2_B9E6_B9E7),
  (0x90B1, 0xB9E9_B9EA_B9EB_B9ED_B9EE_B9EF_B9F0_B9F1_B9F2_B9F3_B9F6_B9FB),
  (0x90BD, 0xB9FC_B9FD_B9FE_B9FF_BA02_BA03_BA04_BA05_BA06_BA07_BA09_BA0A),
  (0x90C9, 0xBA0B_BA0C_BA0D_BA0E_BA0F_BA10_BA11_BA12_BA13_BA14_BA16_BA17),
  (0x90D5, 0xBA18_BA19_BA1A_BA1B_BA1C_BA1D_BA1E_BA1F_BA20_BA21_BA22_BA23),
  (0x90E1, 0xBA24_BA25_BA26_BA27_BA28_BA29_BA2A_BA2B_BA2C_BA2D_BA2E_BA2F),
  (0x90ED, 0xBA30_BA31_BA32_BA33_BA34_BA35_BA36_BA37_BA3A_BA3B_BA3D_BA3E),
  (0x90F9, 0xBA3F_BA41_BA43_BA44_BA45_BA46),
  (0x9141, 0xBA47_BA4A_BA4C_BA4F_BA50_BA51_BA52_BA56_BA57_BA59_BA5A_BA5B),
  (0x914D, 0xBA5D_BA5E_BA5F_BA60_BA61_BA62_BA63_BA66_BA6A_BA6B_BA6C_BA6D),
  (0x9159, 0xBA6E_BA6F),
  (0x9161, 0xBA72_BA73_BA75_BA76_BA77_BA79_BA7A_BA7B_BA7C_BA7D_BA7E_BA7F),
  (0x916D, 0xBA80_BA81_BA82_BA86_BA88_BA89_BA8A_BA8B_BA8D_BA8E_BA8F_BA90),
  (0x9179, 0xBA91_BA92),
  (0x9181, 0xBA93_BA94_BA95_BA96_BA97_BA98_BA99_BA9A_BA9B_BA9C_BA9D_BA9E),
  (0x918D, 0xBA9F_BAA0_BAA1_BAA2_BAA3_BAA4_BAA5_BAA6_BAA7_BAAA_BAAD_BAAE),
  (0x9199, 0xBAAF_BAB1_BAB3_BAB4_BAB5_BAB6_BAB7_BABA_BABC_BABE_BABF_BAC0),
  (0x91A5, 0xBAC1_BAC2_BAC3_BAC5_BAC6_BAC7_BAC9_BACA_BACB_BACC_BACD_BACE),
  (0x91B1, 0xBACF_BAD0_BAD1_BAD2_BAD3_BAD4_BAD5_BAD6_BAD7_BADA_BADB_BADC),
  (0x91BD, 0xBADD_BADE_BADF_BAE0_BAE1_BAE2_BAE3_BAE4_BAE5_BAE6_BAE7_BAE8),
  (0x91C9, 0xBAE9_BAEA_BAEB_BAEC_BAED_BAEE_BAEF_BAF0_BAF1_BAF2_BAF3_BAF4),
  (0x91D5, 0xBAF5_BAF6_BAF7_BAF8_BAF9_BAFA_BAFB_BAFD_BAFE_BAFF_BB01_BB02),
  (0x91E1, 0xBB03_BB05_BB06_BB07_BB08_BB09_BB0A_BB0B_BB0C_BB0E_BB10_BB12),
  (0x91ED, 0xBB13_BB14_BB15_BB16_BB17_BB19_BB1A_BB1B_BB1D_BB1E_BB1F_BB21),
  (0x91F9, 0xBB22_BB23_BB24_BB25_BB26_BB27),
  (0x9241, 0xBB28_BB2A_BB2C_BB2D_BB2E_BB2F_BB30_BB31_BB32_BB33_BB37_BB39),
  (0x924D, 0xBB3A_BB3F_BB40_BB41_BB42_BB43_BB46_BB48_BB4A_BB4B_BB4C_BB4E),
  (0x9259, 0xBB51_BB52),
  (0x9261, 0xBB53_BB55_BB56_BB57_BB59_BB5A_BB5B_BB5C_BB5D_BB5E_BB5F_BB60),
  (0x926D, 0xBB62_BB64_BB65_BB66_BB67_BB68_BB69_BB6A_BB6B_BB6D_BB6E_BB6F),
  (0x9279, 0xBB70_BB71),
  (0x9281, 0xBB72_BB73_BB74_BB75_BB76_BB77_BB78_BB79_BB7A_BB7B_BB7C_BB7D),
  (0x928D, 0xBB7E_BB7F_BB80_BB81_BB82_BB83_BB84_BB85_BB86_BB87_BB89_BB8A),
  (0x9299, 0xBB8B_BB8D_BB8E_BB8F_BB91_BB92_BB93_BB94_BB95_BB96_BB97_BB98),
  (0x92A5, 0xBB99_BB9A_BB9B_BB9C_BB9D_BB9E_BB9F_BBA0_BBA1_BBA2_BBA3_BBA5),
  (0x92B1, 0xBBA6_BBA7_BBA9_BBAA_BBAB_BBAD_BBAE_BBAF_BBB0_BBB1_BBB2_BBB3),
  (0x92BD, 0xBBB5_BBB6_BBB8_BBB9_BBBA_BBBB_BBBC_BBBD_BBBE_BBBF_BBC1_BBC2),
  (0x92C9, 0xBBC3_BBC5_BBC6_BBC7_BBC9_BBCA_BBCB_BBCC_BBCD_BBCE_BBCF_BBD1),
  (0x92D5, 0xBBD2_BBD4_BBD5_BBD6_BBD7_BBD8_BBD9_BBDA_BBDB_BBDC_BBDD_BBDE),
  (0x92E1, 0xBBDF_BBE0_BBE1_BBE2_BBE3_BBE4_BBE5_BBE6_BBE7_BBE8_BBE9_BBEA),
  (0x92ED, 0xBBEB_BBEC_BBED_BBEE_BBEF_BBF0_BBF1_BBF2_BBF3_BBF4_BBF5_BBF6),
  (0x92F9, 0xBBF7_BBFA_BBFB_BBFD_BBFE_BC01),
  (0x9341, 0xBC03_BC04_BC05_BC06_BC07_BC0A_BC0E_BC10_BC12_BC13_BC19_BC1A),
  (0x934D, 0xBC20_BC21_BC22_BC23_BC26_BC28_BC2A_BC2B_BC2C_BC2E_BC2F_BC32),
  (0x9359, 0xBC33_BC35),
  (0x9361, 0xBC36_BC37_BC39_BC3A_BC3B_BC3C_BC3D_BC3E_BC3F_BC42_BC46_BC47),
  (0x936D, 0xBC48_BC4A_BC4B_BC4E_BC4F_BC51_BC52_BC53_BC54_BC55_BC56_BC57),
  (0x9379, 0xBC58_BC59),
  (0x9381, 0xBC5A_BC5B_BC5C_BC5E_BC5F_BC60_BC61_BC62_BC63_BC64_BC65_BC66),
  (0x938D, 0xBC67_BC68_BC69_BC6A_BC6B_BC6C_BC6D_BC6E_BC6F_BC70_BC71_BC72),
  (0x9399, 0xBC73_BC74_BC75_BC76_BC77_BC78_BC79_BC7A_BC7B_BC7C_BC7D_BC7E),
  (0x93A5, 0xBC7F_BC80_BC81_BC82_BC83_BC86_BC87_BC89_BC8A_BC8D_BC8F_BC90),
  (0x93B1, 0xBC91_BC92_BC93_BC96_BC98_BC9B_BC9C_BC9D_BC9E_BC9F_BCA2_BCA3),
  (0x93BD, 0xBCA5_BCA6_BCA9_BCAA_BCAB_BCAC_BCAD_BCAE_BCAF_BCB2_BCB6_BCB7),
  (0x93C9, 0xBCB8_BCB9_BCBA_BCBB_BCBE_BCBF_BCC1_BCC2_BCC3_BCC5_BCC6_BCC7),
  (0x93D5, 0xBCC8_BCC9_BCCA_BCCB_BCCC_BCCE_BCD2_BCD3_BCD4_BCD6_BCD7_BCD9),
  (0x93E1, 0xBCDA_BCDB_BCDD_BCDE_BCDF_BCE0_BCE1_BCE2_BCE3_BCE4_BCE5_BCE6),
  (0x93ED, 0xBCE7_BCE8_BCE9_BCEA_BCEB_BCEC_BCED_BCEE_BCEF_BCF0_BCF1_BCF2),
  (0x93F9, 0xBCF3_BCF7_BCF9_BCFA_BCFB_BCFD),
  (0x9441, 0xBCFE_BCFF_BD00_BD01_BD02_BD03_BD06_BD08_BD0A_BD0B_BD0C_BD0D),
  (0x944D, 0xBD0E_BD0F_BD11_BD12_BD13_BD15_BD16_BD17_BD18_BD19_BD1A_BD1B),
  (0x9459, 0xBD1C_BD1D),
  (0x9461, 0xBD1E_BD1F_BD20_BD21_BD22_BD23_BD25_BD26_BD27_BD28_BD29_BD2A),
  (0x946D, 0xBD2B_BD2D_BD2E_BD2F_BD30_BD31_BD32_BD33_BD34_BD35_BD36_BD37),
  (0x9479, 0xBD38_BD39),
  (0x9481, 0xBD3A_BD3B_BD3C_BD3D_BD3E_BD3F_BD41_BD42_BD43_BD44_BD45_BD46),
  (0x948D, 0xBD47_BD4A_BD4B_BD4D_BD4E_BD4F_BD51_BD52_BD53_BD54_BD55_BD56),
  (0x9499, 0xBD57_BD5A_BD5B_BD5C_BD5D_BD5E_BD5F_BD60_BD61_BD62_BD63_BD65),
  (0x94A5, 0xBD66_BD67_BD69_BD6A_BD6B_BD6C_BD6D_BD6E_BD6F_BD70_BD71_BD72),
  (0x94B1, 0xBD73_BD74_BD75_BD76_BD77_BD78_BD79_BD7A_BD7B_BD7C_BD7D_BD7E),
  (0x94BD, 0xBD7F_BD82_BD83_BD85_BD86_BD8B_BD8C_BD8D_BD8E_BD8F_BD92_BD94),
  (0x94C9, 0xBD96_BD97_BD98_BD9B_BD9D_BD9E_BD9F_BDA0_BDA1_BDA2_BDA3_BDA5),
  (0x94D5, 0xBDA6_BDA7_BDA8_BDA9_BDAA_BDAB_BDAC_BDAD_BDAE_BDAF_BDB1_BDB2),
  (0x94E1, 0xBDB3_BDB4_BDB5_BDB6_BDB7_BDB9_BDBA_BDBB_BDBC_BDBD_BDBE_BDBF),
  (0x94ED, 0xBDC0_BDC1_BDC2_BDC3_BDC4_BDC5_BDC6_BDC7_BDC8_BDC9_BDCA_BDCB),
  (0x94F9, 0xBDCC_BDCD_BDCE_BDCF_BDD0_BDD1),
  (0x9541, 0xBDD2_BDD3_BDD6_BDD7_BDD9_BDDA_BDDB_BDDD_BDDE_BDDF_BDE0_BDE1),
  (0x954D, 0xBDE2_BDE3_BDE4_BDE5_BDE6_BDE7_BDE8_BDEA_BDEB_BDEC_BDED_BDEE),
  (0x9559, 0xBDEF_BDF1),
  (0x9561, 0xBDF2_BDF3_BDF5_BDF6_BDF7_BDF9_BDFA_BDFB_BDFC_BDFD_BDFE_BDFF),
  (0x956D, 0xBE01_BE02_BE04_BE06_BE07_BE08_BE09_BE0A_BE0B_BE0E_BE0F_BE11),
  (0x9579, 0xBE12_BE13),
  (0x9581, 0xBE15_BE16_BE17_BE18_BE19_BE1A_BE1B_BE1E_BE20_BE21_BE22_BE23),
  (0x958D, 0xBE24_BE25_BE26_BE27_BE28_BE29_BE2A_BE2B_BE2C_BE2D_BE2E_BE2F),
  (0x9599, 0xBE30_BE31_BE32_BE33_BE34_BE35_BE36_BE37_BE38_BE39_BE3A_BE3B),
  (0x95A5, 0xBE3C_BE3D_BE3E_BE3F_BE40_BE41_BE42_BE43_BE46_BE47_BE49_BE4A),
  (0x95B1, 0xBE4B_BE4D_BE4F_BE50_BE51_BE52_BE53_BE56_BE58_BE5C_BE5D_BE5E),
  (0x95BD, 0xBE5F_BE62_BE63_BE65_BE66_BE67_BE69_BE6B_BE6C_BE6D_BE6E_BE6F),
  (0x95C9, 0xBE72_BE76_BE77_BE78_BE79_BE7A_BE7E_BE7F_BE81_BE82_BE83_BE85),
  (0x95D5, 0xBE86_BE87_BE88_BE89_BE8A_BE8B_BE8E_BE92_BE93_BE94_BE95_BE96),
  (0x95E1, 0xBE97_BE9A_BE9B_BE9C_BE9D_BE9E_BE9F_BEA0_BEA1_BEA2_BEA3_BEA4),
  (0x95ED, 0xBEA5_BEA6_BEA7_BEA9_BEAA_BEAB_BEAC_BEAD_BEAE_BEAF_BEB0_BEB1),
  (0x95F9, 0xBEB2_BEB3_BEB4_BEB5_BEB6_BEB7),
  (0x9641, 0xBEB8_BEB9_BEBA_BEBB_BEBC_BEBD_BEBE_BEBF_BEC0_BEC1_BEC2_BEC3),
  (0x964D, 0xBEC4_BEC5_BEC6_BEC7_BEC8_BEC9_BECA_BECB_BECC_BECD_BECE_BECF),
  (0x9659, 0xBED2_BED3),
  (0x9661, 0xBED5_BED6_BED9_BEDA_BEDB_BEDC_BEDD_BEDE_BEDF_BEE1_BEE2_BEE6),
  (0x966D, 0xBEE7_BEE8_BEE9_BEEA_BEEB_BEED_BEEE_BEEF_BEF0_BEF1_BEF2_BEF3),
  (0x9679, 0xBEF4_BEF5),
  (0x9681, 0xBEF6_BEF7_BEF8_BEF9_BEFA_BEFB_BEFC_BEFD_BEFE_BEFF_BF00_BF02),
  (0x968D, 0xBF03_BF04_BF05_BF06_BF07_BF0A_BF0B_BF0C_BF0D_BF0E_BF0F_BF10),
  (0x9699, 0xBF11_BF12_BF13_BF14_BF15_BF16_BF17_BF1A_BF1E_BF1F_BF20_BF21),
  (0x96A5, 0xBF22_BF23_BF24_BF25_BF26_BF27_BF28_BF29_BF2A_BF2B_BF2C_BF2D),
  (0x96B1, 0xBF2E_BF2F_BF30_BF31_BF32_BF33_BF34_BF35_BF36_BF37_BF38_BF39),
  (0x96BD, 0xBF3A_BF3B_BF3C_BF3D_BF3E_BF3F_BF42_BF43_BF45_BF46_BF47_BF49),
  (0x96C9, 0xBF4A_BF4B_BF4C_BF4D_BF4E_BF4F_BF52_BF53_BF54_BF56_BF57_BF58),
  (0x96D5, 0xBF59_BF5A_BF5B_BF5C_BF5D_BF5E_BF5F_BF60_BF61_BF62_BF63_BF64),
  (0x96E1, 0xBF65_BF66_BF67_BF68_BF69_BF6A_BF6B_BF6C_BF6D_BF6E_BF6F_BF70),
  (0x96ED, 0xBF71_BF72_BF73_BF74_BF75_BF76_BF77_BF78_BF79_BF7A_BF7B_BF7C),
  (0x96F9, 0xBF7D_BF7E_BF7F_BF80_BF81_BF82),
  (0x9741, 0xBF83_BF84_BF85_BF86_BF87_BF88_BF89_BF8A_BF8B_BF8C_BF8D_BF8E),
  (0x974D, 0xBF8F_BF90_BF91_BF92_BF93_BF95_BF96_BF97_BF98_BF99_BF9A_BF9B),
  (0x9759, 0xBF9C_BF9D),
  (0x9761, 0xBF9E_BF9F_BFA0_BFA1_BFA2_BFA3_BFA4_BFA5_BFA6_BFA7_BFA8_BFA9),
  (0x976D, 0xBFAA_BFAB_BFAC_BFAD_BFAE_BFAF_BFB1_BFB2_BFB3_BFB4_BFB5_BFB6),
  (0x9779, 0xBFB7_BFB8),
  (0x9781, 0xBFB9_BFBA_BFBB_BFBC_BFBD_BFBE_BFBF_BFC0_BFC1_BFC2_BFC3_BFC4),
  (0x978D, 0xBFC6_BFC7_BFC8_BFC9_BFCA_BFCB_BFCE_BFCF_BFD1_BFD2_BFD3_BFD5),
  (0x9799, 0xBFD6_BFD7_BFD8_BFD9_BFDA_BFDB_BFDD_BFDE_BFE0_BFE2_BFE3_BFE4),
  (0x97A5, 0xBFE5_BFE6_BFE7_BFE8_BFE9_BFEA_BFEB_BFEC_BFED_BFEE_BFEF_BFF0),
  (0x97B1, 0xBFF1_BFF2_BFF3_BFF4_BFF5_BFF6_BFF7_BFF8_BFF9_BFFA_BFFB_BFFC),
  (0x97BD, 0xBFFD_BFFE_BFFF_C000_C001_C002_C003_C004_C005_C006_C007_C008),
  (0x97C9, 0xC009_C00A_C00B_C00C_C00D_C00E_C00F_C010_C011_C012_C013_C014),
  (0x97D5, 0xC015_C016_C017_C018_C019_C01A_C01B_C01C_C01D_C01E_C01F_C020),
  (0x97E1, 0xC021_C022_C023_C024_C025_C026_C027_C028_C029_C02A_C02B_C02C),
  (0x97ED, 0xC02D_C02E_C02F_C030_C031_C032_C033_C034_C035_C036_C037_C038),
  (0x97F9, 0xC039_C03A_C03B_C03D_C03E_C03F),
  (0x9841, 0xC040_C041_C042_C043_C044_C045_C046_C047_C048_C049_C04A_C04B),
  (0x984D, 0xC04C_C04D_C04E_C04F_C050_C052_C053_C054_C055_C056_C057_C059),
  (0x9859, 0xC05A_C05B),
  (0x9861, 0xC05D_C05E_C05F_C061_C062_C063_C064_C065_C066_C067_C06A_C06B),
  (0x986D, 0xC06C_C06D_C06E_C06F_C070_C071_C072_C073_C074_C075_C076_C077),
  (0x9879, 0xC078_C079),
  (0x9881, 0xC07A_C07B_C07C_C07D_C07E_C07F_C080_C081_C082_C083_C084_C085),
  (0x988D, 0xC086_C087_C088_C089_C08A_C08B_C08C_C08D_C08E_C08F_C092_C093),
  (0x9899, 0xC095_C096_C097_C099_C09A_C09B_C09C_C09D_C09E_C09F_C0A2_C0A4),
  (0x98A5, 0xC0A6_C0A7_C0A8_C0A9_C0AA_C0AB_C0AE_C0B1_C0B2_C0B7_C0B8_C0B9),
  (0x98B1, 0xC0BA_C0BB_C0BE_C0C2_C0C3_C0C4_C0C6_C0C7_C0CA_C0CB_C0CD_C0CE),
  (0x98BD, 0xC0CF_C0D1_C0D2_C0D3_C0D4_C0D5_C0D6_C0D7_C0DA_C0DE_C0DF_C0E0),
  (0x98C9, 0xC0E1_C0E2_C0E3_C0E6_C0E7_C0E9_C0EA_C0EB_C0ED_C0EE_C0EF_C0F0),
  (0x98D5, 0xC0F1_C0F2_C0F3_C0F6_C0F8_C0FA_C0FB_C0FC_C0FD_C0FE_C0FF_C101),
  (0x98E1, 0xC102_C103_C105_C106_C107_C109_C10A_C10B_C10C_C10D_C10E_C10F),
  (0x98ED, 0xC111_C112_C113_C114_C116_C117_C118_C119_C11A_C11B_C121_C122),
  (0x98F9, 0xC125_C128_C129_C12A_C12B_C12E),
  (0x9941, 0xC132_C133_C134_C135_C137_C13A_C13B_C13D_C13E_C13F_C141_C142),
  (0x994D, 0xC143_C144_C145_C146_C147_C14A_C14E_C14F_C150_C151_C152_C153),
  (0x9959, 0xC156_C157),
  (0x9961, 0xC159_C15A_C15B_C15D_C15E_C15F_C160_C161_C162_C163_C166_C16A),
  (0x996D, 0xC16B_C16C_C16D_C16E_C16F_C171_C172_C173_C175_C176_C177_C179),
  (0x9979, 0xC17A_C17B),
  (0x9981, 0xC17C_C17D_C17E_C17F_C180_C181_C182_C183_C184_C186_C187_C188),
  (0x998D, 0xC189_C18A_C18B_C18F_C191_C192_C193_C195_C197_C198_C199_C19A),
  (0x9999, 0xC19B_C19E_C1A0_C1A2_C1A3_C1A4_C1A6_C1A7_C1AA_C1AB_C1AD_C1AE),
  (0x99A5, 0xC1AF_C1B1_C1B2_C1B3_C1B4_C1B5_C1B6_C1B7_C1B8_C1B9_C1BA_C1BB),
  (0x99B1, 0xC1BC_C1BE_C1BF_C1C0_C1C1_C1C2_C1C3_C1C5_C1C6_C1C7_C1C9_C1CA),
  (0x99BD, 0xC1CB_C1CD_C1CE_C1CF_C1D0_C1D1_C1D2_C1D3_C1D5_C1D6_C1D9_C1DA),
  (0x99C9, 0xC1DB_C1DC_C1DD_C1DE_C1DF_C1E1_C1E2_C1E3_C1E5_C1E6_C1E7_C1E9),
  (0x99D5, 0xC1EA_C1EB_C1EC_C1ED_C1EE_C1EF_C1F2_C1F4_C1F5_C1F6_C1F7_C1F8),
  (0x99E1, 0xC1F9_C1FA_C1FB_C1FE_C1FF_C201_C202_C203_C205_C206_C207_C208),
  (0x99ED, 0xC209_C20A_C20B_C20E_C210_C212_C213_C214_C215_C216_C217_C21A),
  (0x99F9, 0xC21B_C21D_C21E_C221_C222_C223),
  (0x9A41, 0xC224_C225_C226_C227_C22A_C22C_C22E_C230_C233_C235_C236_C237),
  (0x9A4D, 0xC238_C239_C23A_C23B_C23C_C23D_C23E_C23F_C240_C241_C242_C243),
  (0x9A59, 0xC244_C245),
  (0x9A61, 0xC246_C247_C249_C24A_C24B_C24C_C24D_C24E_C24F_C252_C253_C255),
  (0x9A6D, 0xC256_C257_C259_C25A_C25B_C25C_C25D_C25E_C25F_C261_C262_C263),
  (0x9A79, 0xC264_C266),
  (0x9A81, 0xC267_C268_C269_C26A_C26B_C26E_C26F_C271_C272_C273_C275_C276),
  (0x9A8D, 0xC277_C278_C279_C27A_C27B_C27E_C280_C282_C283_C284_C285_C286),
  (0x9A99, 0xC287_C28A_C28B_C28C_C28D_C28E_C28F_C291_C292_C293_C294_C295),
  (0x9AA5, 0xC296_C297_C299_C29A_C29C_C29E_C29F_C2A0_C2A1_C2A2_C2A3_C2A6),
  (0x9AB1, 0xC2A7_C2A9_C2AA_C2AB_C2AE_C2AF_C2B0_C2B1_C2B2_C2B3_C2B6_C2B8),
  (0x9ABD, 0xC2BA_C2BB_C2BC_C2BD_C2BE_C2BF_C2C0_C2C1_C2C2_C2C3_C2C4_C2C5),
  (0x9AC9, 0xC2C6_C2C7_C2C8_C2C9_C2CA_C2CB_C2CC_C2CD_C2CE_C2CF_C2D0_C2D1),
  (0x9AD5, 0xC2D2_C2D3_C2D4_C2D5_C2D6_C2D7_C2D8_C2D9_C2DA_C2DB_C2DE_C2DF),
  (0x9AE1, 0xC2E1_C2E2_C2E5_C2E6_C2E7_C2E8_C2E9_C2EA_C2EE_C2F0_C2F2_C2F3),
  (0x9AED, 0xC2F4_C2F5_C2F7_C2FA_C2FD_C2FE_C2FF_C301_C302_C303_C304_C305),
  (0x9AF9, 0xC306_C307_C30A_C30B_C30E_C30F),
  (0x9B41, 0xC310_C311_C312_C316_C317_C319_C31A_C31B_C31D_C31E_C31F_C320),
  (0x9B4D, 0xC321_C322_C323_C326_C327_C32A_C32B_C32C_C32D_C32E_C32F_C330),
  (0x9B59, 0xC331_C332),
  (0x9B61, 0xC333_C334_C335_C336_C337_C338_C339_C33A_C33B_C33C_C33D_C33E),
  (0x9B6D, 0xC33F_C340_C341_C342_C343_C344_C346_C347_C348_C349_C34A_C34B),
  (0x9B79, 0xC34C_C34D),
  (0x9B81, 0xC34E_C34F_C350_C351_C352_C353_C354_C355_C356_C357_C358_C359),
  (0x9B8D, 0xC35A_C35B_C35C_C35D_C35E_C35F_C360_C361_C362_C363_C364_C365),
  (0x9B99, 0xC366_C367_C36A_C36B_C36D_C36E_C36F_C371_C373_C374_C375_C376),
  (0x9BA5, 0xC377_C37A_C37B_C37E_C37F_C380_C381_C382_C383_C385_C386_C387),
  (0x9BB1, 0xC389_C38A_C38B_C38D_C38E_C38F_C390_C391_C392_C393_C394_C395),
  (0x9BBD, 0xC396_C397_C398_C399_C39A_C39B_C39C_C39D_C39E_C39F_C3A0_C3A1),
  (0x9BC9, 0xC3A2_C3A3_C3A4_C3A5_C3A6_C3A7_C3A8_C3A9_C3AA_C3AB_C3AC_C3AD),
  (0x9BD5, 0xC3AE_C3AF_C3B0_C3B1_C3B2_C3B3_C3B4_C3B5_C3B6_C3B7_C3B8_C3B9),
  (0x9BE1, 0xC3BA_C3BB_C3BC_C3BD_C3BE_C3BF_C3C1_C3C2_C3C3_C3C4_C3C5_C3C6),
  (0x9BED, 0xC3C7_C3C8_C3C9_C3CA_C3CB_C3CC_C3CD_C3CE_C3CF_C3D0_C3D1_C3D2),
  (0x9BF9, 0xC3D3_C3D4_C3D5_C3D6_C3D7_C3DA),
  (0x9C41, 0xC3DB_C3DD_C3DE_C3E1_C3E3_C3E4_C3E5_C3E6_C3E7_C3EA_C3EB_C3EC),
  (0x9C4D, 0xC3EE_C3EF_C3F0_C3F1_C3F2_C3F3_C3F6_C3F7_C3F9_C3FA_C3FB_C3FC),
  (0x9C59, 0xC3FD_C3FE),
  (0x9C61, 0xC3FF_C400_C401_C402_C403_C404_C405_C406_C407_C409_C40A_C40B),
  (0x9C6D, 0xC40C_C40D_C40E_C40F_C411_C412_C413_C414_C415_C416_C417_C418),
  (0x9C79, 0xC419_C41A),
  (0x9C81, 0xC41B_C41C_C41D_C41E_C41F_C420_C421_C422_C423_C425_C426_C427),
  (0x9C8D, 0xC428_C429_C42A_C42B_C42D_C42E_C42F_C431_C432_C433_C435_C436),
  (0x9C99, 0xC437_C438_C439_C43A_C43B_C43E_C43F_C440_C441_C442_C443_C444),
  (0x9CA5, 0xC445_C446_C447_C449_C44A_C44B_C44C_C44D_C44E_C44F_C450_C451),
  (0x9CB1, 0xC452_C453_C454_C455_C456_C457_C458_C459_C45A_C45B_C45C_C45D),
  (0x9CBD, 0xC45E_C45F_C460_C461_C462_C463_C466_C467_C469_C46A_C46B_C46D),
  (0x9CC9, 0xC46E_C46F_C470_C471_C472_C473_C476_C477_C478_C47A_C47B_C47C),
  (0x9CD5, 0xC47D_C47E_C47F_C481_C482_C483_C484_C485_C486_C487_C488_C489),
  (0x9CE1, 0xC48A_C48B_C48C_C48D_C48E_C48F_C490_C491_C492_C493_C495_C496),
  (0x9CED, 0xC497_C498_C499_C49A_C49B_C49D_C49E_C49F_C4A0_C4A1_C4A2_C4A3),
  (0x9CF9, 0xC4A4_C4A5_C4A6_C4A7_C4A8_C4A9),
  (0x9D41, 0xC4AA_C4AB_C4AC_C4AD_C4AE_C4AF_C4B0_C4B1_C4B2_C4B3_C4B4_C4B5),
  (0x9D4D, 0xC4B6_C4B7_C4B9_C4BA_C4BB_C4BD_C4BE_C4BF_C4C0_C4C1_C4C2_C4C3),
  (0x9D59, 0xC4C4_C4C5),
  (0x9D61, 0xC4C6_C4C7_C4C8_C4C9_C4CA_C4CB_C4CC_C4CD_C4CE_C4CF_C4D0_C4D1),
  (0x9D6D, 0xC4D2_C4D3_C4D4_C4D5_C4D6_C4D7_C4D8_C4D9_C4DA_C4DB_C4DC_C4DD),
  (0x9D79, 0xC4DE_C4DF),
  (0x9D81, 0xC4E0_C4E1_C4E2_C4E3_C4E4_C4E5_C4E6_C4E7_C4E8_C4EA_C4EB_C4EC),
  (0x9D8D, 0xC4ED_C4EE_C4EF_C4F2_C4F3_C4F5_C4F6_C4F7_C4F9_C4FB_C4FC_C4FD),
  (0x9D99, 0xC4FE_C502_C503_C504_C505_C506_C507_C508_C509_C50A_C50B_C50D),
  (0x9DA5, 0xC50E_C50F_C511_C512_C513_C515_C516_C517_C518_C519_C51A_C51B),
  (0x9DB1, 0xC51D_C51E_C51F_C520_C521_C522_C523_C524_C525_C526_C527_C52A),
  (0x9DBD, 0xC52B_C52D_C52E_C52F_C531_C532_C533_C534_C535_C536_C537_C53A),
  (0x9DC9, 0xC53C_C53E_C53F_C540_C541_C542_C543_C546_C547_C54B_C54F_C550),
  (0x9DD5, 0xC551_C552_C556_C55A_C55B_C55C_C55F_C562_C563_C565_C566_C567),
  (0x9DE1, 0xC569_C56A_C56B_C56C_C56D_C56E_C56F_C572_C576_C577_C578_C579),
  (0x9DED, 0xC57A_C57B_C57E_C57F_C581_C582_C583_C585_C586_C588_C589_C58A),
  (0x9DF9, 0xC58B_C58E_C590_C592_C593_C594),
  (0x9E41, 0xC596_C599_C59A_C59B_C59D_C59E_C59F_C5A1_C5A2_C5A3_C5A4_C5A5),
  (0x9E4D, 0xC5A6_C5A7_C5A8_C5AA_C5AB_C5AC_C5AD_C5AE_C5AF_C5B0_C5B1_C5B2),
  (0x9E59, 0xC5B3_C5B6),
  (0x9E61, 0xC5B7_C5BA_C5BF_C5C0_C5C1_C5C2_C5C3_C5CB_C5CD_C5CF_C5D2_C5D3),
  (0x9E6D, 0xC5D5_C5D6_C5D7_C5D9_C5DA_C5DB_C5DC_C5DD_C5DE_C5DF_C5E2_C5E4),
  (0x9E79, 0xC5E6_C5E7),
  (0x9E81, 0xC5E8_C5E9_C5EA_C5EB_C5EF_C5F1_C5F2_C5F3_C5F5_C5F8_C5F9_C5FA),
  (0x9E8D, 0xC5FB_C602_C603_C604_C609_C60A_C60B_C60D_C60E_C60F_C611_C612),
  (0x9E99, 0xC613_C614_C615_C616_C617_C61A_C61D_C61E_C61F_C620_C621_C622),
  (0x9EA5, 0xC623_C626_C627_C629_C62A_C62B_C62F_C631_C632_C636_C638_C63A),
  (0x9EB1, 0xC63C_C63D_C63E_C63F_C642_C643_C645_C646_C647_C649_C64A_C64B),
  (0x9EBD, 0xC64C_C64D_C64E_C64F_C652_C656_C657_C658_C659_C65A_C65B_C65E),
  (0x9EC9, 0xC65F_C661_C662_C663_C664_C665_C666_C667_C668_C669_C66A_C66B),
  (0x9ED5, 0xC66D_C66E_C670_C672_C673_C674_C675_C676_C677_C67A_C67B_C67D),
  (0x9EE1, 0xC67E_C67F_C681_C682_C683_C684_C685_C686_C687_C68A_C68C_C68E),
  (0x9EED, 0xC68F_C690_C691_C692_C693_C696_C697_C699_C69A_C69B_C69D_C69E),
  (0x9EF9, 0xC69F_C6A0_C6A1_C6A2_C6A3_C6A6),
  (0x9F41, 0xC6A8_C6AA_C6AB_C6AC_C6AD_C6AE_C6AF_C6B2_C6B3_C6B5_C6B6_C6B7),
  (0x9F4D, 0xC6BB_C6BC_C6BD_C6BE_C6BF_C6C2_C6C4_C6C6_C6C7_C6C8_C6C9_C6CA),
  (0x9F59, 0xC6CB_C6CE),
  (0x9F61, 0xC6CF_C6D1_C6D2_C6D3_C6D5_C6D6_C6D7_C6D8_C6D9_C6DA_C6DB_C6DE),
  (0x9F6D, 0xC6DF_C6E2_C6E3_C6E4_C6E5_C6E6_C6E7_C6EA_C6EB_C6ED_C6EE_C6EF),
  (0x9F79, 0xC6F1_C6F2),
  (0x9F81, 0xC6F3_C6F4_C6F5_C6F6_C6F7_C6FA_C6FB_C6FC_C6FE_C6FF_C700_C701),
  (0x9F8D, 0xC702_C703_C706_C707_C709_C70A_C70B_C70D_C70E_C70F_C710_C711),
  (0x9F99, 0xC712_C713_C716_C718_C71A_C71B_C71C_C71D_C71E_C71F_C722_C723),
  (0x9FA5, 0xC725_C726_C727_C729_C72A_C72B_C72C_C72D_C72E_C72F_C732_C734),
  (0x9FB1, 0xC736_C738_C739_C73A_C73B_C73E_C73F_C741_C742_C743_C745_C746),
  (0x9FBD, 0xC747_C748_C749_C74B_C74E_C750_C759_C75A_C75B_C75D_C75E_C75F),
  (0x9FC9, 0xC761_C762_C763_C764_C765_C766_C767_C769_C76A_C76C_C76D_C76E),
  (0x9FD5, 0xC76F_C770_C771_C772_C773_C776_C777_C779_C77A_C77B_C77F_C780),
  (0x9FE1, 0xC781_C782_C786_C78B_C78C_C78D_C78F_C792_C793_C795_C799_C79B),
  (0x9FED, 0xC79C_C79D_C79E_C79F_C7A2_C7A7_C7A8_C7A9_C7AA_C7AB_C7AE_C7AF),
  (0x9FF9, 0xC7B1_C7B2_C7B3_C7B5_C7B6_C7B7),
  (0xA041, 0xC7B8_C7B9_C7BA_C7BB_C7BE_C7C2_C7C3_C7C4_C7C5_C7C6_C7C7_C7CA),
  (0xA04D, 0xC7CB_C7CD_C7CF_C7D1_C7D2_C7D3_C7D4_C7D5_C7D6_C7D7_C7D9_C7DA),
  (0xA059, 0xC7DB_C7DC),
  (0xA061, 0xC7DE_C7DF_C7E0_C7E1_C7E2_C7E3_C7E5_C7E6_C7E7_C7E9_C7EA_C7EB),
  (0xA06D, 0xC7ED_C7EE_C7EF_C7F0_C7F1_C7F2_C7F3_C7F4_C7F5_C7F6_C7F7_C7F8),
  (0xA079, 0xC7F9_C7FA),
  (0xA081, 0xC7FB_C7FC_C7FD_C7FE_C7FF_C802_C803_C805_C806_C807_C809_C80B),
  (0xA08D, 0xC80C_C80D_C80E_C80F_C812_C814_C817_C818_C819_C81A_C81B_C81E),
  (0xA099, 0xC81F_C821_C822_C823_C825_C826_C827_C828_C829_C82A_C82B_C82E),
  (0xA0A5, 0xC830_C832_C833_C834_C835_C836_C837_C839_C83A_C83B_C83D_C83E),
  (0xA0B1, 0xC83F_C841_C842_C843_C844_C845_C846_C847_C84A_C84B_C84E_C84F),
  (0xA0BD, 0xC850_C851_C852_C853_C855_C856_C857_C858_C859_C85A_C85B_C85C),
  (0xA0C9, 0xC85D_C85E_C85F_C860_C861_C862_C863_C864_C865_C866_C867_C868),
  (0xA0D5, 0xC869_C86A_C86B_C86C_C86D_C86E_C86F_C872_C873_C875_C876_C877),
  (0xA0E1, 0xC879_C87B_C87C_C87D_C87E_C87F_C882_C884_C888_C889_C88A_C88E),
  (0xA0ED, 0xC88F_C890_C891_C892_C893_C895_C896_C897_C898_C899_C89A_C89B),
  (0xA0F9, 0xC89C_C89E_C8A0_C8A2_C8A3_C8A4),
  (0xA141, 0xC8A5_C8A6_C8A7_C8A9_C8AA_C8AB_C8AC_C8AD_C8AE_C8AF_C8B0_C8B1),
  (0xA14D, 0xC8B2_C8B3_C8B4_C8B5_C8B6_C8B7_C8B8_C8B9_C8BA_C8BB_C8BE_C8BF),
  (0xA159, 0xC8C0_C8C1),
  (0xA161, 0xC8C2_C8C3_C8C5_C8C6_C8C7_C8C9_C8CA_C8CB_C8CD_C8CE_C8CF_C8D0),
  (0xA16D, 0xC8D1_C8D2_C8D3_C8D6_C8D8_C8DA_C8DB_C8DC_C8DD_C8DE_C8DF_C8E2),
  (0xA179, 0xC8E3_C8E5),
  (0xA181, 0xC8E6_C8E7_C8E8_C8E9_C8EA_C8EB_C8EC_C8ED_C8EE_C8EF_C8F0_C8F1),
  (0xA18D, 0xC8F2_C8F3_C8F4_C8F6_C8F7_C8F8_C8F9_C8FA_C8FB_C8FE_C8FF_C901),
  (0xA199, 0xC902_C903_C907_C908_C909_C90A_C90B_C90E_3000_3001_3002_00B7),
  (0xA1A5, 0x2025_2026_00A8_3003_00AD_2015_2225_FF3C_223C_2018_2019_201C),
  (0xA1B1, 0x201D_3014_3015_3008_3009_300A_300B_300C_300D_300E_300F_3010),
  (0xA1BD, 0x3011_00B1_00D7_00F7_2260_2264_2265_221E_2234_00B0_2032_2033),
  (0xA1C9, 0x2103_212B_FFE0_FFE1_FFE5_2642_2640_2220_22A5_2312_2202_2207),
  (0xA1D5, 0x2261_2252_00A7_203B_2606_2605_25CB_25CF_25CE_25C7_25C6_25A1),
  (0xA1E1, 0x25A0_25B3_25B2_25BD_25BC_2192_2190_2191_2193_2194_3013_226A),
  (0xA1ED, 0x226B_221A_223D_221D_2235_222B_222C_2208_220B_2286_2287_2282),
  (0xA1F9, 0x2283_222A_2229_2227_2228_FFE2),
  (0xA241, 0xC910_C912_C913_C914_C915_C916_C917_C919_C91A_C91B_C91C_C91D),
  (0xA24D, 0xC91E_C91F_C920_C921_C922_C923_C924_C925_C926_C927_C928_C929),
  (0xA259, 0xC92A_C92B),
  (0xA261, 0xC92D_C92E_C92F_C930_C931_C932_C933_C935_C936_C937_C938_C939),
  (0xA26D, 0xC93A_C93B_C93C_C93D_C93E_C93F_C940_C941_C942_C943_C944_C945),
  (0xA279, 0xC946_C947),
  (0xA281, 0xC948_C949_C94A_C94B_C94C_C94D_C94E_C94F_C952_C953_C955_C956),
  (0xA28D, 0xC957_C959_C95A_C95B_C95C_C95D_C95E_C95F_C962_C964_C965_C966),
  (0xA299, 0xC967_C968_C969_C96A_C96B_C96D_C96E_C96F_21D2_21D4_2200_2203),
  (0xA2A5, 0x00B4_FF5E_02C7_02D8_02DD_02DA_02D9_00B8_02DB_00A1_00BF_02D0),
  (0xA2B1, 0x222E_2211_220F_00A4_2109_2030_25C1_25C0_25B7_25B6_2664_2660),
  (0xA2BD, 0x2661_2665_2667_2663_2299_25C8_25A3_25D0_25D1_2592_25A4_25A5),
  (0xA2C9, 0x25A8_25A7_25A6_25A9_2668_260F_260E_261C_261E_00B6_2020_2021),
  (0xA2D5, 0x2195_2197_2199_2196_2198_266D_2669_266A_266C_327F_321C_2116),
  (0xA2E1, 0x33C7_2122_33C2_33D8_2121_20AC_00AE),
  (0xA341, 0xC971_C972_C973_C975_C976_C977_C978_C979_C97A_C97B_C97D_C97E),
  (0xA34D, 0xC97F_C980_C981_C982_C983_C984_C985_C986_C987_C98A_C98B_C98D),
  (0xA359, 0xC98E_C98F),
  (0xA361, 0xC991_C992_C993_C994_C995_C996_C997_C99A_C99C_C99E_C99F_C9A0),
  (0xA36D, 0xC9A1_C9A2_C9A3_C9A4_C9A5_C9A6_C9A7_C9A8_C9A9_C9AA_C9AB_C9AC),
  (0xA379, 0xC9AD_C9AE),
  (0xA381, 0xC9AF_C9B0_C9B1_C9B2_C9B3_C9B4_C9B5_C9B6_C9B7_C9B8_C9B9_C9BA),
  (0xA38D, 0xC9BB_C9BC_C9BD_C9BE_C9BF_C9C2_C9C3_C9C5_C9C6_C9C9_C9CB_C9CC),
  (0xA399, 0xC9CD_C9CE_C9CF_C9D2_C9D4_C9D7_C9D8_C9DB_FF01_FF02_FF03_FF04),
  (0xA3A5, 0xFF05_FF06_FF07_FF08_FF09_FF0A_FF0B_FF0C_FF0D_FF0E_FF0F_FF10),
  (0xA3B1, 0xFF11_FF12_FF13_FF14_FF15_FF16_FF17_FF18_FF19_FF1A_FF1B_FF1C),
  (0xA3BD, 0xFF1D_FF1E_FF1F_FF20_FF21_FF22_FF23_FF24_FF25_FF26_FF27_FF28),
  (0xA3C9, 0xFF29_FF2A_FF2B_FF2C_FF2D_FF2E_FF2F_FF30_FF31_FF32_FF33_FF34),
  (0xA3D5, 0xFF35_FF36_FF37_FF38_FF39_FF3A_FF3B_FFE6_FF3D_FF3E_FF3F_FF40),
  (0xA3E1, 0xFF41_FF42_FF43_FF44_FF45_FF46_FF47_FF48_FF49_FF4A_FF4B_FF4C),
  (0xA3ED, 0xFF4D_FF4E_FF4F_FF50_FF51_FF52_FF53_FF54_FF55_FF56_FF57_FF58),
  (0xA3F9, 0xFF59_FF5A_FF5B_FF5C_FF5D_FFE3),
  (0xA441, 0xC9DE_C9DF_C9E1_C9E3_C9E5_C9E6_C9E8_C9E9_C9EA_C9EB_C9EE_C9F2),
  (0xA44D, 0xC9F3_C9F4_C9F5_C9F6_C9F7_C9FA_C9FB_C9FD_C9FE_C9FF_CA01_CA02),
  (0xA459, 0xCA03_CA04),
  (0xA461, 0xCA05_CA06_CA07_CA0A_CA0E_CA0F_CA10_CA11_CA12_CA13_CA15_CA16),
  (0xA46D, 0xCA17_CA19_CA1A_CA1B_CA1C_CA1D_CA1E_CA1F_CA20_CA21_CA22_CA23),
  (0xA479, 0xCA24_CA25),
  (0xA481, 0xCA26_CA27_CA28_CA2A_CA2B_CA2C_CA2D_CA2E_CA2F_CA30_CA31_CA32),
  (0xA48D, 0xCA33_CA34_CA35_CA36_CA37_CA38_CA39_CA3A_CA3B_CA3C_CA3D_CA3E),
  (0xA499, 0xCA3F_CA40_CA41_CA42_CA43_CA44_CA45_CA46_3131_3132_3133_3134),
  (0xA4A5, 0x3135_3136_3137_3138_3139_313A_313B_313C_313D_313E_313F_3140),
  (0xA4B1, 0x3141_3142_3143_3144_3145_3146_3147_3148_3149_314A_314B_314C),
  (0xA4BD, 0x314D_314E_314F_3150_3151_3152_3153_3154_3155_3156_3157_3158),
  (0xA4C9, 0x3159_315A_315B_315C_315D_315E_315F_3160_3161_3162_3163_3164),
  (0xA4D5, 0x3165_3166_3167_3168_3169_316A_316B_316C_316D_316E_316F_3170),
  (0xA4E1, 0x3171_3172_3173_3174_3175_3176_3177_3178_3179_317A_317B_317C),
  (0xA4ED, 0x317D_317E_317F_3180_3181_3182_3183_3184_3185_3186_3187_3188),
  (0xA4F9, 0x3189_318A_318B_318C_318D_318E),
  (0xA541, 0xCA47_CA48_CA49_CA4A_CA4B_CA4E_CA4F_CA51_CA52_CA53_CA55_CA56),
  (0xA54D, 0xCA57_CA58_CA59_CA5A_CA5B_CA5E_CA62_CA63_CA64_CA65_CA66_CA67),
  (0xA559, 0xCA69_CA6A),
  (0xA561, 0xCA6B_CA6C_CA6D_CA6E_CA6F_CA70_CA71_CA72_CA73_CA74_CA75_CA76),
  (0xA56D, 0xCA77_CA78_CA79_CA7A_CA7B_CA7C_CA7E_CA7F_CA80_CA81_CA82_CA83),
  (0xA579, 0xCA85_CA86),
  (0xA581, 0xCA87_CA88_CA89_CA8A_CA8B_CA8C_CA8D_CA8E_CA8F_CA90_CA91_CA92),
  (0xA58D, 0xCA93_CA94_CA95_CA96_CA97_CA99_CA9A_CA9B_CA9C_CA9D_CA9E_CA9F),
  (0xA599, 0xCAA0_CAA1_CAA2_CAA3_CAA4_CAA5_CAA6_CAA7_2170_2171_2172_2173),
  (0xA5A5, 0x2174_2175_2176_2177_2178_2179),
  (0xA5B0, 0x2160_2161_2162_2163_2164_2165_2166_2167_2168_2169),
  (0xA5C1, 0x0391_0392_0393_0394_0395_0396_0397_0398_0399_039A_039B_039C),
  (0xA5CD, 0x039D_039E_039F_03A0_03A1_03A3_03A4_03A5_03A6_03A7_03A8_03A9),
  (0xA5E1, 0x03B1_03B2_03B3_03B4_03B5_03B6_03B7_03B8_03B9_03BA_03BB_03BC),
  (0xA5ED, 0x03BD_03BE_03BF_03C0_03C1_03C3_03C4_03C5_03C6_03C7_03C8_03C9),
  (0xA641, 0xCAA8_CAA9_CAAA_CAAB_CAAC_CAAD_CAAE_CAAF_CAB0_CAB1_CAB2_CAB3),
  (0xA64D, 0xCAB4_CAB5_CAB6_CAB7_CAB8_CAB9_CABA_CABB_CABE_CABF_CAC1_CAC2),
  (0xA659, 0xCAC3_CAC5),
  (0xA661, 0xCAC6_CAC7_CAC8_CAC9_CACA_CACB_CACE_CAD0_CAD2_CAD4_CAD5_CAD6),
  (0xA66D, 0xCAD7_CADA_CADB_CADC_CADD_CADE_CADF_CAE1_CAE2_CAE3_CAE4_CAE5),
  (0xA679, 0xCAE6_CAE7),
  (0xA681, 0xCAE8_CAE9_CAEA_CAEB_CAED_CAEE_CAEF_CAF0_CAF1_CAF2_CAF3_CAF5),
  (0xA68D, 0xCAF6_CAF7_CAF8_CAF9_CAFA_CAFB_CAFC_CAFD_CAFE_CAFF_CB00_CB01),
  (0xA699, 0xCB02_CB03_CB04_CB05_CB06_CB07_CB09_CB0A_2500_2502_250C_2510),
  (0xA6A5, 0x2518_2514_251C_252C_2524_2534_253C_2501_2503_250F_2513_251B),
  (0xA6B1, 0x2517_2523_2533_252B_253B_254B_2520_252F_2528_2537_253F_251D),
  (0xA6BD, 0x2530_2525_2538_2542_2512_2511_251A_2519_2516_2515_250E_250D),
  (0xA6C9, 0x251E_251F_2521_2522_2526_2527_2529_252A_252D_252E_2531_2532),
  (0xA6D5, 0x2535_2536_2539_253A_253D_253E_2540_2541_2543_2544_2545_2546),
  (0xA6E1, 0x2547_2548_2549_254A),
  (0xA741, 0xCB0B_CB0C_CB0D_CB0E_CB0F_CB11_CB12_CB13_CB15_CB16_CB17_CB19),
  (0xA74D, 0xCB1A_CB1B_CB1C_CB1D_CB1E_CB1F_CB22_CB23_CB24_CB25_CB26_CB27),
  (0xA759, 0xCB28_CB29),
  (0xA761, 0xCB2A_CB2B_CB2C_CB2D_CB2E_CB2F_CB30_CB31_CB32_CB33_CB34_CB35),
  (0xA76D, 0xCB36_CB37_CB38_CB39_CB3A_CB3B_CB3C_CB3D_CB3E_CB3F_CB40_CB42),
  (0xA779, 0xCB43_CB44),
  (0xA781, 0xCB45_CB46_CB47_CB4A_CB4B_CB4D_CB4E_CB4F_CB51_CB52_CB53_CB54),
  (0xA78D, 0xCB55_CB56_CB57_CB5A_CB5B_CB5C_CB5E_CB5F_CB60_CB61_CB62_CB63),
  (0xA799, 0xCB65_CB66_CB67_CB68_CB69_CB6A_CB6B_CB6C_3395_3396_3397_2113),
  (0xA7A5, 0x3398_33C4_33A3_33A4_33A5_33A6_3399_339A_339B_339C_339D_339E),
  (0xA7B1, 0x339F_33A0_33A1_33A2_33CA_338D_338E_338F_33CF_3388_3389_33C8),
  (0xA7BD, 0x33A7_33A8_33B0_33B1_33B2_33B3_33B4_33B5_33B6_33B7_33B8_33B9),
  (0xA7C9, 0x3380_3381_3382_3383_3384_33BA_33BB_33BC_33BD_33BE_33BF_3390),
  (0xA7D5, 0x3391_3392_3393_3394_2126_33C0_33C1_338A_338B_338C_33D6_33C5),
  (0xA7E1, 0x33AD_33AE_33AF_33DB_33A9_33AA_33AB_33AC_33DD_33D0_33D3_33C3),
  (0xA7ED, 0x33C9_33DC_33C6),
  (0xA841, 0xCB6D_CB6E_CB6F_CB70_CB71_CB72_CB73_CB74_CB75_CB76_CB77_CB7A),
  (0xA84D, 0xCB7B_CB7C_CB7D_CB7E_CB7F_CB80_CB81_CB82_CB83_CB84_CB85_CB86),
  (0xA859, 0xCB87_CB88),
  (0xA861, 0xCB89_CB8A_CB8B_CB8C_CB8D_CB8E_CB8F_CB90_CB91_CB92_CB93_CB94),
  (0xA86D, 0xCB95_CB96_CB97_CB98_CB99_CB9A_CB9B_CB9D_CB9E_CB9F_CBA0_CBA1),
  (0xA879, 0xCBA2_CBA3),
  (0xA881, 0xCBA4_CBA5_CBA6_CBA7_CBA8_CBA9_CBAA_CBAB_CBAC_CBAD_CBAE_CBAF),
  (0xA88D, 0xCBB0_CBB1_CBB2_CBB3_CBB4_CBB5_CBB6_CBB7_CBB9_CBBA_CBBB_CBBC),
  (0xA899, 0xCBBD_CBBE_CBBF_CBC0_CBC1_CBC2_CBC3_CBC4_00C6_00D0_00AA_0126),
  (0xA8A6, 0x0132),
  (0xA8A8, 0x013F_0141_00D8_0152_00BA_00DE_0166_014A),
  (0xA8B1, 0x3260_3261_3262_3263_3264_3265_3266_3267_3268_3269_326A_326B),
  (0xA8BD, 0x326C_326D_326E_326F_3270_3271_3272_3273_3274_3275_3276_3277),
  (0xA8C9, 0x3278_3279_327A_327B_24D0_24D1_24D2_24D3_24D4_24D5_24D6_24D7),
  (0xA8D5, 0x24D8_24D9_24DA_24DB_24DC_24DD_24DE_24DF_24E0_24E1_24E2_24E3),
  (0xA8E1, 0x24E4_24E5_24E6_24E7_24E8_24E9_2460_2461_2462_2463_2464_2465),
  (0xA8ED, 0x2466_2467_2468_2469_246A_246B_246C_246D_246E_00BD_2153_2154),
  (0xA8F9, 0x00BC_00BE_215B_215C_215D_215E),
  (0xA941, 0xCBC5_CBC6_CBC7_CBC8_CBC9_CBCA_CBCB_CBCC_CBCD_CBCE_CBCF_CBD0),
  (0xA94D, 0xCBD1_CBD2_CBD3_CBD5_CBD6_CBD7_CBD8_CBD9_CBDA_CBDB_CBDC_CBDD),
  (0xA959, 0xCBDE_CBDF),
  (0xA961, 0xCBE0_CBE1_CBE2_CBE3_CBE5_CBE6_CBE8_CBEA_CBEB_CBEC_CBED_CBEE),
  (0xA96D, 0xCBEF_CBF0_CBF1_CBF2_CBF3_CBF4_CBF5_CBF6_CBF7_CBF8_CBF9_CBFA),
  (0xA979, 0xCBFB_CBFC),
  (0xA981, 0xCBFD_CBFE_CBFF_CC00_CC01_CC02_CC03_CC04_CC05_CC06_CC07_CC08),
  (0xA98D, 0xCC09_CC0A_CC0B_CC0E_CC0F_CC11_CC12_CC13_CC15_CC16_CC17_CC18),
  (0xA999, 0xCC19_CC1A_CC1B_CC1E_CC1F_CC20_CC23_CC24_00E6_0111_00F0_0127),
  (0xA9A5, 0x0131_0133_0138_0140_0142_00F8_0153_00DF_00FE_0167_014B_0149),
  (0xA9B1, 0x3200_3201_3202_3203_3204_3205_3206_3207_3208_3209_320A_320B),
  (0xA9BD, 0x320C_320D_320E_320F_3210_3211_3212_3213_3214_3215_3216_3217),
  (0xA9C9, 0x3218_3219_321A_321B_249C_249D_249E_249F_24A0_24A1_24A2_24A3),
  (0xA9D5, 0x24A4_24A5_24A6_24A7_24A8_24A9_24AA_24AB_24AC_24AD_24AE_24AF),
  (0xA9E1, 0x24B0_24B1_24B2_24B3_24B4_24B5_2474_2475_2476_2477_2478_2479),
  (0xA9ED, 0x247A_247B_247C_247D_247E_247F_2480_2481_2482_00B9_00B2_00B3),
  (0xA9F9, 0x2074_207F_2081_2082_2083_2084),
  (0xAA41, 0xCC25_CC26_CC2A_CC2B_CC2D_CC2F_CC31_CC32_CC33_CC34_CC35_CC36),
  (0xAA4D, 0xCC37_CC3A_CC3F_CC40_CC41_CC42_CC43_CC46_CC47_CC49_CC4A_CC4B),
  (0xAA59, 0xCC4D_CC4E),
  (0xAA61, 0xCC4F_CC50_CC51_CC52_CC53_CC56_CC5A_CC5B_CC5C_CC5D_CC5E_CC5F),
  (0xAA6D, 0xCC61_CC62_CC63_CC65_CC67_CC69_CC6A_CC6B_CC6C_CC6D_CC6E_CC6F),
  (0xAA79, 0xCC71_CC72),
  (0xAA81, 0xCC73_CC74_CC76_CC77_CC78_CC79_CC7A_CC7B_CC7C_CC7D_CC7E_CC7F),
  (0xAA8D, 0xCC80_CC81_CC82_CC83_CC84_CC85_CC86_CC87_CC88_CC89_CC8A_CC8B),
  (0xAA99, 0xCC8C_CC8D_CC8E_CC8F_CC90_CC91_CC92_CC93_3041_3042_3043_3044),
  (0xAAA5, 0x3045_3046_3047_3048_3049_304A_304B_304C_304D_304E_304F_3050),
  (0xAAB1, 0x3051_3052_3053_3054_3055_3056_3057_3058_3059_305A_305B_305C),
  (0xAABD, 0x305D_305E_305F_3060_3061_3062_3063_3064_3065_3066_3067_3068),
  (0xAAC9, 0x3069_306A_306B_306C_306D_306E_306F_3070_3071_3072_3073_3074),
  (0xAAD5, 0x3075_3076_3077_3078_3079_307A_307B_307C_307D_307E_307F_3080),
  (0xAAE1, 0x3081_3082_3083_3084_3085_3086_3087_3088_3089_308A_308B_308C),
  (0xAAED, 0x308D_308E_308F_3090_3091_3092_3093),
  (0xAB41, 0xCC94_CC95_CC96_CC97_CC9A_CC9B_CC9D_CC9E_CC9F_CCA1_CCA2_CCA3),
  (0xAB4D, 0xCCA4_CCA5_CCA6_CCA7_CCAA_CCAE_CCAF_CCB0_CCB1_CCB2_CCB3_CCB6),
  (0xAB59, 0xCCB7_CCB9),
  (0xAB61, 0xCCBA_CCBB_CCBD_CCBE_CCBF_CCC0_CCC1_CCC2_CCC3_CCC6_CCC8_CCCA),
  (0xAB6D, 0xCCCB_CCCC_CCCD_CCCE_CCCF_CCD1_CCD2_CCD3_CCD5_CCD6_CCD7_CCD8),
  (0xAB79, 0xCCD9_CCDA),
  (0xAB81, 0xCCDB_CCDC_CCDD_CCDE_CCDF_CCE0_CCE1_CCE2_CCE3_CCE5_CCE6_CCE7),
  (0xAB8D, 0xCCE8_CCE9_CCEA_CCEB_CCED_CCEE_CCEF_CCF1_CCF2_CCF3_CCF4_CCF5),
  (0xAB99, 0xCCF6_CCF7_CCF8_CCF9_CCFA_CCFB_CCFC_CCFD_30A1_30A2_30A3_30A4),
  (0xABA5, 0x30A5_30A6_30A7_30A8_30A9_30AA_30AB_30AC_30AD_30AE_30AF_30B0),
  (0xABB1, 0x30B1_30B2_30B3_30B4_30B5_30B6_30B7_30B8_30B9_30BA_30BB_30BC),
  (0xABBD, 0x30BD_30BE_30BF_30C0_30C1_30C2_30C3_30C4_30C5_30C6_30C7_30C8),
  (0xABC9, 0x30C9_30CA_30CB_30CC_30CD_30CE_30CF_30D0_30D1_30D2_30D3_30D4),
  (0xABD5, 0x30D5_30D6_30D7_30D8_30D9_30DA_30DB_30DC_30DD_30DE_30DF_30E0),
  (0xABE1, 0x30E1_30E2_30E3_30E4_30E5_30E6_30E7_30E8_30E9_30EA_30EB_30EC),
  (0xABED, 0x30ED_30EE_30EF_30F0_30F1_30F2_30F3_30F4_30F5_30F6),
  (0xAC41, 0xCCFE_CCFF_CD00_CD02_CD03_CD04_CD05_CD06_CD07_CD0A_CD0B_CD0D),
  (0xAC4D, 0xCD0E_CD0F_CD11_CD12_CD13_CD14_CD15_CD16_CD17_CD1A_CD1C_CD1E),
  (0xAC59, 0xCD1F_CD20),
  (0xAC61, 0xCD21_CD22_CD23_CD25_CD26_CD27_CD29_CD2A_CD2B_CD2D_CD2E_CD2F),
  (0xAC6D, 0xCD30_CD31_CD32_CD33_CD34_CD35_CD36_CD37_CD38_CD3A_CD3B_CD3C),
  (0xAC79, 0xCD3D_CD3E),
  (0xAC81, 0xCD3F_CD40_CD41_CD42_CD43_CD44_CD45_CD46_CD47_CD48_CD49_CD4A),
  (0xAC8D, 0xCD4B_CD4C_CD4D_CD4E_CD4F_CD50_CD51_CD52_CD53_CD54_CD55_CD56),
  (0xAC99, 0xCD57_CD58_CD59_CD5A_CD5B_CD5D_CD5E_CD5F_0410_0411_0412_0413),
  (0xACA5, 0x0414_0415_0401_0416_0417_0418_0419_041A_041B_041C_041D_041E),
  (0xACB1, 0x041F_0420_0421_0422_0423_0424_0425_0426_0427_0428_0429_042A),
  (0xACBD, 0x042B_042C_042D_042E_042F),
  (0xACD1, 0x0430_0431_0432_0433_0434_0435_0451_0436_0437_0438_0439_043A),
  (0xACDD, 0x043B_043C_043D_043E_043F_0440_0441_0442_0443_0444_0445_0446),
  (0xACE9, 0x0447_0448_0449_044A_044B_044C_044D_044E_044F),
  (0xAD41, 0xCD61_CD62_CD63_CD65_CD66_CD67_CD68_CD69_CD6A_CD6B_CD6E_CD70),
  (0xAD4D, 0xCD72_CD73_CD74_CD75_CD76_CD77_CD79_CD7A_CD7B_CD7C_CD7D_CD7E),
  (0xAD59, 0xCD7F_CD80),
  (0xAD61, 0xCD81_CD82_CD83_CD84_CD85_CD86_CD87_CD89_CD8A_CD8B_CD8C_CD8D),
  (0xAD6D, 0xCD8E_CD8F_CD90_CD91_CD92_CD93_CD96_CD97_CD99_CD9A_CD9B_CD9D),
  (0xAD79, 0xCD9E_CD9F),
  (0xAD81, 0xCDA0_CDA1_CDA2_CDA3_CDA6_CDA8_CDAA_CDAB_CDAC_CDAD_CDAE_CDAF),
  (0xAD8D, 0xCDB1_CDB2_CDB3_CDB4_CDB5_CDB6_CDB7_CDB8_CDB9_CDBA_CDBB_CDBC),
  (0xAD99, 0xCDBD_CDBE_CDBF_CDC0_CDC1_CDC2_CDC3_CDC5),
  (0xAE41, 0xCDC6_CDC7_CDC8_CDC9_CDCA_CDCB_CDCD_CDCE_CDCF_CDD1_CDD2_CDD3),
  (0xAE4D, 0xCDD4_CDD5_CDD6_CDD7_CDD8_CDD9_CDDA_CDDB_CDDC_CDDD_CDDE_CDDF),
  (0xAE59, 0xCDE0_CDE1),
  (0xAE61, 0xCDE2_CDE3_CDE4_CDE5_CDE6_CDE7_CDE9_CDEA_CDEB_CDED_CDEE_CDEF),
  (0xAE6D, 0xCDF1_CDF2_CDF3_CDF4_CDF5_CDF6_CDF7_CDFA_CDFC_CDFE_CDFF_CE00),
  (0xAE79, 0xCE01_CE02),
  (0xAE81, 0xCE03_CE05_CE06_CE07_CE09_CE0A_CE0B_CE0D_CE0E_CE0F_CE10_CE11),
  (0xAE8D, 0xCE12_CE13_CE15_CE16_CE17_CE18_CE1A_CE1B_CE1C_CE1D_CE1E_CE1F),
  (0xAE99, 0xCE22_CE23_CE25_CE26_CE27_CE29_CE2A_CE2B),
  (0xAF41, 0xCE2C_CE2D_CE2E_CE2F_CE32_CE34_CE36_CE37_CE38_CE39_CE3A_CE3B),
  (0xAF4D, 0xCE3C_CE3D_CE3E_CE3F_CE40_CE41_CE42_CE43_CE44_CE45_CE46_CE47),
  (0xAF59, 0xCE48_CE49),
  (0xAF61, 0xCE4A_CE4B_CE4C_CE4D_CE4E_CE4F_CE50_CE51_CE52_CE53_CE54_CE55),
  (0xAF6D, 0xCE56_CE57_CE5A_CE5B_CE5D_CE5E_CE62_CE63_CE64_CE65_CE66_CE67),
  (0xAF79, 0xCE6A_CE6C),
  (0xAF81, 0xCE6E_CE6F_CE70_CE71_CE72_CE73_CE76_CE77_CE79_CE7A_CE7B_CE7D),
  (0xAF8D, 0xCE7E_CE7F_CE80_CE81_CE82_CE83_CE86_CE88_CE8A_CE8B_CE8C_CE8D),
  (0xAF99, 0xCE8E_CE8F_CE92_CE93_CE95_CE96_CE97_CE99),
  (0xB041, 0xCE9A_CE9B_CE9C_CE9D_CE9E_CE9F_CEA2_CEA6_CEA7_CEA8_CEA9_CEAA),
  (0xB04D, 0xCEAB_CEAE_CEAF_CEB0_CEB1_CEB2_CEB3_CEB4_CEB5_CEB6_CEB7_CEB8),
  (0xB059, 0xCEB9_CEBA),
  (0xB061, 0xCEBB_CEBC_CEBD_CEBE_CEBF_CEC0_CEC2_CEC3_CEC4_CEC5_CEC6_CEC7),
  (0xB06D, 0xCEC8_CEC9_CECA_CECB_CECC_CECD_CECE_CECF_CED0_CED1_CED2_CED3),
  (0xB079, 0xCED4_CED5),
  (0xB081, 0xCED6_CED7_CED8_CED9_CEDA_CEDB_CEDC_CEDD_CEDE_CEDF_CEE0_CEE1),
  (0xB08D, 0xCEE2_CEE3_CEE6_CEE7_CEE9_CEEA_CEED_CEEE_CEEF_CEF0_CEF1_CEF2),
  (0xB099, 0xCEF3_CEF6_CEFA_CEFB_CEFC_CEFD_CEFE_CEFF_AC00_AC01_AC04_AC07),
  (0xB0A5, 0xAC08_AC09_AC0A_AC10_AC11_AC12_AC13_AC14_AC15_AC16_AC17_AC19),
  (0xB0B1, 0xAC1A_AC1B_AC1C_AC1D_AC20_AC24_AC2C_AC2D_AC2F_AC30_AC31_AC38),
  (0xB0BD, 0xAC39_AC3C_AC40_AC4B_AC4D_AC54_AC58_AC5C_AC70_AC71_AC74_AC77),
  (0xB0C9, 0xAC78_AC7A_AC80_AC81_AC83_AC84_AC85_AC86_AC89_AC8A_AC8B_AC8C),
  (0xB0D5, 0xAC90_AC94_AC9C_AC9D_AC9F_ACA0_ACA1_ACA8_ACA9_ACAA_ACAC_ACAF),
  (0xB0E1, 0xACB0_ACB8_ACB9_ACBB_ACBC_ACBD_ACC1_ACC4_ACC8_ACCC_ACD5_ACD7),
  (0xB0ED, 0xACE0_ACE1_ACE4_ACE7_ACE8_ACEA_ACEC_ACEF_ACF0_ACF1_ACF3_ACF5),
  (0xB0F9, 0xACF6_ACFC_ACFD_AD00_AD04_AD06),
  (0xB141, 0xCF02_CF03_CF05_CF06_CF07_CF09_CF0A_CF0B_CF0C_CF0D_CF0E_CF0F),
  (0xB14D, 0xCF12_CF14_CF16_CF17_CF18_CF19_CF1A_CF1B_CF1D_CF1E_CF1F_CF21),
  (0xB159, 0xCF22_CF23),
  (0xB161, 0xCF25_CF26_CF27_CF28_CF29_CF2A_CF2B_CF2E_CF32_CF33_CF34_CF35),
  (0xB16D, 0xCF36_CF37_CF39_CF3A_CF3B_CF3C_CF3D_CF3E_CF3F_CF40_CF41_CF42),
  (0xB179, 0xCF43_CF44),
  (0xB181, 0xCF45_CF46_CF47_CF48_CF49_CF4A_CF4B_CF4C_CF4D_CF4E_CF4F_CF50),
  (0xB18D, 0xCF51_CF52_CF53_CF56_CF57_CF59_CF5A_CF5B_CF5D_CF5E_CF5F_CF60),
  (0xB199, 0xCF61_CF62_CF63_CF66_CF68_CF6A_CF6B_CF6C_AD0C_AD0D_AD0F_AD11),
  (0xB1A5, 0xAD18_AD1C_AD20_AD29_AD2C_AD2D_AD34_AD35_AD38_AD3C_AD44_AD45),
  (0xB1B1, 0xAD47_AD49_AD50_AD54_AD58_AD61_AD63_AD6C_AD6D_AD70_AD73_AD74),
  (0xB1BD, 0xAD75_AD76_AD7B_AD7C_AD7D_AD7F_AD81_AD82_AD88_AD89_AD8C_AD90),
  (0xB1C9, 0xAD9C_AD9D_ADA4_ADB7_ADC0_ADC1_ADC4_ADC8_ADD0_ADD1_ADD3_ADDC),
  (0xB1D5, 0xADE0_ADE4_ADF8_ADF9_ADFC_ADFF_AE00_AE01_AE08_AE09_AE0B_AE0D),
  (0xB1E1, 0xAE14_AE30_AE31_AE34_AE37_AE38_AE3A_AE40_AE41_AE43_AE45_AE46),
  (0xB1ED, 0xAE4A_AE4C_AE4D_AE4E_AE50_AE54_AE56_AE5C_AE5D_AE5F_AE60_AE61),
  (0xB1F9, 0xAE65_AE68_AE69_AE6C_AE70_AE78),
  (0xB241, 0xCF6D_CF6E_CF6F_CF72_CF73_CF75_CF76_CF77_CF79_CF7A_CF7B_CF7C),
  (0xB24D, 0xCF7D_CF7E_CF7F_CF81_CF82_CF83_CF84_CF86_CF87_CF88_CF89_CF8A),
  (0xB259, 0xCF8B_CF8D),
  (0xB261, 0xCF8E_CF8F_CF90_CF91_CF92_CF93_CF94_CF95_CF96_CF97_CF98_CF99),
  (0xB26D, 0xCF9A_CF9B_CF9C_CF9D_CF9E_CF9F_CFA0_CFA2_CFA3_CFA4_CFA5_CFA6),
  (0xB279, 0xCFA7_CFA9),
  (0xB281, 0xCFAA_CFAB_CFAC_CFAD_CFAE_CFAF_CFB1_CFB2_CFB3_CFB4_CFB5_CFB6),
  (0xB28D, 0xCFB7_CFB8_CFB9_CFBA_CFBB_CFBC_CFBD_CFBE_CFBF_CFC0_CFC1_CFC2),
  (0xB299, 0xCFC3_CFC5_CFC6_CFC7_CFC8_CFC9_CFCA_CFCB_AE79_AE7B_AE7C_AE7D),
  (0xB2A5, 0xAE84_AE85_AE8C_AEBC_AEBD_AEBE_AEC0_AEC4_AECC_AECD_AECF_AED0),
  (0xB2B1, 0xAED1_AED8_AED9_AEDC_AEE8_AEEB_AEED_AEF4_AEF8_AEFC_AF07_AF08),
  (0xB2BD, 0xAF0D_AF10_AF2C_AF2D_AF30_AF32_AF34_AF3C_AF3D_AF3F_AF41_AF42),
  (0xB2C9, 0xAF43_AF48_AF49_AF50_AF5C_AF5D_AF64_AF65_AF79_AF80_AF84_AF88),
  (0xB2D5, 0xAF90_AF91_AF95_AF9C_AFB8_AFB9_AFBC_AFC0_AFC7_AFC8_AFC9_AFCB),
  (0xB2E1, 0xAFCD_AFCE_AFD4_AFDC_AFE8_AFE9_AFF0_AFF1_AFF4_AFF8_B000_B001),
  (0xB2ED, 0xB004_B00C_B010_B014_B01C_B01D_B028_B044_B045_B048_B04A_B04C),
  (0xB2F9, 0xB04E_B053_B054_B055_B057_B059),
  (0xB341, 0xCFCC_CFCD_CFCE_CFCF_CFD0_CFD1_CFD2_CFD3_CFD4_CFD5_CFD6_CFD7),
  (0xB34D, 0xCFD8_CFD9_CFDA_CFDB_CFDC_CFDD_CFDE_CFDF_CFE2_CFE3_CFE5_CFE6),
  (0xB359, 0xCFE7_CFE9),
  (0xB361, 0xCFEA_CFEB_CFEC_CFED_CFEE_CFEF_CFF2_CFF4_CFF6_CFF7_CFF8_CFF9),
  (0xB36D, 0xCFFA_CFFB_CFFD_CFFE_CFFF_D001_D002_D003_D005_D006_D007_D008),
  (0xB379, 0xD009_D00A),
  (0xB381, 0xD00B_D00C_D00D_D00E_D00F_D010_D012_D013_D014_D015_D016_D017),
  (0xB38D, 0xD019_D01A_D01B_D01C_D01D_D01E_D01F_D020_D021_D022_D023_D024),
  (0xB399, 0xD025_D026_D027_D028_D029_D02A_D02B_D02C_B05D_B07C_B07D_B080),
  (0xB3A5, 0xB084_B08C_B08D_B08F_B091_B098_B099_B09A_B09C_B09F_B0A0_B0A1),
  (0xB3B1, 0xB0A2_B0A8_B0A9_B0AB_B0AC_B0AD_B0AE_B0AF_B0B1_B0B3_B0B4_B0B5),
  (0xB3BD, 0xB0B8_B0BC_B0C4_B0C5_B0C7_B0C8_B0C9_B0D0_B0D1_B0D4_B0D8_B0E0),
  (0xB3C9, 0xB0E5_B108_B109_B10B_B10C_B110_B112_B113_B118_B119_B11B_B11C),
  (0xB3D5, 0xB11D_B123_B124_B125_B128_B12C_B134_B135_B137_B138_B139_B140),
  (0xB3E1, 0xB141_B144_B148_B150_B151_B154_B155_B158_B15C_B160_B178_B179),
  (0xB3ED, 0xB17C_B180_B182_B188_B189_B18B_B18D_B192_B193_B194_B198_B19C),
  (0xB3F9, 0xB1A8_B1CC_B1D0_B1D4_B1DC_B1DD),
  (0xB441, 0xD02E_D02F_D030_D031_D032_D033_D036_D037_D039_D03A_D03B_D03D),
  (0xB44D, 0xD03E_D03F_D040_D041_D042_D043_D046_D048_D04A_D04B_D04C_D04D),
  (0xB459, 0xD04E_D04F),
  (0xB461, 0xD051_D052_D053_D055_D056_D057_D059_D05A_D05B_D05C_D05D_D05E),
  (0xB46D, 0xD05F_D061_D062_D063_D064_D065_D066_D067_D068_D069_D06A_D06B),
  (0xB479, 0xD06E_D06F),
  (0xB481, 0xD071_D072_D073_D075_D076_D077_D078_D079_D07A_D07B_D07E_D07F),
  (0xB48D, 0xD080_D082_D083_D084_D085_D086_D087_D088_D089_D08A_D08B_D08C),
  (0xB499, 0xD08D_D08E_D08F_D090_D091_D092_D093_D094_B1DF_B1E8_B1E9_B1EC),
  (0xB4A5, 0xB1F0_B1F9_B1FB_B1FD_B204_B205_B208_B20B_B20C_B214_B215_B217),
  (0xB4B1, 0xB219_B220_B234_B23C_B258_B25C_B260_B268_B269_B274_B275_B27C),
  (0xB4BD, 0xB284_B285_B289_B290_B291_B294_B298_B299_B29A_B2A0_B2A1_B2A3),
  (0xB4C9, 0xB2A5_B2A6_B2AA_B2AC_B2B0_B2B4_B2C8_B2C9_B2CC_B2D0_B2D2_B2D8),
  (0xB4D5, 0xB2D9_B2DB_B2DD_B2E2_B2E4_B2E5_B2E6_B2E8_B2EB_B2EC_B2ED_B2EE),
  (0xB4E1, 0xB2EF_B2F3_B2F4_B2F5_B2F7_B2F8_B2F9_B2FA_B2FB_B2FF_B300_B301),
  (0xB4ED, 0xB304_B308_B310_B311_B313_B314_B315_B31C_B354_B355_B356_B358),
  (0xB4F9, 0xB35B_B35C_B35E_B35F_B364_B365),
  (0xB541, 0xD095_D096_D097_D098_D099_D09A_D09B_D09C_D09D_D09E_D09F_D0A0),
  (0xB54D, 0xD0A1_D0A2_D0A3_D0A6_D0A7_D0A9_D0AA_D0AB_D0AD_D0AE_D0AF_D0B0),
  (0xB559, 0xD0B1_D0B2),
  (0xB561, 0xD0B3_D0B6_D0B8_D0BA_D0BB_D0BC_D0BD_D0BE_D0BF_D0C2_D0C3_D0C5),
  (0xB56D, 0xD0C6_D0C7_D0CA_D0CB_D0CC_D0CD_D0CE_D0CF_D0D2_D0D6_D0D7_D0D8),
  (0xB579, 0xD0D9_D0DA),
  (0xB581, 0xD0DB_D0DE_D0DF_D0E1_D0E2_D0E3_D0E5_D0E6_D0E7_D0E8_D0E9_D0EA),
  (0xB58D, 0xD0EB_D0EE_D0F2_D0F3_D0F4_D0F5_D0F6_D0F7_D0F9_D0FA_D0FB_D0FC),
  (0xB599, 0xD0FD_D0FE_D0FF_D100_D101_D102_D103_D104_B367_B369_B36B_B36E),
  (0xB5A5, 0xB370_B371_B374_B378_B380_B381_B383_B384_B385_B38C_B390_B394),
  (0xB5B1, 0xB3A0_B3A1_B3A8_B3AC_B3C4_B3C5_B3C8_B3CB_B3CC_B3CE_B3D0_B3D4),
  (0xB5BD, 0xB3D5_B3D7_B3D9_B3DB_B3DD_B3E0_B3E4_B3E8_B3FC_B410_B418_B41C),
  (0xB5C9, 0xB420_B428_B429_B42B_B434_B450_B451_B454_B458_B460_B461_B463),
  (0xB5D5, 0xB465_B46C_B480_B488_B49D_B4A4_B4A8_B4AC_B4B5_B4B7_B4B9_B4C0),
  (0xB5E1, 0xB4C4_B4C8_B4D0_B4D5_B4DC_B4DD_B4E0_B4E3_B4E4_B4E6_B4EC_B4ED),
  (0xB5ED, 0xB4EF_B4F1_B4F8_B514_B515_B518_B51B_B51C_B524_B525_B527_B528),
  (0xB5F9, 0xB529_B52A_B530_B531_B534_B538),
  (0xB641, 0xD105_D106_D107_D108_D109_D10A_D10B_D10C_D10E_D10F_D110_D111),
  (0xB64D, 0xD112_D113_D114_D115_D116_D117_D118_D119_D11A_D11B_D11C_D11D),
  (0xB659, 0xD11E_D11F),
  (0xB661, 0xD120_D121_D122_D123_D124_D125_D126_D127_D128_D129_D12A_D12B),
  (0xB66D, 0xD12C_D12D_D12E_D12F_D132_D133_D135_D136_D137_D139_D13B_D13C),
  (0xB679, 0xD13D_D13E),
  (0xB681, 0xD13F_D142_D146_D147_D148_D149_D14A_D14B_D14E_D14F_D151_D152),
  (0xB68D, 0xD153_D155_D156_D157_D158_D159_D15A_D15B_D15E_D160_D162_D163),
  (0xB699, 0xD164_D165_D166_D167_D169_D16A_D16B_D16D_B540_B541_B543_B544),
  (0xB6A5, 0xB545_B54B_B54C_B54D_B550_B554_B55C_B55D_B55F_B560_B561_B5A0),
  (0xB6B1, 0xB5A1_B5A4_B5A8_B5AA_B5AB_B5B0_B5B1_B5B3_B5B4_B5B5_B5BB_B5BC),
  (0xB6BD, 0xB5BD_B5C0_B5C4_B5CC_B5CD_B5CF_B5D0_B5D1_B5D8_B5EC_B610_B611),
  (0xB6C9, 0xB614_B618_B625_B62C_B634_B648_B664_B668_B69C_B69D_B6A0_B6A4),
  (0xB6D5, 0xB6AB_B6AC_B6B1_B6D4_B6F0_B6F4_B6F8_B700_B701_B705_B728_B729),
  (0xB6E1, 0xB72C_B72F_B730_B738_B739_B73B_B744_B748_B74C_B754_B755_B760),
  (0xB6ED, 0xB764_B768_B770_B771_B773_B775_B77C_B77D_B780_B784_B78C_B78D),
  (0xB6F9, 0xB78F_B790_B791_B792_B796_B797),
  (0xB741, 0xD16E_D16F_D170_D171_D172_D173_D174_D175_D176_D177_D178_D179),
  (0xB74D, 0xD17A_D17B_D17D_D17E_D17F_D180_D181_D182_D183_D185_D186_D187),
  (0xB759, 0xD189_D18A),
  (0xB761, 0xD18B_D18C_D18D_D18E_D18F_D190_D191_D192_D193_D194_D195_D196),
  (0xB76D, 0xD197_D198_D199_D19A_D19B_D19C_D19D_D19E_D19F_D1A2_D1A3_D1A5),
  (0xB779, 0xD1A6_D1A7),
  (0xB781, 0xD1A9_D1AA_D1AB_D1AC_D1AD_D1AE_D1AF_D1B2_D1B4_D1B6_D1B7_D1B8),
  (0xB78D, 0xD1B9_D1BB_D1BD_D1BE_D1BF_D1C1_D1C2_D1C3_D1C4_D1C5_D1C6_D1C7),
  (0xB799, 0xD1C8_D1C9_D1CA_D1CB_D1CC_D1CD_D1CE_D1CF_B798_B799_B79C_B7A0),
  (0xB7A5, 0xB7A8_B7A9_B7AB_B7AC_B7AD_B7B4_B7B5_B7B8_B7C7_B7C9_B7EC_B7ED),
  (0xB7B1, 0xB7F0_B7F4_B7FC_B7FD_B7FF_B800_B801_B807_B808_B809_B80C_B810),
  (0xB7BD, 0xB818_B819_B81B_B81D_B824_B825_B828_B82C_B834_B835_B837_B838),
  (0xB7C9, 0xB839_B840_B844_B851_B853_B85C_B85D_B860_B864_B86C_B86D_B86F),
  (0xB7D5, 0xB871_B878_B87C_B88D_B8A8_B8B0_B8B4_B8B8_B8C0_B8C1_B8C3_B8C5),
  (0xB7E1, 0xB8CC_B8D0_B8D4_B8DD_B8DF_B8E1_B8E8_B8E9_B8EC_B8F0_B8F8_B8F9),
  (0xB7ED, 0xB8FB_B8FD_B904_B918_B920_B93C_B93D_B940_B944_B94C_B94F_B951),
  (0xB7F9, 0xB958_B959_B95C_B960_B968_B969),
  (0xB841, 0xD1D0_D1D1_D1D2_D1D3_D1D4_D1D5_D1D6_D1D7_D1D9_D1DA_D1DB_D1DC),
  (0xB84D, 0xD1DD_D1DE_D1DF_D1E0_D1E1_D1E2_D1E3_D1E4_D1E5_D1E6_D1E7_D1E8),
  (0xB859, 0xD1E9_D1EA),
  (0xB861, 0xD1EB_D1EC_D1ED_D1EE_D1EF_D1F0_D1F1_D1F2_D1F3_D1F5_D1F6_D1F7),
  (0xB86D, 0xD1F9_D1FA_D1FB_D1FC_D1FD_D1FE_D1FF_D200_D201_D202_D203_D204),
  (0xB879, 0xD205_D206),
  (0xB881, 0xD208_D20A_D20B_D20C_D20D_D20E_D20F_D211_D212_D213_D214_D215),
  (0xB88D, 0xD216_D217_D218_D219_D21A_D21B_D21C_D21D_D21E_D21F_D220_D221),
  (0xB899, 0xD222_D223_D224_D225_D226_D227_D228_D229_B96B_B96D_B974_B975),
  (0xB8A5, 0xB978_B97C_B984_B985_B987_B989_B98A_B98D_B98E_B9AC_B9AD_B9B0),
  (0xB8B1, 0xB9B4_B9BC_B9BD_B9BF_B9C1_B9C8_B9C9_B9CC_B9CE_B9CF_B9D0_B9D1),
  (0xB8BD, 0xB9D2_B9D8_B9D9_B9DB_B9DD_B9DE_B9E1_B9E3_B9E4_B9E5_B9E8_B9EC),
  (0xB8C9, 0xB9F4_B9F5_B9F7_B9F8_B9F9_B9FA_BA00_BA01_BA08_BA15_BA38_BA39),
  (0xB8D5, 0xBA3C_BA40_BA42_BA48_BA49_BA4B_BA4D_BA4E_BA53_BA54_BA55_BA58),
  (0xB8E1, 0xBA5C_BA64_BA65_BA67_BA68_BA69_BA70_BA71_BA74_BA78_BA83_BA84),
  (0xB8ED, 0xBA85_BA87_BA8C_BAA8_BAA9_BAAB_BAAC_BAB0_BAB2_BAB8_BAB9_BABB),
  (0xB8F9, 0xBABD_BAC4_BAC8_BAD8_BAD9_BAFC),
  (0xB941, 0xD22A_D22B_D22E_D22F_D231_D232_D233_D235_D236_D237_D238_D239),
  (0xB94D, 0xD23A_D23B_D23E_D240_D242_D243_D244_D245_D246_D247_D249_D24A),
  (0xB959, 0xD24B_D24C),
  (0xB961, 0xD24D_D24E_D24F_D250_D251_D252_D253_D254_D255_D256_D257_D258),
  (0xB96D, 0xD259_D25A_D25B_D25D_D25E_D25F_D260_D261_D262_D263_D265_D266),
  (0xB979, 0xD267_D268),
  (0xB981, 0xD269_D26A_D26B_D26C_D26D_D26E_D26F_D270_D271_D272_D273_D274),
  (0xB98D, 0xD275_D276_D277_D278_D279_D27A_D27B_D27C_D27D_D27E_D27F_D282),
  (0xB999, 0xD283_D285_D286_D287_D289_D28A_D28B_D28C_BB00_BB04_BB0D_BB0F),
  (0xB9A5, 0xBB11_BB18_BB1C_BB20_BB29_BB2B_BB34_BB35_BB36_BB38_BB3B_BB3C),
  (0xB9B1, 0xBB3D_BB3E_BB44_BB45_BB47_BB49_BB4D_BB4F_BB50_BB54_BB58_BB61),
  (0xB9BD, 0xBB63_BB6C_BB88_BB8C_BB90_BBA4_BBA8_BBAC_BBB4_BBB7_BBC0_BBC4),
  (0xB9C9, 0xBBC8_BBD0_BBD3_BBF8_BBF9_BBFC_BBFF_BC00_BC02_BC08_BC09_BC0B),
  (0xB9D5, 0xBC0C_BC0D_BC0F_BC11_BC14_BC15_BC16_BC17_BC18_BC1B_BC1C_BC1D),
  (0xB9E1, 0xBC1E_BC1F_BC24_BC25_BC27_BC29_BC2D_BC30_BC31_BC34_BC38_BC40),
  (0xB9ED, 0xBC41_BC43_BC44_BC45_BC49_BC4C_BC4D_BC50_BC5D_BC84_BC85_BC88),
  (0xB9F9, 0xBC8B_BC8C_BC8E_BC94_BC95_BC97),
  (0xBA41, 0xD28D_D28E_D28F_D292_D293_D294_D296_D297_D298_D299_D29A_D29B),
  (0xBA4D, 0xD29D_D29E_D29F_D2A1_D2A2_D2A3_D2A5_D2A6_D2A7_D2A8_D2A9_D2AA),
  (0xBA59, 0xD2AB_D2AD),
  (0xBA61, 0xD2AE_D2AF_D2B0_D2B2_D2B3_D2B4_D2B5_D2B6_D2B7_D2BA_D2BB_D2BD),
  (0xBA6D, 0xD2BE_D2C1_D2C3_D2C4_D2C5_D2C6_D2C7_D2CA_D2CC_D2CD_D2CE_D2CF),
  (0xBA79, 0xD2D0_D2D1),
  (0xBA81, 0xD2D2_D2D3_D2D5_D2D6_D2D7_D2D9_D2DA_D2DB_D2DD_D2DE_D2DF_D2E0),
  (0xBA8D, 0xD2E1_D2E2_D2E3_D2E6_D2E7_D2E8_D2E9_D2EA_D2EB_D2EC_D2ED_D2EE),
  (0xBA99, 0xD2EF_D2F2_D2F3_D2F5_D2F6_D2F7_D2F9_D2FA_BC99_BC9A_BCA0_BCA1),
  (0xBAA5, 0xBCA4_BCA7_BCA8_BCB0_BCB1_BCB3_BCB4_BCB5_BCBC_BCBD_BCC0_BCC4),
  (0xBAB1, 0xBCCD_BCCF_BCD0_BCD1_BCD5_BCD8_BCDC_BCF4_BCF5_BCF6_BCF8_BCFC),
  (0xBABD, 0xBD04_BD05_BD07_BD09_BD10_BD14_BD24_BD2C_BD40_BD48_BD49_BD4C),
  (0xBAC9, 0xBD50_BD58_BD59_BD64_BD68_BD80_BD81_BD84_BD87_BD88_BD89_BD8A),
  (0xBAD5, 0xBD90_BD91_BD93_BD95_BD99_BD9A_BD9C_BDA4_BDB0_BDB8_BDD4_BDD5),
  (0xBAE1, 0xBDD8_BDDC_BDE9_BDF0_BDF4_BDF8_BE00_BE03_BE05_BE0C_BE0D_BE10),
  (0xBAED, 0xBE14_BE1C_BE1D_BE1F_BE44_BE45_BE48_BE4C_BE4E_BE54_BE55_BE57),
  (0xBAF9, 0xBE59_BE5A_BE5B_BE60_BE61_BE64),
  (0xBB41, 0xD2FB_D2FC_D2FD_D2FE_D2FF_D302_D304_D306_D307_D308_D309_D30A),
  (0xBB4D, 0xD30B_D30F_D311_D312_D313_D315_D317_D318_D319_D31A_D31B_D31E),
  (0xBB59, 0xD322_D323),
  (0xBB61, 0xD324_D326_D327_D32A_D32B_D32D_D32E_D32F_D331_D332_D333_D334),
  (0xBB6D, 0xD335_D336_D337_D33A_D33E_D33F_D340_D341_D342_D343_D346_D347),
  (0xBB79, 0xD348_D349),
  (0xBB81, 0xD34A_D34B_D34C_D34D_D34E_D34F_D350_D351_D352_D353_D354_D355),
  (0xBB8D, 0xD356_D357_D358_D359_D35A_D35B_D35C_D35D_D35E_D35F_D360_D361),
  (0xBB99, 0xD362_D363_D364_D365_D366_D367_D368_D369_BE68_BE6A_BE70_BE71),
  (0xBBA5, 0xBE73_BE74_BE75_BE7B_BE7C_BE7D_BE80_BE84_BE8C_BE8D_BE8F_BE90),
  (0xBBB1, 0xBE91_BE98_BE99_BEA8_BED0_BED1_BED4_BED7_BED8_BEE0_BEE3_BEE4),
  (0xBBBD, 0xBEE5_BEEC_BF01_BF08_BF09_BF18_BF19_BF1B_BF1C_BF1D_BF40_BF41),
  (0xBBC9, 0xBF44_BF48_BF50_BF51_BF55_BF94_BFB0_BFC5_BFCC_BFCD_BFD0_BFD4),
  (0xBBD5, 0xBFDC_BFDF_BFE1_C03C_C051_C058_C05C_C060_C068_C069_C090_C091),
  (0xBBE1, 0xC094_C098_C0A0_C0A1_C0A3_C0A5_C0AC_C0AD_C0AF_C0B0_C0B3_C0B4),
  (0xBBED, 0xC0B5_C0B6_C0BC_C0BD_C0BF_C0C0_C0C1_C0C5_C0C8_C0C9_C0CC_C0D0),
  (0xBBF9, 0xC0D8_C0D9_C0DB_C0DC_C0DD_C0E4),
  (0xBC41, 0xD36A_D36B_D36C_D36D_D36E_D36F_D370_D371_D372_D373_D374_D375),
  (0xBC4D, 0xD376_D377_D378_D379_D37A_D37B_D37E_D37F_D381_D382_D383_D385),
  (0xBC59, 0xD386_D387),
  (0xBC61, 0xD388_D389_D38A_D38B_D38E_D392_D393_D394_D395_D396_D397_D39A),
  (0xBC6D, 0xD39B_D39D_D39E_D39F_D3A1_D3A2_D3A3_D3A4_D3A5_D3A6_D3A7_D3AA),
  (0xBC79, 0xD3AC_D3AE),
  (0xBC81, 0xD3AF_D3B0_D3B1_D3B2_D3B3_D3B5_D3B6_D3B7_D3B9_D3BA_D3BB_D3BD),
  (0xBC8D, 0xD3BE_D3BF_D3C0_D3C1_D3C2_D3C3_D3C6_D3C7_D3CA_D3CB_D3CC_D3CD),
  (0xBC99, 0xD3CE_D3CF_D3D1_D3D2_D3D3_D3D4_D3D5_D3D6_C0E5_C0E8_C0EC_C0F4),
  (0xBCA5, 0xC0F5_C0F7_C0F9_C100_C104_C108_C110_C115_C11C_C11D_C11E_C11F),
  (0xBCB1, 0xC120_C123_C124_C126_C127_C12C_C12D_C12F_C130_C131_C136_C138),
  (0xBCBD, 0xC139_C13C_C140_C148_C149_C14B_C14C_C14D_C154_C155_C158_C15C),
  (0xBCC9, 0xC164_C165_C167_C168_C169_C170_C174_C178_C185_C18C_C18D_C18E),
  (0xBCD5, 0xC190_C194_C196_C19C_C19D_C19F_C1A1_C1A5_C1A8_C1A9_C1AC_C1B0),
  (0xBCE1, 0xC1BD_C1C4_C1C8_C1CC_C1D4_C1D7_C1D8_C1E0_C1E4_C1E8_C1F0_C1F1),
  (0xBCED, 0xC1F3_C1FC_C1FD_C200_C204_C20C_C20D_C20F_C211_C218_C219_C21C),
  (0xBCF9, 0xC21F_C220_C228_C229_C22B_C22D),
  (0xBD41, 0xD3D7_D3D9_D3DA_D3DB_D3DC_D3DD_D3DE_D3DF_D3E0_D3E2_D3E4_D3E5),
  (0xBD4D, 0xD3E6_D3E7_D3E8_D3E9_D3EA_D3EB_D3EE_D3EF_D3F1_D3F2_D3F3_D3F5),
  (0xBD59, 0xD3F6_D3F7),
  (0xBD61, 0xD3F8_D3F9_D3FA_D3FB_D3FE_D400_D402_D403_D404_D405_D406_D407),
  (0xBD6D, 0xD409_D40A_D40B_D40C_D40D_D40E_D40F_D410_D411_D412_D413_D414),
  (0xBD79, 0xD415_D416),
  (0xBD81, 0xD417_D418_D419_D41A_D41B_D41C_D41E_D41F_D420_D421_D422_D423),
  (0xBD8D, 0xD424_D425_D426_D427_D428_D429_D42A_D42B_D42C_D42D_D42E_D42F),
  (0xBD99, 0xD430_D431_D432_D433_D434_D435_D436_D437_C22F_C231_C232_C234),
  (0xBDA5, 0xC248_C250_C251_C254_C258_C260_C265_C26C_C26D_C270_C274_C27C),
  (0xBDB1, 0xC27D_C27F_C281_C288_C289_C290_C298_C29B_C29D_C2A4_C2A5_C2A8),
  (0xBDBD, 0xC2AC_C2AD_C2B4_C2B5_C2B7_C2B9_C2DC_C2DD_C2E0_C2E3_C2E4_C2EB),
  (0xBDC9, 0xC2EC_C2ED_C2EF_C2F1_C2F6_C2F8_C2F9_C2FB_C2FC_C300_C308_C309),
  (0xBDD5, 0xC30C_C30D_C313_C314_C315_C318_C31C_C324_C325_C328_C329_C345),
  (0xBDE1, 0xC368_C369_C36C_C370_C372_C378_C379_C37C_C37D_C384_C388_C38C),
  (0xBDED, 0xC3C0_C3D8_C3D9_C3DC_C3DF_C3E0_C3E2_C3E8_C3E9_C3ED_C3F4_C3F5),
  (0xBDF9, 0xC3F8_C408_C410_C424_C42C_C430),
  (0xBE41, 0xD438_D439_D43A_D43B_D43C_D43D_D43E_D43F_D441_D442_D443_D445),
  (0xBE4D, 0xD446_D447_D448_D449_D44A_D44B_D44C_D44D_D44E_D44F_D450_D451),
  (0xBE59, 0xD452_D453),
  (0xBE61, 0xD454_D455_D456_D457_D458_D459_D45A_D45B_D45D_D45E_D45F_D461),
  (0xBE6D, 0xD462_D463_D465_D466_D467_D468_D469_D46A_D46B_D46C_D46E_D470),
  (0xBE79, 0xD471_D472),
  (0xBE81, 0xD473_D474_D475_D476_D477_D47A_D47B_D47D_D47E_D481_D483_D484),
  (0xBE8D, 0xD485_D486_D487_D48A_D48C_D48E_D48F_D490_D491_D492_D493_D495),
  (0xBE99, 0xD496_D497_D498_D499_D49A_D49B_D49C_D49D_C434_C43C_C43D_C448),
  (0xBEA5, 0xC464_C465_C468_C46C_C474_C475_C479_C480_C494_C49C_C4B8_C4BC),
  (0xBEB1, 0xC4E9_C4F0_C4F1_C4F4_C4F8_C4FA_C4FF_C500_C501_C50C_C510_C514),
  (0xBEBD, 0xC51C_C528_C529_C52C_C530_C538_C539_C53B_C53D_C544_C545_C548),
  (0xBEC9, 0xC549_C54A_C54C_C54D_C54E_C553_C554_C555_C557_C558_C559_C55D),
  (0xBED5, 0xC55E_C560_C561_C564_C568_C570_C571_C573_C574_C575_C57C_C57D),
  (0xBEE1, 0xC580_C584_C587_C58C_C58D_C58F_C591_C595_C597_C598_C59C_C5A0),
  (0xBEED, 0xC5A9_C5B4_C5B5_C5B8_C5B9_C5BB_C5BC_C5BD_C5BE_C5C4_C5C5_C5C6),
  (0xBEF9, 0xC5C7_C5C8_C5C9_C5CA_C5CC_C5CE),
  (0xBF41, 0xD49E_D49F_D4A0_D4A1_D4A2_D4A3_D4A4_D4A5_D4A6_D4A7_D4A8_D4AA),
  (0xBF4D, 0xD4AB_D4AC_D4AD_D4AE_D4AF_D4B0_D4B1_D4B2_D4B3_D4B4_D4B5_D4B6),
  (0xBF59, 0xD4B7_D4B8),
  (0xBF61, 0xD4B9_D4BA_D4BB_D4BC_D4BD_D4BE_D4BF_D4C0_D4C1_D4C2_D4C3_D4C4),
  (0xBF6D, 0xD4C5_D4C6_D4C7_D4C8_D4C9_D4CA_D4CB_D4CD_D4CE_D4CF_D4D1_D4D2),
  (0xBF79, 0xD4D3_D4D5),
  (0xBF81, 0xD4D6_D4D7_D4D8_D4D9_D4DA_D4DB_D4DD_D4DE_D4E0_D4E1_D4E2_D4E3),
  (0xBF8D, 0xD4E4_D4E5_D4E6_D4E7_D4E9_D4EA_D4EB_D4ED_D4EE_D4EF_D4F1_D4F2),
  (0xBF99, 0xD4F3_D4F4_D4F5_D4F6_D4F7_D4F9_D4FA_D4FC_C5D0_C5D1_C5D4_C5D8),
  (0xBFA5, 0xC5E0_C5E1_C5E3_C5E5_C5EC_C5ED_C5EE_C5F0_C5F4_C5F6_C5F7_C5FC),
  (0xBFB1, 0xC5FD_C5FE_C5FF_C600_C601_C605_C606_C607_C608_C60C_C610_C618),
  (0xBFBD, 0xC619_C61B_C61C_C624_C625_C628_C62C_C62D_C62E_C630_C633_C634),
  (0xBFC9, 0xC635_C637_C639_C63B_C640_C641_C644_C648_C650_C651_C653_C654),
  (0xBFD5, 0xC655_C65C_C65D_C660_C66C_C66F_C671_C678_C679_C67C_C680_C688),
  (0xBFE1, 0xC689_C68B_C68D_C694_C695_C698_C69C_C6A4_C6A5_C6A7_C6A9_C6B0),
  (0xBFED, 0xC6B1_C6B4_C6B8_C6B9_C6BA_C6C0_C6C1_C6C3_C6C5_C6CC_C6CD_C6D0),
  (0xBFF9, 0xC6D4_C6DC_C6DD_C6E0_C6E1_C6E8),
  (0xC041, 0xD4FE_D4FF_D500_D501_D502_D503_D505_D506_D507_D509_D50A_D50B),
  (0xC04D, 0xD50D_D50E_D50F_D510_D511_D512_D513_D516_D518_D519_D51A_D51B),
  (0xC059, 0xD51C_D51D),
  (0xC061, 0xD51E_D51F_D520_D521_D522_D523_D524_D525_D526_D527_D528_D529),
  (0xC06D, 0xD52A_D52B_D52C_D52D_D52E_D52F_D530_D531_D532_D533_D534_D535),
  (0xC079, 0xD536_D537),
  (0xC081, 0xD538_D539_D53A_D53B_D53E_D53F_D541_D542_D543_D545_D546_D547),
  (0xC08D, 0xD548_D549_D54A_D54B_D54E_D550_D552_D553_D554_D555_D556_D557),
  (0xC099, 0xD55A_D55B_D55D_D55E_D55F_D561_D562_D563_C6E9_C6EC_C6F0_C6F8),
  (0xC0A5, 0xC6F9_C6FD_C704_C705_C708_C70C_C714_C715_C717_C719_C720_C721),
  (0xC0B1, 0xC724_C728_C730_C731_C733_C735_C737_C73C_C73D_C740_C744_C74A),
  (0xC0BD, 0xC74C_C74D_C74F_C751_C752_C753_C754_C755_C756_C757_C758_C75C),
  (0xC0C9, 0xC760_C768_C76B_C774_C775_C778_C77C_C77D_C77E_C783_C784_C785),
  (0xC0D5, 0xC787_C788_C789_C78A_C78E_C790_C791_C794_C796_C797_C798_C79A),
  (0xC0E1, 0xC7A0_C7A1_C7A3_C7A4_C7A5_C7A6_C7AC_C7AD_C7B0_C7B4_C7BC_C7BD),
  (0xC0ED, 0xC7BF_C7C0_C7C1_C7C8_C7C9_C7CC_C7CE_C7D0_C7D8_C7DD_C7E4_C7E8),
  (0xC0F9, 0xC7EC_C800_C801_C804_C808_C80A),
  (0xC141, 0xD564_D566_D567_D56A_D56C_D56E_D56F_D570_D571_D572_D573_D576),
  (0xC14D, 0xD577_D579_D57A_D57B_D57D_D57E_D57F_D580_D581_D582_D583_D586),
  (0xC159, 0xD58A_D58B),
  (0xC161, 0xD58C_D58D_D58E_D58F_D591_D592_D593_D594_D595_D596_D597_D598),
  (0xC16D, 0xD599_D59A_D59B_D59C_D59D_D59E_D59F_D5A0_D5A1_D5A2_D5A3_D5A4),
  (0xC179, 0xD5A6_D5A7),
  (0xC181, 0xD5A8_D5A9_D5AA_D5AB_D5AC_D5AD_D5AE_D5AF_D5B0_D5B1_D5B2_D5B3),
  (0xC18D, 0xD5B4_D5B5_D5B6_D5B7_D5B8_D5B9_D5BA_D5BB_D5BC_D5BD_D5BE_D5BF),
  (0xC199, 0xD5C0_D5C1_D5C2_D5C3_D5C4_D5C5_D5C6_D5C7_C810_C811_C813_C815),
  (0xC1A5, 0xC816_C81C_C81D_C820_C824_C82C_C82D_C82F_C831_C838_C83C_C840),
  (0xC1B1, 0xC848_C849_C84C_C84D_C854_C870_C871_C874_C878_C87A_C880_C881),
  (0xC1BD, 0xC883_C885_C886_C887_C88B_C88C_C88D_C894_C89D_C89F_C8A1_C8A8),
  (0xC1C9, 0xC8BC_C8BD_C8C4_C8C8_C8CC_C8D4_C8D5_C8D7_C8D9_C8E0_C8E1_C8E4),
  (0xC1D5, 0xC8F5_C8FC_C8FD_C900_C904_C905_C906_C90C_C90D_C90F_C911_C918),
  (0xC1E1, 0xC92C_C934_C950_C951_C954_C958_C960_C961_C963_C96C_C970_C974),
  (0xC1ED, 0xC97C_C988_C989_C98C_C990_C998_C999_C99B_C99D_C9C0_C9C1_C9C4),
  (0xC1F9, 0xC9C7_C9C8_C9CA_C9D0_C9D1_C9D3),
  (0xC241, 0xD5CA_D5CB_D5CD_D5CE_D5CF_D5D1_D5D3_D5D4_D5D5_D5D6_D5D7_D5DA),
  (0xC24D, 0xD5DC_D5DE_D5DF_D5E0_D5E1_D5E2_D5E3_D5E6_D5E7_D5E9_D5EA_D5EB),
  (0xC259, 0xD5ED_D5EE),
  (0xC261, 0xD5EF_D5F0_D5F1_D5F2_D5F3_D5F6_D5F8_D5FA_D5FB_D5FC_D5FD_D5FE),
  (0xC26D, 0xD5FF_D602_D603_D605_D606_D607_D609_D60A_D60B_D60C_D60D_D60E),
  (0xC279, 0xD60F_D612),
  (0xC281, 0xD616_D617_D618_D619_D61A_D61B_D61D_D61E_D61F_D621_D622_D623),
  (0xC28D, 0xD625_D626_D627_D628_D629_D62A_D62B_D62C_D62E_D62F_D630_D631),
  (0xC299, 0xD632_D633_D634_D635_D636_D637_D63A_D63B_C9D5_C9D6_C9D9_C9DA),
  (0xC2A5, 0xC9DC_C9DD_C9E0_C9E2_C9E4_C9E7_C9EC_C9ED_C9EF_C9F0_C9F1_C9F8),
  (0xC2B1, 0xC9F9_C9FC_CA00_CA08_CA09_CA0B_CA0C_CA0D_CA14_CA18_CA29_CA4C),
  (0xC2BD, 0xCA4D_CA50_CA54_CA5C_CA5D_CA5F_CA60_CA61_CA68_CA7D_CA84_CA98),
  (0xC2C9, 0xCABC_CABD_CAC0_CAC4_CACC_CACD_CACF_CAD1_CAD3_CAD8_CAD9_CAE0),
  (0xC2D5, 0xCAEC_CAF4_CB08_CB10_CB14_CB18_CB20_CB21_CB41_CB48_CB49_CB4C),
  (0xC2E1, 0xCB50_CB58_CB59_CB5D_CB64_CB78_CB79_CB9C_CBB8_CBD4_CBE4_CBE7),
  (0xC2ED, 0xCBE9_CC0C_CC0D_CC10_CC14_CC1C_CC1D_CC21_CC22_CC27_CC28_CC29),
  (0xC2F9, 0xCC2C_CC2E_CC30_CC38_CC39_CC3B),
  (0xC341, 0xD63D_D63E_D63F_D641_D642_D643_D644_D646_D647_D64A_D64C_D64E),
  (0xC34D, 0xD64F_D650_D652_D653_D656_D657_D659_D65A_D65B_D65D_D65E_D65F),
  (0xC359, 0xD660_D661),
  (0xC361, 0xD662_D663_D664_D665_D666_D668_D66A_D66B_D66C_D66D_D66E_D66F),
  (0xC36D, 0xD672_D673_D675_D676_D677_D678_D679_D67A_D67B_D67C_D67D_D67E),
  (0xC379, 0xD67F_D680),
  (0xC381, 0xD681_D682_D684_D686_D687_D688_D689_D68A_D68B_D68E_D68F_D691),
  (0xC38D, 0xD692_D693_D695_D696_D697_D698_D699_D69A_D69B_D69C_D69E_D6A0),
  (0xC399, 0xD6A2_D6A3_D6A4_D6A5_D6A6_D6A7_D6A9_D6AA_CC3C_CC3D_CC3E_CC44),
  (0xC3A5, 0xCC45_CC48_CC4C_CC54_CC55_CC57_CC58_CC59_CC60_CC64_CC66_CC68),
  (0xC3B1, 0xCC70_CC75_CC98_CC99_CC9C_CCA0_CCA8_CCA9_CCAB_CCAC_CCAD_CCB4),
  (0xC3BD, 0xCCB5_CCB8_CCBC_CCC4_CCC5_CCC7_CCC9_CCD0_CCD4_CCE4_CCEC_CCF0),
  (0xC3C9, 0xCD01_CD08_CD09_CD0C_CD10_CD18_CD19_CD1B_CD1D_CD24_CD28_CD2C),
  (0xC3D5, 0xCD39_CD5C_CD60_CD64_CD6C_CD6D_CD6F_CD71_CD78_CD88_CD94_CD95),
  (0xC3E1, 0xCD98_CD9C_CDA4_CDA5_CDA7_CDA9_CDB0_CDC4_CDCC_CDD0_CDE8_CDEC),
  (0xC3ED, 0xCDF0_CDF8_CDF9_CDFB_CDFD_CE04_CE08_CE0C_CE14_CE19_CE20_CE21),
  (0xC3F9, 0xCE24_CE28_CE30_CE31_CE33_CE35),
  (0xC441, 0xD6AB_D6AD_D6AE_D6AF_D6B1_D6B2_D6B3_D6B4_D6B5_D6B6_D6B7_D6B8),
  (0xC44D, 0xD6BA_D6BC_D6BD_D6BE_D6BF_D6C0_D6C1_D6C2_D6C3_D6C6_D6C7_D6C9),
  (0xC459, 0xD6CA_D6CB),
  (0xC461, 0xD6CD_D6CE_D6CF_D6D0_D6D2_D6D3_D6D5_D6D6_D6D8_D6DA_D6DB_D6DC),
  (0xC46D, 0xD6DD_D6DE_D6DF_D6E1_D6E2_D6E3_D6E5_D6E6_D6E7_D6E9_D6EA_D6EB),
  (0xC479, 0xD6EC_D6ED),
  (0xC481, 0xD6EE_D6EF_D6F1_D6F2_D6F3_D6F4_D6F6_D6F7_D6F8_D6F9_D6FA_D6FB),
  (0xC48D, 0xD6FE_D6FF_D701_D702_D703_D705_D706_D707_D708_D709_D70A_D70B),
  (0xC499, 0xD70C_D70D_D70E_D70F_D710_D712_D713_D714_CE58_CE59_CE5C_CE5F),
  (0xC4A5, 0xCE60_CE61_CE68_CE69_CE6B_CE6D_CE74_CE75_CE78_CE7C_CE84_CE85),
  (0xC4B1, 0xCE87_CE89_CE90_CE91_CE94_CE98_CEA0_CEA1_CEA3_CEA4_CEA5_CEAC),
  (0xC4BD, 0xCEAD_CEC1_CEE4_CEE5_CEE8_CEEB_CEEC_CEF4_CEF5_CEF7_CEF8_CEF9),
  (0xC4C9, 0xCF00_CF01_CF04_CF08_CF10_CF11_CF13_CF15_CF1C_CF20_CF24_CF2C),
  (0xC4D5, 0xCF2D_CF2F_CF30_CF31_CF38_CF54_CF55_CF58_CF5C_CF64_CF65_CF67),
  (0xC4E1, 0xCF69_CF70_CF71_CF74_CF78_CF80_CF85_CF8C_CFA1_CFA8_CFB0_CFC4),
  (0xC4ED, 0xCFE0_CFE1_CFE4_CFE8_CFF0_CFF1_CFF3_CFF5_CFFC_D000_D004_D011),
  (0xC4F9, 0xD018_D02D_D034_D035_D038_D03C),
  (0xC541, 0xD715_D716_D717_D71A_D71B_D71D_D71E_D71F_D721_D722_D723_D724),
  (0xC54D, 0xD725_D726_D727_D72A_D72C_D72E_D72F_D730_D731_D732_D733_D736),
  (0xC559, 0xD737_D739),
  (0xC561, 0xD73A_D73B_D73D_D73E_D73F_D740_D741_D742_D743_D745_D746_D748),
  (0xC56D, 0xD74A_D74B_D74C_D74D_D74E_D74F_D752_D753_D755_D75A_D75B_D75C),
  (0xC579, 0xD75D_D75E),
  (0xC581, 0xD75F_D762_D764_D766_D767_D768_D76A_D76B_D76D_D76E_D76F_D771),
  (0xC58D, 0xD772_D773_D775_D776_D777_D778_D779_D77A_D77B_D77E_D77F_D780),
  (0xC599, 0xD782_D783_D784_D785_D786_D787_D78A_D78B_D044_D045_D047_D049),
  (0xC5A5, 0xD050_D054_D058_D060_D06C_D06D_D070_D074_D07C_D07D_D081_D0A4),
  (0xC5B1, 0xD0A5_D0A8_D0AC_D0B4_D0B5_D0B7_D0B9_D0C0_D0C1_D0C4_D0C8_D0C9),
  (0xC5BD, 0xD0D0_D0D1_D0D3_D0D4_D0D5_D0DC_D0DD_D0E0_D0E4_D0EC_D0ED_D0EF),
  (0xC5C9, 0xD0F0_D0F1_D0F8_D10D_D130_D131_D134_D138_D13A_D140_D141_D143),
  (0xC5D5, 0xD144_D145_D14C_D14D_D150_D154_D15C_D15D_D15F_D161_D168_D16C),
  (0xC5E1, 0xD17C_D184_D188_D1A0_D1A1_D1A4_D1A8_D1B0_D1B1_D1B3_D1B5_D1BA),
  (0xC5ED, 0xD1BC_D1C0_D1D8_D1F4_D1F8_D207_D209_D210_D22C_D22D_D230_D234),
  (0xC5F9, 0xD23C_D23D_D23F_D241_D248_D25C),
  (0xC641, 0xD78D_D78E_D78F_D791_D792_D793_D794_D795_D796_D797_D79A_D79C),
  (0xC64D, 0xD79E_D79F_D7A0_D7A1_D7A2_D7A3),
  (0xC6A1, 0xD264_D280_D281_D284_D288_D290_D291_D295_D29C_D2A0_D2A4_D2AC),
  (0xC6AD, 0xD2B1_D2B8_D2B9_D2BC_D2BF_D2C0_D2C2_D2C8_D2C9_D2CB_D2D4_D2D8),
  (0xC6B9, 0xD2DC_D2E4_D2E5_D2F0_D2F1_D2F4_D2F8_D300_D301_D303_D305_D30C),
  (0xC6C5, 0xD30D_D30E_D310_D314_D316_D31C_D31D_D31F_D320_D321_D325_D328),
  (0xC6D1, 0xD329_D32C_D330_D338_D339_D33B_D33C_D33D_D344_D345_D37C_D37D),
  (0xC6DD, 0xD380_D384_D38C_D38D_D38F_D390_D391_D398_D399_D39C_D3A0_D3A8),
  (0xC6E9, 0xD3A9_D3AB_D3AD_D3B4_D3B8_D3BC_D3C4_D3C5_D3C8_D3C9_D3D0_D3D8),
  (0xC6F5, 0xD3E1_D3E3_D3EC_D3ED_D3F0_D3F4_D3FC_D3FD_D3FF_D401),
  (0xC7A1, 0xD408_D41D_D440_D444_D45C_D460_D464_D46D_D46F_D478_D479_D47C),
  (0xC7AD, 0xD47F_D480_D482_D488_D489_D48B_D48D_D494_D4A9_D4CC_D4D0_D4D4),
  (0xC7B9, 0xD4DC_D4DF_D4E8_D4EC_D4F0_D4F8_D4FB_D4FD_D504_D508_D50C_D514),
  (0xC7C5, 0xD515_D517_D53C_D53D_D540_D544_D54C_D54D_D54F_D551_D558_D559),
  (0xC7D1, 0xD55C_D560_D565_D568_D569_D56B_D56D_D574_D575_D578_D57C_D584),
  (0xC7DD, 0xD585_D587_D588_D589_D590_D5A5_D5C8_D5C9_D5CC_D5D0_D5D2_D5D8),
  (0xC7E9, 0xD5D9_D5DB_D5DD_D5E4_D5E5_D5E8_D5EC_D5F4_D5F5_D5F7_D5F9_D600),
  (0xC7F5, 0xD601_D604_D608_D610_D611_D613_D614_D615_D61C_D620),
  (0xC8A1, 0xD624_D62D_D638_D639_D63C_D640_D645_D648_D649_D64B_D64D_D651),
  (0xC8AD, 0xD654_D655_D658_D65C_D667_D669_D670_D671_D674_D683_D685_D68C),
  (0xC8B9, 0xD68D_D690_D694_D69D_D69F_D6A1_D6A8_D6AC_D6B0_D6B9_D6BB_D6C4),
  (0xC8C5, 0xD6C5_D6C8_D6CC_D6D1_D6D4_D6D7_D6D9_D6E0_D6E4_D6E8_D6F0_D6F5),
  (0xC8D1, 0xD6FC_D6FD_D700_D704_D711_D718_D719_D71C_D720_D728_D729_D72B),
  (0xC8DD, 0xD72D_D734_D735_D738_D73C_D744_D747_D749_D750_D751_D754_D756),
  (0xC8E9, 0xD757_D758_D759_D760_D761_D763_D765_D769_D76C_D770_D774_D77C),
  (0xC8F5, 0xD77D_D781_D788_D789_D78C_D790_D798_D799_D79B_D79D),
  (0xCAA1, 0x4F3D_4F73_5047_50F9_52A0_53EF_5475_54E5_5609_5AC1_5BB6_6687),
  (0xCAAD, 0x67B6_67B7_67EF_6B4C_73C2_75C2_7A3C_82DB_8304_8857_8888_8A36),
  (0xCAB9, 0x8CC8_8DCF_8EFB_8FE6_99D5_523B_5374_5404_606A_6164_6BBC_73CF),
  (0xCAC5, 0x811A_89BA_89D2_95A3_4F83_520A_58BE_5978_59E6_5E72_5E79_61C7),
  (0xCAD1, 0x63C0_6746_67EC_687F_6F97_764E_770B_78F5_7A08_7AFF_7C21_809D),
  (0xCADD, 0x826E_8271_8AEB_9593_4E6B_559D_66F7_6E34_78A3_7AED_845B_8910),
  (0xCAE9, 0x874E_97A8_52D8_574E_582A_5D4C_611F_61BE_6221_6562_67D1_6A44),
  (0xCAF5, 0x6E1B_7518_75B3_76E3_77B0_7D3A_90AF_9451_9452_9F95),
  (0xCBA1, 0x5323_5CAC_7532_80DB_9240_9598_525B_5808_59DC_5CA1_5D17_5EB7),
  (0xCBAD, 0x5F3A_5F4A_6177_6C5F_757A_7586_7CE0_7D73_7DB1_7F8C_8154_8221),
  (0xCBB9, 0x8591_8941_8B1B_92FC_964D_9C47_4ECB_4EF7_500B_51F1_584F_6137),
  (0xCBC5, 0x613E_6168_6539_69EA_6F11_75A5_7686_76D6_7B87_82A5_84CB_F900),
  (0xCBD1, 0x93A7_958B_5580_5BA2_5751_F901_7CB3_7FB9_91B5_5028_53BB_5C45),
  (0xCBDD, 0x5DE8_62D2_636E_64DA_64E7_6E20_70AC_795B_8DDD_8E1E_F902_907D),
  (0xCBE9, 0x9245_92F8_4E7E_4EF6_5065_5DFE_5EFA_6106_6957_8171_8654_8E47),
  (0xCBF5, 0x9375_9A2B_4E5E_5091_6770_6840_5109_528D_5292_6AA2),
  (0xCCA1, 0x77BC_9210_9ED4_52AB_602F_8FF2_5048_61A9_63ED_64CA_683C_6A84),
  (0xCCAD, 0x6FC0_8188_89A1_9694_5805_727D_72AC_7504_7D79_7E6D_80A9_898B),
  (0xCCB9, 0x8B74_9063_9D51_6289_6C7A_6F54_7D50_7F3A_8A23_517C_614A_7B9D),
  (0xCCC5, 0x8B19_9257_938C_4EAC_4FD3_501E_50BE_5106_52C1_52CD_537F_5770),
  (0xCCD1, 0x5883_5E9A_5F91_6176_61AC_64CE_656C_666F_66BB_66F4_6897_6D87),
  (0xCCDD, 0x7085_70F1_749F_74A5_74CA_75D9_786C_78EC_7ADF_7AF6_7D45_7D93),
  (0xCCE9, 0x8015_803F_811B_8396_8B66_8F15_9015_93E1_9803_9838_9A5A_9BE8),
  (0xCCF5, 0x4FC2_5553_583A_5951_5B63_5C46_60B8_6212_6842_68B0),
  (0xCDA1, 0x68E8_6EAA_754C_7678_78CE_7A3D_7CFB_7E6B_7E7C_8A08_8AA1_8C3F),
  (0xCDAD, 0x968E_9DC4_53E4_53E9_544A_5471_56FA_59D1_5B64_5C3B_5EAB_62F7),
  (0xCDB9, 0x6537_6545_6572_66A0_67AF_69C1_6CBD_75FC_7690_777E_7A3F_7F94),
  (0xCDC5, 0x8003_80A1_818F_82E6_82FD_83F0_85C1_8831_88B4_8AA5_F903_8F9C),
  (0xCDD1, 0x932E_96C7_9867_9AD8_9F13_54ED_659B_66F2_688F_7A40_8C37_9D60),
  (0xCDDD, 0x56F0_5764_5D11_6606_68B1_68CD_6EFE_7428_889E_9BE4_6C68_F904),
  (0xCDE9, 0x9AA8_4F9B_516C_5171_529F_5B54_5DE5_6050_606D_62F1_63A7_653B),
  (0xCDF5, 0x73D9_7A7A_86A3_8CA2_978F_4E32_5BE1_6208_679C_74DC),
  (0xCEA1, 0x79D1_83D3_8A87_8AB2_8DE8_904E_934B_9846_5ED3_69E8_85FF_90ED),
  (0xCEAD, 0xF905_51A0_5B98_5BEC_6163_68FA_6B3E_704C_742F_74D8_7BA1_7F50),
  (0xCEB9, 0x83C5_89C0_8CAB_95DC_9928_522E_605D_62EC_9002_4F8A_5149_5321),
  (0xCEC5, 0x58D9_5EE3_66E0_6D38_709A_72C2_73D6_7B50_80F1_945B_5366_639B),
  (0xCED1, 0x7F6B_4E56_5080_584A_58DE_602A_6127_62D0_69D0_9B41_5B8F_7D18),
  (0xCEDD, 0x80B1_8F5F_4EA4_50D1_54AC_55AC_5B0C_5DA0_5DE7_652A_654E_6821),
  (0xCEE9, 0x6A4B_72E1_768E_77EF_7D5E_7FF9_81A0_854E_86DF_8F03_8F4E_90CA),
  (0xCEF5, 0x9903_9A55_9BAB_4E18_4E45_4E5D_4EC7_4FF1_5177_52FE),
  (0xCFA1, 0x5340_53E3_53E5_548E_5614_5775_57A2_5BC7_5D87_5ED0_61FC_62D8),
  (0xCFAD, 0x6551_67B8_67E9_69CB_6B50_6BC6_6BEC_6C42_6E9D_7078_72D7_7396),
  (0xCFB9, 0x7403_77BF_77E9_7A76_7D7F_8009_81FC_8205_820A_82DF_8862_8B33),
  (0xCFC5, 0x8CFC_8EC0_9011_90B1_9264_92B6_99D2_9A45_9CE9_9DD7_9F9C_570B),
  (0xCFD1, 0x5C40_83CA_97A0_97AB_9EB4_541B_7A98_7FA4_88D9_8ECD_90E1_5800),
  (0xCFDD, 0x5C48_6398_7A9F_5BAE_5F13_7A79_7AAE_828E_8EAC_5026_5238_52F8),
  (0xCFE9, 0x5377_5708_62F3_6372_6B0A_6DC3_7737_53A5_7357_8568_8E76_95D5),
  (0xCFF5, 0x673A_6AC3_6F70_8A6D_8ECC_994B_F906_6677_6B78_8CB4),
  (0xD0A1, 0x9B3C_F907_53EB_572D_594E_63C6_69FB_73EA_7845_7ABA_7AC5_7CFE),
  (0xD0AD, 0x8475_898F_8D73_9035_95A8_52FB_5747_7547_7B60_83CC_921E_F908),
  (0xD0B9, 0x6A58_514B_524B_5287_621F_68D8_6975_9699_50C5_52A4_52E4_61C3),
  (0xD0C5, 0x65A4_6839_69FF_747E_7B4B_82B9_83EB_89B2_8B39_8FD1_9949_F909),
  (0xD0D1, 0x4ECA_5997_64D2_6611_6A8E_7434_7981_79BD_82A9_887E_887F_895F),
  (0xD0DD, 0xF90A_9326_4F0B_53CA_6025_6271_6C72_7D1A_7D66_4E98_5162_77DC),
  (0xD0E9, 0x80AF_4F01_4F0E_5176_5180_55DC_5668_573B_57FA_57FC_5914_5947),
  (0xD0F5, 0x5993_5BC4_5C90_5D0E_5DF1_5E7E_5FCC_6280_65D7_65E3),
  (0xD1A1, 0x671E_671F_675E_68CB_68C4_6A5F_6B3A_6C23_6C7D_6C82_6DC7_7398),
  (0xD1AD, 0x7426_742A_7482_74A3_7578_757F_7881_78EF_7941_7947_7948_797A),
  (0xD1B9, 0x7B95_7D00_7DBA_7F88_8006_802D_808C_8A18_8B4F_8C48_8D77_9321),
  (0xD1C5, 0x9324_98E2_9951_9A0E_9A0F_9A65_9E92_7DCA_4F76_5409_62EE_6854),
  (0xD1D1, 0x91D1_55AB_513A_F90B_F90C_5A1C_61E6_F90D_62CF_62FF_F90E_F90F),
  (0xD1DD, 0xF910_F911_F912_F913_90A3_F914_F915_F916_F917_F918_8AFE_F919),
  (0xD1E9, 0xF91A_F91B_F91C_6696_F91D_7156_F91E_F91F_96E3_F920_634F_637A),
  (0xD1F5, 0x5357_F921_678F_6960_6E73_F922_7537_F923_F924_F925),
  (0xD2A1, 0x7D0D_F926_F927_8872_56CA_5A18_F928_F929_F92A_F92B_F92C_4E43),
  (0xD2AD, 0xF92D_5167_5948_67F0_8010_F92E_5973_5E74_649A_79CA_5FF5_606C),
  (0xD2B9, 0x62C8_637B_5BE7_5BD7_52AA_F92F_5974_5F29_6012_F930_F931_F932),
  (0xD2C5, 0x7459_F933_F934_F935_F936_F937_F938_99D1_F939_F93A_F93B_F93C),
  (0xD2D1, 0xF93D_F93E_F93F_F940_F941_F942_F943_6FC3_F944_F945_81BF_8FB2),
  (0xD2DD, 0x60F1_F946_F947_8166_F948_F949_5C3F_F94A_F94B_F94C_F94D_F94E),
  (0xD2E9, 0xF94F_F950_F951_5AE9_8A25_677B_7D10_F952_F953_F954_F955_F956),
  (0xD2F5, 0xF957_80FD_F958_F959_5C3C_6CE5_533F_6EBA_591A_8336),
  (0xD3A1, 0x4E39_4EB6_4F46_55AE_5718_58C7_5F56_65B7_65E6_6A80_6BB5_6E4D),
  (0xD3AD, 0x77ED_7AEF_7C1E_7DDE_86CB_8892_9132_935B_64BB_6FBE_737A_75B8),
  (0xD3B9, 0x9054_5556_574D_61BA_64D4_66C7_6DE1_6E5B_6F6D_6FB9_75F0_8043),
  (0xD3C5, 0x81BD_8541_8983_8AC7_8B5A_931F_6C93_7553_7B54_8E0F_905D_5510),
  (0xD3D1, 0x5802_5858_5E62_6207_649E_68E0_7576_7CD6_87B3_9EE8_4EE3_5788),
  (0xD3DD, 0x576E_5927_5C0D_5CB1_5E36_5F85_6234_64E1_73B3_81FA_888B_8CB8),
  (0xD3E9, 0x968A_9EDB_5B85_5FB7_60B3_5012_5200_5230_5716_5835_5857_5C0E),
  (0xD3F5, 0x5C60_5CF6_5D8B_5EA6_5F92_60BC_6311_6389_6417_6843),
  (0xD4A1, 0x68F9_6AC2_6DD8_6E21_6ED4_6FE4_71FE_76DC_7779_79B1_7A3B_8404),
  (0xD4AD, 0x89A9_8CED_8DF3_8E48_9003_9014_9053_90FD_934D_9676_97DC_6BD2),
  (0xD4B9, 0x7006_7258_72A2_7368_7763_79BF_7BE4_7E9B_8B80_58A9_60C7_6566),
  (0xD4C5, 0x65FD_66BE_6C8C_711E_71C9_8C5A_9813_4E6D_7A81_4EDD_51AC_51CD),
  (0xD4D1, 0x52D5_540C_61A7_6771_6850_68DF_6D1E_6F7C_75BC_77B3_7AE5_80F4),
  (0xD4DD, 0x8463_9285_515C_6597_675C_6793_75D8_7AC7_8373_F95A_8C46_9017),
  (0xD4E9, 0x982D_5C6F_81C0_829A_9041_906F_920D_5F97_5D9D_6A59_71C8_767B),
  (0xD4F5, 0x7B49_85E4_8B04_9127_9A30_5587_61F6_F95B_7669_7F85),
  (0xD5A1, 0x863F_87BA_88F8_908F_F95C_6D1B_70D9_73DE_7D61_843D_F95D_916A),
  (0xD5AD, 0x99F1_F95E_4E82_5375_6B04_6B12_703E_721B_862D_9E1E_524C_8FA3),
  (0xD5B9, 0x5D50_64E5_652C_6B16_6FEB_7C43_7E9C_85CD_8964_89BD_62C9_81D8),
  (0xD5C5, 0x881F_5ECA_6717_6D6A_72FC_7405_746F_8782_90DE_4F86_5D0D_5FA0),
  (0xD5D1, 0x840A_51B7_63A0_7565_4EAE_5006_5169_51C9_6881_6A11_7CAE_7CB1),
  (0xD5DD, 0x7CE7_826F_8AD2_8F1B_91CF_4FB6_5137_52F5_5442_5EEC_616E_623E),
  (0xD5E9, 0x65C5_6ADA_6FFE_792A_85DC_8823_95AD_9A62_9A6A_9E97_9ECE_529B),
  (0xD5F5, 0x66C6_6B77_701D_792B_8F62_9742_6190_6200_6523_6F23),
  (0xD6A1, 0x7149_7489_7DF4_806F_84EE_8F26_9023_934A_51BD_5217_52A3_6D0C),
  (0xD6AD, 0x70C8_88C2_5EC9_6582_6BAE_6FC2_7C3E_7375_4EE4_4F36_56F9_F95F),
  (0xD6B9, 0x5CBA_5DBA_601C_73B2_7B2D_7F9A_7FCE_8046_901E_9234_96F6_9748),
  (0xD6C5, 0x9818_9F61_4F8B_6FA7_79AE_91B4_96B7_52DE_F960_6488_64C4_6AD3),
  (0xD6D1, 0x6F5E_7018_7210_76E7_8001_8606_865C_8DEF_8F05_9732_9B6F_9DFA),
  (0xD6DD, 0x9E75_788C_797F_7DA0_83C9_9304_9E7F_9E93_8AD6_58DF_5F04_6727),
  (0xD6E9, 0x7027_74CF_7C60_807E_5121_7028_7262_78CA_8CC2_8CDA_8CF4_96F7),
  (0xD6F5, 0x4E86_50DA_5BEE_5ED6_6599_71CE_7642_77AD_804A_84FC),
  (0xD7A1, 0x907C_9B27_9F8D_58D8_5A41_5C62_6A13_6DDA_6F0F_763B_7D2F_7E37),
  (0xD7AD, 0x851E_8938_93E4_964B_5289_65D2_67F3_69B4_6D41_6E9C_700F_7409),
  (0xD7B9, 0x7460_7559_7624_786B_8B2C_985E_516D_622E_9678_4F96_502B_5D19),
  (0xD7C5, 0x6DEA_7DB8_8F2A_5F8B_6144_6817_F961_9686_52D2_808B_51DC_51CC),
  (0xD7D1, 0x695E_7A1C_7DBE_83F1_9675_4FDA_5229_5398_540F_550E_5C65_60A7),
  (0xD7DD, 0x674E_68A8_6D6C_7281_72F8_7406_7483_F962_75E2_7C6C_7F79_7FB8),
  (0xD7E9, 0x8389_88CF_88E1_91CC_91D0_96E2_9BC9_541D_6F7E_71D0_7498_85FA),
  (0xD7F5, 0x8EAA_96A3_9C57_9E9F_6797_6DCB_7433_81E8_9716_782C),
  (0xD8A1, 0x7ACB_7B20_7C92_6469_746A_75F2_78BC_78E8_99AC_9B54_9EBB_5BDE),
  (0xD8AD, 0x5E55_6F20_819C_83AB_9088_4E07_534D_5A29_5DD2_5F4E_6162_633D),
  (0xD8B9, 0x6669_66FC_6EFF_6F2B_7063_779E_842C_8513_883B_8F13_9945_9C3B),
  (0xD8C5, 0x551C_62B9_672B_6CAB_8309_896A_977A_4EA1_5984_5FD8_5FD9_671B),
  (0xD8D1, 0x7DB2_7F54_8292_832B_83BD_8F1E_9099_57CB_59B9_5A92_5BD0_6627),
  (0xD8DD, 0x679A_6885_6BCF_7164_7F75_8CB7_8CE3_9081_9B45_8108_8C8A_964C),
  (0xD8E9, 0x9A40_9EA5_5B5F_6C13_731B_76F2_76DF_840C_51AA_8993_514D_5195),
  (0xD8F5, 0x52C9_68C9_6C94_7704_7720_7DBF_7DEC_9762_9EB5_6EC5),
  (0xD9A1, 0x8511_51A5_540D_547D_660E_669D_6927_6E9F_76BF_7791_8317_84C2),
  (0xD9AD, 0x879F_9169_9298_9CF4_8882_4FAE_5192_52DF_59C6_5E3D_6155_6478),
  (0xD9B9, 0x6479_66AE_67D0_6A21_6BCD_6BDB_725F_7261_7441_7738_77DB_8017),
  (0xD9C5, 0x82BC_8305_8B00_8B28_8C8C_6728_6C90_7267_76EE_7766_7A46_9DA9),
  (0xD9D1, 0x6B7F_6C92_5922_6726_8499_536F_5893_5999_5EDF_63CF_6634_6773),
  (0xD9DD, 0x6E3A_732B_7AD7_82D7_9328_52D9_5DEB_61AE_61CB_620A_62C7_64AB),
  (0xD9E9, 0x65E0_6959_6B66_6BCB_7121_73F7_755D_7E46_821E_8302_856A_8AA3),
  (0xD9F5, 0x8CBF_9727_9D61_58A8_9ED8_5011_520E_543B_554F_6587),
  (0xDAA1, 0x6C76_7D0A_7D0B_805E_868A_9580_96EF_52FF_6C95_7269_5473_5A9A),
  (0xDAAD, 0x5C3E_5D4B_5F4C_5FAE_672A_68B6_6963_6E3C_6E44_7709_7C73_7F8E),
  (0xDAB9, 0x8587_8B0E_8FF7_9761_9EF4_5CB7_60B6_610D_61AB_654F_65FB_65FC),
  (0xDAC5, 0x6C11_6CEF_739F_73C9_7DE1_9594_5BC6_871C_8B10_525D_535A_62CD),
  (0xDAD1, 0x640F_64B2_6734_6A38_6CCA_73C0_749E_7B94_7C95_7E1B_818A_8236),
  (0xDADD, 0x8584_8FEB_96F9_99C1_4F34_534A_53CD_53DB_62CC_642C_6500_6591),
  (0xDAE9, 0x69C3_6CEE_6F58_73ED_7554_7622_76E4_76FC_78D0_78FB_792C_7D46),
  (0xDAF5, 0x822C_87E0_8FD4_9812_98EF_52C3_62D4_64A5_6E24_6F51),
  (0xDBA1, 0x767C_8DCB_91B1_9262_9AEE_9B43_5023_508D_574A_59A8_5C28_5E47),
  (0xDBAD, 0x5F77_623F_653E_65B9_65C1_6609_678B_699C_6EC2_78C5_7D21_80AA),
  (0xDBB9, 0x8180_822B_82B3_84A1_868C_8A2A_8B17_90A6_9632_9F90_500D_4FF3),
  (0xDBC5, 0xF963_57F9_5F98_62DC_6392_676F_6E43_7119_76C3_80CC_80DA_88F4),
  (0xDBD1, 0x88F5_8919_8CE0_8F29_914D_966A_4F2F_4F70_5E1B_67CF_6822_767D),
  (0xDBDD, 0x767E_9B44_5E61_6A0A_7169_71D4_756A_F964_7E41_8543_85E9_98DC),
  (0xDBE9, 0x4F10_7B4F_7F70_95A5_51E1_5E06_68B5_6C3E_6C4E_6CDB_72AF_7BC4),
  (0xDBF5, 0x8303_6CD5_743A_50FB_5288_58C1_64D8_6A97_74A7_7656),
  (0xDCA1, 0x78A7_8617_95E2_9739_F965_535E_5F01_8B8A_8FA8_8FAF_908A_5225),
  (0xDCAD, 0x77A5_9C49_9F08_4E19_5002_5175_5C5B_5E77_661E_663A_67C4_68C5),
  (0xDCB9, 0x70B3_7501_75C5_79C9_7ADD_8F27_9920_9A08_4FDD_5821_5831_5BF6),
  (0xDCC5, 0x666E_6B65_6D11_6E7A_6F7D_73E4_752B_83E9_88DC_8913_8B5C_8F14),
  (0xDCD1, 0x4F0F_50D5_5310_535C_5B93_5FA9_670D_798F_8179_832F_8514_8907),
  (0xDCDD, 0x8986_8F39_8F3B_99A5_9C12_672C_4E76_4FF8_5949_5C01_5CEF_5CF0),
  (0xDCE9, 0x6367_68D2_70FD_71A2_742B_7E2B_84EC_8702_9022_92D2_9CF3_4E0D),
  (0xDCF5, 0x4ED8_4FEF_5085_5256_526F_5426_5490_57E0_592B_5A66),
  (0xDDA1, 0x5B5A_5B75_5BCC_5E9C_F966_6276_6577_65A7_6D6E_6EA5_7236_7B26),
  (0xDDAD, 0x7C3F_7F36_8150_8151_819A_8240_8299_83A9_8A03_8CA0_8CE6_8CFB),
  (0xDDB9, 0x8D74_8DBA_90E8_91DC_961C_9644_99D9_9CE7_5317_5206_5429_5674),
  (0xDDC5, 0x58B3_5954_596E_5FFF_61A4_626E_6610_6C7E_711A_76C6_7C89_7CDE),
  (0xDDD1, 0x7D1B_82AC_8CC1_96F0_F967_4F5B_5F17_5F7F_62C2_5D29_670B_68DA),
  (0xDDDD, 0x787C_7E43_9D6C_4E15_5099_5315_532A_5351_5983_5A62_5E87_60B2),
  (0xDDE9, 0x618A_6249_6279_6590_6787_69A7_6BD4_6BD6_6BD7_6BD8_6CB8_F968),
  (0xDDF5, 0x7435_75FA_7812_7891_79D5_79D8_7C83_7DCB_7FE1_80A5),
  (0xDEA1, 0x813E_81C2_83F2_871A_88E8_8AB9_8B6C_8CBB_9119_975E_98DB_9F3B),
  (0xDEAD, 0x56AC_5B2A_5F6C_658C_6AB3_6BAF_6D5C_6FF1_7015_725D_73AD_8CA7),
  (0xDEB9, 0x8CD3_983B_6191_6C37_8058_9A01_4E4D_4E8B_4E9B_4ED5_4F3A_4F3C),
  (0xDEC5, 0x4F7F_4FDF_50FF_53F2_53F8_5506_55E3_56DB_58EB_5962_5A11_5BEB),
  (0xDED1, 0x5BFA_5C04_5DF3_5E2B_5F99_601D_6368_659C_65AF_67F6_67FB_68AD),
  (0xDEDD, 0x6B7B_6C99_6CD7_6E23_7009_7345_7802_793E_7940_7960_79C1_7BE9),
  (0xDEE9, 0x7D17_7D72_8086_820D_838E_84D1_86C7_88DF_8A50_8A5E_8B1D_8CDC),
  (0xDEF5, 0x8D66_8FAD_90AA_98FC_99DF_9E9D_524A_F969_6714_F96A),
  (0xDFA1, 0x5098_522A_5C71_6563_6C55_73CA_7523_759D_7B97_849C_9178_9730),
  (0xDFAD, 0x4E77_6492_6BBA_715E_85A9_4E09_F96B_6749_68EE_6E17_829F_8518),
  (0xDFB9, 0x886B_63F7_6F81_9212_98AF_4E0A_50B7_50CF_511F_5546_55AA_5617),
  (0xDFC5, 0x5B40_5C19_5CE0_5E38_5E8A_5EA0_5EC2_60F3_6851_6A61_6E58_723D),
  (0xDFD1, 0x7240_72C0_76F8_7965_7BB1_7FD4_88F3_89F4_8A73_8C61_8CDE_971C),
  (0xDFDD, 0x585E_74BD_8CFD_55C7_F96C_7A61_7D22_8272_7272_751F_7525_F96D),
  (0xDFE9, 0x7B19_5885_58FB_5DBC_5E8F_5EB6_5F90_6055_6292_637F_654D_6691),
  (0xDFF5, 0x66D9_66F8_6816_68F2_7280_745E_7B6E_7D6E_7DD6_7F72),
  (0xE0A1, 0x80E5_8212_85AF_897F_8A93_901D_92E4_9ECD_9F20_5915_596D_5E2D),
  (0xE0AD, 0x60DC_6614_6673_6790_6C50_6DC5_6F5F_77F3_78A9_84C6_91CB_932B),
  (0xE0B9, 0x4ED9_50CA_5148_5584_5B0B_5BA3_6247_657E_65CB_6E32_717D_7401),
  (0xE0C5, 0x7444_7487_74BF_766C_79AA_7DDA_7E55_7FA8_817A_81B3_8239_861A),
  (0xE0D1, 0x87EC_8A75_8DE3_9078_9291_9425_994D_9BAE_5368_5C51_6954_6CC4),
  (0xE0DD, 0x6D29_6E2B_820C_859B_893B_8A2D_8AAA_96EA_9F67_5261_66B9_6BB2),
  (0xE0E9, 0x7E96_87FE_8D0D_9583_965D_651D_6D89_71EE_F96E_57CE_59D3_5BAC),
  (0xE0F5, 0x6027_60FA_6210_661F_665F_7329_73F9_76DB_7701_7B6C),
  (0xE1A1, 0x8056_8072_8165_8AA0_9192_4E16_52E2_6B72_6D17_7A05_7B39_7D30),
  (0xE1AD, 0xF96F_8CB0_53EC_562F_5851_5BB5_5C0F_5C11_5DE2_6240_6383_6414),
  (0xE1B9, 0x662D_68B3_6CBC_6D88_6EAF_701F_70A4_71D2_7526_758F_758E_7619),
  (0xE1C5, 0x7B11_7BE0_7C2B_7D20_7D39_852C_856D_8607_8A34_900D_9061_90B5),
  (0xE1D1, 0x92B7_97F6_9A37_4FD7_5C6C_675F_6D91_7C9F_7E8C_8B16_8D16_901F),
  (0xE1DD, 0x5B6B_5DFD_640D_84C0_905C_98E1_7387_5B8B_609A_677E_6DDE_8A1F),
  (0xE1E9, 0x8AA6_9001_980C_5237_F970_7051_788E_9396_8870_91D7_4FEE_53D7),
  (0xE1F5, 0x55FD_56DA_5782_58FD_5AC2_5B88_5CAB_5CC0_5E25_6101),
  (0xE2A1, 0x620D_624B_6388_641C_6536_6578_6A39_6B8A_6C34_6D19_6F31_71E7),
  (0xE2AD, 0x72E9_7378_7407_74B2_7626_7761_79C0_7A57_7AEA_7CB9_7D8F_7DAC),
  (0xE2B9, 0x7E61_7F9E_8129_8331_8490_84DA_85EA_8896_8AB0_8B90_8F38_9042),
  (0xE2C5, 0x9083_916C_9296_92B9_968B_96A7_96A8_96D6_9700_9808_9996_9AD3),
  (0xE2D1, 0x9B1A_53D4_587E_5919_5B70_5BBF_6DD1_6F5A_719F_7421_74B9_8085),
  (0xE2DD, 0x83FD_5DE1_5F87_5FAA_6042_65EC_6812_696F_6A53_6B89_6D35_6DF3),
  (0xE2E9, 0x73E3_76FE_77AC_7B4D_7D14_8123_821C_8340_84F4_8563_8A62_8AC4),
  (0xE2F5, 0x9187_931E_9806_99B4_620C_8853_8FF0_9265_5D07_5D27),
  (0xE3A1, 0x5D69_745F_819D_8768_6FD5_62FE_7FD2_8936_8972_4E1E_4E58_50E7),
  (0xE3AD, 0x52DD_5347_627F_6607_7E69_8805_965E_4F8D_5319_5636_59CB_5AA4),
  (0xE3B9, 0x5C38_5C4E_5C4D_5E02_5F11_6043_65BD_662F_6642_67BE_67F4_731C),
  (0xE3C5, 0x77E2_793A_7FC5_8494_84CD_8996_8A66_8A69_8AE1_8C55_8C7A_57F4),
  (0xE3D1, 0x5BD4_5F0F_606F_62ED_690D_6B96_6E5C_7184_7BD2_8755_8B58_8EFE),
  (0xE3DD, 0x98DF_98FE_4F38_4F81_4FE1_547B_5A20_5BB8_613C_65B0_6668_71FC),
  (0xE3E9, 0x7533_795E_7D33_814E_81E3_8398_85AA_85CE_8703_8A0A_8EAB_8F9B),
  (0xE3F5, 0xF971_8FC5_5931_5BA4_5BE6_6089_5BE9_5C0B_5FC3_6C81),
  (0xE4A1, 0xF972_6DF1_700B_751A_82AF_8AF6_4EC0_5341_F973_96D9_6C0F_4E9E),
  (0xE4AD, 0x4FC4_5152_555E_5A25_5CE8_6211_7259_82BD_83AA_86FE_8859_8A1D),
  (0xE4B9, 0x963F_96C5_9913_9D09_9D5D_580A_5CB3_5DBD_5E44_60E1_6115_63E1),
  (0xE4C5, 0x6A02_6E25_9102_9354_984E_9C10_9F77_5B89_5CB8_6309_664F_6848),
  (0xE4D1, 0x773C_96C1_978D_9854_9B9F_65A1_8B01_8ECB_95BC_5535_5CA9_5DD6),
  (0xE4DD, 0x5EB5_6697_764C_83F4_95C7_58D3_62BC_72CE_9D28_4EF0_592E_600F),
  (0xE4E9, 0x663B_6B83_79E7_9D26_5393_54C0_57C3_5D16_611B_66D6_6DAF_788D),
  (0xE4F5, 0x827E_9698_9744_5384_627C_6396_6DB2_7E0A_814B_984D),
  (0xE5A1, 0x6AFB_7F4C_9DAF_9E1A_4E5F_503B_51B6_591C_60F9_63F6_6930_723A),
  (0xE5AD, 0x8036_F974_91CE_5F31_F975_F976_7D04_82E5_846F_84BB_85E5_8E8D),
  (0xE5B9, 0xF977_4F6F_F978_F979_58E4_5B43_6059_63DA_6518_656D_6698_F97A),
  (0xE5C5, 0x694A_6A23_6D0B_7001_716C_75D2_760D_79B3_7A70_F97B_7F8A_F97C),
  (0xE5D1, 0x8944_F97D_8B93_91C0_967D_F97E_990A_5704_5FA1_65BC_6F01_7600),
  (0xE5DD, 0x79A6_8A9E_99AD_9B5A_9F6C_5104_61B6_6291_6A8D_81C6_5043_5830),
  (0xE5E9, 0x5F66_7109_8A00_8AFA_5B7C_8616_4FFA_513C_56B4_5944_63A9_6DF9),
  (0xE5F5, 0x5DAA_696D_5186_4E88_4F59_F97F_F980_F981_5982_F982),
  (0xE6A1, 0xF983_6B5F_6C5D_F984_74B5_7916_F985_8207_8245_8339_8F3F_8F5D),
  (0xE6AD, 0xF986_9918_F987_F988_F989_4EA6_F98A_57DF_5F79_6613_F98B_F98C),
  (0xE6B9, 0x75AB_7E79_8B6F_F98D_9006_9A5B_56A5_5827_59F8_5A1F_5BB4_F98E),
  (0xE6C5, 0x5EF6_F98F_F990_6350_633B_F991_693D_6C87_6CBF_6D8E_6D93_6DF5),
  (0xE6D1, 0x6F14_F992_70DF_7136_7159_F993_71C3_71D5_F994_784F_786F_F995),
  (0xE6DD, 0x7B75_7DE3_F996_7E2F_F997_884D_8EDF_F998_F999_F99A_925B_F99B),
  (0xE6E9, 0x9CF6_F99C_F99D_F99E_6085_6D85_F99F_71B1_F9A0_F9A1_95B1_53AD),
  (0xE6F5, 0xF9A2_F9A3_F9A4_67D3_F9A5_708E_7130_7430_8276_82D2),
  (0xE7A1, 0xF9A6_95BB_9AE5_9E7D_66C4_F9A7_71C1_8449_F9A8_F9A9_584B_F9AA),
  (0xE7AD, 0xF9AB_5DB8_5F71_F9AC_6620_668E_6979_69AE_6C38_6CF3_6E36_6F41),
  (0xE7B9, 0x6FDA_701B_702F_7150_71DF_7370_F9AD_745B_F9AE_74D4_76C8_7A4E),
  (0xE7C5, 0x7E93_F9AF_F9B0_82F1_8A60_8FCE_F9B1_9348_F9B2_9719_F9B3_F9B4),
  (0xE7D1, 0x4E42_502A_F9B5_5208_53E1_66F3_6C6D_6FCA_730A_777F_7A62_82AE),
  (0xE7DD, 0x85DD_8602_F9B6_88D4_8A63_8B7D_8C6B_F9B7_92B3_F9B8_9713_9810),
  (0xE7E9, 0x4E94_4F0D_4FC9_50B2_5348_543E_5433_55DA_5862_58BA_5967_5A1B),
  (0xE7F5, 0x5BE4_609F_F9B9_61CA_6556_65FF_6664_68A7_6C5A_6FB3),
  (0xE8A1, 0x70CF_71AC_7352_7B7D_8708_8AA4_9C32_9F07_5C4B_6C83_7344_7389),
  (0xE8AD, 0x923A_6EAB_7465_761F_7A69_7E15_860A_5140_58C5_64C1_74EE_7515),
  (0xE8B9, 0x7670_7FC1_9095_96CD_9954_6E26_74E6_7AA9_7AAA_81E5_86D9_8778),
  (0xE8C5, 0x8A1B_5A49_5B8C_5B9B_68A1_6900_6D63_73A9_7413_742C_7897_7DE9),
  (0xE8D1, 0x7FEB_8118_8155_839E_8C4C_962E_9811_66F0_5F80_65FA_6789_6C6A),
  (0xE8DD, 0x738B_502D_5A03_6B6A_77EE_5916_5D6C_5DCD_7325_754F_F9BA_F9BB),
  (0xE8E9, 0x50E5_51F9_582F_592D_5996_59DA_5BE5_F9BC_F9BD_5DA2_62D7_6416),
  (0xE8F5, 0x6493_64FE_F9BE_66DC_F9BF_6A48_F9C0_71FF_7464_F9C1),
  (0xE9A1, 0x7A88_7AAF_7E47_7E5E_8000_8170_F9C2_87EF_8981_8B20_9059_F9C3),
  (0xE9AD, 0x9080_9952_617E_6B32_6D74_7E1F_8925_8FB1_4FD1_50AD_5197_52C7),
  (0xE9B9, 0x57C7_5889_5BB9_5EB8_6142_6995_6D8C_6E67_6EB6_7194_7462_7528),
  (0xE9C5, 0x752C_8073_8338_84C9_8E0A_9394_93DE_F9C4_4E8E_4F51_5076_512A),
  (0xE9D1, 0x53C8_53CB_53F3_5B87_5BD3_5C24_611A_6182_65F4_725B_7397_7440),
  (0xE9DD, 0x76C2_7950_7991_79B9_7D06_7FBD_828B_85D5_865E_8FC2_9047_90F5),
  (0xE9E9, 0x91EA_9685_96E8_96E9_52D6_5F67_65ED_6631_682F_715C_7A36_90C1),
  (0xE9F5, 0x980A_4E91_F9C5_6A52_6B9E_6F90_7189_8018_82B8_8553),
  (0xEAA1, 0x904B_9695_96F2_97FB_851A_9B31_4E90_718A_96C4_5143_539F_54E1),
  (0xEAAD, 0x5713_5712_57A3_5A9B_5AC4_5BC3_6028_613F_63F4_6C85_6D39_6E72),
  (0xEAB9, 0x6E90_7230_733F_7457_82D1_8881_8F45_9060_F9C6_9662_9858_9D1B),
  (0xEAC5, 0x6708_8D8A_925E_4F4D_5049_50DE_5371_570D_59D4_5A01_5C09_6170),
  (0xEAD1, 0x6690_6E2D_7232_744B_7DEF_80C3_840E_8466_853F_875F_885B_8918),
  (0xEADD, 0x8B02_9055_97CB_9B4F_4E73_4F91_5112_516A_F9C7_552F_55A9_5B7A),
  (0xEAE9, 0x5BA5_5E7C_5E7D_5EBE_60A0_60DF_6108_6109_63C4_6538_6709_F9C8),
  (0xEAF5, 0x67D4_67DA_F9C9_6961_6962_6CB9_6D27_F9CA_6E38_F9CB),
  (0xEBA1, 0x6FE1_7336_7337_F9CC_745C_7531_F9CD_7652_F9CE_F9CF_7DAD_81FE),
  (0xEBAD, 0x8438_88D5_8A98_8ADB_8AED_8E30_8E42_904A_903E_907A_9149_91C9),
  (0xEBB9, 0x936E_F9D0_F9D1_5809_F9D2_6BD3_8089_80B2_F9D3_F9D4_5141_596B),
  (0xEBC5, 0x5C39_F9D5_F9D6_6F64_73A7_80E4_8D07_F9D7_9217_958F_F9D8_F9D9),
  (0xEBD1, 0xF9DA_F9DB_807F_620E_701C_7D68_878D_F9DC_57A0_6069_6147_6BB7),
  (0xEBDD, 0x8ABE_9280_96B1_4E59_541F_6DEB_852D_9670_97F3_98EE_63D6_6CE3),
  (0xEBE9, 0x9091_51DD_61C9_81BA_9DF9_4F9D_501A_5100_5B9C_610F_61FF_64EC),
  (0xEBF5, 0x6905_6BC5_7591_77E3_7FA9_8264_858F_87FB_8863_8ABC),
  (0xECA1, 0x8B70_91AB_4E8C_4EE5_4F0A_F9DD_F9DE_5937_59E8_F9DF_5DF2_5F1B),
  (0xECAD, 0x5F5B_6021_F9E0_F9E1_F9E2_F9E3_723E_73E5_F9E4_7570_75CD_F9E5),
  (0xECB9, 0x79FB_F9E6_800C_8033_8084_82E1_8351_F9E7_F9E8_8CBD_8CB3_9087),
  (0xECC5, 0xF9E9_F9EA_98F4_990C_F9EB_F9EC_7037_76CA_7FCA_7FCC_7FFC_8B1A),
  (0xECD1, 0x4EBA_4EC1_5203_5370_F9ED_54BD_56E0_59FB_5BC5_5F15_5FCD_6E6E),
  (0xECDD, 0xF9EE_F9EF_7D6A_8335_F9F0_8693_8A8D_F9F1_976D_9777_F9F2_F9F3),
  (0xECE9, 0x4E00_4F5A_4F7E_58F9_65E5_6EA2_9038_93B0_99B9_4EFB_58EC_598A),
  (0xECF5, 0x59D9_6041_F9F4_F9F5_7A14_F9F6_834F_8CC3_5165_5344),
  (0xEDA1, 0xF9F7_F9F8_F9F9_4ECD_5269_5B55_82BF_4ED4_523A_54A8_59C9_59FF),
  (0xEDAD, 0x5B50_5B57_5B5C_6063_6148_6ECB_7099_716E_7386_74F7_75B5_78C1),
  (0xEDB9, 0x7D2B_8005_81EA_8328_8517_85C9_8AEE_8CC7_96CC_4F5C_52FA_56BC),
  (0xEDC5, 0x65AB_6628_707C_70B8_7235_7DBD_828D_914C_96C0_9D72_5B71_68E7),
  (0xEDD1, 0x6B98_6F7A_76DE_5C91_66AB_6F5B_7BB4_7C2A_8836_96DC_4E08_4ED7),
  (0xEDDD, 0x5320_5834_58BB_58EF_596C_5C07_5E33_5E84_5F35_638C_66B2_6756),
  (0xEDE9, 0x6A1F_6AA3_6B0C_6F3F_7246_F9FA_7350_748B_7AE0_7CA7_8178_81DF),
  (0xEDF5, 0x81E7_838A_846C_8523_8594_85CF_88DD_8D13_91AC_9577),
  (0xEEA1, 0x969C_518D_54C9_5728_5BB0_624D_6750_683D_6893_6E3D_6ED3_707D),
  (0xEEAD, 0x7E21_88C1_8CA1_8F09_9F4B_9F4E_722D_7B8F_8ACD_931A_4F47_4F4E),
  (0xEEB9, 0x5132_5480_59D0_5E95_62B5_6775_696E_6A17_6CAE_6E1A_72D9_732A),
  (0xEEC5, 0x75BD_7BB8_7D35_82E7_83F9_8457_85F7_8A5B_8CAF_8E87_9019_90B8),
  (0xEED1, 0x96CE_9F5F_52E3_540A_5AE1_5BC2_6458_6575_6EF4_72C4_F9FB_7684),
  (0xEEDD, 0x7A4D_7B1B_7C4D_7E3E_7FDF_837B_8B2B_8CCA_8D64_8DE1_8E5F_8FEA),
  (0xEEE9, 0x8FF9_9069_93D1_4F43_4F7A_50B3_5168_5178_524D_526A_5861_587C),
  (0xEEF5, 0x5960_5C08_5C55_5EDB_609B_6230_6813_6BBF_6C08_6FB1),
  (0xEFA1, 0x714E_7420_7530_7538_7551_7672_7B4C_7B8B_7BAD_7BC6_7E8F_8A6E),
  (0xEFAD, 0x8F3E_8F49_923F_9293_9322_942B_96FB_985A_986B_991E_5207_622A),
  (0xEFB9, 0x6298_6D59_7664_7ACA_7BC0_7D76_5360_5CBE_5E97_6F38_70B9_7C98),
  (0xEFC5, 0x9711_9B8E_9EDE_63A5_647A_8776_4E01_4E95_4EAD_505C_5075_5448),
  (0xEFD1, 0x59C3_5B9A_5E40_5EAD_5EF7_5F81_60C5_633A_653F_6574_65CC_6676),
  (0xEFDD, 0x6678_67FE_6968_6A89_6B63_6C40_6DC0_6DE8_6E1F_6E5E_701E_70A1),
  (0xEFE9, 0x738E_73FD_753A_775B_7887_798E_7A0B_7A7D_7CBE_7D8E_8247_8A02),
  (0xEFF5, 0x8AEA_8C9E_912D_914A_91D8_9266_92CC_9320_9706_9756),
  (0xF0A1, 0x975C_9802_9F0E_5236_5291_557C_5824_5E1D_5F1F_608C_63D0_68AF),
  (0xF0AD, 0x6FDF_796D_7B2C_81CD_85BA_88FD_8AF8_8E44_918D_9664_969B_973D),
  (0xF0B9, 0x984C_9F4A_4FCE_5146_51CB_52A9_5632_5F14_5F6B_63AA_64CD_65E9),
  (0xF0C5, 0x6641_66FA_66F9_671D_689D_68D7_69FD_6F15_6F6E_7167_71E5_722A),
  (0xF0D1, 0x74AA_773A_7956_795A_79DF_7A20_7A95_7C97_7CDF_7D44_7E70_8087),
  (0xF0DD, 0x85FB_86A4_8A54_8ABF_8D99_8E81_9020_906D_91E3_963B_96D5_9CE5),
  (0xF0E9, 0x65CF_7C07_8DB3_93C3_5B58_5C0A_5352_62D9_731D_5027_5B97_5F9E),
  (0xF0F5, 0x60B0_616B_68D5_6DD9_742E_7A2E_7D42_7D9C_7E31_816B),
  (0xF1A1, 0x8E2A_8E35_937E_9418_4F50_5750_5DE6_5EA7_632B_7F6A_4E3B_4F4F),
  (0xF1AD, 0x4F8F_505A_59DD_80C4_546A_5468_55FE_594F_5B99_5DDE_5EDA_665D),
  (0xF1B9, 0x6731_67F1_682A_6CE8_6D32_6E4A_6F8D_70B7_73E0_7587_7C4C_7D02),
  (0xF1C5, 0x7D2C_7DA2_821F_86DB_8A3B_8A85_8D70_8E8A_8F33_9031_914E_9152),
  (0xF1D1, 0x9444_99D0_7AF9_7CA5_4FCA_5101_51C6_57C8_5BEF_5CFB_6659_6A3D),
  (0xF1DD, 0x6D5A_6E96_6FEC_710C_756F_7AE3_8822_9021_9075_96CB_99FF_8301),
  (0xF1E9, 0x4E2D_4EF2_8846_91CD_537D_6ADB_696B_6C41_847A_589E_618E_66FE),
  (0xF1F5, 0x62EF_70DD_7511_75C7_7E52_84B8_8B49_8D08_4E4B_53EA),
  (0xF2A1, 0x54AB_5730_5740_5FD7_6301_6307_646F_652F_65E8_667A_679D_67B3),
  (0xF2AD, 0x6B62_6C60_6C9A_6F2C_77E5_7825_7949_7957_7D19_80A2_8102_81F3),
  (0xF2B9, 0x829D_82B7_8718_8A8C_F9FC_8D04_8DBE_9072_76F4_7A19_7A37_7E54),
  (0xF2C5, 0x8077_5507_55D4_5875_632F_6422_6649_664B_686D_699B_6B84_6D25),
  (0xF2D1, 0x6EB1_73CD_7468_74A1_755B_75B9_76E1_771E_778B_79E6_7E09_7E1D),
  (0xF2DD, 0x81FB_852F_8897_8A3A_8CD1_8EEB_8FB0_9032_93AD_9663_9673_9707),
  (0xF2E9, 0x4F84_53F1_59EA_5AC9_5E19_684E_74C6_75BE_79E9_7A92_81A3_86ED),
  (0xF2F5, 0x8CEA_8DCC_8FED_659F_6715_F9FD_57F7_6F57_7DDD_8F2F),
  (0xF3A1, 0x93F6_96C6_5FB5_61F2_6F84_4E14_4F98_501F_53C9_55DF_5D6F_5DEE),
  (0xF3AD, 0x6B21_6B64_78CB_7B9A_F9FE_8E49_8ECA_906E_6349_643E_7740_7A84),
  (0xF3B9, 0x932F_947F_9F6A_64B0_6FAF_71E6_74A8_74DA_7AC4_7C12_7E82_7CB2),
  (0xF3C5, 0x7E98_8B9A_8D0A_947D_9910_994C_5239_5BDF_64E6_672D_7D2E_50ED),
  (0xF3D1, 0x53C3_5879_6158_6159_61FA_65AC_7AD9_8B92_8B96_5009_5021_5275),
  (0xF3DD, 0x5531_5A3C_5EE0_5F70_6134_655E_660C_6636_66A2_69CD_6EC4_6F32),
  (0xF3E9, 0x7316_7621_7A93_8139_8259_83D6_84BC_50B5_57F0_5BC0_5BE8_5F69),
  (0xF3F5, 0x63A1_7826_7DB5_83DC_8521_91C7_91F5_518A_67F5_7B56),
  (0xF4A1, 0x8CAC_51C4_59BB_60BD_8655_501C_F9FF_5254_5C3A_617D_621A_62D3),
  (0xF4AD, 0x64F2_65A5_6ECC_7620_810A_8E60_965F_96BB_4EDF_5343_5598_5929),
  (0xF4B9, 0x5DDD_64C5_6CC9_6DFA_7394_7A7F_821B_85A6_8CE4_8E10_9077_91E7),
  (0xF4C5, 0x95E1_9621_97C6_51F8_54F2_5586_5FB9_64A4_6F88_7DB4_8F1F_8F4D),
  (0xF4D1, 0x9435_50C9_5C16_6CBE_6DFB_751B_77BB_7C3D_7C64_8A79_8AC2_581E),
  (0xF4DD, 0x59BE_5E16_6377_7252_758A_776B_8ADC_8CBC_8F12_5EF3_6674_6DF8),
  (0xF4E9, 0x807D_83C1_8ACB_9751_9BD6_FA00_5243_66FF_6D95_6EEF_7DE0_8AE6),
  (0xF4F5, 0x902E_905E_9AD4_521D_527F_54E8_6194_6284_62DB_68A2),
  (0xF5A1, 0x6912_695A_6A35_7092_7126_785D_7901_790E_79D2_7A0D_8096_8278),
  (0xF5AD, 0x82D5_8349_8549_8C82_8D85_9162_918B_91AE_4FC3_56D1_71ED_77D7),
  (0xF5B9, 0x8700_89F8_5BF8_5FD6_6751_90A8_53E2_585A_5BF5_60A4_6181_6460),
  (0xF5C5, 0x7E3D_8070_8525_9283_64AE_50AC_5D14_6700_589C_62BD_63A8_690E),
  (0xF5D1, 0x6978_6A1E_6E6B_76BA_79CB_82BB_8429_8ACF_8DA8_8FFD_9112_914B),
  (0xF5DD, 0x919C_9310_9318_939A_96DB_9A36_9C0D_4E11_755C_795D_7AFA_7B51),
  (0xF5E9, 0x7BC9_7E2E_84C4_8E59_8E74_8EF8_9010_6625_693F_7443_51FA_672E),
  (0xF5F5, 0x9EDC_5145_5FE0_6C96_87F2_885D_8877_60B4_81B5_8403),
  (0xF6A1, 0x8D05_53D6_5439_5634_5A36_5C31_708A_7FE0_805A_8106_81ED_8DA3),
  (0xF6AD, 0x9189_9A5F_9DF2_5074_4EC4_53A0_60FB_6E2C_5C64_4F88_5024_55E4),
  (0xF6B9, 0x5CD9_5E5F_6065_6894_6CBB_6DC4_71BE_75D4_75F4_7661_7A1A_7A49),
  (0xF6C5, 0x7DC7_7DFB_7F6E_81F4_86A9_8F1C_96C9_99B3_9F52_5247_52C5_98ED),
  (0xF6D1, 0x89AA_4E03_67D2_6F06_4FB5_5BE2_6795_6C88_6D78_741B_7827_91DD),
  (0xF6DD, 0x937C_87C4_79E4_7A31_5FEB_4ED6_54A4_553E_58AE_59A5_60F0_6253),
  (0xF6E9, 0x62D6_6736_6955_8235_9640_99B1_99DD_502C_5353_5544_577C_FA01),
  (0xF6F5, 0x6258_FA02_64E2_666B_67DD_6FC1_6FEF_7422_7438_8A17),
  (0xF7A1, 0x9438_5451_5606_5766_5F48_619A_6B4E_7058_70AD_7DBB_8A95_596A),
  (0xF7AD, 0x812B_63A2_7708_803D_8CAA_5854_642D_69BB_5B95_5E11_6E6F_FA03),
  (0xF7B9, 0x8569_514C_53F0_592A_6020_614B_6B86_6C70_6CF0_7B1E_80CE_82D4),
  (0xF7C5, 0x8DC6_90B0_98B1_FA04_64C7_6FA4_6491_6504_514E_5410_571F_8A0E),
  (0xF7D1, 0x615F_6876_FA05_75DB_7B52_7D71_901A_5806_69CC_817F_892A_9000),
  (0xF7DD, 0x9839_5078_5957_59AC_6295_900F_9B2A_615D_7279_95D6_5761_5A46),
  (0xF7E9, 0x5DF4_628A_64AD_64FA_6777_6CE2_6D3E_722C_7436_7834_7F77_82AD),
  (0xF7F5, 0x8DDB_9817_5224_5742_677F_7248_74E3_8CA9_8FA6_9211),
  (0xF8A1, 0x962A_516B_53ED_634C_4F69_5504_6096_6557_6C9B_6D7F_724C_72FD),
  (0xF8AD, 0x7A17_8987_8C9D_5F6D_6F8E_70F9_81A8_610E_4FBF_504F_6241_7247),
  (0xF8B9, 0x7BC7_7DE8_7FE9_904D_97AD_9A19_8CB6_576A_5E73_67B0_840D_8A55),
  (0xF8C5, 0x5420_5B16_5E63_5EE2_5F0A_6583_80BA_853D_9589_965B_4F48_5305),
  (0xF8D1, 0x530D_530F_5486_54FA_5703_5E03_6016_629B_62B1_6355_FA06_6CE1),
  (0xF8DD, 0x6D66_75B1_7832_80DE_812F_82DE_8461_84B2_888D_8912_900B_92EA),
  (0xF8E9, 0x98FD_9B91_5E45_66B4_66DD_7011_7206_FA07_4FF5_527D_5F6A_6153),
  (0xF8F5, 0x6753_6A19_6F02_74E2_7968_8868_8C79_98C7_98C4_9A43),
  (0xF9A1, 0x54C1_7A1F_6953_8AF7_8C4A_98A8_99AE_5F7C_62AB_75B2_76AE_88AB),
  (0xF9AD, 0x907F_9642_5339_5F3C_5FC5_6CCC_73CC_7562_758B_7B46_82FE_999D),
  (0xF9B9, 0x4E4F_903C_4E0B_4F55_53A6_590F_5EC8_6630_6CB3_7455_8377_8766),
  (0xF9C5, 0x8CC0_9050_971E_9C15_58D1_5B78_8650_8B14_9DB4_5BD2_6068_608D),
  (0xF9D1, 0x65F1_6C57_6F22_6FA3_701A_7F55_7FF0_9591_9592_9650_97D3_5272),
  (0xF9DD, 0x8F44_51FD_542B_54B8_5563_558A_6ABB_6DB5_7DD8_8266_929C_9677),
  (0xF9E9, 0x9E79_5408_54C8_76D2_86E4_95A4_95D4_965C_4EA2_4F09_59EE_5AE6),
  (0xF9F5, 0x5DF7_6052_6297_676D_6841_6C86_6E2F_7F38_809B_822A),
  (0xFAA1, 0xFA08_FA09_9805_4EA5_5055_54B3_5793_595A_5B69_5BB3_61C8_6977),
  (0xFAAD, 0x6D77_7023_87F9_89E3_8A72_8AE7_9082_99ED_9AB8_52BE_6838_5016),
  (0xFAB9, 0x5E78_674F_8347_884C_4EAB_5411_56AE_73E6_9115_97FF_9909_9957),
  (0xFAC5, 0x9999_5653_589F_865B_8A31_61B2_6AF6_737B_8ED2_6B47_96AA_9A57),
  (0xFAD1, 0x5955_7200_8D6B_9769_4FD4_5CF4_5F26_61F8_665B_6CEB_70AB_7384),
  (0xFADD, 0x73B9_73FE_7729_774D_7D43_7D62_7E23_8237_8852_FA0A_8CE2_9249),
  (0xFAE9, 0x986F_5B51_7A74_8840_9801_5ACC_4FE0_5354_593E_5CFD_633E_6D79),
  (0xFAF5, 0x72F9_8105_8107_83A2_92CF_9830_4EA8_5144_5211_578B),
  (0xFBA1, 0x5F62_6CC2_6ECE_7005_7050_70AF_7192_73E9_7469_834A_87A2_8861),
  (0xFBAD, 0x9008_90A2_93A3_99A8_516E_5F57_60E0_6167_66B3_8559_8E4A_91AF),
  (0xFBB9, 0x978B_4E4E_4E92_547C_58D5_58FA_597D_5CB5_5F27_6236_6248_660A),
  (0xFBC5, 0x6667_6BEB_6D69_6DCF_6E56_6EF8_6F94_6FE0_6FE9_705D_72D0_7425),
  (0xFBD1, 0x745A_74E0_7693_795C_7CCA_7E1E_80E1_82A6_846B_84BF_864E_865F),
  (0xFBDD, 0x8774_8B77_8C6A_93AC_9800_9865_60D1_6216_9177_5A5A_660F_6DF7),
  (0xFBE9, 0x6E3E_743F_9B42_5FFD_60DA_7B0F_54C4_5F18_6C5E_6CD3_6D2A_70D8),
  (0xFBF5, 0x7D05_8679_8A0C_9D3B_5316_548C_5B05_6A3A_706B_7575),
  (0xFCA1, 0x798D_79BE_82B1_83EF_8A71_8B41_8CA8_9774_FA0B_64F4_652B_78BA),
  (0xFCAD, 0x78BB_7A6B_4E38_559A_5950_5BA6_5E7B_60A3_63DB_6B61_6665_6853),
  (0xFCB9, 0x6E19_7165_74B0_7D08_9084_9A69_9C25_6D3B_6ED1_733E_8C41_95CA),
  (0xFCC5, 0x51F0_5E4C_5FA8_604D_60F6_6130_614C_6643_6644_69A5_6CC1_6E5F),
  (0xFCD1, 0x6EC9_6F62_714C_749C_7687_7BC1_7C27_8352_8757_9051_968D_9EC3),
  (0xFCDD, 0x532F_56DE_5EFB_5F8A_6062_6094_61F7_6666_6703_6A9C_6DEE_6FAE),
  (0xFCE9, 0x7070_736A_7E6A_81BE_8334_86D4_8AA8_8CC4_5283_7372_5B96_6A6B),
  (0xFCF5, 0x9404_54EE_5686_5B5D_6548_6585_66C9_689F_6D8D_6DC6),
  (0xFDA1, 0x723B_80B4_9175_9A4D_4FAF_5019_539A_540E_543C_5589_55C5_5E3F),
  (0xFDAD, 0x5F8C_673D_7166_73DD_9005_52DB_52F3_5864_58CE_7104_718F_71FB),
  (0xFDB9, 0x85B0_8A13_6688_85A8_55A7_6684_714A_8431_5349_5599_6BC1_5F59),
  (0xFDC5, 0x5FBD_63EE_6689_7147_8AF1_8F1D_9EBE_4F11_643A_70CB_7566_8667),
  (0xFDD1, 0x6064_8B4E_9DF8_5147_51F6_5308_6D36_80F8_9ED1_6615_6B23_7098),
  (0xFDDD, 0x75D5_5403_5C79_7D07_8A16_6B20_6B3D_6B46_5438_6070_6D3D_7FD5),
  (0xFDE9, 0x8208_50D6_51DE_559C_566B_56CD_59EC_5B09_5E0C_6199_6198_6231),
  (0xFDF5, 0x665E_66E6_7199_71B9_71BA_72A7_79A7_7A00_7FB2_8A70)]

/-- The rules of /repo/modules/to/_CP949.txt: character, code.  No two lines have the same character; sorted.  Lines `0100..`, if any, are
listed separately. -/
def cp949Writes : Chart := Chart.wide [
  (0xA1, 0xA2AE),
  (0xA4, 0xA2B4),
  (0xA7, 0xA1D7_A1A7),
  (0xAA, 0xA8A3),
  (0xAD, 0xA1A9_A2E7),
  (0xB0, 0xA1C6_A1BE_A9F7_A9F8_A2A5),
  (0xB6, 0xA2D2_A1A4_A2AC_A9F6_A8AC),
  (0xBC, 0xA8F9_A8F6_A8FA_A2AF),
  (0xC6, 0xA8A1),
  (0xD0, 0xA8A2),
  (0xD7, 0xA1BF_A8AA),
  (0xDE, 0xA8AD_A9AC),
  (0xE6, 0xA9A1),
  (0xF0, 0xA9A3),
  (0xF7, 0xA1C0_A9AA),
  (0xFE, 0xA9AD),
  (0x111, 0xA9A2),
  (0x126, 0xA8A4_A9A4),
  (0x131, 0xA9A5_A8A6_A9A6),
  (0x138, 0xA9A7),
  (0x13F, 0xA8A8_A9A8_A8A9_A9A9),
  (0x149, 0xA9B0_A8AF_A9AF),
  (0x152, 0xA8AB_A9AB),
  (0x166, 0xA8AE_A9AE),
  (0x2C7, 0xA2A7),
  (0x2D0, 0xA2B0),
  (0x2D8, 0xA2A8_A2AB_A2AA_A2AD),
  (0x2DD, 0xA2A9),
  (0x391, 0xA5C1_A5C2_A5C3_A5C4_A5C5_A5C6_A5C7_A5C8_A5C9_A5CA_A5CB_A5CC),
  (0x39D, 0xA5CD_A5CE_A5CF_A5D0_A5D1),
  (0x3A3, 0xA5D2_A5D3_A5D4_A5D5_A5D6_A5D7_A5D8),
  (0x3B1, 0xA5E1_A5E2_A5E3_A5E4_A5E5_A5E6_A5E7_A5E8_A5E9_A5EA_A5EB_A5EC),
  (0x3BD, 0xA5ED_A5EE_A5EF_A5F0_A5F1),
  (0x3C3, 0xA5F2_A5F3_A5F4_A5F5_A5F6_A5F7_A5F8),
  (0x401, 0xACA7),
  (0x410, 0xACA1_ACA2_ACA3_ACA4_ACA5_ACA6_ACA8_ACA9_ACAA_ACAB_ACAC_ACAD),
  (0x41C, 0xACAE_ACAF_ACB0_ACB1_ACB2_ACB3_ACB4_ACB5_ACB6_ACB7_ACB8_ACB9),
  (0x428, 0xACBA_ACBB_ACBC_ACBD_ACBE_ACBF_ACC0_ACC1_ACD1_ACD2_ACD3_ACD4),
  (0x434, 0xACD5_ACD6_ACD8_ACD9_ACDA_ACDB_ACDC_ACDD_ACDE_ACDF_ACE0_ACE1),
  (0x440, 0xACE2_ACE3_ACE4_ACE5_ACE6_ACE7_ACE8_ACE9_ACEA_ACEB_ACEC_ACED),
  (0x44C, 0xACEE_ACEF_ACF0_ACF1),
  (0x451, 0xACD7),
  (0x2015, 0xA1AA),
  (0x2018, 0xA1AE_A1AF),
  (0x201C, 0xA1B0_A1B1),
  (0x2020, 0xA2D3_A2D4),
  (0x2025, 0xA1A5_A1A6),
  (0x2030, 0xA2B6),
  (0x2032, 0xA1C7_A1C8),
  (0x203B, 0xA1D8),
  (0x2074, 0xA9F9),
  (0x207F, 0xA9FA),
  (0x2081, 0xA9FB_A9FC_A9FD_A9FE),
  (0x20AC, 0xA2E6),
  (0x2103, 0xA1C9),
  (0x2109, 0xA2B5),
  (0x2113, 0xA7A4),
  (0x2116, 0xA2E0),
  (0x2121, 0xA2E5_A2E2),
  (0x2126, 0xA7D9),
  (0x212B, 0xA1CA),
  (0x2153, 0xA8F7_A8F8),
  (0x215B, 0xA8FB_A8FC_A8FD_A8FE),
  (0x2160, 0xA5B0_A5B1_A5B2_A5B3_A5B4_A5B5_A5B6_A5B7_A5B8_A5B9),
  (0x2170, 0xA5A1_A5A2_A5A3_A5A4_A5A5_A5A6_A5A7_A5A8_A5A9_A5AA),
  (0x2190, 0xA1E7_A1E8_A1E6_A1E9_A1EA_A2D5_A2D8_A2D6_A2D9_A2D7),
  (0x21D2, 0xA2A1),
  (0x21D4, 0xA2A2),
  (0x2200, 0xA2A3),
  (0x2202, 0xA1D3_A2A4),
  (0x2207, 0xA1D4_A1F4),
  (0x220B, 0xA1F5),
  (0x220F, 0xA2B3),
  (0x2211, 0xA2B2),
  (0x221A, 0xA1EE),
  (0x221D, 0xA1F0_A1C4),
  (0x2220, 0xA1D0),
  (0x2225, 0xA1AB),
  (0x2227, 0xA1FC_A1FD_A1FB_A1FA_A1F2_A1F3),
  (0x222E, 0xA2B1),
  (0x2234, 0xA1C5_A1F1),
  (0x223C, 0xA1AD_A1EF),
  (0x2252, 0xA1D6),
  (0x2260, 0xA1C1_A1D5),
  (0x2264, 0xA1C2_A1C3),
  (0x226A, 0xA1EC_A1ED),
  (0x2282, 0xA1F8_A1F9),
  (0x2286, 0xA1F6_A1F7),
  (0x2299, 0xA2C1),
  (0x22A5, 0xA1D1),
  (0x2312, 0xA1D2),
  (0x2460, 0xA8E7_A8E8_A8E9_A8EA_A8EB_A8EC_A8ED_A8EE_A8EF_A8F0_A8F1_A8F2),
  (0x246C, 0xA8F3_A8F4_A8F5),
  (0x2474, 0xA9E7_A9E8_A9E9_A9EA_A9EB_A9EC_A9ED_A9EE_A9EF_A9F0_A9F1_A9F2),
  (0x2480, 0xA9F3_A9F4_A9F5),
  (0x249C, 0xA9CD_A9CE_A9CF_A9D0_A9D1_A9D2_A9D3_A9D4_A9D5_A9D6_A9D7_A9D8),
  (0x24A8, 0xA9D9_A9DA_A9DB_A9DC_A9DD_A9DE_A9DF_A9E0_A9E1_A9E2_A9E3_A9E4),
  (0x24B4, 0xA9E5_A9E6),
  (0x24D0, 0xA8CD_A8CE_A8CF_A8D0_A8D1_A8D2_A8D3_A8D4_A8D5_A8D6_A8D7_A8D8),
  (0x24DC, 0xA8D9_A8DA_A8DB_A8DC_A8DD_A8DE_A8DF_A8E0_A8E1_A8E2_A8E3_A8E4),
  (0x24E8, 0xA8E5_A8E6),
  (0x2500, 0xA6A1_A6AC_A6A2_A6AD),
  (0x250C, 0xA6A3_A6C8_A6C7_A6AE_A6A4_A6C2_A6C1_A6AF_A6A6_A6C6_A6C5_A6B1),
  (0x2518, 0xA6A5_A6C4_A6C3_A6B0_A6A7_A6BC_A6C9_A6CA_A6B7_A6CB_A6CC_A6B2),
  (0x2524, 0xA6A9_A6BE_A6CD_A6CE_A6B9_A6CF_A6D0_A6B4_A6A8_A6D1_A6D2_A6B8),
  (0x2530, 0xA6BD_A6D3_A6D4_A6B3_A6AA_A6D5_A6D6_A6BA_A6BF_A6D7_A6D8_A6B5),
  (0x253C, 0xA6AB_A6D9_A6DA_A6BB_A6DB_A6DC_A6C0_A6DD_A6DE_A6DF_A6E0_A6E1),
  (0x2548, 0xA6E2_A6E3_A6E4_A6B6),
  (0x2592, 0xA2C6),
  (0x25A0, 0xA1E1_A1E0),
  (0x25A3, 0xA2C3_A2C7_A2C8_A2CB_A2CA_A2C9_A2CC),
  (0x25B2, 0xA1E3_A1E2),
  (0x25B6, 0xA2BA_A2B9),
  (0x25BC, 0xA1E5_A1E4),
  (0x25C0, 0xA2B8_A2B7),
  (0x25C6, 0xA1DF_A1DE_A2C2),
  (0x25CB, 0xA1DB),
  (0x25CE, 0xA1DD_A1DC_A2C4_A2C5),
  (0x2605, 0xA1DA_A1D9),
  (0x260E, 0xA2CF_A2CE),
  (0x261C, 0xA2D0),
  (0x261E, 0xA2D1),
  (0x2640, 0xA1CF),
  (0x2642, 0xA1CE),
  (0x2660, 0xA2BC_A2BD),
  (0x2663, 0xA2C0_A2BB_A2BE),
  (0x2667, 0xA2BF_A2CD_A2DB_A2DC),
  (0x266C, 0xA2DD_A2DA),
  (0x3000, 0xA1A1_A1A2_A1A3_A1A8),
  (0x3008, 0xA1B4_A1B5_A1B6_A1B7_A1B8_A1B9_A1BA_A1BB_A1BC_A1BD),
  (0x3013, 0xA1EB_A1B2_A1B3),
  (0x3041, 0xAAA1_AAA2_AAA3_AAA4_AAA5_AAA6_AAA7_AAA8_AAA9_AAAA_AAAB_AAAC),
  (0x304D, 0xAAAD_AAAE_AAAF_AAB0_AAB1_AAB2_AAB3_AAB4_AAB5_AAB6_AAB7_AAB8),
  (0x3059, 0xAAB9_AABA_AABB_AABC_AABD_AABE_AABF_AAC0_AAC1_AAC2_AAC3_AAC4),
  (0x3065, 0xAAC5_AAC6_AAC7_AAC8_AAC9_AACA_AACB_AACC_AACD_AACE_AACF_AAD0),
  (0x3071, 0xAAD1_AAD2_AAD3_AAD4_AAD5_AAD6_AAD7_AAD8_AAD9_AADA_AADB_AADC),
  (0x307D, 0xAADD_AADE_AADF_AAE0_AAE1_AAE2_AAE3_AAE4_AAE5_AAE6_AAE7_AAE8),
  (0x3089, 0xAAE9_AAEA_AAEB_AAEC_AAED_AAEE_AAEF_AAF0_AAF1_AAF2_AAF3),
  (0x30A1, 0xABA1_ABA2_ABA3_ABA4_ABA5_ABA6_ABA7_ABA8_ABA9_ABAA_ABAB_ABAC),
  (0x30AD, 0xABAD_ABAE_ABAF_ABB0_ABB1_ABB2_ABB3_ABB4_ABB5_ABB6_ABB7_ABB8),
  (0x30B9, 0xABB9_ABBA_ABBB_ABBC_ABBD_ABBE_ABBF_ABC0_ABC1_ABC2_ABC3_ABC4),
  (0x30C5, 0xABC5_ABC6_ABC7_ABC8_ABC9_ABCA_ABCB_ABCC_ABCD_ABCE_ABCF_ABD0),
  (0x30D1, 0xABD1_ABD2_ABD3_ABD4_ABD5_ABD6_ABD7_ABD8_ABD9_ABDA_ABDB_ABDC),
  (0x30DD, 0xABDD_ABDE_ABDF_ABE0_ABE1_ABE2_ABE3_ABE4_ABE5_ABE6_ABE7_ABE8),
  (0x30E9, 0xABE9_ABEA_ABEB_ABEC_ABED_ABEE_ABEF_ABF0_ABF1_ABF2_ABF3_ABF4),
  (0x30F5, 0xABF5_ABF6),
  (0x3131, 0xA4A1_A4A2_A4A3_A4A4_A4A5_A4A6_A4A7_A4A8_A4A9_A4AA_A4AB_A4AC),
  (0x313D, 0xA4AD_A4AE_A4AF_A4B0_A4B1_A4B2_A4B3_A4B4_A4B5_A4B6_A4B7_A4B8),
  (0x3149, 0xA4B9_A4BA_A4BB_A4BC_A4BD_A4BE_A4BF_A4C0_A4C1_A4C2_A4C3_A4C4),
  (0x3155, 0xA4C5_A4C6_A4C7_A4C8_A4C9_A4CA_A4CB_A4CC_A4CD_A4CE_A4CF_A4D0),
  (0x3161, 0xA4D1_A4D2_A4D3_A4D4_A4D5_A4D6_A4D7_A4D8_A4D9_A4DA_A4DB_A4DC),
  (0x316D, 0xA4DD_A4DE_A4DF_A4E0_A4E1_A4E2_A4E3_A4E4_A4E5_A4E6_A4E7_A4E8),
  (0x3179, 0xA4E9_A4EA_A4EB_A4EC_A4ED_A4EE_A4EF_A4F0_A4F1_A4F2_A4F3_A4F4),
  (0x3185, 0xA4F5_A4F6_A4F7_A4F8_A4F9_A4FA_A4FB_A4FC_A4FD_A4FE),
  (0x3200, 0xA9B1_A9B2_A9B3_A9B4_A9B5_A9B6_A9B7_A9B8_A9B9_A9BA_A9BB_A9BC),
  (0x320C, 0xA9BD_A9BE_A9BF_A9C0_A9C1_A9C2_A9C3_A9C4_A9C5_A9C6_A9C7_A9C8),
  (0x3218, 0xA9C9_A9CA_A9CB_A9CC_A2DF),
  (0x3260, 0xA8B1_A8B2_A8B3_A8B4_A8B5_A8B6_A8B7_A8B8_A8B9_A8BA_A8BB_A8BC),
  (0x326C, 0xA8BD_A8BE_A8BF_A8C0_A8C1_A8C2_A8C3_A8C4_A8C5_A8C6_A8C7_A8C8),
  (0x3278, 0xA8C9_A8CA_A8CB_A8CC),
  (0x327F, 0xA2DE),
  (0x3380, 0xA7C9_A7CA_A7CB_A7CC_A7CD),
  (0x3388, 0xA7BA_A7BB_A7DC_A7DD_A7DE_A7B6_A7B7_A7B8_A7D4_A7D5_A7D6_A7D7),
  (0x3394, 0xA7D8_A7A1_A7A2_A7A3_A7A5_A7AB_A7AC_A7AD_A7AE_A7AF_A7B0_A7B1),
  (0x33A0, 0xA7B2_A7B3_A7B4_A7A7_A7A8_A7A9_A7AA_A7BD_A7BE_A7E5_A7E6_A7E7),
  (0x33AC, 0xA7E8_A7E1_A7E2_A7E3_A7BF_A7C0_A7C1_A7C2_A7C3_A7C4_A7C5_A7C6),
  (0x33B8, 0xA7C7_A7C8_A7CE_A7CF_A7D0_A7D1_A7D2_A7D3_A7DA_A7DB_A2E3_A7EC),
  (0x33C4, 0xA7A6_A7E0_A7EF_A2E1_A7BC_A7ED_A7B5),
  (0x33CF, 0xA7B9_A7EA),
  (0x33D3, 0xA7EB),
  (0x33D6, 0xA7DF),
  (0x33D8, 0xA2E4),
  (0x33DB, 0xA7E4_A7EE_A7E9),
  (0x4E00, 0xECE9_EFCB),
  (0x4E03, 0xF6D2),
  (0x4E07, 0xD8B2_EDDB_DFB2_DFBE_F9BB),
  (0x4E0D, 0xDCF4),
  (0x4E11, 0xF5E4),
  (0x4E14, 0xF3A6_DDE0_E1A6),
  (0x4E18, 0xCEF8_DCB0),
  (0x4E1E, 0xE3AA),
  (0x4E2D, 0xF1E9),
  (0x4E32, 0xCDFA),
  (0x4E38, 0xFCAF_D3A1),
  (0x4E3B, 0xF1AB),
  (0x4E42, 0xE7D1_D2AC),
  (0x4E45, 0xCEF9),
  (0x4E4B, 0xF1FD),
  (0x4E4D, 0xDEBF_FBBA_F9B9),
  (0x4E56, 0xCED2),
  (0x4E58, 0xE3AB_EBE0),
  (0x4E5D, 0xCEFA_CBF7_E5A5),
  (0x4E6B, 0xCAE1),
  (0x4E6D, 0xD4CC),
  (0x4E73, 0xEAE1),
  (0x4E76, 0xDCE3_DFAD),
  (0x4E7E, 0xCBEB),
  (0x4E82, 0xD5AF),
  (0x4E86, 0xD6F5),
  (0x4E88, 0xE5F8),
  (0x4E8B, 0xDEC0_ECA3),
  (0x4E8E, 0xE9CD),
  (0x4E90, 0xEAA7_E9F6_FBBB),
  (0x4E94, 0xE7E9_EFCC),
  (0x4E98, 0xD0E6),
  (0x4E9B, 0xDEC1),
  (0x4E9E, 0xE4AC),
  (0x4EA1, 0xD8CC_F9F1),
  (0x4EA4, 0xCEDF_FAA4_E6B2),
  (0x4EA8, 0xFAFB),
  (0x4EAB, 0xFABD_CCC8_EFCD_D5D5),
  (0x4EB6, 0xD3A2),
  (0x4EBA, 0xECD1),
  (0x4EC0, 0xE4A7_ECD2),
  (0x4EC4, 0xF6B1),
  (0x4EC7, 0xCEFB),
  (0x4ECA, 0xD0D1_CBBF),
  (0x4ECD, 0xEDA4),
  (0x4ED4, 0xEDA8_DEC2_F6E2_EDDC_DCF5_E0B9),
  (0x4EDD, 0xD4CE),
  (0x4EDF, 0xF4B5),
  (0x4EE3, 0xD3DB_D6B5_ECA4),
  (0x4EF0, 0xE4E6),
  (0x4EF2, 0xF1EA),
  (0x4EF6, 0xCBEC_CBC0),
  (0x4EFB, 0xECF2),
  (0x4F01, 0xD0EA),
  (0x4F09, 0xF9F2_ECA5_D0DF),
  (0x4F0D, 0xE7EA_D0EB_DCD1_DBE9_FDCC),
  (0x4F2F, 0xDBD7),
  (0x4F34, 0xDAE1),
  (0x4F36, 0xD6B6),
  (0x4F38, 0xE3DF),
  (0x4F3A, 0xDEC3),
  (0x4F3C, 0xDEC4_CAA1),
  (0x4F43, 0xEEEC),
  (0x4F46, 0xD3A3_EEB7_F8CF),
  (0x4F4D, 0xEAC8_EEB8_F1AC_F1A5_E9CE),
  (0x4F55, 0xF9BC),
  (0x4F59, 0xE5F9_ECEA_DDD6_EDC2),
  (0x4F69, 0xF8A5),
  (0x4F6F, 0xE5BA_DBD8),
  (0x4F73, 0xCAA2),
  (0x4F76, 0xD1CD),
  (0x4F7A, 0xEEED),
  (0x4F7E, 0xECEB_DEC5),
  (0x4F81, 0xE3E0),
  (0x4F83, 0xCAC9_F2E9),
  (0x4F86, 0xD5CE),
  (0x4F88, 0xF6B6),
  (0x4F8A, 0xCEC2_D6C7),
  (0x4F8D, 0xE3B4),
  (0x4F8F, 0xF1AD),
  (0x4F91, 0xEAE2),
  (0x4F96, 0xD7C2),
  (0x4F98, 0xF3A7),
  (0x4F9B, 0xCDEA),
  (0x4F9D, 0xEBEE),
  (0x4FAE, 0xD9B2_FDA5),
  (0x4FB5, 0xF6D5_D5E2),
  (0x4FBF, 0xF8B5),
  (0x4FC2, 0xCCF5_F5B5_E4AD),
  (0x4FC9, 0xE7EB_F1D5),
  (0x4FCE, 0xF0BB),
  (0x4FD1, 0xE9B5),
  (0x4FD3, 0xCCC9_FAD5),
  (0x4FD7, 0xE1D4),
  (0x4FDA, 0xD7D6),
  (0x4FDD, 0xDCC1),
  (0x4FDF, 0xDEC6_FAEF_E3E1),
  (0x4FEE, 0xE1F3_DCF6),
  (0x4FF1, 0xCEFC),
  (0x4FF3, 0xDBC4),
  (0x4FF5, 0xF8F1),
  (0x4FF8, 0xDCE4),
  (0x4FFA, 0xE5EF),
  (0x5002, 0xDCB1),
  (0x5006, 0xD5D6),
  (0x5009, 0xF3DA),
  (0x500B, 0xCBC1),
  (0x500D, 0xDBC3),
  (0x5011, 0xD9FA_D3EE),
  (0x5016, 0xFAB8),
  (0x5019, 0xFDA6_EBEF),
  (0x501C, 0xF4A6),
  (0x501E, 0xCCCA_F3A8),
  (0x5021, 0xF3DB),
  (0x5023, 0xDBA7_F6B7),
  (0x5026, 0xCFE6_F0F2_CBDA),
  (0x502A, 0xE7D2_D7C3_F6F0_E8DE),
  (0x503B, 0xE5A6),
  (0x5043, 0xE5E7),
  (0x5047, 0xCAA3_CCA7_EAC9),
  (0x504F, 0xF8B6),
  (0x5055, 0xFAA5),
  (0x505A, 0xF1AE),
  (0x505C, 0xEFCE),
  (0x5065, 0xCBED),
  (0x5074, 0xF6B0_EFCF_E9CF),
  (0x5078, 0xF7DE),
  (0x5080, 0xCED3),
  (0x5085, 0xDCF7),
  (0x508D, 0xDBA8),
  (0x5091, 0xCBF8),
  (0x5098, 0xDFA1_DDE1),
  (0x50AC, 0xF5CA_E9B6),
  (0x50B2, 0xE7EC_EEEE),
  (0x50B5, 0xF3F0),
  (0x50B7, 0xDFBF),
  (0x50BE, 0xCCCB),
  (0x50C5, 0xD0C1),
  (0x50C9, 0xF4D2_E0BA),
  (0x50CF, 0xDFC0),
  (0x50D1, 0xCEE0),
  (0x50D5, 0xDCD2_FDEA),
  (0x50DA, 0xD6F6),
  (0x50DE, 0xEACA),
  (0x50E5, 0xE8E9),
  (0x50E7, 0xE3AC),
  (0x50ED, 0xF3D0),
  (0x50F9, 0xCAA4),
  (0x50FB, 0xDBF8),
  (0x50FF, 0xDEC7_EBF0_F1D6),
  (0x5104, 0xE5E2),
  (0x5106, 0xCCCC),
  (0x5109, 0xCBFB),
  (0x5112, 0xEAE3),
  (0x511F, 0xDFC1),
  (0x5121, 0xD6ED),
  (0x512A, 0xE9D0),
  (0x5132, 0xEEB9),
  (0x5137, 0xD5E3),
  (0x513A, 0xD1D3),
  (0x513C, 0xE5F0),
  (0x5140, 0xE8B4_EBC3),
  (0x5143, 0xEAAA_FAFC_F5F6_F0BC_FDD4_E0BB_CEC3),
  (0x514B, 0xD0BA_F7BA_D8F3_F7CD),
  (0x5152, 0xE4AE),
  (0x515C, 0xD4DF),
  (0x5162, 0xD0E7),
  (0x5165, 0xECFD),
  (0x5167, 0xD2AE_EEEF_D5D7_EAE4_F8A2_CDEB_D7BF_FBB1),
  (0x5171, 0xCDEC),
  (0x5175, 0xDCB2_D0EC_CEFD_EEF0),
  (0x517C, 0xCCC2),
  (0x5180, 0xD0ED),
  (0x5186, 0xE5F7),
  (0x518A, 0xF3FC),
  (0x518D, 0xEEA2),
  (0x5192, 0xD9B3),
  (0x5195, 0xD8F4),
  (0x5197, 0xE9B7),
  (0x51A0, 0xCEAE),
  (0x51A5, 0xD9A2),
  (0x51AA, 0xD8F1),
  (0x51AC, 0xD4CF),
  (0x51B6, 0xE5A7_D5D2),
  (0x51BD, 0xD6A9),
  (0x51C4, 0xF4A2),
  (0x51C6, 0xF1D7),
  (0x51C9, 0xD5D8),
  (0x51CB, 0xF0BD_D7D0_D4D0),
  (0x51DC, 0xD7CF_EBEA_FDEB),
  (0x51E1, 0xDBED),
  (0x51F0, 0xFCC5_CBC2),
  (0x51F6, 0xFDD5),
  (0x51F8, 0xF4C8_E8EA_F5F3),
  (0x51FD, 0xF9DE),
  (0x5200, 0xD3EF),
  (0x5203, 0xECD3),
  (0x5206, 0xDDC2_EFB7_E7D4),
  (0x520A, 0xCACA),
  (0x520E, 0xD9FB),
  (0x5211, 0xFAFD),
  (0x5217, 0xD6AA),
  (0x521D, 0xF4F8),
  (0x5224, 0xF7F7_DCAC),
  (0x5229, 0xD7D7_DFA2),
  (0x522E, 0xCEBE),
  (0x5230, 0xD3F0),
  (0x5236, 0xF0A4_E1EC_CFE7_F3CB_EDA9_CABE),
  (0x5243, 0xF4EF),
  (0x5247, 0xF6CE),
  (0x524A, 0xDEFB_D0BB_D5B7_EEF1),
  (0x5254, 0xF4A8),
  (0x5256, 0xDCF8),
  (0x525B, 0xCBA7),
  (0x525D, 0xDACE),
  (0x5261, 0xE0E6),
  (0x5269, 0xEDA5_EEF2),
  (0x526F, 0xDCF9),
  (0x5272, 0xF9DC),
  (0x5275, 0xF3DC),
  (0x527D, 0xF8F2),
  (0x527F, 0xF4F9),
  (0x5283, 0xFCF1),
  (0x5287, 0xD0BC_DBF9_D7B1),
  (0x528D, 0xCBFC),
  (0x5291, 0xF0A5_CBFD),
  (0x529B, 0xD5F4),
  (0x529F, 0xCDED_CAA5),
  (0x52A3, 0xD6AB_D0C2),
  (0x52A9, 0xF0BE_D2BD_CCA4),
  (0x52BE, 0xFAB6),
  (0x52C1, 0xCCCD),
  (0x52C3, 0xDAFA),
  (0x52C5, 0xF6CF),
  (0x52C7, 0xE9B8),
  (0x52C9, 0xD8F5),
  (0x52CD, 0xCCCE),
  (0x52D2, 0xD7CD),
  (0x52D5, 0xD4D1_E9ED),
  (0x52D8, 0xCAEB_D9E2),
  (0x52DB, 0xFDB2),
  (0x52DD, 0xE3AD_D6CC_D9B4),
  (0x52E2, 0xE1A7_EED3_D0C3),
  (0x52F3, 0xFDB3),
  (0x52F5, 0xD5E4),
  (0x52F8, 0xCFE8),
  (0x52FA, 0xEDC3_D0B2),
  (0x52FE, 0xCEFE_DAA8),
  (0x5305, 0xF8D0),
  (0x5308, 0xFDD6),
  (0x530D, 0xF8D1),
  (0x530F, 0xF8D2_DCD3),
  (0x5315, 0xDDE2_FBF9_DDC1),
  (0x5319, 0xE3B5),
  (0x5320, 0xEDDD_CEC4),
  (0x5323, 0xCBA1),
  (0x532A, 0xDDE3),
  (0x532F, 0xFCDD),
  (0x5339, 0xF9AF),
  (0x533F, 0xD2FB_CFA1_E4A8),
  (0x5343, 0xF4B6_ECFE),
  (0x5347, 0xE3AE_E7ED_FDC1_DAE2),
  (0x534D, 0xD8B3),
  (0x5351, 0xDDE4_F0EF_F6F1_FAF0),
  (0x5357, 0xD1F5),
  (0x535A, 0xDACF),
  (0x535C, 0xDCD4),
  (0x535E, 0xDCA6),
  (0x5360, 0xEFBF),
  (0x5366, 0xCECF),
  (0x5368, 0xE0D9),
  (0x536F, 0xD9D6_ECD4_EACB),
  (0x5374, 0xCABF_D5B0),
  (0x5377, 0xCFE9),
  (0x537D, 0xF1ED),
  (0x537F, 0xCCCF),
  (0x5384, 0xE4F8),
  (0x5393, 0xE4ED),
  (0x5398, 0xD7D8),
  (0x539A, 0xFDA7),
  (0x539F, 0xEAAB_F6B2),
  (0x53A5, 0xCFF0_F9BD),
  (0x53AD, 0xE6F4),
  (0x53BB, 0xCBDB),
  (0x53C3, 0xF3D1),
  (0x53C8, 0xE9D1_F3A9_D0E0_E9D2),
  (0x53CD, 0xDAE3),
  (0x53D4, 0xE2D2),
  (0x53D6, 0xF6A2_E1F4),
  (0x53DB, 0xDAE4),
  (0x53E1, 0xE7D5_F5BF_CFA2_CDAF_CFA3),
  (0x53E9, 0xCDB0_F1FE_D0A3_E1AF_F8A3),
  (0x53EF, 0xCAA6_F7BB_F2EA_DEC8_E9D3),
  (0x53F8, 0xDEC9),
  (0x5403, 0xFDDE_CAC0),
  (0x5408, 0xF9EA_D1CE_EED4),
  (0x540C, 0xD4D2_D9A3_FDA8_D7D9_F7CE_FABE),
  (0x541B, 0xCFD6),
  (0x541D, 0xD7F0),
  (0x541F, 0xEBE1_F8C5),
  (0x5426, 0xDCFA),
  (0x5429, 0xDDC3),
  (0x542B, 0xF9DF),
  (0x5433, 0xE7EF),
  (0x5438, 0xFDE5_F6A3),
  (0x543B, 0xD9FC_FDA9),
  (0x543E, 0xE7EE),
  (0x5442, 0xD5E5),
  (0x5448, 0xEFD0),
  (0x544A, 0xCDB1),
  (0x5451, 0xF7A2),
  (0x5468, 0xF1B2),
  (0x546A, 0xF1B1),
  (0x5471, 0xCDB2),
  (0x5473, 0xDAAB),
  (0x5475, 0xCAA7),
  (0x547B, 0xE3E2_FBBC_D9A4),
  (0x5480, 0xEEBA),
  (0x5486, 0xF8D3),
  (0x548C, 0xFBFA),
  (0x548E, 0xCFA4),
  (0x5490, 0xDCFB),
  (0x54A4, 0xF6E3),
  (0x54A8, 0xEDAA),
  (0x54AB, 0xF2A1_CEE1),
  (0x54B3, 0xFAA6),
  (0x54B8, 0xF9E0),
  (0x54BD, 0xECD6),
  (0x54C0, 0xE4EE_F9A1),
  (0x54C4, 0xFBEF),
  (0x54C8, 0xF9EB_EEA3),
  (0x54E1, 0xEAAC),
  (0x54E5, 0xCAA8),
  (0x54E8, 0xF4FA),
  (0x54ED, 0xCDD6_FCF6),
  (0x54F2, 0xF4C9),
  (0x54FA, 0xF8D4),
  (0x5504, 0xF8A6),
  (0x5506, 0xDECA_F2C6),
  (0x550E, 0xD7DA),
  (0x5510, 0xD3D0),
  (0x551C, 0xD8C5),
  (0x552F, 0xEAE6),
  (0x5531, 0xF3DD),
  (0x5535, 0xE4DA),
  (0x553E, 0xF6E4),
  (0x5544, 0xF6F2),
  (0x5546, 0xDFC2),
  (0x554F, 0xD9FD),
  (0x5553, 0xCCF6),
  (0x5556, 0xD3BA),
  (0x555E, 0xE4AF),
  (0x5563, 0xF9E1),
  (0x557C, 0xF0A6),
  (0x5580, 0xCBD3),
  (0x5584, 0xE0BC),
  (0x5586, 0xF4CA_D4FA),
  (0x5589, 0xFDAA_F9E2),
  (0x5598, 0xF4B7_FDC2_FCB0),
  (0x559C, 0xFDEC_CAE2),
  (0x55A7, 0xFDBD),
  (0x55A9, 0xEAE7_DFC3_D1D2_CEE2),
  (0x55AE, 0xD3A4),
  (0x55C5, 0xFDAB),
  (0x55C7, 0xDFE0),
  (0x55D4, 0xF2C7),
  (0x55DA, 0xE7F0),
  (0x55DC, 0xD0EE),
  (0x55DF, 0xF3AA),
  (0x55E3, 0xDECB_F6B8),
  (0x55FD, 0xE1F5_F1B3),
  (0x5606, 0xF7A3),
  (0x5609, 0xCAA9),
  (0x5614, 0xCFA5),
  (0x5617, 0xDFC4),
  (0x562F, 0xE1B0),
  (0x5632, 0xF0BF),
  (0x5634, 0xF6A4),
  (0x5636, 0xE3B6),
  (0x5653, 0xFAC6),
  (0x5668, 0xD0EF),
  (0x566B, 0xFDED),
  (0x5674, 0xDDC4),
  (0x5686, 0xFCF7),
  (0x56A5, 0xE6BF),
  (0x56AC, 0xDEAD),
  (0x56AE, 0xFABF),
  (0x56B4, 0xE5F1),
  (0x56BC, 0xEDC4),
  (0x56CA, 0xD2A5),
  (0x56CD, 0xFDEE),
  (0x56D1, 0xF5B6),
  (0x56DA, 0xE1F6_DECC),
  (0x56DE, 0xFCDE),
  (0x56E0, 0xECD7),
  (0x56F0, 0xCDDD),
  (0x56F9, 0xD6B7_CDB3),
  (0x5703, 0xF8D5_E5D8),
  (0x5708, 0xCFEA),
  (0x570B, 0xCFD0),
  (0x570D, 0xEACC),
  (0x5712, 0xEAAE_EAAD),
  (0x5716, 0xD3F1),
  (0x5718, 0xD3A5),
  (0x571F, 0xF7CF),
  (0x5728, 0xEEA4),
  (0x572D, 0xD0A4),
  (0x5730, 0xF2A2),
  (0x573B, 0xD0F0),
  (0x5740, 0xF2A3),
  (0x5742, 0xF7F8),
  (0x5747, 0xD0B3),
  (0x574A, 0xDBA9),
  (0x574D, 0xD3BB_CAEC),
  (0x5750, 0xF1A6_CBD5),
  (0x5761, 0xF7E7),
  (0x5764, 0xCDDE),
  (0x5766, 0xF7A4),
  (0x576A, 0xF8C0),
  (0x576E, 0xD3DD),
  (0x5770, 0xCCD0),
  (0x5775, 0xCFA6),
  (0x577C, 0xF6F3),
  (0x5782, 0xE1F7),
  (0x5788, 0xD3DC),
  (0x578B, 0xFAFE),
  (0x5793, 0xFAA7),
  (0x57A0, 0xEBD9),
  (0x57A2, 0xCFA7_EAAF),
  (0x57C3, 0xE4EF),
  (0x57C7, 0xE9B9_F1D8),
  (0x57CB, 0xD8D8),
  (0x57CE, 0xE0F2),
  (0x57DF, 0xE6B4_DCFC),
  (0x57F0, 0xF3F1),
  (0x57F4, 0xE3D0),
  (0x57F7, 0xF2FB),
  (0x57F9, 0xDBC6_D0F1),
  (0x57FC, 0xD0F2),
  (0x5800, 0xCFDC),
  (0x5802, 0xD3D1),
  (0x5805, 0xCCB1_F7D8),
  (0x5808, 0xCBA8_EBBC_E4BE),
  (0x581E, 0xF4DC),
  (0x5821, 0xDCC2),
  (0x5824, 0xF0A7),
  (0x5827, 0xE6C0),
  (0x582A, 0xCAED),
  (0x582F, 0xE8EB_E5E8_DCC3),
  (0x5834, 0xEDDE_D3F2),
  (0x583A, 0xCCF7),
  (0x584A, 0xCED4_E7AB),
  (0x584F, 0xCBC3),
  (0x5851, 0xE1B1),
  (0x5854, 0xF7B2),
  (0x5857, 0xD3F3_D3D2),
  (0x585A, 0xF5C0),
  (0x585E, 0xDFDD),
  (0x5861, 0xEEF3_E7F1),
  (0x5864, 0xFDB4),
  (0x5875, 0xF2C8),
  (0x5879, 0xF3D2),
  (0x587C, 0xEEF4),
  (0x587E, 0xE2D3),
  (0x5883, 0xCCD1),
  (0x5885, 0xDFEA),
  (0x5889, 0xE9BA),
  (0x5893, 0xD9D7),
  (0x589C, 0xF5CD),
  (0x589E, 0xF1F2_FAC7),
  (0x58A8, 0xD9F8_D4C2),
  (0x58AE, 0xF6E5),
  (0x58B3, 0xDDC5),
  (0x58BA, 0xE7F2_EDDF),
  (0x58BE, 0xCACB),
  (0x58C1, 0xDBFA),
  (0x58C5, 0xE8B5),
  (0x58C7, 0xD3A6),
  (0x58CE, 0xFDB5),
  (0x58D1, 0xF9C9),
  (0x58D3, 0xE4E2),
  (0x58D5, 0xFBBD),
  (0x58D8, 0xD7A4_CEC5),
  (0x58DE, 0xCED5_D6E6),
  (0x58E4, 0xE5BD),
  (0x58EB, 0xDECD_ECF3),
  (0x58EF, 0xEDE0),
  (0x58F9, 0xECEC_FBBE_DFEB),
  (0x58FD, 0xE1F8),
  (0x590F, 0xF9BE),
  (0x5914, 0xD0F3_E0AA_E8E2),
  (0x5919, 0xE2D4_D2FD),
  (0x591C, 0xE5A8),
  (0x5922, 0xD9D3),
  (0x5927, 0xD3DE),
  (0x5929, 0xF4B8_F7BC_DCFD),
  (0x592D, 0xE8EC_E4E7),
  (0x5931, 0xE3F7),
  (0x5937, 0xECA8),
  (0x593E, 0xFAF1),
  (0x5944, 0xE5F2),
  (0x5947, 0xD0F4_D2AF_DCE5),
  (0x594E, 0xD0A5_F1B4_FCB1_CCF8),
  (0x5954, 0xDDC6_FAD1),
  (0x5957, 0xF7DF),
  (0x595A, 0xFAA8),
  (0x5960, 0xEEF5),
  (0x5962, 0xDECE),
  (0x5967, 0xE7F3),
  (0x596A, 0xF7AC_EBC4_EDE1_E0AB_DDC7),
  (0x5973, 0xD2B3_D2BF),
  (0x5978, 0xCACC),
  (0x597D, 0xFBBF),
  (0x5982, 0xE5FD_DDE5_D8CD),
  (0x598A, 0xECF4),
  (0x5993, 0xD0F5),
  (0x5996, 0xE8ED_D0D2),
  (0x5999, 0xD9D8),
  (0x59A5, 0xF6E6),
  (0x59A8, 0xDBAA),
  (0x59AC, 0xF7E0),
  (0x59B9, 0xD8D9),
  (0x59BB, 0xF4A3),
  (0x59BE, 0xF4DD),
  (0x59C3, 0xEFD1),
  (0x59C6, 0xD9B5),
  (0x59C9, 0xEDAB),
  (0x59CB, 0xE3B7),
  (0x59D0, 0xEEBB_CDB4),
  (0x59D3, 0xE0F3_EACD),
  (0x59D9, 0xECF5_E8EE),
  (0x59DC, 0xCBA9_F1AF),
  (0x59E6, 0xCACD),
  (0x59E8, 0xECA9),
  (0x59EA, 0xF2EB),
  (0x59EC, 0xFDEF),
  (0x59EE, 0xF9F3),
  (0x59F8, 0xE6C1),
  (0x59FB, 0xECD8),
  (0x59FF, 0xEDAC),
  (0x5A01, 0xEACE),
  (0x5A03, 0xE8DF),
  (0x5A11, 0xDECF),
  (0x5A18, 0xD2A6),
  (0x5A1B, 0xE7F4_D1D6),
  (0x5A1F, 0xE6C2_E3E3),
  (0x5A25, 0xE4B0),
  (0x5A29, 0xD8B4),
  (0x5A36, 0xF6A5),
  (0x5A3C, 0xF3DE),
  (0x5A41, 0xD7A5),
  (0x5A46, 0xF7E8),
  (0x5A49, 0xE8C6),
  (0x5A5A, 0xFBE6),
  (0x5A62, 0xDDE6),
  (0x5A66, 0xDCFE),
  (0x5A92, 0xD8DA),
  (0x5A9A, 0xDAAC_EAB0),
  (0x5AA4, 0xE3B8),
  (0x5AC1, 0xCAAA_E1F9),
  (0x5AC4, 0xEAB1),
  (0x5AC9, 0xF2EC),
  (0x5ACC, 0xFAEE),
  (0x5AE1, 0xEED5),
  (0x5AE6, 0xF9F4),
  (0x5AE9, 0xD2EC),
  (0x5B05, 0xFBFB),
  (0x5B09, 0xFDF0),
  (0x5B0B, 0xE0BD_CEE3),
  (0x5B16, 0xF8C6),
  (0x5B2A, 0xDEAE),
  (0x5B40, 0xDFC5),
  (0x5B43, 0xE5BE),
  (0x5B50, 0xEDAD_FAEA),
  (0x5B54, 0xCDEE_EDA6),
  (0x5B57, 0xEDAE_F0ED),
  (0x5B5A, 0xDDA1),
  (0x5B5C, 0xEDAF_FCF8),
  (0x5B5F, 0xD8EB),
  (0x5B63, 0xCCF9_CDB5),
  (0x5B69, 0xFAA9),
  (0x5B6B, 0xE1DD),
  (0x5B70, 0xE2D5_EDCF),
  (0x5B75, 0xDDA2),
  (0x5B78, 0xF9CA),
  (0x5B7A, 0xEAE8),
  (0x5B7C, 0xE5ED),
  (0x5B85, 0xD3EB),
  (0x5B87, 0xE9D4_E1FA_E4CC),
  (0x5B8B, 0xE1E4_E8C7),
  (0x5B8F, 0xCEDB),
  (0x5B93, 0xDCD5),
  (0x5B95, 0xF7B5_FCF3_F0F3_CEAF_F1B5_EFD2_E8C8_EBF1),
  (0x5BA2, 0xCBD4_E0BE_E3F8_EAE9_FCB2),
  (0x5BAC, 0xE0F4),
  (0x5BAE, 0xCFE0),
  (0x5BB0, 0xEEA5),
  (0x5BB3, 0xFAAA_E6C3_E1B2_CAAB),
  (0x5BB8, 0xE3E4_E9BB),
  (0x5BBF, 0xE2D6_F3F2),
  (0x5BC2, 0xEED6_EAB2_D0F6_ECD9_DACB_CFA8),
  (0x5BCC, 0xDDA3),
  (0x5BD0, 0xD8DB),
  (0x5BD2, 0xF9CE_E9D5_E3D1),
  (0x5BD7, 0xD2BC),
  (0x5BDE, 0xD8AC_F3CC),
  (0x5BE1, 0xCDFB_F6D6),
  (0x5BE4, 0xE7F5_E8EF_E3F9_D2BB_F3F3_E3FB),
  (0x5BEB, 0xDED0_CEB0),
  (0x5BEE, 0xD6F7_F1D9),
  (0x5BF5, 0xF5C1_DCC4),
  (0x5BF8, 0xF5BB),
  (0x5BFA, 0xDED1),
  (0x5C01, 0xDCE6),
  (0x5C04, 0xDED2),
  (0x5C07, 0xEDE2_EEF6_EACF_F0EE_E3FC),
  (0x5C0D, 0xD3DF_D3F4_E1B3),
  (0x5C11, 0xE1B4),
  (0x5C16, 0xF4D3),
  (0x5C19, 0xDFC6),
  (0x5C24, 0xE9D6),
  (0x5C28, 0xDBAB),
  (0x5C31, 0xF6A6),
  (0x5C38, 0xE3B9_EBC5_F4A9_CDB6_D2F9),
  (0x5C3E, 0xDAAD_D2E3_CFD1),
  (0x5C45, 0xCBDC_CCFA),
  (0x5C48, 0xCFDD),
  (0x5C4B, 0xE8A9),
  (0x5C4D, 0xE3BB_E3BA),
  (0x5C51, 0xE0DA),
  (0x5C55, 0xEEF7),
  (0x5C5B, 0xDCB3),
  (0x5C60, 0xD3F5),
  (0x5C62, 0xD7A6),
  (0x5C64, 0xF6B5_D7DB),
  (0x5C6C, 0xE1D5),
  (0x5C6F, 0xD4EA),
  (0x5C71, 0xDFA3),
  (0x5C79, 0xFDDF),
  (0x5C90, 0xD0F7_EDD4),
  (0x5CA1, 0xCBAA),
  (0x5CA9, 0xE4DB),
  (0x5CAB, 0xE1FB_CBA2),
  (0x5CB1, 0xD3E0),
  (0x5CB3, 0xE4BF),
  (0x5CB5, 0xFBC0),
  (0x5CB7, 0xDABE_E4CD),
  (0x5CBA, 0xD6B9),
  (0x5CBE, 0xEFC0),
  (0x5CC0, 0xE1FC),
  (0x5CD9, 0xF6B9),
  (0x5CE0, 0xDFC7),
  (0x5CE8, 0xE4B1),
  (0x5CEF, 0xDCE7_DCE8),
  (0x5CF4, 0xFAD6),
  (0x5CF6, 0xD3F6),
  (0x5CFB, 0xF1DA),
  (0x5CFD, 0xFAF2),
  (0x5D07, 0xE2FD),
  (0x5D0D, 0xD5CF_D0F8),
  (0x5D11, 0xCDDF),
  (0x5D14, 0xF5CB),
  (0x5D16, 0xE4F0_CBAB),
  (0x5D19, 0xD7C4),
  (0x5D27, 0xE2FE),
  (0x5D29, 0xDDDA),
  (0x5D4B, 0xDAAE_CAEE),
  (0x5D50, 0xD5B9),
  (0x5D69, 0xE3A1),
  (0x5D6C, 0xE8E3),
  (0x5D6F, 0xF3AB),
  (0x5D87, 0xCFA9),
  (0x5D8B, 0xD3F7),
  (0x5D9D, 0xD4F1),
  (0x5DA0, 0xCEE4),
  (0x5DA2, 0xE8F2),
  (0x5DAA, 0xE5F5),
  (0x5DB8, 0xE7AE),
  (0x5DBA, 0xD6BA),
  (0x5DBC, 0xDFEC_E4C0),
  (0x5DCD, 0xE8E4),
  (0x5DD2, 0xD8B5),
  (0x5DD6, 0xE4DC),
  (0x5DDD, 0xF4B9_F1B6),
  (0x5DE1, 0xE2DE_E1B5),
  (0x5DE5, 0xCDEF_F1A7_CEE5_CBDD),
  (0x5DEB, 0xD9E3),
  (0x5DEE, 0xF3AC),
  (0x5DF1, 0xD0F9_ECAB_DED3_F7E9),
  (0x5DF7, 0xF9F5),
  (0x5DFD, 0xE1DE_CBEE),
  (0x5E02, 0xE3BC_F8D6),
  (0x5E06, 0xDBEE),
  (0x5E0C, 0xFDF1),
  (0x5E11, 0xF7B6),
  (0x5E16, 0xF4DE),
  (0x5E19, 0xF2ED),
  (0x5E1B, 0xDBD9),
  (0x5E1D, 0xF0A8),
  (0x5E25, 0xE1FD),
  (0x5E2B, 0xDED4),
  (0x5E2D, 0xE0AC),
  (0x5E33, 0xEDE3),
  (0x5E36, 0xD3E1),
  (0x5E38, 0xDFC8),
  (0x5E3D, 0xD9B6),
  (0x5E3F, 0xFDAC_EFD3),
  (0x5E44, 0xE4C1_F8EB),
  (0x5E47, 0xDBAC),
  (0x5E4C, 0xFCC6),
  (0x5E55, 0xD8AD),
  (0x5E5F, 0xF6BA),
  (0x5E61, 0xDBDF_D3D3_F8C7),
  (0x5E72, 0xCACE_F8C1_D2B4),
  (0x5E77, 0xDCB4_FAB9_CACF),
  (0x5E7B, 0xFCB3_EAEA_EAEB_D0FA),
  (0x5E84, 0xEDE4),
  (0x5E87, 0xDDE7),
  (0x5E8A, 0xDFC9),
  (0x5E8F, 0xDFED),
  (0x5E95, 0xEEBC),
  (0x5E97, 0xEFC1),
  (0x5E9A, 0xCCD2),
  (0x5E9C, 0xDDA4),
  (0x5EA0, 0xDFCA),
  (0x5EA6, 0xD3F8_F1A8),
  (0x5EAB, 0xCDB7),
  (0x5EAD, 0xEFD4),
  (0x5EB5, 0xE4DD_DFEE_CBAC_E9BC),
  (0x5EBE, 0xEAEC),
  (0x5EC2, 0xDFCB),
  (0x5EC8, 0xF9BF_D6AF_D5C6),
  (0x5ED0, 0xCFAA),
  (0x5ED3, 0xCEA9),
  (0x5ED6, 0xD6F8),
  (0x5EDA, 0xF1B7_EEF8),
  (0x5EDF, 0xD9D9_F3DF),
  (0x5EE2, 0xF8C8_CEC6),
  (0x5EEC, 0xD5E6),
  (0x5EF3, 0xF4E6),
  (0x5EF6, 0xE6C5_EFD5),
  (0x5EFA, 0xCBEF_FCDF),
  (0x5F01, 0xDCA7),
  (0x5F04, 0xD6E7),
  (0x5F0A, 0xF8C9),
  (0x5F0F, 0xE3D2),
  (0x5F11, 0xE3BD),
  (0x5F13, 0xCFE1_F0C0_ECDA),
  (0x5F17, 0xDDD7_FBF0),
  (0x5F1B, 0xECAC),
  (0x5F1F, 0xF0A9),
  (0x5F26, 0xFAD7_FBC1),
  (0x5F29, 0xD2C0),
  (0x5F31, 0xE5B0),
  (0x5F35, 0xEDE5),
  (0x5F3A, 0xCBAD),
  (0x5F3C, 0xF9B0),
  (0x5F48, 0xF7A5),
  (0x5F4A, 0xCBAE),
  (0x5F4C, 0xDAAF),
  (0x5F4E, 0xD8B6),
  (0x5F56, 0xD3A7_FBB2),
  (0x5F59, 0xFDC4),
  (0x5F5B, 0xECAD),
  (0x5F62, 0xFBA1),
  (0x5F66, 0xE5E9_E9EE),
  (0x5F69, 0xF3F4_F8F3_F0C1_DEAF_F8B0),
  (0x5F70, 0xF3E0_E7AF),
  (0x5F77, 0xDBAD),
  (0x5F79, 0xE6B5),
  (0x5F7C, 0xF9A8),
  (0x5F7F, 0xDDD8_E8D9_EFD6),
  (0x5F85, 0xD3E2),
  (0x5F87, 0xE2DF),
  (0x5F8A, 0xFCE0_D7C8_FDAD),
  (0x5F90, 0xDFEF_CCD3_D3F9),
  (0x5F97, 0xD4F0_DBC7_DED5),
  (0x5F9E, 0xF0F4),
  (0x5FA0, 0xD5D0_E5D9),
  (0x5FA8, 0xFCC7_DCD6_E2E0),
  (0x5FAE, 0xDAB0),
  (0x5FB5, 0xF3A3),
  (0x5FB7, 0xD3EC),
  (0x5FB9, 0xF4CB),
  (0x5FBD, 0xFDC5),
  (0x5FC3, 0xE3FD),
  (0x5FC5, 0xF9B1),
  (0x5FCC, 0xD0FB_ECDB),
  (0x5FD6, 0xF5BC_F2A4_D8CE_D8CF),
  (0x5FE0, 0xF5F7),
  (0x5FEB, 0xF6E1),
  (0x5FF5, 0xD2B7),
  (0x5FFD, 0xFBEC),
  (0x5FFF, 0xDDC8),
  (0x600F, 0xE4E8),
  (0x6012, 0xD2C1),
  (0x6016, 0xF8D7),
  (0x601C, 0xD6BB_DED6),
  (0x6020, 0xF7BD_ECAE),
  (0x6025, 0xD0E1),
  (0x6027, 0xE0F5_EAB3),
  (0x602A, 0xCED6),
  (0x602F, 0xCCA5),
  (0x6041, 0xECF6_E2E1_E3BE),
  (0x604D, 0xFCC8),
  (0x6050, 0xCDF0),
  (0x6052, 0xF9F6),
  (0x6055, 0xDFF0),
  (0x6059, 0xE5BF),
  (0x605D, 0xCEBF),
  (0x6062, 0xFCE1_EDB0_FDD1_F6BB),
  (0x6068, 0xF9CF_EBDA_CAC1),
  (0x606C, 0xD2B8_CDF1),
  (0x606F, 0xE3D3_FDE6),
  (0x6085, 0xE6ED),
  (0x6089, 0xE3FA),
  (0x608C, 0xF0AA_F9D0),
  (0x6094, 0xFCE2),
  (0x6096, 0xF8A7),
  (0x609A, 0xE1E5_EEF9),
  (0x609F, 0xE7F6_EAED),
  (0x60A3, 0xFCB4_F5C2),
  (0x60A7, 0xD7DC),
  (0x60B0, 0xF0F5),
  (0x60B2, 0xDDE8_D3ED_F5FC),
  (0x60B6, 0xDABF),
  (0x60B8, 0xCCFB),
  (0x60BC, 0xD3FA_F4A4),
  (0x60C5, 0xEFD7),
  (0x60C7, 0xD4C3),
  (0x60D1, 0xFBE3),
  (0x60DA, 0xFBED),
  (0x60DC, 0xE0AD),
  (0x60DF, 0xEAEE_FBB3_E4C2),
  (0x60F0, 0xF6E7_D2DD),
  (0x60F3, 0xDFCC),
  (0x60F6, 0xFCC9),
  (0x60F9, 0xE5A9_E0F6_F6B3),
  (0x6101, 0xE1FE),
  (0x6106, 0xCBF0),
  (0x6108, 0xEAEF_EAF0),
  (0x610D, 0xDAC0_F8B4_EBF2),
  (0x6115, 0xE4C3),
  (0x611A, 0xE9D7_E4F1),
  (0x611F, 0xCAEF),
  (0x6127, 0xCED7),
  (0x6130, 0xFCCA),
  (0x6134, 0xF3E1),
  (0x6137, 0xCBC4),
  (0x613C, 0xE3E5),
  (0x613E, 0xCBC5_EAB4),
  (0x6142, 0xE9BD),
  (0x6144, 0xD7C9),
  (0x6147, 0xEBDB_EDB1),
  (0x614A, 0xCCC3_F7BE_FCCB),
  (0x6153, 0xF8F4),
  (0x6155, 0xD9B7),
  (0x6158, 0xF3D3_F3D4),
  (0x615D, 0xF7E4),
  (0x615F, 0xF7D1),
  (0x6162, 0xD8B7_CEB1_CAC2),
  (0x6167, 0xFBB4_CBC6),
  (0x616B, 0xF0F6),
  (0x616E, 0xD5E7),
  (0x6170, 0xEAD0),
  (0x6176, 0xCCD4_CBAF),
  (0x617D, 0xF4AA_E9AF),
  (0x6181, 0xF5C3_E9D8),
  (0x618A, 0xDDE9),
  (0x618E, 0xF1F3),
  (0x6190, 0xD5FB_DEBB),
  (0x6194, 0xF4FB),
  (0x6198, 0xFDF3_FDF2_F7A6),
  (0x61A4, 0xDDC9),
  (0x61A7, 0xD4D3),
  (0x61A9, 0xCCA8),
  (0x61AB, 0xDAC1_CCD5),
  (0x61AE, 0xD9E4),
  (0x61B2, 0xFACA),
  (0x61B6, 0xE5E3),
  (0x61BA, 0xD3BC),
  (0x61BE, 0xCAF0),
  (0x61C3, 0xD0C4),
  (0x61C7, 0xCAD0_FAAB_EBEB_E7F8_D9E5),
  (0x61E6, 0xD1D7),
  (0x61F2, 0xF3A4),
  (0x61F6, 0xD4FB_FCE3_FAD8),
  (0x61FA, 0xF3D5),
  (0x61FC, 0xCFAB),
  (0x61FF, 0xEBF3_D5FC),
  (0x6207, 0xD3D4_CDFC),
  (0x620A, 0xD9E6),
  (0x620C, 0xE2F9_E2A1_EBD4),
  (0x6210, 0xE0F7_E4B2_CCFC),
  (0x6216, 0xFBE4),
  (0x621A, 0xF4AB),
  (0x621F, 0xD0BD),
  (0x6221, 0xCAF1),
  (0x622A, 0xEFB8),
  (0x622E, 0xD7C0),
  (0x6230, 0xEEFA_FDF4),
  (0x6234, 0xD3E3),
  (0x6236, 0xFBC2),
  (0x623E, 0xD5E8_DBAE_E1B6_F8B7),
  (0x6247, 0xE0BF_FBC3_DDEA),
  (0x624B, 0xE2A2),
  (0x624D, 0xEEA6),
  (0x6253, 0xF6E8),
  (0x6258, 0xF6F5),
  (0x626E, 0xDDCA),
  (0x6271, 0xD0E2),
  (0x6276, 0xDDA6),
  (0x6279, 0xDDEB),
  (0x627C, 0xE4F9),
  (0x627F, 0xE3AF_D0FC),
  (0x6284, 0xF4FC),
  (0x6289, 0xCCBC_F7EA),
  (0x6291, 0xE5E4_DFF1),
  (0x6295, 0xF7E1),
  (0x6297, 0xF9F7_EFB9),
  (0x629B, 0xF8D8),
  (0x62AB, 0xF9A9),
  (0x62B1, 0xF8D9),
  (0x62B5, 0xEEBD),
  (0x62B9, 0xD8C6),
  (0x62BC, 0xE4E3_F5CE),
  (0x62C2, 0xDDD9),
  (0x62C7, 0xD9E7_D2B9_D5C3),
  (0x62CC, 0xDAE5_DAD0),
  (0x62CF, 0xD1D9_CED8),
  (0x62D2, 0xCBDE_F4AC_DAFB),
  (0x62D6, 0xF6E9_E8F3_CFAC_F0F0),
  (0x62DB, 0xF4FD_DBC8),
  (0x62EC, 0xCEC0_E3D4_D1CF_F1F5),
  (0x62F1, 0xCDF2),
  (0x62F3, 0xCFEB),
  (0x62F7, 0xCDB8),
  (0x62FE, 0xE3A6_D1DA),
  (0x6301, 0xF2A5),
  (0x6307, 0xF2A6),
  (0x6309, 0xE4CE),
  (0x6311, 0xD3FB),
  (0x632B, 0xF1A9),
  (0x632F, 0xF2C9),
  (0x633A, 0xEFD8_E6C9),
  (0x633D, 0xD8B8_FAF3),
  (0x6349, 0xF3B5),
  (0x634C, 0xF8A4),
  (0x634F, 0xD1F3_E6C8),
  (0x6355, 0xF8DA),
  (0x6367, 0xDCE9_DED7),
  (0x636E, 0xCBDF),
  (0x6372, 0xCFEC),
  (0x6377, 0xF4DF),
  (0x637A, 0xD1F4_D2BA),
  (0x637F, 0xDFF2),
  (0x6383, 0xE1B7),
  (0x6388, 0xE2A3_D3FC),
  (0x638C, 0xEDE6),
  (0x6392, 0xDBC9),
  (0x6396, 0xE4FA),
  (0x6398, 0xCFDE),
  (0x639B, 0xCED0),
  (0x63A0, 0xD5D3_F3F5_F7AE),
  (0x63A5, 0xEFC8),
  (0x63A7, 0xCDF3_F5CF_E5F3_F0C2),
  (0x63C0, 0xCAD1),
  (0x63C4, 0xEAF1),
  (0x63C6, 0xD0A6),
  (0x63CF, 0xD9DA_F0AB),
  (0x63D6, 0xEBE7),
  (0x63DA, 0xE5C0_FCB5),
  (0x63E1, 0xE4C4),
  (0x63ED, 0xCCA9_FDC6),
  (0x63F4, 0xEAB5),
  (0x63F6, 0xE5AA_DFBA),
  (0x640D, 0xE1DF),
  (0x640F, 0xDAD1),
  (0x6414, 0xE1B8),
  (0x6416, 0xE8F4_D3FD),
  (0x641C, 0xE2A4),
  (0x6422, 0xF2CA),
  (0x642C, 0xDAE6_F7B3),
  (0x643A, 0xFDCD),
  (0x643E, 0xF3B6),
  (0x6458, 0xEED7),
  (0x6460, 0xF5C4),
  (0x6469, 0xD8A4),
  (0x646F, 0xF2A7),
  (0x6478, 0xD9B8_D9B9_EFC9),
  (0x6488, 0xD6CE),
  (0x6491, 0xF7CB_DFAE_E8F5),
  (0x649A, 0xD2B5),
  (0x649E, 0xD3D5),
  (0x64A4, 0xF4CC_DAFC),
  (0x64AB, 0xD9E8),
  (0x64AD, 0xF7EB_F5C9),
  (0x64B0, 0xF3BC),
  (0x64B2, 0xDAD2),
  (0x64BB, 0xD3B5),
  (0x64C1, 0xE8B6),
  (0x64C4, 0xD6CF_F4BA),
  (0x64C7, 0xF7C9),
  (0x64CA, 0xCCAA),
  (0x64CD, 0xF0C3_CCD6),
  (0x64D2, 0xD0D3),
  (0x64D4, 0xD3BD),
  (0x64D8, 0xDBFB),
  (0x64DA, 0xCBE0),
  (0x64E1, 0xD3E4_F6F7),
  (0x64E5, 0xD5BA_F3CD_CBE1),
  (0x64EC, 0xEBF4),
  (0x64F2, 0xF4AD),
  (0x64F4, 0xFCAA),
  (0x64FA, 0xF7EC),
  (0x64FE, 0xE8F6),
  (0x6500, 0xDAE7),
  (0x6504, 0xF7CC),
  (0x6518, 0xE5C1),
  (0x651D, 0xE0EE),
  (0x6523, 0xD5FD),
  (0x652A, 0xCEE6_FCAB_D5BB),
  (0x652F, 0xF2A8),
  (0x6536, 0xE2A5_CDB9_EAF2_CBC7),
  (0x653B, 0xCDF4),
  (0x653E, 0xDBAF_EFD9),
  (0x6545, 0xCDBA),
  (0x6548, 0xFCF9),
  (0x654D, 0xDFF3_CEE7_DAC2),
  (0x6551, 0xCFAD),
  (0x6556, 0xE7F9_F8A8),
  (0x655E, 0xF3E2),
  (0x6562, 0xCAF2_DFA4),
  (0x6566, 0xD4C4),
  (0x656C, 0xCCD7_E5C2),
  (0x6572, 0xCDBB),
  (0x6574, 0xEFDA_EED8),
  (0x6577, 0xDDA7_E2A6),
  (0x657E, 0xE0C0),
  (0x6582, 0xD6B0_F8CA),
  (0x6585, 0xFCFA),
  (0x6587, 0xD9FE),
  (0x658C, 0xDEB0),
  (0x6590, 0xDDEC_DAE8),
  (0x6597, 0xD4E0),
  (0x6599, 0xD6F9),
  (0x659B, 0xCDD7_DED8),
  (0x659F, 0xF2F8),
  (0x65A1, 0xE4D6),
  (0x65A4, 0xD0C5_F4AE),
  (0x65A7, 0xDDA8),
  (0x65AB, 0xEDC5_F3D6),
  (0x65AF, 0xDED9_E3E6),
  (0x65B7, 0xD3A8),
  (0x65B9, 0xDBB0),
  (0x65BC, 0xE5DA_E3BF),
  (0x65C1, 0xDBB1),
  (0x65C5, 0xD5E9),
  (0x65CB, 0xE0C1_EFDB),
  (0x65CF, 0xF0E9),
  (0x65D2, 0xD7B2),
  (0x65D7, 0xD0FD),
  (0x65E0, 0xD9E9),
  (0x65E3, 0xD0FE),
  (0x65E5, 0xECED_D3A9),
  (0x65E8, 0xF2A9_F0C4),
  (0x65EC, 0xE2E2_E9EF),
  (0x65F1, 0xF9D1),
  (0x65F4, 0xE9D9),
  (0x65FA, 0xE8DA_DAC3_DAC4_D4C5),
  (0x65FF, 0xE7FA),
  (0x6606, 0xCDE0_E3B0),
  (0x6609, 0xDBB2_FBC4),
  (0x660C, 0xF3E3),
  (0x660E, 0xD9A5_FBE7_DDCB_D0D4),
  (0x6613, 0xE6B6_E0AE_FDDA),
  (0x661E, 0xDCB5_E0F8_E7B1),
  (0x6625, 0xF5F0),
  (0x6627, 0xD8DC_EDC6),
  (0x662D, 0xE1B9),
  (0x662F, 0xE3C0_F9C0_E9F0),
  (0x6634, 0xD9DB),
  (0x6636, 0xF3E4),
  (0x663A, 0xDCB6_E4E9),
  (0x6641, 0xF0C5_E3C1_FCCC_FCCD),
  (0x6649, 0xF2CB),
  (0x664B, 0xF2CC),
  (0x664F, 0xE4CF),
  (0x6659, 0xF1DB),
  (0x665B, 0xFAD9),
  (0x665D, 0xF1B8_FDF5_E0F9),
  (0x6664, 0xE7FB_FCB7_FCE4_FBC5_E3E7_D8B9),
  (0x666B, 0xF6F8),
  (0x666E, 0xDCC5_CCD8),
  (0x6673, 0xE0AF_F4E7),
  (0x6676, 0xEFDC_CFFC_EFDD),
  (0x667A, 0xF2AA),
  (0x6684, 0xFDBE),
  (0x6687, 0xCAAC_FDBB_FDC7),
  (0x668E, 0xE7B2),
  (0x6690, 0xEAD1_DFF4),
  (0x6696, 0xD1EC_E4DE_E5C3),
  (0x669D, 0xD9A6),
  (0x66A0, 0xCDBC),
  (0x66A2, 0xF3E5),
  (0x66AB, 0xEDD5),
  (0x66AE, 0xD9BA),
  (0x66B2, 0xEDE7_FBB5_F8EC),
  (0x66B9, 0xE0E7),
  (0x66BB, 0xCCD9),
  (0x66BE, 0xD4C6),
  (0x66C4, 0xE7A5),
  (0x66C6, 0xD5F5_D3BE),
  (0x66C9, 0xFCFB),
  (0x66D6, 0xE4F2),
  (0x66D9, 0xDFF5),
  (0x66DC, 0xE8F8_F8ED),
  (0x66E0, 0xCEC7),
  (0x66E6, 0xFDF6),
  (0x66F0, 0xE8D8),
  (0x66F2, 0xCDD8_E7D6_CCDA),
  (0x66F7, 0xCAE3_DFF6_F0C7_F0C6),
  (0x66FC, 0xD8BA),
  (0x66FE, 0xF1F4_F4F0_F5CC),
  (0x6703, 0xFCE5),
  (0x6708, 0xEAC5_EAF3),
  (0x670B, 0xDDDB),
  (0x670D, 0xDCD7),
  (0x6714, 0xDEFD_F2F9),
  (0x6717, 0xD5C7),
  (0x671B, 0xD8D0),
  (0x671D, 0xF0C8_D1A1_D1A2),
  (0x6726, 0xD9D4_D6E8_D9CA),
  (0x672A, 0xDAB1_D8C7_DCE2_F3CE_F5F4),
  (0x6731, 0xF1B9),
  (0x6734, 0xDAD3),
  (0x6736, 0xF6EA),
  (0x673A, 0xCFF5),
  (0x673D, 0xFDAE),
  (0x6746, 0xCAD2),
  (0x6749, 0xDFB4),
  (0x674E, 0xD7DD_FABA_EEA7_F5BD),
  (0x6753, 0xF8F5),
  (0x6756, 0xEDE8),
  (0x675C, 0xD4E1),
  (0x675E, 0xD1A3_E1D6),
  (0x676D, 0xF9F8),
  (0x676F, 0xDBCA_CBF9_D4D4),
  (0x6773, 0xD9DC),
  (0x6775, 0xEEBE),
  (0x6777, 0xF7ED),
  (0x677B, 0xD2EE),
  (0x677E, 0xE1E6_F7F9),
  (0x6787, 0xDDED),
  (0x6789, 0xE8DB),
  (0x678B, 0xDBB3),
  (0x678F, 0xD1F7_E0B0),
  (0x6793, 0xD4E2),
  (0x6795, 0xF6D7),
  (0x6797, 0xD7F9),
  (0x679A, 0xD8DD),
  (0x679C, 0xCDFD_F2AB),
  (0x67AF, 0xCDBD_F8C2),
  (0x67B3, 0xF2AC),
  (0x67B6, 0xCAAD_CAAE_CFAE),
  (0x67BE, 0xE3C2),
  (0x67C4, 0xDCB7),
  (0x67CF, 0xDBDA_D9BB_CAF3_F6D3_E6F8_EAF5),
  (0x67DA, 0xEAF6),
  (0x67DD, 0xF6F9),
  (0x67E9, 0xCFAF),
  (0x67EC, 0xCAD3),
  (0x67EF, 0xCAAF_D2B0_F1BA),
  (0x67F3, 0xD7B3_E3C3_F3FD_DEDA),
  (0x67FB, 0xDEDB),
  (0x67FE, 0xEFDE),
  (0x6812, 0xE2E3_EEFB),
  (0x6816, 0xDFF7_D7CA),
  (0x6821, 0xCEE8_DBDB),
  (0x682A, 0xF1BB),
  (0x682F, 0xE9F1),
  (0x6838, 0xFAB7_D0C6),
  (0x683C, 0xCCAB_EEA8),
  (0x6840, 0xCBFA_F9F9_CCFD_D3FE),
  (0x6848, 0xE4D0),
  (0x684E, 0xF2EE),
  (0x6850, 0xD4D5_DFCD),
  (0x6853, 0xFCB8_D1D0),
  (0x686D, 0xF2CD),
  (0x6876, 0xF7D2),
  (0x687F, 0xCAD4),
  (0x6881, 0xD5D9),
  (0x6885, 0xD8DE),
  (0x688F, 0xCDD9),
  (0x6893, 0xEEA9_F6BC),
  (0x6897, 0xCCDB),
  (0x689D, 0xF0C9),
  (0x689F, 0xFCFC),
  (0x68A1, 0xE8C9_F4FE),
  (0x68A7, 0xE7FC_D7DE),
  (0x68AD, 0xDEDC),
  (0x68AF, 0xF0AC_CCFE_CDE1),
  (0x68B3, 0xE1BA),
  (0x68B5, 0xDBEF_DAB2),
  (0x68C4, 0xD1A5_DCB8),
  (0x68C9, 0xD8F6),
  (0x68CB, 0xD1A4),
  (0x68CD, 0xCDE2),
  (0x68D2, 0xDCEA),
  (0x68D5, 0xF0F7),
  (0x68D7, 0xF0CA_D0BE),
  (0x68DA, 0xDDDC),
  (0x68DF, 0xD4D6_D3D6),
  (0x68E7, 0xEDD0_CDA1),
  (0x68EE, 0xDFB5),
  (0x68F2, 0xDFF8),
  (0x68F9, 0xD4A1_CEB2),
  (0x6900, 0xE8CA),
  (0x6905, 0xEBF5),
  (0x690D, 0xE3D5_F5D0),
  (0x6912, 0xF5A1),
  (0x6927, 0xD9A7),
  (0x6930, 0xE5AB),
  (0x693D, 0xE6CB),
  (0x693F, 0xF5F1),
  (0x694A, 0xE5C5),
  (0x6953, 0xF9A3_E0DB_F6EB),
  (0x6957, 0xCBF1),
  (0x6959, 0xD9EA_F5A2),
  (0x695E, 0xD7D1),
  (0x6960, 0xD1F8_EAF8_EAF9_DAB3),
  (0x6968, 0xEFDF),
  (0x696B, 0xF1EF),
  (0x696D, 0xE5F6_EEBF_E2E4),
  (0x6975, 0xD0BF),
  (0x6977, 0xFAAC_F5D1_E7B3),
  (0x6995, 0xE9BE),
  (0x699B, 0xF2CE_DBB4),
  (0x69A5, 0xFCCE),
  (0x69A7, 0xDDEE),
  (0x69AE, 0xE7B4),
  (0x69B4, 0xD7B4),
  (0x69BB, 0xF7B4),
  (0x69C1, 0xCDBE),
  (0x69C3, 0xDAE9),
  (0x69CB, 0xCFB0_F7D9_F3E6),
  (0x69D0, 0xCED9),
  (0x69E8, 0xCEAA),
  (0x69EA, 0xCBC8),
  (0x69FB, 0xD0A7),
  (0x69FD, 0xF0CB),
  (0x69FF, 0xD0C7),
  (0x6A02, 0xE4C5),
  (0x6A0A, 0xDBE0),
  (0x6A11, 0xD5DA),
  (0x6A13, 0xD7A7),
  (0x6A17, 0xEEC0),
  (0x6A19, 0xF8F6),
  (0x6A1E, 0xF5D2_EDE9),
  (0x6A21, 0xD9BC),
  (0x6A23, 0xE5C6),
  (0x6A35, 0xF5A3),
  (0x6A38, 0xDAD4_E2A7_FBFC),
  (0x6A3D, 0xF1DC),
  (0x6A44, 0xCAF4),
  (0x6A48, 0xE8FA),
  (0x6A4B, 0xCEE9),
  (0x6A52, 0xE9F8_E2E5),
  (0x6A58, 0xD0B9_D4F2),
  (0x6A5F, 0xD1A6),
  (0x6A61, 0xDFCE),
  (0x6A6B, 0xFCF4),
  (0x6A80, 0xD3AA),
  (0x6A84, 0xCCAC),
  (0x6A89, 0xEFE0),
  (0x6A8D, 0xE5E5_D0D5),
  (0x6A97, 0xDBFC),
  (0x6A9C, 0xFCE6),
  (0x6AA2, 0xCBFE_EDEA),
  (0x6AB3, 0xDEB1),
  (0x6ABB, 0xF9E3),
  (0x6AC2, 0xD4A2_CFF6),
  (0x6AD3, 0xD6D0),
  (0x6ADA, 0xD5EA_F1EE),
  (0x6AF6, 0xFACB),
  (0x6AFB, 0xE5A1),
  (0x6B04, 0xD5B1),
  (0x6B0A, 0xCFED),
  (0x6B0C, 0xEDEB),
  (0x6B12, 0xD5B2),
  (0x6B16, 0xD5BC),
  (0x6B20, 0xFDE2_F3AD),
  (0x6B23, 0xFDDB),
  (0x6B32, 0xE9B0),
  (0x6B3A, 0xD1A7),
  (0x6B3D, 0xFDE3_CEB3),
  (0x6B46, 0xFDE4_FACE),
  (0x6B4C, 0xCAB0),
  (0x6B4E, 0xF7A7),
  (0x6B50, 0xCFB1),
  (0x6B5F, 0xE6A2),
  (0x6B61, 0xFCB6_F2AD_EFE1_F3AE_DCC6_D9EB),
  (0x6B6A, 0xE8E0),
  (0x6B72, 0xE1A8),
  (0x6B77, 0xD5F6_CFFD),
  (0x6B7B, 0xDEDD),
  (0x6B7F, 0xD9D1),
  (0x6B83, 0xE4EA_F2CF),
  (0x6B86, 0xF7BF),
  (0x6B89, 0xE2E6_E2A8),
  (0x6B96, 0xE3D6),
  (0x6B98, 0xEDD1),
  (0x6B9E, 0xE9F9),
  (0x6BAE, 0xD6B1_DEB2),
  (0x6BB2, 0xE0E8),
  (0x6BB5, 0xD3AB),
  (0x6BB7, 0xEBDC),
  (0x6BBA, 0xDFAF),
  (0x6BBC, 0xCAC3),
  (0x6BBF, 0xEEFC),
  (0x6BC1, 0xFDC3),
  (0x6BC5, 0xEBF6_CFB2),
  (0x6BCB, 0xD9EC),
  (0x6BCD, 0xD9BD),
  (0x6BCF, 0xD8DF),
  (0x6BD2, 0xD4B8_EBBE_DDEF),
  (0x6BD6, 0xDDF0_DDF1_DDF2),
  (0x6BDB, 0xD9BE),
  (0x6BEB, 0xFBC6_CFB3),
  (0x6C08, 0xEEFD),
  (0x6C0F, 0xE4AB),
  (0x6C11, 0xDAC5),
  (0x6C13, 0xD8EC),
  (0x6C23, 0xD1A8),
  (0x6C34, 0xE2A9),
  (0x6C37, 0xDEBC_E7B5),
  (0x6C3E, 0xDBF0),
  (0x6C40, 0xEFE2_F1F0_CFB4),
  (0x6C4E, 0xDBF1),
  (0x6C50, 0xE0B1),
  (0x6C55, 0xDFA5),
  (0x6C57, 0xF9D2),
  (0x6C5A, 0xE7FD),
  (0x6C5D, 0xE6A3_FBF1_CBB0_F2AE),
  (0x6C68, 0xCDE7),
  (0x6C6A, 0xE8DC),
  (0x6C6D, 0xE7D7),
  (0x6C70, 0xF7C0),
  (0x6C72, 0xD0E3),
  (0x6C76, 0xDAA1),
  (0x6C7A, 0xCCBD),
  (0x6C7D, 0xD1A9_DDCC),
  (0x6C81, 0xE3FE_D1AA_E8AA),
  (0x6C85, 0xEAB6_F9FA_E6CC_F6D8),
  (0x6C8C, 0xD4C7),
  (0x6C90, 0xD9CB),
  (0x6C92, 0xD9D2_D3CB_D8F7_DAA9_F5F8),
  (0x6C99, 0xDEDE_F2AF_F8A9),
  (0x6CAB, 0xD8C8),
  (0x6CAE, 0xEEC1),
  (0x6CB3, 0xF9C1),
  (0x6CB8, 0xDDF3_EAFA),
  (0x6CBB, 0xF6BD_E1BB_CDBF_F4D4_E6CD),
  (0x6CC1, 0xFCCF_FBA2),
  (0x6CC4, 0xE0DC),
  (0x6CC9, 0xF4BB_DAD5),
  (0x6CCC, 0xF9B2),
  (0x6CD3, 0xFBF2),
  (0x6CD5, 0xDBF6),
  (0x6CD7, 0xDEDF),
  (0x6CDB, 0xDBF2),
  (0x6CE1, 0xF8DC_F7EE_EBE8),
  (0x6CE5, 0xD2FA),
  (0x6CE8, 0xF1BC),
  (0x6CEB, 0xFADA),
  (0x6CEE, 0xDAEA_DAC6_F7C1),
  (0x6CF3, 0xE7B6),
  (0x6D0B, 0xE5C7_D6AC),
  (0x6D11, 0xDCC7),
  (0x6D17, 0xE1A9),
  (0x6D19, 0xE2AA),
  (0x6D1B, 0xD5A6),
  (0x6D1E, 0xD4D7),
  (0x6D25, 0xF2D0),
  (0x6D27, 0xEAFB),
  (0x6D29, 0xE0DD_FBF3),
  (0x6D32, 0xF1BD),
  (0x6D35, 0xE2E7_FDD7),
  (0x6D38, 0xCEC8_EAB7),
  (0x6D3B, 0xFCC0),
  (0x6D3D, 0xFDE7_F7EF),
  (0x6D41, 0xD7B5),
  (0x6D59, 0xEFBA_F1DD),
  (0x6D5C, 0xDEB3),
  (0x6D63, 0xE8CB),
  (0x6D66, 0xF8DD),
  (0x6D69, 0xFBC7_D5C8),
  (0x6D6C, 0xD7DF),
  (0x6D6E, 0xDDA9),
  (0x6D74, 0xE9B1),
  (0x6D77, 0xFAAD_F6D9_FAF4),
  (0x6D7F, 0xF8AA),
  (0x6D85, 0xE6EE),
  (0x6D87, 0xCCDC_E1BC_E0EF),
  (0x6D8C, 0xE9BF_FCFD_E6CE),
  (0x6D91, 0xE1D7),
  (0x6D93, 0xE6CF),
  (0x6D95, 0xF4F1),
  (0x6DAF, 0xE4F3),
  (0x6DB2, 0xE4FB),
  (0x6DB5, 0xF9E4),
  (0x6DC0, 0xEFE3),
  (0x6DC3, 0xCFEE_F6BE_E0B2_FCFE_D1AB),
  (0x6DCB, 0xD7FA),
  (0x6DCF, 0xFBC8),
  (0x6DD1, 0xE2D7),
  (0x6DD8, 0xD4A3_F0F8_D7A8),
  (0x6DDE, 0xE1E7),
  (0x6DE1, 0xD3BF),
  (0x6DE8, 0xEFE4),
  (0x6DEA, 0xD7C5_EBE2),
  (0x6DEE, 0xFCE7),
  (0x6DF1, 0xE4A2),
  (0x6DF3, 0xE2E8),
  (0x6DF5, 0xE6D0),
  (0x6DF7, 0xFBE8_F4E8_E5F4_F4BC_F4D5),
  (0x6E17, 0xDFB6),
  (0x6E19, 0xFCB9_EEC2_CAF5),
  (0x6E1F, 0xEFE5_CBE2_D4A4),
  (0x6E23, 0xDEE0_DAFD_E4C6_E8BE),
  (0x6E2B, 0xE0DE_F6B4_EAD2),
  (0x6E2F, 0xF9FB),
  (0x6E32, 0xE0C2),
  (0x6E34, 0xCAE4),
  (0x6E36, 0xE7B7),
  (0x6E38, 0xEAFD),
  (0x6E3A, 0xD9DD),
  (0x6E3C, 0xDAB4_EEAA_FBE9),
  (0x6E43, 0xDBCB_DAB5),
  (0x6E4A, 0xF1BE),
  (0x6E4D, 0xD3AC),
  (0x6E56, 0xFBC9),
  (0x6E58, 0xDFCF),
  (0x6E5B, 0xD3C0_E3D7),
  (0x6E5E, 0xEFE6_FCD0),
  (0x6E67, 0xE9C0),
  (0x6E6B, 0xF5D3),
  (0x6E6E, 0xECDC_F7B7),
  (0x6E72, 0xEAB8_D1F9),
  (0x6E7A, 0xDCC8),
  (0x6E90, 0xEAB9),
  (0x6E96, 0xF1DE),
  (0x6E9C, 0xD7B6_CFB5),
  (0x6E9F, 0xD9A8),
  (0x6EA2, 0xECEE),
  (0x6EA5, 0xDDAA),
  (0x6EAA, 0xCDA2_E8AE),
  (0x6EAF, 0xE1BD),
  (0x6EB1, 0xF2D1),
  (0x6EB6, 0xE9C1),
  (0x6EBA, 0xD2FC),
  (0x6EC2, 0xDBB5),
  (0x6EC4, 0xF3E7_D8FE),
  (0x6EC9, 0xFCD1),
  (0x6ECB, 0xEDB2_F4AF),
  (0x6ECE, 0xFBA3),
  (0x6ED1, 0xFCC1),
  (0x6ED3, 0xEEAB_D4A5),
  (0x6EEF, 0xF4F2),
  (0x6EF4, 0xEED9),
  (0x6EF8, 0xFBCA),
  (0x6EFE, 0xCDE3_D8BB),
  (0x6F01, 0xE5DB_F8F7),
  (0x6F06, 0xF6D4),
  (0x6F0F, 0xD7A9),
  (0x6F11, 0xCBC9),
  (0x6F14, 0xE6D1_F0CC),
  (0x6F20, 0xD8AE),
  (0x6F22, 0xF9D3_D5FE),
  (0x6F2B, 0xD8BC_F2B0),
  (0x6F31, 0xE2AB_F3E8),
  (0x6F38, 0xEFC2),
  (0x6F3F, 0xEDEC),
  (0x6F41, 0xE7B8),
  (0x6F51, 0xDAFE),
  (0x6F54, 0xCCBE),
  (0x6F57, 0xF2FC_DAEB),
  (0x6F5A, 0xE2D8_EDD6),
  (0x6F5E, 0xD6D1_E0B3),
  (0x6F62, 0xFCD2),
  (0x6F64, 0xEBC8),
  (0x6F6D, 0xD3C1_F0CD),
  (0x6F70, 0xCFF7),
  (0x6F7A, 0xEDD2),
  (0x6F7C, 0xD4D8_DCC9_D7F1),
  (0x6F81, 0xDFBB),
  (0x6F84, 0xF3A5),
  (0x6F88, 0xF4CD),
  (0x6F8D, 0xF1BF_F8B1),
  (0x6F90, 0xE9FA),
  (0x6F94, 0xFBCB),
  (0x6F97, 0xCAD5),
  (0x6FA3, 0xF9D4_F7CA),
  (0x6FA7, 0xD6C8),
  (0x6FAE, 0xFCE8_F3BD),
  (0x6FB1, 0xEEFE),
  (0x6FB3, 0xE7FE),
  (0x6FB9, 0xD3C2),
  (0x6FBE, 0xD3B6),
  (0x6FC0, 0xCCAD_F6FA_D6B2_D2D8),
  (0x6FCA, 0xE7D8),
  (0x6FD5, 0xE3A5),
  (0x6FDA, 0xE7B9),
  (0x6FDF, 0xF0AD_FBCC_EBA1),
  (0x6FE4, 0xD4A6),
  (0x6FE9, 0xFBCD),
  (0x6FEB, 0xD5BD_F1DF),
  (0x6FEF, 0xF6FB),
  (0x6FF1, 0xDEB4),
  (0x6FFE, 0xD5EB),
  (0x7001, 0xE5C8),
  (0x7005, 0xFBA4_D4B9),
  (0x7009, 0xDEE1),
  (0x700B, 0xE4A3),
  (0x700F, 0xD7B7),
  (0x7011, 0xF8EE),
  (0x7015, 0xDEB5),
  (0x7018, 0xD6D2),
  (0x701A, 0xF9D5_E7BA_EBD5_D5F7_EFE7_E1BE),
  (0x7023, 0xFAAE),
  (0x7027, 0xD6E9_D6EE),
  (0x702F, 0xE7BB),
  (0x7037, 0xECCB),
  (0x703E, 0xD5B3),
  (0x704C, 0xCEB4),
  (0x7050, 0xFBA5_E1EE),
  (0x7058, 0xF7A8),
  (0x705D, 0xFBCE),
  (0x7063, 0xD8BD),
  (0x706B, 0xFBFD),
  (0x7070, 0xFCE9),
  (0x7078, 0xCFB6),
  (0x707C, 0xEDC7_EEAC),
  (0x7085, 0xCCDD),
  (0x708A, 0xF6A7),
  (0x708E, 0xE6FA),
  (0x7092, 0xF5A4),
  (0x7098, 0xFDDC_EDB3_CEC9),
  (0x70A1, 0xEFE8),
  (0x70A4, 0xE1BF),
  (0x70AB, 0xFADB_CBE3_F7A9),
  (0x70AF, 0xFBA6),
  (0x70B3, 0xDCB9),
  (0x70B7, 0xF1C0_EDC8_EFC3),
  (0x70C8, 0xD6AD),
  (0x70CB, 0xFDCE),
  (0x70CF, 0xE8A1),
  (0x70D8, 0xFBF4_D5A7),
  (0x70DD, 0xF1F6),
  (0x70DF, 0xE6D3),
  (0x70F1, 0xCCDE),
  (0x70F9, 0xF8B2),
  (0x70FD, 0xDCEB),
  (0x7104, 0xFDB6),
  (0x7109, 0xE5EA),
  (0x710C, 0xF1E0),
  (0x7119, 0xDBCC_DDCD),
  (0x711E, 0xD4C8),
  (0x7121, 0xD9ED),
  (0x7126, 0xF5A5),
  (0x7130, 0xE6FB),
  (0x7136, 0xE6D4),
  (0x7147, 0xFDC8),
  (0x7149, 0xD6A1_FDBF),
  (0x714C, 0xFCD3),
  (0x714E, 0xEFA1),
  (0x7150, 0xE7BC),
  (0x7156, 0xD1EE),
  (0x7159, 0xE6D5),
  (0x715C, 0xE9F2),
  (0x715E, 0xDFB0),
  (0x7164, 0xD8E0_FCBA_FDAF_F0CE),
  (0x7169, 0xDBE1),
  (0x716C, 0xE5C9),
  (0x716E, 0xEDB4),
  (0x717D, 0xE0C3),
  (0x7184, 0xE3D8),
  (0x7189, 0xE9FB_EAA8),
  (0x718F, 0xFDB7),
  (0x7192, 0xFBA7),
  (0x7194, 0xE9C2),
  (0x7199, 0xFDF7),
  (0x719F, 0xE2D9),
  (0x71A2, 0xDCEC),
  (0x71AC, 0xE8A2),
  (0x71B1, 0xE6F0),
  (0x71B9, 0xFDF8_FDF9),
  (0x71BE, 0xF6BF),
  (0x71C1, 0xE7A7),
  (0x71C3, 0xE6D7),
  (0x71C8, 0xD4F3_D4C9),
  (0x71CE, 0xD6FA),
  (0x71D0, 0xD7F2),
  (0x71D2, 0xE1C0),
  (0x71D4, 0xDBE2_E6D8),
  (0x71DF, 0xE7BD),
  (0x71E5, 0xF0CF_F3BE_E2AC),
  (0x71ED, 0xF5B7_E0F0),
  (0x71FB, 0xFDB8_E3E8),
  (0x71FE, 0xD4A7_E8FC_FAD2),
  (0x7206, 0xF8EF),
  (0x7210, 0xD6D3),
  (0x721B, 0xD5B4),
  (0x722A, 0xF0D0),
  (0x722C, 0xF7F0_EEB3),
  (0x7230, 0xEABA),
  (0x7232, 0xEAD3),
  (0x7235, 0xEDC9_DDAB),
  (0x723A, 0xE5AC_FDA1),
  (0x723D, 0xDFD0_ECB3),
  (0x7240, 0xDFD1),
  (0x7246, 0xEDED_F8B8_F7FA),
  (0x724C, 0xF8AB),
  (0x7252, 0xF4E0),
  (0x7258, 0xD4BA_E4B3),
  (0x725B, 0xE9DA),
  (0x725D, 0xDEB6),
  (0x725F, 0xD9BF),
  (0x7261, 0xD9C0_D6EF),
  (0x7267, 0xD9CC),
  (0x7269, 0xDAAA),
  (0x7272, 0xDFE5),
  (0x7279, 0xF7E5),
  (0x727D, 0xCCB2),
  (0x7280, 0xDFF9_D7E0),
  (0x72A2, 0xD4BB),
  (0x72A7, 0xFDFA),
  (0x72AC, 0xCCB3),
  (0x72AF, 0xDBF3),
  (0x72C0, 0xDFD2),
  (0x72C2, 0xCECA),
  (0x72C4, 0xEEDA),
  (0x72CE, 0xE4E4),
  (0x72D0, 0xFBCF),
  (0x72D7, 0xCFB7),
  (0x72D9, 0xEEC3),
  (0x72E1, 0xCEEA),
  (0x72E9, 0xE2AD),
  (0x72F8, 0xD7E1_FAF5),
  (0x72FC, 0xD5C9_F8AC),
  (0x730A, 0xE7D9),
  (0x7316, 0xF3E9),
  (0x731B, 0xD8ED_E3C4_F0F1),
  (0x7325, 0xE8E5),
  (0x7329, 0xE0FA_EEC4_D9DE),
  (0x7336, 0xEBA2_EBA3),
  (0x733E, 0xFCC2_EABB),
  (0x7344, 0xE8AB_DEE2),
  (0x7350, 0xEDEF),
  (0x7352, 0xE8A3),
  (0x7357, 0xCFF1),
  (0x7368, 0xD4BC),
  (0x736A, 0xFCEA),
  (0x7370, 0xE7BE),
  (0x7372, 0xFCF2),
  (0x7375, 0xD6B4),
  (0x7378, 0xE2AE),
  (0x737A, 0xD3B7_FACC),
  (0x7384, 0xFADC),
  (0x7386, 0xEDB5_E1E3),
  (0x7389, 0xE8AC),
  (0x738B, 0xE8DD),
  (0x738E, 0xEFE9),
  (0x7394, 0xF4BD),
  (0x7396, 0xCFB8_E9DB_D1AC),
  (0x739F, 0xDAC7),
  (0x73A7, 0xEBC9),
  (0x73A9, 0xE8CC),
  (0x73AD, 0xDEB7),
  (0x73B2, 0xD6BC_D3E5),
  (0x73B9, 0xFADD),
  (0x73C0, 0xDAD6),
  (0x73C2, 0xCAB1),
  (0x73C9, 0xDAC8_DFA6),
  (0x73CC, 0xF9B3_F2D2),
  (0x73CF, 0xCAC4),
  (0x73D6, 0xCECB),
  (0x73D9, 0xCDF5),
  (0x73DD, 0xFDB0_D5A8),
  (0x73E0, 0xF1C1),
  (0x73E3, 0xE2E9_DCCA_ECB4_FAC0),
  (0x73E9, 0xFBA8_D0A8),
  (0x73ED, 0xDAEC),
  (0x73F7, 0xD9EE),
  (0x73F9, 0xE0FB),
  (0x73FD, 0xEFEA_FADE),
  (0x7401, 0xE0C4),
  (0x7403, 0xCFB9),
  (0x7405, 0xD5CA_D7E2_E2AF),
  (0x7409, 0xD7B8),
  (0x7413, 0xE8CD),
  (0x741B, 0xF6DA),
  (0x7420, 0xEFA2_E2DA_F6FC),
  (0x7425, 0xFBD0_D1AD),
  (0x7428, 0xCDE4),
  (0x742A, 0xD1AE_DCED_E8CE),
  (0x742E, 0xF0F9_CEB5_E6FC),
  (0x7433, 0xD7FB_D0D6_DDF5_F7F1),
  (0x7438, 0xF6FD),
  (0x743A, 0xDBF7),
  (0x743F, 0xFBEA_E9DC_D9C1),
  (0x7443, 0xF5F2_E0C5),
  (0x744B, 0xEAD4),
  (0x7455, 0xF9C2),
  (0x7457, 0xEABC),
  (0x7459, 0xD2C5_FBD1_E7C0_EBA5),
  (0x745E, 0xDFFA_E3A2_D7B9),
  (0x7462, 0xE9C3),
  (0x7464, 0xE8FD_E8AF),
  (0x7468, 0xF2D3_FBA9_D8A5),
  (0x746F, 0xD5CB),
  (0x747E, 0xD0C8),
  (0x7482, 0xD1AF_D7E3),
  (0x7487, 0xE0C6),
  (0x7489, 0xD6A2),
  (0x748B, 0xEDF0),
  (0x7498, 0xD7F3),
  (0x749C, 0xFCD4),
  (0x749E, 0xDAD7_CCDF),
  (0x74A1, 0xF2D4),
  (0x74A3, 0xD1B0),
  (0x74A5, 0xCCE0),
  (0x74A7, 0xDBFD_F3BF),
  (0x74AA, 0xF0D1),
  (0x74B0, 0xFCBB),
  (0x74B2, 0xE2B0),
  (0x74B5, 0xE6A5),
  (0x74B9, 0xE2DB),
  (0x74BD, 0xDFDE),
  (0x74BF, 0xE0C7),
  (0x74C6, 0xF2EF),
  (0x74CA, 0xCCE1),
  (0x74CF, 0xD6EA),
  (0x74D4, 0xE7C2),
  (0x74D8, 0xCEB6),
  (0x74DA, 0xF3C0),
  (0x74DC, 0xCDFE),
  (0x74E0, 0xFBD2),
  (0x74E2, 0xF8F8_F7FB),
  (0x74E6, 0xE8BF),
  (0x74EE, 0xE8B7),
  (0x74F7, 0xEDB6),
  (0x7501, 0xDCBA),
  (0x7504, 0xCCB4),
  (0x7511, 0xF1F7),
  (0x7515, 0xE8B8),
  (0x7518, 0xCAF6),
  (0x751A, 0xE4A4_F4D6),
  (0x751F, 0xDFE6),
  (0x7523, 0xDFA7),
  (0x7525, 0xDFE7_E1C1),
  (0x7528, 0xE9C4),
  (0x752B, 0xDCCB_E9C5),
  (0x7530, 0xEFA3_EBA6_CBA3_E3E9),
  (0x7537, 0xD1FB_EFA4),
  (0x753A, 0xEFEB),
  (0x7547, 0xD0B4),
  (0x754C, 0xCDA3),
  (0x754F, 0xE8E6),
  (0x7551, 0xEFA5),
  (0x7553, 0xD3CC_DAED),
  (0x7559, 0xD7BA),
  (0x755B, 0xF2D5_F5E5_D9EF),
  (0x7562, 0xF9B4),
  (0x7565, 0xD5D4_FDCF),
  (0x756A, 0xDBE3),
  (0x756F, 0xF1E1_ECB6),
  (0x7575, 0xFBFE_D3D7),
  (0x7578, 0xD1B1),
  (0x757A, 0xCBB1),
  (0x757F, 0xD1B2),
  (0x7586, 0xCBB2_F1C2),
  (0x758A, 0xF4E1_F9B5),
  (0x758E, 0xE1C3_E1C2),
  (0x7591, 0xEBF7),
  (0x759D, 0xDFA8),
  (0x75A5, 0xCBCA),
  (0x75AB, 0xE6B9),
  (0x75B1, 0xF8DE_F9AA_CAF7),
  (0x75B5, 0xEDB7),
  (0x75B8, 0xD3B8_F2D6),
  (0x75BC, 0xD4D9_EEC5_F2F0),
  (0x75C2, 0xCAB2),
  (0x75C5, 0xDCBB),
  (0x75C7, 0xF1F8),
  (0x75CD, 0xECB7),
  (0x75D2, 0xE5CA),
  (0x75D4, 0xF6C0_FDDD),
  (0x75D8, 0xD4E3_CCE2),
  (0x75DB, 0xF7D4),
  (0x75E2, 0xD7E5),
  (0x75F0, 0xD3C3),
  (0x75F2, 0xD8A6),
  (0x75F4, 0xF6C1),
  (0x75FA, 0xDDF6),
  (0x75FC, 0xCDC0),
  (0x7600, 0xE5DC),
  (0x760D, 0xE5CB),
  (0x7619, 0xE1C4),
  (0x761F, 0xE8B0_F4B0_F3EA_DAEE),
  (0x7624, 0xD7BB),
  (0x7626, 0xE2B1),
  (0x763B, 0xD7AA),
  (0x7642, 0xD6FB),
  (0x764C, 0xE4DF),
  (0x764E, 0xCAD6),
  (0x7652, 0xEBA8),
  (0x7656, 0xDBFE),
  (0x7661, 0xF6C2),
  (0x7664, 0xEFBB),
  (0x7669, 0xD4FD),
  (0x766C, 0xE0C8),
  (0x7670, 0xE8B9),
  (0x7672, 0xEFA6),
  (0x7678, 0xCDA4),
  (0x767B, 0xD4F4_DBA1_DBDC_DBDD),
  (0x7684, 0xEEDC),
  (0x7686, 0xCBCB_FCD5),
  (0x768E, 0xCEEB),
  (0x7690, 0xCDC1),
  (0x7693, 0xFBD3),
  (0x76AE, 0xF9AB),
  (0x76BA, 0xF5D4),
  (0x76BF, 0xD9A9),
  (0x76C2, 0xE9DD_DBCD),
  (0x76C6, 0xDDCE),
  (0x76C8, 0xE7C3),
  (0x76CA, 0xECCC),
  (0x76D2, 0xF9EC),
  (0x76D6, 0xCBCC),
  (0x76DB, 0xE0FC_D4A8),
  (0x76DE, 0xEDD3_D8EF),
  (0x76E1, 0xF2D7),
  (0x76E3, 0xCAF8_DAEF),
  (0x76E7, 0xD6D4),
  (0x76EE, 0xD9CD),
  (0x76F2, 0xD8EE),
  (0x76F4, 0xF2C1),
  (0x76F8, 0xDFD3),
  (0x76FC, 0xDAF0),
  (0x76FE, 0xE2EA),
  (0x7701, 0xE0FD),
  (0x7704, 0xD8F8),
  (0x7708, 0xF7AF_DAB6),
  (0x770B, 0xCAD7),
  (0x771E, 0xF2D8),
  (0x7720, 0xD8F9),
  (0x7729, 0xFADF),
  (0x7737, 0xCFEF_D9C2),
  (0x773A, 0xF0D2),
  (0x773C, 0xE4D1),
  (0x7740, 0xF3B7),
  (0x774D, 0xFAE0),
  (0x775B, 0xEFEC),
  (0x7761, 0xE2B2),
  (0x7763, 0xD4BD),
  (0x7766, 0xD9CE),
  (0x776B, 0xF4E2),
  (0x7779, 0xD4A9),
  (0x777E, 0xCDC2_E7DA),
  (0x778B, 0xF2D9),
  (0x7791, 0xD9AA),
  (0x779E, 0xD8BE),
  (0x77A5, 0xDCAD),
  (0x77AC, 0xE2EB_D6FC),
  (0x77B0, 0xCAF9),
  (0x77B3, 0xD4DA),
  (0x77BB, 0xF4D7_CCA1),
  (0x77BF, 0xCFBA),
  (0x77D7, 0xF5B8),
  (0x77DB, 0xD9C3_D0E8),
  (0x77E2, 0xE3C5_EBF8),
  (0x77E5, 0xF2B1),
  (0x77E9, 0xCFBB),
  (0x77ED, 0xD3AD_E8E1_CEEC),
  (0x77F3, 0xE0B4),
  (0x7802, 0xDEE3),
  (0x7812, 0xDDF7),
  (0x7825, 0xF2B2_F3F6_F6DB),
  (0x782C, 0xD7FE),
  (0x7832, 0xF8DF),
  (0x7834, 0xF7F2),
  (0x7845, 0xD0A9),
  (0x784F, 0xE6DA),
  (0x785D, 0xF5A6),
  (0x786B, 0xD7BC_CCE3),
  (0x786F, 0xE6DB),
  (0x787C, 0xDDDD),
  (0x7881, 0xD1B3),
  (0x7887, 0xEFED),
  (0x788C, 0xD6DE_E4F4_E1EF),
  (0x7891, 0xDDF8),
  (0x7897, 0xE8CF),
  (0x78A3, 0xCAE5),
  (0x78A7, 0xDCA1),
  (0x78A9, 0xE0B5),
  (0x78BA, 0xFCAC_FCAD_D8A7),
  (0x78C1, 0xEDB8),
  (0x78C5, 0xDBB6),
  (0x78CA, 0xD6F0_F3AF),
  (0x78CE, 0xCDA5),
  (0x78D0, 0xDAF1),
  (0x78E8, 0xD8A8),
  (0x78EC, 0xCCE4),
  (0x78EF, 0xD1B4),
  (0x78F5, 0xCAD8),
  (0x78FB, 0xDAF2),
  (0x7901, 0xF5A7),
  (0x790E, 0xF5A8),
  (0x7916, 0xE6A6),
  (0x792A, 0xD5EC_D5F8_DAF3),
  (0x793A, 0xE3C6),
  (0x793E, 0xDEE4),
  (0x7940, 0xDEE5_D1B5),
  (0x7947, 0xD1B6_D1B7_F2B3),
  (0x7950, 0xE9DE),
  (0x7956, 0xF0D3_F2B4),
  (0x795A, 0xF0D4_CBE4_FBD4_F5E6_E3EA),
  (0x7960, 0xDEE6),
  (0x7965, 0xDFD4),
  (0x7968, 0xF8F9),
  (0x796D, 0xF0AE),
  (0x797A, 0xD1B8),
  (0x797F, 0xD6DF),
  (0x7981, 0xD0D7),
  (0x798D, 0xFCA1_EFEE_DCD8),
  (0x7991, 0xE9DF),
  (0x79A6, 0xE5DD_FDFB),
  (0x79AA, 0xE0C9),
  (0x79AE, 0xD6C9),
  (0x79B1, 0xD4AA),
  (0x79B3, 0xE5CC),
  (0x79B9, 0xE9E0),
  (0x79BD, 0xD0D8_FCA2_D4BE_E2B3_DEE7),
  (0x79C9, 0xDCBC_D2B6_F5D5),
  (0x79D1, 0xCEA1_F5A9),
  (0x79D5, 0xDDF9),
  (0x79D8, 0xDDFA),
  (0x79DF, 0xF0D5),
  (0x79E4, 0xF6DF),
  (0x79E6, 0xF2DA_E4EB),
  (0x79E9, 0xF2F1),
  (0x79FB, 0xECB9),
  (0x7A00, 0xFDFC),
  (0x7A05, 0xE1AA),
  (0x7A08, 0xCAD9),
  (0x7A0B, 0xEFEF),
  (0x7A0D, 0xF5AA),
  (0x7A14, 0xECF9),
  (0x7A17, 0xF8AD),
  (0x7A19, 0xF2C2_F6C3),
  (0x7A1C, 0xD7D2),
  (0x7A1F, 0xF9A2_F0D6),
  (0x7A2E, 0xF0FA),
  (0x7A31, 0xF6E0),
  (0x7A36, 0xE9F3_F2C3),
  (0x7A3B, 0xD4AB_CAB3_CDA6),
  (0x7A3F, 0xCDC3_CDDA),
  (0x7A46, 0xD9CF),
  (0x7A49, 0xF6C4),
  (0x7A4D, 0xEEDD_E7C4),
  (0x7A57, 0xE2B4),
  (0x7A61, 0xDFE2_E7DB),
  (0x7A69, 0xE8B1),
  (0x7A6B, 0xFCAE),
  (0x7A70, 0xE5CD),
  (0x7A74, 0xFAEB),
  (0x7A76, 0xCFBC),
  (0x7A79, 0xCFE2_CDF6),
  (0x7A7D, 0xEFF0),
  (0x7A7F, 0xF4BE),
  (0x7A81, 0xD4CD),
  (0x7A84, 0xF3B8),
  (0x7A88, 0xE9A1),
  (0x7A92, 0xF2F2_F3EB),
  (0x7A95, 0xF0D7),
  (0x7A98, 0xCFD7),
  (0x7A9F, 0xCFDF),
  (0x7AA9, 0xE8C0_E8C1),
  (0x7AAE, 0xCFE3_E9A2),
  (0x7ABA, 0xD0AA),
  (0x7AC4, 0xF3C1_D0AB),
  (0x7AC7, 0xD4E4),
  (0x7ACA, 0xEFBC_D8A1),
  (0x7AD7, 0xD9DF),
  (0x7AD9, 0xF3D7),
  (0x7ADD, 0xDCBD),
  (0x7ADF, 0xCCE5_EDF1),
  (0x7AE3, 0xF1E2),
  (0x7AE5, 0xD4DB),
  (0x7AEA, 0xE2B5),
  (0x7AED, 0xCAE6),
  (0x7AEF, 0xD3AE),
  (0x7AF6, 0xCCE6),
  (0x7AF9, 0xF1D3_F5E7),
  (0x7AFF, 0xCADA),
  (0x7B0F, 0xFBEE),
  (0x7B11, 0xE1C5),
  (0x7B19, 0xDFE9),
  (0x7B1B, 0xEEDE),
  (0x7B1E, 0xF7C2),
  (0x7B20, 0xD8A2),
  (0x7B26, 0xDDAC),
  (0x7B2C, 0xF0AF_D6BD),
  (0x7B39, 0xE1AB),
  (0x7B46, 0xF9B6),
  (0x7B49, 0xD4F5),
  (0x7B4B, 0xD0C9_EFA7_E2EC),
  (0x7B4F, 0xDBEA_CECC_F5E8_F7D5),
  (0x7B54, 0xD3CD),
  (0x7B56, 0xF3FE),
  (0x7B60, 0xD0B5),
  (0x7B6C, 0xE0FE),
  (0x7B6E, 0xDFFB),
  (0x7B75, 0xE6DD),
  (0x7B7D, 0xE8A4),
  (0x7B87, 0xCBCD),
  (0x7B8B, 0xEFA8),
  (0x7B8F, 0xEEB4),
  (0x7B94, 0xDAD8_D1B9),
  (0x7B97, 0xDFA9),
  (0x7B9A, 0xF3B0),
  (0x7B9D, 0xCCC4),
  (0x7BA1, 0xCEB7),
  (0x7BAD, 0xEFA9),
  (0x7BB1, 0xDFD5),
  (0x7BB4, 0xEDD7),
  (0x7BB8, 0xEEC6),
  (0x7BC0, 0xEFBD_FCD6),
  (0x7BC4, 0xDBF4),
  (0x7BC6, 0xEFAA_F8B9),
  (0x7BC9, 0xF5E9),
  (0x7BD2, 0xE3D9),
  (0x7BE0, 0xE1C6),
  (0x7BE4, 0xD4BF),
  (0x7BE9, 0xDEE8),
  (0x7C07, 0xF0EA),
  (0x7C12, 0xF3C2),
  (0x7C1E, 0xD3AF),
  (0x7C21, 0xCADB),
  (0x7C27, 0xFCD7),
  (0x7C2A, 0xEDD8_E1C7),
  (0x7C3D, 0xF4D8_D6B3_DDAD),
  (0x7C43, 0xD5BE),
  (0x7C4C, 0xF1C3_EEDF),
  (0x7C60, 0xD6EB),
  (0x7C64, 0xF4D9),
  (0x7C6C, 0xD7E6),
  (0x7C73, 0xDAB7),
  (0x7C83, 0xDDFB),
  (0x7C89, 0xDDCF),
  (0x7C92, 0xD8A3),
  (0x7C95, 0xDAD9),
  (0x7C97, 0xF0D8_EFC4),
  (0x7C9F, 0xE1D8),
  (0x7CA5, 0xF1D4),
  (0x7CA7, 0xEDF2),
  (0x7CAE, 0xD5DB),
  (0x7CB1, 0xD5DC_F3C4_CBD7),
  (0x7CB9, 0xE2B6),
  (0x7CBE, 0xEFF1),
  (0x7CCA, 0xFBD5),
  (0x7CD6, 0xD3D8),
  (0x7CDE, 0xDDD0_F0D9_CBB3),
  (0x7CE7, 0xD5DD),
  (0x7CFB, 0xCDA7),
  (0x7CFE, 0xD0AC),
  (0x7D00, 0xD1BA),
  (0x7D02, 0xF1C4),
  (0x7D04, 0xE5B3_FBF5_E9E1_FDE0_FCBC),
  (0x7D0A, 0xDAA2_DAA3),
  (0x7D0D, 0xD2A1),
  (0x7D10, 0xD2EF),
  (0x7D14, 0xE2ED),
  (0x7D17, 0xDEE9_CEDC_F2B5_D0E4_DDD1),
  (0x7D20, 0xE1C8_DBB7_DFE3),
  (0x7D2B, 0xEDB9_F1C5),
  (0x7D2E, 0xF3CF_D7AB_E1AC),
  (0x7D33, 0xE3EB),
  (0x7D35, 0xEEC7),
  (0x7D39, 0xE1C9_CAFA),
  (0x7D42, 0xF0FB_FAE1_F0DA_CCE7_DAF4),
  (0x7D50, 0xCCBF),
  (0x7D5E, 0xCEED),
  (0x7D61, 0xD5A9_FAE2),
  (0x7D66, 0xD0E5),
  (0x7D68, 0xEBD6),
  (0x7D6A, 0xECDF),
  (0x7D6E, 0xDFFC),
  (0x7D71, 0xF7D6_DEEA_CBB4),
  (0x7D76, 0xEFBE),
  (0x7D79, 0xCCB5),
  (0x7D7F, 0xCFBD),
  (0x7D8E, 0xEFF2_E2B7),
  (0x7D93, 0xCCE8),
  (0x7D9C, 0xF0FC),
  (0x7DA0, 0xD6E0),
  (0x7DA2, 0xF1C6),
  (0x7DAC, 0xE2B8_EBAB),
  (0x7DB1, 0xCBB5_D8D1),
  (0x7DB4, 0xF4CE_F3F7),
  (0x7DB8, 0xD7C6),
  (0x7DBA, 0xD1BB_F7AA),
  (0x7DBD, 0xEDCA_D7D3_D8FA),
  (0x7DC7, 0xF6C5),
  (0x7DCA, 0xD1CC_DDFC),
  (0x7DD6, 0xDFFD),
  (0x7DD8, 0xF9E5),
  (0x7DDA, 0xE0CA),
  (0x7DDD, 0xF2FD_D3B0),
  (0x7DE0, 0xF4F3_DAC9),
  (0x7DE3, 0xE6DE),
  (0x7DE8, 0xF8BA_E8D0),
  (0x7DEC, 0xD8FB),
  (0x7DEF, 0xEAD5),
  (0x7DF4, 0xD6A3),
  (0x7DFB, 0xF6C6),
  (0x7E09, 0xF2DB_E4FC),
  (0x7E15, 0xE8B2),
  (0x7E1B, 0xDADA),
  (0x7E1D, 0xF2DC_FBD6_E9B2),
  (0x7E21, 0xEEAD),
  (0x7E23, 0xFAE3),
  (0x7E2B, 0xDCEE),
  (0x7E2E, 0xF5EA_E6E0),
  (0x7E31, 0xF0FD),
  (0x7E37, 0xD7AC),
  (0x7E3D, 0xF5C5_EEE0),
  (0x7E41, 0xDBE5),
  (0x7E43, 0xDDDE),
  (0x7E46, 0xD9F0_E9A3),
  (0x7E52, 0xF1F9),
  (0x7E54, 0xF2C4_E0CB),
  (0x7E5E, 0xE9A4),
  (0x7E61, 0xE2B9),
  (0x7E69, 0xE3B1_FCEB_CDA8),
  (0x7E6D, 0xCCB6),
  (0x7E70, 0xF0DB),
  (0x7E79, 0xE6BA),
  (0x7E7C, 0xCDA9),
  (0x7E82, 0xF3C3),
  (0x7E8C, 0xE1D9),
  (0x7E8F, 0xEFAB),
  (0x7E93, 0xE7C5),
  (0x7E96, 0xE0E9),
  (0x7E98, 0xF3C5),
  (0x7E9B, 0xD4C0_D5BF),
  (0x7F36, 0xDDAE),
  (0x7F38, 0xF9FC),
  (0x7F3A, 0xCCC0),
  (0x7F4C, 0xE5A2),
  (0x7F50, 0xCEB8),
  (0x7F54, 0xD8D2_F9D6),
  (0x7F6A, 0xF1AA_CED1),
  (0x7F6E, 0xF6C7),
  (0x7F70, 0xDBEB),
  (0x7F72, 0xDFFE),
  (0x7F75, 0xD8E1),
  (0x7F77, 0xF7F3),
  (0x7F79, 0xD7E7),
  (0x7F85, 0xD4FE),
  (0x7F88, 0xD1BC),
  (0x7F8A, 0xE5CF),
  (0x7F8C, 0xCBB6),
  (0x7F8E, 0xDAB8),
  (0x7F94, 0xCDC4),
  (0x7F9A, 0xD6BE),
  (0x7F9E, 0xE2BA),
  (0x7FA4, 0xCFD8),
  (0x7FA8, 0xE0CC_EBF9),
  (0x7FB2, 0xFDFD),
  (0x7FB8, 0xD7E8_CBD8),
  (0x7FBD, 0xE9E2),
  (0x7FC1, 0xE8BA),
  (0x7FC5, 0xE3C7),
  (0x7FCA, 0xECCD),
  (0x7FCC, 0xECCE),
  (0x7FCE, 0xD6BF),
  (0x7FD2, 0xE3A7),
  (0x7FD4, 0xDFD6_FDE8),
  (0x7FDF, 0xEEE1_F6A8_DDFD),
  (0x7FE9, 0xF8BB),
  (0x7FEB, 0xE8D1),
  (0x7FF0, 0xF9D7),
  (0x7FF9, 0xCEEE),
  (0x7FFC, 0xECCF),
  (0x8000, 0xE9A5_D6D5),
  (0x8003, 0xCDC5),
  (0x8005, 0xEDBA_D1BD),
  (0x8009, 0xCFBE),
  (0x800C, 0xECBB),
  (0x8010, 0xD2B1),
  (0x8015, 0xCCE9),
  (0x8017, 0xD9C4_E9FC),
  (0x802D, 0xD1BE),
  (0x8033, 0xECBC),
  (0x8036, 0xE5AD),
  (0x803D, 0xF7B0),
  (0x803F, 0xCCEA),
  (0x8043, 0xD3C4),
  (0x8046, 0xD6C0),
  (0x804A, 0xD6FD),
  (0x8056, 0xE1A1),
  (0x8058, 0xDEBD),
  (0x805A, 0xF6A9),
  (0x805E, 0xDAA4),
  (0x806F, 0xD6A4_F5C6),
  (0x8072, 0xE1A2_E9C6),
  (0x8077, 0xF2C5),
  (0x807D, 0xF4E9_D6EC_EBD3),
  (0x8084, 0xECBD_E2DC_DEEB_F0DC),
  (0x8089, 0xEBBF),
  (0x808B, 0xD7CE_D1BF),
  (0x8096, 0xF5AB),
  (0x809B, 0xF9FD),
  (0x809D, 0xCADC),
  (0x80A1, 0xCDC6_F2B6),
  (0x80A5, 0xDDFE),
  (0x80A9, 0xCCB7_DBB8),
  (0x80AF, 0xD0E9),
  (0x80B1, 0xCEDD_EBC0),
  (0x80B4, 0xFDA2),
  (0x80BA, 0xF8CB),
  (0x80C3, 0xEAD6_F1B0),
  (0x80CC, 0xDBCE),
  (0x80CE, 0xF7C3),
  (0x80DA, 0xDBCF_CBA4),
  (0x80DE, 0xF8E0),
  (0x80E1, 0xFBD7),
  (0x80E4, 0xEBCA_E0A1),
  (0x80F1, 0xCECD),
  (0x80F4, 0xD4DC),
  (0x80F8, 0xFDD8),
  (0x80FD, 0xD2F6),
  (0x8102, 0xF2B7),
  (0x8105, 0xFAF6_F6AA_FAF7_D8E6),
  (0x810A, 0xF4B1),
  (0x8118, 0xE8D2),
  (0x811A, 0xCAC5_CCEB),
  (0x8123, 0xE2EE),
  (0x8129, 0xE2BB),
  (0x812B, 0xF7AD),
  (0x812F, 0xF8E1),
  (0x8139, 0xF3EC),
  (0x813E, 0xDEA1),
  (0x814B, 0xE4FD),
  (0x814E, 0xE3EC),
  (0x8150, 0xDDAF_DDB0),
  (0x8154, 0xCBB7_E8D3),
  (0x8165, 0xE1A3_D2E0),
  (0x816B, 0xF0FE),
  (0x8170, 0xE9A6_CBF2),
  (0x8178, 0xEDF3_DCD9_E0CD),
  (0x817F, 0xF7DA_DBB9),
  (0x8188, 0xCCAE),
  (0x818A, 0xDADB),
  (0x818F, 0xCDC7),
  (0x819A, 0xDDB1),
  (0x819C, 0xD8AF_E3A3),
  (0x81A0, 0xCEEF),
  (0x81A3, 0xF2F3),
  (0x81A8, 0xF8B3),
  (0x81B3, 0xE0CE),
  (0x81B5, 0xF5FD),
  (0x81BA, 0xEBEC),
  (0x81BD, 0xD3C5_FCEC_D2DB_D4EB),
  (0x81C2, 0xDEA2),
  (0x81C6, 0xE5E6),
  (0x81CD, 0xF0B0),
  (0x81D8, 0xD5C4),
  (0x81DF, 0xEDF4),
  (0x81E3, 0xE3ED),
  (0x81E5, 0xE8C2),
  (0x81E7, 0xEDF5_D7FC),
  (0x81EA, 0xEDBB),
  (0x81ED, 0xF6AB),
  (0x81F3, 0xF2B8_F6C8),
  (0x81FA, 0xD3E6_F2DD_CFBF),
  (0x81FE, 0xEBAC),
  (0x8205, 0xCFC0),
  (0x8207, 0xE6A8_FDE9),
  (0x820A, 0xCFC1),
  (0x820C, 0xE0DF_DEEC),
  (0x8212, 0xE0A2),
  (0x821B, 0xF4BF_E2EF),
  (0x821E, 0xD9F1_F1C7),
  (0x8221, 0xCBB8),
  (0x822A, 0xF9FE_DBBA_DAF5),
  (0x8235, 0xF6EC_DADC_FAE4),
  (0x8239, 0xE0CF),
  (0x8240, 0xDDB2),
  (0x8245, 0xE6A9),
  (0x8247, 0xEFF3),
  (0x8259, 0xF3ED),
  (0x8264, 0xEBFA),
  (0x8266, 0xF9E6),
  (0x826E, 0xCADD_D5DE),
  (0x8271, 0xCADE_DFE4),
  (0x8276, 0xE6FD),
  (0x8278, 0xF5AC),
  (0x827E, 0xE4F5),
  (0x828B, 0xE9E3),
  (0x828D, 0xEDCB_CFE4),
  (0x8292, 0xD8D3),
  (0x8299, 0xDDB3_D4EC),
  (0x829D, 0xF2B9),
  (0x829F, 0xDFB7),
  (0x82A5, 0xCBCE_FBD8),
  (0x82A9, 0xD0D9),
  (0x82AC, 0xDDD2_F7F4_E7DC_E4A5),
  (0x82B1, 0xFCA3),
  (0x82B3, 0xDBBB),
  (0x82B7, 0xF2BA_E9FD_D0CA),
  (0x82BB, 0xF5D6_D9C5_E4B4),
  (0x82BF, 0xEDA7),
  (0x82D1, 0xEABD_E6FE),
  (0x82D4, 0xF7C4_F5AD),
  (0x82D7, 0xD9E0),
  (0x82DB, 0xCAB4),
  (0x82DE, 0xF8E2_CFC2),
  (0x82E1, 0xECBE),
  (0x82E5, 0xE5B4_CDC8_EEC8),
  (0x82F1, 0xE7C8),
  (0x82FD, 0xCDC9_F9B7),
  (0x8301, 0xF1E8_D9F2_DBF5_CAB5_D9C6),
  (0x8309, 0xD8C9),
  (0x8317, 0xD9AB),
  (0x8328, 0xEDBC),
  (0x832B, 0xD8D4),
  (0x832F, 0xDCDA),
  (0x8331, 0xE2BC),
  (0x8334, 0xFCED_ECE0_D2FE),
  (0x8338, 0xE9C7_E6AA),
  (0x8340, 0xE2F0),
  (0x8347, 0xFABB),
  (0x8349, 0xF5AE_FBAA),
  (0x834F, 0xECFB),
  (0x8351, 0xECBF_FCD8),
  (0x8373, 0xD4E5),
  (0x8377, 0xF9C3),
  (0x837B, 0xEEE2),
  (0x8389, 0xD7E9_EDF6),
  (0x838E, 0xDEED),
  (0x8396, 0xCCEC),
  (0x8398, 0xE3EE),
  (0x839E, 0xE8D4),
  (0x83A2, 0xFAF8),
  (0x83A9, 0xDDB4_E4B5_D8B0),
  (0x83BD, 0xD8D5),
  (0x83C1, 0xF4EA),
  (0x83C5, 0xCEB9),
  (0x83C9, 0xD6E1_CFD2),
  (0x83CC, 0xD0B6),
  (0x83D3, 0xCEA2),
  (0x83D6, 0xF3EE),
  (0x83DC, 0xF3F8),
  (0x83E9, 0xDCCC),
  (0x83EB, 0xD0CB),
  (0x83EF, 0xFCA4_CDCA_D7D4_DEA3),
  (0x83F4, 0xE4E0),
  (0x83F9, 0xEEC9),
  (0x83FD, 0xE2DD),
  (0x8403, 0xF5FE_D4AC),
  (0x840A, 0xD5D1),
  (0x840C, 0xD8F0_F8C3_EAD7),
  (0x8429, 0xF5D7),
  (0x842C, 0xD8BF),
  (0x8431, 0xFDC0),
  (0x8438, 0xEBAD),
  (0x843D, 0xD5AA),
  (0x8449, 0xE7A8),
  (0x8457, 0xEECA),
  (0x845B, 0xCAE7),
  (0x8461, 0xF8E3),
  (0x8463, 0xD4DD),
  (0x8466, 0xEAD8),
  (0x846B, 0xFBD9_EDF7),
  (0x846F, 0xE5B5),
  (0x8475, 0xD0AD),
  (0x847A, 0xF1F1),
  (0x8490, 0xE2BD),
  (0x8494, 0xE3C8),
  (0x8499, 0xD9D5),
  (0x849C, 0xDFAA),
  (0x84A1, 0xDBBC),
  (0x84B2, 0xF8E4),
  (0x84B8, 0xF1FA),
  (0x84BB, 0xE5B6_F3EF),
  (0x84BF, 0xFBDA_E1E0),
  (0x84C2, 0xD9AC),
  (0x84C4, 0xF5EB),
  (0x84C6, 0xE0B6),
  (0x84C9, 0xE9C8),
  (0x84CB, 0xCBCF),
  (0x84CD, 0xE3C9),
  (0x84D1, 0xDEEE),
  (0x84DA, 0xE2BE),
  (0x84EC, 0xDCEF),
  (0x84EE, 0xD6A5),
  (0x84F4, 0xE2F1),
  (0x84FC, 0xD6FE),
  (0x8511, 0xD9A1),
  (0x8513, 0xD8C0_DCDB),
  (0x8517, 0xEDBD_DFB8),
  (0x851A, 0xEAA5),
  (0x851E, 0xD7AD),
  (0x8521, 0xF3F9),
  (0x8523, 0xEDF8),
  (0x8525, 0xF5C7),
  (0x852C, 0xE1CA_EBE3),
  (0x852F, 0xF2DE),
  (0x853D, 0xF8CC),
  (0x853F, 0xEAD9),
  (0x8541, 0xD3C6),
  (0x8543, 0xDBE6),
  (0x8549, 0xF5AF),
  (0x854E, 0xCEF0),
  (0x8553, 0xE9FE),
  (0x8559, 0xFBB6),
  (0x8563, 0xE2F2),
  (0x8568, 0xCFF2_F7B9_D9F3),
  (0x856D, 0xE1CB),
  (0x8584, 0xDADD),
  (0x8587, 0xDAB9),
  (0x858F, 0xEBFB),
  (0x8591, 0xCBB9),
  (0x8594, 0xEDF9),
  (0x859B, 0xE0E0),
  (0x85A6, 0xF4C0),
  (0x85A8, 0xFDBC_DFB1_E3EF),
  (0x85AF, 0xE0A3_FDB9),
  (0x85BA, 0xF0B1),
  (0x85C1, 0xCDCB),
  (0x85C9, 0xEDBE),
  (0x85CD, 0xD5C0_E3F0_EDFA),
  (0x85D5, 0xE9E4),
  (0x85DC, 0xD5ED_E7DD),
  (0x85E4, 0xD4F6_E5B7),
  (0x85E9, 0xDBE7_E2BF),
  (0x85F7, 0xEECB),
  (0x85FA, 0xD7F4_F0DD),
  (0x85FF, 0xCEAB),
  (0x8602, 0xE7DE),
  (0x8606, 0xD6D6_E1CC),
  (0x860A, 0xE8B3),
  (0x8616, 0xE5EE_DCA2),
  (0x861A, 0xE0D0),
  (0x862D, 0xD5B5),
  (0x863F, 0xD5A1),
  (0x864E, 0xFBDB),
  (0x8650, 0xF9CB),
  (0x8654, 0xCBF3_F4A5),
  (0x865B, 0xFAC8_D6D7),
  (0x865E, 0xE9E5_FBDC),
  (0x8667, 0xFDD0),
  (0x8679, 0xFBF6),
  (0x868A, 0xDAA5),
  (0x868C, 0xDBBD),
  (0x8693, 0xECE2),
  (0x86A3, 0xCDF7_F0DE),
  (0x86A9, 0xF6C9),
  (0x86C7, 0xDEEF),
  (0x86CB, 0xD3B1),
  (0x86D4, 0xFCEE),
  (0x86D9, 0xE8C3),
  (0x86DB, 0xF1C8),
  (0x86DF, 0xCEF1),
  (0x86E4, 0xF9ED),
  (0x86ED, 0xF2F4),
  (0x86FE, 0xE4B6),
  (0x8700, 0xF5B9),
  (0x8702, 0xDCF0_E3F1),
  (0x8708, 0xE8A5),
  (0x8718, 0xF2BB),
  (0x871A, 0xDEA4),
  (0x871C, 0xDACC),
  (0x874E, 0xCAE9),
  (0x8755, 0xE3DA),
  (0x8757, 0xFCD9),
  (0x875F, 0xEADA),
  (0x8766, 0xF9C4),
  (0x8768, 0xE3A4),
  (0x8774, 0xFBDD),
  (0x8776, 0xEFCA),
  (0x8778, 0xE8C4),
  (0x8782, 0xD5CC),
  (0x878D, 0xEBD7),
  (0x879F, 0xD9AD),
  (0x87A2, 0xFBAB),
  (0x87B3, 0xD3D9),
  (0x87BA, 0xD5A2),
  (0x87C4, 0xF6DE),
  (0x87E0, 0xDAF6),
  (0x87EC, 0xE0D1),
  (0x87EF, 0xE9A8),
  (0x87F2, 0xF5F9),
  (0x87F9, 0xFAAF),
  (0x87FB, 0xEBFC),
  (0x87FE, 0xE0EA),
  (0x8805, 0xE3B2),
  (0x881F, 0xD5C5),
  (0x8822, 0xF1E3_D5EE),
  (0x8831, 0xCDCC),
  (0x8836, 0xEDD9),
  (0x883B, 0xD8C1),
  (0x8840, 0xFAEC),
  (0x8846, 0xF1EB),
  (0x884C, 0xFABC_E6E2),
  (0x8852, 0xFAE5_E2FA),
  (0x8857, 0xCAB6),
  (0x8859, 0xE4B7),
  (0x885B, 0xEADB),
  (0x885D, 0xF5FA),
  (0x8861, 0xFBAC_CFC3_EBFD),
  (0x8868, 0xF8FA),
  (0x886B, 0xDFB9),
  (0x8870, 0xE1F1),
  (0x8872, 0xD2A4),
  (0x8877, 0xF5FB),
  (0x887E, 0xD0DA_D0DB),
  (0x8881, 0xEABE_D9B1),
  (0x8888, 0xCAB7),
  (0x888B, 0xD3E7),
  (0x888D, 0xF8E5),
  (0x8892, 0xD3B2),
  (0x8896, 0xE2C0_F2DF),
  (0x889E, 0xCDE5),
  (0x88AB, 0xF9AC),
  (0x88B4, 0xCDCD),
  (0x88C1, 0xEEAE_D6AE),
  (0x88CF, 0xD7EA),
  (0x88D4, 0xE7E0_EBAE),
  (0x88D9, 0xCFD9),
  (0x88DC, 0xDCCD_EDFB),
  (0x88DF, 0xDEF0),
  (0x88E1, 0xD7EB),
  (0x88E8, 0xDEA5),
  (0x88F3, 0xDFD7_DBD0_DBD1),
  (0x88F8, 0xD5A3),
  (0x88FD, 0xF0B2),
  (0x8907, 0xDCDC),
  (0x8910, 0xCAE8),
  (0x8912, 0xF8E6_DCCE),
  (0x8918, 0xEADC_DBD2),
  (0x8925, 0xE9B3),
  (0x892A, 0xF7DB),
  (0x8936, 0xE3A8),
  (0x8938, 0xD7AE),
  (0x893B, 0xE0E1),
  (0x8941, 0xCBBA),
  (0x8944, 0xE5D1),
  (0x895F, 0xD0DC),
  (0x8964, 0xD5C1),
  (0x896A, 0xD8CA),
  (0x8972, 0xE3A9),
  (0x897F, 0xE0A4),
  (0x8981, 0xE9A9),
  (0x8983, 0xD3C7),
  (0x8986, 0xDCDD_F8AE),
  (0x898B, 0xCCB8),
  (0x898F, 0xD0AE),
  (0x8993, 0xD8F2),
  (0x8996, 0xE3CA),
  (0x89A1, 0xCCAF),
  (0x89A9, 0xD4AD_F6D1),
  (0x89B2, 0xD0CC),
  (0x89BA, 0xCAC6),
  (0x89BD, 0xD5C2),
  (0x89C0, 0xCEBA),
  (0x89D2, 0xCAC7),
  (0x89E3, 0xFAB0),
  (0x89F4, 0xDFD8),
  (0x89F8, 0xF5BA),
  (0x8A00, 0xE5EB),
  (0x8A02, 0xEFF4_DDB5),
  (0x8A08, 0xCDAA),
  (0x8A0A, 0xE3F2),
  (0x8A0C, 0xFBF7),
  (0x8A0E, 0xF7D0),
  (0x8A13, 0xFDBA),
  (0x8A16, 0xFDE1_F6FE_D1C0),
  (0x8A1B, 0xE8C5),
  (0x8A1D, 0xE4B8),
  (0x8A1F, 0xE1E8),
  (0x8A23, 0xCCC1),
  (0x8A25, 0xD2ED),
  (0x8A2A, 0xDBBE),
  (0x8A2D, 0xE0E2),
  (0x8A31, 0xFAC9),
  (0x8A34, 0xE1CD),
  (0x8A36, 0xCAB8),
  (0x8A3A, 0xF2E0_F1C9),
  (0x8A50, 0xDEF1),
  (0x8A54, 0xF0DF_F8C4),
  (0x8A5B, 0xEECC),
  (0x8A5E, 0xDEF2),
  (0x8A60, 0xE7C9),
  (0x8A62, 0xE2F3_E7E1),
  (0x8A66, 0xE3CB),
  (0x8A69, 0xE3CC),
  (0x8A6D, 0xCFF8_EFAC),
  (0x8A70, 0xFDFE_FCA5_FAB1_DFD9),
  (0x8A75, 0xE0D2),
  (0x8A79, 0xF4DA),
  (0x8A85, 0xF1CA),
  (0x8A87, 0xCEA3),
  (0x8A8C, 0xF2BC_ECE3),
  (0x8A93, 0xE0A5),
  (0x8A95, 0xF7AB),
  (0x8A98, 0xEBAF),
  (0x8A9E, 0xE5DE),
  (0x8AA0, 0xE1A4_CDAB),
  (0x8AA3, 0xD9F4_E8A6_CDCE_E1E9),
  (0x8AA8, 0xFCEF),
  (0x8AAA, 0xE0E3),
  (0x8AB0, 0xE2C1),
  (0x8AB2, 0xCEA4),
  (0x8AB9, 0xDEA6),
  (0x8ABC, 0xEBFE),
  (0x8ABE, 0xEBDD_F0E0),
  (0x8AC2, 0xF4DB),
  (0x8AC4, 0xE2F4),
  (0x8AC7, 0xD3C8),
  (0x8ACB, 0xF4EB),
  (0x8ACD, 0xEEB5),
  (0x8ACF, 0xF5D8),
  (0x8AD2, 0xD5DF),
  (0x8AD6, 0xD6E5),
  (0x8ADB, 0xEBB0_F4E3),
  (0x8AE1, 0xE3CD),
  (0x8AE6, 0xF4F4_FAB2),
  (0x8AEA, 0xEFF5_CADF),
  (0x8AED, 0xEBB1_EDBF),
  (0x8AF1, 0xFDC9),
  (0x8AF6, 0xE4A6_F9A4_F0B3),
  (0x8AFA, 0xE5EC),
  (0x8AFE, 0xD1E7),
  (0x8B00, 0xD9C7_E4D7_EADD),
  (0x8B04, 0xD4F7),
  (0x8B0E, 0xDABA),
  (0x8B10, 0xDACD),
  (0x8B14, 0xF9CC),
  (0x8B16, 0xE1DA_DBBF),
  (0x8B19, 0xCCC5_ECD0_CBBB),
  (0x8B1D, 0xDEF3),
  (0x8B20, 0xE9AA),
  (0x8B28, 0xD9C8),
  (0x8B2B, 0xEEE3_D7BD),
  (0x8B33, 0xCFC4),
  (0x8B39, 0xD0CD),
  (0x8B41, 0xFCA6),
  (0x8B49, 0xF1FB),
  (0x8B4E, 0xFDD2_D1C1),
  (0x8B58, 0xE3DB),
  (0x8B5A, 0xD3C9),
  (0x8B5C, 0xDCCF),
  (0x8B66, 0xCCED),
  (0x8B6C, 0xDEA7),
  (0x8B6F, 0xE6BB_ECA1),
  (0x8B74, 0xCCB9),
  (0x8B77, 0xFBDE),
  (0x8B7D, 0xE7E2),
  (0x8B80, 0xD4C1),
  (0x8B8A, 0xDCA8),
  (0x8B90, 0xE2C2),
  (0x8B92, 0xF3D8_E5D3),
  (0x8B96, 0xF3D9),
  (0x8B9A, 0xF3C6),
  (0x8C37, 0xCDDB),
  (0x8C3F, 0xCDAC),
  (0x8C41, 0xFCC3),
  (0x8C46, 0xD4E7),
  (0x8C48, 0xD1C2),
  (0x8C4A, 0xF9A5),
  (0x8C4C, 0xE8D5),
  (0x8C55, 0xE3CE),
  (0x8C5A, 0xD4CA),
  (0x8C61, 0xDFDA),
  (0x8C6A, 0xFBDF_E7E3),
  (0x8C79, 0xF8FB_E3CF),
  (0x8C82, 0xF5B0),
  (0x8C8A, 0xD8E7),
  (0x8C8C, 0xD9C9),
  (0x8C9D, 0xF8AF_EFF6),
  (0x8CA0, 0xDDB6_EEAF_CDF8),
  (0x8CA7, 0xDEB8_FCA7_F7FC_F7B1_CEBB_F4A1),
  (0x8CAF, 0xEECD_E1AE),
  (0x8CB3, 0xECC3_CFFE),
  (0x8CB6, 0xF8BF_D8E2_D3E8),
  (0x8CBB, 0xDEA8_F4E4_ECC2),
  (0x8CBF, 0xD9F5_F9C5_DDD3_D6F1_ECFC_FCF0),
  (0x8CC7, 0xEDC0_CAB9),
  (0x8CCA, 0xEEE4),
  (0x8CD1, 0xF2E1),
  (0x8CD3, 0xDEB9),
  (0x8CDA, 0xD6F2),
  (0x8CDC, 0xDEF4),
  (0x8CDE, 0xDFDB),
  (0x8CE0, 0xDBD3),
  (0x8CE2, 0xFAE7_D8E3_F4C1),
  (0x8CE6, 0xDDB7),
  (0x8CEA, 0xF2F5),
  (0x8CED, 0xD4AE),
  (0x8CF4, 0xD6F3),
  (0x8CFB, 0xDDB8_CFC5_DFDF),
  (0x8D04, 0xF2BE_F6A1),
  (0x8D07, 0xEBCB_F1FC),
  (0x8D0A, 0xF3C7),
  (0x8D0D, 0xE0EB),
  (0x8D13, 0xEDFC),
  (0x8D16, 0xE1DB),
  (0x8D64, 0xEEE5),
  (0x8D66, 0xDEF5),
  (0x8D6B, 0xFAD3),
  (0x8D70, 0xF1CB),
  (0x8D73, 0xD0AF_DDB9),
  (0x8D77, 0xD1C3),
  (0x8D85, 0xF5B1),
  (0x8D8A, 0xEAC6),
  (0x8D99, 0xF0E1),
  (0x8DA3, 0xF6AC),
  (0x8DA8, 0xF5D9),
  (0x8DB3, 0xF0EB),
  (0x8DBA, 0xDDBA),
  (0x8DBE, 0xF2BF),
  (0x8DC6, 0xF7C5),
  (0x8DCB, 0xDBA2_F2F6),
  (0x8DCF, 0xCABA),
  (0x8DDB, 0xF7F5),
  (0x8DDD, 0xCBE5),
  (0x8DE1, 0xEEE6),
  (0x8DE3, 0xE0D3),
  (0x8DE8, 0xCEA5),
  (0x8DEF, 0xD6D8),
  (0x8DF3, 0xD4AF),
  (0x8E0A, 0xE9C9),
  (0x8E0F, 0xD3CE_F4C2),
  (0x8E1E, 0xCBE6),
  (0x8E2A, 0xF1A1),
  (0x8E30, 0xEBB2),
  (0x8E35, 0xF1A2),
  (0x8E42, 0xEBB3),
  (0x8E44, 0xF0B4),
  (0x8E47, 0xCBF4_D4B0_F3B2_FBB7),
  (0x8E59, 0xF5EC),
  (0x8E5F, 0xEEE7_F4B2),
  (0x8E74, 0xF5ED),
  (0x8E76, 0xCFF3),
  (0x8E81, 0xF0E2),
  (0x8E87, 0xEECE),
  (0x8E8A, 0xF1CC),
  (0x8E8D, 0xE5B8),
  (0x8EAA, 0xD7F5_E3F3_CFE5),
  (0x8EC0, 0xCFC6),
  (0x8ECA, 0xF3B3_E4D8_CFF9_CFDA),
  (0x8ED2, 0xFACD),
  (0x8EDF, 0xE6E3),
  (0x8EEB, 0xF2E2),
  (0x8EF8, 0xF5EE),
  (0x8EFB, 0xCABB),
  (0x8EFE, 0xE3DC),
  (0x8F03, 0xCEF2),
  (0x8F05, 0xD6D9),
  (0x8F09, 0xEEB0),
  (0x8F12, 0xF4E5_D8C2_DCD0_CCEE),
  (0x8F1B, 0xD5E0_F6CA_FDCA_D8D6_F4CF),
  (0x8F26, 0xD6A6_DCBE),
  (0x8F29, 0xDBD4_D7C7),
  (0x8F2F, 0xF2FE),
  (0x8F33, 0xF1CD),
  (0x8F38, 0xE2C3_DCDE),
  (0x8F3B, 0xDCDF),
  (0x8F3E, 0xEFAD_E6AB),
  (0x8F44, 0xF9DD_EABF),
  (0x8F49, 0xEFAE),
  (0x8F4D, 0xF4D0_CEF3),
  (0x8F5D, 0xE6AC),
  (0x8F5F, 0xCEDE),
  (0x8F62, 0xD5F9),
  (0x8F9B, 0xE3F4_CDD0),
  (0x8FA3, 0xD5B8),
  (0x8FA6, 0xF7FD),
  (0x8FA8, 0xDCA9),
  (0x8FAD, 0xDEF6),
  (0x8FAF, 0xDCAA_F2E3_E9B4_D2DC),
  (0x8FC2, 0xE9E6),
  (0x8FC5, 0xE3F6),
  (0x8FCE, 0xE7CA),
  (0x8FD1, 0xD0CE),
  (0x8FD4, 0xDAF7),
  (0x8FE6, 0xCABC),
  (0x8FEA, 0xEEE8_DADE),
  (0x8FED, 0xF2F7),
  (0x8FF0, 0xE2FB),
  (0x8FF2, 0xCCA6),
  (0x8FF7, 0xDABB),
  (0x8FF9, 0xEEE9),
  (0x8FFD, 0xF5DA),
  (0x9000, 0xF7DC_E1EA_CEC1_D4B1),
  (0x9005, 0xFDB1_E6BD),
  (0x9008, 0xFBAD),
  (0x900B, 0xF8E7),
  (0x900D, 0xE1CE),
  (0x900F, 0xF7E2_F5EF_CFC7),
  (0x9014, 0xD4B2_CCEF),
  (0x9017, 0xD4E8),
  (0x9019, 0xEECF_F7D7),
  (0x901D, 0xE0A6_D6C1_E1DC_F0E3_F1E4_DCF1_D6A7),
  (0x902E, 0xF4F5),
  (0x9031, 0xF1CE_F2E4),
  (0x9035, 0xD0B0),
  (0x9038, 0xECEF),
  (0x903C, 0xF9BA),
  (0x903E, 0xEBB5),
  (0x9041, 0xD4ED_E2C4),
  (0x9047, 0xE9E7),
  (0x904A, 0xEBB4_EAA1),
  (0x904D, 0xF8BC_CEA6),
  (0x9050, 0xF9C6_FCDA),
  (0x9053, 0xD4B3_D3B9_EADE),
  (0x9059, 0xE9AB),
  (0x905C, 0xE1E1_D3CF_F4F6),
  (0x9060, 0xEAC0_E1CF),
  (0x9063, 0xCCBA),
  (0x9069, 0xEEEA),
  (0x906D, 0xF0E4_F3B4_D4EE),
  (0x9072, 0xF2C0),
  (0x9075, 0xF1E5),
  (0x9077, 0xF4C3_E0D4),
  (0x907A, 0xEBB6),
  (0x907C, 0xD7A1_CBE8),
  (0x907F, 0xF9AD_E9AD_D8E4_FAB3_E2C5_FCBD),
  (0x9087, 0xECC4_D8B1),
  (0x908A, 0xDCAB),
  (0x908F, 0xD5A4),
  (0x9091, 0xEBE9),
  (0x9095, 0xE8BB),
  (0x9099, 0xD8D7),
  (0x90A2, 0xFBAE_D1E1),
  (0x90A6, 0xDBC0),
  (0x90A8, 0xF5BE),
  (0x90AA, 0xDEF7),
  (0x90AF, 0xCAFB_F7C6_CFC8),
  (0x90B5, 0xE1D0),
  (0x90B8, 0xEED0),
  (0x90C1, 0xE9F4),
  (0x90CA, 0xCEF4),
  (0x90DE, 0xD5CD),
  (0x90E1, 0xCFDB),
  (0x90E8, 0xDDBB),
  (0x90ED, 0xCEAC),
  (0x90F5, 0xE9E8),
  (0x90FD, 0xD4B4),
  (0x9102, 0xE4C7),
  (0x9112, 0xF5DB),
  (0x9115, 0xFAC1),
  (0x9119, 0xDEA9),
  (0x9127, 0xD4F8),
  (0x912D, 0xEFF7),
  (0x9132, 0xD3B3),
  (0x9149, 0xEBB7_EFF8_F5DC_EDCC_DBD5_F1CF),
  (0x9152, 0xF1D0),
  (0x9162, 0xF5B2),
  (0x9169, 0xD9AE_D5AC),
  (0x916C, 0xE2C6),
  (0x9175, 0xFDA3),
  (0x9177, 0xFBE5_DFAB),
  (0x9187, 0xE2F5),
  (0x9189, 0xF6AD),
  (0x918B, 0xF5B3),
  (0x918D, 0xF0B5),
  (0x9192, 0xE1A5),
  (0x919C, 0xF5DD),
  (0x91AB, 0xECA2_EDFD),
  (0x91AE, 0xF5B4_FBB8),
  (0x91B1, 0xDBA3),
  (0x91B4, 0xD6CA_CBD9),
  (0x91C0, 0xE5D4),
  (0x91C7, 0xF3FA),
  (0x91C9, 0xEBB8),
  (0x91CB, 0xE0B7_D7EC_F1EC_E5AF_D5E1_D7ED_D1D1),
  (0x91D7, 0xE1F2_EFF9),
  (0x91DC, 0xDDBC_F6DC),
  (0x91E3, 0xF0E5),
  (0x91E7, 0xF4C4),
  (0x91EA, 0xE9E9),
  (0x91F5, 0xF3FB),
  (0x920D, 0xD4EF),
  (0x9210, 0xCCA2_F7FE_DFBC),
  (0x9217, 0xEBCD),
  (0x921E, 0xD0B7),
  (0x9234, 0xD6C2),
  (0x923A, 0xE8AD),
  (0x923F, 0xEFAF_CBA5),
  (0x9245, 0xCBE9),
  (0x9249, 0xFAE8),
  (0x9257, 0xCCC6),
  (0x925B, 0xE6E7),
  (0x925E, 0xEAC7),
  (0x9262, 0xDBA4),
  (0x9264, 0xCFC9_E2FC_EFFA),
  (0x9280, 0xEBDE),
  (0x9283, 0xF5C8),
  (0x9285, 0xD4DE),
  (0x9291, 0xE0D5),
  (0x9293, 0xEFB0),
  (0x9296, 0xE2C7),
  (0x9298, 0xD9AF),
  (0x929C, 0xF9E7),
  (0x92B3, 0xE7E5),
  (0x92B6, 0xCFCA_E1D1),
  (0x92B9, 0xE2C8),
  (0x92CC, 0xEFFB),
  (0x92CF, 0xFAF9),
  (0x92D2, 0xDCF2),
  (0x92E4, 0xE0A7),
  (0x92EA, 0xF8E8),
  (0x92F8, 0xCBEA),
  (0x92FC, 0xCBBC),
  (0x9304, 0xD6E2),
  (0x9310, 0xF5DE),
  (0x9318, 0xF5DF),
  (0x931A, 0xEEB6),
  (0x931E, 0xE2F6_D3CA_EFFC_D1C4_EFB1),
  (0x9324, 0xD1C5),
  (0x9326, 0xD0DE),
  (0x9328, 0xD9E1),
  (0x932B, 0xE0B8),
  (0x932E, 0xCDD1_F3B9),
  (0x9348, 0xE7CC),
  (0x934A, 0xD6A8_CEA7),
  (0x934D, 0xD4B5),
  (0x9354, 0xE4C8),
  (0x935B, 0xD3B4),
  (0x936E, 0xEBB9),
  (0x9375, 0xCBF5),
  (0x937C, 0xF6DD),
  (0x937E, 0xF1A3),
  (0x938C, 0xCCC7),
  (0x9394, 0xE9CA),
  (0x9396, 0xE1F0),
  (0x939A, 0xF5E0),
  (0x93A3, 0xFBAF),
  (0x93A7, 0xCBD1),
  (0x93AC, 0xFBE0_F2E5),
  (0x93B0, 0xECF0),
  (0x93C3, 0xF0EC),
  (0x93D1, 0xEEEB),
  (0x93DE, 0xE9CB),
  (0x93E1, 0xCCF0),
  (0x93E4, 0xD7AF),
  (0x93F6, 0xF3A1),
  (0x9404, 0xFCF5),
  (0x9418, 0xF1A4),
  (0x9425, 0xE0D6),
  (0x942B, 0xEFB2),
  (0x9435, 0xF4D1),
  (0x9438, 0xF7A1),
  (0x9444, 0xF1D1),
  (0x9451, 0xCAFC_CAFD),
  (0x945B, 0xCECE),
  (0x947D, 0xF3C8),
  (0x947F, 0xF3BA),
  (0x9577, 0xEDFE),
  (0x9580, 0xDAA6),
  (0x9583, 0xE0EC),
  (0x9589, 0xF8CD),
  (0x958B, 0xCBD2),
  (0x958F, 0xEBCE),
  (0x9591, 0xF9D8_F9D9_CAE0_DACA),
  (0x9598, 0xCBA6),
  (0x95A3, 0xCAC8_F9EE_DBEC),
  (0x95A8, 0xD0B1),
  (0x95AD, 0xD5EF),
  (0x95B1, 0xE6F3),
  (0x95BB, 0xE7A2_E4D9),
  (0x95C7, 0xE4E1),
  (0x95CA, 0xFCC4),
  (0x95D4, 0xF9EF_CFF4_F7E6),
  (0x95DC, 0xCEBC),
  (0x95E1, 0xF4C5_DCA3),
  (0x961C, 0xDDBD),
  (0x9621, 0xF4C6),
  (0x962A, 0xF8A1),
  (0x962E, 0xE8D6),
  (0x9632, 0xDBC1),
  (0x963B, 0xF0E6),
  (0x963F, 0xE4B9_F6ED),
  (0x9642, 0xF9AE),
  (0x9644, 0xDDBE),
  (0x964B, 0xD7B0_D8E8_CBBD),
  (0x9650, 0xF9DA),
  (0x965B, 0xF8CE_F9F0_E0ED_E3B3_F4B3),
  (0x9662, 0xEAC2_F2E6_F0B6),
  (0x966A, 0xDBD6),
  (0x9670, 0xEBE4),
  (0x9673, 0xF2E7),
  (0x9675, 0xD7D5_D4B6_F9E8_D7C1),
  (0x967D, 0xE5D5),
  (0x9685, 0xE9EA_D7CC),
  (0x968A, 0xD3E9_E2C9),
  (0x968D, 0xFCDB_CDAD),
  (0x9694, 0xCCB0_EAA2),
  (0x9698, 0xE4F6_D0C0),
  (0x969B, 0xF0B7_EEA1),
  (0x96A3, 0xD7F6),
  (0x96A7, 0xE2CA_E2CB),
  (0x96AA, 0xFACF),
  (0x96B1, 0xEBDF),
  (0x96B7, 0xD6CB),
  (0x96BB, 0xF4B4),
  (0x96C0, 0xEDCD_E4D2),
  (0x96C4, 0xEAA9_E4BA_F3A2_CDD2),
  (0x96C9, 0xF6CB),
  (0x96CB, 0xF1E6_EDC1_E8BC_EED1),
  (0x96D5, 0xF0E7_E2CC),
  (0x96D9, 0xE4AA),
  (0x96DB, 0xF5E1_EDDA),
  (0x96E2, 0xD7EE_D1F1),
  (0x96E8, 0xE9EB_E9EC_E0E4),
  (0x96EF, 0xDAA7_DDD4),
  (0x96F2, 0xEAA3),
  (0x96F6, 0xD6C3_D6F4),
  (0x96F9, 0xDADF),
  (0x96FB, 0xEFB3),
  (0x9700, 0xE2CD),
  (0x9706, 0xEFFD_F2E8),
  (0x9711, 0xEFC5),
  (0x9713, 0xE7E7),
  (0x9716, 0xD7FD),
  (0x9719, 0xE7CE),
  (0x971C, 0xDFDC),
  (0x971E, 0xF9C7),
  (0x9727, 0xD9F6),
  (0x9730, 0xDFAC),
  (0x9732, 0xD6DA),
  (0x9739, 0xDCA4),
  (0x973D, 0xF0B8),
  (0x9742, 0xD5FA),
  (0x9744, 0xE4F7),
  (0x9748, 0xD6C4),
  (0x9751, 0xF4EC),
  (0x9756, 0xEFFE),
  (0x975C, 0xF0A1),
  (0x975E, 0xDEAA),
  (0x9761, 0xDABC_D8FC),
  (0x9769, 0xFAD4),
  (0x976D, 0xECE5),
  (0x9774, 0xFCA8),
  (0x9777, 0xECE6),
  (0x977A, 0xD8CB),
  (0x978B, 0xFBB9),
  (0x978D, 0xE4D3),
  (0x978F, 0xCDF9),
  (0x97A0, 0xCFD3),
  (0x97A8, 0xCAEA),
  (0x97AB, 0xCFD4),
  (0x97AD, 0xF8BD),
  (0x97C6, 0xF4C7),
  (0x97CB, 0xEADF),
  (0x97D3, 0xF9DB),
  (0x97DC, 0xD4B7),
  (0x97F3, 0xEBE5),
  (0x97F6, 0xE1D2),
  (0x97FB, 0xEAA4),
  (0x97FF, 0xFAC2_FBE1_FAED_F0A2_CCF1),
  (0x9805, 0xFAA3_E2F7),
  (0x9808, 0xE2CE),
  (0x980A, 0xE9F5),
  (0x980C, 0xE1EB),
  (0x9810, 0xE7E8_E8D7_DAF8_D4CB),
  (0x9817, 0xF7F6_D6C5),
  (0x982D, 0xD4E9),
  (0x9830, 0xFAFA),
  (0x9838, 0xCCF2_F7DD),
  (0x983B, 0xDEBA),
  (0x9846, 0xCEA8),
  (0x984C, 0xF0B9_E4FE_E4C9),
  (0x9854, 0xE4D4),
  (0x9858, 0xEAC3),
  (0x985A, 0xEFB4),
  (0x985E, 0xD7BE),
  (0x9865, 0xFBE2),
  (0x9867, 0xCDD3),
  (0x986B, 0xEFB5),
  (0x986F, 0xFAE9),
  (0x98A8, 0xF9A6),
  (0x98AF, 0xDFBD),
  (0x98B1, 0xF7C7),
  (0x98C4, 0xF8FD),
  (0x98C7, 0xF8FC),
  (0x98DB, 0xDEAB_DBE8),
  (0x98DF, 0xE3DD),
  (0x98E1, 0xE1E2_D1C6),
  (0x98ED, 0xF6D0_EBE6_DAF9),
  (0x98F4, 0xECC7),
  (0x98FC, 0xDEF8_F8E9_E3DE),
  (0x9903, 0xCEF5),
  (0x9909, 0xFAC3_E5D7),
  (0x990C, 0xECC8),
  (0x9910, 0xF3C9),
  (0x9913, 0xE4BB),
  (0x9918, 0xE6AE),
  (0x991E, 0xEFB6),
  (0x9920, 0xDCBF),
  (0x9928, 0xCEBD),
  (0x9945, 0xD8C3),
  (0x9949, 0xD0CF),
  (0x994B, 0xCFFA_F3CA_E0D7),
  (0x9951, 0xD1C7_E9AE),
  (0x9954, 0xE8BD),
  (0x9957, 0xFAC4),
  (0x9996, 0xE2CF),
  (0x9999, 0xFAC5),
  (0x999D, 0xF9B8),
  (0x99A5, 0xDCE0),
  (0x99A8, 0xFBB0),
  (0x99AC, 0xD8A9_E5DF_F9A7),
  (0x99B1, 0xF6EE),
  (0x99B3, 0xF6CC_E2F8),
  (0x99B9, 0xECF1),
  (0x99C1, 0xDAE0),
  (0x99D0, 0xF1D2_D2CC_CFCB),
  (0x99D5, 0xCABD),
  (0x99D9, 0xDDBF),
  (0x99DD, 0xF6EF),
  (0x99DF, 0xDEF9),
  (0x99ED, 0xFAB4),
  (0x99F1, 0xD5AD),
  (0x99FF, 0xF1E7),
  (0x9A01, 0xDEBE),
  (0x9A08, 0xDCC0),
  (0x9A0E, 0xD1C8_D1C9),
  (0x9A19, 0xF8BE),
  (0x9A2B, 0xCBF6),
  (0x9A30, 0xD4F9),
  (0x9A36, 0xF5E2_E1D3),
  (0x9A40, 0xD8E9),
  (0x9A43, 0xF8FE),
  (0x9A45, 0xCFCC),
  (0x9A4D, 0xFDA4),
  (0x9A55, 0xCEF6),
  (0x9A57, 0xFAD0),
  (0x9A5A, 0xCCF3_E6BE),
  (0x9A5F, 0xF6AE),
  (0x9A62, 0xD5F0),
  (0x9A65, 0xD1CA),
  (0x9A69, 0xFCBE_D5F1),
  (0x9AA8, 0xCDE9),
  (0x9AB8, 0xFAB5),
  (0x9AD3, 0xE2D0_F4F7),
  (0x9AD8, 0xCDD4),
  (0x9AE5, 0xE7A3),
  (0x9AEE, 0xDBA5),
  (0x9B1A, 0xE2D1),
  (0x9B27, 0xD7A2),
  (0x9B2A, 0xF7E3),
  (0x9B31, 0xEAA6),
  (0x9B3C, 0xD0A1),
  (0x9B41, 0xCEDA_FBEB_DBA6_DBDE_D8E5),
  (0x9B4F, 0xEAE0),
  (0x9B54, 0xD8AA),
  (0x9B5A, 0xE5E0),
  (0x9B6F, 0xD6DB),
  (0x9B8E, 0xEFC6),
  (0x9B91, 0xF8EA),
  (0x9B9F, 0xE4D5),
  (0x9BAB, 0xCEF7),
  (0x9BAE, 0xE0D8),
  (0x9BC9, 0xD7EF),
  (0x9BD6, 0xF4ED),
  (0x9BE4, 0xCDE6),
  (0x9BE8, 0xCCF4),
  (0x9C0D, 0xF5E3),
  (0x9C10, 0xE4CA),
  (0x9C12, 0xDCE1),
  (0x9C15, 0xF9C8),
  (0x9C25, 0xFCBF),
  (0x9C32, 0xE8A7),
  (0x9C3B, 0xD8C4),
  (0x9C47, 0xCBBE),
  (0x9C49, 0xDCAE),
  (0x9C57, 0xD7F7),
  (0x9CE5, 0xF0E8),
  (0x9CE7, 0xDDC0),
  (0x9CE9, 0xCFCD),
  (0x9CF3, 0xDCF3_D9B0),
  (0x9CF6, 0xE6E9),
  (0x9D09, 0xE4BC),
  (0x9D1B, 0xEAC4),
  (0x9D26, 0xE4EC),
  (0x9D28, 0xE4E5),
  (0x9D3B, 0xFBF8),
  (0x9D51, 0xCCBB),
  (0x9D5D, 0xE4BD),
  (0x9D60, 0xCDDC_D9F7),
  (0x9D6C, 0xDDDF),
  (0x9D72, 0xEDCE),
  (0x9DA9, 0xD9D0),
  (0x9DAF, 0xE5A3),
  (0x9DB4, 0xF9CD),
  (0x9DC4, 0xCDAE),
  (0x9DD7, 0xCFCE),
  (0x9DF2, 0xF6AF),
  (0x9DF8, 0xFDD3_EBED_D6DC),
  (0x9E1A, 0xE5A4),
  (0x9E1E, 0xD5B6),
  (0x9E75, 0xD6DD),
  (0x9E79, 0xF9E9),
  (0x9E7D, 0xE7A4),
  (0x9E7F, 0xD6E3),
  (0x9E92, 0xD1CB_D6E4),
  (0x9E97, 0xD5F2),
  (0x9E9D, 0xDEFA),
  (0x9E9F, 0xD7F8),
  (0x9EA5, 0xD8EA),
  (0x9EB4, 0xCFD5_D8FD),
  (0x9EBB, 0xD8AB),
  (0x9EBE, 0xFDCB),
  (0x9EC3, 0xFCDC),
  (0x9ECD, 0xE0A8_D5F3),
  (0x9ED1, 0xFDD9),
  (0x9ED4, 0xCCA3),
  (0x9ED8, 0xD9F9),
  (0x9EDB, 0xD3EA_F5F5),
  (0x9EDE, 0xEFC7),
  (0x9EE8, 0xD3DA),
  (0x9EF4, 0xDABD),
  (0x9F07, 0xE8A8_DCAF),
  (0x9F0E, 0xF0A3),
  (0x9F13, 0xCDD5),
  (0x9F20, 0xE0A9),
  (0x9F3B, 0xDEAC),
  (0x9F4A, 0xF0BA_EEB1),
  (0x9F4E, 0xEEB2),
  (0x9F52, 0xF6CD),
  (0x9F5F, 0xEED2),
  (0x9F61, 0xD6C6),
  (0x9F67, 0xE0E5),
  (0x9F6A, 0xF3BB),
  (0x9F6C, 0xE5E1),
  (0x9F77, 0xE4CB),
  (0x9F8D, 0xD7A3),
  (0x9F90, 0xDBC2),
  (0x9F95, 0xCAFE),
  (0x9F9C, 0xCFCF),
  (0xAC00, 0xB0A1_B0A2_8141_8142_B0A3_8143_8144_B0A4_B0A5_B0A6_B0A7_8145),
  (0xAC0C, 0x8146_8147_8148_8149_B0A8_B0A9_B0AA_B0AB_B0AC_B0AD_B0AE_B0AF),
  (0xAC18, 0x814A_B0B0_B0B1_B0B2_B0B3_B0B4_814B_814C_B0B5_814D_814E_814F),
  (0xAC24, 0xB0B6_8150_8151_8152_8153_8154_8155_8156_B0B7_B0B8_8157_B0B9),
  (0xAC30, 0xB0BA_B0BB_8158_8159_815A_8161_8162_8163_B0BC_B0BD_8164_8165),
  (0xAC3C, 0xB0BE_8166_8167_8168_B0BF_8169_816A_816B_816C_816D_816E_816F),
  (0xAC48, 0x8170_8171_8172_B0C0_8173_B0C1_8174_8175_8176_8177_8178_8179),
  (0xAC54, 0xB0C2_817A_8181_8182_B0C3_8183_8184_8185_B0C4_8186_8187_8188),
  (0xAC60, 0x8189_818A_818B_818C_818D_818E_818F_8190_8191_8192_8193_8194),
  (0xAC6C, 0x8195_8196_8197_8198_B0C5_B0C6_8199_819A_B0C7_819B_819C_B0C8),
  (0xAC78, 0xB0C9_819D_B0CA_819E_819F_81A0_81A1_81A2_B0CB_B0CC_81A3_B0CD),
  (0xAC84, 0xB0CE_B0CF_B0D0_81A4_81A5_B0D1_B0D2_B0D3_B0D4_81A6_81A7_81A8),
  (0xAC90, 0xB0D5_81A9_81AA_81AB_B0D6_81AC_81AD_81AE_81AF_81B0_81B1_81B2),
  (0xAC9C, 0xB0D7_B0D8_81B3_B0D9_B0DA_B0DB_81B4_81B5_81B6_81B7_81B8_81B9),
  (0xACA8, 0xB0DC_B0DD_B0DE_81BA_B0DF_81BB_81BC_B0E0_B0E1_81BD_81BE_81BF),
  (0xACB4, 0x81C0_81C1_81C2_81C3_B0E2_B0E3_81C4_B0E4_B0E5_B0E6_81C5_81C6),
  (0xACC0, 0x81C7_B0E7_81C8_81C9_B0E8_81CA_81CB_81CC_B0E9_81CD_81CE_81CF),
  (0xACCC, 0xB0EA_81D0_81D1_81D2_81D3_81D4_81D5_81D6_81D7_B0EB_81D8_B0EC),
  (0xACD8, 0x81D9_81DA_81DB_81DC_81DD_81DE_81DF_81E0_B0ED_B0EE_81E1_81E2),
  (0xACE4, 0xB0EF_81E3_81E4_B0F0_B0F1_81E5_B0F2_81E6_B0F3_81E7_81E8_B0F4),
  (0xACF0, 0xB0F5_B0F6_81E9_B0F7_81EA_B0F8_B0F9_81EB_81EC_81ED_81EE_81EF),
  (0xACFC, 0xB0FA_B0FB_81F0_81F1_B0FC_81F2_81F3_81F4_B0FD_81F5_B0FE_81F6),
  (0xAD08, 0x81F7_81F8_81F9_81FA_B1A1_B1A2_81FB_B1A3_81FC_B1A4_81FD_81FE),
  (0xAD14, 0x8241_8242_8243_8244_B1A5_8245_8246_8247_B1A6_8248_8249_824A),
  (0xAD20, 0xB1A7_824B_824C_824D_824E_824F_8250_8251_8252_B1A8_8253_8254),
  (0xAD2C, 0xB1A9_B1AA_8255_8256_8257_8258_8259_825A_B1AB_B1AC_8261_8262),
  (0xAD38, 0xB1AD_8263_8264_8265_B1AE_8266_8267_8268_8269_826A_826B_826C),
  (0xAD44, 0xB1AF_B1B0_826D_B1B1_826E_B1B2_826F_8270_8271_8272_8273_8274),
  (0xAD50, 0xB1B3_8275_8276_8277_B1B4_8278_8279_827A_B1B5_8281_8282_8283),
  (0xAD5C, 0x8284_8285_8286_8287_8288_B1B6_8289_B1B7_828A_828B_828C_828D),
  (0xAD68, 0x828E_828F_8290_8291_B1B8_B1B9_8292_8293_B1BA_8294_8295_B1BB),
  (0xAD74, 0xB1BC_B1BD_B1BE_8296_8297_8298_8299_B1BF_B1C0_B1C1_829A_B1C2),
  (0xAD80, 0x829B_B1C3_B1C4_829C_829D_829E_829F_82A0_B1C5_B1C6_82A1_82A2),
  (0xAD8C, 0xB1C7_82A3_82A4_82A5_B1C8_82A6_82A7_82A8_82A9_82AA_82AB_82AC),
  (0xAD98, 0x82AD_82AE_82AF_82B0_B1C9_B1CA_82B1_82B2_82B3_82B4_82B5_82B6),
  (0xADA4, 0xB1CB_82B7_82B8_82B9_82BA_82BB_82BC_82BD_82BE_82BF_82C0_82C1),
  (0xADB0, 0x82C2_82C3_82C4_82C5_82C6_82C7_82C8_B1CC_82C9_82CA_82CB_82CC),
  (0xADBC, 0x82CD_82CE_82CF_82D0_B1CD_B1CE_82D1_82D2_B1CF_82D3_82D4_82D5),
  (0xADC8, 0xB1D0_82D6_82D7_82D8_82D9_82DA_82DB_82DC_B1D1_B1D2_82DD_B1D3),
  (0xADD4, 0x82DE_82DF_82E0_82E1_82E2_82E3_82E4_82E5_B1D4_82E6_82E7_82E8),
  (0xADE0, 0xB1D5_82E9_82EA_82EB_B1D6_82EC_82ED_82EE_82EF_82F0_82F1_82F2),
  (0xADEC, 0x82F3_82F4_82F5_82F6_82F7_82F8_82F9_82FA_82FB_82FC_82FD_82FE),
  (0xADF8, 0xB1D7_B1D8_8341_8342_B1D9_8343_8344_B1DA_B1DB_B1DC_8345_8346),
  (0xAE04, 0x8347_8348_8349_834A_B1DD_B1DE_834B_B1DF_834C_B1E0_834D_834E),
  (0xAE10, 0x834F_8350_8351_8352_B1E1_8353_8354_8355_8356_8357_8358_8359),
  (0xAE1C, 0x835A_8361_8362_8363_8364_8365_8366_8367_8368_8369_836A_836B),
  (0xAE28, 0x836C_836D_836E_836F_8370_8371_8372_8373_B1E2_B1E3_8374_8375),
  (0xAE34, 0xB1E4_8376_8377_B1E5_B1E6_8378_B1E7_8379_837A_8381_8382_8383),
  (0xAE40, 0xB1E8_B1E9_8384_B1EA_8385_B1EB_B1EC_8386_8387_8388_B1ED_8389),
  (0xAE4C, 0xB1EE_B1EF_B1F0_838A_B1F1_838B_838C_838D_B1F2_838E_B1F3_838F),
  (0xAE58, 0x8390_8391_8392_8393_B1F4_B1F5_8394_B1F6_B1F7_B1F8_8395_8396),
  (0xAE64, 0x8397_B1F9_8398_8399_B1FA_B1FB_839A_839B_B1FC_839C_839D_839E),
  (0xAE70, 0xB1FD_839F_83A0_83A1_83A2_83A3_83A4_83A5_B1FE_B2A1_83A6_B2A2),
  (0xAE7C, 0xB2A3_B2A4_83A7_83A8_83A9_83AA_83AB_83AC_B2A5_B2A6_83AD_83AE),
  (0xAE88, 0x83AF_83B0_83B1_83B2_B2A7_83B3_83B4_83B5_83B6_83B7_83B8_83B9),
  (0xAE94, 0x83BA_83BB_83BC_83BD_83BE_83BF_83C0_83C1_83C2_83C3_83C4_83C5),
  (0xAEA0, 0x83C6_83C7_83C8_83C9_83CA_83CB_83CC_83CD_83CE_83CF_83D0_83D1),
  (0xAEAC, 0x83D2_83D3_83D4_83D5_83D6_83D7_83D8_83D9_83DA_83DB_83DC_83DD),
  (0xAEB8, 0x83DE_83DF_83E0_83E1_B2A8_B2A9_B2AA_83E2_B2AB_83E3_83E4_83E5),
  (0xAEC4, 0xB2AC_83E6_83E7_83E8_83E9_83EA_83EB_83EC_B2AD_B2AE_83ED_B2AF),
  (0xAED0, 0xB2B0_B2B1_83EE_83EF_83F0_83F1_83F2_83F3_B2B2_B2B3_83F4_83F5),
  (0xAEDC, 0xB2B4_83F6_83F7_83F8_83F9_83FA_83FB_83FC_83FD_83FE_8441_8442),
  (0xAEE8, 0xB2B5_8443_8444_B2B6_8445_B2B7_8446_8447_8448_8449_844A_844B),
  (0xAEF4, 0xB2B8_844C_844D_844E_B2B9_844F_8450_8451_B2BA_8452_8453_8454),
  (0xAF00, 0x8455_8456_8457_8458_8459_845A_8461_B2BB_B2BC_8462_8463_8464),
  (0xAF0C, 0x8465_B2BD_8466_8467_B2BE_8468_8469_846A_846B_846C_846D_846E),
  (0xAF18, 0x846F_8470_8471_8472_8473_8474_8475_8476_8477_8478_8479_847A),
  (0xAF24, 0x8481_8482_8483_8484_8485_8486_8487_8488_B2BF_B2C0_8489_848A),
  (0xAF30, 0xB2C1_848B_B2C2_848C_B2C3_848D_848E_848F_8490_8491_8492_8493),
  (0xAF3C, 0xB2C4_B2C5_8494_B2C6_8495_B2C7_B2C8_B2C9_8496_8497_8498_8499),
  (0xAF48, 0xB2CA_B2CB_849A_849B_849C_849D_849E_849F_B2CC_84A0_84A1_84A2),
  (0xAF54, 0x84A3_84A4_84A5_84A6_84A7_84A8_84A9_84AA_B2CD_B2CE_84AB_84AC),
  (0xAF60, 0x84AD_84AE_84AF_84B0_B2CF_B2D0_84B1_84B2_84B3_84B4_84B5_84B6),
  (0xAF6C, 0x84B7_84B8_84B9_84BA_84BB_84BC_84BD_84BE_84BF_84C0_84C1_84C2),
  (0xAF78, 0x84C3_B2D1_84C4_84C5_84C6_84C7_84C8_84C9_B2D2_84CA_84CB_84CC),
  (0xAF84, 0xB2D3_84CD_84CE_84CF_B2D4_84D0_84D1_84D2_84D3_84D4_84D5_84D6),
  (0xAF90, 0xB2D5_B2D6_84D7_84D8_84D9_B2D7_84DA_84DB_84DC_84DD_84DE_84DF),
  (0xAF9C, 0xB2D8_84E0_84E1_84E2_84E3_84E4_84E5_84E6_84E7_84E8_84E9_84EA),
  (0xAFA8, 0x84EB_84EC_84ED_84EE_84EF_84F0_84F1_84F2_84F3_84F4_84F5_84F6),
  (0xAFB4, 0x84F7_84F8_84F9_84FA_B2D9_B2DA_84FB_84FC_B2DB_84FD_84FE_8541),
  (0xAFC0, 0xB2DC_8542_8543_8544_8545_8546_8547_B2DD_B2DE_B2DF_8548_B2E0),
  (0xAFCC, 0x8549_B2E1_B2E2_854A_854B_854C_854D_854E_B2E3_854F_8550_8551),
  (0xAFD8, 0x8552_8553_8554_8555_B2E4_8556_8557_8558_8559_855A_8561_8562),
  (0xAFE4, 0x8563_8564_8565_8566_B2E5_B2E6_8567_8568_8569_856A_856B_856C),
  (0xAFF0, 0xB2E7_B2E8_856D_856E_B2E9_856F_8570_8571_B2EA_8572_8573_8574),
  (0xAFFC, 0x8575_8576_8577_8578_B2EB_B2EC_8579_857A_B2ED_8581_8582_8583),
  (0xB008, 0x8584_8585_8586_8587_B2EE_8588_8589_858A_B2EF_858B_858C_858D),
  (0xB014, 0xB2F0_858E_858F_8590_8591_8592_8593_8594_B2F1_B2F2_8595_8596),
  (0xB020, 0x8597_8598_8599_859A_859B_859C_859D_859E_B2F3_859F_85A0_85A1),
  (0xB02C, 0x85A2_85A3_85A4_85A5_85A6_85A7_85A8_85A9_85AA_85AB_85AC_85AD),
  (0xB038, 0x85AE_85AF_85B0_85B1_85B2_85B3_85B4_85B5_85B6_85B7_85B8_85B9),
  (0xB044, 0xB2F4_B2F5_85BA_85BB_B2F6_85BC_B2F7_85BD_B2F8_85BE_B2F9_85BF),
  (0xB050, 0x85C0_85C1_85C2_B2FA_B2FB_B2FC_85C3_B2FD_85C4_B2FE_85C5_85C6),
  (0xB05C, 0x85C7_B3A1_85C8_85C9_85CA_85CB_85CC_85CD_85CE_85CF_85D0_85D1),
  (0xB068, 0x85D2_85D3_85D4_85D5_85D6_85D7_85D8_85D9_85DA_85DB_85DC_85DD),
  (0xB074, 0x85DE_85DF_85E0_85E1_85E2_85E3_85E4_85E5_B3A2_B3A3_85E6_85E7),
  (0xB080, 0xB3A4_85E8_85E9_85EA_B3A5_85EB_85EC_85ED_85EE_85EF_85F0_85F1),
  (0xB08C, 0xB3A6_B3A7_85F2_B3A8_85F3_B3A9_85F4_85F5_85F6_85F7_85F8_85F9),
  (0xB098, 0xB3AA_B3AB_B3AC_85FA_B3AD_85FB_85FC_B3AE_B3AF_B3B0_B3B1_85FD),
  (0xB0A4, 0x85FE_8641_8642_8643_B3B2_B3B3_8644_B3B4_B3B5_B3B6_B3B7_B3B8),
  (0xB0B0, 0x8645_B3B9_8646_B3BA_B3BB_B3BC_8647_8648_B3BD_8649_864A_864B),
  (0xB0BC, 0xB3BE_864C_864D_864E_864F_8650_8651_8652_B3BF_B3C0_8653_B3C1),
  (0xB0C8, 0xB3C2_B3C3_8654_8655_8656_8657_8658_8659_B3C4_B3C5_865A_8661),
  (0xB0D4, 0xB3C6_8662_8663_8664_B3C7_8665_8666_8667_8668_8669_866A_866B),
  (0xB0E0, 0xB3C8_866C_866D_866E_866F_B3C9_8670_8671_8672_8673_8674_8675),
  (0xB0EC, 0x8676_8677_8678_8679_867A_8681_8682_8683_8684_8685_8686_8687),
  (0xB0F8, 0x8688_8689_868A_868B_868C_868D_868E_868F_8690_8691_8692_8693),
  (0xB104, 0x8694_8695_8696_8697_B3CA_B3CB_8698_B3CC_B3CD_8699_869A_869B),
  (0xB110, 0xB3CE_869C_B3CF_B3D0_869D_869E_869F_86A0_B3D1_B3D2_86A1_B3D3),
  (0xB11C, 0xB3D4_B3D5_86A2_86A3_86A4_86A5_86A6_B3D6_B3D7_B3D8_86A7_86A8),
  (0xB128, 0xB3D9_86A9_86AA_86AB_B3DA_86AC_86AD_86AE_86AF_86B0_86B1_86B2),
  (0xB134, 0xB3DB_B3DC_86B3_B3DD_B3DE_B3DF_86B4_86B5_86B6_86B7_86B8_86B9),
  (0xB140, 0xB3E0_B3E1_86BA_86BB_B3E2_86BC_86BD_86BE_B3E3_86BF_86C0_86C1),
  (0xB14C, 0x86C2_86C3_86C4_86C5_B3E4_B3E5_86C6_86C7_B3E6_B3E7_86C8_86C9),
  (0xB158, 0xB3E8_86CA_86CB_86CC_B3E9_86CD_86CE_86CF_B3EA_86D0_86D1_86D2),
  (0xB164, 0x86D3_86D4_86D5_86D6_86D7_86D8_86D9_86DA_86DB_86DC_86DD_86DE),
  (0xB170, 0x86DF_86E0_86E1_86E2_86E3_86E4_86E5_86E6_B3EB_B3EC_86E7_86E8),
  (0xB17C, 0xB3ED_86E9_86EA_86EB_B3EE_86EC_B3EF_86ED_86EE_86EF_86F0_86F1),
  (0xB188, 0xB3F0_B3F1_86F2_B3F2_86F3_B3F3_86F4_86F5_86F6_86F7_B3F4_B3F5),
  (0xB194, 0xB3F6_86F8_86F9_86FA_B3F7_86FB_86FC_86FD_B3F8_86FE_8741_8742),
  (0xB1A0, 0x8743_8744_8745_8746_8747_8748_8749_874A_B3F9_874B_874C_874D),
  (0xB1AC, 0x874E_874F_8750_8751_8752_8753_8754_8755_8756_8757_8758_8759),
  (0xB1B8, 0x875A_8761_8762_8763_8764_8765_8766_8767_8768_8769_876A_876B),
  (0xB1C4, 0x876C_876D_876E_876F_8770_8771_8772_8773_B3FA_8774_8775_8776),
  (0xB1D0, 0xB3FB_8777_8778_8779_B3FC_877A_8781_8782_8783_8784_8785_8786),
  (0xB1DC, 0xB3FD_B3FE_8787_B4A1_8788_8789_878A_878B_878C_878D_878E_878F),
  (0xB1E8, 0xB4A2_B4A3_8790_8791_B4A4_8792_8793_8794_B4A5_8795_8796_8797),
  (0xB1F4, 0x8798_8799_879A_879B_879C_B4A6_879D_B4A7_879E_B4A8_879F_87A0),
  (0xB200, 0x87A1_87A2_87A3_87A4_B4A9_B4AA_87A5_87A6_B4AB_87A7_87A8_B4AC),
  (0xB20C, 0xB4AD_87A9_87AA_87AB_87AC_87AD_87AE_87AF_B4AE_B4AF_87B0_B4B0),
  (0xB218, 0x87B1_B4B1_87B2_87B3_87B4_87B5_87B6_87B7_B4B2_87B8_87B9_87BA),
  (0xB224, 0x87BB_87BC_87BD_87BE_87BF_87C0_87C1_87C2_87C3_87C4_87C5_87C6),
  (0xB230, 0x87C7_87C8_87C9_87CA_B4B3_87CB_87CC_87CD_87CE_87CF_87D0_87D1),
  (0xB23C, 0xB4B4_87D2_87D3_87D4_87D5_87D6_87D7_87D8_87D9_87DA_87DB_87DC),
  (0xB248, 0x87DD_87DE_87DF_87E0_87E1_87E2_87E3_87E4_87E5_87E6_87E7_87E8),
  (0xB254, 0x87E9_87EA_87EB_87EC_B4B5_87ED_87EE_87EF_B4B6_87F0_87F1_87F2),
  (0xB260, 0xB4B7_87F3_87F4_87F5_87F6_87F7_87F8_87F9_B4B8_B4B9_87FA_87FB),
  (0xB26C, 0x87FC_87FD_87FE_8841_8842_8843_8844_8845_B4BA_B4BB_8846_8847),
  (0xB278, 0x8848_8849_884A_884B_B4BC_884C_884D_884E_884F_8850_8851_8852),
  (0xB284, 0xB4BD_B4BE_8853_8854_8855_B4BF_8856_8857_8858_8859_885A_8861),
  (0xB290, 0xB4C0_B4C1_8862_8863_B4C2_8864_8865_8866_B4C3_B4C4_B4C5_8867),
  (0xB29C, 0x8868_8869_886A_886B_B4C6_B4C7_886C_B4C8_886D_B4C9_B4CA_886E),
  (0xB2A8, 0x886F_8870_B4CB_8871_B4CC_8872_8873_8874_B4CD_8875_8876_8877),
  (0xB2B4, 0xB4CE_8878_8879_887A_8881_8882_8883_8884_8885_8886_8887_8888),
  (0xB2C0, 0x8889_888A_888B_888C_888D_888E_888F_8890_B4CF_B4D0_8891_8892),
  (0xB2CC, 0xB4D1_8893_8894_8895_B4D2_8896_B4D3_8897_8898_8899_889A_889B),
  (0xB2D8, 0xB4D4_B4D5_889C_B4D6_889D_B4D7_889E_889F_88A0_88A1_B4D8_88A2),
  (0xB2E4, 0xB4D9_B4DA_B4DB_88A3_B4DC_88A4_88A5_B4DD_B4DE_B4DF_B4E0_B4E1),
  (0xB2F0, 0x88A6_88A7_88A8_B4E2_B4E3_B4E4_88A9_B4E5_B4E6_B4E7_B4E8_B4E9),
  (0xB2FC, 0x88AA_88AB_88AC_B4EA_B4EB_B4EC_88AD_88AE_B4ED_88AF_88B0_88B1),
  (0xB308, 0xB4EE_88B2_88B3_88B4_88B5_88B6_88B7_88B8_B4EF_B4F0_88B9_B4F1),
  (0xB314, 0xB4F2_B4F3_88BA_88BB_88BC_88BD_88BE_88BF_B4F4_88C0_88C1_88C2),
  (0xB320, 0x88C3_88C4_88C5_88C6_88C7_88C8_88C9_88CA_88CB_88CC_88CD_88CE),
  (0xB32C, 0x88CF_88D0_88D1_88D2_88D3_88D4_88D5_88D6_88D7_88D8_88D9_88DA),
  (0xB338, 0x88DB_88DC_88DD_88DE_88DF_88E0_88E1_88E2_88E3_88E4_88E5_88E6),
  (0xB344, 0x88E7_88E8_88E9_88EA_88EB_88EC_88ED_88EE_88EF_88F0_88F1_88F2),
  (0xB350, 0x88F3_88F4_88F5_88F6_B4F5_B4F6_B4F7_88F7_B4F8_88F8_88F9_B4F9),
  (0xB35C, 0xB4FA_88FA_B4FB_B4FC_88FB_88FC_88FD_88FE_B4FD_B4FE_8941_B5A1),
  (0xB368, 0x8942_B5A2_8943_B5A3_8944_8945_B5A4_8946_B5A5_B5A6_8947_8948),
  (0xB374, 0xB5A7_8949_894A_894B_B5A8_894C_894D_894E_894F_8950_8951_8952),
  (0xB380, 0xB5A9_B5AA_8953_B5AB_B5AC_B5AD_8954_8955_8956_8957_8958_8959),
  (0xB38C, 0xB5AE_895A_8961_8962_B5AF_8963_8964_8965_B5B0_8966_8967_8968),
  (0xB398, 0x8969_896A_896B_896C_896D_896E_896F_8970_B5B1_B5B2_8971_8972),
  (0xB3A4, 0x8973_8974_8975_8976_B5B3_8977_8978_8979_B5B4_897A_8981_8982),
  (0xB3B0, 0x8983_8984_8985_8986_8987_8988_8989_898A_898B_898C_898D_898E),
  (0xB3BC, 0x898F_8990_8991_8992_8993_8994_8995_8996_B5B5_B5B6_8997_8998),
  (0xB3C8, 0xB5B7_8999_899A_B5B8_B5B9_899B_B5BA_899C_B5BB_899D_899E_899F),
  (0xB3D4, 0xB5BC_B5BD_89A0_B5BE_89A1_B5BF_89A2_B5C0_89A3_B5C1_89A4_89A5),
  (0xB3E0, 0xB5C2_89A6_89A7_89A8_B5C3_89A9_89AA_89AB_B5C4_89AC_89AD_89AE),
  (0xB3EC, 0x89AF_89B0_89B1_89B2_89B3_89B4_89B5_89B6_89B7_89B8_89B9_89BA),
  (0xB3F8, 0x89BB_89BC_89BD_89BE_B5C5_89BF_89C0_89C1_89C2_89C3_89C4_89C5),
  (0xB404, 0x89C6_89C7_89C8_89C9_89CA_89CB_89CC_89CD_89CE_89CF_89D0_89D1),
  (0xB410, 0xB5C6_89D2_89D3_89D4_89D5_89D6_89D7_89D8_B5C7_89D9_89DA_89DB),
  (0xB41C, 0xB5C8_89DC_89DD_89DE_B5C9_89DF_89E0_89E1_89E2_89E3_89E4_89E5),
  (0xB428, 0xB5CA_B5CB_89E6_B5CC_89E7_89E8_89E9_89EA_89EB_89EC_89ED_89EE),
  (0xB434, 0xB5CD_89EF_89F0_89F1_89F2_89F3_89F4_89F5_89F6_89F7_89F8_89F9),
  (0xB440, 0x89FA_89FB_89FC_89FD_89FE_8A41_8A42_8A43_8A44_8A45_8A46_8A47),
  (0xB44C, 0x8A48_8A49_8A4A_8A4B_B5CE_B5CF_8A4C_8A4D_B5D0_8A4E_8A4F_8A50),
  (0xB458, 0xB5D1_8A51_8A52_8A53_8A54_8A55_8A56_8A57_B5D2_B5D3_8A58_B5D4),
  (0xB464, 0x8A59_B5D5_8A5A_8A61_8A62_8A63_8A64_8A65_B5D6_8A66_8A67_8A68),
  (0xB470, 0x8A69_8A6A_8A6B_8A6C_8A6D_8A6E_8A6F_8A70_8A71_8A72_8A73_8A74),
  (0xB47C, 0x8A75_8A76_8A77_8A78_B5D7_8A79_8A7A_8A81_8A82_8A83_8A84_8A85),
  (0xB488, 0xB5D8_8A86_8A87_8A88_8A89_8A8A_8A8B_8A8C_8A8D_8A8E_8A8F_8A90),
  (0xB494, 0x8A91_8A92_8A93_8A94_8A95_8A96_8A97_8A98_8A99_B5D9_8A9A_8A9B),
  (0xB4A0, 0x8A9C_8A9D_8A9E_8A9F_B5DA_8AA0_8AA1_8AA2_B5DB_8AA3_8AA4_8AA5),
  (0xB4AC, 0xB5DC_8AA6_8AA7_8AA8_8AA9_8AAA_8AAB_8AAC_8AAD_B5DD_8AAE_B5DE),
  (0xB4B8, 0x8AAF_B5DF_8AB0_8AB1_8AB2_8AB3_8AB4_8AB5_B5E0_8AB6_8AB7_8AB8),
  (0xB4C4, 0xB5E1_8AB9_8ABA_8ABB_B5E2_8ABC_8ABD_8ABE_8ABF_8AC0_8AC1_8AC2),
  (0xB4D0, 0xB5E3_8AC3_8AC4_8AC5_8AC6_B5E4_8AC7_8AC8_8AC9_8ACA_8ACB_8ACC),
  (0xB4DC, 0xB5E5_B5E6_8ACD_8ACE_B5E7_8ACF_8AD0_B5E8_B5E9_8AD1_B5EA_8AD2),
  (0xB4E8, 0x8AD3_8AD4_8AD5_8AD6_B5EB_B5EC_8AD7_B5ED_8AD8_B5EE_8AD9_8ADA),
  (0xB4F4, 0x8ADB_8ADC_8ADD_8ADE_B5EF_8ADF_8AE0_8AE1_8AE2_8AE3_8AE4_8AE5),
  (0xB500, 0x8AE6_8AE7_8AE8_8AE9_8AEA_8AEB_8AEC_8AED_8AEE_8AEF_8AF0_8AF1),
  (0xB50C, 0x8AF2_8AF3_8AF4_8AF5_8AF6_8AF7_8AF8_8AF9_B5F0_B5F1_8AFA_8AFB),
  (0xB518, 0xB5F2_8AFC_8AFD_B5F3_B5F4_8AFE_8B41_8B42_8B43_8B44_8B45_8B46),
  (0xB524, 0xB5F5_B5F6_8B47_B5F7_B5F8_B5F9_B5FA_8B48_8B49_8B4A_8B4B_8B4C),
  (0xB530, 0xB5FB_B5FC_8B4D_8B4E_B5FD_8B4F_8B50_8B51_B5FE_8B52_8B53_8B54),
  (0xB53C, 0x8B55_8B56_8B57_8B58_B6A1_B6A2_8B59_B6A3_B6A4_B6A5_8B5A_8B61),
  (0xB548, 0x8B62_8B63_8B64_B6A6_B6A7_B6A8_8B65_8B66_B6A9_8B67_8B68_8B69),
  (0xB554, 0xB6AA_8B6A_8B6B_8B6C_8B6D_8B6E_8B6F_8B70_B6AB_B6AC_8B71_B6AD),
  (0xB560, 0xB6AE_B6AF_8B72_8B73_8B74_8B75_8B76_8B77_8B78_8B79_8B7A_8B81),
  (0xB56C, 0x8B82_8B83_8B84_8B85_8B86_8B87_8B88_8B89_8B8A_8B8B_8B8C_8B8D),
  (0xB578, 0x8B8E_8B8F_8B90_8B91_8B92_8B93_8B94_8B95_8B96_8B97_8B98_8B99),
  (0xB584, 0x8B9A_8B9B_8B9C_8B9D_8B9E_8B9F_8BA0_8BA1_8BA2_8BA3_8BA4_8BA5),
  (0xB590, 0x8BA6_8BA7_8BA8_8BA9_8BAA_8BAB_8BAC_8BAD_8BAE_8BAF_8BB0_8BB1),
  (0xB59C, 0x8BB2_8BB3_8BB4_8BB5_B6B0_B6B1_8BB6_8BB7_B6B2_8BB8_8BB9_8BBA),
  (0xB5A8, 0xB6B3_8BBB_B6B4_B6B5_8BBC_8BBD_8BBE_8BBF_B6B6_B6B7_8BC0_B6B8),
  (0xB5B4, 0xB6B9_B6BA_8BC1_8BC2_8BC3_8BC4_8BC5_B6BB_B6BC_B6BD_8BC6_8BC7),
  (0xB5C0, 0xB6BE_8BC8_8BC9_8BCA_B6BF_8BCB_8BCC_8BCD_8BCE_8BCF_8BD0_8BD1),
  (0xB5CC, 0xB6C0_B6C1_8BD2_B6C2_B6C3_B6C4_8BD3_8BD4_8BD5_8BD6_8BD7_8BD8),
  (0xB5D8, 0xB6C5_8BD9_8BDA_8BDB_8BDC_8BDD_8BDE_8BDF_8BE0_8BE1_8BE2_8BE3),
  (0xB5E4, 0x8BE4_8BE5_8BE6_8BE7_8BE8_8BE9_8BEA_8BEB_B6C6_8BEC_8BED_8BEE),
  (0xB5F0, 0x8BEF_8BF0_8BF1_8BF2_8BF3_8BF4_8BF5_8BF6_8BF7_8BF8_8BF9_8BFA),
  (0xB5FC, 0x8BFB_8BFC_8BFD_8BFE_8C41_8C42_8C43_8C44_8C45_8C46_8C47_8C48),
  (0xB608, 0x8C49_8C4A_8C4B_8C4C_8C4D_8C4E_8C4F_8C50_B6C7_B6C8_8C51_8C52),
  (0xB614, 0xB6C9_8C53_8C54_8C55_B6CA_8C56_8C57_8C58_8C59_8C5A_8C61_8C62),
  (0xB620, 0x8C63_8C64_8C65_8C66_8C67_B6CB_8C68_8C69_8C6A_8C6B_8C6C_8C6D),
  (0xB62C, 0xB6CC_8C6E_8C6F_8C70_8C71_8C72_8C73_8C74_B6CD_8C75_8C76_8C77),
  (0xB638, 0x8C78_8C79_8C7A_8C81_8C82_8C83_8C84_8C85_8C86_8C87_8C88_8C89),
  (0xB644, 0x8C8A_8C8B_8C8C_8C8D_B6CE_8C8E_8C8F_8C90_8C91_8C92_8C93_8C94),
  (0xB650, 0x8C95_8C96_8C97_8C98_8C99_8C9A_8C9B_8C9C_8C9D_8C9E_8C9F_8CA0),
  (0xB65C, 0x8CA1_8CA2_8CA3_8CA4_8CA5_8CA6_8CA7_8CA8_B6CF_8CA9_8CAA_8CAB),
  (0xB668, 0xB6D0_8CAC_8CAD_8CAE_8CAF_8CB0_8CB1_8CB2_8CB3_8CB4_8CB5_8CB6),
  (0xB674, 0x8CB7_8CB8_8CB9_8CBA_8CBB_8CBC_8CBD_8CBE_8CBF_8CC0_8CC1_8CC2),
  (0xB680, 0x8CC3_8CC4_8CC5_8CC6_8CC7_8CC8_8CC9_8CCA_8CCB_8CCC_8CCD_8CCE),
  (0xB68C, 0x8CCF_8CD0_8CD1_8CD2_8CD3_8CD4_8CD5_8CD6_8CD7_8CD8_8CD9_8CDA),
  (0xB698, 0x8CDB_8CDC_8CDD_8CDE_B6D1_B6D2_8CDF_8CE0_B6D3_8CE1_8CE2_8CE3),
  (0xB6A4, 0xB6D4_8CE4_8CE5_8CE6_8CE7_8CE8_8CE9_B6D5_B6D6_8CEA_8CEB_8CEC),
  (0xB6B0, 0x8CED_B6D7_8CEE_8CEF_8CF0_8CF1_8CF2_8CF3_8CF4_8CF5_8CF6_8CF7),
  (0xB6BC, 0x8CF8_8CF9_8CFA_8CFB_8CFC_8CFD_8CFE_8D41_8D42_8D43_8D44_8D45),
  (0xB6C8, 0x8D46_8D47_8D48_8D49_8D4A_8D4B_8D4C_8D4D_8D4E_8D4F_8D50_8D51),
  (0xB6D4, 0xB6D8_8D52_8D53_8D54_8D55_8D56_8D57_8D58_8D59_8D5A_8D61_8D62),
  (0xB6E0, 0x8D63_8D64_8D65_8D66_8D67_8D68_8D69_8D6A_8D6B_8D6C_8D6D_8D6E),
  (0xB6EC, 0x8D6F_8D70_8D71_8D72_B6D9_8D73_8D74_8D75_B6DA_8D76_8D77_8D78),
  (0xB6F8, 0xB6DB_8D79_8D7A_8D81_8D82_8D83_8D84_8D85_B6DC_B6DD_8D86_8D87),
  (0xB704, 0x8D88_B6DE_8D89_8D8A_8D8B_8D8C_8D8D_8D8E_8D8F_8D90_8D91_8D92),
  (0xB710, 0x8D93_8D94_8D95_8D96_8D97_8D98_8D99_8D9A_8D9B_8D9C_8D9D_8D9E),
  (0xB71C, 0x8D9F_8DA0_8DA1_8DA2_8DA3_8DA4_8DA5_8DA6_8DA7_8DA8_8DA9_8DAA),
  (0xB728, 0xB6DF_B6E0_8DAB_8DAC_B6E1_8DAD_8DAE_B6E2_B6E3_8DAF_8DB0_8DB1),
  (0xB734, 0x8DB2_8DB3_8DB4_8DB5_B6E4_B6E5_8DB6_B6E6_8DB7_8DB8_8DB9_8DBA),
  (0xB740, 0x8DBB_8DBC_8DBD_8DBE_B6E7_8DBF_8DC0_8DC1_B6E8_8DC2_8DC3_8DC4),
  (0xB74C, 0xB6E9_8DC5_8DC6_8DC7_8DC8_8DC9_8DCA_8DCB_B6EA_B6EB_8DCC_8DCD),
  (0xB758, 0x8DCE_8DCF_8DD0_8DD1_8DD2_8DD3_8DD4_8DD5_B6EC_8DD6_8DD7_8DD8),
  (0xB764, 0xB6ED_8DD9_8DDA_8DDB_B6EE_8DDC_8DDD_8DDE_8DDF_8DE0_8DE1_8DE2),
  (0xB770, 0xB6EF_B6F0_8DE3_B6F1_8DE4_B6F2_8DE5_8DE6_8DE7_8DE8_8DE9_8DEA),
  (0xB77C, 0xB6F3_B6F4_8DEB_8DEC_B6F5_8DED_8DEE_8DEF_B6F6_8DF0_8DF1_8DF2),
  (0xB788, 0x8DF3_8DF4_8DF5_8DF6_B6F7_B6F8_8DF7_B6F9_B6FA_B6FB_B6FC_8DF8),
  (0xB794, 0x8DF9_8DFA_B6FD_B6FE_B7A1_B7A2_8DFB_8DFC_B7A3_8DFD_8DFE_8E41),
  (0xB7A0, 0xB7A4_8E42_8E43_8E44_8E45_8E46_8E47_8E48_B7A5_B7A6_8E49_B7A7),
  (0xB7AC, 0xB7A8_B7A9_8E4A_8E4B_8E4C_8E4D_8E4E_8E4F_B7AA_B7AB_8E50_8E51),
  (0xB7B8, 0xB7AC_8E52_8E53_8E54_8E55_8E56_8E57_8E58_8E59_8E5A_8E61_8E62),
  (0xB7C4, 0x8E63_8E64_8E65_B7AD_8E66_B7AE_8E67_8E68_8E69_8E6A_8E6B_8E6C),
  (0xB7D0, 0x8E6D_8E6E_8E6F_8E70_8E71_8E72_8E73_8E74_8E75_8E76_8E77_8E78),
  (0xB7DC, 0x8E79_8E7A_8E81_8E82_8E83_8E84_8E85_8E86_8E87_8E88_8E89_8E8A),
  (0xB7E8, 0x8E8B_8E8C_8E8D_8E8E_B7AF_B7B0_8E8F_8E90_B7B1_8E91_8E92_8E93),
  (0xB7F4, 0xB7B2_8E94_8E95_8E96_8E97_8E98_8E99_8E9A_B7B3_B7B4_8E9B_B7B5),
  (0xB800, 0xB7B6_B7B7_8E9C_8E9D_8E9E_8E9F_8EA0_B7B8_B7B9_B7BA_8EA1_8EA2),
  (0xB80C, 0xB7BB_8EA3_8EA4_8EA5_B7BC_8EA6_8EA7_8EA8_8EA9_8EAA_8EAB_8EAC),
  (0xB818, 0xB7BD_B7BE_8EAD_B7BF_8EAE_B7C0_8EAF_8EB0_8EB1_8EB2_8EB3_8EB4),
  (0xB824, 0xB7C1_B7C2_8EB5_8EB6_B7C3_8EB7_8EB8_8EB9_B7C4_8EBA_8EBB_8EBC),
  (0xB830, 0x8EBD_8EBE_8EBF_8EC0_B7C5_B7C6_8EC1_B7C7_B7C8_B7C9_8EC2_8EC3),
  (0xB83C, 0x8EC4_8EC5_8EC6_8EC7_B7CA_8EC8_8EC9_8ECA_B7CB_8ECB_8ECC_8ECD),
  (0xB848, 0x8ECE_8ECF_8ED0_8ED1_8ED2_8ED3_8ED4_8ED5_8ED6_B7CC_8ED7_B7CD),
  (0xB854, 0x8ED8_8ED9_8EDA_8EDB_8EDC_8EDD_8EDE_8EDF_B7CE_B7CF_8EE0_8EE1),
  (0xB860, 0xB7D0_8EE2_8EE3_8EE4_B7D1_8EE5_8EE6_8EE7_8EE8_8EE9_8EEA_8EEB),
  (0xB86C, 0xB7D2_B7D3_8EEC_B7D4_8EED_B7D5_8EEE_8EEF_8EF0_8EF1_8EF2_8EF3),
  (0xB878, 0xB7D6_8EF4_8EF5_8EF6_B7D7_8EF7_8EF8_8EF9_8EFA_8EFB_8EFC_8EFD),
  (0xB884, 0x8EFE_8F41_8F42_8F43_8F44_8F45_8F46_8F47_8F48_B7D8_8F49_8F4A),
  (0xB890, 0x8F4B_8F4C_8F4D_8F4E_8F4F_8F50_8F51_8F52_8F53_8F54_8F55_8F56),
  (0xB89C, 0x8F57_8F58_8F59_8F5A_8F61_8F62_8F63_8F64_8F65_8F66_8F67_8F68),
  (0xB8A8, 0xB7D9_8F69_8F6A_8F6B_8F6C_8F6D_8F6E_8F6F_B7DA_8F70_8F71_8F72),
  (0xB8B4, 0xB7DB_8F73_8F74_8F75_B7DC_8F76_8F77_8F78_8F79_8F7A_8F81_8F82),
  (0xB8C0, 0xB7DD_B7DE_8F83_B7DF_8F84_B7E0_8F85_8F86_8F87_8F88_8F89_8F8A),
  (0xB8CC, 0xB7E1_8F8B_8F8C_8F8D_B7E2_8F8E_8F8F_8F90_B7E3_8F91_8F92_8F93),
  (0xB8D8, 0x8F94_8F95_8F96_8F97_8F98_B7E4_8F99_B7E5_8F9A_B7E6_8F9B_8F9C),
  (0xB8E4, 0x8F9D_8F9E_8F9F_8FA0_B7E7_B7E8_8FA1_8FA2_B7E9_8FA3_8FA4_8FA5),
  (0xB8F0, 0xB7EA_8FA6_8FA7_8FA8_8FA9_8FAA_8FAB_8FAC_B7EB_B7EC_8FAD_B7ED),
  (0xB8FC, 0x8FAE_B7EE_8FAF_8FB0_8FB1_8FB2_8FB3_8FB4_B7EF_8FB5_8FB6_8FB7),
  (0xB908, 0x8FB8_8FB9_8FBA_8FBB_8FBC_8FBD_8FBE_8FBF_8FC0_8FC1_8FC2_8FC3),
  (0xB914, 0x8FC4_8FC5_8FC6_8FC7_B7F0_8FC8_8FC9_8FCA_8FCB_8FCC_8FCD_8FCE),
  (0xB920, 0xB7F1_8FCF_8FD0_8FD1_8FD2_8FD3_8FD4_8FD5_8FD6_8FD7_8FD8_8FD9),
  (0xB92C, 0x8FDA_8FDB_8FDC_8FDD_8FDE_8FDF_8FE0_8FE1_8FE2_8FE3_8FE4_8FE5),
  (0xB938, 0x8FE6_8FE7_8FE8_8FE9_B7F2_B7F3_8FEA_8FEB_B7F4_8FEC_8FED_8FEE),
  (0xB944, 0xB7F5_8FEF_8FF0_8FF1_8FF2_8FF3_8FF4_8FF5_B7F6_8FF6_8FF7_B7F7),
  (0xB950, 0x8FF8_B7F8_8FF9_8FFA_8FFB_8FFC_8FFD_8FFE_B7F9_B7FA_9041_9042),
  (0xB95C, 0xB7FB_9043_9044_9045_B7FC_9046_9047_9048_9049_904A_904B_904C),
  (0xB968, 0xB7FD_B7FE_904D_B8A1_904E_B8A2_904F_9050_9051_9052_9053_9054),
  (0xB974, 0xB8A3_B8A4_9055_9056_B8A5_9057_9058_9059_B8A6_905A_9061_9062),
  (0xB980, 0x9063_9064_9065_9066_B8A7_B8A8_9067_B8A9_9068_B8AA_B8AB_9069),
  (0xB98C, 0x906A_B8AC_B8AD_906B_906C_906D_906E_906F_9070_9071_9072_9073),
  (0xB998, 0x9074_9075_9076_9077_9078_9079_907A_9081_9082_9083_9084_9085),
  (0xB9A4, 0x9086_9087_9088_9089_908A_908B_908C_908D_B8AE_B8AF_908E_908F),
  (0xB9B0, 0xB8B0_9090_9091_9092_B8B1_9093_9094_9095_9096_9097_9098_9099),
  (0xB9BC, 0xB8B2_B8B3_909A_B8B4_909B_B8B5_909C_909D_909E_909F_90A0_90A1),
  (0xB9C8, 0xB8B6_B8B7_90A2_90A3_B8B8_90A4_B8B9_B8BA_B8BB_B8BC_B8BD_90A5),
  (0xB9D4, 0x90A6_90A7_90A8_90A9_B8BE_B8BF_90AA_B8C0_90AB_B8C1_B8C2_90AC),
  (0xB9E0, 0x90AD_B8C3_90AE_B8C4_B8C5_B8C6_90AF_90B0_B8C7_90B1_90B2_90B3),
  (0xB9EC, 0xB8C8_90B4_90B5_90B6_90B7_90B8_90B9_90BA_B8C9_B8CA_90BB_B8CB),
  (0xB9F8, 0xB8CC_B8CD_B8CE_90BC_90BD_90BE_90BF_90C0_B8CF_B8D0_90C1_90C2),
  (0xBA04, 0x90C3_90C4_90C5_90C6_B8D1_90C7_90C8_90C9_90CA_90CB_90CC_90CD),
  (0xBA10, 0x90CE_90CF_90D0_90D1_90D2_B8D2_90D3_90D4_90D5_90D6_90D7_90D8),
  (0xBA1C, 0x90D9_90DA_90DB_90DC_90DD_90DE_90DF_90E0_90E1_90E2_90E3_90E4),
  (0xBA28, 0x90E5_90E6_90E7_90E8_90E9_90EA_90EB_90EC_90ED_90EE_90EF_90F0),
  (0xBA34, 0x90F1_90F2_90F3_90F4_B8D3_B8D4_90F5_90F6_B8D5_90F7_90F8_90F9),
  (0xBA40, 0xB8D6_90FA_B8D7_90FB_90FC_90FD_90FE_9141_B8D8_B8D9_9142_B8DA),
  (0xBA4C, 0x9143_B8DB_B8DC_9144_9145_9146_9147_B8DD_B8DE_B8DF_9148_9149),
  (0xBA58, 0xB8E0_914A_914B_914C_B8E1_914D_914E_914F_9150_9151_9152_9153),
  (0xBA64, 0xB8E2_B8E3_9154_B8E4_B8E5_B8E6_9155_9156_9157_9158_9159_915A),
  (0xBA70, 0xB8E7_B8E8_9161_9162_B8E9_9163_9164_9165_B8EA_9166_9167_9168),
  (0xBA7C, 0x9169_916A_916B_916C_916D_916E_916F_B8EB_B8EC_B8ED_9170_B8EE),
  (0xBA88, 0x9171_9172_9173_9174_B8EF_9175_9176_9177_9178_9179_917A_9181),
  (0xBA94, 0x9182_9183_9184_9185_9186_9187_9188_9189_918A_918B_918C_918D),
  (0xBAA0, 0x918E_918F_9190_9191_9192_9193_9194_9195_B8F0_B8F1_9196_B8F2),
  (0xBAAC, 0xB8F3_9197_9198_9199_B8F4_919A_B8F5_919B_919C_919D_919E_919F),
  (0xBAB8, 0xB8F6_B8F7_91A0_B8F8_91A1_B8F9_91A2_91A3_91A4_91A5_91A6_91A7),
  (0xBAC4, 0xB8FA_91A8_91A9_91AA_B8FB_91AB_91AC_91AD_91AE_91AF_91B0_91B1),
  (0xBAD0, 0x91B2_91B3_91B4_91B5_91B6_91B7_91B8_91B9_B8FC_B8FD_91BA_91BB),
  (0xBADC, 0x91BC_91BD_91BE_91BF_91C0_91C1_91C2_91C3_91C4_91C5_91C6_91C7),
  (0xBAE8, 0x91C8_91C9_91CA_91CB_91CC_91CD_91CE_91CF_91D0_91D1_91D2_91D3),
  (0xBAF4, 0x91D4_91D5_91D6_91D7_91D8_91D9_91DA_91DB_B8FE_91DC_91DD_91DE),
  (0xBB00, 0xB9A1_91DF_91E0_91E1_B9A2_91E2_91E3_91E4_91E5_91E6_91E7_91E8),
  (0xBB0C, 0x91E9_B9A3_91EA_B9A4_91EB_B9A5_91EC_91ED_91EE_91EF_91F0_91F1),
  (0xBB18, 0xB9A6_91F2_91F3_91F4_B9A7_91F5_91F6_91F7_B9A8_91F8_91F9_91FA),
  (0xBB24, 0x91FB_91FC_91FD_91FE_9241_B9A9_9242_B9AA_9243_9244_9245_9246),
  (0xBB30, 0x9247_9248_9249_924A_B9AB_B9AC_B9AD_924B_B9AE_924C_924D_B9AF),
  (0xBB3C, 0xB9B0_B9B1_B9B2_924E_924F_9250_9251_9252_B9B3_B9B4_9253_B9B5),
  (0xBB48, 0x9254_B9B6_9255_9256_9257_B9B7_9258_B9B8_B9B9_9259_925A_9261),
  (0xBB54, 0xB9BA_9262_9263_9264_B9BB_9265_9266_9267_9268_9269_926A_926B),
  (0xBB60, 0x926C_B9BC_926D_B9BD_926E_926F_9270_9271_9272_9273_9274_9275),
  (0xBB6C, 0xB9BE_9276_9277_9278_9279_927A_9281_9282_9283_9284_9285_9286),
  (0xBB78, 0x9287_9288_9289_928A_928B_928C_928D_928E_928F_9290_9291_9292),
  (0xBB84, 0x9293_9294_9295_9296_B9BF_9297_9298_9299_B9C0_929A_929B_929C),
  (0xBB90, 0xB9C1_929D_929E_929F_92A0_92A1_92A2_92A3_92A4_92A5_92A6_92A7),
  (0xBB9C, 0x92A8_92A9_92AA_92AB_92AC_92AD_92AE_92AF_B9C2_92B0_92B1_92B2),
  (0xBBA8, 0xB9C3_92B3_92B4_92B5_B9C4_92B6_92B7_92B8_92B9_92BA_92BB_92BC),
  (0xBBB4, 0xB9C5_92BD_92BE_B9C6_92BF_92C0_92C1_92C2_92C3_92C4_92C5_92C6),
  (0xBBC0, 0xB9C7_92C7_92C8_92C9_B9C8_92CA_92CB_92CC_B9C9_92CD_92CE_92CF),
  (0xBBCC, 0x92D0_92D1_92D2_92D3_B9CA_92D4_92D5_B9CB_92D6_92D7_92D8_92D9),
  (0xBBD8, 0x92DA_92DB_92DC_92DD_92DE_92DF_92E0_92E1_92E2_92E3_92E4_92E5),
  (0xBBE4, 0x92E6_92E7_92E8_92E9_92EA_92EB_92EC_92ED_92EE_92EF_92F0_92F1),
  (0xBBF0, 0x92F2_92F3_92F4_92F5_92F6_92F7_92F8_92F9_B9CC_B9CD_92FA_92FB),
  (0xBBFC, 0xB9CE_92FC_92FD_B9CF_B9D0_92FE_B9D1_9341_9342_9343_9344_9345),
  (0xBC08, 0xB9D2_B9D3_9346_B9D4_B9D5_B9D6_9347_B9D7_9348_B9D8_9349_934A),
  (0xBC14, 0xB9D9_B9DA_B9DB_B9DC_B9DD_934B_934C_B9DE_B9DF_B9E0_B9E1_B9E2),
  (0xBC20, 0x934D_934E_934F_9350_B9E3_B9E4_9351_B9E5_9352_B9E6_9353_9354),
  (0xBC2C, 0x9355_B9E7_9356_9357_B9E8_B9E9_9358_9359_B9EA_935A_9361_9362),
  (0xBC38, 0xB9EB_9363_9364_9365_9366_9367_9368_9369_B9EC_B9ED_936A_B9EE),
  (0xBC44, 0xB9EF_B9F0_936B_936C_936D_B9F1_936E_936F_B9F2_B9F3_9370_9371),
  (0xBC50, 0xB9F4_9372_9373_9374_9375_9376_9377_9378_9379_937A_9381_9382),
  (0xBC5C, 0x9383_B9F5_9384_9385_9386_9387_9388_9389_938A_938B_938C_938D),
  (0xBC68, 0x938E_938F_9390_9391_9392_9393_9394_9395_9396_9397_9398_9399),
  (0xBC74, 0x939A_939B_939C_939D_939E_939F_93A0_93A1_93A2_93A3_93A4_93A5),
  (0xBC80, 0x93A6_93A7_93A8_93A9_B9F6_B9F7_93AA_93AB_B9F8_93AC_93AD_B9F9),
  (0xBC8C, 0xB9FA_93AE_B9FB_93AF_93B0_93B1_93B2_93B3_B9FC_B9FD_93B4_B9FE),
  (0xBC98, 0x93B5_BAA1_BAA2_93B6_93B7_93B8_93B9_93BA_BAA3_BAA4_93BB_93BC),
  (0xBCA4, 0xBAA5_93BD_93BE_BAA6_BAA7_93BF_93C0_93C1_93C2_93C3_93C4_93C5),
  (0xBCB0, 0xBAA8_BAA9_93C6_BAAA_BAAB_BAAC_93C7_93C8_93C9_93CA_93CB_93CC),
  (0xBCBC, 0xBAAD_BAAE_93CD_93CE_BAAF_93CF_93D0_93D1_BAB0_93D2_93D3_93D4),
  (0xBCC8, 0x93D5_93D6_93D7_93D8_93D9_BAB1_93DA_BAB2_BAB3_BAB4_93DB_93DC),
  (0xBCD4, 0x93DD_BAB5_93DE_93DF_BAB6_93E0_93E1_93E2_BAB7_93E3_93E4_93E5),
  (0xBCE0, 0x93E6_93E7_93E8_93E9_93EA_93EB_93EC_93ED_93EE_93EF_93F0_93F1),
  (0xBCEC, 0x93F2_93F3_93F4_93F5_93F6_93F7_93F8_93F9_BAB8_BAB9_BABA_93FA),
  (0xBCF8, 0xBABB_93FB_93FC_93FD_BABC_93FE_9441_9442_9443_9444_9445_9446),
  (0xBD04, 0xBABD_BABE_9447_BABF_9448_BAC0_9449_944A_944B_944C_944D_944E),
  (0xBD10, 0xBAC1_944F_9450_9451_BAC2_9452_9453_9454_9455_9456_9457_9458),
  (0xBD1C, 0x9459_945A_9461_9462_9463_9464_9465_9466_BAC3_9467_9468_9469),
  (0xBD28, 0x946A_946B_946C_946D_BAC4_946E_946F_9470_9471_9472_9473_9474),
  (0xBD34, 0x9475_9476_9477_9478_9479_947A_9481_9482_9483_9484_9485_9486),
  (0xBD40, 0xBAC5_9487_9488_9489_948A_948B_948C_948D_BAC6_BAC7_948E_948F),
  (0xBD4C, 0xBAC8_9490_9491_9492_BAC9_9493_9494_9495_9496_9497_9498_9499),
  (0xBD58, 0xBACA_BACB_949A_949B_949C_949D_949E_949F_94A0_94A1_94A2_94A3),
  (0xBD64, 0xBACC_94A4_94A5_94A6_BACD_94A7_94A8_94A9_94AA_94AB_94AC_94AD),
  (0xBD70, 0x94AE_94AF_94B0_94B1_94B2_94B3_94B4_94B5_94B6_94B7_94B8_94B9),
  (0xBD7C, 0x94BA_94BB_94BC_94BD_BACE_BACF_94BE_94BF_BAD0_94C0_94C1_BAD1),
  (0xBD88, 0xBAD2_BAD3_BAD4_94C2_94C3_94C4_94C5_94C6_BAD5_BAD6_94C7_BAD7),
  (0xBD94, 0x94C8_BAD8_94C9_94CA_94CB_BAD9_BADA_94CC_BADB_94CD_94CE_94CF),
  (0xBDA0, 0x94D0_94D1_94D2_94D3_BADC_94D4_94D5_94D6_94D7_94D8_94D9_94DA),
  (0xBDAC, 0x94DB_94DC_94DD_94DE_BADD_94DF_94E0_94E1_94E2_94E3_94E4_94E5),
  (0xBDB8, 0xBADE_94E6_94E7_94E8_94E9_94EA_94EB_94EC_94ED_94EE_94EF_94F0),
  (0xBDC4, 0x94F1_94F2_94F3_94F4_94F5_94F6_94F7_94F8_94F9_94FA_94FB_94FC),
  (0xBDD0, 0x94FD_94FE_9541_9542_BADF_BAE0_9543_9544_BAE1_9545_9546_9547),
  (0xBDDC, 0xBAE2_9548_9549_954A_954B_954C_954D_954E_954F_9550_9551_9552),
  (0xBDE8, 0x9553_BAE3_9554_9555_9556_9557_9558_9559_BAE4_955A_9561_9562),
  (0xBDF4, 0xBAE5_9563_9564_9565_BAE6_9566_9567_9568_9569_956A_956B_956C),
  (0xBE00, 0xBAE7_956D_956E_BAE8_956F_BAE9_9570_9571_9572_9573_9574_9575),
  (0xBE0C, 0xBAEA_BAEB_9576_9577_BAEC_9578_9579_957A_BAED_9581_9582_9583),
  (0xBE18, 0x9584_9585_9586_9587_BAEE_BAEF_9588_BAF0_9589_958A_958B_958C),
  (0xBE24, 0x958D_958E_958F_9590_9591_9592_9593_9594_9595_9596_9597_9598),
  (0xBE30, 0x9599_959A_959B_959C_959D_959E_959F_95A0_95A1_95A2_95A3_95A4),
  (0xBE3C, 0x95A5_95A6_95A7_95A8_95A9_95AA_95AB_95AC_BAF1_BAF2_95AD_95AE),
  (0xBE48, 0xBAF3_95AF_95B0_95B1_BAF4_95B2_BAF5_95B3_95B4_95B5_95B6_95B7),
  (0xBE54, 0xBAF6_BAF7_95B8_BAF8_95B9_BAF9_BAFA_BAFB_95BA_95BB_95BC_95BD),
  (0xBE60, 0xBAFC_BAFD_95BE_95BF_BAFE_95C0_95C1_95C2_BBA1_95C3_BBA2_95C4),
  (0xBE6C, 0x95C5_95C6_95C7_95C8_BBA3_BBA4_95C9_BBA5_BBA6_BBA7_95CA_95CB),
  (0xBE78, 0x95CC_95CD_95CE_BBA8_BBA9_BBAA_95CF_95D0_BBAB_95D1_95D2_95D3),
  (0xBE84, 0xBBAC_95D4_95D5_95D6_95D7_95D8_95D9_95DA_BBAD_BBAE_95DB_BBAF),
  (0xBE90, 0xBBB0_BBB1_95DC_95DD_95DE_95DF_95E0_95E1_BBB2_BBB3_95E2_95E3),
  (0xBE9C, 0x95E4_95E5_95E6_95E7_95E8_95E9_95EA_95EB_95EC_95ED_95EE_95EF),
  (0xBEA8, 0xBBB4_95F0_95F1_95F2_95F3_95F4_95F5_95F6_95F7_95F8_95F9_95FA),
  (0xBEB4, 0x95FB_95FC_95FD_95FE_9641_9642_9643_9644_9645_9646_9647_9648),
  (0xBEC0, 0x9649_964A_964B_964C_964D_964E_964F_9650_9651_9652_9653_9654),
  (0xBECC, 0x9655_9656_9657_9658_BBB5_BBB6_9659_965A_BBB7_9661_9662_BBB8),
  (0xBED8, 0xBBB9_9663_9664_9665_9666_9667_9668_9669_BBBA_966A_966B_BBBB),
  (0xBEE4, 0xBBBC_BBBD_966C_966D_966E_966F_9670_9671_BBBE_9672_9673_9674),
  (0xBEF0, 0x9675_9676_9677_9678_9679_967A_9681_9682_9683_9684_9685_9686),
  (0xBEFC, 0x9687_9688_9689_968A_968B_BBBF_968C_968D_968E_968F_9690_9691),
  (0xBF08, 0xBBC0_BBC1_9692_9693_9694_9695_9696_9697_9698_9699_969A_969B),
  (0xBF14, 0x969C_969D_969E_969F_BBC2_BBC3_96A0_BBC4_BBC5_BBC6_96A1_96A2),
  (0xBF20, 0x96A3_96A4_96A5_96A6_96A7_96A8_96A9_96AA_96AB_96AC_96AD_96AE),
  (0xBF2C, 0x96AF_96B0_96B1_96B2_96B3_96B4_96B5_96B6_96B7_96B8_96B9_96BA),
  (0xBF38, 0x96BB_96BC_96BD_96BE_96BF_96C0_96C1_96C2_BBC7_BBC8_96C3_96C4),
  (0xBF44, 0xBBC9_96C5_96C6_96C7_BBCA_96C8_96C9_96CA_96CB_96CC_96CD_96CE),
  (0xBF50, 0xBBCB_BBCC_96CF_96D0_96D1_BBCD_96D2_96D3_96D4_96D5_96D6_96D7),
  (0xBF5C, 0x96D8_96D9_96DA_96DB_96DC_96DD_96DE_96DF_96E0_96E1_96E2_96E3),
  (0xBF68, 0x96E4_96E5_96E6_96E7_96E8_96E9_96EA_96EB_96EC_96ED_96EE_96EF),
  (0xBF74, 0x96F0_96F1_96F2_96F3_96F4_96F5_96F6_96F7_96F8_96F9_96FA_96FB),
  (0xBF80, 0x96FC_96FD_96FE_9741_9742_9743_9744_9745_9746_9747_9748_9749),
  (0xBF8C, 0x974A_974B_974C_974D_974E_974F_9750_9751_BBCE_9752_9753_9754),
  (0xBF98, 0x9755_9756_9757_9758_9759_975A_9761_9762_9763_9764_9765_9766),
  (0xBFA4, 0x9767_9768_9769_976A_976B_976C_976D_976E_976F_9770_9771_9772),
  (0xBFB0, 0xBBCF_9773_9774_9775_9776_9777_9778_9779_977A_9781_9782_9783),
  (0xBFBC, 0x9784_9785_9786_9787_9788_9789_978A_978B_978C_BBD0_978D_978E),
  (0xBFC8, 0x978F_9790_9791_9792_BBD1_BBD2_9793_9794_BBD3_9795_9796_9797),
  (0xBFD4, 0xBBD4_9798_9799_979A_979B_979C_979D_979E_BBD5_979F_97A0_BBD6),
  (0xBFE0, 0x97A1_BBD7_97A2_97A3_97A4_97A5_97A6_97A7_97A8_97A9_97AA_97AB),
  (0xBFEC, 0x97AC_97AD_97AE_97AF_97B0_97B1_97B2_97B3_97B4_97B5_97B6_97B7),
  (0xBFF8, 0x97B8_97B9_97BA_97BB_97BC_97BD_97BE_97BF_97C0_97C1_97C2_97C3),
  (0xC004, 0x97C4_97C5_97C6_97C7_97C8_97C9_97CA_97CB_97CC_97CD_97CE_97CF),
  (0xC010, 0x97D0_97D1_97D2_97D3_97D4_97D5_97D6_97D7_97D8_97D9_97DA_97DB),
  (0xC01C, 0x97DC_97DD_97DE_97DF_97E0_97E1_97E2_97E3_97E4_97E5_97E6_97E7),
  (0xC028, 0x97E8_97E9_97EA_97EB_97EC_97ED_97EE_97EF_97F0_97F1_97F2_97F3),
  (0xC034, 0x97F4_97F5_97F6_97F7_97F8_97F9_97FA_97FB_BBD8_97FC_97FD_97FE),
  (0xC040, 0x9841_9842_9843_9844_9845_9846_9847_9848_9849_984A_984B_984C),
  (0xC04C, 0x984D_984E_984F_9850_9851_BBD9_9852_9853_9854_9855_9856_9857),
  (0xC058, 0xBBDA_9858_9859_985A_BBDB_9861_9862_9863_BBDC_9864_9865_9866),
  (0xC064, 0x9867_9868_9869_986A_BBDD_BBDE_986B_986C_986D_986E_986F_9870),
  (0xC070, 0x9871_9872_9873_9874_9875_9876_9877_9878_9879_987A_9881_9882),
  (0xC07C, 0x9883_9884_9885_9886_9887_9888_9889_988A_988B_988C_988D_988E),
  (0xC088, 0x988F_9890_9891_9892_9893_9894_9895_9896_BBDF_BBE0_9897_9898),
  (0xC094, 0xBBE1_9899_989A_989B_BBE2_989C_989D_989E_989F_98A0_98A1_98A2),
  (0xC0A0, 0xBBE3_BBE4_98A3_BBE5_98A4_BBE6_98A5_98A6_98A7_98A8_98A9_98AA),
  (0xC0AC, 0xBBE7_BBE8_98AB_BBE9_BBEA_98AC_98AD_BBEB_BBEC_BBED_BBEE_98AE),
  (0xC0B8, 0x98AF_98B0_98B1_98B2_BBEF_BBF0_98B3_BBF1_BBF2_BBF3_98B4_98B5),
  (0xC0C4, 0x98B6_BBF4_98B7_98B8_BBF5_BBF6_98B9_98BA_BBF7_98BB_98BC_98BD),
  (0xC0D0, 0xBBF8_98BE_98BF_98C0_98C1_98C2_98C3_98C4_BBF9_BBFA_98C5_BBFB),
  (0xC0DC, 0xBBFC_BBFD_98C6_98C7_98C8_98C9_98CA_98CB_BBFE_BCA1_98CC_98CD),
  (0xC0E8, 0xBCA2_98CE_98CF_98D0_BCA3_98D1_98D2_98D3_98D4_98D5_98D6_98D7),
  (0xC0F4, 0xBCA4_BCA5_98D8_BCA6_98D9_BCA7_98DA_98DB_98DC_98DD_98DE_98DF),
  (0xC100, 0xBCA8_98E0_98E1_98E2_BCA9_98E3_98E4_98E5_BCAA_98E6_98E7_98E8),
  (0xC10C, 0x98E9_98EA_98EB_98EC_BCAB_98ED_98EE_98EF_98F0_BCAC_98F1_98F2),
  (0xC118, 0x98F3_98F4_98F5_98F6_BCAD_BCAE_BCAF_BCB0_BCB1_98F7_98F8_BCB2),
  (0xC124, 0xBCB3_98F9_BCB4_BCB5_98FA_98FB_98FC_98FD_BCB6_BCB7_98FE_BCB8),
  (0xC130, 0xBCB9_BCBA_9941_9942_9943_9944_BCBB_9945_BCBC_BCBD_9946_9947),
  (0xC13C, 0xBCBE_9948_9949_994A_BCBF_994B_994C_994D_994E_994F_9950_9951),
  (0xC148, 0xBCC0_BCC1_9952_BCC2_BCC3_BCC4_9953_9954_9955_9956_9957_9958),
  (0xC154, 0xBCC5_BCC6_9959_995A_BCC7_9961_9962_9963_BCC8_9964_9965_9966),
  (0xC160, 0x9967_9968_9969_996A_BCC9_BCCA_996B_BCCB_BCCC_BCCD_996C_996D),
  (0xC16C, 0x996E_996F_9970_9971_BCCE_9972_9973_9974_BCCF_9975_9976_9977),
  (0xC178, 0xBCD0_9978_9979_997A_9981_9982_9983_9984_9985_9986_9987_9988),
  (0xC184, 0x9989_BCD1_998A_998B_998C_998D_998E_998F_BCD2_BCD3_BCD4_9990),
  (0xC190, 0xBCD5_9991_9992_9993_BCD6_9994_BCD7_9995_9996_9997_9998_9999),
  (0xC19C, 0xBCD8_BCD9_999A_BCDA_999B_BCDB_999C_999D_999E_BCDC_999F_99A0),
  (0xC1A8, 0xBCDD_BCDE_99A1_99A2_BCDF_99A3_99A4_99A5_BCE0_99A6_99A7_99A8),
  (0xC1B4, 0x99A9_99AA_99AB_99AC_99AD_99AE_99AF_99B0_99B1_BCE1_99B2_99B3),
  (0xC1C0, 0x99B4_99B5_99B6_99B7_BCE2_99B8_99B9_99BA_BCE3_99BB_99BC_99BD),
  (0xC1CC, 0xBCE4_99BE_99BF_99C0_99C1_99C2_99C3_99C4_BCE5_99C5_99C6_BCE6),
  (0xC1D8, 0xBCE7_99C7_99C8_99C9_99CA_99CB_99CC_99CD_BCE8_99CE_99CF_99D0),
  (0xC1E4, 0xBCE9_99D1_99D2_99D3_BCEA_99D4_99D5_99D6_99D7_99D8_99D9_99DA),
  (0xC1F0, 0xBCEB_BCEC_99DB_BCED_99DC_99DD_99DE_99DF_99E0_99E1_99E2_99E3),
  (0xC1FC, 0xBCEE_BCEF_99E4_99E5_BCF0_99E6_99E7_99E8_BCF1_99E9_99EA_99EB),
  (0xC208, 0x99EC_99ED_99EE_99EF_BCF2_BCF3_99F0_BCF4_99F1_BCF5_99F2_99F3),
  (0xC214, 0x99F4_99F5_99F6_99F7_BCF6_BCF7_99F8_99F9_BCF8_99FA_99FB_BCF9),
  (0xC220, 0xBCFA_99FC_99FD_99FE_9A41_9A42_9A43_9A44_BCFB_BCFC_9A45_BCFD),
  (0xC22C, 0x9A46_BCFE_9A47_BDA1_9A48_BDA2_BDA3_9A49_BDA4_9A4A_9A4B_9A4C),
  (0xC238, 0x9A4D_9A4E_9A4F_9A50_9A51_9A52_9A53_9A54_9A55_9A56_9A57_9A58),
  (0xC244, 0x9A59_9A5A_9A61_9A62_BDA5_9A63_9A64_9A65_9A66_9A67_9A68_9A69),
  (0xC250, 0xBDA6_BDA7_9A6A_9A6B_BDA8_9A6C_9A6D_9A6E_BDA9_9A6F_9A70_9A71),
  (0xC25C, 0x9A72_9A73_9A74_9A75_BDAA_9A76_9A77_9A78_9A79_BDAB_9A7A_9A81),
  (0xC268, 0x9A82_9A83_9A84_9A85_BDAC_BDAD_9A86_9A87_BDAE_9A88_9A89_9A8A),
  (0xC274, 0xBDAF_9A8B_9A8C_9A8D_9A8E_9A8F_9A90_9A91_BDB0_BDB1_9A92_BDB2),
  (0xC280, 0x9A93_BDB3_9A94_9A95_9A96_9A97_9A98_9A99_BDB4_BDB5_9A9A_9A9B),
  (0xC28C, 0x9A9C_9A9D_9A9E_9A9F_BDB6_9AA0_9AA1_9AA2_9AA3_9AA4_9AA5_9AA6),
  (0xC298, 0xBDB7_9AA7_9AA8_BDB8_9AA9_BDB9_9AAA_9AAB_9AAC_9AAD_9AAE_9AAF),
  (0xC2A4, 0xBDBA_BDBB_9AB0_9AB1_BDBC_9AB2_9AB3_9AB4_BDBD_BDBE_9AB5_9AB6),
  (0xC2B0, 0x9AB7_9AB8_9AB9_9ABA_BDBF_BDC0_9ABB_BDC1_9ABC_BDC2_9ABD_9ABE),
  (0xC2BC, 0x9ABF_9AC0_9AC1_9AC2_9AC3_9AC4_9AC5_9AC6_9AC7_9AC8_9AC9_9ACA),
  (0xC2C8, 0x9ACB_9ACC_9ACD_9ACE_9ACF_9AD0_9AD1_9AD2_9AD3_9AD4_9AD5_9AD6),
  (0xC2D4, 0x9AD7_9AD8_9AD9_9ADA_9ADB_9ADC_9ADD_9ADE_BDC3_BDC4_9ADF_9AE0),
  (0xC2E0, 0xBDC5_9AE1_9AE2_BDC6_BDC7_9AE3_9AE4_9AE5_9AE6_9AE7_9AE8_BDC8),
  (0xC2EC, 0xBDC9_BDCA_9AE9_BDCB_9AEA_BDCC_9AEB_9AEC_9AED_9AEE_BDCD_9AEF),
  (0xC2F8, 0xBDCE_BDCF_9AF0_BDD0_BDD1_9AF1_9AF2_9AF3_BDD2_9AF4_9AF5_9AF6),
  (0xC304, 0x9AF7_9AF8_9AF9_9AFA_BDD3_BDD4_9AFB_9AFC_BDD5_BDD6_9AFD_9AFE),
  (0xC310, 0x9B41_9B42_9B43_BDD7_BDD8_BDD9_9B44_9B45_BDDA_9B46_9B47_9B48),
  (0xC31C, 0xBDDB_9B49_9B4A_9B4B_9B4C_9B4D_9B4E_9B4F_BDDC_BDDD_9B50_9B51),
  (0xC328, 0xBDDE_BDDF_9B52_9B53_9B54_9B55_9B56_9B57_9B58_9B59_9B5A_9B61),
  (0xC334, 0x9B62_9B63_9B64_9B65_9B66_9B67_9B68_9B69_9B6A_9B6B_9B6C_9B6D),
  (0xC340, 0x9B6E_9B6F_9B70_9B71_9B72_BDE0_9B73_9B74_9B75_9B76_9B77_9B78),
  (0xC34C, 0x9B79_9B7A_9B81_9B82_9B83_9B84_9B85_9B86_9B87_9B88_9B89_9B8A),
  (0xC358, 0x9B8B_9B8C_9B8D_9B8E_9B8F_9B90_9B91_9B92_9B93_9B94_9B95_9B96),
  (0xC364, 0x9B97_9B98_9B99_9B9A_BDE1_BDE2_9B9B_9B9C_BDE3_9B9D_9B9E_9B9F),
  (0xC370, 0xBDE4_9BA0_BDE5_9BA1_9BA2_9BA3_9BA4_9BA5_BDE6_BDE7_9BA6_9BA7),
  (0xC37C, 0xBDE8_BDE9_9BA8_9BA9_9BAA_9BAB_9BAC_9BAD_BDEA_9BAE_9BAF_9BB0),
  (0xC388, 0xBDEB_9BB1_9BB2_9BB3_BDEC_9BB4_9BB5_9BB6_9BB7_9BB8_9BB9_9BBA),
  (0xC394, 0x9BBB_9BBC_9BBD_9BBE_9BBF_9BC0_9BC1_9BC2_9BC3_9BC4_9BC5_9BC6),
  (0xC3A0, 0x9BC7_9BC8_9BC9_9BCA_9BCB_9BCC_9BCD_9BCE_9BCF_9BD0_9BD1_9BD2),
  (0xC3AC, 0x9BD3_9BD4_9BD5_9BD6_9BD7_9BD8_9BD9_9BDA_9BDB_9BDC_9BDD_9BDE),
  (0xC3B8, 0x9BDF_9BE0_9BE1_9BE2_9BE3_9BE4_9BE5_9BE6_BDED_9BE7_9BE8_9BE9),
  (0xC3C4, 0x9BEA_9BEB_9BEC_9BED_9BEE_9BEF_9BF0_9BF1_9BF2_9BF3_9BF4_9BF5),
  (0xC3D0, 0x9BF6_9BF7_9BF8_9BF9_9BFA_9BFB_9BFC_9BFD_BDEE_BDEF_9BFE_9C41),
  (0xC3DC, 0xBDF0_9C42_9C43_BDF1_BDF2_9C44_BDF3_9C45_9C46_9C47_9C48_9C49),
  (0xC3E8, 0xBDF4_BDF5_9C4A_9C4B_9C4C_BDF6_9C4D_9C4E_9C4F_9C50_9C51_9C52),
  (0xC3F4, 0xBDF7_BDF8_9C53_9C54_BDF9_9C55_9C56_9C57_9C58_9C59_9C5A_9C61),
  (0xC400, 0x9C62_9C63_9C64_9C65_9C66_9C67_9C68_9C69_BDFA_9C6A_9C6B_9C6C),
  (0xC40C, 0x9C6D_9C6E_9C6F_9C70_BDFB_9C71_9C72_9C73_9C74_9C75_9C76_9C77),
  (0xC418, 0x9C78_9C79_9C7A_9C81_9C82_9C83_9C84_9C85_9C86_9C87_9C88_9C89),
  (0xC424, 0xBDFC_9C8A_9C8B_9C8C_9C8D_9C8E_9C8F_9C90_BDFD_9C91_9C92_9C93),
  (0xC430, 0xBDFE_9C94_9C95_9C96_BEA1_9C97_9C98_9C99_9C9A_9C9B_9C9C_9C9D),
  (0xC43C, 0xBEA2_BEA3_9C9E_9C9F_9CA0_9CA1_9CA2_9CA3_9CA4_9CA5_9CA6_9CA7),
  (0xC448, 0xBEA4_9CA8_9CA9_9CAA_9CAB_9CAC_9CAD_9CAE_9CAF_9CB0_9CB1_9CB2),
  (0xC454, 0x9CB3_9CB4_9CB5_9CB6_9CB7_9CB8_9CB9_9CBA_9CBB_9CBC_9CBD_9CBE),
  (0xC460, 0x9CBF_9CC0_9CC1_9CC2_BEA5_BEA6_9CC3_9CC4_BEA7_9CC5_9CC6_9CC7),
  (0xC46C, 0xBEA8_9CC8_9CC9_9CCA_9CCB_9CCC_9CCD_9CCE_BEA9_BEAA_9CCF_9CD0),
  (0xC478, 0x9CD1_BEAB_9CD2_9CD3_9CD4_9CD5_9CD6_9CD7_BEAC_9CD8_9CD9_9CDA),
  (0xC484, 0x9CDB_9CDC_9CDD_9CDE_9CDF_9CE0_9CE1_9CE2_9CE3_9CE4_9CE5_9CE6),
  (0xC490, 0x9CE7_9CE8_9CE9_9CEA_BEAD_9CEB_9CEC_9CED_9CEE_9CEF_9CF0_9CF1),
  (0xC49C, 0xBEAE_9CF2_9CF3_9CF4_9CF5_9CF6_9CF7_9CF8_9CF9_9CFA_9CFB_9CFC),
  (0xC4A8, 0x9CFD_9CFE_9D41_9D42_9D43_9D44_9D45_9D46_9D47_9D48_9D49_9D4A),
  (0xC4B4, 0x9D4B_9D4C_9D4D_9D4E_BEAF_9D4F_9D50_9D51_BEB0_9D52_9D53_9D54),
  (0xC4C0, 0x9D55_9D56_9D57_9D58_9D59_9D5A_9D61_9D62_9D63_9D64_9D65_9D66),
  (0xC4CC, 0x9D67_9D68_9D69_9D6A_9D6B_9D6C_9D6D_9D6E_9D6F_9D70_9D71_9D72),
  (0xC4D8, 0x9D73_9D74_9D75_9D76_9D77_9D78_9D79_9D7A_9D81_9D82_9D83_9D84),
  (0xC4E4, 0x9D85_9D86_9D87_9D88_9D89_BEB1_9D8A_9D8B_9D8C_9D8D_9D8E_9D8F),
  (0xC4F0, 0xBEB2_BEB3_9D90_9D91_BEB4_9D92_9D93_9D94_BEB5_9D95_BEB6_9D96),
  (0xC4FC, 0x9D97_9D98_9D99_BEB7_BEB8_BEB9_9D9A_9D9B_9D9C_9D9D_9D9E_9D9F),
  (0xC508, 0x9DA0_9DA1_9DA2_9DA3_BEBA_9DA4_9DA5_9DA6_BEBB_9DA7_9DA8_9DA9),
  (0xC514, 0xBEBC_9DAA_9DAB_9DAC_9DAD_9DAE_9DAF_9DB0_BEBD_9DB1_9DB2_9DB3),
  (0xC520, 0x9DB4_9DB5_9DB6_9DB7_9DB8_9DB9_9DBA_9DBB_BEBE_BEBF_9DBC_9DBD),
  (0xC52C, 0xBEC0_9DBE_9DBF_9DC0_BEC1_9DC1_9DC2_9DC3_9DC4_9DC5_9DC6_9DC7),
  (0xC538, 0xBEC2_BEC3_9DC8_BEC4_9DC9_BEC5_9DCA_9DCB_9DCC_9DCD_9DCE_9DCF),
  (0xC544, 0xBEC6_BEC7_9DD0_9DD1_BEC8_BEC9_BECA_9DD2_BECB_BECC_BECD_9DD3),
  (0xC550, 0x9DD4_9DD5_9DD6_BECE_BECF_BED0_9DD7_BED1_BED2_BED3_9DD8_9DD9),
  (0xC55C, 0x9DDA_BED4_BED5_9DDB_BED6_BED7_9DDC_9DDD_BED8_9DDE_9DDF_9DE0),
  (0xC568, 0xBED9_9DE1_9DE2_9DE3_9DE4_9DE5_9DE6_9DE7_BEDA_BEDB_9DE8_BEDC),
  (0xC574, 0xBEDD_BEDE_9DE9_9DEA_9DEB_9DEC_9DED_9DEE_BEDF_BEE0_9DEF_9DF0),
  (0xC580, 0xBEE1_9DF1_9DF2_9DF3_BEE2_9DF4_9DF5_BEE3_9DF6_9DF7_9DF8_9DF9),
  (0xC58C, 0xBEE4_BEE5_9DFA_BEE6_9DFB_BEE7_9DFC_9DFD_9DFE_BEE8_9E41_BEE9),
  (0xC598, 0xBEEA_9E42_9E43_9E44_BEEB_9E45_9E46_9E47_BEEC_9E48_9E49_9E4A),
  (0xC5A4, 0x9E4B_9E4C_9E4D_9E4E_9E4F_BEED_9E50_9E51_9E52_9E53_9E54_9E55),
  (0xC5B0, 0x9E56_9E57_9E58_9E59_BEEE_BEEF_9E5A_9E61_BEF0_BEF1_9E62_BEF2),
  (0xC5BC, 0xBEF3_BEF4_BEF5_9E63_9E64_9E65_9E66_9E67_BEF6_BEF7_BEF8_BEF9),
  (0xC5C8, 0xBEFA_BEFB_BEFC_9E68_BEFD_9E69_BEFE_9E6A_BFA1_BFA2_9E6B_9E6C),
  (0xC5D4, 0xBFA3_9E6D_9E6E_9E6F_BFA4_9E70_9E71_9E72_9E73_9E74_9E75_9E76),
  (0xC5E0, 0xBFA5_BFA6_9E77_BFA7_9E78_BFA8_9E79_9E7A_9E81_9E82_9E83_9E84),
  (0xC5EC, 0xBFA9_BFAA_BFAB_9E85_BFAC_9E86_9E87_9E88_BFAD_9E89_BFAE_BFAF),
  (0xC5F8, 0x9E8A_9E8B_9E8C_9E8D_BFB0_BFB1_BFB2_BFB3_BFB4_BFB5_9E8E_9E8F),
  (0xC604, 0x9E90_BFB6_BFB7_BFB8_BFB9_9E91_9E92_9E93_BFBA_9E94_9E95_9E96),
  (0xC610, 0xBFBB_9E97_9E98_9E99_9E9A_9E9B_9E9C_9E9D_BFBC_BFBD_9E9E_BFBE),
  (0xC61C, 0xBFBF_9E9F_9EA0_9EA1_9EA2_9EA3_9EA4_9EA5_BFC0_BFC1_9EA6_9EA7),
  (0xC628, 0xBFC2_9EA8_9EA9_9EAA_BFC3_BFC4_BFC5_9EAB_BFC6_9EAC_9EAD_BFC7),
  (0xC634, 0xBFC8_BFC9_9EAE_BFCA_9EAF_BFCB_9EB0_BFCC_9EB1_9EB2_9EB3_9EB4),
  (0xC640, 0xBFCD_BFCE_9EB5_9EB6_BFCF_9EB7_9EB8_9EB9_BFD0_9EBA_9EBB_9EBC),
  (0xC64C, 0x9EBD_9EBE_9EBF_9EC0_BFD1_BFD2_9EC1_BFD3_BFD4_BFD5_9EC2_9EC3),
  (0xC658, 0x9EC4_9EC5_9EC6_9EC7_BFD6_BFD7_9EC8_9EC9_BFD8_9ECA_9ECB_9ECC),
  (0xC664, 0x9ECD_9ECE_9ECF_9ED0_9ED1_9ED2_9ED3_9ED4_BFD9_9ED5_9ED6_BFDA),
  (0xC670, 0x9ED7_BFDB_9ED8_9ED9_9EDA_9EDB_9EDC_9EDD_BFDC_BFDD_9EDE_9EDF),
  (0xC67C, 0xBFDE_9EE0_9EE1_9EE2_BFDF_9EE3_9EE4_9EE5_9EE6_9EE7_9EE8_9EE9),
  (0xC688, 0xBFE0_BFE1_9EEA_BFE2_9EEB_BFE3_9EEC_9EED_9EEE_9EEF_9EF0_9EF1),
  (0xC694, 0xBFE4_BFE5_9EF2_9EF3_BFE6_9EF4_9EF5_9EF6_BFE7_9EF7_9EF8_9EF9),
  (0xC6A0, 0x9EFA_9EFB_9EFC_9EFD_BFE8_BFE9_9EFE_BFEA_9F41_BFEB_9F42_9F43),
  (0xC6AC, 0x9F44_9F45_9F46_9F47_BFEC_BFED_9F48_9F49_BFEE_9F4A_9F4B_9F4C),
  (0xC6B8, 0xBFEF_BFF0_BFF1_9F4D_9F4E_9F4F_9F50_9F51_BFF2_BFF3_9F52_BFF4),
  (0xC6C4, 0x9F53_BFF5_9F54_9F55_9F56_9F57_9F58_9F59_BFF6_BFF7_9F5A_9F61),
  (0xC6D0, 0xBFF8_9F62_9F63_9F64_BFF9_9F65_9F66_9F67_9F68_9F69_9F6A_9F6B),
  (0xC6DC, 0xBFFA_BFFB_9F6C_9F6D_BFFC_BFFD_9F6E_9F6F_9F70_9F71_9F72_9F73),
  (0xC6E8, 0xBFFE_C0A1_9F74_9F75_C0A2_9F76_9F77_9F78_C0A3_9F79_9F7A_9F81),
  (0xC6F4, 0x9F82_9F83_9F84_9F85_C0A4_C0A5_9F86_9F87_9F88_C0A6_9F89_9F8A),
  (0xC700, 0x9F8B_9F8C_9F8D_9F8E_C0A7_C0A8_9F8F_9F90_C0A9_9F91_9F92_9F93),
  (0xC70C, 0xC0AA_9F94_9F95_9F96_9F97_9F98_9F99_9F9A_C0AB_C0AC_9F9B_C0AD),
  (0xC718, 0x9F9C_C0AE_9F9D_9F9E_9F9F_9FA0_9FA1_9FA2_C0AF_C0B0_9FA3_9FA4),
  (0xC724, 0xC0B1_9FA5_9FA6_9FA7_C0B2_9FA8_9FA9_9FAA_9FAB_9FAC_9FAD_9FAE),
  (0xC730, 0xC0B3_C0B4_9FAF_C0B5_9FB0_C0B6_9FB1_C0B7_9FB2_9FB3_9FB4_9FB5),
  (0xC73C, 0xC0B8_C0B9_9FB6_9FB7_C0BA_9FB8_9FB9_9FBA_C0BB_9FBB_9FBC_9FBD),
  (0xC748, 0x9FBE_9FBF_C0BC_9FC0_C0BD_C0BE_9FC1_C0BF_9FC2_C0C0_C0C1_C0C2),
  (0xC754, 0xC0C3_C0C4_C0C5_C0C6_C0C7_9FC3_9FC4_9FC5_C0C8_9FC6_9FC7_9FC8),
  (0xC760, 0xC0C9_9FC9_9FCA_9FCB_9FCC_9FCD_9FCE_9FCF_C0CA_9FD0_9FD1_C0CB),
  (0xC76C, 0x9FD2_9FD3_9FD4_9FD5_9FD6_9FD7_9FD8_9FD9_C0CC_C0CD_9FDA_9FDB),
  (0xC778, 0xC0CE_9FDC_9FDD_9FDE_C0CF_C0D0_C0D1_9FDF_9FE0_9FE1_9FE2_C0D2),
  (0xC784, 0xC0D3_C0D4_9FE3_C0D5_C0D6_C0D7_C0D8_9FE4_9FE5_9FE6_C0D9_9FE7),
  (0xC790, 0xC0DA_C0DB_9FE8_9FE9_C0DC_9FEA_C0DD_C0DE_C0DF_9FEB_C0E0_9FEC),
  (0xC79C, 0x9FED_9FEE_9FEF_9FF0_C0E1_C0E2_9FF1_C0E3_C0E4_C0E5_C0E6_9FF2),
  (0xC7A8, 0x9FF3_9FF4_9FF5_9FF6_C0E7_C0E8_9FF7_9FF8_C0E9_9FF9_9FFA_9FFB),
  (0xC7B4, 0xC0EA_9FFC_9FFD_9FFE_A041_A042_A043_A044_C0EB_C0EC_A045_C0ED),
  (0xC7C0, 0xC0EE_C0EF_A046_A047_A048_A049_A04A_A04B_C0F0_C0F1_A04C_A04D),
  (0xC7CC, 0xC0F2_A04E_C0F3_A04F_C0F4_A050_A051_A052_A053_A054_A055_A056),
  (0xC7D8, 0xC0F5_A057_A058_A059_A05A_C0F6_A061_A062_A063_A064_A065_A066),
  (0xC7E4, 0xC0F7_A067_A068_A069_C0F8_A06A_A06B_A06C_C0F9_A06D_A06E_A06F),
  (0xC7F0, 0xA070_A071_A072_A073_A074_A075_A076_A077_A078_A079_A07A_A081),
  (0xC7FC, 0xA082_A083_A084_A085_C0FA_C0FB_A086_A087_C0FC_A088_A089_A08A),
  (0xC808, 0xC0FD_A08B_C0FE_A08C_A08D_A08E_A08F_A090_C1A1_C1A2_A091_C1A3),
  (0xC814, 0xA092_C1A4_C1A5_A093_A094_A095_A096_A097_C1A6_C1A7_A098_A099),
  (0xC820, 0xC1A8_A09A_A09B_A09C_C1A9_A09D_A09E_A09F_A0A0_A0A1_A0A2_A0A3),
  (0xC82C, 0xC1AA_C1AB_A0A4_C1AC_A0A5_C1AD_A0A6_A0A7_A0A8_A0A9_A0AA_A0AB),
  (0xC838, 0xC1AE_A0AC_A0AD_A0AE_C1AF_A0AF_A0B0_A0B1_C1B0_A0B2_A0B3_A0B4),
  (0xC844, 0xA0B5_A0B6_A0B7_A0B8_C1B1_C1B2_A0B9_A0BA_C1B3_C1B4_A0BB_A0BC),
  (0xC850, 0xA0BD_A0BE_A0BF_A0C0_C1B5_A0C1_A0C2_A0C3_A0C4_A0C5_A0C6_A0C7),
  (0xC85C, 0xA0C8_A0C9_A0CA_A0CB_A0CC_A0CD_A0CE_A0CF_A0D0_A0D1_A0D2_A0D3),
  (0xC868, 0xA0D4_A0D5_A0D6_A0D7_A0D8_A0D9_A0DA_A0DB_C1B6_C1B7_A0DC_A0DD),
  (0xC874, 0xC1B8_A0DE_A0DF_A0E0_C1B9_A0E1_C1BA_A0E2_A0E3_A0E4_A0E5_A0E6),
  (0xC880, 0xC1BB_C1BC_A0E7_C1BD_A0E8_C1BE_C1BF_C1C0_A0E9_A0EA_A0EB_C1C1),
  (0xC88C, 0xC1C2_C1C3_A0EC_A0ED_A0EE_A0EF_A0F0_A0F1_C1C4_A0F2_A0F3_A0F4),
  (0xC898, 0xA0F5_A0F6_A0F7_A0F8_A0F9_C1C5_A0FA_C1C6_A0FB_C1C7_A0FC_A0FD),
  (0xC8A4, 0xA0FE_A141_A142_A143_C1C8_A144_A145_A146_A147_A148_A149_A14A),
  (0xC8B0, 0xA14B_A14C_A14D_A14E_A14F_A150_A151_A152_A153_A154_A155_A156),
  (0xC8BC, 0xC1C9_C1CA_A157_A158_A159_A15A_A161_A162_C1CB_A163_A164_A165),
  (0xC8C8, 0xC1CC_A166_A167_A168_C1CD_A169_A16A_A16B_A16C_A16D_A16E_A16F),
  (0xC8D4, 0xC1CE_C1CF_A170_C1D0_A171_C1D1_A172_A173_A174_A175_A176_A177),
  (0xC8E0, 0xC1D2_C1D3_A178_A179_C1D4_A17A_A181_A182_A183_A184_A185_A186),
  (0xC8EC, 0xA187_A188_A189_A18A_A18B_A18C_A18D_A18E_A18F_C1D5_A190_A191),
  (0xC8F8, 0xA192_A193_A194_A195_C1D6_C1D7_A196_A197_C1D8_A198_A199_A19A),
  (0xC904, 0xC1D9_C1DA_C1DB_A19B_A19C_A19D_A19E_A19F_C1DC_C1DD_A1A0_C1DE),
  (0xC910, 0xA241_C1DF_A242_A243_A244_A245_A246_A247_C1E0_A248_A249_A24A),
  (0xC91C, 0xA24B_A24C_A24D_A24E_A24F_A250_A251_A252_A253_A254_A255_A256),
  (0xC928, 0xA257_A258_A259_A25A_C1E1_A261_A262_A263_A264_A265_A266_A267),
  (0xC934, 0xC1E2_A268_A269_A26A_A26B_A26C_A26D_A26E_A26F_A270_A271_A272),
  (0xC940, 0xA273_A274_A275_A276_A277_A278_A279_A27A_A281_A282_A283_A284),
  (0xC94C, 0xA285_A286_A287_A288_C1E3_C1E4_A289_A28A_C1E5_A28B_A28C_A28D),
  (0xC958, 0xC1E6_A28E_A28F_A290_A291_A292_A293_A294_C1E7_C1E8_A295_C1E9),
  (0xC964, 0xA296_A297_A298_A299_A29A_A29B_A29C_A29D_C1EA_A29E_A29F_A2A0),
  (0xC970, 0xC1EB_A341_A342_A343_C1EC_A344_A345_A346_A347_A348_A349_A34A),
  (0xC97C, 0xC1ED_A34B_A34C_A34D_A34E_A34F_A350_A351_A352_A353_A354_A355),
  (0xC988, 0xC1EE_C1EF_A356_A357_C1F0_A358_A359_A35A_C1F1_A361_A362_A363),
  (0xC994, 0xA364_A365_A366_A367_C1F2_C1F3_A368_C1F4_A369_C1F5_A36A_A36B),
  (0xC9A0, 0xA36C_A36D_A36E_A36F_A370_A371_A372_A373_A374_A375_A376_A377),
  (0xC9AC, 0xA378_A379_A37A_A381_A382_A383_A384_A385_A386_A387_A388_A389),
  (0xC9B8, 0xA38A_A38B_A38C_A38D_A38E_A38F_A390_A391_C1F6_C1F7_A392_A393),
  (0xC9C4, 0xC1F8_A394_A395_C1F9_C1FA_A396_C1FB_A397_A398_A399_A39A_A39B),
  (0xC9D0, 0xC1FC_C1FD_A39C_C1FE_A39D_C2A1_C2A2_A39E_A39F_C2A3_C2A4_A3A0),
  (0xC9DC, 0xC2A5_C2A6_A441_A442_C2A7_A443_C2A8_A444_C2A9_A445_A446_C2AA),
  (0xC9E8, 0xA447_A448_A449_A44A_C2AB_C2AC_A44B_C2AD_C2AE_C2AF_A44C_A44D),
  (0xC9F4, 0xA44E_A44F_A450_A451_C2B0_C2B1_A452_A453_C2B2_A454_A455_A456),
  (0xCA00, 0xC2B3_A457_A458_A459_A45A_A461_A462_A463_C2B4_C2B5_A464_C2B6),
  (0xCA0C, 0xC2B7_C2B8_A465_A466_A467_A468_A469_A46A_C2B9_A46B_A46C_A46D),
  (0xCA18, 0xC2BA_A46E_A46F_A470_A471_A472_A473_A474_A475_A476_A477_A478),
  (0xCA24, 0xA479_A47A_A481_A482_A483_C2BB_A484_A485_A486_A487_A488_A489),
  (0xCA30, 0xA48A_A48B_A48C_A48D_A48E_A48F_A490_A491_A492_A493_A494_A495),
  (0xCA3C, 0xA496_A497_A498_A499_A49A_A49B_A49C_A49D_A49E_A49F_A4A0_A541),
  (0xCA48, 0xA542_A543_A544_A545_C2BC_C2BD_A546_A547_C2BE_A548_A549_A54A),
  (0xCA54, 0xC2BF_A54B_A54C_A54D_A54E_A54F_A550_A551_C2C0_C2C1_A552_C2C2),
  (0xCA60, 0xC2C3_C2C4_A553_A554_A555_A556_A557_A558_C2C5_A559_A55A_A561),
  (0xCA6C, 0xA562_A563_A564_A565_A566_A567_A568_A569_A56A_A56B_A56C_A56D),
  (0xCA78, 0xA56E_A56F_A570_A571_A572_C2C6_A573_A574_A575_A576_A577_A578),
  (0xCA84, 0xC2C7_A579_A57A_A581_A582_A583_A584_A585_A586_A587_A588_A589),
  (0xCA90, 0xA58A_A58B_A58C_A58D_A58E_A58F_A590_A591_C2C8_A592_A593_A594),
  (0xCA9C, 0xA595_A596_A597_A598_A599_A59A_A59B_A59C_A59D_A59E_A59F_A5A0),
  (0xCAA8, 0xA641_A642_A643_A644_A645_A646_A647_A648_A649_A64A_A64B_A64C),
  (0xCAB4, 0xA64D_A64E_A64F_A650_A651_A652_A653_A654_C2C9_C2CA_A655_A656),
  (0xCAC0, 0xC2CB_A657_A658_A659_C2CC_A65A_A661_A662_A663_A664_A665_A666),
  (0xCACC, 0xC2CD_C2CE_A667_C2CF_A668_C2D0_A669_C2D1_A66A_A66B_A66C_A66D),
  (0xCAD8, 0xC2D2_C2D3_A66E_A66F_A670_A671_A672_A673_C2D4_A674_A675_A676),
  (0xCAE4, 0xA677_A678_A679_A67A_A681_A682_A683_A684_C2D5_A685_A686_A687),
  (0xCAF0, 0xA688_A689_A68A_A68B_C2D6_A68C_A68D_A68E_A68F_A690_A691_A692),
  (0xCAFC, 0xA693_A694_A695_A696_A697_A698_A699_A69A_A69B_A69C_A69D_A69E),
  (0xCB08, 0xC2D7_A69F_A6A0_A741_A742_A743_A744_A745_C2D8_A746_A747_A748),
  (0xCB14, 0xC2D9_A749_A74A_A74B_C2DA_A74C_A74D_A74E_A74F_A750_A751_A752),
  (0xCB20, 0xC2DB_C2DC_A753_A754_A755_A756_A757_A758_A759_A75A_A761_A762),
  (0xCB2C, 0xA763_A764_A765_A766_A767_A768_A769_A76A_A76B_A76C_A76D_A76E),
  (0xCB38, 0xA76F_A770_A771_A772_A773_A774_A775_A776_A777_C2DD_A778_A779),
  (0xCB44, 0xA77A_A781_A782_A783_C2DE_C2DF_A784_A785_C2E0_A786_A787_A788),
  (0xCB50, 0xC2E1_A789_A78A_A78B_A78C_A78D_A78E_A78F_C2E2_C2E3_A790_A791),
  (0xCB5C, 0xA792_C2E4_A793_A794_A795_A796_A797_A798_C2E5_A799_A79A_A79B),
  (0xCB68, 0xA79C_A79D_A79E_A79F_A7A0_A841_A842_A843_A844_A845_A846_A847),
  (0xCB74, 0xA848_A849_A84A_A84B_C2E6_C2E7_A84C_A84D_A84E_A84F_A850_A851),
  (0xCB80, 0xA852_A853_A854_A855_A856_A857_A858_A859_A85A_A861_A862_A863),
  (0xCB8C, 0xA864_A865_A866_A867_A868_A869_A86A_A86B_A86C_A86D_A86E_A86F),
  (0xCB98, 0xA870_A871_A872_A873_C2E8_A874_A875_A876_A877_A878_A879_A87A),
  (0xCBA4, 0xA881_A882_A883_A884_A885_A886_A887_A888_A889_A88A_A88B_A88C),
  (0xCBB0, 0xA88D_A88E_A88F_A890_A891_A892_A893_A894_C2E9_A895_A896_A897),
  (0xCBBC, 0xA898_A899_A89A_A89B_A89C_A89D_A89E_A89F_A8A0_A941_A942_A943),
  (0xCBC8, 0xA944_A945_A946_A947_A948_A949_A94A_A94B_A94C_A94D_A94E_A94F),
  (0xCBD4, 0xC2EA_A950_A951_A952_A953_A954_A955_A956_A957_A958_A959_A95A),
  (0xCBE0, 0xA961_A962_A963_A964_C2EB_A965_A966_C2EC_A967_C2ED_A968_A969),
  (0xCBEC, 0xA96A_A96B_A96C_A96D_A96E_A96F_A970_A971_A972_A973_A974_A975),
  (0xCBF8, 0xA976_A977_A978_A979_A97A_A981_A982_A983_A984_A985_A986_A987),
  (0xCC04, 0xA988_A989_A98A_A98B_A98C_A98D_A98E_A98F_C2EE_C2EF_A990_A991),
  (0xCC10, 0xC2F0_A992_A993_A994_C2F1_A995_A996_A997_A998_A999_A99A_A99B),
  (0xCC1C, 0xC2F2_C2F3_A99C_A99D_A99E_C2F4_C2F5_A99F_A9A0_AA41_AA42_C2F6),
  (0xCC28, 0xC2F7_C2F8_AA43_AA44_C2F9_AA45_C2FA_AA46_C2FB_AA47_AA48_AA49),
  (0xCC34, 0xAA4A_AA4B_AA4C_AA4D_C2FC_C2FD_AA4E_C2FE_C3A1_C3A2_C3A3_AA4F),
  (0xCC40, 0xAA50_AA51_AA52_AA53_C3A4_C3A5_AA54_AA55_C3A6_AA56_AA57_AA58),
  (0xCC4C, 0xC3A7_AA59_AA5A_AA61_AA62_AA63_AA64_AA65_C3A8_C3A9_AA66_C3AA),
  (0xCC58, 0xC3AB_C3AC_AA67_AA68_AA69_AA6A_AA6B_AA6C_C3AD_AA6D_AA6E_AA6F),
  (0xCC64, 0xC3AE_AA70_C3AF_AA71_C3B0_AA72_AA73_AA74_AA75_AA76_AA77_AA78),
  (0xCC70, 0xC3B1_AA79_AA7A_AA81_AA82_C3B2_AA83_AA84_AA85_AA86_AA87_AA88),
  (0xCC7C, 0xAA89_AA8A_AA8B_AA8C_AA8D_AA8E_AA8F_AA90_AA91_AA92_AA93_AA94),
  (0xCC88, 0xAA95_AA96_AA97_AA98_AA99_AA9A_AA9B_AA9C_AA9D_AA9E_AA9F_AAA0),
  (0xCC94, 0xAB41_AB42_AB43_AB44_C3B3_C3B4_AB45_AB46_C3B5_AB47_AB48_AB49),
  (0xCCA0, 0xC3B6_AB4A_AB4B_AB4C_AB4D_AB4E_AB4F_AB50_C3B7_C3B8_AB51_C3B9),
  (0xCCAC, 0xC3BA_C3BB_AB52_AB53_AB54_AB55_AB56_AB57_C3BC_C3BD_AB58_AB59),
  (0xCCB8, 0xC3BE_AB5A_AB61_AB62_C3BF_AB63_AB64_AB65_AB66_AB67_AB68_AB69),
  (0xCCC4, 0xC3C0_C3C1_AB6A_C3C2_AB6B_C3C3_AB6C_AB6D_AB6E_AB6F_AB70_AB71),
  (0xCCD0, 0xC3C4_AB72_AB73_AB74_C3C5_AB75_AB76_AB77_AB78_AB79_AB7A_AB81),
  (0xCCDC, 0xAB82_AB83_AB84_AB85_AB86_AB87_AB88_AB89_C3C6_AB8A_AB8B_AB8C),
  (0xCCE8, 0xAB8D_AB8E_AB8F_AB90_C3C7_AB91_AB92_AB93_C3C8_AB94_AB95_AB96),
  (0xCCF4, 0xAB97_AB98_AB99_AB9A_AB9B_AB9C_AB9D_AB9E_AB9F_ABA0_AC41_AC42),
  (0xCD00, 0xAC43_C3C9_AC44_AC45_AC46_AC47_AC48_AC49_C3CA_C3CB_AC4A_AC4B),
  (0xCD0C, 0xC3CC_AC4C_AC4D_AC4E_C3CD_AC4F_AC50_AC51_AC52_AC53_AC54_AC55),
  (0xCD18, 0xC3CE_C3CF_AC56_C3D0_AC57_C3D1_AC58_AC59_AC5A_AC61_AC62_AC63),
  (0xCD24, 0xC3D2_AC64_AC65_AC66_C3D3_AC67_AC68_AC69_C3D4_AC6A_AC6B_AC6C),
  (0xCD30, 0xAC6D_AC6E_AC6F_AC70_AC71_AC72_AC73_AC74_AC75_C3D5_AC76_AC77),
  (0xCD3C, 0xAC78_AC79_AC7A_AC81_AC82_AC83_AC84_AC85_AC86_AC87_AC88_AC89),
  (0xCD48, 0xAC8A_AC8B_AC8C_AC8D_AC8E_AC8F_AC90_AC91_AC92_AC93_AC94_AC95),
  (0xCD54, 0xAC96_AC97_AC98_AC99_AC9A_AC9B_AC9C_AC9D_C3D6_AC9E_AC9F_ACA0),
  (0xCD60, 0xC3D7_AD41_AD42_AD43_C3D8_AD44_AD45_AD46_AD47_AD48_AD49_AD4A),
  (0xCD6C, 0xC3D9_C3DA_AD4B_C3DB_AD4C_C3DC_AD4D_AD4E_AD4F_AD50_AD51_AD52),
  (0xCD78, 0xC3DD_AD53_AD54_AD55_AD56_AD57_AD58_AD59_AD5A_AD61_AD62_AD63),
  (0xCD84, 0xAD64_AD65_AD66_AD67_C3DE_AD68_AD69_AD6A_AD6B_AD6C_AD6D_AD6E),
  (0xCD90, 0xAD6F_AD70_AD71_AD72_C3DF_C3E0_AD73_AD74_C3E1_AD75_AD76_AD77),
  (0xCD9C, 0xC3E2_AD78_AD79_AD7A_AD81_AD82_AD83_AD84_C3E3_C3E4_AD85_C3E5),
  (0xCDA8, 0xAD86_C3E6_AD87_AD88_AD89_AD8A_AD8B_AD8C_C3E7_AD8D_AD8E_AD8F),
  (0xCDB4, 0xAD90_AD91_AD92_AD93_AD94_AD95_AD96_AD97_AD98_AD99_AD9A_AD9B),
  (0xCDC0, 0xAD9C_AD9D_AD9E_AD9F_C3E8_ADA0_AE41_AE42_AE43_AE44_AE45_AE46),
  (0xCDCC, 0xC3E9_AE47_AE48_AE49_C3EA_AE4A_AE4B_AE4C_AE4D_AE4E_AE4F_AE50),
  (0xCDD8, 0xAE51_AE52_AE53_AE54_AE55_AE56_AE57_AE58_AE59_AE5A_AE61_AE62),
  (0xCDE4, 0xAE63_AE64_AE65_AE66_C3EB_AE67_AE68_AE69_C3EC_AE6A_AE6B_AE6C),
  (0xCDF0, 0xC3ED_AE6D_AE6E_AE6F_AE70_AE71_AE72_AE73_C3EE_C3EF_AE74_C3F0),
  (0xCDFC, 0xAE75_C3F1_AE76_AE77_AE78_AE79_AE7A_AE81_C3F2_AE82_AE83_AE84),
  (0xCE08, 0xC3F3_AE85_AE86_AE87_C3F4_AE88_AE89_AE8A_AE8B_AE8C_AE8D_AE8E),
  (0xCE14, 0xC3F5_AE8F_AE90_AE91_AE92_C3F6_AE93_AE94_AE95_AE96_AE97_AE98),
  (0xCE20, 0xC3F7_C3F8_AE99_AE9A_C3F9_AE9B_AE9C_AE9D_C3FA_AE9E_AE9F_AEA0),
  (0xCE2C, 0xAF41_AF42_AF43_AF44_C3FB_C3FC_AF45_C3FD_AF46_C3FE_AF47_AF48),
  (0xCE38, 0xAF49_AF4A_AF4B_AF4C_AF4D_AF4E_AF4F_AF50_AF51_AF52_AF53_AF54),
  (0xCE44, 0xAF55_AF56_AF57_AF58_AF59_AF5A_AF61_AF62_AF63_AF64_AF65_AF66),
  (0xCE50, 0xAF67_AF68_AF69_AF6A_AF6B_AF6C_AF6D_AF6E_C4A1_C4A2_AF6F_AF70),
  (0xCE5C, 0xC4A3_AF71_AF72_C4A4_C4A5_C4A6_AF73_AF74_AF75_AF76_AF77_AF78),
  (0xCE68, 0xC4A7_C4A8_AF79_C4A9_AF7A_C4AA_AF81_AF82_AF83_AF84_AF85_AF86),
  (0xCE74, 0xC4AB_C4AC_AF87_AF88_C4AD_AF89_AF8A_AF8B_C4AE_AF8C_AF8D_AF8E),
  (0xCE80, 0xAF8F_AF90_AF91_AF92_C4AF_C4B0_AF93_C4B1_AF94_C4B2_AF95_AF96),
  (0xCE8C, 0xAF97_AF98_AF99_AF9A_C4B3_C4B4_AF9B_AF9C_C4B5_AF9D_AF9E_AF9F),
  (0xCE98, 0xC4B6_AFA0_B041_B042_B043_B044_B045_B046_C4B7_C4B8_B047_C4B9),
  (0xCEA4, 0xC4BA_C4BB_B048_B049_B04A_B04B_B04C_B04D_C4BC_C4BD_B04E_B04F),
  (0xCEB0, 0xB050_B051_B052_B053_B054_B055_B056_B057_B058_B059_B05A_B061),
  (0xCEBC, 0xB062_B063_B064_B065_B066_C4BE_B067_B068_B069_B06A_B06B_B06C),
  (0xCEC8, 0xB06D_B06E_B06F_B070_B071_B072_B073_B074_B075_B076_B077_B078),
  (0xCED4, 0xB079_B07A_B081_B082_B083_B084_B085_B086_B087_B088_B089_B08A),
  (0xCEE0, 0xB08B_B08C_B08D_B08E_C4BF_C4C0_B08F_B090_C4C1_B091_B092_C4C2),
  (0xCEEC, 0xC4C3_B093_B094_B095_B096_B097_B098_B099_C4C4_C4C5_B09A_C4C6),
  (0xCEF8, 0xC4C7_C4C8_B09B_B09C_B09D_B09E_B09F_B0A0_C4C9_C4CA_B141_B142),
  (0xCF04, 0xC4CB_B143_B144_B145_C4CC_B146_B147_B148_B149_B14A_B14B_B14C),
  (0xCF10, 0xC4CD_C4CE_B14D_C4CF_B14E_C4D0_B14F_B150_B151_B152_B153_B154),
  (0xCF1C, 0xC4D1_B155_B156_B157_C4D2_B158_B159_B15A_C4D3_B161_B162_B163),
  (0xCF28, 0xB164_B165_B166_B167_C4D4_C4D5_B168_C4D6_C4D7_C4D8_B169_B16A),
  (0xCF34, 0xB16B_B16C_B16D_B16E_C4D9_B16F_B170_B171_B172_B173_B174_B175),
  (0xCF40, 0xB176_B177_B178_B179_B17A_B181_B182_B183_B184_B185_B186_B187),
  (0xCF4C, 0xB188_B189_B18A_B18B_B18C_B18D_B18E_B18F_C4DA_C4DB_B190_B191),
  (0xCF58, 0xC4DC_B192_B193_B194_C4DD_B195_B196_B197_B198_B199_B19A_B19B),
  (0xCF64, 0xC4DE_C4DF_B19C_C4E0_B19D_C4E1_B19E_B19F_B1A0_B241_B242_B243),
  (0xCF70, 0xC4E2_C4E3_B244_B245_C4E4_B246_B247_B248_C4E5_B249_B24A_B24B),
  (0xCF7C, 0xB24C_B24D_B24E_B24F_C4E6_B250_B251_B252_B253_C4E7_B254_B255),
  (0xCF88, 0xB256_B257_B258_B259_C4E8_B25A_B261_B262_B263_B264_B265_B266),
  (0xCF94, 0xB267_B268_B269_B26A_B26B_B26C_B26D_B26E_B26F_B270_B271_B272),
  (0xCFA0, 0xB273_C4E9_B274_B275_B276_B277_B278_B279_C4EA_B27A_B281_B282),
  (0xCFAC, 0xB283_B284_B285_B286_C4EB_B287_B288_B289_B28A_B28B_B28C_B28D),
  (0xCFB8, 0xB28E_B28F_B290_B291_B292_B293_B294_B295_B296_B297_B298_B299),
  (0xCFC4, 0xC4EC_B29A_B29B_B29C_B29D_B29E_B29F_B2A0_B341_B342_B343_B344),
  (0xCFD0, 0xB345_B346_B347_B348_B349_B34A_B34B_B34C_B34D_B34E_B34F_B350),
  (0xCFDC, 0xB351_B352_B353_B354_C4ED_C4EE_B355_B356_C4EF_B357_B358_B359),
  (0xCFE8, 0xC4F0_B35A_B361_B362_B363_B364_B365_B366_C4F1_C4F2_B367_C4F3),
  (0xCFF4, 0xB368_C4F4_B369_B36A_B36B_B36C_B36D_B36E_C4F5_B36F_B370_B371),
  (0xD000, 0xC4F6_B372_B373_B374_C4F7_B375_B376_B377_B378_B379_B37A_B381),
  (0xD00C, 0xB382_B383_B384_B385_B386_C4F8_B387_B388_B389_B38A_B38B_B38C),
  (0xD018, 0xC4F9_B38D_B38E_B38F_B390_B391_B392_B393_B394_B395_B396_B397),
  (0xD024, 0xB398_B399_B39A_B39B_B39C_B39D_B39E_B39F_B3A0_C4FA_B441_B442),
  (0xD030, 0xB443_B444_B445_B446_C4FB_C4FC_B447_B448_C4FD_B449_B44A_B44B),
  (0xD03C, 0xC4FE_B44C_B44D_B44E_B44F_B450_B451_B452_C5A1_C5A2_B453_C5A3),
  (0xD048, 0xB454_C5A4_B455_B456_B457_B458_B459_B45A_C5A5_B461_B462_B463),
  (0xD054, 0xC5A6_B464_B465_B466_C5A7_B467_B468_B469_B46A_B46B_B46C_B46D),
  (0xD060, 0xC5A8_B46E_B46F_B470_B471_B472_B473_B474_B475_B476_B477_B478),
  (0xD06C, 0xC5A9_C5AA_B479_B47A_C5AB_B481_B482_B483_C5AC_B484_B485_B486),
  (0xD078, 0xB487_B488_B489_B48A_C5AD_C5AE_B48B_B48C_B48D_C5AF_B48E_B48F),
  (0xD084, 0xB490_B491_B492_B493_B494_B495_B496_B497_B498_B499_B49A_B49B),
  (0xD090, 0xB49C_B49D_B49E_B49F_B4A0_B541_B542_B543_B544_B545_B546_B547),
  (0xD09C, 0xB548_B549_B54A_B54B_B54C_B54D_B54E_B54F_C5B0_C5B1_B550_B551),
  (0xD0A8, 0xC5B2_B552_B553_B554_C5B3_B555_B556_B557_B558_B559_B55A_B561),
  (0xD0B4, 0xC5B4_C5B5_B562_C5B6_B563_C5B7_B564_B565_B566_B567_B568_B569),
  (0xD0C0, 0xC5B8_C5B9_B56A_B56B_C5BA_B56C_B56D_B56E_C5BB_C5BC_B56F_B570),
  (0xD0CC, 0xB571_B572_B573_B574_C5BD_C5BE_B575_C5BF_C5C0_C5C1_B576_B577),
  (0xD0D8, 0xB578_B579_B57A_B581_C5C2_C5C3_B582_B583_C5C4_B584_B585_B586),
  (0xD0E4, 0xC5C5_B587_B588_B589_B58A_B58B_B58C_B58D_C5C6_C5C7_B58E_C5C8),
  (0xD0F0, 0xC5C9_C5CA_B58F_B590_B591_B592_B593_B594_C5CB_B595_B596_B597),
  (0xD0FC, 0xB598_B599_B59A_B59B_B59C_B59D_B59E_B59F_B5A0_B641_B642_B643),
  (0xD108, 0xB644_B645_B646_B647_B648_C5CC_B649_B64A_B64B_B64C_B64D_B64E),
  (0xD114, 0xB64F_B650_B651_B652_B653_B654_B655_B656_B657_B658_B659_B65A),
  (0xD120, 0xB661_B662_B663_B664_B665_B666_B667_B668_B669_B66A_B66B_B66C),
  (0xD12C, 0xB66D_B66E_B66F_B670_C5CD_C5CE_B671_B672_C5CF_B673_B674_B675),
  (0xD138, 0xC5D0_B676_C5D1_B677_B678_B679_B67A_B681_C5D2_C5D3_B682_C5D4),
  (0xD144, 0xC5D5_C5D6_B683_B684_B685_B686_B687_B688_C5D7_C5D8_B689_B68A),
  (0xD150, 0xC5D9_B68B_B68C_B68D_C5DA_B68E_B68F_B690_B691_B692_B693_B694),
  (0xD15C, 0xC5DB_C5DC_B695_C5DD_B696_C5DE_B697_B698_B699_B69A_B69B_B69C),
  (0xD168, 0xC5DF_B69D_B69E_B69F_C5E0_B6A0_B741_B742_B743_B744_B745_B746),
  (0xD174, 0xB747_B748_B749_B74A_B74B_B74C_B74D_B74E_C5E1_B74F_B750_B751),
  (0xD180, 0xB752_B753_B754_B755_C5E2_B756_B757_B758_C5E3_B759_B75A_B761),
  (0xD18C, 0xB762_B763_B764_B765_B766_B767_B768_B769_B76A_B76B_B76C_B76D),
  (0xD198, 0xB76E_B76F_B770_B771_B772_B773_B774_B775_C5E4_C5E5_B776_B777),
  (0xD1A4, 0xC5E6_B778_B779_B77A_C5E7_B781_B782_B783_B784_B785_B786_B787),
  (0xD1B0, 0xC5E8_C5E9_B788_C5EA_B789_C5EB_B78A_B78B_B78C_B78D_C5EC_B78E),
  (0xD1BC, 0xC5ED_B78F_B790_B791_C5EE_B792_B793_B794_B795_B796_B797_B798),
  (0xD1C8, 0xB799_B79A_B79B_B79C_B79D_B79E_B79F_B7A0_B841_B842_B843_B844),
  (0xD1D4, 0xB845_B846_B847_B848_C5EF_B849_B84A_B84B_B84C_B84D_B84E_B84F),
  (0xD1E0, 0xB850_B851_B852_B853_B854_B855_B856_B857_B858_B859_B85A_B861),
  (0xD1EC, 0xB862_B863_B864_B865_B866_B867_B868_B869_C5F0_B86A_B86B_B86C),
  (0xD1F8, 0xC5F1_B86D_B86E_B86F_B870_B871_B872_B873_B874_B875_B876_B877),
  (0xD204, 0xB878_B879_B87A_C5F2_B881_C5F3_B882_B883_B884_B885_B886_B887),
  (0xD210, 0xC5F4_B888_B889_B88A_B88B_B88C_B88D_B88E_B88F_B890_B891_B892),
  (0xD21C, 0xB893_B894_B895_B896_B897_B898_B899_B89A_B89B_B89C_B89D_B89E),
  (0xD228, 0xB89F_B8A0_B941_B942_C5F5_C5F6_B943_B944_C5F7_B945_B946_B947),
  (0xD234, 0xC5F8_B948_B949_B94A_B94B_B94C_B94D_B94E_C5F9_C5FA_B94F_C5FB),
  (0xD240, 0xB950_C5FC_B951_B952_B953_B954_B955_B956_C5FD_B957_B958_B959),
  (0xD24C, 0xB95A_B961_B962_B963_B964_B965_B966_B967_B968_B969_B96A_B96B),
  (0xD258, 0xB96C_B96D_B96E_B96F_C5FE_B970_B971_B972_B973_B974_B975_B976),
  (0xD264, 0xC6A1_B977_B978_B979_B97A_B981_B982_B983_B984_B985_B986_B987),
  (0xD270, 0xB988_B989_B98A_B98B_B98C_B98D_B98E_B98F_B990_B991_B992_B993),
  (0xD27C, 0xB994_B995_B996_B997_C6A2_C6A3_B998_B999_C6A4_B99A_B99B_B99C),
  (0xD288, 0xC6A5_B99D_B99E_B99F_B9A0_BA41_BA42_BA43_C6A6_C6A7_BA44_BA45),
  (0xD294, 0xBA46_C6A8_BA47_BA48_BA49_BA4A_BA4B_BA4C_C6A9_BA4D_BA4E_BA4F),
  (0xD2A0, 0xC6AA_BA50_BA51_BA52_C6AB_BA53_BA54_BA55_BA56_BA57_BA58_BA59),
  (0xD2AC, 0xC6AC_BA5A_BA61_BA62_BA63_C6AD_BA64_BA65_BA66_BA67_BA68_BA69),
  (0xD2B8, 0xC6AE_C6AF_BA6A_BA6B_C6B0_BA6C_BA6D_C6B1_C6B2_BA6E_C6B3_BA6F),
  (0xD2C4, 0xBA70_BA71_BA72_BA73_C6B4_C6B5_BA74_C6B6_BA75_BA76_BA77_BA78),
  (0xD2D0, 0xBA79_BA7A_BA81_BA82_C6B7_BA83_BA84_BA85_C6B8_BA86_BA87_BA88),
  (0xD2DC, 0xC6B9_BA89_BA8A_BA8B_BA8C_BA8D_BA8E_BA8F_C6BA_C6BB_BA90_BA91),
  (0xD2E8, 0xBA92_BA93_BA94_BA95_BA96_BA97_BA98_BA99_C6BC_C6BD_BA9A_BA9B),
  (0xD2F4, 0xC6BE_BA9C_BA9D_BA9E_C6BF_BA9F_BAA0_BB41_BB42_BB43_BB44_BB45),
  (0xD300, 0xC6C0_C6C1_BB46_C6C2_BB47_C6C3_BB48_BB49_BB4A_BB4B_BB4C_BB4D),
  (0xD30C, 0xC6C4_C6C5_C6C6_BB4E_C6C7_BB4F_BB50_BB51_C6C8_BB52_C6C9_BB53),
  (0xD318, 0xBB54_BB55_BB56_BB57_C6CA_C6CB_BB58_C6CC_C6CD_C6CE_BB59_BB5A),
  (0xD324, 0xBB61_C6CF_BB62_BB63_C6D0_C6D1_BB64_BB65_C6D2_BB66_BB67_BB68),
  (0xD330, 0xC6D3_BB69_BB6A_BB6B_BB6C_BB6D_BB6E_BB6F_C6D4_C6D5_BB70_C6D6),
  (0xD33C, 0xC6D7_C6D8_BB71_BB72_BB73_BB74_BB75_BB76_C6D9_C6DA_BB77_BB78),
  (0xD348, 0xBB79_BB7A_BB81_BB82_BB83_BB84_BB85_BB86_BB87_BB88_BB89_BB8A),
  (0xD354, 0xBB8B_BB8C_BB8D_BB8E_BB8F_BB90_BB91_BB92_BB93_BB94_BB95_BB96),
  (0xD360, 0xBB97_BB98_BB99_BB9A_BB9B_BB9C_BB9D_BB9E_BB9F_BBA0_BC41_BC42),
  (0xD36C, 0xBC43_BC44_BC45_BC46_BC47_BC48_BC49_BC4A_BC4B_BC4C_BC4D_BC4E),
  (0xD378, 0xBC4F_BC50_BC51_BC52_C6DB_C6DC_BC53_BC54_C6DD_BC55_BC56_BC57),
  (0xD384, 0xC6DE_BC58_BC59_BC5A_BC61_BC62_BC63_BC64_C6DF_C6E0_BC65_C6E1),
  (0xD390, 0xC6E2_C6E3_BC66_BC67_BC68_BC69_BC6A_BC6B_C6E4_C6E5_BC6C_BC6D),
  (0xD39C, 0xC6E6_BC6E_BC6F_BC70_C6E7_BC71_BC72_BC73_BC74_BC75_BC76_BC77),
  (0xD3A8, 0xC6E8_C6E9_BC78_C6EA_BC79_C6EB_BC7A_BC81_BC82_BC83_BC84_BC85),
  (0xD3B4, 0xC6EC_BC86_BC87_BC88_C6ED_BC89_BC8A_BC8B_C6EE_BC8C_BC8D_BC8E),
  (0xD3C0, 0xBC8F_BC90_BC91_BC92_C6EF_C6F0_BC93_BC94_C6F1_C6F2_BC95_BC96),
  (0xD3CC, 0xBC97_BC98_BC99_BC9A_C6F3_BC9B_BC9C_BC9D_BC9E_BC9F_BCA0_BD41),
  (0xD3D8, 0xC6F4_BD42_BD43_BD44_BD45_BD46_BD47_BD48_BD49_C6F5_BD4A_C6F6),
  (0xD3E4, 0xBD4B_BD4C_BD4D_BD4E_BD4F_BD50_BD51_BD52_C6F7_C6F8_BD53_BD54),
  (0xD3F0, 0xC6F9_BD55_BD56_BD57_C6FA_BD58_BD59_BD5A_BD61_BD62_BD63_BD64),
  (0xD3FC, 0xC6FB_C6FC_BD65_C6FD_BD66_C6FE_BD67_BD68_BD69_BD6A_BD6B_BD6C),
  (0xD408, 0xC7A1_BD6D_BD6E_BD6F_BD70_BD71_BD72_BD73_BD74_BD75_BD76_BD77),
  (0xD414, 0xBD78_BD79_BD7A_BD81_BD82_BD83_BD84_BD85_BD86_C7A2_BD87_BD88),
  (0xD420, 0xBD89_BD8A_BD8B_BD8C_BD8D_BD8E_BD8F_BD90_BD91_BD92_BD93_BD94),
  (0xD42C, 0xBD95_BD96_BD97_BD98_BD99_BD9A_BD9B_BD9C_BD9D_BD9E_BD9F_BDA0),
  (0xD438, 0xBE41_BE42_BE43_BE44_BE45_BE46_BE47_BE48_C7A3_BE49_BE4A_BE4B),
  (0xD444, 0xC7A4_BE4C_BE4D_BE4E_BE4F_BE50_BE51_BE52_BE53_BE54_BE55_BE56),
  (0xD450, 0xBE57_BE58_BE59_BE5A_BE61_BE62_BE63_BE64_BE65_BE66_BE67_BE68),
  (0xD45C, 0xC7A5_BE69_BE6A_BE6B_C7A6_BE6C_BE6D_BE6E_C7A7_BE6F_BE70_BE71),
  (0xD468, 0xBE72_BE73_BE74_BE75_BE76_C7A8_BE77_C7A9_BE78_BE79_BE7A_BE81),
  (0xD474, 0xBE82_BE83_BE84_BE85_C7AA_C7AB_BE86_BE87_C7AC_BE88_BE89_C7AD),
  (0xD480, 0xC7AE_BE8A_C7AF_BE8B_BE8C_BE8D_BE8E_BE8F_C7B0_C7B1_BE90_C7B2),
  (0xD48C, 0xBE91_C7B3_BE92_BE93_BE94_BE95_BE96_BE97_C7B4_BE98_BE99_BE9A),
  (0xD498, 0xBE9B_BE9C_BE9D_BE9E_BE9F_BEA0_BF41_BF42_BF43_BF44_BF45_BF46),
  (0xD4A4, 0xBF47_BF48_BF49_BF4A_BF4B_C7B5_BF4C_BF4D_BF4E_BF4F_BF50_BF51),
  (0xD4B0, 0xBF52_BF53_BF54_BF55_BF56_BF57_BF58_BF59_BF5A_BF61_BF62_BF63),
  (0xD4BC, 0xBF64_BF65_BF66_BF67_BF68_BF69_BF6A_BF6B_BF6C_BF6D_BF6E_BF6F),
  (0xD4C8, 0xBF70_BF71_BF72_BF73_C7B6_BF74_BF75_BF76_C7B7_BF77_BF78_BF79),
  (0xD4D4, 0xC7B8_BF7A_BF81_BF82_BF83_BF84_BF85_BF86_C7B9_BF87_BF88_C7BA),
  (0xD4E0, 0xBF89_BF8A_BF8B_BF8C_BF8D_BF8E_BF8F_BF90_C7BB_BF91_BF92_BF93),
  (0xD4EC, 0xC7BC_BF94_BF95_BF96_C7BD_BF97_BF98_BF99_BF9A_BF9B_BF9C_BF9D),
  (0xD4F8, 0xC7BE_BF9E_BF9F_C7BF_BFA0_C7C0_C041_C042_C043_C044_C045_C046),
  (0xD504, 0xC7C1_C047_C048_C049_C7C2_C04A_C04B_C04C_C7C3_C04D_C04E_C04F),
  (0xD510, 0xC050_C051_C052_C053_C7C4_C7C5_C054_C7C6_C055_C056_C057_C058),
  (0xD51C, 0xC059_C05A_C061_C062_C063_C064_C065_C066_C067_C068_C069_C06A),
  (0xD528, 0xC06B_C06C_C06D_C06E_C06F_C070_C071_C072_C073_C074_C075_C076),
  (0xD534, 0xC077_C078_C079_C07A_C081_C082_C083_C084_C7C7_C7C8_C085_C086),
  (0xD540, 0xC7C9_C087_C088_C089_C7CA_C08A_C08B_C08C_C08D_C08E_C08F_C090),
  (0xD54C, 0xC7CB_C7CC_C091_C7CD_C092_C7CE_C093_C094_C095_C096_C097_C098),
  (0xD558, 0xC7CF_C7D0_C099_C09A_C7D1_C09B_C09C_C09D_C7D2_C09E_C09F_C0A0),
  (0xD564, 0xC141_C7D3_C142_C143_C7D4_C7D5_C144_C7D6_C145_C7D7_C146_C147),
  (0xD570, 0xC148_C149_C14A_C14B_C7D8_C7D9_C14C_C14D_C7DA_C14E_C14F_C150),
  (0xD57C, 0xC7DB_C151_C152_C153_C154_C155_C156_C157_C7DC_C7DD_C158_C7DE),
  (0xD588, 0xC7DF_C7E0_C159_C15A_C161_C162_C163_C164_C7E1_C165_C166_C167),
  (0xD594, 0xC168_C169_C16A_C16B_C16C_C16D_C16E_C16F_C170_C171_C172_C173),
  (0xD5A0, 0xC174_C175_C176_C177_C178_C7E2_C179_C17A_C181_C182_C183_C184),
  (0xD5AC, 0xC185_C186_C187_C188_C189_C18A_C18B_C18C_C18D_C18E_C18F_C190),
  (0xD5B8, 0xC191_C192_C193_C194_C195_C196_C197_C198_C199_C19A_C19B_C19C),
  (0xD5C4, 0xC19D_C19E_C19F_C1A0_C7E3_C7E4_C241_C242_C7E5_C243_C244_C245),
  (0xD5D0, 0xC7E6_C246_C7E7_C247_C248_C249_C24A_C24B_C7E8_C7E9_C24C_C7EA),
  (0xD5DC, 0xC24D_C7EB_C24E_C24F_C250_C251_C252_C253_C7EC_C7ED_C254_C255),
  (0xD5E8, 0xC7EE_C256_C257_C258_C7EF_C259_C25A_C261_C262_C263_C264_C265),
  (0xD5F4, 0xC7F0_C7F1_C266_C7F2_C267_C7F3_C268_C269_C26A_C26B_C26C_C26D),
  (0xD600, 0xC7F4_C7F5_C26E_C26F_C7F6_C270_C271_C272_C7F7_C273_C274_C275),
  (0xD60C, 0xC276_C277_C278_C279_C7F8_C7F9_C27A_C7FA_C7FB_C7FC_C281_C282),
  (0xD618, 0xC283_C284_C285_C286_C7FD_C287_C288_C289_C7FE_C28A_C28B_C28C),
  (0xD624, 0xC8A1_C28D_C28E_C28F_C290_C291_C292_C293_C294_C8A2_C295_C296),
  (0xD630, 0xC297_C298_C299_C29A_C29B_C29C_C29D_C29E_C8A3_C8A4_C29F_C2A0),
  (0xD63C, 0xC8A5_C341_C342_C343_C8A6_C344_C345_C346_C347_C8A7_C348_C349),
  (0xD648, 0xC8A8_C8A9_C34A_C8AA_C34B_C8AB_C34C_C34D_C34E_C8AC_C34F_C350),
  (0xD654, 0xC8AD_C8AE_C351_C352_C8AF_C353_C354_C355_C8B0_C356_C357_C358),
  (0xD660, 0xC359_C35A_C361_C362_C363_C364_C365_C8B1_C366_C8B2_C367_C368),
  (0xD66C, 0xC369_C36A_C36B_C36C_C8B3_C8B4_C36D_C36E_C8B5_C36F_C370_C371),
  (0xD678, 0xC372_C373_C374_C375_C376_C377_C378_C379_C37A_C381_C382_C8B6),
  (0xD684, 0xC383_C8B7_C384_C385_C386_C387_C388_C389_C8B8_C8B9_C38A_C38B),
  (0xD690, 0xC8BA_C38C_C38D_C38E_C8BB_C38F_C390_C391_C392_C393_C394_C395),
  (0xD69C, 0xC396_C8BC_C397_C8BD_C398_C8BE_C399_C39A_C39B_C39C_C39D_C39E),
  (0xD6A8, 0xC8BF_C39F_C3A0_C441_C8C0_C442_C443_C444_C8C1_C445_C446_C447),
  (0xD6B4, 0xC448_C449_C44A_C44B_C44C_C8C2_C44D_C8C3_C44E_C44F_C450_C451),
  (0xD6C0, 0xC452_C453_C454_C455_C8C4_C8C5_C456_C457_C8C6_C458_C459_C45A),
  (0xD6CC, 0xC8C7_C461_C462_C463_C464_C8C8_C465_C466_C8C9_C467_C468_C8CA),
  (0xD6D8, 0xC469_C8CB_C46A_C46B_C46C_C46D_C46E_C46F_C8CC_C470_C471_C472),
  (0xD6E4, 0xC8CD_C473_C474_C475_C8CE_C476_C477_C478_C479_C47A_C481_C482),
  (0xD6F0, 0xC8CF_C483_C484_C485_C486_C8D0_C487_C488_C489_C48A_C48B_C48C),
  (0xD6FC, 0xC8D1_C8D2_C48D_C48E_C8D3_C48F_C490_C491_C8D4_C492_C493_C494),
  (0xD708, 0xC495_C496_C497_C498_C499_C49A_C49B_C49C_C49D_C8D5_C49E_C49F),
  (0xD714, 0xC4A0_C541_C542_C543_C8D6_C8D7_C544_C545_C8D8_C546_C547_C548),
  (0xD720, 0xC8D9_C549_C54A_C54B_C54C_C54D_C54E_C54F_C8DA_C8DB_C550_C8DC),
  (0xD72C, 0xC551_C8DD_C552_C553_C554_C555_C556_C557_C8DE_C8DF_C558_C559),
  (0xD738, 0xC8E0_C55A_C561_C562_C8E1_C563_C564_C565_C566_C567_C568_C569),
  (0xD744, 0xC8E2_C56A_C56B_C8E3_C56C_C8E4_C56D_C56E_C56F_C570_C571_C572),
  (0xD750, 0xC8E5_C8E6_C573_C574_C8E7_C575_C8E8_C8E9_C8EA_C8EB_C576_C577),
  (0xD75C, 0xC578_C579_C57A_C581_C8EC_C8ED_C582_C8EE_C583_C8EF_C584_C585),
  (0xD768, 0xC586_C8F0_C587_C588_C8F1_C589_C58A_C58B_C8F2_C58C_C58D_C58E),
  (0xD774, 0xC8F3_C58F_C590_C591_C592_C593_C594_C595_C8F4_C8F5_C596_C597),
  (0xD780, 0xC598_C8F6_C599_C59A_C59B_C59C_C59D_C59E_C8F7_C8F8_C59F_C5A0),
  (0xD78C, 0xC8F9_C641_C642_C643_C8FA_C644_C645_C646_C647_C648_C649_C64A),
  (0xD798, 0xC8FB_C8FC_C64B_C8FD_C64C_C8FE_C64D_C64E_C64F_C650_C651_C652),
  (0xF900, 0xCBD0_CBD6_CBE7_CDCF_CDE8_CEAD_CFFB_D0A2_D0B8_D0D0_D0DD_D1D4),
  (0xF90C, 0xD1D5_D1D8_D1DB_D1DC_D1DD_D1DE_D1DF_D1E0_D1E2_D1E3_D1E4_D1E5),
  (0xF918, 0xD1E6_D1E8_D1E9_D1EA_D1EB_D1ED_D1EF_D1F0_D1F2_D1F6_D1FA_D1FC),
  (0xF924, 0xD1FD_D1FE_D2A2_D2A3_D2A7_D2A8_D2A9_D2AA_D2AB_D2AD_D2B2_D2BE),
  (0xF930, 0xD2C2_D2C3_D2C4_D2C6_D2C7_D2C8_D2C9_D2CA_D2CB_D2CD_D2CE_D2CF),
  (0xF93C, 0xD2D0_D2D1_D2D2_D2D3_D2D4_D2D5_D2D6_D2D7_D2D9_D2DA_D2DE_D2DF),
  (0xF948, 0xD2E1_D2E2_D2E4_D2E5_D2E6_D2E7_D2E8_D2E9_D2EA_D2EB_D2F0_D2F1),
  (0xF954, 0xD2F2_D2F3_D2F4_D2F5_D2F7_D2F8_D4E6_D4FC_D5A5_D5AB_D5AE_D6B8),
  (0xF960, 0xD6CD_D7CB_D7E4_DBC5_DBE4_DCA5_DDA5_DDD5_DDF4_DEFC_DEFE_DFB3),
  (0xF96C, 0xDFE1_DFE8_E0F1_E1AD_E1ED_E3F5_E4A1_E4A9_E5AE_E5B1_E5B2_E5B9),
  (0xF978, 0xE5BB_E5BC_E5C4_E5CE_E5D0_E5D2_E5D6_E5FA_E5FB_E5FC_E5FE_E6A1),
  (0xF984, 0xE6A4_E6A7_E6AD_E6AF_E6B0_E6B1_E6B3_E6B7_E6B8_E6BC_E6C4_E6C6),
  (0xF990, 0xE6C7_E6CA_E6D2_E6D6_E6D9_E6DC_E6DF_E6E1_E6E4_E6E5_E6E6_E6E8),
  (0xF99C, 0xE6EA_E6EB_E6EC_E6EF_E6F1_E6F2_E6F5_E6F6_E6F7_E6F9_E7A1_E7A6),
  (0xF9A8, 0xE7A9_E7AA_E7AC_E7AD_E7B0_E7BF_E7C1_E7C6_E7C7_E7CB_E7CD_E7CF),
  (0xF9B4, 0xE7D0_E7D3_E7DF_E7E4_E7E6_E7F7_E8E7_E8E8_E8F0_E8F1_E8F7_E8F9),
  (0xF9C0, 0xE8FB_E8FE_E9A7_E9AC_E9CC_E9F7_EAC1_EAE5_EAF4_EAF7_EAFC_EAFE),
  (0xF9CC, 0xEBA4_EBA7_EBA9_EBAA_EBBA_EBBB_EBBD_EBC1_EBC2_EBC6_EBC7_EBCC),
  (0xF9D8, 0xEBCF_EBD0_EBD1_EBD2_EBD8_ECA6_ECA7_ECAA_ECAF_ECB0_ECB1_ECB2),
  (0xF9E4, 0xECB5_ECB8_ECBA_ECC0_ECC1_ECC5_ECC6_ECC9_ECCA_ECD5_ECDD_ECDE),
  (0xF9F0, 0xECE1_ECE4_ECE7_ECE8_ECF7_ECF8_ECFA_EDA1_EDA2_EDA3_EDEE_EEDB),
  (0xF9FC, 0xF2BD_F2FA_F3B1_F4A7_F4EE_F6F4_F6F6_F7B8_F7C8_F7D3_F8DB_F8F0),
  (0xFA08, 0xFAA1_FAA2_FAE6_FCA9),
  (0xFF01, 0xA3A1_A3A2_A3A3_A3A4_A3A5_A3A6_A3A7_A3A8_A3A9_A3AA_A3AB_A3AC),
  (0xFF0D, 0xA3AD_A3AE_A3AF_A3B0_A3B1_A3B2_A3B3_A3B4_A3B5_A3B6_A3B7_A3B8),
  (0xFF19, 0xA3B9_A3BA_A3BB_A3BC_A3BD_A3BE_A3BF_A3C0_A3C1_A3C2_A3C3_A3C4),
  (0xFF25, 0xA3C5_A3C6_A3C7_A3C8_A3C9_A3CA_A3CB_A3CC_A3CD_A3CE_A3CF_A3D0),
  (0xFF31, 0xA3D1_A3D2_A3D3_A3D4_A3D5_A3D6_A3D7_A3D8_A3D9_A3DA_A3DB_A1AC),
  (0xFF3D, 0xA3DD_A3DE_A3DF_A3E0_A3E1_A3E2_A3E3_A3E4_A3E5_A3E6_A3E7_A3E8),
  (0xFF49, 0xA3E9_A3EA_A3EB_A3EC_A3ED_A3EE_A3EF_A3F0_A3F1_A3F2_A3F3_A3F4),
  (0xFF55, 0xA3F5_A3F6_A3F7_A3F8_A3F9_A3FA_A3FB_A3FC_A3FD_A2A6),
  (0xFFE0, 0xA1CB_A1CC_A1FE_A3FE),
  (0xFFE5, 0xA1CD_A3DC)]

/-- /repo/modules/from/_CP949.txt and /repo/modules/to/_CP949.txt. -/
def cp949 : Charset where
  reads := cp949Reads
  writes := cp949Writes

end Verif.Charsets
