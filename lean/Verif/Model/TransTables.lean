import Verif.Spec.Charset
/-
Generated by tools/charsets.py from rule files of /repo/modules/from and /repo/modules/to.
-/
namespace Verif.Charsets
open Verif.Spec

set_option maxRecDepth 100000

/-- The rules of /repo/modules/to/CP936-TRANS.txt: character, code.  No two lines have the same character; sorted.  Lines `0100..`, if any, are
listed separately. -/
def cp936TransWrites : Chart := Chart.wide [
  (0x3405, 0xCEE5),
  (0x3421, 0xC5B3),
  (0x3430, 0xD0C5),
  (0x3433, 0xD8A3),
  (0x3439, 0xD8EE),
  (0x3442, 0xB7C2),
  (0x3444, 0xCEEA),
  (0x345E, 0xEBF4),
  (0x3464, 0x8B62),
  (0x3474, 0xC7D6),
  (0x3477, 0xCCAC),
  (0x347A, 0xBFA1),
  (0x347D, 0x82DA),
  (0x3497, 0x8388),
  (0x349A, 0xCEC8),
  (0x349E, 0xBFA1),
  (0x34A4, 0xC9E5),
  (0x34A8, 0xCFC9),
  (0x34B2, 0xB2C6_C1BD),
  (0x34B6, 0xB9AB),
  (0x34C2, 0xBFDC),
  (0x34CA, 0xB6B4),
  (0x34D5, 0xC3F0),
  (0x34DB, 0xB9A6_D3D7_D0CC),
  (0x34F6, 0xEFC6),
  (0x3503, 0xBEF8),
  (0x3509, 0x84B1),
  (0x3518, 0xF7ED),
  (0x351C, 0xB2AA),
  (0x352D, 0xB3D7),
  (0x353A, 0xCAC0),
  (0x353D, 0xD8D5),
  (0x3547, 0xEDC7_8EE5),
  (0x3551, 0xB3F8),
  (0x3555, 0xBBC3_CBD8),
  (0x355A, 0xD7A6_D3D1_CAB7),
  (0x355E, 0xCBA2),
  (0x3560, 0xCBAB),
  (0x3564, 0x85B4_D2D4),
  (0x357A, 0x85EB),
  (0x357C, 0x864D),
  (0x3581, 0xC1DF),
  (0x3584, 0x86B5),
  (0x359E, 0x86B7),
  (0x35A0, 0xC4C7),
  (0x35B6, 0xD64E),
  (0x35BE, 0x8640),
  (0x35C6, 0xE0C3),
  (0x35CB, 0xBAED),
  (0x35D0, 0xE0BE),
  (0x35D6, 0xE0A2),
  (0x35E4, 0xE0D2),
  (0x35FD, 0xCFEC),
  (0x3605, 0x86A5),
  (0x3611, 0x87D1),
  (0x3613, 0x87DB),
  (0x3615, 0x8795),
  (0x3625, 0x87EA),
  (0x362B, 0xBEB3),
  (0x362F, 0xB3A1),
  (0x3631, 0xCCAE),
  (0x3634, 0xD7F8),
  (0x3637, 0xB0AC),
  (0x363B, 0x888A),
  (0x363F, 0x885B),
  (0x3641, 0xDBE9),
  (0x365A, 0x889E),
  (0x3662, 0xDCAC),
  (0x3672, 0xDBD5),
  (0x367C, 0xC0DD),
  (0x3689, 0x89E0),
  (0x368C, 0xE2B7),
  (0x368F, 0x89F9_CCD7),
  (0x36A2, 0xC5AB_E6AF),
  (0x36A9, 0x8A98),
  (0x36B3, 0x8A8E),
  (0x36B6, 0xE6A6),
  (0x36D4, 0x8A7E_8AB4),
  (0x36DB, 0xC9EF),
  (0x36E4, 0x8C43),
  (0x36E9, 0xE6A8),
  (0x36EE, 0xC9A9),
  (0x36F0, 0xBBE9),
  (0x36FD, 0xE6A9),
  (0x370F, 0x8A75),
  (0x3711, 0xC6C5),
  (0x371C, 0x8BAE),
  (0x373B, 0xE6AE),
  (0x373D, 0xD7D3_BAA2),
  (0x3740, 0xBAC3),
  (0x3748, 0xC2CF_D0FB_CAD8_C1C8_BECE_D0B4),
  (0x3756, 0xD2CB),
  (0x3759, 0xD2FA),
  (0x375B, 0xCBDE),
  (0x3761, 0xD7EE_D3EE),
  (0x3766, 0x8C94_CEC8),
  (0x376F, 0xC7C8),
  (0x3774, 0x845C),
  (0x3777, 0xD1B0),
  (0x3791, 0xCEB2),
  (0x3795, 0xD0BC),
  (0x37A1, 0xD5B9_D6AE),
  (0x37AF, 0xE1A8),
  (0x37B6, 0xE1BA),
  (0x37B9, 0xE1B3),
  (0x37C1, 0xB0B6),
  (0x37D2, 0x8D6E),
  (0x37E5, 0x8DDF),
  (0x37E7, 0x8DAC),
  (0x37E9, 0xE1BA),
  (0x37ED, 0xE1BA),
  (0x37FA, 0xE1D0),
  (0x3800, 0xB5BA_8DDF),
  (0x3804, 0x8DED),
  (0x3810, 0xE1BD),
  (0x3817, 0x8E53),
  (0x381C, 0xE1DA_8E6D),
  (0x382D, 0xD5B9),
  (0x3836, 0xB7AB),
  (0x3838, 0xD075),
  (0x3860, 0xD6A1),
  (0x3873, 0xB5D7),
  (0x387F, 0xB3E2),
  (0x3898, 0xC1AE),
  (0x38AA, 0x8F76),
  (0x38AE, 0xB3DA),
  (0x38B4, 0xCEF7),
  (0x38BD, 0xB6FC),
  (0x38CB, 0xB5A4),
  (0x38E6, 0xE5D4),
  (0x38EB, 0xB6AF),
  (0x38F2, 0xCEA2),
  (0x38FC, 0xC8CC),
  (0x3900, 0xCDFC_E3C3_BCB1_B7C1),
  (0x3905, 0xB0AE),
  (0x3907, 0xB0C3),
  (0x3913, 0xB1BF),
  (0x3919, 0xB6F7),
  (0x391B, 0xEDA5),
  (0x391F, 0xBFD6),
  (0x3929, 0xE3A1_D4B9),
  (0x392C, 0xEDA3),
  (0x3930, 0xE2F4),
  (0x393A, 0xBBC5),
  (0x3943, 0xC3C6),
  (0x394B, 0x82C3),
  (0x395E, 0xE5E4),
  (0x3964, 0xF1E6),
  (0x3966, 0xE3AB_CBB3),
  (0x396B, 0x90AA),
  (0x3971, 0xE3AD),
  (0x3975, 0x90F9),
  (0x398D, 0xE3B5),
  (0x3994, 0xE2FB),
  (0x3996, 0xEDAF),
  (0x399E, 0x91C0),
  (0x39A0, 0xEDA1),
  (0x39A4, 0xDCB2),
  (0x39A7, 0x9194),
  (0x39AF, 0xBBF2),
  (0x39B8, 0xEAAA),
  (0x39BE, 0x91FE_BBA7),
  (0x39CF, 0x92E2),
  (0x39D6, 0xB6F3),
  (0x39DF, 0x93F9),
  (0x39E8, 0x9240),
  (0x39F1, 0xC4C3),
  (0x39FC, 0x826C),
  (0x39FF, 0x939C),
  (0x3A08, 0xBCB7),
  (0x3A14, 0xBAB3_946C),
  (0x3A17, 0xBDDD),
  (0x3A23, 0xD3B5_93F9),
  (0x3A2F, 0xC0A9),
  (0x3A3F, 0x93FE_93FE_C8B6),
  (0x3A4E, 0x944C),
  (0x3A55, 0xC1E0),
  (0x3A57, 0xD0AF),
  (0x3A65, 0x9473_D0AF),
  (0x3A70, 0xB3AD),
  (0x3A75, 0x9441),
  (0x3A7B, 0x948A),
  (0x3A85, 0xB8FC),
  (0x3A89, 0x9497),
  (0x3A9D, 0xBCF0),
  (0x3A9F, 0xB6D8),
  (0x3AA3, 0xC7C3),
  (0x3AC1, 0xB6CF),
  (0x3AC4, 0xC5D4_C6EC),
  (0x3ACB, 0xECB9),
  (0x3AD1, 0xD6BC),
  (0x3AD4, 0xF4DE),
  (0x3AE7, 0xB1A9),
  (0x3AEA, 0xB4BA),
  (0x3AF3, 0xB3BF),
  (0x3AFA, 0xCEF4),
  (0x3B0C, 0xBEB0_C6D8),
  (0x3B19, 0x95A5),
  (0x3B1C, 0xBDFA),
  (0x3B20, 0xC9B9),
  (0x3B25, 0xB1A9),
  (0x3B27, 0xB1A9),
  (0x3B29, 0x95C1),
  (0x3B31, 0xCCE6),
  (0x3B4A, 0xCEF6_B0F4),
  (0x3B4D, 0xC6E2_979E),
  (0x3B71, 0xCFBB),
  (0x3B7B, 0xCCC4),
  (0x3B84, 0xB0F1),
  (0x3B86, 0x99C7),
  (0x3B8B, 0x96EB_C3DE),
  (0x3B8E, 0xB1AD),
  (0x3BA3, 0xB8C5),
  (0x3BAE, 0xBDDB),
  (0x3BB3, 0x96DA),
  (0x3BB5, 0x96EE),
  (0x3BC7, 0x9761_98C9),
  (0x3BCD, 0xBDB0),
  (0x3BD0, 0xCDD6),
  (0x3BD3, 0xE9BD),
  (0x3BDF, 0xC2B4),
  (0x3BE3, 0x97B1),
  (0x3BE6, 0xC6E5),
  (0x3BEA, 0xE8F9),
  (0x3C02, 0x97AA),
  (0x3C05, 0x98B5),
  (0x3C09, 0xE9BB),
  (0x3C0F, 0xB8DD_CDD6),
  (0x3C16, 0xE9AD),
  (0x3C19, 0x9944),
  (0x3C1E, 0xE0CD),
  (0x3C4F, 0xD5FD),
  (0x3C55, 0xB9E9),
  (0x3C58, 0xF7CA),
  (0x3C68, 0xE9E7),
  (0x3C7F, 0xBFC7),
  (0x3C87, 0xDFCB_C9D8),
  (0x3C9C, 0xCCBA),
  (0x3CAD, 0xCCBA),
  (0x3CB2, 0x9ADB),
  (0x3CB6, 0xC2C8_B5AA),
  (0x3CBE, 0xD3EA),
  (0x3CC2, 0xD1D8_B4E3),
  (0x3CC5, 0xC1F7),
  (0x3CC8, 0xC5E6),
  (0x3CD1, 0xD2E7_B7A8),
  (0x3CD9, 0xE4B8),
  (0x3CE0, 0x9DDF),
  (0x3CED, 0xCFD1),
  (0x3D05, 0xCFFB_BDFE),
  (0x3D09, 0xBCC3),
  (0x3D15, 0x9D90),
  (0x3D1E, 0xCCCF),
  (0x3D34, 0xD5BF),
  (0x3D3E, 0xB2B3),
  (0x3D4E, 0xBDA7),
  (0x3D55, 0xD4E8),
  (0x3D71, 0xC6AF),
  (0x3D78, 0xE5AE),
  (0x3DA4, 0xB3B4),
  (0x3DA8, 0x9ECC),
  (0x3DAA, 0x9ECC_C1C7),
  (0x3DB3, 0xBDFD),
  (0x3DBB, 0xB7E9),
  (0x3DC7, 0xBBD6),
  (0x3DCA, 0xB7D9),
  (0x3DD3, 0x9FD0_D1E6),
  (0x3DD6, 0xD5D5),
  (0x3DD9, 0xBCE5),
  (0x3DE9, 0xCEF5),
  (0x3DF1, 0xD0DC),
  (0x3DFB, 0xCEDE),
  (0x3E00, 0xECC6_9FDF_ECDD),
  (0x3E09, 0xDBC6),
  (0x3E15, 0xBEF0),
  (0x3E18, 0xCDF2),
  (0x3E27, 0xF6B8),
  (0x3E3E, 0xA0AE),
  (0x3E60, 0xEBE0),
  (0x3E64, 0xC7D3),
  (0x3E83, 0xB9B7),
  (0x3E85, 0xBAEF),
  (0x3E9A, 0xCCA1),
  (0x3EAB, 0xAB55),
  (0x3EAE, 0xAB5D),
  (0x3EB2, 0xC5A5_C3B5),
  (0x3ECE, 0xC9AA),
  (0x3ED7, 0xAC69),
  (0x3EEE, 0xE8B2),
  (0x3F04, 0xE7E1),
  (0x3F4D, 0xDBE1),
  (0x3F52, 0xC9FB),
  (0x3F56, 0xC1F4_C4B6),
  (0x3F5C, 0xEEB5),
  (0x3F5E, 0xC1F4),
  (0x3F6C, 0xB7F8),
  (0x3F6F, 0xC6E8),
  (0x3F78, 0xAF84),
  (0x3F84, 0xD798),
  (0x3F8A, 0xF1A4),
  (0x3F8C, 0xD1A2),
  (0x3FC2, 0xB059),
  (0x3FCB, 0xF0FE),
  (0x3FE2, 0xD2AB),
  (0x3FF7, 0xB2DA),
  (0x4006, 0xBEA1),
  (0x400B, 0xD1CE),
  (0x400E, 0xEDED),
  (0x4018, 0xEBF6),
  (0x4056, 0xB26B),
  (0x405E, 0xCAA1),
  (0x4066, 0xEAEF),
  (0x4079, 0xEEA2),
  (0x4093, 0xB9E6),
  (0x4096, 0xCAAF),
  (0x409D, 0xB34B),
  (0x40A1, 0xEDC6),
  (0x40A5, 0xB443),
  (0x40B2, 0xEDC0),
  (0x40BB, 0xEFAD),
  (0x40CD, 0xD7B9),
  (0x40D8, 0xB399),
  (0x40E0, 0xEDDB),
  (0x40E9, 0xEDD0),
  (0x40FA, 0xC4A5),
  (0x4100, 0xBBF6),
  (0x410C, 0xE15E),
  (0x4112, 0xEFFE),
  (0x4115, 0xC9E7),
  (0x4122, 0xC6EB),
  (0x412B, 0xDCBB_D2C6_C4EA),
  (0x413A, 0xB694),
  (0x413D, 0xF4CC),
  (0x4147, 0xCBDA),
  (0x4149, 0xB696),
  (0x415F, 0xB75F_B694),
  (0x4192, 0xBEBF),
  (0x4197, 0xF1BA),
  (0x41A0, 0xBBC2),
  (0x41A9, 0xDAA4),
  (0x41BB, 0xC7CF),
  (0x41F2, 0xB96B),
  (0x4230, 0xC9D2),
  (0x427C, 0xC1CF_BB7B),
  (0x428B, 0xBC50),
  (0x428F, 0xF4D6),
  (0x42B6, 0xC083_E7BB),
  (0x42C1, 0xE7AE),
  (0x42C4, 0xCDF8),
  (0x42DC, 0xF4EC),
  (0x42DE, 0xCDF8),
  (0x42E0, 0xB2B9),
  (0x42E7, 0xBD50),
  (0x42EF, 0xF4EC),
  (0x42F2, 0xC9FE_F1D8),
  (0x42F9, 0xB7F9),
  (0x4304, 0xE7AE),
  (0x4307, 0xCBF7),
  (0x4309, 0xB8D9_F4ED),
  (0x4313, 0xB7B1),
  (0x4315, 0xF7E3),
  (0x431B, 0xF4ED),
  (0x432B, 0xC0C2),
  (0x4337, 0xBC97),
  (0x4339, 0xBD4E),
  (0x433D, 0xBE5A),
  (0x4348, 0xC6BF),
  (0x435E, 0xC14E),
  (0x4369, 0xD1F8),
  (0x436D, 0xA099),
  (0x4379, 0xC183),
  (0x43A3, 0xF1EA),
  (0x43B9, 0xCEC5),
  (0x43BE, 0xB19A),
  (0x43CA, 0xC1FB_CBE0),
  (0x43D2, 0xC5D6),
  (0x43D4, 0xD6E2_E2BF),
  (0x43DD, 0xC478),
  (0x43EF, 0xF0EB),
  (0x43FB, 0xC4DC),
  (0x440C, 0xCCF3),
  (0x4417, 0xB6C7),
  (0x4421, 0xC6EA),
  (0x4452, 0xB5BD_C55F),
  (0x4455, 0xCAF3),
  (0x445B, 0xF3C2),
  (0x445E, 0xCBB4),
  (0x4482, 0xBDB0_D4EC),
  (0x4497, 0xC65A),
  (0x44A3, 0xDCDB),
  (0x44A9, 0xC84D),
  (0x44AC, 0xC4AA_B5C8),
  (0x44B1, 0xD5F4),
  (0x44B6, 0xCCEC),
  (0x44C1, 0xB5C8),
  (0x44C5, 0xC7DB),
  (0x44CA, 0xC695),
  (0x44D2, 0xC6EA),
  (0x44D6, 0xCB95_CA5B),
  (0x44E6, 0xB5E4),
  (0x44F6, 0xCC44_DCF4),
  (0x44F9, 0xF086_DEC2),
  (0x44FF, 0xDDD5),
  (0x4509, 0xCBE2),
  (0x450B, 0xC9AF),
  (0x450D, 0xF3C6),
  (0x4512, 0xDDED),
  (0x4525, 0xCFF4),
  (0x452B, 0xCADF),
  (0x4535, 0xC882),
  (0x4543, 0xD2F1),
  (0x454F, 0xDDAD),
  (0x4551, 0xC89A),
  (0x4556, 0xDDA5),
  (0x455A, 0xDDDE),
  (0x455D, 0xCA6F),
  (0x4560, 0xCA86),
  (0x4564, 0xDEAD),
  (0x4568, 0xCCD9),
  (0x456B, 0xD9E7),
  (0x456E, 0xBED5_CB69),
  (0x4580, 0xCC87),
  (0x4582, 0xCC89),
  (0x458B, 0xC5B0),
  (0x458D, 0xF2AF),
  (0x458F, 0xB4A6),
  (0x45A0, 0xF3A2),
  (0x45A3, 0xD4E9_F2EA),
  (0x45AB, 0xB0F6),
  (0x45AE, 0xCF86),
  (0x45B8, 0xB6EA_F2D5),
  (0x45BD, 0xF2DB),
  (0x45BF, 0xF2DB),
  (0x45CB, 0xF2D6),
  (0x45CF, 0xF2F4),
  (0x45D7, 0xCD4F),
  (0x45EA, 0xCF56_F3A1),
  (0x45F6, 0xC0AF),
  (0x45F9, 0xCE88),
  (0x45FE, 0xF2B9),
  (0x4601, 0xD056),
  (0x4603, 0xCF5F),
  (0x4607, 0xCEC3),
  (0x460A, 0xF3BA),
  (0x4610, 0xF4AC),
  (0x4614, 0xBFA6),
  (0x4619, 0xCEC0_D7E4),
  (0x461C, 0xBDED),
  (0x4629, 0xD09E),
  (0x462B, 0xD14D),
  (0x462E, 0xC9A5),
  (0x4631, 0xD4A3),
  (0x463F, 0xD09C_B1C1),
  (0x4653, 0xD26F),
  (0x4656, 0xB1C1_D17B),
  (0x465D, 0xD9F4),
  (0x466A, 0xF1E1),
  (0x466D, 0xE5BD),
  (0x4670, 0xD19F),
  (0x4673, 0x9FCF),
  (0x467A, 0xD29C),
  (0x4695, 0xB297),
  (0x469E, 0xB4F5_B4F5),
  (0x46B0, 0xD746_D0C5_DAA8),
  (0x46B9, 0xD746),
  (0x46C2, 0xD542),
  (0x46D0, 0xB4CA_DAD7_B1E7),
  (0x46D5, 0xDAC4_D46D),
  (0x46DB, 0xD490_D1B6),
  (0x46DF, 0x866B),
  (0x46E1, 0xBBB0),
  (0x46E6, 0xCBCF_C3D5),
  (0x46EE, 0x8277),
  (0x46FA, 0xBDEB),
  (0x46FC, 0xD765),
  (0x4701, 0xD66C),
  (0x4703, 0x895B_D673),
  (0x4718, 0xBEAF),
  (0x471B, 0xB2F7),
  (0x471F, 0xDADF),
  (0x4723, 0xD444),
  (0x4729, 0xD785),
  (0x4735, 0xF4F9),
  (0x473B, 0xF4F9),
  (0x473F, 0xCAFA),
  (0x4742, 0xCAFA),
  (0x4747, 0xD859_D860),
  (0x4757, 0xF5F7_D2E3),
  (0x4760, 0xAA78),
  (0x4768, 0xCFCD),
  (0x476F, 0xD897),
  (0x4774, 0xFD56),
  (0x477E, 0xB8B3_B9F3),
  (0x478B, 0x87B8),
  (0x47AC, 0xCDB8),
  (0x47BC, 0xB4DC),
  (0x47C6, 0xF5CF),
  (0x47CC, 0xD3E3),
  (0x47CE, 0xF4F5),
  (0x47D6, 0xD6BA),
  (0x47DA, 0xDB61),
  (0x47E6, 0xB0CF),
  (0x4801, 0xF5D2_B3FE),
  (0x480A, 0x847C),
  (0x480E, 0xF6BB),
  (0x4825, 0xF5BF),
  (0x482E, 0xCCDA),
  (0x4830, 0xDB6D),
  (0x4832, 0xF1F6),
  (0x4836, 0xC9E4),
  (0x4839, 0xBAA1),
  (0x4840, 0x837B),
  (0x4845, 0xDD90),
  (0x4847, 0xDC8B),
  (0x484B, 0xDC99_EC8D),
  (0x4856, 0xC7E1),
  (0x4859, 0xDD88),
  (0x4879, 0xE9F9),
  (0x487C, 0xDD43),
  (0x4884, 0x96A0),
  (0x4889, 0xC5A9),
  (0x489C, 0xB9E9),
  (0x489F, 0xD3C9_CBCD),
  (0x48A4, 0xCAF6),
  (0x48A6, 0xCBA7),
  (0x48AA, 0xC7C1_CBE6),
  (0x48AF, 0xE5E0),
  (0x48B5, 0xD4C7),
  (0x48B7, 0xC4C7),
  (0x48BE, 0x8AB7),
  (0x48CC, 0xDBA1),
  (0x48DE, 0xB6F5),
  (0x48E8, 0xB4BC),
  (0x48F4, 0xD0EF),
  (0x491C, 0xB6DB),
  (0x491E, 0xE271_E25C_E27E),
  (0x4928, 0xE257),
  (0x4931, 0xCAC4),
  (0x4939, 0xEFCB),
  (0x4945, 0xC7D9_C7D9),
  (0x494A, 0xEFBA),
  (0x4950, 0xF6CA_E573),
  (0x4955, 0xE776_EEE4),
  (0x495A, 0xB3F5),
  (0x4962, 0xE758),
  (0x4976, 0xEFD3_D5A1),
  (0x497A, 0xE258),
  (0x497D, 0xE76B),
  (0x4983, 0xE840),
  (0x4985, 0xE797_E891_F7D9),
  (0x4995, 0xE96F),
  (0x4999, 0xCBC2),
  (0x499C, 0xE04E),
  (0x499E, 0xC8F2_CEC8),
  (0x49A7, 0xE3D2_C0BB),
  (0x49B7, 0xCEC8),
  (0x49CD, 0xCFB6),
  (0x49D5, 0xD3F2),
  (0x49D9, 0xC1EA),
  (0x49DC, 0xCCC1),
  (0x49E0, 0xE081_DCAD),
  (0x49E3, 0xEA94),
  (0x49E6, 0xE08C),
  (0x49F8, 0xF0B3),
  (0x49FB, 0xB8EB_F0C0),
  (0x49FF, 0xC8B5),
  (0x4A03, 0xFA60),
  (0x4A05, 0xF0D3_FA87_CBAB),
  (0x4A09, 0xF0D0),
  (0x4A0E, 0xEB94),
  (0x4A13, 0xC0D7_B1A2),
  (0x4A16, 0xF6AB),
  (0x4A19, 0xF6AF),
  (0x4A20, 0xF6B0),
  (0x4A26, 0xEB84),
  (0x4A29, 0xC1E9_F6B2_EC40),
  (0x4A2D, 0xCFF6_D1A9),
  (0x4A36, 0xEC42_F6B1),
  (0x4A51, 0xEC8D),
  (0x4A66, 0xEC9B),
  (0x4A75, 0xED72),
  (0x4A78, 0xBF5E),
  (0x4A7F, 0xFC8B),
  (0x4A84, 0xBBCD),
  (0x4AA0, 0xECB4_ECB4_ECB4),
  (0x4ACD, 0xEE5C),
  (0x4AD9, 0xF2AA),
  (0x4ADD, 0xF0A5),
  (0x4AEB, 0xF7C3),
  (0x4AF1, 0xF2AC),
  (0x4AF7, 0xF2A6),
  (0x4B03, 0xECAA),
  (0x4B17, 0xEF72),
  (0x4B19, 0xEF5F_EF63),
  (0x4B24, 0xF095_F086),
  (0x4B2A, 0xF141),
  (0x4B2E, 0xE2C2),
  (0x4B33, 0xBB7B),
  (0x4B3B, 0xBDA4),
  (0x4B4B, 0xB1A5_F062),
  (0x4B5B, 0xF085),
  (0x4B66, 0xF141),
  (0x4B6B, 0xBBFC_BBFC),
  (0x4B76, 0xE6EB),
  (0x4B7C, 0xE6EB),
  (0x4B7E, 0xCDD4),
  (0x4B81, 0xE6E9),
  (0x4B83, 0xC7FD),
  (0x4B86, 0xF179_F28F_B3DB),
  (0x4B90, 0xF16F),
  (0x4B9B, 0xE6E2),
  (0x4BB2, 0xF262),
  (0x4BBC, 0xF295),
  (0x4BBF, 0xE5B9),
  (0x4BC1, 0xC2E2),
  (0x4BCE, 0xF35F),
  (0x4BD0, 0xBAA1),
  (0x4BD7, 0xF7C2),
  (0x4BDD, 0xCBE8),
  (0x4BEF, 0xF39A),
  (0x4BF3, 0xF3A0),
  (0x4BFA, 0xF396),
  (0x4C05, 0xF450),
  (0x4C0B, 0xF44E),
  (0x4C11, 0xF450),
  (0x4C19, 0xE272),
  (0x4C1B, 0xD8AA_D8AA),
  (0x4C1F, 0xBBEA),
  (0x4C23, 0xF7CD),
  (0x4C28, 0xF7C8),
  (0x4C3A, 0xF48F),
  (0x4C3F, 0xF544),
  (0x4C44, 0xF48F),
  (0x4C46, 0xF76A),
  (0x4C48, 0xF56C),
  (0x4C54, 0xF58D),
  (0x4C56, 0xF686),
  (0x4C58, 0xF650),
  (0x4C5F, 0xCE41),
  (0x4C70, 0xF78B),
  (0x4C7D, 0xF6F0),
  (0x4C84, 0xF7AA),
  (0x4C8D, 0xF68C),
  (0x4C9F, 0xF567_F66A_F670_F68C),
  (0x4CA5, 0xF0AF),
  (0x4CA8, 0xBAE8),
  (0x4CAB, 0xF0AF),
  (0x4CB4, 0xF0B2_C8B8),
  (0x4CB7, 0xE8C9),
  (0x4CCC, 0xBEE9),
  (0x4CD2, 0xF0B0),
  (0x4CD8, 0xB6EC),
  (0x4CDC, 0xF949),
  (0x4CE8, 0xBBCB),
  (0x4CF6, 0xFAA0),
  (0x4CFC, 0xC5B8_BAD7),
  (0x4D09, 0xFB71_FB40_FB71_FB4C),
  (0x4D0E, 0xFB50),
  (0x4D12, 0xFB5F_F85B_F89F_F895_F982_FA47_FA66),
  (0x4D21, 0xC0F6),
  (0x4D25, 0xFB93),
  (0x4D44, 0xFC4B),
  (0x4D5E, 0xF7F4),
  (0x4D79, 0xD6A9_884E),
  (0x4D87, 0xF7F8),
  (0x4D9A, 0xC8A3),
  (0x4DAE, 0xFD8C),
  (0xF900, 0xC6F1_B8FC_B3B5_BCD6_BBAC_B4AE_BEE4_B9EA_B9EA_C6F5_BDF0_C0AE),
  (0xF90C, 0xC4CE_C0C1_F1AE_C2DE_C2DC_C2DD_C2E3_C2DF_C0D6_C2E5_C0D3_E7F3),
  (0xF918, 0xC2E4_C0D2_C2E6_C2D2_C2D1_C0B8_C0C3_C0BC_F0BD_E1B0_C0C4_C0B6),
  (0xF924, 0xF1DC_C0AD_C0B0_C0AF_C0C8_C0CA_C0CB_C0C7),
  (0xF92D, 0xC0B4_C0E4_C0CD_C2B0_E9D6_C2AF_C2AC_C0CF_C2AB_C2B2_C2B7_C2B6),
  (0xF939, 0xC2B3_F0D8_C2B5_C2BB_C2CC_C78A_C2BC_C2B9_C2DB_C2A2_C5AA_C1FD),
  (0xF945, 0xC1FB_C0CE_C0DA_C2B8_C0D7_C0DD_C2C5_C2A5_C0E1_C2A9_C0DB_C2C6),
  (0xF951, 0xC2AA_C0D5_C0DF_C1DD_C1E8_B6A0_E7B1_C1E2_C1EA_B6C1_C4C3_C0D6),
  (0xF95D, 0xC5B5_B5A4_C4FE_C5AD_C2CA_D2EC_B1B1_B491_B1E3_8FCD_B2BB_C3DA),
  (0xF969, 0xCAFD_CBF7_B2CE_C8FB_CAA1_D2B6_CBB5_C9B1_B3BD_C9F2_CAB0_C8F4),
  (0xF975, 0xC2D3_C2D4_C1C1_C1BD),
  (0xF97A, 0xC1BA_C1B8_C1BC_C1C2_C1BF_C0F8_85CE_C5AE_C2AE_C2C3_C2CB_EDC2),
  (0xF986, 0xE3CC_E6EA_C0F6_C0E8_C1A6_95D1_9A76_E9F6_C4EA_C1AF_C1B5_93D3),
  (0xF992, 0xC1B0_C1B6_E7F6),
  (0xF996, 0xC1B7_C1AA_E9FD_C1AB_C1AC_E580_C1D0_C1D3_D1CA_C1D2_C1D1_CBB5),
  (0xF9A2, 0xC1AE_C4EE_C4ED_E9E7_C1B1_C1D4_C1EE_E0F2_C4FE_C1EB_C1AF_C1E1),
  (0xF9AE, 0xD3A8_C1E7_F1F6_C1E5_C1E3_C1E9_C1EC_C0FD_C0F1_F5B7_C1A5_B6F1),
  (0xF9BA, 0xC1CB_C1C5_E5BC_C4F2_C1CF_C0D6_C1C7_C1C6_DEA4_C1C9_C1FA_D4CE),
  (0xF9C6, 0xC8EE_C1F5_9683_C1F8_C1F7_C1EF_C1F0_C1F4_C1F2_C5A6_C0E0_C1F9),
  (0xF9D2, 0xC2BE_C2BD_C2D7_8D91_C2D9_C2D6_C2C9_90FC_C0F5_C2CA_C2A1_C0FB),
  (0xF9DE, 0xC0F4_C2C4_D2D7_C0EE_C0E6_C4E0_C0ED_C1A1_EEBE),
  (0xF9E8, 0xD165_C0EF_C0EB_C4E4_C4E7_C1DF_9FFB_AD55_DDFE),
  (0xF9F2, 0xC1DB_F7EB_C1D6_C1DC_C1D9_C1A2_F3D2_C1A3_D7B4_D6CB_CAB6_CAB2),
  (0xF9FE, 0xB2E8_B4CC_C7D0_B6C8_CDD8_CCC7_D5AC_B6B4_B1A9_B7F8_D0D0_BDB5),
  (0xFA0A, 0xBCFB_C0AA),
  (0xFA10, 0xDAA3),
  (0xFA12, 0xC7E7),
  (0xFA15, 0xCEF5_D6ED_D2E6),
  (0xFA19, 0xC9F1_CFE9_B8A3_BEB8_BEAB_D3F0),
  (0xFA22, 0xD6EE),
  (0xFA25, 0xD2DD_B6BC),
  (0xFA2A, 0xB7B9_CBC7_B9DD_BAD7_C0C9_C1A5_CEEA_C9AE_C3E2_C3E3_C7DA_B1B0),
  (0xFA36, 0xBAC8_CCBE_C6F7),
  (0xFA3A, 0xC4AB_B2E3),
  (0xFA3D, 0xBBDA_BFAE_D4F7_B3CD_C3F4_BCC8_CAEE_C3B7_BAA3_E4BE_BABA_D6F3),
  (0xFA4A, 0xD7C1_B1AE_C9E7_ECED_C6ED_B576_D7E6_D7A3_BBF6_ECF5_B759_CDBB),
  (0xFA56, 0xBDDA_C1B7_E7C6_B7B1_CAF0_D5DF_B3F4_DCB3_DCB3_D7C5_BAD6_CAD3),
  (0xFA62, 0xDACB_BDF7_B1F6_D4F9_E5C1_D2DD_C4D1_CFEC_C6B5_BBDD_CEF5_B9DD),
  (0xFA70, 0xB2A2_BFF6_C8AB_81E9_B3E4_BCBD_D3C2_C9D7_BAC8_DFFB_E0B9_86EC),
  (0xFA7C, 0xDAA3_B7D8_D1D9_B1BC_E6BE_8BE3_E2DA_8F4D_B2CA_E1E6_E3AF_C9F7),
  (0xFA88, 0xD3FA_D4F7_9152_B3CD_B4F7_DEED_CBD1_DEF0_B0BD_C7E7_C0CA_CDFB),
  (0xFA94, 0xD5C8_B4F5_C9B1_C1F7_D2F9_D7CC_BABA_9E73_D6F3_C7C6_BEF4_B7B8),
  (0xFAA0, 0xD6ED_AC99_B4C9_BBAD_AF8D_CEC1_D2E6_CAA2_D6B1_B192_D7C5_B46B),
  (0xFAAC, 0xB849_BDDA_C0E0_BD64_C1B7_C6BF_D5DF_BBC4_BBAA_CE82_F1DF_B8B2),
  (0xFAB8, 0xCAD3_B5F7_D6EE_C7EB_DACB_C5B5_DACD_BDF7_B1E4_D4F9_CAE4_B3D9),
  (0xFAC4, 0xE167_E899_EA95_C4D1_BEB8_F7B9_CFEC_B9CB_C6B5_F449_B9EA),
  (0xFAD3, 0xEBF6),
  (0xFAD8, 0xFD4C),
  (0x20003, 0xC7D2),
  (0x2000B, 0xD5C9),
  (0x20019, 0xC0F6_B2BB),
  (0x20024, 0xB2A2),
  (0x20029, 0xCDA1),
  (0x20066, 0xD6D0),
  (0x200A0, 0xE18A),
  (0x200DE, 0xC0F1),
  (0x200F8, 0x817B),
  (0x20107, 0xC0D2_817A),
  (0x20121, 0xCEE5),
  (0x20162, 0xD9F1),
  (0x20169, 0xCAEB),
  (0x20187, 0xB0C2),
  (0x2018C, 0xD3B9),
  (0x201B0, 0xD8EB),
  (0x201BB, 0x825C),
  (0x201DA, 0xBCD7),
  (0x201FE, 0xD0DD),
  (0x20201, 0x819A),
  (0x20206, 0x828B),
  (0x20208, 0x81D5),
  (0x2020E, 0xB3DE),
  (0x20213, 0xC1A9),
  (0x20223, 0xC0CF),
  (0x20229, 0x82D0),
  (0x20255, 0xCAB9_D9B0),
  (0x2026B, 0x8255),
  (0x2026E, 0xBEEB),
  (0x20293, 0xB0F8),
  (0x20296, 0xC0FD),
  (0x202A8, 0x8351_835D),
  (0x202AB, 0x81F9),
  (0x202B1, 0xBAF2),
  (0x202B3, 0xB1E3),
  (0x202B6, 0xEBF4),
  (0x202BE, 0xEEA5),
  (0x202D2, 0xC3FC),
  (0x202DB, 0xC391),
  (0x202E3, 0xD2D0),
  (0x202F1, 0x8344),
  (0x202FC, 0xD9B6),
  (0x202FF, 0x8246),
  (0x20320, 0x82E7),
  (0x2033C, 0xD2DA),
  (0x2035F, 0xBFC9),
  (0x2036C, 0xD9BE),
  (0x2036E, 0x8285),
  (0x20377, 0x836B),
  (0x2037B, 0xD9B1),
  (0x203A1, 0x82C1),
  (0x203B2, 0x82A4),
  (0x203BC, 0x8347),
  (0x203D7, 0xC1C5),
  (0x203EC, 0xD9B7),
  (0x2041A, 0xD9B3_D9D8),
  (0x20427, 0x838F),
  (0x20431, 0x8289),
  (0x20433, 0x8396),
  (0x2043F, 0xDEB0),
  (0x20472, 0xD9DD),
  (0x2047D, 0xB3E4),
  (0x20486, 0xB6F9),
  (0x204B0, 0xE6D5_C6A7),
  (0x204DB, 0x8191),
  (0x20540, 0xD8E8),
  (0x20545, 0xD4D9),
  (0x20549, 0xD1A8),
  (0x2054B, 0xB2E1),
  (0x2054D, 0xB9D9),
  (0x2056A, 0xFC86),
  (0x20575, 0xBFBA),
  (0x205A0, 0xB9C5),
  (0x205B8, 0x83FB),
  (0x205E7, 0x8440),
  (0x20615, 0xCEF5),
  (0x20621, 0xC1DD),
  (0x20624, 0xC0E4),
  (0x20632, 0xB4F3),
  (0x20636, 0xB7F1),
  (0x20652, 0xDA52),
  (0x20675, 0xBFDA),
  (0x20678, 0xB8CA),
  (0x20692, 0xB3DD),
  (0x206B3, 0x8459),
  (0x206D2, 0xD8DA),
  (0x206EC, 0xD0CC),
  (0x206EE, 0x8494),
  (0x20707, 0xBFCC),
  (0x20713, 0xCCDE),
  (0x2071F, 0x8475),
  (0x20728, 0xDBC0),
  (0x20738, 0xBCC1),
  (0x2073A, 0xC1D0),
  (0x2073E, 0xD8E3),
  (0x20765, 0x846C),
  (0x20790, 0x8476),
  (0x207AB, 0xBFCC),
  (0x207FD, 0x849C),
  (0x20832, 0xC1A6),
  (0x2086B, 0x84D6),
  (0x208A4, 0x9189),
  (0x208C1, 0xC0CD),
  (0x208C3, 0x84DF),
  (0x208D9, 0xD1AE),
  (0x208DE, 0xBEFC),
  (0x208E9, 0xD4BC),
  (0x208F5, 0xD9EB),
  (0x2092C, 0xD8CE),
  (0x20971, 0xD4C2),
  (0x20983, 0xD8A6_BBDC),
  (0x20987, 0xBAA5),
  (0x20993, 0xD8A7),
  (0x209B6, 0xB8EF),
  (0x209DE, 0xD5D7),
  (0x209E8, 0xBECC_BBDA_D8D5),
  (0x20A0D, 0xC7E4),
  (0x20A10, 0x856E),
  (0x20A1C, 0x8574),
  (0x20A1E, 0xC7E4),
  (0x20A2E, 0xD8C6),
  (0x20A30, 0xC5AE),
  (0x20A5F, 0xB3BD),
  (0x20A6F, 0xB4E6),
  (0x20A9E, 0xD8C8),
  (0x20AA5, 0xD4AD),
  (0x20AAA, 0x8589),
  (0x20AEA, 0xC1F9),
  (0x20B3B, 0xB7EE),
  (0x20B56, 0xB8D2),
  (0x20B5E, 0x85AA),
  (0x20BA2, 0xD3D2),
  (0x20BA6, 0xD5D9),
  (0x20BAF, 0xCCA8),
  (0x20BB7, 0xBCAA),
  (0x20BC1, 0xD7E3),
  (0x20BCD, 0x85DF),
  (0x20BD2, 0xBBAF),
  (0x20BDE, 0x85E0),
  (0x20C5C, 0x86BD),
  (0x20C69, 0xBEFD),
  (0x20C6F, 0xD7F8),
  (0x20C8B, 0xF5FE),
  (0x20C8E, 0xB7CD),
  (0x20CC5, 0xCECA),
  (0x20CF7, 0x85ED),
  (0x20D01, 0x85E9),
  (0x20D1F, 0xDFE3),
  (0x20D2A, 0xE0A7),
  (0x20D2E, 0xC5E7_86C3),
  (0x20D40, 0xCAA6_F6C5_DFF8_8691),
  (0x20D52, 0xDFFD),
  (0x20D70, 0xDFD8),
  (0x20D72, 0xDBC1),
  (0x20D75, 0x8686),
  (0x20DBA, 0xDFEC),
  (0x20DC3, 0xE0B2),
  (0x20DD5, 0xB4B5),
  (0x20DF8, 0xE0AF),
  (0x20E59, 0x86CB),
  (0x20E5E, 0x86B1),
  (0x20ED4, 0xE0E5),
  (0x20EDB, 0xE0D5),
  (0x20EE9, 0xD541),
  (0x20EEF, 0xDFEE),
  (0x20EF6, 0x86F9),
  (0x20F15, 0xDFC2),
  (0x20F6C, 0xC4D8),
  (0x20F7A, 0x87A8),
  (0x20F7F, 0xDFC9),
  (0x20F85, 0xD2AA),
  (0x20F96, 0xC6F7),
  (0x20FC8, 0xE0B1),
  (0x20FCA, 0x86CB),
  (0x20FCC, 0x86DA_8688),
  (0x21012, 0x8745),
  (0x21050, 0xE0C9),
  (0x21052, 0x86CB),
  (0x21090, 0x87D4),
  (0x21096, 0x8783),
  (0x210A2, 0x86FD),
  (0x2113A, 0xE0D1),
  (0x2113C, 0xCC9F),
  (0x21157, 0xCC9F),
  (0x2115B, 0x87C1),
  (0x21170, 0xE0D0),
  (0x2117F, 0x8764),
  (0x211A1, 0xC6F0),
  (0x211BE, 0x83D7),
  (0x211C3, 0xD2D8),
  (0x211CA, 0xC6D4),
  (0x211E1, 0xC4BF),
  (0x211EA, 0xBDD1),
  (0x21215, 0xC8A6),
  (0x2122D, 0xD3FC),
  (0x21239, 0xE0F3),
  (0x21243, 0xDBDE),
  (0x21248, 0xD4DA),
  (0x2125B, 0xDBD9),
  (0x2125D, 0xBBF9),
  (0x2125F, 0xD7B3),
  (0x2126C, 0xDBE6),
  (0x212AE, 0xD4AC),
  (0x212BA, 0xD1F3),
  (0x212DD, 0x8889),
  (0x212F2, 0xD7F8),
  (0x21331, 0x89A5),
  (0x21369, 0xDBE5),
  (0x213A9, 0xB9A1),
  (0x213B0, 0xDCAF_888A_C55F),
  (0x213B9, 0x88B2),
  (0x21447, 0x88F1),
  (0x2144A, 0x88CA),
  (0x2144F, 0x89BB),
  (0x2145F, 0xCED1),
  (0x21462, 0xDCA6),
  (0x2148B, 0x89A7),
  (0x214A1, 0xFC8B),
  (0x214A3, 0x8983),
  (0x214B0, 0x8997),
  (0x21501, 0xC0DD),
  (0x2151B, 0xC8C9),
  (0x21578, 0xD9E7),
  (0x2157F, 0xD9E7),
  (0x21582, 0xD9E7),
  (0x21584, 0xCDE2),
  (0x21589, 0xC2D1_D9ED),
  (0x21596, 0xC7E4),
  (0x2159F, 0xF3A4),
  (0x215B7, 0xE2B9),
  (0x215CC, 0xE061),
  (0x215D5, 0xD2E0),
  (0x215DA, 0xC4D6),
  (0x215DD, 0xD2C4),
  (0x215E0, 0xC4DA),
  (0x215E8, 0x8A44),
  (0x21608, 0xBFDE),
  (0x2162B, 0xCEC8),
  (0x21637, 0xCCD7),
  (0x2165C, 0xB6E1),
  (0x2168C, 0xBDE1),
  (0x21690, 0x8A5D),
  (0x216A7, 0xE5FE),
  (0x216AE, 0x8A65_8BAD),
  (0x216B6, 0xCDFD),
  (0x216BA, 0x8A69),
  (0x216BC, 0x8AB8),
  (0x216BE, 0xE6AD),
  (0x216D0, 0x8A6F),
  (0x216E2, 0x8B46),
  (0x21704, 0x8B72),
  (0x21709, 0x8B76),
  (0x2171D, 0x8A9F),
  (0x21729, 0x8AA0),
  (0x21734, 0x8A7B),
  (0x21736, 0x8AA3),
  (0x2174A, 0x8AC0),
  (0x21769, 0xD1FD),
  (0x21791, 0x8ADD),
  (0x217A2, 0x8AC4),
  (0x217A4, 0x8BA7),
  (0x217A8, 0x8ABB),
  (0x217E6, 0xC4C8),
  (0x217F1, 0x8AAE),
  (0x21808, 0x8C43),
  (0x21810, 0xE6BF),
  (0x21814, 0x8B60),
  (0x2181B, 0x8A66_E6C6_8BA5),
  (0x2184D, 0x8B9F),
  (0x2184F, 0x8ABE),
  (0x21853, 0x8BC1),
  (0x21879, 0x8BB1),
  (0x2187F, 0xB5D5),
  (0x21883, 0x8BB8),
  (0x21889, 0x8BE7),
  (0x21893, 0xE6B4),
  (0x2189A, 0x8BA0),
  (0x218B2, 0x8BA8),
  (0x218B4, 0x8BBB),
  (0x218C3, 0x8B79),
  (0x218C6, 0xE5FC),
  (0x218CC, 0x8BB6),
  (0x218EB, 0x8BBA),
  (0x218F0, 0xE6CD_8BD6),
  (0x218F8, 0x8C40),
  (0x21900, 0x8A75),
  (0x2191A, 0xE6CE),
  (0x21925, 0x83A9),
  (0x2192F, 0xE6D0),
  (0x2193E, 0xCBEF_BFD7),
  (0x21946, 0xBAC3_D8C3),
  (0x2195B, 0xCAE2_D7D6),
  (0x21966, 0x8C54),
  (0x2197D, 0x8C56),
  (0x2198C, 0x8C59),
  (0x21997, 0xC8E6),
  (0x219CB, 0xC6B6),
  (0x219EA, 0xD5AC_E5B3),
  (0x219F1, 0xBAA6),
  (0x21A09, 0xBAC1),
  (0x21A1A, 0xD4A9),
  (0x21A1C, 0xBCC5),
  (0x21A20, 0xCEC8),
  (0x21A48, 0xC3E7),
  (0x21A7A, 0x8C8C),
  (0x21B2A, 0xC4CD),
  (0x21B3D, 0xD8E2),
  (0x21B5D, 0xC3D7_BCE2),
  (0x21B74, 0xCFB6),
  (0x21B90, 0xD0A1),
  (0x21BC1, 0x8CB6_8CB6),
  (0x21C29, 0xC1BC),
  (0x21C2C, 0xC9ED),
  (0x21C38, 0xE5EC),
  (0x21C46, 0xCAF4),
  (0x21C52, 0xB5EE),
  (0x21C5D, 0xCFAC),
  (0x21C91, 0xCABA),
  (0x21CA0, 0xC6C6),
  (0x21CA9, 0xC6A8),
  (0x21CEC, 0xC2AE),
  (0x21D41, 0xCEA3),
  (0x21D7C, 0xCCBF),
  (0x21D8F, 0xE1C8),
  (0x21D93, 0xD4C0),
  (0x21E20, 0xB2BA),
  (0x21E35, 0xE1BF),
  (0x21EA1, 0xD3AF),
  (0x21F14, 0xE1C7),
  (0x21F9C, 0xBBF4),
  (0x21FC1, 0xCEA1),
  (0x21FE7, 0xD4D6),
  (0x21FF7, 0xE7DF),
  (0x2200E, 0xBAD3),
  (0x22012, 0xBCBA),
  (0x2201A, 0xB9A4),
  (0x2203D, 0xC6F0),
  (0x22053, 0xF5B9),
  (0x2205B, 0xC9B1),
  (0x22074, 0xC04D),
  (0x22087, 0xB5DB),
  (0x22091, 0xCAC3),
  (0x220B4, 0xD6C4),
  (0x220C1, 0xB8F8),
  (0x220EA, 0x8EBA),
  (0x220F7, 0xC4B2),
  (0x22116, 0xD2EC),
  (0x2216D, 0xD273),
  (0x221D7, 0xCFC3),
  (0x221EB, 0xD283),
  (0x221EF, 0xB8AE),
  (0x2220E, 0xB9E3),
  (0x22256, 0xC2B9),
  (0x22259, 0xCAFC),
  (0x222BB, 0xC1C9),
  (0x222DB, 0xB1C7_CF4B),
  (0x22313, 0xC0AA),
  (0x22338, 0xDEC4),
  (0x22342, 0xB1C7),
  (0x22345, 0xDBBC),
  (0x2234E, 0xDABE),
  (0x22357, 0xD1D4),
  (0x2235C, 0xD7F0),
  (0x2236E, 0xCED7),
  (0x22376, 0xC2CE),
  (0x22381, 0xCEE4),
  (0x22387, 0xD4D6),
  (0x223AE, 0xD8B5),
  (0x223BA, 0xCFD2),
  (0x223D8, 0xF4E0),
  (0x223F1, 0xE5F4),
  (0x22405, 0xC8F5),
  (0x22413, 0xEFCF),
  (0x22437, 0x8F89),
  (0x22472, 0xD2CD),
  (0x22495, 0xD6EE),
  (0x2249B, 0xB1E4),
  (0x224A5, 0x814C),
  (0x224C9, 0xB7B5_E1E3),
  (0x224D8, 0xD9A1),
  (0x224DD, 0xD9AC),
  (0x224E0, 0x81EA),
  (0x224EC, 0x8260_E5D2),
  (0x224F6, 0xCDA8),
  (0x22500, 0xC7D6),
  (0x2250B, 0x8291),
  (0x2250D, 0xD9AB),
  (0x2251A, 0x8FCF),
  (0x22547, 0x82F6),
  (0x22555, 0x82F0),
  (0x2257E, 0xB1DC),
  (0x225B9, 0xC7C4),
  (0x225CC, 0xC5C2_D6BE),
  (0x22617, 0xB3BC),
  (0x22625, 0xCAD1),
  (0x2263B, 0xCFA4),
  (0x22649, 0xC4D5_EDA7),
  (0x22656, 0xCCF1),
  (0x22662, 0xBFD6),
  (0x22683, 0xC1D3),
  (0x22687, 0xBFF1),
  (0x22689, 0xBADE),
  (0x22690, 0xD3C6),
  (0x226B0, 0xC4D5),
  (0x226C2, 0xB5BF),
  (0x226C7, 0xF6C5),
  (0x226E7, 0xCEA9),
  (0x22725, 0x84F3),
  (0x2272A, 0xC8C7),
  (0x2273A, 0xB0A7),
  (0x22754, 0xE2FC),
  (0x22772, 0xB3EE),
  (0x22836, 0xBBBC),
  (0x22846, 0xBFD2),
  (0x22865, 0xC3F5),
  (0x2287D, 0xCFA7),
  (0x228A7, 0xF6C5),
  (0x228F6, 0xC1AF),
  (0x22903, 0xEDAB),
  (0x2292D, 0x91AC),
  (0x229A1, 0xB8D0),
  (0x229A9, 0xB3C9),
  (0x229D0, 0xD5BD),
  (0x229E3, 0x8C76),
  (0x229F5, 0xBDD8),
  (0x229F7, 0xDEE2),
  (0x229FE, 0xB3E3),
  (0x22A37, 0xCBF9),
  (0x22A4C, 0xBCE7),
  (0x22A66, 0x814D),
  (0x22A84, 0x92DB),
  (0x22AB4, 0xDED5),
  (0x22ABB, 0xB3D0),
  (0x22ABF, 0xB9BC),
  (0x22AE6, 0xC5C4),
  (0x22AFD, 0xD2D6_D6B8),
  (0x22B0C, 0xB0CE),
  (0x22B34, 0xC9E3),
  (0x22B38, 0xC0A8),
  (0x22B40, 0xD0FD),
  (0x22B43, 0xB6CC),
  (0x22B4D, 0xB4A7),
  (0x22BC7, 0xD2BE),
  (0x22BEA, 0xB2F0),
  (0x22C07, 0xB0A4),
  (0x22C4A, 0xC2D3),
  (0x22C73, 0xBBD3),
  (0x22C8E, 0xB0E1),
  (0x22C95, 0xDEF1),
  (0x22C9C, 0xE9BE),
  (0x22CB8, 0xC2B0),
  (0x22CBB, 0xB4E9),
  (0x22CC0, 0xC4A6),
  (0x22D03, 0x93FE),
  (0x22D23, 0xD4F6),
  (0x22D3F, 0xB5F4),
  (0x22D44, 0xB4EB),
  (0x22DFC, 0xB4EA),
  (0x22E05, 0xC5CA_C4A1),
  (0x22E6C, 0xD3B5),
  (0x22EF3, 0xB7F6),
  (0x22F1C, 0xC9E2),
  (0x22F86, 0xBFAB),
  (0x22F8D, 0xB0BD),
  (0x22F99, 0xD1EF),
  (0x22FB0, 0xBBD5),
  (0x22FBF, 0xE272),
  (0x22FE0, 0xFC8B),
  (0x2301A, 0xD9E7),
  (0x2308A, 0xECD9),
  (0x23095, 0xCBB9),
  (0x230A2, 0xB6CF),
  (0x230A6, 0xD8DE),
  (0x230BA, 0xD0C2),
  (0x230E6, 0xCEF0),
  (0x23101, 0xCADC),
  (0x23103, 0xC6EC),
  (0x23128, 0xB56F),
  (0x23133, 0xCEE8),
  (0x23140, 0xD6BC),
  (0x2314A, 0xB2FD),
  (0x2314E, 0xCEEE),
  (0x2315C, 0xBDD4),
  (0x23162, 0x958D),
  (0x2316F, 0xD6E7),
  (0x2317C, 0xD4E7),
  (0x2319C, 0xC3C1),
  (0x23206, 0xBDFA),
  (0x2320D, 0xB5FE),
  (0x232A3, 0xF4AA),
  (0x23351, 0x834B),
  (0x2335D, 0xD6DB),
  (0x2339C, 0xD4D0),
  (0x233C2, 0xC9B1),
  (0x233D0, 0xE8BC),
  (0x233DD, 0xD5ED),
  (0x233F9, 0xD4D6),
  (0x233FD, 0xC3B6),
  (0x2340C, 0xCAE1),
  (0x23415, 0x974A),
  (0x23431, 0xC8E1),
  (0x23436, 0xB9D5_B9D5),
  (0x2346D, 0xD5A4),
  (0x2346F, 0xCCD2),
  (0x23471, 0xC8BE),
  (0x2348F, 0xBDB7),
  (0x234C0, 0xE9BB),
  (0x23580, 0xB9A3),
  (0x235F3, 0xCAF7),
  (0x2361C, 0xF3D7),
  (0x23694, 0xF4AA),
  (0x23698, 0xCEFE),
  (0x236A6, 0x8F89),
  (0x236D8, 0xE9BF),
  (0x2370E, 0xC870),
  (0x23723, 0xE25C),
  (0x23725, 0xCFAD_B5BC),
  (0x237B5, 0xDDD8),
  (0x237F4, 0xE3C5),
  (0x23898, 0xC9EB),
  (0x2389C, 0xDFCF),
  (0x238B8, 0xBFEE),
  (0x238D3, 0xC7B7),
  (0x238FD, 0xC7D5),
  (0x2391A, 0xE186),
  (0x23948, 0xBBE1_E5EB),
  (0x2394D, 0xBDFC),
  (0x23957, 0xC9D9),
  (0x2397B, 0xDB6B),
  (0x2399E, 0xD9E7),
  (0x239A1, 0xB3F9_DC4B),
  (0x239B8, 0xCBC0),
  (0x239C0, 0xBAEB),
  (0x239E9, 0xD6D5),
  (0x23A0F, 0xE9E2),
  (0x23A3B, 0xCB5E),
  (0x23A44, 0xE4DB),
  (0x23A46, 0xDAA4_B8AF),
  (0x23A52, 0x82F3),
  (0x23A85, 0xC5B9_C9B1),
  (0x23A96, 0xC9B1),
  (0x23AA9, 0xC9B1),
  (0x23AED, 0xC3BF),
  (0x23AF9, 0xE7E9),
  (0x23B23, 0xF445),
  (0x23C5C, 0xEBB3),
  (0x23C6E, 0xC7E2),
  (0x23C75, 0xD3C0),
  (0x23C83, 0xE3E7),
  (0x23C94, 0xC6FC),
  (0x23C97, 0x9C91_9D8E),
  (0x23CA0, 0xCFAB),
  (0x23CB4, 0xB7D0),
  (0x23CDA, 0xC3BB),
  (0x23CE5, 0xB6C9),
  (0x23D11, 0xC1F7),
  (0x23D26, 0xE3FC),
  (0x23D29, 0xE4BA),
  (0x23D32, 0xD4A1),
  (0x23D34, 0xBAA3),
  (0x23D5E, 0xC8DC),
  (0x23D7D, 0xCED6),
  (0x23D7F, 0xCFD1),
  (0x23D81, 0xE4C0),
  (0x23D83, 0xB3B1),
  (0x23DDD, 0xBDBD),
  (0x23DEA, 0xCDF4),
  (0x23E15, 0xCBAE),
  (0x23E6B, 0xBBEB),
  (0x23E8C, 0xC3EC),
  (0x23EAF, 0xCAAA),
  (0x23F1C, 0xD1CD),
  (0x23F45, 0xBBEE),
  (0x23F48, 0xE5A6),
  (0x23F5E, 0x8591),
  (0x23F67, 0x8C83),
  (0x23F85, 0xE4D5),
  (0x23FD1, 0xB8DB),
  (0x2404A, 0xBBC1),
  (0x2404C, 0xB0C4),
  (0x24084, 0xB2E2),
  (0x24109, 0xE4AF),
  (0x2414C, 0xC5A8_E4EE),
  (0x2418C, 0xD1D7_B3E0_D4D6),
  (0x24190, 0xBEC4),
  (0x241B2, 0xD4D6),
  (0x241BD, 0x9EC0),
  (0x241E1, 0xD0FE),
  (0x241F4, 0xCEF5),
  (0x2422E, 0xD4D6),
  (0x24263, 0xD4D6),
  (0x242B7, 0xB1BA),
  (0x242BA, 0x9F54),
  (0x242CF, 0x9FD3),
  (0x242EE, 0xCEF5),
  (0x242F0, 0xD6FA),
  (0x243B9, 0xCEF5),
  (0x243C1, 0xCEF5),
  (0x243D0, 0xC0C3),
  (0x24424, 0xCEF5),
  (0x2442B, 0xC6B1),
  (0x2447E, 0xECDD),
  (0x244C8, 0xCBB8),
  (0x24522, 0xC9A6),
  (0x24553, 0xD2AF),
  (0x24555, 0xB0D6),
  (0x2457A, 0xBCB2),
  (0x245B2, 0xBFDD),
  (0x245CA, 0xEBBA_C5C6),
  (0x245F1, 0xEBBB),
  (0x24604, 0xEBB9),
  (0x24608, 0xD1C0),
  (0x24625, 0xEAF2),
  (0x24634, 0xC4C1),
  (0x24657, 0xB7BD),
  (0x24668, 0xCAF8),
  (0x2468C, 0xCFAC),
  (0x246B4, 0xC4B5),
  (0x24733, 0xCAA8),
  (0x2473D, 0xD876),
  (0x24751, 0xB7B8),
  (0x2477D, 0xD87C),
  (0x2477F, 0x84C1),
  (0x247C4, 0xC7BB),
  (0x247CB, 0xBDC6),
  (0x247D4, 0xE2EA),
  (0x247D7, 0xD4B3),
  (0x247E7, 0xDDDF),
  (0x24815, 0xD0F3),
  (0x2483E, 0xD88C),
  (0x24846, 0xD871),
  (0x2486C, 0xD873),
  (0x2489A, 0xCADE),
  (0x2489C, 0xB6C0),
  (0x248CA, 0xE1EE),
  (0x248F5, 0xBEC1),
  (0x24908, 0xBAF7),
  (0x2497F, 0xCE64),
  (0x249A6, 0xB0E0),
  (0x249B3, 0xE7F5),
  (0x249F0, 0xC5FD),
  (0x249F2, 0xC5C3),
  (0x24A14, 0xBBB7),
  (0x24A40, 0xC9BA),
  (0x24AE9, 0xC1E1),
  (0x24B17, 0xF0AD),
  (0x24B21, 0xC6B0),
  (0x24B2E, 0xC6BF),
  (0x24B5B, 0x88D5),
  (0x24B79, 0xB0BB),
  (0x24B9B, 0xDBD4),
  (0x24BD3, 0xC9FA_C8CB),
  (0x24BDB, 0xF3CF),
  (0x24BF3, 0xAE64),
  (0x24BF7, 0xC88F),
  (0x24C06, 0xD3C3),
  (0x24C1E, 0xB1B0),
  (0x24C34, 0xCDFE_CEB7_C9EA),
  (0x24C65, 0xEEB3),
  (0x24C71, 0xD4D8),
  (0x24C95, 0x88C0),
  (0x24C99, 0xDBCE),
  (0x24C9C, 0xB1CF),
  (0x24DC2, 0xF0F2),
  (0x24DD0, 0xC3A4),
  (0x24DE0, 0xF0F6),
  (0x24E06, 0xF0F4),
  (0x24E0B, 0xBDEA),
  (0x24E1F, 0xD6CC),
  (0x24E8A, 0xCBBB),
  (0x24EE8, 0xBBBE),
  (0x24EF2, 0xC1C6),
  (0x24F29, 0xB9EF_B5C7),
  (0x24F32, 0xB06C),
  (0x24F35, 0xB06C),
  (0x24F37, 0xB5C7),
  (0x24F50, 0xC6C8),
  (0x25022, 0xFC8B),
  (0x25039, 0xF5C2),
  (0x25044, 0xD3DB),
  (0x25049, 0xEEC2),
  (0x2506A, 0xC3CF),
  (0x25070, 0xC3CB),
  (0x2507A, 0xE161),
  (0x250AF, 0xDDCF),
  (0x250E9, 0xD1DB),
  (0x250F3, 0xEDEC),
  (0x2510C, 0xB242),
  (0x25122, 0xCFE0),
  (0x2516D, 0xCAD3),
  (0x25171, 0xCAA1),
  (0x251E1, 0xB247),
  (0x25205, 0xEC74),
  (0x25228, 0xB24C),
  (0x252BC, 0xEEAA),
  (0x252CD, 0xCBAF),
  (0x25312, 0xEEAD),
  (0x2531D, 0xEEA9),
  (0x2533A, 0xB287),
  (0x2536F, 0xEFD4),
  (0x2537F, 0xB6DC),
  (0x25384, 0xC7B9),
  (0x253BF, 0xD6AA),
  (0x253F5, 0xC1F6),
  (0x25417, 0xEDBE),
  (0x2543A, 0xEDC6),
  (0x2544A, 0xC4EB),
  (0x254CB, 0xD1D0),
  (0x254CF, 0xDCA4),
  (0x254D3, 0xB1AE),
  (0x25510, 0xBFC4),
  (0x25553, 0xC4AE),
  (0x2555A, 0xDCFD),
  (0x25566, 0xEDDE),
  (0x25571, 0xC5F0),
  (0x25574, 0xC0F9),
  (0x255F7, 0xD5B7),
  (0x25614, 0xD4D6),
  (0x25616, 0xCDB7),
  (0x25621, 0xB56F),
  (0x2564A, 0xBCC0),
  (0x2564D, 0xC9F1),
  (0x256DC, 0xD7E6),
  (0x25731, 0xCBEE),
  (0x25750, 0xB1FC),
  (0x25757, 0xDCBB),
  (0x25762, 0xC0FB),
  (0x25777, 0xB8FB),
  (0x257AB, 0xCAF2),
  (0x2583C, 0xC7D8),
  (0x25877, 0xCEC8),
  (0x25893, 0xCADA),
  (0x2592F, 0xBEBF),
  (0x2593E, 0xC7CF_B840),
  (0x25949, 0xE1B6),
  (0x25963, 0xD4AB),
  (0x2598E, 0xB1F6),
  (0x2599C, 0xDCA1),
  (0x259BD, 0x8C81),
  (0x259CA, 0xDCA5),
  (0x259E2, 0xBF5E),
  (0x259E8, 0xB1F6),
  (0x25A12, 0xB4DC),
  (0x25A50, 0xF1BC),
  (0x25A60, 0xD5BE),
  (0x25A73, 0xB4FD),
  (0x25AE1, 0xF3C4),
  (0x25B16, 0xC6A4),
  (0x25B30, 0xB2E1),
  (0x25B8F, 0xB5E4),
  (0x25BD2, 0xD4D4),
  (0x25CE6, 0xCBF1),
  (0x25D8E, 0xDDCF),
  (0x25D9E, 0x8BF9),
  (0x25DDF, 0xDDCF),
  (0x25E4E, 0xBB7B),
  (0x25E6A, 0xF4D6),
  (0x25E9E, 0xD6E0),
  (0x25EC6, 0xCBDA),
  (0x25ED5, 0xF4D6),
  (0x25F3E, 0xF4D6),
  (0x25F86, 0xBEC0),
  (0x25F91, 0xB4BF),
  (0x25FA0, 0xC8D2_D1A4),
  (0x25FA8, 0xE6FC),
  (0x25FBA, 0xD7DD),
  (0x25FC9, 0xCDE0),
  (0x25FCC, 0xD089),
  (0x25FD1, 0xC2DA),
  (0x25FD3, 0xBCCD),
  (0x25FF3, 0xCFB8),
  (0x26007, 0xBEAD),
  (0x26012, 0x83DB),
  (0x2601F, 0xC9B4),
  (0x26065, 0xEDE9),
  (0x260B2, 0xEDE9_BDF4),
  (0x260B5, 0xD7DD_E7B2),
  (0x260C5, 0xC2E7),
  (0x260E7, 0xB1CC),
  (0x260F0, 0xC9FE),
  (0x26132, 0xCBF5),
  (0x2614D, 0xE7D0),
  (0x26167, 0xEDE9),
  (0x26196, 0xE7D4),
  (0x261AB, 0xB0F3),
  (0x261C4, 0xC0DC),
  (0x261DA, 0xD2CD),
  (0x261FB, 0xBBBA),
  (0x26247, 0xC6BF),
  (0x262B0, 0xC15C),
  (0x262C0, 0xC15C),
  (0x262DA, 0xD5D6),
  (0x262E7, 0xCAF0),
  (0x26304, 0xC15C),
  (0x26310, 0xEEBE),
  (0x26334, 0xC2DE),
  (0x26336, 0xC15C),
  (0x2633E, 0xC15C_F5A7),
  (0x26343, 0xC15C),
  (0x26346, 0xC15C),
  (0x2635B, 0xC16B),
  (0x2638B, 0xF5F4),
  (0x263A4, 0xF7B7),
  (0x263C1, 0xF4CB),
  (0x263E0, 0xB8E1),
  (0x263F2, 0xD3F0),
  (0x2641C, 0xB4E4),
  (0x2642C, 0xF4E2),
  (0x2644A, 0xECBA),
  (0x26474, 0xCE97),
  (0x2648B, 0xBAB2),
  (0x264A1, 0xB0BF_B0BF),
  (0x264B1, 0xBFBC),
  (0x264BF, 0xEAC8),
  (0x264D4, 0xD0E8),
  (0x26515, 0x88EE),
  (0x2657C, 0xC1C4),
  (0x265F7, 0xF1FA),
  (0x2661F, 0xD5D8),
  (0x2663B, 0xEBC1),
  (0x2665B, 0xEBC6),
  (0x26669, 0xEBC8),
  (0x2666D, 0xCCDB),
  (0x26675, 0xCDF3_B9C9),
  (0x266C1, 0xC4D4),
  (0x26709, 0xC6A2),
  (0x26721, 0xD6CB),
  (0x26736, 0xB0F2),
  (0x26769, 0xCEB8),
  (0x2676B, 0xD1FC),
  (0x2676D, 0xC0E0),
  (0x267A4, 0xD8B6),
  (0x267A7, 0xC1F6),
  (0x267AC, 0xEBEC),
  (0x267B5, 0xBBA9),
  (0x267DD, 0xBCB9),
  (0x267E6, 0xC4A4),
  (0x267EF, 0xC0DF),
  (0x267F3, 0xF5B6),
  (0x2681D, 0xC1F6),
  (0x268DE, 0xD2C3),
  (0x268EE, 0xB9C2),
  (0x268FA, 0xB0D7),
  (0x26900, 0xB3F4),
  (0x26903, 0xBBCA),
  (0x26906, 0xEB85),
  (0x2690C, 0xF4DF),
  (0x26913, 0xB1C7),
  (0x26933, 0xD6C1),
  (0x2693F, 0xCEDD),
  (0x26946, 0xCED5_D5E9),
  (0x26951, 0x84FB),
  (0x26959, 0xD2B7),
  (0x2695D, 0xD2A8),
  (0x26967, 0xB1E1),
  (0x2699A, 0xD2FA),
  (0x269B6, 0xC8C0),
  (0x269CA, 0xCBB1),
  (0x26A31, 0xBDF2),
  (0x26A85, 0xCDA7),
  (0x26ADC, 0xDA56),
  (0x26B0A, 0xDCBB),
  (0x26B21, 0xDDCD),
  (0x26B3C, 0xCB6E),
  (0x26B42, 0xDDD1),
  (0x26B82, 0xDDE9),
  (0x26B8F, 0xB4CE),
  (0x26BBF, 0xC881),
  (0x26BD3, 0xDDCF),
  (0x26BED, 0xC68F),
  (0x26BF1, 0xC68F),
  (0x26BF8, 0xDCBB),
  (0x26C52, 0xDCD9),
  (0x26C54, 0xB1CD),
  (0x26C64, 0xC4AA),
  (0x26CAD, 0xDDDD),
  (0x26CCB, 0xC6EA),
  (0x26CCE, 0xDDCF),
  (0x26CDD, 0xCB54),
  (0x26CE4, 0xCB91),
  (0x26CF2, 0xC88D_DDE8),
  (0x26D2B, 0xC94E),
  (0x26D2D, 0xC3EA),
  (0x26D54, 0xDDCF),
  (0x26D87, 0xBF5E),
  (0x26D96, 0xCC7B),
  (0x26D9C, 0xC68F),
  (0x26DAC, 0xC89A),
  (0x26DDB, 0x82F5),
  (0x26DF2, 0xC96A),
  (0x26E00, 0xCB73),
  (0x26E06, 0xDCBB),
  (0x26E0B, 0xCA47),
  (0x26E0E, 0xDDAA),
  (0x26E2D, 0xC695),
  (0x26E2F, 0xDDB7),
  (0x26E32, 0xC5BA_DDEA),
  (0x26E4A, 0xC695),
  (0x26E88, 0xDDA5),
  (0x26E92, 0xC98B),
  (0x26E95, 0xCC6C),
  (0x26E9D, 0xCB66),
  (0x26EB3, 0xDEB2),
  (0x26EC2, 0xCB56_DDC8),
  (0x26EE5, 0xB7C6_CCD1),
  (0x26F0D, 0xDDB8),
  (0x26F2C, 0xDDCF),
  (0x26F30, 0xCB7E),
  (0x26F48, 0xDDB5),
  (0x26F5D, 0xC97A),
  (0x26F60, 0xCA54),
  (0x26F67, 0xDDAC),
  (0x26F69, 0xC8E0),
  (0x26F77, 0xC885),
  (0x26F94, 0xBEC9),
  (0x26FAA, 0xD9E7),
  (0x26FAF, 0xC78A),
  (0x26FB1, 0xB3AD),
  (0x26FB4, 0xDEC0),
  (0x26FB7, 0xDEA4),
  (0x26FC8, 0xCC67),
  (0x26FD8, 0xDDCF),
  (0x26FE0, 0xC966_CB77),
  (0x26FE6, 0xCC6E),
  (0x27009, 0xD4E5),
  (0x2701B, 0xCB8D),
  (0x27026, 0xC99D),
  (0x2703D, 0xDDCF_CA83),
  (0x2704E, 0xD9E7),
  (0x27055, 0xC991),
  (0x27084, 0xDDCC),
  (0x27087, 0xDDA1),
  (0x2708A, 0xDEAF),
  (0x27090, 0xBBFD),
  (0x27099, 0xCA93_DDCF),
  (0x270B0, 0xDDA3_DEA7_BED5_CA73),
  (0x270C8, 0xBED5),
  (0x270CD, 0xD9E7),
  (0x270D3, 0xBED5),
  (0x270DC, 0xCB7D),
  (0x270F0, 0xD9E7),
  (0x27116, 0xCA45_DDCF),
  (0x27137, 0xCC88),
  (0x27141, 0xCB4B),
  (0x27149, 0xCB95),
  (0x2714F, 0xDEBC),
  (0x2715B, 0xCB79_CC43_C998),
  (0x27188, 0xCB84),
  (0x2718A, 0xCC8B),
  (0x27191, 0xDEBD),
  (0x271C1, 0xF2AE),
  (0x271C3, 0xCC9E),
  (0x271C7, 0xCC91),
  (0x271D0, 0xCCA0_CC99),
  (0x27205, 0xCC9F),
  (0x2720B, 0xDDCB),
  (0x27220, 0xD4E9),
  (0x27227, 0xCBE4),
  (0x2722C, 0xBAE7),
  (0x27265, 0xB1B1),
  (0x27275, 0xCD4C),
  (0x27286, 0xCD6B),
  (0x2728D, 0xCD58),
  (0x27296, 0xCF64),
  (0x2729B, 0xCD6D),
  (0x272A1, 0xF2CB_CD6C),
  (0x272A4, 0xF2E6),
  (0x272A7, 0xB8F2),
  (0x272AE, 0xCD8B),
  (0x272B0, 0xCD7E),
  (0x272D9, 0xCF5A),
  (0x27312, 0xF2E2),
  (0x27332, 0xD6A9),
  (0x27337, 0xCE88),
  (0x2733F, 0xCE5A),
  (0x27353, 0xF3B0),
  (0x27357, 0xCF9A_F2CA),
  (0x2735B, 0xD3BC),
  (0x27367, 0xCE8B),
  (0x27371, 0xCF48),
  (0x2737D, 0xCE95),
  (0x2737F, 0xF2D1_F2E1_F2BB_CFBA),
  (0x27397, 0xF2F2),
  (0x273A9, 0xCD45),
  (0x273C5, 0xF3A7),
  (0x273CD, 0xF2CF),
  (0x273CF, 0xC7F9),
  (0x273D5, 0xCE92),
  (0x273E9, 0xCE9A),
  (0x273F8, 0xCF44),
  (0x27400, 0xD04C),
  (0x27404, 0xCF4C),
  (0x27407, 0xCF47),
  (0x27409, 0xD6A9),
  (0x2741A, 0xCF56_F2F3),
  (0x2742E, 0xCF4D),
  (0x27433, 0xCF46),
  (0x27446, 0xCE75),
  (0x27463, 0xF2CD),
  (0x27468, 0xCD89),
  (0x27494, 0xCD8F),
  (0x274A6, 0xD5DD),
  (0x274AA, 0xCE65),
  (0x274BC, 0xCF84),
  (0x274BE, 0xCF7D),
  (0x274C9, 0xF2D3),
  (0x274CC, 0xD3A9),
  (0x274CE, 0xCE93),
  (0x274D2, 0xF2BE),
  (0x274DB, 0xF3A8),
  (0x274F1, 0xCE69),
  (0x274F3, 0xF2CE),
  (0x27508, 0xEEC3),
  (0x27518, 0xCF8D),
  (0x2752B, 0xCE50),
  (0x27549, 0xCE89),
  (0x2754E, 0xCF4A),
  (0x27550, 0xF3A9),
  (0x27573, 0xD9F9),
  (0x2757E, 0xCF98),
  (0x27580, 0xD058),
  (0x2758B, 0xCF72),
  (0x27599, 0xF2B9_F2DD),
  (0x275AD, 0xD059),
  (0x275AF, 0xD05B),
  (0x275CE, 0xDDCF),
  (0x275D7, 0xF4AC_DDCF_D061),
  (0x275E1, 0xD062),
  (0x275F3, 0xD066),
  (0x27602, 0xD06E),
  (0x27623, 0xD14E_D09D),
  (0x2762D, 0xF4C0),
  (0x27637, 0xD07C),
  (0x2764A, 0xD150),
  (0x2765F, 0xD09A),
  (0x27665, 0xD274),
  (0x27669, 0xC1D1_D191),
  (0x27688, 0xD177),
  (0x2768C, 0xD7B0_F4C3),
  (0x2769B, 0xD174_F1DD_B2C3),
  (0x276BA, 0xD1A0),
  (0x276D6, 0xD074),
  (0x276E0, 0xD15C_D249_EDE9),
  (0x27737, 0xD245),
  (0x27744, 0xF1E0),
  (0x27749, 0xEDE9),
  (0x27750, 0xD17B),
  (0x27775, 0xD181),
  (0x2777A, 0xD9F3),
  (0x27796, 0xD183),
  (0x277AB, 0xD156),
  (0x277B2, 0xD26E),
  (0x277B7, 0xD19C_D260),
  (0x277CA, 0xD271),
  (0x277CE, 0xD26C),
  (0x277D0, 0xD27D),
  (0x277D2, 0xD261),
  (0x277D4, 0xD247),
  (0x277D9, 0xD087),
  (0x277F6, 0xB0D4),
  (0x27811, 0xD291),
  (0x27828, 0xD29A),
  (0x27877, 0xD29D),
  (0x2789A, 0xEAEE),
  (0x278A2, 0xB287),
  (0x278AE, 0xB297),
  (0x278B1, 0xD0D4),
  (0x278C2, 0xD36D),
  (0x2790C, 0xD375),
  (0x27931, 0xD371),
  (0x27955, 0xCF60),
  (0x27966, 0xD392),
  (0x27973, 0xCAAB),
  (0x27976, 0xDABF_C6FD),
  (0x2797A, 0xD9EA),
  (0x2797D, 0xD582_CAB6),
  (0x27992, 0xDAAE),
  (0x27998, 0xD573),
  (0x279AB, 0xDAB1),
  (0x279BD, 0xD5EF_BEF7),
  (0x279CF, 0xDFF6),
  (0x279E1, 0xCBCF),
  (0x279E7, 0xEEBA),
  (0x279F2, 0xD465),
  (0x279FF, 0xBDCC),
  (0x27A0F, 0xD2EA),
  (0x27A1B, 0xD48B),
  (0x27A1D, 0xD79C_D66C),
  (0x27A23, 0xDAAB),
  (0x27A28, 0xDAD7),
  (0x27A2C, 0xD57C_BCE0),
  (0x27A3D, 0xD463),
  (0x27A40, 0xD696),
  (0x27A42, 0xB0F9),
  (0x27A50, 0xD592),
  (0x27A5B, 0xD1AF),
  (0x27A60, 0xB7ED),
  (0x27A6A, 0xD681),
  (0x27A7B, 0xDAC1),
  (0x27A7D, 0xD7BB),
  (0x27A9F, 0xD577),
  (0x27AAE, 0xD67E),
  (0x27AB3, 0xD64C),
  (0x27AE0, 0xD583),
  (0x27AE7, 0xDACF),
  (0x27AEA, 0xDACA),
  (0x27AF8, 0xD476),
  (0x27B03, 0xD6A0_D0BB),
  (0x27B0C, 0xD650_DAD8),
  (0x27B13, 0xD695),
  (0x27B21, 0xD585),
  (0x27B2D, 0xD5A0),
  (0x27B2F, 0xE5C0),
  (0x27B33, 0xD2EB),
  (0x27B58, 0xC6D7),
  (0x27B64, 0xD663),
  (0x27B74, 0xD758),
  (0x27B90, 0xD78D),
  (0x27B9B, 0xD682),
  (0x27BA3, 0xD565),
  (0x27BA9, 0xD480),
  (0x27BAE, 0xDAE4_D841_D845),
  (0x27BB7, 0xD843),
  (0x27BCB, 0xD842),
  (0x27BDB, 0x89D4),
  (0x27BE0, 0x8472_CDE3),
  (0x27BED, 0xD84F),
  (0x27BFF, 0xDCB1),
  (0x27C42, 0xD86F),
  (0x27C4F, 0xD85B),
  (0x27C51, 0xD861),
  (0x27C5A, 0xD85D),
  (0x27C5F, 0xD863),
  (0x27C71, 0xD864),
  (0x27C74, 0xAA75),
  (0x27C80, 0xD85D),
  (0x27C8F, 0xD868_D86D),
  (0x27CA8, 0xD85D),
  (0x27CB2, 0xBAFC),
  (0x27CC7, 0xBAD1),
  (0x27CD4, 0xD87D),
  (0x27CE0, 0xD884),
  (0x27CED, 0xCE7A),
  (0x27CF2, 0xD887),
  (0x27D39, 0xEADB),
  (0x27D44, 0xCD56_CD4D),
  (0x27D47, 0xD950),
  (0x27D4E, 0xBCD6),
  (0x27D69, 0xD4F0_D4F4),
  (0x27D6E, 0xEADC),
  (0x27D85, 0xBBDF),
  (0x27D99, 0xB1B3),
  (0x27D9B, 0xEAE3),
  (0x27D9E, 0xCE44),
  (0x27DA1, 0xE5B5),
  (0x27DB4, 0xB6C4),
  (0x27DB6, 0xB7B7),
  (0x27DBB, 0xC3B3),
  (0x27DBD, 0xB4CD),
  (0x27DC9, 0xD96F),
  (0x27DD5, 0xD7CA),
  (0x27DE0, 0xDA4B),
  (0x27DE4, 0xD8D3),
  (0x27DFC, 0xD999),
  (0x27E03, 0xD2C5),
  (0x27E06, 0xD7B8),
  (0x27E0A, 0xB9BA),
  (0x27E11, 0xD4F9),
  (0x27E16, 0xD7AC),
  (0x27E18, 0xD99C),
  (0x27E1A, 0xC2B8),
  (0x27E2F, 0xD2C5),
  (0x27E37, 0xDA47),
  (0x27E3D, 0xD2C5),
  (0x27E52, 0xC2F2),
  (0x27E5E, 0xF4F6),
  (0x27E79, 0xB3E3),
  (0x27E87, 0xF4F1),
  (0x27EAB, 0xC6F0),
  (0x27ECE, 0xDA68),
  (0x27EDB, 0xDA5E),
  (0x27EEF, 0xDA62),
  (0x27EFB, 0xDA75),
  (0x27F62, 0xB2AB),
  (0x27F92, 0xDA65),
  (0x27F9F, 0xDA8C),
  (0x27FA2, 0xD3E3),
  (0x27FC1, 0xEBBE),
  (0x27FC4, 0xDB61),
  (0x27FD6, 0xF5BC),
  (0x27FDB, 0xD7D9),
  (0x27FF6, 0xF5C9),
  (0x27FFA, 0xDA6B),
  (0x28013, 0xC5DC),
  (0x2801F, 0xF5E2),
  (0x28040, 0xDB53),
  (0x28048, 0xDE86),
  (0x2807B, 0xF5DE),
  (0x280A7, 0xDC4A),
  (0x280AB, 0xDA97),
  (0x280DD, 0xDB54),
  (0x280DF, 0xF5E7),
  (0x280E1, 0xF5D5),
  (0x28103, 0xF5EE),
  (0x28119, 0xDB52),
  (0x2814C, 0x85C5),
  (0x28162, 0xDC40),
  (0x28175, 0xCCA4_D4EA),
  (0x2818D, 0xF5F1),
  (0x281AE, 0xDB65_F5EB),
  (0x281B2, 0xCEC8),
  (0x281CB, 0xDB88),
  (0x281DA, 0xDB9D),
  (0x281E5, 0xE5BF),
  (0x281E8, 0xDC61),
  (0x281F1, 0xF5E4),
  (0x281F3, 0xF5ED),
  (0x2822C, 0xC7FB),
  (0x28235, 0xF5CB),
  (0x2823B, 0xD7D4),
  (0x28246, 0xB4E0_D4D6),
  (0x28257, 0xDC86),
  (0x28289, 0xB4E0),
  (0x282A0, 0xDC8F),
  (0x282AF, 0xDC94),
  (0x282B5, 0xDD40_DD50),
  (0x282BA, 0xDD44),
  (0x282BE, 0xE9FE),
  (0x282CF, 0xE9F4),
  (0x282E9, 0xDD95),
  (0x282FB, 0x86CB_CED3),
  (0x28302, 0xDC9C),
  (0x28307, 0xD6E1),
  (0x28323, 0xDC98),
  (0x2832E, 0xDD42_DD68),
  (0x2834B, 0xDD7B),
  (0x2836C, 0xDD9F),
  (0x28373, 0xE9F7),
  (0x2837B, 0xE9FD),
  (0x28385, 0xDD88),
  (0x2838A, 0xB9F5),
  (0x28395, 0xDE52),
  (0x283A6, 0xDE42),
  (0x283A8, 0xDE4D_DD5F_DD5B),
  (0x283B2, 0xE9FB),
  (0x283CA, 0xDE59),
  (0x283CF, 0xEAA5),
  (0x283D1, 0xE9F9),
  (0x283D4, 0xEAA4),
  (0x283D9, 0xDE53),
  (0x283E3, 0xD5DE),
  (0x2840C, 0xD0C1),
  (0x2842B, 0xC6A9),
  (0x2844D, 0xB9EC),
  (0x28450, 0xC6F9),
  (0x28453, 0xC6F0_C6F0),
  (0x28456, 0xC6F0),
  (0x2845E, 0xDE84),
  (0x28466, 0xD0EC),
  (0x28477, 0xD1B8),
  (0x2848E, 0xE5D7),
  (0x284A6, 0xD3AD),
  (0x284B2, 0xC3D4),
  (0x284C6, 0xCDCB),
  (0x284CC, 0xD4D6),
  (0x284D8, 0xDE9C),
  (0x284DC, 0xD2DD),
  (0x284E7, 0xD2A3),
  (0x284EC, 0xDF65),
  (0x284F5, 0xCBCD),
  (0x2851C, 0xDE98),
  (0x28524, 0xDF6F),
  (0x2852A, 0xD4CB),
  (0x2855D, 0xE5CD),
  (0x28589, 0xE5E0),
  (0x2859D, 0xF6AA),
  (0x285A5, 0xD5DA),
  (0x285BD, 0xD2C5),
  (0x285C0, 0xDF48),
  (0x285D2, 0xF6AA),
  (0x285D4, 0xD2C5_D7F1),
  (0x285DD, 0xDF79),
  (0x285E0, 0xF6AA),
  (0x285ED, 0xD2C5_D2C5_E5DB),
  (0x285F9, 0xB5D1),
  (0x28611, 0xC1AC),
  (0x28624, 0xD2C5),
  (0x2862B, 0xE5D3),
  (0x28636, 0xE5CE_E5E3),
  (0x28645, 0xDF87),
  (0x28655, 0xE5D5),
  (0x2865A, 0xC2F5),
  (0x2867C, 0xDBAB),
  (0x28682, 0xDF92),
  (0x2868A, 0xDF98),
  (0x2868F, 0xDBA1),
  (0x28693, 0xE08A),
  (0x286A0, 0xBAAA),
  (0x286A8, 0xE043),
  (0x286AC, 0xC7F1),
  (0x286C4, 0xD7DE),
  (0x286E6, 0xBFA4),
  (0x286EB, 0xC0E8),
  (0x286F7, 0xB6BC_E082),
  (0x28725, 0xDBAA_E051),
  (0x2872E, 0xC7E4),
  (0x28739, 0xE04B),
  (0x28741, 0xDBA8),
  (0x28765, 0xC0C9),
  (0x2876C, 0xE086),
  (0x2876E, 0xDBB8),
  (0x28776, 0xE074),
  (0x28782, 0xE0A0),
  (0x28784, 0xD3CA_E064),
  (0x28787, 0xDBB0),
  (0x28789, 0xDBB2),
  (0x2878F, 0xB5A6),
  (0x28796, 0xDBB9),
  (0x287A1, 0xDBA6),
  (0x287AF, 0xE096),
  (0x287B3, 0xD8E6),
  (0x287B5, 0xE08E),
  (0x287BC, 0xE084),
  (0x287C0, 0xC0E8),
  (0x287CC, 0xE089),
  (0x287CE, 0xE140),
  (0x287D5, 0xE074),
  (0x287F4, 0xE153),
  (0x287F7, 0xF5AC),
  (0x287FB, 0xBDB4),
  (0x28801, 0xE147_F5AD),
  (0x2880F, 0xF5AE),
  (0x28815, 0xE16B),
  (0x28817, 0xE16C),
  (0x28820, 0xD0D1),
  (0x2882A, 0xD7ED),
  (0x28845, 0xC3D1),
  (0x28860, 0xF5AF),
  (0x28869, 0xE177),
  (0x28880, 0xBDCD),
  (0x2889A, 0xE169),
  (0x288A9, 0xF5FC),
  (0x288AC, 0xF5A9_CBD6),
  (0x288BD, 0xCBE1_E17D),
  (0x288CB, 0xB4D7),
  (0x288E0, 0xE179),
  (0x28907, 0xE167),
  (0x28909, 0xE178),
  (0x2890C, 0xE176_E181),
  (0x28913, 0xBEEC),
  (0x2894A, 0xE24D),
  (0x2894C, 0xE372_F6C6),
  (0x2894F, 0xB8AA),
  (0x28969, 0xEED4),
  (0x28979, 0xE345),
  (0x2897B, 0xE266),
  (0x2899F, 0xB7E6),
  (0x289AD, 0xEFA9),
  (0x289B0, 0xE742),
  (0x289B2, 0xE35D),
  (0x289E6, 0xE49A),
  (0x289E9, 0xE77C),
  (0x289EB, 0x8481),
  (0x289F2, 0xE645),
  (0x289F4, 0xE573),
  (0x28A37, 0xE584),
  (0x28A3B, 0xE76B),
  (0x28A89, 0xE58D),
  (0x28A8E, 0xE79F),
  (0x28A90, 0xEED7),
  (0x28A93, 0xE599),
  (0x28ACF, 0xE473_E387),
  (0x28AD8, 0xEFC9),
  (0x28AFC, 0xF6CB_EEFC),
  (0x28B10, 0xEFE3),
  (0x28B5B, 0xE94A_EFDC_EFA1_E6A0),
  (0x28B7C, 0xC1CD),
  (0x28B93, 0xEFE4_E560),
  (0x28BAB, 0xE85B),
  (0x28BDF, 0xEFEC),
  (0x28BE1, 0xE858),
  (0x28C0C, 0xE59D),
  (0x28C24, 0xEEE5),
  (0x28CB4, 0xDA40),
  (0x28CF5, 0xE96F),
  (0x28CFE, 0xB576),
  (0x28D01, 0xB2FB),
  (0x28D14, 0xEA56),
  (0x28D41, 0xD1D6),
  (0x28D77, 0xE3D1),
  (0x28D9D, 0xDBD3),
  (0x28DF7, 0xC3F6),
  (0x28E0F, 0xB8B7),
  (0x28E18, 0xC8EE),
  (0x28E1D, 0xCACF),
  (0x28E42, 0x888F),
  (0x28E4A, 0xEA83),
  (0x28E4E, 0xCFDE),
  (0x28E5F, 0xC2AA),
  (0x28E76, 0xEB59_EB59),
  (0x28EA8, 0xB6F5),
  (0x28EB5, 0xB6D3),
  (0x28ED5, 0xEB59),
  (0x28EF6, 0xCFB6),
  (0x28F11, 0x8893),
  (0x28F4D, 0xD84B),
  (0x28F58, 0xEB59),
  (0x28F80, 0xC1A5),
  (0x28FA5, 0xF0C4),
  (0x28FF3, 0xD3A5),
  (0x2900C, 0xC0EB),
  (0x29015, 0xF6C5),
  (0x29018, 0xF0CE),
  (0x29021, 0xC4D1),
  (0x29050, 0xF0D8),
  (0x290EC, 0xD2F5),
  (0x2911F, 0xB0A8),
  (0x2912B, 0xF6AA),
  (0x29145, 0xE4E8),
  (0x29147, 0xC99E),
  (0x2915F, 0xB1A2),
  (0x29186, 0xF6AA),
  (0x29242, 0xD8CC),
  (0x2926A, 0xBF5E),
  (0x2927C, 0xC9F0),
  (0x29293, 0xE392),
  (0x292A6, 0xE1F7),
  (0x292B3, 0xB9AE),
  (0x292BF, 0xF4AA),
  (0x292CE, 0xBEF3),
  (0x292F0, 0xE6FB),
  (0x2933B, 0xB1DE),
  (0x29346, 0xF4AA),
  (0x29359, 0xDE51),
  (0x2940A, 0xECB4),
  (0x2942D, 0xDAC5),
  (0x2944B, 0xD2B3),
  (0x2947C, 0xC6C4),
  (0x29486, 0xB6A5),
  (0x29491, 0xBFF4),
  (0x2949B, 0xC6DD),
  (0x294B5, 0xC7EA),
  (0x294CB, 0xC0B5),
  (0x294EB, 0xD36A),
  (0x29516, 0xC0E0),
  (0x2951A, 0xCECC),
  (0x2951C, 0xCBCC),
  (0x29530, 0xCFD4),
  (0x2953A, 0xC2AD),
  (0x29553, 0xD4A4),
  (0x2958E, 0xDEB0),
  (0x29593, 0xF2AD),
  (0x295CB, 0xB7AB),
  (0x295D7, 0xECAB),
  (0x2964E, 0xD9D0),
  (0x29681, 0xCAB3),
  (0x2968A, 0xE2BD),
  (0x2968E, 0xBCA2_E2B8),
  (0x296B7, 0xC1A3),
  (0x296CA, 0xB1A5),
  (0x296DD, 0xF5AA),
  (0x2970B, 0xE2C3),
  (0x29719, 0xC8C4),
  (0x2972F, 0xE2C8),
  (0x29759, 0xCAC8),
  (0x297B9, 0xF7D0),
  (0x29810, 0xCAD7),
  (0x2982E, 0xD9E7),
  (0x29839, 0x8496),
  (0x29851, 0xF0A5),
  (0x29888, 0xF168),
  (0x298CE, 0xF168),
  (0x2991D, 0xE6F0),
  (0x299A6, 0xF376),
  (0x299BC, 0xC2E6),
  (0x299D9, 0xE6F4),
  (0x299E2, 0xB3D2),
  (0x29A23, 0xB7BE),
  (0x29A3A, 0xB0B9),
  (0x29A43, 0x8ED6),
  (0x29A8B, 0xF2FC),
  (0x29AA0, 0xE2DF),
  (0x29AEB, 0xDAF0),
  (0x29C6C, 0xC1DC),
  (0x29D4B, 0xD3E3),
  (0x29D6A, 0xF744),
  (0x29DF1, 0xF744),
  (0x29EB4, 0xF7A9),
  (0x29EBA, 0xF744),
  (0x29F06, 0xC0F0),
  (0x29F1E, 0xC0F0),
  (0x29F59, 0xF744),
  (0x29F97, 0xF84A),
  (0x29FC7, 0xB9CD),
  (0x2A057, 0xD1BC),
  (0x2A069, 0xEFF4),
  (0x2A0A1, 0xC5F4),
  (0x2A1AA, 0xFA64),
  (0x2A1BE, 0xF0C8),
  (0x2A291, 0xFB85),
  (0x2A2A8, 0xF7E4),
  (0x2A2E7, 0xF7EA),
  (0x2A301, 0xC3A2),
  (0x2A311, 0xB0BE),
  (0x2A369, 0xC2F8),
  (0x2A396, 0xC3D3),
  (0x2A424, 0xF6CF),
  (0x2A45B, 0xFC71),
  (0x2A471, 0x848D),
  (0x2A4A0, 0xF7F6),
  (0x2A4DC, 0xCD6F),
  (0x2A4F3, 0xD6A9),
  (0x2A4F6, 0xFC81),
  (0x2A505, 0xD4B1),
  (0x2A52B, 0xFC8B),
  (0x2A535, 0xFC8B),
  (0x2A5A6, 0xCCE9),
  (0x2A5C7, 0xC6EA),
  (0x2A5C9, 0xF4D2),
  (0x2A600, 0xCDC5),
  (0x2A60F, 0xDB55),
  (0x2A68F, 0xCDC5),
  (0x2B592, 0xED7B),
  (0x2B5AF, 0xEE5C),
  (0x2B6DA, 0xF85A),
  (0x2F800, 0xC0F6_CDE8),
  (0x2F804, 0xC4E3_CEEA_824D_81E3_D4DB_B1B8_C9AE_CFF1_BFA1),
  (0x2F80E, 0xC3E2_CDC3),
  (0x2F814, 0xC4DA_D4D9_B2E1_C8DF_D4A9_B1F9_B6AC_BFF6),
  (0x2F81D, 0xDBC9_C8D0),
  (0x2F820, 0xBFCC),
  (0x2F822, 0xB8EE_8495),
  (0x2F825, 0xD3C2_C3E3_C7DA_C9D7_B0FC_B4D2_B1B1_BBDC_B1B0_B2A9_BCB4_BCB4),
  (0x2F831, 0xC7E4_C7E4_C7E4),
  (0x2F835, 0xBBD2_BCB0_DBC5),
  (0x2F839, 0xBDD0_DFB3_DFBA_865A_CEFC_B3CA_D6DC_8640_865F_CCC6_C6F4_86A5),
  (0x2F845, 0xC9C6_C9C6_E0B9_86CB_D4FB_86DA_CDBC_CCBE_8845_8773_C5E7_C7D0),
  (0x2F851, 0xD7B3_B3C7_DBFA_DCA2_D0CD_88F4_B1A8_8997),
  (0x2F85A, 0xC2F4_BAF8_89E2_B6E0_C3CE_C9DD),
  (0x2F862, 0xBCA7_D3E9_8AD1_E6B0_B8BE_C9A9),
  (0x2F869, 0xE6AC_C0C1_C0C1),
  (0x2F86D, 0xD4A9_8C85_C4FE_B1A6),
  (0x2F872, 0xCAD9_BDAB_B5B1_DECC),
  (0x2F877, 0xCDC0),
  (0x2F879, 0x8D4C_E1A9),
  (0x2F87C, 0x8DB0),
  (0x2F87E, 0x8DD1_E1D1_8DDD_D1B2_B3B2),
  (0x2F884, 0xD9E3_8E9C_C3B1_8ECB),
  (0x2F88B, 0x8EF0_E2D8_CAFC_C0C8),
  (0x2F890, 0xDEC3),
  (0x2F893, 0xF4A8_8F7C_8F7C),
  (0x2F898, 0xD2CD_D0CE_8FAC),
  (0x2F89C, 0x8FC1_C8CC_D6BE_8FFB_9080_BBC5),
  (0x2F8A3, 0xBBDA),
  (0x2F8A5, 0x90AA_B4C8_BBC5_C9F7_BBC5_9166_D4F7_CFDC_B7DF_9194_91BA_B3CD),
  (0x2F8B1, 0xC0C1_B3C9_EAA9_9248_B1A7_B0CE_BEE8_B0CE_CDEC_C6B4_92CE_C9A8),
  (0x2F8BD, 0x9356),
  (0x2F8BF, 0x937C_9343_D1DA),
  (0x2F8C3, 0xC4A6_8F89_93D6_B3AD),
  (0x2F8C8, 0xC3F4_BEB4),
  (0x2F8CB, 0xBCC8_CAE9_BDFA_95A5_CAEE),
  (0x2F8D2, 0xC3B0_C3E1_D7EE_C6D5_EBC7),
  (0x2F8D8, 0xC0CA_CDFB_9651_E8BD_E8BC),
  (0x2F8DF, 0xB9D5_9688_C9A3_C3B7_D5A4_9760_96DE_97C2),
  (0x2F8E8, 0xE9AB_986C_B8C5_9981),
  (0x2F8ED, 0xE8CE),
  (0x2F8EF, 0xB4CE),
  (0x2F8F1, 0x9A5B),
  (0x2F8F3, 0xCBEA_9A8D_C9B1_BFC7),
  (0x2F8FA, 0x9AF8),
  (0x2F8FC, 0xD1D8_9B79_9B46_9B9E_C5C9_BAA3_C1F7_BAC6_BDFE_C4F9),
  (0x2F907, 0x9BAF_B8DB_E4CE),
  (0x2F90B, 0xD7CC_B5E1),
  (0x2F90E, 0xD1CD_B3B1_8591),
  (0x2F912, 0x9DE5_E5AE_9E73_E5AD),
  (0x2F917, 0x9E9D_D4D6_9EC0_CCBF),
  (0x2F91C, 0xECD1_D4D6_9FD0),
  (0x2F920, 0xECE0_BEF4_D5A2_D1C0_CFAC_A0CD),
  (0x2F928, 0xCCA1_CDF5),
  (0x2F92B, 0xAB68),
  (0x2F92E, 0xE7E9_E8A4_AC99_AD46_C7ED),
  (0x2F934, 0xDEA8_C9EA_E7DE),
  (0x2F938, 0xD2EC),
  (0x2F93A, 0xF0F5),
  (0x2F93D, 0xD3DB),
  (0x2F940, 0xD6B1_EDEC),
  (0x2F945, 0xD5E6_D5E6_D5E6_B192),
  (0x2F94A, 0xB25F),
  (0x2F94C, 0xCAAF),
  (0x2F94E, 0xEDCA_C2B5_B46B),
  (0x2F953, 0xD7E6),
  (0x2F956, 0xB8A3_EFF8),
  (0x2F959, 0xB759_B762_CEC8),
  (0x2F95F, 0xB87A),
  (0x2F962, 0xD7AD_BA42),
  (0x2F966, 0xBC4C),
  (0x2F968, 0xF4DD_F4D6_BCCD_BEC0_BD6C),
  (0x2F96E, 0xE7BB_D7DC_E7D2),
  (0x2F973, 0xC6BF),
  (0x2F976, 0xC156_C15C_C16B_B0BF_D5DF),
  (0x2F97D, 0xC286),
  (0x2F97F, 0xB4CF),
  (0x2F981, 0xE2BF_D3FD_B4E0),
  (0x2F985, 0xC6A2_EBF4_C1F6_BBA9),
  (0x2F98A, 0xD4D0_F4A8_F4AA_B4C7),
  (0x2F98F, 0xDCBB_D3F3_D6A5_C0CD_BBA8_B7BC_D1BF_BFE0_CB6E_C8F4_C68F_C8D9),
  (0x2F99B, 0xBDDA_C695_C3A7_C79C_D7C5_C74C_BED5_BEFA_B2CB),
  (0x2F9A7, 0xCADF_C991_C993_CA50),
  (0x2F9AC, 0xDEA8_DDCF_CA6F),
  (0x2F9B0, 0xB3AD),
  (0x2F9B2, 0xD9E7_C5B0_C2B2_BFF7_CC9F_F2BF_CD4F_CD9B_CD83_CE82_B5FB_F2DC),
  (0x2F9BE, 0xCE88_CD4F_CF6A_CF86_CE88_D071_D2C2),
  (0x2F9C6, 0xD15E_D163),
  (0x2F9C9, 0xD173),
  (0x2F9CB, 0xB297_D392),
  (0x2F9CF, 0xB3CF_DACD_B1E4_F5B9_D85D_B9E1_EADA_B8D3_C6F0),
  (0x2F9DA, 0xB0CF_F5C2_DB4D_BEFC_E9ED_CAE4_F6AA_D2C5_DF8C_E05A_E074_C7E4),
  (0x2F9E6, 0xE07D_EEE0_E46D_E46E_E375_EFEA_E787),
  (0x2F9EE, 0xBFAA_E96F_C9B1_E3D1_E08C_EB65_8E51_EC42_E4E8),
  (0x2F9FA, 0xED7B_ECB4),
  (0x2F9FE, 0xB9CB_B9CB_EE5A),
  (0x2FA02, 0xBCA2_BB7B_F05F_F14E_F168_F244_F35F),
  (0x2FA0A, 0xF449_F744_F85A),
  (0x2FA0F, 0xF964),
  (0x2FA14, 0xFB85_C2E9),
  (0x2FA17, 0xEDE9_F6BC_D6A9_FC86_FC8B_B1C7_CDC5)]

/-- /repo/modules/to/CP936-TRANS.txt; there is no file for reading. -/
def cp936Trans : Charset where
  reads := []
  writes := cp936TransWrites

/-- The rules of /repo/modules/to/GBK-TRANS.txt: character, code.  No two lines have the same character; sorted.  Lines `0100..`, if any, are
listed separately. -/
def gbkTransWrites : Chart := Chart.wide [
  (0x3405, 0xCEE5),
  (0x3421, 0xC5B3),
  (0x3430, 0xD0C5),
  (0x3433, 0xD8A3),
  (0x3439, 0xD8EE),
  (0x3442, 0xB7C2),
  (0x3444, 0xCEEA),
  (0x345E, 0xEBF4),
  (0x3464, 0x8B62),
  (0x3474, 0xC7D6),
  (0x3477, 0xCCAC),
  (0x347A, 0xBFA1),
  (0x347D, 0x82DA),
  (0x3497, 0x8388),
  (0x349A, 0xCEC8),
  (0x349E, 0xBFA1),
  (0x34A4, 0xC9E5),
  (0x34A8, 0xCFC9),
  (0x34B2, 0xB2C6_C1BD),
  (0x34B6, 0xB9AB),
  (0x34C2, 0xBFDC),
  (0x34CA, 0xB6B4),
  (0x34D5, 0xC3F0),
  (0x34DB, 0xB9A6_D3D7_D0CC),
  (0x34F6, 0xEFC6),
  (0x3503, 0xBEF8),
  (0x3518, 0xF7ED),
  (0x351C, 0xB2AA),
  (0x352D, 0xB3D7),
  (0x353A, 0xCAC0),
  (0x353D, 0xD8D5),
  (0x3547, 0xEDC7_8EE5),
  (0x3551, 0xB3F8),
  (0x3555, 0xBBC3_CBD8),
  (0x355A, 0xD7A6_D3D1_CAB7),
  (0x355E, 0xCBA2),
  (0x3560, 0xCBAB),
  (0x3564, 0x85B4_D2D4),
  (0x357A, 0x85EB),
  (0x357C, 0x864D),
  (0x3581, 0xC1DF),
  (0x3584, 0x86B5),
  (0x35A0, 0xC4C7),
  (0x35B6, 0xD64E),
  (0x35BE, 0x8640),
  (0x35C6, 0xE0C3),
  (0x35CB, 0xBAED),
  (0x35D0, 0xE0BE),
  (0x35D6, 0xE0A2),
  (0x35E4, 0xE0D2),
  (0x35FD, 0xCFEC),
  (0x3605, 0x86A5),
  (0x3611, 0x87D1),
  (0x3613, 0x87DB),
  (0x3615, 0x8795),
  (0x3625, 0x87EA),
  (0x362B, 0xBEB3),
  (0x362F, 0xB3A1),
  (0x3631, 0xCCAE),
  (0x3634, 0xD7F8),
  (0x3637, 0xB0AC),
  (0x363B, 0x888A),
  (0x363F, 0x885B),
  (0x3641, 0xDBE9),
  (0x365A, 0x889E),
  (0x3662, 0xDCAC),
  (0x3672, 0xDBD5),
  (0x367C, 0xC0DD),
  (0x3689, 0x89E0),
  (0x368C, 0xE2B7),
  (0x368F, 0x89F9_CCD7),
  (0x36A2, 0xC5AB_E6AF),
  (0x36A9, 0x8A98),
  (0x36B3, 0x8A8E),
  (0x36B6, 0xE6A6),
  (0x36D4, 0x8A7E_8AB4),
  (0x36DB, 0xC9EF),
  (0x36E4, 0x8C43),
  (0x36E9, 0xE6A8),
  (0x36EE, 0xC9A9),
  (0x36F0, 0xBBE9),
  (0x36FD, 0xE6A9),
  (0x370F, 0x8A75),
  (0x3711, 0xC6C5),
  (0x371C, 0x8BAE),
  (0x373B, 0xE6AE),
  (0x373D, 0xD7D3_BAA2),
  (0x3740, 0xBAC3),
  (0x3748, 0xC2CF_D0FB_CAD8_C1C8_BECE_D0B4),
  (0x3756, 0xD2CB),
  (0x3759, 0xD2FA),
  (0x375B, 0xCBDE),
  (0x3761, 0xD7EE_D3EE),
  (0x3766, 0x8C94_CEC8),
  (0x376F, 0xC7C8),
  (0x3774, 0x845C),
  (0x3777, 0xD1B0),
  (0x3791, 0xCEB2),
  (0x3795, 0xD0BC),
  (0x37A1, 0xD5B9_D6AE),
  (0x37AF, 0xE1A8),
  (0x37B6, 0xE1BA),
  (0x37B9, 0xE1B3),
  (0x37C1, 0xB0B6),
  (0x37D2, 0x8D6E),
  (0x37E5, 0x8DDF),
  (0x37E7, 0x8DAC),
  (0x37E9, 0xE1BA),
  (0x37ED, 0xE1BA),
  (0x37FA, 0xE1D0),
  (0x3800, 0xB5BA_8DDF),
  (0x3804, 0x8DED),
  (0x3810, 0xE1BD),
  (0x3817, 0x8E53),
  (0x381C, 0xE1DA_8E6D),
  (0x382D, 0xD5B9),
  (0x3836, 0xB7AB),
  (0x3838, 0xD075),
  (0x3860, 0xD6A1),
  (0x3873, 0xB5D7),
  (0x387F, 0xB3E2),
  (0x3898, 0xC1AE),
  (0x38AA, 0x8F76),
  (0x38AE, 0xB3DA),
  (0x38B4, 0xCEF7),
  (0x38BD, 0xB6FC),
  (0x38CB, 0xB5A4),
  (0x38E6, 0xE5D4),
  (0x38EB, 0xB6AF),
  (0x38F2, 0xCEA2),
  (0x38FC, 0xC8CC),
  (0x3900, 0xCDFC_E3C3_BCB1_B7C1),
  (0x3905, 0xB0AE),
  (0x3907, 0xB0C3),
  (0x3913, 0xB1BF),
  (0x3919, 0xB6F7),
  (0x391B, 0xEDA5),
  (0x391F, 0xBFD6),
  (0x3929, 0xE3A1_D4B9),
  (0x392C, 0xEDA3),
  (0x3930, 0xE2F4),
  (0x393A, 0xBBC5),
  (0x3943, 0xC3C6),
  (0x394B, 0x82C3),
  (0x395E, 0xE5E4),
  (0x3964, 0xF1E6),
  (0x3966, 0xE3AB_CBB3),
  (0x396B, 0x90AA),
  (0x3971, 0xE3AD),
  (0x3975, 0x90F9),
  (0x398D, 0xE3B5),
  (0x3994, 0xE2FB),
  (0x3996, 0xEDAF),
  (0x399E, 0x91C0),
  (0x39A0, 0xEDA1),
  (0x39A4, 0xDCB2),
  (0x39A7, 0x9194),
  (0x39AF, 0xBBF2),
  (0x39B8, 0xEAAA),
  (0x39BE, 0x91FE_BBA7),
  (0x39D6, 0xB6F3),
  (0x39E8, 0x9240),
  (0x39F1, 0xC4C3),
  (0x39FC, 0x826C),
  (0x39FF, 0x939C),
  (0x3A08, 0xBCB7),
  (0x3A14, 0xBAB3_946C),
  (0x3A17, 0xBDDD),
  (0x3A23, 0xD3B5),
  (0x3A26, 0xFE65),
  (0x3A2F, 0xC0A9),
  (0x3A41, 0xC8B6),
  (0x3A4E, 0x944C),
  (0x3A55, 0xC1E0),
  (0x3A57, 0xD0AF),
  (0x3A65, 0x9473_D0AF),
  (0x3A70, 0xB3AD),
  (0x3A75, 0x9441),
  (0x3A7B, 0x948A),
  (0x3A85, 0xB8FC),
  (0x3A89, 0x9497),
  (0x3A9D, 0xBCF0),
  (0x3A9F, 0xB6D8),
  (0x3AA3, 0xC7C3),
  (0x3AC1, 0xB6CF),
  (0x3AC4, 0xC5D4_C6EC),
  (0x3ACB, 0xECB9),
  (0x3AD1, 0xD6BC),
  (0x3AD4, 0xF4DE),
  (0x3AE7, 0xB1A9),
  (0x3AEA, 0xB4BA),
  (0x3AF3, 0xB3BF),
  (0x3AFA, 0xCEF4),
  (0x3B0C, 0xBEB0_C6D8),
  (0x3B19, 0x95A5),
  (0x3B1C, 0xBDFA),
  (0x3B20, 0xC9B9),
  (0x3B25, 0xB1A9),
  (0x3B27, 0xB1A9),
  (0x3B29, 0x95C1),
  (0x3B31, 0xCCE6),
  (0x3B4A, 0xCEF6_B0F4),
  (0x3B4D, 0xC6E2),
  (0x3B71, 0xCFBB),
  (0x3B7B, 0xCCC4),
  (0x3B84, 0xB0F1),
  (0x3B86, 0x99C7),
  (0x3B8B, 0x96EB_C3DE),
  (0x3B8E, 0xB1AD),
  (0x3BA3, 0xB8C5),
  (0x3BAE, 0xBDDB),
  (0x3BB3, 0x96DA),
  (0x3BB5, 0x96EE),
  (0x3BC7, 0x9761_98C9),
  (0x3BCD, 0xBDB0),
  (0x3BD0, 0xCDD6),
  (0x3BD3, 0xE9BD),
  (0x3BDF, 0xC2B4),
  (0x3BE3, 0x97B1),
  (0x3BE6, 0xC6E5),
  (0x3BEA, 0xE8F9),
  (0x3C02, 0x97AA),
  (0x3C05, 0x98B5),
  (0x3C09, 0xE9BB),
  (0x3C0F, 0xB8DD_CDD6),
  (0x3C16, 0xE9AD),
  (0x3C19, 0x9944),
  (0x3C1E, 0xE0CD),
  (0x3C4F, 0xD5FD),
  (0x3C55, 0xB9E9),
  (0x3C58, 0xF7CA),
  (0x3C68, 0xE9E7),
  (0x3C7F, 0xBFC7),
  (0x3C87, 0xDFCB_C9D8),
  (0x3C9C, 0xCCBA),
  (0x3CAD, 0xCCBA),
  (0x3CB2, 0x9ADB),
  (0x3CB6, 0xC2C8_B5AA),
  (0x3CBE, 0xD3EA),
  (0x3CC2, 0xD1D8_B4E3),
  (0x3CC5, 0xC1F7),
  (0x3CC8, 0xC5E6),
  (0x3CD1, 0xD2E7_B7A8),
  (0x3CD9, 0xE4B8),
  (0x3CED, 0xCFD1),
  (0x3D05, 0xCFFB_BDFE),
  (0x3D09, 0xBCC3),
  (0x3D15, 0x9D90),
  (0x3D1E, 0xCCCF),
  (0x3D34, 0xD5BF),
  (0x3D3E, 0xB2B3),
  (0x3D4E, 0xBDA7),
  (0x3D55, 0xD4E8),
  (0x3D71, 0xC6AF),
  (0x3D78, 0xE5AE),
  (0x3DA4, 0xB3B4),
  (0x3DA8, 0x9ECC),
  (0x3DAA, 0x9ECC_C1C7),
  (0x3DB3, 0xBDFD),
  (0x3DBB, 0xB7E9),
  (0x3DC7, 0xBBD6),
  (0x3DCA, 0xB7D9),
  (0x3DD3, 0x9FD0_D1E6),
  (0x3DD6, 0xD5D5),
  (0x3DD9, 0xBCE5),
  (0x3DE9, 0xCEF5),
  (0x3DF1, 0xD0DC),
  (0x3DFB, 0xCEDE),
  (0x3E00, 0xECC6_9FDF_ECDD),
  (0x3E09, 0xDBC6),
  (0x3E15, 0xBEF0),
  (0x3E18, 0xCDF2),
  (0x3E27, 0xF6B8),
  (0x3E3E, 0xA0AE),
  (0x3E60, 0xEBE0),
  (0x3E64, 0xC7D3),
  (0x3E83, 0xB9B7),
  (0x3E85, 0xBAEF),
  (0x3E9A, 0xCCA1),
  (0x3EAB, 0xAB55),
  (0x3EAE, 0xAB5D),
  (0x3EB2, 0xC5A5_C3B5),
  (0x3ECE, 0xC9AA),
  (0x3ED7, 0xAC69),
  (0x3EEE, 0xE8B2),
  (0x3F04, 0xE7E1),
  (0x3F4D, 0xDBE1),
  (0x3F52, 0xC9FB),
  (0x3F56, 0xC1F4_C4B6),
  (0x3F5C, 0xEEB5),
  (0x3F5E, 0xC1F4),
  (0x3F6C, 0xB7F8),
  (0x3F6F, 0xC6E8),
  (0x3F78, 0xAF84),
  (0x3F84, 0xD798),
  (0x3F8A, 0xF1A4),
  (0x3F8C, 0xD1A2),
  (0x3FC2, 0xB059),
  (0x3FCB, 0xF0FE),
  (0x3FE2, 0xD2AB),
  (0x3FF7, 0xB2DA),
  (0x4006, 0xBEA1),
  (0x400B, 0xD1CE),
  (0x400E, 0xEDED),
  (0x4018, 0xEBF6),
  (0x405E, 0xCAA1),
  (0x4066, 0xEAEF),
  (0x4079, 0xEEA2),
  (0x4093, 0xB9E6),
  (0x4096, 0xCAAF),
  (0x409D, 0xB34B),
  (0x40A1, 0xEDC6),
  (0x40A5, 0xB443),
  (0x40B2, 0xEDC0),
  (0x40BB, 0xEFAD),
  (0x40CD, 0xD7B9),
  (0x40D8, 0xB399),
  (0x40E0, 0xEDDB),
  (0x40E9, 0xEDD0),
  (0x40FA, 0xC4A5),
  (0x4100, 0xBBF6),
  (0x410C, 0xE15E),
  (0x4112, 0xEFFE),
  (0x4115, 0xC9E7),
  (0x4122, 0xC6EB),
  (0x412B, 0xDCBB_D2C6_C4EA),
  (0x413A, 0xB694),
  (0x413D, 0xF4CC),
  (0x4147, 0xCBDA),
  (0x4149, 0xB696),
  (0x4160, 0xB694),
  (0x4192, 0xBEBF),
  (0x4197, 0xF1BA),
  (0x41A0, 0xBBC2),
  (0x41A9, 0xDAA4),
  (0x41BB, 0xC7CF),
  (0x41F2, 0xB96B),
  (0x4230, 0xC9D2),
  (0x427C, 0xC1CF_BB7B),
  (0x428B, 0xBC50),
  (0x428F, 0xF4D6),
  (0x42B7, 0xE7BB),
  (0x42C1, 0xE7AE),
  (0x42C4, 0xCDF8),
  (0x42DC, 0xF4EC),
  (0x42DE, 0xCDF8),
  (0x42E0, 0xB2B9),
  (0x42E7, 0xBD50),
  (0x42EF, 0xF4EC),
  (0x42F2, 0xC9FE_F1D8),
  (0x42F9, 0xB7F9),
  (0x4304, 0xE7AE),
  (0x4307, 0xCBF7),
  (0x4309, 0xB8D9_F4ED),
  (0x4313, 0xB7B1),
  (0x4315, 0xF7E3),
  (0x431B, 0xF4ED),
  (0x432B, 0xC0C2),
  (0x4339, 0xBD4E),
  (0x433D, 0xBE5A),
  (0x4348, 0xC6BF),
  (0x435E, 0xC14E),
  (0x4369, 0xD1F8),
  (0x436D, 0xA099),
  (0x43A3, 0xF1EA),
  (0x43B9, 0xCEC5),
  (0x43BE, 0xB19A),
  (0x43CA, 0xC1FB_CBE0),
  (0x43D2, 0xC5D6),
  (0x43D4, 0xD6E2_E2BF),
  (0x43EF, 0xF0EB),
  (0x43FB, 0xC4DC),
  (0x440C, 0xCCF3),
  (0x4417, 0xB6C7),
  (0x4421, 0xC6EA),
  (0x4452, 0xB5BD_C55F),
  (0x4455, 0xCAF3),
  (0x445B, 0xF3C2),
  (0x445E, 0xCBB4),
  (0x4482, 0xBDB0_D4EC),
  (0x4497, 0xC65A),
  (0x44A3, 0xDCDB),
  (0x44A9, 0xC84D),
  (0x44AC, 0xC4AA_B5C8),
  (0x44B1, 0xD5F4),
  (0x44B6, 0xCCEC),
  (0x44C1, 0xB5C8),
  (0x44C5, 0xC7DB),
  (0x44CA, 0xC695),
  (0x44D2, 0xC6EA),
  (0x44D7, 0xCA5B),
  (0x44E6, 0xB5E4),
  (0x44F6, 0xCC44_DCF4),
  (0x44F9, 0xF086_DEC2),
  (0x44FF, 0xDDD5),
  (0x4509, 0xCBE2),
  (0x450B, 0xC9AF),
  (0x450D, 0xF3C6),
  (0x4512, 0xDDED),
  (0x4525, 0xCFF4),
  (0x452B, 0xCADF),
  (0x4535, 0xC882),
  (0x4543, 0xD2F1),
  (0x454F, 0xDDAD),
  (0x4551, 0xC89A),
  (0x4556, 0xDDA5),
  (0x455A, 0xDDDE),
  (0x455D, 0xCA6F),
  (0x4560, 0xCA86),
  (0x4564, 0xDEAD),
  (0x4568, 0xCCD9),
  (0x456B, 0xD9E7),
  (0x456E, 0xBED5_CB69),
  (0x4580, 0xCC87),
  (0x4582, 0xCC89),
  (0x458B, 0xC5B0),
  (0x458D, 0xF2AF),
  (0x458F, 0xB4A6),
  (0x45A0, 0xF3A2),
  (0x45A3, 0xD4E9_F2EA),
  (0x45AB, 0xB0F6),
  (0x45AE, 0xCF86),
  (0x45B8, 0xB6EA_F2D5),
  (0x45BD, 0xF2DB),
  (0x45BF, 0xF2DB),
  (0x45CB, 0xF2D6),
  (0x45CF, 0xF2F4),
  (0x45D7, 0xCD4F),
  (0x45EA, 0xCF56_F3A1),
  (0x45F6, 0xC0AF),
  (0x45F9, 0xCE88),
  (0x45FE, 0xF2B9),
  (0x4601, 0xD056),
  (0x4603, 0xCF5F),
  (0x4607, 0xCEC3),
  (0x460A, 0xF3BA),
  (0x4610, 0xF4AC),
  (0x4614, 0xBFA6),
  (0x4619, 0xCEC0_D7E4),
  (0x461C, 0xBDED),
  (0x4629, 0xD09E),
  (0x462B, 0xD14D),
  (0x462E, 0xC9A5),
  (0x4631, 0xD4A3),
  (0x463F, 0xD09C_B1C1),
  (0x4653, 0xD26F),
  (0x4656, 0xB1C1_D17B),
  (0x465D, 0xD9F4),
  (0x466A, 0xF1E1),
  (0x466D, 0xE5BD),
  (0x4670, 0xD19F),
  (0x4673, 0x9FCF),
  (0x467A, 0xD29C),
  (0x4695, 0xB297),
  (0x469E, 0xB4F5_B4F5),
  (0x46B0, 0xD746_D0C5_DAA8),
  (0x46B9, 0xD746),
  (0x46C2, 0xD542),
  (0x46D0, 0xB4CA_DAD7_B1E7),
  (0x46D5, 0xDAC4_D46D),
  (0x46DB, 0xD490_D1B6),
  (0x46DF, 0x866B),
  (0x46E1, 0xBBB0),
  (0x46E6, 0xCBCF_C3D5),
  (0x46EE, 0x8277),
  (0x46FA, 0xBDEB),
  (0x46FC, 0xD765),
  (0x4701, 0xD66C),
  (0x4703, 0x895B_D673),
  (0x4718, 0xBEAF),
  (0x471B, 0xB2F7),
  (0x471F, 0xDADF),
  (0x4735, 0xF4F9),
  (0x473B, 0xF4F9),
  (0x473F, 0xCAFA),
  (0x4742, 0xCAFA),
  (0x4747, 0xD859_D860),
  (0x4757, 0xF5F7_D2E3),
  (0x4760, 0xAA78),
  (0x4768, 0xCFCD),
  (0x476F, 0xD897),
  (0x4774, 0xFD56),
  (0x477E, 0xB8B3_B9F3),
  (0x478B, 0x87B8),
  (0x47AC, 0xCDB8),
  (0x47BC, 0xB4DC),
  (0x47C6, 0xF5CF),
  (0x47CC, 0xD3E3),
  (0x47CE, 0xF4F5),
  (0x47D6, 0xD6BA),
  (0x47DA, 0xDB61),
  (0x47E6, 0xB0CF),
  (0x4801, 0xF5D2_B3FE),
  (0x480A, 0x847C),
  (0x480E, 0xF6BB),
  (0x4825, 0xF5BF),
  (0x482E, 0xCCDA),
  (0x4830, 0xDB6D),
  (0x4832, 0xF1F6),
  (0x4836, 0xC9E4),
  (0x4839, 0xBAA1),
  (0x4840, 0x837B),
  (0x4845, 0xDD90),
  (0x4847, 0xDC8B),
  (0x484B, 0xDC99_EC8D),
  (0x4856, 0xC7E1),
  (0x4859, 0xDD88),
  (0x4879, 0xE9F9),
  (0x487C, 0xDD43),
  (0x4884, 0x96A0),
  (0x4889, 0xC5A9),
  (0x489C, 0xB9E9),
  (0x489F, 0xD3C9_CBCD),
  (0x48A4, 0xCAF6),
  (0x48A6, 0xCBA7),
  (0x48AA, 0xC7C1_CBE6),
  (0x48AF, 0xE5E0),
  (0x48B5, 0xD4C7),
  (0x48B7, 0xC4C7),
  (0x48BE, 0x8AB7),
  (0x48CC, 0xDBA1),
  (0x48DE, 0xB6F5),
  (0x48E8, 0xB4BC),
  (0x48F4, 0xD0EF),
  (0x491C, 0xB6DB),
  (0x491E, 0xE271_E25C_E27E),
  (0x4928, 0xE257),
  (0x4931, 0xCAC4),
  (0x4939, 0xEFCB),
  (0x4945, 0xC7D9_C7D9),
  (0x494A, 0xEFBA),
  (0x4950, 0xF6CA),
  (0x4955, 0xE776_EEE4),
  (0x495A, 0xB3F5),
  (0x4962, 0xE758),
  (0x4976, 0xEFD3_D5A1),
  (0x4987, 0xF7D9),
  (0x4995, 0xE96F),
  (0x4999, 0xCBC2),
  (0x499C, 0xE04E),
  (0x499E, 0xC8F2),
  (0x49A7, 0xE3D2_C0BB),
  (0x49CD, 0xCFB6),
  (0x49D5, 0xD3F2),
  (0x49D9, 0xC1EA),
  (0x49DC, 0xCCC1),
  (0x49E0, 0xE081_DCAD),
  (0x49E3, 0xEA94),
  (0x49E6, 0xE08C),
  (0x49F8, 0xF0B3),
  (0x49FB, 0xB8EB_F0C0),
  (0x49FF, 0xC8B5),
  (0x4A03, 0xFA60),
  (0x4A05, 0xF0D3_FA87_CBAB),
  (0x4A09, 0xF0D0),
  (0x4A0E, 0xEB94),
  (0x4A13, 0xC0D7_B1A2),
  (0x4A16, 0xF6AB),
  (0x4A19, 0xF6AF),
  (0x4A20, 0xF6B0),
  (0x4A26, 0xEB84),
  (0x4A29, 0xC1E9_F6B2),
  (0x4A2D, 0xCFF6_D1A9),
  (0x4A36, 0xEC42_F6B1),
  (0x4A51, 0xEC8D),
  (0x4A66, 0xEC9B),
  (0x4A75, 0xED72),
  (0x4A78, 0xBF5E),
  (0x4A7F, 0xFC8B),
  (0x4A84, 0xBBCD),
  (0x4AA0, 0xECB4_ECB4_ECB4),
  (0x4ACD, 0xEE5C),
  (0x4AD9, 0xF2AA),
  (0x4ADD, 0xF0A5),
  (0x4AEB, 0xF7C3),
  (0x4AF1, 0xF2AC),
  (0x4AF7, 0xF2A6),
  (0x4B03, 0xECAA),
  (0x4B19, 0xEF5F_EF63),
  (0x4B24, 0xF095_F086),
  (0x4B2E, 0xE2C2),
  (0x4B33, 0xBB7B),
  (0x4B3B, 0xBDA4),
  (0x4B4B, 0xB1A5_F062),
  (0x4B5B, 0xF085),
  (0x4B6B, 0xBBFC_BBFC),
  (0x4B76, 0xE6EB),
  (0x4B7C, 0xE6EB),
  (0x4B7E, 0xCDD4),
  (0x4B81, 0xE6E9),
  (0x4B83, 0xC7FD),
  (0x4B86, 0xF179_F28F_B3DB),
  (0x4B90, 0xF16F),
  (0x4B9B, 0xE6E2),
  (0x4BB2, 0xF262),
  (0x4BBC, 0xF295),
  (0x4BBF, 0xE5B9),
  (0x4BC1, 0xC2E2),
  (0x4BCE, 0xF35F),
  (0x4BD0, 0xBAA1),
  (0x4BD7, 0xF7C2),
  (0x4BDD, 0xCBE8),
  (0x4BEF, 0xF39A),
  (0x4BFA, 0xF396),
  (0x4C05, 0xF450),
  (0x4C0B, 0xF44E),
  (0x4C11, 0xF450),
  (0x4C19, 0xE272),
  (0x4C1B, 0xD8AA_D8AA),
  (0x4C1F, 0xBBEA),
  (0x4C23, 0xF7CD),
  (0x4C28, 0xF7C8),
  (0x4C3A, 0xF48F),
  (0x4C3F, 0xF544),
  (0x4C44, 0xF48F),
  (0x4C46, 0xF76A),
  (0x4C48, 0xF56C),
  (0x4C54, 0xF58D),
  (0x4C56, 0xF686),
  (0x4C58, 0xF650),
  (0x4C5F, 0xCE41),
  (0x4C7D, 0xF6F0),
  (0x4C84, 0xF7AA),
  (0x4CA5, 0xF0AF),
  (0x4CA8, 0xBAE8),
  (0x4CAB, 0xF0AF),
  (0x4CB4, 0xF0B2_C8B8),
  (0x4CB7, 0xE8C9),
  (0x4CCC, 0xBEE9),
  (0x4CD2, 0xF0B0),
  (0x4CD8, 0xB6EC),
  (0x4CDC, 0xF949),
  (0x4CE8, 0xBBCB),
  (0x4CF6, 0xFAA0),
  (0x4CFC, 0xC5B8_BAD7),
  (0x4D09, 0xFB71_FB40_FB71_FB4C),
  (0x4D0E, 0xFB50),
  (0x4D21, 0xC0F6),
  (0x4D25, 0xFB93),
  (0x4D44, 0xFC4B),
  (0x4D5E, 0xF7F4),
  (0x4D79, 0xD6A9_884E),
  (0x4D87, 0xF7F8),
  (0x4D9A, 0xC8A3),
  (0xF900, 0xC6F1_B8FC_B3B5_BCD6_BBAC_B4AE_BEE4_B9EA_B9EA_C6F5_BDF0_C0AE),
  (0xF90C, 0xC4CE_C0C1_F1AE_C2DE_C2DC_C2DD_C2E3_C2DF_C0D6_C2E5_C0D3_E7F3),
  (0xF918, 0xC2E4_C0D2_C2E6_C2D2_C2D1_C0B8_C0C3_C0BC_F0BD_E1B0_C0C4_C0B6),
  (0xF924, 0xF1DC_C0AD_C0B0_C0AF_C0C8_C0CA_C0CB_C0C7),
  (0xF92D, 0xC0B4_C0E4_C0CD_C2B0_E9D6_C2AF_C2AC_C0CF_C2AB_C2B2_C2B7_C2B6),
  (0xF939, 0xC2B3_F0D8_C2B5_C2BB_C2CC_C78A_C2BC_C2B9_C2DB_C2A2_C5AA_C1FD),
  (0xF945, 0xC1FB_C0CE_C0DA_C2B8_C0D7_C0DD_C2C5_C2A5_C0E1_C2A9_C0DB_C2C6),
  (0xF951, 0xC2AA_C0D5_C0DF_C1DD_C1E8_B6A0_E7B1_C1E2_C1EA_B6C1_C4C3_C0D6),
  (0xF95D, 0xC5B5_B5A4_C4FE_C5AD_C2CA_D2EC_B1B1_B491_B1E3_8FCD_B2BB_C3DA),
  (0xF969, 0xCAFD_CBF7_B2CE_C8FB_CAA1_D2B6_CBB5_C9B1_B3BD_C9F2_CAB0_C8F4),
  (0xF975, 0xC2D3_C2D4_C1C1_C1BD),
  (0xF97A, 0xC1BA_C1B8_C1BC_C1C2_C1BF_C0F8_85CE_C5AE_C2AE_C2C3_C2CB_EDC2),
  (0xF986, 0xE3CC_E6EA_C0F6_C0E8_C1A6),
  (0xF98D, 0xE9F6_C4EA_C1AF_C1B5),
  (0xF992, 0xC1B0_C1B6_E7F6),
  (0xF996, 0xC1B7_C1AA_E9FD_C1AB_C1AC_E580_C1D0_C1D3_D1CA_C1D2_C1D1_CBB5),
  (0xF9A2, 0xC1AE_C4EE_C4ED_E9E7_C1B1_C1D4_C1EE_E0F2_C4FE_C1EB_C1AF_C1E1),
  (0xF9AE, 0xD3A8_C1E7_F1F6_C1E5_C1E3_C1E9_C1EC_C0FD_C0F1_F5B7_C1A5_B6F1),
  (0xF9BA, 0xC1CB_C1C5_E5BC_C4F2_C1CF_C0D6_C1C7_C1C6_DEA4_C1C9_C1FA_D4CE),
  (0xF9C6, 0xC8EE_C1F5_9683_C1F8_C1F7_C1EF_C1F0_C1F4_C1F2_C5A6_C0E0_C1F9),
  (0xF9D2, 0xC2BE_C2BD_C2D7_8D91_C2D9_C2D6_C2C9_90FC_C0F5_C2CA_C2A1_C0FB),
  (0xF9DE, 0xC0F4_C2C4_D2D7_C0EE_C0E6_C4E0_C0ED_C1A1_EEBE),
  (0xF9E9, 0xC0EF_C0EB_C4E4_C4E7_C1DF_9FFB_AD55_DDFE),
  (0xF9F2, 0xC1DB_F7EB_C1D6_C1DC_C1D9_C1A2_F3D2_C1A3_D7B4_D6CB_CAB6_CAB2),
  (0xF9FE, 0xB2E8_B4CC_C7D0_B6C8_CDD8_CCC7_D5AC_B6B4_B1A9_B7F8_D0D0_BDB5),
  (0xFA0A, 0xBCFB_C0AA),
  (0xFA10, 0xDAA3),
  (0xFA12, 0xC7E7),
  (0xFA15, 0xCEF5_D6ED_D2E6),
  (0xFA19, 0xC9F1_CFE9_B8A3_BEB8_BEAB_D3F0),
  (0xFA22, 0xD6EE),
  (0xFA25, 0xD2DD_B6BC),
  (0xFA2A, 0xB7B9_CBC7_B9DD_BAD7_C0C9_C1A5_CEEA_C9AE_C3E2_C3E3_C7DA_B1B0),
  (0xFA36, 0xBAC8_CCBE_C6F7),
  (0xFA3A, 0xC4AB_B2E3),
  (0xFA3D, 0xBBDA_BFAE_D4F7_B3CD_C3F4_BCC8_CAEE_C3B7_BAA3_E4BE_BABA_D6F3),
  (0xFA4A, 0xD7C1_B1AE_C9E7_ECED_C6ED_B576_D7E6_D7A3_BBF6_ECF5_B759_CDBB),
  (0xFA56, 0xBDDA_C1B7_E7C6_B7B1_CAF0_D5DF_B3F4_DCB3_DCB3_D7C5_BAD6_CAD3),
  (0xFA62, 0xDACB_BDF7_B1F6_D4F9_E5C1_D2DD_C4D1_CFEC_C6B5_BBDD_CEF5_B9DD),
  (0xFA70, 0xB2A2_BFF6_C8AB_81E9_B3E4_BCBD_D3C2_C9D7_BAC8_DFFB_E0B9_86EC),
  (0xFA7C, 0xDAA3_B7D8_D1D9_B1BC_E6BE_8BE3_E2DA_8F4D_B2CA_E1E6_E3AF_C9F7),
  (0xFA88, 0xD3FA_D4F7_9152_B3CD_B4F7_DEED_CBD1_DEF0_B0BD_C7E7_C0CA_CDFB),
  (0xFA94, 0xD5C8_B4F5_C9B1_C1F7_D2F9_D7CC_BABA_9E73_D6F3_C7C6_BEF4_B7B8),
  (0xFAA0, 0xD6ED_AC99_B4C9_BBAD),
  (0xFAA5, 0xCEC1_D2E6_CAA2_D6B1_B192_D7C5_B46B_B849_BDDA_C0E0_BD64_C1B7),
  (0xFAB1, 0xC6BF_D5DF_BBC4_BBAA_CE82_F1DF_B8B2_CAD3_B5F7_D6EE_C7EB_DACB),
  (0xFABD, 0xC5B5_DACD_BDF7_B1E4_D4F9_CAE4_B3D9_E167),
  (0xFAC6, 0xEA95_C4D1_BEB8_F7B9_CFEC_B9CB_C6B5_F449_B9EA),
  (0xFAD3, 0xEBF6),
  (0xFAD8, 0xFD4C),
  (0x20003, 0xC7D2),
  (0x2000B, 0xD5C9),
  (0x20019, 0xC0F6_B2BB),
  (0x20024, 0xB2A2),
  (0x20029, 0xCDA1),
  (0x20066, 0xD6D0),
  (0x200A0, 0xE18A),
  (0x200DE, 0xC0F1),
  (0x200F8, 0x817B),
  (0x20107, 0xC0D2_817A),
  (0x20121, 0xCEE5),
  (0x20162, 0xD9F1),
  (0x20169, 0xCAEB),
  (0x20187, 0xB0C2),
  (0x2018C, 0xD3B9),
  (0x201B0, 0xD8EB),
  (0x201BB, 0x825C),
  (0x201DA, 0xBCD7),
  (0x201FE, 0xD0DD),
  (0x20201, 0x819A),
  (0x20206, 0x828B),
  (0x20208, 0x81D5),
  (0x2020E, 0xB3DE),
  (0x20213, 0xC1A9),
  (0x20223, 0xC0CF),
  (0x20229, 0x82D0),
  (0x20255, 0xCAB9_D9B0),
  (0x2026B, 0x8255),
  (0x2026E, 0xBEEB),
  (0x20293, 0xB0F8),
  (0x20296, 0xC0FD),
  (0x202A8, 0x8351_835D),
  (0x202AB, 0x81F9),
  (0x202B1, 0xBAF2),
  (0x202B3, 0xB1E3),
  (0x202B6, 0xEBF4),
  (0x202BE, 0xEEA5),
  (0x202D2, 0xC3FC),
  (0x202DB, 0xC391),
  (0x202E3, 0xD2D0),
  (0x202F1, 0x8344),
  (0x202FC, 0xD9B6),
  (0x202FF, 0x8246),
  (0x20320, 0x82E7),
  (0x2033C, 0xD2DA),
  (0x2035F, 0xBFC9),
  (0x2036C, 0xD9BE),
  (0x2036E, 0x8285),
  (0x20377, 0x836B),
  (0x2037B, 0xD9B1),
  (0x203A1, 0x82C1),
  (0x203B2, 0x82A4),
  (0x203BC, 0x8347),
  (0x203D7, 0xC1C5),
  (0x203EC, 0xD9B7),
  (0x2041A, 0xD9B3_D9D8),
  (0x20427, 0x838F),
  (0x20431, 0x8289),
  (0x20433, 0x8396),
  (0x2043F, 0xDEB0),
  (0x20472, 0xD9DD),
  (0x2047D, 0xB3E4),
  (0x20486, 0xB6F9),
  (0x204B0, 0xE6D5_C6A7),
  (0x204DB, 0x8191),
  (0x20540, 0xD8E8),
  (0x20545, 0xD4D9),
  (0x20549, 0xD1A8),
  (0x2054B, 0xB2E1),
  (0x2054D, 0xB9D9),
  (0x2056A, 0xFC86),
  (0x20575, 0xBFBA),
  (0x205A0, 0xB9C5),
  (0x205B8, 0x83FB),
  (0x205E7, 0x8440),
  (0x20615, 0xCEF5),
  (0x20621, 0xC1DD),
  (0x20624, 0xC0E4),
  (0x20632, 0xB4F3),
  (0x20636, 0xB7F1),
  (0x20675, 0xBFDA),
  (0x20678, 0xB8CA),
  (0x20692, 0xB3DD),
  (0x206B3, 0x8459),
  (0x206D2, 0xD8DA),
  (0x206EC, 0xD0CC),
  (0x206EE, 0x8494),
  (0x20707, 0xBFCC),
  (0x20713, 0xCCDE),
  (0x2071F, 0x8475),
  (0x20728, 0xDBC0),
  (0x20738, 0xBCC1),
  (0x2073A, 0xC1D0),
  (0x2073E, 0xD8E3),
  (0x20765, 0x846C),
  (0x20790, 0x8476),
  (0x207AB, 0xBFCC),
  (0x207FD, 0x849C),
  (0x20832, 0xC1A6),
  (0x208A4, 0x9189),
  (0x208C1, 0xC0CD),
  (0x208C3, 0x84DF),
  (0x208D9, 0xD1AE),
  (0x208DE, 0xBEFC),
  (0x208E9, 0xD4BC),
  (0x208F5, 0xD9EB),
  (0x2092C, 0xD8CE),
  (0x20971, 0xD4C2),
  (0x20983, 0xD8A6_BBDC),
  (0x20987, 0xBAA5),
  (0x20993, 0xD8A7),
  (0x209B6, 0xB8EF),
  (0x209DE, 0xD5D7),
  (0x209E8, 0xBECC_BBDA_D8D5),
  (0x20A0D, 0xC7E4),
  (0x20A10, 0x856E),
  (0x20A1C, 0x8574),
  (0x20A1E, 0xC7E4),
  (0x20A2E, 0xD8C6),
  (0x20A30, 0xC5AE),
  (0x20A5F, 0xB3BD),
  (0x20A6F, 0xB4E6),
  (0x20A9E, 0xD8C8),
  (0x20AA5, 0xD4AD),
  (0x20AAA, 0x8589),
  (0x20AEA, 0xC1F9),
  (0x20B3B, 0xB7EE),
  (0x20B56, 0xB8D2),
  (0x20B5E, 0x85AA),
  (0x20BA2, 0xD3D2),
  (0x20BA6, 0xD5D9),
  (0x20BAF, 0xCCA8),
  (0x20BB7, 0xBCAA),
  (0x20BC1, 0xD7E3),
  (0x20BCD, 0x85DF),
  (0x20BD2, 0xBBAF),
  (0x20BDE, 0x85E0),
  (0x20C5C, 0x86BD),
  (0x20C69, 0xBEFD),
  (0x20C6F, 0xD7F8),
  (0x20C8B, 0xF5FE),
  (0x20C8E, 0xB7CD),
  (0x20CC5, 0xCECA),
  (0x20CF7, 0x85ED),
  (0x20D01, 0x85E9),
  (0x20D1F, 0xDFE3),
  (0x20D2A, 0xE0A7),
  (0x20D2E, 0xC5E7_86C3),
  (0x20D40, 0xCAA6_F6C5_DFF8_8691),
  (0x20D52, 0xDFFD),
  (0x20D70, 0xDFD8),
  (0x20D72, 0xDBC1),
  (0x20D75, 0x8686),
  (0x20DBA, 0xDFEC),
  (0x20DC3, 0xE0B2),
  (0x20DD5, 0xB4B5),
  (0x20DF8, 0xE0AF),
  (0x20E59, 0x86CB),
  (0x20E5E, 0x86B1),
  (0x20ED4, 0xE0E5),
  (0x20EDB, 0xE0D5),
  (0x20EE9, 0xD541),
  (0x20EEF, 0xDFEE),
  (0x20EF6, 0x86F9),
  (0x20F15, 0xDFC2),
  (0x20F6C, 0xC4D8),
  (0x20F7A, 0x87A8),
  (0x20F7F, 0xDFC9),
  (0x20F85, 0xD2AA),
  (0x20F96, 0xC6F7),
  (0x20FC8, 0xE0B1),
  (0x20FCA, 0x86CB),
  (0x20FCC, 0x86DA_8688),
  (0x21012, 0x8745),
  (0x21050, 0xE0C9),
  (0x21052, 0x86CB),
  (0x21090, 0x87D4),
  (0x21096, 0x8783),
  (0x210A2, 0x86FD),
  (0x2113A, 0xE0D1),
  (0x2113C, 0xCC9F),
  (0x21157, 0xCC9F),
  (0x2115B, 0x87C1),
  (0x21170, 0xE0D0),
  (0x2117F, 0x8764),
  (0x211A1, 0xC6F0),
  (0x211BE, 0x83D7),
  (0x211C3, 0xD2D8),
  (0x211CA, 0xC6D4),
  (0x211E1, 0xC4BF),
  (0x211EA, 0xBDD1),
  (0x21215, 0xC8A6),
  (0x2122D, 0xD3FC),
  (0x21239, 0xE0F3),
  (0x21243, 0xDBDE),
  (0x21248, 0xD4DA),
  (0x2125B, 0xDBD9),
  (0x2125D, 0xBBF9),
  (0x2125F, 0xD7B3),
  (0x2126C, 0xDBE6),
  (0x212AE, 0xD4AC),
  (0x212BA, 0xD1F3),
  (0x212DD, 0x8889),
  (0x212F2, 0xD7F8),
  (0x21369, 0xDBE5),
  (0x213A9, 0xB9A1),
  (0x213B0, 0xDCAF_888A_C55F),
  (0x213B9, 0x88B2),
  (0x21447, 0x88F1),
  (0x2144A, 0x88CA),
  (0x2144F, 0x89BB),
  (0x2145F, 0xCED1),
  (0x21462, 0xDCA6),
  (0x2148B, 0x89A7),
  (0x214A1, 0xFC8B),
  (0x214A3, 0x8983),
  (0x214B0, 0x8997),
  (0x21501, 0xC0DD),
  (0x2151B, 0xC8C9),
  (0x21578, 0xD9E7),
  (0x2157F, 0xD9E7),
  (0x21582, 0xD9E7),
  (0x21584, 0xCDE2),
  (0x21589, 0xC2D1_D9ED),
  (0x21596, 0xC7E4),
  (0x2159F, 0xF3A4),
  (0x215B7, 0xE2B9),
  (0x215CC, 0xE061),
  (0x215D5, 0xD2E0),
  (0x215DA, 0xC4D6),
  (0x215DD, 0xD2C4),
  (0x215E0, 0xC4DA),
  (0x215E8, 0x8A44),
  (0x21608, 0xBFDE),
  (0x2162B, 0xCEC8),
  (0x21637, 0xCCD7),
  (0x2165C, 0xB6E1),
  (0x2168C, 0xBDE1),
  (0x21690, 0x8A5D),
  (0x216A7, 0xE5FE),
  (0x216AE, 0x8A65),
  (0x216B6, 0xCDFD),
  (0x216BA, 0x8A69),
  (0x216BC, 0x8AB8),
  (0x216BE, 0xE6AD),
  (0x216D0, 0x8A6F),
  (0x216E2, 0x8B46),
  (0x21704, 0x8B72),
  (0x21709, 0x8B76),
  (0x2171D, 0x8A9F),
  (0x21729, 0x8AA0),
  (0x21734, 0x8A7B),
  (0x21736, 0x8AA3),
  (0x2174A, 0x8AC0),
  (0x21769, 0xD1FD),
  (0x21791, 0x8ADD),
  (0x217A2, 0x8AC4),
  (0x217A4, 0x8BA7),
  (0x217A8, 0x8ABB),
  (0x217E6, 0xC4C8),
  (0x217F1, 0x8AAE),
  (0x21808, 0x8C43),
  (0x21810, 0xE6BF),
  (0x21814, 0x8B60),
  (0x2181B, 0x8A66_E6C6_8BA5),
  (0x2184D, 0x8B9F),
  (0x2184F, 0x8ABE),
  (0x21853, 0x8BC1),
  (0x21879, 0x8BB1),
  (0x2187F, 0xB5D5),
  (0x21883, 0x8BB8),
  (0x21889, 0x8BE7),
  (0x21893, 0xE6B4),
  (0x2189A, 0x8BA0),
  (0x218B2, 0x8BA8),
  (0x218B4, 0x8BBB),
  (0x218C3, 0x8B79),
  (0x218C6, 0xE5FC),
  (0x218CC, 0x8BB6),
  (0x218EB, 0x8BBA),
  (0x218F0, 0xE6CD_8BD6),
  (0x218F8, 0x8C40),
  (0x21900, 0x8A75),
  (0x2191A, 0xE6CE),
  (0x21925, 0x83A9),
  (0x2192F, 0xE6D0),
  (0x2193E, 0xCBEF_BFD7),
  (0x21946, 0xBAC3_D8C3),
  (0x2195B, 0xCAE2_D7D6),
  (0x21966, 0x8C54),
  (0x2197D, 0x8C56),
  (0x2198C, 0x8C59),
  (0x21997, 0xC8E6),
  (0x219CB, 0xC6B6),
  (0x219EA, 0xD5AC_E5B3),
  (0x219F1, 0xBAA6),
  (0x21A09, 0xBAC1),
  (0x21A1A, 0xD4A9),
  (0x21A1C, 0xBCC5),
  (0x21A20, 0xCEC8),
  (0x21A48, 0xC3E7),
  (0x21A7A, 0x8C8C),
  (0x21B2A, 0xC4CD),
  (0x21B3D, 0xD8E2),
  (0x21B5D, 0xC3D7_BCE2),
  (0x21B74, 0xCFB6),
  (0x21B90, 0xD0A1),
  (0x21BC1, 0x8CB6_8CB6),
  (0x21C29, 0xC1BC),
  (0x21C2C, 0xC9ED),
  (0x21C38, 0xE5EC),
  (0x21C46, 0xCAF4),
  (0x21C52, 0xB5EE),
  (0x21C5D, 0xCFAC),
  (0x21C91, 0xCABA),
  (0x21CA0, 0xC6C6),
  (0x21CA9, 0xC6A8),
  (0x21CEC, 0xC2AE),
  (0x21D41, 0xCEA3),
  (0x21D7C, 0xCCBF),
  (0x21D8F, 0xE1C8),
  (0x21D93, 0xD4C0),
  (0x21E20, 0xB2BA),
  (0x21E35, 0xE1BF),
  (0x21EA1, 0xD3AF),
  (0x21F14, 0xE1C7),
  (0x21F9C, 0xBBF4),
  (0x21FC1, 0xCEA1),
  (0x21FE7, 0xD4D6),
  (0x21FF7, 0xE7DF),
  (0x2200E, 0xBAD3),
  (0x22012, 0xBCBA),
  (0x2201A, 0xB9A4),
  (0x2203D, 0xC6F0),
  (0x22053, 0xF5B9),
  (0x2205B, 0xC9B1),
  (0x22074, 0xC04D),
  (0x22087, 0xB5DB),
  (0x22091, 0xCAC3),
  (0x220B4, 0xD6C4),
  (0x220C1, 0xB8F8),
  (0x220EA, 0x8EBA),
  (0x220F7, 0xC4B2),
  (0x22116, 0xD2EC),
  (0x2216D, 0xD273),
  (0x221D7, 0xCFC3),
  (0x221EB, 0xD283),
  (0x221EF, 0xB8AE),
  (0x2220E, 0xB9E3),
  (0x22256, 0xC2B9),
  (0x22259, 0xCAFC),
  (0x222BB, 0xC1C9),
  (0x222DB, 0xB1C7_CF4B),
  (0x22313, 0xC0AA),
  (0x22338, 0xDEC4),
  (0x22342, 0xB1C7),
  (0x22345, 0xDBBC),
  (0x2234E, 0xDABE),
  (0x22357, 0xD1D4),
  (0x2235C, 0xD7F0),
  (0x2236E, 0xCED7),
  (0x22376, 0xC2CE),
  (0x22381, 0xCEE4),
  (0x22387, 0xD4D6),
  (0x223AE, 0xD8B5),
  (0x223BA, 0xCFD2),
  (0x223D8, 0xF4E0),
  (0x223F1, 0xE5F4),
  (0x22405, 0xC8F5),
  (0x22413, 0xEFCF),
  (0x22437, 0x8F89),
  (0x22472, 0xD2CD),
  (0x22495, 0xD6EE),
  (0x2249B, 0xB1E4),
  (0x224A5, 0x814C),
  (0x224C9, 0xB7B5_E1E3),
  (0x224D8, 0xD9A1),
  (0x224DD, 0xD9AC),
  (0x224E0, 0x81EA),
  (0x224EC, 0x8260_E5D2),
  (0x224F6, 0xCDA8),
  (0x22500, 0xC7D6),
  (0x2250B, 0x8291),
  (0x2250D, 0xD9AB),
  (0x2251A, 0x8FCF),
  (0x22547, 0x82F6),
  (0x22555, 0x82F0),
  (0x2257E, 0xB1DC),
  (0x225B9, 0xC7C4),
  (0x225CC, 0xC5C2_D6BE),
  (0x22617, 0xB3BC),
  (0x22625, 0xCAD1),
  (0x2263B, 0xCFA4),
  (0x22649, 0xC4D5_EDA7),
  (0x22656, 0xCCF1),
  (0x22662, 0xBFD6),
  (0x22683, 0xC1D3),
  (0x22687, 0xBFF1),
  (0x22689, 0xBADE),
  (0x22690, 0xD3C6),
  (0x226B0, 0xC4D5),
  (0x226C2, 0xB5BF),
  (0x226C7, 0xF6C5),
  (0x226E7, 0xCEA9),
  (0x22725, 0x84F3),
  (0x2272A, 0xC8C7),
  (0x2273A, 0xB0A7),
  (0x22754, 0xE2FC),
  (0x22772, 0xB3EE),
  (0x22836, 0xBBBC),
  (0x22846, 0xBFD2),
  (0x22865, 0xC3F5),
  (0x2287D, 0xCFA7),
  (0x228A7, 0xF6C5),
  (0x228F6, 0xC1AF),
  (0x22903, 0xEDAB),
  (0x2292D, 0x91AC),
  (0x229A1, 0xB8D0),
  (0x229A9, 0xB3C9),
  (0x229D0, 0xD5BD),
  (0x229E3, 0x8C76),
  (0x229F5, 0xBDD8),
  (0x229F7, 0xDEE2),
  (0x229FE, 0xB3E3),
  (0x22A37, 0xCBF9),
  (0x22A4C, 0xBCE7),
  (0x22A66, 0x814D),
  (0x22A84, 0x92DB),
  (0x22AB4, 0xDED5),
  (0x22ABB, 0xB3D0),
  (0x22ABF, 0xB9BC),
  (0x22AE6, 0xC5C4),
  (0x22AFD, 0xD2D6_D6B8),
  (0x22B0C, 0xB0CE),
  (0x22B34, 0xC9E3),
  (0x22B38, 0xC0A8),
  (0x22B40, 0xD0FD),
  (0x22B43, 0xB6CC),
  (0x22B4D, 0xB4A7),
  (0x22BC7, 0xD2BE),
  (0x22BEA, 0xB2F0),
  (0x22C07, 0xB0A4),
  (0x22C4A, 0xC2D3),
  (0x22C73, 0xBBD3),
  (0x22C8E, 0xB0E1),
  (0x22C95, 0xDEF1),
  (0x22C9C, 0xE9BE),
  (0x22CB8, 0xC2B0),
  (0x22CBB, 0xB4E9),
  (0x22CC0, 0xC4A6),
  (0x22D23, 0xD4F6),
  (0x22D3F, 0xB5F4),
  (0x22D44, 0xB4EB),
  (0x22DFC, 0xB4EA),
  (0x22E05, 0xC5CA_C4A1),
  (0x22E6C, 0xD3B5),
  (0x22EF3, 0xB7F6),
  (0x22F1C, 0xC9E2),
  (0x22F86, 0xBFAB),
  (0x22F8D, 0xB0BD),
  (0x22F99, 0xD1EF),
  (0x22FB0, 0xBBD5),
  (0x22FBF, 0xE272),
  (0x22FE0, 0xFC8B),
  (0x2301A, 0xD9E7),
  (0x2308A, 0xECD9),
  (0x23095, 0xCBB9),
  (0x230A2, 0xB6CF),
  (0x230A6, 0xD8DE),
  (0x230BA, 0xD0C2),
  (0x230E6, 0xCEF0),
  (0x23101, 0xCADC),
  (0x23103, 0xC6EC),
  (0x23128, 0xB56F),
  (0x23133, 0xCEE8),
  (0x23140, 0xD6BC),
  (0x2314A, 0xB2FD),
  (0x2314E, 0xCEEE),
  (0x2315C, 0xBDD4),
  (0x23162, 0x958D),
  (0x2316F, 0xD6E7),
  (0x2317C, 0xD4E7),
  (0x2319C, 0xC3C1),
  (0x23206, 0xBDFA),
  (0x2320D, 0xB5FE),
  (0x232A3, 0xF4AA),
  (0x23351, 0x834B),
  (0x2335D, 0xD6DB),
  (0x2339C, 0xD4D0),
  (0x233C2, 0xC9B1),
  (0x233D0, 0xE8BC),
  (0x233DD, 0xD5ED),
  (0x233F9, 0xD4D6),
  (0x233FD, 0xC3B6),
  (0x2340C, 0xCAE1),
  (0x23415, 0x974A),
  (0x23431, 0xC8E1),
  (0x23436, 0xB9D5_B9D5),
  (0x2346D, 0xD5A4),
  (0x2346F, 0xCCD2),
  (0x23471, 0xC8BE),
  (0x2348F, 0xBDB7),
  (0x234C0, 0xE9BB),
  (0x23580, 0xB9A3),
  (0x235F3, 0xCAF7),
  (0x2361C, 0xF3D7),
  (0x23694, 0xF4AA),
  (0x23698, 0xCEFE),
  (0x236A6, 0x8F89),
  (0x236D8, 0xE9BF),
  (0x2370E, 0xC870),
  (0x23723, 0xE25C),
  (0x23725, 0xCFAD_B5BC),
  (0x237B5, 0xDDD8),
  (0x237F4, 0xE3C5),
  (0x23898, 0xC9EB),
  (0x2389C, 0xDFCF),
  (0x238B8, 0xBFEE),
  (0x238D3, 0xC7B7),
  (0x238FD, 0xC7D5),
  (0x2391A, 0xE186),
  (0x23948, 0xBBE1_E5EB),
  (0x2394D, 0xBDFC),
  (0x23957, 0xC9D9),
  (0x2397B, 0xDB6B),
  (0x2399E, 0xD9E7),
  (0x239A1, 0xB3F9_DC4B),
  (0x239B8, 0xCBC0),
  (0x239C0, 0xBAEB),
  (0x239E9, 0xD6D5),
  (0x23A0F, 0xE9E2),
  (0x23A3B, 0xCB5E),
  (0x23A44, 0xE4DB),
  (0x23A46, 0xDAA4_B8AF),
  (0x23A52, 0x82F3),
  (0x23A85, 0xC5B9_C9B1),
  (0x23A96, 0xC9B1),
  (0x23AA9, 0xC9B1),
  (0x23AED, 0xC3BF),
  (0x23AF9, 0xE7E9),
  (0x23B23, 0xF445),
  (0x23C5C, 0xEBB3),
  (0x23C6E, 0xC7E2),
  (0x23C75, 0xD3C0),
  (0x23C83, 0xE3E7),
  (0x23C94, 0xC6FC),
  (0x23C97, 0x9C91_9D8E),
  (0x23CA0, 0xCFAB),
  (0x23CB4, 0xB7D0),
  (0x23CDA, 0xC3BB),
  (0x23CE5, 0xB6C9),
  (0x23D11, 0xC1F7),
  (0x23D26, 0xE3FC),
  (0x23D29, 0xE4BA),
  (0x23D32, 0xD4A1),
  (0x23D34, 0xBAA3),
  (0x23D5E, 0xC8DC),
  (0x23D7D, 0xCED6),
  (0x23D7F, 0xCFD1),
  (0x23D81, 0xE4C0),
  (0x23D83, 0xB3B1),
  (0x23DDD, 0xBDBD),
  (0x23DEA, 0xCDF4),
  (0x23E15, 0xCBAE),
  (0x23E6B, 0xBBEB),
  (0x23E8C, 0xC3EC),
  (0x23EAF, 0xCAAA),
  (0x23F1C, 0xD1CD),
  (0x23F45, 0xBBEE),
  (0x23F48, 0xE5A6),
  (0x23F5E, 0x8591),
  (0x23F67, 0x8C83),
  (0x23F85, 0xE4D5),
  (0x23FD1, 0xB8DB),
  (0x2404A, 0xBBC1),
  (0x2404C, 0xB0C4),
  (0x24084, 0xB2E2),
  (0x24109, 0xE4AF),
  (0x2414C, 0xC5A8_E4EE),
  (0x2418C, 0xD1D7_B3E0_D4D6),
  (0x24190, 0xBEC4),
  (0x241B2, 0xD4D6),
  (0x241BD, 0x9EC0),
  (0x241E1, 0xD0FE),
  (0x241F4, 0xCEF5),
  (0x2422E, 0xD4D6),
  (0x24263, 0xD4D6),
  (0x242B7, 0xB1BA),
  (0x242BA, 0x9F54),
  (0x242CF, 0x9FD3),
  (0x242EE, 0xCEF5),
  (0x242F0, 0xD6FA),
  (0x243B9, 0xCEF5),
  (0x243C1, 0xCEF5),
  (0x243D0, 0xC0C3),
  (0x24424, 0xCEF5),
  (0x2442B, 0xC6B1),
  (0x2447E, 0xECDD),
  (0x244C8, 0xCBB8),
  (0x24522, 0xC9A6),
  (0x24553, 0xD2AF),
  (0x24555, 0xB0D6),
  (0x2457A, 0xBCB2),
  (0x245B2, 0xBFDD),
  (0x245CA, 0xEBBA_C5C6),
  (0x245F1, 0xEBBB),
  (0x24604, 0xEBB9),
  (0x24608, 0xD1C0),
  (0x24625, 0xEAF2),
  (0x24634, 0xC4C1),
  (0x24657, 0xB7BD),
  (0x24668, 0xCAF8),
  (0x2468C, 0xCFAC),
  (0x246B4, 0xC4B5),
  (0x24733, 0xCAA8),
  (0x2473D, 0xD876),
  (0x24751, 0xB7B8),
  (0x2477D, 0xD87C),
  (0x2477F, 0x84C1),
  (0x247C4, 0xC7BB),
  (0x247CB, 0xBDC6),
  (0x247D4, 0xE2EA),
  (0x247D7, 0xD4B3),
  (0x247E7, 0xDDDF),
  (0x24815, 0xD0F3),
  (0x2483E, 0xD88C),
  (0x24846, 0xD871),
  (0x2486C, 0xD873),
  (0x2489A, 0xCADE),
  (0x2489C, 0xB6C0),
  (0x248CA, 0xE1EE),
  (0x248F5, 0xBEC1),
  (0x24908, 0xBAF7),
  (0x2497F, 0xCE64),
  (0x249A6, 0xB0E0),
  (0x249B3, 0xE7F5),
  (0x249F0, 0xC5FD),
  (0x249F2, 0xC5C3),
  (0x24A14, 0xBBB7),
  (0x24A40, 0xC9BA),
  (0x24AE9, 0xC1E1),
  (0x24B17, 0xF0AD),
  (0x24B21, 0xC6B0),
  (0x24B2E, 0xC6BF),
  (0x24B5B, 0x88D5),
  (0x24B79, 0xB0BB),
  (0x24B9B, 0xDBD4),
  (0x24BD3, 0xC9FA_C8CB),
  (0x24BDB, 0xF3CF),
  (0x24BF3, 0xAE64),
  (0x24BF7, 0xC88F),
  (0x24C06, 0xD3C3),
  (0x24C1E, 0xB1B0),
  (0x24C34, 0xCDFE_CEB7_C9EA),
  (0x24C65, 0xEEB3),
  (0x24C71, 0xD4D8),
  (0x24C95, 0x88C0),
  (0x24C99, 0xDBCE),
  (0x24C9C, 0xB1CF),
  (0x24DC2, 0xF0F2),
  (0x24DD0, 0xC3A4),
  (0x24DE0, 0xF0F6),
  (0x24E06, 0xF0F4),
  (0x24E0B, 0xBDEA),
  (0x24E1F, 0xD6CC),
  (0x24E8A, 0xCBBB),
  (0x24EE8, 0xBBBE),
  (0x24EF2, 0xC1C6),
  (0x24F29, 0xB9EF_B5C7),
  (0x24F37, 0xB5C7),
  (0x24F50, 0xC6C8),
  (0x25022, 0xFC8B),
  (0x25039, 0xF5C2),
  (0x25044, 0xD3DB),
  (0x25049, 0xEEC2),
  (0x2506A, 0xC3CF),
  (0x25070, 0xC3CB),
  (0x2507A, 0xE161),
  (0x250AF, 0xDDCF),
  (0x250E9, 0xD1DB),
  (0x250F3, 0xEDEC),
  (0x2510C, 0xB242),
  (0x25122, 0xCFE0),
  (0x2516D, 0xCAD3),
  (0x25171, 0xCAA1),
  (0x251E1, 0xB247),
  (0x25205, 0xEC74),
  (0x25228, 0xB24C),
  (0x252BC, 0xEEAA),
  (0x252CD, 0xCBAF),
  (0x25312, 0xEEAD),
  (0x2531D, 0xEEA9),
  (0x2533A, 0xB287),
  (0x2536F, 0xEFD4),
  (0x2537F, 0xB6DC),
  (0x25384, 0xC7B9),
  (0x253BF, 0xD6AA),
  (0x253F5, 0xC1F6),
  (0x25417, 0xEDBE),
  (0x2543A, 0xEDC6),
  (0x2544A, 0xC4EB),
  (0x254CB, 0xD1D0),
  (0x254CF, 0xDCA4),
  (0x254D3, 0xB1AE),
  (0x25510, 0xBFC4),
  (0x25553, 0xC4AE),
  (0x2555A, 0xDCFD),
  (0x25566, 0xEDDE),
  (0x25571, 0xC5F0),
  (0x25574, 0xC0F9),
  (0x255F7, 0xD5B7),
  (0x25614, 0xD4D6),
  (0x25616, 0xCDB7),
  (0x25621, 0xB56F),
  (0x2564A, 0xBCC0),
  (0x2564D, 0xC9F1),
  (0x256DC, 0xD7E6),
  (0x25731, 0xCBEE),
  (0x25750, 0xB1FC),
  (0x25757, 0xDCBB),
  (0x25762, 0xC0FB),
  (0x25777, 0xB8FB),
  (0x257AB, 0xCAF2),
  (0x2583C, 0xC7D8),
  (0x25877, 0xCEC8),
  (0x25893, 0xCADA),
  (0x2592F, 0xBEBF),
  (0x2593E, 0xC7CF_B840),
  (0x25949, 0xE1B6),
  (0x25963, 0xD4AB),
  (0x2598E, 0xB1F6),
  (0x2599C, 0xDCA1),
  (0x259BD, 0x8C81),
  (0x259CA, 0xDCA5),
  (0x259E2, 0xBF5E),
  (0x259E8, 0xB1F6),
  (0x25A12, 0xB4DC),
  (0x25A50, 0xF1BC),
  (0x25A60, 0xD5BE),
  (0x25A73, 0xB4FD),
  (0x25AE1, 0xF3C4),
  (0x25B16, 0xC6A4),
  (0x25B30, 0xB2E1),
  (0x25B8F, 0xB5E4),
  (0x25BD2, 0xD4D4),
  (0x25CE6, 0xCBF1),
  (0x25D8E, 0xDDCF),
  (0x25D9E, 0x8BF9),
  (0x25DDF, 0xDDCF),
  (0x25E4E, 0xBB7B),
  (0x25E6A, 0xF4D6),
  (0x25E9E, 0xD6E0),
  (0x25EC6, 0xCBDA),
  (0x25ED5, 0xF4D6),
  (0x25F3E, 0xF4D6),
  (0x25F86, 0xBEC0),
  (0x25F91, 0xB4BF),
  (0x25FA0, 0xC8D2_D1A4),
  (0x25FA8, 0xE6FC),
  (0x25FBA, 0xD7DD),
  (0x25FC9, 0xCDE0),
  (0x25FCC, 0xD089),
  (0x25FD1, 0xC2DA),
  (0x25FD3, 0xBCCD),
  (0x25FF3, 0xCFB8),
  (0x26007, 0xBEAD),
  (0x26012, 0x83DB),
  (0x2601F, 0xC9B4),
  (0x26065, 0xEDE9),
  (0x260B2, 0xEDE9_BDF4),
  (0x260B5, 0xD7DD_E7B2),
  (0x260C5, 0xC2E7),
  (0x260E7, 0xB1CC),
  (0x260F0, 0xC9FE),
  (0x26132, 0xCBF5),
  (0x2614D, 0xE7D0),
  (0x26167, 0xEDE9),
  (0x26196, 0xE7D4),
  (0x261AB, 0xB0F3),
  (0x261C4, 0xC0DC),
  (0x261DA, 0xD2CD),
  (0x261FB, 0xBBBA),
  (0x26247, 0xC6BF),
  (0x262B0, 0xC15C),
  (0x262C0, 0xC15C),
  (0x262DA, 0xD5D6),
  (0x262E7, 0xCAF0),
  (0x26304, 0xC15C),
  (0x26310, 0xEEBE),
  (0x26334, 0xC2DE),
  (0x26336, 0xC15C),
  (0x2633E, 0xC15C_F5A7),
  (0x26343, 0xC15C),
  (0x26346, 0xC15C),
  (0x2635B, 0xC16B),
  (0x2638B, 0xF5F4),
  (0x263A4, 0xF7B7),
  (0x263C1, 0xF4CB),
  (0x263E0, 0xB8E1),
  (0x263F2, 0xD3F0),
  (0x2641C, 0xB4E4),
  (0x2642C, 0xF4E2),
  (0x2644A, 0xECBA),
  (0x26474, 0xCE97),
  (0x2648B, 0xBAB2),
  (0x264A1, 0xB0BF_B0BF),
  (0x264B1, 0xBFBC),
  (0x264BF, 0xEAC8),
  (0x264D4, 0xD0E8),
  (0x26515, 0x88EE),
  (0x2657C, 0xC1C4),
  (0x265F7, 0xF1FA),
  (0x2661F, 0xD5D8),
  (0x2663B, 0xEBC1),
  (0x2665B, 0xEBC6),
  (0x26669, 0xEBC8),
  (0x2666D, 0xCCDB),
  (0x26675, 0xCDF3_B9C9),
  (0x266C1, 0xC4D4),
  (0x26709, 0xC6A2),
  (0x26721, 0xD6CB),
  (0x26736, 0xB0F2),
  (0x26769, 0xCEB8),
  (0x2676B, 0xD1FC),
  (0x2676D, 0xC0E0),
  (0x267A4, 0xD8B6),
  (0x267A7, 0xC1F6),
  (0x267AC, 0xEBEC),
  (0x267B5, 0xBBA9),
  (0x267DD, 0xBCB9),
  (0x267E6, 0xC4A4),
  (0x267EF, 0xC0DF),
  (0x267F3, 0xF5B6),
  (0x2681D, 0xC1F6),
  (0x268DE, 0xD2C3),
  (0x268EE, 0xB9C2),
  (0x268FA, 0xB0D7),
  (0x26900, 0xB3F4),
  (0x26903, 0xBBCA),
  (0x26906, 0xEB85),
  (0x2690C, 0xF4DF),
  (0x26913, 0xB1C7),
  (0x26933, 0xD6C1),
  (0x2693F, 0xCEDD),
  (0x26946, 0xCED5_D5E9),
  (0x26951, 0x84FB),
  (0x26959, 0xD2B7),
  (0x2695D, 0xD2A8),
  (0x26967, 0xB1E1),
  (0x2699A, 0xD2FA),
  (0x269B6, 0xC8C0),
  (0x269CA, 0xCBB1),
  (0x26A31, 0xBDF2),
  (0x26A85, 0xCDA7),
  (0x26ADC, 0xDA56),
  (0x26B0A, 0xDCBB),
  (0x26B21, 0xDDCD),
  (0x26B3C, 0xCB6E),
  (0x26B42, 0xDDD1),
  (0x26B82, 0xDDE9),
  (0x26B8F, 0xB4CE),
  (0x26BBF, 0xC881),
  (0x26BD3, 0xDDCF),
  (0x26BED, 0xC68F),
  (0x26BF1, 0xC68F),
  (0x26BF8, 0xDCBB),
  (0x26C52, 0xDCD9),
  (0x26C54, 0xB1CD),
  (0x26C64, 0xC4AA),
  (0x26CAD, 0xDDDD),
  (0x26CCB, 0xC6EA),
  (0x26CCE, 0xDDCF),
  (0x26CDD, 0xCB54),
  (0x26CE4, 0xCB91),
  (0x26CF2, 0xC88D_DDE8),
  (0x26D2B, 0xC94E),
  (0x26D2D, 0xC3EA),
  (0x26D54, 0xDDCF),
  (0x26D87, 0xBF5E),
  (0x26D96, 0xCC7B),
  (0x26D9C, 0xC68F),
  (0x26DAC, 0xC89A),
  (0x26DDB, 0x82F5),
  (0x26DF2, 0xC96A),
  (0x26E00, 0xCB73),
  (0x26E06, 0xDCBB),
  (0x26E0B, 0xCA47),
  (0x26E0E, 0xDDAA),
  (0x26E2D, 0xC695),
  (0x26E2F, 0xDDB7),
  (0x26E32, 0xC5BA_DDEA),
  (0x26E4A, 0xC695),
  (0x26E88, 0xDDA5),
  (0x26E92, 0xC98B),
  (0x26E95, 0xCC6C),
  (0x26E9D, 0xCB66),
  (0x26EB3, 0xDEB2),
  (0x26EC2, 0xCB56_DDC8),
  (0x26EE5, 0xB7C6_CCD1),
  (0x26F0D, 0xDDB8),
  (0x26F2C, 0xDDCF),
  (0x26F30, 0xCB7E),
  (0x26F48, 0xDDB5),
  (0x26F5D, 0xC97A),
  (0x26F60, 0xCA54),
  (0x26F67, 0xDDAC),
  (0x26F69, 0xC8E0),
  (0x26F77, 0xC885),
  (0x26F94, 0xBEC9),
  (0x26FAA, 0xD9E7),
  (0x26FAF, 0xC78A),
  (0x26FB1, 0xB3AD),
  (0x26FB4, 0xDEC0),
  (0x26FB7, 0xDEA4),
  (0x26FC8, 0xCC67),
  (0x26FD8, 0xDDCF),
  (0x26FE0, 0xC966_CB77),
  (0x26FE6, 0xCC6E),
  (0x27009, 0xD4E5),
  (0x2701B, 0xCB8D),
  (0x27026, 0xC99D),
  (0x2703D, 0xDDCF_CA83),
  (0x2704E, 0xD9E7),
  (0x27055, 0xC991),
  (0x27084, 0xDDCC),
  (0x27087, 0xDDA1),
  (0x2708A, 0xDEAF),
  (0x27090, 0xBBFD),
  (0x27099, 0xCA93_DDCF),
  (0x270B0, 0xDDA3_DEA7_BED5_CA73),
  (0x270C8, 0xBED5),
  (0x270CD, 0xD9E7),
  (0x270D3, 0xBED5),
  (0x270DC, 0xCB7D),
  (0x270F0, 0xD9E7),
  (0x27116, 0xCA45_DDCF),
  (0x27137, 0xCC88),
  (0x27141, 0xCB4B),
  (0x2714F, 0xDEBC),
  (0x2715B, 0xCB79_CC43_C998),
  (0x27188, 0xCB84),
  (0x2718A, 0xCC8B),
  (0x27191, 0xDEBD),
  (0x271C1, 0xF2AE),
  (0x271C3, 0xCC9E),
  (0x271C7, 0xCC91),
  (0x271D0, 0xCCA0_CC99),
  (0x27205, 0xCC9F),
  (0x2720B, 0xDDCB),
  (0x27220, 0xD4E9),
  (0x27227, 0xCBE4),
  (0x2722C, 0xBAE7),
  (0x27265, 0xB1B1),
  (0x27275, 0xCD4C),
  (0x27286, 0xCD6B),
  (0x2728D, 0xCD58),
  (0x27296, 0xCF64),
  (0x2729B, 0xCD6D),
  (0x272A1, 0xF2CB_CD6C),
  (0x272A4, 0xF2E6),
  (0x272A7, 0xB8F2),
  (0x272AE, 0xCD8B),
  (0x272B0, 0xCD7E),
  (0x272D9, 0xCF5A),
  (0x27312, 0xF2E2),
  (0x27332, 0xD6A9),
  (0x27337, 0xCE88),
  (0x2733F, 0xCE5A),
  (0x27353, 0xF3B0),
  (0x27357, 0xCF9A_F2CA),
  (0x2735B, 0xD3BC),
  (0x27367, 0xCE8B),
  (0x27371, 0xCF48),
  (0x2737D, 0xCE95),
  (0x2737F, 0xF2D1_F2E1_F2BB_CFBA),
  (0x27397, 0xF2F2),
  (0x273A9, 0xCD45),
  (0x273C5, 0xF3A7),
  (0x273CD, 0xF2CF),
  (0x273CF, 0xC7F9),
  (0x273D5, 0xCE92),
  (0x273E9, 0xCE9A),
  (0x273F8, 0xCF44),
  (0x27400, 0xD04C),
  (0x27404, 0xCF4C),
  (0x27407, 0xCF47),
  (0x27409, 0xD6A9),
  (0x2741A, 0xCF56_F2F3),
  (0x2742E, 0xCF4D),
  (0x27433, 0xCF46),
  (0x27446, 0xCE75),
  (0x27463, 0xF2CD),
  (0x27468, 0xCD89),
  (0x27494, 0xCD8F),
  (0x274A6, 0xD5DD),
  (0x274AA, 0xCE65),
  (0x274BC, 0xCF84),
  (0x274BE, 0xCF7D),
  (0x274C9, 0xF2D3),
  (0x274CC, 0xD3A9),
  (0x274CE, 0xCE93),
  (0x274D2, 0xF2BE),
  (0x274DB, 0xF3A8),
  (0x274F1, 0xCE69),
  (0x274F3, 0xF2CE),
  (0x27508, 0xEEC3),
  (0x27518, 0xCF8D),
  (0x2752B, 0xCE50),
  (0x27549, 0xCE89),
  (0x27550, 0xF3A9),
  (0x27573, 0xD9F9),
  (0x2757E, 0xCF98),
  (0x27580, 0xD058),
  (0x2758B, 0xCF72),
  (0x27599, 0xF2B9_F2DD),
  (0x275AD, 0xD059),
  (0x275AF, 0xD05B),
  (0x275CE, 0xDDCF),
  (0x275D7, 0xF4AC_DDCF_D061),
  (0x275E1, 0xD062),
  (0x275F3, 0xD066),
  (0x27602, 0xD06E),
  (0x27623, 0xD14E_D09D),
  (0x2762D, 0xF4C0),
  (0x27637, 0xD07C),
  (0x2764A, 0xD150),
  (0x2765F, 0xD09A),
  (0x27665, 0xD274),
  (0x27669, 0xC1D1_D191),
  (0x27688, 0xD177),
  (0x2768C, 0xD7B0_F4C3),
  (0x2769B, 0xD174_F1DD_B2C3),
  (0x276BA, 0xD1A0),
  (0x276D6, 0xD074),
  (0x276E0, 0xD15C_D249_EDE9),
  (0x27737, 0xD245),
  (0x27744, 0xF1E0),
  (0x27749, 0xEDE9),
  (0x27750, 0xD17B),
  (0x27775, 0xD181),
  (0x2777A, 0xD9F3),
  (0x27796, 0xD183),
  (0x277AB, 0xD156),
  (0x277B2, 0xD26E),
  (0x277B7, 0xD19C_D260),
  (0x277CA, 0xD271),
  (0x277CE, 0xD26C),
  (0x277D0, 0xD27D),
  (0x277D2, 0xD261),
  (0x277D4, 0xD247),
  (0x277D9, 0xD087),
  (0x277F6, 0xB0D4),
  (0x27811, 0xD291),
  (0x27828, 0xD29A),
  (0x27877, 0xD29D),
  (0x2789A, 0xEAEE),
  (0x278A2, 0xB287),
  (0x278AE, 0xB297),
  (0x278B1, 0xD0D4),
  (0x278C2, 0xD36D),
  (0x2790C, 0xD375),
  (0x27931, 0xD371),
  (0x27955, 0xCF60),
  (0x27966, 0xD392),
  (0x27973, 0xCAAB),
  (0x27976, 0xDABF_C6FD),
  (0x2797A, 0xD9EA),
  (0x2797D, 0xD582_CAB6),
  (0x27992, 0xDAAE),
  (0x27998, 0xD573),
  (0x279AB, 0xDAB1),
  (0x279BD, 0xD5EF_BEF7),
  (0x279CF, 0xDFF6),
  (0x279E1, 0xCBCF),
  (0x279E7, 0xEEBA),
  (0x279F2, 0xD465),
  (0x279FF, 0xBDCC),
  (0x27A0F, 0xD2EA),
  (0x27A1B, 0xD48B),
  (0x27A1E, 0xD66C),
  (0x27A23, 0xDAAB),
  (0x27A28, 0xDAD7),
  (0x27A2C, 0xD57C_BCE0),
  (0x27A3D, 0xD463),
  (0x27A40, 0xD696),
  (0x27A42, 0xB0F9),
  (0x27A50, 0xD592),
  (0x27A5B, 0xD1AF),
  (0x27A60, 0xB7ED),
  (0x27A6A, 0xD681),
  (0x27A7B, 0xDAC1),
  (0x27A7D, 0xD7BB),
  (0x27A9F, 0xD577),
  (0x27AAE, 0xD67E),
  (0x27AB3, 0xD64C),
  (0x27AE0, 0xD583),
  (0x27AE7, 0xDACF),
  (0x27AEA, 0xDACA),
  (0x27AF8, 0xD476),
  (0x27B03, 0xD6A0_D0BB),
  (0x27B0C, 0xD650_DAD8),
  (0x27B13, 0xD695),
  (0x27B21, 0xD585),
  (0x27B2D, 0xD5A0),
  (0x27B2F, 0xE5C0),
  (0x27B33, 0xD2EB),
  (0x27B58, 0xC6D7),
  (0x27B64, 0xD663),
  (0x27B74, 0xD758),
  (0x27B90, 0xD78D),
  (0x27B9B, 0xD682),
  (0x27BA3, 0xD565),
  (0x27BAE, 0xDAE4_D841_D845),
  (0x27BB7, 0xD843),
  (0x27BCB, 0xD842),
  (0x27BDB, 0x89D4),
  (0x27BE0, 0x8472_CDE3),
  (0x27BED, 0xD84F),
  (0x27BFF, 0xDCB1),
  (0x27C42, 0xD86F),
  (0x27C4F, 0xD85B),
  (0x27C51, 0xD861),
  (0x27C5F, 0xD863),
  (0x27C71, 0xD864),
  (0x27C74, 0xAA75),
  (0x27C8F, 0xD868_D86D),
  (0x27CB2, 0xBAFC),
  (0x27CC7, 0xBAD1),
  (0x27CD4, 0xD87D),
  (0x27CE0, 0xD884),
  (0x27CED, 0xCE7A),
  (0x27CF2, 0xD887),
  (0x27D39, 0xEADB),
  (0x27D44, 0xCD56_CD4D),
  (0x27D47, 0xD950),
  (0x27D4E, 0xBCD6),
  (0x27D69, 0xD4F0_D4F4),
  (0x27D6E, 0xEADC),
  (0x27D85, 0xBBDF),
  (0x27D99, 0xB1B3),
  (0x27D9B, 0xEAE3),
  (0x27D9E, 0xCE44),
  (0x27DA1, 0xE5B5),
  (0x27DB4, 0xB6C4),
  (0x27DB6, 0xB7B7),
  (0x27DBB, 0xC3B3),
  (0x27DBD, 0xB4CD),
  (0x27DC9, 0xD96F),
  (0x27DD5, 0xD7CA),
  (0x27DE0, 0xDA4B),
  (0x27DE4, 0xD8D3),
  (0x27DFC, 0xD999),
  (0x27E03, 0xD2C5),
  (0x27E06, 0xD7B8),
  (0x27E0A, 0xB9BA),
  (0x27E11, 0xD4F9),
  (0x27E16, 0xD7AC),
  (0x27E18, 0xD99C),
  (0x27E1A, 0xC2B8),
  (0x27E2F, 0xD2C5),
  (0x27E37, 0xDA47),
  (0x27E3D, 0xD2C5),
  (0x27E52, 0xC2F2),
  (0x27E5E, 0xF4F6),
  (0x27E79, 0xB3E3),
  (0x27E87, 0xF4F1),
  (0x27EAB, 0xC6F0),
  (0x27ECE, 0xDA68),
  (0x27EDB, 0xDA5E),
  (0x27EEF, 0xDA62),
  (0x27EFB, 0xDA75),
  (0x27F62, 0xB2AB),
  (0x27F92, 0xDA65),
  (0x27F9F, 0xDA8C),
  (0x27FA2, 0xD3E3),
  (0x27FC1, 0xEBBE),
  (0x27FC4, 0xDB61),
  (0x27FD6, 0xF5BC),
  (0x27FDB, 0xD7D9),
  (0x27FF6, 0xF5C9),
  (0x27FFA, 0xDA6B),
  (0x28013, 0xC5DC),
  (0x2801F, 0xF5E2),
  (0x28040, 0xDB53),
  (0x28048, 0xDE86),
  (0x2807B, 0xF5DE),
  (0x280A7, 0xDC4A),
  (0x280AB, 0xDA97),
  (0x280DD, 0xDB54),
  (0x280DF, 0xF5E7),
  (0x280E1, 0xF5D5),
  (0x28103, 0xF5EE),
  (0x28119, 0xDB52),
  (0x2814C, 0x85C5),
  (0x28162, 0xDC40),
  (0x28175, 0xCCA4_D4EA),
  (0x2818D, 0xF5F1),
  (0x281AE, 0xDB65_F5EB),
  (0x281B2, 0xCEC8),
  (0x281CB, 0xDB88),
  (0x281DA, 0xDB9D),
  (0x281E5, 0xE5BF),
  (0x281E8, 0xDC61),
  (0x281F1, 0xF5E4),
  (0x281F3, 0xF5ED),
  (0x2822C, 0xC7FB),
  (0x28235, 0xF5CB),
  (0x2823B, 0xD7D4),
  (0x28246, 0xB4E0_D4D6),
  (0x28257, 0xDC86),
  (0x28289, 0xB4E0),
  (0x282A0, 0xDC8F),
  (0x282AF, 0xDC94),
  (0x282B5, 0xDD40_DD50),
  (0x282BA, 0xDD44),
  (0x282BE, 0xE9FE),
  (0x282CF, 0xE9F4),
  (0x282E9, 0xDD95),
  (0x282FB, 0x86CB_CED3),
  (0x28302, 0xDC9C),
  (0x28307, 0xD6E1),
  (0x28323, 0xDC98),
  (0x2832E, 0xDD42_DD68),
  (0x2834B, 0xDD7B),
  (0x2836C, 0xDD9F),
  (0x28373, 0xE9F7),
  (0x2837B, 0xE9FD),
  (0x28385, 0xDD88),
  (0x2838A, 0xB9F5),
  (0x28395, 0xDE52),
  (0x283A6, 0xDE42),
  (0x283A8, 0xDE4D_DD5F_DD5B),
  (0x283B2, 0xE9FB),
  (0x283CA, 0xDE59),
  (0x283CF, 0xEAA5),
  (0x283D1, 0xE9F9),
  (0x283D4, 0xEAA4),
  (0x283D9, 0xDE53),
  (0x283E3, 0xD5DE),
  (0x2840C, 0xD0C1),
  (0x2842B, 0xC6A9),
  (0x2844D, 0xB9EC),
  (0x28450, 0xC6F9),
  (0x28453, 0xC6F0_C6F0),
  (0x28456, 0xC6F0),
  (0x2845E, 0xDE84),
  (0x28466, 0xD0EC),
  (0x28477, 0xD1B8),
  (0x2848E, 0xE5D7),
  (0x284A6, 0xD3AD),
  (0x284B2, 0xC3D4),
  (0x284C6, 0xCDCB),
  (0x284CC, 0xD4D6),
  (0x284D8, 0xDE9C),
  (0x284DC, 0xD2DD),
  (0x284E7, 0xD2A3),
  (0x284EC, 0xDF65),
  (0x284F5, 0xCBCD),
  (0x2851C, 0xDE98),
  (0x28524, 0xDF6F),
  (0x2852A, 0xD4CB),
  (0x2855D, 0xE5CD),
  (0x28589, 0xE5E0),
  (0x2859D, 0xF6AA),
  (0x285A5, 0xD5DA),
  (0x285BD, 0xD2C5),
  (0x285C0, 0xDF48),
  (0x285D2, 0xF6AA),
  (0x285D4, 0xD2C5_D7F1),
  (0x285DD, 0xDF79),
  (0x285E0, 0xF6AA),
  (0x285ED, 0xD2C5_D2C5_E5DB),
  (0x285F9, 0xB5D1),
  (0x28611, 0xC1AC),
  (0x28624, 0xD2C5),
  (0x2862B, 0xE5D3),
  (0x28636, 0xE5CE_E5E3),
  (0x28645, 0xDF87),
  (0x28655, 0xE5D5),
  (0x2865A, 0xC2F5),
  (0x2867C, 0xDBAB),
  (0x28682, 0xDF92),
  (0x2868A, 0xDF98),
  (0x2868F, 0xDBA1),
  (0x28693, 0xE08A),
  (0x286A0, 0xBAAA),
  (0x286A8, 0xE043),
  (0x286AC, 0xC7F1),
  (0x286C4, 0xD7DE),
  (0x286E6, 0xBFA4),
  (0x286EB, 0xC0E8),
  (0x286F7, 0xB6BC_E082),
  (0x28725, 0xDBAA_E051),
  (0x2872E, 0xC7E4),
  (0x28739, 0xE04B),
  (0x28741, 0xDBA8),
  (0x28765, 0xC0C9),
  (0x2876C, 0xE086),
  (0x2876E, 0xDBB8),
  (0x28776, 0xE074),
  (0x28782, 0xE0A0),
  (0x28784, 0xD3CA_E064),
  (0x28787, 0xDBB0),
  (0x28789, 0xDBB2),
  (0x2878F, 0xB5A6),
  (0x28796, 0xDBB9),
  (0x287A1, 0xDBA6),
  (0x287AF, 0xE096),
  (0x287B3, 0xD8E6),
  (0x287B5, 0xE08E),
  (0x287BC, 0xE084),
  (0x287C0, 0xC0E8),
  (0x287CC, 0xE089),
  (0x287CE, 0xE140),
  (0x287D5, 0xE074),
  (0x287F4, 0xE153),
  (0x287F7, 0xF5AC),
  (0x287FB, 0xBDB4),
  (0x28801, 0xE147_F5AD),
  (0x2880F, 0xF5AE),
  (0x28815, 0xE16B),
  (0x28817, 0xE16C),
  (0x28820, 0xD0D1),
  (0x2882A, 0xD7ED),
  (0x28845, 0xC3D1),
  (0x28860, 0xF5AF),
  (0x28869, 0xE177),
  (0x28880, 0xBDCD),
  (0x2889A, 0xE169),
  (0x288A9, 0xF5FC),
  (0x288AC, 0xF5A9_CBD6),
  (0x288BD, 0xCBE1_E17D),
  (0x288CB, 0xB4D7),
  (0x288E0, 0xE179),
  (0x28907, 0xE167),
  (0x28909, 0xE178),
  (0x2890C, 0xE176_E181),
  (0x28913, 0xBEEC),
  (0x2894A, 0xE24D),
  (0x2894C, 0xE372_F6C6),
  (0x2894F, 0xB8AA),
  (0x28969, 0xEED4),
  (0x28979, 0xE345),
  (0x2897B, 0xE266),
  (0x2899F, 0xB7E6),
  (0x289AD, 0xEFA9),
  (0x289B0, 0xE742),
  (0x289B2, 0xE35D),
  (0x289E6, 0xE49A),
  (0x289E9, 0xE77C),
  (0x289EB, 0x8481),
  (0x289F2, 0xE645),
  (0x28A37, 0xE584),
  (0x28A89, 0xE58D),
  (0x28A8E, 0xE79F),
  (0x28A90, 0xEED7),
  (0x28A93, 0xE599),
  (0x28ACF, 0xE473_E387),
  (0x28AD8, 0xEFC9),
  (0x28AFC, 0xF6CB_EEFC),
  (0x28B10, 0xEFE3),
  (0x28B5C, 0xEFDC_EFA1_E6A0),
  (0x28B7C, 0xC1CD),
  (0x28B93, 0xEFE4_E560),
  (0x28BAB, 0xE85B),
  (0x28BDF, 0xEFEC),
  (0x28BE1, 0xE858),
  (0x28C0C, 0xE59D),
  (0x28C24, 0xEEE5),
  (0x28CB4, 0xDA40),
  (0x28CF5, 0xE96F),
  (0x28CFE, 0xB576),
  (0x28D01, 0xB2FB),
  (0x28D14, 0xEA56),
  (0x28D41, 0xD1D6),
  (0x28D77, 0xE3D1),
  (0x28D9D, 0xDBD3),
  (0x28DF7, 0xC3F6),
  (0x28E0F, 0xB8B7),
  (0x28E18, 0xC8EE),
  (0x28E1D, 0xCACF),
  (0x28E42, 0x888F),
  (0x28E4A, 0xEA83),
  (0x28E4E, 0xCFDE),
  (0x28E5F, 0xC2AA),
  (0x28E76, 0xEB59_EB59),
  (0x28EA8, 0xB6F5),
  (0x28EB5, 0xB6D3),
  (0x28ED5, 0xEB59),
  (0x28EF6, 0xCFB6),
  (0x28F11, 0x8893),
  (0x28F4D, 0xD84B),
  (0x28F58, 0xEB59),
  (0x28F80, 0xC1A5),
  (0x28FA5, 0xF0C4),
  (0x28FF3, 0xD3A5),
  (0x2900C, 0xC0EB),
  (0x29015, 0xF6C5),
  (0x29018, 0xF0CE),
  (0x29021, 0xC4D1),
  (0x29050, 0xF0D8),
  (0x290EC, 0xD2F5),
  (0x2911F, 0xB0A8),
  (0x2912B, 0xF6AA),
  (0x29145, 0xE4E8),
  (0x29147, 0xC99E),
  (0x2915F, 0xB1A2),
  (0x29186, 0xF6AA),
  (0x29242, 0xD8CC),
  (0x2926A, 0xBF5E),
  (0x2927C, 0xC9F0),
  (0x29293, 0xE392),
  (0x292A6, 0xE1F7),
  (0x292B3, 0xB9AE),
  (0x292BF, 0xF4AA),
  (0x292CE, 0xBEF3),
  (0x292F0, 0xE6FB),
  (0x2933B, 0xB1DE),
  (0x29346, 0xF4AA),
  (0x29359, 0xDE51),
  (0x2940A, 0xECB4),
  (0x2942D, 0xDAC5),
  (0x2944B, 0xD2B3),
  (0x2947C, 0xC6C4),
  (0x29486, 0xB6A5),
  (0x29491, 0xBFF4),
  (0x2949B, 0xC6DD),
  (0x294B5, 0xC7EA),
  (0x294CB, 0xC0B5),
  (0x294EB, 0xD36A),
  (0x29516, 0xC0E0),
  (0x2951A, 0xCECC),
  (0x2951C, 0xCBCC),
  (0x29530, 0xCFD4),
  (0x2953A, 0xC2AD),
  (0x29553, 0xD4A4),
  (0x2958E, 0xDEB0),
  (0x29593, 0xF2AD),
  (0x295CB, 0xB7AB),
  (0x295D7, 0xECAB),
  (0x2964E, 0xD9D0),
  (0x29681, 0xCAB3),
  (0x2968A, 0xE2BD),
  (0x2968E, 0xBCA2_E2B8),
  (0x296B7, 0xC1A3),
  (0x296CA, 0xB1A5),
  (0x296DD, 0xF5AA),
  (0x2970B, 0xE2C3),
  (0x29719, 0xC8C4),
  (0x2972F, 0xE2C8),
  (0x29759, 0xCAC8),
  (0x297B9, 0xF7D0),
  (0x29810, 0xCAD7),
  (0x2982E, 0xD9E7),
  (0x29839, 0x8496),
  (0x29851, 0xF0A5),
  (0x29888, 0xF168),
  (0x298CE, 0xF168),
  (0x2991D, 0xE6F0),
  (0x299A6, 0xF376),
  (0x299BC, 0xC2E6),
  (0x299D9, 0xE6F4),
  (0x299E2, 0xB3D2),
  (0x29A23, 0xB7BE),
  (0x29A3A, 0xB0B9),
  (0x29A8B, 0xF2FC),
  (0x29AA0, 0xE2DF),
  (0x29AEB, 0xDAF0),
  (0x29C6C, 0xC1DC),
  (0x29D4B, 0xD3E3),
  (0x29D6A, 0xF744),
  (0x29DF1, 0xF744),
  (0x29EB4, 0xF7A9),
  (0x29EBA, 0xF744),
  (0x29F06, 0xC0F0),
  (0x29F1E, 0xC0F0),
  (0x29F59, 0xF744),
  (0x29F97, 0xF84A),
  (0x29FC7, 0xB9CD),
  (0x2A057, 0xD1BC),
  (0x2A069, 0xEFF4),
  (0x2A0A1, 0xC5F4),
  (0x2A1AA, 0xFA64),
  (0x2A1BE, 0xF0C8),
  (0x2A291, 0xFB85),
  (0x2A2A8, 0xF7E4),
  (0x2A2E7, 0xF7EA),
  (0x2A301, 0xC3A2),
  (0x2A311, 0xB0BE),
  (0x2A369, 0xC2F8),
  (0x2A396, 0xC3D3),
  (0x2A424, 0xF6CF),
  (0x2A45B, 0xFC71),
  (0x2A471, 0x848D),
  (0x2A4A0, 0xF7F6),
  (0x2A4DC, 0xCD6F),
  (0x2A4F3, 0xD6A9),
  (0x2A4F6, 0xFC81),
  (0x2A505, 0xD4B1),
  (0x2A52B, 0xFC8B),
  (0x2A535, 0xFC8B),
  (0x2A5A6, 0xCCE9),
  (0x2A5C7, 0xC6EA),
  (0x2A5C9, 0xF4D2),
  (0x2A600, 0xCDC5),
  (0x2A60F, 0xDB55),
  (0x2A68F, 0xCDC5),
  (0x2B592, 0xED7B),
  (0x2B5AF, 0xEE5C),
  (0x2B6DA, 0xF85A),
  (0x2F800, 0xC0F6_CDE8),
  (0x2F804, 0xC4E3_CEEA_824D_81E3_D4DB_B1B8_C9AE_CFF1_BFA1),
  (0x2F80E, 0xC3E2_CDC3),
  (0x2F814, 0xC4DA_D4D9_B2E1_C8DF_D4A9_B1F9_B6AC_BFF6),
  (0x2F81D, 0xDBC9_C8D0),
  (0x2F820, 0xBFCC),
  (0x2F822, 0xB8EE_8495),
  (0x2F825, 0xD3C2_C3E3_C7DA_C9D7_B0FC_B4D2_B1B1_BBDC_B1B0_B2A9_BCB4_BCB4),
  (0x2F831, 0xC7E4_C7E4_C7E4),
  (0x2F835, 0xBBD2_BCB0_DBC5),
  (0x2F839, 0xBDD0_DFB3_DFBA_865A_CEFC_B3CA_D6DC_8640_865F_CCC6_C6F4_86A5),
  (0x2F845, 0xC9C6_C9C6_E0B9_86CB_D4FB_86DA_CDBC_CCBE_8845_8773_C5E7_C7D0),
  (0x2F851, 0xD7B3_B3C7_DBFA_DCA2_D0CD_88F4_B1A8_8997),
  (0x2F85A, 0xC2F4_BAF8_89E2_B6E0_C3CE_C9DD),
  (0x2F862, 0xBCA7_D3E9_8AD1_E6B0_B8BE_C9A9),
  (0x2F869, 0xE6AC_C0C1_C0C1),
  (0x2F86D, 0xD4A9_8C85_C4FE_B1A6),
  (0x2F872, 0xCAD9_BDAB_B5B1_DECC),
  (0x2F877, 0xCDC0),
  (0x2F879, 0x8D4C_E1A9),
  (0x2F87C, 0x8DB0),
  (0x2F87E, 0x8DD1_E1D1_8DDD_D1B2_B3B2),
  (0x2F884, 0xD9E3_8E9C_C3B1_8ECB),
  (0x2F88B, 0x8EF0_E2D8_CAFC_C0C8),
  (0x2F890, 0xDEC3),
  (0x2F893, 0xF4A8_8F7C_8F7C),
  (0x2F898, 0xD2CD_D0CE_8FAC),
  (0x2F89C, 0x8FC1_C8CC_D6BE_8FFB_9080_BBC5),
  (0x2F8A3, 0xBBDA),
  (0x2F8A5, 0x90AA_B4C8_BBC5_C9F7_BBC5_9166_D4F7_CFDC_B7DF_9194_91BA_B3CD),
  (0x2F8B1, 0xC0C1_B3C9_EAA9_9248_B1A7_B0CE_BEE8_B0CE_CDEC_C6B4_92CE_C9A8),
  (0x2F8BD, 0x9356),
  (0x2F8BF, 0x937C_9343_D1DA),
  (0x2F8C3, 0xC4A6_8F89_93D6_B3AD),
  (0x2F8C8, 0xC3F4_BEB4),
  (0x2F8CB, 0xBCC8_CAE9_BDFA_95A5_CAEE),
  (0x2F8D2, 0xC3B0_C3E1_D7EE_C6D5_EBC7),
  (0x2F8D8, 0xC0CA_CDFB_9651_E8BD_E8BC),
  (0x2F8DF, 0xB9D5_9688_C9A3_C3B7_D5A4_9760_96DE_97C2),
  (0x2F8E8, 0xE9AB_986C_B8C5_9981),
  (0x2F8ED, 0xE8CE),
  (0x2F8EF, 0xB4CE),
  (0x2F8F1, 0x9A5B),
  (0x2F8F3, 0xCBEA_9A8D_C9B1_BFC7),
  (0x2F8FA, 0x9AF8),
  (0x2F8FC, 0xD1D8_9B79_9B46_9B9E_C5C9_BAA3_C1F7_BAC6_BDFE_C4F9),
  (0x2F907, 0x9BAF_B8DB_E4CE),
  (0x2F90B, 0xD7CC_B5E1),
  (0x2F90E, 0xD1CD_B3B1_8591),
  (0x2F912, 0x9DE5_E5AE_9E73_E5AD),
  (0x2F917, 0x9E9D_D4D6_9EC0_CCBF),
  (0x2F91C, 0xECD1_D4D6_9FD0),
  (0x2F920, 0xECE0_BEF4_D5A2_D1C0_CFAC_A0CD),
  (0x2F928, 0xCCA1_CDF5),
  (0x2F92B, 0xAB68),
  (0x2F92E, 0xE7E9_E8A4_AC99_AD46_C7ED),
  (0x2F934, 0xDEA8_C9EA_E7DE),
  (0x2F938, 0xD2EC),
  (0x2F93A, 0xF0F5),
  (0x2F93D, 0xD3DB),
  (0x2F940, 0xD6B1_EDEC),
  (0x2F945, 0xD5E6_D5E6_D5E6_B192),
  (0x2F94A, 0xB25F),
  (0x2F94C, 0xCAAF),
  (0x2F94E, 0xEDCA_C2B5_B46B),
  (0x2F953, 0xD7E6),
  (0x2F956, 0xB8A3_EFF8),
  (0x2F959, 0xB759_B762_CEC8),
  (0x2F95F, 0xB87A),
  (0x2F962, 0xD7AD_BA42),
  (0x2F966, 0xBC4C),
  (0x2F968, 0xF4DD_F4D6_BCCD_BEC0_BD6C),
  (0x2F96E, 0xE7BB_D7DC_E7D2),
  (0x2F973, 0xC6BF),
  (0x2F976, 0xC156_C15C_C16B_B0BF_D5DF),
  (0x2F97D, 0xC286),
  (0x2F97F, 0xB4CF),
  (0x2F981, 0xE2BF_D3FD_B4E0),
  (0x2F985, 0xC6A2_EBF4_C1F6_BBA9),
  (0x2F98A, 0xD4D0_F4A8_F4AA_B4C7),
  (0x2F98F, 0xDCBB_D3F3_D6A5_C0CD_BBA8_B7BC_D1BF_BFE0_CB6E_C8F4_C68F_C8D9),
  (0x2F99B, 0xBDDA_C695_C3A7_C79C_D7C5_C74C_BED5_BEFA_B2CB),
  (0x2F9A7, 0xCADF_C991_C993_CA50),
  (0x2F9AC, 0xDEA8_DDCF_CA6F),
  (0x2F9B0, 0xB3AD),
  (0x2F9B2, 0xD9E7_C5B0_C2B2_BFF7_CC9F_F2BF_CD4F_CD9B_CD83_CE82_B5FB_F2DC),
  (0x2F9BE, 0xCE88_CD4F_CF6A_CF86_CE88_D071_D2C2),
  (0x2F9C6, 0xD15E_D163),
  (0x2F9C9, 0xD173),
  (0x2F9CB, 0xB297_D392),
  (0x2F9CF, 0xB3CF_DACD_B1E4_F5B9),
  (0x2F9D4, 0xB9E1_EADA_B8D3_C6F0),
  (0x2F9DA, 0xB0CF_F5C2_DB4D_BEFC_E9ED_CAE4_F6AA_D2C5_DF8C_E05A_E074_C7E4),
  (0x2F9E6, 0xE07D_EEE0_E46D_E46E_E375_EFEA_E787),
  (0x2F9EE, 0xBFAA_E96F_C9B1_E3D1_E08C_EB65_8E51_EC42_E4E8),
  (0x2F9FA, 0xED7B_ECB4),
  (0x2F9FE, 0xB9CB_B9CB_EE5A),
  (0x2FA02, 0xBCA2_BB7B_F05F_F14E_F168_F244_F35F),
  (0x2FA0A, 0xF449_F744_F85A),
  (0x2FA0F, 0xF964),
  (0x2FA14, 0xFB85_C2E9),
  (0x2FA17, 0xEDE9_F6BC_D6A9_FC86_FC8B_B1C7_CDC5)]

/-- /repo/modules/to/GBK-TRANS.txt; there is no file for reading. -/
def gbkTrans : Charset where
  reads := []
  writes := gbkTransWrites

/-- The rules of /repo/modules/to/CP950-TRANS.txt: character, code.  No two lines have the same character; sorted.  Lines `0100..`, if any, are
listed separately. -/
def cp950TransWrites : Chart := Chart.wide [
  (0x3405, 0xA4AD),
  (0x3421, 0xC0B6),
  (0x3430, 0xAB48),
  (0x3433, 0xA461),
  (0x3439, 0xC968),
  (0x3442, 0xA5E9),
  (0x3444, 0xAB56),
  (0x345E, 0xDCF9),
  (0x3464, 0xD8CB),
  (0x3474, 0xAB49),
  (0x3477, 0xBA41),
  (0x347A, 0xAB54),
  (0x3497, 0xE8F5),
  (0x349A, 0xC3AD),
  (0x349E, 0xAB54),
  (0x34A4, 0xC4E0),
  (0x34A8, 0xA550),
  (0x34B2, 0xB05D_A8E2),
  (0x34B6, 0xA4BD),
  (0x34C2, 0xB146),
  (0x34CA, 0xAC7D),
  (0x34D5, 0xB7C0),
  (0x34DB, 0xA55C_A5AE_A644),
  (0x34F6, 0xC1E6),
  (0x3503, 0xB5B4),
  (0x3509, 0xF8F0),
  (0x3518, 0xC24A),
  (0x351C, 0xAB6B),
  (0x352D, 0xB0CD),
  (0x353A, 0xA540),
  (0x353D, 0xCA72),
  (0x3547, 0xD2DA),
  (0x3551, 0xBC70),
  (0x3555, 0xA4DB_AFC0),
  (0x355A, 0xA4F6_A4CD_A576),
  (0x355E, 0xA8EA),
  (0x3560, 0xC2F9),
  (0x3565, 0xA548),
  (0x357A, 0xCBE2),
  (0x357C, 0xCE46),
  (0x3581, 0xA75B),
  (0x3584, 0xD876),
  (0x359E, 0xD87B),
  (0x35A0, 0xA8BA),
  (0x35B6, 0xEBA2),
  (0x35BE, 0xCE4B),
  (0x35C6, 0xDCD0),
  (0x35CB, 0xB3EF),
  (0x35D0, 0xB6DF),
  (0x35D6, 0xB0DC),
  (0x35E4, 0xE14E),
  (0x35FD, 0xC554),
  (0x3605, 0xB0E5),
  (0x3615, 0xECC7),
  (0x3625, 0xCAA7),
  (0x362B, 0xB9D2),
  (0x362F, 0xB3F5),
  (0x3631, 0xA77E),
  (0x3634, 0xA7A4),
  (0x3637, 0xA6E3),
  (0x363B, 0xCE58),
  (0x3641, 0xCBF8),
  (0x365A, 0xD153),
  (0x3662, 0xE15B),
  (0x3672, 0xBEC3),
  (0x367C, 0xC253),
  (0x3689, 0xC95A),
  (0x368C, 0xB9D9),
  (0x3690, 0xAE4D),
  (0x36A2, 0xA5A3_ABBB),
  (0x36A9, 0xCC49),
  (0x36B6, 0xA971),
  (0x36D4, 0xCAB2_CE6B),
  (0x36DB, 0xAE57),
  (0x36E4, 0xF6DB),
  (0x36E9, 0xA96F),
  (0x36EE, 0xB741),
  (0x36F0, 0xB142),
  (0x36FD, 0xA96B),
  (0x370F, 0xCAB3),
  (0x3711, 0xB143),
  (0x373B, 0xF6DC),
  (0x373D, 0xA46C_ABC4),
  (0x3740, 0xA66E),
  (0x3748, 0xC570_ABC5_A675_B9E9_AAB9_BC67),
  (0x3756, 0xA979),
  (0x3759, 0xB147),
  (0x375B, 0xB14A),
  (0x3761, 0xB3CC_A674),
  (0x3766, 0xE95D_C3AD),
  (0x376F, 0xB9B4),
  (0x3774, 0xC9BD),
  (0x3777, 0xB44D),
  (0x3791, 0xA7C0),
  (0x3795, 0xAE68),
  (0x37A1, 0xAE69_A4A7),
  (0x37AF, 0xC9D7),
  (0x37B6, 0xA9A2),
  (0x37B9, 0xCC65),
  (0x37C1, 0xA9A4),
  (0x37D2, 0xD16E),
  (0x37E5, 0xE1AD),
  (0x37E7, 0xD8DE),
  (0x37E9, 0xA9A2),
  (0x37ED, 0xA9A2),
  (0x37FA, 0xE1A8),
  (0x3800, 0xAE71_E1AD),
  (0x3804, 0xE1AF),
  (0x3810, 0xE569),
  (0x3817, 0xE96A),
  (0x381C, 0xECDA_F6DE),
  (0x382D, 0xAE69),
  (0x3836, 0xA67C),
  (0x3838, 0xD3D1),
  (0x3860, 0xB456),
  (0x3873, 0xA9B3),
  (0x387F, 0xA5B8),
  (0x3898, 0xB747),
  (0x38AE, 0xA6A2),
  (0x38B4, 0xA6E8),
  (0x38BD, 0xBBE7),
  (0x38CB, 0xA4A6),
  (0x38E6, 0xB66A),
  (0x38EB, 0xB0CA),
  (0x38F2, 0xB74C),
  (0x38FC, 0xA7D4),
  (0x3900, 0xA7D1_A9BD_ABE6_A7AB),
  (0x3905, 0xB752),
  (0x3907, 0xBED2),
  (0x3913, 0xB2C2),
  (0x3919, 0xAEA6),
  (0x391B, 0xD1A1),
  (0x391F, 0xAEA3),
  (0x3929, 0xABF1_ABE8),
  (0x392C, 0xD17D),
  (0x3930, 0xCCA9),
  (0x393A, 0xB757),
  (0x3943, 0xB465),
  (0x394B, 0xB0C0),
  (0x395E, 0xC2E3),
  (0x3964, 0xACE1),
  (0x3966, 0xB467_B6B6),
  (0x396B, 0xB1AC),
  (0x3971, 0xD55E),
  (0x3975, 0xE1C4),
  (0x398D, 0xB46A),
  (0x3994, 0xECE6),
  (0x3996, 0xC256),
  (0x399E, 0xECE5),
  (0x39A0, 0xEFC8),
  (0x39A4, 0xC574),
  (0x39A7, 0xE5A3),
  (0x39AF, 0xA9CE),
  (0x39B8, 0xB475),
  (0x39BE, 0xD951_A4E1),
  (0x39D6, 0xA7E3),
  (0x39F1, 0xAEB3),
  (0x39FC, 0xD0CF),
  (0x39FF, 0xE1EC),
  (0x3A08, 0xC0BD),
  (0x3A14, 0xBED9_F244),
  (0x3A17, 0xB1B6),
  (0x3A23, 0xBED6),
  (0x3A2F, 0xC258),
  (0x3A3F, 0xBEDA_BEDA_BA65),
  (0x3A4E, 0xECEB),
  (0x3A55, 0xA9F0),
  (0x3A57, 0xC4E2),
  (0x3A65, 0xF44D_C4E2),
  (0x3A70, 0xA7DB),
  (0x3A85, 0xA7F3),
  (0x3A89, 0xD1CE),
  (0x3A9D, 0xB47A),
  (0x3A9F, 0xB4B0),
  (0x3AA3, 0xBA56),
  (0x3AC1, 0xC25F),
  (0x3AC4, 0xAEC7_BA58),
  (0x3ACB, 0xD1D0),
  (0x3AD1, 0xA6AE),
  (0x3AD4, 0xA6E1),
  (0x3AE7, 0xBCC9),
  (0x3AEA, 0xAC4B),
  (0x3AF3, 0xB1E1),
  (0x3AFA, 0xA9F5),
  (0x3B0C, 0xB4BA_C36E),
  (0x3B19, 0xDDC2),
  (0x3B1C, 0xAECA),
  (0x3B20, 0xC5CE),
  (0x3B25, 0xBCC9),
  (0x3B27, 0xBCC9),
  (0x3B31, 0xB4C0),
  (0x3B4A, 0xAA52_B4CE),
  (0x3B4D, 0xAC6D_D9BB),
  (0x3B71, 0xA758),
  (0x3B7B, 0xB4C5),
  (0x3B84, 0xBA5D),
  (0x3B86, 0xF458),
  (0x3B8B, 0xD1E7_B4D6),
  (0x3B8E, 0xAA4D),
  (0x3BA3, 0xB7A7),
  (0x3BAE, 0xAEDC),
  (0x3BB3, 0xD1DA),
  (0x3BB5, 0xD1EA),
  (0x3BC7, 0xD5B2_E5CF),
  (0x3BCD, 0xBCD5),
  (0x3BD0, 0xBEF2),
  (0x3BD3, 0xBA66),
  (0x3BDF, 0xC453),
  (0x3BE3, 0xB4D9),
  (0x3BE6, 0xB4D1),
  (0x3BEA, 0xF9BB),
  (0x3C02, 0xD9C2),
  (0x3C05, 0xE5CA),
  (0x3C09, 0xBA64),
  (0x3C0F, 0xBF74_BEF2),
  (0x3C16, 0xC656),
  (0x3C19, 0xE9D6),
  (0x3C1E, 0xB6E1),
  (0x3C4F, 0xA5BF),
  (0x3C55, 0xC26B),
  (0x3C58, 0xC64C),
  (0x3C68, 0xC0D4),
  (0x3C7F, 0xB4DF),
  (0x3C87, 0xA94E_BBE0),
  (0x3C9C, 0xB4E0),
  (0x3CAD, 0xB4E0),
  (0x3CB6, 0xB4E2_B4E1),
  (0x3CBE, 0xAB42),
  (0x3CC2, 0xAA75_B266),
  (0x3CC5, 0xAC79),
  (0x3CC8, 0xA84B),
  (0x3CD1, 0xB7B8_AA6B),
  (0x3CD9, 0xAEFE),
  (0x3CED, 0xB243),
  (0x3D05, 0xAEF8_AEFB),
  (0x3D09, 0xC0D9),
  (0x3D15, 0xE64F),
  (0x3D1E, 0xB7CA),
  (0x3D34, 0xB4EF),
  (0x3D3E, 0xB4F1),
  (0x3D4E, 0xBCEE),
  (0x3D55, 0xBEFE),
  (0x3D71, 0xBA7D),
  (0x3D78, 0xF465),
  (0x3DA4, 0xAAA3),
  (0x3DAB, 0xBF52),
  (0x3DB3, 0xC275),
  (0x3DBB, 0xB26C),
  (0x3DC7, 0xABEC),
  (0x3DCA, 0xB549),
  (0x3DD3, 0xE670_B54B),
  (0x3DD6, 0xB7D3),
  (0x3DD9, 0xB7CE),
  (0x3DE9, 0xBAB3),
  (0x3DF1, 0xBAB5),
  (0x3DFB, 0xB54C),
  (0x3E00, 0xCFB1_E663_C0E6),
  (0x3E09, 0xC0E8),
  (0x3E15, 0xC5CC),
  (0x3E18, 0xB855),
  (0x3E27, 0xC569),
  (0x3E3E, 0xCB60),
  (0x3E60, 0xB362),
  (0x3E64, 0xA9C4),
  (0x3E83, 0xAAAF),
  (0x3E85, 0xB555),
  (0x3E9A, 0xC3A1),
  (0x3EAE, 0xCB69),
  (0x3EB2, 0xB673_AAB4),
  (0x3ECE, 0xB7E6),
  (0x3ED7, 0xDAAA),
  (0x3EEE, 0xC0F6),
  (0x3F04, 0xBF59),
  (0x3F4D, 0xA958),
  (0x3F52, 0xB563),
  (0x3F56, 0xAF64_AF61),
  (0x3F5C, 0xDEC4),
  (0x3F5E, 0xAF64),
  (0x3F6C, 0xBFE7),
  (0x3F6F, 0xB2A5),
  (0x3F84, 0xF9C8),
  (0x3F8A, 0xBD43),
  (0x3F8C, 0xC57E),
  (0x3FC2, 0xC470),
  (0x3FCB, 0xE6B1),
  (0x3FE2, 0xC4A3),
  (0x3FF7, 0xC157),
  (0x4006, 0xBAC9),
  (0x400B, 0xC651),
  (0x400E, 0xCFE2),
  (0x4018, 0xA766),
  (0x4056, 0xEA79),
  (0x405E, 0xACD9),
  (0x4066, 0xF2F3),
  (0x4079, 0xB844),
  (0x4093, 0xB357),
  (0x4096, 0xA5DB),
  (0x409D, 0xCD7E),
  (0x40A1, 0xAFA1),
  (0x40B2, 0xAF7C),
  (0x40CD, 0xBC59),
  (0x40D8, 0xDEF2),
  (0x40FA, 0xBF69),
  (0x4100, 0xBAD7),
  (0x410C, 0xE85D),
  (0x4112, 0xB85A),
  (0x4115, 0xAAC0),
  (0x4122, 0xBBF4),
  (0x412B, 0xCB7D_B2BE_A67E),
  (0x413A, 0xDAD7),
  (0x413D, 0xAAC4),
  (0x4147, 0xB5AF),
  (0x415F, 0xEAB1_DAD7),
  (0x4192, 0xA873),
  (0x4197, 0xAFB7),
  (0x41A0, 0xABC6),
  (0x41A9, 0xADDF),
  (0x41BB, 0xC2AC),
  (0x41F2, 0xDF49),
  (0x4230, 0xB1E9),
  (0x427C, 0xAEC6_D349),
  (0x428F, 0xC158),
  (0x42B6, 0xD355_BAFD),
  (0x42C1, 0xDF58),
  (0x42C4, 0xBAF4),
  (0x42DC, 0xE376),
  (0x42DE, 0xBAF4),
  (0x42E0, 0xB8C9),
  (0x42E7, 0xD6EB),
  (0x42EF, 0xE376),
  (0x42F2, 0xC3B7_E7C8),
  (0x42F9, 0xB454),
  (0x4304, 0xDF58),
  (0x4307, 0xAFC1),
  (0x4309, 0xBAF5_EDD9),
  (0x4313, 0xC163),
  (0x4315, 0xEDDD),
  (0x431B, 0xEDD9),
  (0x432B, 0xC66C),
  (0x4337, 0xD6E8),
  (0x4339, 0xD6E7),
  (0x433D, 0xBAF9),
  (0x4348, 0xB27E),
  (0x435E, 0xDF67),
  (0x4369, 0xBE69),
  (0x436D, 0xD27D),
  (0x4379, 0xC3BB),
  (0x43A3, 0xB2E0),
  (0x43B9, 0xBB44),
  (0x43BE, 0xDEE0),
  (0x43CA, 0xC5A4_B5C2),
  (0x43D2, 0xAD44),
  (0x43D4, 0xA879_B6B9),
  (0x43DD, 0xE740),
  (0x43EF, 0xB569),
  (0x43FB, 0xAFE0),
  (0x440C, 0xB5C9),
  (0x4417, 0xA87B),
  (0x4421, 0xC2C0),
  (0x4452, 0xA8EC_BB4F),
  (0x4455, 0xB9AB),
  (0x445B, 0xAFE7),
  (0x445E, 0xB5CF),
  (0x4482, 0xBCD5_B379),
  (0x4497, 0xCDBC),
  (0x44A3, 0xAD5C),
  (0x44AC, 0xB2F6_B5A5),
  (0x44B1, 0xBB5D),
  (0x44B6, 0xA4D1),
  (0x44C1, 0xB5A5),
  (0x44C5, 0xAAE0),
  (0x44D2, 0xC2C0),
  (0x44D6, 0xF2C8_BDB5),
  (0x44E6, 0xA8E5),
  (0x44F6, 0xF4BB_D3AE),
  (0x44F9, 0xF554_F7F3),
  (0x44FF, 0xDB72),
  (0x4509, 0xBB5B),
  (0x450B, 0xB2EF),
  (0x450D, 0xBF77),
  (0x4512, 0xBB5F),
  (0x4525, 0xBFBD),
  (0x452B, 0xBDAD),
  (0x4535, 0xDFD1),
  (0x4543, 0xBDAE),
  (0x454F, 0xD76D),
  (0x4551, 0xDFCE),
  (0x4556, 0xBB5E),
  (0x455A, 0xEB44),
  (0x4564, 0xF4BF),
  (0x4568, 0xC3C3),
  (0x456B, 0xC4DC),
  (0x456E, 0xB5E2_F0B7),
  (0x4580, 0xF947),
  (0x4582, 0xA4AD),
  (0x458B, 0xAD68),
  (0x458D, 0xB040),
  (0x458F, 0xB342),
  (0x45A0, 0xEB60),
  (0x45A3, 0xB044_BB64),
  (0x45AB, 0xB046),
  (0x45AE, 0xF0CE),
  (0x45B8, 0xB8BF_DBB1),
  (0x45BD, 0xB8C4),
  (0x45BF, 0xB8C4),
  (0x45CB, 0xDBBF),
  (0x45EA, 0xEE5B_C1B0),
  (0x45F6, 0xC4FA),
  (0x45F9, 0xDBB4),
  (0x45FE, 0xB8C3),
  (0x4601, 0xF9A7),
  (0x4603, 0xF0C5),
  (0x4607, 0xB041),
  (0x460A, 0xF642),
  (0x4610, 0xD3D0),
  (0x4614, 0xB3D8),
  (0x4619, 0xBDC3_A8F2),
  (0x461C, 0xA479),
  (0x4629, 0xD7B4),
  (0x462B, 0xDBCC),
  (0x462E, 0xB3E0),
  (0x4631, 0xB8CE),
  (0x4640, 0xC15E),
  (0x4653, 0xC4FC),
  (0x4656, 0xC15E_E7C2),
  (0x465D, 0xC1B6),
  (0x466A, 0xF94B),
  (0x466D, 0xEB72),
  (0x4670, 0xEE71),
  (0x4673, 0xE664),
  (0x467A, 0xE443),
  (0x469E, 0xA4EF_A4EF),
  (0x46B1, 0xAB48_B053),
  (0x46C2, 0xE04E),
  (0x46D0, 0xB5FC_C1C4_C547),
  (0x46D5, 0xBDDB_DBD7),
  (0x46DC, 0xB054),
  (0x46DF, 0xD140),
  (0x46E1, 0xB8DC),
  (0x46E6, 0xB35E_C1BC),
  (0x46FA, 0xBB7C),
  (0x46FC, 0xF4D5),
  (0x4701, 0xEEA3),
  (0x4704, 0xEEA1),
  (0x4718, 0xC4B5),
  (0x471B, 0xC5FE),
  (0x471F, 0xC640),
  (0x4723, 0xB360),
  (0x4729, 0xF840),
  (0x4735, 0xB361),
  (0x473B, 0xB361),
  (0x473F, 0xBDDD),
  (0x4742, 0xBDDD),
  (0x4747, 0xD3DF_DBE5),
  (0x4757, 0xE05A_BCDD),
  (0x4760, 0xDEAB),
  (0x4768, 0xBDE5),
  (0x476F, 0xD3E1),
  (0x4774, 0xF6D2),
  (0x477E, 0xBDE1_B651),
  (0x478B, 0xF1F0),
  (0x47AC, 0xB37A),
  (0x47BC, 0xC2AB),
  (0x47C6, 0xC2DE),
  (0x47CC, 0xB3BD),
  (0x47CE, 0xF96F),
  (0x47D6, 0xB36B),
  (0x47DA, 0xE7FB),
  (0x47E6, 0xB65B),
  (0x4801, 0xC545_B7A1),
  (0x480A, 0xD0EB),
  (0x480E, 0xC653),
  (0x4825, 0xF144),
  (0x482E, 0xC4CB),
  (0x4830, 0xBDF4),
  (0x4832, 0xB2E2),
  (0x4836, 0xAE67),
  (0x4839, 0xC065),
  (0x4840, 0xE4E7),
  (0x4845, 0xEBCF),
  (0x4847, 0xB063),
  (0x484B, 0xD7DD_E4C2),
  (0x4856, 0xBBB4),
  (0x4859, 0xE847),
  (0x4879, 0xB8FE),
  (0x487C, 0xDC46),
  (0x4884, 0xCF56),
  (0x4889, 0xB941),
  (0x489C, 0xC26B),
  (0x489F, 0xA5D1_B065),
  (0x48A4, 0xAD7A),
  (0x48A6, 0xABD3),
  (0x48AA, 0xBEF5_C048),
  (0x48AF, 0xBFEE),
  (0x48B5, 0xE0A8),
  (0x48B7, 0xA8BA),
  (0x48BE, 0xCE68),
  (0x48CC, 0xAAF3),
  (0x48DE, 0xB66B),
  (0x48E8, 0xBE4A),
  (0x48F4, 0xB3A4),
  (0x491C, 0xB677),
  (0x491E, 0xDC75_DC71_DC73),
  (0x4928, 0xDC6D),
  (0x4931, 0xBB7D),
  (0x4939, 0xF15C),
  (0x4945, 0xB55E_B55E),
  (0x494A, 0xEBE1),
  (0x4950, 0xEEDE_E864),
  (0x4956, 0xB966),
  (0x495A, 0xAAEC),
  (0x4962, 0xF375),
  (0x4976, 0xC2F0_EED4),
  (0x497D, 0xF4FA),
  (0x4986, 0xF9C1_C067),
  (0x4995, 0xE0D0),
  (0x4999, 0xA678),
  (0x499C, 0xD3F5),
  (0x499E, 0xB67C_C3AD),
  (0x49A7, 0xF1BE_C1F1),
  (0x49B7, 0xC3AD),
  (0x49CD, 0xBBD8),
  (0x49D5, 0xB0EC),
  (0x49D9, 0xB3AE),
  (0x49DC, 0xB6ED),
  (0x49E0, 0xE46C_E156),
  (0x49E6, 0xDC51),
  (0x49F8, 0xC06C),
  (0x49FB, 0xC246_C35B),
  (0x49FF, 0xC44E),
  (0x4A03, 0xF6BB),
  (0x4A05, 0xF863_F7C0_C2F9),
  (0x4A09, 0xC678),
  (0x4A0E, 0xEC53),
  (0x4A13, 0xB970_B972),
  (0x4A16, 0xC5B4),
  (0x4A19, 0xC3F9),
  (0x4A20, 0xC647),
  (0x4A26, 0xDCA7),
  (0x4A29, 0xC646_C5B5_F177),
  (0x4A2D, 0xBE5D_B3B7),
  (0x4A36, 0xF176_C4C5),
  (0x4A51, 0xE4C2),
  (0x4A66, 0xEC55),
  (0x4A75, 0xF1A3),
  (0x4A7F, 0xF1E3),
  (0x4A84, 0xB7D7),
  (0x4AA0, 0xF87E_F87E_F87E),
  (0x4ACD, 0xBE66),
  (0x4AD9, 0xF3A8),
  (0x4ADD, 0xC34C),
  (0x4AEB, 0xC55C),
  (0x4AF7, 0xC345),
  (0x4B03, 0xBBE3),
  (0x4B17, 0xC347),
  (0x4B19, 0xF3AD_F3AB),
  (0x4B24, 0xF9B1_F554),
  (0x4B2A, 0xF1AE),
  (0x4B2E, 0xB97E),
  (0x4B33, 0xD349),
  (0x4B3B, 0xC05E),
  (0x4B4B, 0xB9A1_EF4D),
  (0x4B66, 0xF1AE),
  (0x4B6B, 0xBD5D_BD5D),
  (0x4B76, 0xF1AF),
  (0x4B7C, 0xF1AF),
  (0x4B7E, 0xB9A4),
  (0x4B81, 0xC063),
  (0x4B83, 0xC558),
  (0x4B86, 0xE8C9_F77D_B9A3),
  (0x4B90, 0xE8CC),
  (0x4B9B, 0xBE74),
  (0x4BB2, 0xF3BF),
  (0x4BBC, 0xF778),
  (0x4BBF, 0xC4CA),
  (0x4BC1, 0xC55B),
  (0x4BCE, 0xE0E8),
  (0x4BD0, 0xC065),
  (0x4BD7, 0xF1B9),
  (0x4BDD, 0xC5E8),
  (0x4BF3, 0xC350),
  (0x4BFA, 0xEC6F),
  (0x4C05, 0xC5BD),
  (0x4C0B, 0xF6A5),
  (0x4C11, 0xC5BD),
  (0x4C1B, 0xB0AC_B0AC),
  (0x4C1F, 0xBBEE),
  (0x4C23, 0xC353),
  (0x4C28, 0xBE79),
  (0x4C3F, 0xEC73),
  (0x4C46, 0xF8D8),
  (0x4C48, 0xEF6B),
  (0x4C54, 0xC357),
  (0x4C56, 0xF6B1),
  (0x4C58, 0xF3D1),
  (0x4C5F, 0xE3DE),
  (0x4C70, 0xEF6E),
  (0x4C7D, 0xC449),
  (0x4CA0, 0xF573),
  (0x4CA5, 0xB9A7),
  (0x4CA8, 0xC245),
  (0x4CAB, 0xB9A7),
  (0x4CB4, 0xBE7D_B3B6),
  (0x4CB7, 0xB1FA),
  (0x4CCC, 0xC359),
  (0x4CD2, 0xBBF0),
  (0x4CD8, 0xC35A),
  (0x4CDC, 0xF1D7),
  (0x4CE8, 0xB0C4),
  (0x4CF6, 0xF8DC),
  (0x4CFC, 0xC5C3_C562),
  (0x4D0A, 0xF8DF),
  (0x4D0C, 0xF960),
  (0x4D0E, 0xF97C),
  (0x4D12, 0xC06F),
  (0x4D14, 0xEF77_EFA5_F3DB_F5A4),
  (0x4D21, 0xC452),
  (0x4D25, 0xF5B3),
  (0x4D44, 0xF9CB),
  (0x4D5E, 0xF5B4),
  (0x4D79, 0xBB6A_C96E),
  (0x4D87, 0xC35E),
  (0x4D9A, 0xC654),
  (0x4DAE, 0xF5BF),
  (0x4E04, 0xA457_A455),
  (0x4E13, 0xB14D),
  (0x4E17, 0xA540),
  (0x4E1A, 0xB77E_C24F_AA46_B5B7),
  (0x4E20, 0xBEAC_A8E2_A5E1_A8BB_A8E2_C459),
  (0x4E27, 0xB3E0),
  (0x4E2A, 0xADD3),
  (0x4E34, 0xC17B),
  (0x4E3A, 0xACB0),
  (0x4E3D, 0xC452_C17C),
  (0x4E46, 0xA45B),
  (0x4E49, 0xB871),
  (0x4E4C, 0xAF51),
  (0x4E50, 0xBCD6),
  (0x4E54, 0xB3EC_AAEA),
  (0x4E57, 0xADBC),
  (0x4E60, 0xB2DF_B66D),
  (0x4E66, 0xAED1),
  (0x4E68, 0xA96C),
  (0x4E70, 0xB652_B6C3),
  (0x4E79, 0xB0AE),
  (0x4E80, 0xC074_B0AE),
  (0x4E89, 0xAAA7_A8C6),
  (0x4E8F, 0xC1AB),
  (0x4E97, 0xB7B3),
  (0x4E9A, 0xA8C8),
  (0x4E9C, 0xA8C8_BBF4),
  (0x4EA7, 0xB2A3),
  (0x4EA9, 0xAF61),
  (0x4EAF, 0xA8C9_A8CA_A95D_BFCB),
  (0x4EB5, 0xC1B6),
  (0x4EBE, 0xA460_BBF5),
  (0x4EC5, 0xB6C8),
  (0x4ECC, 0xA642),
  (0x4ECE, 0xB171_A6F2),
  (0x4ED1, 0xA8DA),
  (0x4ED3, 0xADDC),
  (0x4EEA, 0xBBF6),
  (0x4EEC, 0xADCC_A551_B0B2),
  (0x4EFE, 0xA743),
  (0x4F03, 0xA7B1),
  (0x4F16, 0xA9AE_B2B3),
  (0x4F1A, 0xB77C_DCBA_D0C9),
  (0x4F1E, 0xB3CA_B0B6_B6C7),
  (0x4F24, 0xB6CB_ADCE_ADDB_B3C9),
  (0x4F29, 0xAB48_B0B0_A6EE),
  (0x4F2E, 0xA756),
  (0x4F35, 0xCBC4),
  (0x4F40, 0xA6FC),
  (0x4F44, 0xB66F),
  (0x4F4B, 0xAC4C),
  (0x4F65, 0xDCC2),
  (0x4F72, 0xB955),
  (0x4F8C, 0xB3B1),
  (0x4FA0, 0xAB4C_BBF9),
  (0x4FA3, 0xAB51),
  (0x4FA5, 0xB9AE_B0BB_B0BC_B9B4_BBFB_BEAB_A6F0_BBFA_BEA8),
  (0x4FBD, 0xA86B),
  (0x4FE3, 0xCDE3),
  (0x4FE6, 0xBEA9),
  (0x4FE8, 0xC56B_ADC7_C4D7),
  (0x4FED, 0xBBFC),
  (0x4FFB, 0xB3C6),
  (0x5002, 0xA8D6),
  (0x5010, 0xB0BF),
  (0x5024, 0xADC8),
  (0x5036, 0xADD1),
  (0x5039, 0xBBFC_B6C5),
  (0x503E, 0xB6C9),
  (0x5058, 0xA8D4),
  (0x506C, 0xB6CD),
  (0x5079, 0xB3C6),
  (0x507B, 0xDCBC),
  (0x507E, 0xE0F3_C076),
  (0x5093, 0xBAB4),
  (0x50A5, 0xC56C),
  (0x50A7, 0xBEAA_C078_F5C0),
  (0x50AB, 0xF7D0),
  (0x50DE, 0xB0B0),
  (0x50EB, 0xE4FA),
  (0x50F2, 0xA550),
  (0x50F4, 0xB9B7),
  (0x50F7, 0xD44F),
  (0x5101, 0xAB54),
  (0x510D, 0xB6CC),
  (0x512B, 0xBBA8),
  (0x5142, 0xC2AF),
  (0x514A, 0xA749),
  (0x514E, 0xA8DF),
  (0x5150, 0xA8E0_A749),
  (0x5156, 0xAB5E),
  (0x5166, 0xA460),
  (0x516A, 0xAB5C),
  (0x5170, 0xC4F5),
  (0x5173, 0xC3F6_BFB3),
  (0x5179, 0xAFF7),
  (0x517B, 0xBE69),
  (0x517D, 0xC37E_BEAC_C3C0),
  (0x5181, 0xF6D8),
  (0x5183, 0xB455_A554_A4BA_B6EA),
  (0x5188, 0xA9A3),
  (0x518C, 0xA555),
  (0x5190, 0xAB5F),
  (0x5196, 0xBEAD),
  (0x5199, 0xBC67),
  (0x519B, 0xAD78_B941_A979),
  (0x51A1, 0xBB58),
  (0x51A3, 0xB3CC),
  (0x51A6, 0xB146),
  (0x51A8, 0xB449_BC67),
  (0x51AB, 0xA642),
  (0x51AF, 0xB6BE),
  (0x51B2, 0xA852_A84D),
  (0x51B5, 0xAA70),
  (0x51BA, 0xAA7B_ADE1),
  (0x51C9, 0xB244),
  (0x51CF, 0xB4EE),
  (0x51D6, 0xB7C7),
  (0x51DB, 0xBBFE),
  (0x51E4, 0xBBF1),
  (0x51E6, 0xB342),
  (0x51E8, 0xADB7),
  (0x51EB, 0xE0ED),
  (0x51ED, 0xBECC),
  (0x51EF, 0xB3CD),
  (0x51FB, 0xC0BB_ABD5),
  (0x51FF, 0xC677),
  (0x5202, 0xA44D),
  (0x5204, 0xA462),
  (0x520D, 0xAFEC),
  (0x520F, 0xC9BE),
  (0x5218, 0xBC42_AB68_ADE8_B3D0),
  (0x5220, 0xA752),
  (0x5226, 0xA754_A754),
  (0x522B, 0xA74F),
  (0x522D, 0xCDF0),
  (0x5234, 0xA8EF),
  (0x5239, 0xAB62),
  (0x523C, 0xA754_BC44),
  (0x523F, 0xE4F3_B3CF),
  (0x5242, 0xBEAF),
  (0x5250, 0xD46C_BC43),
  (0x5253, 0xDCC6),
  (0x5263, 0xBC43_BEAF_ADE9),
  (0x5267, 0xBC40),
  (0x5270, 0xB3D1),
  (0x529A, 0xF8F0),
  (0x529D, 0xC455_BFEC),
  (0x52A1, 0xB0C8_C079),
  (0x52A8, 0xB0CA),
  (0x52B1, 0xC079_AB6C_B3D2_B3D2),
  (0x52B9, 0xAEC4),
  (0x52BF, 0xB6D5),
  (0x52C4, 0xB1D3_B1D5),
  (0x52C8, 0xAB69),
  (0x52CB, 0xB3D4),
  (0x52D0, 0xB272),
  (0x52DA, 0xE143),
  (0x52E7, 0xC455),
  (0x52F2, 0xB3D4),
  (0x5300, 0xA4C3),
  (0x5304, 0xA4A2),
  (0x5307, 0xA55E),
  (0x531E, 0xA64B),
  (0x5325, 0xD6DA_D46F),
  (0x5329, 0xA64A),
  (0x532E, 0xB9BC),
  (0x5338, 0xA9F1),
  (0x533A, 0xB0CF_C2E5),
  (0x5346, 0xA8F2),
  (0x534B, 0xA540),
  (0x534E, 0xB5D8_A8F3),
  (0x5355, 0xB3E6_BDE6),
  (0x5358, 0xB3E6),
  (0x5362, 0xBF63),
  (0x5364, 0xB3BF_A6E8),
  (0x5367, 0xAAD7),
  (0x536B, 0xBDC3),
  (0x536D, 0xCA54),
  (0x5374, 0xAB6F),
  (0x537D, 0xA759),
  (0x5380, 0xBDA5),
  (0x5385, 0xC655),
  (0x5389, 0xBC46),
  (0x538B, 0xC0A3_B9BD_CDF8),
  (0x5395, 0xB45A),
  (0x539B, 0xC655),
  (0x53A0, 0xB45A),
  (0x53A2, 0xB45B_F1EF),
  (0x53A6, 0xB748),
  (0x53A8, 0xBC70),
  (0x53AF, 0xBEFA),
  (0x53B3, 0xC459),
  (0x53B5, 0xB7BD),
  (0x53BA, 0xA568),
  (0x53BF, 0xBFA4),
  (0x53C1, 0xB0D1_B0D1),
  (0x53C6, 0xF957_F8CE),
  (0x53CC, 0xC2F9),
  (0x53CE, 0xA6AC_C95B),
  (0x53D3, 0xA8C6),
  (0x53D8, 0xC5DC_B1D4),
  (0x53DC, 0xADEE),
  (0x53E0, 0xC57C),
  (0x53F6, 0xB8AD_B8B9),
  (0x53F9, 0xB9C4),
  (0x53FD, 0xBC54),
  (0x5413, 0xC07E),
  (0x5417, 0xB6DC),
  (0x542F, 0xB1D2),
  (0x5434, 0xA764),
  (0x543F, 0xA769),
  (0x5449, 0xA764),
  (0x544C, 0xA573),
  (0x5451, 0xA75D_E546_C56D),
  (0x5455, 0xB9C3_F1F2_D0F9_ADFB_CE4A),
  (0x545B, 0xB6E6_B6E3_A763),
  (0x546A, 0xA947),
  (0x548A, 0xA94D),
  (0x548F, 0xB5FA),
  (0x5499, 0xC456),
  (0x549B, 0xC07B),
  (0x54B2, 0xAFBA),
  (0x54CC, 0xA94B_C554),
  (0x54D1, 0xB0D7_E8FD_E4F9_B9CD_E941),
  (0x54D7, 0xBC4D),
  (0x54D9, 0xE944),
  (0x54DD, 0xBEBA),
  (0x54DF, 0xB3E9),
  (0x54F0, 0xBC47),
  (0x54F4, 0xD867),
  (0x5502, 0xD146),
  (0x5516, 0xB0D7),
  (0x5519, 0xB9BF),
  (0x551B, 0xE14D),
  (0x551D, 0xDCCF),
  (0x5520, 0xBC47_D479_DCD4),
  (0x5524, 0xB3EA),
  (0x553F, 0xD47D),
  (0x5553, 0xB1D2_B1D2),
  (0x5559, 0xCE49),
  (0x5567, 0xB9C9_B1A1),
  (0x556C, 0xB6DE_C4DA_EFBF),
  (0x5570, 0xC56F),
  (0x5578, 0xBC53),
  (0x557A, 0xADF0),
  (0x5585, 0xADF2),
  (0x559E, 0xAE41),
  (0x55A9, 0xB3EB),
  (0x55B6, 0xC0E7_BC51),
  (0x55BD, 0xB9C6_F441),
  (0x55EB, 0xC4D9),
  (0x55F3, 0xBEBC),
  (0x55F8, 0xB9C8),
  (0x560A, 0xD4A9),
  (0x5618, 0xBC4E),
  (0x5620, 0xB9C7),
  (0x5624, 0xC458),
  (0x5628, 0xBC53),
  (0x562B, 0xB54D),
  (0x5631, 0xC5F1),
  (0x5637, 0xB6E7),
  (0x5644, 0xB3F0),
  (0x564D, 0xC45A),
  (0x564F, 0xA76C_BEB9),
  (0x5656, 0xA775),
  (0x565C, 0xC250),
  (0x5661, 0xC4B8),
  (0x567D, 0xF1F1),
  (0x5689, 0xA946),
  (0x5696, 0xE14A),
  (0x56A0, 0xC273),
  (0x56A2, 0xC56E_C4DB),
  (0x56BB, 0xC4DB),
  (0x56CF, 0xC17D),
  (0x56D8, 0xA65E_A65D),
  (0x56E2, 0xB9CE_B9CE),
  (0x56ED, 0xB6E9),
  (0x56F2, 0xB3F2_B9CF_B3F2_D4AC),
  (0x56F8, 0xA4E9),
  (0x56FC, 0xAD4C_B0EA_B9CF),
  (0x5706, 0xB6EA),
  (0x570F, 0xB0E9),
  (0x5721, 0xA467),
  (0x5727, 0xC0A3),
  (0x572B, 0xE94D),
  (0x5735, 0xC45B),
  (0x5739, 0xC252_B3F5),
  (0x5744, 0xD151),
  (0x5753, 0xABAC_A661),
  (0x5757, 0xB6F4),
  (0x5759, 0xCACA_B0ED_BEC2_C363_C5F2_B6F5_BC58_BC59),
  (0x5763, 0xE950),
  (0x5778, 0xABAF),
  (0x577F, 0xAAFE),
  (0x5784, 0xC362),
  (0x5786, 0xF1F6),
  (0x5792, 0xC253),
  (0x5796, 0xB0EF),
  (0x579C, 0xCE57),
  (0x57A6, 0xBEC1),
  (0x57A9, 0xB0EE),
  (0x57AB, 0xB9D4),
  (0x57AD, 0xD4C1),
  (0x57B2, 0xDCE5),
  (0x57BE, 0xA9A4),
  (0x57C0, 0xABAB),
  (0x57C5, 0xA8BE),
  (0x57C8, 0xAE6D),
  (0x57D3, 0xD14D),
  (0x57D8, 0xB6F6_DCE4_B3FA),
  (0x5811, 0xB9D5),
  (0x5815, 0xBC5A),
  (0x5822, 0xB3F9),
  (0x5826, 0xB6A5),
  (0x5841, 0xC253),
  (0x5850, 0xB6EC),
  (0x5861, 0xB6F1),
  (0x5866, 0xB07D),
  (0x5869, 0xC651),
  (0x5872, 0xB3F5),
  (0x5895, 0xB3F7_B6F0_BC57),
  (0x5899, 0xF9D9),
  (0x58AA, 0xBC5B),
  (0x58B0, 0xBEC2),
  (0x58C3, 0xC3A6),
  (0x58CA, 0xC361),
  (0x58CC, 0xC45B_B9D5),
  (0x58D0, 0xC3A2),
  (0x58DC, 0xBEC2),
  (0x58E0, 0xC362),
  (0x58EE, 0xA7A7),
  (0x58F0, 0xC16E_B3FC_BDE6_B4DF),
  (0x58F6, 0xB3FD_B3FD_DCF2),
  (0x58FB, 0xB442),
  (0x5900, 0xB9D8),
  (0x5904, 0xB342_ADB0),
  (0x5907, 0xB3C6),
  (0x5909, 0xC5DC),
  (0x5918, 0xA566),
  (0x591B, 0xA668),
  (0x591D, 0xB4B8),
  (0x591F, 0xB0F7),
  (0x5923, 0xB9DA),
  (0x5934, 0xC059),
  (0x5936, 0xA4F1),
  (0x5939, 0xA7A8_B9DC),
  (0x5941, 0xB9DD_ABB7),
  (0x594B, 0xBEC4_C249),
  (0x5956, 0xBCFA),
  (0x595E, 0xABB6),
  (0x5965, 0xB6F8),
  (0x5968, 0xBCFA),
  (0x596C, 0xBCFA),
  (0x5986, 0xA7A9_B0FC_B6FD),
  (0x599B, 0xDCF7),
  (0x59A9, 0xBC61_B9E1_D8B5_A7AA),
  (0x59C9, 0xA96E),
  (0x59D7, 0xA96B),
  (0x59D9, 0xA7B3),
  (0x59E2, 0xAE53),
  (0x59E7, 0xA66C),
  (0x59EB, 0xAE56),
  (0x59F8, 0xA7B0_C9CD),
  (0x5A02, 0xC9CE),
  (0x5A04, 0xB0FA_D4D5_BC63_BC62_F6DC),
  (0x5A12, 0xA969),
  (0x5A24, 0xA7A9),
  (0x5A26, 0xC0A7),
  (0x5A2F, 0xAE54),
  (0x5A31, 0xAE54_B445),
  (0x5A34, 0xBC5F),
  (0x5A3F, 0xB0FE),
  (0x5A4F, 0xAE59),
  (0x5A59, 0xD4D1),
  (0x5A63, 0xABC3),
  (0x5A73, 0xE554_C0A6_BC60_C254),
  (0x5A87, 0xBFCB),
  (0x5A8D, 0xB0FC),
  (0x5AA0, 0xE557),
  (0x5AD2, 0xE954),
  (0x5AD4, 0xC0A7),
  (0x5AF0, 0xB9E0_E952),
  (0x5B00, 0xD8B5),
  (0x5B0A, 0xF1FC),
  (0x5B22, 0xC45D),
  (0x5B3A, 0xE17C),
  (0x5B46, 0xC0A6),
  (0x5B49, 0xD4CF),
  (0x5B59, 0xAE5D),
  (0x5B60, 0xB6E0_AD4C),
  (0x5B66, 0xBEC7),
  (0x5B6A, 0xC570),
  (0x5B7E, 0xC0A6),
  (0x5B82, 0xA4BE),
  (0x5B86, 0xAAC6),
  (0x5B8D, 0xA6D7),
  (0x5B9D, 0xC45F_B9EA_B9EA_C364_BC66),
  (0x5BAA, 0xBECB),
  (0x5BB2, 0xB9EA),
  (0x5BBB, 0xB14B_B146_BC65_BBAB),
  (0x5BC3, 0xADDE),
  (0x5BCF, 0xB07C),
  (0x5BDB, 0xBC65_B9E7_B9EC),
  (0x5BF3, 0xC45F),
  (0x5BF9, 0xB9EF),
  (0x5BFB, 0xB44D_BEC9),
  (0x5BFE, 0xB9EF_B9D8),
  (0x5C02, 0xB14D),
  (0x5C05, 0xAB67_B14E),
  (0x5C14, 0xBAB8),
  (0x5C18, 0xB9D0_A97C),
  (0x5C1D, 0xB9C1_BF52),
  (0x5C23, 0xCABF),
  (0x5C27, 0xB3F3),
  (0x5C29, 0xCABF),
  (0x5C2B, 0xCABF),
  (0x5C2D, 0xB3F3),
  (0x5C34, 0xC0AA),
  (0x5C3D, 0xBAC9),
  (0x5C42, 0xBC68),
  (0x5C49, 0xB150_A9A1),
  (0x5C53, 0xF8A8),
  (0x5C5B, 0xABCC),
  (0x5C5E, 0xC4DD),
  (0x5C61, 0xB9F0),
  (0x5C66, 0xC0AB),
  (0x5C7F, 0xC0AC),
  (0x5C81, 0xB7B3_B05A),
  (0x5C96, 0xB9F2_B15E_AE73),
  (0x5C9A, 0xB450_AE71),
  (0x5CB4, 0xB9F2),
  (0x5CBF, 0xF5C9),
  (0x5CC3, 0xE966_E961),
  (0x5CDD, 0xABD0),
  (0x5CE1, 0xAE6C),
  (0x5CE3, 0xE566_E569_B157_C572),
  (0x5CEF, 0xAE70),
  (0x5CF2, 0xCE7E),
  (0x5D02, 0xE563_D4FB),
  (0x5D08, 0xB152),
  (0x5D18, 0xB15B),
  (0x5D2D, 0xB9F1),
  (0x5D57, 0xB7B3_C0AF),
  (0x5D5A, 0xBC6B),
  (0x5D5C, 0xB154_E1A8),
  (0x5D73, 0xB744),
  (0x5D8B, 0xAE71_AE71),
  (0x5DC5, 0xC571),
  (0x5DD3, 0xC571),
  (0x5DE3, 0xB15F),
  (0x5DE9, 0xBE64),
  (0x5DEF, 0xDD57),
  (0x5DFA, 0xB453_A8F7),
  (0x5E00, 0xA560_B9F4),
  (0x5E05, 0xABD3),
  (0x5E08, 0xAE76),
  (0x5E0B, 0xAFC8),
  (0x5E0F, 0xB457_B162),
  (0x5E12, 0xB355),
  (0x5E1C, 0xBC6D),
  (0x5E26, 0xB161_B456),
  (0x5E2C, 0xB8C8),
  (0x5E2E, 0xC0B0_B161_C26B_ECDB),
  (0x5E3B, 0xE1B2_B9F6),
  (0x5E47, 0xC0B0_ABCC),
  (0x5E51, 0xC0B2),
  (0x5E64, 0xB9F4),
  (0x5E71, 0xF7FC),
  (0x5E77, 0xA8C3),
  (0x5E7F, 0xBC73),
  (0x5E81, 0xC655),
  (0x5E83, 0xBC73),
  (0x5E86, 0xBC79),
  (0x5E90, 0xC366_E575_B2F8_AE77_C0B3),
  (0x5E99, 0xBC71),
  (0x5E9E, 0xC365_BC6F),
  (0x5EBB, 0xB166_E1B8_B44A),
  (0x5EBF, 0xBC71),
  (0x5EC3, 0xBC6F),
  (0x5EF0, 0xC655),
  (0x5EF5, 0xA8B5),
  (0x5EFB, 0xA65E),
  (0x5F00, 0xB67D),
  (0x5F03, 0xB1F3),
  (0x5F09, 0xAE4E),
  (0x5F0D, 0xB64C),
  (0x5F10, 0xB64C_B749),
  (0x5F20, 0xB169),
  (0x5F25, 0xC0B1),
  (0x5F2A, 0xD179),
  (0x5F2F, 0xC573),
  (0x5F39, 0xBC75_B16A),
  (0x5F3E, 0xBC75),
  (0x5F52, 0xC26B_B7ED),
  (0x5F55, 0xBFFD),
  (0x5F5B, 0xC255_C255),
  (0x5F5E, 0xC255),
  (0x5F66, 0xABDB),
  (0x5F7B, 0xB9FD),
  (0x5F83, 0xA9B9_AE7C),
  (0x5F8F, 0xD446),
  (0x5F93, 0xB171),
  (0x5F95, 0xB174),
  (0x5FB3, 0xBC77_BC78),
  (0x5FC6, 0xBED0),
  (0x5FC8, 0xA4AF),
  (0x5FCE, 0xA4AF),
  (0x5FDC, 0xC0B3),
  (0x5FE2, 0xAEA9),
  (0x5FE7, 0xBC7E),
  (0x5FF0, 0xB17C),
  (0x5FFC, 0xBA42),
  (0x5FFE, 0xB75A),
  (0x6001, 0xBA41_BCA3_BCAD_E1D3_B1A3_B75B),
  (0x6018, 0xA954),
  (0x6023, 0xA4D7),
  (0x6031, 0xA55E),
  (0x603B, 0xC160_EFC8),
  (0x603F, 0xE97D),
  (0x604B, 0xC5CA),
  (0x6056, 0xABE4),
  (0x6060, 0xA9C7_A75B),
  (0x6071, 0xAEAE),
  (0x6073, 0xC0B5),
  (0x6075, 0xB466_B463),
  (0x6078, 0xBA45_ECE6_B75F_B46C_B46F_D940),
  (0x608B, 0xA75B),
  (0x6091, 0xA9C6),
  (0x60A4, 0xA55E),
  (0x60A6, 0xAEAE),
  (0x60A9, 0xB46F_B463_E1C3_C461_E1C7),
  (0x60AF, 0xBCA7),
  (0x60B3, 0xBC77),
  (0x60D6, 0xB1A7),
  (0x60E3, 0xC160),
  (0x60E7, 0xC4DF_BA47_C367_BC77_BECE_B467_BA46_BCAA_BA44),
  (0x6111, 0xD1A4),
  (0x6119, 0xABF1),
  (0x6120, 0xB759),
  (0x6124, 0xBCAB),
  (0x6126, 0xE5A6),
  (0x6133, 0xC4DF),
  (0x6138, 0xBEE3_D1A4),
  (0x613C, 0xB756_B3D5),
  (0x6142, 0xB176),
  (0x6151, 0xC4E0),
  (0x6159, 0xBA46),
  (0x6164, 0xE1C3),
  (0x616D, 0xE978),
  (0x617D, 0xBCA1),
  (0x6185, 0xBA45),
  (0x6187, 0xBECD),
  (0x6198, 0xB3DF_B3DF),
  (0x61D0, 0xC368_C256_C369),
  (0x61D5, 0xECE6),
  (0x61DC, 0xC36A),
  (0x61F4, 0xC462),
  (0x6206, 0xF9BA),
  (0x620B, 0xCCB1),
  (0x620F, 0xC0B8),
  (0x6217, 0xE1D7_BED4),
  (0x621D, 0xB8E9_B1AE),
  (0x6226, 0xBED4),
  (0x622C, 0xE1D6),
  (0x622F, 0xC0B8),
  (0x6237, 0xA4E1_A4E1),
  (0x623B, 0xA9D1),
  (0x6255, 0xA9D8),
  (0x6267, 0xB0F5),
  (0x6269, 0xC258_B1BF_B1BD_B4AD),
  (0x6285, 0xA9EB),
  (0x628D, 0xAC40),
  (0x629A, 0xBCBE_A9DF_A9DE_A9ED_BEDC_E1DE_E1E0_B1C1_B76D),
  (0x62A4, 0xC540_B3F8),
  (0x62C5, 0xBEE1),
  (0x62DD, 0xABF4),
  (0x62DF, 0xC0C0_BEDA_C258_C36C_B47A),
  (0x62E5, 0xBED6_C464_C0BE_BCB7_BEDC),
  (0x6304, 0xC258),
  (0x6319, 0xC17C_BCB0_C5CB_D56F_BEE2_BED8_AEB5_BCB8_BED7_E5B9_B1C3_C0BD),
  (0x6325, 0xB4A7_E5B4),
  (0x6331, 0xD566),
  (0x6335, 0xA7CB),
  (0x633F, 0xB4A1),
  (0x635C, 0xB76A),
  (0x635E, 0xBCB4_B76C),
  (0x6361, 0xBEDF_B4AB_B76F),
  (0x6374, 0xC160),
  (0x637F, 0xB4CF),
  (0x638B, 0xA9E8),
  (0x63B2, 0xB4A6_BEDB_BA51),
  (0x63B7, 0xC259_E5B8),
  (0x63BA, 0xBA55_B76B_E1E8),
  (0x63F7, 0xB4A1),
  (0x63FA, 0xB76E),
  (0x63FD, 0xC5F3),
  (0x63FF, 0xBCC3_C465_C0C1_BA4F_C160),
  (0x6405, 0xC5CD),
  (0x643A, 0xC4E2),
  (0x643C, 0xAEB1),
  (0x6442, 0xC4E1),
  (0x6444, 0xC4E1_EFD2_C25C),
  (0x6448, 0xECE8),
  (0x644A, 0xC575),
  (0x644F, 0xB2EA),
  (0x6464, 0xB76D),
  (0x647E, 0xD54C),
  (0x6483, 0xC0BB_F44C),
  (0x6486, 0xBA4A),
  (0x6491, 0xBCB5),
  (0x64B5, 0xC25B),
  (0x64B7, 0xC25E_EFD7_C5CD_F5CD),
  (0x64D1, 0xB1B5),
  (0x64DE, 0xC25D),
  (0x64E1, 0xA9EF),
  (0x64E5, 0xC5F3),
  (0x64E7, 0xC17C),
  (0x64F9, 0xC575),
  (0x6502, 0xBEDD),
  (0x6508, 0xD1B8),
  (0x6512, 0xF6E3),
  (0x651F, 0xD1B8),
  (0x6542, 0xA56E),
  (0x654C, 0xBCC4_B1D4_B1D0),
  (0x655B, 0xC0C4),
  (0x6570, 0xBCC6_E1F4),
  (0x6588, 0xBEC7_BBF4),
  (0x658B, 0xC24E),
  (0x658D, 0xC4B1_C24E),
  (0x6593, 0xC4E3),
  (0x65A9, 0xB1D9),
  (0x65AD, 0xC25F),
  (0x65B5, 0xE5C1),
  (0x65C9, 0xBCC5),
  (0x65D1, 0xBA59),
  (0x65E0, 0xB54C),
  (0x65E3, 0xAC4A),
  (0x65E7, 0xC2C2),
  (0x65F6, 0xAEC9_C36D_B77A),
  (0x65FE, 0xAC4B),
  (0x6618, 0xB358_BEE8_B756),
  (0x661E, 0xACB1),
  (0x662C, 0xA9FC),
  (0x663B, 0xA9F9_B1DE_F450_C5E3),
  (0x6644, 0xAECC),
  (0x6648, 0xB2AE),
  (0x664B, 0xAECA),
  (0x6653, 0xBEE5_BEE7_B777),
  (0x6658, 0xA7F2),
  (0x6669, 0xB1DF),
  (0x6673, 0xB4B7),
  (0x6681, 0xBEE5_BCC8),
  (0x6685, 0xAECF),
  (0x668E, 0xAC4D),
  (0x6692, 0xB4B8),
  (0x669C, 0xB4B6),
  (0x66A6, 0xBEE4_C0C7),
  (0x66C1, 0xBA5B),
  (0x66C5, 0xBEE7),
  (0x66D0, 0xAC50),
  (0x66F5, 0xA6B2),
  (0x66FA, 0xB1E4),
  (0x66FD, 0xB4BF),
  (0x6716, 0xAED4),
  (0x671E, 0xB4C1),
  (0x672F, 0xB34E),
  (0x6736, 0xA6B7),
  (0x6740, 0xB1FE),
  (0x6742, 0xC2F8_C576),
  (0x6761, 0xB1F8),
  (0x6765, 0xA8D3),
  (0x6768, 0xB7A8),
  (0x6780, 0xAA51),
  (0x6788, 0xAA4A),
  (0x678F, 0xB7A3),
  (0x679E, 0xBCD7),
  (0x67A0, 0xBEEC),
  (0x67A2, 0xBCCF_B4C7),
  (0x67A5, 0xF455),
  (0x67A8, 0xD9B3),
  (0x67AA, 0xBA6A_B7AC),
  (0x67AD, 0xB1FA),
  (0x67B1, 0xC269),
  (0x67E0, 0xC266),
  (0x67F9, 0xAC55),
  (0x67FB, 0xAC64),
  (0x67FD, 0xECF7_AC5E),
  (0x6800, 0xB1F7_AC68),
  (0x6804, 0xBA61_AC5D),
  (0x6807, 0xBCD0_B4CC_C0CD_F453_B4C9_F456),
  (0x680E, 0xF252_C4E6),
  (0x6811, 0xBEF0),
  (0x6822, 0xAC66),
  (0x6837, 0xBCCB),
  (0x683E, 0xF7E1),
  (0x684A, 0xD9AF),
  (0x6852, 0xAEE1),
  (0x6859, 0xCAFD),
  (0x685C, 0xC4E5),
  (0x685F, 0xB4CC),
  (0x6861, 0xBEF8_B7A9_C0C9_E24E_BEF4_BEEC_C0CC_BCD5_BCCE),
  (0x687A, 0xAC68),
  (0x68A5, 0xC350_B9DA),
  (0x68B9, 0xC262),
  (0x68C0, 0xC0CB),
  (0x68C2, 0xF9BB_B1F9),
  (0x68CA, 0xB4D1),
  (0x68E5, 0xBCD4),
  (0x6901, 0xBCCD),
  (0x6918, 0xB7A1),
  (0x691C, 0xC0CB),
  (0x691F, 0xC370_E5DE),
  (0x6924, 0xF7E2),
  (0x692D, 0xBEF2),
  (0x6936, 0xB4C4),
  (0x6955, 0xBEF2),
  (0x6961, 0xB7AE),
  (0x6973, 0xB1F6),
  (0x697C, 0xBCD3_BCD6),
  (0x6984, 0xC656),
  (0x6987, 0xC468_C371_F5D1),
  (0x6998, 0xAF78),
  (0x69A2, 0xAC5B),
  (0x69C7, 0xE25C),
  (0x69D7, 0xBEF4_BCCB),
  (0x69DA, 0xECF8_C265),
  (0x69DE, 0xF453_C262_F24C),
  (0x69EA, 0xB7A7),
  (0x6A22, 0xE772),
  (0x6A29, 0xC576_BEEE),
  (0x6A2F, 0xC0CE),
  (0x6A31, 0xC4E5),
  (0x6A45, 0xBCD2),
  (0x6A4A, 0xBA68),
  (0x6A70, 0xE252_C36F),
  (0x6A79, 0xC372),
  (0x6A7C, 0xF258),
  (0x6A9D, 0xB7AA),
  (0x6AA9, 0xECF5),
  (0x6AF5, 0xBEF6),
  (0x6B05, 0xF5D1),
  (0x6B1B, 0xAA49),
  (0x6B22, 0xC577),
  (0x6B24, 0xC26A),
  (0x6B27, 0xBCDA),
  (0x6B35, 0xB4DA),
  (0x6B53, 0xC577),
  (0x6B57, 0xBC53),
  (0x6B68, 0xA842_A842),
  (0x6B6B, 0xB65A_AB65),
  (0x6B6F, 0xBEA6),
  (0x6B71, 0xBFE6),
  (0x6B73, 0xB7B3_BEFA),
  (0x6B7A, 0xA4EF),
  (0x6B7C, 0xC4E8),
  (0x6B81, 0xAA5C),
  (0x6B87, 0xBCDC),
  (0x6B8B, 0xB4DD),
  (0x6B92, 0xE266_C0D4),
  (0x6B9A, 0xE9E3),
  (0x6BA1, 0xC26C),
  (0x6BB1, 0xC4E8),
  (0x6BB4, 0xBCDE),
  (0x6BBB, 0xB4DF),
  (0x6BC1, 0xB7B4_C1D4),
  (0x6BCE, 0xA843),
  (0x6BD1, 0xA96A),
  (0x6BD5, 0xB2A6),
  (0x6BD9, 0xC0C5),
  (0x6BE1, 0xC0D6),
  (0x6BF5, 0xE5F7),
  (0x6C07, 0xF25B),
  (0x6C0A, 0xC0D6),
  (0x6C17, 0xAEF0),
  (0x6C22, 0xB242),
  (0x6C29, 0xB4E3),
  (0x6C31, 0xAEF1_BA72),
  (0x6C37, 0xA642),
  (0x6C47, 0xB6D7),
  (0x6C49, 0xBA7E),
  (0x6C53, 0xAA73),
  (0x6C5A, 0xA6C3),
  (0x6C64, 0xB4F6),
  (0x6C79, 0xACA4),
  (0x6C97, 0xB24B),
  (0x6C9F, 0xB7BE),
  (0x6CA1, 0xA853_BF41_F5D3_E278_C377_B25F_B7C9_DA49_D9EC_BAAD),
  (0x6CB2, 0xAA62),
  (0x6CEA, 0xB25C),
  (0x6CF7, 0xF25D_C379),
  (0x6CFA, 0xEFF6_C26D_BCE2_BF41_AEF9),
  (0x6D02, 0xB247),
  (0x6D13, 0xBA7B),
  (0x6D24, 0xAC75),
  (0x6D43, 0xAF48_B262_B24C_BCDF_BCE5_D9FE_DE69_BF42_B4FA),
  (0x6D4D, 0xE9F8_C0D9_C273_E273_B4FD_E271_BF40_BCF1_ED53),
  (0x6D5C, 0xC0D8),
  (0x6D99, 0xB25C),
  (0x6D9B, 0xC0DC),
  (0x6D9D, 0xE5FC_D5E9_BAA7_E65C_B4F5_DE65_B541_BAB0),
  (0x6DA6, 0xBCED_BCEE_BAA6_C0DF),
  (0x6DB1, 0xBAA6),
  (0x6DF8, 0xB24D),
  (0x6E01, 0xB257),
  (0x6E07, 0xB4F7_C0D9_AF41_B257_C0DF),
  (0x6E0D, 0xBA7B_C270),
  (0x6E10, 0xBAA5_BF49),
  (0x6E13, 0xB7CB_BAAE_B257),
  (0x6E17, 0xBAAF),
  (0x6E29, 0xB7C5),
  (0x6E57, 0xDFB1),
  (0x6E7B, 0xB245_AF49_B264_C657_C0E3_BAA1),
  (0x6E83, 0xBCEC),
  (0x6E85, 0xC271_E2A9_E27E),
  (0x6EB8, 0xCD41),
  (0x6ED7, 0xE65F),
  (0x6ED9, 0xB6D7_BA75_B25D),
  (0x6EDD, 0xF25D_BAA2),
  (0x6EE0, 0xF5D4_BAA1),
  (0x6EE4, 0xC26F_C0DD_C665),
  (0x6EE8, 0xC0D8_C579_BF48),
  (0x6EF3, 0xBA77),
  (0x6F11, 0xB540),
  (0x6F44, 0xBAA4_C4E9),
  (0x6F47, 0xC374),
  (0x6F4B, 0xC46B),
  (0x6F4D, 0xC0E5),
  (0x6F59, 0xD9EC),
  (0x6F5C, 0xBCE7),
  (0x6F74, 0xEFF5),
  (0x6F79, 0xBCEB),
  (0x6F81, 0xC0DF),
  (0x6F91, 0xB7C8),
  (0x6F9C, 0xC469),
  (0x6FD1, 0xC375_C378),
  (0x6FF3, 0xBCE7),
  (0x6FF5, 0xC0D8_C1EF),
  (0x7013, 0xBCE1),
  (0x702C, 0xC375),
  (0x704F, 0xF8AF),
  (0x706D, 0xB7C0_A5FA_BF4F),
  (0x7075, 0xC646),
  (0x707E, 0xA861_C0E9_B7D5),
  (0x7089, 0xC46C),
  (0x708D, 0xAB71),
  (0x7097, 0xA5FA),
  (0x709C, 0xDE6D_E2C4),
  (0x70B2, 0xCFB1),
  (0x70B9, 0xC249),
  (0x70BC, 0xB7D2_BF4B),
  (0x70C1, 0xC37B_C4EA_D64C),
  (0x70D6, 0xA861),
  (0x70DB, 0xC0EB),
  (0x70DF, 0xB7CF),
  (0x70E6, 0xB7D0_BF4E_EA4D_C0ED),
  (0x70EB, 0xBF53_C275_BCF6_AF50),
  (0x70F1, 0xACB3),
  (0x7103, 0xBBAE),
  (0x7108, 0xBAB3),
  (0x710F, 0xAB45),
  (0x7115, 0xB7D8_BF54),
  (0x7118, 0xC276),
  (0x7134, 0xB7D4),
  (0x713C, 0xBF4E),
  (0x7145, 0xC1EB),
  (0x7151, 0xB54E),
  (0x7155, 0xBAB3),
  (0x715B, 0xDEA3),
  (0x717C, 0xAAA3),
  (0x7188, 0xBAB3),
  (0x71CC, 0xB549),
  (0x7215, 0xC0E8),
  (0x7224, 0xC4EA_C0EB),
  (0x7231, 0xB752_ACB0),
  (0x7237, 0xB7DD),
  (0x723C, 0xAB5B),
  (0x7240, 0xA7C9),
  (0x724D, 0xC37C),
  (0x7250, 0xB968),
  (0x7266, 0xBCF9),
  (0x7275, 0xB26F),
  (0x727A, 0xC4EB),
  (0x7282, 0xB270),
  (0x7287, 0xA962),
  (0x728A, 0xC37D),
  (0x72A0, 0xC4EB),
  (0x72B2, 0xB05B_B05C),
  (0x72B6, 0xAAAC_C278),
  (0x72B9, 0xB553),
  (0x72C8, 0xAF56),
  (0x72DE, 0xC0F1),
  (0x72E2, 0xB8E8),
  (0x72E5, 0xABE0),
  (0x72EC, 0xBF57_AF55_B7E0_EA61_B275_BABB_DEAC),
  (0x7302, 0xAEAB_EA60),
  (0x730E, 0xC279),
  (0x7315, 0xF46E),
  (0x731F, 0xC279),
  (0x7321, 0xC57A),
  (0x7328, 0xB7E1),
  (0x732A, 0xBDDE_BFDF_E7B3),
  (0x732E, 0xC46D),
  (0x7356, 0xF346),
  (0x7363, 0xC37E),
  (0x736D, 0xC3A1),
  (0x7391, 0xBF59),
  (0x739B, 0xBABF),
  (0x73AA, 0xB559),
  (0x73AE, 0xDEB3_C0F4_B27B_E2D2),
  (0x73BA, 0xC3A2),
  (0x73CF, 0xAAB2),
  (0x73D1, 0xC46E),
  (0x73E1, 0xB55E),
  (0x73E4, 0xC45F),
  (0x73F2, 0xB7E9),
  (0x740E, 0xEA68_E6A3_BABE),
  (0x7439, 0xB55E),
  (0x743C, 0xC3A3),
  (0x7447, 0xACC5),
  (0x7458, 0xB278),
  (0x746C, 0xD97E),
  (0x7474, 0xAAB2),
  (0x7476, 0xBABD_C0F5),
  (0x7484, 0xBF5B),
  (0x748E, 0xC4ED),
  (0x749D, 0xBAC0),
  (0x74C8, 0xBCFE),
  (0x74D2, 0xC5D0),
  (0x74EB, 0xACD6),
  (0x74EF, 0xBF5E),
  (0x7501, 0xB27E),
  (0x7506, 0xB2A1),
  (0x751B, 0xB2A2),
  (0x751E, 0xB9C1),
  (0x7523, 0xB2A3_EB42),
  (0x7535, 0xB971),
  (0x753B, 0xB565),
  (0x7542, 0xAF61),
  (0x7544, 0xAF64_BA5A_AF61),
  (0x756D, 0xDAAE_AF61),
  (0x7572, 0xDAAE_C57C_C3A5_B565),
  (0x757B, 0xDCE6),
  (0x7583, 0xE551),
  (0x758E, 0xB2A8),
  (0x7596, 0xF04B_C0F8),
  (0x759F, 0xBAC4_C27E_BAC5),
  (0x75A9, 0xB7F1),
  (0x75AE, 0xBD48_BAC6),
  (0x75B4, 0xDECB),
  (0x75C8, 0xF7EA_B56A),
  (0x75E8, 0xC0F7_BD47_BAC8_ED77),
  (0x7605, 0xED76),
  (0x7617, 0xE6B0_BF62),
  (0x762A, 0xC3A7_C5F5_B5C8),
  (0x763B, 0xBF62),
  (0x763E, 0xC57D_F6F4),
  (0x7645, 0xBD46),
  (0x764F, 0xE6B2),
  (0x7651, 0xC177),
  (0x765E, 0xC4EE),
  (0x7663, 0xC57E),
  (0x766B, 0xC5F6),
  (0x767A, 0xB56F),
  (0x7690, 0xAF6F_BD4A),
  (0x76A1, 0xE6BA),
  (0x76B1, 0xBD4B_E2E1),
  (0x76B7, 0xB9AA),
  (0x76B9, 0xE2E1),
  (0x76BC, 0xB9AA),
  (0x76C7, 0xAF72),
  (0x76CB, 0xB2DA),
  (0x76CF, 0xB7F8_C651_BACA),
  (0x76D6, 0xBB5C_B573_BD4C),
  (0x770C, 0xBFA4),
  (0x770E, 0xA5DC),
  (0x7718, 0xB756),
  (0x771E, 0xAF75),
  (0x7726, 0xD6B0),
  (0x7740, 0xB5DB_B843_ACDC),
  (0x7750, 0xB7FD_C2A5),
  (0x7764, 0xB844),
  (0x7792, 0xBF66),
  (0x77A4, 0xC0FE),
  (0x77A9, 0xC666),
  (0x77B9, 0xC0C7),
  (0x77C1, 0xE2E4),
  (0x77DF, 0xE254),
  (0x77E6, 0xAB4A),
  (0x77EB, 0xC142),
  (0x77F4, 0xDEE4),
  (0x77F6, 0xC146),
  (0x77FE, 0xC473_C471_E2EE_BD58),
  (0x7815, 0xB848_BF6A_DACF),
  (0x781A, 0xB578),
  (0x7836, 0xACC4),
  (0x783A, 0xC472_F5E2),
  (0x783E, 0xC474),
  (0x7840, 0xC2A6),
  (0x7842, 0xBBCD),
  (0x784B, 0xC3AA),
  (0x784F, 0xACE3),
  (0x7855, 0xBAD3_DAC6_EDA6),
  (0x7859, 0xE6C4_EDAE),
  (0x7877, 0xC650),
  (0x788D, 0xC3AA),
  (0x789B, 0xBF6C_EAA7),
  (0x78AF, 0xB7EA),
  (0x78B1, 0xC650),
  (0x78C2, 0xB2B8),
  (0x78F0, 0xE552),
  (0x78F8, 0xDEE4),
  (0x7920, 0xBACF),
  (0x793C, 0xC2A7),
  (0x794E, 0xE2FC),
  (0x7962, 0xF2A5),
  (0x796F, 0xBAD5),
  (0x7977, 0xC3AB_BAD7),
  (0x7984, 0xB853_C149),
  (0x79A5, 0xB852),
  (0x79A9, 0xAAC1),
  (0x79CA, 0xA67E),
  (0x79CC, 0xACEE),
  (0x79D0, 0xAFD0),
  (0x79D7, 0xDCAE),
  (0x79EF, 0xBF6E_BAD9),
  (0x79FD, 0xC2A9),
  (0x7A06, 0xF4A4),
  (0x7A09, 0xB865),
  (0x7A23, 0xBF71),
  (0x7A2D, 0xD6C5),
  (0x7A32, 0xBD5F_C3AD),
  (0x7A38, 0xBB57),
  (0x7A3E, 0xBD5A),
  (0x7A42, 0xC14A),
  (0x7A4F, 0xC3AD),
  (0x7A51, 0xC2A8),
  (0x7A63, 0xF6F8_C47A),
  (0x7A6F, 0xC2A8),
  (0x7A77, 0xBD61),
  (0x7A82, 0xA863_C5D1),
  (0x7A8D, 0xC2AC_EAB4),
  (0x7A9C, 0xC2AB_BADB),
  (0x7AA5, 0xBF73_C475),
  (0x7AAD, 0xEAB2),
  (0x7ABB, 0xB5A1),
  (0x7AC2, 0xBC64_A85F),
  (0x7AC6, 0xBD61),
  (0x7AC8, 0xA85F),
  (0x7AD2, 0xA95F),
  (0x7AD6, 0xBDDD),
  (0x7ADA, 0xA6EE),
  (0x7ADC, 0xC073_A8C3_C476),
  (0x7AE2, 0xAB53),
  (0x7AEA, 0xBDDD),
  (0x7AF8, 0xC476),
  (0x7AFC, 0xC14F),
  (0x7AFE, 0xEAC1),
  (0x7B03, 0xBF77),
  (0x7B0B, 0xB5AB),
  (0x7B14, 0xB5A7_B863),
  (0x7B27, 0xA555),
  (0x7B3A, 0xBAE0),
  (0x7B3C, 0xC5A2),
  (0x7B3E, 0xF8FB),
  (0x7B42, 0xEAC1),
  (0x7B5A, 0xEDC3_BF7A_F2AA),
  (0x7B5E, 0xB5A6),
  (0x7B6F, 0xBAE6),
  (0x7B79, 0xC477_B5A8),
  (0x7B7E, 0xC3B1),
  (0x7B80, 0xC2B2),
  (0x7B93, 0xF6FC),
  (0x7BA6, 0xEDBD_E6D7_F6FB_C659_C2B0_C2AD),
  (0x7BD1, 0xC2B1),
  (0x7BD3, 0xC14D),
  (0x7BED, 0xC5A2_C478_F6FD),
  (0x7C12, 0xBF79),
  (0x7C16, 0xF8B8),
  (0x7C18, 0xC2AD),
  (0x7C41, 0xC5A3),
  (0x7C44, 0xC2B1),
  (0x7C56, 0xC5D2),
  (0x7C58, 0xC4F0),
  (0x7C74, 0xF740),
  (0x7C7B, 0xC3FE_AAC4),
  (0x7C8B, 0xBAE9),
  (0x7C93, 0xCCF4),
  (0x7C9B, 0xB5C2_F8FD_F5E6),
  (0x7CAA, 0xC154),
  (0x7CAE, 0xC2B3),
  (0x7CC1, 0xC158_C158),
  (0x7CC7, 0xEF53),
  (0x7CC9, 0xBAEA),
  (0x7CCD, 0xDAE7),
  (0x7CDB, 0xBF7D),
  (0x7CE3, 0xC158),
  (0x7CFA, 0xAAC8),
  (0x7D27, 0xBAF2),
  (0x7D4B, 0xF5E7_B867),
  (0x7D64, 0xBD75),
  (0x7D75, 0xC3B8_B5B4_EDDE),
  (0x7D82, 0xB2CE),
  (0x7D95, 0xC2B4),
  (0x7D98, 0xC15F_C47E_C4F2),
  (0x7DA4, 0xB2D0),
  (0x7DAB, 0xBD75),
  (0x7DB3, 0xC15E),
  (0x7DCF, 0xC160_C163_BAF1),
  (0x7DD6, 0xBAFC),
  (0x7DDC, 0xBAF8),
  (0x7DFC, 0xEAD5),
  (0x7DFE, 0xC4F1),
  (0x7E01, 0xBD74_C160),
  (0x7E04, 0xC3B7),
  (0x7E26, 0xC161),
  (0x7E4A, 0xC5D6),
  (0x7E5B, 0xBAEF),
  (0x7E6E, 0xC5B7),
  (0x7E89, 0xF940),
  (0x7E8E, 0xC5D6),
  (0x7E92, 0xC4F1),
  (0x7EA0, 0xAAC8_ACFA_ACF5_ACF4),
  (0x7EA5, 0xACF8_ACF9_AFC5_D04B_F5E7_ACF6_ACF7_BD6E_AFC6_D354_AFC2_AFC4),
  (0x7EB1, 0xAFBD_BAF5_AFC7_D351_C161_BAFA_AFC9_AFC8_AFBE_AFBC),
  (0x7EBC, 0xD355_AFC3_D356_BD75_D6E6_B2D8_B2D9_BD6D_B2D5_B2D4_B2D3_C2B4),
  (0x7EC8, 0xB2D7_BFA8_B2CC_B2D1_B2D2_B2D0_C3B6_B867_D6ED_B86A_B5B3_B5B2),
  (0x7ED5, 0xC2B6_B5BB_DAFB_C3B8_B5B9_B5BA_B5BC_B5B8_B5B4_B5B1_B2CE_DF58),
  (0x7EE1, 0xDF60_B868),
  (0x7EE4, 0xDF62_B86B),
  (0x7EE7, 0xC47E_DF57_C15A_BAFC_BAF0),
  (0x7EED, 0xC4F2_BAF6_E36E_BAEF),
  (0x7EF2, 0xE36C_C3B7_BAFB_BAF8_BAFE_C15E_BAF7),
  (0x7EFA, 0xE371_E365_BAEE_BAEC_BAED_BAF1),
  (0x7F01, 0xBAFD_BD79_E6E7_BD70_BD71_C66C_BD7B_BD7A_BD72_EAD5),
  (0x7F0C, 0xE6EB),
  (0x7F0E, 0xBD76),
  (0x7F11, 0xE6ED_EAD8_BD77_BD6C_C15C_BD73_E6E8_BD74_BFA7_BFA3_EAD0_BFA6),
  (0x7F1D, 0xC15F_EACE_BFA5_C4F1_EDD0_BF7E_BFA1_C47D_C165_C167_C15D_C5D5),
  (0x7F29, 0xC159_C15B_C162_F5E9_C2B7_C2B5_C2B9_C5B7_F4AD_F2B2_F2B4_C3BA),
  (0x7F35, 0xF940),
  (0x7F37, 0xA8F8),
  (0x7F42, 0xC4A2),
  (0x7F47, 0xBEEA),
  (0x7F4E, 0xC2BB),
  (0x7F53, 0xAAC9),
  (0x7F57, 0xC3B9),
  (0x7F5A, 0xBB40),
  (0x7F62, 0xBD7D),
  (0x7F74, 0xF2BC),
  (0x7F78, 0xBB40),
  (0x7F81, 0xC5F9_DAFE),
  (0x7F97, 0xAACA),
  (0x7F99, 0xACFC),
  (0x7F9F, 0xDF6D),
  (0x7FA3, 0xB873),
  (0x7FAE, 0xC3BC),
  (0x7FB4, 0xC3BB),
  (0x7FC4, 0xAFCD),
  (0x7FC6, 0xBB41),
  (0x7FD8, 0xC2BC),
  (0x7FDA, 0xE6F8),
  (0x7FF6, 0xBFAC),
  (0x7FFA, 0xBFAC),
  (0x8027, 0xEDE7),
  (0x802F, 0xC3AC),
  (0x8038, 0xC171),
  (0x803B, 0xAEA2),
  (0x8040, 0xC2BE),
  (0x8042, 0xC2BF),
  (0x804B, 0xC5A4_C2BE_F4B2),
  (0x8054, 0xC170),
  (0x805F, 0xB442),
  (0x8061, 0xC16F),
  (0x8066, 0xC16F),
  (0x8068, 0xC170_F07C_C16F_C170),
  (0x806E, 0xC170),
  (0x8074, 0xC5A5),
  (0x8083, 0xB5C2),
  (0x8088, 0xBB46),
  (0x808E, 0xAAD6),
  (0x80A0, 0xB87A),
  (0x80A4, 0xBDA7),
  (0x80AC, 0xACD0),
  (0x80B9, 0xCDAE),
  (0x80BB, 0xAAD6),
  (0x80BE, 0xB5C7_B87E_B5C8),
  (0x80C6, 0xC178),
  (0x80DF, 0xA9E6),
  (0x80E7, 0xC467),
  (0x80EA, 0xC4A4_D748),
  (0x80F6, 0xBDA6_AFDD),
  (0x8103, 0xAFDC_D751),
  (0x810D, 0xC17A),
  (0x810F, 0xC5A6_C2C0_B8A3),
  (0x8113, 0xC177_F943),
  (0x811A, 0xB87D),
  (0x8131, 0xB2E6),
  (0x8133, 0xB8A3_B56C),
  (0x8136, 0xDFA2),
  (0x8138, 0xC179),
  (0x8158, 0xE741),
  (0x816D, 0xF8ED),
  (0x817B, 0xBFB0),
  (0x817D, 0xE3A6_C4CB),
  (0x8191, 0xC2C1),
  (0x8193, 0xB87A),
  (0x81B8, 0xC5E8),
  (0x81C8, 0xC3BE),
  (0x81D3, 0xC5A6),
  (0x81DC, 0xC5D8),
  (0x81F0, 0xAFE4),
  (0x8203, 0xDB57),
  (0x8206, 0xC1D6),
  (0x820E, 0xAAD9),
  (0x8217, 0xE745_C05D),
  (0x8229, 0xB2EE),
  (0x8230, 0xC4A5_BFB5),
  (0x823B, 0xF746),
  (0x8241, 0xB379),
  (0x824A, 0xB2ED),
  (0x8265, 0xB7AA),
  (0x8270, 0xC17D),
  (0x8273, 0xC641),
  (0x8276, 0xC641),
  (0x8279, 0xA653_C3C0),
  (0x8282, 0xB860),
  (0x8288, 0xA6CF),
  (0x828C, 0xA8A1),
  (0x8297, 0xEB52),
  (0x829C, 0xBFBE),
  (0x82A6, 0xC4AA),
  (0x82C1, 0xE776),
  (0x82C7, 0xB8AB_F4BE),
  (0x82CB, 0xB341),
  (0x82CD, 0xBB61),
  (0x82CF, 0xC4AC_B2C4),
  (0x82E9, 0xB8B4),
  (0x830E, 0xB2F4_F4B8),
  (0x8311, 0xE772),
  (0x8314, 0xB6F7_DE72),
  (0x8318, 0xAFEF),
  (0x831D, 0xB463),
  (0x831F, 0xB5A7),
  (0x8330, 0xB5E3),
  (0x8358, 0xB2F8_EE54_B2F3_EAFE_E76E),
  (0x835E, 0xEB4C_EE50_C2C9_BFBA),
  (0x8363, 0xBA61_B8A7_E26C_BABA_BAB7_EB43_F0B0_BB5E_BDAE),
  (0x836D, 0xDFD2),
  (0x836F, 0xC3C4),
  (0x8391, 0xBDB4),
  (0x83AC, 0xDFCB_B860),
  (0x83B1, 0xB5DC_BDAC_E3C2_B8B1),
  (0x83B7, 0xC0F2_EB4F_BCFC_C561),
  (0x83BC, 0xE75D),
  (0x83BE, 0xB2F5),
  (0x83D3, 0xAA47),
  (0x83ED, 0xAD61),
  (0x83F7, 0xA9AA),
  (0x8415, 0xC2C9),
  (0x841A, 0xF4BD),
  (0x841D, 0xC5DA),
  (0x8420, 0xB5DE),
  (0x8424, 0xBFC3_C0E7_BFA2_BFBD_C2C4),
  (0x842E, 0xF4BC),
  (0x8441, 0xABB8),
  (0x8455, 0xD77A),
  (0x8462, 0xBB5C),
  (0x846A, 0xC1AA),
  (0x8483, 0xBD66),
  (0x8487, 0xEB41),
  (0x8489, 0xEB44),
  (0x848B, 0xBDB1_E76F),
  (0x8493, 0xE75D),
  (0x84AD, 0xAFEC),
  (0x84B7, 0xEAFC),
  (0x84D5, 0xD378),
  (0x84D8, 0xE752),
  (0x84DD, 0xC2C5),
  (0x84DF, 0xC1AA),
  (0x84E3, 0xEE40),
  (0x84E5, 0xF16A_C55A),
  (0x8533, 0xE3C8),
  (0x8535, 0xC2C3),
  (0x8537, 0xC1A5),
  (0x8539, 0xF5FD_C4A9),
  (0x853C, 0xC4A7),
  (0x853F, 0xDFAF),
  (0x854B, 0xBFB6),
  (0x854F, 0xF2D0),
  (0x855A, 0xB8B0),
  (0x8570, 0xEDF4),
  (0x8572, 0xF4BF),
  (0x8574, 0xC4AD),
  (0x85AB, 0xC2C8_C3C4),
  (0x85AE, 0xC3C1),
  (0x85BB, 0xC4A6_E77D),
  (0x85CC, 0xE74C),
  (0x85D3, 0xC4F6),
  (0x85F4, 0xC4AD),
  (0x8602, 0xBFB6),
  (0x860D, 0xC2C8),
  (0x8613, 0xC4AC),
  (0x861D, 0xF5FD),
  (0x8637, 0xC4DC),
  (0x8641, 0xC4DC),
  (0x864A, 0xA4AD),
  (0x864F, 0xB8B8),
  (0x8651, 0xBC7B),
  (0x865A, 0xB5EA),
  (0x865D, 0xAAEA),
  (0x8666, 0xEB59),
  (0x866C, 0xCDC8),
  (0x867D, 0xC1F6_BDBC_F2E3_BB6B_C3C6_BFC2),
  (0x8689, 0xB041),
  (0x86A6, 0xD7A4),
  (0x86AC, 0xB8C3),
  (0x86CA, 0xC5DB),
  (0x86CD, 0xBFC3_C4F7_F2DE),
  (0x86E5, 0xB5F2),
  (0x86EE, 0xC65A),
  (0x86F0, 0xEE68_DFE6_C2CC_EB6B_F4C5),
  (0x8716, 0xB5EE_BDBD),
  (0x871D, 0xE3DB),
  (0x8739, 0xD3C2),
  (0x8747, 0xC3C7_C1B4_C2CD),
  (0x877C, 0xC1B2),
  (0x877E, 0xF4C6_C3C7),
  (0x8786, 0xDBB4),
  (0x878E, 0xBFC4),
  (0x87A1, 0xB041),
  (0x87C1, 0xB041),
  (0x87C7, 0xC1B0),
  (0x87CF, 0xF74E),
  (0x87D6, 0xF0CF),
  (0x87DA, 0xF0BE),
  (0x87E9, 0xF0D0),
  (0x87F0, 0xF74E),
  (0x87F8, 0xC4F9),
  (0x880F, 0xC3C9),
  (0x8842, 0xD3D0),
  (0x8845, 0xC65D_B2B3),
  (0x8849, 0xB3D8),
  (0x8854, 0xBBCE),
  (0x8858, 0xBBCE),
  (0x885E, 0xBDC3),
  (0x8864, 0xA6E7_B8C9),
  (0x886C, 0xC5A8),
  (0x886E, 0xB34F),
  (0x887B, 0xD7B9),
  (0x8884, 0xC3CD_B8CD),
  (0x889C, 0xC4FB),
  (0x88A0, 0xD7BA),
  (0x88AD, 0xC5A7),
  (0x88B3, 0xDBCD),
  (0x88B5, 0xB04D),
  (0x88BF, 0xBB6F),
  (0x88C5, 0xB8CB_C3CB),
  (0x88E0, 0xB8C8),
  (0x88E2, 0xEE72_F2F0_BFC7),
  (0x88E9, 0xE7C3),
  (0x88ED, 0xBFC9),
  (0x88F5, 0xBB70),
  (0x8903, 0xDBCF),
  (0x891B, 0xC1B9),
  (0x8924, 0xE7CB),
  (0x8934, 0xC4B0),
  (0x8943, 0xBDC7),
  (0x894D, 0xC2F8),
  (0x8987, 0xC551),
  (0x898A, 0xC5F9),
  (0x899A, 0xC4B1),
  (0x89A7, 0xC4FD),
  (0x89B3, 0xC65B),
  (0x89BB, 0xF2F3_F2F4),
  (0x89C1, 0xA8A3_C65B),
  (0x89C4, 0xB357_B356_B5F8_DBD1_C4FD_C4B1_C1BB_E444_F753),
  (0x89CE, 0xBFCC_EE7A_C2D1_F2F3),
  (0x89DE, 0xC2D2),
  (0x89E7, 0xB8D1),
  (0x89F5, 0xDFFD),
  (0x89FD, 0xF94C),
  (0x8A05, 0xD0B0),
  (0x8A14, 0xE7DD),
  (0x8A2B, 0xAB48),
  (0x8A33, 0xC4B6),
  (0x8A3D, 0xB8E1),
  (0x8A5F, 0xF842),
  (0x8A64, 0xC1C0),
  (0x8A78, 0xC1BC),
  (0x8A88, 0xBB7A_C541_C1C3),
  (0x8A90, 0xAE40),
  (0x8AAC, 0xBBA1_C5AA),
  (0x8AB3, 0xDBDC),
  (0x8AE9, 0xC3D0),
  (0x8AFD, 0xD943),
  (0x8B09, 0xB8DE),
  (0x8B1F, 0xDD6D),
  (0x8B21, 0xC1C1),
  (0x8B2D, 0xF756),
  (0x8B38, 0xF0E6),
  (0x8B3F, 0xBC4A),
  (0x8B4D, 0xC0B3),
  (0x8B61, 0xC66D),
  (0x8B71, 0xB5BD_C5FD),
  (0x8B83, 0xC667),
  (0x8B87, 0xBDD4),
  (0x8B8D, 0xEBA7),
  (0x8B90, 0xF841),
  (0x8B9B, 0xC56D),
  (0x8BA0, 0xA8A5_AD70_AD71_AD72_BB7B_C3D5_B050_B052_B051_C5FD_B053_B057),
  (0x8BAC, 0xB055_B056_C4B3_B054_B04F),
  (0x8BB2, 0xC1BF_BFD0_F0DD_DBD6_B359_B35B_B35C_B35F_BDD7),
  (0x8BBC, 0xB35E_BFD8_B35D_B358_B35A_C3D2_B5FE_B646_B5FB_B641_C3D1_DBDB),
  (0x8BC8, 0xB642_B644_B645_B643_EEA4_B5FC_DBDC_B640),
  (0x8BD1, 0xC4B6_DBDF_E046_E04C_B8D5_E047_B8D6_B8D7_B8D9_B8DB_B8DD),
  (0x8BDD, 0xB8DC_BDCF_B8E1_B8E0_B8DE_B8DF_B8DA_BDD8_B8D3_B8D4_B8D2_EBA1),
  (0x8BE9, 0xE048),
  (0x8BEB, 0xBB7C_BB7A_BB79_BBA6_BB7E_BBA2_BBA4_BBA3_BBA5_BBA1_BB77_E44D),
  (0x8BF7, 0xBDD0_BDD1_E7D4_BFD5_C5AA_E7D8_BDDA_BDD2_BDD3_BDDB_BDD6_E7DC),
  (0x8C03, 0xBDD5_BDD4_BDCC_BDCE_BDD9_BDCD_F75A_BDCB_BFD1_BFDB_BFD2_C1C0),
  (0x8C0F, 0xBFCF_BFD3_EBA6_BFD6_BFD7_EBA7_BFD9_BFDC_C5FE_BFD4_BFDA_BFCE),
  (0x8C1B, 0xBFCD_C1BC_EBAB_EBA5_C2D3_C66D_EEA2_C1C2_C1C1_C1BD_EEB0_C1BE),
  (0x8C27, 0xC1C4_C2D4_F0E3_C2D6_F756_C2D5_C3D3_F2FB_C3D7_F8C2_C3D0_C3D4),
  (0x8C33, 0xF9A9_C4FE_C4B8_C640),
  (0x8C53, 0xC641),
  (0x8C63, 0xD7CF),
  (0x8C6E, 0xF346),
  (0x8C7C, 0xEEB7),
  (0x8C8E, 0xD665),
  (0x8C9F, 0xADFB),
  (0x8CAD, 0xBDE8_B64C),
  (0x8CCD, 0xC542_BDE2),
  (0x8CD6, 0xBBAD),
  (0x8CDB, 0xC3D9),
  (0x8CE9, 0xE7EB),
  (0x8D01, 0xB1D1),
  (0x8D0B, 0xC5AC),
  (0x8D11, 0xC642_BDE5),
  (0x8D1C, 0xC542_A8A9_AD73_AD74),
  (0x8D21, 0xB05E_B05D_B364_BDE5_B1D1_BDE3_B366_BDE8_B363_B367_B368_B653),
  (0x8D2D, 0xC1CA_B64A_B365_B64C_BDE2_B64E_DBEA_B64B_B651_DBE8_B655_B654),
  (0x8D39, 0xB64F_B650_B64D_B8E9_F0F4_B8EB_B8EC),
  (0x8D41, 0xB8EE_B8EF_C542_B8EA_B8F0_F652),
  (0x8D48, 0xBBAC_E7EC_BBAD_BDE1_BDE4),
  (0x8D4E, 0xC5AB_BDE0_BDE7),
  (0x8D52, 0xE7EA_BDE9_BDDF_E7EE_BFE0_EBB4_C2D8_C1CC_C1C8_C1C9_F0F3_C5AC),
  (0x8D5E, 0xC3D9),
  (0x8D60, 0xC3D8_C4BA_C4B9_C642),
  (0x8D6A, 0xEBB9),
  (0x8D75, 0xBBAF),
  (0x8D8B, 0xC1CD),
  (0x8DB1, 0xF96F),
  (0x8DB8, 0xC4BB),
  (0x8DC3, 0xC544_EEBE),
  (0x8DE5, 0xB8F6),
  (0x8DF5, 0xBDEE),
  (0x8DF7, 0xC3DF_C2DE_F75F),
  (0x8DFB, 0xC545),
  (0x8E08, 0xB2A8),
  (0x8E0C, 0xC543),
  (0x8E28, 0xC2DC),
  (0x8E2A, 0xC2DC),
  (0x8E2C, 0xC5AE),
  (0x8E2F, 0xC5AD),
  (0x8E32, 0xB950),
  (0x8E46, 0xBB4C),
  (0x8E4F, 0xBFE1),
  (0x8E51, 0xC65C_C2DA),
  (0x8E6E, 0xF75F),
  (0x8E77, 0xC3DD),
  (0x8E7F, 0xF94F),
  (0x8E8F, 0xC66E),
  (0x8E9B, 0xF759_F970),
  (0x8EA7, 0xE1A2),
  (0x8EAD, 0xAFD4),
  (0x8EAF, 0xC2DF_C5E9_B8FA),
  (0x8EB7, 0xB847),
  (0x8EC1, 0xDCBC),
  (0x8EC4, 0xC2BE),
  (0x8EC6, 0xC5E9),
  (0x8EDA, 0xD3E8),
  (0x8EE2, 0xC2E0),
  (0x8EF0, 0xBDFA),
  (0x8EFD, 0xBBB4),
  (0x8F0F, 0xEBC9),
  (0x8F19, 0xBBB3),
  (0x8F28, 0xEBDD),
  (0x8F2D, 0xB36E),
  (0x8F3A, 0xBDFD),
  (0x8F3C, 0xEEC1),
  (0x8F66, 0xA8AE_AAEE_AD79_B061),
  (0x8F6B, 0xB062_C2E0_B36D_BDFC_B36E_C546),
  (0x8F72, 0xB661_F847_B662),
  (0x8F76, 0xB663),
  (0x8F78, 0xDC48_F765_DBFE_BBB4_B8FD_B8FC_B8FE_C3E2),
  (0x8F82, 0xE078_B8FB_BBB3_BBB2_BDF8_BDFB_BDFA_BDF7_BE40_BDFE),
  (0x8F8D, 0xBDF9_BDFD_BFEA_BFE7_BFE8),
  (0x8F93, 0xBFE9_C5AF_C1D5_C1D2_C1D3_F146_C2E1_C3E1),
  (0x8F9D, 0xC3E3_C3E3),
  (0x8FA2, 0xBBB6),
  (0x8FA4, 0xC3E3_C1A7),
  (0x8FA9, 0xC547),
  (0x8FAB, 0xC47C_B4B3),
  (0x8FB9, 0xC3E4_C3E4),
  (0x8FBD, 0xBFF1_B946),
  (0x8FC1, 0xBE45),
  (0x8FC7, 0xB94C_C1DA),
  (0x8FCA, 0xAAEF),
  (0x8FD0, 0xB942),
  (0x8FD8, 0xC1D9_B36F),
  (0x8FDB, 0xB669_BBB7_B948_B373_BFF0),
  (0x8FE9, 0xC2E2),
  (0x8FEC, 0xA9B9),
  (0x8FEF, 0xB06B),
  (0x8FF9, 0xB8F1),
  (0x9008, 0xAD7E_BFEF_BBB9),
  (0x900E, 0xE07D),
  (0x9012, 0xBBBC_BBBC),
  (0x9026, 0xC5DD),
  (0x9029, 0xA962),
  (0x902C, 0xB06E),
  (0x9037, 0xB37C),
  (0x903A, 0xBBB7_C5DE),
  (0x9040, 0xC048),
  (0x9045, 0xBFF0),
  (0x904C, 0xCDD1),
  (0x9057, 0xBFF2),
  (0x9061, 0xB7B9),
  (0x9065, 0xBBBB),
  (0x9089, 0xC3E4),
  (0x9093, 0xBE48),
  (0x909D, 0xF14B),
  (0x90A8, 0xA7F8),
  (0x90AC, 0xE0A9),
  (0x90AE, 0xB66C),
  (0x90B9, 0xB951_BFF3_BE46),
  (0x90C4, 0xBBD8),
  (0x90CF, 0xD3F7_EBD7_BE47),
  (0x90D3, 0xDC50),
  (0x90DE, 0xADA6),
  (0x90E6, 0xC5B0_E0A8),
  (0x90F7, 0xB66D_E858),
  (0x910A, 0xB66D),
  (0x9115, 0xB66D),
  (0x913C, 0xF766),
  (0x9154, 0xBE4B),
  (0x9159, 0xB772),
  (0x915D, 0xC1DF),
  (0x9167, 0xB953),
  (0x9171, 0xC2E6),
  (0x917C, 0xEEC6_C66F_F971_C643),
  (0x918E, 0xC4D0),
  (0x9196, 0xC1DF),
  (0x91A4, 0xC2E6),
  (0x91B8, 0xC643),
  (0x91BB, 0xB953),
  (0x91BF, 0xF8C7),
  (0x91C4, 0xF8C7),
  (0x91C8, 0xC4C0),
  (0x91CA, 0xC4C0),
  (0x91E1, 0xB079),
  (0x91EF, 0xE86C),
  (0x920E, 0xB95F),
  (0x9213, 0xE4B9),
  (0x921B, 0xC1E7),
  (0x921F, 0xB3A8),
  (0x9244, 0xC54B),
  (0x925F, 0xB965),
  (0x9262, 0xB2DA),
  (0x9274, 0xC5B3),
  (0x9281, 0xB676),
  (0x9292, 0xDC65),
  (0x929E, 0xB676),
  (0x92AD, 0xBFFA_C671),
  (0x92ED, 0xBE55),
  (0x92F3, 0xC5B1),
  (0x932C, 0xC1E5),
  (0x9330, 0xE0B4),
  (0x9332, 0xBFFD),
  (0x933D, 0xE864_C3F5),
  (0x9348, 0xE0BD),
  (0x9353, 0xF542),
  (0x935F, 0xE0C8),
  (0x9362, 0xEED9),
  (0x936B, 0xC1EA),
  (0x937F, 0xC045),
  (0x939C, 0xBD4C),
  (0x93A0, 0xBFFB),
  (0x93AD, 0xC2ED),
  (0x93B8, 0xC54F),
  (0x93BB, 0xC2EA),
  (0x93C9, 0xF15C),
  (0x93E0, 0xBE57),
  (0x93E9, 0xC3F5),
  (0x93F3, 0xBFFE),
  (0x941A, 0xEBE2),
  (0x941E, 0xBFAE_F4EE),
  (0x9443, 0xE4A2),
  (0x945A, 0xC670),
  (0x9486, 0xD0C1_D0C0_B077_B076_B078_B07A_D442_D841),
  (0x948F, 0xB3A9_D7FC),
  (0x9492, 0xB3AB_B3A8_EBEA_D7FD_C1ED_B3A6_DC65_B674),
  (0x949B, 0xDC67),
  (0x949D, 0xB677_B672),
  (0x94A0, 0xB675_BE58_BFFB),
  (0x94A4, 0xB678_C65F_B4DC_B676_C2EB_B95F_DC70_DC62_DC64_DC6F_B673_DC6A),
  (0x94B0, 0xE0B1_BFFA_E0B2_B958_B957_B2DA_E0B3),
  (0x94B8, 0xB95A_B959_E0B5_C670_E0BB_E0BA_B95B_B966_B95C_C54B_B960_B961),
  (0x94C4, 0xC5E0_B95D_B967),
  (0x94C8, 0xE0B0_B962_E0AE_B963_E0B7_B965_C54D_E478_BE52_E47B_E47A_E86C),
  (0x94D4, 0xEBE2_E47D),
  (0x94D7, 0xE868),
  (0x94D9, 0xC4C2),
  (0x94DB, 0xC54C_BBC9_BE54),
  (0x94DF, 0xE4A1_F15A_EED4_BBCB_BBD1_E86F_E4B7),
  (0x94E7, 0xF4F3_BBCD_F36A_E4A6_E4A2_BBCC_BBCA_BFFE_E4A3_BBC7_E476_C3EA),
  (0x94F3, 0xE0B6),
  (0x94F5, 0xBBCF_BBC8_E4A7_C5B1_F4F9_E745),
  (0x94FC, 0xEBE4_E869_C3EC_C3F4_BE50_C2EA_BE59),
  (0x9504, 0xBE53_C1E7_E870_E872_F9D7_BE56),
  (0x950B, 0xBE57_BE4E),
  (0x9510, 0xBE55_BE4F_E863_E86A_E876_EBE8_EBE1_EBE3),
  (0x9519, 0xBFF9_C1E3_EBE6),
  (0x951E, 0xEBE9_C043),
  (0x9521, 0xBFFC_C044_C672_C2F1_C040_C041_F84B),
  (0x9529, 0xEBDF),
  (0x952D, 0xBFF5_C1E4_BFF7_BFF8_C045_C1E6),
  (0x9534, 0xEED2_C3F2_EED6_C1EE_EED0_C1EA),
  (0x953B, 0xC1EB_F15C_EEDA_C1EC),
  (0x9540, 0xC1E1_C1E2_C3F3_EECD_F4F0),
  (0x9547, 0xC2ED),
  (0x9549, 0xC2F0_C668_F9BF_C54F_C2EC),
  (0x954F, 0xF15E_C2EE_C2E9_C2EF_F153_F767),
  (0x9556, 0xC3F0_C3ED_C3EE),
  (0x955B, 0xF360_C3E8_C3E9_C3EB),
  (0x9563, 0xF4EF_F4F5),
  (0x9566, 0xF4E8_F953_F4EA),
  (0x956A, 0xF366_F4F1_F769_C54A_F660_C54E_C549_F65E),
  (0x9573, 0xC5DF_F84E),
  (0x9576, 0xC65E),
  (0x9578, 0xAAF8),
  (0x957F, 0xAAF8),
  (0x9587, 0xB3AC),
  (0x9599, 0xBE78),
  (0x95A2, 0xC3F6),
  (0x95B2, 0xBE5C),
  (0x95D7, 0xC3F6_B0AB),
  (0x95E8, 0xAAF9_ADAC_B07B),
  (0x95ED, 0xB3AC_B0DD_C2F4_B67C_C1F2_B67E),
  (0x95F4, 0xB6A1_B67B),
  (0x95F7, 0xB465_B968_BE78_BBD3_BB44_F66B_BBD4_BE5B_F16D_BBD6_BBD5_BBD2),
  (0x9603, 0xE8A7_F9C4_BE5C_E8A6),
  (0x9608, 0xEC48_EC49_EC4B_F1BE_EC4C_EC4E_C046_EC46_C4C4_C1F1_EEF1),
  (0x9614, 0xC1EF_C1F0_C2F3_C2F5),
  (0x9619, 0xC2F6_F545),
  (0x961F, 0xB6A4),
  (0x9627, 0xB07E),
  (0x9633, 0xB6A7_B3B1_B07D_B6A5),
  (0x9641, 0xAAFB),
  (0x9645, 0xBBDA_B3B0_C3F7_B3AF_B0A4),
  (0x9652, 0xCE56),
  (0x9655, 0xB0A2),
  (0x9657, 0xAE6B),
  (0x9665, 0xB3B4),
  (0x9667, 0xDCA1_B96B_C049),
  (0x967A, 0xC049),
  (0x967F, 0xAF55),
  (0x968F, 0xC048_C1F4),
  (0x969F, 0xBBD8_C1F4),
  (0x96A3, 0xBE46),
  (0x96B6, 0xC1F5_C1F5),
  (0x96BA, 0xC562),
  (0x96BD, 0xB96D_C3F8),
  (0x96CF, 0xC2FA),
  (0x96D1, 0xC2F8),
  (0x96E0, 0xF841),
  (0x96E7, 0xB6B0),
  (0x96F3, 0xC645),
  (0x96FE, 0xC3FA),
  (0x9701, 0xC5B4),
  (0x970A, 0xC646),
  (0x9717, 0xB973),
  (0x971A, 0xC3FA_C646),
  (0x9721, 0xF177),
  (0x972D, 0xC647),
  (0x9736, 0xB7BC),
  (0x9751, 0xAB43),
  (0x9753, 0xE8B0),
  (0x9759, 0xC052),
  (0x9765, 0xC5E2),
  (0x9775, 0xAFC3),
  (0x978C, 0xBE62),
  (0x9791, 0xC5B6),
  (0x9795, 0xB577),
  (0x97A9, 0xC054),
  (0x97AF, 0xC669),
  (0x97B5, 0xBE63),
  (0x97BE, 0xB975),
  (0x97C8, 0xC4FB),
  (0x97E4, 0xC4FB),
  (0x97E6, 0xADB3_B6B4_E4CA_C1FA_F1A4_F3A5_C3FC),
  (0x97EE, 0xADB4),
  (0x97F2, 0xF87E),
  (0x97F5, 0xC3FD),
  (0x980B, 0xC555),
  (0x981A, 0xC056),
  (0x981F, 0xC342),
  (0x9833, 0xEBB9_BF6F),
  (0x983C, 0xBFE0_C05A),
  (0x983F, 0xC068),
  (0x9847, 0xB17C),
  (0x9854, 0xC343_C5E3),
  (0x985A, 0xC441),
  (0x9866, 0xBCAC),
  (0x9875, 0xADB6_B3BB_B3BC_DCAC_B6B5_B6B6_B6B7_B97A_B978_C555_B979_E0E0),
  (0x9881, 0xB97B_B97C_E0DE_B977_C660_BBE2_BBE1_C056_BE65_C055_EC5B_BE67),
  (0x988D, 0xE5F9),
  (0x988F, 0xE8B8_C05B_C057),
  (0x9893, 0xC05A_C058),
  (0x9896, 0xBF6F_C1FB_C344_F1AA_C345_C346_C343_C342_F9AE_F54F_C441_F3A8),
  (0x98A2, 0xC556),
  (0x98A4, 0xC5B8),
  (0x98A6, 0xC649_F9AF),
  (0x98C7, 0xF674_F674),
  (0x98CE, 0xADB7_C347),
  (0x98D2, 0xBBE3_C1FC_F1AB_C442),
  (0x98D7, 0xF675_C4C6_F674),
  (0x98DC, 0xC2BD),
  (0x98DE, 0xADB8),
  (0x98E8, 0xC557),
  (0x98EC, 0xBE69),
  (0x98EE, 0xB6BC),
  (0x98F0, 0xB6BA),
  (0x9901, 0xB6B9),
  (0x990D, 0xC5E4),
  (0x991D, 0xB9A2),
  (0x9920, 0xBBE6),
  (0x9939, 0xBF7D),
  (0x993B, 0xBF7C),
  (0x9963, 0xADB9),
  (0x9965, 0xC4C8_D84F_EF4F_B6BB_F1AD_B6B9_DCAE_B6BD_B6BA_B6BC_C05E_B9A2),
  (0x9971, 0xB9A1_B97D),
  (0x9974, 0xB97E_BBE7_C4C7_BBE8),
  (0x997A, 0xBBE5),
  (0x997C, 0xBBE6_E8C1_E8C3_BE6A),
  (0x9981, 0xBE6B),
  (0x9984, 0xC05F_C060_C05D),
  (0x9988, 0xF558),
  (0x998A, 0xC349_C661),
  (0x998D, 0xF3B1_F1AE_C348_F3AF_C444_C443),
  (0x9994, 0xF557_F959),
  (0x99C4, 0xB9A4_C5E6_C558),
  (0x99C8, 0xC558),
  (0x99DE, 0xBE6D),
  (0x99E1, 0xBD7C),
  (0x99E6, 0xC4CB),
  (0x9A08, 0xC063),
  (0x9A0C, 0xC34F),
  (0x9A10, 0xC5E7),
  (0x9A12, 0xC4CC_C5E7),
  (0x9A17, 0xC446),
  (0x9A58, 0xC55B),
  (0x9A6C, 0xB0A8_B6BF_B9A4_B9A5_B9A3_C558),
  (0x9A73, 0xBBE9_C66A_E8CA_BE70_BE6F_BE74_BE73_F55F_BE6E_BE6D_BE71_BE72),
  (0x9A7F, 0xC5E6_E8CE_C5BB_BD7C),
  (0x9A84, 0xC5BA_F77E_C064_C062_C063),
  (0x9A8A, 0xC67A_C1FE_C5E7_EF58_EF5D_C240_F1AF_C34D_F1B2_F1B6_C34F),
  (0x9A96, 0xF67C_C446_F563),
  (0x9A9A, 0xC4CC_C445_F67D_F561_C4CA_F562_C559_C55B_F67B),
  (0x9AA4, 0xC64A_C66B),
  (0x9AA7, 0xF9B3),
  (0x9AC4, 0xC5E8_C55C),
  (0x9ACB, 0xC662_F8D4),
  (0x9AD9, 0xB0AA),
  (0x9AE0, 0xB9A6),
  (0x9AEA, 0xBE76),
  (0x9B00, 0xAB63),
  (0x9B02, 0xC64B),
  (0x9B13, 0xC64B),
  (0x9B2A, 0xB0AB),
  (0x9B2D, 0xB0AB),
  (0x9B47, 0xC64C),
  (0x9B49, 0xC352),
  (0x9B63, 0xF95B),
  (0x9B72, 0xC674),
  (0x9B89, 0xC44B),
  (0x9B9D, 0xF3D0),
  (0x9BCB, 0xC354),
  (0x9BF5, 0xF8D9),
  (0x9C00, 0xF1C3),
  (0x9C10, 0xC673),
  (0x9C15, 0xBDBC),
  (0x9C3A, 0xF8D9),
  (0x9C51, 0xF576),
  (0x9C65, 0xC5ED),
  (0x9C76, 0xF3D0),
  (0x9C7C, 0xB3BD_E0EA),
  (0x9C7F, 0xBE7B_E8E1_BE7C_E8DB),
  (0x9C88, 0xC674),
  (0x9C8A, 0xEC7A_EC7B),
  (0x9C8D, 0xC06A_C64D),
  (0x9C90, 0xEC7C_C244_EF6A),
  (0x9C94, 0xC243),
  (0x9C96, 0xEF6E),
  (0x9C99, 0xF8DB_F95C_C242_C241),
  (0x9C9E, 0xF3D0_F858_F1C7_F9CE_C5BF_F7AE_C355_F6AD_F7B2_C358_C354_F1C3),
  (0x9CAB, 0xC356),
  (0x9CAD, 0xC44A_F3C7),
  (0x9CB0, 0xF3C8_F3D6_F3CB_C449),
  (0x9CB5, 0xF3CD_F3CE_C44B_C448_F8D9),
  (0x9CBB, 0xF3CF),
  (0x9CBD, 0xF56B),
  (0x9CBF, 0xF95A),
  (0x9CC3, 0xC4CE_C673_C4CF_F56E_F576),
  (0x9CCC, 0xF7B4_C55F_F6AE_C560),
  (0x9CD2, 0xF6AB_F7AF_C5C0_F7AB_C5BE_C5C1),
  (0x9CDB, 0xF7B1_C5ED_C5EB_C5EC_F857),
  (0x9CE2, 0xF8D7_F8D6),
  (0x9CEB, 0xB6AD_E0ED),
  (0x9D2C, 0xC561),
  (0x9D39, 0xB5BE),
  (0x9D44, 0xECAE),
  (0x9D49, 0xC67D),
  (0x9D5E, 0xC35A),
  (0x9D8F, 0xC2FB),
  (0x9DC4, 0xC2FB),
  (0x9DC6, 0xF6B8),
  (0x9E16, 0xC562),
  (0x9E1F, 0xB3BE_B9A7_C2FB_BBF0_BBEF),
  (0x9E25, 0xC5C3_BE7E_F6C1_E8E9_BE7D_C06C_F3F0_F9B7_C06E_ECA6_C06D_C06F),
  (0x9E31, 0xECAE_ECA9_C070),
  (0x9E35, 0xC06B_C5EE_F7C1_EF7B_EF7E_EFA2),
  (0x9E3C, 0xEFA3_C246_C67D_C245),
  (0x9E41, 0xF1D0_F9CF_C359_C35B_C35A_F1D9_F871_F1CF_C44D_C44E),
  (0x9E4C, 0xC44F),
  (0x9E4F, 0xC450),
  (0x9E51, 0xC44C_F3DA),
  (0x9E55, 0xF57C_F5A6_F5A7_F6BC_F5AE),
  (0x9E5C, 0xF5AD),
  (0x9E5E, 0xC563),
  (0x9E61, 0xF6C0),
  (0x9E63, 0xF6B4_C562_F7C3_C678_C5C2_F7BA_F863_F86B_F86C_F866_C64F),
  (0x9E6F, 0xF8DE_C64E),
  (0x9E73, 0xC67C),
  (0x9E78, 0xC650),
  (0x9E7E, 0xF6C9),
  (0x9E81, 0xF9D2),
  (0x9E84, 0xF9D2),
  (0x9E90, 0xC5EF),
  (0x9EA2, 0xB2DC),
  (0x9EA6, 0xB3C1),
  (0x9EAA, 0xC4D1_C4D1),
  (0x9EB1, 0xBEA2),
  (0x9EB8, 0xBEA2),
  (0x9EBA, 0xC4D1),
  (0x9EBD, 0xBBF2),
  (0x9EC4, 0xB6C0),
  (0x9EC9, 0xC664),
  (0x9ED2, 0xB6C2),
  (0x9ED9, 0xC071),
  (0x9EE1, 0xF97D),
  (0x9EE9, 0xC675),
  (0x9EF1, 0xC24C),
  (0x9EFE, 0xE0EF),
  (0x9F05, 0xBB6A),
  (0x9F08, 0xC5BE),
  (0x9F0B, 0xEFB1),
  (0x9F0D, 0xF965),
  (0x9F11, 0xB9A9),
  (0x9F14, 0xB9AA),
  (0x9F21, 0xB9AB),
  (0x9F26, 0xB649),
  (0x9F44, 0xF966_B6E5),
  (0x9F50, 0xBBF4_F87E),
  (0x9F62, 0xC4D6),
  (0x9F7F, 0xBEA6_EFB5),
  (0x9F83, 0xC4D4_C4D6_F5BE_F5BB_C568_C569_C5C5_C5C6_C654_C653),
  (0x9F99, 0xC073_C5C7_F7CE),
  (0x9F9F, 0xC074),
  (0xF92C, 0xADA6),
  (0xF979, 0xB244),
  (0xF995, 0xA67E),
  (0xF9E7, 0xB8CC),
  (0xF9F1, 0xBE46),
  (0xFA11, 0xB154),
  (0xFA18, 0xC2A7),
  (0xFA2E, 0xADA6_C1F5_AB56_B9AC_A74B_AB6A_B6D4_A8F5_B3DC_B9C4_BEB9),
  (0xFA3A, 0xBEA5_BC68),
  (0xFA3D, 0xAEAC_B46E_BCA8_C367_B1D3_AC4A_B4BB_B1F6_AEFC_B25A_BA7E_B54E),
  (0xFA4A, 0xB55A_B84F_AAC0_ACE7_ACE8_AFA7_AFAA_AFAC_BAD7_BAD5_BD5C_ACF0),
  (0xFA56, 0xB860_BD6D_BFA7_C163_B870_AACC_AFE4_A653_A653_B5DB_BDC5_B5F8),
  (0xFA62, 0xBFD6_C2D4_BBAB_C3D8),
  (0xFA67, 0xB668_C3F8_C554_C057_B466_BAB3_C05D),
  (0xFA70, 0xA8C3_AA70_A5FE_CBB6_A552_BEAC_AB69_A463_B3DC_B0DE_B3F1_DCDA),
  (0xFA7C, 0xB6EF_BC58_A961_A962_B141_E959_E1BC_E1BB_B16D_DD64_B1A6_B756),
  (0xFA88, 0xB755_BCA8),
  (0xFA8B, 0xC367_C0B9_D967_B76A_B4AC_B1CE_B4B8_AED4_B1E6_A7FA_A4EF_B1FE),
  (0xFA97, 0xAC79_B25D_B4FE_BA7E),
  (0xFA9C, 0xB54E_C140_C0EF_A5C7_BDDE_E2D0_B2A1_B565_E6B2_BD45_AF71_B2B1),
  (0xFAA8, 0xAABD_DABF_B5DB_E6C3_EAB5_B860_C3FE_B86C_BD6D_B27E_AACC_AFEE),
  (0xFAB4, 0xB5D8_EB64_EE75_C2D0_B5F8_BDD5_BDD1_BDD0_BFD6_BFD5_BFD9_C2D4),
  (0xFAC0, 0xC5DC_C3D8_BFE9_BFF0_EEC8_E478_D847_C3F8_B974),
  (0xFACA, 0xC554_C555_C057_F568_C074),
  (0xFAD3, 0xA766),
  (0xFAD8, 0xF87D),
  (0x20003, 0xA542),
  (0x2000B, 0xA456),
  (0x20019, 0xC452_A4A3),
  (0x20024, 0xA8C3),
  (0x20029, 0xA5C5),
  (0x20066, 0xA4A4),
  (0x200A0, 0xA8BC),
  (0x200DE, 0xC2A7),
  (0x200F8, 0xDCB2),
  (0x20107, 0xB954_DCB1),
  (0x20121, 0xA4AD),
  (0x20162, 0xADBD),
  (0x20169, 0xB145),
  (0x20187, 0xB6F8),
  (0x2018C, 0xB165),
  (0x201B0, 0xC953),
  (0x201BB, 0xCDDF),
  (0x201DA, 0xA5D2),
  (0x201FE, 0xA5F0),
  (0x20206, 0xD0D8),
  (0x20208, 0xCBBD),
  (0x2020E, 0xA8D7),
  (0x20213, 0xADC7),
  (0x20223, 0xA6D1),
  (0x20229, 0xD85E),
  (0x20255, 0xA8CF_CBC6),
  (0x2026B, 0xCDEA),
  (0x2026E, 0xADC2),
  (0x20293, 0xB3C4),
  (0x20296, 0xA8D2),
  (0x202A8, 0xB9B6_E0F7),
  (0x202AB, 0xCBC0),
  (0x202B1, 0xADD4),
  (0x202B3, 0xAB4B),
  (0x202B6, 0xDCF9),
  (0x202BE, 0xBACC),
  (0x202D2, 0xA952),
  (0x202DB, 0xB2E7),
  (0x202E3, 0xADCA),
  (0x202F1, 0xDCBE),
  (0x202FC, 0xCDE3),
  (0x202FF, 0xCDE8),
  (0x20320, 0xD85C),
  (0x2033C, 0xBBF5),
  (0x2035F, 0xA569),
  (0x2036C, 0xD0D3),
  (0x2036E, 0xD45B),
  (0x20377, 0xE0FB),
  (0x2037B, 0xBEA9),
  (0x203A1, 0xB0C1),
  (0x203B2, 0xD462),
  (0x203BC, 0xDCB8),
  (0x203D7, 0xB9B1),
  (0x203EC, 0xCDE5),
  (0x2041A, 0xC4D7_E4EB),
  (0x20427, 0xE8F7),
  (0x20433, 0xECBB),
  (0x2043F, 0xC1A9),
  (0x20472, 0xDCC2),
  (0x2047D, 0xA552),
  (0x20486, 0xA8E0),
  (0x204B0, 0xECD0_BBF7),
  (0x20540, 0xAAC9),
  (0x20545, 0xA641),
  (0x20549, 0xA5DE),
  (0x2054B, 0xA555),
  (0x2054D, 0xA978),
  (0x2056A, 0xE8F2),
  (0x20575, 0xA4AE),
  (0x205A0, 0xA56A),
  (0x205B8, 0xD861),
  (0x205E7, 0xE140),
  (0x20615, 0xBAB3),
  (0x20621, 0xBBFE),
  (0x20624, 0xA74E),
  (0x20632, 0xA46A),
  (0x20636, 0xA75F),
  (0x20652, 0xEBB4),
  (0x20675, 0xA466),
  (0x20678, 0xA5CC),
  (0x20692, 0xBEA6),
  (0x206B3, 0xC96B),
  (0x206D2, 0xCBD2),
  (0x206EC, 0xA644),
  (0x20707, 0xA8E8),
  (0x20713, 0xADE7),
  (0x20728, 0xA8F0),
  (0x20738, 0xBEAF),
  (0x2073A, 0xA643),
  (0x2073E, 0xB9BB),
  (0x20765, 0xCBD1),
  (0x20790, 0xCDF1),
  (0x207AB, 0xA8E8),
  (0x207FD, 0xE141),
  (0x20832, 0xA44F),
  (0x2086B, 0xE143),
  (0x208C1, 0xB3D2),
  (0x208D9, 0xA6AF),
  (0x208DE, 0xAD78),
  (0x208E9, 0xACF9),
  (0x208F5, 0xB0CB),
  (0x2092C, 0xC943),
  (0x20971, 0xA4EB),
  (0x20983, 0xA4CA_A563),
  (0x20987, 0xA5E8),
  (0x20993, 0xA541),
  (0x209B6, 0xADB2),
  (0x209DE, 0xA5FC),
  (0x209E8, 0xA953_AEAC_CA72),
  (0x20A0D, 0xADEB),
  (0x20A10, 0xC957),
  (0x20A1C, 0xCDF5),
  (0x20A1E, 0xADEB),
  (0x20A2E, 0xA4B7),
  (0x20A30, 0xA46B),
  (0x20A5F, 0xA8B0),
  (0x20A6F, 0xA673),
  (0x20A9E, 0xADED),
  (0x20AA5, 0xADEC),
  (0x20AAA, 0xD470),
  (0x20AEA, 0xA4BB),
  (0x20B3B, 0xA95E),
  (0x20B56, 0xB4B1),
  (0x20BA2, 0xA56B),
  (0x20BA6, 0xA56C),
  (0x20BAF, 0xA578),
  (0x20BB7, 0xA64E),
  (0x20BC1, 0xA8AC),
  (0x20BCD, 0xCBE4),
  (0x20BD2, 0xA4C6),
  (0x20BDE, 0xCBEE),
  (0x20C69, 0xA767),
  (0x20C6F, 0xA7A4),
  (0x20C8B, 0xE043),
  (0x20C8E, 0xA770),
  (0x20CC5, 0xB0DD),
  (0x20CF7, 0xCBDC),
  (0x20D01, 0xCBE6),
  (0x20D1F, 0xABA7),
  (0x20D2A, 0xD47C),
  (0x20D2E, 0xBC51_D86C),
  (0x20D40, 0xAE76_F841),
  (0x20D43, 0xD4A6),
  (0x20D52, 0xD475),
  (0x20D70, 0xE4F9),
  (0x20D72, 0xD0F8),
  (0x20D75, 0xD47B),
  (0x20DBA, 0xAE43),
  (0x20DC3, 0xDCDB),
  (0x20DD5, 0xA76A),
  (0x20DF8, 0xD871),
  (0x20E59, 0xB3F0),
  (0x20E5E, 0xD875),
  (0x20ED4, 0xBEBB),
  (0x20EDB, 0xB9BE),
  (0x20EE9, 0xE04B),
  (0x20EEF, 0xD0F5),
  (0x20EF6, 0xE14B),
  (0x20F15, 0xD0F9),
  (0x20F6C, 0xA94F),
  (0x20F7A, 0xEFBD),
  (0x20F7F, 0xA94B),
  (0x20F85, 0xAD6E),
  (0x20F96, 0xBEB9),
  (0x20FC8, 0xB3EE),
  (0x20FCA, 0xB3F0),
  (0x20FCC, 0xDCE0_B0E1),
  (0x21012, 0xB9CC),
  (0x21050, 0xDCCC),
  (0x21052, 0xB3F0),
  (0x21090, 0xF6D9),
  (0x210A2, 0xE153),
  (0x2113A, 0xE149),
  (0x2113C, 0xF0BA),
  (0x21157, 0xF0BA),
  (0x2115B, 0xF440),
  (0x21170, 0xB9CB),
  (0x2117F, 0xE545),
  (0x211A1, 0xB05F),
  (0x211BE, 0xCA6A),
  (0x211C3, 0xA8B6),
  (0x211CA, 0xAE45),
  (0x211E1, 0xA5D8),
  (0x211EA, 0xB5A2),
  (0x21215, 0xB0E9),
  (0x2122D, 0xBABB),
  (0x21239, 0xABAA),
  (0x21243, 0xC363),
  (0x21248, 0xA662),
  (0x2125B, 0xC9C9),
  (0x2125D, 0xB0F2),
  (0x2125F, 0xA7A7),
  (0x2126C, 0xCBFB),
  (0x212AE, 0xB04B),
  (0x212BA, 0xAC76),
  (0x212F2, 0xA7A4),
  (0x21331, 0xE94D),
  (0x21369, 0xA95C),
  (0x213A9, 0xAE47),
  (0x213B0, 0xBC55_CE58_BB4F),
  (0x213B9, 0xD156),
  (0x21447, 0xD8AE),
  (0x2144A, 0xD8A6),
  (0x2144F, 0xECCB),
  (0x2145F, 0xBADB),
  (0x21462, 0xD8A2),
  (0x2148B, 0xE94A),
  (0x214A1, 0xF1E3),
  (0x214A3, 0xE158),
  (0x214B0, 0xE550),
  (0x21501, 0xC253),
  (0x2151B, 0xA4D0),
  (0x21578, 0xC4DC),
  (0x2157F, 0xC4DC),
  (0x21582, 0xC4DC),
  (0x21584, 0xA57E),
  (0x21589, 0xA75A_A667),
  (0x21596, 0xADEB),
  (0x2159F, 0xEE5A),
  (0x215B7, 0xB9DB),
  (0x215CC, 0xEBD4),
  (0x215D5, 0xA5E7),
  (0x215DA, 0xBE78),
  (0x215DD, 0xA669),
  (0x215E0, 0xA4BA),
  (0x21608, 0xADFA),
  (0x2162B, 0xC3AD),
  (0x21637, 0xAE4D),
  (0x2165C, 0xB9DC),
  (0x2168C, 0xB5B2),
  (0x21690, 0xBC5D),
  (0x216A7, 0xA7AD),
  (0x216AF, 0xE16C),
  (0x216B6, 0xA66B),
  (0x216BA, 0xC9D2),
  (0x216BC, 0xCE6A),
  (0x216BE, 0xCE67),
  (0x216D0, 0xCAB6),
  (0x216E2, 0xD4E9),
  (0x21704, 0xD8B7),
  (0x2171D, 0xCE6F),
  (0x21729, 0xCE63),
  (0x21734, 0xCAB4),
  (0x21736, 0xCE62),
  (0x21769, 0xA7AF),
  (0x21791, 0xD4D3),
  (0x217A4, 0xE16D),
  (0x217A8, 0xCE65),
  (0x217E6, 0xAE52),
  (0x21808, 0xF6DB),
  (0x21810, 0xBC60),
  (0x21814, 0xD8C4),
  (0x2181B, 0xC9CF_E172_E174),
  (0x2184D, 0xE17A),
  (0x21853, 0xE559),
  (0x21879, 0xE173),
  (0x2187F, 0xB9DE),
  (0x21883, 0xF9DC),
  (0x21889, 0xECD2),
  (0x21893, 0xB445),
  (0x2189A, 0xE170),
  (0x218B4, 0xE556),
  (0x218C3, 0xD8BC),
  (0x218C6, 0xBC61),
  (0x218CC, 0xE55A),
  (0x218F0, 0xE952_E953),
  (0x218F8, 0xF5C7),
  (0x21900, 0xCAB3),
  (0x2191A, 0xB9E2),
  (0x21925, 0xF1EC),
  (0x2192F, 0xB9E3),
  (0x2193E, 0xAE5D_A4D5),
  (0x21946, 0xA66E_A7B8),
  (0x2195B, 0xAEED_A672),
  (0x2197D, 0xE17D),
  (0x2198C, 0xECD7),
  (0x21997, 0xC0A9),
  (0x219CB, 0xB368),
  (0x219EA, 0xA676_C973),
  (0x219F1, 0xAE60),
  (0x21A09, 0xB240),
  (0x21A1A, 0xADDE),
  (0x21A1C, 0xB149),
  (0x21A20, 0xC3AD),
  (0x21A48, 0xAD5D),
  (0x21A7A, 0xE1A1),
  (0x21B2A, 0xAD40),
  (0x21B3D, 0xB6D1),
  (0x21B5D, 0xA6CC_A679),
  (0x21B74, 0xBBD8),
  (0x21B90, 0xA470),
  (0x21BC1, 0xCABF_CABF),
  (0x21C29, 0xA87D),
  (0x21C2C, 0xA8AD),
  (0x21C38, 0xAE6A),
  (0x21C46, 0xC4DD),
  (0x21C52, 0xB7B5),
  (0x21C5D, 0xB552),
  (0x21C91, 0xABCB),
  (0x21CA0, 0xAF7D),
  (0x21CA9, 0xA7BE),
  (0x21CEC, 0xC366),
  (0x21D41, 0xA64D),
  (0x21D7C, 0xACB4),
  (0x21D8F, 0xB155),
  (0x21D93, 0xA9A8),
  (0x21E20, 0xB0F0),
  (0x21E35, 0xB157),
  (0x21EA1, 0xACD5),
  (0x21F14, 0xB153),
  (0x21F9C, 0xC04E),
  (0x21FC1, 0xC4DE),
  (0x21FE7, 0xA861),
  (0x21FF7, 0xB06F),
  (0x2200E, 0xAA65),
  (0x22012, 0xA476),
  (0x2201A, 0xA475),
  (0x2203D, 0xB05F),
  (0x22053, 0xA8A8),
  (0x2205B, 0xB1FE),
  (0x22074, 0xC3B4),
  (0x22087, 0xABD2),
  (0x22091, 0xABF8),
  (0x220B4, 0xBC6D),
  (0x220C1, 0xB5B9),
  (0x220F7, 0xA6C8),
  (0x22116, 0xB2A7),
  (0x221D7, 0xB748),
  (0x221EB, 0xD7C5),
  (0x221EF, 0xA9B2),
  (0x2220E, 0xBC73),
  (0x22256, 0xB3C0),
  (0x22259, 0xB166),
  (0x222BB, 0xBFF1),
  (0x222DB, 0xBBF3_EE66),
  (0x22313, 0xB9F8),
  (0x22338, 0xABD9),
  (0x22342, 0xBBF3),
  (0x22345, 0xABB7),
  (0x2234E, 0xBBA2),
  (0x22357, 0xA8A5),
  (0x2235C, 0xB44C),
  (0x2236E, 0xA7C5),
  (0x22376, 0xC5CB),
  (0x22381, 0xAA5A),
  (0x22387, 0xA861),
  (0x223AE, 0xA5C2),
  (0x223BA, 0xA9B6),
  (0x223D8, 0xACFD),
  (0x223F1, 0xABDA),
  (0x22405, 0xAE7A),
  (0x22413, 0xC3F2),
  (0x22437, 0xD54C),
  (0x22472, 0xC255),
  (0x22495, 0xBDD1),
  (0x2249B, 0xC5DC),
  (0x224C9, 0xAAF0_B170),
  (0x224D8, 0xCA63),
  (0x224DD, 0xA8D9),
  (0x224E0, 0xCBC2),
  (0x224EC, 0xCDE6_D7E7),
  (0x224F6, 0xB371),
  (0x22500, 0xAB49),
  (0x2250B, 0xD0DB),
  (0x2250D, 0xA8DB),
  (0x2251A, 0xB74B),
  (0x22547, 0xDCC0),
  (0x2257E, 0xC1D7),
  (0x225B9, 0xAEA8),
  (0x225CC, 0xA9C8_A7D3),
  (0x22617, 0xA6DA),
  (0x22625, 0xABEE),
  (0x2263B, 0xB178),
  (0x22649, 0xB46F_AEA1),
  (0x22656, 0xABEF),
  (0x22662, 0xAEA3),
  (0x22683, 0xA648),
  (0x22687, 0xA867),
  (0x22689, 0xABEB),
  (0x22690, 0xB179),
  (0x226B0, 0xB46F),
  (0x226C2, 0xB1A5),
  (0x226C7, 0xF841),
  (0x226E7, 0xB1A9),
  (0x22725, 0xC956),
  (0x2272A, 0xB753),
  (0x2273A, 0xAB73),
  (0x22754, 0xB46C),
  (0x22772, 0xB754),
  (0x22836, 0xB177),
  (0x22846, 0xC0B5),
  (0x22865, 0xBCA7),
  (0x2287D, 0xB1A4),
  (0x228A7, 0xF841),
  (0x228F6, 0xBCA6),
  (0x22903, 0xBC7C),
  (0x2292D, 0xBECF),
  (0x229A1, 0xB750),
  (0x229A9, 0xA6A8),
  (0x229D0, 0xBED4),
  (0x229E3, 0xD4F1),
  (0x229F5, 0xBA49),
  (0x229F7, 0xBA51),
  (0x229FE, 0xBF4B),
  (0x22A37, 0xA9D2),
  (0x22A4C, 0xAAD3),
  (0x22A66, 0xC950),
  (0x22A84, 0xD56A),
  (0x22AB4, 0xA9E9),
  (0x22ABB, 0xA9D3),
  (0x22ABF, 0xB664),
  (0x22AE6, 0xA9E7),
  (0x22AFD, 0xA7ED_ABFC),
  (0x22B0C, 0xA9DE),
  (0x22B34, 0xC4E1),
  (0x22B38, 0xAC41),
  (0x22B40, 0xB1DB),
  (0x22B43, 0xB575),
  (0x22B4D, 0xB4A2),
  (0x22BC7, 0xB4A5),
  (0x22BEA, 0xA9EE),
  (0x22C07, 0xAEC1),
  (0x22C4A, 0xB1B0),
  (0x22C73, 0xB4A7),
  (0x22C8E, 0xB768),
  (0x22C95, 0xB47D),
  (0x22C9C, 0xBA67),
  (0x22CB8, 0xBEDB),
  (0x22CBB, 0xBCBC),
  (0x22CC0, 0xBCAF),
  (0x22D03, 0xBEDA),
  (0x22D23, 0xBC57),
  (0x22D3F, 0xB1BC),
  (0x22D44, 0xB1B9),
  (0x22DFC, 0xB762),
  (0x22E05, 0xC36B_BCB1),
  (0x22E6C, 0xBED6),
  (0x22EF3, 0xA7DF),
  (0x22F1C, 0xB36A),
  (0x22F86, 0xB47B),
  (0x22F8D, 0xB1CE),
  (0x22F99, 0xB4AD),
  (0x22FB0, 0xC0B2),
  (0x22FE0, 0xF1E3),
  (0x2301A, 0xC4DC),
  (0x2308A, 0xBCF7),
  (0x23095, 0xB4B5),
  (0x230A2, 0xC25F),
  (0x230A6, 0xD0E9),
  (0x230BA, 0xB773),
  (0x230E6, 0xA4C5),
  (0x23101, 0xA8FC),
  (0x23103, 0xBA58),
  (0x23128, 0xACE9),
  (0x23133, 0xBB52),
  (0x23140, 0xA6AE),
  (0x2314A, 0xA9F7),
  (0x2314E, 0xB1E0),
  (0x2315C, 0xACD2),
  (0x23162, 0xD9A2),
  (0x2316F, 0xB1DE),
  (0x2317C, 0xA6AD),
  (0x2319C, 0xAC4E),
  (0x23206, 0xAECA),
  (0x2320D, 0xC57C),
  (0x232A3, 0xDB57),
  (0x23351, 0xDCBB),
  (0x2335D, 0xA6E0),
  (0x2339C, 0xA5A5),
  (0x233C2, 0xB1FE),
  (0x233D0, 0xA840),
  (0x233DD, 0xAA45),
  (0x233F9, 0xA861),
  (0x233FD, 0xAA54),
  (0x2340C, 0xAEDE),
  (0x23415, 0xD5C8),
  (0x23431, 0xAC58),
  (0x23436, 0xA9E4_A9E4),
  (0x2346D, 0xAC5D),
  (0x2346F, 0xAEE7),
  (0x23471, 0xAC56),
  (0x2348F, 0xB4D4),
  (0x234C0, 0xBA64),
  (0x23580, 0xB1F0),
  (0x235F3, 0xBEF0),
  (0x2361C, 0xB2C7),
  (0x23694, 0xDB57),
  (0x23698, 0xC4EB),
  (0x236A6, 0xD54C),
  (0x236D8, 0xBA6B),
  (0x2370E, 0xDFBF),
  (0x23723, 0xDC71),
  (0x23725, 0xC0CA_BEC9),
  (0x237B5, 0xDFB8),
  (0x237F4, 0xADAC),
  (0x23898, 0xA944),
  (0x2389C, 0xCBE7),
  (0x238B8, 0xB4DA),
  (0x238D3, 0xA4ED),
  (0x238FD, 0xB4DC),
  (0x2391A, 0xF8C9),
  (0x23948, 0xB77C_ABA4),
  (0x2394D, 0xAAF1),
  (0x23957, 0xA4D6),
  (0x2397B, 0xE844),
  (0x2399E, 0xC4DC),
  (0x239A1, 0xC3DC),
  (0x239B8, 0xA6BA),
  (0x239C0, 0xA5B0),
  (0x239E9, 0xB2D7),
  (0x23A0F, 0xAA5C),
  (0x23A3B, 0xEDF6),
  (0x23A44, 0xB7C2),
  (0x23A46, 0xADDF_BB47),
  (0x23A52, 0xDCB7),
  (0x23A85, 0xBCDE_B1FE),
  (0x23A96, 0xB1FE),
  (0x23AA9, 0xB1FE),
  (0x23AED, 0xA843),
  (0x23AF9, 0xACC5),
  (0x23B23, 0xC447),
  (0x23C5C, 0xAEF4),
  (0x23C6E, 0xB242),
  (0x23C75, 0xA5C3),
  (0x23C83, 0xA850),
  (0x23C94, 0xAA5F),
  (0x23C97, 0xD9F8_E64B),
  (0x23CA0, 0xA6C1),
  (0x23CB4, 0xAA6D),
  (0x23CDA, 0xA853),
  (0x23CE5, 0xB4E7),
  (0x23D11, 0xAC79),
  (0x23D26, 0xAA6C),
  (0x23D29, 0xC0D8),
  (0x23D32, 0xAF44),
  (0x23D34, 0xAEFC),
  (0x23D5E, 0xB7BB),
  (0x23D7D, 0xA855),
  (0x23D7F, 0xB243),
  (0x23D81, 0xB258),
  (0x23D83, 0xBCE9),
  (0x23DDD, 0xBCE5),
  (0x23DEA, 0xA84C),
  (0x23E15, 0xA4F4),
  (0x23E6B, 0xB4FD),
  (0x23E8C, 0xB4F9),
  (0x23EAF, 0xC0E3),
  (0x23F1C, 0xB254),
  (0x23F45, 0xACA1),
  (0x23F48, 0xC0E1),
  (0x23F5E, 0xE146),
  (0x23F67, 0xDD48),
  (0x23F85, 0xB4E6),
  (0x23FD1, 0xB4E4),
  (0x2404A, 0xB541),
  (0x2404C, 0xBF44),
  (0x24084, 0xB4FA),
  (0x24109, 0xC273),
  (0x2414C, 0xBF40_BAA8),
  (0x2418C, 0xAAA2_A8AA_A861),
  (0x24190, 0xA862),
  (0x241B2, 0xA861),
  (0x241E1, 0xA5C8),
  (0x241F4, 0xBAB3),
  (0x2422E, 0xA861),
  (0x24263, 0xA861),
  (0x242B7, 0xB548),
  (0x242BA, 0xD652),
  (0x242CF, 0xE66E),
  (0x242EE, 0xBAB3),
  (0x242F0, 0xA755),
  (0x243B9, 0xBAB3),
  (0x243C1, 0xBAB3),
  (0x243D0, 0xC4EA),
  (0x24424, 0xBAB3),
  (0x2442B, 0xB2BC),
  (0x2447E, 0xC0E6),
  (0x244C8, 0xC37B),
  (0x24522, 0xB76B),
  (0x24553, 0xB7DD),
  (0x24555, 0xAAA8),
  (0x2457A, 0xAF65),
  (0x245B2, 0xAC5C),
  (0x245CA, 0xB7DE_B550),
  (0x245F1, 0xBCF8),
  (0x24604, 0xC37C),
  (0x24608, 0xA4FA),
  (0x24625, 0xA6C9),
  (0x24634, 0xAAAA),
  (0x24657, 0xA4E8),
  (0x24668, 0xA7F4),
  (0x2468C, 0xB552),
  (0x246B4, 0xA864),
  (0x24733, 0xB7E0),
  (0x2473D, 0xD7D1),
  (0x24751, 0xA5C7),
  (0x2477D, 0xE059),
  (0x2477F, 0xA8F1),
  (0x247C4, 0xB5C4),
  (0x247CB, 0xACBE),
  (0x247D4, 0xB1A3),
  (0x247D7, 0xB7E1),
  (0x247E7, 0xDFC4),
  (0x24815, 0xAF62),
  (0x2483E, 0xF0F0),
  (0x24846, 0xF0EF),
  (0x2486C, 0xF345),
  (0x2489A, 0xC37E),
  (0x2489C, 0xBF57),
  (0x248CA, 0xC278),
  (0x248F5, 0xA868),
  (0x24908, 0xB7E4),
  (0x2497F, 0xE7AD),
  (0x249A6, 0xAF5A),
  (0x249B3, 0xB7E9),
  (0x249F0, 0xB55C),
  (0x249F2, 0xB55D),
  (0x24A14, 0xC0F4),
  (0x24A40, 0xACC0),
  (0x24AE9, 0xACC2),
  (0x24B17, 0xB27D),
  (0x24B21, 0xBF5D),
  (0x24B2E, 0xB27E),
  (0x24B5B, 0xD4B6),
  (0x24B79, 0xAF73),
  (0x24B9B, 0xE94F),
  (0x24BD3, 0xA5CD_A448),
  (0x24BDB, 0xB2C6),
  (0x24BF3, 0xB564),
  (0x24BF7, 0xDFCD),
  (0x24C06, 0xA5CE),
  (0x24C1E, 0xA8F5),
  (0x24C34, 0xABC2_ACC8_A5D3),
  (0x24C65, 0xD2C1),
  (0x24C71, 0xB8FC),
  (0x24C99, 0xAF63),
  (0x24C9C, 0xB2A6),
  (0x24DC2, 0xB7F3),
  (0x24DD0, 0xAABC),
  (0x24DE0, 0xB7EF),
  (0x24E06, 0xB7F5),
  (0x24E0B, 0xACCE),
  (0x24E1F, 0xB2A9),
  (0x24E8A, 0xBC52),
  (0x24EE8, 0xBAC8),
  (0x24EF2, 0xC0F8),
  (0x24F29, 0xACD1_B56E),
  (0x24F32, 0xB56F),
  (0x24F35, 0xB56F),
  (0x24F37, 0xB56E),
  (0x24F50, 0xADA2),
  (0x25022, 0xF1E3),
  (0x25039, 0xD7D6),
  (0x25044, 0xAABB),
  (0x25049, 0xBF64),
  (0x2506A, 0xA973),
  (0x25070, 0xB7F9),
  (0x2507A, 0xEBD8),
  (0x250AF, 0xDB5E),
  (0x250E9, 0xB2B4),
  (0x250F3, 0xCD77),
  (0x2510C, 0xDED9),
  (0x25122, 0xACDB),
  (0x2516D, 0xB5F8),
  (0x25171, 0xACD9),
  (0x251E1, 0xB841),
  (0x25205, 0xC053),
  (0x252BC, 0xBF65),
  (0x252CD, 0xBACE),
  (0x25312, 0xC2A2),
  (0x2531D, 0xBF67),
  (0x2536F, 0xC54F),
  (0x2537F, 0xACDE),
  (0x25384, 0xBA6A),
  (0x253BF, 0xAABE),
  (0x253F5, 0xBD46),
  (0x25417, 0xAFA2),
  (0x2543A, 0xAFA1),
  (0x2544A, 0xBD56),
  (0x254CB, 0xACE3),
  (0x254CF, 0xD4B4),
  (0x254D3, 0xB84F),
  (0x25510, 0xBD57),
  (0x25553, 0xBA7A),
  (0x2555A, 0xBABA),
  (0x25571, 0xB84E),
  (0x25574, 0xC474),
  (0x255F7, 0xC1D3),
  (0x25614, 0xA861),
  (0x25616, 0xC059),
  (0x25621, 0xACE9),
  (0x2564A, 0xB2BD),
  (0x2564D, 0xAFAB),
  (0x256DC, 0xAFAA),
  (0x25731, 0xAFA9),
  (0x25750, 0xAAC3),
  (0x25757, 0xCB7D),
  (0x25762, 0xA751),
  (0x25777, 0xAFD1),
  (0x257AB, 0xB6C1),
  (0x2583C, 0xAFB3),
  (0x25877, 0xC3AD),
  (0x25893, 0xB1C2),
  (0x2592F, 0xA873),
  (0x2593E, 0xC2AC_DF42),
  (0x25949, 0xA9A6),
  (0x25963, 0xABAE),
  (0x2598E, 0xBBAB),
  (0x2599C, 0xD4B8),
  (0x259BD, 0xD8D3),
  (0x259CA, 0xD4B3),
  (0x259E8, 0xBBAB),
  (0x25A12, 0xC2AB),
  (0x25A50, 0xC475),
  (0x25A60, 0xAFB8),
  (0x25A73, 0xABDD),
  (0x25AE1, 0xACF2),
  (0x25B16, 0xA5D6),
  (0x25B30, 0xA555),
  (0x25B8F, 0xA8E5),
  (0x25BD2, 0xAEE2),
  (0x25CE6, 0xB5AB),
  (0x25D8E, 0xDB5E),
  (0x25DDF, 0xDB5E),
  (0x25E4E, 0xD349),
  (0x25E6A, 0xC158),
  (0x25E9E, 0xB5B0),
  (0x25EC6, 0xB5AF),
  (0x25ED5, 0xC158),
  (0x25F3E, 0xC158),
  (0x25F86, 0xAAC8),
  (0x25F91, 0xAFC2),
  (0x25FA0, 0xACF7_B5BA),
  (0x25FA8, 0xACF8),
  (0x25FBA, 0xC161),
  (0x25FC9, 0xC4FB),
  (0x25FCC, 0xD7C4),
  (0x25FD1, 0xBAFA),
  (0x25FD3, 0xACF6),
  (0x25FF3, 0xB2D3),
  (0x26007, 0xB867),
  (0x26012, 0xD0DF),
  (0x2601F, 0xAFBD),
  (0x26065, 0xDCB0),
  (0x260B2, 0xDCB0_BAF2),
  (0x260B5, 0xC161_BAF6),
  (0x260C5, 0xB5B8),
  (0x260E7, 0xBAD1),
  (0x260F0, 0xC3B7),
  (0x26132, 0xC159),
  (0x2614D, 0xC15D),
  (0x26167, 0xDCB0),
  (0x26196, 0xC2B7),
  (0x261AB, 0xB86A),
  (0x261C4, 0xC077),
  (0x261DA, 0xC255),
  (0x261FB, 0xBD77),
  (0x26247, 0xB27E),
  (0x262B0, 0xDAFE),
  (0x262C0, 0xDAFE),
  (0x262DA, 0xB86E),
  (0x262E7, 0xB870),
  (0x26304, 0xDAFE),
  (0x26310, 0xBFA9),
  (0x26334, 0xC3B9),
  (0x26336, 0xDAFE),
  (0x2633E, 0xDAFE_F971),
  (0x26343, 0xDAFE),
  (0x26346, 0xDAFE),
  (0x2635B, 0xD6F2),
  (0x2638B, 0xCBA4),
  (0x263A4, 0xC2FD),
  (0x263C1, 0xBFAA),
  (0x263E0, 0xAFCC),
  (0x263F2, 0xA6D0),
  (0x2641C, 0xBB41),
  (0x2642C, 0xB5BF),
  (0x2644A, 0xB1DC),
  (0x26474, 0xEB6E),
  (0x2648B, 0xBFAB),
  (0x264A1, 0xBFAC_BFAC),
  (0x264B1, 0xA6D2),
  (0x264BF, 0xAFCF),
  (0x264D4, 0xBBDD),
  (0x2657C, 0xB2E1),
  (0x265F7, 0xC16D),
  (0x2661F, 0xBB46),
  (0x2663B, 0xA877),
  (0x2665B, 0xAAD2),
  (0x26669, 0xC061),
  (0x2666D, 0xAF6B),
  (0x26675, 0xB5C3_AAD1),
  (0x266C1, 0xB8A3),
  (0x26709, 0xB5CA),
  (0x26721, 0xAAA5),
  (0x26736, 0xBB48),
  (0x26769, 0xAD47),
  (0x2676B, 0xB879),
  (0x2676D, 0xC3FE),
  (0x267A4, 0xC9C7),
  (0x267A7, 0xBD46),
  (0x267AC, 0xB878),
  (0x267B5, 0xBC4D),
  (0x267DD, 0xAFE1),
  (0x267E6, 0xBDA4),
  (0x267EF, 0xA6D8),
  (0x267F3, 0xF4E4),
  (0x2681D, 0xBD46),
  (0x268DE, 0xC05B),
  (0x268EE, 0xA974),
  (0x268FA, 0xA5D5),
  (0x26900, 0xAFE4),
  (0x26903, 0xACD3),
  (0x26906, 0xB6B3),
  (0x2690C, 0xBA5B),
  (0x26913, 0xBBF3),
  (0x26933, 0xA6DC),
  (0x2693F, 0xABCE),
  (0x26946, 0xB4A4_BFB2),
  (0x26951, 0xCBD6),
  (0x26959, 0xA6B2),
  (0x2695D, 0xAFE6),
  (0x26967, 0xB653),
  (0x2699A, 0xB147),
  (0x269B6, 0xC45B),
  (0x269CA, 0xA76D),
  (0x26A31, 0xAC7A),
  (0x26A85, 0xB8A5),
  (0x26ADC, 0xE05D),
  (0x26B0A, 0xCB7D),
  (0x26B21, 0xB5D1),
  (0x26B3C, 0xF0B9),
  (0x26B42, 0xB5D5),
  (0x26B82, 0xE3B9),
  (0x26B8F, 0xA6B8),
  (0x26BBF, 0xDFC9),
  (0x26BD3, 0xDB5E),
  (0x26BED, 0xB463),
  (0x26BF1, 0xB463),
  (0x26BF8, 0xCB7D),
  (0x26C52, 0xAD60),
  (0x26C54, 0xE3C9),
  (0x26C64, 0xB2F6),
  (0x26CAD, 0xDFC2),
  (0x26CCB, 0xC2C0),
  (0x26CCE, 0xDB5E),
  (0x26CDD, 0xEDFD),
  (0x26CE4, 0xF2CB),
  (0x26CF2, 0xDFBC_E3B8),
  (0x26D2D, 0xC2C6),
  (0x26D54, 0xDB5E),
  (0x26D9C, 0xB463),
  (0x26DAC, 0xDFCE),
  (0x26DDB, 0xDCBD),
  (0x26E00, 0xF0AD),
  (0x26E06, 0xCB7D),
  (0x26E0B, 0xE755),
  (0x26E0E, 0xE3C2),
  (0x26E2F, 0xB2F1),
  (0x26E32, 0xC3C2_E3BD),
  (0x26E88, 0xBB5E),
  (0x26E92, 0xE767),
  (0x26E95, 0xF74A),
  (0x26E9D, 0xF0A4),
  (0x26EB3, 0xEDF5),
  (0x26EC2, 0xEDFE_DB7B),
  (0x26EE5, 0xB5E1_B5E5),
  (0x26F0D, 0xB2F0),
  (0x26F2C, 0xDB5E),
  (0x26F30, 0xF0B5),
  (0x26F48, 0xEB4F),
  (0x26F5D, 0xE3CC),
  (0x26F60, 0xE757),
  (0x26F67, 0xB2FB),
  (0x26F69, 0xB47C),
  (0x26F94, 0xC2C2),
  (0x26FAA, 0xC4DC),
  (0x26FAF, 0xDB77),
  (0x26FB1, 0xA7DB),
  (0x26FB4, 0xF5FC),
  (0x26FB7, 0xE764),
  (0x26FC8, 0xF5FE),
  (0x26FD8, 0xDB5E),
  (0x26FE0, 0xE3B4_F0B1),
  (0x26FE6, 0xF5F9),
  (0x27009, 0xC4A6),
  (0x2701B, 0xF2D3),
  (0x27026, 0xE769),
  (0x2703D, 0xDB5E_EB4A),
  (0x2704E, 0xC4DC),
  (0x27055, 0xDFA9),
  (0x27084, 0xDB79),
  (0x27087, 0xEB43),
  (0x2708A, 0xEDFC),
  (0x27090, 0xBF6E),
  (0x27099, 0xEB4D_DB5E),
  (0x270B0, 0xF0B0_BFB9_B5E2_EB47),
  (0x270C8, 0xB5E2),
  (0x270CD, 0xC4DC),
  (0x270D3, 0xB5E2),
  (0x270DC, 0xF2D5),
  (0x270F0, 0xC4DC),
  (0x27116, 0xE75B_DB5E),
  (0x27141, 0xC1A4),
  (0x27149, 0xF2C8),
  (0x2714F, 0xF2D4),
  (0x2715B, 0xF0AF_F4C3),
  (0x27188, 0xF2C9),
  (0x2718A, 0xF9BD),
  (0x27191, 0xF4B9),
  (0x271C1, 0xCA4F),
  (0x271C3, 0xEE57),
  (0x271D0, 0xF9A5_EB58),
  (0x27205, 0xF0BA),
  (0x2720B, 0xB5E9),
  (0x27220, 0xB044),
  (0x27227, 0xC1F6),
  (0x2722C, 0xAD69),
  (0x27265, 0xA55F),
  (0x27275, 0xD3C4),
  (0x27286, 0xD7A7),
  (0x2728D, 0xD3C0),
  (0x27296, 0xF0CD),
  (0x2729B, 0xD7AD),
  (0x272A1, 0xDBBC_D7AC),
  (0x272A4, 0xBB69),
  (0x272A7, 0xB5F0),
  (0x272AE, 0xDBBB),
  (0x272B0, 0xDBBA),
  (0x272D9, 0xEE65),
  (0x27312, 0xE3DA),
  (0x27332, 0xBB6A),
  (0x27337, 0xDBB4),
  (0x2733F, 0xE3ED),
  (0x27353, 0xC1AC),
  (0x27358, 0xD7AB),
  (0x2735B, 0xB8BA),
  (0x27371, 0xEE70),
  (0x2737D, 0xEB63),
  (0x2737F, 0xB8BB_BB68_D3C8_BDBC),
  (0x27397, 0xBDC1),
  (0x273A9, 0xD0A7),
  (0x273C5, 0xC1B1),
  (0x273CD, 0xEB6B),
  (0x273CF, 0xB349),
  (0x273D5, 0xEB6C),
  (0x273E9, 0xEB6A),
  (0x273F8, 0xEE59),
  (0x27400, 0xF7F7),
  (0x27404, 0xEE6D),
  (0x27409, 0xBB6A),
  (0x2741A, 0xEE5B_E7B8),
  (0x2742E, 0xEE5E),
  (0x27433, 0xEE5C),
  (0x27446, 0xE7C0),
  (0x27463, 0xC2CC),
  (0x27468, 0xDBB7),
  (0x27494, 0xDFE4),
  (0x274A6, 0xEE68),
  (0x274AA, 0xE7AA),
  (0x274BC, 0xF2E6),
  (0x274BE, 0xF2DF),
  (0x274C9, 0xF4C5),
  (0x274CC, 0xBFC3),
  (0x274D2, 0xB043),
  (0x274DB, 0xF0C1),
  (0x274F1, 0xE7A7),
  (0x274F3, 0xB5ED),
  (0x27508, 0xF7F8),
  (0x27518, 0xF2E0),
  (0x2752B, 0xE3D5),
  (0x27549, 0xEB65),
  (0x2754E, 0xEE6B),
  (0x27550, 0xEE5D),
  (0x27573, 0xF2DD),
  (0x27580, 0xF9A8),
  (0x2758B, 0xF0BF),
  (0x27599, 0xB8C3_DFEC),
  (0x275AD, 0xD0AA),
  (0x275AF, 0xD3CF),
  (0x275CE, 0xDB5E),
  (0x275D7, 0xD3D0_DB5E_F8C0),
  (0x275E1, 0xD0AB),
  (0x275F3, 0xD7B1),
  (0x27602, 0xBDC4),
  (0x27623, 0xDBC8_D7BC),
  (0x2762D, 0xD3DA),
  (0x2764A, 0xDBC7),
  (0x27665, 0xF752),
  (0x27669, 0xB5F5_EB77),
  (0x2768C, 0xB8CB_B8CA),
  (0x2769B, 0xE3FE_BFC9_B5F4),
  (0x276BA, 0xEE77),
  (0x276D6, 0xD0AD),
  (0x276E1, 0xEE78_DCB0),
  (0x27737, 0xC1BA),
  (0x27744, 0xF4CB),
  (0x27749, 0xDCB0),
  (0x27750, 0xE7C2),
  (0x27775, 0xE7C5),
  (0x2777A, 0xD7C0),
  (0x277AB, 0xDFF2),
  (0x277B2, 0xF64B),
  (0x277B7, 0xEB76_F2EA),
  (0x277CA, 0xF64A),
  (0x277CE, 0xF649),
  (0x277D0, 0xF949),
  (0x277D2, 0xF2EB),
  (0x277F6, 0xC551),
  (0x27828, 0xDFFB),
  (0x27877, 0xE446),
  (0x2789A, 0xC2D1),
  (0x278B1, 0xA9CA),
  (0x278C2, 0xDFFE),
  (0x2790C, 0xE7D2),
  (0x27966, 0xB058),
  (0x27973, 0xB8D6),
  (0x27976, 0xBBA5_B057),
  (0x2797A, 0xD0B1),
  (0x2797D, 0xE7DF_C3D1),
  (0x27992, 0xB643),
  (0x279AB, 0xDBDF),
  (0x279BD, 0xB645_B35A),
  (0x279CF, 0xD86F),
  (0x279E1, 0xB35E),
  (0x279E7, 0xDBE0),
  (0x279F2, 0xDBDD),
  (0x279FF, 0xB1D0),
  (0x27A0F, 0xBDCB),
  (0x27A1D, 0xDBDB_EEA3),
  (0x27A23, 0xB35B),
  (0x27A28, 0xC1C4),
  (0x27A2C, 0xE7DE_BACA),
  (0x27A40, 0xF0EB),
  (0x27A42, 0xC1BD),
  (0x27A50, 0xE7DA),
  (0x27A5B, 0xB8DF),
  (0x27A60, 0xBFD8),
  (0x27A6A, 0xF0E5),
  (0x27A7B, 0xE7D4),
  (0x27A7D, 0xBDCE),
  (0x27A9F, 0xE7DB),
  (0x27AAE, 0xF0DC),
  (0x27AB3, 0xEBA9),
  (0x27AE0, 0xE7D5),
  (0x27AE7, 0xBFDA),
  (0x27AEA, 0xEBA6),
  (0x27AF8, 0xB647),
  (0x27B03, 0xF64F_C1C2),
  (0x27B0C, 0xEBA3_C2D6),
  (0x27B13, 0xF0ED),
  (0x27B21, 0xEBAA),
  (0x27B2F, 0xEEAA),
  (0x27B33, 0xC4B6),
  (0x27B58, 0xC3D0),
  (0x27B64, 0xEEAC),
  (0x27B90, 0xF8C1),
  (0x27B9B, 0xF0DB),
  (0x27BA9, 0xF842),
  (0x27BAE, 0xA6E9_D7CD_E450),
  (0x27BB7, 0xD7CE),
  (0x27BDB, 0xCE5F),
  (0x27BE1, 0xBDDC),
  (0x27BED, 0xE053),
  (0x27BFF, 0xC567),
  (0x27C42, 0xEEB3),
  (0x27C5A, 0xD7CF),
  (0x27C5F, 0xE056),
  (0x27C71, 0xE055),
  (0x27C80, 0xD7CF),
  (0x27C8F, 0xE452_EEB2),
  (0x27CA8, 0xD7CF),
  (0x27CB2, 0xAAB0),
  (0x27CC7, 0xB8E8),
  (0x27CD4, 0xE058),
  (0x27CE0, 0xE7E7),
  (0x27CED, 0xE7B5),
  (0x27CF2, 0xEBB2),
  (0x27D39, 0xDBEA),
  (0x27D44, 0xD3CE_D3C1),
  (0x27D47, 0xDBE9),
  (0x27D4E, 0xB8EB),
  (0x27D69, 0xB364_B8E9),
  (0x27D6E, 0xDBE8),
  (0x27D85, 0xB8EC),
  (0x27D99, 0xAD49),
  (0x27D9B, 0xE7EC),
  (0x27D9E, 0xE3E4),
  (0x27DA1, 0xCC57),
  (0x27DB4, 0xBDE4),
  (0x27DB6, 0xB363),
  (0x27DBB, 0xB654),
  (0x27DBD, 0xBDE7),
  (0x27DC9, 0xE7ED),
  (0x27DD5, 0xB8EA),
  (0x27DE0, 0xF845),
  (0x27DE4, 0xF0F3),
  (0x27DFC, 0xF348),
  (0x27E03, 0xBFF2),
  (0x27E06, 0xC2D8),
  (0x27E0A, 0xC1CA),
  (0x27E11, 0xC3D8),
  (0x27E16, 0xC1C8),
  (0x27E18, 0xF34A),
  (0x27E1A, 0xB8EF),
  (0x27E2F, 0xBFF2),
  (0x27E37, 0xF75C),
  (0x27E3D, 0xBFF2),
  (0x27E52, 0xB652),
  (0x27E5E, 0xB369),
  (0x27E79, 0xBF4B),
  (0x27E87, 0xAD76),
  (0x27EAB, 0xB05F),
  (0x27EDB, 0xD7D5),
  (0x27EEF, 0xD7D3),
  (0x27F62, 0xB769),
  (0x27F92, 0xDBEE),
  (0x27F9F, 0xF654),
  (0x27FA2, 0xB3BD),
  (0x27FC1, 0xA647),
  (0x27FC4, 0xE7FB),
  (0x27FD6, 0xE072),
  (0x27FDB, 0xC2DC),
  (0x27FF6, 0xB659),
  (0x27FFA, 0xDBEF),
  (0x28013, 0xB65D),
  (0x2801F, 0xBFE2),
  (0x28040, 0xE461),
  (0x28048, 0xCDCC),
  (0x2807B, 0xEBC0),
  (0x280A7, 0xC4BE),
  (0x280AB, 0xDBFB),
  (0x280DD, 0xE459),
  (0x280DF, 0xC2DA),
  (0x280E1, 0xE45B),
  (0x28103, 0xC4BD),
  (0x28119, 0xBBB1),
  (0x2814C, 0xCA78),
  (0x28162, 0xF351),
  (0x28175, 0xBDF1_C4BC),
  (0x2818D, 0xF761),
  (0x281AE, 0xE7FA_C3DA),
  (0x281B2, 0xC3AD),
  (0x281CB, 0xEEBD),
  (0x281DA, 0xF352),
  (0x281E5, 0xEEBF),
  (0x281E8, 0xF8C5),
  (0x281F1, 0xEBC5),
  (0x281F3, 0xC3E0),
  (0x2822C, 0xC2DF),
  (0x28235, 0xB65F),
  (0x2823B, 0xA6DB),
  (0x28246, 0xAFDC_A861),
  (0x28257, 0xF9AC),
  (0x28289, 0xAFDC),
  (0x282A0, 0xD3E9),
  (0x282AF, 0xD7DB),
  (0x282B5, 0xDC43_DC44),
  (0x282BA, 0xDC4C),
  (0x282BE, 0xBDFE),
  (0x282CF, 0xDC48),
  (0x282E9, 0xEBCD),
  (0x282FB, 0xB3F0_BA57),
  (0x28302, 0xD7E0),
  (0x28307, 0xB662),
  (0x28323, 0xD7DE),
  (0x2832E, 0xDC45_E467),
  (0x2834B, 0xE84B),
  (0x2836C, 0xEEC0),
  (0x28373, 0xDBFE),
  (0x2837B, 0xBDFB),
  (0x28385, 0xE847),
  (0x2838A, 0xBE40),
  (0x28395, 0xF4DC),
  (0x283A6, 0xF147),
  (0x283A8, 0xF356),
  (0x283AA, 0xE077),
  (0x283B2, 0xE078),
  (0x283CA, 0xF657),
  (0x283CF, 0xC3E1),
  (0x283D1, 0xB8FE),
  (0x283D4, 0xF146),
  (0x283D9, 0xF4DE),
  (0x283E3, 0xC2E1),
  (0x2840C, 0xA8AF),
  (0x2842B, 0xC4B4),
  (0x2844D, 0xAD79),
  (0x28450, 0xA8B4),
  (0x28453, 0xB05F_B05F),
  (0x28456, 0xB05F),
  (0x2845E, 0xCDCF),
  (0x28466, 0xAE7D),
  (0x28477, 0xA8B3),
  (0x2848E, 0xE0A1),
  (0x284A6, 0xAAEF),
  (0x284B2, 0xB067),
  (0x284C6, 0xB068),
  (0x284CC, 0xA861),
  (0x284D8, 0xD7E6),
  (0x284DC, 0xB668),
  (0x284E7, 0xBBBB),
  (0x284EC, 0xBBBE),
  (0x284F5, 0xB065),
  (0x2851C, 0xD3EA),
  (0x28524, 0xE853),
  (0x2852A, 0xB942),
  (0x2855D, 0xD7E3),
  (0x28589, 0xBFEE),
  (0x2859D, 0xBE5E),
  (0x285A5, 0xBE42),
  (0x285BD, 0xBFF2),
  (0x285D2, 0xBE5E),
  (0x285D4, 0xBFF2_BFED),
  (0x285DD, 0xEBD1),
  (0x285E0, 0xBE5E),
  (0x285ED, 0xBFF2_BFF2_BE43),
  (0x285F9, 0xB2C3),
  (0x28611, 0xB373),
  (0x28624, 0xBFF2),
  (0x2862B, 0xB666),
  (0x28636, 0xC5DD_C2E4),
  (0x28645, 0xF4E0),
  (0x28655, 0xDC4D),
  (0x2865A, 0xC1DA),
  (0x2867C, 0xB072),
  (0x28682, 0xCBA7),
  (0x2868F, 0xAAF3),
  (0x28693, 0xE857),
  (0x286A0, 0xCDD5),
  (0x286A8, 0xD0BF),
  (0x286AC, 0xAAF4),
  (0x286C4, 0xB951),
  (0x286E6, 0xB070),
  (0x286EB, 0xBEA4),
  (0x286F7, 0xB3A3_E46A),
  (0x28725, 0xC5B0_D3F3),
  (0x2872E, 0xADEB),
  (0x28739, 0xD3F2),
  (0x28741, 0xD0BD),
  (0x28765, 0xADA6),
  (0x2876C, 0xE859),
  (0x2876E, 0xC1DD),
  (0x28776, 0xE0A7),
  (0x28782, 0xF65B),
  (0x28784, 0xB66C_DC53),
  (0x28787, 0xD7E8),
  (0x28789, 0xDC52),
  (0x2878F, 0xE858),
  (0x28796, 0xF4E1),
  (0x287A1, 0xEBD7),
  (0x287AF, 0xEEC4),
  (0x287B3, 0xBEB0),
  (0x287B5, 0xE85A),
  (0x287BC, 0xE46F),
  (0x287C0, 0xBEA4),
  (0x287CC, 0xE856),
  (0x287CE, 0xF65C),
  (0x287D5, 0xE0A7),
  (0x287F4, 0xE475),
  (0x287F7, 0xE85B),
  (0x287FB, 0xC2E6),
  (0x28801, 0xD7F2_EBD9),
  (0x2880F, 0xEBDB),
  (0x28815, 0xEEC9),
  (0x28817, 0xEECC),
  (0x28820, 0xBFF4),
  (0x2882A, 0xBE4B),
  (0x28845, 0xEEC5),
  (0x28860, 0xEBDA),
  (0x28869, 0xC3E6),
  (0x28880, 0xBBC3),
  (0x2889A, 0xEECB),
  (0x288A9, 0xC2D2),
  (0x288AC, 0xBBC6_B670),
  (0x288BD, 0xBBC4_F65D),
  (0x288CB, 0xBE4C),
  (0x288E0, 0xF4E6),
  (0x28907, 0xEEC8),
  (0x28909, 0xF4E5),
  (0x2890C, 0xF35E_F8C8),
  (0x28913, 0xB2B2),
  (0x2894A, 0xD7FA),
  (0x2894C, 0xE4A4_E4A9),
  (0x2894F, 0xB079),
  (0x28969, 0xB678),
  (0x28979, 0xB95E),
  (0x2897B, 0xDC69),
  (0x2899F, 0xBE57),
  (0x289AD, 0xF4F9),
  (0x289B0, 0xF365),
  (0x289B2, 0xE0C5),
  (0x289E9, 0xF4E7),
  (0x289EB, 0xD0E7),
  (0x289F2, 0xEEE4),
  (0x289F4, 0xE864),
  (0x28A37, 0xEEEC),
  (0x28A3B, 0xF4FA),
  (0x28A89, 0xEEE0),
  (0x28A90, 0xDC6F),
  (0x28A93, 0xEEE9),
  (0x28ACF, 0xE86E_E47E),
  (0x28AD8, 0xC1EE),
  (0x28AFC, 0xF36C_F4F3),
  (0x28B5B, 0xF84E_C3EE_F36A_C3F1),
  (0x28B7C, 0xF4EF),
  (0x28B93, 0xF4F5_EBFC),
  (0x28BAB, 0xF76A),
  (0x28BDF, 0xF769),
  (0x28BE1, 0xF76E),
  (0x28C0C, 0xEEEA),
  (0x28C24, 0xC5E0),
  (0x28CF5, 0xE0D0),
  (0x28CFE, 0xAFA7),
  (0x28D01, 0xC4C4),
  (0x28D14, 0xC550),
  (0x28D41, 0xC046),
  (0x28D77, 0xEC4B),
  (0x28D9D, 0xB9D1),
  (0x28DF7, 0xBBD4),
  (0x28E0F, 0xAAFA),
  (0x28E18, 0xA8BF),
  (0x28E1D, 0xA4F3),
  (0x28E42, 0xCE5B),
  (0x28E4A, 0xD445),
  (0x28E4E, 0xADAD),
  (0x28E5F, 0xADAE),
  (0x28E76, 0xEEF4_EEF4),
  (0x28EA8, 0xB66B),
  (0x28EB5, 0xB6A4),
  (0x28ED5, 0xEEF4),
  (0x28EF6, 0xBBD8),
  (0x28F11, 0xCE51),
  (0x28F58, 0xEEF4),
  (0x28F80, 0xC1F5),
  (0x28FA5, 0xC44D),
  (0x28FF3, 0xC64E),
  (0x2900C, 0xC2F7),
  (0x29015, 0xF841),
  (0x29018, 0xC563),
  (0x29021, 0xC3F8),
  (0x29050, 0xC64F),
  (0x290EC, 0xB3B1),
  (0x2911F, 0xBD4A),
  (0x2912B, 0xBE5E),
  (0x29145, 0xB7BC),
  (0x29147, 0xE74F),
  (0x2915F, 0xB972),
  (0x29186, 0xBE5E),
  (0x29242, 0xC5E2),
  (0x2927C, 0xB2D4),
  (0x29293, 0xE4B3),
  (0x292A6, 0xACBC),
  (0x292B3, 0xBE64),
  (0x292BF, 0xDB57),
  (0x292CE, 0xADCF),
  (0x292F0, 0xACF4),
  (0x2933B, 0xC340),
  (0x29346, 0xDB57),
  (0x29359, 0xF4DB),
  (0x2940A, 0xF87E),
  (0x2942D, 0xE7DC),
  (0x2944B, 0xADB6),
  (0x2947C, 0xBBE1),
  (0x29486, 0xB3BB),
  (0x29491, 0xB2B5),
  (0x2949B, 0xB1AD),
  (0x294B5, 0xB3BC),
  (0x294CB, 0xBFE0),
  (0x294EB, 0xE041),
  (0x29516, 0xC3FE),
  (0x2951A, 0xAFCE),
  (0x2951C, 0xB97C),
  (0x29530, 0xC5E3),
  (0x2953A, 0xC660),
  (0x29553, 0xB977),
  (0x2958E, 0xC1A9),
  (0x29593, 0xC649),
  (0x295CB, 0xA67C),
  (0x295D7, 0xC1FC),
  (0x2964E, 0xF5C0),
  (0x29681, 0xADB9),
  (0x2968A, 0xB6BB),
  (0x2968E, 0xC4C8_B6B8),
  (0x296B7, 0xB2C9),
  (0x296CA, 0xB9A1),
  (0x296DD, 0xE474),
  (0x2970B, 0xBBE8),
  (0x29719, 0xC4C7),
  (0x2972F, 0xC349),
  (0x29759, 0xB6DD),
  (0x297B9, 0xC5E4),
  (0x29810, 0xADBA),
  (0x2982E, 0xC4DC),
  (0x29839, 0xDCC7),
  (0x29851, 0xC34C),
  (0x29888, 0xE4D7),
  (0x298CE, 0xE4D7),
  (0x2991D, 0xC445),
  (0x299A6, 0xC5BC),
  (0x299BC, 0xC064),
  (0x299D9, 0xC559),
  (0x299E2, 0xC1FE),
  (0x29A23, 0xAAD5),
  (0x29A3A, 0xBBEA),
  (0x29A43, 0xB746),
  (0x29A8B, 0xEE67),
  (0x29AA0, 0xC174),
  (0x29AEB, 0xB3B2),
  (0x29C6C, 0xB24F),
  (0x29D4B, 0xB3BD),
  (0x29D6A, 0xF570),
  (0x29DF1, 0xF570),
  (0x29EB4, 0xC5C1),
  (0x29EBA, 0xF570),
  (0x29F06, 0xC355),
  (0x29F1E, 0xC355),
  (0x29F59, 0xF570),
  (0x29F97, 0xE0EC),
  (0x29FC7, 0xB6B1),
  (0x2A057, 0xC06E),
  (0x2A069, 0xB96E),
  (0x2A0A1, 0xC450),
  (0x2A1AA, 0xF6B6),
  (0x2A1BE, 0xC44C),
  (0x2A291, 0xEFAB),
  (0x2A2A8, 0xB9A8),
  (0x2A2E7, 0xC565),
  (0x2A301, 0xA87E),
  (0x2A311, 0xBCF5),
  (0x2A369, 0xC443),
  (0x2A396, 0xC153),
  (0x2A424, 0xBE7B),
  (0x2A45B, 0xC5F0),
  (0x2A471, 0xD46A),
  (0x2A4A0, 0xC566),
  (0x2A4DC, 0xD7B0),
  (0x2A4F3, 0xBB6A),
  (0x2A4F6, 0xC652),
  (0x2A505, 0xADFB),
  (0x2A52B, 0xF1E3),
  (0x2A535, 0xF1E3),
  (0x2A5A6, 0xAEF7),
  (0x2A5C7, 0xC2C0),
  (0x2A5C9, 0xDAE7),
  (0x2A600, 0xB9CE),
  (0x2A60F, 0xE462),
  (0x2A68F, 0xB9CE),
  (0x2B5AF, 0xBE66),
  (0x2B6DA, 0xE8E6),
  (0x2F800, 0xC452_A459),
  (0x2F804, 0xA741_AB56_CDE7_A8D6_ABA5_B3C6_B9AC_B9B3_AB54),
  (0x2F80E, 0xA74B_A8DF),
  (0x2F814, 0xA4BA_A641_A555_A4BE_ADDE_A642_A556_AA70),
  (0x2F81D, 0xC942_A462),
  (0x2F820, 0xA8E8),
  (0x2F822, 0xB3CE_B6D0),
  (0x2F825, 0xAB69_AB6A_B6D4_A463_A55D_A55E_A55F_A563_A8F5_B3D5_A759_A759),
  (0x2F831, 0xADEB_ADEB_ADEB),
  (0x2F835, 0xA6C7_A4CE_ADEE),
  (0x2F839, 0xA573_A577_A65B),
  (0x2F83D, 0xA76C_A765_A950_CE4B),
  (0x2F842, 0xADF0_B1D2_B0E5_B5BD_B5BD_B3F1_B3F0_B3E5_DCE0_B9CF_B9C4),
  (0x2F84F, 0xBC51_A4C1_A7A7_ABB0_D4B2_D4CB_ABAC_D14B_B3F8_E550),
  (0x2F85A, 0xBDE6_B3FD_CAB0_A668_B9DA_B0F8),
  (0x2F862, 0xAE56_AE54),
  (0x2F865, 0xABB9_B0FC_B741),
  (0x2F869, 0xBC63_C369_C369),
  (0x2F86D, 0xADDE_DD49_B9E7_C45F),
  (0x2F872, 0xB9D8_B14E_B7ED_A471),
  (0x2F877, 0xB14F),
  (0x2F87A, 0xCAC0),
  (0x2F87C, 0xD8DA),
  (0x2F87F, 0xD8DB_E1AE_A8B5_B15F),
  (0x2F884, 0xB453_D174_B455_E56E),
  (0x2F88B, 0xCEB5_D54B_B166_B459),
  (0x2F890, 0xA47B),
  (0x2F893, 0xD370_CC71_CC71),
  (0x2F898, 0xC255_A7CE_B16E),
  (0x2F89D, 0xA7D4_A7D3),
  (0x2F8A0, 0xD1A6_B757),
  (0x2F8A3, 0xAEAC),
  (0x2F8A5, 0xB1AC_B74F_B757_B756_B757_E1CF_BCA8_BECB_BCAB_E5A3_ECE7_C367),
  (0x2F8B1, 0xC369_A6A8_B1AE),
  (0x2F8B5, 0xA9EA_A9DE_AEBD_A9DE_AEBE_ABF7_B1CB_B1BD_D1B9),
  (0x2F8BF, 0xDDA8_DD77_B1BB),
  (0x2F8C3, 0xBCAF_D54C_D95A_A7DB),
  (0x2F8C8, 0xB1D3_B771),
  (0x2F8CB, 0xAC4A_AED1_AECA_DDC2_B4BB),
  (0x2F8D2, 0xAB5F_B0C3_B3CC_B4B6_D1D7),
  (0x2F8D8, 0xAED4_B1E6_DF7A_A7FB_A840),
  (0x2F8DF, 0xA9E4_CCD3_AEE1_B1F6_AC5D),
  (0x2F8E5, 0xD1D9_D9C4),
  (0x2F8E8, 0xDDD3_BA6F_B7A7_ED42),
  (0x2F8ED, 0xC0CD),
  (0x2F8EF, 0xA6B8),
  (0x2F8F1, 0xE9DF),
  (0x2F8F3, 0xB7B3_E267_B1FE_B4DF),
  (0x2F8FA, 0xA6C6),
  (0x2F8FC, 0xAA75_CD49_CB4C_D264_ACA3_AEFC_AC79_AF45_AEFB_AF49),
  (0x2F907, 0xCF6E_B4E4_B4F3),
  (0x2F90B, 0xB4FE_B7BF),
  (0x2F90E, 0xB254_BCE9_E146),
  (0x2F912, 0xE5FD_F465),
  (0x2F915, 0xC373),
  (0x2F917, 0xF5D5_A861),
  (0x2F91A, 0xACB4),
  (0x2F91C, 0xC1EB_A861_E670),
  (0x2F920, 0xC679_C0EF_B968_A4FA_B552_E2C8),
  (0x2F928, 0xC3A1_A4FD),
  (0x2F92B, 0xAAB5),
  (0x2F92E, 0xACC5_B7EC_E2D0_E6A8_C3A3),
  (0x2F934, 0xEB42_A5D3_CD72),
  (0x2F938, 0xB2A7),
  (0x2F93A, 0xDECF),
  (0x2F93D, 0xAABB),
  (0x2F940, 0xAABD_CD77),
  (0x2F945, 0xAF75_AF75_AF75_DABF),
  (0x2F94A, 0xBD51),
  (0x2F94C, 0xA5DB),
  (0x2F94E, 0xB2BA_B84C_E6C3),
  (0x2F953, 0xAFAA),
  (0x2F956, 0xBAD6_D2ED),
  (0x2F959, 0xBD5C_E345_C3AD),
  (0x2F95F, 0xE34D),
  (0x2F962, 0xBD66_BF76),
  (0x2F966, 0xEAC7),
  (0x2F968, 0xEDCF_C158_ACF6_AAC8_DAED),
  (0x2F96E, 0xBAFD_C160_C162),
  (0x2F973, 0xB27E),
  (0x2F976, 0xEAE2_DAFE_D6F2_BFAC_AACC),
  (0x2F97F, 0xC16F),
  (0x2F981, 0xB6B9_A87C_AFDC),
  (0x2F985, 0xB5CA_DCF9_BD46_BC4D),
  (0x2F98A, 0xA5A5_D370_DB57_C3E3),
  (0x2F98F, 0xCB7D_A8A1_AADB_B3D2_AAE1_AADA_AADE_AD57_F0B9_AD59_B463_BA61),
  (0x2F99B, 0xB860),
  (0x2F99D, 0xB2F5_DB63_B5DB_D3B1_B5E2_B5DF_B5E6),
  (0x2F9A7, 0xBDAD_DFA9_E763_E768),
  (0x2F9AC, 0xEB42_DB5E),
  (0x2F9B0, 0xA7DB),
  (0x2F9B2, 0xC4DC_AD68_B8B8_C1AB_F0BA_B045),
  (0x2F9B9, 0xDFEB_DBB2_EB64_BDBA_DFEF_DBB4),
  (0x2F9C0, 0xE7A5_F0CE_DBB4),
  (0x2F9C4, 0xA6E7),
  (0x2F9C6, 0xDBC4_DFF5),
  (0x2F9C9, 0xE3F9),
  (0x2F9CC, 0xB058),
  (0x2F9CF, 0xB8DB_BFD9_C5DC_A8A8_D7CF_B365_B64E_C642_B05F),
  (0x2F9DA, 0xB65B_D7D6_E067_AD78_B062_BFE9_BE5E_BFF2_CA55_D0B7_E0A7_ADEB),
  (0x2F9E6, 0xE471_B959_E86D_E86B_BBD0_F366_F4EE),
  (0x2F9EE, 0xB67D_E0D0_B1FE_EC4B_DC51_DCA6_E967_F176_B7BC),
  (0x2F9FB, 0xF87E),
  (0x2F9FE, 0xC555_C555_E8B9),
  (0x2FA02, 0xC4C8_D349_EC5F_F3B3_E4D7_EF61_E0E8),
  (0x2FA0A, 0xF568_F570_E8E6),
  (0x2FA0F, 0xEF78),
  (0x2FA14, 0xEFAB_B3C2),
  (0x2FA17, 0xDCB0_E0EF_BB6A_E8F2_F1E3_BBF3_B9CE)]

/-- /repo/modules/to/CP950-TRANS.txt; there is no file for reading. -/
def cp950Trans : Charset where
  reads := []
  writes := cp950TransWrites

/-- The rules of /repo/modules/to/GB2312-TRANS.txt: character, code.  No two lines have the same character; sorted.  Lines `0100..`, if any, are
listed separately. -/
def gb2312TransWrites : Chart := Chart.wide [
  (0x3405, 0x4E65),
  (0x3421, 0x4533),
  (0x3430, 0x5045),
  (0x3433, 0x5823),
  (0x3439, 0x586E),
  (0x3442, 0x3742),
  (0x3444, 0x4E6A),
  (0x345E, 0x6B74),
  (0x3474, 0x4756),
  (0x3477, 0x4C2C),
  (0x347A, 0x3F21),
  (0x349A, 0x4E48),
  (0x349E, 0x3F21),
  (0x34A4, 0x4965),
  (0x34A8, 0x4F49),
  (0x34B2, 0x3246_413D),
  (0x34B6, 0x392B),
  (0x34C2, 0x3F5C),
  (0x34CA, 0x3634),
  (0x34D5, 0x4370),
  (0x34DB, 0x3926_5357_504C),
  (0x34F6, 0x6F46),
  (0x3503, 0x3E78),
  (0x3518, 0x776D),
  (0x351C, 0x322A),
  (0x352D, 0x3357),
  (0x353A, 0x4A40),
  (0x353D, 0x5855),
  (0x3547, 0x6D47),
  (0x3551, 0x3378),
  (0x3555, 0x3B43_4B58),
  (0x355A, 0x5726_5351_4A37),
  (0x355E, 0x4B22),
  (0x3560, 0x4B2B),
  (0x3565, 0x5254),
  (0x3581, 0x415F),
  (0x35A0, 0x4447),
  (0x35C6, 0x6043),
  (0x35CB, 0x3A6D),
  (0x35D0, 0x603E),
  (0x35D6, 0x6022),
  (0x35E4, 0x6052),
  (0x35FD, 0x4F6C),
  (0x362B, 0x3E33),
  (0x362F, 0x3321),
  (0x3631, 0x4C2E),
  (0x3634, 0x5778),
  (0x3637, 0x302C),
  (0x3641, 0x5B69),
  (0x3662, 0x5C2C),
  (0x3672, 0x5B55),
  (0x367C, 0x405D),
  (0x368C, 0x6237),
  (0x3690, 0x4C57),
  (0x36A2, 0x452B_662F),
  (0x36B6, 0x6626),
  (0x36DB, 0x496F),
  (0x36E9, 0x6628),
  (0x36EE, 0x4929),
  (0x36F0, 0x3B69),
  (0x36FD, 0x6629),
  (0x3711, 0x4645),
  (0x373B, 0x662E),
  (0x373D, 0x5753_3A22),
  (0x3740, 0x3A43),
  (0x3748, 0x424F_507B_4A58_4148_3E4E_5034),
  (0x3756, 0x524B),
  (0x3759, 0x527A),
  (0x375B, 0x4B5E),
  (0x3761, 0x576E_536E),
  (0x3767, 0x4E48),
  (0x376F, 0x4748),
  (0x3777, 0x5130),
  (0x3791, 0x4E32),
  (0x3795, 0x503C),
  (0x37A1, 0x5539_562E),
  (0x37AF, 0x6128),
  (0x37B6, 0x613A),
  (0x37B9, 0x6133),
  (0x37C1, 0x3036),
  (0x37E9, 0x613A),
  (0x37ED, 0x613A),
  (0x37FA, 0x6150),
  (0x3800, 0x353A),
  (0x3810, 0x613D),
  (0x381C, 0x615A),
  (0x382D, 0x5539),
  (0x3836, 0x372B),
  (0x3860, 0x5621),
  (0x3873, 0x3557),
  (0x387F, 0x3362),
  (0x3898, 0x412E),
  (0x38AE, 0x335A),
  (0x38B4, 0x4E77),
  (0x38BD, 0x367C),
  (0x38CB, 0x3524),
  (0x38E6, 0x6554),
  (0x38EB, 0x362F),
  (0x38F2, 0x4E22),
  (0x38FC, 0x484C),
  (0x3900, 0x4D7C_6343_3C31_3741),
  (0x3905, 0x302E),
  (0x3907, 0x3043),
  (0x3913, 0x313F),
  (0x3919, 0x3677),
  (0x391B, 0x6D25),
  (0x391F, 0x3F56),
  (0x3929, 0x6321_5439),
  (0x392C, 0x6D23),
  (0x3930, 0x6274),
  (0x393A, 0x3B45),
  (0x3943, 0x4346),
  (0x395E, 0x6564),
  (0x3964, 0x7166),
  (0x3966, 0x632B_4B33),
  (0x3971, 0x632D),
  (0x398D, 0x6335),
  (0x3994, 0x627B),
  (0x3996, 0x6D2F),
  (0x39A0, 0x6D21),
  (0x39A4, 0x5C32),
  (0x39AF, 0x3B72),
  (0x39B8, 0x6A2A),
  (0x39BF, 0x3B27),
  (0x39D6, 0x3673),
  (0x39F1, 0x4443),
  (0x3A08, 0x3C37),
  (0x3A14, 0x3A33),
  (0x3A17, 0x3D5D),
  (0x3A23, 0x5335),
  (0x3A2F, 0x4029),
  (0x3A41, 0x4836),
  (0x3A55, 0x4160),
  (0x3A57, 0x502F),
  (0x3A66, 0x502F),
  (0x3A70, 0x332D),
  (0x3A85, 0x387C),
  (0x3A9D, 0x3C70),
  (0x3A9F, 0x3658),
  (0x3AA3, 0x4743),
  (0x3AC1, 0x364F),
  (0x3AC4, 0x4554_466C),
  (0x3ACB, 0x6C39),
  (0x3AD1, 0x563C),
  (0x3AD4, 0x745E),
  (0x3AE7, 0x3129),
  (0x3AEA, 0x343A),
  (0x3AF3, 0x333F),
  (0x3AFA, 0x4E74),
  (0x3B0C, 0x3E30_4658),
  (0x3B1C, 0x3D7A),
  (0x3B20, 0x4939),
  (0x3B25, 0x3129),
  (0x3B27, 0x3129),
  (0x3B31, 0x4C66),
  (0x3B4A, 0x4E76_3074),
  (0x3B4D, 0x4662),
  (0x3B71, 0x4F3B),
  (0x3B7B, 0x4C44),
  (0x3B84, 0x3071),
  (0x3B8C, 0x435E),
  (0x3B8E, 0x312D),
  (0x3BA3, 0x3845),
  (0x3BAE, 0x3D5B),
  (0x3BCD, 0x3D30),
  (0x3BD0, 0x4D56),
  (0x3BD3, 0x693D),
  (0x3BDF, 0x4234),
  (0x3BE6, 0x4665),
  (0x3BEA, 0x6879),
  (0x3C09, 0x693B),
  (0x3C0F, 0x385D_4D56),
  (0x3C16, 0x692D),
  (0x3C1E, 0x604D),
  (0x3C4F, 0x557D),
  (0x3C55, 0x3969),
  (0x3C58, 0x774A),
  (0x3C68, 0x6967),
  (0x3C7F, 0x3F47),
  (0x3C87, 0x5F4B_4958),
  (0x3C9C, 0x4C3A),
  (0x3CAD, 0x4C3A),
  (0x3CB6, 0x4248_352A),
  (0x3CBE, 0x536A),
  (0x3CC2, 0x5158_3463),
  (0x3CC5, 0x4177),
  (0x3CC8, 0x4566),
  (0x3CD1, 0x5267_3728),
  (0x3CD9, 0x6438),
  (0x3CED, 0x4F51),
  (0x3D05, 0x4F7B_3D7E),
  (0x3D09, 0x3C43),
  (0x3D1E, 0x4C4F),
  (0x3D34, 0x553F),
  (0x3D3E, 0x3233),
  (0x3D4E, 0x3D27),
  (0x3D55, 0x5468),
  (0x3D71, 0x462F),
  (0x3D78, 0x652E),
  (0x3DA4, 0x3334),
  (0x3DAB, 0x4147),
  (0x3DB3, 0x3D7D),
  (0x3DBB, 0x3769),
  (0x3DC7, 0x3B56),
  (0x3DCA, 0x3759),
  (0x3DD4, 0x5166),
  (0x3DD6, 0x5555),
  (0x3DD9, 0x3C65),
  (0x3DE9, 0x4E75),
  (0x3DF1, 0x505C),
  (0x3DFB, 0x4E5E),
  (0x3E00, 0x6C46),
  (0x3E02, 0x6C5D),
  (0x3E09, 0x5B46),
  (0x3E15, 0x3E70),
  (0x3E18, 0x4D72),
  (0x3E27, 0x7638),
  (0x3E60, 0x6B60),
  (0x3E64, 0x4753),
  (0x3E83, 0x3937),
  (0x3E85, 0x3A6F),
  (0x3E9A, 0x4C21),
  (0x3EB2, 0x4525_4335),
  (0x3ECE, 0x492A),
  (0x3EEE, 0x6832),
  (0x3F04, 0x6761),
  (0x3F4D, 0x5B61),
  (0x3F52, 0x497B),
  (0x3F56, 0x4174_4436),
  (0x3F5C, 0x6E35),
  (0x3F5E, 0x4174),
  (0x3F6C, 0x3778),
  (0x3F6F, 0x4668),
  (0x3F8A, 0x7124),
  (0x3F8C, 0x5122),
  (0x3FCB, 0x707E),
  (0x3FE2, 0x522B),
  (0x3FF7, 0x325A),
  (0x4006, 0x3E21),
  (0x400B, 0x514E),
  (0x400E, 0x6D6D),
  (0x4018, 0x6B76),
  (0x405E, 0x4A21),
  (0x4066, 0x6A6F),
  (0x4079, 0x6E22),
  (0x4093, 0x3966),
  (0x4096, 0x4A2F),
  (0x40A1, 0x6D46),
  (0x40B2, 0x6D40),
  (0x40BB, 0x6F2D),
  (0x40CD, 0x5739),
  (0x40E0, 0x6D5B),
  (0x40E9, 0x6D50),
  (0x40FA, 0x4425),
  (0x4100, 0x3B76),
  (0x4112, 0x6F7E),
  (0x4115, 0x4967),
  (0x4122, 0x466B),
  (0x412B, 0x5C3B_5246_446A),
  (0x413D, 0x744C),
  (0x4147, 0x4B5A),
  (0x4192, 0x3E3F),
  (0x4197, 0x713A),
  (0x41A0, 0x3B42),
  (0x41A9, 0x5A24),
  (0x41BB, 0x474F),
  (0x4230, 0x4952),
  (0x427C, 0x414F),
  (0x428F, 0x7456),
  (0x42B7, 0x673B),
  (0x42C1, 0x672E),
  (0x42C4, 0x4D78),
  (0x42DC, 0x746C),
  (0x42DE, 0x4D78),
  (0x42E0, 0x3239),
  (0x42EF, 0x746C),
  (0x42F2, 0x497E_7158),
  (0x42F9, 0x3779),
  (0x4304, 0x672E),
  (0x4307, 0x4B77),
  (0x4309, 0x3859_746D),
  (0x4313, 0x3731),
  (0x4315, 0x7763),
  (0x431B, 0x746D),
  (0x432B, 0x4042),
  (0x4348, 0x463F),
  (0x4369, 0x5178),
  (0x43A3, 0x716A),
  (0x43B9, 0x4E45),
  (0x43CA, 0x417B_4B60),
  (0x43D2, 0x4556),
  (0x43D4, 0x5662_623F),
  (0x43EF, 0x706B),
  (0x43FB, 0x445C),
  (0x440C, 0x4C73),
  (0x4417, 0x3647),
  (0x4421, 0x466A),
  (0x4452, 0x353D),
  (0x4455, 0x4A73),
  (0x445B, 0x7342),
  (0x445E, 0x4B34),
  (0x4482, 0x3D30_546C),
  (0x44A3, 0x5C5B),
  (0x44AC, 0x442A_3548),
  (0x44B1, 0x5574),
  (0x44B6, 0x4C6C),
  (0x44C1, 0x3548),
  (0x44C5, 0x475B),
  (0x44D2, 0x466A),
  (0x44E6, 0x3564),
  (0x44F7, 0x5C74),
  (0x44FA, 0x5E42),
  (0x44FF, 0x5D55),
  (0x4509, 0x4B62),
  (0x450B, 0x492F),
  (0x450D, 0x7346),
  (0x4512, 0x5D6D),
  (0x4525, 0x4F74),
  (0x452B, 0x4A5F),
  (0x4543, 0x5271),
  (0x454F, 0x5D2D),
  (0x4556, 0x5D25),
  (0x455A, 0x5D5E),
  (0x4564, 0x5E2D),
  (0x4568, 0x4C59),
  (0x456B, 0x5967),
  (0x456E, 0x3E55),
  (0x4582, 0x4E65),
  (0x458B, 0x4530),
  (0x458D, 0x722F),
  (0x458F, 0x3426),
  (0x45A0, 0x7322),
  (0x45A3, 0x5469_726A),
  (0x45AB, 0x3076),
  (0x45B8, 0x366A_7255),
  (0x45BD, 0x725B),
  (0x45BF, 0x725B),
  (0x45CB, 0x7256),
  (0x45CF, 0x7274),
  (0x45EB, 0x7321),
  (0x45F6, 0x402F),
  (0x45FE, 0x7239),
  (0x4607, 0x4E43),
  (0x460A, 0x733A),
  (0x4610, 0x742C),
  (0x4614, 0x3F26),
  (0x4619, 0x4E40_5764),
  (0x461C, 0x3D6D),
  (0x462E, 0x4925),
  (0x4631, 0x5423),
  (0x4640, 0x3141),
  (0x4656, 0x3141),
  (0x465D, 0x5974),
  (0x466A, 0x7161),
  (0x466D, 0x653D),
  (0x467A, 0x4F4E),
  (0x469E, 0x3475_3475),
  (0x46B1, 0x5045_5A28),
  (0x46D0, 0x344A_5A57_3167),
  (0x46D5, 0x5A44),
  (0x46DC, 0x5136),
  (0x46E1, 0x3B30),
  (0x46E6, 0x4B4F_4355),
  (0x46FA, 0x3D6B),
  (0x4718, 0x3E2F),
  (0x471B, 0x3277),
  (0x471F, 0x5A5F),
  (0x4735, 0x7479),
  (0x473B, 0x7479),
  (0x473F, 0x4A7A),
  (0x4742, 0x4A7A),
  (0x4757, 0x7577_5263),
  (0x4768, 0x4F4D),
  (0x477E, 0x3833_3973),
  (0x47AC, 0x4D38),
  (0x47BC, 0x345C),
  (0x47C6, 0x754F),
  (0x47CC, 0x5363),
  (0x47CE, 0x7475),
  (0x47D6, 0x563A),
  (0x47E6, 0x304F),
  (0x4801, 0x7552_337E),
  (0x480E, 0x763B),
  (0x4825, 0x753F),
  (0x482E, 0x4C5A),
  (0x4832, 0x7176),
  (0x4836, 0x4964),
  (0x4839, 0x3A21),
  (0x4856, 0x4761),
  (0x4879, 0x6979),
  (0x4889, 0x4529),
  (0x489C, 0x3969),
  (0x489F, 0x5349_4B4D),
  (0x48A4, 0x4A76),
  (0x48A6, 0x4B27),
  (0x48AA, 0x4741_4B66),
  (0x48AF, 0x6560),
  (0x48B5, 0x5447),
  (0x48B7, 0x4447),
  (0x48CC, 0x5B21),
  (0x48DE, 0x3675),
  (0x48E8, 0x343C),
  (0x48F4, 0x506F),
  (0x491C, 0x365B),
  (0x4931, 0x4A44),
  (0x4939, 0x6F4B),
  (0x4945, 0x4759_4759),
  (0x494A, 0x6F3A),
  (0x4950, 0x764A),
  (0x4956, 0x6E64),
  (0x495A, 0x3375),
  (0x4976, 0x6F53_5521),
  (0x4987, 0x7759),
  (0x4999, 0x4B42),
  (0x499E, 0x4872_4E48),
  (0x49A7, 0x6352_403B),
  (0x49B7, 0x4E48),
  (0x49CD, 0x4F36),
  (0x49D5, 0x5372),
  (0x49D9, 0x416A),
  (0x49DC, 0x4C41),
  (0x49E1, 0x5C2D),
  (0x49F8, 0x7033),
  (0x49FB, 0x386B_7040),
  (0x49FF, 0x4835),
  (0x4A05, 0x7053),
  (0x4A07, 0x4B2B),
  (0x4A09, 0x7050),
  (0x4A13, 0x4057_3122),
  (0x4A16, 0x762B),
  (0x4A19, 0x762F),
  (0x4A20, 0x7630),
  (0x4A29, 0x4169_7632),
  (0x4A2D, 0x4F76_5129),
  (0x4A37, 0x7631),
  (0x4A84, 0x3B4D),
  (0x4AA0, 0x6C34_6C34_6C34),
  (0x4AD9, 0x722A),
  (0x4ADD, 0x7025),
  (0x4AEB, 0x7743),
  (0x4AF1, 0x722C),
  (0x4AF7, 0x7226),
  (0x4B03, 0x6C2A),
  (0x4B2E, 0x6242),
  (0x4B3B, 0x3D24),
  (0x4B4B, 0x3125_5764),
  (0x4B6B, 0x3B7C_3B7C),
  (0x4B76, 0x666B),
  (0x4B7C, 0x666B),
  (0x4B7E, 0x4D54),
  (0x4B81, 0x6669),
  (0x4B83, 0x477D),
  (0x4B88, 0x335B),
  (0x4B9B, 0x6662),
  (0x4BBF, 0x6539),
  (0x4BC1, 0x4262),
  (0x4BD0, 0x3A21),
  (0x4BD7, 0x7742),
  (0x4BDD, 0x4B68),
  (0x4C1B, 0x582A_582A),
  (0x4C1F, 0x3B6A),
  (0x4C23, 0x774D),
  (0x4C28, 0x7748),
  (0x4C7D, 0x7670),
  (0x4C84, 0x772A),
  (0x4CA5, 0x702F),
  (0x4CA8, 0x3A68),
  (0x4CAB, 0x702F),
  (0x4CB4, 0x7032_4838),
  (0x4CB7, 0x6849),
  (0x4CCC, 0x3E69),
  (0x4CD2, 0x7030),
  (0x4CD8, 0x366C),
  (0x4CE8, 0x3B4B),
  (0x4CFC, 0x4538_3A57),
  (0x4D21, 0x4076),
  (0x4D5E, 0x7774),
  (0x4D79, 0x5629),
  (0x4D87, 0x7778),
  (0x4D9A, 0x4823),
  (0x4E04, 0x494F_4F42),
  (0x4E17, 0x4A40),
  (0x4E1F, 0x362A_3C3D_413D),
  (0x4E23, 0x534F),
  (0x4E26, 0x3222),
  (0x4E3C, 0x3E2E),
  (0x4E46, 0x3E43),
  (0x4E55, 0x3B22),
  (0x4E57, 0x334B),
  (0x4E68, 0x4A3C),
  (0x4E79, 0x472C),
  (0x4E7F, 0x564E_396A_472C_4252),
  (0x4E8A, 0x4A42),
  (0x4E97, 0x4B6A),
  (0x4E9C, 0x5147_466B_5147),
  (0x4EAF, 0x4F6D_3E29_5239),
  (0x4EBE, 0x4D76),
  (0x4ECC, 0x3179),
  (0x4ECF, 0x3770),
  (0x4EED, 0x5870_3C59),
  (0x4EFE, 0x354D),
  (0x4F02, 0x4566_6625),
  (0x4F16, 0x607B),
  (0x4F1D, 0x342B),
  (0x4F29, 0x5045),
  (0x4F2E, 0x452C),
  (0x4F40, 0x4B46),
  (0x4F44, 0x3A28),
  (0x4F47, 0x5879),
  (0x4F4B, 0x5551),
  (0x4F72, 0x7524),
  (0x4F86, 0x4034),
  (0x4F8C, 0x5275),
  (0x4F96, 0x4258),
  (0x4FA1, 0x3C5B),
  (0x4FAB, 0x587A),
  (0x4FB6, 0x4242),
  (0x4FBD, 0x4450),
  (0x4FC1, 0x5936),
  (0x4FD6, 0x3136),
  (0x4FE0, 0x4F40),
  (0x4FFB, 0x3138),
  (0x5000, 0x5876),
  (0x5006, 0x4129),
  (0x5009, 0x3256),
  (0x500B, 0x3876),
  (0x5010, 0x593F_4347),
  (0x5023, 0x3742_5635),
  (0x502B, 0x4257),
  (0x5036, 0x3E63),
  (0x5039, 0x3C73),
  (0x5040, 0x5322_3346),
  (0x5045, 0x5957),
  (0x5049, 0x4E30),
  (0x5058, 0x5929),
  (0x5069, 0x383A_3146),
  (0x5074, 0x3260_556C),
  (0x5079, 0x3138_545B),
  (0x507D, 0x4E31),
  (0x5093, 0x493F),
  (0x5096, 0x5877),
  (0x5098, 0x4921_3138),
  (0x50AF, 0x594C),
  (0x50B3, 0x342B_5871_552E),
  (0x50B7, 0x494B),
  (0x50BE, 0x4763),
  (0x50C2, 0x594D),
  (0x50C5, 0x3D76),
  (0x50C9, 0x595D),
  (0x50D1, 0x4748),
  (0x50DE, 0x4E31),
  (0x50E5, 0x3D44),
  (0x50E8, 0x5947),
  (0x50F2, 0x4F49),
  (0x50F9, 0x3C5B),
  (0x5100, 0x5247_3F21_592F),
  (0x5104, 0x525A),
  (0x5108, 0x3F6B_3C73),
  (0x510C, 0x3D44_4935),
  (0x5110, 0x594F),
  (0x5114, 0x5931_592D),
  (0x511F, 0x3325),
  (0x512A, 0x5345_3A40),
  (0x5132, 0x3422),
  (0x5137, 0x5933),
  (0x513A, 0x5950_594E_5932),
  (0x5142, 0x7422),
  (0x514A, 0x3652),
  (0x514C, 0x3652),
  (0x514E, 0x4D43),
  (0x5150, 0x3679),
  (0x5152, 0x3679),
  (0x5157, 0x5970),
  (0x5166, 0x4D76_445A),
  (0x5169, 0x413D_5361),
  (0x517E, 0x3C3D_5255),
  (0x5183, 0x4331_483D),
  (0x5186, 0x5432),
  (0x518A, 0x3261),
  (0x5190, 0x4330),
  (0x519D, 0x524B),
  (0x51A1, 0x4349),
  (0x51A3, 0x576E),
  (0x51A6, 0x3F5C),
  (0x51A8, 0x383B_5034_5A22),
  (0x51BA, 0x637D),
  (0x51BE, 0x4722),
  (0x51CD, 0x3633),
  (0x51DC, 0x415D),
  (0x51DE, 0x4E75),
  (0x51E6, 0x3426),
  (0x51E8, 0x3767),
  (0x51F1, 0x3F2D),
  (0x5204, 0x4850),
  (0x5225, 0x3170_3D59_3D59),
  (0x522A, 0x493E),
  (0x5234, 0x3667),
  (0x523C, 0x3D59),
  (0x5244, 0x5859),
  (0x5247, 0x5472),
  (0x524E, 0x4932),
  (0x525B, 0x3855),
  (0x525D, 0x307E),
  (0x5263, 0x3D23_3C41),
  (0x526E, 0x3950),
  (0x5270, 0x4A23),
  (0x5274, 0x585C_3434),
  (0x5283, 0x3B2E),
  (0x5287, 0x3E67),
  (0x5289, 0x4175_3974_3D4B_585B_3D23),
  (0x5291, 0x3C41),
  (0x52B4, 0x404D),
  (0x52B9, 0x5027),
  (0x52C1, 0x3E22),
  (0x52C4, 0x4374_6B37),
  (0x52C8, 0x5342),
  (0x52D5, 0x362F),
  (0x52D9, 0x4E71),
  (0x52DB, 0x512B),
  (0x52DD, 0x4A24_404D),
  (0x52E2, 0x4A46_3C28),
  (0x52E6, 0x3D4B_4830),
  (0x52F2, 0x512B_512B),
  (0x52F5, 0x4078),
  (0x52F8, 0x4830),
  (0x52FB, 0x5448),
  (0x5304, 0x5824),
  (0x5307, 0x3452),
  (0x531E, 0x3D33_3F3B),
  (0x5329, 0x3F6F),
  (0x532D, 0x5850),
  (0x532F, 0x3B63),
  (0x5331, 0x5851),
  (0x5338, 0x3745),
  (0x5340, 0x4778),
  (0x5346, 0x5764),
  (0x534B, 0x4A40),
  (0x5354, 0x502D),
  (0x5358, 0x3525),
  (0x5365, 0x4E77),
  (0x536D, 0x5A76),
  (0x537B, 0x4834),
  (0x537D, 0x3C34),
  (0x5380, 0x4F25),
  (0x5397, 0x4C60),
  (0x5399, 0x5847),
  (0x539B, 0x4C7C),
  (0x53A0, 0x325E),
  (0x53AD, 0x5161),
  (0x53B2, 0x4077_514F_5849_5434),
  (0x53BA, 0x4825),
  (0x53C3, 0x324E),
  (0x53CE, 0x4A55),
  (0x53D3, 0x4A42),
  (0x53DC, 0x5B45),
  (0x53E2, 0x3454),
  (0x5407, 0x5F73),
  (0x5422, 0x5F44),
  (0x5433, 0x4E62),
  (0x543D, 0x3A70),
  (0x543F, 0x3866),
  (0x5445, 0x4E47),
  (0x5449, 0x4E62),
  (0x544C, 0x3D50),
  (0x5451, 0x4D4C),
  (0x545D, 0x5F40),
  (0x5463, 0x4431),
  (0x546A, 0x5664),
  (0x548A, 0x3A4D),
  (0x54AE, 0x6069),
  (0x54B2, 0x5026),
  (0x54B6, 0x7342),
  (0x54BC, 0x5F43),
  (0x54E1, 0x5431),
  (0x54F0, 0x5F6B),
  (0x5504, 0x5F42),
  (0x5516, 0x5146),
  (0x5519, 0x6056),
  (0x554F, 0x4E4A),
  (0x5552, 0x5F7C_4674_4674),
  (0x5557, 0x6022),
  (0x555E, 0x5146_4674),
  (0x5568, 0x4769),
  (0x557A, 0x4C46),
  (0x5585, 0x6021),
  (0x559A, 0x3B3D),
  (0x559E, 0x5F73),
  (0x55A9, 0x5377_4925),
  (0x55AC, 0x4747),
  (0x55AE, 0x3525),
  (0x55B2, 0x5334),
  (0x55B6, 0x532A),
  (0x55C6, 0x473A_5844),
  (0x55CE, 0x4270),
  (0x55DA, 0x4E58),
  (0x55E2, 0x3A4F),
  (0x55E9, 0x5F6F),
  (0x55F6, 0x5F59),
  (0x55F8, 0x603B),
  (0x5606, 0x4C3E),
  (0x560D, 0x6036),
  (0x5614, 0x453B),
  (0x5616, 0x5F75_3322),
  (0x561C, 0x5F69),
  (0x5620, 0x3842),
  (0x5628, 0x5025_3B29),
  (0x562B, 0x483B),
  (0x562E, 0x5F6B_5025_5F34),
  (0x5635, 0x5F58),
  (0x5637, 0x6046_5F3C),
  (0x564F, 0x4E7C_4677),
  (0x5653, 0x506A),
  (0x5656, 0x5277),
  (0x565D, 0x5F50),
  (0x5660, 0x5F55_5A5E),
  (0x5665, 0x5F66_5F5C),
  (0x566F, 0x6048),
  (0x5672, 0x5F60),
  (0x5674, 0x4567),
  (0x5678, 0x3656),
  (0x567E, 0x6033),
  (0x5680, 0x5F4C),
  (0x5687, 0x4F45),
  (0x5689, 0x5F4D),
  (0x5695, 0x6060),
  (0x5699, 0x4476),
  (0x56A0, 0x642F),
  (0x56A2, 0x4452),
  (0x56A6, 0x5F3F),
  (0x56A8, 0x417C),
  (0x56B3, 0x6037_514F),
  (0x56B6, 0x6053),
  (0x56BB, 0x4F79),
  (0x56C0, 0x5F79_603F_4F79),
  (0x56C5, 0x5966),
  (0x56C8, 0x5F3D),
  (0x56CC, 0x4B55),
  (0x56CF, 0x3C68),
  (0x56D1, 0x5676),
  (0x56D8, 0x3B58_5272),
  (0x56E3, 0x4D45),
  (0x56F2, 0x4E27_4D3C),
  (0x56F8, 0x4855),
  (0x56FC, 0x4C25),
  (0x5707, 0x6070),
  (0x570B, 0x397A),
  (0x570D, 0x4E27),
  (0x570F, 0x4826),
  (0x5712, 0x5430_5432),
  (0x5716, 0x4D3C),
  (0x5718, 0x4D45),
  (0x5721, 0x4D41),
  (0x5727, 0x5139),
  (0x5735, 0x4840),
  (0x574B, 0x5B50),
  (0x5753, 0x504D_3558),
  (0x5778, 0x3938),
  (0x577F, 0x383D),
  (0x5796, 0x3651),
  (0x579C, 0x3662),
  (0x57BA, 0x5B2E),
  (0x57BE, 0x3036),
  (0x57C0, 0x3439_612F),
  (0x57C5, 0x3740),
  (0x57C8, 0x3E7E),
  (0x57D3, 0x5B78),
  (0x57DC, 0x5230),
  (0x57E1, 0x5B6B),
  (0x57F0, 0x3249),
  (0x57F7, 0x5634),
  (0x5805, 0x3C61),
  (0x580A, 0x5B51),
  (0x581D, 0x5B76),
  (0x5822, 0x3124),
  (0x5826, 0x3D57),
  (0x582F, 0x5222),
  (0x5831, 0x3128),
  (0x5834, 0x3321),
  (0x5841, 0x405D),
  (0x584A, 0x3F69_5C63),
  (0x584F, 0x5B6E_4B5C),
  (0x5852, 0x5B75),
  (0x5857, 0x4D3F),
  (0x585A, 0x5A23),
  (0x5861, 0x4C6E_4E6B),
  (0x5864, 0x5B77),
  (0x5866, 0x5573),
  (0x5869, 0x514E),
  (0x5872, 0x3321),
  (0x5875, 0x333E),
  (0x5879, 0x4735),
  (0x587C, 0x5729),
  (0x588A, 0x3566),
  (0x5895, 0x515F_4B7E_5476),
  (0x589C, 0x5739),
  (0x58A5, 0x6E36),
  (0x58AA, 0x3655_6957),
  (0x58AE, 0x3669),
  (0x58B0, 0x4C33),
  (0x58B3, 0x3758),
  (0x58BB, 0x473D),
  (0x58BE, 0x3F51),
  (0x58C3, 0x3D2E),
  (0x58C7, 0x4C33),
  (0x58CA, 0x3B35),
  (0x58CC, 0x4840_4735),
  (0x58D0, 0x6774),
  (0x58D3, 0x5139),
  (0x58D8, 0x405D_5B5B_5B64),
  (0x58DC, 0x4C33),
  (0x58DE, 0x3B35_4222_4222),
  (0x58E2, 0x5B5E),
  (0x58E9, 0x3053),
  (0x58EF, 0x5733),
  (0x58F1, 0x523C_4274),
  (0x58F7, 0x3A78),
  (0x58FA, 0x3A78_5076),
  (0x58FD, 0x4A59),
  (0x5900, 0x4A59),
  (0x5905, 0x3D35),
  (0x5909, 0x3164),
  (0x5918, 0x432E),
  (0x591B, 0x3660),
  (0x591D, 0x4767),
  (0x5920, 0x393B),
  (0x5922, 0x434E_434E),
  (0x5936, 0x3148),
  (0x593E, 0x3C50),
  (0x594C, 0x3563),
  (0x5950, 0x5B3C),
  (0x5953, 0x495D),
  (0x595C, 0x6C33),
  (0x595E, 0x3F7C),
  (0x5967, 0x3042_3D31_5E46_3661),
  (0x596C, 0x3D31),
  (0x596E, 0x375C),
  (0x597C, 0x6631),
  (0x599B, 0x664A),
  (0x599D, 0x5731),
  (0x59AC, 0x364A),
  (0x59B4, 0x4D71),
  (0x59C9, 0x6622),
  (0x59CD, 0x6629),
  (0x59D9, 0x4851),
  (0x59E2, 0x3E6A),
  (0x59E7, 0x3C69),
  (0x59EB, 0x3C27),
  (0x59F8, 0x657B),
  (0x5A12, 0x4437),
  (0x5A1B, 0x5369),
  (0x5A24, 0x5731),
  (0x5A26, 0x6649),
  (0x5A2F, 0x5369),
  (0x5A3F, 0x6639),
  (0x5A41, 0x4226),
  (0x5A4F, 0x4364),
  (0x5A59, 0x663A),
  (0x5A5E, 0x632C),
  (0x5A63, 0x5276),
  (0x5A66, 0x383E),
  (0x5A6D, 0x662B),
  (0x5A87, 0x4757),
  (0x5A8D, 0x383E),
  (0x5AA7, 0x6634),
  (0x5AAF, 0x6623),
  (0x5ABD, 0x4268),
  (0x5AD7, 0x657D),
  (0x5AF0, 0x445B),
  (0x5AF5, 0x657C),
  (0x5AFB, 0x6635),
  (0x5B00, 0x6623),
  (0x5B08, 0x662C),
  (0x5B0B, 0x663F_3D3F),
  (0x5B19, 0x664D),
  (0x5B21, 0x6648),
  (0x5B28, 0x4F72),
  (0x5B2A, 0x6649),
  (0x5B30, 0x5324),
  (0x5B38, 0x4974),
  (0x5B3E, 0x4041),
  (0x5B46, 0x5324),
  (0x5B4C, 0x662E),
  (0x5B60, 0x4B43_4C25),
  (0x5B6B, 0x4B6F),
  (0x5B78, 0x5127),
  (0x5B7E, 0x5324_424F),
  (0x5B82, 0x485F),
  (0x5B86, 0x7137),
  (0x5B8D, 0x4862),
  (0x5B9F, 0x4A35),
  (0x5BB2, 0x4A35),
  (0x5BBB, 0x435C_3F5C),
  (0x5BC3, 0x5429),
  (0x5BCF, 0x543A),
  (0x5BD1, 0x475E),
  (0x5BDB, 0x3F6D_447E),
  (0x5BE2, 0x475E),
  (0x5BE6, 0x4A35_447E),
  (0x5BE9, 0x4973),
  (0x5BEB, 0x5034_3F6D),
  (0x5BF3, 0x3126),
  (0x5BF5, 0x3368_3126),
  (0x5BFE, 0x3654),
  (0x5C02, 0x5728),
  (0x5C07, 0x3D2B_5728),
  (0x5C0B, 0x5130),
  (0x5C0D, 0x3654_353C),
  (0x5C19, 0x4950),
  (0x5C1E, 0x4147),
  (0x5C28, 0x417A),
  (0x5C2D, 0x5222),
  (0x5C37, 0x5E4F),
  (0x5C46, 0x3D6C),
  (0x5C5B, 0x4641_4C6B),
  (0x5C62, 0x4245),
  (0x5C64, 0x3263),
  (0x5C68, 0x6570),
  (0x5C6C, 0x4A74),
  (0x5C8B, 0x6127),
  (0x5CA1, 0x3854),
  (0x5CB4, 0x612B),
  (0x5CDD, 0x613C),
  (0x5CEF, 0x3765),
  (0x5CF4, 0x612D),
  (0x5CF6, 0x353A),
  (0x5CFD, 0x4F3F),
  (0x5D08, 0x3367),
  (0x5D0D, 0x6141),
  (0x5D17, 0x385A),
  (0x5D22, 0x613F),
  (0x5D2C, 0x6134),
  (0x5D50, 0x6130),
  (0x5D57, 0x4B6A),
  (0x5D5C, 0x4669),
  (0x5D73, 0x614F),
  (0x5D81, 0x6150),
  (0x5D84, 0x5538),
  (0x5D87, 0x612B),
  (0x5D8B, 0x353A_353A),
  (0x5D97, 0x6140),
  (0x5DA0, 0x613D),
  (0x5DA7, 0x613B),
  (0x5DB8, 0x6149),
  (0x5DBA, 0x416B),
  (0x5DBC, 0x536C),
  (0x5DCB, 0x3F79),
  (0x5DD2, 0x424D_615B_615B),
  (0x5DE3, 0x3332),
  (0x5DF0, 0x5B4F),
  (0x5DFA, 0x5963_3E6D),
  (0x5E00, 0x5451),
  (0x5E0A, 0x4541_563D),
  (0x5E12, 0x347C),
  (0x5E25, 0x4B27),
  (0x5E2B, 0x4A26_4839),
  (0x5E2F, 0x3478_3969),
  (0x5E33, 0x554A),
  (0x5E36, 0x3478),
  (0x5E40, 0x5621),
  (0x5E43, 0x6078),
  (0x5E47, 0x306F_4641),
  (0x5E51, 0x3B55),
  (0x5E57, 0x607E_607D),
  (0x5E5F, 0x5644),
  (0x5E63, 0x3152_3152),
  (0x5E6B, 0x306F_607C),
  (0x5E77, 0x3222),
  (0x5E81, 0x4C7C),
  (0x5E83, 0x3963),
  (0x5E92, 0x572F),
  (0x5EAB, 0x3F62),
  (0x5EBB, 0x4A7C),
  (0x5EBD, 0x5422),
  (0x5EBF, 0x436D),
  (0x5EC1, 0x325E_4F61_374F),
  (0x5EC8, 0x4F43),
  (0x5EDA, 0x3378),
  (0x5EDF, 0x436D_3327_6250_374F_3963),
  (0x5EEC, 0x422E),
  (0x5EF0, 0x4C7C),
  (0x5EF3, 0x4C7C),
  (0x5EF5, 0x5132),
  (0x5F09, 0x5E4A),
  (0x5F0D, 0x3721),
  (0x5F10, 0x3721),
  (0x5F12, 0x5F31),
  (0x5F33, 0x6572),
  (0x5F35, 0x5545),
  (0x5F37, 0x473F),
  (0x5F3E, 0x352F),
  (0x5F48, 0x352F),
  (0x5F4A, 0x473F),
  (0x5F4C, 0x4356),
  (0x5F4E, 0x4D64),
  (0x5F5B, 0x524D_524D),
  (0x5F5E, 0x524D),
  (0x5F65, 0x5165),
  (0x5F83, 0x4D79),
  (0x5F8F, 0x5A6C),
  (0x5F91, 0x3E36),
  (0x5F93, 0x3453),
  (0x5F9E, 0x3453),
  (0x5FA0, 0x6162),
  (0x5FB3, 0x3542_6167),
  (0x5FB9, 0x3339),
  (0x5FC8, 0x484A),
  (0x5FCE, 0x484A),
  (0x5FDC, 0x5326),
  (0x5FE2, 0x4E72),
  (0x5FF0, 0x6332),
  (0x5FFC, 0x3F36),
  (0x6018, 0x394C),
  (0x6023, 0x5348),
  (0x6031, 0x3452),
  (0x6033, 0x3B50),
  (0x6046, 0x3A63),
  (0x6056, 0x4B3C),
  (0x6060, 0x3956_415F),
  (0x6065, 0x335C),
  (0x6071, 0x5443),
  (0x6075, 0x3B5D),
  (0x6085, 0x5443),
  (0x608B, 0x415F),
  (0x6090, 0x4C68_3240),
  (0x60A4, 0x3452),
  (0x60A9, 0x4455_3671),
  (0x60B3, 0x3542),
  (0x60B5, 0x626A_4346),
  (0x60D6, 0x4C68),
  (0x60E1, 0x3671),
  (0x60E3, 0x575C),
  (0x60EA, 0x3542),
  (0x60F1, 0x4455_6322),
  (0x60F7, 0x3440),
  (0x60FB, 0x627C),
  (0x6119, 0x6321),
  (0x611B, 0x302E_632B),
  (0x6128, 0x6D28),
  (0x612C, 0x4B5F),
  (0x612F, 0x6324),
  (0x6133, 0x3E65_626B),
  (0x6137, 0x627D_557B),
  (0x613B, 0x5137_4977_3229_6269),
  (0x6142, 0x5341),
  (0x614B, 0x4C2C),
  (0x614D, 0x6333),
  (0x6158, 0x3252_3251_3251),
  (0x615F, 0x627A),
  (0x6163, 0x395F_6D28),
  (0x616A, 0x6266_4B4B),
  (0x616E, 0x4247),
  (0x6173, 0x6325),
  (0x6176, 0x476C),
  (0x6182, 0x5347),
  (0x6185, 0x627A),
  (0x6187, 0x6D2C),
  (0x618A, 0x3139),
  (0x6190, 0x412F_463E_6334),
  (0x6198, 0x4F32_4F32_352C),
  (0x61A4, 0x375F),
  (0x61AB, 0x4375),
  (0x61AE, 0x6264),
  (0x61B2, 0x4F5C),
  (0x61B6, 0x5264),
  (0x61C3, 0x475A),
  (0x61C7, 0x3F52),
  (0x61C9, 0x5326),
  (0x61CC, 0x6278),
  (0x61D0, 0x3B33),
  (0x61D5, 0x627B),
  (0x61DC, 0x6342),
  (0x61DF, 0x6D21),
  (0x61E3, 0x6D2F),
  (0x61E8, 0x627B),
  (0x61F2, 0x334D),
  (0x61F4, 0x6263),
  (0x61F6, 0x4041_3B33_507C),
  (0x61FA, 0x6263),
  (0x61FC, 0x3E65),
  (0x61FE, 0x4965),
  (0x6200, 0x4135),
  (0x6207, 0x6D30),
  (0x6214, 0x6A27),
  (0x621D, 0x5474_6A29),
  (0x6220, 0x5B7A),
  (0x6226, 0x553D_6A28),
  (0x6229, 0x6A2F),
  (0x622F, 0x4F37_553D),
  (0x6232, 0x4F37),
  (0x6236, 0x3B27),
  (0x6238, 0x3B27),
  (0x623B, 0x6C65),
  (0x6255, 0x3777),
  (0x625E, 0x3A34),
  (0x6272, 0x475C),
  (0x627B, 0x4B70),
  (0x6283, 0x5E55),
  (0x6285, 0x3E50),
  (0x628D, 0x557C),
  (0x629C, 0x304E_5E56_5471),
  (0x62B8, 0x502E),
  (0x62CB, 0x4557),
  (0x62CF, 0x4443),
  (0x62DD, 0x305D),
  (0x62E1, 0x4029),
  (0x6304, 0x4029),
  (0x630D, 0x5023),
  (0x6314, 0x4243_4963),
  (0x6319, 0x3E59),
  (0x6331, 0x6A7D),
  (0x6335, 0x452A),
  (0x633E, 0x502E_3265_4575_3D41),
  (0x6344, 0x3E48),
  (0x635C, 0x4B51),
  (0x636B, 0x5E51),
  (0x6374, 0x575C),
  (0x637F, 0x465C),
  (0x6383, 0x4928_4255),
  (0x638B, 0x3556),
  (0x6399, 0x5575),
  (0x639B, 0x3952),
  (0x63B2, 0x3D52),
  (0x63BB, 0x4926),
  (0x63C0, 0x3C70),
  (0x63C8, 0x5E64),
  (0x63DA, 0x516F_3B3B),
  (0x63EE, 0x3B53),
  (0x63F7, 0x3265),
  (0x63F9, 0x3133),
  (0x6403, 0x575C),
  (0x640D, 0x4B70),
  (0x6417, 0x3537),
  (0x642F, 0x4C4D),
  (0x6436, 0x4740),
  (0x643C, 0x482D),
  (0x643E, 0x5525),
  (0x6442, 0x4963),
  (0x644F, 0x7429),
  (0x6451, 0x5E62),
  (0x645C, 0x5E68),
  (0x645F, 0x4227),
  (0x6464, 0x4740),
  (0x646F, 0x563F),
  (0x6473, 0x3F59),
  (0x6476, 0x5E52_332D),
  (0x647B, 0x3274),
  (0x6483, 0x3B77),
  (0x6486, 0x4632),
  (0x6488, 0x404C),
  (0x6490, 0x3345),
  (0x6493, 0x4453),
  (0x649F, 0x5E58),
  (0x64A3, 0x3527),
  (0x64A5, 0x3226_3336),
  (0x64AB, 0x3827),
  (0x64B2, 0x464B_5E6C),
  (0x64B9, 0x3D41),
  (0x64BB, 0x4C22),
  (0x64BE, 0x4E4E_3C71),
  (0x64C1, 0x5335),
  (0x64C4, 0x4230),
  (0x64C7, 0x5471),
  (0x64CA, 0x3B77_3532),
  (0x64D1, 0x3D53),
  (0x64D4, 0x3523),
  (0x64E0, 0x3C37_4C27),
  (0x64E5, 0x403F),
  (0x64E7, 0x3E59),
  (0x64EC, 0x4462),
  (0x64EF, 0x3177_4521_3869_5640),
  (0x64F4, 0x4029),
  (0x64F7, 0x5F22),
  (0x64F9, 0x4C2F_305A_4B53_5F23),
  (0x64FE, 0x4845_552A),
  (0x6502, 0x405E),
  (0x6504, 0x5E73),
  (0x6506, 0x446C),
  (0x6508, 0x5E5C),
  (0x650F, 0x4223),
  (0x6514, 0x4039),
  (0x6516, 0x5E7C),
  (0x6519, 0x3273),
  (0x651B, 0x5F25_502F_4963),
  (0x651F, 0x5E5C),
  (0x6522, 0x545C_424E_4C2F),
  (0x6529, 0x3532_3D41),
  (0x652C, 0x403F),
  (0x6537, 0x3F3C),
  (0x653D, 0x3064),
  (0x6542, 0x5F35),
  (0x654D, 0x5070_3D4C),
  (0x6557, 0x305C_5070),
  (0x6575, 0x3550),
  (0x6578, 0x4A7D),
  (0x6582, 0x4132_3150),
  (0x6588, 0x5127_466B),
  (0x658D, 0x3E75_552B),
  (0x6595, 0x6C35),
  (0x65AC, 0x5536),
  (0x65B7, 0x364F),
  (0x65C9, 0x3773),
  (0x65D1, 0x6C3D),
  (0x65E3, 0x3C48),
  (0x65F3, 0x3544),
  (0x65F8, 0x4163),
  (0x65FD, 0x6A55_343A),
  (0x6618, 0x3743),
  (0x661A, 0x4977),
  (0x661C, 0x5174),
  (0x661E, 0x317E),
  (0x662C, 0x3B68),
  (0x663B, 0x303A),
  (0x6642, 0x4A31),
  (0x6644, 0x3B4E),
  (0x6648, 0x7028_3D7A),
  (0x6658, 0x3A35),
  (0x665D, 0x5667),
  (0x6665, 0x4D6E),
  (0x6669, 0x4D6D),
  (0x6673, 0x4E7A),
  (0x667B, 0x3035),
  (0x6681, 0x4F7E),
  (0x6688, 0x544E),
  (0x668E, 0x5333),
  (0x6692, 0x4767),
  (0x6698, 0x4163),
  (0x669C, 0x4655),
  (0x66A0, 0x7029),
  (0x66A2, 0x3329),
  (0x66AB, 0x545D),
  (0x66C1, 0x745F),
  (0x66C4, 0x6A4A_6A4A),
  (0x66C7, 0x6A3C),
  (0x66C9, 0x4F7E),
  (0x66D0, 0x5047),
  (0x66D6, 0x6A53),
  (0x66E0, 0x3F75),
  (0x66EC, 0x4939),
  (0x66F5, 0x5237),
  (0x66F8, 0x4A69),
  (0x66FA, 0x325C),
  (0x66FD, 0x5478),
  (0x6703, 0x3B61),
  (0x6712, 0x6B47),
  (0x6716, 0x404A),
  (0x671E, 0x465A),
  (0x6722, 0x4D7B),
  (0x6727, 0x6B4A),
  (0x6736, 0x3664),
  (0x6771, 0x362B),
  (0x6780, 0x4B49),
  (0x6788, 0x6841),
  (0x678F, 0x692A),
  (0x67A0, 0x686B),
  (0x67B4, 0x3955),
  (0x67F5, 0x5524),
  (0x67F9, 0x4A41_3955_3269),
  (0x67FE, 0x6851),
  (0x6801, 0x4178),
  (0x6804, 0x4859),
  (0x6814, 0x4675),
  (0x6822, 0x3058),
  (0x6852, 0x4923),
  (0x685C, 0x5323),
  (0x685F, 0x553B),
  (0x686E, 0x312D_693A),
  (0x687A, 0x4178),
  (0x6894, 0x6859),
  (0x6896, 0x3134),
  (0x6898, 0x6845),
  (0x689D, 0x4C75),
  (0x689F, 0x6849),
  (0x68B9, 0x6944),
  (0x68C3, 0x4066_467A),
  (0x68CA, 0x4665),
  (0x68D6, 0x6847_5466),
  (0x68DF, 0x3630),
  (0x68E5, 0x372E),
  (0x68E7, 0x553B),
  (0x68EC, 0x6870),
  (0x68F2, 0x465C),
  (0x68F7, 0x5E34),
  (0x6918, 0x337E),
  (0x691C, 0x3C6C),
  (0x6936, 0x5758),
  (0x694A, 0x516E),
  (0x6953, 0x3763),
  (0x6955, 0x4D56),
  (0x6961, 0x535C),
  (0x6965, 0x6938),
  (0x6968, 0x6865),
  (0x696D, 0x5235),
  (0x6973, 0x4337),
  (0x6975, 0x3C2B),
  (0x697D, 0x4056),
  (0x69A1, 0x4B58_3C5C),
  (0x69AE, 0x4859),
  (0x69BF, 0x6867),
  (0x69CB, 0x3939),
  (0x69CD, 0x4739),
  (0x69D7, 0x4745_5179),
  (0x69DE, 0x6850),
  (0x69E7, 0x687D_6924),
  (0x69EA, 0x3845),
  (0x69F3, 0x3D30),
  (0x6A01, 0x572E_4056),
  (0x6A05, 0x6848),
  (0x6A13, 0x4225),
  (0x6A19, 0x316A),
  (0x6A1E, 0x4A60),
  (0x6A22, 0x5C60_5179),
  (0x6A29, 0x4828),
  (0x6A39, 0x4A77_686B),
  (0x6A45, 0x4423),
  (0x6A48, 0x6863),
  (0x6A4A, 0x4171_4745),
  (0x6A5F, 0x3B7A),
  (0x6A62, 0x4D56),
  (0x6A64, 0x486F),
  (0x6A66, 0x3431),
  (0x6A6B, 0x3A61),
  (0x6A70, 0x6940),
  (0x6A81, 0x695D),
  (0x6A89, 0x685F),
  (0x6A92, 0x3763),
  (0x6A94, 0x3535),
  (0x6A9A, 0x337E),
  (0x6A9C, 0x686D_692E),
  (0x6AA2, 0x3C6C_6949),
  (0x6AB3, 0x6944_686B),
  (0x6AB8, 0x447B),
  (0x6ABB, 0x3C77),
  (0x6AC3, 0x3971),
  (0x6AD3, 0x6956),
  (0x6ADA, 0x6935_684E),
  (0x6ADD, 0x687C_695A_685D),
  (0x6AE5, 0x3377),
  (0x6AE7, 0x6946_6853),
  (0x6AEA, 0x6840),
  (0x6AEC, 0x6934),
  (0x6AF3, 0x6850),
  (0x6AF5, 0x6954),
  (0x6AF8, 0x6937),
  (0x6AFA, 0x6879_5323),
  (0x6B04, 0x4038_6937),
  (0x6B0A, 0x4828),
  (0x6B0F, 0x6921),
  (0x6B12, 0x686F),
  (0x6B16, 0x692D),
  (0x6B1B, 0x684B),
  (0x6B1E, 0x6879),
  (0x6B2C, 0x3F48),
  (0x6B35, 0x3F6E),
  (0x6B38, 0x5A40),
  (0x6B3D, 0x4755),
  (0x6B42, 0x342D),
  (0x6B4D, 0x4E58),
  (0x6B50, 0x4537),
  (0x6B53, 0x3B36),
  (0x6B57, 0x5025),
  (0x6B5B, 0x4132),
  (0x6B5F, 0x6C23_6028_3B36),
  (0x6B68, 0x323D_323D),
  (0x6B6B, 0x3E60_4730),
  (0x6B6F, 0x335D),
  (0x6B71, 0x7560_4B6A_4B6A),
  (0x6B78, 0x3969),
  (0x6B7A, 0x3475),
  (0x6B7E, 0x5858_6962),
  (0x6B98, 0x3250),
  (0x6B9E, 0x6966),
  (0x6BA4, 0x6964),
  (0x6BAB, 0x6969),
  (0x6BAE, 0x6967_696B),
  (0x6BB1, 0x3C5F_3C5F),
  (0x6BBA, 0x4931_3F47_3F47_4F7D),
  (0x6BC0, 0x3B59),
  (0x6BC6, 0x4539),
  (0x6BC9, 0x523D),
  (0x6BCE, 0x433F),
  (0x6BD1, 0x3D63),
  (0x6BD8, 0x457E),
  (0x6BFF, 0x6B27),
  (0x6C02, 0x6A73),
  (0x6C08, 0x5531),
  (0x6C0A, 0x5531),
  (0x6C0C, 0x6B2A),
  (0x6C17, 0x4678),
  (0x6C23, 0x4678),
  (0x6C2B, 0x4762_6B32),
  (0x6C31, 0x5175),
  (0x6C33, 0x6B35),
  (0x6C37, 0x3179),
  (0x6C3B, 0x636E),
  (0x6C53, 0x4776),
  (0x6C59, 0x4E5B_4E5B),
  (0x6C73, 0x636A),
  (0x6C78, 0x6468),
  (0x6C7A, 0x3E76),
  (0x6C92, 0x433B),
  (0x6C96, 0x3365_4C6D),
  (0x6CA2, 0x5473),
  (0x6CC1, 0x3F76),
  (0x6CF2, 0x3C43),
  (0x6D02, 0x523A),
  (0x6D13, 0x5755),
  (0x6D16, 0x4E39),
  (0x6D1F, 0x4C69),
  (0x6D24, 0x482A),
  (0x6D2F, 0x3D60),
  (0x6D34, 0x555C),
  (0x6D36, 0x505A),
  (0x6D79, 0x6424),
  (0x6D87, 0x637E),
  (0x6D99, 0x4061),
  (0x6DB1, 0x5547),
  (0x6DBC, 0x4139),
  (0x6DC8, 0x6368),
  (0x6DDA, 0x4061_5563_376B),
  (0x6DEA, 0x4259),
  (0x6DF5, 0x5428_6435),
  (0x6DF8, 0x4765),
  (0x6DFA, 0x4733),
  (0x6E01, 0x5428),
  (0x6E07, 0x3F4A_3C43_4966),
  (0x6E0B, 0x492C),
  (0x6E13, 0x4F2A),
  (0x6E15, 0x5428),
  (0x6E19, 0x3B41),
  (0x6E1B, 0x3C75),
  (0x6E26, 0x4E50),
  (0x6E2C, 0x3262),
  (0x6E3E, 0x3B6B),
  (0x6E57, 0x5D57),
  (0x6E5E, 0x6425),
  (0x6E6F, 0x4C40),
  (0x6E7B, 0x343E_4479_574D),
  (0x6E80, 0x427A),
  (0x6E88, 0x636D),
  (0x6E9D, 0x3935),
  (0x6EA4, 0x376B),
  (0x6EAB, 0x4E42),
  (0x6EBC, 0x4A2A),
  (0x6EC4, 0x3257_4370),
  (0x6ECC, 0x3553),
  (0x6ECE, 0x5C7E),
  (0x6ED9, 0x3B63),
  (0x6EDB, 0x5279),
  (0x6EDD, 0x6371),
  (0x6EEC, 0x3B26),
  (0x6EEF, 0x564D),
  (0x6EF2, 0x4978_354E),
  (0x6EF8, 0x6430),
  (0x6EFE, 0x3976_427A),
  (0x6F01, 0x5366),
  (0x6F11, 0x3848),
  (0x6F19, 0x4D44_453D),
  (0x6F22, 0x3A3A_4130),
  (0x6F2C, 0x5755),
  (0x6F32, 0x5547),
  (0x6F35, 0x6453),
  (0x6F38, 0x3D25),
  (0x6F3F, 0x3D2C),
  (0x6F41, 0x7223),
  (0x6F44, 0x4A7E_3960),
  (0x6F51, 0x4643),
  (0x6F54, 0x3D60),
  (0x6F59, 0x636D),
  (0x6F5B, 0x4731),
  (0x6F64, 0x4873),
  (0x6F6C, 0x4C32),
  (0x6F6F, 0x6431_4023),
  (0x6F77, 0x6464),
  (0x6F79, 0x647D),
  (0x6F7F, 0x6436_492C_492C_334E),
  (0x6F86, 0x3D3D_4054),
  (0x6F91, 0x416F),
  (0x6F97, 0x3D27),
  (0x6FA0, 0x6445),
  (0x6FA3, 0x643D_5473),
  (0x6FAB, 0x453A),
  (0x6FAE, 0x642B),
  (0x6FB0, 0x6472_356D),
  (0x6FC1, 0x5747),
  (0x6FC3, 0x4528),
  (0x6FD5, 0x4A2A),
  (0x6FD8, 0x4522),
  (0x6FDF, 0x3C43),
  (0x6FE4, 0x4C4E),
  (0x6FE8, 0x574C),
  (0x6FEB, 0x4044),
  (0x6FF0, 0x4E2B_643A),
  (0x6FF3, 0x4731),
  (0x6FF5, 0x643A_402B),
  (0x6FFA, 0x3D26),
  (0x6FFC, 0x6378),
  (0x6FFE, 0x424B),
  (0x7001, 0x517A),
  (0x7006, 0x6442),
  (0x7009, 0x503A),
  (0x700F, 0x642F),
  (0x7013, 0x334E),
  (0x7015, 0x3174),
  (0x7018, 0x6372),
  (0x701D, 0x4124),
  (0x701F, 0x646C),
  (0x7026, 0x6473_6371_647E),
  (0x702C, 0x647E),
  (0x7032, 0x6472),
  (0x703E, 0x403D),
  (0x7043, 0x6363_645C),
  (0x7051, 0x4877),
  (0x7055, 0x406C),
  (0x7058, 0x4C32),
  (0x705D, 0x6530),
  (0x7061, 0x403D),
  (0x7063, 0x4D65_4250),
  (0x7067, 0x6459),
  (0x706E, 0x3962),
  (0x7074, 0x3A66),
  (0x707D, 0x5456),
  (0x708D, 0x4551),
  (0x7097, 0x3962),
  (0x70A4, 0x5555),
  (0x70B2, 0x6C46),
  (0x70BA, 0x4E2A),
  (0x70CF, 0x4E5A),
  (0x70D6, 0x5456),
  (0x70EE, 0x4152),
  (0x70F1, 0x3E3C),
  (0x70F4, 0x4C7E),
  (0x7103, 0x3A55),
  (0x7108, 0x4E75),
  (0x710F, 0x583D),
  (0x7121, 0x4E5E),
  (0x7134, 0x6C4F),
  (0x713C, 0x4955),
  (0x7149, 0x4136),
  (0x7151, 0x5673_6C3F),
  (0x7155, 0x4E75),
  (0x7159, 0x514C),
  (0x7161, 0x3D7D_5C64),
  (0x7165, 0x3B40),
  (0x7169, 0x3733),
  (0x716C, 0x6C3E),
  (0x717C, 0x3334),
  (0x7188, 0x4E75),
  (0x7192, 0x532B),
  (0x7197, 0x6C41),
  (0x71B1, 0x4848),
  (0x71BE, 0x3363),
  (0x71C1, 0x6C47),
  (0x71C8, 0x3546_6C40),
  (0x71CC, 0x3759),
  (0x71D2, 0x4955),
  (0x71D9, 0x4C4C),
  (0x71DC, 0x6C4B),
  (0x71DF, 0x532A),
  (0x71E6, 0x3253),
  (0x71ED, 0x5672),
  (0x71F4, 0x3B62),
  (0x71FC, 0x3D7D_6C62_6C62_522B),
  (0x720D, 0x4B38),
  (0x7210, 0x422F),
  (0x7213, 0x5166),
  (0x7215, 0x5B46),
  (0x721B, 0x4043),
  (0x7224, 0x4043_5672),
  (0x722D, 0x5579),
  (0x7232, 0x4E2A),
  (0x723A, 0x522F),
  (0x723C, 0x595E),
  (0x723E, 0x367B),
  (0x7240, 0x3432),
  (0x7250, 0x5522),
  (0x7258, 0x6B39),
  (0x727D, 0x4723),
  (0x7282, 0x4067),
  (0x7286, 0x4C58_313C),
  (0x7296, 0x5C7D),
  (0x729B, 0x6A73),
  (0x72A0, 0x4E7E),
  (0x72A2, 0x363F),
  (0x72A7, 0x4E7E),
  (0x72B2, 0x3272_312A),
  (0x72C0, 0x5734),
  (0x72CC, 0x5049),
  (0x72E2, 0x3A51),
  (0x72E5, 0x615F),
  (0x72F9, 0x4F41),
  (0x72FD, 0x3137),
  (0x7302, 0x3A37),
  (0x7312, 0x5161),
  (0x7319, 0x5578),
  (0x731F, 0x4154),
  (0x7328, 0x5433),
  (0x7336, 0x534C),
  (0x733B, 0x6178),
  (0x7341, 0x616F),
  (0x7343, 0x3474_537C_4A28),
  (0x734E, 0x3D31),
  (0x7363, 0x4A5E),
  (0x7367, 0x617A_3640),
  (0x736A, 0x6176_617D),
  (0x7370, 0x447C),
  (0x7372, 0x3B71),
  (0x7375, 0x4154),
  (0x7377, 0x616E_4A5E),
  (0x737A, 0x4C21_4F57_6228),
  (0x7380, 0x6224),
  (0x7385, 0x436E),
  (0x73A8, 0x6765),
  (0x73AA, 0x4155),
  (0x73E1, 0x4759),
  (0x73E4, 0x3126),
  (0x73FE, 0x4F56),
  (0x7416, 0x5535),
  (0x7439, 0x4759),
  (0x743F, 0x6775),
  (0x7447, 0x6769),
  (0x744B, 0x6762),
  (0x7458, 0x6770),
  (0x7463, 0x4B76_517E),
  (0x7469, 0x5328_426A),
  (0x746C, 0x6C3C),
  (0x7474, 0x6765),
  (0x7489, 0x6776),
  (0x749D, 0x3965),
  (0x74A3, 0x6761),
  (0x74A6, 0x6828),
  (0x74B0, 0x3B37),
  (0x74BD, 0x6774),
  (0x74C8, 0x4127),
  (0x74CA, 0x476D),
  (0x74CF, 0x6767),
  (0x74D4, 0x682C),
  (0x74DA, 0x6836),
  (0x74E1, 0x5634),
  (0x74EB, 0x4568),
  (0x7501, 0x463F),
  (0x7506, 0x3449),
  (0x750C, 0x6A31),
  (0x7515, 0x4E4D),
  (0x751B, 0x4C70),
  (0x751E, 0x3322),
  (0x7522, 0x327A_327A_5E28),
  (0x7542, 0x4436),
  (0x7544, 0x4174),
  (0x7546, 0x4436),
  (0x755D, 0x4436),
  (0x7562, 0x314F_3470),
  (0x756B, 0x3B2D_6E34_6E34_4436),
  (0x7570, 0x526C),
  (0x7573, 0x357E),
  (0x7575, 0x3B2D_3531),
  (0x757B, 0x6B73),
  (0x7587, 0x336B),
  (0x758A, 0x357E),
  (0x758E, 0x4A68),
  (0x7598, 0x3858),
  (0x75A9, 0x3461),
  (0x75D9, 0x3E37),
  (0x75E9, 0x4A5D),
  (0x75F5, 0x3C42),
  (0x75FE, 0x7062),
  (0x7609, 0x537A),
  (0x760B, 0x3768),
  (0x760D, 0x5171),
  (0x7613, 0x3B3E),
  (0x761E, 0x7079),
  (0x7621, 0x342F),
  (0x7627, 0x4531),
  (0x762C, 0x554D),
  (0x763A, 0x707C_707C),
  (0x7642, 0x4146),
  (0x7645, 0x4176_706C_706F),
  (0x7649, 0x7077),
  (0x7651, 0x4527_537A),
  (0x7658, 0x705D),
  (0x765F, 0x3171),
  (0x7661, 0x3355_5177),
  (0x7664, 0x705C),
  (0x7667, 0x705F),
  (0x7669, 0x712E),
  (0x766C, 0x5122_7128_712B),
  (0x7670, 0x5338_4C31_7132),
  (0x7690, 0x385E),
  (0x769A, 0x3028),
  (0x76B7, 0x3944_7164_7164_5665),
  (0x76BC, 0x3944),
  (0x76C7, 0x6E41),
  (0x76CB, 0x3227),
  (0x76DC, 0x3541),
  (0x76DE, 0x5535),
  (0x76E1, 0x3E21),
  (0x76E3, 0x3C60_454C),
  (0x76E7, 0x422C),
  (0x76FB, 0x454E),
  (0x770C, 0x4F58),
  (0x770E, 0x4A3E),
  (0x7718, 0x4977),
  (0x771E, 0x5566),
  (0x7725, 0x6D76),
  (0x773E, 0x565A),
  (0x7742, 0x433C),
  (0x775C, 0x5576),
  (0x775E, 0x6D79),
  (0x7764, 0x6E22),
  (0x7798, 0x6D6E),
  (0x779E, 0x4277),
  (0x77A4, 0x4B32),
  (0x77B9, 0x6A53),
  (0x77BC, 0x6D7A),
  (0x77C1, 0x3372),
  (0x77D9, 0x6E2B_5675),
  (0x77DE, 0x5A5C_6943),
  (0x77E6, 0x3A6E),
  (0x77EF, 0x3D43),
  (0x77F4, 0x6D56),
  (0x7815, 0x4B69),
  (0x7836, 0x676A),
  (0x7842, 0x6E7D),
  (0x784B, 0x302D),
  (0x784F, 0x5150),
  (0x7864, 0x6D4C),
  (0x7868, 0x6D3A),
  (0x786F, 0x5162),
  (0x78A9, 0x4B36_5568),
  (0x78AD, 0x6D38),
  (0x78AF, 0x6827),
  (0x78B8, 0x6D3F),
  (0x78BA, 0x4837_4837_426B),
  (0x78C2, 0x4172),
  (0x78DA, 0x5729),
  (0x78E3, 0x6D57),
  (0x78E5, 0x405A),
  (0x78E7, 0x6D53),
  (0x78EF, 0x6D36),
  (0x78F8, 0x6D56),
  (0x78FD, 0x6D4D),
  (0x790E, 0x3421),
  (0x7919, 0x302D),
  (0x7920, 0x3445),
  (0x7926, 0x3F73),
  (0x792A, 0x6D42_4079_372F),
  (0x7931, 0x6D43),
  (0x797F, 0x423B),
  (0x798D, 0x3B76_6C75),
  (0x79A5, 0x6C77),
  (0x79A9, 0x6C6B_6C78),
  (0x79AE, 0x4071),
  (0x79B0, 0x6C72_353B),
  (0x79B8, 0x7565),
  (0x79C8, 0x744C),
  (0x79CA, 0x446A),
  (0x79CC, 0x476F),
  (0x79CF, 0x3A44_5445),
  (0x79D7, 0x6240),
  (0x79F6, 0x7452),
  (0x7A09, 0x3E2C),
  (0x7A2B, 0x3823),
  (0x7A2D, 0x3D55_5656),
  (0x7A31, 0x3346_353E),
  (0x7A38, 0x506E),
  (0x7A3E, 0x3865),
  (0x7A42, 0x4B6B),
  (0x7A4C, 0x7655_3B7D_5331_4E48),
  (0x7A5C, 0x5656),
  (0x7A61, 0x7023_3B60_7026_4534),
  (0x7A69, 0x4E48),
  (0x7A6D, 0x6F79),
  (0x7A6F, 0x7023),
  (0x7A82, 0x404E),
  (0x7AA9, 0x4E51_4D5D),
  (0x7AAE, 0x476E),
  (0x7AB4, 0x4C6E),
  (0x7AB6, 0x7140),
  (0x7ABA, 0x3F7A_3430),
  (0x7AC2, 0x653C_546E_345C_474F_476E_713C_546E),
  (0x7ACA, 0x4754),
  (0x7AD2, 0x4666),
  (0x7ADA, 0x5879),
  (0x7ADC, 0x417A_3222),
  (0x7AE2, 0x5939),
  (0x7AEA, 0x4A7A),
  (0x7AF6, 0x3E3A),
  (0x7AF8, 0x3E3A),
  (0x7AFC, 0x4571),
  (0x7AFE, 0x7378),
  (0x7B27, 0x3261),
  (0x7B42, 0x7378),
  (0x7B46, 0x314A),
  (0x7B4D, 0x4B71),
  (0x7B5E, 0x325F),
  (0x7B66, 0x395C_7348),
  (0x7B6D, 0x4B63),
  (0x7B6F, 0x7367),
  (0x7B7A, 0x3F70),
  (0x7B8B, 0x3C63),
  (0x7BC0, 0x3D5A),
  (0x7BCB, 0x7366),
  (0x7BE4, 0x7346),
  (0x7BE9, 0x4938),
  (0x7BED, 0x417D),
  (0x7BF2, 0x6567_7359),
  (0x7C00, 0x7365),
  (0x7C02, 0x607E),
  (0x7C0D, 0x4228),
  (0x7C12, 0x345B),
  (0x7C18, 0x736F),
  (0x7C1E, 0x736C),
  (0x7C21, 0x3C72),
  (0x7C23, 0x7371),
  (0x7C2B, 0x736F),
  (0x7C3D, 0x4729_4131),
  (0x7C43, 0x403A_7371),
  (0x7C4C, 0x336F),
  (0x7C56, 0x3222),
  (0x7C5C, 0x736A),
  (0x7C5F, 0x7425_417D),
  (0x7C64, 0x3222),
  (0x7C69, 0x7356_737D),
  (0x7C6C, 0x4069),
  (0x7C6E, 0x4261),
  (0x7C8B, 0x3462),
  (0x7C93, 0x636F),
  (0x7C9B, 0x4B60),
  (0x7CA7, 0x5731),
  (0x7CC2, 0x7456),
  (0x7CC9, 0x7455),
  (0x7CDB, 0x4C47),
  (0x7CDD, 0x7456_3760),
  (0x7CE3, 0x7456),
  (0x7CE7, 0x4138),
  (0x7CF2, 0x744F),
  (0x7CF4, 0x5961),
  (0x7CF6, 0x7450),
  (0x7CF9, 0x6679_3E40),
  (0x7CFE, 0x3E40),
  (0x7D00, 0x3C4D),
  (0x7D02, 0x667B),
  (0x7D04, 0x543C_3A6C_667A_667C_667D_4852),
  (0x7D0B, 0x4E46),
  (0x7D0D, 0x4449),
  (0x7D10, 0x4526),
  (0x7D13, 0x6723_343F_6722),
  (0x7D17, 0x4934),
  (0x7D19, 0x563D_3C36_3757_6721),
  (0x7D21, 0x3744),
  (0x7D28, 0x383F),
  (0x7D30, 0x4F38_6726_6725_4970),
  (0x7D39, 0x495C_6724),
  (0x7D3C, 0x6728),
  (0x7D3F, 0x672A_6729),
  (0x7D42, 0x5655_4F52_5769),
  (0x7D46, 0x306D),
  (0x7D4B, 0x667E_3E2D),
  (0x7D4E, 0x672C),
  (0x7D50, 0x3D61),
  (0x7D55, 0x3E78_667E),
  (0x7D5D, 0x672B_3D4A),
  (0x7D61, 0x4267_5124),
  (0x7D64, 0x4F5F),
  (0x7D66, 0x3878),
  (0x7D68, 0x485E),
  (0x7D71, 0x4D33_4B3F_672D),
  (0x7D75, 0x3B66_3E78),
  (0x7D79, 0x3E6E),
  (0x7D81, 0x3073_4D33_672F),
  (0x7D86, 0x672E),
  (0x7D88, 0x6730_5065),
  (0x7D8D, 0x6728),
  (0x7D8F, 0x4B67),
  (0x7D93, 0x3E2D),
  (0x7D95, 0x562F),
  (0x7D98, 0x376C_3C4C_5078),
  (0x7D9C, 0x575B),
  (0x7DA0, 0x424C),
  (0x7DA2, 0x3371_6739_495C),
  (0x7DAB, 0x4F5F_6737_4E2C),
  (0x7DB0, 0x673A_3859_4D78_3141),
  (0x7DB8, 0x425A_6738_6732_5540),
  (0x7DBD, 0x3442_6731_4360),
  (0x7DC4, 0x6735),
  (0x7DC7, 0x673B),
  (0x7DCA, 0x3D74_6733),
  (0x7DCF, 0x575C_3731_424C_5077),
  (0x7DD6, 0x5077_673D_3C6A_673C_4F5F),
  (0x7DDC, 0x4360_3C29_3650_5658_355E_6745),
  (0x7DE3, 0x5435),
  (0x7DE6, 0x6741),
  (0x7DE8, 0x3160_3B3A),
  (0x7DEC, 0x4365),
  (0x7DEF, 0x4E33),
  (0x7DF1, 0x6743_673F),
  (0x7DF4, 0x4137),
  (0x7DF9, 0x673E),
  (0x7DFE, 0x3278),
  (0x7E01, 0x5435_575C),
  (0x7E04, 0x497E),
  (0x7E08, 0x5D53_6746_674B_6744),
  (0x7E10, 0x6727_674C),
  (0x7E1B, 0x383F),
  (0x7E1D, 0x6747_6749_6748),
  (0x7E23, 0x4F58),
  (0x7E26, 0x575D_4C50),
  (0x7E2B, 0x376C),
  (0x7E2D, 0x674A_4B75),
  (0x7E31, 0x575D_6750),
  (0x7E35, 0x674F_746A_4246),
  (0x7E39, 0x674E),
  (0x7E3D, 0x575C_3C28),
  (0x7E43, 0x3141),
  (0x7E45, 0x6752_6751),
  (0x7E52, 0x6755),
  (0x7E54, 0x562F_4949_4921),
  (0x7E59, 0x372D_6754_3442),
  (0x7E5E, 0x4846),
  (0x7E69, 0x497E_3B66),
  (0x7E6D, 0x3C6B_6756_6759_6758),
  (0x7E73, 0x3D49),
  (0x7E79, 0x526F),
  (0x7E7C, 0x3C4C_674D_6757),
  (0x7E88, 0x6753_675A_667E),
  (0x7E8C, 0x5078),
  (0x7E8F, 0x3278),
  (0x7E92, 0x3278_5327),
  (0x7E98, 0x675A),
  (0x7E9C, 0x4042),
  (0x7F37, 0x5036),
  (0x7F3D, 0x3227_463F),
  (0x7F47, 0x6957),
  (0x7F4C, 0x733F),
  (0x7F53, 0x5868),
  (0x7F66, 0x6E37),
  (0x7F70, 0x3723),
  (0x7F75, 0x426E),
  (0x7F77, 0x3055_3723),
  (0x7F83, 0x5A22),
  (0x7F85, 0x425E_6E3C),
  (0x7F88, 0x6E3F),
  (0x7F91, 0x5355),
  (0x7F97, 0x473C),
  (0x7F99, 0x4340),
  (0x7FA3, 0x483A),
  (0x7FA5, 0x7447),
  (0x7FA8, 0x4F5B_5265),
  (0x7FAE, 0x387E),
  (0x7FC4, 0x3361),
  (0x7FC6, 0x3464),
  (0x7FCD, 0x457B),
  (0x7FD2, 0x4F30),
  (0x7FF6, 0x303F),
  (0x7FF9, 0x474C_303F),
  (0x8011, 0x364B),
  (0x8021, 0x337A),
  (0x802C, 0x716F),
  (0x802E, 0x716C),
  (0x8040, 0x5630),
  (0x8056, 0x4A25),
  (0x805E, 0x4E45_5076),
  (0x8061, 0x344F),
  (0x8066, 0x344F),
  (0x8068, 0x412A),
  (0x806B, 0x412A),
  (0x806E, 0x412A_412A_344F),
  (0x8072, 0x4979_4B4A_4C7D_7179_4474_5630),
  (0x8079, 0x7177),
  (0x807D, 0x4C7D_417B),
  (0x8085, 0x4B60),
  (0x8088, 0x5558),
  (0x808E, 0x3F4F),
  (0x80AC, 0x7060),
  (0x80BB, 0x3F4F),
  (0x80DF, 0x4434),
  (0x80F7, 0x5058),
  (0x8103, 0x3460),
  (0x811B, 0x6B56),
  (0x812B, 0x4D51),
  (0x8133, 0x4454_4626),
  (0x8139, 0x554D),
  (0x814E, 0x4976),
  (0x8156, 0x6B4B),
  (0x8161, 0x6B61),
  (0x8166, 0x4454),
  (0x816B, 0x5657),
  (0x8173, 0x3D45),
  (0x8178, 0x3326),
  (0x8181, 0x6B49),
  (0x8183, 0x6B70),
  (0x8193, 0x3326),
  (0x819A, 0x3774),
  (0x81A0, 0x3D3A),
  (0x81A9, 0x4465),
  (0x81AC, 0x3460),
  (0x81B8, 0x4B68),
  (0x81BD, 0x3528_6B5A_4527),
  (0x81C8, 0x4030_4133),
  (0x81CD, 0x466A),
  (0x81CF, 0x6B77),
  (0x81D3, 0x5460),
  (0x81D5, 0x316C),
  (0x81D8, 0x4030),
  (0x81DA, 0x6B4D),
  (0x81DF, 0x5460_5975),
  (0x81E5, 0x4E54),
  (0x81E8, 0x4159),
  (0x81F0, 0x3374),
  (0x8203, 0x742A),
  (0x8207, 0x536B_504B_3E59_3E49_5046),
  (0x820E, 0x4961),
  (0x8216, 0x464C_464C_395D),
  (0x8229, 0x342C),
  (0x8241, 0x546C),
  (0x824A, 0x3230),
  (0x8259, 0x3255),
  (0x8265, 0x692E_3D22),
  (0x826B, 0x7435),
  (0x8271, 0x3C68),
  (0x8276, 0x515E_515E),
  (0x828C, 0x5373),
  (0x8294, 0x3B5C),
  (0x82BB, 0x5B3B),
  (0x82D0, 0x355A),
  (0x82E9, 0x5D62),
  (0x8318, 0x4073),
  (0x831D, 0x3671),
  (0x831F, 0x314A),
  (0x8330, 0x5D47),
  (0x8332, 0x5748),
  (0x8345, 0x3470),
  (0x8358, 0x572F),
  (0x838A, 0x572F),
  (0x838F, 0x492F),
  (0x8391, 0x456E),
  (0x8396, 0x3E25),
  (0x83A2, 0x3C54),
  (0x83A7, 0x5C48),
  (0x83AD, 0x3D5A),
  (0x83BE, 0x4327),
  (0x83C4, 0x362B),
  (0x83D3, 0x397B),
  (0x83ED, 0x4C26),
  (0x83EF, 0x3B2A),
  (0x83F7, 0x5663),
  (0x840A, 0x4033),
  (0x8415, 0x5C79),
  (0x8420, 0x4348),
  (0x842C, 0x4D72),
  (0x8432, 0x5D66),
  (0x8435, 0x5D2B),
  (0x8441, 0x3D2A),
  (0x8445, 0x5D4F),
  (0x8449, 0x5236),
  (0x8452, 0x5D26),
  (0x8462, 0x3847),
  (0x8464, 0x5D27),
  (0x8466, 0x4E2D),
  (0x846A, 0x3C3B),
  (0x846F, 0x5229),
  (0x8477, 0x3B67),
  (0x8483, 0x572D),
  (0x8493, 0x5D3B_5D2A),
  (0x84AD, 0x5B3B),
  (0x84BC, 0x3254),
  (0x84C0, 0x5D25),
  (0x84CB, 0x3847),
  (0x84EE, 0x412B_5C4A),
  (0x84F4, 0x5D3B),
  (0x84FD, 0x5C6A),
  (0x8512, 0x3B67),
  (0x8515, 0x3559),
  (0x851E, 0x5D64),
  (0x8523, 0x3D2F),
  (0x8526, 0x5C60),
  (0x852D, 0x5271),
  (0x8535, 0x3258),
  (0x8541, 0x5D21),
  (0x8545, 0x427E_5D5B),
  (0x854B, 0x486F),
  (0x854E, 0x5C71),
  (0x8552, 0x5D24),
  (0x8555, 0x5D35),
  (0x8558, 0x5C69),
  (0x855A, 0x5D60),
  (0x8562, 0x5D5E),
  (0x8569, 0x3534_4E5F_362D),
  (0x856D, 0x4F74),
  (0x8577, 0x5D77),
  (0x8588, 0x5C76),
  (0x858A, 0x3C3B),
  (0x858C, 0x5C3C),
  (0x8594, 0x473E),
  (0x85A6, 0x3C76),
  (0x85A9, 0x4878),
  (0x85AB, 0x5E39_5229),
  (0x85BA, 0x5C79_5465),
  (0x85CD, 0x4036_5D23),
  (0x85DD, 0x5255),
  (0x85E1, 0x5D36),
  (0x85E5, 0x5229),
  (0x85EA, 0x5E34),
  (0x85F4, 0x544C),
  (0x85F6, 0x5C42),
  (0x85F9, 0x302A_5D7E),
  (0x8602, 0x486F),
  (0x8604, 0x5E2D),
  (0x8606, 0x422B_4B55),
  (0x860A, 0x544C_463B),
  (0x860D, 0x5E39),
  (0x8613, 0x4B55),
  (0x861A, 0x5E3A),
  (0x861C, 0x3E55_5D7C_5D7C),
  (0x8622, 0x5C57),
  (0x862D, 0x403C),
  (0x8637, 0x5967),
  (0x863F, 0x425C_6C34_5967),
  (0x864A, 0x4E65),
  (0x8655, 0x3426),
  (0x865B, 0x5069_4232_3B22),
  (0x865F, 0x3A45),
  (0x8667, 0x3F77),
  (0x866F, 0x7230),
  (0x8689, 0x4E43),
  (0x8698, 0x3B57),
  (0x86A6, 0x7245),
  (0x86CD, 0x5329),
  (0x86E5, 0x7252),
  (0x86FA, 0x724C),
  (0x8706, 0x7239),
  (0x870B, 0x726B),
  (0x8716, 0x3B57),
  (0x871D, 0x7260),
  (0x8728, 0x357B),
  (0x8739, 0x7238_445E),
  (0x8750, 0x6823),
  (0x8755, 0x4A34),
  (0x875F, 0x622C),
  (0x8766, 0x4F3A),
  (0x876B, 0x725C),
  (0x8778, 0x4E4F),
  (0x877F, 0x532C),
  (0x8784, 0x724F),
  (0x878E, 0x485A),
  (0x879E, 0x426C),
  (0x87A1, 0x4E43_5329),
  (0x87BB, 0x7277),
  (0x87BE, 0x723E),
  (0x87C1, 0x4E43),
  (0x87C4, 0x555D),
  (0x87C7, 0x7321_7265),
  (0x87CE, 0x727D),
  (0x87DA, 0x7332),
  (0x87E3, 0x7231),
  (0x87EC, 0x3275),
  (0x87EF, 0x724D),
  (0x87F6, 0x7249),
  (0x87F8, 0x733B),
  (0x87FB, 0x524F),
  (0x8805, 0x532C_7232),
  (0x880F, 0x5037_7253_726E),
  (0x8814, 0x723A),
  (0x881F, 0x402F),
  (0x8823, 0x7243),
  (0x8829, 0x725C),
  (0x8831, 0x3946),
  (0x8836, 0x324F),
  (0x883B, 0x4279),
  (0x8842, 0x742C),
  (0x8846, 0x565A),
  (0x8849, 0x3F26),
  (0x8853, 0x4A75),
  (0x8858, 0x4F4E),
  (0x885B, 0x4E40),
  (0x885E, 0x4E40),
  (0x889E, 0x5972),
  (0x88B5, 0x7145),
  (0x88BF, 0x3953),
  (0x88CA, 0x7441),
  (0x88CC, 0x714A),
  (0x88DC, 0x3239_5730),
  (0x88E0, 0x4839),
  (0x88ED, 0x715D),
  (0x88F5, 0x4561),
  (0x8901, 0x397C),
  (0x8903, 0x714C),
  (0x8932, 0x3F63_714D),
  (0x8938, 0x715A),
  (0x893B, 0x5974),
  (0x8943, 0x307D),
  (0x8947, 0x7150),
  (0x894D, 0x5453),
  (0x8956, 0x3040),
  (0x895D, 0x714F),
  (0x8960, 0x7149),
  (0x8962, 0x4C3B),
  (0x8964, 0x715C),
  (0x896A, 0x4D60),
  (0x896F, 0x3344),
  (0x8972, 0x4F2E),
  (0x8987, 0x3054_3A4B),
  (0x898A, 0x6E3F_3C7B),
  (0x898F, 0x3966),
  (0x8993, 0x4359),
  (0x8996, 0x4A53_4B45_6A68),
  (0x899A, 0x3E75),
  (0x899C, 0x4C77_4F4E),
  (0x89A1, 0x6A6A),
  (0x89A6, 0x6A6C_4040),
  (0x89AA, 0x4757),
  (0x89AC, 0x6A69),
  (0x89AF, 0x6A6D),
  (0x89B2, 0x6A6E_395B),
  (0x89B6, 0x403E_6A6F),
  (0x89BA, 0x3E75_6A6F_403E_4040),
  (0x89BF, 0x6A6B_395B),
  (0x89E7, 0x3D62),
  (0x89F4, 0x757C_7621),
  (0x89F8, 0x3425),
  (0x8A02, 0x3629_383C),
  (0x8A08, 0x3C46),
  (0x8A0A, 0x5136),
  (0x8A0C, 0x5A27),
  (0x8A0E, 0x4C56),
  (0x8A10, 0x5A26),
  (0x8A13, 0x5135),
  (0x8A15, 0x5A28_467D),
  (0x8A18, 0x3C47),
  (0x8A1B, 0x366F),
  (0x8A1D, 0x5148),
  (0x8A1F, 0x4B4F),
  (0x8A23, 0x3E77),
  (0x8A25, 0x5A2B),
  (0x8A2A, 0x3743_5045),
  (0x8A2D, 0x4968),
  (0x8A31, 0x506D),
  (0x8A33, 0x526B_4B5F),
  (0x8A36, 0x5A2D),
  (0x8A3A, 0x556F),
  (0x8A3C, 0x5624_5A38),
  (0x8A41, 0x5A2C),
  (0x8A46, 0x5A2E),
  (0x8A4E, 0x5A2A),
  (0x8A50, 0x5529),
  (0x8A52, 0x5A31),
  (0x8A54, 0x5A2F_4640),
  (0x8A58, 0x5A30),
  (0x8A5B, 0x5767),
  (0x8A5E, 0x344A),
  (0x8A60, 0x533D_5A3C_512F_5268_3B51),
  (0x8A66, 0x4A54),
  (0x8A69, 0x4A2B),
  (0x8A6B, 0x326F_5A38_396E_5A39),
  (0x8A70, 0x5A35_3B30_3843_4F6A),
  (0x8A76, 0x336A),
  (0x8A78, 0x4355),
  (0x8A7A, 0x437A_3F29_5A36),
  (0x8A7F, 0x5A34),
  (0x8A84, 0x5A33_566F_5A32_3F64_4E5C),
  (0x8A8D, 0x484F),
  (0x8A90, 0x4536_5A3F_5A40),
  (0x8A95, 0x352E),
  (0x8A98, 0x5355),
  (0x8A9A, 0x5A3D),
  (0x8A9E, 0x536F),
  (0x8AA0, 0x334F_3D6B),
  (0x8AA3, 0x4E5C_4E73_5A3E_4B50),
  (0x8AA8, 0x3B65),
  (0x8AAA, 0x4B35),
  (0x8AAC, 0x4B35_3641),
  (0x8AB0, 0x4B2D),
  (0x8AB2, 0x3F4E_5A30),
  (0x8AB6, 0x5A47),
  (0x8AB9, 0x374C),
  (0x8ABC, 0x526A),
  (0x8ABF, 0x3577),
  (0x8AC2, 0x5A46),
  (0x8AC4, 0x573B),
  (0x8AC7, 0x4C38),
  (0x8AC9, 0x5A43),
  (0x8ACB, 0x476B),
  (0x8ACD, 0x5A3A),
  (0x8ACF, 0x5A41),
  (0x8AD1, 0x5A42_4142),
  (0x8AD6, 0x425B_5A45),
  (0x8ADB, 0x5A44_357D),
  (0x8ADE, 0x5A52),
  (0x8AE2, 0x5A3B),
  (0x8AE4, 0x5A4C),
  (0x8AE6, 0x5A50_5033),
  (0x8AE9, 0x4657),
  (0x8AEB, 0x5A49),
  (0x8AED, 0x5A4D_5A51),
  (0x8AF1, 0x3B64),
  (0x8AF3, 0x5A4F),
  (0x8AF6, 0x5A48_376D_566E),
  (0x8AFA, 0x5168),
  (0x8AFC, 0x5A4E),
  (0x8AFE, 0x4535),
  (0x8B00, 0x4431_5A4B_4E3D),
  (0x8B04, 0x4C5C_565F),
  (0x8B09, 0x396E_3B51),
  (0x8B0E, 0x4355),
  (0x8B10, 0x5A57),
  (0x8B14, 0x5A4A),
  (0x8B16, 0x5A55_3079),
  (0x8B19, 0x472B_5A56_3D32),
  (0x8B1D, 0x503B),
  (0x8B20, 0x5225_5225),
  (0x8B28, 0x5A53),
  (0x8B2B, 0x5A58_437D_5A59_5F75),
  (0x8B33, 0x5A29),
  (0x8B39, 0x3D77),
  (0x8B3E, 0x4321_3330),
  (0x8B49, 0x5624),
  (0x8B4B, 0x403E),
  (0x8B4D, 0x5326_5A5C_3C25),
  (0x8B52, 0x3225),
  (0x8B56, 0x5A5A),
  (0x8B58, 0x4A36_5A5B_4C37),
  (0x8B5C, 0x4657),
  (0x8B61, 0x5A54),
  (0x8B68, 0x5F66),
  (0x8B6B, 0x5A5E),
  (0x8B6F, 0x526B_5269_4946_4843),
  (0x8B74, 0x4734),
  (0x8B77, 0x3B24),
  (0x8B7D, 0x537E_5A59),
  (0x8B80, 0x3641),
  (0x8B87, 0x5A46),
  (0x8B8A, 0x3164),
  (0x8B8D, 0x5A4C_7645),
  (0x8B90, 0x7645),
  (0x8B92, 0x3277_4843),
  (0x8B95, 0x403E_5A5F),
  (0x8B9B, 0x5F3D_5A54),
  (0x8B9E, 0x5A5D),
  (0x8C48, 0x4671),
  (0x8C4A, 0x4071),
  (0x8C4E, 0x4A7A),
  (0x8C50, 0x3761),
  (0x8C53, 0x515E_515E),
  (0x8C6C, 0x566D),
  (0x8C7B, 0x616D_7579),
  (0x8C8E, 0x6225),
  (0x8C93, 0x4328),
  (0x8C9D, 0x3134_556A_5431_383A_3246_3931_347B),
  (0x8CA7, 0x4636_3B75_3737_4C30_3961_5470_564A_3721_567C_6A5B),
  (0x8CB3, 0x3721_3973),
  (0x8CB6, 0x3161_4272_347B),
  (0x8CBA, 0x6A5C_3751_4C79_6A5D_3F36_4333_3A58_6A5A_4238_415E_3B5F_6A60),
  (0x8CC7, 0x574A_3C56),
  (0x8CCA, 0x5474),
  (0x8CCD, 0x545F_3C7A),
  (0x8CD1, 0x6A62_495E_3176),
  (0x8CD6, 0x495E),
  (0x8CDA, 0x6A63_545E_344D),
  (0x8CDE, 0x494D),
  (0x8CE0, 0x4562_6259_4F4D_4274_3C7A),
  (0x8CE6, 0x3833_6A66),
  (0x8CEA, 0x564A_6A65_554B_3644),
  (0x8CF4, 0x4035),
  (0x8CFA, 0x572C_6A67_393A_487C_5853),
  (0x8D01, 0x305C),
  (0x8D04, 0x6A5E_5738),
  (0x8D08, 0x5479),
  (0x8D0A, 0x545E_584D),
  (0x8D0D, 0x4944),
  (0x8D0F, 0x532E_6A61_3853_4F4D_545F),
  (0x8D16, 0x4A6A_584D),
  (0x8D1B, 0x3853_545F),
  (0x8D95, 0x384F),
  (0x8D99, 0x5554),
  (0x8DA8, 0x4777),
  (0x8DAB, 0x332C),
  (0x8DB2, 0x7475),
  (0x8DE1, 0x3C23),
  (0x8DE5, 0x3665),
  (0x8DF4, 0x3248),
  (0x8E08, 0x4A68),
  (0x8E10, 0x3C79),
  (0x8E28, 0x5759),
  (0x8E32, 0x365D),
  (0x8E34, 0x533B),
  (0x8E36, 0x7558),
  (0x8E46, 0x4D48),
  (0x8E4C, 0x7544),
  (0x8E4F, 0x4C63),
  (0x8E55, 0x754F),
  (0x8E5D, 0x656F_754D),
  (0x8E63, 0x7567_5759),
  (0x8E6E, 0x7551),
  (0x8E77, 0x756A),
  (0x8E7A, 0x754E),
  (0x8E89, 0x753B_336C_7552),
  (0x8E8D, 0x543E),
  (0x8E91, 0x755C),
  (0x8E93, 0x7559),
  (0x8E9A, 0x7551),
  (0x8EA1, 0x7566),
  (0x8EA5, 0x345A_7572_656F),
  (0x8EAA, 0x756F),
  (0x8EAD, 0x3522),
  (0x8EB0, 0x4C65_3663),
  (0x8EB7, 0x302B),
  (0x8EC0, 0x477B_594D),
  (0x8EC4, 0x5630),
  (0x8EC6, 0x4C65),
  (0x8ECA, 0x3335_547E_396C_3E7C),
  (0x8ED2, 0x5079),
  (0x8ED4, 0x696D),
  (0x8EDB, 0x696E),
  (0x8EDF, 0x486D),
  (0x8EE2, 0x572A),
  (0x8EE4, 0x6975),
  (0x8EEB, 0x6974),
  (0x8EF0, 0x3132),
  (0x8EF2, 0x696F),
  (0x8EF6, 0x696E),
  (0x8EF8, 0x5661),
  (0x8EFA, 0x6977_6970_6973_4761_6978),
  (0x8F03, 0x3D4F),
  (0x8F05, 0x697B),
  (0x8F09, 0x5458_6979),
  (0x8F12, 0x697C),
  (0x8F14, 0x3828_4761),
  (0x8F19, 0x697C),
  (0x8F1B, 0x413E_6A22_3B54_697E_6A21),
  (0x8F25, 0x3975_697D),
  (0x8F29, 0x3132_4256),
  (0x8F2D, 0x486D),
  (0x8F2F, 0x3C2D),
  (0x8F33, 0x6A23),
  (0x8F38, 0x4A64),
  (0x8F3A, 0x6A22_3778),
  (0x8F3E, 0x5537_535F),
  (0x8F42, 0x6C31),
  (0x8F44, 0x4F3D_542F_6A24),
  (0x8F49, 0x572A),
  (0x8F4D, 0x555E_3D4E),
  (0x8F54, 0x6A25),
  (0x8F5F, 0x3A64),
  (0x8F61, 0x604E_6976),
  (0x8F64, 0x6971),
  (0x8F9D, 0x3447),
  (0x8FA2, 0x4031),
  (0x8FA4, 0x3447_5126_306C),
  (0x8FAC, 0x305F_3447_3168_3167),
  (0x8FB2, 0x4529),
  (0x8FBA, 0x315F),
  (0x8FCA, 0x532D),
  (0x8FE0, 0x3D28),
  (0x8FEC, 0x4D79),
  (0x8FEF, 0x4C53),
  (0x9008, 0x6544),
  (0x900E, 0x6559),
  (0x9013, 0x355D),
  (0x9019, 0x5562),
  (0x9023, 0x412C_6636),
  (0x9029, 0x313C),
  (0x902C, 0x3145),
  (0x9032, 0x3D78),
  (0x9037, 0x6551),
  (0x903A, 0x5436),
  (0x9040, 0x4B66),
  (0x9045, 0x3359),
  (0x9049, 0x556C),
  (0x904B, 0x544B_6543),
  (0x904E, 0x397D),
  (0x9054, 0x346F_4E25),
  (0x9059, 0x5223),
  (0x905C, 0x5137),
  (0x905E, 0x355D),
  (0x9060, 0x5436_4B5D),
  (0x9069, 0x4A4A),
  (0x9072, 0x3359),
  (0x9077, 0x4728_5121),
  (0x907A, 0x5245),
  (0x907C, 0x4149),
  (0x9081, 0x4275),
  (0x9084, 0x3B39),
  (0x9087, 0x6547),
  (0x9089, 0x315F_315F),
  (0x908F, 0x425F_654E),
  (0x90A8, 0x3465),
  (0x90DE, 0x4049_5B23),
  (0x90F0, 0x5A6E_3531),
  (0x90F5, 0x534A),
  (0x90F7, 0x4F67),
  (0x9106, 0x5B29),
  (0x9109, 0x4F67_4F67),
  (0x9112, 0x575E),
  (0x9114, 0x5A79_4F67_5447),
  (0x9127, 0x354B),
  (0x912D, 0x5623),
  (0x9130, 0x415A),
  (0x9132, 0x3526),
  (0x9134, 0x5A7E),
  (0x9136, 0x5B26),
  (0x913A, 0x5A77),
  (0x9148, 0x5B2A),
  (0x9154, 0x576D),
  (0x9159, 0x5565),
  (0x9167, 0x336A),
  (0x917C, 0x7530),
  (0x9196, 0x544D),
  (0x919E, 0x544D),
  (0x91A4, 0x3D34),
  (0x91AB, 0x523D_3D34),
  (0x91B8, 0x4470),
  (0x91BB, 0x336A),
  (0x91C0, 0x4470_5046),
  (0x91C3, 0x7527),
  (0x91C5, 0x7526),
  (0x91C8, 0x4A4D),
  (0x91CB, 0x4A4D),
  (0x91D2, 0x6E44_6E45_6E46_6E49),
  (0x91D7, 0x6E48_3624_6E47),
  (0x91DD, 0x556B),
  (0x91E1, 0x382A),
  (0x91E3, 0x3576_6E4C),
  (0x91E7, 0x6E4B),
  (0x91E9, 0x3730),
  (0x91F5, 0x6E4E),
  (0x91F7, 0x6E4A),
  (0x91F9, 0x6E4F_4725),
  (0x9200, 0x6E59_6E55),
  (0x9203, 0x3E21_6E57),
  (0x9206, 0x4726_382B_6E50_4446),
  (0x920D, 0x365B_3933),
  (0x9210, 0x6E54),
  (0x9214, 0x332E_4525),
  (0x921B, 0x3978),
  (0x921E, 0x3E7B_3576),
  (0x9223, 0x3846),
  (0x9225, 0x6E58_6E51_6E56),
  (0x922E, 0x6E6A),
  (0x9230, 0x6E66),
  (0x9233, 0x6E5D_4165),
  (0x9237, 0x6E5C_6E60_6E6B_6E5A),
  (0x923D, 0x6E5F_534B_6E64_3C58),
  (0x9244, 0x4C7A),
  (0x9248, 0x6E68_6E67),
  (0x924D, 0x6E69),
  (0x9251, 0x322C),
  (0x9255, 0x6E5E),
  (0x9257, 0x472F),
  (0x925A, 0x432D_4726_6F42),
  (0x925E, 0x6E61_6E6B),
  (0x9262, 0x3227),
  (0x9264, 0x3933),
  (0x9266, 0x6E5B),
  (0x926C, 0x6E62_6E63),
  (0x9278, 0x3D42),
  (0x927A, 0x6E6F_3875),
  (0x927F, 0x6E7E_5278_3E7B),
  (0x9283, 0x6F25),
  (0x9285, 0x4D2D),
  (0x9291, 0x4F33_3E21_6E7D),
  (0x9296, 0x6E79),
  (0x9298, 0x437A),
  (0x929A, 0x6F22),
  (0x929C, 0x4F4E),
  (0x929E, 0x3E7B),
  (0x92A0, 0x6E6E),
  (0x92A3, 0x6F28),
  (0x92A5, 0x523F_6E77),
  (0x92A8, 0x6F27_6E7B_6E70_6F24_6E6D_472E),
  (0x92B1, 0x6E76),
  (0x92B3, 0x4871),
  (0x92B5, 0x6F2C),
  (0x92B7, 0x4F7A),
  (0x92B9, 0x5062),
  (0x92BB, 0x4C60_6F31),
  (0x92C1, 0x4241),
  (0x92C3, 0x6F36),
  (0x92C5, 0x503F),
  (0x92C7, 0x3135),
  (0x92CC, 0x6E7A),
  (0x92CF, 0x6E72),
  (0x92D1, 0x6F54_3766),
  (0x92DF, 0x6F37),
  (0x92E4, 0x337A_6F2D_6F38),
  (0x92E8, 0x6F30),
  (0x92EA, 0x464C),
  (0x92ED, 0x4871),
  (0x92EF, 0x6F2F_6F2E_6F2B),
  (0x92F3, 0x567D),
  (0x92F8, 0x3E62),
  (0x92FC, 0x3856),
  (0x9301, 0x6F3E),
  (0x9304, 0x423C),
  (0x9306, 0x6F3A_6F42_6F43),
  (0x9310, 0x5736),
  (0x9312, 0x6F39),
  (0x9315, 0x6F3F),
  (0x9318, 0x3438_6F45_6F23_6F3C),
  (0x9320, 0x3627),
  (0x9322, 0x472E),
  (0x9326, 0x3D75),
  (0x9328, 0x432A),
  (0x932B, 0x4E7D),
  (0x932E, 0x6F40_346D),
  (0x9332, 0x423C_434C),
  (0x9338, 0x6F2A),
  (0x9340, 0x6F3D_4F47),
  (0x9346, 0x6E4D_6F47),
  (0x934B, 0x3978),
  (0x934D, 0x3646),
  (0x9354, 0x6F49),
  (0x9358, 0x5521),
  (0x935B, 0x6C51),
  (0x9364, 0x6F4A_6F46),
  (0x9369, 0x6F3B),
  (0x936B, 0x4742_4742),
  (0x9370, 0x6F4C),
  (0x9375, 0x3C7C_6F48),
  (0x937A, 0x5560),
  (0x937F, 0x6F45),
  (0x9382, 0x433E),
  (0x9384, 0x6F4D),
  (0x9387, 0x6F51),
  (0x938A, 0x3077),
  (0x9392, 0x7171),
  (0x9396, 0x4B78),
  (0x9398, 0x6F53_6943_3438),
  (0x939C, 0x454C),
  (0x93A0, 0x3856),
  (0x93A2, 0x4E59_5D76),
  (0x93A6, 0x6F56_6E78),
  (0x93A9, 0x6F21_6F4B),
  (0x93AC, 0x3864_5572_5572),
  (0x93B0, 0x6F57),
  (0x93B3, 0x4478),
  (0x93B5, 0x6F58),
  (0x93B8, 0x6F54),
  (0x93BB, 0x4B78),
  (0x93BF, 0x6F55),
  (0x93C3, 0x6F5F),
  (0x93C8, 0x4134_6F4B),
  (0x93D1, 0x6F61),
  (0x93D7, 0x6F2C_6F4F),
  (0x93DC, 0x6F5B_6F5C_6F5E_3279_3766_3E35_6F5A),
  (0x93E4, 0x6F4E),
  (0x93E8, 0x7649_7649),
  (0x93EC, 0x7341),
  (0x93F3, 0x6F23),
  (0x93F5, 0x6E7C),
  (0x93F7, 0x6F64),
  (0x93F9, 0x6F6A),
  (0x9403, 0x6E73),
  (0x9410, 0x414D),
  (0x9412, 0x6F29_6F66),
  (0x9419, 0x6F6B),
  (0x941D, 0x6F63_7171),
  (0x9420, 0x6F68),
  (0x9426, 0x6F34_6F35_6F50),
  (0x942B, 0x6F54),
  (0x942E, 0x412D),
  (0x9432, 0x6F6D_4058),
  (0x9435, 0x4C7A),
  (0x9438, 0x6E6C),
  (0x943A, 0x6E75),
  (0x943F, 0x6F6E),
  (0x9443, 0x6F22_567D),
  (0x9449, 0x3C58_6F6C),
  (0x944C, 0x6F59),
  (0x9452, 0x3C78),
  (0x9454, 0x6F6F),
  (0x945A, 0x576A),
  (0x9460, 0x6E65),
  (0x9463, 0x6F70),
  (0x9465, 0x6F65),
  (0x946D, 0x6F67),
  (0x9470, 0x543F),
  (0x9472, 0x4F62_3C7C),
  (0x9475, 0x395E),
  (0x9477, 0x4477),
  (0x9479, 0x6F69),
  (0x947C, 0x4260_576A_7647_5464),
  (0x9498, 0x3E21),
  (0x9577, 0x3324_3324),
  (0x9580, 0x4345),
  (0x9582, 0x6345_4941),
  (0x9586, 0x5156_3155),
  (0x9589, 0x3155),
  (0x958B, 0x3F2A),
  (0x958F, 0x4872),
  (0x9591, 0x4F50),
  (0x9593, 0x3C64_6349),
  (0x9598, 0x5522_4456),
  (0x959E, 0x3958),
  (0x95A1, 0x3A52_3958_3873),
  (0x95A5, 0x3727),
  (0x95A8, 0x396B_4376),
  (0x95AB, 0x634D_634F_634C),
  (0x95B1, 0x5444_5444),
  (0x95B6, 0x6351_4931),
  (0x95B9, 0x514B),
  (0x95BB, 0x5156_6355_6354_6350_6353),
  (0x95C3, 0x6356),
  (0x95C8, 0x6347),
  (0x95CA, 0x402B_6357_403B),
  (0x95D0, 0x6359),
  (0x95D4, 0x6358_635A_3433_3958_3637),
  (0x95DC, 0x3958),
  (0x95DE, 0x635B),
  (0x95E1, 0x327B),
  (0x95E5, 0x634B),
  (0x9623, 0x5259),
  (0x9627, 0x3638),
  (0x9641, 0x4D53),
  (0x964F, 0x4B65),
  (0x9657, 0x474D_5A6A),
  (0x965D, 0x4942),
  (0x9663, 0x5573),
  (0x9665, 0x4F5D),
  (0x9670, 0x5275),
  (0x9673, 0x3342),
  (0x9678, 0x423D),
  (0x967A, 0x4F55),
  (0x967D, 0x5174),
  (0x967F, 0x4F41),
  (0x9684, 0x354C),
  (0x9689, 0x5A6D_3653),
  (0x968E, 0x3D57),
  (0x9695, 0x5449),
  (0x969B, 0x3C4A),
  (0x969F, 0x4F36_527E),
  (0x96A3, 0x415A),
  (0x96A8, 0x4B66),
  (0x96AA, 0x4F55),
  (0x96B1, 0x527E),
  (0x96B4, 0x4224),
  (0x96B7, 0x4125_4125),
  (0x96BA, 0x3A57),
  (0x96CB, 0x7641),
  (0x96D1, 0x5453),
  (0x96D6, 0x4B64),
  (0x96D9, 0x4B2B),
  (0x96DB, 0x337B_5453_533A_3C26),
  (0x96E2, 0x406B_4451),
  (0x96E7, 0x3C2F),
  (0x96F0, 0x3755),
  (0x96FA, 0x4E6D_3567),
  (0x970A, 0x4169),
  (0x9711, 0x5534),
  (0x9717, 0x4163),
  (0x971A, 0x4E6D_4169),
  (0x9727, 0x4E6D),
  (0x9736, 0x6468),
  (0x973D, 0x762B),
  (0x9742, 0x7628),
  (0x9744, 0x7630),
  (0x9748, 0x4169),
  (0x9751, 0x4760),
  (0x975A, 0x7626),
  (0x975C, 0x3E32),
  (0x9768, 0x584C),
  (0x9775, 0x4526),
  (0x977D, 0x306D),
  (0x978C, 0x3030),
  (0x978F, 0x392E),
  (0x9795, 0x5332),
  (0x97A9, 0x474A),
  (0x97B5, 0x502C),
  (0x97BD, 0x7733_5125),
  (0x97C1, 0x6756),
  (0x97C3, 0x7732),
  (0x97C8, 0x4D60_7735),
  (0x97CB, 0x4E24_484D),
  (0x97D3, 0x3A2B),
  (0x97D9, 0x6838),
  (0x97DB, 0x7739_683A),
  (0x97DE, 0x6839),
  (0x97E4, 0x4D60),
  (0x97EE, 0x3E42),
  (0x97F2, 0x6C34),
  (0x97FB, 0x544F),
  (0x97FF, 0x4F6C),
  (0x9801, 0x5233_3625_476A),
  (0x9805, 0x4F6E_4B33_717C_506B),
  (0x980A, 0x676F_394B_4B4C),
  (0x980E, 0x717D_717E_5424_4D67_3064_3659),
  (0x9817, 0x4644_416C),
  (0x981A, 0x3E31),
  (0x981C, 0x7222),
  (0x981F, 0x366E),
  (0x9821, 0x7221),
  (0x9824, 0x5243),
  (0x9826, 0x7224),
  (0x982D, 0x4D37),
  (0x9830, 0x3C55),
  (0x9834, 0x5331),
  (0x9837, 0x7225_3E31_4D47),
  (0x983B, 0x4635_4035_4D47),
  (0x983F, 0x775A),
  (0x9846, 0x3F45_6332),
  (0x984C, 0x4C62_366E_7226_5155_5A3B),
  (0x9853, 0x7227_5155_4F54),
  (0x9859, 0x722A_355F_355F),
  (0x985E, 0x4060),
  (0x9862, 0x7229),
  (0x9865, 0x722B_633E_394B),
  (0x986B, 0x327C_722C),
  (0x986F, 0x4F54_722D_422D),
  (0x9873, 0x7228_4827),
  (0x98A8, 0x3767),
  (0x98AF, 0x6C2A),
  (0x98B6, 0x6C2B),
  (0x98BC, 0x6C2C),
  (0x98C4, 0x462E),
  (0x98C6, 0x6C2D_6C2D_6C2D),
  (0x98DB, 0x3749_372D),
  (0x98E2, 0x3C22),
  (0x98E9, 0x623D_623F_6240_5178_6241_527B_3739_3739),
  (0x98F2, 0x527B),
  (0x98F4, 0x6242),
  (0x98FC, 0x4B47_3125_4A4E),
  (0x9901, 0x623F),
  (0x9903, 0x3D48),
  (0x9905, 0x317D),
  (0x9908, 0x7452_6243_5178),
  (0x990C, 0x367C),
  (0x9911, 0x6244_4459_3676),
  (0x991A, 0x6B48_6246),
  (0x991D, 0x4A4E_3D24),
  (0x9920, 0x317D_4F5A),
  (0x9928, 0x395D),
  (0x992B, 0x6246_5764),
  (0x9931, 0x7457),
  (0x9933, 0x623C),
  (0x9937, 0x6247),
  (0x9939, 0x4C47),
  (0x993B, 0x3862_623E),
  (0x993E, 0x4173_6248),
  (0x9943, 0x6249),
  (0x9945, 0x4278),
  (0x9948, 0x624A_624B_624C_4021_624D),
  (0x9951, 0x3C22_4844),
  (0x9957, 0x774F),
  (0x995C, 0x7750),
  (0x995E, 0x3276_624E),
  (0x99AC, 0x426D_5426_376B),
  (0x99B1, 0x4D54),
  (0x99B3, 0x335B_5131),
  (0x99C1, 0x3235),
  (0x99C4, 0x4D54_6664_477D),
  (0x99C8, 0x477D),
  (0x99D0, 0x5724_6665_3E54),
  (0x99D4, 0x6660_3C5D),
  (0x99D8, 0x6666_6662),
  (0x99DB, 0x4A3B),
  (0x99DD, 0x4D55_4D55_6661),
  (0x99E1, 0x426E_6669),
  (0x99E6, 0x4C5A),
  (0x99ED, 0x3A27_3235),
  (0x99F1, 0x4266),
  (0x99F4, 0x3A27),
  (0x99FF, 0x3F25),
  (0x9A01, 0x3352),
  (0x9A05, 0x666D),
  (0x9A08, 0x6669),
  (0x9A0C, 0x5757_666C_466F_666B_5169),
  (0x9A12, 0x4927_5169),
  (0x9A16, 0x6670_462D),
  (0x9A19, 0x462D),
  (0x9A23, 0x5757),
  (0x9A2B, 0x6539),
  (0x9A2D, 0x666F_6672),
  (0x9A30, 0x4C5A),
  (0x9A36, 0x6663_4927_6673),
  (0x9A3E, 0x4262),
  (0x9A40, 0x5D6B_6671_666E_6674_6675_477D),
  (0x9A4A, 0x6668),
  (0x9A4D, 0x6667),
  (0x9A55, 0x3D3E),
  (0x9A57, 0x5169_4262),
  (0x9A5A, 0x3E2A_6664),
  (0x9A5F, 0x5668),
  (0x9A62, 0x423F),
  (0x9A64, 0x6678_6677),
  (0x9A6A, 0x666A),
  (0x9A94, 0x5757),
  (0x9AAF, 0x3039),
  (0x9AC4, 0x4B68),
  (0x9ACF, 0x7743),
  (0x9AD4, 0x4C65_7746_7745),
  (0x9AD9, 0x385F),
  (0x9AE0, 0x7755),
  (0x9AE3, 0x3742),
  (0x9B00, 0x4C6A),
  (0x9B02, 0x775E),
  (0x9B04, 0x4C6A),
  (0x9B22, 0x775E),
  (0x9B25, 0x3637),
  (0x9B27, 0x4456),
  (0x9B29, 0x6352_3637),
  (0x9B2D, 0x3637_634E),
  (0x9B4E, 0x774B),
  (0x9B58, 0x774A),
  (0x9B5A, 0x5363),
  (0x9B6F, 0x4233),
  (0x9B72, 0x7654),
  (0x9B74, 0x7650),
  (0x9B77, 0x764F),
  (0x9B81, 0x7651),
  (0x9B83, 0x7652),
  (0x9B89, 0x7674),
  (0x9B8E, 0x7653),
  (0x9B90, 0x7658_312B_7656),
  (0x9B9A, 0x765A),
  (0x9B9D, 0x765F),
  (0x9BAA, 0x765B_765E),
  (0x9BAD, 0x7659_4F4A),
  (0x9BC0, 0x7667_7661),
  (0x9BC7, 0x7669),
  (0x9BC9, 0x4070_7668_7668),
  (0x9BD4, 0x7676),
  (0x9BD6, 0x766B_765F),
  (0x9BDB, 0x7674),
  (0x9BE1, 0x766E_7672),
  (0x9BE4, 0x766F),
  (0x9BE7, 0x7670_3E28),
  (0x9BEA, 0x766C_766D),
  (0x9BF0, 0x7673),
  (0x9BFD, 0x766A),
  (0x9BFF, 0x767D_7669),
  (0x9C08, 0x7678_767C),
  (0x9C0D, 0x767A),
  (0x9C10, 0x7679),
  (0x9C12, 0x767B_487A),
  (0x9C15, 0x4F3A),
  (0x9C23, 0x7665),
  (0x9C25, 0x7724),
  (0x9C28, 0x7723),
  (0x9C2D, 0x7722),
  (0x9C31, 0x7663_7721_7726),
  (0x9C35, 0x772A),
  (0x9C37, 0x7666),
  (0x9C39, 0x7664),
  (0x9C3B, 0x7729),
  (0x9C3E, 0x7727),
  (0x9C45, 0x772B),
  (0x9C48, 0x7728_316E),
  (0x9C51, 0x767C_772E),
  (0x9C54, 0x772D),
  (0x9C56, 0x772C_415B_7660),
  (0x9C5F, 0x7657),
  (0x9C65, 0x772C),
  (0x9C67, 0x772F),
  (0x9C6D, 0x765D),
  (0x9C76, 0x765F_7679_7654),
  (0x9C7A, 0x7662),
  (0x9CE5, 0x4471),
  (0x9CE7, 0x596C),
  (0x9CE9, 0x702F),
  (0x9CEB, 0x5163_596C),
  (0x9CF3, 0x376F_4379),
  (0x9CF6, 0x7030),
  (0x9D06, 0x7032_7031_5163_513B),
  (0x9D15, 0x4D52),
  (0x9D1B, 0x5427),
  (0x9D1D, 0x7036),
  (0x9D1F, 0x7037),
  (0x9D23, 0x7033),
  (0x9D26, 0x516C),
  (0x9D28, 0x513C),
  (0x9D2C, 0x5D3A),
  (0x9D2F, 0x7039_703B),
  (0x9D39, 0x4F68),
  (0x9D3B, 0x3A68),
  (0x9D3F, 0x386B),
  (0x9D42, 0x703C),
  (0x9D44, 0x7037),
  (0x9D49, 0x703D),
  (0x9D51, 0x3E69_7041_703E),
  (0x9D5C, 0x7043_366C_366C),
  (0x9D60, 0x7040_7044),
  (0x9D6A, 0x7046),
  (0x9D6C, 0x4574),
  (0x9D72, 0x4835),
  (0x9D87, 0x7034),
  (0x9D89, 0x7048),
  (0x9D8F, 0x3C26),
  (0x9D93, 0x7045),
  (0x9D98, 0x7049),
  (0x9D9A, 0x704A),
  (0x9DA5, 0x704C),
  (0x9DA9, 0x704D),
  (0x9DAF, 0x5D3A),
  (0x9DB4, 0x3A57_337B),
  (0x9DBB, 0x773D_704F),
  (0x9DC0, 0x704B),
  (0x9DC2, 0x704E),
  (0x9DC4, 0x3C26),
  (0x9DD3, 0x7051),
  (0x9DD7, 0x4538),
  (0x9DD9, 0x703A_7052),
  (0x9DE5, 0x7038_7054),
  (0x9DEF, 0x7053),
  (0x9DF2, 0x7055_7042),
  (0x9DF8, 0x7056_5325_7058),
  (0x9E15, 0x7035_3A57),
  (0x9E1A, 0x7050_7059),
  (0x9E1D, 0x703F_703D),
  (0x9E75, 0x4231),
  (0x9E78, 0x3C6F),
  (0x9E7A, 0x753A),
  (0x9E7C, 0x3C6F_514E),
  (0x9E90, 0x776B),
  (0x9E97, 0x4076),
  (0x9EA2, 0x4167),
  (0x9EA5, 0x4273),
  (0x9EA9, 0x746F),
  (0x9EB1, 0x746F),
  (0x9EC3, 0x3B46),
  (0x9ECC, 0x5964),
  (0x9ED2, 0x3A5A),
  (0x9ED9, 0x442C),
  (0x9EDE, 0x3563),
  (0x9EE8, 0x3533),
  (0x9EF1, 0x776C),
  (0x9EF7, 0x7772),
  (0x9EFD, 0x763C),
  (0x9EFF, 0x763D),
  (0x9F05, 0x5629),
  (0x9F08, 0x316E_763E),
  (0x9F11, 0x3626),
  (0x9F14, 0x3944_5F4B),
  (0x9F21, 0x4A73),
  (0x9F26, 0x7575),
  (0x9F45, 0x5061),
  (0x9F47, 0x777E),
  (0x9F4A, 0x466B_552B),
  (0x9F4F, 0x6C34),
  (0x9F52, 0x335D),
  (0x9F54, 0x7633),
  (0x9F59, 0x7635),
  (0x9F5C, 0x7637),
  (0x9F5F, 0x7634_7636_4164_4164),
  (0x9F66, 0x7638),
  (0x9F6A, 0x763A),
  (0x9F6C, 0x7639),
  (0x9F72, 0x4823),
  (0x9F76, 0x6B71_763B),
  (0x9F8D, 0x417A),
  (0x9F90, 0x4553),
  (0x9F94, 0x3928_6D68),
  (0x9F9C, 0x396A),
  (0xF900, 0x4671_387C_3335_3C56_3B2C_342E_3E64_396A_396A_4675_3D70_402E),
  (0xF90C, 0x444E_4041_712E_425E_425C_425D_4263_425F_4056_4265_4053_6773),
  (0xF918, 0x4264_4052_4266_4252_4251_4038_4043_403C_703D_6130_4044_4036),
  (0xF924, 0x715C_402D_4030_402F_4048_404A_404B_4047_4049_4034_4064_404D),
  (0xF930, 0x4230_6956_422F_422C_404F_422B_4232_4237_4236_4233_7058_4235),
  (0xF93C, 0x423B_424C),
  (0xF93F, 0x423C_4239_425B_4222_452A_417D_417B_404E_405A_4238_4057_405D),
  (0xF94B, 0x4245_4225_4061_4229_405B_4246_422A_4055_405F_415D_4168),
  (0xF957, 0x6731_4162_416A_3641_4443_4056_4535_3524_447E_452D_424A_526C),
  (0xF963, 0x3131),
  (0xF965, 0x3163),
  (0xF967, 0x323B_435A_4A7D_4B77_324E_487B_4A21_5236_4B35_4931_333D_4972),
  (0xF973, 0x4A30_4874_4253_4254_4141_413D_4139_413A_4138_413C_4142_413F),
  (0xF97F, 0x4078),
  (0xF981, 0x452E_422E_4243_424B_6D42_634C_666A_4076_4068_4126),
  (0xF98D, 0x6976_446A_412F_4135),
  (0xF992, 0x4130_4136_6776_446A_4137_412A_697D_412B_412C),
  (0xF99C, 0x4150_4153_514A_4152_4151_4B35_412E_446E_446D_6967_4131_4154),
  (0xF9A8, 0x416E_6072_447E_416B_412F_4161_5328_4167_7176_4165_4163_4169),
  (0xF9B4, 0x416C_407D_4071_7537_4125_3671_414B_4145_653C_4472_414F_4056),
  (0xF9C0, 0x4147_4146_5E24_4149_417A_544E_486E_4175),
  (0xF9C9, 0x4178_4177_416F_4170_4174_4172_4526_4060_4179_423E_423D_4257),
  (0xF9D6, 0x4259_4256_4249),
  (0xF9DA, 0x4075_424A_4221_407B_4074_4244_5257_406E_4066_4460_406D_4121),
  (0xF9E6, 0x6E3E),
  (0xF9E9, 0x406F_406B_4464_4467_415F),
  (0xF9F0, 0x5D7E_415A_415B_776B_4156_415C_4159_4122_7352_4123_5734_564B),
  (0xF9FC, 0x4A36_4A32_3268_344C_4750_3648_4D58_4C47_552C_3634_3129_3778),
  (0xFA08, 0x5050_3D35_3C7B_402A_5823),
  (0xFA10, 0x5A23_4669_4767),
  (0xFA15, 0x4E75_566D_5266_4071_4971_4F69_3823_3E38_3E2B_5370),
  (0xFA22, 0x566E),
  (0xFA25, 0x525D_363C),
  (0xFA2A, 0x3739_4B47_395D_3A57_4049_4125_4E6A_492E_4362_4363_475A_3130),
  (0xFA36, 0x3A48_4C3E_4677),
  (0xFA3A, 0x442B_3263),
  (0xFA3D, 0x3B5A_3F2E_5477_334D_4374_3C48_4A6E_4337_3A23_643E_3A3A_5673),
  (0xFA4A, 0x5741_312E_4967_6C6D_466D),
  (0xFA50, 0x5766_5723_3B76_6C75),
  (0xFA55, 0x4D3B_3D5A_4137_6746_3731_4A70_555F_3374_5C33_5C33_5745_3A56),
  (0xFA61, 0x4A53_5A4B_3D77_3176_5479_6541_525D_4451_4F6C_4635_3B5D_4E75),
  (0xFA6D, 0x395D),
  (0xFA70, 0x3222_3F76_482B),
  (0xFA74, 0x3364_3C3D_5342_4957_3A48_5F7B_6039_3A4F_5A23_3758_5159_313C),
  (0xFA80, 0x663E_4F72_625A),
  (0xFA84, 0x324A_6166_632F_4977_537A_5477),
  (0xFA8B, 0x334D_3477_5E6D_4B51_5E70_303D_4767_404A_4D7B_5548_3475_4931),
  (0xFA97, 0x4177_5279_574C_3A3A),
  (0xFA9C, 0x5673_4746_3E74_3738_566D),
  (0xFAA2, 0x3449_3B2D),
  (0xFAA5, 0x4E41_5266_4A22_5631),
  (0xFAAA, 0x5745),
  (0xFAAD, 0x3D5A_4060),
  (0xFAB0, 0x4137_463F_555F_3B44_3B2A),
  (0xFAB6, 0x715F_3832_4A53_3577_566E_476B_5A4B_4535_5A4D_3D77_3164_5479),
  (0xFAC2, 0x4A64_3359),
  (0xFAC7, 0x4451_3E38_7739_4F6C_394B_4635),
  (0xFACE, 0x396A),
  (0xFAD3, 0x6B76),
  (0x20003, 0x4752),
  (0x2000B, 0x5549),
  (0x20019, 0x4076_323B),
  (0x20024, 0x3222),
  (0x20029, 0x4D21),
  (0x20066, 0x5650),
  (0x200DE, 0x4071),
  (0x20107, 0x4052),
  (0x20121, 0x4E65),
  (0x20162, 0x5971),
  (0x20169, 0x4A6B),
  (0x20187, 0x3042),
  (0x2018C, 0x5339),
  (0x201B0, 0x586B),
  (0x201DA, 0x3C57),
  (0x201FE, 0x505D),
  (0x2020E, 0x335E),
  (0x20213, 0x4129),
  (0x20223, 0x404F),
  (0x20255, 0x4A39_5930),
  (0x2026E, 0x3E6B),
  (0x20293, 0x3078),
  (0x20296, 0x407D),
  (0x202B1, 0x3A72),
  (0x202B3, 0x3163),
  (0x202B6, 0x6B74),
  (0x202BE, 0x6E25),
  (0x202D2, 0x437C),
  (0x202E3, 0x5250),
  (0x202FC, 0x5936),
  (0x2033C, 0x525A),
  (0x2035F, 0x3F49),
  (0x2036C, 0x593E),
  (0x2037B, 0x5931),
  (0x203D7, 0x4145),
  (0x203EC, 0x5937),
  (0x2041A, 0x5933_5958),
  (0x2043F, 0x5E30),
  (0x20472, 0x595D),
  (0x2047D, 0x3364),
  (0x20486, 0x3679),
  (0x204B0, 0x6655_4627),
  (0x20540, 0x5868),
  (0x20545, 0x5459),
  (0x20549, 0x5128),
  (0x2054B, 0x3261),
  (0x2054D, 0x3959),
  (0x20575, 0x3F3A),
  (0x205A0, 0x3945),
  (0x20615, 0x4E75),
  (0x20621, 0x415D),
  (0x20624, 0x4064),
  (0x20632, 0x3473),
  (0x20636, 0x3771),
  (0x20675, 0x3F5A),
  (0x20678, 0x384A),
  (0x20692, 0x335D),
  (0x206D2, 0x585A),
  (0x206EC, 0x504C),
  (0x20707, 0x3F4C),
  (0x20713, 0x4C5E),
  (0x20728, 0x5B40),
  (0x20738, 0x3C41),
  (0x2073A, 0x4150),
  (0x2073E, 0x5863),
  (0x207AB, 0x3F4C),
  (0x20832, 0x4126),
  (0x208C1, 0x404D),
  (0x208D9, 0x512E),
  (0x208DE, 0x3E7C),
  (0x208E9, 0x543C),
  (0x208F5, 0x596B),
  (0x2092C, 0x584E),
  (0x20971, 0x5442),
  (0x20983, 0x5826_3B5C),
  (0x20987, 0x3A25),
  (0x20993, 0x5827),
  (0x209B6, 0x386F),
  (0x209DE, 0x5557),
  (0x209E8, 0x3E4C_3B5A_5855),
  (0x20A0D, 0x4764),
  (0x20A1E, 0x4764),
  (0x20A2E, 0x5846),
  (0x20A30, 0x452E),
  (0x20A5F, 0x333D),
  (0x20A6F, 0x3466),
  (0x20A9E, 0x5848),
  (0x20AA5, 0x542D),
  (0x20AEA, 0x4179),
  (0x20B3B, 0x376E),
  (0x20B56, 0x3852),
  (0x20BA2, 0x5352),
  (0x20BA6, 0x5559),
  (0x20BAF, 0x4C28),
  (0x20BB7, 0x3C2A),
  (0x20BC1, 0x5763),
  (0x20BD2, 0x3B2F),
  (0x20C69, 0x3E7D),
  (0x20C6F, 0x5778),
  (0x20C8B, 0x757E),
  (0x20C8E, 0x374D),
  (0x20CC5, 0x4E4A),
  (0x20D1F, 0x5F63),
  (0x20D2A, 0x6027),
  (0x20D2E, 0x4567),
  (0x20D40, 0x4A26_7645_5F78),
  (0x20D52, 0x5F7D),
  (0x20D70, 0x5F58),
  (0x20D72, 0x5B41),
  (0x20DBA, 0x5F6C),
  (0x20DC3, 0x6032),
  (0x20DD5, 0x3435),
  (0x20DF8, 0x602F),
  (0x20ED4, 0x6065),
  (0x20EDB, 0x6055),
  (0x20EEF, 0x5F6E),
  (0x20F15, 0x5F42),
  (0x20F6C, 0x4458),
  (0x20F7F, 0x5F49),
  (0x20F85, 0x522A),
  (0x20F96, 0x4677),
  (0x20FC8, 0x6031),
  (0x21050, 0x6049),
  (0x2113A, 0x6051),
  (0x21170, 0x6050),
  (0x211A1, 0x4670),
  (0x211C3, 0x5258),
  (0x211CA, 0x4654),
  (0x211E1, 0x443F),
  (0x211EA, 0x3D51),
  (0x21215, 0x4826),
  (0x2122D, 0x537C),
  (0x21239, 0x6073),
  (0x21243, 0x5B5E),
  (0x21248, 0x545A),
  (0x2125B, 0x5B59),
  (0x2125D, 0x3B79),
  (0x2125F, 0x5733),
  (0x2126C, 0x5B66),
  (0x212AE, 0x542C),
  (0x212BA, 0x5173),
  (0x212F2, 0x5778),
  (0x21369, 0x5B65),
  (0x213A9, 0x3921),
  (0x213B0, 0x5C2F),
  (0x2145F, 0x4E51),
  (0x21462, 0x5C26),
  (0x21501, 0x405D),
  (0x2151B, 0x4849),
  (0x21578, 0x5967),
  (0x2157F, 0x5967),
  (0x21582, 0x5967),
  (0x21584, 0x4D62),
  (0x21589, 0x4251_596D),
  (0x21596, 0x4764),
  (0x2159F, 0x7324),
  (0x215B7, 0x6239),
  (0x215D5, 0x5260),
  (0x215DA, 0x4456),
  (0x215DD, 0x5244),
  (0x215E0, 0x445A),
  (0x21608, 0x3F5E),
  (0x2162B, 0x4E48),
  (0x21637, 0x4C57),
  (0x2165C, 0x3661),
  (0x2168C, 0x3D61),
  (0x216A7, 0x657E),
  (0x216B6, 0x4D7D),
  (0x216BE, 0x662D),
  (0x21769, 0x517D),
  (0x217E6, 0x4448),
  (0x21810, 0x663F),
  (0x2181C, 0x6646),
  (0x2187F, 0x3555),
  (0x21893, 0x6634),
  (0x218C6, 0x657C),
  (0x218F0, 0x664D),
  (0x2191A, 0x664E),
  (0x2192F, 0x6650),
  (0x2193E, 0x4B6F_3F57),
  (0x21946, 0x3A43_5843),
  (0x2195B, 0x4A62_5756),
  (0x21997, 0x4866),
  (0x219CB, 0x4636),
  (0x219EA, 0x552C_6533),
  (0x219F1, 0x3A26),
  (0x21A09, 0x3A41),
  (0x21A1A, 0x5429),
  (0x21A1C, 0x3C45),
  (0x21A20, 0x4E48),
  (0x21A48, 0x4367),
  (0x21B2A, 0x444D),
  (0x21B3D, 0x5862),
  (0x21B5D, 0x4357_3C62),
  (0x21B74, 0x4F36),
  (0x21B90, 0x5021),
  (0x21C29, 0x413C),
  (0x21C2C, 0x496D),
  (0x21C38, 0x656C),
  (0x21C46, 0x4A74),
  (0x21C52, 0x356E),
  (0x21C5D, 0x4F2C),
  (0x21C91, 0x4A3A),
  (0x21CA0, 0x4646),
  (0x21CA9, 0x4628),
  (0x21CEC, 0x422E),
  (0x21D41, 0x4E23),
  (0x21D7C, 0x4C3F),
  (0x21D8F, 0x6148),
  (0x21D93, 0x5440),
  (0x21E20, 0x323A),
  (0x21E35, 0x613F),
  (0x21EA1, 0x532F),
  (0x21F14, 0x6147),
  (0x21F9C, 0x3B74),
  (0x21FC1, 0x4E21),
  (0x21FE7, 0x5456),
  (0x21FF7, 0x675F),
  (0x2200E, 0x3A53),
  (0x22012, 0x3C3A),
  (0x2201A, 0x3924),
  (0x2203D, 0x4670),
  (0x22053, 0x7539),
  (0x2205B, 0x4931),
  (0x22087, 0x355B),
  (0x22091, 0x4A43),
  (0x220B4, 0x5644),
  (0x220C1, 0x3878),
  (0x220F7, 0x4432),
  (0x22116, 0x526C),
  (0x221D7, 0x4F43),
  (0x221EF, 0x382E),
  (0x2220E, 0x3963),
  (0x22256, 0x4239),
  (0x22259, 0x4A7C),
  (0x222BB, 0x4149),
  (0x222DB, 0x3147),
  (0x22313, 0x402A),
  (0x22338, 0x5E44),
  (0x22342, 0x3147),
  (0x22345, 0x5B3C),
  (0x2234E, 0x5A3E),
  (0x22357, 0x5154),
  (0x2235C, 0x5770),
  (0x2236E, 0x4E57),
  (0x22376, 0x424E),
  (0x22381, 0x4E64),
  (0x22387, 0x5456),
  (0x223AE, 0x5835),
  (0x223BA, 0x4F52),
  (0x223D8, 0x7460),
  (0x223F1, 0x6574),
  (0x22405, 0x4875),
  (0x22413, 0x6F4F),
  (0x22472, 0x524D),
  (0x22495, 0x566E),
  (0x2249B, 0x3164),
  (0x224C9, 0x3735_6163),
  (0x224D8, 0x5921),
  (0x224DD, 0x592C),
  (0x224ED, 0x6552),
  (0x224F6, 0x4D28),
  (0x22500, 0x4756),
  (0x2250D, 0x592B),
  (0x2257E, 0x315C),
  (0x225B9, 0x4744),
  (0x225CC, 0x4542_563E),
  (0x22617, 0x333C),
  (0x22625, 0x4A51),
  (0x2263B, 0x4F24),
  (0x22649, 0x4455_6D27),
  (0x22656, 0x4C71),
  (0x22662, 0x3F56),
  (0x22683, 0x4153),
  (0x22687, 0x3F71),
  (0x22689, 0x3A5E),
  (0x22690, 0x5346),
  (0x226B0, 0x4455),
  (0x226C2, 0x353F),
  (0x226C7, 0x7645),
  (0x226E7, 0x4E29),
  (0x2272A, 0x4847),
  (0x2273A, 0x3027),
  (0x22754, 0x627C),
  (0x22772, 0x336E),
  (0x22836, 0x3B3C),
  (0x22846, 0x3F52),
  (0x22865, 0x4375),
  (0x2287D, 0x4F27),
  (0x228A7, 0x7645),
  (0x228F6, 0x412F),
  (0x22903, 0x6D2B),
  (0x229A1, 0x3850),
  (0x229A9, 0x3349),
  (0x229D0, 0x553D),
  (0x229F5, 0x3D58),
  (0x229F7, 0x5E62),
  (0x229FE, 0x3363),
  (0x22A37, 0x4B79),
  (0x22A4C, 0x3C67),
  (0x22AB4, 0x5E55),
  (0x22ABB, 0x3350),
  (0x22ABF, 0x393C),
  (0x22AE6, 0x4544),
  (0x22AFD, 0x5256_5638),
  (0x22B0C, 0x304E),
  (0x22B34, 0x4963),
  (0x22B38, 0x4028),
  (0x22B40, 0x507D),
  (0x22B43, 0x364C),
  (0x22B4D, 0x3427),
  (0x22BC7, 0x523E),
  (0x22BEA, 0x3270),
  (0x22C07, 0x3024),
  (0x22C4A, 0x4253),
  (0x22C73, 0x3B53),
  (0x22C8E, 0x3061),
  (0x22C95, 0x5E71),
  (0x22C9C, 0x693E),
  (0x22CB8, 0x4230),
  (0x22CBB, 0x3469),
  (0x22CC0, 0x4426),
  (0x22D23, 0x5476),
  (0x22D3F, 0x3574),
  (0x22D44, 0x346B),
  (0x22DFC, 0x346A),
  (0x22E05, 0x454A_4421),
  (0x22E6C, 0x5335),
  (0x22EF3, 0x3776),
  (0x22F1C, 0x4962),
  (0x22F86, 0x3F2B),
  (0x22F8D, 0x303D),
  (0x22F99, 0x516F),
  (0x22FB0, 0x3B55),
  (0x2301A, 0x5967),
  (0x2308A, 0x6C59),
  (0x23095, 0x4B39),
  (0x230A2, 0x364F),
  (0x230A6, 0x585E),
  (0x230BA, 0x5042),
  (0x230E6, 0x4E70),
  (0x23101, 0x4A5C),
  (0x23103, 0x466C),
  (0x23133, 0x4E68),
  (0x23140, 0x563C),
  (0x2314A, 0x327D),
  (0x2314E, 0x4E6E),
  (0x2315C, 0x3D54),
  (0x2316F, 0x5667),
  (0x2317C, 0x5467),
  (0x2319C, 0x4341),
  (0x23206, 0x3D7A),
  (0x2320D, 0x357E),
  (0x232A3, 0x742A),
  (0x2335D, 0x565B),
  (0x2339C, 0x5450),
  (0x233C2, 0x4931),
  (0x233D0, 0x683C),
  (0x233DD, 0x556D),
  (0x233F9, 0x5456),
  (0x233FD, 0x4336),
  (0x2340C, 0x4A61),
  (0x23431, 0x4861),
  (0x23436, 0x3955_3955),
  (0x2346D, 0x5524),
  (0x2346F, 0x4C52),
  (0x23471, 0x483E),
  (0x2348F, 0x3D37),
  (0x234C0, 0x693B),
  (0x23580, 0x3923),
  (0x235F3, 0x4A77),
  (0x2361C, 0x7357),
  (0x23694, 0x742A),
  (0x23698, 0x4E7E),
  (0x236D8, 0x693F),
  (0x23725, 0x4F2D_353C),
  (0x237B5, 0x5D58),
  (0x237F4, 0x6345),
  (0x23898, 0x496B),
  (0x2389C, 0x5F4F),
  (0x238B8, 0x3F6E),
  (0x238D3, 0x4737),
  (0x238FD, 0x4755),
  (0x23948, 0x3B61_656B),
  (0x2394D, 0x3D7C),
  (0x23957, 0x4959),
  (0x2399E, 0x5967),
  (0x239A1, 0x3379),
  (0x239B8, 0x4B40),
  (0x239C0, 0x3A6B),
  (0x239E9, 0x5655),
  (0x23A0F, 0x6962),
  (0x23A44, 0x645B),
  (0x23A46, 0x5A24_382F),
  (0x23A85, 0x4539_4931),
  (0x23A96, 0x4931),
  (0x23AA9, 0x4931),
  (0x23AED, 0x433F),
  (0x23AF9, 0x6769),
  (0x23C5C, 0x6B33),
  (0x23C6E, 0x4762),
  (0x23C75, 0x5340),
  (0x23C83, 0x6367),
  (0x23C94, 0x467C),
  (0x23CA0, 0x4F2B),
  (0x23CB4, 0x3750),
  (0x23CDA, 0x433B),
  (0x23CE5, 0x3649),
  (0x23D11, 0x4177),
  (0x23D26, 0x637C),
  (0x23D29, 0x643A),
  (0x23D32, 0x5421),
  (0x23D34, 0x3A23),
  (0x23D5E, 0x485C),
  (0x23D7D, 0x4E56),
  (0x23D7F, 0x4F51),
  (0x23D81, 0x6440),
  (0x23D83, 0x3331),
  (0x23DDD, 0x3D3D),
  (0x23DEA, 0x4D74),
  (0x23E15, 0x4B2E),
  (0x23E6B, 0x3B6B),
  (0x23E8C, 0x436C),
  (0x23EAF, 0x4A2A),
  (0x23F1C, 0x514D),
  (0x23F45, 0x3B6E),
  (0x23F48, 0x6526),
  (0x23F85, 0x6455),
  (0x23FD1, 0x385B),
  (0x2404A, 0x3B41),
  (0x2404C, 0x3044),
  (0x24084, 0x3262),
  (0x24109, 0x642F),
  (0x2414C, 0x4528_646E),
  (0x2418C, 0x5157_3360_5456),
  (0x24190, 0x3E44),
  (0x241B2, 0x5456),
  (0x241E1, 0x507E),
  (0x241F4, 0x4E75),
  (0x2422E, 0x5456),
  (0x24263, 0x5456),
  (0x242B7, 0x313A),
  (0x242EE, 0x4E75),
  (0x242F0, 0x567A),
  (0x243B9, 0x4E75),
  (0x243C1, 0x4E75),
  (0x243D0, 0x4043),
  (0x24424, 0x4E75),
  (0x2442B, 0x4631),
  (0x2447E, 0x6C5D),
  (0x244C8, 0x4B38),
  (0x24522, 0x4926),
  (0x24553, 0x522F),
  (0x24555, 0x3056),
  (0x2457A, 0x3C32),
  (0x245B2, 0x3F5D),
  (0x245CA, 0x6B3A_4546),
  (0x245F1, 0x6B3B),
  (0x24604, 0x6B39),
  (0x24608, 0x5140),
  (0x24625, 0x6A72),
  (0x24634, 0x4441),
  (0x24657, 0x373D),
  (0x24668, 0x4A78),
  (0x2468C, 0x4F2C),
  (0x246B4, 0x4435),
  (0x24733, 0x4A28),
  (0x24751, 0x3738),
  (0x247C4, 0x473B),
  (0x247CB, 0x3D46),
  (0x247D4, 0x626A),
  (0x247D7, 0x5433),
  (0x247E7, 0x5D5F),
  (0x24815, 0x5073),
  (0x2489A, 0x4A5E),
  (0x2489C, 0x3640),
  (0x248CA, 0x616E),
  (0x248F5, 0x3E41),
  (0x24908, 0x3A77),
  (0x249A6, 0x3060),
  (0x249B3, 0x6775),
  (0x249F0, 0x457D),
  (0x249F2, 0x4543),
  (0x24A14, 0x3B37),
  (0x24A40, 0x493A),
  (0x24AE9, 0x4161),
  (0x24B17, 0x702D),
  (0x24B21, 0x4630),
  (0x24B2E, 0x463F),
  (0x24B79, 0x303B),
  (0x24B9B, 0x5B54),
  (0x24BD3, 0x497A_484B),
  (0x24BDB, 0x734F),
  (0x24C06, 0x5343),
  (0x24C1E, 0x3130),
  (0x24C34, 0x4D7E_4E37_496A),
  (0x24C65, 0x6E33),
  (0x24C71, 0x5458),
  (0x24C99, 0x5B4E),
  (0x24C9C, 0x314F),
  (0x24DC2, 0x7072),
  (0x24DD0, 0x4324),
  (0x24DE0, 0x7076),
  (0x24E06, 0x7074),
  (0x24E0B, 0x3D6A),
  (0x24E1F, 0x564C),
  (0x24E8A, 0x4B3B),
  (0x24EE8, 0x3B3E),
  (0x24EF2, 0x4146),
  (0x24F29, 0x396F_3547),
  (0x24F37, 0x3547),
  (0x24F50, 0x4648),
  (0x25039, 0x7542),
  (0x25044, 0x535B),
  (0x25049, 0x6E42),
  (0x2506A, 0x434F),
  (0x25070, 0x434B),
  (0x250AF, 0x5D4F),
  (0x250E9, 0x515B),
  (0x250F3, 0x6D6C),
  (0x25122, 0x4F60),
  (0x2516D, 0x4A53),
  (0x25171, 0x4A21),
  (0x252BC, 0x6E2A),
  (0x252CD, 0x4B2F),
  (0x25312, 0x6E2D),
  (0x2531D, 0x6E29),
  (0x2536F, 0x6F54),
  (0x2537F, 0x365C),
  (0x25384, 0x4739),
  (0x253BF, 0x562A),
  (0x253F5, 0x4176),
  (0x25417, 0x6D3E),
  (0x2543A, 0x6D46),
  (0x2544A, 0x446B),
  (0x254CB, 0x5150),
  (0x254CF, 0x5C24),
  (0x254D3, 0x312E),
  (0x25510, 0x3F44),
  (0x25553, 0x442E),
  (0x2555A, 0x5C7D),
  (0x25566, 0x6D5E),
  (0x25571, 0x4570),
  (0x25574, 0x4079),
  (0x255F7, 0x5537),
  (0x25614, 0x5456),
  (0x25616, 0x4D37),
  (0x2564A, 0x3C40),
  (0x2564D, 0x4971),
  (0x256DC, 0x5766),
  (0x25731, 0x4B6E),
  (0x25750, 0x317C),
  (0x25757, 0x5C3B),
  (0x25762, 0x407B),
  (0x25777, 0x387B),
  (0x257AB, 0x4A72),
  (0x2583C, 0x4758),
  (0x25877, 0x4E48),
  (0x25893, 0x4A5A),
  (0x2592F, 0x3E3F),
  (0x2593E, 0x474F),
  (0x25949, 0x6136),
  (0x25963, 0x542B),
  (0x2598E, 0x3176),
  (0x2599C, 0x5C21),
  (0x259CA, 0x5C25),
  (0x259E8, 0x3176),
  (0x25A12, 0x345C),
  (0x25A50, 0x713C),
  (0x25A60, 0x553E),
  (0x25A73, 0x347D),
  (0x25AE1, 0x7344),
  (0x25B16, 0x4624),
  (0x25B30, 0x3261),
  (0x25B8F, 0x3564),
  (0x25BD2, 0x5454),
  (0x25CE6, 0x4B71),
  (0x25D8E, 0x5D4F),
  (0x25DDF, 0x5D4F),
  (0x25E6A, 0x7456),
  (0x25E9E, 0x5660),
  (0x25EC6, 0x4B5A),
  (0x25ED5, 0x7456),
  (0x25F3E, 0x7456),
  (0x25F86, 0x3E40),
  (0x25F91, 0x343F),
  (0x25FA0, 0x4852_5124),
  (0x25FA8, 0x667C),
  (0x25FBA, 0x575D),
  (0x25FC9, 0x4D60),
  (0x25FD1, 0x425A),
  (0x25FD3, 0x3C4D),
  (0x25FF3, 0x4F38),
  (0x26007, 0x3E2D),
  (0x2601F, 0x4934),
  (0x26065, 0x6D69),
  (0x260B2, 0x6D69_3D74),
  (0x260B5, 0x575D_6732),
  (0x260C5, 0x4267),
  (0x260E7, 0x314C),
  (0x260F0, 0x497E),
  (0x26132, 0x4B75),
  (0x2614D, 0x6750),
  (0x26167, 0x6D69),
  (0x26196, 0x6754),
  (0x261AB, 0x3073),
  (0x261C4, 0x405C),
  (0x261DA, 0x524D),
  (0x261FB, 0x3B3A),
  (0x26247, 0x463F),
  (0x262DA, 0x5556),
  (0x262E7, 0x4A70),
  (0x26310, 0x6E3E),
  (0x26334, 0x425E),
  (0x2633F, 0x7527),
  (0x2638B, 0x7574),
  (0x263A4, 0x7737),
  (0x263C1, 0x744B),
  (0x263E0, 0x3861),
  (0x263F2, 0x5370),
  (0x2641C, 0x3464),
  (0x2642C, 0x7462),
  (0x2644A, 0x6C3A),
  (0x2648B, 0x3A32),
  (0x264A1, 0x303F_303F),
  (0x264B1, 0x3F3C),
  (0x264BF, 0x6A48),
  (0x264D4, 0x5068),
  (0x2657C, 0x4144),
  (0x265F7, 0x717A),
  (0x2661F, 0x5558),
  (0x2663B, 0x6B41),
  (0x2665B, 0x6B46),
  (0x26669, 0x6B48),
  (0x2666D, 0x4C5B),
  (0x26675, 0x4D73_3949),
  (0x266C1, 0x4454),
  (0x26709, 0x4622),
  (0x26721, 0x564B),
  (0x26736, 0x3072),
  (0x26769, 0x4E38),
  (0x2676B, 0x517C),
  (0x2676D, 0x4060),
  (0x267A4, 0x5836),
  (0x267A7, 0x4176),
  (0x267AC, 0x6B6C),
  (0x267B5, 0x3B29),
  (0x267DD, 0x3C39),
  (0x267E6, 0x4424),
  (0x267EF, 0x405F),
  (0x267F3, 0x7536),
  (0x2681D, 0x4176),
  (0x268DE, 0x5243),
  (0x268EE, 0x3942),
  (0x268FA, 0x3057),
  (0x26900, 0x3374),
  (0x26903, 0x3B4A),
  (0x2690C, 0x745F),
  (0x26913, 0x3147),
  (0x26933, 0x5641),
  (0x2693F, 0x4E5D),
  (0x26946, 0x4E55_5569),
  (0x26959, 0x5237),
  (0x2695D, 0x5228),
  (0x26967, 0x3161),
  (0x2699A, 0x527A),
  (0x269B6, 0x4840),
  (0x269CA, 0x4B31),
  (0x26A31, 0x3D72),
  (0x26A85, 0x4D27),
  (0x26B0A, 0x5C3B),
  (0x26B21, 0x5D4D),
  (0x26B42, 0x5D51),
  (0x26B82, 0x5D69),
  (0x26B8F, 0x344E),
  (0x26BD3, 0x5D4F),
  (0x26BED, 0x3671),
  (0x26BF1, 0x3671),
  (0x26BF8, 0x5C3B),
  (0x26C52, 0x5C59),
  (0x26C54, 0x314D),
  (0x26C64, 0x442A),
  (0x26CAD, 0x5D5D),
  (0x26CCB, 0x466A),
  (0x26CCE, 0x5D4F),
  (0x26CF3, 0x5D68),
  (0x26D2D, 0x436A),
  (0x26D54, 0x5D4F),
  (0x26D9C, 0x3671),
  (0x26E06, 0x5C3B),
  (0x26E0E, 0x5D2A),
  (0x26E2F, 0x5D37),
  (0x26E32, 0x453A_5D6A),
  (0x26E88, 0x5D25),
  (0x26EB3, 0x5E32),
  (0x26EC3, 0x5D48),
  (0x26EE5, 0x3746_4C51),
  (0x26F0D, 0x5D38),
  (0x26F2C, 0x5D4F),
  (0x26F48, 0x5D35),
  (0x26F67, 0x5D2C),
  (0x26F69, 0x4860),
  (0x26F94, 0x3E49),
  (0x26FAA, 0x5967),
  (0x26FB1, 0x332D),
  (0x26FB4, 0x5E40),
  (0x26FB7, 0x5E24),
  (0x26FD8, 0x5D4F),
  (0x27009, 0x5465),
  (0x2703D, 0x5D4F),
  (0x2704E, 0x5967),
  (0x27084, 0x5D4C),
  (0x27087, 0x5D21),
  (0x2708A, 0x5E2F),
  (0x27090, 0x3B7D),
  (0x2709A, 0x5D4F),
  (0x270B0, 0x5D23_5E27_3E55),
  (0x270C8, 0x3E55),
  (0x270CD, 0x5967),
  (0x270D3, 0x3E55),
  (0x270F0, 0x5967),
  (0x27117, 0x5D4F),
  (0x2714F, 0x5E3C),
  (0x27191, 0x5E3D),
  (0x271C1, 0x722E),
  (0x2720B, 0x5D4B),
  (0x27220, 0x5469),
  (0x27227, 0x4B64),
  (0x2722C, 0x3A67),
  (0x27265, 0x3131),
  (0x272A1, 0x724B),
  (0x272A4, 0x7266),
  (0x272A7, 0x3872),
  (0x27312, 0x7262),
  (0x27332, 0x5629),
  (0x27353, 0x7330),
  (0x27358, 0x724A),
  (0x2735B, 0x533C),
  (0x2737F, 0x7251_7261_723B_4F3A),
  (0x27397, 0x7272),
  (0x273C5, 0x7327),
  (0x273CD, 0x724F),
  (0x273CF, 0x4779),
  (0x27409, 0x5629),
  (0x2741B, 0x7273),
  (0x27463, 0x724D),
  (0x274A6, 0x555D),
  (0x274C9, 0x7253),
  (0x274CC, 0x5329),
  (0x274D2, 0x723E),
  (0x274DB, 0x7328),
  (0x274F3, 0x724E),
  (0x27508, 0x6E43),
  (0x27550, 0x7329),
  (0x27573, 0x5979),
  (0x27599, 0x7239_725D),
  (0x275CE, 0x5D4F),
  (0x275D7, 0x742C_5D4F),
  (0x2762D, 0x7440),
  (0x27669, 0x4151),
  (0x2768C, 0x5730_7443),
  (0x2769C, 0x715D_3243),
  (0x276E2, 0x6D69),
  (0x27744, 0x7160),
  (0x27749, 0x6D69),
  (0x2777A, 0x5973),
  (0x277F6, 0x3054),
  (0x2789A, 0x6A6E),
  (0x278B1, 0x5054),
  (0x27973, 0x4A2B),
  (0x27976, 0x5A3F_467D),
  (0x2797A, 0x596A),
  (0x2797E, 0x4A36),
  (0x27992, 0x5A2E),
  (0x279AB, 0x5A31),
  (0x279BD, 0x556F_3E77),
  (0x279CF, 0x5F76),
  (0x279E1, 0x4B4F),
  (0x279E7, 0x6E3A),
  (0x279FF, 0x3D4C),
  (0x27A0F, 0x526A),
  (0x27A23, 0x5A2B),
  (0x27A28, 0x5A57),
  (0x27A2D, 0x3C60),
  (0x27A42, 0x3079),
  (0x27A5B, 0x512F),
  (0x27A60, 0x376D),
  (0x27A7B, 0x5A41),
  (0x27A7D, 0x573B),
  (0x27AE7, 0x5A4F),
  (0x27AEA, 0x5A4A),
  (0x27B04, 0x503B),
  (0x27B0D, 0x5A58),
  (0x27B2F, 0x6540),
  (0x27B33, 0x526B),
  (0x27B58, 0x4657),
  (0x27BAE, 0x5A64),
  (0x27BE1, 0x4D63),
  (0x27BFF, 0x5C31),
  (0x27CB2, 0x3A7C),
  (0x27CC7, 0x3A51),
  (0x27D39, 0x6A5B),
  (0x27D47, 0x3F36),
  (0x27D4E, 0x3C56),
  (0x27D69, 0x5470_5474),
  (0x27D6E, 0x6A5C),
  (0x27D85, 0x3B5F),
  (0x27D99, 0x3133),
  (0x27D9B, 0x6A63),
  (0x27DA1, 0x6535),
  (0x27DB4, 0x3644),
  (0x27DB6, 0x3737),
  (0x27DBB, 0x4333),
  (0x27DBD, 0x344D),
  (0x27DD5, 0x574A),
  (0x27DE4, 0x5853),
  (0x27E03, 0x5245),
  (0x27E06, 0x5738),
  (0x27E0A, 0x393A),
  (0x27E11, 0x5479),
  (0x27E16, 0x572C),
  (0x27E1A, 0x4238),
  (0x27E2F, 0x5245),
  (0x27E3D, 0x5245),
  (0x27E52, 0x4272),
  (0x27E5E, 0x7476),
  (0x27E79, 0x3363),
  (0x27E87, 0x7471),
  (0x27EAB, 0x4670),
  (0x27F62, 0x322B),
  (0x27FA2, 0x5363),
  (0x27FC1, 0x6B3E),
  (0x27FD6, 0x753C),
  (0x27FDB, 0x5759),
  (0x27FF6, 0x7549),
  (0x28013, 0x455C),
  (0x2801F, 0x7562),
  (0x2807B, 0x755E),
  (0x280DF, 0x7567),
  (0x280E1, 0x7555),
  (0x28103, 0x756E),
  (0x28175, 0x4C24_546A),
  (0x2818D, 0x7571),
  (0x281AF, 0x756B),
  (0x281B2, 0x4E48),
  (0x281E5, 0x653F),
  (0x281F1, 0x7564),
  (0x281F3, 0x756D),
  (0x2822C, 0x477B),
  (0x28235, 0x754B),
  (0x2823B, 0x5754),
  (0x28246, 0x3460_5456),
  (0x28289, 0x3460),
  (0x282BE, 0x697E),
  (0x282CF, 0x6974),
  (0x282FC, 0x4E53),
  (0x28307, 0x5661),
  (0x28373, 0x6977),
  (0x2837B, 0x697D),
  (0x2838A, 0x3975),
  (0x283B2, 0x697B),
  (0x283CF, 0x6A25),
  (0x283D1, 0x6979),
  (0x283D4, 0x6A24),
  (0x283E3, 0x555E),
  (0x2840C, 0x5041),
  (0x2842B, 0x4629),
  (0x2844D, 0x396C),
  (0x28450, 0x4679),
  (0x28453, 0x4670_4670),
  (0x28456, 0x4670),
  (0x28466, 0x506C),
  (0x28477, 0x5138),
  (0x2848E, 0x6557),
  (0x284A6, 0x532D),
  (0x284B2, 0x4354),
  (0x284C6, 0x4D4B),
  (0x284CC, 0x5456),
  (0x284DC, 0x525D),
  (0x284E7, 0x5223),
  (0x284F5, 0x4B4D),
  (0x2852A, 0x544B),
  (0x2855D, 0x654D),
  (0x28589, 0x6560),
  (0x2859D, 0x762A),
  (0x285A5, 0x555A),
  (0x285BD, 0x5245),
  (0x285D2, 0x762A),
  (0x285D4, 0x5245_5771),
  (0x285E0, 0x762A),
  (0x285ED, 0x5245_5245_655B),
  (0x285F9, 0x3551),
  (0x28611, 0x412C),
  (0x28624, 0x5245),
  (0x2862B, 0x6553),
  (0x28636, 0x654E_6563),
  (0x28655, 0x6555),
  (0x2865A, 0x4275),
  (0x2867C, 0x5B2B),
  (0x2868F, 0x5B21),
  (0x286A0, 0x3A2A),
  (0x286AC, 0x4771),
  (0x286C4, 0x575E),
  (0x286E6, 0x3F24),
  (0x286EB, 0x4068),
  (0x286F7, 0x363C),
  (0x28725, 0x5B2A),
  (0x2872E, 0x4764),
  (0x28741, 0x5B28),
  (0x28765, 0x4049),
  (0x2876E, 0x5B38),
  (0x28784, 0x534A),
  (0x28787, 0x5B30),
  (0x28789, 0x5B32),
  (0x2878F, 0x3526),
  (0x28796, 0x5B39),
  (0x287A1, 0x5B26),
  (0x287B3, 0x5866),
  (0x287C0, 0x4068),
  (0x287F7, 0x752C),
  (0x287FB, 0x3D34),
  (0x28802, 0x752D),
  (0x2880F, 0x752E),
  (0x28820, 0x5051),
  (0x2882A, 0x576D),
  (0x28845, 0x4351),
  (0x28860, 0x752F),
  (0x28880, 0x3D4D),
  (0x288A9, 0x757C),
  (0x288AC, 0x7529_4B56),
  (0x288BD, 0x4B61),
  (0x288CB, 0x3457),
  (0x28913, 0x3E6C),
  (0x2894D, 0x7646),
  (0x2894F, 0x382A),
  (0x28969, 0x6E54),
  (0x2899F, 0x3766),
  (0x289AD, 0x6F29),
  (0x28A90, 0x6E57),
  (0x28AD8, 0x6F49),
  (0x28AFC, 0x764B_6E7C),
  (0x28B10, 0x6F63),
  (0x28B5C, 0x6F5C_6F21),
  (0x28B7C, 0x414D),
  (0x28B93, 0x6F64),
  (0x28BDF, 0x6F6C),
  (0x28C24, 0x6E65),
  (0x28D01, 0x327B),
  (0x28D41, 0x5156),
  (0x28D77, 0x6351),
  (0x28D9D, 0x5B53),
  (0x28DF7, 0x4376),
  (0x28E0F, 0x3837),
  (0x28E18, 0x486E),
  (0x28E1D, 0x4A4F),
  (0x28E4E, 0x4F5E),
  (0x28E5F, 0x422A),
  (0x28EA8, 0x3675),
  (0x28EB5, 0x3653),
  (0x28EF6, 0x4F36),
  (0x28F80, 0x4125),
  (0x28FA5, 0x7044),
  (0x28FF3, 0x5325),
  (0x2900C, 0x406B),
  (0x29015, 0x7645),
  (0x29018, 0x704E),
  (0x29021, 0x4451),
  (0x29050, 0x7058),
  (0x290EC, 0x5275),
  (0x2911F, 0x3028),
  (0x2912B, 0x762A),
  (0x29145, 0x6468),
  (0x2915F, 0x3122),
  (0x29186, 0x762A),
  (0x29242, 0x584C),
  (0x2927C, 0x4970),
  (0x292A6, 0x6177),
  (0x292B3, 0x392E),
  (0x292BF, 0x742A),
  (0x292CE, 0x3E73),
  (0x292F0, 0x667B),
  (0x2933B, 0x315E),
  (0x29346, 0x742A),
  (0x2940A, 0x6C34),
  (0x2942D, 0x5A45),
  (0x2944B, 0x5233),
  (0x2947C, 0x4644),
  (0x29486, 0x3625),
  (0x29491, 0x3F74),
  (0x2949B, 0x465D),
  (0x294B5, 0x476A),
  (0x294CB, 0x4035),
  (0x29516, 0x4060),
  (0x2951A, 0x4E4C),
  (0x2951C, 0x4B4C),
  (0x29530, 0x4F54),
  (0x2953A, 0x422D),
  (0x29553, 0x5424),
  (0x2958E, 0x5E30),
  (0x29593, 0x722D),
  (0x295CB, 0x372B),
  (0x295D7, 0x6C2B),
  (0x2964E, 0x5950),
  (0x29681, 0x4A33),
  (0x2968A, 0x623D),
  (0x2968E, 0x3C22_6238),
  (0x296B7, 0x4123),
  (0x296CA, 0x3125),
  (0x296DD, 0x752A),
  (0x2970B, 0x6243),
  (0x29719, 0x4844),
  (0x2972F, 0x6248),
  (0x29759, 0x4A48),
  (0x297B9, 0x7750),
  (0x29810, 0x4A57),
  (0x2982E, 0x5967),
  (0x29851, 0x7025),
  (0x2991D, 0x6670),
  (0x299BC, 0x4266),
  (0x299D9, 0x6674),
  (0x299E2, 0x3352),
  (0x29A23, 0x373E),
  (0x29A3A, 0x3039),
  (0x29A8B, 0x727C),
  (0x29AA0, 0x625F),
  (0x29AEB, 0x5A70),
  (0x29C6C, 0x415C),
  (0x29D4B, 0x5363),
  (0x29EB4, 0x7729),
  (0x29F06, 0x4070),
  (0x29F1E, 0x4070),
  (0x29FC7, 0x394D),
  (0x2A057, 0x513C),
  (0x2A069, 0x6F74),
  (0x2A0A1, 0x4574),
  (0x2A1BE, 0x7048),
  (0x2A2A8, 0x7764),
  (0x2A2E7, 0x776A),
  (0x2A301, 0x4322),
  (0x2A311, 0x303E),
  (0x2A369, 0x4278),
  (0x2A396, 0x4353),
  (0x2A424, 0x764F),
  (0x2A4A0, 0x7776),
  (0x2A4F3, 0x5629),
  (0x2A505, 0x5431),
  (0x2A5A6, 0x4C69),
  (0x2A5C7, 0x466A),
  (0x2A5C9, 0x7452),
  (0x2A600, 0x4D45),
  (0x2A68F, 0x4D45),
  (0x2F800, 0x4076_4D68),
  (0x2F804, 0x4463_4E6A),
  (0x2F808, 0x545B_3138_492E_4F71_3F21),
  (0x2F80E, 0x4362_4D43),
  (0x2F814, 0x445A_5459_3261_485F_5429_3179_362C_3F76),
  (0x2F81D, 0x5B49_4850),
  (0x2F820, 0x3F4C),
  (0x2F822, 0x386E),
  (0x2F825, 0x5342_4363_475A_4957_307C_3452_3131_3B5C_3130_3229_3C34_3C34),
  (0x2F831, 0x4764_4764_4764),
  (0x2F835, 0x3B52_3C30_5B45),
  (0x2F839, 0x3D50_5F33_5F3A),
  (0x2F83D, 0x4E7C_334A_565C),
  (0x2F842, 0x4C46_4674),
  (0x2F845, 0x4946_4946_6039),
  (0x2F849, 0x547B),
  (0x2F84B, 0x4D3C_4C3E),
  (0x2F84F, 0x4567_4750_5733_3347_5B7A_5C22_504D),
  (0x2F857, 0x3128),
  (0x2F85A, 0x4274_3A78),
  (0x2F85D, 0x3660_434E_495D),
  (0x2F862, 0x3C27_5369),
  (0x2F865, 0x6630_383E_4929),
  (0x2F869, 0x662C_4041_4041),
  (0x2F86D, 0x5429),
  (0x2F86F, 0x447E_3126),
  (0x2F872, 0x4A59_3D2B_3531_5E4C),
  (0x2F877, 0x4D40),
  (0x2F87A, 0x6129),
  (0x2F87F, 0x6151),
  (0x2F881, 0x5132_3332),
  (0x2F884, 0x5963),
  (0x2F886, 0x4331),
  (0x2F88C, 0x6258_4A7C_4048),
  (0x2F890, 0x5E43),
  (0x2F893, 0x7428),
  (0x2F898, 0x524D_504E),
  (0x2F89D, 0x484C_563E),
  (0x2F8A1, 0x3B45),
  (0x2F8A3, 0x3B5A),
  (0x2F8A6, 0x3448_3B45_4977_3B45),
  (0x2F8AB, 0x5477_4F5C_375F),
  (0x2F8B0, 0x334D_4041_3349_6A29),
  (0x2F8B5, 0x3127_304E_3E68_304E_4D6C_4634),
  (0x2F8BC, 0x4928),
  (0x2F8C1, 0x515A),
  (0x2F8C3, 0x4426),
  (0x2F8C6, 0x332D),
  (0x2F8C8, 0x4374_3E34),
  (0x2F8CB, 0x3C48_4A69_3D7A),
  (0x2F8CF, 0x4A6E),
  (0x2F8D2, 0x4330_4361_576E_4655_6B47),
  (0x2F8D8, 0x404A_4D7B),
  (0x2F8DB, 0x683D_683C),
  (0x2F8DF, 0x3955),
  (0x2F8E1, 0x4923_4337_5524),
  (0x2F8E8, 0x692B),
  (0x2F8EA, 0x3845),
  (0x2F8ED, 0x684E),
  (0x2F8EF, 0x344E),
  (0x2F8F3, 0x4B6A),
  (0x2F8F5, 0x4931_3F47),
  (0x2F8FC, 0x5158),
  (0x2F8FF, 0x4E39_4549_3A23_4177_3A46_3D7E_4479),
  (0x2F907, 0x555C_385B_644E),
  (0x2F90B, 0x574C_3561),
  (0x2F90E, 0x514D_3331),
  (0x2F913, 0x652E),
  (0x2F915, 0x652D),
  (0x2F918, 0x5456),
  (0x2F91A, 0x4C3F),
  (0x2F91C, 0x6C51_5456),
  (0x2F920, 0x6C60_3E74_5522_5140_4F2C),
  (0x2F928, 0x4C21_4D75),
  (0x2F92E, 0x6769_6824),
  (0x2F932, 0x476D),
  (0x2F934, 0x5E28_496A_675E),
  (0x2F938, 0x526C),
  (0x2F93A, 0x7075),
  (0x2F93D, 0x535B),
  (0x2F940, 0x5631_6D6C),
  (0x2F945, 0x5566_5566_5566),
  (0x2F94C, 0x4A2F),
  (0x2F94E, 0x6D4A_4235),
  (0x2F953, 0x5766),
  (0x2F956, 0x3823_6F78),
  (0x2F95B, 0x4E48),
  (0x2F962, 0x572D),
  (0x2F968, 0x745D_7456_3C4D_3E40),
  (0x2F96E, 0x673B_575C_6752),
  (0x2F973, 0x463F),
  (0x2F979, 0x303F_555F),
  (0x2F97F, 0x344F),
  (0x2F981, 0x623F_537D_3460),
  (0x2F985, 0x4622_6B74_4176_3B29),
  (0x2F98A, 0x5450_7428_742A_3447),
  (0x2F98F, 0x5C3B_5373_5625_404D_3B28_373C_513F_3F60),
  (0x2F998, 0x4874_3671_4859_3D5A),
  (0x2F99D, 0x4327),
  (0x2F99F, 0x5745),
  (0x2F9A1, 0x3E55_3E7A_324B),
  (0x2F9A7, 0x4A5F),
  (0x2F9AC, 0x5E28_5D4F),
  (0x2F9B0, 0x332D),
  (0x2F9B2, 0x5967_4530_4232_3F77),
  (0x2F9B7, 0x723F),
  (0x2F9BC, 0x357B_725C),
  (0x2F9C4, 0x5242),
  (0x2F9CF, 0x334F_5A4D_3164_7539),
  (0x2F9D4, 0x3961_6A5A_3853_4670),
  (0x2F9DA, 0x304F_7542),
  (0x2F9DD, 0x3E7C_696D_4A64_762A_5245),
  (0x2F9E3, 0x3531),
  (0x2F9E5, 0x4764),
  (0x2F9E7, 0x6E60),
  (0x2F9EB, 0x6F6A),
  (0x2F9EE, 0x3F2A),
  (0x2F9F0, 0x4931_6351),
  (0x2F9F6, 0x6468),
  (0x2F9FB, 0x6C34),
  (0x2F9FE, 0x394B_394B),
  (0x2FA02, 0x3C22),
  (0x2FA15, 0x4269),
  (0x2FA17, 0x6D69_763C_5629),
  (0x2FA1C, 0x3147_4D45)]

/-- /repo/modules/to/GB2312-TRANS.txt; there is no file for reading. -/
def gb2312Trans : Charset where
  reads := []
  writes := gb2312TransWrites

end Verif.Charsets
