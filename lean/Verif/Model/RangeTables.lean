import Verif.Model.Range
/-
Generated by tools/ranges.py from the interval tables of /repo/modules/filter/*.c, /repo/modules/scorer/*.c,
/repo/modules/inter/_WIDTH.h, /repo/modules/inter/_AMBIGUOUS.h and /repo/modules/inter/_NF-CCC.h.
-/
namespace Verif.Range

set_option maxRecDepth 100000

/-- /repo/modules/filter/ARABIC.c (`ranges`) -/
def filterARABIC : List Row := [
  ⟨0x0600, 0x06FF, 1⟩, ⟨0x0750, 0x077F, 1⟩, ⟨0x08A0, 0x08FF, 1⟩, ⟨0xFB50, 0xFDFF, 1⟩, ⟨0xFE70, 0xFEFF, 1⟩,
  ⟨0x10A60, 0x10A7F, 1⟩, ⟨0x10A80, 0x10A9F, 1⟩, ⟨0x1EE00, 0x1EEFF, 1⟩]

/-- /repo/modules/filter/ARMENIAN.c (`ranges`) -/
def filterARMENIAN : List Row := [
  ⟨0x0530, 0x058F, 1⟩]

/-- /repo/modules/filter/ARROWS.c (`ranges`) -/
def filterARROWS : List Row := [
  ⟨0x2190, 0x21FF, 1⟩, ⟨0x27F0, 0x27FF, 1⟩, ⟨0x2900, 0x297F, 1⟩, ⟨0x2B00, 0x2BFF, 1⟩, ⟨0x1F800, 0x1F8FF, 1⟩]

/-- /repo/modules/filter/BRAILLE.c (`ranges`) -/
def filterBRAILLE : List Row := [
  ⟨0x2800, 0x28FF, 1⟩]

/-- /repo/modules/filter/CHEROKEE.c (`ranges`) -/
def filterCHEROKEE : List Row := [
  ⟨0x13A0, 0x13FF, 1⟩]

/-- /repo/modules/filter/CJK.c (`ranges`) -/
def filterCJK : List Row := [
  ⟨0x1100, 0x11FF, 1⟩, ⟨0x2E80, 0x2EFF, 1⟩, ⟨0x2F00, 0x2FDF, 1⟩, ⟨0x2FF0, 0x2FFF, 1⟩, ⟨0x3000, 0x303F, 1⟩,
  ⟨0x3040, 0x309F, 1⟩, ⟨0x30A0, 0x30FF, 1⟩, ⟨0x3100, 0x312F, 1⟩, ⟨0x3130, 0x318F, 1⟩, ⟨0x3190, 0x319F, 1⟩,
  ⟨0x31A0, 0x31BF, 1⟩, ⟨0x31C0, 0x31EF, 1⟩, ⟨0x31F0, 0x31FF, 1⟩, ⟨0x3200, 0x32FF, 1⟩, ⟨0x3300, 0x33FF, 1⟩,
  ⟨0x3400, 0x4DBF, 1⟩, ⟨0x4DC0, 0x4DFF, 1⟩, ⟨0x4E00, 0x9FFF, 1⟩, ⟨0xA000, 0xA48F, 1⟩, ⟨0xA490, 0xA4CF, 1⟩,
  ⟨0xA960, 0xA97F, 1⟩, ⟨0xAC00, 0xD7AF, 1⟩, ⟨0xD7B0, 0xD7FF, 1⟩, ⟨0xF900, 0xFAFF, 1⟩, ⟨0xFE30, 0xFE4F, 1⟩,
  ⟨0x1B000, 0x1B0FF, 1⟩, ⟨0x1B100, 0x1B12F, 1⟩, ⟨0x1D300, 0x1D35F, 1⟩, ⟨0x20000, 0x2A6DF, 1⟩,
  ⟨0x2A700, 0x2B73F, 1⟩, ⟨0x2B740, 0x2B81F, 1⟩, ⟨0x2B820, 0x2CEAF, 1⟩, ⟨0x2CEB0, 0x2EBEF, 1⟩,
  ⟨0x2F800, 0x2FA1F, 1⟩, ⟨0x30000, 0x3134F, 1⟩]

/-- /repo/modules/filter/CUNEIFORM.c (`ranges`) -/
def filterCUNEIFORM : List Row := [
  ⟨0x12000, 0x123FF, 1⟩, ⟨0x12400, 0x1247F, 1⟩]

/-- /repo/modules/filter/CURRENCY.c (`ranges`) -/
def filterCURRENCY : List Row := [
  ⟨0x20A0, 0x20CF, 1⟩]

/-- /repo/modules/filter/CYRILLIC.c (`ranges`) -/
def filterCYRILLIC : List Row := [
  ⟨0x0400, 0x04FF, 1⟩, ⟨0x0500, 0x052F, 1⟩, ⟨0x1C80, 0x1C8F, 1⟩, ⟨0x2DE0, 0x2DFF, 1⟩, ⟨0xA640, 0xA69F, 1⟩]

/-- /repo/modules/filter/DEVANAGARI.c (`ranges`) -/
def filterDEVANAGARI : List Row := [
  ⟨0x0900, 0x097F, 1⟩, ⟨0xA8E0, 0xA8FF, 1⟩]

/-- /repo/modules/filter/EGYPTIAN.c (`ranges`) -/
def filterEGYPTIAN : List Row := [
  ⟨0x13000, 0x1342F, 1⟩, ⟨0x13430, 0x1343F, 1⟩]

/-- /repo/modules/filter/EMOTICON.c (`ranges`) -/
def filterEMOTICON : List Row := [
  ⟨0x1F600, 0x1F64F, 1⟩]

/-- /repo/modules/filter/ETHIOPIC.c (`ranges`) -/
def filterETHIOPIC : List Row := [
  ⟨0x1200, 0x137F, 1⟩, ⟨0x1380, 0x139F, 1⟩, ⟨0x2D80, 0x2DDF, 1⟩, ⟨0xAB00, 0xAB2F, 1⟩]

/-- /repo/modules/filter/GEORGIAN.c (`ranges`) -/
def filterGEORGIAN : List Row := [
  ⟨0x10A0, 0x10FF, 1⟩, ⟨0x1C90, 0x1CBF, 1⟩, ⟨0x2D00, 0x2D2F, 1⟩]

/-- /repo/modules/filter/GREEK.c (`ranges`) -/
def filterGREEK : List Row := [
  ⟨0x0370, 0x03FF, 1⟩, ⟨0x1F00, 0x1FFF, 1⟩, ⟨0x10140, 0x1018F, 1⟩, ⟨0x1D200, 0x1D24F, 1⟩]

/-- /repo/modules/filter/HANGUL.c (`ranges`) -/
def filterHANGUL : List Row := [
  ⟨0x1100, 0x11FF, 1⟩, ⟨0x3130, 0x318F, 1⟩, ⟨0xA960, 0xA97F, 1⟩, ⟨0xAC00, 0xD7AF, 1⟩, ⟨0xD7B0, 0xD7FF, 1⟩]

/-- /repo/modules/filter/HEBREW.c (`ranges`) -/
def filterHEBREW : List Row := [
  ⟨0x0590, 0x05FF, 1⟩]

/-- /repo/modules/filter/HIRAGANA.c (`ranges`) -/
def filterHIRAGANA : List Row := [
  ⟨0x3040, 0x309F, 1⟩]

/-- /repo/modules/filter/IPA.c (`ranges`) -/
def filterIPA : List Row := [
  ⟨0x0250, 0x02AF, 1⟩]

/-- /repo/modules/filter/JAVANESE.c (`ranges`) -/
def filterJAVANESE : List Row := [
  ⟨0xA980, 0xA9DF, 1⟩]

/-- /repo/modules/filter/KANNADA.c (`ranges`) -/
def filterKANNADA : List Row := [
  ⟨0x0C80, 0x0CFF, 1⟩]

/-- /repo/modules/filter/KATAKANA.c (`ranges`) -/
def filterKATAKANA : List Row := [
  ⟨0x30A0, 0x30FF, 1⟩, ⟨0x31F0, 0x31FF, 1⟩]

/-- /repo/modules/filter/KHMER.c (`ranges`) -/
def filterKHMER : List Row := [
  ⟨0x1780, 0x17FF, 1⟩, ⟨0x19E0, 0x19FF, 1⟩]

/-- /repo/modules/filter/LAO.c (`ranges`) -/
def filterLAO : List Row := [
  ⟨0x0E80, 0x0EFF, 1⟩]

/-- /repo/modules/filter/LATIN.c (`ranges`) -/
def filterLATIN : List Row := [
  ⟨0x0000, 0x007F, 1⟩, ⟨0x0080, 0x00FF, 1⟩, ⟨0x0100, 0x017F, 1⟩, ⟨0x0180, 0x024F, 1⟩, ⟨0x1E00, 0x1EFF, 1⟩,
  ⟨0x2C60, 0x2C7F, 1⟩, ⟨0xA720, 0xA7FF, 1⟩, ⟨0xAB30, 0xAB6F, 1⟩]

/-- /repo/modules/filter/LATIN1.c (`ranges`) -/
def filterLATIN1 : List Row := [
  ⟨0x0, 0x80, 1⟩, ⟨0x82, 0x8C, 1⟩, ⟨0x8E, 0x8E, 1⟩, ⟨0x91, 0x9C, 1⟩, ⟨0x9E, 0xFF, 1⟩]

/-- /repo/modules/filter/MAHJONG.c (`ranges`) -/
def filterMAHJONG : List Row := [
  ⟨0x1F000, 0x1F02F, 1⟩]

/-- /repo/modules/filter/MALAYALAM.c (`ranges`) -/
def filterMALAYALAM : List Row := [
  ⟨0x0D00, 0x0D7F, 1⟩]

/-- /repo/modules/filter/MATH.c (`ranges`) -/
def filterMATH : List Row := [
  ⟨0x2200, 0x22FF, 1⟩, ⟨0x27C0, 0x27EF, 1⟩, ⟨0x2980, 0x29FF, 1⟩, ⟨0x2A00, 0x2AFF, 1⟩, ⟨0x1D400, 0x1D7FF, 1⟩,
  ⟨0x1EE00, 0x1EEFF, 1⟩]

/-- /repo/modules/filter/MIAO.c (`ranges`) -/
def filterMIAO : List Row := [
  ⟨0x16F00, 0x16F9F, 1⟩]

/-- /repo/modules/filter/MONGOLIAN.c (`ranges`) -/
def filterMONGOLIAN : List Row := [
  ⟨0x1800, 0x18AF, 1⟩]

/-- /repo/modules/filter/MUSIC.c (`ranges`) -/
def filterMUSIC : List Row := [
  ⟨0x1D000, 0x1D0FF, 1⟩, ⟨0x1D100, 0x1D1FF, 1⟩, ⟨0x1D200, 0x1D24F, 1⟩]

/-- /repo/modules/filter/MYANMAR.c (`ranges`) -/
def filterMYANMAR : List Row := [
  ⟨0x1000, 0x109F, 1⟩, ⟨0xA9E0, 0xA9FF, 1⟩, ⟨0xAA60, 0xAA7F, 1⟩]

/-- /repo/modules/filter/PHONETIC.c (`ranges`) -/
def filterPHONETIC : List Row := [
  ⟨0x0250, 0x02AF, 1⟩, ⟨0x1D00, 0x1D7F, 1⟩, ⟨0x1D80, 0x1DBF, 1⟩]

/-- /repo/modules/filter/PRINT.c (`ranges`) -/
def filterPRINT : List Row := [
  ⟨0x1F, 0x7E, 1⟩]

/-- /repo/modules/filter/PUA.c (`ranges`) -/
def filterPUA : List Row := [
  ⟨0xE000, 0xF8FF, 1⟩, ⟨0xF0000, 0xFFFFF, 1⟩, ⟨0x100000, 0x10FFFF, 1⟩]

/-- /repo/modules/filter/PUNCTUATION.c (`ranges`) -/
def filterPUNCTUATION : List Row := [
  ⟨0x2000, 0x206F, 1⟩, ⟨0x2E00, 0x2E7F, 1⟩, ⟨0x3000, 0x303F, 1⟩, ⟨0x12400, 0x1247F, 1⟩, ⟨0x16FE0, 0x16FFF, 1⟩]

/-- /repo/modules/filter/ROMAN.c (`ranges`) -/
def filterROMAN : List Row := [
  ⟨0x30, 0x39, 1⟩, ⟨0x41, 0x5A, 1⟩, ⟨0x61, 0x7A, 1⟩]

/-- /repo/modules/filter/SAMARITAN.c (`ranges`) -/
def filterSAMARITAN : List Row := [
  ⟨0x0800, 0x083F, 1⟩]

/-- /repo/modules/filter/SINHALA.c (`ranges`) -/
def filterSINHALA : List Row := [
  ⟨0x0D80, 0x0DFF, 1⟩, ⟨0x111E0, 0x111FF, 1⟩]

/-- /repo/modules/filter/SUNDANESE.c (`ranges`) -/
def filterSUNDANESE : List Row := [
  ⟨0x1B80, 0x1BBF, 1⟩, ⟨0x1CC0, 0x1CCF, 1⟩]

/-- /repo/modules/filter/SYRIAC.c (`ranges`) -/
def filterSYRIAC : List Row := [
  ⟨0x0700, 0x074F, 1⟩]

/-- /repo/modules/filter/TAGALOG.c (`ranges`) -/
def filterTAGALOG : List Row := [
  ⟨0x1700, 0x171F, 1⟩]

/-- /repo/modules/filter/TAMIL.c (`ranges`) -/
def filterTAMIL : List Row := [
  ⟨0x0B80, 0x0BFF, 1⟩]

/-- /repo/modules/filter/TELUGU.c (`ranges`) -/
def filterTELUGU : List Row := [
  ⟨0x0C00, 0x0C7F, 1⟩]

/-- /repo/modules/filter/THAI.c (`ranges`) -/
def filterTHAI : List Row := [
  ⟨0x0E00, 0x0E7F, 1⟩]

/-- /repo/modules/filter/TIBETAN.c (`ranges`) -/
def filterTIBETAN : List Row := [
  ⟨0x0F00, 0x0FFF, 1⟩]

/-- /repo/modules/filter/TIFINAGH.c (`ranges`) -/
def filterTIFINAGH : List Row := [
  ⟨0x2D30, 0x2D7F, 1⟩]

/-- /repo/modules/filter/YI.c (`ranges`) -/
def filterYI : List Row := [
  ⟨0xA000, 0xA48F, 1⟩, ⟨0xA490, 0xA4CF, 1⟩]

/-- /repo/modules/scorer/CJK.c (`ranges`) -/
def scorerCJK : List Row := [
  ⟨0x0, 0x7F, 4⟩, ⟨0x3000, 0x303F, 4⟩, ⟨0x3040, 0x309F, 5⟩, ⟨0x30A0, 0x30FF, 5⟩, ⟨0x3100, 0x312F, 4⟩,
  ⟨0x3400, 0x4DB5, 3⟩, ⟨0x4E00, 0x6FFF, 5⟩, ⟨0x7000, 0x9FA5, 4⟩, ⟨0x9FA6, 0x9FBB, 3⟩, ⟨0xAC00, 0xD7AF, 3⟩,
  ⟨0xF900, 0xFA2D, 4⟩, ⟨0xFA30, 0xFA6A, 4⟩, ⟨0xFA70, 0xFAD9, 2⟩, ⟨0xFF00, 0xFFEF, 3⟩, ⟨0x20000, 0x2A6D6, 1⟩,
  ⟨0x2F800, 0x2FA1D, 1⟩]

/-- /repo/modules/scorer/LATIN1.c (`ranges`) -/
def scorerLATIN1 : List Row := [
  ⟨0x0, 0x80, 2⟩, ⟨0x82, 0x8C, 2⟩, ⟨0x8E, 0x8E, 2⟩, ⟨0x91, 0x9C, 2⟩, ⟨0x9E, 0xFF, 2⟩]

/-- /repo/modules/inter/_WIDTH.h (`width_table`; HALF = 1, FULL = 2, AMBI = -1, /repo/modules/inter/WIDTH.c:3-5) -/
def widthTable : List Row := [
  ⟨0x0020, 0x007E, 1⟩, ⟨0x00A0, 0x00A0, 1⟩, ⟨0x00A1, 0x00A1, -1⟩, ⟨0x00A2, 0x00A3, 1⟩, ⟨0x00A4, 0x00A4, -1⟩,
  ⟨0x00A5, 0x00A6, 1⟩, ⟨0x00A7, 0x00A8, -1⟩, ⟨0x00A9, 0x00A9, 1⟩, ⟨0x00AA, 0x00AA, -1⟩, ⟨0x00AB, 0x00AC, 1⟩,
  ⟨0x00AD, 0x00AE, -1⟩, ⟨0x00AF, 0x00AF, 1⟩, ⟨0x00B0, 0x00B4, -1⟩, ⟨0x00B5, 0x00B5, 1⟩, ⟨0x00B6, 0x00BA, -1⟩,
  ⟨0x00BB, 0x00BB, 1⟩, ⟨0x00BC, 0x00BF, -1⟩, ⟨0x00C0, 0x00C5, 1⟩, ⟨0x00C6, 0x00C6, -1⟩, ⟨0x00C7, 0x00CF, 1⟩,
  ⟨0x00D0, 0x00D0, -1⟩, ⟨0x00D1, 0x00D6, 1⟩, ⟨0x00D7, 0x00D8, -1⟩, ⟨0x00D9, 0x00DD, 1⟩, ⟨0x00DE, 0x00E1, -1⟩,
  ⟨0x00E2, 0x00E5, 1⟩, ⟨0x00E6, 0x00E6, -1⟩, ⟨0x00E7, 0x00E7, 1⟩, ⟨0x00E8, 0x00EA, -1⟩, ⟨0x00EB, 0x00EB, 1⟩,
  ⟨0x00EC, 0x00ED, -1⟩, ⟨0x00EE, 0x00EF, 1⟩, ⟨0x00F0, 0x00F0, -1⟩, ⟨0x00F1, 0x00F1, 1⟩, ⟨0x00F2, 0x00F3, -1⟩,
  ⟨0x00F4, 0x00F6, 1⟩, ⟨0x00F7, 0x00FA, -1⟩, ⟨0x00FB, 0x00FB, 1⟩, ⟨0x00FC, 0x00FC, -1⟩, ⟨0x00FD, 0x00FD, 1⟩,
  ⟨0x00FE, 0x00FE, -1⟩, ⟨0x00FF, 0x0100, 1⟩, ⟨0x0101, 0x0101, -1⟩, ⟨0x0102, 0x0110, 1⟩, ⟨0x0111, 0x0111, -1⟩,
  ⟨0x0112, 0x0112, 1⟩, ⟨0x0113, 0x0113, -1⟩, ⟨0x0114, 0x011A, 1⟩, ⟨0x011B, 0x011B, -1⟩, ⟨0x011C, 0x0125, 1⟩,
  ⟨0x0126, 0x0127, -1⟩, ⟨0x0128, 0x012A, 1⟩, ⟨0x012B, 0x012B, -1⟩, ⟨0x012C, 0x0130, 1⟩, ⟨0x0131, 0x0133, -1⟩,
  ⟨0x0134, 0x0137, 1⟩, ⟨0x0138, 0x0138, -1⟩, ⟨0x0139, 0x013E, 1⟩, ⟨0x013F, 0x0142, -1⟩, ⟨0x0143, 0x0143, 1⟩,
  ⟨0x0144, 0x0144, -1⟩, ⟨0x0145, 0x0147, 1⟩, ⟨0x0148, 0x014B, -1⟩, ⟨0x014C, 0x014C, 1⟩, ⟨0x014D, 0x014D, -1⟩,
  ⟨0x014E, 0x0151, 1⟩, ⟨0x0152, 0x0153, -1⟩, ⟨0x0154, 0x0165, 1⟩, ⟨0x0166, 0x0167, -1⟩, ⟨0x0168, 0x016A, 1⟩,
  ⟨0x016B, 0x016B, -1⟩, ⟨0x016C, 0x01CD, 1⟩, ⟨0x01CE, 0x01CE, -1⟩, ⟨0x01CF, 0x01CF, 1⟩, ⟨0x01D0, 0x01D0, -1⟩,
  ⟨0x01D1, 0x01D1, 1⟩, ⟨0x01D2, 0x01D2, -1⟩, ⟨0x01D3, 0x01D3, 1⟩, ⟨0x01D4, 0x01D4, -1⟩, ⟨0x01D5, 0x01D5, 1⟩,
  ⟨0x01D6, 0x01D6, -1⟩, ⟨0x01D7, 0x01D7, 1⟩, ⟨0x01D8, 0x01D8, -1⟩, ⟨0x01D9, 0x01D9, 1⟩, ⟨0x01DA, 0x01DA, -1⟩,
  ⟨0x01DB, 0x01DB, 1⟩, ⟨0x01DC, 0x01DC, -1⟩, ⟨0x01DD, 0x0250, 1⟩, ⟨0x0251, 0x0251, -1⟩, ⟨0x0252, 0x0260, 1⟩,
  ⟨0x0261, 0x0261, -1⟩, ⟨0x0262, 0x02C3, 1⟩, ⟨0x02C4, 0x02C4, -1⟩, ⟨0x02C5, 0x02C6, 1⟩, ⟨0x02C7, 0x02C7, -1⟩,
  ⟨0x02C8, 0x02C8, 1⟩, ⟨0x02C9, 0x02CB, -1⟩, ⟨0x02CC, 0x02CC, 1⟩, ⟨0x02CD, 0x02CD, -1⟩, ⟨0x02CE, 0x02CF, 1⟩,
  ⟨0x02D0, 0x02D0, -1⟩, ⟨0x02D1, 0x02D7, 1⟩, ⟨0x02D8, 0x02DB, -1⟩, ⟨0x02DC, 0x02DC, 1⟩, ⟨0x02DD, 0x02DD, -1⟩,
  ⟨0x02DE, 0x02DE, 1⟩, ⟨0x02DF, 0x02DF, -1⟩, ⟨0x02E0, 0x02FF, 1⟩, ⟨0x0300, 0x036F, -1⟩, ⟨0x0370, 0x0377, 1⟩,
  ⟨0x037A, 0x037F, 1⟩, ⟨0x0384, 0x038A, 1⟩, ⟨0x038C, 0x038C, 1⟩, ⟨0x038E, 0x0390, 1⟩, ⟨0x0391, 0x03A1, -1⟩,
  ⟨0x03A3, 0x03A9, -1⟩, ⟨0x03AA, 0x03B0, 1⟩, ⟨0x03B1, 0x03C1, -1⟩, ⟨0x03C2, 0x03C2, 1⟩, ⟨0x03C3, 0x03C9, -1⟩,
  ⟨0x03CA, 0x0400, 1⟩, ⟨0x0401, 0x0401, -1⟩, ⟨0x0402, 0x040F, 1⟩, ⟨0x0410, 0x044F, -1⟩, ⟨0x0450, 0x0450, 1⟩,
  ⟨0x0451, 0x0451, -1⟩, ⟨0x0452, 0x052F, 1⟩, ⟨0x0531, 0x0556, 1⟩, ⟨0x0559, 0x058A, 1⟩, ⟨0x058D, 0x058F, 1⟩,
  ⟨0x0591, 0x05C7, 1⟩, ⟨0x05D0, 0x05EA, 1⟩, ⟨0x05EF, 0x05F4, 1⟩, ⟨0x0600, 0x061C, 1⟩, ⟨0x061E, 0x070D, 1⟩,
  ⟨0x070F, 0x074A, 1⟩, ⟨0x074D, 0x07B1, 1⟩, ⟨0x07C0, 0x07FA, 1⟩, ⟨0x07FD, 0x082D, 1⟩, ⟨0x0830, 0x083E, 1⟩,
  ⟨0x0840, 0x085B, 1⟩, ⟨0x085E, 0x085E, 1⟩, ⟨0x0860, 0x086A, 1⟩, ⟨0x08A0, 0x08B4, 1⟩, ⟨0x08B6, 0x08C7, 1⟩,
  ⟨0x08D3, 0x0983, 1⟩, ⟨0x0985, 0x098C, 1⟩, ⟨0x098F, 0x0990, 1⟩, ⟨0x0993, 0x09A8, 1⟩, ⟨0x09AA, 0x09B0, 1⟩,
  ⟨0x09B2, 0x09B2, 1⟩, ⟨0x09B6, 0x09B9, 1⟩, ⟨0x09BC, 0x09C4, 1⟩, ⟨0x09C7, 0x09C8, 1⟩, ⟨0x09CB, 0x09CE, 1⟩,
  ⟨0x09D7, 0x09D7, 1⟩, ⟨0x09DC, 0x09DD, 1⟩, ⟨0x09DF, 0x09E3, 1⟩, ⟨0x09E6, 0x09FE, 1⟩, ⟨0x0A01, 0x0A03, 1⟩,
  ⟨0x0A05, 0x0A0A, 1⟩, ⟨0x0A0F, 0x0A10, 1⟩, ⟨0x0A13, 0x0A28, 1⟩, ⟨0x0A2A, 0x0A30, 1⟩, ⟨0x0A32, 0x0A33, 1⟩,
  ⟨0x0A35, 0x0A36, 1⟩, ⟨0x0A38, 0x0A39, 1⟩, ⟨0x0A3C, 0x0A3C, 1⟩, ⟨0x0A3E, 0x0A42, 1⟩, ⟨0x0A47, 0x0A48, 1⟩,
  ⟨0x0A4B, 0x0A4D, 1⟩, ⟨0x0A51, 0x0A51, 1⟩, ⟨0x0A59, 0x0A5C, 1⟩, ⟨0x0A5E, 0x0A5E, 1⟩, ⟨0x0A66, 0x0A76, 1⟩,
  ⟨0x0A81, 0x0A83, 1⟩, ⟨0x0A85, 0x0A8D, 1⟩, ⟨0x0A8F, 0x0A91, 1⟩, ⟨0x0A93, 0x0AA8, 1⟩, ⟨0x0AAA, 0x0AB0, 1⟩,
  ⟨0x0AB2, 0x0AB3, 1⟩, ⟨0x0AB5, 0x0AB9, 1⟩, ⟨0x0ABC, 0x0AC5, 1⟩, ⟨0x0AC7, 0x0AC9, 1⟩, ⟨0x0ACB, 0x0ACD, 1⟩,
  ⟨0x0AD0, 0x0AD0, 1⟩, ⟨0x0AE0, 0x0AE3, 1⟩, ⟨0x0AE6, 0x0AF1, 1⟩, ⟨0x0AF9, 0x0AFF, 1⟩, ⟨0x0B01, 0x0B03, 1⟩,
  ⟨0x0B05, 0x0B0C, 1⟩, ⟨0x0B0F, 0x0B10, 1⟩, ⟨0x0B13, 0x0B28, 1⟩, ⟨0x0B2A, 0x0B30, 1⟩, ⟨0x0B32, 0x0B33, 1⟩,
  ⟨0x0B35, 0x0B39, 1⟩, ⟨0x0B3C, 0x0B44, 1⟩, ⟨0x0B47, 0x0B48, 1⟩, ⟨0x0B4B, 0x0B4D, 1⟩, ⟨0x0B55, 0x0B57, 1⟩,
  ⟨0x0B5C, 0x0B5D, 1⟩, ⟨0x0B5F, 0x0B63, 1⟩, ⟨0x0B66, 0x0B77, 1⟩, ⟨0x0B82, 0x0B83, 1⟩, ⟨0x0B85, 0x0B8A, 1⟩,
  ⟨0x0B8E, 0x0B90, 1⟩, ⟨0x0B92, 0x0B95, 1⟩, ⟨0x0B99, 0x0B9A, 1⟩, ⟨0x0B9C, 0x0B9C, 1⟩, ⟨0x0B9E, 0x0B9F, 1⟩,
  ⟨0x0BA3, 0x0BA4, 1⟩, ⟨0x0BA8, 0x0BAA, 1⟩, ⟨0x0BAE, 0x0BB9, 1⟩, ⟨0x0BBE, 0x0BC2, 1⟩, ⟨0x0BC6, 0x0BC8, 1⟩,
  ⟨0x0BCA, 0x0BCD, 1⟩, ⟨0x0BD0, 0x0BD0, 1⟩, ⟨0x0BD7, 0x0BD7, 1⟩, ⟨0x0BE6, 0x0BFA, 1⟩, ⟨0x0C00, 0x0C0C, 1⟩,
  ⟨0x0C0E, 0x0C10, 1⟩, ⟨0x0C12, 0x0C28, 1⟩, ⟨0x0C2A, 0x0C39, 1⟩, ⟨0x0C3D, 0x0C44, 1⟩, ⟨0x0C46, 0x0C48, 1⟩,
  ⟨0x0C4A, 0x0C4D, 1⟩, ⟨0x0C55, 0x0C56, 1⟩, ⟨0x0C58, 0x0C5A, 1⟩, ⟨0x0C60, 0x0C63, 1⟩, ⟨0x0C66, 0x0C6F, 1⟩,
  ⟨0x0C77, 0x0C8C, 1⟩, ⟨0x0C8E, 0x0C90, 1⟩, ⟨0x0C92, 0x0CA8, 1⟩, ⟨0x0CAA, 0x0CB3, 1⟩, ⟨0x0CB5, 0x0CB9, 1⟩,
  ⟨0x0CBC, 0x0CC4, 1⟩, ⟨0x0CC6, 0x0CC8, 1⟩, ⟨0x0CCA, 0x0CCD, 1⟩, ⟨0x0CD5, 0x0CD6, 1⟩, ⟨0x0CDE, 0x0CDE, 1⟩,
  ⟨0x0CE0, 0x0CE3, 1⟩, ⟨0x0CE6, 0x0CEF, 1⟩, ⟨0x0CF1, 0x0CF2, 1⟩, ⟨0x0D00, 0x0D0C, 1⟩, ⟨0x0D0E, 0x0D10, 1⟩,
  ⟨0x0D12, 0x0D44, 1⟩, ⟨0x0D46, 0x0D48, 1⟩, ⟨0x0D4A, 0x0D4F, 1⟩, ⟨0x0D54, 0x0D63, 1⟩, ⟨0x0D66, 0x0D7F, 1⟩,
  ⟨0x0D81, 0x0D83, 1⟩, ⟨0x0D85, 0x0D96, 1⟩, ⟨0x0D9A, 0x0DB1, 1⟩, ⟨0x0DB3, 0x0DBB, 1⟩, ⟨0x0DBD, 0x0DBD, 1⟩,
  ⟨0x0DC0, 0x0DC6, 1⟩, ⟨0x0DCA, 0x0DCA, 1⟩, ⟨0x0DCF, 0x0DD4, 1⟩, ⟨0x0DD6, 0x0DD6, 1⟩, ⟨0x0DD8, 0x0DDF, 1⟩,
  ⟨0x0DE6, 0x0DEF, 1⟩, ⟨0x0DF2, 0x0DF4, 1⟩, ⟨0x0E01, 0x0E3A, 1⟩, ⟨0x0E3F, 0x0E5B, 1⟩, ⟨0x0E81, 0x0E82, 1⟩,
  ⟨0x0E84, 0x0E84, 1⟩, ⟨0x0E86, 0x0E8A, 1⟩, ⟨0x0E8C, 0x0EA3, 1⟩, ⟨0x0EA5, 0x0EA5, 1⟩, ⟨0x0EA7, 0x0EBD, 1⟩,
  ⟨0x0EC0, 0x0EC4, 1⟩, ⟨0x0EC6, 0x0EC6, 1⟩, ⟨0x0EC8, 0x0ECD, 1⟩, ⟨0x0ED0, 0x0ED9, 1⟩, ⟨0x0EDC, 0x0EDF, 1⟩,
  ⟨0x0F00, 0x0F47, 1⟩, ⟨0x0F49, 0x0F6C, 1⟩, ⟨0x0F71, 0x0F97, 1⟩, ⟨0x0F99, 0x0FBC, 1⟩, ⟨0x0FBE, 0x0FCC, 1⟩,
  ⟨0x0FCE, 0x0FDA, 1⟩, ⟨0x1000, 0x10C5, 1⟩, ⟨0x10C7, 0x10C7, 1⟩, ⟨0x10CD, 0x10CD, 1⟩, ⟨0x10D0, 0x10FF, 1⟩,
  ⟨0x1100, 0x115F, 2⟩, ⟨0x1160, 0x1248, 1⟩, ⟨0x124A, 0x124D, 1⟩, ⟨0x1250, 0x1256, 1⟩, ⟨0x1258, 0x1258, 1⟩,
  ⟨0x125A, 0x125D, 1⟩, ⟨0x1260, 0x1288, 1⟩, ⟨0x128A, 0x128D, 1⟩, ⟨0x1290, 0x12B0, 1⟩, ⟨0x12B2, 0x12B5, 1⟩,
  ⟨0x12B8, 0x12BE, 1⟩, ⟨0x12C0, 0x12C0, 1⟩, ⟨0x12C2, 0x12C5, 1⟩, ⟨0x12C8, 0x12D6, 1⟩, ⟨0x12D8, 0x1310, 1⟩,
  ⟨0x1312, 0x1315, 1⟩, ⟨0x1318, 0x135A, 1⟩, ⟨0x135D, 0x137C, 1⟩, ⟨0x1380, 0x1399, 1⟩, ⟨0x13A0, 0x13F5, 1⟩,
  ⟨0x13F8, 0x13FD, 1⟩, ⟨0x1400, 0x169C, 1⟩, ⟨0x16A0, 0x16F8, 1⟩, ⟨0x1700, 0x170C, 1⟩, ⟨0x170E, 0x1714, 1⟩,
  ⟨0x1720, 0x1736, 1⟩, ⟨0x1740, 0x1753, 1⟩, ⟨0x1760, 0x176C, 1⟩, ⟨0x176E, 0x1770, 1⟩, ⟨0x1772, 0x1773, 1⟩,
  ⟨0x1780, 0x17DD, 1⟩, ⟨0x17E0, 0x17E9, 1⟩, ⟨0x17F0, 0x17F9, 1⟩, ⟨0x1800, 0x180E, 1⟩, ⟨0x1810, 0x1819, 1⟩,
  ⟨0x1820, 0x1878, 1⟩, ⟨0x1880, 0x18AA, 1⟩, ⟨0x18B0, 0x18F5, 1⟩, ⟨0x1900, 0x191E, 1⟩, ⟨0x1920, 0x192B, 1⟩,
  ⟨0x1930, 0x193B, 1⟩, ⟨0x1940, 0x1940, 1⟩, ⟨0x1944, 0x196D, 1⟩, ⟨0x1970, 0x1974, 1⟩, ⟨0x1980, 0x19AB, 1⟩,
  ⟨0x19B0, 0x19C9, 1⟩, ⟨0x19D0, 0x19DA, 1⟩, ⟨0x19DE, 0x1A1B, 1⟩, ⟨0x1A1E, 0x1A5E, 1⟩, ⟨0x1A60, 0x1A7C, 1⟩,
  ⟨0x1A7F, 0x1A89, 1⟩, ⟨0x1A90, 0x1A99, 1⟩, ⟨0x1AA0, 0x1AAD, 1⟩, ⟨0x1AB0, 0x1AC0, 1⟩, ⟨0x1B00, 0x1B4B, 1⟩,
  ⟨0x1B50, 0x1B7C, 1⟩, ⟨0x1B80, 0x1BF3, 1⟩, ⟨0x1BFC, 0x1C37, 1⟩, ⟨0x1C3B, 0x1C49, 1⟩, ⟨0x1C4D, 0x1C88, 1⟩,
  ⟨0x1C90, 0x1CBA, 1⟩, ⟨0x1CBD, 0x1CC7, 1⟩, ⟨0x1CD0, 0x1CFA, 1⟩, ⟨0x1D00, 0x1DF9, 1⟩, ⟨0x1DFB, 0x1F15, 1⟩,
  ⟨0x1F18, 0x1F1D, 1⟩, ⟨0x1F20, 0x1F45, 1⟩, ⟨0x1F48, 0x1F4D, 1⟩, ⟨0x1F50, 0x1F57, 1⟩, ⟨0x1F59, 0x1F59, 1⟩,
  ⟨0x1F5B, 0x1F5B, 1⟩, ⟨0x1F5D, 0x1F5D, 1⟩, ⟨0x1F5F, 0x1F7D, 1⟩, ⟨0x1F80, 0x1FB4, 1⟩, ⟨0x1FB6, 0x1FC4, 1⟩,
  ⟨0x1FC6, 0x1FD3, 1⟩, ⟨0x1FD6, 0x1FDB, 1⟩, ⟨0x1FDD, 0x1FEF, 1⟩, ⟨0x1FF2, 0x1FF4, 1⟩, ⟨0x1FF6, 0x1FFE, 1⟩,
  ⟨0x2000, 0x200F, 1⟩, ⟨0x2010, 0x2010, -1⟩, ⟨0x2011, 0x2012, 1⟩, ⟨0x2013, 0x2016, -1⟩, ⟨0x2017, 0x2017, 1⟩,
  ⟨0x2018, 0x2019, -1⟩, ⟨0x201A, 0x201B, 1⟩, ⟨0x201C, 0x201D, -1⟩, ⟨0x201E, 0x201F, 1⟩, ⟨0x2020, 0x2022, -1⟩,
  ⟨0x2023, 0x2023, 1⟩, ⟨0x2024, 0x2027, -1⟩, ⟨0x2028, 0x202F, 1⟩, ⟨0x2030, 0x2030, -1⟩, ⟨0x2031, 0x2031, 1⟩,
  ⟨0x2032, 0x2033, -1⟩, ⟨0x2034, 0x2034, 1⟩, ⟨0x2035, 0x2035, -1⟩, ⟨0x2036, 0x203A, 1⟩, ⟨0x203B, 0x203B, -1⟩,
  ⟨0x203C, 0x203D, 1⟩, ⟨0x203E, 0x203E, -1⟩, ⟨0x203F, 0x2064, 1⟩, ⟨0x2066, 0x2071, 1⟩, ⟨0x2074, 0x2074, -1⟩,
  ⟨0x2075, 0x207E, 1⟩, ⟨0x207F, 0x207F, -1⟩, ⟨0x2080, 0x2080, 1⟩, ⟨0x2081, 0x2084, -1⟩, ⟨0x2085, 0x208E, 1⟩,
  ⟨0x2090, 0x209C, 1⟩, ⟨0x20A0, 0x20AB, 1⟩, ⟨0x20AC, 0x20AC, -1⟩, ⟨0x20AD, 0x20BF, 1⟩, ⟨0x20D0, 0x20F0, 1⟩,
  ⟨0x2100, 0x2102, 1⟩, ⟨0x2103, 0x2103, -1⟩, ⟨0x2104, 0x2104, 1⟩, ⟨0x2105, 0x2105, -1⟩, ⟨0x2106, 0x2108, 1⟩,
  ⟨0x2109, 0x2109, -1⟩, ⟨0x210A, 0x2112, 1⟩, ⟨0x2113, 0x2113, -1⟩, ⟨0x2114, 0x2115, 1⟩, ⟨0x2116, 0x2116, -1⟩,
  ⟨0x2117, 0x2120, 1⟩, ⟨0x2121, 0x2122, -1⟩, ⟨0x2123, 0x2125, 1⟩, ⟨0x2126, 0x2126, -1⟩, ⟨0x2127, 0x212A, 1⟩,
  ⟨0x212B, 0x212B, -1⟩, ⟨0x212C, 0x2152, 1⟩, ⟨0x2153, 0x2154, -1⟩, ⟨0x2155, 0x215A, 1⟩, ⟨0x215B, 0x215E, -1⟩,
  ⟨0x215F, 0x215F, 1⟩, ⟨0x2160, 0x216B, -1⟩, ⟨0x216C, 0x216F, 1⟩, ⟨0x2170, 0x2179, -1⟩, ⟨0x217A, 0x2188, 1⟩,
  ⟨0x2189, 0x2189, -1⟩, ⟨0x218A, 0x218B, 1⟩, ⟨0x2190, 0x2199, -1⟩, ⟨0x219A, 0x21B7, 1⟩, ⟨0x21B8, 0x21B9, -1⟩,
  ⟨0x21BA, 0x21D1, 1⟩, ⟨0x21D2, 0x21D2, -1⟩, ⟨0x21D3, 0x21D3, 1⟩, ⟨0x21D4, 0x21D4, -1⟩, ⟨0x21D5, 0x21E6, 1⟩,
  ⟨0x21E7, 0x21E7, -1⟩, ⟨0x21E8, 0x21FF, 1⟩, ⟨0x2200, 0x2200, -1⟩, ⟨0x2201, 0x2201, 1⟩, ⟨0x2202, 0x2203, -1⟩,
  ⟨0x2204, 0x2206, 1⟩, ⟨0x2207, 0x2208, -1⟩, ⟨0x2209, 0x220A, 1⟩, ⟨0x220B, 0x220B, -1⟩, ⟨0x220C, 0x220E, 1⟩,
  ⟨0x220F, 0x220F, -1⟩, ⟨0x2210, 0x2210, 1⟩, ⟨0x2211, 0x2211, -1⟩, ⟨0x2212, 0x2214, 1⟩, ⟨0x2215, 0x2215, -1⟩,
  ⟨0x2216, 0x2219, 1⟩, ⟨0x221A, 0x221A, -1⟩, ⟨0x221B, 0x221C, 1⟩, ⟨0x221D, 0x2220, -1⟩, ⟨0x2221, 0x2222, 1⟩,
  ⟨0x2223, 0x2223, -1⟩, ⟨0x2224, 0x2224, 1⟩, ⟨0x2225, 0x2225, -1⟩, ⟨0x2226, 0x2226, 1⟩, ⟨0x2227, 0x222C, -1⟩,
  ⟨0x222D, 0x222D, 1⟩, ⟨0x222E, 0x222E, -1⟩, ⟨0x222F, 0x2233, 1⟩, ⟨0x2234, 0x2237, -1⟩, ⟨0x2238, 0x223B, 1⟩,
  ⟨0x223C, 0x223D, -1⟩, ⟨0x223E, 0x2247, 1⟩, ⟨0x2248, 0x2248, -1⟩, ⟨0x2249, 0x224B, 1⟩, ⟨0x224C, 0x224C, -1⟩,
  ⟨0x224D, 0x2251, 1⟩, ⟨0x2252, 0x2252, -1⟩, ⟨0x2253, 0x225F, 1⟩, ⟨0x2260, 0x2261, -1⟩, ⟨0x2262, 0x2263, 1⟩,
  ⟨0x2264, 0x2267, -1⟩, ⟨0x2268, 0x2269, 1⟩, ⟨0x226A, 0x226B, -1⟩, ⟨0x226C, 0x226D, 1⟩, ⟨0x226E, 0x226F, -1⟩,
  ⟨0x2270, 0x2281, 1⟩, ⟨0x2282, 0x2283, -1⟩, ⟨0x2284, 0x2285, 1⟩, ⟨0x2286, 0x2287, -1⟩, ⟨0x2288, 0x2294, 1⟩,
  ⟨0x2295, 0x2295, -1⟩, ⟨0x2296, 0x2298, 1⟩, ⟨0x2299, 0x2299, -1⟩, ⟨0x229A, 0x22A4, 1⟩, ⟨0x22A5, 0x22A5, -1⟩,
  ⟨0x22A6, 0x22BE, 1⟩, ⟨0x22BF, 0x22BF, -1⟩, ⟨0x22C0, 0x2311, 1⟩, ⟨0x2312, 0x2312, -1⟩, ⟨0x2313, 0x2319, 1⟩,
  ⟨0x231A, 0x231B, 2⟩, ⟨0x231C, 0x2328, 1⟩, ⟨0x2329, 0x232A, 2⟩, ⟨0x232B, 0x23E8, 1⟩, ⟨0x23E9, 0x23EC, 2⟩,
  ⟨0x23ED, 0x23EF, 1⟩, ⟨0x23F0, 0x23F0, 2⟩, ⟨0x23F1, 0x23F2, 1⟩, ⟨0x23F3, 0x23F3, 2⟩, ⟨0x23F4, 0x2426, 1⟩,
  ⟨0x2440, 0x244A, 1⟩, ⟨0x2460, 0x24E9, -1⟩, ⟨0x24EA, 0x24EA, 1⟩, ⟨0x24EB, 0x254B, -1⟩, ⟨0x254C, 0x254F, 1⟩,
  ⟨0x2550, 0x2573, -1⟩, ⟨0x2574, 0x257F, 1⟩, ⟨0x2580, 0x258F, -1⟩, ⟨0x2590, 0x2591, 1⟩, ⟨0x2592, 0x2595, -1⟩,
  ⟨0x2596, 0x259F, 1⟩, ⟨0x25A0, 0x25A1, -1⟩, ⟨0x25A2, 0x25A2, 1⟩, ⟨0x25A3, 0x25A9, -1⟩, ⟨0x25AA, 0x25B1, 1⟩,
  ⟨0x25B2, 0x25B3, -1⟩, ⟨0x25B4, 0x25B5, 1⟩, ⟨0x25B6, 0x25B7, -1⟩, ⟨0x25B8, 0x25BB, 1⟩, ⟨0x25BC, 0x25BD, -1⟩,
  ⟨0x25BE, 0x25BF, 1⟩, ⟨0x25C0, 0x25C1, -1⟩, ⟨0x25C2, 0x25C5, 1⟩, ⟨0x25C6, 0x25C8, -1⟩, ⟨0x25C9, 0x25CA, 1⟩,
  ⟨0x25CB, 0x25CB, -1⟩, ⟨0x25CC, 0x25CD, 1⟩, ⟨0x25CE, 0x25D1, -1⟩, ⟨0x25D2, 0x25E1, 1⟩, ⟨0x25E2, 0x25E5, -1⟩,
  ⟨0x25E6, 0x25EE, 1⟩, ⟨0x25EF, 0x25EF, -1⟩, ⟨0x25F0, 0x25FC, 1⟩, ⟨0x25FD, 0x25FE, 2⟩, ⟨0x25FF, 0x2604, 1⟩,
  ⟨0x2605, 0x2606, -1⟩, ⟨0x2607, 0x2608, 1⟩, ⟨0x2609, 0x2609, -1⟩, ⟨0x260A, 0x260D, 1⟩, ⟨0x260E, 0x260F, -1⟩,
  ⟨0x2610, 0x2613, 1⟩, ⟨0x2614, 0x2615, 2⟩, ⟨0x2616, 0x261B, 1⟩, ⟨0x261C, 0x261C, -1⟩, ⟨0x261D, 0x261D, 1⟩,
  ⟨0x261E, 0x261E, -1⟩, ⟨0x261F, 0x263F, 1⟩, ⟨0x2640, 0x2640, -1⟩, ⟨0x2641, 0x2641, 1⟩, ⟨0x2642, 0x2642, -1⟩,
  ⟨0x2643, 0x2647, 1⟩, ⟨0x2648, 0x2653, 2⟩, ⟨0x2654, 0x265F, 1⟩, ⟨0x2660, 0x2661, -1⟩, ⟨0x2662, 0x2662, 1⟩,
  ⟨0x2663, 0x2665, -1⟩, ⟨0x2666, 0x2666, 1⟩, ⟨0x2667, 0x266A, -1⟩, ⟨0x266B, 0x266B, 1⟩, ⟨0x266C, 0x266D, -1⟩,
  ⟨0x266E, 0x266E, 1⟩, ⟨0x266F, 0x266F, -1⟩, ⟨0x2670, 0x267E, 1⟩, ⟨0x267F, 0x267F, 2⟩, ⟨0x2680, 0x2692, 1⟩,
  ⟨0x2693, 0x2693, 2⟩, ⟨0x2694, 0x269D, 1⟩, ⟨0x269E, 0x269F, -1⟩, ⟨0x26A0, 0x26A0, 1⟩, ⟨0x26A1, 0x26A1, 2⟩,
  ⟨0x26A2, 0x26A9, 1⟩, ⟨0x26AA, 0x26AB, 2⟩, ⟨0x26AC, 0x26BC, 1⟩, ⟨0x26BD, 0x26BE, 2⟩, ⟨0x26BF, 0x26BF, -1⟩,
  ⟨0x26C0, 0x26C3, 1⟩, ⟨0x26C4, 0x26C5, 2⟩, ⟨0x26C6, 0x26CD, -1⟩, ⟨0x26CE, 0x26CE, 2⟩, ⟨0x26CF, 0x26D3, -1⟩,
  ⟨0x26D4, 0x26D4, 2⟩, ⟨0x26D5, 0x26E1, -1⟩, ⟨0x26E2, 0x26E2, 1⟩, ⟨0x26E3, 0x26E3, -1⟩, ⟨0x26E4, 0x26E7, 1⟩,
  ⟨0x26E8, 0x26E9, -1⟩, ⟨0x26EA, 0x26EA, 2⟩, ⟨0x26EB, 0x26F1, -1⟩, ⟨0x26F2, 0x26F3, 2⟩, ⟨0x26F4, 0x26F4, -1⟩,
  ⟨0x26F5, 0x26F5, 2⟩, ⟨0x26F6, 0x26F9, -1⟩, ⟨0x26FA, 0x26FA, 2⟩, ⟨0x26FB, 0x26FC, -1⟩, ⟨0x26FD, 0x26FD, 2⟩,
  ⟨0x26FE, 0x26FF, -1⟩, ⟨0x2700, 0x2704, 1⟩, ⟨0x2705, 0x2705, 2⟩, ⟨0x2706, 0x2709, 1⟩, ⟨0x270A, 0x270B, 2⟩,
  ⟨0x270C, 0x2727, 1⟩, ⟨0x2728, 0x2728, 2⟩, ⟨0x2729, 0x273C, 1⟩, ⟨0x273D, 0x273D, -1⟩, ⟨0x273E, 0x274B, 1⟩,
  ⟨0x274C, 0x274C, 2⟩, ⟨0x274D, 0x274D, 1⟩, ⟨0x274E, 0x274E, 2⟩, ⟨0x274F, 0x2752, 1⟩, ⟨0x2753, 0x2755, 2⟩,
  ⟨0x2756, 0x2756, 1⟩, ⟨0x2757, 0x2757, 2⟩, ⟨0x2758, 0x2775, 1⟩, ⟨0x2776, 0x277F, -1⟩, ⟨0x2780, 0x2794, 1⟩,
  ⟨0x2795, 0x2797, 2⟩, ⟨0x2798, 0x27AF, 1⟩, ⟨0x27B0, 0x27B0, 2⟩, ⟨0x27B1, 0x27BE, 1⟩, ⟨0x27BF, 0x27BF, 2⟩,
  ⟨0x27C0, 0x2B1A, 1⟩, ⟨0x2B1B, 0x2B1C, 2⟩, ⟨0x2B1D, 0x2B4F, 1⟩, ⟨0x2B50, 0x2B50, 2⟩, ⟨0x2B51, 0x2B54, 1⟩,
  ⟨0x2B55, 0x2B55, 2⟩, ⟨0x2B56, 0x2B59, -1⟩, ⟨0x2B5A, 0x2B73, 1⟩, ⟨0x2B76, 0x2B95, 1⟩, ⟨0x2B97, 0x2C2E, 1⟩,
  ⟨0x2C30, 0x2C5E, 1⟩, ⟨0x2C60, 0x2CF3, 1⟩, ⟨0x2CF9, 0x2D25, 1⟩, ⟨0x2D27, 0x2D27, 1⟩, ⟨0x2D2D, 0x2D2D, 1⟩,
  ⟨0x2D30, 0x2D67, 1⟩, ⟨0x2D6F, 0x2D70, 1⟩, ⟨0x2D7F, 0x2D96, 1⟩, ⟨0x2DA0, 0x2DA6, 1⟩, ⟨0x2DA8, 0x2DAE, 1⟩,
  ⟨0x2DB0, 0x2DB6, 1⟩, ⟨0x2DB8, 0x2DBE, 1⟩, ⟨0x2DC0, 0x2DC6, 1⟩, ⟨0x2DC8, 0x2DCE, 1⟩, ⟨0x2DD0, 0x2DD6, 1⟩,
  ⟨0x2DD8, 0x2DDE, 1⟩, ⟨0x2DE0, 0x2E52, 1⟩, ⟨0x2E80, 0x2E99, 2⟩, ⟨0x2E9B, 0x2EF3, 2⟩, ⟨0x2F00, 0x2FD5, 2⟩,
  ⟨0x2FF0, 0x2FFB, 2⟩, ⟨0x3000, 0x303E, 2⟩, ⟨0x303F, 0x303F, 1⟩, ⟨0x3041, 0x3096, 2⟩, ⟨0x3099, 0x30FF, 2⟩,
  ⟨0x3105, 0x312F, 2⟩, ⟨0x3131, 0x318E, 2⟩, ⟨0x3190, 0x31E3, 2⟩, ⟨0x31F0, 0x321E, 2⟩, ⟨0x3220, 0x3247, 2⟩,
  ⟨0x3248, 0x324F, -1⟩, ⟨0x3250, 0x4DBF, 2⟩, ⟨0x4DC0, 0x4DFF, 1⟩, ⟨0x4E00, 0xA48C, 2⟩, ⟨0xA490, 0xA4C6, 2⟩,
  ⟨0xA4D0, 0xA62B, 1⟩, ⟨0xA640, 0xA6F7, 1⟩, ⟨0xA700, 0xA7BF, 1⟩, ⟨0xA7C2, 0xA7CA, 1⟩, ⟨0xA7F5, 0xA82C, 1⟩,
  ⟨0xA830, 0xA839, 1⟩, ⟨0xA840, 0xA877, 1⟩, ⟨0xA880, 0xA8C5, 1⟩, ⟨0xA8CE, 0xA8D9, 1⟩, ⟨0xA8E0, 0xA953, 1⟩,
  ⟨0xA95F, 0xA95F, 1⟩, ⟨0xA960, 0xA97C, 2⟩, ⟨0xA980, 0xA9CD, 1⟩, ⟨0xA9CF, 0xA9D9, 1⟩, ⟨0xA9DE, 0xA9FE, 1⟩,
  ⟨0xAA00, 0xAA36, 1⟩, ⟨0xAA40, 0xAA4D, 1⟩, ⟨0xAA50, 0xAA59, 1⟩, ⟨0xAA5C, 0xAAC2, 1⟩, ⟨0xAADB, 0xAAF6, 1⟩,
  ⟨0xAB01, 0xAB06, 1⟩, ⟨0xAB09, 0xAB0E, 1⟩, ⟨0xAB11, 0xAB16, 1⟩, ⟨0xAB20, 0xAB26, 1⟩, ⟨0xAB28, 0xAB2E, 1⟩,
  ⟨0xAB30, 0xAB6B, 1⟩, ⟨0xAB70, 0xABED, 1⟩, ⟨0xABF0, 0xABF9, 1⟩, ⟨0xAC00, 0xD7A3, 2⟩, ⟨0xD7B0, 0xD7C6, 1⟩,
  ⟨0xD7CB, 0xD7FB, 1⟩, ⟨0xD800, 0xDFFF, 1⟩, ⟨0xE000, 0xF8FF, -1⟩, ⟨0xF900, 0xFAFF, 2⟩, ⟨0xFB00, 0xFB06, 1⟩,
  ⟨0xFB13, 0xFB17, 1⟩, ⟨0xFB1D, 0xFB36, 1⟩, ⟨0xFB38, 0xFB3C, 1⟩, ⟨0xFB3E, 0xFB3E, 1⟩, ⟨0xFB40, 0xFB41, 1⟩,
  ⟨0xFB43, 0xFB44, 1⟩, ⟨0xFB46, 0xFBC1, 1⟩, ⟨0xFBD3, 0xFD3F, 1⟩, ⟨0xFD50, 0xFD8F, 1⟩, ⟨0xFD92, 0xFDC7, 1⟩,
  ⟨0xFDF0, 0xFDFD, 1⟩, ⟨0xFE00, 0xFE0F, -1⟩, ⟨0xFE10, 0xFE19, 2⟩, ⟨0xFE20, 0xFE2F, 1⟩, ⟨0xFE30, 0xFE52, 2⟩,
  ⟨0xFE54, 0xFE66, 2⟩, ⟨0xFE68, 0xFE6B, 2⟩, ⟨0xFE70, 0xFE74, 1⟩, ⟨0xFE76, 0xFEFC, 1⟩, ⟨0xFEFF, 0xFEFF, 1⟩,
  ⟨0xFF01, 0xFF60, 2⟩, ⟨0xFF61, 0xFFBE, 1⟩, ⟨0xFFC2, 0xFFC7, 1⟩, ⟨0xFFCA, 0xFFCF, 1⟩, ⟨0xFFD2, 0xFFD7, 1⟩,
  ⟨0xFFDA, 0xFFDC, 1⟩, ⟨0xFFE0, 0xFFE6, 2⟩, ⟨0xFFE8, 0xFFEE, 1⟩, ⟨0xFFF9, 0xFFFC, 1⟩, ⟨0xFFFD, 0xFFFD, -1⟩,
  ⟨0x10000, 0x1000B, 1⟩, ⟨0x1000D, 0x10026, 1⟩, ⟨0x10028, 0x1003A, 1⟩, ⟨0x1003C, 0x1003D, 1⟩,
  ⟨0x1003F, 0x1004D, 1⟩, ⟨0x10050, 0x1005D, 1⟩, ⟨0x10080, 0x100FA, 1⟩, ⟨0x10100, 0x10102, 1⟩,
  ⟨0x10107, 0x10133, 1⟩, ⟨0x10137, 0x1018E, 1⟩, ⟨0x10190, 0x1019C, 1⟩, ⟨0x101A0, 0x101A0, 1⟩,
  ⟨0x101D0, 0x101FD, 1⟩, ⟨0x10280, 0x1029C, 1⟩, ⟨0x102A0, 0x102D0, 1⟩, ⟨0x102E0, 0x102FB, 1⟩,
  ⟨0x10300, 0x10323, 1⟩, ⟨0x1032D, 0x1034A, 1⟩, ⟨0x10350, 0x1037A, 1⟩, ⟨0x10380, 0x1039D, 1⟩,
  ⟨0x1039F, 0x103C3, 1⟩, ⟨0x103C8, 0x103D5, 1⟩, ⟨0x10400, 0x1049D, 1⟩, ⟨0x104A0, 0x104A9, 1⟩,
  ⟨0x104B0, 0x104D3, 1⟩, ⟨0x104D8, 0x104FB, 1⟩, ⟨0x10500, 0x10527, 1⟩, ⟨0x10530, 0x10563, 1⟩,
  ⟨0x1056F, 0x1056F, 1⟩, ⟨0x10600, 0x10736, 1⟩, ⟨0x10740, 0x10755, 1⟩, ⟨0x10760, 0x10767, 1⟩,
  ⟨0x10800, 0x10805, 1⟩, ⟨0x10808, 0x10808, 1⟩, ⟨0x1080A, 0x10835, 1⟩, ⟨0x10837, 0x10838, 1⟩,
  ⟨0x1083C, 0x1083C, 1⟩, ⟨0x1083F, 0x10855, 1⟩, ⟨0x10857, 0x1089E, 1⟩, ⟨0x108A7, 0x108AF, 1⟩,
  ⟨0x108E0, 0x108F2, 1⟩, ⟨0x108F4, 0x108F5, 1⟩, ⟨0x108FB, 0x1091B, 1⟩, ⟨0x1091F, 0x10939, 1⟩,
  ⟨0x1093F, 0x1093F, 1⟩, ⟨0x10980, 0x109B7, 1⟩, ⟨0x109BC, 0x109CF, 1⟩, ⟨0x109D2, 0x10A03, 1⟩,
  ⟨0x10A05, 0x10A06, 1⟩, ⟨0x10A0C, 0x10A13, 1⟩, ⟨0x10A15, 0x10A17, 1⟩, ⟨0x10A19, 0x10A35, 1⟩,
  ⟨0x10A38, 0x10A3A, 1⟩, ⟨0x10A3F, 0x10A48, 1⟩, ⟨0x10A50, 0x10A58, 1⟩, ⟨0x10A60, 0x10A9F, 1⟩,
  ⟨0x10AC0, 0x10AE6, 1⟩, ⟨0x10AEB, 0x10AF6, 1⟩, ⟨0x10B00, 0x10B35, 1⟩, ⟨0x10B39, 0x10B55, 1⟩,
  ⟨0x10B58, 0x10B72, 1⟩, ⟨0x10B78, 0x10B91, 1⟩, ⟨0x10B99, 0x10B9C, 1⟩, ⟨0x10BA9, 0x10BAF, 1⟩,
  ⟨0x10C00, 0x10C48, 1⟩, ⟨0x10C80, 0x10CB2, 1⟩, ⟨0x10CC0, 0x10CF2, 1⟩, ⟨0x10CFA, 0x10D27, 1⟩,
  ⟨0x10D30, 0x10D39, 1⟩, ⟨0x10E60, 0x10E7E, 1⟩, ⟨0x10E80, 0x10EA9, 1⟩, ⟨0x10EAB, 0x10EAD, 1⟩,
  ⟨0x10EB0, 0x10EB1, 1⟩, ⟨0x10F00, 0x10F27, 1⟩, ⟨0x10F30, 0x10F59, 1⟩, ⟨0x10FB0, 0x10FCB, 1⟩,
  ⟨0x10FE0, 0x10FF6, 1⟩, ⟨0x11000, 0x1104D, 1⟩, ⟨0x11052, 0x1106F, 1⟩, ⟨0x1107F, 0x110C1, 1⟩,
  ⟨0x110CD, 0x110CD, 1⟩, ⟨0x110D0, 0x110E8, 1⟩, ⟨0x110F0, 0x110F9, 1⟩, ⟨0x11100, 0x11134, 1⟩,
  ⟨0x11136, 0x11147, 1⟩, ⟨0x11150, 0x11176, 1⟩, ⟨0x11180, 0x111DF, 1⟩, ⟨0x111E1, 0x111F4, 1⟩,
  ⟨0x11200, 0x11211, 1⟩, ⟨0x11213, 0x1123E, 1⟩, ⟨0x11280, 0x11286, 1⟩, ⟨0x11288, 0x11288, 1⟩,
  ⟨0x1128A, 0x1128D, 1⟩, ⟨0x1128F, 0x1129D, 1⟩, ⟨0x1129F, 0x112A9, 1⟩, ⟨0x112B0, 0x112EA, 1⟩,
  ⟨0x112F0, 0x112F9, 1⟩, ⟨0x11300, 0x11303, 1⟩, ⟨0x11305, 0x1130C, 1⟩, ⟨0x1130F, 0x11310, 1⟩,
  ⟨0x11313, 0x11328, 1⟩, ⟨0x1132A, 0x11330, 1⟩, ⟨0x11332, 0x11333, 1⟩, ⟨0x11335, 0x11339, 1⟩,
  ⟨0x1133B, 0x11344, 1⟩, ⟨0x11347, 0x11348, 1⟩, ⟨0x1134B, 0x1134D, 1⟩, ⟨0x11350, 0x11350, 1⟩,
  ⟨0x11357, 0x11357, 1⟩, ⟨0x1135D, 0x11363, 1⟩, ⟨0x11366, 0x1136C, 1⟩, ⟨0x11370, 0x11374, 1⟩,
  ⟨0x11400, 0x1145B, 1⟩, ⟨0x1145D, 0x11461, 1⟩, ⟨0x11480, 0x114C7, 1⟩, ⟨0x114D0, 0x114D9, 1⟩,
  ⟨0x11580, 0x115B5, 1⟩, ⟨0x115B8, 0x115DD, 1⟩, ⟨0x11600, 0x11644, 1⟩, ⟨0x11650, 0x11659, 1⟩,
  ⟨0x11660, 0x1166C, 1⟩, ⟨0x11680, 0x116B8, 1⟩, ⟨0x116C0, 0x116C9, 1⟩, ⟨0x11700, 0x1171A, 1⟩,
  ⟨0x1171D, 0x1172B, 1⟩, ⟨0x11730, 0x1173F, 1⟩, ⟨0x11800, 0x1183B, 1⟩, ⟨0x118A0, 0x118F2, 1⟩,
  ⟨0x118FF, 0x11906, 1⟩, ⟨0x11909, 0x11909, 1⟩, ⟨0x1190C, 0x11913, 1⟩, ⟨0x11915, 0x11916, 1⟩,
  ⟨0x11918, 0x11935, 1⟩, ⟨0x11937, 0x11938, 1⟩, ⟨0x1193B, 0x11946, 1⟩, ⟨0x11950, 0x11959, 1⟩,
  ⟨0x119A0, 0x119A7, 1⟩, ⟨0x119AA, 0x119D7, 1⟩, ⟨0x119DA, 0x119E4, 1⟩, ⟨0x11A00, 0x11A47, 1⟩,
  ⟨0x11A50, 0x11AA2, 1⟩, ⟨0x11AC0, 0x11AF8, 1⟩, ⟨0x11C00, 0x11C08, 1⟩, ⟨0x11C0A, 0x11C36, 1⟩,
  ⟨0x11C38, 0x11C45, 1⟩, ⟨0x11C50, 0x11C6C, 1⟩, ⟨0x11C70, 0x11C8F, 1⟩, ⟨0x11C92, 0x11CA7, 1⟩,
  ⟨0x11CA9, 0x11CB6, 1⟩, ⟨0x11D00, 0x11D06, 1⟩, ⟨0x11D08, 0x11D09, 1⟩, ⟨0x11D0B, 0x11D36, 1⟩,
  ⟨0x11D3A, 0x11D3A, 1⟩, ⟨0x11D3C, 0x11D3D, 1⟩, ⟨0x11D3F, 0x11D47, 1⟩, ⟨0x11D50, 0x11D59, 1⟩,
  ⟨0x11D60, 0x11D65, 1⟩, ⟨0x11D67, 0x11D68, 1⟩, ⟨0x11D6A, 0x11D8E, 1⟩, ⟨0x11D90, 0x11D91, 1⟩,
  ⟨0x11D93, 0x11D98, 1⟩, ⟨0x11DA0, 0x11DA9, 1⟩, ⟨0x11EE0, 0x11EF8, 1⟩, ⟨0x11FB0, 0x11FB0, 1⟩,
  ⟨0x11FC0, 0x11FF1, 1⟩, ⟨0x11FFF, 0x12399, 1⟩, ⟨0x12400, 0x1246E, 1⟩, ⟨0x12470, 0x12474, 1⟩,
  ⟨0x12480, 0x12543, 1⟩, ⟨0x13000, 0x1342E, 1⟩, ⟨0x13430, 0x13438, 1⟩, ⟨0x14400, 0x14646, 1⟩,
  ⟨0x16800, 0x16A38, 1⟩, ⟨0x16A40, 0x16A5E, 1⟩, ⟨0x16A60, 0x16A69, 1⟩, ⟨0x16A6E, 0x16A6F, 1⟩,
  ⟨0x16AD0, 0x16AED, 1⟩, ⟨0x16AF0, 0x16AF5, 1⟩, ⟨0x16B00, 0x16B45, 1⟩, ⟨0x16B50, 0x16B59, 1⟩,
  ⟨0x16B5B, 0x16B61, 1⟩, ⟨0x16B63, 0x16B77, 1⟩, ⟨0x16B7D, 0x16B8F, 1⟩, ⟨0x16E40, 0x16E9A, 1⟩,
  ⟨0x16F00, 0x16F4A, 1⟩, ⟨0x16F4F, 0x16F87, 1⟩, ⟨0x16F8F, 0x16F9F, 1⟩, ⟨0x16FE0, 0x16FE4, 2⟩,
  ⟨0x16FF0, 0x16FF1, 2⟩, ⟨0x17000, 0x187F7, 2⟩, ⟨0x18800, 0x18CD5, 2⟩, ⟨0x18D00, 0x18D08, 2⟩,
  ⟨0x1B000, 0x1B11E, 2⟩, ⟨0x1B150, 0x1B152, 2⟩, ⟨0x1B164, 0x1B167, 2⟩, ⟨0x1B170, 0x1B2FB, 2⟩,
  ⟨0x1BC00, 0x1BC6A, 1⟩, ⟨0x1BC70, 0x1BC7C, 1⟩, ⟨0x1BC80, 0x1BC88, 1⟩, ⟨0x1BC90, 0x1BC99, 1⟩,
  ⟨0x1BC9C, 0x1BCA3, 1⟩, ⟨0x1D000, 0x1D0F5, 1⟩, ⟨0x1D100, 0x1D126, 1⟩, ⟨0x1D129, 0x1D1E8, 1⟩,
  ⟨0x1D200, 0x1D245, 1⟩, ⟨0x1D2E0, 0x1D2F3, 1⟩, ⟨0x1D300, 0x1D356, 1⟩, ⟨0x1D360, 0x1D378, 1⟩,
  ⟨0x1D400, 0x1D454, 1⟩, ⟨0x1D456, 0x1D49C, 1⟩, ⟨0x1D49E, 0x1D49F, 1⟩, ⟨0x1D4A2, 0x1D4A2, 1⟩,
  ⟨0x1D4A5, 0x1D4A6, 1⟩, ⟨0x1D4A9, 0x1D4AC, 1⟩, ⟨0x1D4AE, 0x1D4B9, 1⟩, ⟨0x1D4BB, 0x1D4BB, 1⟩,
  ⟨0x1D4BD, 0x1D4C3, 1⟩, ⟨0x1D4C5, 0x1D505, 1⟩, ⟨0x1D507, 0x1D50A, 1⟩, ⟨0x1D50D, 0x1D514, 1⟩,
  ⟨0x1D516, 0x1D51C, 1⟩, ⟨0x1D51E, 0x1D539, 1⟩, ⟨0x1D53B, 0x1D53E, 1⟩, ⟨0x1D540, 0x1D544, 1⟩,
  ⟨0x1D546, 0x1D546, 1⟩, ⟨0x1D54A, 0x1D550, 1⟩, ⟨0x1D552, 0x1D6A5, 1⟩, ⟨0x1D6A8, 0x1D7CB, 1⟩,
  ⟨0x1D7CE, 0x1DA8B, 1⟩, ⟨0x1DA9B, 0x1DA9F, 1⟩, ⟨0x1DAA1, 0x1DAAF, 1⟩, ⟨0x1E000, 0x1E006, 1⟩,
  ⟨0x1E008, 0x1E018, 1⟩, ⟨0x1E01B, 0x1E021, 1⟩, ⟨0x1E023, 0x1E024, 1⟩, ⟨0x1E026, 0x1E02A, 1⟩,
  ⟨0x1E100, 0x1E12C, 1⟩, ⟨0x1E130, 0x1E13D, 1⟩, ⟨0x1E140, 0x1E149, 1⟩, ⟨0x1E14E, 0x1E14F, 1⟩,
  ⟨0x1E2C0, 0x1E2F9, 1⟩, ⟨0x1E2FF, 0x1E2FF, 1⟩, ⟨0x1E800, 0x1E8C4, 1⟩, ⟨0x1E8C7, 0x1E8D6, 1⟩,
  ⟨0x1E900, 0x1E94B, 1⟩, ⟨0x1E950, 0x1E959, 1⟩, ⟨0x1E95E, 0x1E95F, 1⟩, ⟨0x1EC71, 0x1ECB4, 1⟩,
  ⟨0x1ED01, 0x1ED3D, 1⟩, ⟨0x1EE00, 0x1EE03, 1⟩, ⟨0x1EE05, 0x1EE1F, 1⟩, ⟨0x1EE21, 0x1EE22, 1⟩,
  ⟨0x1EE24, 0x1EE24, 1⟩, ⟨0x1EE27, 0x1EE27, 1⟩, ⟨0x1EE29, 0x1EE32, 1⟩, ⟨0x1EE34, 0x1EE37, 1⟩,
  ⟨0x1EE39, 0x1EE39, 1⟩, ⟨0x1EE3B, 0x1EE3B, 1⟩, ⟨0x1EE42, 0x1EE42, 1⟩, ⟨0x1EE47, 0x1EE47, 1⟩,
  ⟨0x1EE49, 0x1EE49, 1⟩, ⟨0x1EE4B, 0x1EE4B, 1⟩, ⟨0x1EE4D, 0x1EE4F, 1⟩, ⟨0x1EE51, 0x1EE52, 1⟩,
  ⟨0x1EE54, 0x1EE54, 1⟩, ⟨0x1EE57, 0x1EE57, 1⟩, ⟨0x1EE59, 0x1EE59, 1⟩, ⟨0x1EE5B, 0x1EE5B, 1⟩,
  ⟨0x1EE5D, 0x1EE5D, 1⟩, ⟨0x1EE5F, 0x1EE5F, 1⟩, ⟨0x1EE61, 0x1EE62, 1⟩, ⟨0x1EE64, 0x1EE64, 1⟩,
  ⟨0x1EE67, 0x1EE6A, 1⟩, ⟨0x1EE6C, 0x1EE72, 1⟩, ⟨0x1EE74, 0x1EE77, 1⟩, ⟨0x1EE79, 0x1EE7C, 1⟩,
  ⟨0x1EE7E, 0x1EE7E, 1⟩, ⟨0x1EE80, 0x1EE89, 1⟩, ⟨0x1EE8B, 0x1EE9B, 1⟩, ⟨0x1EEA1, 0x1EEA3, 1⟩,
  ⟨0x1EEA5, 0x1EEA9, 1⟩, ⟨0x1EEAB, 0x1EEBB, 1⟩, ⟨0x1EEF0, 0x1EEF1, 1⟩, ⟨0x1F000, 0x1F003, 1⟩,
  ⟨0x1F004, 0x1F004, 2⟩, ⟨0x1F005, 0x1F02B, 1⟩, ⟨0x1F030, 0x1F093, 1⟩, ⟨0x1F0A0, 0x1F0AE, 1⟩,
  ⟨0x1F0B1, 0x1F0BF, 1⟩, ⟨0x1F0C1, 0x1F0CE, 1⟩, ⟨0x1F0CF, 0x1F0CF, 2⟩, ⟨0x1F0D1, 0x1F0F5, 1⟩,
  ⟨0x1F100, 0x1F10A, -1⟩, ⟨0x1F10B, 0x1F10F, 1⟩, ⟨0x1F110, 0x1F12D, -1⟩, ⟨0x1F12E, 0x1F12F, 1⟩,
  ⟨0x1F130, 0x1F169, -1⟩, ⟨0x1F16A, 0x1F16F, 1⟩, ⟨0x1F170, 0x1F18D, -1⟩, ⟨0x1F18E, 0x1F18E, 2⟩,
  ⟨0x1F18F, 0x1F190, -1⟩, ⟨0x1F191, 0x1F19A, 2⟩, ⟨0x1F19B, 0x1F1AC, -1⟩, ⟨0x1F1AD, 0x1F1AD, 1⟩,
  ⟨0x1F1E6, 0x1F1FF, 1⟩, ⟨0x1F200, 0x1F202, 2⟩, ⟨0x1F210, 0x1F23B, 2⟩, ⟨0x1F240, 0x1F248, 2⟩,
  ⟨0x1F250, 0x1F251, 2⟩, ⟨0x1F260, 0x1F265, 2⟩, ⟨0x1F300, 0x1F320, 2⟩, ⟨0x1F321, 0x1F32C, 1⟩,
  ⟨0x1F32D, 0x1F335, 2⟩, ⟨0x1F336, 0x1F336, 1⟩, ⟨0x1F337, 0x1F37C, 2⟩, ⟨0x1F37D, 0x1F37D, 1⟩,
  ⟨0x1F37E, 0x1F393, 2⟩, ⟨0x1F394, 0x1F39F, 1⟩, ⟨0x1F3A0, 0x1F3CA, 2⟩, ⟨0x1F3CB, 0x1F3CE, 1⟩,
  ⟨0x1F3CF, 0x1F3D3, 2⟩, ⟨0x1F3D4, 0x1F3DF, 1⟩, ⟨0x1F3E0, 0x1F3F0, 2⟩, ⟨0x1F3F1, 0x1F3F3, 1⟩,
  ⟨0x1F3F4, 0x1F3F4, 2⟩, ⟨0x1F3F5, 0x1F3F7, 1⟩, ⟨0x1F3F8, 0x1F43E, 2⟩, ⟨0x1F43F, 0x1F43F, 1⟩,
  ⟨0x1F440, 0x1F440, 2⟩, ⟨0x1F441, 0x1F441, 1⟩, ⟨0x1F442, 0x1F4FC, 2⟩, ⟨0x1F4FD, 0x1F4FE, 1⟩,
  ⟨0x1F4FF, 0x1F53D, 2⟩, ⟨0x1F53E, 0x1F54A, 1⟩, ⟨0x1F54B, 0x1F54E, 2⟩, ⟨0x1F54F, 0x1F54F, 1⟩,
  ⟨0x1F550, 0x1F567, 2⟩, ⟨0x1F568, 0x1F579, 1⟩, ⟨0x1F57A, 0x1F57A, 2⟩, ⟨0x1F57B, 0x1F594, 1⟩,
  ⟨0x1F595, 0x1F596, 2⟩, ⟨0x1F597, 0x1F5A3, 1⟩, ⟨0x1F5A4, 0x1F5A4, 2⟩, ⟨0x1F5A5, 0x1F5FA, 1⟩,
  ⟨0x1F5FB, 0x1F64F, 2⟩, ⟨0x1F650, 0x1F67F, 1⟩, ⟨0x1F680, 0x1F6C5, 2⟩, ⟨0x1F6C6, 0x1F6CB, 1⟩,
  ⟨0x1F6CC, 0x1F6CC, 2⟩, ⟨0x1F6CD, 0x1F6CF, 1⟩, ⟨0x1F6D0, 0x1F6D2, 2⟩, ⟨0x1F6D3, 0x1F6D4, 1⟩,
  ⟨0x1F6D5, 0x1F6D7, 2⟩, ⟨0x1F6E0, 0x1F6EA, 1⟩, ⟨0x1F6EB, 0x1F6EC, 2⟩, ⟨0x1F6F0, 0x1F6F3, 1⟩,
  ⟨0x1F6F4, 0x1F6FC, 2⟩, ⟨0x1F700, 0x1F773, 1⟩, ⟨0x1F780, 0x1F7D8, 1⟩, ⟨0x1F7E0, 0x1F7EB, 2⟩,
  ⟨0x1F800, 0x1F80B, 1⟩, ⟨0x1F810, 0x1F847, 1⟩, ⟨0x1F850, 0x1F859, 1⟩, ⟨0x1F860, 0x1F887, 1⟩,
  ⟨0x1F890, 0x1F8AD, 1⟩, ⟨0x1F8B0, 0x1F8B1, 1⟩, ⟨0x1F900, 0x1F90B, 1⟩, ⟨0x1F90C, 0x1F93A, 2⟩,
  ⟨0x1F93B, 0x1F93B, 1⟩, ⟨0x1F93C, 0x1F945, 2⟩, ⟨0x1F946, 0x1F946, 1⟩, ⟨0x1F947, 0x1F978, 2⟩,
  ⟨0x1F97A, 0x1F9CB, 2⟩, ⟨0x1F9CD, 0x1F9FF, 2⟩, ⟨0x1FA00, 0x1FA53, 1⟩, ⟨0x1FA60, 0x1FA6D, 1⟩,
  ⟨0x1FA70, 0x1FA74, 2⟩, ⟨0x1FA78, 0x1FA7A, 2⟩, ⟨0x1FA80, 0x1FA86, 2⟩, ⟨0x1FA90, 0x1FAA8, 2⟩,
  ⟨0x1FAB0, 0x1FAB6, 2⟩, ⟨0x1FAC0, 0x1FAC2, 2⟩, ⟨0x1FAD0, 0x1FAD6, 2⟩, ⟨0x1FB00, 0x1FB92, 1⟩,
  ⟨0x1FB94, 0x1FBCA, 1⟩, ⟨0x1FBF0, 0x1FBF9, 1⟩, ⟨0x20000, 0x2FFFD, 2⟩, ⟨0x30000, 0x3FFFD, 2⟩,
  ⟨0xE0001, 0xE0001, 1⟩, ⟨0xE0020, 0xE007F, 1⟩, ⟨0xE0100, 0xE01EF, -1⟩, ⟨0xF0000, 0xFFFFD, -1⟩,
  ⟨0x100000, 0x10FFFD, -1⟩]

/-- /repo/modules/inter/_AMBIGUOUS.h (`ambiguous`) -/
def ambiguous : List Row := [
  ⟨0x00A1, 0x00A1, 1⟩, ⟨0x00A4, 0x00A4, 1⟩, ⟨0x00A7, 0x00A8, 1⟩, ⟨0x00AA, 0x00AA, 1⟩, ⟨0x00AD, 0x00AE, 1⟩,
  ⟨0x00B0, 0x00B4, 1⟩, ⟨0x00B6, 0x00BA, 1⟩, ⟨0x00BC, 0x00BF, 1⟩, ⟨0x00C6, 0x00C6, 1⟩, ⟨0x00D0, 0x00D0, 1⟩,
  ⟨0x00D7, 0x00D8, 1⟩, ⟨0x00DE, 0x00E1, 1⟩, ⟨0x00E6, 0x00E6, 1⟩, ⟨0x00E8, 0x00EA, 1⟩, ⟨0x00EC, 0x00ED, 1⟩,
  ⟨0x00F0, 0x00F0, 1⟩, ⟨0x00F2, 0x00F3, 1⟩, ⟨0x00F7, 0x00FA, 1⟩, ⟨0x00FC, 0x00FC, 1⟩, ⟨0x00FE, 0x00FE, 1⟩,
  ⟨0x0101, 0x0101, 1⟩, ⟨0x0111, 0x0111, 1⟩, ⟨0x0113, 0x0113, 1⟩, ⟨0x011B, 0x011B, 1⟩, ⟨0x0126, 0x0127, 1⟩,
  ⟨0x012B, 0x012B, 1⟩, ⟨0x0131, 0x0133, 1⟩, ⟨0x0138, 0x0138, 1⟩, ⟨0x013F, 0x0142, 1⟩, ⟨0x0144, 0x0144, 1⟩,
  ⟨0x0148, 0x014B, 1⟩, ⟨0x014D, 0x014D, 1⟩, ⟨0x0152, 0x0153, 1⟩, ⟨0x0166, 0x0167, 1⟩, ⟨0x016B, 0x016B, 1⟩,
  ⟨0x01CE, 0x01CE, 1⟩, ⟨0x01D0, 0x01D0, 1⟩, ⟨0x01D2, 0x01D2, 1⟩, ⟨0x01D4, 0x01D4, 1⟩, ⟨0x01D6, 0x01D6, 1⟩,
  ⟨0x01D8, 0x01D8, 1⟩, ⟨0x01DA, 0x01DA, 1⟩, ⟨0x01DC, 0x01DC, 1⟩, ⟨0x0251, 0x0251, 1⟩, ⟨0x0261, 0x0261, 1⟩,
  ⟨0x02C4, 0x02C4, 1⟩, ⟨0x02C7, 0x02C7, 1⟩, ⟨0x02C9, 0x02CB, 1⟩, ⟨0x02CD, 0x02CD, 1⟩, ⟨0x02D0, 0x02D0, 1⟩,
  ⟨0x02D8, 0x02DB, 1⟩, ⟨0x02DD, 0x02DD, 1⟩, ⟨0x02DF, 0x02DF, 1⟩, ⟨0x0300, 0x036F, 1⟩, ⟨0x0391, 0x03A1, 1⟩,
  ⟨0x03A3, 0x03A9, 1⟩, ⟨0x03B1, 0x03C1, 1⟩, ⟨0x03C3, 0x03C9, 1⟩, ⟨0x0401, 0x0401, 1⟩, ⟨0x0410, 0x044F, 1⟩,
  ⟨0x0451, 0x0451, 1⟩, ⟨0x2010, 0x2010, 1⟩, ⟨0x2013, 0x2016, 1⟩, ⟨0x2018, 0x2019, 1⟩, ⟨0x201C, 0x201D, 1⟩,
  ⟨0x2020, 0x2022, 1⟩, ⟨0x2024, 0x2027, 1⟩, ⟨0x2030, 0x2030, 1⟩, ⟨0x2032, 0x2033, 1⟩, ⟨0x2035, 0x2035, 1⟩,
  ⟨0x203B, 0x203B, 1⟩, ⟨0x203E, 0x203E, 1⟩, ⟨0x2074, 0x2074, 1⟩, ⟨0x207F, 0x207F, 1⟩, ⟨0x2081, 0x2084, 1⟩,
  ⟨0x20AC, 0x20AC, 1⟩, ⟨0x2103, 0x2103, 1⟩, ⟨0x2105, 0x2105, 1⟩, ⟨0x2109, 0x2109, 1⟩, ⟨0x2113, 0x2113, 1⟩,
  ⟨0x2116, 0x2116, 1⟩, ⟨0x2121, 0x2122, 1⟩, ⟨0x2126, 0x2126, 1⟩, ⟨0x212B, 0x212B, 1⟩, ⟨0x2153, 0x2154, 1⟩,
  ⟨0x215B, 0x215E, 1⟩, ⟨0x2160, 0x216B, 1⟩, ⟨0x2170, 0x2179, 1⟩, ⟨0x2189, 0x2189, 1⟩, ⟨0x2190, 0x2199, 1⟩,
  ⟨0x21B8, 0x21B9, 1⟩, ⟨0x21D2, 0x21D2, 1⟩, ⟨0x21D4, 0x21D4, 1⟩, ⟨0x21E7, 0x21E7, 1⟩, ⟨0x2200, 0x2200, 1⟩,
  ⟨0x2202, 0x2203, 1⟩, ⟨0x2207, 0x2208, 1⟩, ⟨0x220B, 0x220B, 1⟩, ⟨0x220F, 0x220F, 1⟩, ⟨0x2211, 0x2211, 1⟩,
  ⟨0x2215, 0x2215, 1⟩, ⟨0x221A, 0x221A, 1⟩, ⟨0x221D, 0x2220, 1⟩, ⟨0x2223, 0x2223, 1⟩, ⟨0x2225, 0x2225, 1⟩,
  ⟨0x2227, 0x222C, 1⟩, ⟨0x222E, 0x222E, 1⟩, ⟨0x2234, 0x2237, 1⟩, ⟨0x223C, 0x223D, 1⟩, ⟨0x2248, 0x2248, 1⟩,
  ⟨0x224C, 0x224C, 1⟩, ⟨0x2252, 0x2252, 1⟩, ⟨0x2260, 0x2261, 1⟩, ⟨0x2264, 0x2267, 1⟩, ⟨0x226A, 0x226B, 1⟩,
  ⟨0x226E, 0x226F, 1⟩, ⟨0x2282, 0x2283, 1⟩, ⟨0x2286, 0x2287, 1⟩, ⟨0x2295, 0x2295, 1⟩, ⟨0x2299, 0x2299, 1⟩,
  ⟨0x22A5, 0x22A5, 1⟩, ⟨0x22BF, 0x22BF, 1⟩, ⟨0x2312, 0x2312, 1⟩, ⟨0x2460, 0x24E9, 1⟩, ⟨0x24EB, 0x254B, 1⟩,
  ⟨0x2550, 0x2573, 1⟩, ⟨0x2580, 0x258F, 1⟩, ⟨0x2592, 0x2595, 1⟩, ⟨0x25A0, 0x25A1, 1⟩, ⟨0x25A3, 0x25A9, 1⟩,
  ⟨0x25B2, 0x25B3, 1⟩, ⟨0x25B6, 0x25B7, 1⟩, ⟨0x25BC, 0x25BD, 1⟩, ⟨0x25C0, 0x25C1, 1⟩, ⟨0x25C6, 0x25C8, 1⟩,
  ⟨0x25CB, 0x25CB, 1⟩, ⟨0x25CE, 0x25D1, 1⟩, ⟨0x25E2, 0x25E5, 1⟩, ⟨0x25EF, 0x25EF, 1⟩, ⟨0x2605, 0x2606, 1⟩,
  ⟨0x2609, 0x2609, 1⟩, ⟨0x260E, 0x260F, 1⟩, ⟨0x261C, 0x261C, 1⟩, ⟨0x261E, 0x261E, 1⟩, ⟨0x2640, 0x2640, 1⟩,
  ⟨0x2642, 0x2642, 1⟩, ⟨0x2660, 0x2661, 1⟩, ⟨0x2663, 0x2665, 1⟩, ⟨0x2667, 0x266A, 1⟩, ⟨0x266C, 0x266D, 1⟩,
  ⟨0x266F, 0x266F, 1⟩, ⟨0x269E, 0x269F, 1⟩, ⟨0x26BF, 0x26BF, 1⟩, ⟨0x26C6, 0x26CD, 1⟩, ⟨0x26CF, 0x26D3, 1⟩,
  ⟨0x26D5, 0x26E1, 1⟩, ⟨0x26E3, 0x26E3, 1⟩, ⟨0x26E8, 0x26E9, 1⟩, ⟨0x26EB, 0x26F1, 1⟩, ⟨0x26F4, 0x26F4, 1⟩,
  ⟨0x26F6, 0x26F9, 1⟩, ⟨0x26FB, 0x26FC, 1⟩, ⟨0x26FE, 0x26FF, 1⟩, ⟨0x273D, 0x273D, 1⟩, ⟨0x2776, 0x277F, 1⟩,
  ⟨0x2B56, 0x2B59, 1⟩, ⟨0x3248, 0x324F, 1⟩, ⟨0xE000, 0xF8FF, 1⟩, ⟨0xFE00, 0xFE0F, 1⟩, ⟨0xFFFD, 0xFFFD, 1⟩,
  ⟨0x1F100, 0x1F10A, 1⟩, ⟨0x1F110, 0x1F12D, 1⟩, ⟨0x1F130, 0x1F169, 1⟩, ⟨0x1F170, 0x1F18D, 1⟩,
  ⟨0x1F18F, 0x1F190, 1⟩, ⟨0x1F19B, 0x1F1AC, 1⟩, ⟨0xE0100, 0xE01EF, 1⟩, ⟨0xF0000, 0xFFFFD, 1⟩,
  ⟨0x100000, 0x10FFFD, 1⟩]

/-- /repo/modules/inter/_NF-CCC.h (`ccc_table`) -/
def cccTable : List Row := [
  ⟨0x300, 0x314, 230⟩, ⟨0x315, 0x315, 232⟩, ⟨0x316, 0x319, 220⟩, ⟨0x31a, 0x31a, 232⟩, ⟨0x31b, 0x31b, 216⟩,
  ⟨0x31c, 0x320, 220⟩, ⟨0x321, 0x322, 202⟩, ⟨0x323, 0x326, 220⟩, ⟨0x327, 0x328, 202⟩, ⟨0x329, 0x333, 220⟩,
  ⟨0x334, 0x338, 1⟩, ⟨0x339, 0x33c, 220⟩, ⟨0x33d, 0x344, 230⟩, ⟨0x345, 0x345, 240⟩, ⟨0x346, 0x346, 230⟩,
  ⟨0x347, 0x349, 220⟩, ⟨0x34a, 0x34c, 230⟩, ⟨0x34d, 0x34e, 220⟩, ⟨0x350, 0x352, 230⟩, ⟨0x353, 0x356, 220⟩,
  ⟨0x357, 0x357, 230⟩, ⟨0x358, 0x358, 232⟩, ⟨0x359, 0x35a, 220⟩, ⟨0x35b, 0x35b, 230⟩, ⟨0x35c, 0x35c, 233⟩,
  ⟨0x35d, 0x35e, 234⟩, ⟨0x35f, 0x35f, 233⟩, ⟨0x360, 0x361, 234⟩, ⟨0x362, 0x362, 233⟩, ⟨0x363, 0x36f, 230⟩,
  ⟨0x483, 0x487, 230⟩, ⟨0x591, 0x591, 220⟩, ⟨0x592, 0x595, 230⟩, ⟨0x596, 0x596, 220⟩, ⟨0x597, 0x599, 230⟩,
  ⟨0x59a, 0x59a, 222⟩, ⟨0x59b, 0x59b, 220⟩, ⟨0x59c, 0x5a1, 230⟩, ⟨0x5a2, 0x5a7, 220⟩, ⟨0x5a8, 0x5a9, 230⟩,
  ⟨0x5aa, 0x5aa, 220⟩, ⟨0x5ab, 0x5ac, 230⟩, ⟨0x5ad, 0x5ad, 222⟩, ⟨0x5ae, 0x5ae, 228⟩, ⟨0x5af, 0x5af, 230⟩,
  ⟨0x5b0, 0x5b0, 10⟩, ⟨0x5b1, 0x5b1, 11⟩, ⟨0x5b2, 0x5b2, 12⟩, ⟨0x5b3, 0x5b3, 13⟩, ⟨0x5b4, 0x5b4, 14⟩,
  ⟨0x5b5, 0x5b5, 15⟩, ⟨0x5b6, 0x5b6, 16⟩, ⟨0x5b7, 0x5b7, 17⟩, ⟨0x5b8, 0x5b8, 18⟩, ⟨0x5b9, 0x5ba, 19⟩,
  ⟨0x5bb, 0x5bb, 20⟩, ⟨0x5bc, 0x5bc, 21⟩, ⟨0x5bd, 0x5bd, 22⟩, ⟨0x5bf, 0x5bf, 23⟩, ⟨0x5c1, 0x5c1, 24⟩,
  ⟨0x5c2, 0x5c2, 25⟩, ⟨0x5c4, 0x5c4, 230⟩, ⟨0x5c5, 0x5c5, 220⟩, ⟨0x5c7, 0x5c7, 18⟩, ⟨0x610, 0x617, 230⟩,
  ⟨0x618, 0x618, 30⟩, ⟨0x619, 0x619, 31⟩, ⟨0x61a, 0x61a, 32⟩, ⟨0x64b, 0x64b, 27⟩, ⟨0x64c, 0x64c, 28⟩,
  ⟨0x64d, 0x64d, 29⟩, ⟨0x64e, 0x64e, 30⟩, ⟨0x64f, 0x64f, 31⟩, ⟨0x650, 0x650, 32⟩, ⟨0x651, 0x651, 33⟩,
  ⟨0x652, 0x652, 34⟩, ⟨0x653, 0x654, 230⟩, ⟨0x655, 0x656, 220⟩, ⟨0x657, 0x65b, 230⟩, ⟨0x65c, 0x65c, 220⟩,
  ⟨0x65d, 0x65e, 230⟩, ⟨0x65f, 0x65f, 220⟩, ⟨0x670, 0x670, 35⟩, ⟨0x6d6, 0x6dc, 230⟩, ⟨0x6df, 0x6e2, 230⟩,
  ⟨0x6e3, 0x6e3, 220⟩, ⟨0x6e4, 0x6e4, 230⟩, ⟨0x6e7, 0x6e8, 230⟩, ⟨0x6ea, 0x6ea, 220⟩, ⟨0x6eb, 0x6ec, 230⟩,
  ⟨0x6ed, 0x6ed, 220⟩, ⟨0x711, 0x711, 36⟩, ⟨0x730, 0x730, 230⟩, ⟨0x731, 0x731, 220⟩, ⟨0x732, 0x733, 230⟩,
  ⟨0x734, 0x734, 220⟩, ⟨0x735, 0x736, 230⟩, ⟨0x737, 0x739, 220⟩, ⟨0x73a, 0x73a, 230⟩, ⟨0x73b, 0x73c, 220⟩,
  ⟨0x73d, 0x73d, 230⟩, ⟨0x73e, 0x73e, 220⟩, ⟨0x73f, 0x741, 230⟩, ⟨0x742, 0x742, 220⟩, ⟨0x743, 0x743, 230⟩,
  ⟨0x744, 0x744, 220⟩, ⟨0x745, 0x745, 230⟩, ⟨0x746, 0x746, 220⟩, ⟨0x747, 0x747, 230⟩, ⟨0x748, 0x748, 220⟩,
  ⟨0x749, 0x74a, 230⟩, ⟨0x7eb, 0x7f1, 230⟩, ⟨0x7f2, 0x7f2, 220⟩, ⟨0x7f3, 0x7f3, 230⟩, ⟨0x7fd, 0x7fd, 220⟩,
  ⟨0x816, 0x819, 230⟩, ⟨0x81b, 0x823, 230⟩, ⟨0x825, 0x827, 230⟩, ⟨0x829, 0x82d, 230⟩, ⟨0x859, 0x85b, 220⟩,
  ⟨0x8d3, 0x8d3, 220⟩, ⟨0x8d4, 0x8e1, 230⟩, ⟨0x8e3, 0x8e3, 220⟩, ⟨0x8e4, 0x8e5, 230⟩, ⟨0x8e6, 0x8e6, 220⟩,
  ⟨0x8e7, 0x8e8, 230⟩, ⟨0x8e9, 0x8e9, 220⟩, ⟨0x8ea, 0x8ec, 230⟩, ⟨0x8ed, 0x8ef, 220⟩, ⟨0x8f0, 0x8f0, 27⟩,
  ⟨0x8f1, 0x8f1, 28⟩, ⟨0x8f2, 0x8f2, 29⟩, ⟨0x8f3, 0x8f5, 230⟩, ⟨0x8f6, 0x8f6, 220⟩, ⟨0x8f7, 0x8f8, 230⟩,
  ⟨0x8f9, 0x8fa, 220⟩, ⟨0x8fb, 0x8ff, 230⟩, ⟨0x93c, 0x93c, 7⟩, ⟨0x94d, 0x94d, 9⟩, ⟨0x951, 0x951, 230⟩,
  ⟨0x952, 0x952, 220⟩, ⟨0x953, 0x954, 230⟩, ⟨0x9bc, 0x9bc, 7⟩, ⟨0x9cd, 0x9cd, 9⟩, ⟨0x9fe, 0x9fe, 230⟩,
  ⟨0xa3c, 0xa3c, 7⟩, ⟨0xa4d, 0xa4d, 9⟩, ⟨0xabc, 0xabc, 7⟩, ⟨0xacd, 0xacd, 9⟩, ⟨0xb3c, 0xb3c, 7⟩,
  ⟨0xb4d, 0xb4d, 9⟩, ⟨0xbcd, 0xbcd, 9⟩, ⟨0xc4d, 0xc4d, 9⟩, ⟨0xc55, 0xc55, 84⟩, ⟨0xc56, 0xc56, 91⟩,
  ⟨0xcbc, 0xcbc, 7⟩, ⟨0xccd, 0xccd, 9⟩, ⟨0xd3b, 0xd3c, 9⟩, ⟨0xd4d, 0xd4d, 9⟩, ⟨0xdca, 0xdca, 9⟩,
  ⟨0xe38, 0xe39, 103⟩, ⟨0xe3a, 0xe3a, 9⟩, ⟨0xe48, 0xe4b, 107⟩, ⟨0xeb8, 0xeb9, 118⟩, ⟨0xeba, 0xeba, 9⟩,
  ⟨0xec8, 0xecb, 122⟩, ⟨0xf18, 0xf19, 220⟩, ⟨0xf35, 0xf35, 220⟩, ⟨0xf37, 0xf37, 220⟩, ⟨0xf39, 0xf39, 216⟩,
  ⟨0xf71, 0xf71, 129⟩, ⟨0xf72, 0xf72, 130⟩, ⟨0xf74, 0xf74, 132⟩, ⟨0xf7a, 0xf7d, 130⟩, ⟨0xf80, 0xf80, 130⟩,
  ⟨0xf82, 0xf83, 230⟩, ⟨0xf84, 0xf84, 9⟩, ⟨0xf86, 0xf87, 230⟩, ⟨0xfc6, 0xfc6, 220⟩, ⟨0x1037, 0x1037, 7⟩,
  ⟨0x1039, 0x103a, 9⟩, ⟨0x108d, 0x108d, 220⟩, ⟨0x135d, 0x135f, 230⟩, ⟨0x1714, 0x1714, 9⟩,
  ⟨0x1734, 0x1734, 9⟩, ⟨0x17d2, 0x17d2, 9⟩, ⟨0x17dd, 0x17dd, 230⟩, ⟨0x18a9, 0x18a9, 228⟩,
  ⟨0x1939, 0x1939, 222⟩, ⟨0x193a, 0x193a, 230⟩, ⟨0x193b, 0x193b, 220⟩, ⟨0x1a17, 0x1a17, 230⟩,
  ⟨0x1a18, 0x1a18, 220⟩, ⟨0x1a60, 0x1a60, 9⟩, ⟨0x1a75, 0x1a7c, 230⟩, ⟨0x1a7f, 0x1a7f, 220⟩,
  ⟨0x1ab0, 0x1ab4, 230⟩, ⟨0x1ab5, 0x1aba, 220⟩, ⟨0x1abb, 0x1abc, 230⟩, ⟨0x1abd, 0x1abd, 220⟩,
  ⟨0x1abf, 0x1ac0, 220⟩, ⟨0x1b34, 0x1b34, 7⟩, ⟨0x1b44, 0x1b44, 9⟩, ⟨0x1b6b, 0x1b6b, 230⟩,
  ⟨0x1b6c, 0x1b6c, 220⟩, ⟨0x1b6d, 0x1b73, 230⟩, ⟨0x1baa, 0x1bab, 9⟩, ⟨0x1be6, 0x1be6, 7⟩,
  ⟨0x1bf2, 0x1bf3, 9⟩, ⟨0x1c37, 0x1c37, 7⟩, ⟨0x1cd0, 0x1cd2, 230⟩, ⟨0x1cd4, 0x1cd4, 1⟩,
  ⟨0x1cd5, 0x1cd9, 220⟩, ⟨0x1cda, 0x1cdb, 230⟩, ⟨0x1cdc, 0x1cdf, 220⟩, ⟨0x1ce0, 0x1ce0, 230⟩,
  ⟨0x1ce2, 0x1ce8, 1⟩, ⟨0x1ced, 0x1ced, 220⟩, ⟨0x1cf4, 0x1cf4, 230⟩, ⟨0x1cf8, 0x1cf9, 230⟩,
  ⟨0x1dc0, 0x1dc1, 230⟩, ⟨0x1dc2, 0x1dc2, 220⟩, ⟨0x1dc3, 0x1dc9, 230⟩, ⟨0x1dca, 0x1dca, 220⟩,
  ⟨0x1dcb, 0x1dcc, 230⟩, ⟨0x1dcd, 0x1dcd, 234⟩, ⟨0x1dce, 0x1dce, 214⟩, ⟨0x1dcf, 0x1dcf, 220⟩,
  ⟨0x1dd0, 0x1dd0, 202⟩, ⟨0x1dd1, 0x1df5, 230⟩, ⟨0x1df6, 0x1df6, 232⟩, ⟨0x1df7, 0x1df8, 228⟩,
  ⟨0x1df9, 0x1df9, 220⟩, ⟨0x1dfb, 0x1dfb, 230⟩, ⟨0x1dfc, 0x1dfc, 233⟩, ⟨0x1dfd, 0x1dfd, 220⟩,
  ⟨0x1dfe, 0x1dfe, 230⟩, ⟨0x1dff, 0x1dff, 220⟩, ⟨0x20d0, 0x20d1, 230⟩, ⟨0x20d2, 0x20d3, 1⟩,
  ⟨0x20d4, 0x20d7, 230⟩, ⟨0x20d8, 0x20da, 1⟩, ⟨0x20db, 0x20dc, 230⟩, ⟨0x20e1, 0x20e1, 230⟩,
  ⟨0x20e5, 0x20e6, 1⟩, ⟨0x20e7, 0x20e7, 230⟩, ⟨0x20e8, 0x20e8, 220⟩, ⟨0x20e9, 0x20e9, 230⟩,
  ⟨0x20ea, 0x20eb, 1⟩, ⟨0x20ec, 0x20ef, 220⟩, ⟨0x20f0, 0x20f0, 230⟩, ⟨0x2cef, 0x2cf1, 230⟩,
  ⟨0x2d7f, 0x2d7f, 9⟩, ⟨0x2de0, 0x2dff, 230⟩, ⟨0x302a, 0x302a, 218⟩, ⟨0x302b, 0x302b, 228⟩,
  ⟨0x302c, 0x302c, 232⟩, ⟨0x302d, 0x302d, 222⟩, ⟨0x302e, 0x302f, 224⟩, ⟨0x3099, 0x309a, 8⟩,
  ⟨0xa66f, 0xa66f, 230⟩, ⟨0xa674, 0xa67d, 230⟩, ⟨0xa69e, 0xa69f, 230⟩, ⟨0xa6f0, 0xa6f1, 230⟩,
  ⟨0xa806, 0xa806, 9⟩, ⟨0xa82c, 0xa82c, 9⟩, ⟨0xa8c4, 0xa8c4, 9⟩, ⟨0xa8e0, 0xa8f1, 230⟩,
  ⟨0xa92b, 0xa92d, 220⟩, ⟨0xa953, 0xa953, 9⟩, ⟨0xa9b3, 0xa9b3, 7⟩, ⟨0xa9c0, 0xa9c0, 9⟩,
  ⟨0xaab0, 0xaab0, 230⟩, ⟨0xaab2, 0xaab3, 230⟩, ⟨0xaab4, 0xaab4, 220⟩, ⟨0xaab7, 0xaab8, 230⟩,
  ⟨0xaabe, 0xaabf, 230⟩, ⟨0xaac1, 0xaac1, 230⟩, ⟨0xaaf6, 0xaaf6, 9⟩, ⟨0xabed, 0xabed, 9⟩,
  ⟨0xfb1e, 0xfb1e, 26⟩, ⟨0xfe20, 0xfe26, 230⟩, ⟨0xfe27, 0xfe2d, 220⟩, ⟨0xfe2e, 0xfe2f, 230⟩,
  ⟨0x101fd, 0x101fd, 220⟩, ⟨0x102e0, 0x102e0, 220⟩, ⟨0x10376, 0x1037a, 230⟩, ⟨0x10a0d, 0x10a0d, 220⟩,
  ⟨0x10a0f, 0x10a0f, 230⟩, ⟨0x10a38, 0x10a38, 230⟩, ⟨0x10a39, 0x10a39, 1⟩, ⟨0x10a3a, 0x10a3a, 220⟩,
  ⟨0x10a3f, 0x10a3f, 9⟩, ⟨0x10ae5, 0x10ae5, 230⟩, ⟨0x10ae6, 0x10ae6, 220⟩, ⟨0x10d24, 0x10d27, 230⟩,
  ⟨0x10eab, 0x10eac, 230⟩, ⟨0x10f46, 0x10f47, 220⟩, ⟨0x10f48, 0x10f4a, 230⟩, ⟨0x10f4b, 0x10f4b, 220⟩,
  ⟨0x10f4c, 0x10f4c, 230⟩, ⟨0x10f4d, 0x10f50, 220⟩, ⟨0x11046, 0x11046, 9⟩, ⟨0x1107f, 0x1107f, 9⟩,
  ⟨0x110b9, 0x110b9, 9⟩, ⟨0x110ba, 0x110ba, 7⟩, ⟨0x11100, 0x11102, 230⟩, ⟨0x11133, 0x11134, 9⟩,
  ⟨0x11173, 0x11173, 7⟩, ⟨0x111c0, 0x111c0, 9⟩, ⟨0x111ca, 0x111ca, 7⟩, ⟨0x11235, 0x11235, 9⟩,
  ⟨0x11236, 0x11236, 7⟩, ⟨0x112e9, 0x112e9, 7⟩, ⟨0x112ea, 0x112ea, 9⟩, ⟨0x1133b, 0x1133c, 7⟩,
  ⟨0x1134d, 0x1134d, 9⟩, ⟨0x11366, 0x1136c, 230⟩, ⟨0x11370, 0x11374, 230⟩, ⟨0x11442, 0x11442, 9⟩,
  ⟨0x11446, 0x11446, 7⟩, ⟨0x1145e, 0x1145e, 230⟩, ⟨0x114c2, 0x114c2, 9⟩, ⟨0x114c3, 0x114c3, 7⟩,
  ⟨0x115bf, 0x115bf, 9⟩, ⟨0x115c0, 0x115c0, 7⟩, ⟨0x1163f, 0x1163f, 9⟩, ⟨0x116b6, 0x116b6, 9⟩,
  ⟨0x116b7, 0x116b7, 7⟩, ⟨0x1172b, 0x1172b, 9⟩, ⟨0x11839, 0x11839, 9⟩, ⟨0x1183a, 0x1183a, 7⟩,
  ⟨0x1193d, 0x1193e, 9⟩, ⟨0x11943, 0x11943, 7⟩, ⟨0x119e0, 0x119e0, 9⟩, ⟨0x11a34, 0x11a34, 9⟩,
  ⟨0x11a47, 0x11a47, 9⟩, ⟨0x11a99, 0x11a99, 9⟩, ⟨0x11c3f, 0x11c3f, 9⟩, ⟨0x11d42, 0x11d42, 7⟩,
  ⟨0x11d44, 0x11d45, 9⟩, ⟨0x11d97, 0x11d97, 9⟩, ⟨0x16af0, 0x16af4, 1⟩, ⟨0x16b30, 0x16b36, 230⟩,
  ⟨0x16ff0, 0x16ff1, 6⟩, ⟨0x1bc9e, 0x1bc9e, 1⟩, ⟨0x1d165, 0x1d166, 216⟩, ⟨0x1d167, 0x1d169, 1⟩,
  ⟨0x1d16d, 0x1d16d, 226⟩, ⟨0x1d16e, 0x1d172, 216⟩, ⟨0x1d17b, 0x1d182, 220⟩, ⟨0x1d185, 0x1d189, 230⟩,
  ⟨0x1d18a, 0x1d18b, 220⟩, ⟨0x1d1aa, 0x1d1ad, 230⟩, ⟨0x1d242, 0x1d244, 230⟩, ⟨0x1e000, 0x1e006, 230⟩,
  ⟨0x1e008, 0x1e018, 230⟩, ⟨0x1e01b, 0x1e021, 230⟩, ⟨0x1e023, 0x1e024, 230⟩, ⟨0x1e026, 0x1e02a, 230⟩,
  ⟨0x1e130, 0x1e136, 230⟩, ⟨0x1e2ec, 0x1e2ef, 230⟩, ⟨0x1e8d0, 0x1e8d6, 220⟩, ⟨0x1e944, 0x1e949, 230⟩,
  ⟨0x1e94a, 0x1e94a, 7⟩]

/-- All filters made from filter/unicode_range.c. -/
def filters : List (String × List Row) := [
  ("ARABIC", filterARABIC),
  ("ARMENIAN", filterARMENIAN),
  ("ARROWS", filterARROWS),
  ("BRAILLE", filterBRAILLE),
  ("CHEROKEE", filterCHEROKEE),
  ("CJK", filterCJK),
  ("CUNEIFORM", filterCUNEIFORM),
  ("CURRENCY", filterCURRENCY),
  ("CYRILLIC", filterCYRILLIC),
  ("DEVANAGARI", filterDEVANAGARI),
  ("EGYPTIAN", filterEGYPTIAN),
  ("EMOTICON", filterEMOTICON),
  ("ETHIOPIC", filterETHIOPIC),
  ("GEORGIAN", filterGEORGIAN),
  ("GREEK", filterGREEK),
  ("HANGUL", filterHANGUL),
  ("HEBREW", filterHEBREW),
  ("HIRAGANA", filterHIRAGANA),
  ("IPA", filterIPA),
  ("JAVANESE", filterJAVANESE),
  ("KANNADA", filterKANNADA),
  ("KATAKANA", filterKATAKANA),
  ("KHMER", filterKHMER),
  ("LAO", filterLAO),
  ("LATIN", filterLATIN),
  ("LATIN1", filterLATIN1),
  ("MAHJONG", filterMAHJONG),
  ("MALAYALAM", filterMALAYALAM),
  ("MATH", filterMATH),
  ("MIAO", filterMIAO),
  ("MONGOLIAN", filterMONGOLIAN),
  ("MUSIC", filterMUSIC),
  ("MYANMAR", filterMYANMAR),
  ("PHONETIC", filterPHONETIC),
  ("PRINT", filterPRINT),
  ("PUA", filterPUA),
  ("PUNCTUATION", filterPUNCTUATION),
  ("ROMAN", filterROMAN),
  ("SAMARITAN", filterSAMARITAN),
  ("SINHALA", filterSINHALA),
  ("SUNDANESE", filterSUNDANESE),
  ("SYRIAC", filterSYRIAC),
  ("TAGALOG", filterTAGALOG),
  ("TAMIL", filterTAMIL),
  ("TELUGU", filterTELUGU),
  ("THAI", filterTHAI),
  ("TIBETAN", filterTIBETAN),
  ("TIFINAGH", filterTIFINAGH),
  ("YI", filterYI)]

/-- All scorers made from scorer/unicode_range.c. -/
def scorers : List (String × List Row) := [
  ("CJK", scorerCJK),
  ("LATIN1", scorerLATIN1)]

/-- All filters made from filter/type.c, with their TYPE. -/
def typeFilters : List (String × Nat) := [("ANSI", 0x1b), ("BYTE", 3), ("CNS11643", 2), ("UNICODE", 1)]

end Verif.Range
