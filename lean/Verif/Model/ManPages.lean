/- Generated by tools/manpages.py from /repo/modules/{from,inter,to,filter}/*.man: directory, codec, and the argument of `.redirect` if the page is one. -/
namespace Verif.Man

/-- /repo/modules/*/*.man -/
def manPages : List (String × String × Option String) := [
  ("from", "00", none),
  ("from", "ANSI-CONTROL", none),
  ("from", "ANY", none),
  ("from", "ASCII-NAMED-HTML-ENTITY", none),
  ("from", "ASCII-NUMERIC-HTML-ENTITY", none),
  ("from", "ASCII", none),
  ("from", "BIG5-5C", none),
  ("from", "BSDCONV-KEYWORD", none),
  ("from", "BSDCONV-LOG", none),
  ("from", "BSDCONV", none),
  ("from", "BYTE", none),
  ("from", "CCCII", none),
  ("from", "CP950-UDA", none),
  ("from", "ESCAPE", none),
  ("from", "FALLBACK-UNICODE", none),
  ("from", "IBM-37", none),
  ("from", "IBM-930", some "from/IBM-37"),
  ("from", "IBM-933", some "from/IBM-37"),
  ("from", "IBM-935", some "from/IBM-37"),
  ("from", "IBM-937", some "from/IBM-37"),
  ("from", "IBM-939", some "from/IBM-37"),
  ("from", "PASS", none),
  ("from", "UTF-16BE", none),
  ("from", "UTF-16LE", some "from/UTF-16BE"),
  ("from", "UTF-32BE", none),
  ("from", "UTF-32LE", some "from/UTF-32BE"),
  ("from", "_BIG5-2003", none),
  ("from", "_BIG5-ETEN", some "from/_BIG5-2003"),
  ("from", "_BIG5E", some "from/_BIG5-2003"),
  ("from", "_CP1251", none),
  ("from", "_CP1252", none),
  ("from", "_CP1253", none),
  ("from", "_CP874", none),
  ("from", "_CP932", none),
  ("from", "_CP936", none),
  ("from", "_CP949", none),
  ("from", "_CP950", none),
  ("from", "_GB18030", some "from/_CP936"),
  ("from", "_GB2312", some "from/_CP936"),
  ("from", "_GBK", some "from/_CP936"),
  ("from", "_ISO-8859-1", none),
  ("from", "_SHIFT-JIS", none),
  ("from", "_UAO241", some "from/_CP950"),
  ("from", "_UAO250", some "from/_CP950"),
  ("from", "_UTF-8", none),
  ("inter", "ALIAS-FROM", none),
  ("inter", "ALIAS-TO", none),
  ("inter", "AMBIGUOUS-PAD", none),
  ("inter", "AMBIGUOUS-UNPAD", none),
  ("inter", "BIG5-DEFRAG", none),
  ("inter", "COUNT", none),
  ("inter", "FULL", none),
  ("inter", "HALF", none),
  ("inter", "INSERT", none),
  ("inter", "KANA-PHONETIC", none),
  ("inter", "KANJI", none),
  ("inter", "LOWER", none),
  ("inter", "MAC", none),
  ("inter", "NL2BR", none),
  ("inter", "NULL", none),
  ("inter", "PASS", none),
  ("inter", "REPLACE", none),
  ("inter", "SCORE-TRAIN", none),
  ("inter", "SCORE", none),
  ("inter", "STRINGS", none),
  ("inter", "TRIM-WIDTH", none),
  ("inter", "UNIX", none),
  ("inter", "UPPER", none),
  ("inter", "UPSIDEDOWN", none),
  ("inter", "WHITESPACE-DERAIL", none),
  ("inter", "WHITESPACE-RERAIL", some "inter/WHITESPACE-DERAIL"),
  ("inter", "WIDTH", none),
  ("inter", "WIN", none),
  ("inter", "ZH-FUZZY-CN", none),
  ("inter", "ZH-FUZZY-TW", none),
  ("inter", "ZHCN", none),
  ("inter", "ZHTW-WORDS", none),
  ("inter", "ZHTW", none),
  ("to", "ANY", none),
  ("to", "ASCII-HTML-INFO", none),
  ("to", "ASCII-HTML-UNICODE-IMG", none),
  ("to", "ASCII-NAMED-HTML-ENTITY", none),
  ("to", "ASCII", some "from/ASCII"),
  ("to", "BIG5-5C", none),
  ("to", "BSDCONV-KEYWORD", none),
  ("to", "BSDCONV-LOG", none),
  ("to", "BSDCONV-OUTPUT", none),
  ("to", "BSDCONV", none),
  ("to", "BYTE", some "from/BYTE"),
  ("to", "CCCII", some "from/CCCII"),
  ("to", "CP936-TRANS", some "from/_CP936"),
  ("to", "CP950-TRANS", some "from/_CP950"),
  ("to", "ESCAPE", none),
  ("to", "IBM-37", some "from/IBM-37"),
  ("to", "IBM-930", some "from/IBM-37"),
  ("to", "IBM-933", some "from/IBM-37"),
  ("to", "IBM-935", some "from/IBM-37"),
  ("to", "IBM-937", some "from/IBM-37"),
  ("to", "IBM-939", some "from/IBM-37"),
  ("to", "NULL", none),
  ("to", "PASS", none),
  ("to", "RAW", none),
  ("to", "UCS-2BE", none),
  ("to", "UCS-2LE", some "to/UCS-2BE"),
  ("to", "UTF-16BE", some "from/UTF-16BE"),
  ("to", "UTF-16LE", some "from/UTF-16BE"),
  ("to", "UTF-32BE", some "from/UTF-32BE"),
  ("to", "UTF-32LE", some "from/UTF-32BE"),
  ("to", "_CP1251", some "from/_CP1251"),
  ("to", "_CP1252", some "from/_CP1252"),
  ("to", "_CP1253", some "from/_CP1253"),
  ("to", "_CP874", some "from/_CP874"),
  ("to", "_CP936", some "from/_CP936"),
  ("to", "_CP949", some "from/_CP949"),
  ("to", "_CP950", some "from/_CP950"),
  ("to", "_GB18030", some "from/_CP936"),
  ("to", "_GB2312", some "from/_CP936"),
  ("to", "_GBK", some "from/_CP936"),
  ("to", "_ISO-8859-1", some "from/_ISO-8859-1"),
  ("to", "_SHIFT-JIS", some "from/_SHIFT-JIS"),
  ("to", "_UAO241", some "from/_CP950"),
  ("to", "_UAO250", some "from/_CP950"),
  ("to", "_UTF-8", some "FROM/_UTF-8"),
  ("filter", "CJK", none)]

end Verif.Man
