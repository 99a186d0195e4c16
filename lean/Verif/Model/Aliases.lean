/-
Generated by tools/aliases.py from /repo/modules/from/alias, /repo/modules/inter/alias and
/repo/modules/to/alias (all lines except comments).
-/
namespace Verif.Conv

/-- Aliases of from codecs, /repo/modules/from/alias. -/
def fromAliases : List (String × String) := [
  ("BIG5", "UAO250"),
  ("BIG5E", "ASCII,_BIG5E"),
  ("BIG5-2003", "ASCII,_BIG5-2003"),
  ("BIG5-ETEN", "ASCII,_BIG5-ETEN"),
  ("MOZ18", "UAO241"),
  ("HTMLENTITY", "ASCII-NUMERIC-HTML-ENTITY"),
  ("NCR", "ASCII-NUMERIC-HTML-ENTITY"),
  ("NAMED-HTMLENTITY", "ASCII-NAMED-HTML-ENTITY"),
  ("UCS-2", "UTF-16LE"),
  ("UCS-2BE", "UTF-16BE"),
  ("UCS-2LE", "UTF-16LE"),
  ("CNS11643", "ASCII,_CNS11643"),
  ("CP1251", "_CP1251,ASCII,FALLBACK-UNICODE"),
  ("CP1252", "_CP1252,ASCII,FALLBACK-UNICODE"),
  ("CP1253", "_CP1253,ASCII,FALLBACK-UNICODE"),
  ("CP1254", "_CP1254,ASCII,FALLBACK-UNICODE"),
  ("CP1255", "_CP1255,ASCII,FALLBACK-UNICODE"),
  ("CP1256", "_CP1256,ASCII,FALLBACK-UNICODE"),
  ("CP1257", "_CP1257,ASCII,FALLBACK-UNICODE"),
  ("CP1258", "_CP1258,ASCII,FALLBACK-UNICODE"),
  ("CP874", "ASCII,_CP874,FALLBACK-UNICODE"),
  ("CP932", "ASCII,_CP932"),
  ("CP936", "ASCII,_CP936"),
  ("CP949", "ASCII,_CP949"),
  ("CP950", "ASCII,_CP950,CP950-UDA"),
  ("GB18030", "ASCII,_GB18030"),
  ("GB2312", "ASCII,_GB2312"),
  ("GBK", "ASCII,_GBK"),
  ("HKSCS1999", "ASCII,_CP950,_HKSCS1999"),
  ("HKSCS2001", "ASCII,_CP950,_HKSCS2001"),
  ("HKSCS2004", "ASCII,_CP950,_HKSCS2004"),
  ("ISO-8859-1", "ASCII,_ISO-8859-1"),
  ("JIS", "_JIS,ASCII"),
  ("LATIN1", "ISO-8859-1"),
  ("SHIFT-JIS", "ASCII,_SHIFT-JIS"),
  ("UAO241", "ASCII,_UAO241"),
  ("UAO250", "ASCII,_UAO250"),
  ("UTF-8", "ASCII,_UTF-8"),
  ("3F", "ANY#013F&ERROR"),
  ("SUB", "ANY#01FFFD"),
  ("SKIP", "PASS#UNMARK")]

/-- Aliases of inter codecs, /repo/modules/inter/alias. -/
def interAliases : List (String × String) := [
  ("NFD", "_NFD:_NF-HANGUL-DECOMPOSITION:_NF-ORDER"),
  ("NFKD", "_NFKD:_NF-HANGUL-DECOMPOSITION:_NF-ORDER"),
  ("NFC", "NFD:_NFC:_NF-HANGUL-COMPOSITION"),
  ("NFKC", "NFKD:_NFC:_NF-HANGUL-COMPOSITION"),
  ("NFKD-CASEFOLD", "NFD:CASEFOLD:NFKD:CASEFOLD:NFKD"),
  ("SPLIT", "INSERT#AFTER=002C"),
  ("NOBOM", "REPLACE#01FEFF"),
  ("ZH-STRINGS", "STRINGS#FOR=CJK")]

/-- Aliases of to codecs, /repo/modules/to/alias. -/
def toAliases : List (String × String) := [
  ("UAO", "UAO250"),
  ("SOURCE", "ASCII-ESCAPED-UNICODE"),
  ("JAVA", "ASCII-ESCAPED-UNICODE"),
  ("HTMLENTITY", "ASCII-HEX-NUMERIC-HTML-ENTITY"),
  ("NAMED-HTMLENTITY", "ASCII-NAMED-HTML-ENTITY"),
  ("HTML-IMG", "ASCII-HTML-UNICODE-IMG"),
  ("UCS-4", "UTF-32LE"),
  ("UCS-4BE", "UTF-32BE"),
  ("UCS-4LE", "UTF-32LE"),
  ("UTF-32", "UTF-32LE"),
  ("UTF-16", "UTF-16LE"),
  ("UCS-2", "UCS-2LE"),
  ("BIG5", "CP950"),
  ("CNS11643", "ASCII,_CNS11643"),
  ("CP1251", "_CP1251,ASCII"),
  ("CP1252", "_CP1252,ASCII"),
  ("CP1253", "_CP1253,ASCII"),
  ("CP874", "_CP874,ASCII"),
  ("CP936", "_CP936,ASCII"),
  ("CP949", "_CP949,ASCII"),
  ("CP950", "_CP950,ASCII"),
  ("GB18030", "_GB18030,ASCII"),
  ("GB2312", "_GB2312,ASCII"),
  ("GBK", "_GBK,ASCII"),
  ("ISO-8859-1", "_ISO-8859-1,ASCII"),
  ("JIS", "_JIS0212,ASCII"),
  ("SHIFT-JIS", "_SHIFT-JIS,ASCII"),
  ("UAO241", "_UAO241,ASCII"),
  ("UAO250", "_UAO250,ASCII"),
  ("UTF-8", "_UTF-8,ASCII"),
  ("3F", "ANY#3F&ERROR"),
  ("URL", "ESCAPE#FOR=UNICODE&MODE=16&PREFIX=2575,ESCAPE#FOR=BYTE&MODE=16&PREFIX=25"),
  ("ASCII-ESCAPED-UNICODE", "ESCAPE#FOR=UNICODE&MODE=16&PREFIX=5C75"),
  ("ASCII-HEX-NUMERIC-HTML-ENTITY", "ESCAPE#FOR=UNICODE&PREFIX=262378&MODE=16&SUFFIX=3B"),
  ("ASCII-DEC-NUMERIC-HTML-ENTITY", "ESCAPE#FOR=UNICODE&PREFIX=2623&MODE=10&SUFFIX=3B"),
  ("UNICODE", "PASS#MARK&FOR=UNICODE"),
  ("ANSI-CONTROL", "PASS#MARK&FOR=ANSI"),
  ("BSDCONV-STDOUT", "BSDCONV-OUTPUT")]

end Verif.Conv
