/-
Generated by tools/named.py from /repo/modules/from/ASCII-NAMED-HTML-ENTITY.txt:1-241 and /repo/modules/to/ASCII-NAMED-HTML-ENTITY.txt:1-241.
-/
namespace Verif.Named

/-- The rows `!26(name)3B 01(character)` of the one file, `01(character) 26(name)3B` of the other. -/
def entities : List (String × Nat) :=
  [("quot", 0x22), ("amp", 0x26), ("apos", 0x27), ("lt", 0x3C), ("gt", 0x3E), ("nbsp", 0xA0),
   ("iexcl", 0xA1), ("cent", 0xA2), ("pound", 0xA3), ("curren", 0xA4), ("yen", 0xA5), ("brvbar", 0xA6),
   ("sect", 0xA7), ("uml", 0xA8), ("copy", 0xA9), ("ordf", 0xAA), ("laquo", 0xAB), ("not", 0xAC),
   ("shy", 0xAD), ("reg", 0xAE), ("macr", 0xAF), ("deg", 0xB0), ("plusmn", 0xB1), ("sup2", 0xB2),
   ("sup3", 0xB3), ("acute", 0xB4), ("micro", 0xB5), ("para", 0xB6), ("middot", 0xB7), ("cedil", 0xB8),
   ("sup1", 0xB9), ("ordm", 0xBA), ("raquo", 0xBB), ("frac14", 0xBC), ("frac12", 0xBD), ("frac34", 0xBE),
   ("iquest", 0xBF), ("Agrave", 0xC0), ("Aacute", 0xC1), ("Acirc", 0xC2), ("Atilde", 0xC3), ("Auml", 0xC4),
   ("Aring", 0xC5), ("AElig", 0xC6), ("Ccedil", 0xC7), ("Egrave", 0xC8), ("Eacute", 0xC9), ("Ecirc", 0xCA),
   ("Euml", 0xCB), ("Igrave", 0xCC), ("Iacute", 0xCD), ("Icirc", 0xCE), ("Iuml", 0xCF), ("ETH", 0xD0),
   ("Ntilde", 0xD1), ("Ograve", 0xD2), ("Oacute", 0xD3), ("Ocirc", 0xD4), ("Otilde", 0xD5), ("Ouml", 0xD6),
   ("times", 0xD7), ("Oslash", 0xD8), ("Ugrave", 0xD9), ("Uacute", 0xDA), ("Ucirc", 0xDB), ("Uuml", 0xDC),
   ("Yacute", 0xDD), ("THORN", 0xDE), ("szlig", 0xDF), ("agrave", 0xE0), ("aacute", 0xE1), ("acirc", 0xE2),
   ("atilde", 0xE3), ("auml", 0xE4), ("aring", 0xE5), ("aelig", 0xE6), ("ccedil", 0xE7), ("egrave", 0xE8),
   ("eacute", 0xE9), ("ecirc", 0xEA), ("euml", 0xEB), ("igrave", 0xEC), ("iacute", 0xED), ("icirc", 0xEE),
   ("iuml", 0xEF), ("eth", 0xF0), ("ntilde", 0xF1), ("ograve", 0xF2), ("oacute", 0xF3), ("ocirc", 0xF4),
   ("otilde", 0xF5), ("ouml", 0xF6), ("divide", 0xF7), ("oslash", 0xF8), ("ugrave", 0xF9), ("uacute", 0xFA),
   ("ucirc", 0xFB), ("uuml", 0xFC), ("yacute", 0xFD), ("thorn", 0xFE), ("yuml", 0xFF), ("OElig", 0x152),
   ("oelig", 0x153), ("Scaron", 0x160), ("scaron", 0x161), ("Yuml", 0x178), ("fnof", 0x192), ("circ", 0x2C6),
   ("tilde", 0x2DC), ("Alpha", 0x391), ("Beta", 0x392), ("Gamma", 0x393), ("Delta", 0x394), ("Epsilon", 0x395),
   ("Zeta", 0x396), ("Eta", 0x397), ("Theta", 0x398), ("Iota", 0x399), ("Kappa", 0x39A), ("Lambda", 0x39B),
   ("Mu", 0x39C), ("Nu", 0x39D), ("Xi", 0x39E), ("Omicron", 0x39F), ("Pi", 0x3A0), ("Rho", 0x3A1),
   ("Sigma", 0x3A3), ("Tau", 0x3A4), ("Upsilon", 0x3A5), ("Phi", 0x3A6), ("Chi", 0x3A7), ("Psi", 0x3A8),
   ("Omega", 0x3A9), ("alpha", 0x3B1), ("beta", 0x3B2), ("gamma", 0x3B3), ("delta", 0x3B4), ("epsilon", 0x3B5),
   ("zeta", 0x3B6), ("eta", 0x3B7), ("theta", 0x3B8), ("iota", 0x3B9), ("kappa", 0x3BA), ("lambda", 0x3BB),
   ("mu", 0x3BC), ("nu", 0x3BD), ("xi", 0x3BE), ("omicron", 0x3BF), ("pi", 0x3C0), ("rho", 0x3C1),
   ("sigmaf", 0x3C2), ("sigma", 0x3C3), ("tau", 0x3C4), ("upsilon", 0x3C5), ("phi", 0x3C6), ("chi", 0x3C7),
   ("psi", 0x3C8), ("omega", 0x3C9), ("thetasym", 0x3D1), ("upsih", 0x3D2), ("piv", 0x3D6), ("ensp", 0x2002),
   ("emsp", 0x2003), ("thinsp", 0x2009), ("zwnj", 0x200C), ("zwj", 0x200D), ("lrm", 0x200E), ("rlm", 0x200F),
   ("ndash", 0x2013), ("mdash", 0x2014), ("lsquo", 0x2018), ("rsquo", 0x2019), ("sbquo", 0x201A), ("ldquo", 0x201C),
   ("rdquo", 0x201D), ("bdquo", 0x201E), ("dagger", 0x2020), ("Dagger", 0x2021), ("bull", 0x2022), ("hellip", 0x2026),
   ("permil", 0x2030), ("prime", 0x2032), ("Prime", 0x2033), ("lsaquo", 0x2039), ("rsaquo", 0x203A), ("oline", 0x203E),
   ("euro", 0x20AC), ("trade", 0x2122), ("larr", 0x2190), ("uarr", 0x2191), ("rarr", 0x2192), ("darr", 0x2193),
   ("harr", 0x2194), ("crarr", 0x21B5), ("forall", 0x2200), ("part", 0x2202), ("exists", 0x2203), ("empty", 0x2205),
   ("nabla", 0x2207), ("isin", 0x2208), ("notin", 0x2209), ("ni", 0x220B), ("prod", 0x220F), ("sum", 0x2211),
   ("minus", 0x2212), ("lowast", 0x2217), ("radic", 0x221A), ("prop", 0x221D), ("infin", 0x221E), ("ang", 0x2220),
   ("and", 0x2227), ("or", 0x2228), ("cap", 0x2229), ("cup", 0x222A), ("int", 0x222B), ("there4", 0x2234),
   ("sim", 0x223C), ("cong", 0x2245), ("asymp", 0x2248), ("ne", 0x2260), ("equiv", 0x2261), ("le", 0x2264),
   ("ge", 0x2265), ("sub", 0x2282), ("sup", 0x2283), ("nsub", 0x2284), ("sube", 0x2286), ("supe", 0x2287),
   ("oplus", 0x2295), ("otimes", 0x2297), ("perp", 0x22A5), ("sdot", 0x22C5), ("lceil", 0x2308), ("rceil", 0x2309),
   ("lfloor", 0x230A), ("rfloor", 0x230B), ("loz", 0x25CA), ("spades", 0x2660), ("clubs", 0x2663), ("hearts", 0x2665),
   ("diams", 0x2666)]

/-- The same names as numbers, for checks. -/
def nameNumbers : List Nat :=
  [0x71756F74, 0x616D70, 0x61706F73, 0x6C74, 0x6774, 0x6E627370, 0x696578636C, 0x63656E74,
   0x706F756E64, 0x63757272656E, 0x79656E, 0x627276626172, 0x73656374, 0x756D6C, 0x636F7079, 0x6F726466,
   0x6C6171756F, 0x6E6F74, 0x736879, 0x726567, 0x6D616372, 0x646567, 0x706C75736D6E, 0x73757032,
   0x73757033, 0x6163757465, 0x6D6963726F, 0x70617261, 0x6D6964646F74, 0x636564696C, 0x73757031, 0x6F72646D,
   0x726171756F, 0x667261633134, 0x667261633132, 0x667261633334, 0x697175657374, 0x416772617665, 0x416163757465, 0x4163697263,
   0x4174696C6465, 0x41756D6C, 0x4172696E67, 0x41456C6967, 0x43636564696C, 0x456772617665, 0x456163757465, 0x4563697263,
   0x45756D6C, 0x496772617665, 0x496163757465, 0x4963697263, 0x49756D6C, 0x455448, 0x4E74696C6465, 0x4F6772617665,
   0x4F6163757465, 0x4F63697263, 0x4F74696C6465, 0x4F756D6C, 0x74696D6573, 0x4F736C617368, 0x556772617665, 0x556163757465,
   0x5563697263, 0x55756D6C, 0x596163757465, 0x54484F524E, 0x737A6C6967, 0x616772617665, 0x616163757465, 0x6163697263,
   0x6174696C6465, 0x61756D6C, 0x6172696E67, 0x61656C6967, 0x63636564696C, 0x656772617665, 0x656163757465, 0x6563697263,
   0x65756D6C, 0x696772617665, 0x696163757465, 0x6963697263, 0x69756D6C, 0x657468, 0x6E74696C6465, 0x6F6772617665,
   0x6F6163757465, 0x6F63697263, 0x6F74696C6465, 0x6F756D6C, 0x646976696465, 0x6F736C617368, 0x756772617665, 0x756163757465,
   0x7563697263, 0x75756D6C, 0x796163757465, 0x74686F726E, 0x79756D6C, 0x4F456C6967, 0x6F656C6967, 0x536361726F6E,
   0x736361726F6E, 0x59756D6C, 0x666E6F66, 0x63697263, 0x74696C6465, 0x416C706861, 0x42657461, 0x47616D6D61,
   0x44656C7461, 0x457073696C6F6E, 0x5A657461, 0x457461, 0x5468657461, 0x496F7461, 0x4B61707061, 0x4C616D626461,
   0x4D75, 0x4E75, 0x5869, 0x4F6D6963726F6E, 0x5069, 0x52686F, 0x5369676D61, 0x546175,
   0x557073696C6F6E, 0x506869, 0x436869, 0x507369, 0x4F6D656761, 0x616C706861, 0x62657461, 0x67616D6D61,
   0x64656C7461, 0x657073696C6F6E, 0x7A657461, 0x657461, 0x7468657461, 0x696F7461, 0x6B61707061, 0x6C616D626461,
   0x6D75, 0x6E75, 0x7869, 0x6F6D6963726F6E, 0x7069, 0x72686F, 0x7369676D6166, 0x7369676D61,
   0x746175, 0x757073696C6F6E, 0x706869, 0x636869, 0x707369, 0x6F6D656761, 0x746865746173796D, 0x7570736968,
   0x706976, 0x656E7370, 0x656D7370, 0x7468696E7370, 0x7A776E6A, 0x7A776A, 0x6C726D, 0x726C6D,
   0x6E64617368, 0x6D64617368, 0x6C7371756F, 0x727371756F, 0x736271756F, 0x6C6471756F, 0x726471756F, 0x626471756F,
   0x646167676572, 0x446167676572, 0x62756C6C, 0x68656C6C6970, 0x7065726D696C, 0x7072696D65, 0x5072696D65, 0x6C736171756F,
   0x72736171756F, 0x6F6C696E65, 0x6575726F, 0x7472616465, 0x6C617272, 0x75617272, 0x72617272, 0x64617272,
   0x68617272, 0x6372617272, 0x666F72616C6C, 0x70617274, 0x657869737473, 0x656D707479, 0x6E61626C61, 0x6973696E,
   0x6E6F74696E, 0x6E69, 0x70726F64, 0x73756D, 0x6D696E7573, 0x6C6F77617374, 0x7261646963, 0x70726F70,
   0x696E66696E, 0x616E67, 0x616E64, 0x6F72, 0x636170, 0x637570, 0x696E74, 0x746865726534,
   0x73696D, 0x636F6E67, 0x6173796D70, 0x6E65, 0x6571756976, 0x6C65, 0x6765, 0x737562,
   0x737570, 0x6E737562, 0x73756265, 0x73757065, 0x6F706C7573, 0x6F74696D6573, 0x70657270, 0x73646F74,
   0x6C6365696C, 0x726365696C, 0x6C666C6F6F72, 0x72666C6F6F72, 0x6C6F7A, 0x737061646573, 0x636C756273, 0x686561727473,
   0x6469616D73]

end Verif.Named
