import Verif.Props.Engine
import Verif.Props.Output
import Verif.Props.Containers
import Verif.Props.Util
import Verif.Props.Conv
import Verif.Props.Utf8
import Verif.Props.Utf16
import Verif.Props.Escape
import Verif.Props.Range
import Verif.Props.Gb18030
import Verif.Props.GbTable
import Verif.Props.Cp950
import Verif.Props.Inter
import Verif.Props.Normal
import Verif.Props.Transcode
import Verif.Props.Entity
import Verif.Props.Fmalloc
import Verif.Props.MkTable
import Verif.Props.MkText
import Verif.Props.Reinit
import Verif.Props.Newline
import Verif.Props.Replace
import Verif.Props.Whitespace
import Verif.Props.Nfc
import Verif.Props.Ebcdic
import Verif.Props.Bsdconv
import Verif.Props.Normalize
import Verif.Props.NfcSingle
import Verif.Props.Terminate
import Verif.Props.Utf8Errors
import Verif.Props.MapTable
import Verif.Props.ZhTable
import Verif.Props.Charset
import Verif.Props.Sjis
import Verif.Props.Cp949
import Verif.Props.Cp936
import Verif.Props.Gbk
import Verif.Props.Gb2312
import Verif.Props.Big5
import Verif.Props.Nfkd
import Verif.Props.Stage
import Verif.Props.Caseless
import Verif.Props.Jis
import Verif.Props.JisTable
import Verif.Props.Fallback
import Verif.Props.Ansi
import Verif.Props.Cli
import Verif.Props.Solve
import Verif.Props.Html
import Verif.Props.Score
import Verif.Props.Log
import Verif.Props.Bonus
import Verif.Props.Defrag
import Verif.Props.Listing
import Verif.Props.Complete
import Verif.Props.Load
import Verif.Props.Man
import Verif.Props.Named
import Verif.Props.Big5Esc
import Verif.Props.Bytes
import Verif.Props.Translit
import Verif.Props.Phrase
import Verif.Props.ZhFuzzy
import Verif.Props.Cp932
import Verif.Props.Ibm37
import Verif.Props.FamilyTable
import Verif.Props.Cccii
import Verif.Props.IbmMixed
import Verif.Props.GbFamily
