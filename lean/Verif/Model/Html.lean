import Verif.Model.Inter
import Verif.Model.Escape
import Verif.Spec.Html
/-
The output codecs /repo/modules/to/ASCII-HTML-UNICODE-IMG.c and /repo/modules/to/ASCII-HTML-INFO.c (table `* ?` in both).

Private data of the model: whether a byte was written outside a buffer.  After such a write the program's behaviour is
undefined; the model goes on as if there had been room.
Simplification: the sub-conversion `bsdconv_create("CNS11643")` of ASCII-HTML-INFO.c:11 is NULL, as it is with the modules of
/repo (there is no inter module of that name), so the branch `cns!=NULL` is not modelled.
-/
namespace Verif.Html
open Verif.Spec (Handler Datum ascii)
open Verif.Escape (hexDigit hex2)

/-- `sprintf("%X", n)` -/
def hexNum (n : Nat) : List Nat := if n < 16 then [hexDigit n] else hexNum (n / 16) ++ [hexDigit (n % 16)]
  termination_by n
  decreasing_by omega

/-- A buffer of `cap` bytes holding a C string. -/
structure Buf where
  cap : Nat
  text : List Nat := []
  /-- was a byte written behind the end of the buffer? -/
  over : Bool := false
  deriving DecidableEq, Repr

/-- `sprintf(p, …); TAILIZE(p)` with `p` at the terminating NUL. -/
def Buf.put (b : Buf) (s : List Nat) : Buf :=
  { b with text := b.text ++ s, over := b.over || decide (b.cap < b.text.length + s.length + 1) }

/-- `for(i=…) sprintf(p,"%02X", (unsigned char)data[i])` -/
def Buf.bytes (b : Buf) (bs : List Nat) : Buf := bs.foldl (fun b x => b.put (hex2 x)) b

/-- `if(0<len) sprintf(p,"%X",(unsigned char)data[0]); for(i=1;i<len;i++) sprintf(p,"%02X",(unsigned char)data[i])` -/
def Buf.number (b : Buf) : List Nat → Buf
  | [] => b
  | x :: bs => (b.put (hexNum x)).bytes bs

/-- An argument of type `char` of `%X`: it is sign extended to 32 bits. -/
def signed (b : Nat) : Nat := if b < 128 then b else 2 ^ 32 - 256 + b

/-- `if(0<len) sprintf(p,"%X",data[0])` -/
def Buf.plane (b : Buf) : List Nat → Buf
  | [] => b
  | x :: _ => b.put (hexNum (signed x))

/-- /repo/modules/to/ASCII-HTML-UNICODE-IMG.c:17-37; `bs` are the bytes behind the leading 01. -/
def imgBuf (bs : List Nat) : Buf :=
  ((Buf.put ⟨128, [], false⟩ (ascii "<img class=\"unicode_img\" src=\"http://www.unicode.org/cgi-bin/refglyph?24-")).number bs).put (ascii "\" />")

/-- `cbconv`, /repo/modules/to/ASCII-HTML-UNICODE-IMG.c:8-45 -/
def img : Handler Bool where
  act := fun over d => match d with
    | 1 :: bs => some (over || (imgBuf bs).over, [(imgBuf bs).text], false)
    | _ => none

/-- /repo/modules/to/ASCII-HTML-INFO.c:50-78 -/
def infoBuf (bs : List Nat) : Buf :=
  let b := Buf.put ⟨bs.length * 2 * 2 + 150, [], false⟩ (ascii "<a href=\"http://www.fileformat.info/info/unicode/char/")
  let b := (b.bytes bs).put (ascii "/index.htm\"><img class=\"unicode_img\" src=\"http://www.unicode.org/cgi-bin/refglyph?24-")
  (b.number bs).put (ascii "\" /></a>")

/-- /repo/modules/to/ASCII-HTML-INFO.c:84-119 -/
def cnsBuf (bs : List Nat) : Buf :=
  let b := Buf.put ⟨bs.length * 4 + 150, [], false⟩ (ascii "<a href=\"http://www.cns11643.gov.tw/AIDB/query_general_view.do?page=")
  let b := ((b.plane bs).put (ascii "&code=")).bytes (bs.drop 1)
  let b := b.put (ascii "\"><img src=\"http://www.cns11643.gov.tw/AIDB/png.do?page=")
  (((b.plane bs).put (ascii "&code=")).bytes (bs.drop 1)).put (ascii "\" /></a>")

/-- `cbconv`, /repo/modules/to/ASCII-HTML-INFO.c:21-131, with `cns==NULL`: for 01 the status DEADEND set at 46 is overwritten by
NEXTPHASE at 80. -/
def info : Handler Bool where
  act := fun over d => match d with
    | 1 :: bs => some (over || (infoBuf bs).over, [(infoBuf bs).text], false)
    | 2 :: bs => some (over || (cnsBuf bs).over, [(cnsBuf bs).text], false)
    | _ => none

end Verif.Html
