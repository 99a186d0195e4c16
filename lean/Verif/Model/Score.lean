import Verif.Model.Inter
import Verif.Spec.Score
/-
The codecs /repo/modules/inter/SCORE-TRAIN.c and /repo/modules/inter/SCORE.c with a score file (`WITH=TRAINED` or
BSDCONV_CTL_ATTACH_SCORE), table `* ?` in both.

Simplifications: reading and writing the files never fails, and nobody else writes them meanwhile; the file offset
(a `long`) holds every 32 bit number.
-/
namespace Verif.Score
open Verif.Spec (Handler Datum)

/-- `fseek(fp, n, SEEK_SET); fread(&v, 1, 1, fp)`: `none` if there is no byte at that place; `v` is then left as it is. -/
def readAt (file : List Nat) (n : Nat) : Option Nat := file[n]?

/-- `fseek(fp, n, SEEK_SET); fwrite(&v, 1, 1, fp)`: a gap behind the end of the file is filled with zeros. -/
def writeAt (file : List Nat) (n v : Nat) : List Nat :=
  if n < file.length then file.set n v else file ++ List.replicate (n - file.length) 0 ++ [v]

/-- The loop `ucs<<=8; ucs|=data[i]` over the bytes behind the first: SCORE-TRAIN.c:63-66, SCORE.c:94-97 -/
def ucsOf (bs : List Nat) : Nat := bs.foldl (fun u b => (u <<< 8) % 2 ^ 32 ||| b) 0

/-- `htobe32` and `fwrite` of four bytes: SCORE-TRAIN.c:70-71 -/
def be32 (n : Nat) : List Nat := [n / 2 ^ 24 % 256, n / 2 ^ 16 % 256, n / 2 ^ 8 % 256, n % 256]

/-- `struct my_s`, SCORE-TRAIN.c:7-11: the score file and, if attached, the list file. -/
structure Trainer where
  score : List Nat
  list : Option (List Nat)
  deriving DecidableEq, Repr

/-- SCORE-TRAIN.c:67-77 -/
def learn (t : Trainer) (n : Nat) : Trainer :=
  let v := (readAt t.score n).getD 0
  let t := if v = 0 then { t with list := t.list.map (· ++ be32 n) } else t
  if v < 3 then { t with score := writeAt t.score n (v + 1) } else t

/-- `cbconv`, SCORE-TRAIN.c:48-82 -/
def train : Handler Trainer where
  act := fun t d => some ((match d with | 1 :: bs => learn t (ucsOf bs) | _ => t), [d], false)

/-- Private data of SCORE with a file: the file (`none` = NULL), the counter and what the uninitialised variable `v` holds
at the calls to come (SCORE.c:82). -/
structure Scorer where
  file : Option (List Nat)
  counter : Nat
  junk : Nat → Nat

/-- `cbconv`, SCORE.c:75-109 without a scorer. -/
def rate : Handler Scorer where
  act := fun t d => some ((match t.file, d with
    | some file, 1 :: bs =>
      { t with counter := t.counter + (readAt file (ucsOf bs)).getD (t.junk 0), junk := fun k => t.junk (k + 1) }
    | _, _ => t), [d], false)

end Verif.Score
