import Verif.Model.Util
/-
Model of conversion strings: `bsdconv_unpack`, `bsdconv_pack`, the edit functions and `bsdconv_create`.
-/
namespace Verif.Conv
open Verif.Util

/-- Phase type, /repo/src/bsdconv.h:36-43 (`from_`=FROM, `inter`=INTER, `to_`=TO, `other` = anything else a
caller passes to insert_phase/replace_phase). -/
inductive PT
  | from_ | inter | to_ | other
  deriving DecidableEq, Repr

/-- `desc` and `argv` of `struct bsdconv_codec`. -/
structure CodecD where
  desc : Str
  argv : Option Str
  deriving DecidableEq, Repr

/-- `type` and `codec[0..codecn]` of `struct bsdconv_phase`. -/
structure PhaseD where
  type : PT
  codecs : List CodecD
  deriving DecidableEq, Repr

/-- Types of the `f` phases of one `|`-separated segment: all INTER, and if `f>1` the first FROM and the
last TO.  /repo/src/libbsdconv.c:322-337 -/
def segTypes (f : Nat) : List PT :=
  if f ≤ 1 then List.replicate f .inter
  else .from_ :: (List.replicate (f - 2) .inter ++ [.to_])

/-- The texts of all phases with their types, in order.  /repo/src/libbsdconv.c:320-337 -/
def phaseTexts (s : Str) : List (PT × Str) :=
  (tokens '|' s).flatMap fun seg => (segTypes (tokens ':' seg).length).zip (tokens ':' seg)

/-- One codec: cut at the first `#`.  /repo/src/libbsdconv.c:361-366 -/
def parseCodec (t : Str) : CodecD :=
  match strchr '#' t with
  | none => ⟨t, none⟩
  | some (a, b) => ⟨a, some b⟩

/-- One phase; `none` = empty phase (line 349-354) or empty codec name (line 367-378).
/repo/src/libbsdconv.c:340-380 -/
def parsePhase (p : PT × Str) : Option PhaseD :=
  let cs := (tokens ',' p.2).map parseCodec
  if p.2 = [] ∨ cs.any (fun c => c.desc = []) then none else some ⟨p.1, cs⟩

/-- `bsdconv_unpack`, /repo/src/libbsdconv.c:298-384: phases 1.. in order; `none` = NULL.
(Its off-by-one write to `phase_off` is modelled separately, `phaseOffWrites`.) -/
def unpack (s : Str) : Option (List PhaseD) := (phaseTexts s).mapM parsePhase

/-- Number of elements of the array `phase_off`, /repo/src/libbsdconv.c:313-318: one plus the phase count,
which is counted from the separators. -/
def phaseOffSize (s : Str) : Nat := (s.filter (fun c => c = ':' ∨ c = '|')).length + 1 + 1

/-- Indices of `phase_off` written by the loop `while((phase_off[i]=strsep(&t1,":"))!=NULL) i+=1` over the
`|`-segments (the NULL that ends each inner loop is written, too), starting at `i`.
/repo/src/libbsdconv.c:322-337 -/
def phaseOffWritesFrom (i : Nat) : List Str → List Nat
  | [] => []
  | seg :: segs =>
    let n := (tokens ':' seg).length
    (List.range (n + 1)).map (i + ·) ++ phaseOffWritesFrom (i + n) segs

/-- All indices written, starting at 1. -/
def phaseOffWrites (s : Str) : List Nat := phaseOffWritesFrom 1 (tokens '|' s)

/-- One comma-separated piece of `desc` with the arguments appended,
/repo/src/libbsdconv.c:279-287 -/
def packPiece (argv : Option Str) (t : Str) : Str :=
  match argv with
  | some (a :: as) => t ++ (if strchr '#' t = none then '#' else '&') :: a :: as
  | _ => t

/-- Pieces joined by `,`. -/
def joinWith (d : Char) : List Str → Str
  | [] => []
  | [t] => t
  | t :: ts => t ++ d :: joinWith d ts

/-- One codec as printed, /repo/src/libbsdconv.c:270-292 -/
def packCodec (c : CodecD) : Str := joinWith ',' ((tokens ',' c.desc).map (packPiece c.argv))

/-- All codecs of a phase, /repo/src/libbsdconv.c:253-269 -/
def packPhase (p : PhaseD) : Str := joinWith ',' (p.codecs.map packCodec)

/-- Separator printed before a phase other than the first, /repo/src/libbsdconv.c:256-266 -/
def packSep : PT → Str
  | .from_ => ['|']
  | .inter => [':']
  | .to_ => [':']
  | .other => []

/-- `bsdconv_pack`, /repo/src/libbsdconv.c:230-296 -/
def pack : List PhaseD → Str
  | [] => []
  | p :: ps => packPhase p ++ ps.flatMap fun q => packSep q.type ++ packPhase q

/-- Room `bsdconv_pack` counts for the arguments of a codec, /repo/src/libbsdconv.c:239-247 -/
def argRoom (c : CodecD) : Nat :=
  match c.argv with
  | some a => (a.length + 1) * (1 + (c.desc.filter (· = ',')).length)
  | none => 0

/-- The length `bsdconv_pack` allocates, /repo/src/libbsdconv.c:235-250 -/
def packLen (ps : List PhaseD) : Nat :=
  (ps.flatMap (·.codecs)).foldl (fun len c =>
    len + c.desc.length +
      argRoom c + 1) 0

/-- Result of an edit function. -/
inductive Edit
  | ok (s : Str)
  /-- NULL -/
  | null
  /-- access outside the phase or codec array -/
  | ub
  deriving DecidableEq, Repr

/-- The codec made by the edit functions. -/
def newCodec (codec : Str) : CodecD := ⟨codec, none⟩

/-- `bsdconv_insert_phase`, /repo/src/libbsdconv_util.c:145-183.  Real indices run from 1. -/
def insertPhase (conversion codec : Str) (ty : PT) (n : Int) : Edit :=
  match unpack conversion with
  | none => .null
  | some ps =>
    let i := phaseIndex ps.length n
    if 1 ≤ i ∧ i ≤ ps.length + 1 then
      let k := (i - 1).toNat
      .ok (pack (ps.take k ++ ⟨ty, [newCodec codec]⟩ :: ps.drop k))
    else .ub

/-- `bsdconv_replace_phase`, /repo/src/libbsdconv_util.c:220-252 -/
def replacePhase (conversion codec : Str) (ty : PT) (n : Int) : Edit :=
  match unpack conversion with
  | none => .null
  | some ps =>
    let i := phaseIndex ps.length n
    if 1 ≤ i ∧ i ≤ ps.length then
      .ok (pack (ps.set (i - 1).toNat ⟨ty, [newCodec codec]⟩))
    else .ub

/-- Number of codecs of real phase `i`. -/
def codecCount (ps : List PhaseD) (i : Nat) : Nat := ((ps[i - 1]?).map (·.codecs.length)).getD 0

/-- `bsdconv_insert_codec`, /repo/src/libbsdconv_util.c:185-218 -/
def insertCodec (conversion codec : Str) (np nc : Int) : Edit :=
  match unpack conversion with
  | none => .null
  | some ps =>
    match codecIndex ps.length (codecCount ps) np nc with
    | none => .ub
    | some j =>
      let i := (phaseIndex ps.length np - 1).toNat
      if 0 ≤ j ∧ j ≤ codecCount ps (i + 1) then
        .ok (pack (ps.modify i fun p =>
          { p with codecs := p.codecs.take j.toNat ++ newCodec codec :: p.codecs.drop j.toNat }))
      else .ub

/-- `bsdconv_replace_codec`, /repo/src/libbsdconv_util.c:254-284 -/
def replaceCodec (conversion codec : Str) (np nc : Int) : Edit :=
  match unpack conversion with
  | none => .null
  | some ps =>
    match codecIndex ps.length (codecCount ps) np nc with
    | none => .ub
    | some j =>
      let i := (phaseIndex ps.length np - 1).toNat
      if 0 ≤ j ∧ j < codecCount ps (i + 1) then
        .ok (pack (ps.modify i fun p => { p with codecs := p.codecs.set j.toNat (newCodec codec) }))
      else .ub

/-- The `whitespace` table of `bsdconv_create`, /repo/src/libbsdconv.c:394-399 -/
def isBlank (c : Char) : Bool := c = '\r' ∨ c = '\n' ∨ c = '\t' ∨ c = Char.ofNat 12 ∨ c = ' '

/-- /repo/src/libbsdconv.c:400-409 -/
def strip (s : Str) : Str := s.filter (fun c => !isBlank c)

/-- What `bsdconv_create` needs to know about the installation. -/
structure Env where
  /-- `bsdconv_module_check` -/
  exists_ : PT → Str → Bool
  /-- `bsdconv_module_vital` -/
  vital : PT → Str → Bool
  /-- `bsdconv_solve_alias` -/
  alias_ : PT → Str → Option Str

/-- Outcome of the name resolution of `bsdconv_create`. -/
inductive Created
  /-- all codecs exist; loading can start with these phases -/
  | ok (ps : List PhaseD)
  /-- NULL is returned -/
  | fail
  /-- freed memory is read: `bsdconv_pack` prints the `argv` of the expanded codec, which pointed into its
  freed `desc` -/
  | ub
  /-- still running when the fuel is used up -/
  | running
  deriving DecidableEq, Repr

/-- Inner loop of the search for a codec that is no existing module: codecs before it, it, codecs after it.
/repo/src/libbsdconv.c:421-422 -/
def missingCodec (env : Env) (ty : PT) : List CodecD → Option (List CodecD × CodecD × List CodecD)
  | [] => none
  | c :: cs =>
    if env.exists_ ty c.desc then (missingCodec env ty cs).map fun r => (c :: r.1, r.2)
    else some ([], c, cs)

/-- Position of a codec: phases before its phase, the phase's type, codecs before it, the codec, codecs
after it, phases after its phase. -/
structure Spot where
  before : List PhaseD
  type : PT
  left : List CodecD
  codec : CodecD
  right : List CodecD
  after : List PhaseD

/-- Outer loop of the search.  /repo/src/libbsdconv.c:420-422 -/
def missing (env : Env) : List PhaseD → Option Spot
  | [] => none
  | p :: ps =>
    match missingCodec env p.type p.codecs with
    | some r => some ⟨[], p.type, r.1, r.2.1, r.2.2, ps⟩
    | none => (missing env ps).map fun s => { s with before := p :: s.before }

/-- The phases with the codec at a position replaced: `free(desc); desc=c` (the codec's `argv` is NULL).
/repo/src/libbsdconv.c:435-440 -/
def Spot.replace (s : Spot) (a : Str) : List PhaseD :=
  s.before ++ ⟨s.type, s.left ++ ⟨a, none⟩ :: s.right⟩ :: s.after

/-- `start_parse:` … `goto start_parse`, /repo/src/libbsdconv.c:412-461, at most `fuel` rounds. -/
def createLoop (env : Env) : Nat → Str → Created
  | 0, _ => .running
  | fuel + 1, conversion =>
    match unpack conversion with
    | none => .fail
    | some ps =>
      match missing env ps with
      | none => .ok ps
      | some sp =>
        if env.vital sp.type sp.codec.desc then .fail
        else match env.alias_ sp.type sp.codec.desc with
          | none => .fail        -- e=1; pack reads the old strings, which are intact
          | some a =>
            if sp.codec.argv.isSome then .ub
            else if a = sp.codec.desc then .fail
            else createLoop env fuel (pack (sp.replace a))

/-- `bsdconv_create` up to the loading of codecs, /repo/src/libbsdconv.c:387-461 -/
def create (env : Env) (fuel : Nat) (s : Str) : Created := createLoop env fuel (strip s)
end Verif.Conv
