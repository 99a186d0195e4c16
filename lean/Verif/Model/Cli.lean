import Verif.Model.Output
import Verif.Spec.Files

/-
The command line program, /repo/src/bsdconv.c.

Nondeterminism: how many bytes `fread` returns, the name `mkstemp` picks, and when stdio hands the bytes written to the temporary file
to the operating system.  Not modelled: `bsdconv_create` failing, `fdopen` failing, owner and mode of the files, symbolic links and
directories, other processes changing the files meanwhile.
-/

namespace Verif.Cli
open Verif.Spec Verif.Engine

variable {π : Type}

/-- What the command line asks for. -/
inductive Job
  | usage
  | list
  | convert (conversion : String) (inplace : Bool) (files : List String)
  deriving DecidableEq, Repr

/-- The loop over the options, /repo/src/bsdconv.c:95-103. -/
def options (conversion : String) (inplace : Bool) : List String → Job
  | [] => .convert conversion inplace []
  | a :: as =>
    if a = "-i" then options conversion true as
    else if a = "-l" then .list
    else .convert conversion inplace (a :: as)

/-- `main` up to the creation of the instance, /repo/src/bsdconv.c:84-103; the argument is `argv[1]`, ... -/
def parse : List String → Job
  | [] => .usage
  | c :: as => if c = "-l" then .list else options c false as

/-- The calls `bsdconv_file` makes after `bsdconv_init` if the calls of `fread` deliver `reads` and then nothing,
/repo/src/bsdconv.c:47-58: one call per chunk, and one with `flush` and an empty input. -/
def fileArgs (reads : List (List Nat)) : List Arg :=
  reads.map (fun c => ⟨some c, false, .file⟩) ++ [⟨some [], true, .file⟩]

/-- What `fread` may deliver of a file: its bytes in chunks of 1 to `IBUFLEN` bytes.  (A short chunk does not end the loop.)
/repo/src/bsdconv.c:13,52 -/
def Reads (data : List Nat) (reads : List (List Nat)) : Prop :=
  reads.flatten = data ∧ ∀ c ∈ reads, 1 ≤ c.length ∧ c.length ≤ 1024

/-- `bsdconv_file` with given chunks: `out` is what it wrote. /repo/src/bsdconv.c:44-58 -/
def ConvReads (st : Nat → Static π) (ip : Nat → Nat → π → π) (ins : Ins π) (reads : List (List Nat)) (out : List Nat) (ins' : Ins π) : Prop :=
  ∃ ds, Session st (ins.init st ip) (fileArgs reads) ds ins' ∧ out = (ds.map (fun d => d.bytes)).flatten

/-- `bsdconv_file` on a file with contents `data`. /repo/src/bsdconv.c:44-58 -/
def ConvFile (st : Nat → Static π) (ip : Nat → Nat → π → π) (ins : Ins π) (data out : List Nat) (ins' : Ins π) : Prop :=
  ∃ reads, Reads data reads ∧ ConvReads st ip ins reads out ins'

/-- The counters `bsdconv_file` prints, of those the instance always has: the ones that are not zero, in the order in which
`bsdconv_create` makes them. /repo/src/bsdconv.c:60-72, /repo/src/libbsdconv.c:475-476 -/
def report (ins : Ins π) : List (String × Nat) := [("IERR", ins.ierr), ("OERR", ins.oerr)].filter (fun c => c.2 != 0)

/-- The loop over the files without `-i`: instance before, files, what goes to stdout, the reports, instance afterwards and exit
status.  A file that cannot be opened ends the program. /repo/src/bsdconv.c:121,157-170 -/
inductive Print (st : Nat → Static π) (ip : Nat → Nat → π → π) (fs : Fs) :
    Ins π → List String → List Nat → List (String × List (String × Nat)) → Ins π → Nat → Prop
  | done (ins : Ins π) : Print st ip fs ins [] [] [] ins 0
  | missing (ins : Ins π) {f : String} (files : List String) : fs f = none → Print st ip fs ins (f :: files) [] [] ins 1
  | file {ins ins1 ins2 : Ins π} {f : String} {files : List String} {data out outs : List Nat} {rs : List (String × List (String × Nat))} {code : Nat} :
      fs f = some data → ConvFile st ip ins data out ins1 → Print st ip fs ins1 files outs rs ins2 code →
      Print st ip fs ins (f :: files) (out ++ outs) ((f, report ins1) :: rs) ins2 code

/-- What happens to the files when `f` is replaced: `mkstemp`, the writes (the pieces are `ws`), `unlink`, `rename`.
/repo/src/bsdconv.c:123-155 -/
def replaceSteps (f t : String) (ws : List (List Nat)) : List FileEvent :=
  .create t :: (ws.map (FileEvent.write t) ++ [.unlink f, .rename t f])

/-- The loop over the files with `-i`: instance and files before, file names, what happens to the files, exit status.
/repo/src/bsdconv.c:121-156 -/
inductive InPlace (st : Nat → Static π) (ip : Nat → Nat → π → π) : Ins π → Fs → List String → List FileEvent → Nat → Prop
  | done (ins : Ins π) (fs : Fs) : InPlace st ip ins fs [] [] 0
  | missing (ins : Ins π) (fs : Fs) {f : String} (files : List String) : fs f = none → InPlace st ip ins fs (f :: files) [] 1
  | file {ins ins1 : Ins π} {fs : Fs} {f t : String} {files : List String} {data out : List Nat} {ws : List (List Nat)} {es : List FileEvent}
      {code : Nat} :
      fs f = some data → ConvFile st ip ins data out ins1 → TempName f t → fs t = none → ws.flatten = out →
      InPlace st ip ins1 (fs.afterAll (replaceSteps f t ws)) files es code →
      InPlace st ip ins fs (f :: files) (replaceSteps f t ws ++ es) code

/-- `-i` on one file with faults nobody looks at: reading fails after `got` bytes (`fread` returns 0, taken for the end of the file) and
the disk is full after `fits` bytes (what `fwrite`, called by `bsdconv`, and `fclose` return is ignored).
/repo/src/bsdconv.c:52,150-154, /repo/src/libbsdconv.c:1067-1075 -/
def Faulty (st : Nat → Static π) (ip : Nat → Nat → π → π) (ins : Ins π) (fs : Fs) (f : String) (got fits : Nat) (es : List FileEvent) : Prop :=
  ∃ data out ins1 t ws, fs f = some data ∧ ConvFile st ip ins (data.take got) out ins1 ∧ TempName f t ∧ fs t = none ∧
    ws.flatten = out.take fits ∧ es = replaceSteps f t ws

end Verif.Cli
