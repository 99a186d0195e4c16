import Verif.Model.Engine
/-
Model of the table compiler /repo/src/bsdconv-mktable.c: the automaton it builds from the rules of a file, the file
image it writes, and the reading of such an image by the engine (/repo/src/bsdconv.h:218-270).

Representation
* `struct m_state_st` nodes are numbered in the order of the list `state_r … n` (creation order).
* A node of the trie `datalist_hash` is reached by one string read backwards, so it stands for that string of symbols
  (0..255 bytes, 256 separator); its `parent` is the tail of the string.  The pointer `data` of a state is such a node,
  `[]` for NULL (`hash()` returns 0 for no data).  Likewise a node of `data_hash` stands for a string of bytes.
* Integers are unbounded here; the theorems assume that the image is smaller than 2^32 bytes.
-/
namespace Verif.MkTable
open Verif.Engine (Status Datum Codec)

/-! ### Rules -/

/-- A line of the file: `!`, the pattern as bounds (`cl`, `cu`) of each symbol, `?`, and `dat[0..l)`.
/repo/src/bsdconv-mktable.c:259-354 -/
structure Rule where
  ci : Bool := false
  pat : List (Nat × Nat)
  cb : Bool := false
  dat : List Nat
  deriving DecidableEq, Repr

/-! ### The automaton -/

/-- `struct m_state_st`, /repo/src/bsdconv-mktable.c:35-58.  `hasBase`: is `base` allocated?  `level` is not
initialised by `state_new`; it is not read before it is set. -/
structure Node where
  status : Status
  data : List Nat := []
  level : Nat := 0
  beg : Nat := 65535
  fin : Nat := 0
  hasBase : Bool := false
  kids : Nat → Option Nat := fun _ => none

/-- All nodes, and `callback_hash` (data to shared SUBROUTINE node). -/
structure Arena where
  node : Nat → Node
  count : Nat
  cbs : List Nat → Option Nat := fun _ => none

namespace Arena

/-- Overwriting fields of a node. -/
def put (A : Arena) (i : Nat) (n : Node) : Arena := { A with node := fun k => if k = i then n else A.node k }

/-- `state_t->n=state_new(…); state_t=state_t->n;` -/
def new (A : Arena) (n : Node) : Arena :=
  { A with node := fun k => if k = A.count then n else A.node k, count := A.count + 1 }

/-- `base` is allocated if need be, and `beg`, `end` widened to hold `c`.
/repo/src/bsdconv-mktable.c:290-291, 310-313, 367-372 -/
def bound (A : Arena) (s c : Nat) : Arena :=
  let n := A.node s
  A.put s { n with hasBase := true, beg := if c < n.beg then c else n.beg, fin := if c ≥ n.fin then c + 1 else n.fin }

/-- `base[c]=k` (with `base` allocated and the bounds widened). -/
def edge (A : Arena) (s c k : Nat) : Arena :=
  let A := A.bound s c
  A.put s { A.node s with kids := fun x => if x = c then some k else (A.node s).kids x }

/-- The initial automaton: only the root.  /repo/src/bsdconv-mktable.c:232 -/
def init : Arena := { node := fun _ => { status := .deadend }, count := 1 }

/-- Body of the loop that builds inner nodes: the node after `c` from node `s`, /repo/src/bsdconv-mktable.c:290-313. -/
def extend (A : Arena) (s c : Nat) : Arena × Nat :=
  match (A.node s).kids c with
  | some k =>
    match (A.node k).status with
    | .subroutine =>
      let n := A.node k
      ((A.new { status := .submatchSubroutine, data := n.data, level := n.level }).edge s c A.count, A.count)
    | .match_ => ((A.put k { A.node k with status := .submatch }).bound s c, k)
    | _ => (A.bound s c, k)
  | none => ((A.new { status := .cont }).edge s c A.count, A.count)

/-- Is the rule dropped at a node that exists?  /repo/src/bsdconv-mktable.c:374-392 -/
def drops (n : Node) (cb : Bool) (v : Nat) : Bool :=
  (n.status == .match_ || n.status == .submatch ||
    ((n.status == .subroutine || n.status == .submatchSubroutine) && cb)) && decide (v ≤ n.level)

/-- Body of the loop that sets leaves, /repo/src/bsdconv-mktable.c:367-423; `v` is `level+todo_item->level`. -/
def finish (A : Arena) (cb : Bool) (dat : List Nat) (s c v : Nat) : Arena :=
  let A := A.bound s c
  match (A.node s).kids c with
  | some k =>
    let n := A.node k
    if drops n cb v then A
    else if n.status = .cont then
      A.put k { n with status := if cb then .submatchSubroutine else .submatch, data := dat, level := v }
    else if cb then A.put k { n with data := dat, level := v }
    else if n.status = .subroutine then (A.new { status := .match_, data := dat, level := v }).edge s c A.count
    else A.put k { n with status := .match_, data := dat, level := v }
  | none =>
    if cb then
      match A.cbs dat with
      | some k => (A.put k { A.node k with data := dat, level := v }).edge s c k
      | none =>
        { (A.new { status := .subroutine, data := dat, level := v }).edge s c A.count with
          cbs := fun d => if d = dat then some A.count else A.cbs d }
    else (A.new { status := .match_, data := dat, level := v }).edge s c A.count

end Arena

/-- `struct states`: a node to extend by the symbols within bounds.  /repo/src/bsdconv-mktable.c:60-66 -/
structure Item where
  state : Nat
  lower : Nat
  upper : Nat
  level : Nat

/-- `ci_table` after its initialisation, /repo/src/bsdconv-mktable.c:180-184: the first assignment of the loop sets
`'A'..'['` to `'a'..'{'`, the second one sets only `'a'`, in the end to `'A'+26`.  (Index 256 lies outside the array; it is
taken to be 0 here.) -/
def ciTable (c : Nat) : Nat :=
  if c = 0x61 then 0x5B else if 0x41 ≤ c ∧ c ≤ 0x5B then c + 32 else 0

/-- Is symbol `c` to be followed, and with which `level`?  /repo/src/bsdconv-mktable.c:283-289, 360-366 -/
def hit (ci : Bool) (lo hi c : Nat) : Option Nat :=
  if lo ≤ c ∧ c ≤ hi then some 1
  else if ci ∧ ciTable c ≠ 0 ∧ lo ≤ ciTable c ∧ ciTable c ≤ hi then some 0
  else none

/-- The pairs of node and symbol the loops over `todo` and `c` visit, with their level.
/repo/src/bsdconv-mktable.c:280-289, 357-366 -/
def jobs (ci : Bool) (todo : List Item) : List (Nat × Nat × Nat) :=
  todo.flatMap fun it => (List.range 257).filterMap fun c =>
    (hit ci it.lower it.upper c).map fun v => (it.state, c, it.level + v)

/-- One round of the loop over the pattern: /repo/src/bsdconv-mktable.c:279-327. -/
def extendAll (A : Arena) (lo hi : Nat) : List (Nat × Nat × Nat) → Arena × List Item
  | [] => (A, [])
  | (s, c, v) :: js =>
    let r := A.extend s c
    let r' := extendAll r.1 lo hi js
    (r'.1, ⟨r.2, lo, hi, v⟩ :: r'.2)

/-- The rounds for the rest of a pattern, then the leaves.  /repo/src/bsdconv-mktable.c:266-427 -/
def addFrom (A : Arena) (r : Rule) (todo : List Item) : List (Nat × Nat) → Arena
  | [] => (jobs r.ci todo).foldl (fun A j => A.finish r.cb r.dat j.1 j.2.1 j.2.2) A
  | b :: bs =>
    let x := extendAll A b.1 b.2 (jobs r.ci todo)
    addFrom x.1 r x.2 bs

/-- One line of the file.  The first round only moves from `holder` to the root; with an empty pattern the root itself
is the leaf.  /repo/src/bsdconv-mktable.c:252-427 -/
def addRule (A : Arena) (r : Rule) : Arena :=
  match r.pat with
  | [] =>
    let n := A.node 0
    if Arena.drops n r.cb 1 then A
    else A.put 0 { n with status := if r.cb then n.status else .match_, data := r.dat, level := 1 }
  | b :: bs => addFrom A r [⟨0, b.1, b.2, 1⟩] bs

/-- The automaton of a file.  /repo/src/bsdconv-mktable.c:239-429 -/
def build (rs : List Rule) : Arena := rs.foldl addRule Arena.init

/-! ### The image -/

/-- `uint16_t`, `uint32_t` in memory (little endian). -/
def le16 (n : Nat) : List Nat := [n % 256, n / 256 % 256]
/-- `uint32_t` in memory: the fields of the image, /repo/src/bsdconv.h (struct state_st, struct data_st). -/
def le32 (n : Nat) : List Nat := [n % 256, n / 256 % 256, n / 65536 % 256, n / 16777216 % 256]

/-- `struct m_data_st`, /repo/src/bsdconv-mktable.c:24-33: a cell for the data that the string `suffix` begins with. -/
structure Cell where
  offset : Nat
  suffix : List Nat
  next : Nat
  len : Nat
  deriving DecidableEq, Repr

/-- Writing the image: `offset`, the cells (newest first), and the `fseek`/`fwrite` pairs (oldest first). -/
structure Out where
  offset : Nat
  cells : List Cell := []
  writes : List (Nat × List Nat) := []

/-- Offset of the cell of a string, 0 if there is none: `hash_p->offset`. -/
def cellOffset (cells : List Cell) (p : List Nat) : Nat :=
  match cells.find? (fun c => c.suffix == p) with
  | some c => c.offset
  | none => 0

/-- The variables of the loop over the data of a state: /repo/src/bsdconv-mktable.c:450-456.  `dq` is `data_q`, given by the
string of its cell. -/
structure Scan where
  offset : Nat
  cells : List Cell
  k : Bool := true
  l : Nat := 0
  j : Bool := false
  dq : Option (List Nat) := none

/-- Begin of a data cell: /repo/src/bsdconv-mktable.c:457-488. -/
def Scan.start (s : Scan) (p : List Nat) : Scan :=
  let s := { s with k := false }
  let s := if cellOffset s.cells p = 0 then
      { s with j := true, cells := ⟨s.offset, p, 0, 0⟩ :: s.cells, offset := s.offset + 12 }
    else s
  let s := match s.dq with
    | some q => { s with cells := s.cells.map fun (c : Cell) => if c.suffix = q then { c with next := cellOffset s.cells p } else c }
    | none => s
  { s with dq := some p }

/-- `if(j){ j=0; data_p->len=l; }`: `data_p` is the newest cell. -/
def Scan.close (s : Scan) : Scan :=
  if s.j then
    { s with j := false, cells := match s.cells with | [] => [] | c :: cs => { c with len := s.l } :: cs }
  else s

/-- The loop: /repo/src/bsdconv-mktable.c:456-504. -/
def Scan.run (s : Scan) : List Nat → Scan
  | [] => s.close
  | c :: cs =>
    let s := if s.k then s.start (c :: cs) else s
    let s := if c = 256 then { s.close with k := true, l := 0 } else { s with l := s.l + 1 }
    s.run cs

/-- The transitions written for a state: /repo/src/bsdconv-mktable.c:516-521.  State `k` lies at offset `16 k`. -/
def arrayOf (n : Node) : List Nat :=
  ((List.range (n.fin - n.beg)).map fun i =>
    match n.kids (n.beg + i) with
    | some k => le32 (16 * k)
    | none => le32 0).flatten

/-- Number of a status, /repo/src/bsdconv.h:45-55.  `noopNext` is not in the enumeration (it stands for `NOOP` plus a moved
phase index, which only a callback can do) and in no table; it gets a number of its own so that numbers read back. -/
def statusCode : Status → Nat
  | .cont => 0 | .deadend => 1 | .match_ => 2 | .submatch => 3 | .subroutine => 4 | .submatchSubroutine => 5
  | .nextphase => 6 | .nomatch => 7 | .noop => 8 | .noopNext => 9

/-- `struct state_st` in memory (16 bytes, padding zero): /repo/src/bsdconv.h:84-90. -/
def stateRecord (st : Status) (data beg fin base : Nat) : List Nat :=
  [statusCode st, 0, 0, 0] ++ le32 data ++ le16 beg ++ le16 fin ++ le32 base

/-- One state: /repo/src/bsdconv-mktable.c:450-533. -/
def writeState (w : Out) (i : Nat) (n : Node) : Out :=
  let s := Scan.run { offset := w.offset, cells := w.cells } n.data
  let data := if n.data = [] then 0 else cellOffset s.cells n.data
  if n.hasBase then
    { offset := s.offset + 4 * (n.fin - n.beg), cells := s.cells,
      writes := w.writes ++ [(s.offset, arrayOf n), (16 * i, stateRecord n.status data n.beg n.fin s.offset)] }
  else
    { offset := s.offset, cells := s.cells,
      writes := w.writes ++ [(16 * i, stateRecord n.status data n.beg n.fin 0)] }

/-- The data a cell is for: the first datum of its string (`v` of the `datalist_hash` node).
/repo/src/bsdconv-mktable.c:85-125, 481 -/
def firstDatum (p : List Nat) : List Nat := p.takeWhile (· ≠ 256)

/-- The first pass over the cells: `head` of the nodes of `data_hash`.  /repo/src/bsdconv-mktable.c:542-554 -/
def setHead (h : List Nat → Option (List Nat)) (b : List Nat) : List Nat → Option (List Nat) :=
  if (h b).isNone then fun s => if s = b ∨ (s ≠ [] ∧ s.isSuffixOf b) then some b else h s else h

/-- The first pass over all cells: /repo/src/bsdconv-mktable.c:542-554 -/
def heads (bs : List (List Nat)) : List Nat → Option (List Nat) := bs.foldl setHead (fun _ => none)

/-- Second pass: `offset`, `offset` fields of the nodes of `data_hash` (0: not set), the writes. -/
structure Bytes where
  offset : Nat
  at_ : List Nat → Nat := fun _ => 0
  writes : List (Nat × List Nat)

/-- One cell: /repo/src/bsdconv-mktable.c:557-583. -/
def writeCell (head : List Nat → Option (List Nat)) (w : Bytes) (c : Cell) : Bytes :=
  let b := firstDatum c.suffix
  let w :=
    if w.at_ b = 0 then
      let h := (head b).getD []
      { offset := w.offset + h.length
        at_ := fun s => if s ≠ [] ∧ s.isSuffixOf h then w.offset + (h.length - s.length) else w.at_ s
        writes := w.writes ++ [(w.offset, h)] }
    else w
  { w with writes := w.writes ++ [(c.offset, le32 (w.at_ b) ++ le32 c.len ++ le32 c.next)] }

/-- The states in order. -/
def writeStates (A : Arena) : Out :=
  (List.range A.count).foldl (fun w i => writeState w i (A.node i)) { offset := 16 * A.count }

/-- The cells in order of creation. -/
def writeCells (w : Out) : Bytes :=
  let cs := w.cells.reverse
  cs.foldl (writeCell (heads (cs.map fun c => firstDatum c.suffix))) { offset := w.offset, writes := w.writes }

/-- All writes of the compiler, and the size of the image.  /repo/src/bsdconv-mktable.c:434-585 -/
def emit (A : Arena) : Bytes := writeCells (writeStates A)

/-- One write to a file. -/
def poke (f : Nat → Nat) (w : Nat × List Nat) : Nat → Nat :=
  fun k => if w.1 ≤ k ∧ k < w.1 + w.2.length then w.2.getD (k - w.1) 0 else f k

/-- The file after some writes (bytes never written read 0). -/
def file (ws : List (Nat × List Nat)) : Nat → Nat := ws.foldl poke (fun _ => 0)

/-- The image of an automaton. -/
def image (A : Arena) : Nat → Nat := file (emit A).writes

/-! ### Reading an image -/

/-- A `uint16_t` field read from the image. -/
def get16 (z : Nat → Nat) (o : Nat) : Nat := z o + 256 * z (o + 1)
/-- A `uint32_t` field read from the image. -/
def get32 (z : Nat → Nat) (o : Nat) : Nat := z o + 256 * z (o + 1) + 65536 * z (o + 2) + 16777216 * z (o + 3)

/-- The numbers of the states: `enum bsdconv_status` in /repo/src/bsdconv.h. -/
def statusOf : Nat → Status
  | 0 => .cont | 1 => .deadend | 2 => .match_ | 3 => .submatch | 4 => .subroutine | 5 => .submatchSubroutine
  | 6 => .nextphase | 7 => .nomatch | 9 => .noopNext | _ => .noop

/-- `LISTCPY_ST`: the data in the chain of cells from offset `o`, /repo/src/bsdconv.h:218-228.  `fuel` bounds the number of cells
followed: a rule comes from a line of less than 1024 characters. -/
def readData (z : Nat → Nat) : (fuel : Nat) → (o : Nat) → List Datum
  | 0, _ => []
  | fuel + 1, o =>
    if o = 0 then []
    else (List.range (get32 z (o + 4))).map (fun i => z (get32 z o + i)) :: readData z fuel (get32 z (o + 8))

/-- `get_offset` in the state at `o`: /repo/src/bsdconv.h:251-270. -/
def nextAt (z : Nat → Nat) (o c : Nat) : Nat :=
  if get16 z (o + 8) ≤ c ∧ c < get16 z (o + 10) then get32 z (get32 z (o + 12) + (c - get16 z (o + 8)) * 4) else 0

/-- A codec with this image. -/
def codecOf {π : Type} (z : Nat → Nat) : Codec π where
  next := nextAt z
  status := fun o => statusOf (z o)
  data := fun o => readData z 1024 (get32 z (o + 4))

/-- The codec of a rule file. -/
def compiled (π : Type) (rs : List Rule) : Codec π := codecOf (image (build rs))

end Verif.MkTable
