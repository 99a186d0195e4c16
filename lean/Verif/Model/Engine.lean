/-
Model of the conversion engine: `bsdconv()` in /repo/src/libbsdconv.c:594-1013 (everything before
the output switch) and the macros of /repo/src/bsdconv.h it uses.

Representation
* `struct data_rt` list hanging off a `data_head` sentinel: `Queue.items`; a pointer into the list is
  an index, `0` = the sentinel, `k+1` = the k-th datum, `items.length+1` = the NULL after the last one.
* A datum's payload is its list of bytes (`Nat`s).  `F_FREE` ownership is not modelled here
  (see Model/Pass.lean).
* `struct state_rt` (a copy of a state record of the codec image) is the pair `st` (which record was
  read) and `status` (the copied status, which callbacks and the INTER/TO loops overwrite).
* `this_codec` of the C code is always `THIS_CODEC(ins)` at its uses, so it is recomputed.
-/

namespace Verif.Engine

/-- One datum's payload. /repo/src/bsdconv.h:74-79 -/
abbrev Datum := List Nat

/-- /repo/src/bsdconv.h:45-55 (`enum bsdconv_status`).  `noopNext` is `NOOP` set by a callback that has also done
`ins->phase_index+=1` (only /repo/modules/to/EBCDIC.c:92-94 does). -/
inductive Status
  | cont | deadend | match_ | submatch | subroutine | submatchSubroutine | nextphase | nomatch | noop | noopNext
  deriving DecidableEq, Repr

/-- The phase types the engine dispatches on. /repo/src/bsdconv.h:36-43 -/
inductive PType
  | from_ | inter | to_
  deriving DecidableEq, Repr

/-- A data list with its `data_head` (implicit) and `data_tail` (an index). -/
structure Queue where
  items : List Datum
  tail : Nat
  deriving Repr, DecidableEq

namespace Queue
/-- The empty list: `data_tail = data_head`. -/
def empty : Queue := ⟨[], 0⟩

/-- Append one datum at `data_tail->next` and move `data_tail` (body of `LISTCPY_ST`,
/repo/src/bsdconv.h:218-228).  Whatever hung after `data_tail` is cut off. -/
def push (q : Queue) (d : Datum) : Queue := ⟨q.items.take q.tail ++ [d], q.tail + 1⟩

/-- `LISTCPY_ST`: /repo/src/bsdconv.h:218-228 (walks the data cells of a rule). -/
def pushAll (q : Queue) (ds : List Datum) : Queue := ds.foldl push q

/-- `LISTFREE(INS, head, bak, tail)`: /repo/src/bsdconv.h:242-249.  Frees the nodes before `bak`
(all nodes if `bak` is NULL); a freed tail falls back to the sentinel. -/
def listFree (q : Queue) (bak : Nat) : Queue :=
  let n := min (bak - 1) q.items.length
  ⟨q.items.drop n, q.tail - n⟩

/-- `p->next != NULL` for the node with index `k`. -/
def hasNext (q : Queue) (k : Nat) : Bool := decide (k < q.items.length)

/-- Payload of node `k ≥ 1`. -/
def get (q : Queue) (k : Nat) : Datum := q.items.getD (k - 1) []
end Queue

/-- Dynamic part of `struct bsdconv_phase` (/repo/src/bsdconv.h:127-138), plus the private data of
its codecs (`struct bsdconv_codec.priv`, /repo/src/bsdconv.h:187), of type `π`. -/
structure Ph (π : Type) where
  index : Nat := 0
  offset : Nat := 0
  st : Nat := 0
  status : Status := .deadend
  fMatch : Bool := false
  fPending : Bool := false
  fLoop : Bool := false
  matchData : List Datum := []
  curr : Nat := 0
  bak : Nat := 0
  i : Nat := 0
  /-- `this_phase->data_head->len` -/
  consumed : Nat := 0
  q : Queue := Queue.empty
  priv : Nat → π

/-- What one phase can see and change: its own record, the previous phase's list, the length field of
the previous phase's sentinel and the two error counters. -/
structure Loc (π : Type) where
  prev : Queue
  prevHeadLen : Nat
  ph : Ph π
  ierr : Nat
  oerr : Nat

/-- A loaded codec (/repo/src/bsdconv.h:167-188): the automaton of its image, seen through `get_offset`
and `read_state`, and its callbacks. -/
structure Codec (π : Type) where
  /-- `get_offset(codec, &read_state(codec, o), c)`, /repo/src/bsdconv.h:251-258; 0 = no transition -/
  next : Nat → Nat → Nat
  /-- `read_state(codec, o).status`, /repo/src/bsdconv.h:260-270 -/
  status : Nat → Status
  /-- the data list of `read_state(codec, o).data`; `[]` = NULL -/
  data : Nat → List Datum
  /-- `cbconv`; the identity if the codec has none -/
  conv : Loc π → Loc π := id
  /-- `cbflush`; `none` if the codec has none -/
  flush : Option (Loc π → Loc π) := none

/-- Static part of a phase. -/
structure Static (π : Type) where
  type : PType
  codecs : Nat → Codec π
  /-- number of codecs minus one -/
  codecn : Nat

/-- Program points of `bsdconv()`. -/
inductive PC
  | begin | fromOuter | fromInner | fromSw | fromDead
  | interOuter | interSw | interDead | toOuter | toSw | toDead
  | leave | checkBack | flushScan | done | ub
  deriving DecidableEq, Repr

/-- Where control goes after a local step. -/
inductive Ctl
  | goto (pc : PC)
  /-- `ins->phase_index+=1; goto phase_begin;` -/
  | nextBegin
  deriving DecidableEq, Repr

section Local
variable {π : Type}

/-- `THIS_CODEC(ins)` -/
def Static.codec (s : Static π) (p : Ph π) : Codec π := s.codecs p.index

/-- `RESET(X)`: /repo/src/bsdconv.h:272-276 -/
def Ph.reset (s : Static π) (p : Ph π) : Ph π :=
  { p with index := 0, offset := 0, st := 0, status := (s.codecs 0).status 0 }

/-- The transition step repeated in all three branches, /repo/src/libbsdconv.c:629-635, 734-740,
845-851, 867-873, 973-979:
`next=get_offset(state, c); if(next) offset=next; else if(!(flags&F_LOOPBACK)) offset=0;
state=read_state(offset)`. -/
def Ph.advance (s : Static π) (p : Ph π) (c : Nat) : Ph π :=
  let cd := s.codec p
  let nx := cd.next p.st c
  let off := if nx ≠ 0 then nx else if p.fLoop then p.offset else 0
  { p with offset := off, st := off, status := cd.status off }

/-- `for(i=0;i<curr->len;i+=1){ advance; switch(status){ DEADEND: goto deadend; SUBROUTINE..: flags |=
F_LOOPBACK } }`: /repo/src/libbsdconv.c:732-750, 865-883.  The flag tells whether the loop was left
by `goto *_deadend`. -/
def Ph.scan (s : Static π) (p : Ph π) : List Nat → Bool × Ph π
  | [] => (false, p)
  | c :: cs =>
    let p := p.advance s c
    match p.status with
    | .deadend => (true, p)
    | .subroutine => scan s { p with fLoop := true, i := p.i + 1 } cs
    | .submatchSubroutine => scan s { p with fLoop := true, i := p.i + 1 } cs
    | _ => scan s { p with i := p.i + 1 } cs

/-- The dead-end code shared in shape by the three branches when `F_MATCH` is set:
emit the remembered data and free up to `bak`, or call `cbflush`; then clear `F_MATCH` and `RESET`.
/repo/src/libbsdconv.c:641-651, 761-772, 891-902 -/
def emitMatch (s : Static π) (l : Loc π) (isFrom : Bool) : Loc π :=
  let l1 : Loc π :=
    if l.ph.matchData ≠ [] then
      { l with
        prev := l.prev.listFree l.ph.bak
        ph := { l.ph with
          q := l.ph.q.pushAll l.ph.matchData
          curr := 0
          i := if isFrom then l.ph.consumed else l.ph.i } }
    else match (s.codec l.ph).flush with
      | some f => f l
      | none => l
  { l1 with ph := { l1.ph with fMatch := false }.reset s }

/-- `from_deadend:` /repo/src/libbsdconv.c:639-676 -/
def fromDead (s : Static π) (l : Loc π) : Loc π × Ctl :=
  let l := { l with ph := { l.ph with fPending := false, fLoop := false } }
  if l.ph.fMatch then
    (emitMatch s l true, .goto .begin)
  else if l.ph.index < s.codecn then
    let p := { l.ph with index := l.ph.index + 1 }
    ({ l with ph := { p with
        st := 0, status := (s.codec p).status 0, curr := 0, i := p.consumed } }, .goto .fromInner)
  else
    let p := l.ph.reset s
    ({ l with
        ierr := l.ierr + 1
        prev := l.prev.listFree p.curr
        ph := { p with bak := 0, curr := 0, consumed := p.consumed + 1, i := p.consumed + 1 } },
      .goto .fromInner)

/-- `case FROM:` /repo/src/libbsdconv.c:623-727.  `fromOuter` is the test of the outer `while`,
`fromInner` the test of the inner one together with the transition, `fromSw` is `from_x:`. -/
def fromOuter (l : Loc π) : Loc π × Ctl :=
  if l.prev.hasNext l.ph.curr then
    ({ l with ph := { l.ph with
        i := if l.ph.curr = 0 then l.ph.consumed else 0
        curr := l.ph.curr + 1 } }, .goto .fromInner)
  else (l, .goto .leave)

/-- inner loop test and transition, /repo/src/libbsdconv.c:628-635.  After a `continue` with
`curr==prev_phase->data_head` the C code compares `i` with the sentinel's `len` field; were it
smaller the sentinel's uninitialised `data` would be read. -/
def fromInner (s : Static π) (l : Loc π) : Loc π × Ctl :=
  if l.ph.curr = 0 then
    if l.ph.i < l.prevHeadLen then (l, .goto .ub) else (l, .goto .fromOuter)
  else if h : l.ph.i < (l.prev.get l.ph.curr).length then
    ({ l with ph := l.ph.advance s ((l.prev.get l.ph.curr)[l.ph.i]) }, .goto .fromSw)
  else (l, .goto .fromOuter)

/-- `from_x: switch(state.status)`, /repo/src/libbsdconv.c:636-724 -/
def fromSw (s : Static π) (l : Loc π) : Loc π × Ctl :=
  match l.ph.status with
  | .deadend => (l, .goto .fromDead)
  | .match_ =>
    let p := { l.ph with fMatch := false, fPending := false, fLoop := false, matchData := [],
                         q := l.ph.q.pushAll ((s.codec l.ph).data l.ph.st), bak := l.ph.curr }
    ({ l with prev := l.prev.listFree p.bak
              ph := { p with curr := 0, consumed := p.i + 1 }.reset s }, .nextBegin)
  | .submatch =>
    ({ l with ph := { l.ph with
        fMatch := true, fPending := true, matchData := (s.codec l.ph).data l.ph.st,
        bak := l.ph.curr, consumed := l.ph.i + 1, i := l.ph.i + 1 } }, .goto .fromInner)
  | .subroutine | .submatchSubroutine =>
    let l1 := (s.codec l.ph).conv l
    ({ l1 with ph := { l1.ph with fLoop := true } }, .goto .fromSw)
  | .nextphase =>
    let p := { l.ph with fMatch := false, fPending := false, fLoop := false, matchData := [],
                         bak := l.ph.curr }
    ({ l with prev := l.prev.listFree p.bak
              ph := { p with curr := 0, consumed := p.i + 1 }.reset s }, .nextBegin)
  | .cont => ({ l with ph := { l.ph with fPending := true, i := l.ph.i + 1 } }, .goto .fromInner)
  | .noop => (l, .goto .begin)
  | .noopNext => (l, .nextBegin)
  | .nomatch => ({ l with ph := { l.ph with i := l.ph.i + 1 } }, .goto .fromInner)

/-- `inter_deadend:` /repo/src/libbsdconv.c:757-804 -/
def interDead (s : Static π) (l : Loc π) : Loc π × Ctl :=
  let l := { l with ph := { l.ph with fPending := false, fLoop := false } }
  if l.ph.fMatch then
    (emitMatch s l false, .goto .begin)
  else if l.ph.index < s.codecn then
    let p := { l.ph with index := l.ph.index + 1 }
    ({ l with ph := { p with st := 0, status := (s.codec p).status 0, curr := 0 } }, .goto .interOuter)
  else match l.prev.items with
    | [] => (l, .goto .ub)          -- data_head->next is NULL: NULL dereference
    | d :: ds =>
      ({ l with
          prev := ⟨ds, l.prev.tail - 1⟩
          ph := { l.ph with curr := 0, q := l.ph.q.push d }.reset s }, .nextBegin)

/-- `while(curr->next){ curr=curr->next; state.status=NOMATCH; for(...)...`
/repo/src/libbsdconv.c:729-750 (INTER) and 862-883 (TO) -/
def itOuter (s : Static π) (l : Loc π) (sw dead : PC) : Loc π × Ctl :=
  if l.prev.hasNext l.ph.curr then
    let p := { l.ph with curr := l.ph.curr + 1, status := .nomatch, i := 0 }
    let r := p.scan s (l.prev.get p.curr)
    ({ l with ph := r.2 }, .goto (if r.1 then dead else sw))
  else (l, .goto .leave)

/-- The transition on the separator 256 after a datum, /repo/src/libbsdconv.c:845-852, 973-980 -/
def itSep (s : Static π) (l : Loc π) (outer dead : PC) : Loc π × Ctl :=
  let p := l.ph.advance s 256
  ({ l with ph := p }, .goto (if p.status = .deadend then dead else outer))

/-- `case SUBMATCH:` of INTER and TO, /repo/src/libbsdconv.c:817-833, 944-959: remember the match; if
it ends at the last datum, append an empty datum to point `bak` at. -/
def itSubmatch (s : Static π) (l : Loc π) : Loc π :=
  let p := { l.ph with fMatch := true, fPending := true, matchData := (s.codec l.ph).data l.ph.st }
  if l.prev.hasNext p.curr then
    { l with ph := { p with bak := p.curr + 1 } }
  else
    { l with prev := l.prev.push [], ph := { p with bak := l.prev.tail + 1 } }

/-- `inter_x: switch(state.status)`, /repo/src/libbsdconv.c:751-853 -/
def interSw (s : Static π) (l : Loc π) : Loc π × Ctl :=
  match l.ph.status with
  | .nomatch => (l, .nextBegin)
  | .deadend => (l, .goto .interDead)
  | .match_ =>
    let p := { l.ph with fMatch := false, fPending := false, fLoop := false, matchData := [],
                         q := l.ph.q.pushAll ((s.codec l.ph).data l.ph.st), bak := l.ph.curr + 1 }
    ({ l with prev := l.prev.listFree p.bak, ph := { p with curr := 0 }.reset s }, .nextBegin)
  | .submatch => itSep s (itSubmatch s l) .interOuter .interDead
  | .subroutine | .submatchSubroutine => ((s.codec l.ph).conv l, .goto .interSw)
  | .nextphase =>
    let p := { l.ph with fMatch := false, fPending := false, fLoop := false, matchData := [],
                         bak := l.ph.curr + 1 }
    ({ l with prev := l.prev.listFree p.bak, ph := { p with curr := 0 }.reset s }, .nextBegin)
  | .cont => itSep s { l with ph := { l.ph with fPending := true } } .interOuter .interDead
  | .noop => (l, .goto .begin)
  | .noopNext => (l, .nextBegin)

/-- `to_deadend:` /repo/src/libbsdconv.c:887-926 -/
def toDead (s : Static π) (l : Loc π) : Loc π × Ctl :=
  let l := { l with ph := { l.ph with fPending := false, fLoop := false } }
  if l.ph.fMatch then
    (emitMatch s l false, .nextBegin)
  else if l.ph.index < s.codecn then
    let p := { l.ph with index := l.ph.index + 1 }
    ({ l with ph := { p with st := 0, status := (s.codec p).status 0, curr := 0 } }, .goto .toOuter)
  else
    let p := l.ph.reset s
    ({ l with
        oerr := l.oerr + 1
        prev := l.prev.listFree (p.curr + 1)
        ph := { p with bak := 0, curr := 0 } }, .goto .toOuter)

/-- `to_x: switch(state.status)`, /repo/src/libbsdconv.c:884-980 -/
def toSw (s : Static π) (l : Loc π) : Loc π × Ctl :=
  match l.ph.status with
  | .nomatch => (l, .goto .toOuter)
  | .deadend => (l, .goto .toDead)
  | .match_ =>
    let p := { l.ph with fMatch := false, fPending := false, fLoop := false, matchData := [],
                         q := l.ph.q.pushAll ((s.codec l.ph).data l.ph.st), bak := l.ph.curr + 1 }
    ({ l with prev := l.prev.listFree p.bak, ph := { p with curr := 0 }.reset s }, .nextBegin)
  | .submatch => itSep s (itSubmatch s l) .toOuter .toDead
  | .subroutine | .submatchSubroutine => ((s.codec l.ph).conv l, .goto .toSw)
  | .nextphase =>
    let p := { l.ph with fMatch := false, fPending := false, fLoop := false, matchData := [],
                         bak := l.ph.curr + 1 }
    ({ l with prev := l.prev.listFree p.bak, ph := { p with curr := 0 }.reset s }, .nextBegin)
  | .cont => itSep s { l with ph := { l.ph with fPending := true, fLoop := false } } .toOuter .toDead
  | .noop => (l, .goto .begin)
  | .noopNext => (l, .nextBegin)

/-- One step inside a phase. -/
def localStep (s : Static π) (pc : PC) (l : Loc π) : Loc π × Ctl :=
  match pc with
  | .fromOuter => fromOuter l
  | .fromInner => fromInner s l
  | .fromSw => fromSw s l
  | .fromDead => fromDead s l
  | .interOuter => itOuter s l .interSw .interDead
  | .interSw => interSw s l
  | .interDead => interDead s l
  | .toOuter => itOuter s l .toSw .toDead
  | .toSw => toSw s l
  | .toDead => toDead s l
  | _ => (l, .goto .ub)
end Local

/-- `struct bsdconv_instance` (/repo/src/bsdconv.h:107-125), engine part.  `ph 0` only holds the input
list; `ph 1 .. ph phasen` are the phases. -/
structure Ins (π : Type) where
  ph : Nat → Ph π
  phasen : Nat
  pidx : Nat := 1
  flush : Bool := false
  ierr : Nat := 0
  oerr : Nat := 0

section Global
variable {π : Type}

/-- What phase `pidx` sees. -/
def Ins.loc (ins : Ins π) : Loc π :=
  { prev := (ins.ph (ins.pidx - 1)).q
    prevHeadLen := (ins.ph (ins.pidx - 1)).consumed
    ph := ins.ph ins.pidx
    ierr := ins.ierr
    oerr := ins.oerr }

/-- Write a phase's local changes back. -/
def Ins.putLoc (ins : Ins π) (l : Loc π) : Ins π :=
  { ins with
    ph := fun j =>
      if j = ins.pidx then l.ph
      else if j + 1 = ins.pidx then { ins.ph j with q := l.prev, consumed := l.prevHeadLen }
      else ins.ph j
    ierr := l.ierr
    oerr := l.oerr }

/-- `for(phase_index=phasen;phase_index>0;phase_index-=1) if(phase[phase_index].curr->next)`
/repo/src/libbsdconv.c:993-997 -/
def Ins.findBack (ins : Ins π) : Nat → Option Nat
  | 0 => none
  | k + 1 => if (ins.ph k).q.hasNext (ins.ph (k + 1)).curr then some (k + 1) else findBack ins k

/-- `for(phase_index=1;phase_index<=phasen;++phase_index) if(flags & F_PENDING)`
/repo/src/libbsdconv.c:1000-1013; `n` phases are left, the next one is `k`. -/
def Ins.findPending (ins : Ins π) : (k n : Nat) → Option Nat
  | _, 0 => none
  | k, n + 1 => if (ins.ph k).fPending then some k else findPending ins (k + 1) n

/-- Loop head of a phase type. -/
def PType.outer : PType → PC
  | .from_ => .fromOuter | .inter => .interOuter | .to_ => .toOuter

/-- Dead-end label of a phase type. -/
def PType.dead : PType → PC
  | .from_ => .fromDead | .inter => .interDead | .to_ => .toDead

/-- One step of `bsdconv()`. -/
def step (st : Nat → Static π) (c : Ins π × PC) : Ins π × PC :=
  let ins := c.1
  match c.2 with
  | .done => c
  | .ub => c
  | .begin =>                                   -- libbsdconv.c:618-622
    if 0 < ins.pidx ∧ ins.pidx ≤ ins.phasen then (ins, (st ins.pidx).type.outer)
    else (ins, .checkBack)
  | .leave => ({ ins with pidx := ins.pidx + 1 }, .checkBack)   -- libbsdconv.c:989
  | .checkBack =>
    match ins.findBack ins.phasen with
    | some k => ({ ins with pidx := k }, .begin)
    | none => ({ ins with pidx := 0 }, .flushScan)
  | .flushScan =>
    if ins.flush then
      match ins.findPending 1 ins.phasen with
      | some k => ({ ins with pidx := k }, (st k).type.dead)
      | none => ({ ins with pidx := ins.phasen + 1 }, .done)
    else (ins, .done)
  | pc =>
    let r := localStep (st ins.pidx) pc ins.loc
    let ins' := ins.putLoc r.1
    match r.2 with
    | .goto pc' => (ins', pc')
    | .nextBegin => ({ ins' with pidx := ins'.pidx + 1 }, .begin)

/-- `n` steps. -/
def run (st : Nat → Static π) : Nat → Ins π × PC → Ins π × PC
  | 0, c => c
  | n + 1, c => run st n (step st c)

/-- Input append at the head of `bsdconv()`, /repo/src/libbsdconv.c:606-613:
`*(data_tail)=ins->input` also copies `input.next`, so a chain of data hangs off the new node while
`data_tail` only moves to its first node.  `none` = `ins->input.data==NULL`. -/
def Ins.feed (ins : Ins π) (input : Option (Datum × List Datum)) : Ins π :=
  match input with
  | none => ins
  | some (d, chain) =>
    { ins with ph := fun j =>
        if j = 0 then
          let q := (ins.ph 0).q
          { ins.ph 0 with q := ⟨q.items.take q.tail ++ d :: chain, q.tail + 1⟩ }
        else ins.ph j }

/-- A call of `bsdconv()` up to the output switch, as a start configuration. -/
def Ins.start (ins : Ins π) (input : Option (Datum × List Datum)) (flush : Bool) : Ins π × PC :=
  ({ (ins.feed input) with pidx := 1, flush := flush }, .begin)

/-- The engine part of `bsdconv_init`, /repo/src/libbsdconv.c:179-215; `initPriv k j p` is the `cbinit`
of codec `j` of phase `k` (the identity if it has none).  Error counters are not touched.
`bak` and `i` keep their old values. -/
def Ins.init (st : Nat → Static π) (initPriv : Nat → Nat → π → π) (ins : Ins π) : Ins π :=
  { ins with
    flush := false
    pidx := ins.phasen
    ph := fun k =>
      if k ≤ ins.phasen then
        let p := ins.ph k
        let p0 : Ph π := { p with fMatch := false, fPending := false, fLoop := false, offset := 0,
                                  q := Queue.empty, consumed := 0, matchData := [] }
        if k = 0 then p0
        else ({ p0 with
                curr := 0
                priv := fun j => if j ≤ (st k).codecn then initPriv k j (p.priv j) else p.priv j }
              ).reset (st k)
      else ins.ph k }
end Global

end Verif.Engine
