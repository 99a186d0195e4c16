import Verif.Props.Engine
import Verif.Model.Pass
import Verif.Proofs.EngineTyped

/-! C08-C11, C55, C57: output modes, PASS, buffer ownership. -/

namespace Verif.Props
open Verif.Spec
open Verif.Engine hiding Datum
open Verif.Pass

variable {π : Type}

/-! ### C08 -/

/-- What a mode delivers and what it leaves pending, for every pending list. -/
theorem C08_modes (items : List Datum) (headLen : Nat) :
    (∀ r, (deliver (.automalloc r) ⟨items, items.length⟩ headLen).1.bytes = items.flatten ∧
      (deliver (.automalloc r) ⟨items, items.length⟩ headLen).1.len = some items.flatten.length ∧
      (deliver (.automalloc r) ⟨items, items.length⟩ headLen).1.alloc = items.flatten.length + r ∧
      (deliver (.automalloc r) ⟨items, items.length⟩ headLen).2 = ⟨[], 0⟩) ∧
    (∀ m ∈ [Mode.file, Mode.fd], (deliver m ⟨items, items.length⟩ headLen).1.bytes = items.flatten ∧
      (deliver m ⟨items, items.length⟩ headLen).2 = ⟨[], 0⟩) ∧
    ((deliver .null ⟨items, items.length⟩ headLen).1.bytes = [] ∧
      (deliver .null ⟨items, items.length⟩ headLen).2 = ⟨[], 0⟩) ∧
    ((deliver .hold ⟨items, items.length⟩ headLen).1.bytes = [] ∧
      (deliver .hold ⟨items, items.length⟩ headLen).2 = ⟨items, items.length⟩) := by
  refine ⟨?_, ?_, ⟨rfl, rfl⟩, rfl, rfl⟩
  · intro r
    refine ⟨rfl, ?_, ?_, rfl⟩
    · simp only [deliver]; congr 1; omega
    · simp only [deliver]; omega
  · intro m hm
    simp only [List.mem_cons, List.not_mem_nil, or_false] at hm
    rcases hm with rfl | rfl <;> exact ⟨rfl, rfl⟩

/-- A history of the last queue: the engine appends data, the output switch delivers. -/
inductive QOp
  | append (ds : List Datum)
  | deliver (m : Mode) (headLen : Nat)

/-- Run a history; result: delivered bytes and final queue. -/
def qrun (q : Queue) : List QOp → List Nat × Queue
  | [] => ([], q)
  | .append ds :: r => qrun (q.pushAll ds) r
  | .deliver m h :: r =>
    let d := deliver m q h
    let x := qrun d.2 r
    (d.1.bytes ++ x.1, x.2)

/-- The data appended in a history. -/
def appended : List QOp → List Datum
  | [] => []
  | .append ds :: r => ds ++ appended r
  | .deliver _ _ :: r => appended r

/-- C08.  Over any history of appended output and deliveries in any modes but NULL, every byte is delivered
exactly once and in order: delivered bytes followed by the pending ones are all the bytes ever appended. -/
theorem C08_exactly_once (ops : List QOp) (hm : ∀ h, QOp.deliver .null h ∉ ops) (q : Queue)
    (hq : q.tail = q.items.length) :
    (qrun q ops).1 ++ (qrun q ops).2.items.flatten = (q.items ++ appended ops).flatten := by
  induction ops generalizing q with
  | nil => simp [qrun, appended]
  | cons op ops ih =>
    have hm' : ∀ h, QOp.deliver .null h ∉ ops := fun h hh => hm h (by simp [hh])
    cases op with
    | append ds =>
      obtain ⟨h1, h2⟩ := Queue.pushAll_ok hq ds
      simp only [qrun, appended]
      rw [ih hm' _ h1, h2, List.append_assoc]
    | deliver m h =>
      have hne : m ≠ .null := by intro h'; exact hm h (by simp [h'])
      obtain ⟨h1, a, h2, h3⟩ := deliver_spec m (q := q) hq h
      simp only [qrun, appended]
      rw [List.append_assoc, ih hm' _ h1, h3 hne]
      conv => rhs; rw [h2]
      simp

example : (qrun ⟨[], 0⟩ [.append [[1, 2]], .deliver .hold 0, .append [[3]], .deliver .file 0]).1 = [1, 2, 3] := by
  decide

/-! ### C09, C57: PREMALLOCED -/

/-- C09.  With a caller buffer of `cap` bytes: at most `cap` bytes are written, the reported length is the
number written, written bytes followed by what stays pending are what was pending, whole data are copied
and the first datum left behind is one that does not fit any more. -/
theorem C09_premalloced (items : List Datum) (cap headLen : Nat) :
    let r := deliver (.premalloced (some cap)) ⟨items, items.length⟩ headLen
    r.1.bytes.length ≤ cap ∧ r.1.len = some r.1.bytes.length ∧
      r.1.bytes ++ r.2.items.flatten = items.flatten ∧ r.2.tail = r.2.items.length ∧
      (∃ a, items = a ++ r.2.items ∧ a.flatten = r.1.bytes) ∧
      ∀ d ∈ r.2.items.head?, cap < r.1.bytes.length + d.length := by
  obtain ⟨a, b, h1, h2, h3⟩ := copyFit_spec items cap
  have hfit : ∀ (ds : List Datum) (room : Nat), ∀ d ∈ (copyFit ds ds.length room).2.1.head?,
      room < (copyFit ds ds.length room).1.length + d.length := by
    intro ds
    induction ds with
    | nil => intro room d hd; simp [copyFit] at hd
    | cons e ds ih =>
      intro room d hd
      simp only [copyFit] at hd ⊢
      split at hd
      · rename_i hle
        rw [if_pos hle]
        simp only [List.length_cons, Nat.add_sub_cancel] at hd ⊢
        have := ih (room - e.length) d hd
        simp only [List.length_append]
        omega
      · rename_i hle
        rw [if_neg hle]
        simp at hd
        subst hd
        simp; omega
  simp only [deliver, h1]
  refine ⟨h3, trivial, ?_, trivial, ⟨a, h2, rfl⟩, ?_⟩
  · rw [h2]; simp
  · have := hfit items cap
    rw [h1] at this
    exact this

/-- C09, size query: reports the size of everything pending and changes nothing, provided the sentinel's
length field is 0 (it is for every last phase that is not a decoder, see `C09_sentinel`). -/
theorem C09_query (q : Queue) :
    (deliver (.premalloced none) q 0).1.bytes = [] ∧
      (deliver (.premalloced none) q 0).1.len = some q.items.flatten.length ∧
      (deliver (.premalloced none) q 0).2 = q := by
  simp [deliver]

/-- C09.  A size query (PREMALLOCED without buffer) on any initialised instance whose last phase is not a
decoder - after any earlier calls - reports exactly the number of bytes then pending and leaves them pending.
Callbacks are only assumed not to write the sentinels' length fields. -/
theorem C09_query_reports_pending (st : Nat → Static π) (hk : ∀ k, KeepsSentinels (st k))
    (ip : Nat → Nat → π → π) (ins : Ins π) (ht : (st ins.phasen).type ≠ .from_) (hpos : 1 ≤ ins.phasen)
    (as : List Arg) (a : Arg) (ha : a.mode = .premalloced none) (ds : List Delivery) (d : Delivery)
    (ins1 ins2 : Ins π) (hs : Session st (ins.init st ip) as ds ins1) (hc : Call st ins1 a d ins2) :
    d.bytes = [] ∧ d.len = some ins2.pending.flatten.length := by
  have hcall : ∀ (i1 i2 : Ins π) (a : Arg) (d : Delivery), Call st i1 a d i2 → i1.phasen = ins.phasen →
      (i1.ph ins.phasen).consumed = 0 → ∃ i, run st i (i1.start (a.input.map (fun x => (x, []))) a.flush)
          = ((run st i (i1.start (a.input.map (fun x => (x, []))) a.flush)).1, .done) ∧
        d = (deliver a.mode (((run st i (i1.start (a.input.map (fun x => (x, []))) a.flush)).1).ph ins.phasen).q 0).1 ∧
        i2 = ((run st i (i1.start (a.input.map (fun x => (x, []))) a.flush)).1).setLast
          (deliver a.mode (((run st i (i1.start (a.input.map (fun x => (x, []))) a.flush)).1).ph ins.phasen).q 0).2 ∧
        i2.phasen = ins.phasen ∧ (i2.ph ins.phasen).consumed = 0 := by
    intro i1 i2 a d hc hn h0
    obtain ⟨m, x, h1, h2, h3⟩ := hc
    have hst : TypedPC st (i1.start (a.input.map (fun x => (x, []))) a.flush) := by
      simp [TypedPC, Ins.start]
    have hcons := run_sentinel st hk ins.phasen ht m _ hst
    have hphn := (run_flush st m (i1.start (a.input.map (fun x => (x, []))) a.flush)).2
    have h0' : ((i1.start (a.input.map (fun x => (x, []))) a.flush).1.ph ins.phasen).consumed = 0 := by
      simp only [Ins.start, Ins.feed]
      cases a.input with
      | none => exact h0
      | some c =>
        have : ¬ ins.phasen = 0 := by omega
        simpa [this] using h0
    have hn' : (i1.start (a.input.map (fun x => (x, []))) a.flush).1.phasen = ins.phasen := by
      simp only [Ins.start, Ins.feed]
      cases a.input <;> exact hn
    rw [h1] at hcons hphn
    have e1 : x.phasen = ins.phasen := hphn.trans hn'
    have e2 : (x.ph ins.phasen).consumed = 0 := hcons.trans h0'
    refine ⟨m, by rw [h1], ?_, ?_, ?_, ?_⟩
    · rw [h1, h2, e1, e2]
    · rw [h1, h3, e1, e2]
    · rw [h3]; exact e1
    · rw [h3]; simp only [Ins.setLast, e1, if_true]; exact e2
  have hsess : ∀ (i1 i2 : Ins π) (as : List Arg) (ds : List Delivery), Session st i1 as ds i2 →
      i1.phasen = ins.phasen → (i1.ph ins.phasen).consumed = 0 →
      i2.phasen = ins.phasen ∧ (i2.ph ins.phasen).consumed = 0 := by
    intro i1 i2 as ds h
    induction h with
    | nil => exact fun a b => ⟨a, b⟩
    | cons hc _ ih =>
      intro a b
      obtain ⟨_, _, _, _, h4, h5⟩ := hcall _ _ _ _ hc a b
      exact ih h4 h5
  obtain ⟨e1, e2⟩ := hsess _ _ _ _ hs rfl (init_ph st ip ins (Nat.le_refl _)).2.1
  obtain ⟨m, _, h2, h3, h4, _⟩ := hcall _ _ _ _ hc e1 e2
  rw [ha] at h2 h3
  refine ⟨by rw [h2]; rfl, ?_⟩
  rw [h2]
  have hp : ins2.pending = (((run st m (ins1.start (a.input.map (fun x => (x, []))) a.flush)).1).ph ins.phasen).q.items := by
    unfold Ins.pending
    rw [h4, h3]
    have : ((run st m (ins1.start (a.input.map (fun x => (x, []))) a.flush)).1).phasen = ins.phasen := by
      rw [(run_flush st m _).2]
      simp only [Ins.start, Ins.feed]
      cases a.input <;> exact e1
    simp only [Ins.setLast, this, if_true]
    rfl
  rw [hp]
  simp [deliver]

/-- Table codecs leave the sentinels alone. -/
example : ∀ k, KeepsSentinels (mkAll exL k) := by
  intro k j l
  unfold mkAll mkStatic
  split <;> exact ⟨rfl, rfl, fun f hf => by simp [trieCodec] at hf⟩

/-- Repeated PREMALLOCED calls with the same buffer size; result: bytes delivered. -/
def drain (cap : Nat) (q : Queue) : Nat → List Nat × Queue
  | 0 => ([], q)
  | n + 1 =>
    let r := deliver (.premalloced (some cap)) q 0
    let x := drain cap r.2 n
    (r.1.bytes ++ x.1, x.2)

/-- C57.  If every pending datum fits the caller's buffer, as many calls as there are pending data drain
everything. -/
theorem C57_drain_partial (cap : Nat) (items : List Datum) (h : ∀ d ∈ items, d.length ≤ cap) (n : Nat)
    (hn : items.length ≤ n) :
    drain cap ⟨items, items.length⟩ n = (items.flatten, ⟨[], 0⟩) := by
  induction n generalizing items with
  | zero =>
    have : items = [] := List.length_eq_zero_iff.1 (by omega)
    subst this; rfl
  | succ n ih =>
    obtain ⟨h1, h2, h3, h4, ⟨a, h5, h6⟩, h7⟩ := C09_premalloced items cap 0
    simp only [drain]
    generalize hr : deliver (.premalloced (some cap)) ⟨items, items.length⟩ 0 = r at h1 h2 h3 h4 h5 h6 h7 ⊢
    have hq : r.2 = ⟨r.2.items, r.2.items.length⟩ := by rw [← h4]
    rw [hq, ih r.2.items (fun d hd => h d (by rw [h5]; simp [hd])) ?_]
    · simp only [Prod.mk.injEq, and_true]; exact h3
    · have hl := congrArg List.length h5
      simp only [List.length_append] at hl
      cases hri : r.2.items with
      | nil => simp
      | cons d ds =>
        rw [hri] at h7 h5 hl
        have h8 := h7 d (by simp)
        have h9 : d.length ≤ cap := h d (by rw [h5]; simp)
        have : a ≠ [] := by
          intro ha
          rw [ha] at h6
          simp only [List.flatten_nil] at h6
          rw [← h6] at h8
          simp at h8; omega
        have := List.length_pos_iff.2 this
        simp only [List.length_cons] at hl ⊢
        omega

example : ∀ d ∈ [[1, 2], [3]], d.length ≤ 2 := by decide

/-- C57 is false for small buffers: a datum longer than the buffer is never delivered, however often the
caller asks, and everything behind it is stuck (/repo/src/libbsdconv.c:1046). -/
theorem C57_drain_violated (n : Nat) : (drain 1 ⟨[[1, 2], [3]], 2⟩ n) = ([], ⟨[[1, 2], [3]], 2⟩) := by
  induction n with
  | zero => rfl
  | succ n ih =>
    simp only [drain]
    have : deliver (.premalloced (some 1)) ⟨[[1, 2], [3]], 2⟩ 0
        = ({ bytes := [], len := some 0 }, ⟨[[1, 2], [3]], 2⟩) := by decide
    rw [this, ih]; rfl

/-! ### C10, C11: PASS -/

/-- Buffers owned by a list of nodes. -/
def owned (ns : List Node) : List Nat := (ns.filter (fun n => n.own)).map (fun n => n.buf)

theorem passLoop_spec (ns : List Node) (src dst : Mem) (fresh : Nat) :
    let r := passLoop ns src dst fresh
    r.1.map (fun n => (n.buf, n.bytes, n.own)) = ns.map (fun n => (n.buf, n.bytes, n.own)) ∧
    r.2.1.freed = src.freed ∧ r.2.2.1.freed = dst.freed ∧ owned r.2.1.pool = owned src.pool := by
  induction ns generalizing src dst fresh with
  | nil => exact ⟨rfl, rfl, rfl, rfl⟩
  | cons n ns ih =>
    have hal : ∀ (m : Mem) f, (m.alloc f).2.2.freed = m.freed := by
      intro m f; unfold Mem.alloc; split <;> rfl
    obtain ⟨h1, h2, h3, h4⟩ := ih (src.datumFree { n with own := false }) (dst.alloc fresh).2.2 (dst.alloc fresh).2.1
    refine ⟨?_, h2, h3.trans (hal dst fresh), h4.trans rfl⟩
    simp only [passLoop, List.map_cons]
    exact congrArg _ h1

/-- C10 (transfer).  PASS hands the pending data over as the receiver's input chain, all of them, in order and
with their bytes. -/
theorem C10_pass_transfers (q : List Node) (src dst : Mem) (fresh : Nat) (hq : q ≠ []) :
    ∃ chain, (pass q src dst fresh).1 = some chain ∧ chain.map (fun n => n.bytes) = q.map (fun n => n.bytes) := by
  cases q with
  | nil => exact absurd rfl hq
  | cons n ns =>
    obtain ⟨h1, _⟩ := passLoop_spec ns (src.datumFree { n with own := false }) dst fresh
    refine ⟨_, rfl, ?_⟩
    have := congrArg (List.map (fun x => x.2.1)) h1
    simpa [List.map_map, Function.comp_def] using this

/-- C11.  After PASS every buffer owned by a pending datum is owned by exactly the corresponding datum of the
receiver; no buffer was freed; the nodes returned to the sender's pool own nothing. -/
theorem C11_pass_ownership (q : List Node) (src dst : Mem) (fresh : Nat) :
    let r := pass q src dst fresh
    owned (r.1.getD []) = owned q ∧ r.2.1.freed = src.freed ∧ r.2.2.1.freed = dst.freed ∧
      owned r.2.1.pool = owned src.pool := by
  cases q with
  | nil => exact ⟨rfl, rfl, rfl, rfl⟩
  | cons n ns =>
    obtain ⟨h1, h2, h3, h4⟩ := passLoop_spec ns (src.datumFree { n with own := false }) dst fresh
    refine ⟨?_, h2, h3, h4.trans rfl⟩
    have h5 : owned (passLoop ns (src.datumFree { n with own := false }) dst fresh).1 = owned ns := by
      have key : ∀ l : List Node, owned l
          = ((l.map (fun n => (n.buf, n.bytes, n.own))).filter (fun x => x.2.2)).map (fun x => x.1) := by
        intro l
        induction l with
        | nil => rfl
        | cons a l ih =>
          simp only [owned, List.map_cons, List.filter_cons] at ih ⊢
          split <;> simp [ih]
      rw [key, key, h1]
    show owned ({ n with id := 0 } :: (passLoop ns _ dst fresh).1) = owned (n :: ns)
    simp only [owned, List.filter_cons] at h5 ⊢
    split
    · simp only [List.map_cons, h5]
    · exact h5

/-- Addresses of nodes. -/
def ids (ns : List Node) : List Nat := ns.map (fun n => n.id)

theorem passLoop_nodes (ns : List Node) (src dst : Mem) (fresh : Nat) (hn : (ids dst.pool).Nodup)
    (hf : ∀ x ∈ ids dst.pool, x < fresh) :
    let r := passLoop ns src dst fresh
    (ids r.1 ++ ids r.2.2.1.pool).Nodup ∧ (∀ x ∈ ids r.1, x ∈ ids dst.pool ∨ fresh ≤ x) ∧
      (∀ x ∈ ids r.2.2.1.pool, x ∈ ids dst.pool) ∧ (∀ x ∈ ids r.1, x < r.2.2.2) ∧ fresh ≤ r.2.2.2 ∧
      ids r.2.1.pool = (ids ns).reverse ++ ids src.pool := by
  induction ns generalizing src dst fresh with
  | nil => exact ⟨by simpa [passLoop, ids] using hn, by simp [passLoop, ids], fun x hx => hx, by simp [passLoop, ids],
      Nat.le_refl _, by simp [passLoop, ids]⟩
  | cons n ns ih =>
    simp only [passLoop]
    cases hp : dst.pool with
    | nil =>
      have hal : dst.alloc fresh = (fresh, fresh + 1, dst) := by unfold Mem.alloc; rw [hp]
      rw [hal]
      simp only
      obtain ⟨a1, a2, a3, a4, a5, a6⟩ := ih (src.datumFree { n with own := false }) dst (fresh + 1) hn
        (fun x hx => by have := hf x hx; omega)
      rw [hp] at a2 a3
      refine ⟨?_, ?_, ?_, ?_, by omega, ?_⟩
      · simp only [ids, List.map_cons, List.cons_append, List.nodup_cons]
        refine ⟨?_, a1⟩
        intro h
        rcases List.mem_append.1 h with h | h
        · rcases a2 _ h with h | h
          · simp [ids] at h
          · omega
        · have := a3 _ h; simp [ids] at this
      · intro x hx
        simp only [ids, List.map_cons, List.mem_cons] at hx
        rcases hx with rfl | hx
        · exact .inr (Nat.le_refl _)
        · rcases a2 x hx with h | h
          · exact .inl h
          · exact .inr (by omega)
      · exact a3
      · intro x hx
        simp only [ids, List.map_cons, List.mem_cons] at hx
        rcases hx with rfl | hx
        · omega
        · exact a4 x hx
      · rw [a6]; simp [ids, Mem.datumFree]
    | cons m p =>
      have hal : dst.alloc fresh = (m.id, fresh, { dst with pool := p }) := by unfold Mem.alloc; rw [hp]
      rw [hal]
      rw [hp] at hn hf
      simp only [ids, List.map_cons, List.nodup_cons] at hn
      simp only
      obtain ⟨a1, a2, a3, a4, a5, a6⟩ := ih (src.datumFree { n with own := false }) { dst with pool := p } fresh hn.2
        (fun x hx => hf x (by simp only [ids, List.map_cons, List.mem_cons]; exact .inr hx))
      refine ⟨?_, ?_, ?_, ?_, a5, ?_⟩
      · simp only [ids, List.map_cons, List.cons_append, List.nodup_cons]
        refine ⟨?_, a1⟩
        intro h
        rcases List.mem_append.1 h with h | h
        · rcases a2 _ h with h | h
          · exact hn.1 h
          · have := hf m.id (by simp [ids]); omega
        · exact hn.1 (a3 _ h)
      · intro x hx
        simp only [ids, List.map_cons, List.mem_cons] at hx ⊢
        rcases hx with rfl | hx
        · exact .inl (.inl rfl)
        · rcases a2 x hx with h | h
          · exact .inl (.inr h)
          · exact .inr h
      · intro x hx
        simp only [ids, List.map_cons, List.mem_cons]
        exact .inr (a3 x hx)
      · intro x hx
        simp only [ids, List.map_cons, List.mem_cons] at hx
        rcases hx with rfl | hx
        · have := hf m.id (by simp [ids]); omega
        · exact a4 x hx
      · rw [a6]; simp [ids, Mem.datumFree]

/-- C11 (nodes).  The data handed over sit in distinct nodes, taken from the receiver's pool or newly allocated and
not left in that pool; the sender's nodes all return to the sender's pool, once each. -/
theorem C11_pass_nodes (n : Node) (ns : List Node) (src dst : Mem) (fresh : Nat) (hn : (ids dst.pool).Nodup)
    (hf : ∀ x ∈ ids dst.pool, x < fresh) :
    ∃ first rest, (pass (n :: ns) src dst fresh).1 = some (first :: rest) ∧
      (ids rest ++ ids (pass (n :: ns) src dst fresh).2.2.1.pool).Nodup ∧
      (∀ x ∈ ids rest, x ∈ ids dst.pool ∨ fresh ≤ x) ∧
      (ids (pass (n :: ns) src dst fresh).2.1.pool).Perm (ids (n :: ns) ++ ids src.pool) := by
  obtain ⟨a1, a2, a3, a4, a5, a6⟩ := passLoop_nodes ns (src.datumFree { n with own := false }) dst fresh hn hf
  refine ⟨_, _, rfl, a1, a2, ?_⟩
  simp only [pass]
  rw [a6]
  simp only [ids, Mem.datumFree, List.map_cons, List.cons_append]
  exact (List.perm_middle.trans ((List.reverse_perm _).append_right _ |>.cons _))

example : (pass [⟨10, 1, [65], true⟩, ⟨11, 2, [66], false⟩, ⟨12, 3, [67], true⟩] {} {} 50).1
    = some [⟨0, 1, [65], true⟩, ⟨50, 2, [66], false⟩, ⟨51, 3, [67], true⟩] := by decide

/-- C10 is false once more input follows: a decoder fed the chain "a","b" (as PASS does) in one call and then
"b" in a second call delivers only "ab"; the second "b" is lost (`data_tail` stays at the first node of the
chain, /repo/src/libbsdconv.c:606-613). -/
theorem C10_chain_violated :
    let st := mkAll [exDecode]
    let i0 := (mkIns [exDecode]).init st (fun _ _ x => x)
    let c1 := run st 40 (i0.start (some ([97], [[98]])) false)
    let c2 := run st 40 (c1.1.start (some ([98], [])) true)
    c1.2 = .done ∧ c2.2 = .done ∧ c2.1.pending = [[1, 97], [1, 98]] ∧
      (pipeline [exDecode] [[97], [98], [98]]) = [[1, 97], [1, 98], [1, 98]] := by
  decide +kernel

/-! ### C55: the node pool -/

/-- No address occurs twice among the pool and all lists, and all are below `fresh`. -/
def Addr.Sound (a : Addr) : Prop :=
  (a.pool ++ a.lists.flatten).Nodup ∧ ∀ x ∈ a.pool ++ a.lists.flatten, x < a.fresh

theorem flatten_modify_perm (ls : List (List Nat)) (j x : Nat) (hj : j < ls.length) :
    (ls.modify j (· ++ [x])).flatten.Perm (x :: ls.flatten) := by
  induction ls generalizing j with
  | nil => simp at hj
  | cons l ls ih =>
    cases j with
    | zero =>
      simp only [List.modify_zero_cons, List.flatten_cons]
      have : (l ++ [x]).Perm (x :: l) := by
        have := List.perm_append_comm (l₁ := l) (l₂ := [x])
        exact this
      exact (this.append_right _)
    | succ j =>
      simp only [List.modify_succ_cons, List.flatten_cons]
      have h := ih j (by simpa using hj)
      exact (h.append_left l).trans List.perm_middle

theorem flatten_set_perm (ls : List (List Nat)) (j x : Nat) (r : List Nat) (h : ls[j]? = some (x :: r)) :
    ls.flatten.Perm (x :: (ls.set j r).flatten) := by
  induction ls generalizing j with
  | nil => simp at h
  | cons l ls ih =>
    cases j with
    | zero => simp at h; subst h; simp
    | succ j =>
      simp only [List.set_cons_succ, List.flatten_cons]
      have h' := ih j (by simpa using h)
      exact (h'.append_left l).trans List.perm_middle

/-- C55.  Over any history of node operations no node is ever in two lists, or in a list and the pool. -/
theorem C55_pool (a : Addr) (h : Addr.Sound a) (ops : List AOp) : Addr.Sound (ops.foldl Addr.step a) := by
  have perm : ∀ (a b : Addr), (a.pool ++ a.lists.flatten).Perm (b.pool ++ b.lists.flatten) → a.fresh = b.fresh →
      Addr.Sound a → Addr.Sound b := by
    intro a b hp hf ⟨h1, h2⟩
    exact ⟨hp.nodup_iff.1 h1, fun x hx => hf ▸ h2 x (hp.mem_iff.2 hx)⟩
  have one : ∀ (a : Addr) op, Addr.Sound a → Addr.Sound (a.step op) := by
    intro a op h
    cases op with
    | alloc j =>
      simp only [Addr.step]
      split
      · rename_i hj
        split
        · rename_i x p hp
          refine perm a _ ?_ rfl h
          simp only [hp]
          exact (List.perm_middle.symm.trans
            ((flatten_modify_perm a.lists j x hj).symm.append_left p))
        · rename_i hp
          obtain ⟨h1, h2⟩ := h
          rw [hp] at h1 h2
          simp only [List.nil_append] at h1 h2
          have hperm := flatten_modify_perm a.lists j a.fresh hj
          refine ⟨?_, ?_⟩
          · simp only [hp, List.nil_append]
            rw [hperm.nodup_iff, List.nodup_cons]
            exact ⟨fun hm => by have := h2 _ hm; omega, h1⟩
          · intro x hx
            simp only [hp, List.nil_append] at hx
            rw [hperm.mem_iff] at hx
            rcases List.mem_cons.1 hx with rfl | hx
            · simp
            · have := h2 x hx; simp only; omega
      · exact h
    | release j =>
      simp only [Addr.step]
      split
      · rename_i x r hl
        refine perm a _ ?_ rfl h
        exact ((flatten_set_perm _ j x r hl).append_left _).trans List.perm_middle
      · exact h
    | move j k =>
      simp only [Addr.step]
      split
      · rename_i hk
        split
        · rename_i x r hl
          refine perm a _ ?_ rfl h
          refine List.Perm.append_left _ ?_
          exact (flatten_set_perm _ j x r hl).trans (flatten_modify_perm _ k x (by simpa using hk)).symm
        · exact h
      · exact h
  induction ops generalizing a with
  | nil => exact h
  | cons op ops ih => exact ih _ (one a op h)

/-- A new instance: empty pool and lists. -/
example : Addr.Sound ⟨[], [[], [], []], 0⟩ := by
  refine ⟨by decide, by intro x hx; simp at hx⟩

end Verif.Props
