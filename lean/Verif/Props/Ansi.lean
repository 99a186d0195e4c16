import Verif.Spec.Ansi
import Verif.Model.Ansi
import Verif.Props.Utf8Errors
import Verif.Props.Inter
import Verif.Props.MapTable
/-
C83: terminal control sequences in a text.
-/
namespace Verif.Props
open Verif.Spec
open Verif.Engine hiding Datum step

variable {π : Type}

/-! ### A codec before others -/

/-- The codec `R` and then the codecs `rs`. -/
def frontOf (R : Reader π) (rs : Nat → Reader π) (j : Nat) : Reader π := if j = 0 then R else rs (j - 1)

/-- Private data of the codecs after the first. -/
def privTail (q : Nat → π) (j : Nat) : π := q (j + 1)

theorem frontOf_succ (R : Reader π) (rs : Nat → Reader π) (j : Nat) : frontOf R rs (j + 1) = rs j := by simp [frontOf]

theorem privTail_set (q : Nat → π) (j : Nat) (t : π) : privTail (setPriv q (j + 1) t) = setPriv (privTail q) j t := by
  funext i
  simp only [privTail, setPriv, Nat.add_right_cancel_iff]

theorem resume_tail {R : Reader π} {rs : Nat → Reader π} : ∀ (k j : Nat) (q : Nat → π) (u s : List Nat),
    privTail (resume (frontOf R rs) k (j + 1) q u s).1 = (resume rs k j (privTail q) u s).1 ∧
    (resume (frontOf R rs) k (j + 1) q u s).1 0 = q 0 ∧
    (resume (frontOf R rs) k (j + 1) q u s).2 = (resume rs k j (privTail q) u s).2
  | 0, j, q, u, s => by
    rw [resume_eq, resume_eq rs, frontOf_succ, show q (j + 1) = privTail q j from rfl]
    cases (rs j).read (privTail q j) u s <;> exact ⟨privTail_set _ _ _, rfl, rfl⟩
  | k + 1, j, q, u, s => by
    rw [resume_eq, resume_eq rs, frontOf_succ, show q (j + 1) = privTail q j from rfl]
    have ih : ∀ t w, _ := fun t w => resume_tail (R := R) (rs := rs) k (j + 1) (setPriv q (j + 1) t) [] w
    cases (rs j).read (privTail q j) u s with
    | done rest t out => exact ⟨privTail_set _ _ _, rfl, rfl⟩
    | dead t => simp only [retry]; rw [← privTail_set]; exact ih t _
    | ended t => simp only [retry]; rw [← privTail_set]; exact ih t _

/-- Where the first codec refuses. -/
theorem resume_front {R : Reader π} {rs : Nat → Reader π} {n : Nat} {q : Nat → π} {s : List Nat} {t : π} (h : R.read (q 0) [] s = .dead t) :
    ∃ q', resume (frontOf R rs) (n + 1) 0 q [] s = (q', (resume rs n 0 (privTail q) [] s).2) ∧ q' 0 = t ∧
      privTail q' = (resume rs n 0 (privTail q) [] s).1 := by
  obtain ⟨h1, h2, h3⟩ := resume_tail (R := R) (rs := rs) n 0 (setPriv q 0 t) [] s
  have e : privTail (setPriv q 0 t) = privTail q := by funext i; simp [privTail, setPriv]
  rw [e] at h1 h3
  refine ⟨(resume (frontOf R rs) n 1 (setPriv q 0 t) [] s).1, ?_, ?_, h1⟩
  · rw [resume_eq]
    have : frontOf R rs 0 = R := rfl
    rw [this, h]
    simp only [retry, List.nil_append]
    rw [← h3]
  · rw [h2]; simp [setPriv]

/-! ### The callback -/

theorem ends_iff (d : Nat) : Ansi.ends d = true ↔ CtrlEnd d := by
  simp [Ansi.ends, CtrlEnd, or_assoc]

/-- Reading a sequence from inside. -/
theorem ansi_body {e : Lens π Ansi.Priv} {f : Nat} (hf : CtrlEnd f) (rest : List Nat) : ∀ (ps : List Nat) (buf u : List Nat) (x : π),
    e.get x = ⟨buf, true⟩ → 2 ≤ buf.length → (∀ p ∈ ps, p < 256 ∧ ¬CtrlEnd p) → buf.length + ps.length + 1 ≤ 30 →
    ∃ x', e.get x' = .clear ∧ ((Ansi.machine.on e).reader).read x u (ps ++ f :: rest) = .done rest x' [buf ++ ps ++ [f]]
  | [], buf, u, x, h0, h1, _, h3 => by
    refine ⟨e.put ⟨[], false⟩ x, e.get_put _ _, ?_⟩
    rw [List.nil_append, Reader.read]
    have : (Ansi.machine.on e).reader.step x u f = .done (e.put ⟨[], false⟩ x) [buf ++ [f]] := by
      simp [Machine.reader, Machine.on, Ansi.machine, Ansi.step, h0, (ends_iff f).2 hf]
    rw [this]
    simp
  | p :: ps, buf, u, x, h0, h1, h2, h3 => by
    simp only [List.length_cons] at h3
    obtain ⟨x', k1, k2⟩ := ansi_body hf rest ps (buf ++ [p]) (u ++ [p]) (e.put ⟨buf ++ [p], true⟩ x) (e.get_put _ _) (by simp; omega)
      (fun q hq => h2 q (by simp [hq])) (by simp; omega)
    refine ⟨x', k1, ?_⟩
    rw [List.cons_append, Reader.read]
    have hne : Ansi.ends p = false := by
      cases h : Ansi.ends p with
      | false => rfl
      | true => exact absurd ((ends_iff p).1 h) (h2 p (by simp)).2
    have : (Ansi.machine.on e).reader.step x u p = .more (e.put ⟨buf ++ [p], true⟩ x) := by
      have a1 : ¬(buf.length = 29) := by omega
      have a2 : ¬(buf.length = 1) := by omega
      simp [Machine.reader, Machine.on, Ansi.machine, Ansi.step, h0, hne, a1, a2]
    rw [this]
    simp only [k2]
    simp

/-- A control sequence is read as one datum. -/
theorem ansi_control {e : Lens π Ansi.Priv} {s : List Nat} (hs : ControlSeq s) (rest : List Nat) (x : π) (h0 : e.get x = .clear) :
    ∃ x', e.get x' = .clear ∧ ((Ansi.machine.on e).reader).read x [] (s ++ rest) = .done rest x' [s] := by
  have s1 : ∀ w, (Ansi.machine.on e).reader.step x w 0x1B = .more (e.put ⟨[0x1B], true⟩ x) := by
    intro w
    simp [Machine.reader, Machine.on, Ansi.machine, Ansi.step, h0, Ansi.Priv.clear]
  rcases hs with ⟨ps, f, rfl, h1, h2, h3⟩ | ⟨c, rfl, h1, h2⟩
  · simp only [List.length_cons, List.length_append, List.length_nil] at h3
    obtain ⟨x', k1, k2⟩ := ansi_body (e := e) h2 rest ps [0x1B, 0x5B] [0x1B, 0x5B] (e.put ⟨[0x1B, 0x5B], true⟩ (e.put ⟨[0x1B], true⟩ x)) (e.get_put _ _)
      (by simp) h1 (by simp; omega)
    refine ⟨x', k1, ?_⟩
    have s2 : (Ansi.machine.on e).reader.step (e.put ⟨[0x1B], true⟩ x) [0x1B] 0x5B = .more (e.put ⟨[0x1B, 0x5B], true⟩ (e.put ⟨[0x1B], true⟩ x)) := by
      simp [Machine.reader, Machine.on, Ansi.machine, Ansi.step, e.get_put, Ansi.ends]
    rw [List.cons_append, Reader.read, s1]
    simp only [List.cons_append, List.append_assoc, List.nil_append]
    rw [Reader.read, s2]
    simp only [List.cons_append, List.nil_append]
    rw [k2]
    simp
  · refine ⟨e.put ⟨[], false⟩ (e.put ⟨[0x1B], true⟩ x), e.get_put _ _, ?_⟩
    have s2 : (Ansi.machine.on e).reader.step (e.put ⟨[0x1B], true⟩ x) [0x1B] c = .done (e.put ⟨[], false⟩ (e.put ⟨[0x1B], true⟩ x)) [[0x1B, c]] := by
      simp [Machine.reader, Machine.on, Ansi.machine, Ansi.step, e.get_put, h2]
    rw [List.cons_append, Reader.read, s1]
    simp only [List.cons_append, List.nil_append]
    rw [Reader.read, s2]

/-- It refuses what does not begin with ESC. -/
theorem ansi_other {e : Lens π Ansi.Priv} {b : Nat} (hb : b ≠ 0x1B) (rest : List Nat) (x : π) (h0 : e.get x = .clear) :
    ((Ansi.machine.on e).reader).read x [] (b :: rest) = .dead x := by
  have : (Ansi.machine.on e).reader.step x [] b = .dead x := by
    simp only [Machine.reader, Machine.on, Ansi.machine, Ansi.step, h0, Ansi.Priv.clear, Bool.false_eq_true, if_false, if_neg hb]
    have := e.put_get x
    rw [h0] at this
    rw [Ansi.Priv.clear] at this
    rw [this]
  rw [Reader.read, this]

/-- The buffer (of 32 bytes) does not overflow. -/
def AnsiInv (t : Ansi.Priv) : Prop := IsBytes t.buf ∧ t.buf.length < 30 ∧ (t.f = false → t.buf = [])

theorem C83_buffer : Ansi.machine.Plain AnsiInv := by
  intro t d ⟨h1, h2, h3⟩ hd
  simp only [Ansi.machine, Ansi.step]
  have hb : IsBytes (t.buf ++ [d]) := by
    intro y hy
    rcases List.mem_append.1 hy with hy | hy
    · exact h1 y hy
    · simp at hy; omega
  by_cases hf : t.f = true
  · rw [if_pos hf]
    split
    · exact ⟨⟨by intro y hy; simp at hy, by simp, fun _ => rfl⟩, by intro y hy; simp at hy; rw [hy]; exact hb⟩
    · rename_i hc
      simp only [Bool.or_eq_true, not_or, beq_iff_eq, List.length_append, List.length_cons, List.length_nil] at hc
      exact ⟨⟨hb, by simp; omega, by simp⟩, rfl⟩
  · rw [if_neg hf]
    simp only [Bool.not_eq_true] at hf
    split
    · exact ⟨⟨hb, by rw [h3 hf]; simp, by simp⟩, rfl⟩
    · exact ⟨⟨h1, h2, h3⟩, rfl⟩

/-! ### The decoding phase -/

/-- The phase is `ANSI-CONTROL,ASCII,_UTF-8`, as the initialisation leaves it. -/
structure AnsiUtf8 (s : Static π) (p : Nat → π) (ea : Lens π Ansi.Priv) (e : Lens π Utf8.Priv) : Prop where
  isFrom : s.type = .from_
  three : s.codecn = 2
  ansi : ∃ fl, s.codecs 0 = anyByte (Ansi.machine.on ea).conv fl
  table : Represents (s.codecs 1) Ascii.fromRules
  codec : ∃ fl, s.codecs 2 = anyByte ((Utf8.machine {}).on e).conv fl
  clear : ea.get (p 0) = .clear
  fresh : e.get (p 2) = .zero

/-- The pieces of a text: control sequences and characters other than ESC. -/
def TermText (is : List TermItem) : Prop := ∀ i ∈ is, match i with | .control s => ControlSeq s | .char cp => Utf8Char cp ∧ cp ≠ 0x1B

/-- Its readers. -/
def ansiReaders (ea : Lens π Ansi.Priv) (e : Lens π Utf8.Priv) : Nat → Reader π :=
  frontOf (Ansi.machine.on ea).reader (tableThen Ascii.fromRules e (Utf8.machine {}))

theorem utf8_head {cp : Nat} (h1 : cp < 0x200000) (h : cp ≠ 0x1B) : ∃ b t, Spec.utf8 cp = b :: t ∧ b ≠ 0x1B := by
  unfold Spec.utf8 utf8Form
  (repeat' split) <;> exact ⟨_, _, rfl, by omega⟩

theorem control_ne {s : List Nat} (h : ControlSeq s) : s ≠ [] := by
  rcases h with ⟨ps, f, rfl, _⟩ | ⟨c, rfl, _⟩ <;> simp

theorem control_bytes {s : List Nat} (h : ControlSeq s) : IsBytes s := by
  rcases h with ⟨ps, f, rfl, h1, h2, _⟩ | ⟨c, rfl, h1, _⟩ <;> intro y hy
  · simp only [List.mem_cons, List.mem_append, List.not_mem_nil, or_false] at hy
    unfold CtrlEnd at h2
    rcases hy with rfl | rfl | hy | rfl
    · decide
    · decide
    · exact (h1 y hy).1
    · omega
  · simp only [List.mem_cons, List.not_mem_nil, or_false] at hy
    omega

theorem term_bytes {is : List TermItem} (h : TermText is) : IsBytes (is.flatMap TermItem.bytes) := by
  intro y hy
  obtain ⟨i, hi, hy⟩ := List.mem_flatMap.1 hy
  have := h i hi
  cases i with
  | control s => exact control_bytes this y hy
  | char cp => exact (utf8_bytes this.1.2.1).1 y hy

theorem ansi_decode {ea : Lens π Ansi.Priv} {e : Lens π Utf8.Priv} : ∀ (is : List TermItem), TermText is → ∀ q : Nat → π,
    ea.get (q 0) = .clear → e.get (q 2) = .zero →
    (decode (ansiReaders ea e) 2 q (is.flatMap TermItem.bytes)).out = is.map TermItem.datum ∧
    (decode (ansiReaders ea e) 2 q (is.flatMap TermItem.bytes)).errors = 0
  | [], _, q, _, _ => by simp [decode_nil]
  | .control s :: is, h, q, h0, h1 => by
    have hs : ControlSeq s := h (.control s) (by simp)
    obtain ⟨x', k1, k2⟩ := ansi_control (e := ea) hs (is.flatMap TermItem.bytes) (q 0) h0
    have hr : resume (ansiReaders ea e) 2 0 q [] (s ++ is.flatMap TermItem.bytes) = (setPriv q 0 x', some (is.flatMap TermItem.bytes, [s])) := by
      rw [resume_eq]
      have : ansiReaders ea e 0 = (Ansi.machine.on ea).reader := rfl
      rw [this, k2]
    obtain ⟨i1, i2⟩ := ansi_decode (ea := ea) (e := e) is (fun i hi => h i (by simp [hi])) (setPriv q 0 x') (by simp [setPriv, k1]) (by simp [setPriv, h1])
    rw [List.flatMap_cons, show TermItem.bytes (.control s) = s from rfl, (decode_some (by simp [control_ne hs]) hr).1]
    simp only [i1, i2, List.map_cons, TermItem.datum, List.cons_append, List.nil_append, and_self]
  | .char cp :: is, h, q, h0, h1 => by
    obtain ⟨hv, hne⟩ : Utf8Char cp ∧ cp ≠ 0x1B := h (.char cp) (by simp)
    obtain ⟨b, t, hbt, hb⟩ := utf8_head hv.2.1 hne
    have hbs : IsBytes (Spec.utf8 cp ++ is.flatMap TermItem.bytes) := by
      have := term_bytes h
      rwa [List.flatMap_cons] at this
    have hd := ansi_other (e := ea) hb (t ++ is.flatMap TermItem.bytes) (q 0) h0
    rw [← List.cons_append, ← hbt] at hd
    obtain ⟨q', k1, k2, k3⟩ := resume_front (rs := tableThen Ascii.fromRules e (Utf8.machine {})) (n := 1) (q := q) hd
    obtain ⟨p', m1, m2⟩ := utf8_resume_char (e := e) (p := privTail q) h1 hv hbs
    rw [m2] at k1 k3
    obtain ⟨i1, i2⟩ := ansi_decode (ea := ea) (e := e) is (fun i hi => h i (by simp [hi])) q' (by rw [k2]; exact h0) (by
      have : q' 2 = p' 1 := congrFun k3 1
      rw [this]; exact m1)
    rw [List.flatMap_cons, show TermItem.bytes (.char cp) = Spec.utf8 cp from rfl, (decode_some (by simp [hbt]) (show resume (ansiReaders ea e) 2 0 q [] _ = _ from k1)).1]
    simp only [i1, i2, List.map_cons, TermItem.datum, List.cons_append, List.nil_append, and_self]

theorem ansi_real {s : Static π} {p : Nat → π} {ea : Lens π Ansi.Priv} {e : Lens π Utf8.Priv} (h : AnsiUtf8 s p ea e) :
    Realises s (fun q => q = p) (decoderProc (ansiReaders ea e) 2 p) := by
  have hR : Readers s (ansiReaders ea e) (fun j x => (j = 0 → AnsiInv (ea.get x)) ∧ (j = 2 → Utf8Inv (e.get x)))
      (fun j => if j = 1 then AtTable (s.codecs 1) else AtAny) := by
    refine ⟨h.isFrom, ?_⟩
    intro j hj
    rw [h.three] at hj
    obtain rfl | rfl | rfl : j = 0 ∨ j = 1 ∨ j = 2 := by omega
    · obtain ⟨fl, hc⟩ := h.ansi
      have := machine_member (C83_buffer.on ea) hc
      simp only [true_implies, reduceCtorEq, show ¬(0 = 2) by decide, false_implies, and_true]
      exact this
    · exact table_reader h.table fromAscii_prefixFree fromAscii_bytes _
    · obtain ⟨fl, hc⟩ := h.codec
      have := machine_member (utf8_plain.on e) hc
      simp only [true_implies, show ¬(2 = 0) by decide, false_implies, true_and]
      exact this
  have := reader_realises hR (p := p) (fun j => ⟨by rintro rfl; rw [h.clear]; exact ⟨by intro y hy; simp [Ansi.Priv.clear] at hy, by simp [Ansi.Priv.clear], fun _ => rfl⟩,
    by rintro rfl; rw [h.fresh]; exact utf8Inv_zero⟩)
  rw [h.three] at this
  exact this

/-- C83.  UTF-8 with control sequences, cut anywhere (inside sequences too), read with `ANSI-CONTROL,ASCII,_UTF-8`, whatever phases follow: they get each
control sequence as one datum, byte for byte, and each character, in order; no error is counted. -/
theorem C83_session {st : Nat → Static π} {ip : Nat → Nat → π → π} {ins : Ins π} {ea : Lens π Ansi.Priv} {e : Lens π Utf8.Priv} {mid : List (Proc π)}
    (hn : ins.phasen = mid.length + 1) (h : AnsiUtf8 (st 1) (initPriv st ip ins 1) ea e)
    (hm : ∀ k (h : k < mid.length), Realises (st (k + 2)) (fun p => p = initPriv st ip ins (k + 2)) mid[k]) (hmd : ∀ P ∈ mid, P.dec = false)
    (is : List TermItem) (his : TermText is) (hok : OkRest mid (is.map TermItem.datum))
    (as : List Arg) (l : Arg) (h1 : ∀ x ∈ as, x.flush = false) (h2 : l.flush = true) (h3 : ∀ x ∈ as ++ [l], x.mode ≠ .null)
    (h4 : ((as ++ [l]).filterMap (fun x => x.input)).flatten = is.flatMap TermItem.bytes) :
    ∃ ds ins', Session st (ins.init st ip) (as ++ [l]) ds ins' ∧
      (ds.map (fun d => d.bytes)).flatten ++ ins'.pending.flatten = (runProcs mid (is.map TermItem.datum)).flatten ∧
      ins'.ierr = ins.ierr + runIn mid (is.map TermItem.datum) ∧ ins'.oerr = ins.oerr + runOut mid (is.map TermItem.datum) := by
  obtain ⟨d1, d2⟩ := ansi_decode (ea := ea) (e := e) is his (initPriv st ip ins 1) h.clear h.fresh
  have hch : Converts st ip ins (decoderProc (ansiReaders ea e) 2 (initPriv st ip ins 1) :: mid) := by
    refine chain_converts ⟨by simp, ?_, ?_⟩ (by simp [hn])
    · intro k hk
      cases k with
      | zero => exact ansi_real h
      | succ k =>
        simp only [List.getElem_cons_succ]
        exact hm k (by simpa using hk)
    · intro k hk _
      simp only [List.getElem_cons_succ]
      exact hmd _ (List.getElem_mem _)
  have hb : ∀ x ∈ as ++ [l], ∀ c ∈ x.input, IsBytes c := by
    intro x hx c hc y hy
    refine term_bytes his y ?_
    rw [← h4]
    exact List.mem_flatten.2 ⟨c, List.mem_filterMap.2 ⟨x, hx, hc⟩, hy⟩
  have f1 : (decoderProc (ansiReaders ea e) 2 (initPriv st ip ins 1)).out ((as ++ [l]).filterMap (fun x => x.input)) = is.map TermItem.datum := by
    simp only [decoderProc, h4, d1]
  have f2 : (decoderProc (ansiReaders ea e) 2 (initPriv st ip ins 1)).inErrors ((as ++ [l]).filterMap (fun x => x.input)) = 0 := by
    simp only [decoderProc, h4, d2]
  obtain ⟨ds, ins', k1, k2, _, k4, k5, _⟩ := hch as l h1 h2 h3 hb _ rfl ⟨.inl f2, trivial, by rw [f1]; exact hok⟩
  refine ⟨ds, ins', k1, ?_, ?_, ?_⟩
  · rw [k2]
    simp only [runProcs, f1]
  · rw [k4]
    simp only [runIn, f1, f2, Nat.zero_add]
  · rw [k5]
    simp only [runOut, f1]
    simp [decoderProc]

/-! ### Writing -/

/-- The filter ANSI: /repo/modules/filter/ANSI.c with /repo/modules/filter/type.c. -/
def isAnsi (d : Datum) : Bool := d.head? == some 0x1B

/-- The phase is `_UTF-8,ASCII,ANSI-CONTROL`, where to/ANSI-CONTROL is the alias PASS#MARK&FOR=ANSI. -/
structure ToUtf8Ansi (s : Static π) (e : Lens π Unit) : Prop where
  isTo : s.type = .to_
  three : s.codecn = 2
  utf8 : s.codecs 0 = Utf8.toCodec
  ascii : Represents (s.codecs 1) (symbolRules Ascii.toRules)
  pass : s.codecs 2 = Inter.plain e (Inter.toPass (some isAnsi))

theorem toPass_conv (e : Lens π Unit) (f : Inter.Filter) :
    ((Inter.toPass f).on e).conv = encodeConv (fun d => if Inter.admits f d then some [d] else none) := by
  rw [← encHandler_conv]
  congr 1
  simp only [Handler.on, encHandler, Inter.toPass]
  have hput : ∀ x : π, e.put () x = x := fun x => e.put_get x
  congr 1
  · funext t d
    cases Inter.admits f d <;> simp [hput]
  · funext t
    simp [hput]

/-- What the phase makes of a datum. -/
theorem toUtf8Ansi_real {s : Static π} {e : Lens π Unit} (h : ToUtf8Ansi s e) (p : Nat → π) :
    ∃ E : Proc π, Realises s (fun q => q = p) E ∧ E.dec = false ∧ ∀ is : List TermItem, (∀ s, .control s ∈ is → ControlSeq s) →
      (∀ cp, .char cp ∈ is → Scalar cp) → E.out (is.map TermItem.datum) = is.map TermItem.bytes ∧ E.inErrors (is.map TermItem.datum) = 0 ∧
        E.outErrors (is.map TermItem.datum) = 0 ∧ E.ok (is.map TermItem.datum) := by
  have hp : EncoderPhase s .to_ 2 (fun j => if j = 0 then uniEnc Utf8.encode else if j = 1 then (fun d => lookup Ascii.toRules [d]) else
      fun d => if Inter.admits (some isAnsi) d then some [d] else none) := by
    refine ⟨h.isTo, by simp, h.three, ?_⟩
    intro j hj
    obtain rfl | rfl | rfl : j = 0 ∨ j = 1 ∨ j = 2 := by omega
    · exact .call _ h.utf8 utf8Encode_bytes
    · exact .table _ h.ascii toAscii_good.1 toAscii_good.2
    · refine .any (fun d => if Inter.admits (some isAnsi) d then some [d] else none) ?_ ?_
      · rw [h.pass, Inter.plain, toPass_conv]
      · intro d out hd ho x hx
        split at ho
        · simp only [Option.some.injEq] at ho
          subst ho
          simp at hx
          rw [hx]; exact hd
        · simp at ho
  refine ⟨_, encoder_real hp p, rfl, ?_⟩
  intro is his hsc
  have hne : ∀ i ∈ is, i.datum ≠ [] ∧ i.datum ≠ [1] := by
    intro i hi
    cases i with
    | control s =>
      rcases his s hi with ⟨ps, f, rfl, _⟩ | ⟨c, rfl, _⟩ <;> simp [TermItem.datum]
    | char cp => simp [TermItem.datum, uniDatum, beBytes_ne]
  have e0 : nonEmpty (is.map TermItem.datum) = is.map TermItem.datum := by
    unfold nonEmpty
    rw [List.filter_eq_self]
    intro d hd
    obtain ⟨i, hi, rfl⟩ := List.mem_map.1 hd
    simpa using (hne i hi).1
  have e1 : ∀ i ∈ is, firstOf (fun j => if j = 0 then uniEnc Utf8.encode else if j = 1 then (fun d => lookup Ascii.toRules [d]) else
      fun d => if Inter.admits (some isAnsi) d then some [d] else none) i.datum 0 3 = some [i.bytes] := by
    intro i hi
    cases i with
    | control s =>
      have hs : ∃ a t, s = 0x1B :: a :: t := by
        rcases his s hi with ⟨ps, f, rfl, _⟩ | ⟨c, rfl, _⟩
        · exact ⟨_, _, rfl⟩
        · exact ⟨_, _, rfl⟩
      obtain ⟨a, t, rfl⟩ := hs
      have hl : lookup Ascii.toRules [0x1B :: a :: t] = none := by
        cases hl : lookup Ascii.toRules [0x1B :: a :: t] with
        | none => rfl
        | some o =>
          obtain ⟨r, hr, er, _⟩ := Verif.Engine.lookup_mem hl
          unfold Ascii.toRules at hr
          rcases List.mem_append.1 hr with hr | hr
          · obtain ⟨c, _, rfl⟩ := List.mem_map.1 hr
            simp at er
          · simp only [List.mem_singleton] at hr
            subst hr
            simp at er
      simp [firstOf, TermItem.datum, TermItem.bytes, uniEnc, hl, Inter.admits, isAnsi]
    | char cp =>
      obtain ⟨k1, k2, k3⟩ := hsc cp hi
      simp only [TermItem.datum, TermItem.bytes, firstOf, if_true, uniEnc_uni]
      by_cases hc : cp < 0x80
      · rw [C14_refuses cp (.inl hc)]
        have e2 : uniDatum cp = [1, cp] := by rw [uniDatum, be1 (by omega)]
        have := toAscii_lookup cp k1 hc
        simp [e2, this, Spec.utf8, hc]
      · rw [C14_encode cp (by omega) (by omega)]
  simp only [encoderProc, e0]
  refine ⟨?_, trivial, ?_, ?_⟩
  · clear hne e0 his hsc
    induction is with
    | nil => rfl
    | cons i is ih =>
      rw [List.map_cons, List.flatMap_cons, ih (fun i hi => e1 i (by simp [hi])), e1 i (by simp)]
      rfl
  · rw [if_neg (by decide), List.length_eq_zero_iff, List.filter_eq_nil_iff]
    intro d hd
    obtain ⟨i, hi, rfl⟩ := List.mem_map.1 hd
    rw [e1 i hi]
    simp
  · intro d hd
    obtain ⟨i, hi, rfl⟩ := List.mem_map.1 hd
    exact (hne i hi).2

/-- C83.  `ANSI-CONTROL,UTF-8:UTF-8,ANSI-CONTROL` gives every text with control sequences back, byte for byte, cut anywhere. -/
theorem C83_identity {st : Nat → Static π} {ip : Nat → Nat → π → π} {ins : Ins π} {ea : Lens π Ansi.Priv} {e : Lens π Utf8.Priv} {eu : Lens π Unit}
    (hn : ins.phasen = 2) (h : AnsiUtf8 (st 1) (initPriv st ip ins 1) ea e) (h' : ToUtf8Ansi (st 2) eu)
    (is : List TermItem) (his : TermText is) (hsc : ∀ cp, .char cp ∈ is → Scalar cp)
    (as : List Arg) (l : Arg) (h1 : ∀ x ∈ as, x.flush = false) (h2 : l.flush = true) (h3 : ∀ x ∈ as ++ [l], x.mode ≠ .null)
    (h4 : ((as ++ [l]).filterMap (fun x => x.input)).flatten = is.flatMap TermItem.bytes) :
    ∃ ds ins', Session st (ins.init st ip) (as ++ [l]) ds ins' ∧
      (ds.map (fun d => d.bytes)).flatten ++ ins'.pending.flatten = is.flatMap TermItem.bytes ∧ ins'.ierr = ins.ierr ∧ ins'.oerr = ins.oerr := by
  obtain ⟨E, e1, e2, e3⟩ := toUtf8Ansi_real h' (initPriv st ip ins 2)
  obtain ⟨f1, f2, f3, f4⟩ := e3 is (fun s h => his (.control s) h) hsc
  obtain ⟨ds, ins', k1, k2, k3, k4⟩ := C83_session (ins := ins) (mid := [E]) (by simp [hn]) h
    (by intro k hk; obtain rfl : k = 0 := by simpa using hk
        exact e1) (by simpa using e2) is his ⟨f2, f4, trivial⟩ as l h1 h2 h3 h4
  refine ⟨ds, ins', k1, ?_, ?_, ?_⟩
  · rw [k2]
    simp only [runProcs, f1, List.flatMap_def]
  · rw [k3]
    simp only [runIn, f2, Nat.add_zero]
  · rw [k4]
    simp only [runOut, f3, Nat.add_zero]

/-- A rule file applied to the characters. -/
def mapTerm (t : Pages) (is : List TermItem) : List TermItem := is.flatMap fun i => match i with
  | .control s => [.control s]
  | .char cp => (t.apply [cp]).map .char

/-- C83.  `ANSI-CONTROL,UTF-8:X:UTF-8,ANSI-CONTROL` with a rule file X (as UPPER): the characters are mapped, the control sequences untouched. -/
theorem C83_map {st : Nat → Static π} {ip : Nat → Nat → π → π} {ins : Ins π} {ea : Lens π Ansi.Priv} {e : Lens π Utf8.Priv} {eu : Lens π Unit}
    {t : Pages} (ht : t.fine = true)
    (hn : ins.phasen = 3) (h : AnsiUtf8 (st 1) (initPriv st ip ins 1) ea e) (hs : PhaseTables (st 2) (.rewrite [t.data])) (h' : ToUtf8Ansi (st 3) eu)
    (is : List TermItem) (his : TermText is) (hsc : ∀ cp, .char cp ∈ is → Scalar cp)
    (as : List Arg) (l : Arg) (h1 : ∀ x ∈ as, x.flush = false) (h2 : l.flush = true) (h3 : ∀ x ∈ as ++ [l], x.mode ≠ .null)
    (h4 : ((as ++ [l]).filterMap (fun x => x.input)).flatten = is.flatMap TermItem.bytes) :
    ∃ ds ins', Session st (ins.init st ip) (as ++ [l]) ds ins' ∧
      (ds.map (fun d => d.bytes)).flatten ++ ins'.pending.flatten = (mapTerm t is).flatMap TermItem.bytes ∧ ins'.ierr = ins.ierr ∧ ins'.oerr = ins.oerr := by
  obtain ⟨E, e1, e2, e3⟩ := toUtf8Ansi_real h' (initPriv st ip ins 3)
  have hM := map_real hs (fun p => p = initPriv st ip ins 2)
  have m1 : ∀ s, .control s ∈ mapTerm t is → ControlSeq s := by
    intro s hs
    obtain ⟨i, hi, hm⟩ := List.mem_flatMap.1 hs
    cases i with
    | control s' =>
      simp only [List.mem_singleton, TermItem.control.injEq] at hm
      subst hm
      exact his (.control s) hi
    | char cp => simp at hm
  have m2 : ∀ cp, .char cp ∈ mapTerm t is → Scalar cp := by
    intro cp hc
    obtain ⟨i, hi, hm⟩ := List.mem_flatMap.1 hc
    cases i with
    | control s' => simp at hm
    | char c =>
      simp only [List.mem_map, TermItem.char.injEq, exists_eq_right] at hm
      exact apply_scalar ht (cps := [c]) (by intro x hx; simp at hx; subst hx; exact hsc _ hi) cp hm
  obtain ⟨f1, f2, f3, f4⟩ := e3 _ m1 m2
  have hne : ∀ i ∈ is, i.datum ≠ [] := by
    intro i hi
    cases i with
    | control s => exact control_ne (his (.control s) hi)
    | char cp => simp [TermItem.datum, uniDatum]
  have e0 : nonEmpty (is.map TermItem.datum) = is.map TermItem.datum := by
    unfold nonEmpty
    rw [List.filter_eq_self]
    intro d hd
    obtain ⟨i, hi, rfl⟩ := List.mem_map.1 hd
    simpa using hne i hi
  have hex : expand (fun d => lookup t.data [d]) (is.map TermItem.datum) = (mapTerm t is).map TermItem.datum := by
    clear e0 hne f1 f2 f3 f4 m1 m2 h4
    induction is with
    | nil => rfl
    | cons i is ih =>
      have := ih (fun i hi => his i (by simp [hi])) (fun c hc => hsc c (by simp [hc]))
      simp only [expand] at this ⊢
      rw [List.map_cons, List.flatMap_cons, this]
      simp only [mapTerm, List.flatMap_cons, List.map_append]
      congr 1
      cases i with
      | control s =>
        have hl : lookup t.data [s] = none := by
          cases hl : lookup t.data [s] with
          | none => rfl
          | some o =>
            obtain ⟨r, hr, er, _⟩ := Verif.Engine.lookup_mem hl
            obtain ⟨q, _, rfl⟩ := List.mem_map.1 hr
            rcases his (.control s) (by simp) with ⟨ps, f, rfl, _⟩ | ⟨c, rfl, _⟩ <;> simp [uniDatum] at er
        simp [TermItem.datum, hl]
      | char cp =>
        have hcp := hsc cp (by simp)
        simp only [TermItem.datum, data_lookup ht (by have := hcp.2.1; omega : cp < 2 ^ 32), Pages.apply, List.flatMap_cons, List.flatMap_nil, List.append_nil]
        cases t.find cp <;> simp [TermItem.datum]
  obtain ⟨ds, ins', k1, k2, k3, k4⟩ := C83_session (ins := ins) (mid := [{ out := fun ds => expand (fun d => lookup t.data [d]) (nonEmpty ds), ok := fun ds => ∀ d ∈ nonEmpty ds, OneAt t.data d }, E]) (by simp [hn]) h
    (by
      intro k hk
      match k, hk with
      | 0, _ => exact hM
      | 1, _ => exact e1
      | k + 2, hk => simp at hk; omega)
    (by intro P hP; simp at hP; rcases hP with rfl | rfl; rfl; exact e2) is his (by
      refine ⟨rfl, ?_, ?_⟩
      · intro d hd r hr hh
        obtain ⟨q, _, rfl⟩ := List.mem_map.1 hr
        simp only [List.head?_cons, Option.some.injEq] at hh
        simp [hh]
      · simp only [e0, hex]
        exact ⟨f2, f4, trivial⟩) as l h1 h2 h3 h4
  refine ⟨ds, ins', k1, ?_, ?_, ?_⟩
  · rw [k2]
    simp only [runProcs, e0, hex, f1, List.flatMap_def]
  · rw [k3]
    simp only [runIn, e0, hex, f2, Nat.add_zero]
  · rw [k4]
    simp only [runOut, e0, hex, f3, Nat.add_zero]

/-! ### The hypotheses can be met; where the property fails -/

/-- `ANSI-CONTROL,ASCII,_UTF-8:_UTF-8,ASCII,ANSI-CONTROL`; private data: those of ANSI-CONTROL and _UTF-8. -/
def termConv (k : Nat) : Static (Ansi.Priv × Utf8.Priv) :=
  if k = 1 then ⟨.from_, fun j => if j = 0 then anyByte (Ansi.machine.on ⟨Prod.fst, fun t x => (t, x.2), fun _ _ => rfl, fun _ => rfl⟩).conv else
      if j = 1 then trieCodec Ascii.fromRules
      else anyByte ((Utf8.machine {}).on ⟨Prod.snd, fun t x => (x.1, t), fun _ _ => rfl, fun _ => rfl⟩).conv, 2⟩
  else ⟨.to_, fun j => if j = 0 then Utf8.toCodec else if j = 1 then trieCodec (symbolRules Ascii.toRules) else
      Inter.plain (Lens.unit _) (Inter.toPass (some isAnsi)), 2⟩

/-- The same without to/ANSI-CONTROL. -/
def termText (k : Nat) : Static (Ansi.Priv × Utf8.Priv) :=
  if k = 1 then termConv 1 else ⟨.to_, fun j => if j = 0 then Utf8.toCodec else trieCodec (symbolRules Ascii.toRules), 1⟩

/-- A new instance. -/
def termIns : Ins (Ansi.Priv × Utf8.Priv) := { ph := fun _ => { priv := fun _ => (.clear, .zero) }, phasen := 2 }

theorem termConv_from (p : Nat → Ansi.Priv × Utf8.Priv) (h1 : (p 0).1 = .clear) (h2 : (p 2).2 = .zero) :
    AnsiUtf8 (termConv 1) p ⟨Prod.fst, fun t x => (t, x.2), fun _ _ => rfl, fun _ => rfl⟩ ⟨Prod.snd, fun t x => (x.1, t), fun _ _ => rfl, fun _ => rfl⟩ := by
  refine ⟨rfl, rfl, ⟨_, rfl⟩, ?_, ⟨_, rfl⟩, h1, h2⟩
  refine represents_trie _ ?_
  intro r hr
  obtain ⟨c, _, _, rfl⟩ := fromAscii_mem hr
  simp

theorem termConv_to : ToUtf8Ansi (termConv 2) (Lens.unit _) := by
  refine ⟨rfl, rfl, rfl, ?_, rfl⟩
  refine represents_trie _ ?_
  intro r hr
  obtain ⟨q, hq, rfl⟩ := List.mem_map.1 hr
  unfold Ascii.toRules at hq
  rcases List.mem_append.1 hq with hq | hq
  · obtain ⟨c, _, rfl⟩ := List.mem_map.1 hq
    simp [symbols]
  · simp only [List.mem_singleton] at hq
    subst hq
    simp [symbols]

-- `aESC[1mé`, cut inside the sequence and inside the character.
example : ∃ ds ins', Session termConv (termIns.init termConv (fun _ _ x => x))
      ([⟨some [0x61, 0x1B, 0x5B], false, .file⟩, ⟨some [0x31, 0x6D, 0xC3], false, .file⟩] ++ [⟨some [0xA9], true, .file⟩]) ds ins' ∧
    (ds.map (fun d => d.bytes)).flatten ++ ins'.pending.flatten = [0x61, 0x1B, 0x5B, 0x31, 0x6D, 0xC3, 0xA9] ∧ ins'.ierr = 0 ∧ ins'.oerr = 0 := by
  have hc : ControlSeq [0x1B, 0x5B, 0x31, 0x6D] := .inl ⟨[0x31], 0x6D, rfl, by decide, by decide, by decide⟩
  obtain ⟨ds, ins', k1, k2, k3, k4⟩ := C83_identity (st := termConv) (ip := fun _ _ x => x) (ins := termIns) rfl (termConv_from _ rfl rfl) termConv_to
    [.char 0x61, .control [0x1B, 0x5B, 0x31, 0x6D], .char 0xE9]
    (by intro i hi; simp at hi; rcases hi with rfl | rfl | rfl
        · exact ⟨⟨by decide, by decide, by unfold Surrogate; decide⟩, by decide⟩
        · exact hc
        · exact ⟨⟨by decide, by decide, by unfold Surrogate; decide⟩, by decide⟩)
    (by intro cp h; simp at h; rcases h with rfl | rfl <;> exact ⟨by decide, by decide, by unfold Surrogate; decide⟩)
    [⟨some [0x61, 0x1B, 0x5B], false, .file⟩, ⟨some [0x31, 0x6D, 0xC3], false, .file⟩] ⟨some [0xA9], true, .file⟩ (by decide) rfl (by decide) (by decide)
  exact ⟨ds, ins', k1, k2.trans (by decide), k3, k4⟩

/-- `ANSI-CONTROL,ASCII,_UTF-8:UPPER:_UTF-8,ASCII,ANSI-CONTROL`. -/
def termUpper (k : Nat) : Static (Ansi.Priv × Utf8.Priv) :=
  if k = 1 then termConv 1 else if k = 2 then ⟨.inter, fun _ => trieCodec (symbolRules MapTable.upper.data), 0⟩ else termConv 2

-- `aESC[1mb` : the letters are changed, that of the control sequence is not.
example : ∃ ds ins', Session termUpper (Ins.init termUpper (fun _ _ x => x) { termIns with phasen := 3 })
      ([⟨some [0x61, 0x1B, 0x5B], false, .file⟩] ++ [⟨some [0x31, 0x6D, 0x62], true, .file⟩]) ds ins' ∧
    (ds.map (fun d => d.bytes)).flatten ++ ins'.pending.flatten = [0x41, 0x1B, 0x5B, 0x31, 0x6D, 0x42] ∧ ins'.ierr = 0 ∧ ins'.oerr = 0 := by
  have hc : ControlSeq [0x1B, 0x5B, 0x31, 0x6D] := .inl ⟨[0x31], 0x6D, rfl, by decide, by decide, by decide⟩
  obtain ⟨hfine, _⟩ := mapTables_fine (t := MapTable.upper) (by simp [mapTables])
  have hg := data_good hfine
  have hp : PhaseTables (termUpper 2) (.rewrite [MapTable.upper.data]) := by
    refine ⟨rfl, rfl, ?_, fun R hR => by simp only [List.mem_cons, List.not_mem_nil, or_false] at hR; subst hR; exact hg⟩
    intro j hj
    obtain rfl : j = 0 := by simp at hj; omega
    refine represents_trie _ ?_
    intro r hr
    obtain ⟨r0, h0, rfl⟩ := List.mem_map.1 hr
    obtain ⟨k1, k2, _⟩ := hg r0 h0
    exact symbols_ne k1 (fun d hd => (k2 d hd).1)
  obtain ⟨ds, ins', k1, k2, k3, k4⟩ := C83_map (st := termUpper) (ip := fun _ _ x => x) (ins := { termIns with phasen := 3 }) hfine rfl (termConv_from _ rfl rfl)
    hp termConv_to [.char 0x61, .control [0x1B, 0x5B, 0x31, 0x6D], .char 0x62]
    (by intro i hi; simp at hi; rcases hi with rfl | rfl | rfl
        · exact ⟨⟨by decide, by decide, by unfold Surrogate; decide⟩, by decide⟩
        · exact hc
        · exact ⟨⟨by decide, by decide, by unfold Surrogate; decide⟩, by decide⟩)
    (by intro cp h; simp at h; rcases h with rfl | rfl <;> exact ⟨by decide, by decide, by unfold Surrogate; decide⟩)
    [⟨some [0x61, 0x1B, 0x5B], false, .file⟩] ⟨some [0x31, 0x6D, 0x62], true, .file⟩ (by decide) rfl (by decide) (by decide)
  exact ⟨ds, ins', k1, k2.trans (by decide +kernel), k3, k4⟩

/-- C83, not so: a control sequence that ends in another character than such a letter (the standard has `@`, `` ` ``, `O` and `{`..`~` too) takes the text after it
along.  Of `ESC[3~abc` only `bc` is left as text. -/
theorem C83_tilde_violated : ∃ ds ins', Session termText (termIns.init termText (fun _ _ x => x)) [⟨some [0x1B, 0x5B, 0x33, 0x7E, 0x61, 0x62, 0x63], true, .file⟩] ds ins' ∧
    (ds.map (fun d => d.bytes)).flatten ++ ins'.pending.flatten = [0x62, 0x63] ∧ ins'.ierr = 0 ∧ ins'.oerr = 1 := by
  exact ⟨_, _, .cons (call_eval 120 (by decide +kernel)) (.nil _), by decide +kernel, by decide +kernel⟩

/-- C83, not so: of a sequence of three bytes, as `ESC(B`, the last becomes text. -/
theorem C83_designate_violated : ∃ ds ins', Session termText (termIns.init termText (fun _ _ x => x)) [⟨some [0x1B, 0x28, 0x42, 0x61], true, .file⟩] ds ins' ∧
    (ds.map (fun d => d.bytes)).flatten ++ ins'.pending.flatten = [0x42, 0x61] ∧ ins'.ierr = 0 ∧ ins'.oerr = 1 := by
  exact ⟨_, _, .cons (call_eval 120 (by decide +kernel)) (.nil _), by decide +kernel, by decide +kernel⟩

/-- C83, not so: a text that ends inside a control sequence comes out with bytes it does not have: the buffer is kept when the sequence is given up, and every
further attempt adds to it.  `ESC[123456` becomes these 8 bytes' first four and then a sequence of 30 bytes. -/
theorem C83_end_violated : ∃ ds ins', Session termConv (termIns.init termConv (fun _ _ x => x)) [⟨some [0x1B, 0x5B, 0x31, 0x32, 0x33, 0x34, 0x35, 0x36], true, .file⟩] ds ins' ∧
    (ds.map (fun d => d.bytes)).flatten ++ ins'.pending.flatten = [0x1B, 0x5B, 0x31, 0x32] ++
      [0x1B, 0x5B, 0x31, 0x32, 0x33, 0x34, 0x35, 0x36] ++ [0x5B, 0x31, 0x32, 0x33, 0x34, 0x35, 0x36] ++ [0x31, 0x32, 0x33, 0x34, 0x35, 0x36] ++
      [0x32, 0x33, 0x34, 0x35, 0x36] ++ [0x33, 0x34, 0x35, 0x36] ∧ ins'.ierr = 0 ∧ ins'.oerr = 0 := by
  exact ⟨_, _, .cons (call_eval 400 (by decide +kernel)) (.nil _), by decide +kernel, by decide +kernel⟩

end Verif.Props
