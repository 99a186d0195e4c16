import Verif.Model.Log
import Verif.Spec.Log
import Verif.Props.Score
/-
C89: the log codecs.
-/
namespace Verif.Props
open Verif.Spec
open Verif.Engine hiding Datum step
open Verif.Inter (plain)
open Verif.Log

variable {π : Type}

theorem byteDigits_hex2 : ∀ b, b < 256 → Escape.hex2 b = byteDigits b := by decide +kernel

theorem flags_text (f : Flags) : f.text ∈ flagNotes := by
  cases f with
  | mk a b => cases a <;> cases b <;> decide +kernel

theorem digits_map {d : Datum} (h : IsBytes d) : d.flatMap Escape.hex2 = d.flatMap byteDigits := by
  induction d with
  | nil => rfl
  | cons b d ih => rw [List.flatMap_cons, List.flatMap_cons, ih (fun x hx => h x (by simp [hx])), byteDigits_hex2 b (h b (by simp))]

/-- What a logger does to its private data. -/
def noted (t : Logger) (d : Datum) : Logger :=
  { file := t.file ++ d.flatMap Escape.hex2 ++ (t.flags 0).text ++ ascii "\n", flags := fun k => t.flags (k + 1) }

theorem noted_all (ds : List Datum) (hb : AllBytes ds) (t : Logger) : ∃ text, LogOf text ds ∧ (ds.foldl noted t).file = t.file ++ text := by
  induction ds generalizing t with
  | nil => exact ⟨[], .nil, by simp⟩
  | cons d ds ih =>
    obtain ⟨text, h1, h2⟩ := ih (fun x hx => hb x (by simp [hx])) (noted t d)
    refine ⟨_, .cons (flags_text (t.flags 0)) h1, ?_⟩
    rw [List.foldl_cons, h2]
    simp only [noted, logLine, digits_map (hb d (by simp)), List.append_assoc]
    rfl

section
variable {st : Nat → Static π} {ip : Nat → Nat → π → π} {ins : Ins π} {pre post : List (Proc π)} {s : Static π}

/-- C89, the output logs.  `BSDCONV-LOG` and `BSDCONV-OUTPUT` behind any conversion write a line for every datum that reaches them, once each and
in order, and put out nothing; there are no errors. -/
theorem C89_output (h : Placed st ip ins pre s post) {e : Lens π Logger} (hs : Only s .to_ (plain e log)) (hi : ∀ x, ip (pre.length + 1) 0 x = x) :
    Converts st ip ins (pre ++ {
      out := fun _ => []
      fin := fun ds q => ∃ text, LogOf text (nonEmpty ds) ∧ (e.get (q 0)).file = (e.get ((ins.ph (pre.length + 1)).priv 0)).file ++ text } :: post) := by
  refine mapper h (single_plain hs (by simp) (fun _ => rfl)) noted (fun _ => []) (fun _ _ => rfl) (fun d _ x hx => by simp at hx) (fun _ => rfl)
    (initPriv_get (placed_le h) (by omega) e id (fun x => by rw [hi]; rfl)) rfl ?_
  intro ds hds _
  refine ⟨rfl, by simp, rfl, ?_⟩
  intro q hq
  simp only
  rw [hq]
  exact noted_all _ (fun d hd => hds d (List.mem_filter.1 hd).1) _

end

theorem bytes_plain : bytes.Plain (fun _ => True) := by
  intro t b _ _
  exact ⟨trivial, by intro x hx; simp [bytes] at hx⟩

theorem bytes_decode (e : Lens π (List Nat)) : ∀ (bs : List Nat) (p : Nat → π),
    (decode (fun _ => (bytes.on e).reader) 0 p bs).out = [] ∧ (decode (fun _ => (bytes.on e).reader) 0 p bs).errors = 0 ∧
    e.get ((decode (fun _ => (bytes.on e).reader) 0 p bs).priv 0) = e.get (p 0) ++ bs.flatMap (fun b => Escape.hex2 b ++ ascii "\n") := by
  intro bs
  induction bs with
  | nil => intro p; rw [decode_nil]; exact ⟨rfl, rfl, by simp⟩
  | cons b bs ih =>
    intro p
    have hr : resume (fun _ => (bytes.on e).reader) 0 0 p [] (b :: bs) =
        (setPriv p 0 (e.put (e.get (p 0) ++ Escape.hex2 b ++ ascii "\n") (p 0)), some (bs, [])) := by
      rw [resume]
      simp only [Reader.read, Machine.reader, Machine.on, bytes]
    obtain ⟨h1, h2, h3⟩ := ih (setPriv p 0 (e.put (e.get (p 0) ++ Escape.hex2 b ++ ascii "\n") (p 0)))
    rw [(decode_some (by simp) hr).1]
    refine ⟨by simpa using h1, h2, ?_⟩
    rw [h3]
    simp [setPriv, e.get_put]

/-- C89, the input log.  `BSDCONV-LOG` as first phase writes two digits and a newline for every byte of the input, once each and in order,
however the input is cut into chunks, and nothing comes out; there are no errors. -/
theorem C89_input {st : Nat → Static π} {ip : Nat → Nat → π → π} {ins : Ins π} {e : Lens π (List Nat)} (hn : ins.phasen = 1)
    (hs : DecoderPhase (st 1) e bytes) (hi : ∀ x, ip 1 0 x = x) (T : List Nat) (hT : IsBytes T)
    (as : List Arg) (l : Arg) (h1 : ∀ x ∈ as, x.flush = false) (h2 : l.flush = true) (h3 : ∀ x ∈ as ++ [l], x.mode ≠ .null)
    (h4 : ((as ++ [l]).filterMap (fun x => x.input)).flatten = T) :
    ∃ ds ins', Session st (ins.init st ip) (as ++ [l]) ds ins' ∧ (ds.map (fun d => d.bytes)).flatten ++ ins'.pending.flatten = [] ∧
      ins'.ierr = ins.ierr ∧ ins'.oerr = ins.oerr ∧
      e.get ((ins'.ph 1).priv 0) = e.get ((ins.ph 1).priv 0) ++ T.flatMap fun b => byteDigits b ++ [10] := by
  have hreal := decoder_real hs bytes_plain (p := initPriv st ip ins 1) trivial
  have hch : Converts st ip ins [decoderProc (fun _ => (bytes.on e).reader) 0 (initPriv st ip ins 1)] :=
    chain_converts ⟨by simp, fun k hk => by
      obtain rfl : k = 0 := by simpa using hk
      exact hreal, fun k hk => by simp at hk⟩ hn
  have hb : ∀ x ∈ as ++ [l], ∀ c ∈ x.input, IsBytes c := by
    intro x hx c hc y hy
    refine hT y ?_
    rw [← h4]
    exact List.mem_flatten.2 ⟨c, List.mem_filterMap.2 ⟨x, hx, hc⟩, hy⟩
  obtain ⟨d1, d2, d3⟩ := bytes_decode e T (initPriv st ip ins 1)
  obtain ⟨ds, ins', k1, k2, _, k4, k5, k6⟩ := hch as l h1 h2 h3 hb _ rfl ⟨.inl (by simp only [decoderProc, h4]; exact d2), trivial, trivial⟩
  refine ⟨ds, ins', k1, ?_, ?_, ?_, ?_⟩
  · rw [k2]; simp only [runProcs, decoderProc, h4, d1]; rfl
  · rw [k4]; simp only [runIn, decoderProc, h4, d2]; omega
  · rw [k5]; simp [runOut, decoderProc]
  · have f := k6 0 (by simp)
    simp only [List.getElem_cons_zero, List.take_zero, runProcs, decoderProc, h4] at f
    rw [show (ins'.ph (0 + 1)).priv = (ins'.ph 1).priv from rfl] at f
    rw [f, d3, initPriv_get (by omega) (by omega) e id (fun x => by rw [hi]; rfl)]
    congr 1
    clear d1 d2 d3 f k2 k4 k5 k6 hb h4
    induction T with
    | nil => rfl
    | cons b T ih =>
      rw [List.flatMap_cons, List.flatMap_cons, ih (fun x hx => hT x (by simp [hx])), byteDigits_hex2 b (hT b (by simp))]
      rfl

/-! ### What a log tells -/

theorem cut_unique {α : Type} (c : α) : ∀ {xs ys r r' : List α}, c ∉ xs → c ∉ ys → xs ++ c :: r = ys ++ c :: r' → xs = ys ∧ r = r'
  | [], [], _, _, _, _, h => ⟨rfl, by simpa using h⟩
  | [], y :: ys, _, _, _, hy, h => by simp only [List.nil_append, List.cons_append, List.cons.injEq] at h; exact absurd (by simp [h.1]) hy
  | x :: xs, [], _, _, hx, _, h => by simp only [List.nil_append, List.cons_append, List.cons.injEq] at h; exact absurd (by simp [h.1]) hx
  | x :: xs, y :: ys, _, _, hx, hy, h => by
    simp only [List.cons_append, List.cons.injEq] at h
    obtain ⟨a, b⟩ := cut_unique c (fun hm => hx (by simp [hm])) (fun hm => hy (by simp [hm])) h.2
    exact ⟨by rw [h.1, a], b⟩

theorem digits_shape : ∀ b, b < 256 → (byteDigits b).length = 2 ∧ ∀ c ∈ byteDigits b, c ≠ 10 ∧ c ≠ 32 := by decide +kernel

theorem digits_inj {a b : Nat} (ha : a < 256) (hb : b < 256) (h : byteDigits a = byteDigits b) : a = b := by
  rw [← byteDigits_hex2 a ha, ← byteDigits_hex2 b hb] at h
  simp only [Escape.hex2, List.cons.injEq, and_true] at h
  have h1 := hexDigit_inj _ (Nat.mod_lt _ (by decide)) _ (Nat.mod_lt _ (by decide)) h.1
  have h2 := hexDigit_inj _ (Nat.mod_lt _ (by decide)) _ (Nat.mod_lt _ (by decide)) h.2
  omega

theorem digits_unique : ∀ {d d' : Datum}, IsBytes d → IsBytes d' → d.flatMap byteDigits = d'.flatMap byteDigits → d = d'
  | [], [], _, _, _ => rfl
  | [], b :: d', _, h', h => by
    have h1 := (digits_shape b (h' b (by simp))).1
    rw [List.flatMap_cons] at h
    have h2 := congrArg List.length h
    rw [List.length_append, h1, List.flatMap_nil, List.length_nil] at h2; omega
  | b :: d, [], h, _, h' => by
    have h1 := (digits_shape b (h b (by simp))).1
    rw [List.flatMap_cons] at h'
    have h2 := congrArg List.length h'
    rw [List.length_append, h1, List.flatMap_nil, List.length_nil] at h2; omega
  | b :: d, c :: d', h, h', he => by
    rw [List.flatMap_cons, List.flatMap_cons] at he
    have l1 := (digits_shape b (h b (by simp))).1
    have l2 := (digits_shape c (h' c (by simp))).1
    obtain ⟨e1, e2⟩ := List.append_inj he (by rw [l1, l2])
    rw [digits_inj (h b (by simp)) (h' c (by simp)) e1, digits_unique (fun x hx => h x (by simp [hx])) (fun x hx => h' x (by simp [hx])) e2]

theorem digits_mem {d : Datum} (h : IsBytes d) : ∀ c ∈ d.flatMap byteDigits, c ≠ 10 ∧ c ≠ 32 := by
  intro c hc
  obtain ⟨b, hb, hc⟩ := List.mem_flatMap.1 hc
  exact (digits_shape b (h b hb)).2 c hc

theorem line_unique {note note' : List Nat} (hn : note ∈ flagNotes) (hn' : note' ∈ flagNotes) {d d' : Datum} (h : IsBytes d) (h' : IsBytes d')
    {r r' : List Nat} (he : logLine note d ++ r = logLine note' d' ++ r') : d = d' ∧ r = r' := by
  have shape : ∀ n ∈ flagNotes, 10 ∉ n ∧ (n = [] ∨ ∃ m, n = 32 :: m) := by
    intro n hn
    simp only [flagNotes, List.map_cons, List.map_nil, List.mem_cons, List.not_mem_nil, or_false] at hn
    rcases hn with rfl | rfl | rfl | rfl
    · exact ⟨by decide, .inl rfl⟩
    · exact ⟨by decide +kernel, .inr ⟨_, rfl⟩⟩
    · exact ⟨by decide +kernel, .inr ⟨_, rfl⟩⟩
    · exact ⟨by decide +kernel, .inr ⟨_, rfl⟩⟩
  obtain ⟨s1, s2⟩ := shape _ hn
  obtain ⟨t1, t2⟩ := shape _ hn'
  simp only [logLine, List.append_assoc, List.cons_append, List.nil_append] at he
  rw [← List.append_assoc, ← List.append_assoc] at he
  have no : ∀ {d : Datum} {n : List Nat}, IsBytes d → 10 ∉ n → 10 ∉ d.flatMap byteDigits ++ n := by
    intro d n hd hn hm
    rcases List.mem_append.1 hm with hm | hm
    · exact (digits_mem hd 10 hm).1 rfl
    · exact hn hm
  obtain ⟨e1, e2⟩ := cut_unique 10 (no h s1) (no h' t1) he
  refine ⟨?_, e2⟩
  have n32 : ∀ {d : Datum}, IsBytes d → 32 ∉ d.flatMap byteDigits := fun hd hm => (digits_mem hd 32 hm).2 rfl
  rcases s2 with rfl | ⟨m, rfl⟩ <;> rcases t2 with rfl | ⟨m', rfl⟩
  · exact digits_unique h h' (by simpa using e1)
  · rw [List.append_nil] at e1
    exact absurd (by rw [e1]; simp) (n32 h)
  · rw [List.append_nil] at e1
    exact absurd (by rw [← e1]; simp) (n32 h')
  · exact digits_unique h h' (cut_unique 32 (n32 h) (n32 h') e1).1

/-- C89.  A log tells exactly which data were logged. -/
theorem C89_faithful {text : List Nat} {ds ds' : List Datum} (h : LogOf text ds) (h' : LogOf text ds') (hb : AllBytes ds) (hb' : AllBytes ds') : ds = ds' := by
  induction h generalizing ds' with
  | nil =>
    generalize he : ([] : List Nat) = t at h'
    cases h' with
    | nil => rfl
    | cons _ _ => simp [logLine] at he
  | @cons note rest d ds hn h ih =>
    generalize he : logLine note d ++ rest = t at h'
    cases h' with
    | nil => simp [logLine] at he
    | @cons note' rest' d' ds' hn' h' =>
      obtain ⟨e1, rfl⟩ := line_unique hn hn' (hb d (by simp)) (hb' d' (by simp)) he
      rw [e1, ih h' (fun x hx => hb x (by simp [hx])) (fun x hx => hb' x (by simp [hx]))]

/-! ### Cases -/

/-- Two data, the second with the flag FREE. -/
example : ∃ ds ins', Session (fun _ => onePhase .to_ (plain (Lens.self Logger) log))
      ((solo ⟨[], fun k => ⟨k == 1, false⟩⟩).init (fun _ => onePhase .to_ (plain (Lens.self Logger) log)) (fun _ _ x => x)) (twoCalls [1, 0x41] [3, 0xFF]) ds ins' ∧
    nonEmpty ins'.pending = [] ∧ LogOf ((ins'.ph 1).priv 0).file [[1, 0x41], [3, 0xFF]] := by
  obtain ⟨ds, ins', a, b, ⟨text, c1, c2⟩, _⟩ := two_calls (C89_output (placed_solo _ (fun _ _ x => x) (⟨[], fun k => ⟨k == 1, false⟩⟩ : Logger))
      (only_one _ (plain (Lens.self Logger) log)) (fun _ => rfl)) (x := [1, 0x41]) (y := [3, 0xFF]) (by decide) (by decide) ⟨rfl, trivial⟩
  refine ⟨ds, ins', a, b, ?_⟩
  have c2' : ((ins'.ph 1).priv 0).file = [] ++ text := c2
  rw [c2']
  exact c1

example : LogOf (ascii "0141\n03FF ( FREE )\n") [[1, 0x41], [3, 0xFF]] := by
  have h : LogOf (logLine (ascii "") [1, 0x41] ++ (logLine (ascii " ( FREE )") [3, 0xFF] ++ [])) [[1, 0x41], [3, 0xFF]] :=
    .cons (by decide +kernel) (.cons (by decide +kernel) .nil)
  have e : logLine (ascii "") [1, 0x41] ++ (logLine (ascii " ( FREE )") [3, 0xFF] ++ []) = ascii "0141\n03FF ( FREE )\n" := by decide +kernel
  rwa [e] at h

/-- Input "Aÿ" in two chunks. -/
example : ∃ ds ins', Session (fun _ => ⟨.from_, fun _ => anyByte bytes.conv, 0⟩)
      ((solo []).init (fun _ => ⟨.from_, fun _ => anyByte bytes.conv, 0⟩) (fun _ _ x => x)) ([⟨some [0x41], false, .file⟩] ++ [⟨some [0xFF], true, .file⟩]) ds ins' ∧
    (ins'.ph 1).priv 0 = ascii "41\nFF\n" := by
  obtain ⟨ds, ins', a, _, _, _, b⟩ := C89_input (st := fun _ => ⟨.from_, fun _ => anyByte bytes.conv, 0⟩) (ip := fun _ _ x => x) (ins := solo [])
    (e := Lens.self _) rfl ⟨rfl, rfl, ⟨none, rfl⟩⟩ (fun _ => rfl) [0x41, 0xFF] (by decide) [⟨some [0x41], false, .file⟩] ⟨some [0xFF], true, .file⟩
    (by decide) rfl (by decide) (by decide)
  refine ⟨ds, ins', a, ?_⟩
  have b' : (ins'.ph 1).priv 0 = _ := b
  rw [b']
  decide +kernel

end Verif.Props
