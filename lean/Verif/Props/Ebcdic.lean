import Verif.Proofs.Shift
import Verif.Props.Inter
/-
C40: the mixed EBCDIC encodings with shift codes, to and from.
-/
namespace Verif.Props
open Verif.Spec
open Verif.Engine hiding Datum step
open Verif.MkTable (compiled)

variable {π : Type}

/-- The phase that encodes. -/
theorem encoder_phase {s : Static π} {e : Lens π Bool} {T : Rules Nat Datum} (hT : MarkedOk (fun _ => true) T)
    (hs : Only s .to_ (ebcdicEncoder e (compiled π (encoderLines T)))) : EPhase s e (compiled π (encoderLines T)) T :=
  ⟨hs.type, hs.one, hs.codec, encoder_sends hT⟩

/-- The phase that decodes. -/
theorem decoder_realises {s : Static π} {e : Lens π Bool} {S : Rules Nat Datum} (hS : MarkedOk (fun p => p.length == 1) S)
    (hs : Only s .from_ (ebcdicDecoder e (compiled π (decoderLines S)))) (hr : ShiftRules S) {p : Nat → π} (hp : e.get (p 0) = false) :
    Realises s (fun r => r = p)
      { out := fun ds => ((unshift false ds.flatten).bind (codesOf S)).getD []
        dec := true
        ok := fun ds => ((unshift false ds.flatten).bind (codesOf S)).isSome } := by
  have hD : DPhase s e (compiled π (decoderLines S)) S := ⟨hs.type, hs.codec, decoder_reads hS hr.two, hr⟩
  have key : ∀ bs, ((unshift false bs).bind (codesOf S)).isSome → (ebcdicScanner S).run (false, none) bs = (unshift false bs).bind (codesOf S) := by
    intro bs h
    obtain ⟨xs, hx⟩ := Option.isSome_iff_exists.1 h
    rw [hx]
    obtain ⟨cs, h1, h2⟩ := Option.bind_eq_some_iff.1 hx
    exact run_unshift bs.length _ _ _ _ (Nat.le_refl _) h1 h2
  refine (scan_realises (ebcdic_scans hD) (q := (false, none)) ?_ (fun q o h => by simp [ebcdicScanner] at h) rfl ?_).as rfl ?_ ?_
  · rintro ⟨m, a⟩ b q' o h hb
    have hx : ∀ k x, lookup S k = some x → IsBytes x := fun k x hk => ((hS.2.1 _ (lookup_rule hk)).2.2.2 : IsBytes x)
    cases a with
    | none =>
      simp only [ebcdicScanner] at h
      split at h
      · simp only [Option.some.injEq, Prod.mk.injEq] at h; rw [← h.2]; intro d hd; simp at hd
      · split at h
        · simp only [Option.some.injEq, Prod.mk.injEq] at h; rw [← h.2]; intro d hd; simp at hd
        · split at h
          · split at h <;> simp at h
          · simp only [Option.map_eq_some_iff, Prod.mk.injEq, Option.some.injEq] at h
            obtain ⟨x, h1, _, h2⟩ := h
            rw [← h2]; intro d hd; simp at hd; subst hd; exact hx _ _ h1
    | some a =>
      simp only [ebcdicScanner, Option.map_eq_some_iff, Prod.mk.injEq, Option.some.injEq] at h
      obtain ⟨x, h1, _, h2⟩ := h
      rw [← h2]; intro d hd; simp at hd; subst hd; exact hx _ _ h1
  · intro x h1 h2 h3 h4 h5 h6
    exact ⟨h4, by rw [h6]; exact hp, h5, h3, h2, h1⟩
  · intro ds _ hk
    simp only [Scanner.proc]
    rw [key _ hk]; exact hk
  · intro ds _ hk
    refine ⟨?_, rfl, rfl, fun _ _ => trivial⟩
    simp only [Scanner.proc]
    rw [key _ hk]

/-- C40, encoding.  Whatever the chunking, the output modes and the other phases: data that all have a code come out as
their codes with shift codes between codes of different kinds and a final shift back to single-byte state, and the
encoder itself is then in single-byte state. -/
theorem C40_encode_partial {st : Nat → Static π} {ip : Nat → Nat → π → π} {ins : Ins π} {pre post : List (Proc π)} {s : Static π}
    (h : Placed st ip ins pre s post) {e : Lens π Bool} {T : Rules Nat Datum} (hT : MarkedOk (fun _ => true) T)
    (hs : Only s .to_ (ebcdicEncoder e (compiled π (encoderLines T)))) (hi : ∀ x, e.get (ip (pre.length + 1) 0 x) = ebcdicInit (e.get x)) :
    Converts st ip ins (pre ++ { out := fun ds => shifted false ((codesOf T (nonEmpty ds)).getD [])
                                 ok := fun ds => (codesOf T (nonEmpty ds)).isSome
                                 fin := fun _ q => e.get (q 0) = false } :: post) := by
  refine placed_converts h (ebcdic_realises (encoder_phase hT hs) ?_) rfl
  exact initPriv_get (placed_le h) (by omega) e ebcdicInit hi

/-- C40, decoding.  Text with shift codes all of whose codes are in the table comes out as the data of the codes. -/
theorem C40_decode_partial {st : Nat → Static π} {ip : Nat → Nat → π → π} {ins : Ins π} {pre post : List (Proc π)} {s : Static π}
    (h : Placed st ip ins pre s post) (hpre : ∀ Q ∈ pre.getLast?, Q.dec = false) (hpost : ∀ Q ∈ post.head?, Q.dec = false)
    {e : Lens π Bool} {S : Rules Nat Datum} (hS : MarkedOk (fun p => p.length == 1) S) (hr : ShiftRules S)
    (hs : Only s .from_ (ebcdicDecoder e (compiled π (decoderLines S)))) (hi : ∀ x, e.get (ip (pre.length + 1) 0 x) = ebcdicInit (e.get x)) :
    Converts st ip ins (pre ++ { out := fun ds => ((unshift false ds.flatten).bind (codesOf S)).getD []
                                 dec := true
                                 ok := fun ds => ((unshift false ds.flatten).bind (codesOf S)).isSome } :: post) := by
  refine placed_decodes h (decoder_realises hS hs hr ?_) hpre hpost
  exact initPriv_get (placed_le h) (by omega) e ebcdicInit hi

/-- C40, the shift codes.  In the encoder's output they come in turn, first 0E, and the last one is 0F; and the text can be
read back by anybody who only knows the rule that 0E starts and 0F ends double-byte data. -/
theorem C40_balanced (cs : List Datum) (h : ∀ c ∈ cs, DbcsCode c) :
    alternating 0x0E (shiftCodes (shifted false cs)) ∧ unshift false (shifted false cs).flatten = some cs :=
  ⟨shifted_alternates cs h false, unshift_shifted cs h false⟩

theorem codesOf_inverse {T S : Rules Nat Datum} {P : Datum → Prop} (ds : List Datum)
    (h : ∀ d ∈ ds, ∃ c, lookup T d = some c ∧ P c ∧ lookup S c = some d) :
    ∃ cs, codesOf T ds = some cs ∧ (∀ c ∈ cs, P c) ∧ codesOf S cs = some ds := by
  induction ds with
  | nil => exact ⟨[], rfl, by simp, rfl⟩
  | cons d ds ih =>
    obtain ⟨cs, k1, k2, k3⟩ := ih fun x hx => h x (by simp [hx])
    obtain ⟨c, m1, m2, m3⟩ := h d (by simp)
    refine ⟨c :: cs, by simp only [codesOf, m1, k1], ?_, by simp only [codesOf, m3, k3]⟩
    intro x hx
    rcases List.mem_cons.1 hx with rfl | hx
    · exact m2
    · exact k2 x hx

/-- C40, there and back.  The encoder followed by the decoder hands on unchanged all data that have a code of one or two bytes which cannot be
mistaken for a shift code and which the decoder's table maps back — in any chunking, among any other phases. -/
theorem C40_roundtrip_partial {st : Nat → Static π} {ip : Nat → Nat → π → π} {ins : Ins π} {pre post : List (Proc π)} {s1 s2 : Static π}
    (h : Placed2 st ip ins pre s1 s2 post) (hpost : ∀ Q ∈ post.head?, Q.dec = false)
    {e1 e2 : Lens π Bool} {T S : Rules Nat Datum} (hT : MarkedOk (fun _ => true) T) (hS : MarkedOk (fun p => p.length == 1) S)
    (hr : ShiftRules S)
    (hs1 : Only s1 .to_ (ebcdicEncoder e1 (compiled π (encoderLines T)))) (hi1 : ∀ x, e1.get (ip (pre.length + 1) 0 x) = ebcdicInit (e1.get x))
    (hs2 : Only s2 .from_ (ebcdicDecoder e2 (compiled π (decoderLines S)))) (hi2 : ∀ x, e2.get (ip (pre.length + 2) 0 x) = ebcdicInit (e2.get x)) :
    ∃ P1 P2 : Proc π, Converts st ip ins (pre ++ P1 :: P2 :: post) ∧
      ∀ ds, (∀ d ∈ nonEmpty ds, ∃ c, lookup T d = some c ∧ DbcsCode c ∧ lookup S c = some d) →
        P1.ok ds ∧ P2.ok (P1.out ds) ∧ P2.out (P1.out ds) = nonEmpty ds ∧
        P1.inErrors ds = 0 ∧ P1.outErrors ds = 0 ∧ P2.inErrors (P1.out ds) = 0 ∧ P2.outErrors (P1.out ds) = 0 := by
  have hn : ins.phasen = pre.length + 2 + post.length := h.phasen
  have h1 := ebcdic_realises (p := initPriv st ip ins (pre.length + 1)) (encoder_phase hT hs1)
    (initPriv_get (by omega) (by omega) e1 ebcdicInit hi1)
  have h2 := decoder_realises (p := initPriv st ip ins (pre.length + 2)) hS hs2 hr (initPriv_get (by omega) (by omega) e2 ebcdicInit hi2)
  refine ⟨_, _, placed_converts (h.firstDec h2 hpost) h1 rfl, ?_⟩
  intro ds hk
  obtain ⟨cs, hcs, k1, k2⟩ := codesOf_inverse _ hk
  have : (unshift false (shifted false cs).flatten).bind (codesOf S) = some (nonEmpty ds) := by
    rw [(C40_balanced cs k1).2]; exact k2
  simp only [hcs, Option.isSome_some, Option.getD_some, this, and_self]

/-- C40, back and there.  Text all of whose codes the decoder's table knows and the encoder's table maps back, converted by the decoder and the
encoder behind it, comes out with the same codes in the same order and with the shift codes that are needed: if the text had no others, it comes out
unchanged. -/
theorem C40_keeps_partial {st : Nat → Static π} {ip : Nat → Nat → π → π} {ins : Ins π} {pre post : List (Proc π)} {s1 s2 : Static π}
    (h : Placed2 st ip ins pre s1 s2 post) (hpre : ∀ Q ∈ pre.getLast?, Q.dec = false)
    {e1 e2 : Lens π Bool} {T S : Rules Nat Datum} (hT : MarkedOk (fun _ => true) T) (hS : MarkedOk (fun p => p.length == 1) S)
    (hr : ShiftRules S)
    (hs1 : Only s1 .from_ (ebcdicDecoder e1 (compiled π (decoderLines S)))) (hi1 : ∀ x, e1.get (ip (pre.length + 1) 0 x) = ebcdicInit (e1.get x))
    (hs2 : Only s2 .to_ (ebcdicEncoder e2 (compiled π (encoderLines T)))) (hi2 : ∀ x, e2.get (ip (pre.length + 2) 0 x) = ebcdicInit (e2.get x)) :
    ∃ P1 P2 : Proc π, Converts st ip ins (pre ++ P1 :: P2 :: post) ∧
      ∀ ds cs, unshift false ds.flatten = some cs → (∀ c ∈ cs, ∃ d, lookup S c = some d ∧ lookup T d = some c) →
        P1.ok ds ∧ P2.ok (P1.out ds) ∧ P2.out (P1.out ds) = shifted false cs ∧
        P1.inErrors ds = 0 ∧ P1.outErrors ds = 0 ∧ P2.inErrors (P1.out ds) = 0 ∧ P2.outErrors (P1.out ds) = 0 := by
  have hn : ins.phasen = pre.length + 2 + post.length := h.phasen
  have h1 := decoder_realises (p := initPriv st ip ins (pre.length + 1)) hS hs1 hr (initPriv_get (by omega) (by omega) e1 ebcdicInit hi1)
  have h2 := ebcdic_realises (p := initPriv st ip ins (pre.length + 2)) (encoder_phase hT hs2)
    (initPriv_get (by omega) (by omega) e2 ebcdicInit hi2)
  refine ⟨_, _, placed_decodes (h.first h2 rfl) h1 hpre (by intro Q hQ; simp at hQ; subst hQ; rfl), ?_⟩
  intro ds cs hu hk
  obtain ⟨xs, k1, _, k2⟩ := codesOf_inverse (P := fun _ => True) cs fun c hc => (hk c hc).imp fun _ h => ⟨h.1, trivial, h.2⟩
  have hx : nonEmpty xs = xs := by
    unfold nonEmpty
    rw [List.filter_eq_self]
    intro d hd
    have : ∀ (cs xs : List Datum), codesOf S cs = some xs → ∀ d ∈ xs, d ≠ [] := by
      intro cs
      induction cs with
      | nil => intro xs h; simp only [codesOf, Option.some.injEq] at h; subst h; simp
      | cons c cs ih =>
        intro xs h d hd
        obtain ⟨x, xs', h1, h2, rfl⟩ := codesOf_cons h
        rcases List.mem_cons.1 hd with rfl | hd
        · exact (hS.2.1 _ (lookup_rule h1)).2.2.1
        · exact ih _ h2 d hd
    simpa using this _ _ k1 d hd
  simp only [hu, Option.bind_some, k1, Option.isSome_some, Option.getD_some, hx, k2, and_self]

/-! ### Where C40 fails -/

/-- A table with A, a double-byte character, and the control characters of the shift codes, as in
/repo/modules/to/IBM-930.txt. -/
def ebTable : Rules Nat Datum := [([1, 0x0E], [0x0E]), ([1, 0x0F], [0x0F]), ([1, 0x41], [0xC1]), ([1, 0x4E, 0x00], [0x45, 0x41])]

/-- And back. -/
def ebBack : Rules Nat Datum := [([0x0E], [1, 0x0E]), ([0x0F], [1, 0x0F]), ([0xC1], [1, 0x41]), ([0x45, 0x41], [1, 0x4E, 0x00])]

theorem ebTable_ok : MarkedOk (fun _ => true) ebTable := ⟨by decide +kernel, by decide +kernel, by decide +kernel⟩
theorem ebBack_ok : MarkedOk (fun p => p.length == 1) ebBack := ⟨by decide +kernel, by decide +kernel, by decide +kernel⟩

/-- The encoder alone. -/
def ebPhase : Static Bool := onePhase .to_ (ebcdicEncoder (Lens.self _) (compiled Bool (encoderLines ebTable)))

/-- The decoder alone. -/
def ebRead : Static Bool := onePhase .from_ (ebcdicDecoder (Lens.self _) (compiled Bool (decoderLines ebBack)))

/-- C40 is false for data without a code.  U+9999, which has none, is counted as an output error before a double-byte
character; after one it disappears uncounted: the encoder leaves `F_MATCH` set (/repo/modules/to/EBCDIC.c:74-93), so the engine
takes the dead end for the end of a match. -/
theorem C40_uncounted_violated :
    (∃ ds i, Session (fun _ => ebPhase) ((solo false).init (fun _ => ebPhase) (fun _ _ => ebcdicInit))
      (twoCalls [1, 0x99, 0x99] [1, 0x4E, 0x00]) ds i ∧ i.pending = [[0x0E], [0x45, 0x41], [0x0F]] ∧ i.oerr = 1) ∧
    (∃ ds i, Session (fun _ => ebPhase) ((solo false).init (fun _ => ebPhase) (fun _ _ => ebcdicInit))
      (twoCalls [1, 0x4E, 0x00] [1, 0x99, 0x99]) ds i ∧ i.pending = [[0x0E], [0x45, 0x41], [0x0F]] ∧ i.oerr = 0) :=
  ⟨⟨_, _, .cons (call_eval 60 (by decide +kernel)) (.cons (call_eval 60 (by decide +kernel)) (.nil _)), by decide +kernel, by decide +kernel⟩,
   ⟨_, _, .cons (call_eval 60 (by decide +kernel)) (.cons (call_eval 60 (by decide +kernel)) (.nil _)), by decide +kernel, by decide +kernel⟩⟩

/-- C40 is false for data without a code, again: after a double-byte character U+9941 is encoded as the letter A, because
`F_LOOPBACK` is also left set and the engine then ignores bytes it cannot match. -/
theorem C40_mistaken_violated :
    lookup ebTable [1, 0x99, 0x41] = none ∧
    ∃ ds i, Session (fun _ => ebPhase) ((solo false).init (fun _ => ebPhase) (fun _ _ => ebcdicInit))
      (twoCalls [1, 0x4E, 0x00] [1, 0x99, 0x41]) ds i ∧ i.pending = [[0x0E], [0x45, 0x41], [0x0F], [0xC1]] ∧ i.oerr = 0 :=
  ⟨by decide, _, _, .cons (call_eval 60 (by decide +kernel)) (.cons (call_eval 60 (by decide +kernel)) (.nil _)), by decide +kernel, by decide +kernel⟩

/-- C40 is false for the control character U+000E: the tables encode it by the bare byte 0E, so the text is not balanced and
does not decode to what was encoded: U+000E A comes back as A. -/
theorem C40_control_violated :
    (∃ ds i, Session (fun _ => ebPhase) ((solo false).init (fun _ => ebPhase) (fun _ _ => ebcdicInit))
      (twoCalls [1, 0x0E] [1, 0x41]) ds i ∧ i.pending = [[0x0E], [0xC1]] ∧ ¬ alternating 0x0E (shiftCodes i.pending)) ∧
    (∃ ds i, Session (fun _ => ebRead) ((solo false).init (fun _ => ebRead) (fun _ _ => ebcdicInit))
      (twoCalls [0x0E] [0xC1]) ds i ∧ i.pending = [[1, 0x41]]) := by
  refine ⟨⟨_, _, .cons (call_eval 60 (by decide +kernel)) (.cons (call_eval 60 (by decide +kernel)) (.nil _)), by decide +kernel, ?_⟩,
   ⟨_, _, .cons (call_eval 60 (by decide +kernel)) (.cons (call_eval 60 (by decide +kernel)) (.nil _)), by decide +kernel⟩⟩
  have e : ∀ l : List Datum, l = [[0x0E], [0xC1]] → ¬ alternating 0x0E (shiftCodes l) := by
    rintro _ rfl; simp [shiftCodes, alternating]
  exact e _ (by decide +kernel)

/-- Decoding malformed text: one single-byte code between 0E and 0F makes the decoder swallow all the rest of the text,
shift codes included, without an error: 0E C1 0F C1 C1 … gives one A, as the callback turns a match without continuation into a
partial match (/repo/modules/from/EBCDIC.c:49-53) and the engine waits for the rest of it.  -/
theorem C40_swallow_violated :
    (∃ ds i, Session (fun _ => ebRead) ((solo false).init (fun _ => ebRead) (fun _ _ => ebcdicInit))
      [⟨some [0x0E, 0xC1, 0x0F, 0xC1, 0xC1], true, .hold⟩] ds i ∧ i.pending = [[1, 0x41]] ∧ i.ierr = 0) ∧
    (∃ ds i, Session (fun _ => ebRead) ((solo false).init (fun _ => ebRead) (fun _ _ => ebcdicInit))
      (twoCalls [0x0E, 0xC1] [0x0F, 0xC1]) ds i ∧ i.pending = [[1, 0x41]] ∧ i.ierr = 0) :=
  ⟨⟨_, _, .cons (call_eval 60 (by decide +kernel)) (.nil _), by decide +kernel, by decide +kernel⟩,
   ⟨_, _, .cons (call_eval 60 (by decide +kernel)) (.cons (call_eval 60 (by decide +kernel)) (.nil _)), by decide +kernel, by decide +kernel⟩⟩

/-! ### The hypotheses can be met -/

/-- A table without the shift codes: two single-byte and two double-byte characters. -/
def ebSmall : Rules Nat Datum := [([1, 0x41], [0xC1]), ([1, 0x42], [0xC2]), ([1, 0x4E, 0x00], [0x45, 0x41]), ([1, 0x4E], [0x45, 0x42])]

/-- And back. -/
def ebSmallBack : Rules Nat Datum :=
  [([0x0E], [1, 0x0E]), ([0x0F], [1, 0x0F]), ([0x45], [1, 0x6E]), ([0xC1], [1, 0x41]), ([0xC2], [1, 0x42]), ([0x45, 0x41], [1, 0x4E, 0x00]), ([0x45, 0x42], [1, 0x4E])]

theorem ebSmall_ok : MarkedOk (fun _ => true) ebSmall := ⟨by decide +kernel, by decide +kernel, by decide +kernel⟩
theorem ebSmallBack_ok : MarkedOk (fun p => p.length == 1) ebSmallBack := ⟨by decide +kernel, by decide +kernel, by decide +kernel⟩

theorem lookup_all {T : Rules Nat Datum} {P : List Nat → Datum → Prop} (h : ∀ r ∈ T, P r.1 r.2) {d : List Nat} {c : Datum} (hd : lookup T d = some c) : P d c :=
  h _ (lookup_rule hd)

theorem ebSmall_shifts : ShiftRules ebSmallBack where
  out := rfl
  in_ := rfl
  only := by
    intro b x h h1 h2
    have := lookup_all (P := fun p x => p.length = 1 → p ≠ [0x0E] → p ≠ [0x0F] → x ≠ [0x01, 0x0E] ∧ x ≠ [0x01, 0x0F]) (by decide) h rfl
    exact this (by simpa using h1) (by simpa using h2)
  two := by decide

theorem ebSmall_inv (d : List Nat) (c : Datum) (h : lookup ebSmall d = some c) : DbcsCode c ∧ lookup ebSmallBack c = some d := by
  refine ⟨?_, lookup_all (P := fun d c => lookup ebSmallBack c = some d) (by decide) h⟩
  have := lookup_all (P := fun _ c => c = [0xC1] ∨ c = [0xC2] ∨ c = [0x45, 0x41] ∨ c = [0x45, 0x42]) (by decide) h
  rcases this with rfl | rfl | rfl | rfl
  · exact .inl ⟨_, rfl, by decide, by decide⟩
  · exact .inl ⟨_, rfl, by decide, by decide⟩
  · exact .inr ⟨_, _, rfl, by decide, by decide⟩
  · exact .inr ⟨_, _, rfl, by decide, by decide⟩

/-- Encoding A, U+4E00, B in two calls. -/
example : ∃ ds ins', Session (fun _ => onePhase .to_ (ebcdicEncoder (Lens.self Bool) (compiled Bool (encoderLines ebSmall))))
      ((solo true).init (fun _ => onePhase .to_ (ebcdicEncoder (Lens.self Bool) (compiled Bool (encoderLines ebSmall)))) (fun _ _ => ebcdicInit))
      (twoCalls [1, 0x4E, 0x00] [1, 0x42]) ds ins' ∧
    nonEmpty ins'.pending = [[0x0E], [0x45, 0x41], [0x0F], [0xC2]] ∧ (ins'.ph 1).priv 0 = false := by
  obtain ⟨ds, ins', a, b, c, _⟩ := two_calls (C40_encode_partial (placed_solo _ (fun _ _ => ebcdicInit) true) ebSmall_ok (e := Lens.self Bool) (only_one .to_ _) (fun _ => rfl))
    (x := [1, 0x4E, 0x00]) (y := [1, 0x42]) (by decide) (by decide) ⟨rfl, by decide⟩
  exact ⟨ds, ins', a, b.trans (by decide), c⟩

/-- Decoding the same, cut in the middle of a code. -/
example : ∃ ds ins', Session (fun _ => onePhase .from_ (ebcdicDecoder (Lens.self Bool) (compiled Bool (decoderLines ebSmallBack))))
      ((solo true).init (fun _ => onePhase .from_ (ebcdicDecoder (Lens.self Bool) (compiled Bool (decoderLines ebSmallBack)))) (fun _ _ => ebcdicInit))
      (twoCalls [0xC1, 0x0E, 0x45] [0x41, 0x0F, 0x45]) ds ins' ∧
    nonEmpty ins'.pending = [[1, 0x41], [1, 0x4E, 0x00], [1, 0x6E]] := by
  obtain ⟨ds, ins', a, b, _⟩ := two_calls (C40_decode_partial (placed_solo _ (fun _ _ => ebcdicInit) true) (by simp) (by simp) ebSmallBack_ok ebSmall_shifts (e := Lens.self Bool) (only_one .from_ _) (fun _ => rfl))
    (x := [0xC1, 0x0E, 0x45]) (y := [0x41, 0x0F, 0x45]) (by decide) (by decide) ⟨rfl, by decide⟩
  exact ⟨ds, ins', a, b.trans (by decide)⟩

/-- The hypotheses of the round trip. -/
example : ∃ P1 P2 : Proc Bool, Converts (fun k => if k = 1 then onePhase .to_ (ebcdicEncoder (Lens.self Bool) (compiled Bool (encoderLines ebSmall)))
        else onePhase .from_ (ebcdicDecoder (Lens.self Bool) (compiled Bool (decoderLines ebSmallBack)))) (fun _ _ => ebcdicInit)
      { ph := fun _ => { priv := fun _ => true }, phasen := 2 } [P1, P2] ∧
    P2.out (P1.out [[1, 0x41], [1, 0x4E, 0x00], [1, 0x42]]) = [[1, 0x41], [1, 0x4E, 0x00], [1, 0x42]] := by
  obtain ⟨P1, P2, h1, h2⟩ := C40_roundtrip_partial (π := Bool) (pre := []) (post := [])
    (st := fun k => if k = 1 then onePhase .to_ (ebcdicEncoder (Lens.self Bool) (compiled Bool (encoderLines ebSmall)))
        else onePhase .from_ (ebcdicDecoder (Lens.self Bool) (compiled Bool (decoderLines ebSmallBack)))) (ip := fun _ _ => ebcdicInit)
    (ins := { ph := fun _ => { priv := fun _ => true }, phasen := 2 })
    ⟨by intro k h; simp at h, rfl, rfl, by intro k h; simp at h, by intro k h; simp at h, by intro k h; simp at h, rfl⟩
    (by simp) ebSmall_ok ebSmallBack_ok ebSmall_shifts (only_one .to_ _) (fun _ => rfl) (only_one .from_ _) (fun _ => rfl)
  exact ⟨P1, P2, h1, (h2 [[1, 0x41], [1, 0x4E, 0x00], [1, 0x42]] (by
    intro d hd
    have : (lookup ebSmall d).isSome = true := by revert d; decide
    obtain ⟨c, hc⟩ := Option.isSome_iff_exists.1 this
    exact ⟨c, hc, ebSmall_inv d c hc⟩)).2.2.1⟩

end Verif.Props
