import Verif.Spec.Mended
import Verif.Props.Transcode
/-
C70: UTF-8 input with errors.
-/
namespace Verif.Props
open Verif.Spec
open Verif.Engine hiding Datum step

variable {π : Type}

/-- What a decoder that finds characters and gives up on anything else makes of such input. -/
theorem mended_decode {rs : Nat → Reader π} {n : Nat} {inv : (Nat → π) → Prop} {enc : Nat → List Nat} {valid range : Nat → Prop}
    (hb : ∀ cp, valid cp → enc cp ≠ [])
    (hc : ∀ p cp rest, inv p → valid cp → IsBytes (enc cp ++ rest) →
      ∃ p', inv p' ∧ resume rs n 0 p [] (enc cp ++ rest) = (p', some (rest, [uniDatum cp])))
    (hx : ∀ p b rest, inv p → (∀ cp, valid cp → ¬enc cp <+: b :: rest) → ¬Unfinished enc range (b :: rest) → IsBytes (b :: rest) →
      ∃ p', inv p' ∧ resume rs n 0 p [] (b :: rest) = (p', none))
    {bs cps : List Nat} {k : Nat} (hm : Mended enc valid range bs cps k) (hbs : IsBytes bs) (p : Nat → π) (hp : inv p) :
    (decode rs n p bs).out = textData cps ∧ (decode rs n p bs).errors = k := by
  induction hm generalizing p with
  | nil => rw [decode_nil]; exact ⟨rfl, rfl⟩
  | @char cp rest cps k hv _ ih =>
    obtain ⟨p', h1, h6⟩ := hc p cp rest hp hv hbs
    rw [(decode_some (by simp [hb cp hv]) h6).1]
    obtain ⟨a, b⟩ := ih (fun x h => hbs x (by simp [h])) p' h1
    simp only [a, b, and_true]
    rfl
  | @skip b rest cps k h1 h2 _ ih =>
    obtain ⟨p', g1, g2⟩ := hx p b rest hp h1 h2 hbs
    rw [(decode_none g2).1]
    obtain ⟨a, b⟩ := ih (fun x h => hbs x (by simp [h])) p' g1
    simp only [a, b, and_self]

/-- The characters the UTF-8 decoder takes. -/
def Utf8Char (cp : Nat) : Prop := 1 ≤ cp ∧ cp < 0x200000 ∧ ¬Surrogate cp

/-- The code points whose encodings it begins to read. -/
def Utf8Range (cp : Nat) : Prop := 1 ≤ cp ∧ cp < 0x200000

theorem utf8_resume_char {e : Lens π Utf8.Priv} {p : Nat → π} (hp : e.get (p 1) = .zero) {cp : Nat} (hv : Utf8Char cp) {rest : List Nat}
    (hr : IsBytes (Spec.utf8 cp ++ rest)) :
    ∃ p', e.get (p' 1) = .zero ∧ resume (tableThen Ascii.fromRules e (Utf8.machine {})) 1 0 p [] (Spec.utf8 cp ++ rest) = (p', some (rest, [uniDatum cp])) := by
  obtain ⟨h1, h2, h3⟩ := hv
  by_cases hc : cp < 0x80
  · refine ⟨setPriv p 0 (p 0), by simpa [setPriv] using hp, ?_⟩
    have hl := (fromAscii_lookup [cp] [[1, cp]]).2 ⟨cp, h1, hc, rfl, rfl⟩
    have := table_hit fromAscii_prefixFree hl (by simp) (p 0) rest
    have e1 : Spec.utf8 cp = [cp] := by simp [Spec.utf8, hc]
    have e2 : uniDatum cp = [1, cp] := by rw [uniDatum, be1 (by omega)]
    have e3 : (tableThen Ascii.fromRules e (Utf8.machine {}) 0) = Reader.table Ascii.fromRules := rfl
    rw [e1, resume_eq, e3, this, e2]
  · have hm : Multibyte cp := ⟨by omega, by omega, h3⟩
    have hf := C13_accepts cp hm rest
    obtain ⟨b, u, hu⟩ := List.exists_cons_of_ne_nil (utf8_bytes (cp := cp) h2).2
    obtain ⟨x', k1, k2⟩ := tableDecoder_resume (R := Ascii.fromRules) utf8_plain (by rw [hp]; exact utf8Inv_zero) (utf8_bytes (cp := cp) h2).2
      hr (by
        intro r hr' b' hb' hpre
        obtain ⟨c, hc1, hc2, rfl⟩ := fromAscii_mem hr'
        rw [hu] at hb'
        simp only [List.head?_cons, Option.some.injEq] at hb'
        subst hb'
        have : 0x80 ≤ b := by
          have := congrArg List.head? hu
          unfold Spec.utf8 utf8Form at this
          (repeat' split at this) <;> simp at this <;> omega
        obtain ⟨t, ht⟩ := hpre
        simp only [List.cons_append, List.nil_append, List.cons.injEq] at ht
        omega) (by rw [hp]; exact hf)
    exact ⟨_, by simpa [setPriv] using k1, k2⟩

theorem utf8_resume_skip {e : Lens π Utf8.Priv} {p : Nat → π} (hp : e.get (p 1) = .zero) {b : Nat} {rest : List Nat}
    (h1 : ∀ cp, Utf8Char cp → ¬Spec.utf8 cp <+: b :: rest) (h2 : ¬Unfinished Spec.utf8 Utf8Range (b :: rest)) (hr : IsBytes (b :: rest)) :
    ∃ p', e.get (p' 1) = .zero ∧ resume (tableThen Ascii.fromRules e (Utf8.machine {})) 1 0 p [] (b :: rest) = (p', none) := by
  have hb : ∀ r ∈ Ascii.fromRules, ¬[b] <+: r.1 := by
    intro r hr' hpre
    obtain ⟨c, hc1, hc2, rfl⟩ := fromAscii_mem hr'
    obtain ⟨t, ht⟩ := hpre
    simp only [List.cons_append, List.nil_append, List.cons.injEq] at ht
    obtain ⟨rfl, _⟩ := ht
    refine h1 b ⟨hc1, by omega, by unfold Surrogate; omega⟩ ?_
    simp [Spec.utf8, hc2]
  have h6 : (tableThen Ascii.fromRules e (Utf8.machine {}) 0).read (p 0) [] (b :: rest) = .dead (p 0) := table_skip hb _ _
  have hsp : setPriv p 0 (p 0) = p := by
    funext k; simp only [setPriv]; split
    · rename_i h; rw [h]
    · rfl
  rcases C13_classification (b :: rest) hr with ⟨cp, tl, hm, he, hf⟩ | ⟨cp, tl, c1, c2, c3, c4, t, hf⟩ | ⟨k, hf, _⟩
  · exact absurd ⟨tl, he.symm⟩ (h1 cp ⟨by have := hm.1; omega, hm.2.1, hm.2.2⟩)
  · exact absurd ⟨cp, tl, ⟨by omega, c2⟩, c3, c4⟩ h2
  · rw [← hp] at hf
    obtain ⟨x', h3, h4⟩ := feed_on_ret hf
    have h5 := read_dead (utf8_plain.on e) hr (u := []) (by rw [hp]; exact utf8Inv_zero) h3
    refine ⟨setPriv p 1 x', by simp only [setPriv, if_true, h4]; exact hp, ?_⟩
    rw [resume_eq, h6]
    simp only [hsp, retry]
    rw [resume_eq, List.nil_append]
    have e1 : tableThen Ascii.fromRules e (Utf8.machine {}) (0 + 1) = ((Utf8.machine {}).on e).reader := rfl
    rw [e1, h5]
    rfl

/-- Input that does not end in the middle of a character can be read, … -/
theorem C70_total (bs : List Nat) (h : ∀ u s, bs = u ++ s → s ≠ [] → ¬Unfinished Spec.utf8 Utf8Range s) :
    ∃ cps n, Mended Spec.utf8 Utf8Char Utf8Range bs cps n := by
  have key : ∀ (k : Nat) (bs : List Nat), bs.length ≤ k → (∀ u s, bs = u ++ s → s ≠ [] → ¬Unfinished Spec.utf8 Utf8Range s) →
      ∃ cps n, Mended Spec.utf8 Utf8Char Utf8Range bs cps n := by
    intro k
    induction k with
    | zero =>
      intro bs hk _
      have : bs = [] := List.length_eq_zero_iff.1 (by omega)
      subst this
      exact ⟨[], 0, .nil⟩
    | succ k ih =>
      intro bs hk h
      cases bs with
      | nil => exact ⟨[], 0, .nil⟩
      | cons b rest =>
        by_cases hc : ∃ cp, Utf8Char cp ∧ Spec.utf8 cp <+: b :: rest
        · obtain ⟨cp, h1, tl, htl⟩ := hc
          have hne := (utf8_bytes (cp := cp) h1.2.1).2
          have hl : 0 < (Spec.utf8 cp).length := List.length_pos_iff.2 hne
          have hlen := congrArg List.length htl
          simp only [List.length_append, List.length_cons] at hlen
          simp only [List.length_cons] at hk
          obtain ⟨cps, n, hm⟩ := ih tl (by omega) (fun u s e => h (Spec.utf8 cp ++ u) s (by rw [← htl, e, List.append_assoc]))
          exact ⟨cp :: cps, n, htl ▸ .char h1 hm⟩
        · obtain ⟨cps, n, hm⟩ := ih rest (by simp at hk; omega) (fun u s e => h (b :: u) s (by rw [e]; rfl))
          exact ⟨cps, n + 1, .skip (fun cp h1 h2 => hc ⟨cp, h1, h2⟩) (h [] _ rfl (by simp)) hm⟩
  exact key _ bs (Nat.le_refl _) h

/-- … in one way only. -/
theorem C70_unique {bs cps cps' : List Nat} {n n' : Nat} (hb : IsBytes bs) (h : Mended Spec.utf8 Utf8Char Utf8Range bs cps n)
    (h' : Mended Spec.utf8 Utf8Char Utf8Range bs cps' n') : textData cps = textData cps' ∧ n = n' := by
  have run : ∀ {cps : List Nat} {n : Nat}, Mended Spec.utf8 Utf8Char Utf8Range bs cps n → _ := fun {cps n} hm =>
    mended_decode (rs := tableThen Ascii.fromRules (Lens.self _) (Utf8.machine {})) (n := 1) (inv := fun p => (Lens.self Utf8.Priv).get (p 1) = .zero)
      (fun cp h => (utf8_bytes h.2.1).2) (fun p cp rest h1 h2 h3 => utf8_resume_char h1 h2 h3) (fun p b rest h1 h2 h3 h4 => utf8_resume_skip h1 h2 h3 h4)
      hm hb (fun _ => .zero) rfl
  obtain ⟨a1, a2⟩ := run h
  obtain ⟨b1, b2⟩ := run h'
  exact ⟨a1.symm.trans b1, a2.symm.trans b2⟩

/-- Every byte is in a character or counted. -/
theorem C70_counted {bs cps : List Nat} {n : Nat} (h : Mended Spec.utf8 Utf8Char Utf8Range bs cps n) : bs.length = (cps.flatMap Spec.utf8).length + n := by
  induction h with
  | nil => rfl
  | char _ _ ih => simp only [List.length_append, List.flatMap_cons, ih]; omega
  | skip _ _ _ ih => simp only [List.length_cons, ih]; omega

/-- `UTF-8` to any encoding of C63, any bytes in one piece that do not end in the middle of a character: the characters found come out in the
order of the input, and `ierr` goes up by the number of bytes that belong to none. -/
theorem C70_errors {st : Nat → Static π} {ip : Nat → Nat → π → π} {ins : Ins π} {b : Target} (hn : ins.phasen = 2)
    (ha : Source.utf8.Is (st 1) (initPriv st ip ins 1)) (hb : b.Is (st 2)) (bs : List Nat) (hbs : IsBytes bs) (cps : List Nat) (n : Nat)
    (hm : Mended Spec.utf8 Utf8Char Utf8Range bs cps n) (hc : ∀ cp ∈ cps, cp ≤ 0x10FFFF) (mode : Mode) (hmode : mode ≠ .null) :
    ∃ ds ins', Session st (ins.init st ip) [⟨some bs, true, mode⟩] ds ins' ∧
      (ds.map (fun d => d.bytes)).flatten ++ ins'.pending.flatten = (cps.filter b.takes).flatMap b.enc ∧
      ins'.ierr = ins.ierr + n ∧ ins'.oerr = ins.oerr + (cps.filter fun cp => !b.takes cp).length := by
  cases ha with
  | utf8 e h hz =>
    have hD := tableDecoder_real h fromAscii_prefixFree fromAscii_bytes utf8_plain (by rw [hz]; exact utf8Inv_zero)
    obtain ⟨E, hE1, hE2⟩ := target_encodes hb (initPriv st ip ins 2)
    obtain ⟨d1, d2⟩ := mended_decode (rs := tableThen Ascii.fromRules e (Utf8.machine {})) (n := 1) (inv := fun p => e.get (p 1) = .zero)
      (fun cp h => (utf8_bytes h.2.1).2) (fun p cp rest h1 h2 h3 => utf8_resume_char h1 h2 h3) (fun p b rest h1 h2 h3 h4 => utf8_resume_skip h1 h2 h3 h4)
      hm hbs (initPriv st ip ins 1) hz
    have hs : ∀ cp ∈ cps, Scalar cp := by
      have : ∀ cp ∈ cps, Utf8Char cp := by
        clear d1 d2 hc
        induction hm with
        | nil => simp
        | char h1 _ ih =>
          intro c hcc
          rcases List.mem_cons.1 hcc with rfl | hcc
          · exact h1
          · exact ih (fun x h => hbs x (by simp [h])) c hcc
        | skip _ _ _ ih => exact ih (fun x h => hbs x (by simp [h]))
      intro cp h
      exact ⟨(this cp h).1, hc cp h, (this cp h).2.2⟩
    obtain ⟨e1, e2, e3, e4⟩ := hE2.text cps hs
    have hch : Converts st ip ins [decoderProc (tableThen Ascii.fromRules e (Utf8.machine {})) 1 (initPriv st ip ins 1), E] := by
      refine chain_converts ⟨by simp, ?_, ?_⟩ (by simp [hn])
      · intro k hk
        match k, hk with
        | 0, _ => exact hD
        | 1, _ => exact hE1
        | k + 2, hk => simp at hk; omega
      · intro k hk _
        match k, hk with
        | 0, _ => exact hE2.dec
        | k + 1, hk => simp at hk; omega
    have f1 : (decoderProc (tableThen Ascii.fromRules e (Utf8.machine {})) 1 (initPriv st ip ins 1)).out [bs] = textData cps := by
      simp only [decoderProc, List.flatten_cons, List.flatten_nil, List.append_nil, d1]
    have f2 : (decoderProc (tableThen Ascii.fromRules e (Utf8.machine {})) 1 (initPriv st ip ins 1)).inErrors [bs] = n := by
      simp only [decoderProc, List.flatten_cons, List.flatten_nil, List.append_nil, d2]
    obtain ⟨ds, ins', k1, k2, _, k4, k5, _⟩ := hch [] ⟨some bs, true, mode⟩ (by simp) rfl (by simpa using hmode) (by simpa using hbs) [bs] rfl
      ⟨.inr (by simp), trivial, by rw [f1]; exact ⟨e2, e4, trivial⟩⟩
    refine ⟨ds, ins', k1, ?_, ?_, ?_⟩
    · rw [k2]
      simp only [runProcs, f1, e1, List.flatMap_def]
    · rw [k4]
      simp only [runIn, f1, f2, e2, Nat.add_zero]
    · rw [k5]
      simp only [runOut, f1, e3]
      simp [decoderProc]

-- `A`, an illegal byte, a lead byte without its continuation, `A`, an encoded surrogate, `B`: three characters, five errors.
theorem mended_example : Mended Spec.utf8 Utf8Char Utf8Range [0x41, 0xFF, 0xC3, 0x41, 0xED, 0xA0, 0x80, 0x42] [0x41, 0x41, 0x42] 5 := by
  have ch : ∀ {c : Nat} {rest cps : List Nat} {n : Nat}, 1 ≤ c → c < 0x80 → Mended Spec.utf8 Utf8Char Utf8Range rest cps n →
      Mended Spec.utf8 Utf8Char Utf8Range (c :: rest) (c :: cps) n := by
    intro c rest cps n h1 h2 h
    have := Mended.char (enc := Spec.utf8) (valid := Utf8Char) (range := Utf8Range) (cp := c) ⟨h1, by omega, by unfold Surrogate; omega⟩ h
    simpa [Spec.utf8, h2] using this
  refine ch (by omega) (by omega) (.skip ?_ ?_ (.skip ?_ ?_ (ch (by omega) (by omega) (.skip ?_ ?_ (.skip ?_ ?_ (.skip ?_ ?_ (ch (by omega) (by omega) .nil)))))))
  all_goals first
    | (rintro cp ⟨h1, h2, h3⟩ ⟨t, hp⟩
       unfold Surrogate at h3
       unfold Spec.utf8 utf8Form at hp
       (repeat' split at hp) <;> simp [utf8Tail] at hp <;> omega)
    | (rintro ⟨cp, tl, ⟨h1, h2⟩, h4, hp⟩
       unfold Spec.utf8 utf8Form at hp
       (repeat' split at hp) <;> simp [utf8Tail] at hp <;> omega)

example : ∃ ds ins', Session utf8To16 (utf8Ins.init utf8To16 (fun _ _ _ => .zero)) [⟨some [0x41, 0xFF, 0xC3, 0x41, 0xED, 0xA0, 0x80, 0x42], true, .file⟩] ds ins' ∧
    (ds.map (fun d => d.bytes)).flatten ++ ins'.pending.flatten = [0x41, 0x00, 0x41, 0x00, 0x42, 0x00] ∧ ins'.ierr = 5 ∧ ins'.oerr = 0 := by
  obtain ⟨ds, ins', k1, k2, k3, k4⟩ := C70_errors (st := utf8To16) (ip := fun _ _ _ => .zero) (ins := utf8Ins) (b := .utf16 true) rfl
    (utf8To16_source _ rfl) (.utf16 true ⟨rfl, rfl, rfl⟩) _ (by decide) _ _ mended_example (by decide) .file (by decide)
  exact ⟨ds, ins', k1, k2.trans (by decide), k3, k4⟩

/-! ### C71: UTF-16 input with errors -/

/-- After a high surrogate without its low one, `UTF-16` decoding goes on one byte later: from then on the units are read across their
boundaries. -/
theorem C71_shift {e : Lens π Utf16.Priv} (le : Bool) {p : Nat → π} (hp : (e.get (p 0)).status = 0) (hJ : Bytes16 (e.get (p 0))) (a b c d : Nat)
    (rest : List Nat) (hb : IsBytes (a :: b :: c :: d :: rest)) (h1 : 0xD800 ≤ unit le a b ∧ unit le a b ≤ 0xDBFF)
    (h2 : ¬(0xDC00 ≤ unit le c d ∧ unit le c d ≤ 0xDFFF)) :
    ∃ p', (e.get (p' 0)).status = 0 ∧
      (decode (fun _ => ((Utf16.machine16 le).on e).reader) 0 p (a :: b :: c :: d :: rest)).out =
        (decode (fun _ => ((Utf16.machine16 le).on e).reader) 0 p' (b :: c :: d :: rest)).out ∧
      (decode (fun _ => ((Utf16.machine16 le).on e).reader) 0 p (a :: b :: c :: d :: rest)).errors =
        (decode (fun _ => ((Utf16.machine16 le).on e).reader) 0 p' (b :: c :: d :: rest)).errors + 1 := by
  obtain ⟨t', k1, k2⟩ := (C18_decode le _ hp _ hb).2.1 a b c d rest rfl h1
  rw [if_neg h2] at k2
  obtain ⟨x', h3, h4⟩ := feed_on_ret k2
  have h5 := read_dead ((machine16_plain le).on e) hb (u := []) hJ h3
  have h6 : resume (fun _ => ((Utf16.machine16 le).on e).reader) 0 0 p [] (a :: b :: c :: d :: rest) = (setPriv p 0 x', none) := by
    rw [resume_eq, h5]
    rfl
  refine ⟨setPriv p 0 x', by simp only [setPriv, if_true, h4]; exact k1, ?_, ?_⟩
  · rw [(decode_none h6).1]
  · rw [(decode_none h6).1]

/-- The text after an unpaired surrogate is lost: of U+D800 and then U+6162, U+6364, U+6566 `UTF-16BE:UCS-2BE` makes U+0061, U+6263, U+6465 and a
second error. -/
theorem C71_violated : ∃ ds ins', Session utf16ToUcs2 (Ins.init utf16ToUcs2 (fun _ _ t => { t with status := 0 }) { ph := fun _ => { priv := fun _ => ⟨0, 0, 0, 0, 0⟩ }, phasen := 2 })
      [⟨some [0xD8, 0x00, 0x61, 0x62, 0x63, 0x64, 0x65, 0x66], true, .file⟩] ds ins' ∧
    (ds.map (fun d => d.bytes)).flatten ++ ins'.pending.flatten = [0x00, 0x61, 0x62, 0x63, 0x64, 0x65] ∧ ins'.ierr = 2 ∧ ins'.oerr = 0 := by
  exact ⟨_, _, .cons (call_eval 80 (by decide +kernel)) (.nil _), by decide +kernel, by decide +kernel⟩

end Verif.Props
