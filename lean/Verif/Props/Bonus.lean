import Verif.Spec.Bonus
import Verif.Proofs.Bonus
import Verif.Props.Stage
import Verif.Props.Score

/-! C90: `ZH-BONUS`. -/

namespace Verif.Props
open Verif.Spec
open Verif.Engine hiding Datum step

variable {π : Type}

/-! ### Numbers whose bytes begin with those of another -/

theorem beBytes_prefix {a b : Nat} (h : beBytes a <+: beBytes b) : ∃ k, b / 256 ^ k = a := by
  obtain ⟨x, hx⟩ := h
  have hb : ∀ c ∈ x, c < 256 := by
    intro c hc
    exact beBytes_lt b c (by rw [← hx]; simp [hc])
  have hv := beBytes_value b
  rw [← hx, List.foldl_append, beBytes_value] at hv
  refine ⟨x.length, ?_⟩
  rw [← hv]
  clear hv hx
  induction x generalizing a with
  | nil => simp
  | cons c x ih =>
    have := hb c (by simp)
    rw [List.foldl_cons, List.length_cons, Nat.pow_succ, ← Nat.div_div_eq_div_mul, ih fun y hy => hb y (by simp [hy])]
    omega

theorem prefix_beBytes {a : Nat} (ha : a ≠ 0) (k : Nat) : ∀ {b : Nat}, b / 256 ^ k = a → beBytes a <+: beBytes b := by
  induction k with
  | zero => intro b h; simp at h; rw [h]; exact List.prefix_refl _
  | succ k ih =>
    intro b h
    rw [Nat.pow_succ, Nat.mul_comm, ← Nat.div_div_eq_div_mul] at h
    have hb : ¬ b < 256 := by
      intro hb
      rw [Nat.div_eq_of_lt hb] at h
      simp at h
      exact ha h.symm
    have h1 := ih h
    rw [beBytes.eq_def b, if_neg hb]
    exact h1.trans (List.prefix_append _ _)

/-! ### The rows -/

/-- The rows of ZH-BONUS.txt, as rules on bytes. -/
abbrev zhRules : Rules Nat (List Datum) := symbolRules (Bonus.zhBonus.map Bonus.row)

theorem zhRules_mem {r : List Nat × List Datum} (h : r ∈ zhRules) : ∃ x ∈ Bonus.zhBonus, r = (uniDatum x.1, [[x.2], uniDatum x.1]) := by
  simp only [zhRules, symbolRules, List.map_map, List.mem_map] at h
  obtain ⟨x, hx, rfl⟩ := h
  exact ⟨x, hx, rfl⟩

theorem zhBonus_facts : ∀ x ∈ Bonus.zhBonus, x.1 ∈ [0x23, 0xC5, 0xFC] ∨ (0x3639 ≤ x.1 ∧ x.1 ≤ 0x233B4 ∧ x.1 / 256 ≠ 0xC5 ∧ x.1 / 256 ≠ 0xFC) := by decide +kernel

theorem zhBonus_small : ∀ x ∈ Bonus.zhBonus, x.2 < 256 := by decide +kernel

theorem zhBonus_apart : ∀ x ∈ Bonus.zhBonus, ∀ y ∈ Bonus.zhBonus, (y.1 = x.1 ∨ y.1 / 256 = x.1 ∨ y.1 / 65536 = x.1) → x = y := by decide +kernel

/-- For code points the prefix is one of three. -/
theorem uni_prefix {a b : Nat} (hb : b ≤ 0x10FFFF) (ha : a ≠ 0) : uniDatum a <+: uniDatum b ↔ b = a ∨ b / 256 = a ∨ b / 65536 = a := by
  simp only [uniDatum, List.cons_prefix_cons, true_and]
  constructor
  · intro h
    obtain ⟨k, hk⟩ := beBytes_prefix h
    match k with
    | 0 => left; simpa using hk
    | 1 => right; left; simpa using hk
    | 2 => right; right; simpa using hk
    | k + 3 =>
      exfalso
      apply ha
      rw [← hk, Nat.div_eq_of_lt]
      have : 256 ^ 3 ≤ 256 ^ (k + 3) := Nat.pow_le_pow_right (by omega) (by omega)
      omega
  · rintro (h | h | h)
    · exact prefix_beBytes ha 0 (by simpa using h)
    · exact prefix_beBytes ha 1 (by simpa using h)
    · exact prefix_beBytes ha 2 (by simpa using h)

theorem zhRules_free : PatternsApart zhRules := by
  intro r hr r' hr' h
  obtain ⟨x, hx, rfl⟩ := zhRules_mem hr
  obtain ⟨y, hy, rfl⟩ := zhRules_mem hr'
  have fx := zhBonus_facts x hx
  have fy := zhBonus_facts y hy
  simp only [List.mem_cons, List.not_mem_nil, or_false] at fx fy
  obtain rfl := zhBonus_apart x hx y hy ((uni_prefix (by omega) (by omega)).1 h)
  rfl

/-- The row a datum begins with. -/
def bonusRow (d : Datum) : Option (Nat × Nat) := Bonus.zhBonus.find? fun r => (uniDatum r.1).isPrefixOf d

/-- What a datum becomes. -/
def bonusOut (d : Datum) : Datum := ((bonusRow d).map fun r => uniDatum r.1).getD d

/-- What a datum adds. -/
def bonusAmount (d : Datum) : Nat := ((bonusRow d).map (·.2)).getD 0

theorem bonus_act (t : Nat) (d : Datum) : (bonusHandler zhRules).act t d = (bonusRow d).map fun r => (t + r.2, [uniDatum r.1], false) := by
  simp only [bonusHandler, bonusRow, zhRules, symbolRules, List.map_map]
  induction Bonus.zhBonus with
  | nil => rfl
  | cons r rs ih =>
    simp only [List.map_cons, List.find?_cons]
    by_cases h : (uniDatum r.1).isPrefixOf d
    · simp [Bonus.row, symbols, h]
    · have h' : (uniDatum r.1).isPrefixOf d = false := Bool.not_eq_true _ ▸ h
      simp only [Function.comp, Bonus.row, symbols, h']
      exact ih

theorem run_bonus (ds : List Datum) (t : Nat) : ((bonusHandler zhRules).run true false t ds).out = ds.map bonusOut ∧
    ((bonusHandler zhRules).run true false t ds).priv = t + (ds.map bonusAmount).sum := by
  induction ds generalizing t with
  | nil => exact ⟨rfl, rfl⟩
  | cons d ds ih =>
    simp only [Handler.run, bonus_act]
    cases h : bonusRow d with
    | none =>
      obtain ⟨a, b⟩ := ih t
      refine ⟨?_, ?_⟩
      · simp [Out.after, a, bonusOut, h]
      · simp [Out.after, b, bonusAmount, h]
    | some r =>
      obtain ⟨a, b⟩ := ih (t + r.2)
      refine ⟨?_, ?_⟩
      · simp [Out.after, a, bonusOut, h]
      · simp [Out.after, b, bonusAmount, h]; omega

theorem bonus_sound : Sound (bonusHandler zhRules) (fun _ => True) where
  act := by
    intro t d _ _ _ t' out b h
    rw [bonus_act] at h
    cases hr : bonusRow d with
    | none => rw [hr] at h; cases h
    | some r =>
      rw [hr] at h
      cases h
      refine ⟨trivial, ?_, by simp⟩
      intro x hx
      simp only [List.mem_cons, List.not_mem_nil, or_false] at hx
      exact hx ▸ uniDatum_bytes _
  flush := fun _ _ => ⟨trivial, by simp [bonusHandler]⟩

/-- The phase `s` is ZH-BONUS: any automaton for its table. -/
structure ZhBonus (s : Static π) (e : Lens π Nat) : Prop where
  type : s.type = .inter
  one : s.codecn = 0
  codec : ∃ t, s.codecs 0 = Bonus.codec e t ∧ Represents t zhRules

theorem ZhBonus.lone {s : Static π} {e : Lens π Nat} (h : ZhBonus s e) : Lone s e (bonusHandler zhRules) := by
  obtain ⟨t, h1, h2⟩ := h.codec
  refine ⟨by simp [h.type], h.one, bonus_member (by simp [h.type]) h1 zhRules_free h2 ?_ ?_⟩
  · intro r hr
    obtain ⟨x, _, rfl⟩ := zhRules_mem hr
    simp [uniDatum]
  · intro r hr
    obtain ⟨x, _, rfl⟩ := zhRules_mem hr
    exact uniDatum_bytes _

theorem ZhBonus.real {s : Static π} {e : Lens π Nat} (h : ZhBonus s e) {p : Nat → π} {t : Nat} (ht : e.get (p 0) = t) :
    Realises s (fun q => q = p) {
      out := fun ds => (nonEmpty ds).map bonusOut
      fin := fun ds q => e.get (q 0) = t + ((nonEmpty ds).map bonusAmount).sum } := by
  refine lone_real h.lone bonus_sound ht trivial rfl ?_
  intro ds _ _
  rw [show passes s = true by simp [passes, h.type]]
  obtain ⟨a, b⟩ := run_bonus (nonEmpty ds) t
  exact ⟨rfl, a.symm, rfl, fun q hq => hq.trans b⟩

/-! ### Texts -/

/-- What ZH-BONUS makes of a character: those of the three blocks U+2300, U+C500 and U+FC00 become "#", "Å" and "ü". -/
def blurred (cp : Nat) : Nat := if cp / 256 = 0x23 ∨ cp / 256 = 0xC5 ∨ cp / 256 = 0xFC then cp / 256 else cp

theorem zhBonus_three : (0x23, 1) ∈ Bonus.zhBonus ∧ (0xC5, 5) ∈ Bonus.zhBonus ∧ (0xFC, 5) ∈ Bonus.zhBonus := by decide +kernel

theorem find_first {rows : List (Nat × Nat)} {p : Nat × Nat → Bool} {x : Nat × Nat} (hx : x ∈ rows) (hp : p x = true)
    (hu : ∀ y ∈ rows, p y = true → y = x) : rows.find? p = some x := by
  cases h : rows.find? p with
  | none => exact absurd hp (by simpa using List.find?_eq_none.1 h x hx)
  | some y => rw [hu y (List.mem_of_find?_eq_some h) (List.find?_some h)]

theorem row_of_char {cp : Nat} (hc : cp ≤ 0x10FFFF) : bonusRow (uniDatum cp) = Bonus.zhBonus.find? fun r => r.1 = blurred cp := by
  unfold bonusRow
  have hp : ∀ r ∈ Bonus.zhBonus, ((uniDatum r.1).isPrefixOf (uniDatum cp) = true ↔ r.1 = blurred cp) := by
    intro r hr
    have f := zhBonus_facts r hr
    simp only [List.mem_cons, List.not_mem_nil, or_false] at f
    rw [List.isPrefixOf_iff_prefix, uni_prefix hc (by omega)]
    unfold blurred
    split <;> omega
  revert hp
  induction Bonus.zhBonus with
  | nil => intro _; rfl
  | cons r rs ih =>
    intro hp
    simp only [List.find?_cons]
    have h := hp r (by simp)
    by_cases hr : r.1 = blurred cp
    · simp only [hr, decide_true] at h ⊢
      simp only [h.2 trivial]
    · have h' : (uniDatum r.1).isPrefixOf (uniDatum cp) = false := by
        cases hx : (uniDatum r.1).isPrefixOf (uniDatum cp) with
        | false => rfl
        | true => exact absurd (h.1 hx) hr
      simp only [h', hr, decide_false]
      exact ih fun x hx => hp x (by simp [hx])

theorem char_out {cp : Nat} (hc : cp ≤ 0x10FFFF) : bonusOut (uniDatum cp) = uniDatum (blurred cp) ∧ bonusAmount (uniDatum cp) = bonusIn Bonus.zhBonus (blurred cp) := by
  unfold bonusOut bonusAmount bonusIn
  rw [row_of_char hc]
  refine ⟨?_, rfl⟩
  cases h : Bonus.zhBonus.find? fun r => r.1 = blurred cp with
  | some r =>
    have := List.find?_some h
    simp only [decide_eq_true_eq] at this
    simp [this]
  | none =>
    simp only [Option.map_none, Option.getD_none]
    have hn := List.find?_eq_none.1 h
    unfold blurred at hn ⊢
    split
    · rename_i hb
      rw [if_pos hb] at hn
      exfalso
      rcases hb with hb | hb | hb <;> rw [hb] at hn
      · exact hn _ zhBonus_three.1 (by simp)
      · exact hn _ zhBonus_three.2.1 (by simp)
      · exact hn _ zhBonus_three.2.2 (by simp)
    · rfl

theorem blurred_scalar {cp : Nat} (h : Scalar cp) : Scalar (blurred cp) := by
  unfold Scalar Surrogate at *
  unfold blurred
  split <;> omega

/-- The process on a text. -/
theorem bonus_text {cps : List Nat} (hc : ∀ cp ∈ cps, Scalar cp) : (nonEmpty (textData cps)).map bonusOut = textData (cps.map blurred) ∧
    ((nonEmpty (textData cps)).map bonusAmount).sum = bonusOf Bonus.zhBonus (cps.map blurred) := by
  rw [html_nonEmpty]
  induction cps with
  | nil => exact ⟨rfl, rfl⟩
  | cons c cps ih =>
    obtain ⟨a, b⟩ := ih fun x hx => hc x (by simp [hx])
    obtain ⟨k1, k2⟩ := char_out (hc c (by simp)).2.1
    have e : textData (c :: cps) = uniDatum c :: textData cps := rfl
    rw [e]
    simp only [List.map_cons, List.sum_cons, a, b, k1, k2]
    exact ⟨rfl, rfl⟩

/-- C90, what the code does: `ZH-BONUS` as any phase of a conversion, whatever automaton the table is compiled to, takes the character whose
row a datum *begins* with in place of the datum, and adds the bonus of that row to the counter. -/
theorem C90_exact {st : Nat → Static π} {ip : Nat → Nat → π → π} {ins : Ins π} {pre post : List (Proc π)} {s : Static π}
    (h : Placed st ip ins pre s post) {e : Lens π Nat} (hs : ZhBonus s e) (hi : ∀ x, ip (pre.length + 1) 0 x = x) :
    Converts st ip ins (pre ++ {
      out := fun ds => (nonEmpty ds).map bonusOut
      fin := fun ds q => e.get (q 0) = e.get ((ins.ph (pre.length + 1)).priv 0) + ((nonEmpty ds).map bonusAmount).sum } :: post) :=
  placed_converts h (hs.real (initPriv_get (placed_le h) (by omega) e id (fun x => by rw [hi]; rfl))) rfl

/-- C90, texts: every text comes out with the characters of three blocks replaced, and no other change, in any conversion of texts (C79). -/
theorem C90_stage {st : Nat → Static π} {ip : Nat → Nat → π → π} {ins : Ins π} {k : Nat} {e : Lens π Nat} (hs : ZhBonus (st k) e) :
    Stage st ip ins k 1 (List.map blurred) := by
  refine ⟨[{
      out := fun ds => (nonEmpty ds).map bonusOut
      fin := fun ds q => e.get (q 0) = e.get (initPriv st ip ins k 0) + ((nonEmpty ds).map bonusAmount).sum }], rfl, ?_, by simp, ?_⟩
  · intro j hj
    simp only [List.length_singleton] at hj
    obtain rfl : j = 0 := by omega
    simp only [Nat.zero_add, List.getElem_cons_zero]
    exact hs.real rfl
  · intro cps hc
    refine ⟨?_, ⟨rfl, trivial, trivial⟩, (bonus_text hc).1, rfl⟩
    intro x hx
    obtain ⟨cp, h, rfl⟩ := List.mem_map.1 hx
    exact blurred_scalar (hc cp h)

/-- C90, as far as it is true: a text without characters of the blocks U+2300–U+23FF, U+C500–U+C5FF and U+FC00–U+FCFF comes out of a conversion
with ZH-BONUS between reading and writing as without it. -/
theorem C90_text_partial {st : Nat → Static π} {ip : Nat → Nat → π → π} {ins : Ins π} {e : Lens π Nat} {b : Target} {T cps : List Nat} (hn : ins.phasen = 3)
    (ha : ReadsAs (st 1) (initPriv st ip ins 1) T cps) (hc : ∀ cp ∈ cps, Scalar cp) (hs : ZhBonus (st 2) e) (hb : b.Is (st 3))
    (hf : ∀ cp ∈ cps, cp / 256 ≠ 0x23 ∧ cp / 256 ≠ 0xC5 ∧ cp / 256 ≠ 0xFC)
    (as : List Arg) (l : Arg) (h1 : ∀ x ∈ as, x.flush = false) (h2 : l.flush = true) (h3 : ∀ x ∈ as ++ [l], x.mode ≠ .null)
    (h4 : ((as ++ [l]).filterMap (fun x => x.input)).flatten = T) :
    ∃ ds ins', Session st (ins.init st ip) (as ++ [l]) ds ins' ∧
      (ds.map (fun d => d.bytes)).flatten ++ ins'.pending.flatten = (cps.filter b.takes).flatMap b.enc ∧
      ins'.ierr = ins.ierr ∧ ins'.oerr = ins.oerr + (cps.filter fun cp => !b.takes cp).length := by
  have key := C79_convert (b := b) (n := 1) hn ha hc (C90_stage hs) hb as l h1 h2 h3 h4
  have e : cps.map blurred = cps := by
    have : ∀ cp ∈ cps, blurred cp = cp := by
      intro cp h
      have := hf cp h
      unfold blurred
      rw [if_neg (by omega)]
    rw [List.map_congr_left this, List.map_id']
  rw [e] at key
  exact key

/-- C90, the counter: in any conversion of a text, with any phases behind, SCORE goes up by the bonus of the characters that come out. -/
theorem C90_score {st : Nat → Static π} {ip : Nat → Nat → π → π} {ins : Ins π} {e : Lens π Nat} {T cps : List Nat} {post : List (Proc π)}
    (ha : ReadsAs (st 1) (initPriv st ip ins 1) T cps) (hpl : ∀ D, Realises (st 1) (fun q => q = initPriv st ip ins 1) D → Placed st ip ins [D] (st 2) post)
    (hc : ∀ cp ∈ cps, Scalar cp) (hs : ZhBonus (st 2) e) (hi : ∀ x, ip 2 0 x = x) (hok : OkRest post (textData (cps.map blurred)))
    (as : List Arg) (l : Arg) (h1 : ∀ x ∈ as, x.flush = false) (h2 : l.flush = true) (h3 : ∀ x ∈ as ++ [l], x.mode ≠ .null)
    (h4 : ((as ++ [l]).filterMap (fun x => x.input)).flatten = T) :
    ∃ ds ins', Session st (ins.init st ip) (as ++ [l]) ds ins' ∧
      e.get ((ins'.ph 2).priv 0) = e.get ((ins.ph 2).priv 0) + bonusOf Bonus.zhBonus (cps.map blurred) := by
  have key := text_through (P := {
      out := fun ds => (nonEmpty ds).map bonusOut
      fin := fun ds q => e.get (q 0) = e.get ((ins.ph 2).priv 0) + ((nonEmpty ds).map bonusAmount).sum }) ha hpl
    (fun D hp => C90_exact hp hs hi) ⟨rfl, trivial, by simp only [(bonus_text hc).1]; exact hok⟩ as l h1 h2 h3 h4
  simpa only [(bonus_text hc).2] using key

/-! ### Examples -/

/-- The automaton of the table. -/
def zhTrie {σ : Type} : Codec σ := trieCodec zhRules

theorem zhTrie_represents {σ : Type} : Represents (zhTrie : Codec σ) zhRules :=
  represents_trie _ (by
    intro r hr
    obtain ⟨x, _, rfl⟩ := zhRules_mem hr
    simp [uniDatum])

/-- "A", U+4E24, U+9176 in UTF-8, then ZH-BONUS: the counter goes from 10 to 10 + 0 + 1 + 3. -/
example : ∃ ds ins', Session (utf8Then .inter (Bonus.codec (otherLens Nat) zhTrie))
      ((startIns 10).init (utf8Then .inter (Bonus.codec (otherLens Nat) zhTrie)) (fun _ _ x => x))
      ([⟨some [0x41, 0xE4], false, .file⟩] ++ [⟨some [0xB8, 0xA4, 0xE9, 0x85, 0xB6], true, .file⟩]) ds ins' ∧
    ((ins'.ph 2).priv 0).2 = 14 := by
  obtain ⟨ds, ins', k1, k2⟩ := C90_score (st := utf8Then .inter (Bonus.codec (otherLens Nat) zhTrie)) (ip := fun _ _ x => x) (ins := startIns 10)
    (e := otherLens Nat) (post := []) (source_readsAs (utf8Then_source _ _ _ rfl) (cps := [0x41, 0x4E24, 0x9176]) (by unfold Source.Has Scalar; decide))
    (fun D hD => placed_behind rfl hD) (by unfold Scalar; decide) ⟨rfl, rfl, _, rfl, zhTrie_represents⟩ (fun _ => rfl) trivial
    [⟨some [0x41, 0xE4], false, .file⟩] ⟨some [0xB8, 0xA4, 0xE9, 0x85, 0xB6], true, .file⟩ (by decide) rfl (by decide) (by decide)
  exact ⟨ds, ins', k1, k2.trans (by decide +kernel)⟩

/-- C90 fails: the Hangul syllable U+C528 comes out as "Å" (U+C5), with a bonus of 5. -/
theorem C90_hangul_violated :
    ∃ ds ins', Session (fun _ => onePhase .inter (Bonus.codec (Lens.self Nat) zhTrie))
      ((solo 0).init (fun _ => onePhase .inter (Bonus.codec (Lens.self Nat) zhTrie)) (fun _ _ x => x)) (twoCalls (uniDatum 0xC528) (uniDatum 0x41)) ds ins' ∧
    nonEmpty ins'.pending = [uniDatum 0xC5, uniDatum 0x41] ∧ (ins'.ph 1).priv 0 = 5 ∧ bonusOf Bonus.zhBonus [0xC528, 0x41] = 0 := by
  obtain ⟨ds, ins', a, b, c, _⟩ := two_calls (C90_exact (s := onePhase .inter (Bonus.codec (Lens.self Nat) zhTrie)) (placed_solo _ (fun _ _ x => x) 0) (e := Lens.self Nat) ⟨rfl, rfl, _, rfl, zhTrie_represents⟩ (fun _ => rfl))
      (x := uniDatum 0xC528) (y := uniDatum 0x41) (by decide +kernel) (by decide +kernel) ⟨rfl, trivial⟩
  refine ⟨ds, ins', a, ?_, ?_, by decide +kernel⟩
  · rw [b]; decide +kernel
  · exact c.trans (by decide +kernel)

/-- The automaton of ZH-BONUS-PHRASE. -/
def phraseTrie {σ : Type} : Codec σ := trieCodec (symbolRules (Bonus.zhPhrases.map Bonus.phraseRow))

/-- UTF-8, then ZH-BONUS-PHRASE. -/
def phraseConv : Nat → Static (Utf8.Priv × Nat) := utf8Then .inter (Bonus.codec (otherLens Nat) phraseTrie)

/-- C90 fails of phrases in the same way: "é" followed by the character U+6350 becomes "é" and "c", because "éc" is a phrase of the table. -/
theorem C90_phrase_violated : ∃ ds ins', Session phraseConv ((startIns 0).init phraseConv (fun _ _ x => x)) [⟨some [0xC3, 0xA9, 0xE6, 0x8D, 0x90], true, .file⟩] ds ins' ∧
    (ds.map (fun d => d.bytes)).flatten ++ ins'.pending.flatten = uniDatum 0xE9 ++ uniDatum 0x63 ∧ ((ins'.ph 2).priv 0).2 = 6 := by
  exact ⟨_, _, .cons (call_eval 120 (by decide +kernel)) (.nil _), by decide +kernel, by decide +kernel⟩

end Verif.Props
