import Verif.Model.PhraseTables
import Verif.Props.Stage
import Verif.Props.Lex

/-! C100, C101: rule files that replace sequences of characters. -/

namespace Verif.Props
open Verif.Spec
open Verif.Engine hiding Datum step

variable {π : Type}

namespace Phrase

/-- As rules on data. -/
def toData (t : Phrases) : Rules Datum (List Datum) := t.map fun r => (r.1.map uniDatum, r.2.map uniDatum)

/-- All different. -/
def apart : List (List Nat) → Bool
  | [] => true
  | a :: l => l.all (fun b => b != a) && apart l

/-- The check for a table: patterns and replacements are not empty and consist of characters, and the patterns are different. -/
def fine (t : Phrases) : Bool :=
  apart (t.map Prod.fst) && t.all fun r => !r.1.isEmpty && !r.2.isEmpty && r.1.all goodChar && r.2.all goodChar

/-- Few rows, short ones. -/
def shortRows (t : Phrases) : Bool := Nat.ble t.length 1000 && t.all fun r => Nat.ble r.1.length 4 && Nat.ble r.2.length 10

structure Fine (t : Phrases) : Prop where
  distinct : ∀ p q q', (p, q) ∈ t → (p, q') ∈ t → q = q'
  rows : ∀ r ∈ t, r.1 ≠ [] ∧ r.2 ≠ [] ∧ (∀ x ∈ r.1, Scalar x) ∧ ∀ x ∈ r.2, Scalar x

theorem apart_unique : ∀ {t : Phrases}, apart (t.map Prod.fst) = true → ∀ p q q', (p, q) ∈ t → (p, q') ∈ t → q = q'
  | [], _, _, _, _, h, _ => by simp at h
  | r :: t, h, p, q, q', h1, h2 => by
    simp only [List.map_cons, apart, Bool.and_eq_true, List.all_eq_true, List.mem_map, bne_iff_ne, ne_eq, forall_exists_index, and_imp] at h
    rcases List.mem_cons.1 h1 with e1 | m1
    · rcases List.mem_cons.1 h2 with e2 | m2
      · rw [← e1] at e2; exact (Prod.mk.inj e2).2.symm
      · exact absurd (by rw [← e1]) (h.1 _ _ m2 rfl)
    · rcases List.mem_cons.1 h2 with e2 | m2
      · exact absurd (by rw [← e2]) (h.1 _ _ m1 rfl)
      · exact apart_unique h.2 p q q' m1 m2

theorem fine_iff {t : Phrases} (h : fine t = true) : Fine t := by
  simp only [fine, Bool.and_eq_true, List.all_eq_true, Bool.not_eq_true', List.isEmpty_eq_false_iff] at h
  exact ⟨apart_unique h.1, fun r hr => ⟨(h.2 r hr).1.1.1, (h.2 r hr).1.1.2, fun x hx => goodChar_iff ((h.2 r hr).1.2 x hx), fun x hx => goodChar_iff ((h.2 r hr).2 x hx)⟩⟩

theorem lookup_iff {t : Phrases} (h : Fine t) {p q : List Nat} : lookup t p = some q ↔ (p, q) ∈ t := by
  constructor
  · exact Verif.Spec.lookup_mem
  · intro hm
    exact MkTable.lookup_unique hm fun d hd => (h.distinct _ _ _ hm hd).symm

theorem longest_eq {α β : Type} [DecidableEq α] {R : Rules α β} {s : List α} {n : Nat} {b : β} (h1 : 1 ≤ n) (h2 : n ≤ s.length) (h3 : lookup R (s.take n) = some b)
    (h4 : ∀ k, n < k → k ≤ s.length → lookup R (s.take k) = none) : longest R s = some (n, b) := by
  unfold longest
  cases hl : longestUpTo R s s.length with
  | none =>
    have := longestUpTo_none.1 hl n h1 h2
    rw [this] at h3; cases h3
  | some r =>
    obtain ⟨m, b'⟩ := r
    obtain ⟨k1, k2, k3, k4⟩ := longestUpTo_some hl
    rcases Nat.lt_trichotomy m n with h | h | h
    · rw [k4 n h h2] at h3; cases h3
    · subst h; rw [k3] at h3; cases h3; rfl
    · rw [h4 m h k2] at k3; cases k3

/-- The text that is the result. -/
def replace (t : Phrases) (cps : List Nat) : List Nat := passMisses (tokens [t] cps)

theorem replace_nil (t : Phrases) : replace t [] = [] := by unfold replace; rw [Spec.tokens]; rfl

theorem replace_cons (t : Phrases) (c : Nat) (s : List Nat) : replace t (c :: s) =
    match longest t (c :: s) with
    | some (n, b) => b ++ replace t (s.drop (n - 1))
    | none => c :: replace t s := by
  unfold replace
  rw [Spec.tokens]
  simp only [firstMatch]
  cases longest t (c :: s) with
  | none => rfl
  | some r => rfl

/-- It is. -/
theorem replaced_replace {t : Phrases} (h : Fine t) : ∀ (n : Nat) (s : List Nat), s.length ≤ n → Swapped t s (replace t s)
  | _, [], _ => by rw [replace_nil]; exact .nil
  | 0, c :: s, hn => by simp at hn
  | n + 1, c :: s, hn => by
    rw [replace_cons]
    cases hl : longest t (c :: s) with
    | none =>
      refine .char ?_ (replaced_replace h n s (by simp at hn; omega))
      intro r hr hp
      have := longestUpTo_none.1 hl r.1.length (List.length_pos_iff.2 (h.rows r hr).1) hp.length_le
      rw [← List.prefix_iff_eq_take.1 hp, (lookup_iff h (q := r.2)).2 hr] at this
      cases this
    | some r =>
      obtain ⟨m, b⟩ := r
      obtain ⟨k1, k2, k3, k4⟩ := longestUpTo_some hl
      simp only
      have e : c :: s = (c :: s).take m ++ s.drop (m - 1) := by
        cases m with
        | zero => omega
        | succ m => simp
      have hlen : ((c :: s).take m).length = m := by rw [List.length_take]; omega
      rw [e]
      have goal := Swapped.row (t := t) (p := (c :: s).take m) (q := b) ((lookup_iff h).1 k3) ?_ (replaced_replace h n (s.drop (m - 1)) (by simp at hn ⊢; omega))
      · simpa [← e] using goal
      · intro r hr hp
        rw [← e] at hp
        rw [hlen]
        refine Nat.le_of_not_lt fun hlt => ?_
        have := k4 r.1.length hlt hp.length_le
        rw [← List.prefix_iff_eq_take.1 hp, (lookup_iff h (q := r.2)).2 hr] at this
        cases this

theorem prefix_same {a b s : List Nat} (ha : a <+: s) (hb : b <+: s) (h : a.length = b.length) : a = b := by
  rw [List.prefix_iff_eq_take.1 ha, List.prefix_iff_eq_take.1 hb, h]

/-- Nothing else is. -/
theorem replaced_unique {t : Phrases} (h : Fine t) {s u : List Nat} (h1 : Swapped t s u) : ∀ {v}, Swapped t s v → v = u := by
  induction h1 with
  | nil =>
    intro v h2
    generalize he : ([] : List Nat) = e at h2
    cases h2 with
    | nil => rfl
    | @row p q s u hm => 
      have := (h.rows _ hm).1
      simp at he
      exact absurd he.1 this
    | char => cases he
  | @row p q s u hm hx _ ih =>
    intro v h2
    generalize he : p ++ s = e at h2
    cases h2 with
    | nil =>
      have := (h.rows _ hm).1
      simp at he
      exact absurd he.1 this
    | @row p' q' s' u' hm' hx' hs' =>
      have a1 := hx _ hm' (by rw [he]; exact List.prefix_append _ _)
      have a2 := hx' _ hm (by rw [← he]; exact List.prefix_append _ _)
      simp only at a1 a2
      have ep : p = p' := prefix_same (s := p ++ s) (List.prefix_append _ _) (by rw [he]; exact List.prefix_append _ _) (by omega)
      subst ep
      have es : s = s' := List.append_cancel_left he
      subst es
      rw [h.distinct _ _ _ hm hm', ih hs']
    | @char c s' u' hn _ => exact absurd (by rw [← he]; exact List.prefix_append _ _) (hn _ hm)
  | @char c s u hn _ ih =>
    intro v h2
    generalize he : c :: s = e at h2
    cases h2 with
    | nil => cases he
    | @row p' q' s' u' hm' _ _ => exact absurd (by rw [he]; exact List.prefix_append _ _) (hn _ hm')
    | @char c' s' u' _ hs' =>
      cases he
      rw [ih hs']

theorem replaced_iff {t : Phrases} (h : Fine t) {s u : List Nat} : Swapped t s u ↔ u = replace t s :=
  ⟨fun k => replaced_unique h (replaced_replace h _ s (Nat.le_refl _)) k, fun k => k ▸ replaced_replace h _ s (Nat.le_refl _)⟩

theorem replaced_scalar {t : Phrases} (h : Fine t) {s u : List Nat} (h1 : Swapped t s u) (hs : ∀ x ∈ s, Scalar x) : ∀ x ∈ u, Scalar x := by
  induction h1 with
  | nil => simp
  | @row p q s u hm _ _ ih =>
    intro x hx
    rcases List.mem_append.1 hx with hx | hx
    · exact (h.rows _ hm).2.2.2 x hx
    · exact ih (fun y hy => hs y (by simp [hy])) x hx
  | char _ _ ih =>
    intro x hx
    rcases List.mem_cons.1 hx with rfl | hx
    · exact hs _ (by simp)
    · exact ih (fun y hy => hs y (by simp [hy])) x hx

/-! ### on data -/

theorem map_uni_inj : ∀ {a b : List Nat}, (∀ x ∈ a, Scalar x) → (∀ x ∈ b, Scalar x) → a.map uniDatum = b.map uniDatum → a = b
  | [], [], _, _, _ => rfl
  | [], _ :: _, _, _, h => by simp at h
  | _ :: _, [], _, _, h => by simp at h
  | x :: a, y :: b, ha, hb, h => by
    simp only [List.map_cons, List.cons.injEq] at h
    have h1 := ha x (by simp)
    have h2 := hb y (by simp)
    unfold Scalar at h1 h2
    rw [uni_inj (by omega) (by omega) h.1, map_uni_inj (fun z hz => ha z (by simp [hz])) (fun z hz => hb z (by simp [hz])) h.2]

theorem data_lookup {t : Phrases} (h : ∀ r ∈ t, ∀ x ∈ r.1, Scalar x) {p : List Nat} (hp : ∀ x ∈ p, Scalar x) :
    lookup (toData t) (p.map uniDatum) = (lookup t p).map (List.map uniDatum) := by
  induction t with
  | nil => rfl
  | cons r t ih =>
    have ih := ih fun r hr => h r (by simp [hr])
    simp only [toData, List.map_cons, lookup] at ih ⊢
    by_cases e : r.1 = p
    · rw [if_pos (by rw [e]), if_pos e]; rfl
    · rw [if_neg (fun k => e (map_uni_inj (h r (by simp)) hp k)), if_neg e]; exact ih

theorem data_longest {t : Phrases} (h : ∀ r ∈ t, ∀ x ∈ r.1, Scalar x) {s : List Nat} (hs : ∀ x ∈ s, Scalar x) (n : Nat) :
    longestUpTo (toData t) (s.map uniDatum) n = (longestUpTo t s n).map fun r => (r.1, r.2.map uniDatum) := by
  induction n with
  | zero => rfl
  | succ n ih =>
    simp only [longestUpTo]
    rw [← List.map_take, data_lookup h (fun x hx => hs x (List.mem_of_mem_take hx)), ih]
    cases lookup t (s.take (n + 1)) <;> rfl

theorem data_replace {t : Phrases} (h : ∀ r ∈ t, ∀ x ∈ r.1, Scalar x) : ∀ (n : Nat) (s : List Nat), s.length ≤ n → (∀ x ∈ s, Scalar x) →
    passMisses (Spec.tokens [toData t] (textData s)) = textData (replace t s)
  | _, [], _, _ => by rw [replace_nil]; simp [textData, Spec.tokens, passMisses]
  | 0, _ :: _, hn, _ => by simp at hn
  | n + 1, c :: s, hn, hs => by
    have e : textData (c :: s) = uniDatum c :: textData s := rfl
    have hl : longest (toData t) (uniDatum c :: textData s) = (longest t (c :: s)).map fun r => (r.1, r.2.map uniDatum) := by
      have := data_longest h hs (c :: s).length
      unfold longest
      simpa [textData] using this
    rw [e, replace_cons, Spec.tokens]
    simp only [firstMatch, hl]
    cases longest t (c :: s) with
    | none =>
      simp only [Option.map_none, passMisses]
      rw [data_replace h n s (by simp at hn; omega) fun x hx => hs x (by simp [hx])]
      rfl
    | some r =>
      obtain ⟨m, b⟩ := r
      simp only [Option.map_some, passMisses]
      have ed : (textData s).drop (m - 1) = textData (s.drop (m - 1)) := by simp [textData, List.map_drop]
      rw [ed, data_replace h n (s.drop (m - 1)) (by simp at hn ⊢; omega) fun x hx => hs x (by simp [List.mem_of_mem_drop hx])]
      simp [textData]

/-- A phase with the compiled rule file. -/
structure HasPhrases (s : Static π) (t : Phrases) : Prop where
  fine : fine t = true
  table : PhaseTables s (.rewrite [toData t])

end Phrase
open Phrase

/-- C100.  What a table makes of a text: exactly one text. -/
theorem C100_unique {t : Phrases} (h : fine t = true) (cps : List Nat) : ∃ u, Swapped t cps u ∧ ∀ v, Swapped t cps v → v = u :=
  ⟨_, replaced_replace (fine_iff h) _ cps (Nat.le_refl _), fun _ k => (replaced_iff (fine_iff h)).1 k⟩

/-- C100.  A phase with such a table replaces as said, so it can be combined with others as in C79. -/
theorem C100_stage {st : Nat → Static π} {ip : Nat → Nat → π → π} {ins : Ins π} {k0 : Nat} {t : Phrases} (h : HasPhrases (st k0) t) :
    ∃ f, (∀ cps, Swapped t cps (f cps)) ∧ Stage st ip ins k0 1 f := by
  have hf := fine_iff h.fine
  refine ⟨replace t, fun cps => replaced_replace hf _ cps (Nat.le_refl _), [(Phase.rewrite [toData t]).proc π], rfl, ?_, by simp [Phase.proc], ?_⟩
  · intro k hk
    simp only [List.length_singleton] at hk
    obtain rfl : k = 0 := by omega
    simpa using table_realises h.table _
  · intro cps hc
    refine ⟨replaced_scalar hf (replaced_replace hf _ cps (Nat.le_refl _)) hc, ⟨rfl, trivial, trivial⟩, ?_, rfl⟩
    have e0 := text_nonEmpty (textData_chars (cps := cps))
    show passMisses (Spec.tokens [toData t] (nonEmpty (textData cps))) = _
    rw [e0]
    exact data_replace (fun r hr => (hf.rows r hr).2.2.1) _ cps (Nat.le_refl _) hc

/-- C100.  `a:T:b`, with `a` any encoding of C63 or character set of C76: the text with the rows replaced comes out in `b`, however it was cut on the way in. -/
theorem C100_converts {st : Nat → Static π} {ip : Nat → Nat → π → π} {ins : Ins π} {b : Target} {t : Phrases} {T cps u : List Nat} (hn : ins.phasen = 3)
    (ha : ReadsAs (st 1) (initPriv st ip ins 1) T cps) (hc : ∀ cp ∈ cps, Scalar cp) (h : HasPhrases (st 2) t) (hb : b.Is (st 3)) (hu : Swapped t cps u)
    (as : List Arg) (l : Arg) (h1 : ∀ x ∈ as, x.flush = false) (h2 : l.flush = true) (h3 : ∀ x ∈ as ++ [l], x.mode ≠ .null)
    (h4 : ((as ++ [l]).filterMap (fun x => x.input)).flatten = T) :
    ∃ ds ins', Session st (ins.init st ip) (as ++ [l]) ds ins' ∧
      (ds.map (fun d => d.bytes)).flatten ++ ins'.pending.flatten = (u.filter b.takes).flatMap b.enc ∧
      ins'.ierr = ins.ierr ∧ ins'.oerr = ins.oerr + (u.filter fun cp => !b.takes cp).length := by
  obtain ⟨f, f1, f2⟩ := C100_stage (ip := ip) (ins := ins) h
  have : u = f cps := replaced_unique (fine_iff h.fine) (f1 cps) hu
  rw [this]
  exact C79_convert (n := 1) hn ha hc f2 hb as l h1 h2 h3 h4

/-- C100.  The compiled file makes such a phase. -/
theorem C100_compiled {t : Phrases} (h : fine t = true) (hs : shortRows t = true)
    {s : Static π} (h1 : s.type = .inter) (h2 : s.codecn = 0) (h3 : s.codecs 0 = Verif.MkTable.compiled π (Verif.MkTable.lines (symbolRules (toData t)))) : HasPhrases s t := by
  have hf := fine_iff h
  simp only [shortRows, Bool.and_eq_true, Nat.ble_eq, List.all_eq_true] at hs
  have ne : ∀ n, uniDatum n ≠ [] := by intro n; simp [uniDatum]
  have hg : ∀ r ∈ toData t, r.1 ≠ [] ∧ (∀ d ∈ r.1, d ≠ [] ∧ IsBytes d) ∧ GoodData r.2 := by
    intro r hr
    obtain ⟨q, hq, rfl⟩ := List.mem_map.1 hr
    obtain ⟨k1, k2, _⟩ := hf.rows q hq
    refine ⟨by simpa using k1, ?_, by simpa using k2, ?_⟩
    all_goals
      intro d hd
      obtain ⟨m, _, rfl⟩ := List.mem_map.1 hd
      exact ⟨ne _, uniDatum_bytes _⟩
  refine ⟨h, h1, by simp [h2], ?_, fun R hR => by simp only [List.mem_cons, List.not_mem_nil, or_false] at hR; subst hR; exact hg⟩
  intro j hj
  obtain rfl : j = 0 := by simp at hj; omega
  rw [h3]
  simp only [List.getElem_cons_zero]
  have hlen : ∀ l : List Nat, (∀ x ∈ l, Scalar x) → (symbols (l.map uniDatum)).length ≤ l.length * 5 := by
    intro l hl
    have := symbols_length 4 (l.map uniDatum) (by
      intro d hd
      obtain ⟨m, hm, rfl⟩ := List.mem_map.1 hd
      exact uni_length (hl m hm))
    simpa using this
  refine C50_represents _ ?_ ?_ ?_
  · intro r hr
    obtain ⟨r0, h0, rfl⟩ := List.mem_map.1 hr
    obtain ⟨k1, k2, _⟩ := hg r0 h0
    exact ⟨symbols_ne k1 (fun d hd => (k2 d hd).1), symbols_le (fun d hd => (k2 d hd).2)⟩
  · intro r hr
    obtain ⟨r0, h0, rfl⟩ := List.mem_map.1 hr
    obtain ⟨q, hq, rfl⟩ := List.mem_map.1 h0
    refine ⟨fun d hd => (hg _ h0).2.2.2 d hd, ?_⟩
    have := hs.2 q hq
    simp only [List.length_map]
    omega
  · have := C50_size (Verif.MkTable.lines (symbolRules (toData t))) 100 20000 ?_ ?_ ?_
    · omega
    · intro r hr
      obtain ⟨r0, _, rfl⟩ := List.mem_map.1 hr
      exact ⟨rfl, _, rfl⟩
    · have : ∀ rs : Phrases, (∀ r ∈ rs, r ∈ t) → ((Verif.MkTable.lines (symbolRules (toData rs))).map fun r => r.pat.length).sum ≤ rs.length * 20 := by
        intro rs
        induction rs with
        | nil => intro _; simp [Verif.MkTable.lines, symbolRules, toData]
        | cons r rs ih =>
          intro hm
          have k1 := ih fun x hx => hm x (by simp [hx])
          have k2 := hlen r.1 (hf.rows r (hm r (by simp))).2.2.1
          have k3 := (hs.2 r (hm r (by simp))).1
          simp only [Verif.MkTable.lines, symbolRules, toData, List.map_cons, List.sum_cons, List.length_cons, List.length_map] at k1 ⊢
          omega
      have := this t fun _ h => h
      omega
    · intro r hr
      obtain ⟨r0, h0, rfl⟩ := List.mem_map.1 hr
      obtain ⟨r1, h1, rfl⟩ := List.mem_map.1 h0
      obtain ⟨q, hq, rfl⟩ := List.mem_map.1 h1
      have k1 := hlen q.2 (hf.rows q hq).2.2.2
      have k2 := (hs.2 q hq).2
      simp only
      omega

/-! ### C101 -/

namespace Phrase

/-- What is there behind the replacements was there before. -/
theorem prefix_back {t : Phrases} {w s u : List Nat} (hw : ∀ r ∈ t, r.2 ≠ [] ∧ ∀ x ∈ r.2.head?, x ∉ w) (h : Swapped t s u) : w <+: u → w <+: s := by
  induction h generalizing w with
  | nil => exact id
  | @row p q s u hm _ _ ih =>
    intro hp
    cases w with
    | nil => exact List.nil_prefix
    | cons x w =>
      obtain ⟨k1, k2⟩ := hw _ hm
      simp only at k1 k2
      cases q with
      | nil => exact absurd rfl k1
      | cons y q =>
        rw [List.cons_append, List.cons_prefix_cons] at hp
        exact absurd (by simp [hp.1]) (k2 y (by simp))
  | @char c s u _ _ ih =>
    intro hp
    cases w with
    | nil => exact List.nil_prefix
    | cons x w =>
      rw [List.cons_prefix_cons] at hp ⊢
      exact ⟨hp.1, ih (fun r hr => ⟨(hw r hr).1, fun y hy k => (hw r hr).2 y hy (by simp [k])⟩) hp.2⟩

theorem chars_stay {t : Phrases} {q u v : List Nat} (h : ∀ x ∈ q, ∀ s, ∀ r ∈ t, ¬ r.1 <+: x :: s) (hu : Swapped t u v) : Swapped t (q ++ u) (q ++ v) := by
  induction q with
  | nil => exact hu
  | cons x q ih => exact .char (h x (by simp) _) (ih fun y hy => h y (by simp [hy]))

end Phrase

/-- C101.  A table of which no replacement has a character of a row: after the first time, a second time changes nothing. -/
theorem C101_final {t : Phrases} (hf : fine t = true) (h : Final t) {cps u : List Nat} (hu : Swapped t cps u) : Swapped t u u := by
  have hr := (fine_iff hf).rows
  induction hu with
  | nil => exact .nil
  | @row p q s u hm _ _ ih =>
    refine chars_stay ?_ ih
    rintro x hx s r hr' ⟨v, hv⟩
    have := (hr r hr').1
    cases hp : r.1 with
    | nil => exact this hp
    | cons y w =>
      rw [hp, List.cons_append, List.cons.injEq] at hv
      exact (h _ hm).2 x hx r hr' (by rw [hp, hv.1]; simp)
  | @char c s u hn hs ih =>
    refine .char ?_ ih
    intro r hr' hp
    refine hn r hr' ?_
    refine prefix_back (t := t) (w := r.1) (s := c :: s) (u := c :: u) ?_ (.char hn hs) hp
    intro r2 hr2
    refine ⟨(h r2 hr2).1, fun x hx => (h r2 hr2).2 x ?_ r hr'⟩
    cases e : r2.2 with
    | nil => rw [e] at hx; simp at hx
    | cons y w => rw [e] at hx; simp at hx; simp [hx]

/-- C101.  No character that is a row by itself is left. -/
theorem C101_gone {t : Phrases} (hf : fine t = true) (h : Final t) {cps u : List Nat} (hu : Swapped t cps u) {c : Nat} {q : List Nat} (hc : ([c], q) ∈ t) : c ∉ u := by
  induction hu with
  | nil => simp
  | @row p q' s u hm _ _ ih =>
    rw [List.mem_append, not_or]
    exact ⟨fun k => (h _ hm).2 c k _ hc (by simp), ih⟩
  | @char x s u hn hs ih =>
    rw [List.mem_cons, not_or]
    refine ⟨?_, ih⟩
    rintro rfl
    exact hn _ hc (by simp)

/-- C101.  A table of this kind undoes what it did. -/
theorem C101_mirror {t : Phrases} (hf : fine t = true) (h : Mirror t) {cps u : List Nat} (hu : Swapped t cps u) : Swapped t u cps := by
  have hr := (fine_iff hf).rows
  induction hu with
  | nil => exact .nil
  | @row p q s u hm _ _ ih =>
    refine .row (h.back _ hm) ?_ ih
    intro r hr' hp
    have e : q <+: q ++ u := List.prefix_append _ _
    rcases List.prefix_or_prefix_of_prefix hp e with k | k
    · exact k.length_le
    · have := h.free _ (h.back _ hm) r hr' k
      simp only at this
      rw [← this]
      exact Nat.le_refl _
  | @char c s u hn hs ih =>
    refine .char ?_ ih
    intro r hr' hp
    cases e : r.1 with
    | nil => exact (hr r hr').1 e
    | cons x w =>
      rw [e, List.cons_prefix_cons] at hp
      refine hn r hr' ?_
      rw [e, List.cons_prefix_cons]
      refine ⟨hp.1, prefix_back ?_ hs hp.2⟩
      intro r2 hr2
      refine ⟨(hr r2 hr2).2.1, fun y hy k => ?_⟩
      have := h.heads r hr' _ (h.back r2 hr2) y (by rw [e]; exact k)
      simp only at this
      exact this hy

/-! ### The shipped tables -/

namespace Phrase

def finalB (t : Phrases) : Bool := t.all fun r => !r.2.isEmpty && r.2.all fun x => t.all fun r' => r'.1.all fun y => !Nat.beq y x

theorem final_iff {t : Phrases} (h : finalB t = true) : Final t := by
  intro r hr
  have := List.all_eq_true.1 h r hr
  simp only [Bool.and_eq_true, Bool.not_eq_true', List.isEmpty_eq_false_iff] at this
  refine ⟨this.1, fun x hx r' hr' hm => ?_⟩
  have h1 := List.all_eq_true.1 (List.all_eq_true.1 (List.all_eq_true.1 this.2 x hx) r' hr') x hm
  simp at h1

def mirrorB (t : Phrases) : Bool :=
  (t.all fun r => t.any fun r' => r'.1 == r.2 && r'.2 == r.1) && t.all fun r => t.all fun r' => (!r.1.isPrefixOf r'.1 || r.1 == r'.1) && r.1.tail.all fun x => r'.1.head? != some x

theorem mirror_iff {t : Phrases} (h : mirrorB t = true) : Mirror t := by
  simp only [mirrorB, Bool.and_eq_true, List.all_eq_true, List.any_eq_true, beq_iff_eq, Bool.or_eq_true, Bool.not_eq_true', bne_iff_ne] at h
  refine ⟨?_, ?_, ?_⟩
  · intro r hr r' hr' hp
    rcases (h.2 r hr r' hr').1 with k | k
    · rw [← Bool.not_eq_true, List.isPrefixOf_iff_prefix] at k
      exact absurd hp k
    · exact k
  · intro r hr
    obtain ⟨r', h1, h2, h3⟩ := h.1 r hr
    rw [← h2, ← h3]
    exact h1
  · intro r hr r' hr' x hx
    exact (h.2 r hr r' hr').2 x hx

end Phrase
open Verif.Phrases

/-- C100, the shipped tables: UPSIDEDOWN, KANA-PHONETIC, NL2BR, ZHTW-WORDS, UNIX, WIN and MAC are tables of this kind. -/
theorem C100_tables : ∀ t ∈ [upsideDown, kana, nl2br, zhtwWords, unix, win, mac], fine t = true ∧ shortRows t = true := by
  have : ([upsideDown, kana, nl2br, zhtwWords, unix, win, mac].all fun t => fine t && shortRows t) = true := by decide +kernel
  intro t ht
  have := List.all_eq_true.1 this t ht
  simpa using this

/-- C101.  UPSIDEDOWN done twice gives every text back. -/
theorem C101_upsidedown (cps u : List Nat) (h : Swapped upsideDown cps u) : Swapped upsideDown u cps :=
  C101_mirror (C100_tables _ (by simp)).1 (mirror_iff (by decide +kernel)) h

theorem kana_final : Final kana := final_iff (by decide +kernel)
theorem nl2br_final : Final nl2br := final_iff (by decide +kernel)

/-- C101.  KANA-PHONETIC and NL2BR done twice are as good as once; of the characters that are rows by themselves none is left. -/
theorem C101_once (t : Phrases) (ht : t ∈ [kana, nl2br]) (cps u : List Nat) (h : Swapped t cps u) : Swapped t u u ∧ ∀ c q, ([c], q) ∈ t → c ∉ u := by
  have hf : fine t = true := (C100_tables t (by simp only [List.mem_cons, List.not_mem_nil, or_false] at ht ⊢; rcases ht with h | h <;> simp [h])).1
  have hl : Final t := by
    simp only [List.mem_cons, List.not_mem_nil, or_false] at ht
    rcases ht with rfl | rfl
    · exact kana_final
    · exact nl2br_final
  exact ⟨C101_final hf hl h, fun c q hc => C101_gone hf hl h hc⟩

/-- C101.  No carriage return and no line feed is left by NL2BR. -/
theorem C101_nl2br (cps u : List Nat) (h : Swapped nl2br cps u) : 0x0D ∉ u ∧ 0x0A ∉ u := by
  have := (C101_once nl2br (by simp) cps u h).2
  exact ⟨this 0x0D [0x3C,0x62,0x72,0x20,0x2F,0x3E] (by decide), this 0x0A [0x3C,0x62,0x72,0x20,0x2F,0x3E] (by decide)⟩

/-- C101.  ZHTW-WORDS changes no lengths. -/
theorem C101_words (cps u : List Nat) (h : Swapped zhtwWords cps u) : u.length = cps.length := by
  have hl : (zhtwWords.all fun r => r.1.length == r.2.length) = true := by decide +kernel
  induction h with
  | nil => rfl
  | @row p q s u hm _ _ ih =>
    have := List.all_eq_true.1 hl _ hm
    simp only [beq_iff_eq] at this
    simp [ih, this]
  | char _ _ ih => simp [ih]

/-- C101 violated: ZHTW-WORDS makes 幾多么 of 几多么, and 幾多麼 of that when done once more. -/
theorem C101_words_violated : Swapped zhtwWords [0x51E0, 0x591A, 0x4E48] [0x5E7E, 0x591A, 0x4E48] ∧ ¬ Swapped zhtwWords [0x5E7E, 0x591A, 0x4E48] [0x5E7E, 0x591A, 0x4E48] := by
  have hf := fine_iff (C100_tables zhtwWords (by simp)).1
  rw [replaced_iff hf, replaced_iff hf]
  have e1 : replace zhtwWords [0x51E0, 0x591A, 0x4E48] = [0x5E7E, 0x591A, 0x4E48] := by
    simp only [replace_cons, replace_nil]
    decide +kernel
  have e2 : replace zhtwWords [0x5E7E, 0x591A, 0x4E48] ≠ [0x5E7E, 0x591A, 0x4E48] := by
    simp only [replace_cons, replace_nil]
    decide +kernel
  exact ⟨e1.symm, fun k => e2 k.symm⟩

/-- C101.  `a:UPSIDEDOWN:UPSIDEDOWN:b` is `a:b`. -/
theorem C101_converts {st : Nat → Static π} {ip : Nat → Nat → π → π} {ins : Ins π} {b : Target} {T cps : List Nat} (hn : ins.phasen = 4)
    (ha : ReadsAs (st 1) (initPriv st ip ins 1) T cps) (hc : ∀ cp ∈ cps, Scalar cp) (hu : HasPhrases (st 2) upsideDown) (hu' : HasPhrases (st 3) upsideDown)
    (hb : b.Is (st 4)) (as : List Arg) (l : Arg) (h1 : ∀ x ∈ as, x.flush = false) (h2 : l.flush = true) (h3 : ∀ x ∈ as ++ [l], x.mode ≠ .null)
    (h4 : ((as ++ [l]).filterMap (fun x => x.input)).flatten = T) :
    ∃ ds ins', Session st (ins.init st ip) (as ++ [l]) ds ins' ∧
      (ds.map (fun d => d.bytes)).flatten ++ ins'.pending.flatten = (cps.filter b.takes).flatMap b.enc ∧
      ins'.ierr = ins.ierr ∧ ins'.oerr = ins.oerr + (cps.filter fun cp => !b.takes cp).length := by
  obtain ⟨f, f1, f2⟩ := C100_stage (ip := ip) (ins := ins) hu
  obtain ⟨g, g1, g2⟩ := C100_stage (ip := ip) (ins := ins) hu'
  have e : Stage st ip ins 2 2 (fun x => x) := (C79_compose (m := 1) f2 g2).as fun x _ =>
    replaced_unique (fine_iff hu.fine) (C101_upsidedown _ _ (f1 x)) (g1 (f x))
  exact C79_convert (n := 2) hn ha hc e hb as l h1 h2 h3 h4

/-! ### The hypotheses can be met -/

/-- The conversion `UTF-8:UPSIDEDOWN:UPSIDEDOWN:UTF-16LE`. -/
def utf8Down (k : Nat) : Static TextPriv :=
  match k with
  | 1 => readUtf8
  | 2 | 3 => ⟨.inter, fun _ => Verif.MkTable.compiled _ (Verif.MkTable.lines (symbolRules (toData upsideDown))), 0⟩
  | _ => write16

theorem utf8Down_has {k : Nat} (h : k = 2 ∨ k = 3) : HasPhrases (utf8Down k) upsideDown := by
  obtain ⟨h1, h2⟩ := C100_tables upsideDown (by simp)
  rcases h with rfl | rfl
  · exact C100_compiled h1 h2 rfl rfl rfl
  · exact C100_compiled h1 h2 rfl rfl rfl

-- `hi` upside down: `ɥı̣`; and back, cut anywhere.
example : Swapped upsideDown [0x68, 0x69] [0x265, 0x131, 0x323] := by
  rw [replaced_iff (fine_iff (C100_tables upsideDown (by simp)).1)]
  simp only [replace_cons, replace_nil]
  decide +kernel

example : ∃ ds ins', Session utf8Down (Ins.init utf8Down textInits { ph := fun _ => { priv := fun _ => {} }, phasen := 4 })
      ([⟨some [0xC9], false, .file⟩] ++ [⟨some [0xA5, 0x69], true, .file⟩]) ds ins' ∧
    (ds.map (fun d => d.bytes)).flatten ++ ins'.pending.flatten = [0x65, 2, 0x69, 0] ∧ ins'.ierr = 0 ∧ ins'.oerr = 0 := by
  have hc : ∀ cp ∈ [0x265, 0x69], Scalar cp := by intro cp h; simp at h; rcases h with rfl | rfl <;> simp [Scalar, Surrogate]
  obtain ⟨ds, ins', k1, k2, k3, k4⟩ := C101_converts (st := utf8Down) (ip := textInits) (ins := { ph := fun _ => { priv := fun _ => {} }, phasen := 4 }) (b := .utf16 true) (cps := [0x265, 0x69]) rfl
    (source_readsAs (a := .utf8) (readUtf8_source _ rfl) hc) hc (utf8Down_has (.inl rfl)) (utf8Down_has (.inr rfl)) (.utf16 true ⟨rfl, rfl, rfl⟩)
    [⟨some [0xC9], false, .file⟩] ⟨some [0xA5, 0x69], true, .file⟩ (by simp) rfl (by simp) (by decide)
  exact ⟨ds, ins', k1, k2, k3, k4⟩

end Verif.Props
