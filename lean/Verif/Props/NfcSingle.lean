import Verif.Proofs.NfcFacts
/-
C67: which characters form C leaves alone (so the tables are complete).
-/
namespace Verif.Props
open Verif.Spec
open Verif.Engine hiding Datum step

theorem nfcTable_uni {s c : Nat} (hs : s < 2 ^ 32) (hc : c < 2 ^ 32) : nfcTable (uniDatum s) (uniDatum c) = (Nfc.find s c).map uniDatum := by
  unfold nfcTable Nfc.find
  have : Nfc.rules.find? (fun r => uniDatum s == uniDatum r.1 && uniDatum c == uniDatum r.2.1) =
      Nfc.rules.find? (fun r => Nat.beq r.1 s && Nat.beq r.2.1 c) := by
    have key : ∀ l : List (Nat × Nat × Nat × Nat), (∀ r ∈ l, r ∈ Nfc.rules) →
        l.find? (fun r => uniDatum s == uniDatum r.1 && uniDatum c == uniDatum r.2.1) = l.find? (fun r => Nat.beq r.1 s && Nat.beq r.2.1 c) := by
      intro l
      induction l with
      | nil => intro _; rfl
      | cons r l ih =>
        intro h
        have f := rule_facts (h r (by simp))
        have e : ∀ a b : Nat, a < 2 ^ 32 → b < 2 ^ 32 → (uniDatum a == uniDatum b) = Nat.beq b a := by
          intro a b ha hb
          by_cases k : a = b
          · subst k; simp
          · have : uniDatum a ≠ uniDatum b := fun h => k (uni_inj ha hb h)
            rw [show (uniDatum a == uniDatum b) = false by simpa using this]
            symm
            cases hh : Nat.beq b a with
            | false => rfl
            | true => exact absurd (Nat.eq_of_beq_eq_true hh).symm k
        rw [List.find?_cons, List.find?_cons, e s r.1 hs f.1, e c r.2.1 hc f.2.1, ih fun x hx => h x (by simp [hx])]
    exact key _ fun _ h => h
  rw [this]
  cases Nfc.rules.find? (fun r => Nat.beq r.1 s && Nat.beq r.2.1 c) <;> rfl

theorem find_small {s c x : Nat} (h : Nfc.find s c = some x) : x < 2 ^ 32 := by
  unfold Nfc.find at h
  obtain ⟨r, hr, rfl⟩ := Option.map_eq_some_iff.1 h
  exact (rule_facts (List.mem_of_find?_eq_some hr)).2.2.1

theorem cccOrdered_inOrder (l : List Nat) (h : cccOrdered l = true) : InOrder (l.map uniDatum) := by
  induction l with
  | nil => simp [InOrder]
  | cons a l ih =>
    cases l with
    | nil => simp [InOrder]
    | cons b l =>
      rw [cccOrdered, Bool.and_eq_true, Bool.or_eq_true, beq_iff_eq, decide_eq_true_eq] at h
      have h1 := (ccc_eq (uniDatum_bytes a)).1
      have h2 := (ccc_eq (uniDatum_bytes b)).1
      rw [h1, h2] at h
      refine ⟨?_, ih h.2⟩
      rcases h.1 with h | h
      · exact .inl (Int.ofNat.inj h)
      · exact .inr (Int.ofNat_le.1 h)

theorem compose_chain (n : Nat) : ∀ (t : List Nat) (s : Nat), s < 2 ^ 32 → (∀ m ∈ t, m < 2 ^ 32) →
    t.foldl (fun o c => o.bind fun s => Nfc.find s c) (some s) = some n →
    composeFrom (withHangul nfcTable) (some (uniDatum s, [])) (t.map uniDatum) = [uniDatum n]
  | [], s, _, _, h => by
    simp only [List.foldl_nil, Option.some.injEq] at h
    subst h; simp [composeFrom]
  | c :: t, s, hs, ht, h => by
    simp only [List.foldl_cons, Option.bind_some] at h
    cases hx : Nfc.find s c with
    | none =>
      rw [hx] at h
      have : ∀ t : List Nat, t.foldl (fun o c => o.bind fun s => Nfc.find s c) none = none := by
        intro t; induction t with
        | nil => rfl
        | cons c t ih => simpa using ih
      rw [this] at h; simp at h
    | some x =>
      rw [hx] at h
      have hc := ht c (by simp)
      have ih := compose_chain n t x (find_small hx) (fun m hm => ht m (by simp [hm])) h
      have hw : withHangul nfcTable (uniDatum s) (uniDatum c) = some (uniDatum x) := by
        unfold withHangul; rw [nfcTable_uni hs hc, hx]; rfl
      simp only [List.map_cons, composeFrom, char_uni hc, Option.isSome_some, if_true]
      rw [if_pos (by intro b hb; simp at hb), hw]
      exact ih

/-- What composition puts out was there or is a composite. -/
theorem composeFrom_mem {comb : Datum → Datum → Option Datum} : ∀ (ds : List Datum) (o : Option (Datum × List Datum)),
    ∀ d ∈ composeFrom comb o ds, (∃ s c, comb s c = some d) ∨ d ∈ ds ∨ ∃ s p, o = some (s, p) ∧ (d = s ∨ d ∈ p) := by
  intro ds
  induction ds with
  | nil =>
    intro o d hd
    cases o with
    | none => simp [composeFrom] at hd
    | some q =>
      simp only [composeFrom, List.mem_cons] at hd
      exact .inr (.inr ⟨_, _, rfl, hd⟩)
  | cons c ds ih =>
    intro o d hd
    simp only [composeFrom] at hd
    split at hd
    · cases o with
      | none =>
        simp only at hd
        split at hd
        · rcases ih _ d hd with h | h | ⟨s, p, e, h⟩
          · exact .inl h
          · exact .inr (.inl (by simp [h]))
          · simp only [Option.some.injEq, Prod.mk.injEq] at e
            obtain ⟨rfl, rfl⟩ := e
            simp at h; exact .inr (.inl (by simp [h]))
        · rcases List.mem_cons.1 hd with rfl | hd
          · exact .inr (.inl (by simp))
          · rcases ih _ d hd with h | h | ⟨s, p, e, h⟩
            · exact .inl h
            · exact .inr (.inl (by simp [h]))
            · simp at e
      | some q =>
        obtain ⟨s, p⟩ := q
        simp only at hd
        split at hd
        · rename_i x hx
          split at hx
          · rcases ih _ d hd with h | h | ⟨s', p', e, h⟩
            · exact .inl h
            · exact .inr (.inl (by simp [h]))
            · simp only [Option.some.injEq, Prod.mk.injEq] at e
              obtain ⟨rfl, rfl⟩ := e
              rcases h with rfl | h
              · exact .inl ⟨_, _, hx⟩
              · exact .inr (.inr ⟨_, _, rfl, .inr h⟩)
          · simp at hx
        · split at hd
          · rw [List.cons_append, List.mem_cons, List.mem_append] at hd
            rcases hd with rfl | hd | hd
            · exact .inr (.inr ⟨_, _, rfl, .inl rfl⟩)
            · exact .inr (.inr ⟨_, _, rfl, .inr hd⟩)
            · rcases ih _ d hd with h | h | ⟨s, p, e, h⟩
              · exact .inl h
              · exact .inr (.inl (by simp [h]))
              · simp only [Option.some.injEq, Prod.mk.injEq] at e
                obtain ⟨rfl, rfl⟩ := e
                simp at h; exact .inr (.inl (by simp [h]))
          · rcases ih _ d hd with h | h | ⟨s', p', e, h⟩
            · exact .inl h
            · exact .inr (.inl (by simp [h]))
            · simp only [Option.some.injEq, Prod.mk.injEq] at e
              obtain ⟨rfl, rfl⟩ := e
              rcases h with rfl | h
              · exact .inr (.inr ⟨_, _, rfl, .inl rfl⟩)
              · rcases List.mem_append.1 h with h | h
                · exact .inr (.inr ⟨_, _, rfl, .inr h⟩)
                · simp at h; exact .inr (.inl (by simp [h]))
    · rw [List.mem_append] at hd
      rcases hd with hd | hd
      · cases o with
        | none => simp at hd
        | some q => simp only [List.mem_cons] at hd; exact .inr (.inr ⟨_, _, rfl, hd⟩)
      · rcases List.mem_cons.1 hd with rfl | hd
        · exact .inr (.inl (by simp))
        · rcases ih _ d hd with h | h | ⟨s, p, e, h⟩
          · exact .inl h
          · exact .inr (.inl (by simp [h]))
          · simp at e

theorem compose_one (comb : Datum → Datum → Option Datum) (d : Datum) : compose comb [d] = [d] := by
  unfold compose
  simp only [composeFrom]
  split
  · split <;> simp
  · simp

/-- The table leaves Hangul alone. -/
theorem composeFrom_hangul : ∀ ds : List Datum, (∀ d ∈ ds, ¬ Free d ∧ char? d ≠ none) →
    composeFrom nfcTable none ds = ds ∧ ∀ s, ¬ Free s → composeFrom nfcTable (some (s, [])) ds = s :: ds := by
  intro ds
  induction ds with
  | nil => intro _; exact ⟨by simp [composeFrom], fun s _ => by simp [composeFrom]⟩
  | cons c ds ih =>
    intro h
    obtain ⟨h1, h2⟩ := h c (by simp)
    obtain ⟨_, i2⟩ := ih fun d hd => h d (by simp [hd])
    have hc : (char? c).isSome = true := by
      cases hx : char? c with
      | none => exact absurd hx h2
      | some u => rfl
    have hst : isStarter c := ⟨hc, hangul_class h1⟩
    refine ⟨?_, ?_⟩
    · simp only [composeFrom, hc, if_true, hst]
      exact i2 c h1
    · intro s hs
      have hn : nfcTable s c = none := by
        cases hx : nfcTable s c with
        | none => rfl
        | some x => exact absurd (C67_tables.hangulFree s c x hx).1 hs
      simp only [composeFrom, hc, if_true, hst, hn, ite_self]
      rw [i2 c h1]; simp

/-- C67.  The tables are complete and hold nothing else: form C keeps a character exactly if it does not have the Unicode property
Full_Composition_Exclusion. -/
theorem C67_single {n : Nat} (hn : n < 0x110000) :
    nfc nfdTable nfcTable [uniDatum n] = [uniDatum n] ↔ ¬ Excluded n := by
  rw [nfc, nfd_eq]
  simp only [List.flatMap_cons, List.flatMap_nil, List.append_nil]
  have hrule : ∀ {v}, Nfd.find n = some v → (excludedB n || recomposes n v) = true := by
    intro v h
    exact List.all_eq_true.1 nfd_recomposes _ (find_rule h)
  have hex : Excluded n → (Nfd.find n).isSome := by
    rintro ⟨r, hr, h1, h2⟩
    have := List.all_eq_true.1 (List.all_eq_true.1 excluded_rules r hr) n (by rw [List.mem_range'_1]; omega)
    exact this
  by_cases hs : n < 0xAC00 ∨ 0xD7A3 < n
  · rw [atoms_uni (by omega) hs]
    cases hf : Nfd.find n with
    | none =>
      have : ¬ Excluded n := fun h => by have := hex h; rw [hf] at this; simp at this
      simp only [Option.getD_none, List.map_cons, List.map_nil, this, not_false_eq_true, iff_true]
      rw [reorder_id (by trivial), compose_one]
    | some v =>
      simp only [Option.getD_some]
      have hr := nfd_rule (find_rule hf)
      rcases Bool.or_eq_true _ _ ▸ hrule hf with h | h
      · have hx := (excludedB_iff n).1 h
        simp only [hx, not_true_eq_false, iff_false]
        intro hc
        have hm : uniDatum n ∈ compose (withHangul nfcTable) (reorder combining (v.map uniDatum)) := by rw [hc]; simp
        rcases composeFrom_mem _ _ _ hm with ⟨s, c, hw⟩ | hm | ⟨s, p, e, _⟩
        · unfold withHangul at hw
          cases ht : nfcTable s c with
          | some x =>
            rw [ht] at hw
            simp only [Option.some.injEq] at hw
            subst hw
            obtain ⟨r, hr', _, _, e⟩ := nfcTable_rule ht
            have e := uni_inj (by omega) (rule_facts hr').2.2.1 e
            have := List.all_eq_true.1 nfc_not_excluded r hr'
            rw [← e, h] at this
            simp at this
          | none =>
            rw [ht] at hw
            simp only [hangulPair] at hw
            have notS : isS (uniDatum n) = false := by
              rw [isS, uni_class (by omega)]; simp; omega
            split at hw
            · rename_i hlv
              rw [Bool.and_eq_true] at hlv
              simp only [Option.some.injEq] at hw
              have := (syl_facts (t := 0x11A7) (isL_chr hlv.1) (isV_chr hlv.2) (by omega)).1
              rw [hw, notS] at this; simp at this
            · split at hw
              · rename_i hlv
                simp only [Bool.and_eq_true, beq_iff_eq] at hlv
                simp only [Option.some.injEq] at hw
                have k1 := isS_chr hlv.1.1
                have k2 := isT_chr hlv.2
                have := uni_inj (by omega) (by omega) hw
                omega
              · simp at hw
        · rw [reorder_mem] at hm
          obtain ⟨m, hm, e⟩ := List.mem_map.1 hm
          have k := hr.2.2.2 m hm
          have := uni_inj (by omega) (by omega) e
          subst this
          rw [hf] at k; simp at k
        · simp at e
      · cases v with
        | nil => simp [recomposes] at h
        | cons a t =>
          simp only [recomposes, Bool.and_eq_true, beq_iff_eq] at h
          have ho := cccOrdered_inOrder _ h.1.2
          rw [reorder_id ho]
          have ha := hr.2.2.2 a (by simp)
          have hst : isStarter (uniDatum a) := by
            refine ⟨by rw [char_uni (by omega)]; rfl, ?_⟩
            have := (ccc_eq (uniDatum_bytes a)).1
            have := h.1.1
            omega
          have hc := compose_chain n t a (by omega) (fun m hm => by have := hr.2.2.2 m (by simp [hm]); omega) h.2
          have he : compose (withHangul nfcTable) ((a :: t).map uniDatum) = [uniDatum n] := by
            unfold compose
            rw [List.map_cons]
            simp only [composeFrom, hst.1, if_true, hst]
            exact hc
          rw [he]
          simp only [true_iff]
          intro hx
          have hx := (excludedB_iff n).2 hx
          -- a composite is not excluded
          cases t with
          | nil =>
            simp only [List.foldl_nil, Option.some.injEq] at h
            have := h.2
            subst this
            rw [hf] at ha; simp at ha
          | cons b t =>
            have last : ∀ (t : List Nat) (o : Option Nat), t ≠ [] → t.foldl (fun o c => o.bind fun s => Nfc.find s c) o = some n →
                ∃ s c, Nfc.find s c = some n := by
              intro t
              induction t with
              | nil => intro _ h; simp at h
              | cons c t ih =>
                intro o _ h
                rw [List.foldl_cons] at h
                cases t with
                | nil =>
                  rw [List.foldl_nil] at h
                  obtain ⟨s, _, hs⟩ := Option.bind_eq_some_iff.1 h
                  exact ⟨s, c, hs⟩
                | cons d t => exact ih _ (by simp) h
            obtain ⟨s, c, hs⟩ := last _ _ (by simp) h.2
            unfold Nfc.find at hs
            obtain ⟨r, hr', e⟩ := Option.map_eq_some_iff.1 hs
            have := List.all_eq_true.1 nfc_not_excluded r (List.mem_of_find?_eq_some hr')
            rw [e, hx] at this
            simp at this
  · have hS : isS (uniDatum n) = true := by rw [isS, uni_class (by omega)]; simp; omega
    have hx : ¬ Excluded n := by
      intro h
      cases hf : Nfd.find n with
      | none => have := hex h; rw [hf] at this; simp at this
      | some v => have := (nfd_rule (find_rule hf)); simp only at this; omega
    simp only [hx, not_false_eq_true, iff_true]
    have ha : atoms nfdTable (uniDatum n) = decomposed [uniDatum n] := by
      unfold atoms
      rw [C67_tables.syllables n (by omega) (by omega)]; rfl
    rw [ha]
    have hj : ∀ d ∈ decomposed [uniDatum n], ¬ Free d ∧ isS d = false ∧ char? d ≠ none ∧ d = uniDatum (chr d) := by
      intro d hd
      have e : decomposed [uniDatum n] = (jamo n).map uniDatum := by
        unfold decomposed; simp [hS, uni_chr (show n < 2 ^ 32 by omega)]
      rw [e] at hd
      obtain ⟨m, hm, rfl⟩ := List.mem_map.1 hd
      have hm' : (0x1100 ≤ m ∧ m ≤ 0x1112) ∨ (0x1161 ≤ m ∧ m ≤ 0x1175) ∨ (0x11A8 ≤ m ∧ m ≤ 0x11C2) := by
        obtain ⟨l, v, hl, hv, h | ⟨t, ht, h⟩⟩ := jamo_shape (n := n) (by omega)
        · rw [h.1] at hm; simp at hm; omega
        · rw [h.1] at hm; simp at hm; omega
      refine ⟨?_, ?_, by rw [char_uni (by omega)]; simp, by rw [uni_chr (by omega)]⟩
      · unfold Free isL isV isT isS
        rw [uni_class (by omega), uni_class (by omega), uni_class (by omega), uni_class (by omega)]
        simp
        omega
      · rw [isS, uni_class (by omega)]; simp; omega
    have ho : InOrder (decomposed [uniDatum n]) := by
      have key : ∀ l : List Datum, (∀ d ∈ l, combining d = 0) → InOrder l := by
        intro l
        induction l with
        | nil => intro _; trivial
        | cons a l ih =>
          intro h
          cases l with
          | nil => trivial
          | cons b l => exact ⟨.inl (h b (by simp)), ih fun d hd => h d (by simp [hd])⟩
      exact key _ fun d hd => hangul_class (hj d hd).1
    rw [reorder_id ho]
    have h2 := (composed_two C67_tables.hangulFree (decomposed [uniDatum n]) (fun d hd => ⟨(hj d hd).2.2.1, (hj d hd).2.1, fun _ => (hj d hd).2.2.2⟩)).1
    unfold compose
    rw [← h2]
    have h3 : composeFrom nfcTable none (decomposed [uniDatum n]) = decomposed [uniDatum n] :=
      (composeFrom_hangul _ fun d hd => ⟨(hj d hd).1, (hj d hd).2.2.1⟩).1
    rw [h3]
    refine C28_inverse [uniDatum n] ?_ ?_
    · intro d hd
      simp only [List.mem_cons, List.not_mem_nil, or_false] at hd
      subst hd
      unfold notJamo isL isV isT
      rw [uni_class (by omega), uni_class (by omega), uni_class (by omega)]
      simp
      omega
    · intro d hd _
      simp only [List.mem_cons, List.not_mem_nil, or_false] at hd
      subst hd
      rw [uni_chr (by omega)]

example : nfc nfdTable nfcTable [uniDatum 0x1EA5] = [uniDatum 0x1EA5] ∧ nfc nfdTable nfcTable [uniDatum 0x212B] ≠ [uniDatum 0x212B] :=
  ⟨(C67_single (by decide)).2 (by decide), fun h => (C67_single (by decide)).1 h (by decide)⟩

end Verif.Props
