import Verif.Proofs.EngineBasic

/-! Sequences of data as strings over the symbols 0..256. -/

namespace Verif.Engine
open Verif.Spec

variable {π : Type}

/-- Symbols read after each datum was followed by the separator. -/
def syms (u : List Datum) : List Nat := u.flatMap (· ++ [256])

@[simp] theorem syms_nil : syms [] = [] := rfl

theorem syms_snoc (u : List Datum) (d : Datum) : syms (u ++ [d]) = syms u ++ d ++ [256] := by
  simp [syms]

theorem symbols_cons (d : Datum) {v : List Datum} (hv : v ≠ []) :
    symbols (d :: v) = d ++ [256] ++ symbols v := by
  cases v with
  | nil => exact absurd rfl hv
  | cons a v => simp [symbols]

theorem symbols_append (u : List Datum) {v : List Datum} (hv : v ≠ []) :
    symbols (u ++ v) = syms u ++ symbols v := by
  induction u with
  | nil => simp
  | cons d u ih =>
    rw [List.cons_append, symbols_cons d (by simp [hv]), ih]
    simp [syms]

theorem symbols_snoc (u : List Datum) (d : Datum) : symbols (u ++ [d]) = syms u ++ d := by
  rw [symbols_append u (by simp)]; rfl

/-- Data that can occur in patterns and streams: non-empty strings of bytes. -/
def Good (u : List Datum) : Prop := ∀ d ∈ u, d ≠ [] ∧ IsBytes d

theorem symbols_ne_nil {u : List Datum} (h : Good u) (hu : u ≠ []) : symbols u ≠ [] := by
  cases u with
  | nil => exact absurd rfl hu
  | cons d v =>
    have := (h d (by simp)).1
    cases v with
    | nil => simpa [symbols] using this
    | cons a v => simp [symbols]

/-- Splitting at the first separator. -/
theorem split_sep {d e : Datum} {x y : List Nat} (hd : IsBytes d) (he : IsBytes e)
    (h : d ++ 256 :: x = e ++ 256 :: y) : d = e ∧ x = y := by
  induction d generalizing e with
  | nil =>
    cases e with
    | nil => simpa using h
    | cons b e =>
      simp at h
      have := he b (by simp)
      omega
  | cons a d ih =>
    cases e with
    | nil =>
      simp at h
      have := hd a (by simp)
      omega
    | cons b e =>
      simp at h
      obtain ⟨h1, h2⟩ := ih (e := e) (fun c hc => hd c (by simp [hc])) (fun c hc => he c (by simp [hc])) h.2
      exact ⟨by rw [h.1, h1], h2⟩

theorem bytes_ne_sep {d e : Datum} {x : List Nat} (hd : IsBytes d) : d ≠ e ++ 256 :: x := by
  intro h
  have := hd 256 (by rw [h]; simp)
  omega

theorem symbols_inj {u v : List Datum} (hu : Good u) (hv : Good v) (h : symbols u = symbols v) :
    u = v := by
  induction u generalizing v with
  | nil =>
    by_cases hv0 : v = []
    · exact hv0.symm
    · exact absurd h.symm (symbols_ne_nil hv hv0)
  | cons d u ih =>
    cases v with
    | nil => exact absurd h (symbols_ne_nil hu (by simp))
    | cons e v =>
      have hd := (hu d (by simp)).2
      have he := (hv e (by simp)).2
      have hu' : Good u := fun c hc => hu c (by simp [hc])
      have hv' : Good v := fun c hc => hv c (by simp [hc])
      by_cases hun : u = []
      · subst hun
        by_cases hvn : v = []
        · subst hvn; simpa [symbols] using h
        · rw [symbols_cons e hvn] at h
          exact absurd (by simpa [symbols] using h) (bytes_ne_sep (e := e) (x := symbols v) hd)
      · rw [symbols_cons d hun] at h
        by_cases hvn : v = []
        · subst hvn
          exact absurd (by simpa [symbols] using h.symm) (bytes_ne_sep (e := d) (x := symbols u) he)
        · rw [symbols_cons e hvn] at h
          obtain ⟨h1, h2⟩ := split_sep hd he (by simpa using h)
          rw [h1, ih hu' hv' h2]

/-- All patterns are sequences of non-empty byte strings. -/
def GoodRules (R : Rules Datum (List Datum)) : Prop := ∀ r ∈ R, r.1 ≠ [] ∧ Good r.1 ∧ GoodData r.2

theorem lookup_symbolRules {R : Rules Datum (List Datum)} (hR : GoodRules R) {p : List Datum}
    (hp : Good p) : lookup (symbolRules R) (symbols p) = lookup R p := by
  induction R with
  | nil => rfl
  | cons r R ih =>
    have ih' := ih (fun r hr => hR r (by simp [hr]))
    simp only [symbolRules, List.map_cons, lookup] at ih' ⊢
    by_cases he : r.1 = p
    · simp [he]
    · rw [if_neg he, if_neg, ih']
      intro h
      exact he (symbols_inj (hR r (by simp)).2.1 hp h)

/-- A dead symbol string kills every pattern starting with these data. -/
theorem dead_datum {R : Rules Datum (List Datum)} {u : List Datum} {d : Datum}
    {x : List Nat} (hx : x <+: d)
    (h : ∀ r ∈ symbolRules R, ¬ (syms u ++ x) <+: r.1) : ∀ r ∈ R, ¬ (u ++ [d]) <+: r.1 := by
  intro r hr hpre
  apply h (symbols r.1, r.2) (List.mem_map.2 ⟨r, hr, rfl⟩)
  obtain ⟨t, ht⟩ := hpre
  obtain ⟨y, hy⟩ := hx
  show (syms u ++ x) <+: symbols r.1
  rw [← ht, List.append_assoc, symbols_append u (by simp), ← hy]
  rw [List.singleton_append]
  by_cases htn : t = []
  · subst htn
    exact ⟨y, by simp [symbols]⟩
  · rw [symbols_cons _ htn]
    exact ⟨y ++ 256 :: symbols t, by simp⟩

theorem dead_sep {R : Rules Datum (List Datum)} {u : List Datum}
    (h : ∀ r ∈ symbolRules R, ¬ (syms u) <+: r.1) : ∀ r ∈ R, u <+: r.1 → r.1 = u := by
  intro r hr hpre
  obtain ⟨t, ht⟩ := hpre
  by_cases htn : t = []
  · subst htn; simpa using ht.symm
  · exfalso
    apply h (symbols r.1, r.2) (List.mem_map.2 ⟨r, hr, rfl⟩)
    show syms u <+: symbols r.1
    rw [← ht, symbols_append u htn]
    exact ⟨_, rfl⟩

theorem leaf_datum {R : Rules Datum (List Datum)} (hR : GoodRules R) {u : List Datum} {d : Datum}
    (hu : Good (u ++ [d]))
    (h : ∀ r ∈ symbolRules R, (syms u ++ d) <+: r.1 → r.1 = syms u ++ d) :
    ∀ r ∈ R, (u ++ [d]) <+: r.1 → r.1 = u ++ [d] := by
  intro r hr hpre
  have := h (symbols r.1, r.2) (List.mem_map.2 ⟨r, hr, rfl⟩)
  obtain ⟨t, ht⟩ := hpre
  have hp : (syms u ++ d) <+: symbols r.1 := by
    by_cases htn : t = []
    · subst htn; rw [← ht, List.append_nil, symbols_snoc]; exact List.prefix_rfl
    · rw [← ht, symbols_append _ htn, syms_snoc]
      exact ⟨256 :: symbols t, by simp⟩
  have h2 := this hp
  apply symbols_inj (hR r hr).2.1 hu
  rw [symbols_snoc]; exact h2

/-! ### Reading one datum -/

/-- `Ph.scan` follows the automaton. -/
theorem scan_spec {s : Static π} {S : Rules Nat (List Datum)} (p : Ph π) (w d : List Nat)
    (hrep : Represents (s.codecs p.index) S) (hl : p.fLoop = false)
    (hw : walk (s.codecs p.index) 0 w = some p.st) :
    (∃ x off st status i, x ≠ [] ∧ x <+: d ∧ walk (s.codecs p.index) 0 (w ++ x) = none ∧
      p.scan s d = (true, { p with offset := off, st := st, status := status, i := i })) ∨
    (∃ off st status i, walk (s.codecs p.index) 0 (w ++ d) = some st ∧
      (d ≠ [] → status = nodeStatus S (w ++ d)) ∧ (d = [] → status = p.status) ∧
      p.scan s d = (false, { p with offset := off, st := st, status := status, i := i })) := by
  induction d generalizing p w with
  | nil =>
    right
    exact ⟨p.offset, p.st, p.status, p.i, by simpa using hw, by simp, by simp, rfl⟩
  | cons c d ih =>
    have hsn := walk_snoc hw c
    by_cases hnx : (s.codecs p.index).next p.st c = 0
    · left
      rw [if_pos hnx] at hsn
      refine ⟨[c], 0, 0, .deadend, p.i, by simp, by simp, hsn, ?_⟩
      have hadv : p.advance s c = { p with offset := 0, st := 0, status := .deadend } := by
        simp [Ph.advance, Static.codec, hnx, hl, hrep.root]
      simp only [Ph.scan, hadv]
    · rw [if_neg hnx] at hsn
      have hst := hrep.status _ _ (by simp) hsn
      have hadv : p.advance s c = { p with
          offset := (s.codecs p.index).next p.st c, st := (s.codecs p.index).next p.st c,
          status := nodeStatus S (w ++ [c]) } := by
        simp [Ph.advance, Static.codec, hnx, hst]
      have hne := nodeStatus_ne_deadend S (w ++ [c])
      have hscan : p.scan s (c :: d) = Ph.scan s { p with
          offset := (s.codecs p.index).next p.st c, st := (s.codecs p.index).next p.st c,
          status := nodeStatus S (w ++ [c]), i := p.i + 1 } d := by
        simp only [Ph.scan, hadv]
        generalize nodeStatus S (w ++ [c]) = ns at hne
        cases ns <;> simp_all
      rw [hscan]
      rcases ih { p with
          offset := (s.codecs p.index).next p.st c, st := (s.codecs p.index).next p.st c,
          status := nodeStatus S (w ++ [c]), i := p.i + 1 } (w ++ [c]) hrep hl hsn with ⟨x, off, st, status, i, h1, h2, h3, h4⟩ |
        ⟨off, st, status, i, h1, h2, h3, h4⟩
      · left
        refine ⟨c :: x, off, st, status, i, by simp, ?_, by simpa using h3, h4⟩
        exact List.cons_prefix_cons.2 ⟨rfl, h2⟩
      · right
        refine ⟨off, st, status, i, by simpa using h1, ?_, by simp, h4⟩
        intro _
        by_cases hd : d = []
        · subst hd; simpa using h3
        · simpa using h2 hd

end Verif.Engine
