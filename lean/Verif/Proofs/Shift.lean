import Verif.Proofs.EbcdicDec

/-! Text with shift codes. -/

namespace Verif.Spec

theorem codesOf_cons {T : Rules Nat Datum} {d : Datum} {ds xs : List Datum} (h : codesOf T (d :: ds) = some xs) :
    ∃ c cs, lookup T d = some c ∧ codesOf T ds = some cs ∧ xs = c :: cs := by
  simp only [codesOf] at h
  cases h1 : lookup T d with
  | none => rw [h1] at h; simp at h
  | some c =>
    cases h2 : codesOf T ds with
    | none => rw [h1, h2] at h; simp at h
    | some cs => rw [h1, h2] at h; simp at h; exact ⟨c, cs, rfl, rfl, h.symm⟩

/-- Reading text with shift codes gives back the codes. -/
theorem unshift_shifted (cs : List Datum) (h : ∀ c ∈ cs, DbcsCode c) : ∀ m, unshift m (shifted m cs).flatten = some cs := by
  induction cs with
  | nil => intro m; cases m <;> simp [shifted, unshift]
  | cons c cs ih =>
    have ih := ih (fun x hx => h x (by simp [hx]))
    have single : ∀ b, b ≠ 0x0E → b ≠ 0x0F → unshift false (b :: (shifted false cs).flatten) = some ([b] :: cs) := by
      intro b h1 h2
      simp only [unshift, if_neg h1, if_neg h2]
      rw [ih]; rfl
    have double : ∀ a b, a ≠ 0x0E → a ≠ 0x0F → unshift true (a :: b :: (shifted true cs).flatten) = some ([a, b] :: cs) := by
      intro a b h1 h2
      rw [unshift.eq_def]
      simp only [if_neg h1, if_neg h2]
      rw [ih]; rfl
    intro m
    rcases h c (by simp) with ⟨b, rfl, h1, h2⟩ | ⟨a, b, rfl, h1, h2⟩
    · cases m with
      | false => simpa [shifted] using single b h1 h2
      | true =>
        have : (shifted true ([b] :: cs)).flatten = 0x0F :: b :: (shifted false cs).flatten := by simp [shifted]
        rw [this]
        simp only [unshift, reduceIte]
        exact single b h1 h2
    · cases m with
      | false =>
        have : (shifted false ([a, b] :: cs)).flatten = 0x0E :: a :: b :: (shifted true cs).flatten := by simp [shifted]
        rw [this, unshift.eq_def]
        simp only [reduceIte]
        exact double a b h1 h2
      | true => simpa [shifted] using double a b h1 h2

/-- The shift codes alternate, and the last one is 0F. -/
theorem shifted_alternates (cs : List Datum) (h : ∀ c ∈ cs, DbcsCode c) : ∀ m,
    alternating (if m then 0x0F else 0x0E) (shiftCodes (shifted m cs)) := by
  induction cs with
  | nil => intro m; cases m <;> simp [shifted, shiftCodes, alternating]
  | cons c cs ih =>
    have ih := ih (fun x hx => h x (by simp [hx]))
    have i0 := ih false
    have i1 := ih true
    simp only [Bool.false_eq_true, if_false, reduceIte, shiftCodes] at i0 i1
    intro m
    rcases h c (by simp) with ⟨b, rfl, h1, h2⟩ | ⟨a, b, rfl, h1, h2⟩ <;> cases m <;>
      simp [shifted, shiftCodes, alternating, h1, h2] <;> first | exact i0 | exact i1

end Verif.Spec

namespace Verif.Engine
open Verif.Spec

variable {S : Rules Nat Datum}

theorem run_shift {m : Bool} {bs : List Nat} :
    ((ebcdicScanner S).run (m, none) (0x0E :: bs) = (ebcdicScanner S).run (true, none) bs) ∧
    ((ebcdicScanner S).run (m, none) (0x0F :: bs) = (ebcdicScanner S).run (false, none) bs) := by
  constructor <;> simp [Scanner.run, ebcdicScanner]

/-- The automaton reads text with shift codes. -/
theorem run_unshift (n : Nat) : ∀ (m : Bool) (bs : List Nat) (cs xs : List Datum), bs.length ≤ n → unshift m bs = some cs → codesOf S cs = some xs →
    (ebcdicScanner S).run (m, none) bs = some xs := by
  induction n with
  | zero =>
    intro m bs cs xs hl h1 h2
    obtain rfl : bs = [] := by simpa using hl
    simp only [unshift, Option.some.injEq] at h1
    subst h1
    simp only [codesOf, Option.some.injEq] at h2
    subst h2
    rfl
  | succ n ih =>
    intro m bs cs xs hl h1 h2
    cases bs with
    | nil => exact ih m [] cs xs (by simp) h1 h2
    | cons b bs =>
      simp only [List.length_cons] at hl
      rw [unshift.eq_def] at h1
      simp only at h1
      by_cases hE : b = 0x0E
      · subst hE
        rw [(run_shift).1]
        exact ih _ _ _ _ (by omega) (by simpa using h1) h2
      · rw [if_neg hE] at h1
        by_cases hF : b = 0x0F
        · subst hF
          rw [(run_shift).2]
          exact ih _ _ _ _ (by omega) (by simpa using h1) h2
        · rw [if_neg hF] at h1
          cases m with
          | false =>
            simp only [Option.map_eq_some_iff] at h1
            obtain ⟨cs', h1, rfl⟩ := h1
            obtain ⟨x, xs', k1, k2, rfl⟩ := codesOf_cons h2
            simp only [Scanner.run, ebcdicScanner, if_neg hE, if_neg hF, Bool.false_eq_true, if_false, k1, Option.map_some]
            have := ih false bs cs' xs' (by omega) h1 k2
            simp only [ebcdicScanner] at this
            rw [this]; rfl
          | true =>
            cases bs with
            | nil => simp at h1
            | cons d bs =>
              simp only [Option.map_eq_some_iff] at h1
              obtain ⟨cs', h1, rfl⟩ := h1
              obtain ⟨x, xs', k1, k2, rfl⟩ := codesOf_cons h2
              have hany : S.any (fun r => r.1.length == 2 && r.1.head? == some b) = true := by
                rw [List.any_eq_true]
                exact ⟨_, lookup_rule k1, by simp⟩
              simp only [List.length_cons] at hl
              have := ih true bs cs' xs' (by omega) h1 k2
              simp only [ebcdicScanner] at this
              simp only [Scanner.run, ebcdicScanner, if_neg hE, if_neg hF, reduceIte, hany, k1, Option.map_some]
              rw [this]; rfl

end Verif.Engine
