import Verif.Proofs.MkRule
import Verif.Spec.MkTable

/-! The automaton of a list of rules, string by string. -/

namespace Verif.MkTable
open Verif.Engine (Status Datum Codec)
open Verif.Spec.Table
namespace Arena

theorem hit_fits (ci : Bool) (b : Nat × Nat) (c : Nat) :
    hit ci b.1 b.2 c = if symbolFits ci b c then some (if b.1 ≤ c ∧ c ≤ b.2 then 1 else 0) else none := by
  unfold hit symbolFits folded
  by_cases h : b.1 ≤ c ∧ c ≤ b.2
  · simp [h]
  · cases ci <;> simp [h]

theorem score_within {ci : Bool} {bs : List (Nat × Nat)} {q : List Nat} (hq : ∀ c ∈ q, c ≤ 256) :
    score ci bs q = if within ci bs q then some (exactly bs q) else none := by
  induction bs generalizing q with
  | nil => cases q <;> simp [score, within, exactly]
  | cons b bs ih =>
    cases q with
    | nil => simp [score, within]
    | cons c cs =>
      have ih := ih (q := cs) (fun x hx => hq x (by simp [hx]))
      simp only [score, within, exactly, ih, hit_fits]
      rw [if_pos (hq c (by simp))]
      by_cases hc : symbolFits ci b c = true
      · rw [if_pos hc]
        by_cases hw : within ci bs cs = true <;> simp [hc, hw]
      · simp [hc]

theorem ciTable_zero {c : Nat} (h : 256 < c) : ciTable c = 0 := by
  unfold ciTable
  rw [if_neg (by omega), if_neg (by omega)]

theorem within_bound {ci : Bool} {bs : List (Nat × Nat)} {q : List Nat} (hb : ∀ b ∈ bs, b.2 ≤ 256) (h : within ci bs q = true) : ∀ c ∈ q, c ≤ 256 := by
  induction bs generalizing q with
  | nil => cases q <;> simp_all [within]
  | cons b bs ih =>
    cases q with
    | nil => simp
    | cons c cs =>
      simp only [within, Bool.and_eq_true] at h
      intro x hx
      rcases List.mem_cons.1 hx with rfl | hx
      · have h1 := h.1
        have h2 := hb b (by simp)
        rcases Nat.lt_or_ge 256 x with hlt | hge
        · simp [symbolFits, folded, ciTable_zero hlt] at h1
          omega
        · exact hge
      · exact ih (fun y hy => hb y (by simp [hy])) h.2 x hx

/-- The same without a bound on the symbols. -/
theorem score_eq {ci : Bool} {bs : List (Nat × Nat)} (hb : ∀ b ∈ bs, b.2 ≤ 256) (q : List Nat) :
    score ci bs q = if within ci bs q then some (exactly bs q) else none := by
  by_cases h : ∀ c ∈ q, c ≤ 256
  · exact score_within h
  · cases hs : score ci bs q with
    | some n => exact absurd (score_bound hs) h
    | none =>
      rw [if_neg]
      intro hw
      exact h (within_bound hb hw)

theorem within_length {ci : Bool} {bs : List (Nat × Nat)} {q : List Nat} (h : within ci bs q = true) : q.length = bs.length := by
  induction bs generalizing q with
  | nil => cases q <;> simp_all [within]
  | cons b bs ih =>
    cases q with
    | nil => simp [within] at h
    | cons c cs =>
      simp only [within, Bool.and_eq_true] at h
      simp [ih h.2]

/-- The content expected. -/
def mean (rs : List Rule) (q : List Nat) : Option Content :=
  (meaning rs q).map fun x => ⟨x.1, x.2, match best rs q with
    | some r => if r.cb then 0 else 1 + exactly r.pat q
    | none => 0⟩

theorem best_snoc (rs : List Rule) (r : Rule) (q : List Nat) : best (rs ++ [r]) q = better q (best rs q) r := by
  simp [best]

theorem best_mem {rs : List Rule} {q : List Nat} {o : Rule} (h : best rs q = some o) : o ∈ rs ∧ covers o q = true := by
  induction rs using snocInd generalizing o with
  | nil => simp [best] at h
  | snoc rs r ih =>
    rw [best_snoc] at h
    unfold better at h
    split at h
    · split at h
      · rename_i hc
        cases h
        exact ⟨by simp, hc⟩
      · simp at h
    · rename_i x hx
      split at h
      · rename_i hc
        cases h
        exact ⟨by simp, hc.1⟩
      · cases h
        exact ⟨by simp [(ih hx).1], (ih hx).2⟩

theorem noClash_init {rs : List Rule} {r : Rule} (h : NoClash (rs ++ [r])) : NoClash rs := by
  refine (List.pairwise_append.1 h).1.imp ?_
  intro a b hab q h1 h2
  exact (hab q h1 h2).imp id fun k => ⟨k.1, fun x hx => k.2 x (by simp [hx])⟩

theorem mean_snoc {rs : List Rule} {r : Rule} (hr : Plain r) (hcl : NoClash (rs ++ [r])) (q : List Nat) (hq : q ≠ []) :
    ruleSee r (mean rs) q = mean (rs ++ [r]) q := by
  obtain ⟨hpat, hb⟩ := hr
  unfold ruleSee
  rw [if_neg hq]
  have hany : (rs ++ [r]).any (begins · q) = (rs.any (begins · q) || begins r q) := by simp
  by_cases hlen : q.length < r.pat.length
  · rw [if_pos hlen, score_eq (fun b hb' => hb b (List.mem_of_mem_take hb'))]
    have hc : covers r q = false := by
      cases h : covers r q with
      | false => rfl
      | true => have := within_length h; omega
    have hbg : begins r q = within r.ci (r.pat.take q.length) q := by simp [begins, hlen]
    have hf : best (rs ++ [r]) q = best rs q := by
      rw [best_snoc]
      unfold better
      cases best rs q <;> simp [hc]
    unfold mean meaning
    rw [hf, hany, hbg]
    cases hw : within r.ci (r.pat.take q.length) q with
    | false => simp
    | true =>
      simp only [if_true, Option.isSome_some, Bool.or_true]
      cases best rs q with
      | none => cases rs.any (begins · q) <;> simp [ext]
      | some o => cases rs.any (begins · q) <;> cases ho : o.cb <;> simp [ext, ho]
  · rw [if_neg hlen, score_eq hb]
    have hbg : begins r q = false := by simp [begins, hlen]
    unfold mean meaning
    rw [best_snoc, hany, hbg, Bool.or_false]
    unfold better
    by_cases hc : covers r q = true
    · have hw : within r.ci r.pat q = true := hc
      simp only [hw, if_true, hc]
      cases hf : best rs q with
      | none => cases rs.any (begins · q) <;> cases hcb : r.cb <;> simp [fin, hcb]
      | some o =>
        obtain ⟨hm, hcov⟩ := best_mem hf
        rcases (List.pairwise_append.1 hcl).2.2 o hm r (by simp) q hcov hc with ⟨ho, hle⟩ | ⟨hrcb, hno⟩
        · have hlt : ¬ (exactly o.pat q < exactly r.pat q) := by omega
          cases rs.any (begins · q) <;> simp [fin, ho, hlt, hle]
        · have ha : rs.any (begins · q) = false := by
            rw [List.any_eq_false]
            intro x hx
            simp [hno x (by simp [hx])]
          cases ho : o.cb with
          | true => simp [fin, ho, ha, hrcb]
          | false =>
            by_cases hlt : exactly o.pat q < exactly r.pat q
            · simp [fin, ho, hlt, ha, hrcb]
              omega
            · have : exactly r.pat q ≤ exactly o.pat q := by omega
              simp [fin, ho, hlt, ha, this]
    · have hw : within r.ci r.pat q = false := by simpa [covers] using hc
      simp only [hw, hc]
      cases best rs q <;> simp

theorem build_see (rs : List Rule) (hp : ∀ r ∈ rs, Plain r) (hcl : NoClash rs) :
    Good (build rs) ∧ ∀ q, q ≠ [] → (build rs).see q = mean rs q := by
  induction rs using snocInd with
  | nil =>
    refine ⟨Good.init, ?_⟩
    intro q hq
    cases q with
    | nil => exact absurd rfl hq
    | cons c cs => simp [build, see, find, walk, Arena.init, mean, meaning, best]
  | snoc rs r ih =>
    obtain ⟨h1, h2⟩ := ih (fun x hx => hp x (by simp [hx])) (noClash_init hcl)
    have hr := hp r (by simp)
    have e : build (rs ++ [r]) = addRule (build rs) r := by simp [build]
    rw [e]
    obtain ⟨k1, k2⟩ := addRule_spec h1 r hr.1 (by
      intro q x hq hx hcb
      have hne : q ≠ [] := by
        rintro rfl
        obtain ⟨n, hn⟩ := Option.isSome_iff_exists.1 hq
        have := score_length hn
        exact hr.1 (List.eq_nil_of_length_eq_zero this.symm)
      rw [h2 q hne] at hx
      rw [score_eq hr.2] at hq
      have hw : covers r q = true := by
        cases h : within r.ci r.pat q with
        | true => exact h
        | false => simp [h] at hq
      unfold mean meaning at hx
      cases hf : best rs q with
      | none => rw [hf] at hx; cases hany : rs.any (begins · q) <;> rw [hany] at hx <;> simp at hx <;> subst hx <;> simp [isCb] at hcb
      | some o =>
        rw [hf] at hx
        obtain ⟨hm, hcov⟩ := best_mem hf
        cases ho : o.cb with
        | false => cases hany : rs.any (begins · q) <;> rw [hany] at hx <;> simp [ho] at hx <;> subst hx <;> simp [isCb] at hcb
        | true =>
          rcases (List.pairwise_append.1 hcl).2.2 o hm r (by simp) q hcov hw with h | h
          · rw [ho] at h; simp at h
          · exact h.1)
    refine ⟨k1, ?_⟩
    intro q hq
    rw [k2 q, ← mean_snoc hr hcl q hq]
    unfold ruleSee
    rw [h2 q hq]

end Arena
end Verif.MkTable
