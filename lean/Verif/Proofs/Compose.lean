import Verif.Model.Nfc
import Verif.Spec.Compose

/-! What the codec _NFC makes of a list of data, and that it is canonical composition. -/

namespace Verif.Engine
open Verif.Spec

/-- Progress measure: `n` data to come. -/
def Nfc.size (t : Nfc) (n : Nat) : Nat :=
  2 * ((n + t.pending.length) * (n + t.pending.length)) + 2 * n + (if t.on then 1 else 0)

theorem size_lt {n p n' p' : Nat} (h : n' + p' < n + p ∨ (n' + p' = n + p ∧ n' < n)) (hn : 0 < n) :
    2 * ((n' + p') * (n' + p')) + 2 * n' + 1 < 2 * ((n + p) * (n + p)) + 2 * n := by
  rcases h with h | ⟨h, h2⟩
  · have h1 : (n' + p') * (n' + p') ≤ (n' + p') * (n + p - 1) := Nat.mul_le_mul_left _ (by omega)
    have h2 : (n' + p' + 1) * (n + p) ≤ (n + p) * (n + p) := Nat.mul_le_mul_right _ (by omega)
    obtain ⟨m, hm⟩ : ∃ m, n + p = m + 1 := ⟨n + p - 1, by omega⟩
    rw [hm] at h1 h2 ⊢
    generalize hk : n' + p' = k at *
    have h3 : k * k ≤ k * m := by simpa using h1
    have h4 : (k + 1) * (m + 1) = k * m + k + m + 1 := by
      simp only [Nat.add_mul, Nat.mul_add, Nat.one_mul, Nat.mul_one]; omega
    have h5 : n' ≤ k := by omega
    omega
  · rw [h]; omega

/-- How many data are still to be read after a step, if `n` were to be read before and one is. -/
def NfcAct.left : NfcAct → Nat → Nat
  | .dead, n => n
  | .hold _ back, n => back.length + n
  | .pass _, n => n

theorem size_lt' {t t' : Nfc} {n n' : Nat}
    (h : n' + t'.pending.length < n + 1 + t.pending.length ∨ (n' + t'.pending.length = n + 1 + t.pending.length ∧ n' < n + 1)) :
    t'.size n' < t.size (n + 1) := by
  have := size_lt h (by omega)
  simp only [Nfc.size]
  split <;> split <;> omega

theorem release_pending (t : Nfc) : t.release.pending = t.pending ∧ t.release.on = t.on ∧ t.release.cls = t.cls := by
  unfold Nfc.release; split <;> simp

theorem step_size (comb : Datum → Datum → Option Datum) (t : Nfc) (d : Datum) (n : Nat) :
    (t.step comb d).1.size ((t.step comb d).2.left n) < t.size (n + 1) := by
  apply size_lt'
  unfold Nfc.step
  have hr := fun (t : Nfc) => (release_pending t).1
  split
  · dsimp only
    split
    · split
      · simp [NfcAct.left, hr]
      · simp [NfcAct.left]
    · rename_i hon
      have hon : t.on = true := by simpa using hon
      split
      · split
        · split
          · simp [NfcAct.left]
          · simp [NfcAct.left, Nfc.flush, hon]; omega
        · simp [NfcAct.left, Nfc.flush, hon]; omega
      · split
        · simp [NfcAct.left]; omega
        · split
          · simp [NfcAct.left]; omega
          · simp [NfcAct.left]; omega
  · simp only [Nfc.flush]
    split <;> simp [NfcAct.left] <;> omega

/-- The data put out for a list of data. -/
def nfcRun (comb : Datum → Datum → Option Datum) (t : Nfc) (ds : List Datum) : List Datum :=
  match ds with
  | [] => t.flush.2
  | d :: ds =>
    match h : t.step comb d with
    | (t', .dead) => d :: nfcRun comb t' ds
    | (t', .hold em back) => em ++ nfcRun comb t' (back ++ ds)
    | (t', .pass em) => em ++ nfcRun comb t' ds
termination_by t.size ds.length
decreasing_by
  all_goals
    have := step_size comb t d ds.length
    rw [h] at this
    simpa [NfcAct.left] using this

theorem nfcRun_nil (comb : Datum → Datum → Option Datum) (t : Nfc) : nfcRun comb t [] = t.flush.2 := by rw [nfcRun]

theorem nfcRun_dead {comb : Datum → Datum → Option Datum} {t t' : Nfc} {d : Datum} {ds : List Datum}
    (h : t.step comb d = (t', .dead)) : nfcRun comb t (d :: ds) = d :: nfcRun comb t' ds := by
  rw [nfcRun]; split
  · rename_i a b; rw [h] at b; cases b; rfl
  · rename_i a b; rw [h] at b; cases b
  · rename_i a b; rw [h] at b; cases b

theorem nfcRun_hold {comb : Datum → Datum → Option Datum} {t t' : Nfc} {d : Datum} {ds em back : List Datum}
    (h : t.step comb d = (t', .hold em back)) : nfcRun comb t (d :: ds) = em ++ nfcRun comb t' (back ++ ds) := by
  rw [nfcRun]; split
  · rename_i a b; rw [h] at b; cases b
  · rename_i a b; rw [h] at b; cases b; rfl
  · rename_i a b; rw [h] at b; cases b

theorem nfcRun_pass {comb : Datum → Datum → Option Datum} {t t' : Nfc} {d : Datum} {ds em : List Datum}
    (h : t.step comb d = (t', .pass em)) : nfcRun comb t (d :: ds) = em ++ nfcRun comb t' ds := by
  rw [nfcRun]; split
  · rename_i a b; rw [h] at b; cases b
  · rename_i a b; rw [h] at b; cases b
  · rename_i a b; rw [h] at b; cases b; rfl

theorem head_char (d : Datum) : d.head? = some 1 ↔ (char? d).isSome := by
  cases d with
  | nil => simp [char?]
  | cons x d => unfold char?; split <;> simp_all

/-- The class of `d` as the code computes it. -/
def Classed (d : Datum) : Prop := Inter.ccc d = (combining d : Int)

/-- `k` is the greatest class in `p`, 0 if there is none. -/
def Top (p : List Datum) (k : Int) : Prop :=
  (∀ b ∈ p, (combining b : Int) ≤ k) ∧ ((p = [] ∧ k = 0) ∨ ∃ b ∈ p, (combining b : Int) = k)

theorem inOrder_le {c : Datum} (hc : combining c ≠ 0) : ∀ (p ds : List Datum), (∀ b ∈ p, combining b ≠ 0) →
    InOrder (p ++ c :: ds) → ∀ b ∈ p, combining b ≤ combining c
  | [], _, _, _ => by simp
  | [a], ds, _, h => by
    simp only [List.cons_append, List.nil_append, InOrder] at h
    intro b hb
    simp at hb; subst hb
    rcases h.1 with h | h
    · exact absurd h hc
    · exact h
  | a :: b :: p, ds, hp, h => by
    simp only [List.cons_append, InOrder] at h
    have ih := inOrder_le hc (b :: p) ds (fun x hx => hp x (List.mem_cons_of_mem _ hx)) h.2
    intro x hx
    rcases List.mem_cons.1 hx with e | hx
    · subst e
      have h1 := ih b (by simp)
      rcases h.1 with h2 | h2
      · exact absurd h2 (hp b (by simp))
      · omega
    · exact ih x hx

theorem inOrder_tail {a : Datum} {ds : List Datum} (h : InOrder (a :: ds)) : InOrder ds := by
  cases ds with
  | nil => trivial
  | cons b ds => exact h.2

theorem inOrder_drop : ∀ (p ds : List Datum), InOrder (p ++ ds) → InOrder ds
  | [], _, h => h
  | a :: p, ds, h => inOrder_drop p ds (inOrder_tail h)

/-- Leaving out one datum. -/
theorem inOrder_erase {c : Datum} (ds : List Datum) : ∀ (p : List Datum), (∀ b ∈ p, combining b ≠ 0) → combining c ≠ 0 →
    InOrder (p ++ c :: ds) → InOrder (p ++ ds)
  | [], _, _, h => inOrder_tail h
  | [a], _, hc, h => by
    cases ds with
    | nil => trivial
    | cons d ds =>
      simp only [List.cons_append, List.nil_append, InOrder] at h ⊢
      refine ⟨?_, h.2.2⟩
      rcases h.2.1 with k | k
      · exact .inl k
      · rcases h.1 with k2 | k2
        · exact absurd k2 hc
        · exact .inr (by omega)
  | a :: b :: p, hp, hc, h => by
    simp only [List.cons_append, InOrder] at h ⊢
    exact ⟨h.1, inOrder_erase ds (b :: p) (fun x hx => hp x (List.mem_cons_of_mem _ hx)) hc h.2⟩

theorem top_append {p : List Datum} {c : Datum} (h : ∀ b ∈ p, combining b ≤ combining c) : Top (p ++ [c]) (combining c) := by
  refine ⟨fun b hb => ?_, .inr ⟨c, by simp, rfl⟩⟩
  rcases List.mem_append.1 hb with hb | hb
  · have := h b hb; omega
  · simp at hb; subst hb; omega

/-- None of the characters in `p` after `a` combines with `s`: it has no composite, or it is blocked. -/
def Stuck (comb : Datum → Datum → Option Datum) (s : Datum) (a : List Datum) : List Datum → Prop
  | [] => True
  | q :: p => (¬ unblocked a q ∨ comb s q = none) ∧ Stuck comb s (a ++ [q]) p

theorem stuck_append {comb : Datum → Datum → Option Datum} {s q : Datum} : ∀ {p a : List Datum}, Stuck comb s a p →
    (¬ unblocked (a ++ p) q ∨ comb s q = none) → Stuck comb s a (p ++ [q])
  | [], a, _, h => ⟨by simpa using h, trivial⟩
  | b :: p, a, h1, h2 => ⟨h1.1, stuck_append h1.2 (by simpa using h2)⟩

/-- The table never makes a character combine again that was passed over: needed for the algorithm that goes back. -/
def Closed (comb : Datum → Datum → Option Datum) : Prop :=
  ∀ s c x p, comb s c = some x → 0 < combining p → combining p < combining c → comb s p = none → comb x p = none

theorem stuck_next {comb : Datum → Datum → Option Datum} (hcl : Closed comb) {s c x : Datum} (hx : comb s c = some x) :
    ∀ {p a : List Datum}, Stuck comb s a p → (∀ b ∈ p, 0 < combining b ∧ combining b < combining c) → Stuck comb x a p
  | [], _, _, _ => trivial
  | q :: p, a, h, hp => by
    refine ⟨?_, stuck_next hcl hx h.2 (fun b hb => hp b (List.mem_cons_of_mem _ hb))⟩
    rcases h.1 with k | k
    · exact .inl k
    · exact .inr (hcl s c x q hx (hp q (by simp)).1 (hp q (by simp)).2 k)

/-- What is known about characters waiting behind a starter. -/
structure Waits (p : List Datum) : Prop where
  char : ∀ b ∈ p, (char? b).isSome
  pos : ∀ b ∈ p, combining b ≠ 0
  cls : ∀ b ∈ p, Classed b

theorem unblocked_iff {p : List Datum} {k : Int} {c : Datum} (ht : Top p k) (hc : combining c ≠ 0) :
    unblocked p c ↔ k < combining c := by
  constructor
  · intro h
    rcases ht.2 with ⟨_, e⟩ | ⟨b, hb, e⟩
    · omega
    · have := h b hb; omega
  · intro h b hb
    have := ht.1 b hb; omega

/-- Characters that were passed over are passed over again. -/
theorem rerun {comb : Datum → Datum → Option Datum} {s : Datum} (ds : List Datum) : ∀ (p a : List Datum) (t : Nfc),
    t.on = true → t.starter = s → t.pending = a → Top a t.cls → Waits (a ++ p) → InOrder (a ++ p) → Stuck comb s a p →
    ∃ t', t'.on = true ∧ t'.starter = s ∧ t'.pending = a ++ p ∧ Top (a ++ p) t'.cls ∧
      nfcRun comb t (p ++ ds) = nfcRun comb t' ds
  | [], a, t, h1, h2, h3, h4, _, _, _ => ⟨t, h1, h2, by simpa using h3, by simpa using h4, rfl⟩
  | q :: p, a, t, h1, h2, h3, h4, hw, ho, hs => by
    have hq : combining q ≠ 0 := hw.pos q (by simp)
    have hch : q.head? = some 1 := (head_char q).2 (hw.char q (by simp))
    have hcl : Inter.ccc q = (combining q : Int) := hw.cls q (by simp)
    have hle := inOrder_le hq a p (fun b hb => hw.pos b (by simp [hb])) ho
    have hstep : t.step comb q = ({ t with cls := combining q, pending := t.pending ++ [q] }, .hold [] []) := by
      unfold Nfc.step
      rw [if_pos hch]
      simp only [h1, hcl]
      rw [if_neg (by simp), if_neg (by omega)]
      split
      · rfl
      · rename_i hk
        rcases hs.1 with k | k
        · exact absurd ((unblocked_iff h4 hq).2 (by omega)) k
        · rw [h2, k]
    obtain ⟨t', k1, k2, k3, k4, k5⟩ := rerun ds p (a ++ [q]) { t with cls := combining q, pending := t.pending ++ [q] } h1 h2
      (by simp [h3]) (top_append hle) (by simpa using hw) (by simpa using ho) hs.2
    refine ⟨t', k1, k2, by simpa using k3, by simpa using k4, ?_⟩
    rw [List.cons_append, nfcRun_hold hstep, ← k5]
    rfl

theorem starter_iff {d : Datum} (h : (char? d).isSome) : isStarter d ↔ combining d = 0 := by simp [isStarter, h]

/-- The codec composes, given data in canonical order and a closed table. -/
theorem nfcRun_compose {comb : Datum → Datum → Option Datum} (hcl : Closed comb) : ∀ (ds : List Datum), (∀ d ∈ ds, Classed d) →
    (∀ t : Nfc, t.on = false → t.pending = [] → InOrder ds → nfcRun comb t ds = composeFrom comb none ds) ∧
    (∀ (t : Nfc) (s : Datum) (p : List Datum), t.on = true → t.starter = s → t.pending = p → Top p t.cls → Waits p →
      Stuck comb s [] p → InOrder (p ++ ds) → nfcRun comb t ds = composeFrom comb (some (s, p)) ds)
  | [], _ => by
    constructor
    · intro t h1 _ _; rw [nfcRun_nil]; simp [Nfc.flush, h1, composeFrom]
    · intro t s p h1 h2 h3 _ _ _ _; rw [nfcRun_nil]; simp [Nfc.flush, h1, h2, h3, composeFrom]
  | c :: ds, hds => by
    have ih := nfcRun_compose hcl ds (fun d hd => hds d (List.mem_cons_of_mem _ hd))
    have hcc : Inter.ccc c = (combining c : Int) := hds c (by simp)
    have top0 : Top [] 0 := ⟨by simp, .inl ⟨rfl, rfl⟩⟩
    have w0 : Waits [] := ⟨by simp, by simp, by simp⟩
    constructor
    · intro t h1 h2 h3
      rw [composeFrom]
      by_cases hch : (char? c).isSome
      · rw [if_pos hch]
        have hh := (head_char c).2 hch
        by_cases h0 : combining c = 0
        · rw [if_pos ((starter_iff hch).2 h0)]
          have hstep : ∃ t', t.step comb c = (t', .hold [] []) ∧ t'.on = true ∧ t'.starter = c ∧ t'.pending = [] ∧ t'.cls = 0 := by
            unfold Nfc.step
            rw [if_pos hh]
            simp only [h1, hcc, h0, if_true]
            refine ⟨_, rfl, rfl, rfl, ?_, ?_⟩
            · simp only; rw [(release_pending _).1]; exact h2
            · simp only; rw [(release_pending _).2.2]
          obtain ⟨t', k1, k2, k3, k4, k5⟩ := hstep
          rw [nfcRun_hold k1, ← ih.2 t' c [] k2 k3 k4 (by rw [k5]; exact top0) w0 trivial (inOrder_tail h3)]
          rfl
        · rw [if_neg (by rw [starter_iff hch]; exact h0)]
          have hstep : t.step comb c = ({ t with cls := 0 }, .dead) := by
            unfold Nfc.step
            rw [if_pos hh]
            simp only [h1, hcc]
            rw [if_pos trivial, if_neg (by omega)]
          rw [nfcRun_dead hstep, ih.1 _ (by exact h1) (by exact h2) (inOrder_tail h3)]
      · rw [if_neg hch]
        have hh : ¬ c.head? = some 1 := fun h => hch ((head_char c).1 h)
        have hstep : t.step comb c = ({ t with cls := 0 }, .pass [c]) := by
          unfold Nfc.step
          rw [if_neg hh]
          simp [Nfc.flush, h1]
        rw [nfcRun_pass hstep, ih.1 _ (by exact h1) (by exact h2) (inOrder_tail h3)]
        rfl
    · intro t s p h1 h2 h3 h4 h5 h6 h7
      have hd := inOrder_tail (inOrder_drop p _ h7)
      rw [composeFrom]
      by_cases hch : (char? c).isSome
      · rw [if_pos hch]
        have hh := (head_char c).2 hch
        by_cases h0 : combining c = 0
        · have hub : unblocked p c ↔ p = [] := by
            constructor
            · intro h
              cases p with
              | nil => rfl
              | cons b p => have := h b (by simp); omega
            · rintro rfl; intro b hb; simp at hb
          have hflush : ∀ t' : Nfc, t'.on = true → t'.starter = c → t'.pending = [] → t'.cls = 0 →
              t.step comb c = (t', .hold (s :: p) []) →
              nfcRun comb t (c :: ds) = s :: p ++ composeFrom comb (some (c, [])) ds := by
            intro t' k1 k2 k3 k4 k5
            rw [nfcRun_hold k5, ← ih.2 t' c [] k1 k2 k3 (by rw [k4]; exact top0) w0 trivial hd]
            rfl
          by_cases hp : p = []
          · rw [if_pos (hub.2 hp)]
            cases hm : comb s c with
            | some x =>
              have hstep : t.step comb c = ({ t with cls := 0, starter := x, ptr := .live }, .hold [] []) := by
                unfold Nfc.step
                rw [if_pos hh]
                simp only [h1, hcc, h0, h3, hp, h2, hm]
                simp
              rw [nfcRun_hold hstep, hp]
              have := ih.2 { t with cls := 0, starter := x, ptr := .live } x [] h1 rfl (by rw [← hp]; exact h3) top0 w0 trivial hd
              simp only [← this]; rfl
            | none =>
              simp only
              rw [if_pos ((starter_iff hch).2 h0)]
              refine hflush { on := true, starter := c, ptr := .live, cls := 0, pending := [], bad := t.bad } rfl rfl rfl rfl ?_
              unfold Nfc.step
              rw [if_pos hh]
              simp only [h1, hcc, h0, h3, hp, h2, hm]
              simp [Nfc.flush, h1, h2, h3, hp]
          · rw [if_neg (fun h => hp (hub.1 h))]
            simp only
            rw [if_pos ((starter_iff hch).2 h0)]
            refine hflush { on := true, starter := c, ptr := .live, cls := 0, pending := [], bad := t.bad } rfl rfl rfl rfl ?_
            unfold Nfc.step
            rw [if_pos hh]
            simp only [h1, hcc, h0, h3]
            simp [Nfc.flush, h1, h2, h3, hp]
        · have hle := inOrder_le h0 p ds h5.pos h7
          have hub := unblocked_iff h4 h0
          have hw' : Waits (p ++ [c]) := by
            refine ⟨fun b hb => ?_, fun b hb => ?_, fun b hb => ?_⟩ <;> rcases List.mem_append.1 hb with hb | hb
            · exact h5.char b hb
            · simp at hb; subst hb; exact hch
            · exact h5.pos b hb
            · simp at hb; subst hb; exact h0
            · exact h5.cls b hb
            · simp at hb; subst hb; exact hcc
          have happ : t.step comb c = ({ t with cls := combining c, pending := p ++ [c] }, .hold [] []) →
              (¬ unblocked p c ∨ comb s c = none) →
              nfcRun comb t (c :: ds) = composeFrom comb (some (s, p ++ [c])) ds := by
            intro k k2
            rw [nfcRun_hold k, ← ih.2 { t with cls := combining c, pending := p ++ [c] } s (p ++ [c]) h1 h2 rfl (top_append hle) hw'
              (stuck_append h6 (by simpa using k2)) (by simpa using h7)]
            rfl
          have hns : ¬ isStarter c := by rw [starter_iff hch]; exact h0
          by_cases hb : unblocked p c
          · rw [if_pos hb]
            have hlt := hub.1 hb
            cases hm : comb s c with
            | some x =>
              have hstep : t.step comb c = ({ t with starter := x, ptr := .live, cls := 0, pending := [] }, .hold [] p) := by
                unfold Nfc.step
                rw [if_pos hh]
                simp only [h1, hcc]
                rw [if_neg (by simp), if_neg (by omega), if_neg (by omega), h2, hm, h3]
              have hpl : ∀ b ∈ p, 0 < combining b ∧ combining b < combining c := fun b hbm => by
                have := h5.pos b hbm; have := hb b hbm; omega
              have hio := inOrder_erase ds p h5.pos h0 h7
              have hpo : InOrder p := by
                have aux : ∀ (p ds : List Datum), InOrder (p ++ ds) → InOrder p := by
                  intro p
                  induction p with
                  | nil => intro _ _; trivial
                  | cons a p ih =>
                    intro ds h
                    cases p with
                    | nil => trivial
                    | cons b p => exact ⟨h.1, ih ds h.2⟩
                exact aux p ds hio
              obtain ⟨t', k1, k2, k3, k4, k5⟩ := rerun (s := x) ds p []
                { t with starter := x, ptr := .live, cls := 0, pending := [] } h1 rfl rfl top0 h5 hpo (stuck_next hcl hm h6 hpl)
              rw [nfcRun_hold hstep, List.nil_append, k5]
              exact ih.2 t' x p k1 k2 k3 k4 h5 (stuck_next hcl hm h6 hpl) hio
            | none =>
              simp only
              rw [if_neg hns]
              refine happ ?_ (.inr hm)
              unfold Nfc.step
              rw [if_pos hh]
              simp only [h1, hcc]
              rw [if_neg (by simp), if_neg (by omega), if_neg (by omega), h2, hm, h3]
          · rw [if_neg hb]
            simp only
            rw [if_neg hns]
            refine happ ?_ (.inl hb)
            unfold Nfc.step
            rw [if_pos hh]
            simp only [h1, hcc]
            rw [if_neg (by simp), if_neg (by omega), if_pos (by
              have : ¬ t.cls < combining c := fun h => hb (hub.2 h)
              omega), h3]
      · rw [if_neg hch]
        have hh : ¬ c.head? = some 1 := fun h => hch ((head_char c).1 h)
        have hstep : t.step comb c = ({ t with cls := 0, on := false, ptr := .null, pending := [] }, .pass (s :: p ++ [c])) := by
          unfold Nfc.step
          rw [if_neg hh]
          simp [Nfc.flush, h1, h2, h3]
        rw [nfcRun_pass hstep, ih.1 _ (by rfl) (by rfl) hd]
        simp

theorem combines_prefix {comb : Datum → Datum → Option Datum} (a : List Datum) {ds out : List Datum} (h : Combines comb ds out) :
    Combines comb (a ++ ds) (a ++ out) := by
  induction h with
  | refl ds => exact .refl _
  | @step pre s p c post x out h1 h2 h3 h4 _ ih =>
    have := Combines.step (pre := a ++ pre) (post := post) h1 h2 h3 h4 (by simpa using ih)
    simpa using this

/-- What the codec holds. -/
def Nfc.held (t : Nfc) : List Datum := if t.on then t.starter :: t.pending else []

/-- The starter it holds is a starter, and what waits behind it is not. -/
structure Nfc.Good (t : Nfc) : Prop where
  starter : t.on = true → isStarter t.starter
  waits : Waits t.pending
  off : t.on = false → t.pending = []

/-- On any data, the codec does nothing but replace starters and following characters by their composites. -/
theorem nfcRun_combines {comb : Datum → Datum → Option Datum} (hx : ∀ s c x, comb s c = some x → isStarter x) (n : Nat) :
    ∀ (t : Nfc) (ds : List Datum), t.size ds.length ≤ n → t.Good → (∀ d ∈ ds, Classed d) →
      Combines comb (t.held ++ ds) (nfcRun comb t ds) := by
  induction n using Nat.strongRecOn with
  | ind n ih =>
    intro t ds hn hg hds
    cases ds with
    | nil =>
      rw [nfcRun_nil]
      have : t.held = t.flush.2 := by unfold Nfc.held Nfc.flush; split <;> rfl
      rw [List.append_nil, this]; exact .refl _
    | cons c ds =>
      have hsz := step_size comb t c ds.length
      have hcc : Inter.ccc c = (combining c : Int) := hds c (by simp)
      have hdt : ∀ d ∈ ds, Classed d := fun d hd => hds d (List.mem_cons_of_mem _ hd)
      have w0 : Waits [] := ⟨by simp, by simp, by simp⟩
      -- the next state holds `g`, and `em` was put out
      have goD : ∀ t', t.step comb c = (t', .dead) → t'.Good → Combines comb (t'.held ++ ds) (nfcRun comb t' ds) := by
        intro t' h1 h2
        rw [h1] at hsz
        exact ih (t'.size ds.length) (by simp only [NfcAct.left, List.length_cons] at hsz hn; omega) t' ds (Nat.le_refl _) h2 hdt
      have goH : ∀ t' em back, t.step comb c = (t', .hold em back) → t'.Good → (∀ b ∈ back, Classed b) →
          Combines comb (t'.held ++ (back ++ ds)) (nfcRun comb t' (back ++ ds)) := by
        intro t' em back h1 h2 h3
        rw [h1] at hsz
        refine ih (t'.size (back ++ ds).length) (by simp only [NfcAct.left, List.length_cons, List.length_append] at hsz hn ⊢; omega) t' _ (Nat.le_refl _) h2 ?_
        intro d hd
        rcases List.mem_append.1 hd with hd | hd
        · exact h3 d hd
        · exact hdt d hd
      have goP : ∀ t' em, t.step comb c = (t', .pass em) → t'.Good → Combines comb (t'.held ++ ds) (nfcRun comb t' ds) := by
        intro t' em h1 h2
        rw [h1] at hsz
        exact ih (t'.size ds.length) (by simp only [NfcAct.left, List.length_cons] at hsz hn; omega) t' ds (Nat.le_refl _) h2 hdt
      by_cases hh : c.head? = some 1
      · have hch := (head_char c).1 hh
        cases hon : t.on with
        | false =>
          have hheld : t.held = [] := by simp [Nfc.held, hon]
          by_cases h0 : combining c = 0
          · have hstep : ∃ t', t.step comb c = (t', .hold [] []) ∧ t'.on = true ∧ t'.starter = c ∧ t'.pending = [] := by
              unfold Nfc.step
              rw [if_pos hh]
              simp only [hon, hcc, h0, if_true]
              refine ⟨_, rfl, rfl, rfl, ?_⟩
              simp only; rw [(release_pending _).1]; exact hg.off hon
            obtain ⟨t', k1, k2, k3, k4⟩ := hstep
            have := goH t' [] [] k1 ⟨fun _ => by rw [k3]; exact (starter_iff hch).2 h0, by rw [k4]; exact w0, fun h => by rw [k2] at h; simp at h⟩ (by simp)
            rw [nfcRun_hold k1, hheld]
            simpa [Nfc.held, k2, k3, k4] using this
          · have hstep : t.step comb c = ({ t with cls := 0 }, .dead) := by
              unfold Nfc.step
              rw [if_pos hh]
              simp only [hon, hcc]
              rw [if_pos trivial, if_neg (by omega)]
            rw [nfcRun_dead hstep, hheld]
            have := goD _ hstep ⟨hg.starter, hg.waits, hg.off⟩
            have := combines_prefix [c] this
            simpa [Nfc.held, hon] using this
        | true =>
          have hheld : t.held = t.starter :: t.pending := by simp [Nfc.held, hon]
          by_cases h0 : combining c = 0
          · have hflush : t.step comb c = ({ on := true, starter := c, ptr := .live, cls := 0, pending := [], bad := t.bad }, .hold (t.starter :: t.pending) []) →
                Combines comb (t.held ++ c :: ds) (nfcRun comb t (c :: ds)) := by
              intro k
              have := goH _ _ _ k ⟨fun _ => (starter_iff hch).2 h0, w0, fun h => by simp at h⟩ (by simp)
              rw [nfcRun_hold k, hheld]
              have := combines_prefix (t.starter :: t.pending) this
              simpa [Nfc.held] using this
            by_cases hp : t.pending = []
            · cases hm : comb t.starter c with
              | some x =>
                have hstep : t.step comb c = ({ t with cls := 0, starter := x, ptr := .live }, .hold [] []) := by
                  unfold Nfc.step
                  rw [if_pos hh]
                  simp only [hon, hcc, h0, hp, hm]
                  simp
                have := goH _ _ _ hstep ⟨fun _ => hx _ _ _ hm, hg.waits, fun h => by rw [hon] at h; simp at h⟩ (by simp)
                rw [nfcRun_hold hstep, hheld]
                have := Combines.step (pre := []) (p := []) (post := ds) (hg.starter hon) (by simp) hch hm (by simpa [Nfc.held, hon, hp] using this)
                simpa [hp, hon] using this
              | none =>
                apply hflush
                unfold Nfc.step
                rw [if_pos hh]
                simp only [hon, hcc, h0, hp, hm]
                simp [Nfc.flush, hon, hp]
            · apply hflush
              unfold Nfc.step
              rw [if_pos hh]
              simp only [hon, hcc, h0]
              simp [Nfc.flush, hon, hp]
          · have happ : t.step comb c = ({ t with cls := combining c, pending := t.pending ++ [c] }, .hold [] []) →
                Combines comb (t.held ++ c :: ds) (nfcRun comb t (c :: ds)) := by
              intro k
              have hw' : Waits (t.pending ++ [c]) := by
                refine ⟨fun b hb => ?_, fun b hb => ?_, fun b hb => ?_⟩ <;> rcases List.mem_append.1 hb with hb | hb
                · exact hg.waits.char b hb
                · simp at hb; subst hb; exact hch
                · exact hg.waits.pos b hb
                · simp at hb; subst hb; exact h0
                · exact hg.waits.cls b hb
                · simp at hb; subst hb; exact hcc
              have := goH _ _ _ k ⟨hg.starter, hw', fun h => by rw [hon] at h; simp at h⟩ (by simp)
              rw [nfcRun_hold k, hheld]
              simpa [Nfc.held, hon] using this
            by_cases hle : (combining c : Int) ≤ t.cls
            · apply happ
              unfold Nfc.step
              rw [if_pos hh]
              simp only [hon, hcc]
              rw [if_neg (by simp), if_neg (by omega), if_pos hle]
            · cases hm : comb t.starter c with
              | some x =>
                have hstep : t.step comb c = ({ t with starter := x, ptr := .live, cls := 0, pending := [] }, .hold [] t.pending) := by
                  unfold Nfc.step
                  rw [if_pos hh]
                  simp only [hon, hcc]
                  rw [if_neg (by simp), if_neg (by omega), if_neg hle, hm]
                have := goH _ _ _ hstep ⟨fun _ => hx _ _ _ hm, w0, fun _ => rfl⟩ hg.waits.cls
                rw [nfcRun_hold hstep, hheld]
                have := Combines.step (pre := []) (p := t.pending) (post := ds) (hg.starter hon) hg.waits.pos hch hm (by simpa [Nfc.held, hon] using this)
                simpa [hon] using this
              | none =>
                apply happ
                unfold Nfc.step
                rw [if_pos hh]
                simp only [hon, hcc]
                rw [if_neg (by simp), if_neg (by omega), if_neg hle, hm]
      · have hstep : ∃ t', t.step comb c = (t', .pass (t.held ++ [c])) ∧ t'.on = false ∧ t'.pending = [] := by
          unfold Nfc.step
          rw [if_neg hh]
          cases hon : t.on with
          | false => exact ⟨_, by simp [Nfc.flush, Nfc.held, hon]; rfl, by simp [hon], by simp [hg.off hon]⟩
          | true => exact ⟨_, by simp [Nfc.flush, Nfc.held, hon]; rfl, rfl, rfl⟩
        obtain ⟨t', k1, k2, k3⟩ := hstep
        have := goP t' _ k1 ⟨fun h => by rw [k2] at h; simp at h, by rw [k3]; exact w0, fun _ => k3⟩
        rw [nfcRun_pass k1]
        have := combines_prefix (t.held ++ [c]) this
        simpa [Nfc.held, k2] using this

end Verif.Engine
