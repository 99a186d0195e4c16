import Verif.Spec.GbTable
import Verif.Props.Gb18030
import Verif.Props.MkTable
import Verif.Proofs.MkMarked
import Verif.Proofs.MkSize

/-!
C68: decoding GB18030 with the shipped table.
-/

namespace Verif.Props
open Verif.Spec
open Verif.Engine hiding Datum step
open Verif.MkTable
open Verif.Spec.Table
open Verif.Gb18030 (machine stars)

set_option maxRecDepth 100000

/-- Reading `code` byte by byte, the table `c` asks for more up to some byte, at which it calls the callback; that, from
any private data between two characters and whatever follows the code, takes exactly the rest of the code and puts out
`out`. -/
def TableReads (c : Codec Gb18030.Priv) (code : List Nat) (out : List Datum) : Prop :=
  ∃ pre b post o, code = pre ++ b :: post ∧
    (∀ q, q ≠ [] → q <+: pre → ∃ o', walk c 0 q = some o' ∧ c.status o' = .cont) ∧
    walk c 0 (pre ++ [b]) = some o ∧ (c.status o = .subroutine ∨ c.status o = .submatchSubroutine) ∧
    ∀ t rest, t.status = 0 → ∃ t', (machine ((c.data o).headD [])).feed t ((b :: post) ++ rest) =
      .ret (post.length + 1) t' out .nextphase ∧ t'.status = 0

/-! ### The rules -/

theorem stars_facts : ∀ x ∈ stars, (x.1 ≠ [] ∧ x.1.length ≤ 3 ∧ x.1.length = x.2.length) ∧ ((∀ c ∈ x.1, c < 256) ∧ (∀ c ∈ x.2, c < 256)) ∧
    ((x.1 = [0xD9] ∧ x.2 = [0xD0]) ∨ (x.1 ≠ [0xD9] ∧ x.2 = x.1)) ∧ (∀ b ∈ (x.1.drop 1).take 1, b < 0x40) := by
  decide +kernel

theorem stars_distinct : stars.Pairwise fun x y => x.1 ≠ y.1 := by decide +kernel

theorem star_covers (x : List Nat × List Nat) (q : List Nat) :
    covers (starLine x) q = true ↔ ∃ b, b ≤ 256 ∧ q = x.1 ++ [b] := by
  unfold covers starLine
  simp only
  generalize x.1 = p
  induction p generalizing q with
  | nil =>
    match q with
    | [] => simp [within]
    | [c] => simp [within, symbolFits]
    | c :: d :: q => simp [within]
  | cons a p ih =>
    match q with
    | [] => simp [within]
    | c :: q =>
      simp only [List.map_cons, List.cons_append, within, Bool.and_eq_true, ih, symbolFits, Bool.false_and, Bool.or_false,
        decide_eq_true_eq, List.cons.injEq]
      constructor
      · rintro ⟨h, b, hb, rfl⟩; exact ⟨b, hb, by omega, rfl⟩
      · rintro ⟨b, hb, h, rfl⟩; exact ⟨by omega, b, hb, rfl⟩

theorem single_begins {p q : List Nat} {r : Rule} (hci : r.ci = false) (h : r.pat = p.map fun c => (c, c)) :
    begins r q = true ↔ q <+: p ∧ q ≠ p := by
  obtain ⟨ci, pat, cb, dat⟩ := r
  simp only at hci h
  subst hci h
  have := begins_marked p q cb dat
  rw [this, Bool.and_eq_true, List.isPrefixOf_iff_prefix, bne_iff_ne, ne_comm]

theorem single_covers {p q : List Nat} {r : Rule} (hci : r.ci = false) (h : r.pat = p.map fun c => (c, c)) :
    covers r q = true ↔ q = p := by
  obtain ⟨ci, pat, cb, dat⟩ := r
  simp only at hci h
  subst hci h
  rw [within_marked, decide_eq_true_eq, eq_comm]

theorem star_begins (x : List Nat × List Nat) (q : List Nat) : begins (starLine x) q = true ↔ q <+: x.1 := by
  unfold begins starLine
  simp only [List.length_append, List.length_map, List.length_singleton, Bool.and_eq_true, decide_eq_true_eq]
  constructor
  · rintro ⟨h1, h2⟩
    rw [List.take_append_of_le_length (by rw [List.length_map]; omega), ← List.map_take, within_single] at h2
    rw [decide_eq_true_eq] at h2
    rw [← h2]
    exact List.take_prefix _ _
  · intro h
    have hl := h.length_le
    refine ⟨by omega, ?_⟩
    rw [List.take_append_of_le_length (by rw [List.length_map]; omega), ← List.map_take, within_single, decide_eq_true_eq]
    exact (List.prefix_iff_eq_take.1 h).symm

variable {rs : List Rule}

/-- The rules of the file. -/
theorem gb_rule (h : GbFile rs) {r : Rule} (hr : r ∈ rs) : (∃ x ∈ stars, r = starLine x) ∨
    (r.cb = false ∧ r.ci = false ∧ r.dat.length ≤ 4 ∧ ∃ p, r.pat = p.map (fun c => (c, c)) ∧ ((∃ a b, p = [a, b] ∧ a < 256 ∧ 0x40 ≤ b ∧ b < 256) ∨
      (∃ a b c d, p = [a, b, c, d] ∧ GbLegal a b c d ∧ ∀ cp, ¬ GbCode cp a b c d))) := by
  cases hc : r.cb with
  | true =>
    left
    have : r ∈ rs.filter (·.cb) := List.mem_filter.2 ⟨hr, hc⟩
    rw [h.stars] at this
    obtain ⟨x, hx, rfl⟩ := List.mem_map.1 this
    exact ⟨x, hx, rfl⟩
  | false =>
    right
    obtain ⟨h1, h2, h3⟩ := h.listed r hr hc
    refine ⟨rfl, h1, h2, ?_⟩
    rcases h3 with ⟨a, b, h3, h4⟩ | ⟨a, b, c, d, h3, h4⟩
    · exact ⟨[a, b], by rw [h3]; rfl, .inl ⟨a, b, rfl, h4⟩⟩
    · exact ⟨[a, b, c, d], by rw [h3]; rfl, .inr ⟨a, b, c, d, rfl, h4⟩⟩

theorem gb_star_mem (h : GbFile rs) {x} (hx : x ∈ stars) : starLine x ∈ rs := by
  have : starLine x ∈ rs.filter (·.cb) := by rw [h.stars]; exact List.mem_map.2 ⟨x, hx, rfl⟩
  exact (List.mem_filter.1 this).1

theorem gb_plain (h : GbFile rs) : ∀ r ∈ rs, Plain r := by
  intro r hr
  rcases gb_rule h hr with ⟨x, hx, rfl⟩ | ⟨_, _, _, p, hp, h4⟩
  · have := stars_facts x hx
    refine ⟨by simp [starLine], ?_⟩
    intro b hb
    simp only [starLine, List.mem_append, List.mem_map, List.mem_singleton] at hb
    rcases hb with ⟨c, hc, rfl⟩ | rfl
    · have := this.2.1.1 c hc; simp only; omega
    · simp
  · refine ⟨by rw [hp]; rcases h4 with ⟨a, b, rfl, _⟩ | ⟨a, b, c, d, rfl, _⟩ <;> simp, ?_⟩
    intro x hx
    rw [hp] at hx
    obtain ⟨c, hc, rfl⟩ := List.mem_map.1 hx
    simp only
    rcases h4 with ⟨a, b, rfl, h5⟩ | ⟨a, b, c', d, rfl, h5, _⟩
    · simp at hc; omega
    · unfold GbLegal at h5; simp at hc; omega

theorem datums_length (p : List Nat) : (datums p).length ≤ p.length := by
  generalize hn : p.length = n
  induction n using Nat.strongRecOn generalizing p with
  | _ n ih =>
    by_cases h : p = []
    · subst h; simp [datums]
    · rw [datums_cons h]
      have hl := after_length h
      have := ih _ (by omega) (after p) rfl
      simp only [List.length_cons]
      omega

theorem gb_dat (h : GbFile rs) : ∀ r ∈ rs, (datums r.dat).length ≤ 1024 := by
  intro r hr
  rcases gb_rule h hr with ⟨x, hx, rfl⟩ | ⟨_, _, h3, _⟩
  · have := stars_facts x hx
    have e := datums_symbols [x.2] (by
      simp only [List.mem_singleton, forall_eq]
      refine ⟨?_, this.2.1.2⟩
      intro e; rw [e] at this; have h1 := this.1; simp only [List.length_nil] at h1; exact h1.1 (List.eq_nil_of_length_eq_zero h1.2.2))
    simp only [symbols] at e
    simp only [starLine, e]; simp
  · have := datums_length r.dat; omega

theorem star_nodes : ∀ x ∈ stars, ruleNodes (starLine x).ci (starLine x).pat ≤ 260 := by
  intro x hx
  have hl := (stars_facts x hx).1.2.1
  have key : ∀ p : List Nat, ruleNodes false ((p.map fun c => (c, c)) ++ [(0, 256)]) ≤ p.length + 257 := by
    intro p
    induction p with
    | nil => simpa [ruleNodes] using width_all false (0, 256)
    | cons c p ih =>
      simp only [List.map_cons, List.cons_append, ruleNodes, List.length_cons]
      have := Nat.mul_le_mul (width_one c) (Nat.add_le_add_left ih 1)
      omega
  exact Nat.le_trans (key x.1) (by omega)

theorem gb_size (h : GbFile rs) : imageSize rs < 2 ^ 32 := by
  have hd : ∀ r ∈ rs, r.dat.length ≤ 4 := by
    intro r hr
    rcases gb_rule h hr with ⟨x, hx, rfl⟩ | ⟨_, _, h3, _⟩
    · have := (stars_facts x hx).1; simp only [starLine]; omega
    · exact h3
  have h1 := image_size rs 4 hd
  have hn : ∀ l : List Rule, (∀ r ∈ l, r ∈ rs) → (l.map fun r => ruleNodes r.ci r.pat).sum ≤ 260 * (l.filter (·.cb)).length + 4 * l.length := by
    intro l
    induction l with
    | nil => intro _; simp
    | cons r l ih =>
      intro hl
      have ih := ih (fun x hx => hl x (by simp [hx]))
      simp only [List.map_cons, List.sum_cons, List.filter_cons, List.length_cons]
      rcases gb_rule h (hl r (by simp)) with ⟨x, hx, rfl⟩ | ⟨h1, h2, _, p, hp, h4⟩
      · have := star_nodes x hx
        have e : (starLine x).cb = true := rfl
        rw [e]
        simp only [if_true, List.length_cons]
        omega
      · rw [h1, h2, hp]
        have := ruleNodes_single p
        have hp4 : p.length ≤ 4 := by rcases h4 with ⟨a, b, rfl, _⟩ | ⟨a, b, c, d, rfl, _⟩ <;> simp
        simp only [Bool.false_eq_true, if_false]
        omega
  have h2 := hn rs (fun _ h => h)
  rw [h.stars] at h2
  have h3 : (stars.map starLine).length = 128 := by rw [List.length_map]; decide +kernel
  rw [h3] at h2
  have hs := h.size
  have hf : fileNodes rs ≤ 433281 := by unfold fileNodes; omega
  have := Nat.mul_le_mul_right (1044 + 12 * 4 + 4 * 4) hf
  unfold imageSize
  omega

/-- A listed code is not the beginning of another rule. -/
theorem gb_listed_end (h : GbFile rs) {p : List Nat} (hp : (∃ a b, p = [a, b] ∧ a < 256 ∧ 0x40 ≤ b ∧ b < 256) ∨
      (∃ a b c d, p = [a, b, c, d] ∧ GbLegal a b c d ∧ ∀ cp, ¬ GbCode cp a b c d)) : ∀ r ∈ rs, begins r p = false := by
  intro r hr
  rw [← Bool.not_eq_true]
  intro hb
  rcases gb_rule h hr with ⟨x, hx, rfl⟩ | ⟨_, h2, _, p', hp', h4⟩
  · rw [star_begins] at hb
    have hf := stars_facts x hx
    rcases hp with ⟨a, b, rfl, h5⟩ | ⟨a, b, c', d, rfl, h5, _⟩
    · obtain ⟨t, ht⟩ := hb
      have := hf.2.2.2 b (by rw [← ht]; simp)
      omega
    · have := hb.length_le
      have := hf.1.2.1
      simp at *; omega
  · rw [single_begins h2 hp'] at hb
    obtain ⟨⟨t, ht⟩, hne⟩ := hb
    rcases hp with ⟨a, b, rfl, h5⟩ | ⟨a, b, c', d, rfl, h5, _⟩
    · rcases h4 with ⟨a', b', rfl, h6⟩ | ⟨a', b', c', d, rfl, h6, _⟩
      · simp at ht; exact hne (by rw [ht.1, ht.2.1])
      · simp at ht; unfold GbLegal at h6; omega
    · rcases h4 with ⟨a', b', rfl, h6⟩ | ⟨a', b', c', d, rfl, h6, _⟩
      · simp at ht
      · simp at ht; exact hne (by rw [ht.1, ht.2.1, ht.2.2.1, ht.2.2.2.1])

theorem gb_noClash (h : GbFile rs) : NoClash rs := by
  have hst : rs.Pairwise fun r r' => r.cb = true → r'.cb = true → ∀ q, covers r q = true → covers r' q = true → False := by
    have : (rs.filter (·.cb)).Pairwise fun r r' => ∀ q, covers r q = true → covers r' q = true → False := by
      rw [h.stars]
      refine List.pairwise_map.2 (stars_distinct.imp ?_)
      intro x y hxy q h1 h2
      rw [star_covers] at h1 h2
      obtain ⟨b, _, rfl⟩ := h1
      obtain ⟨b', _, h2⟩ := h2
      exact hxy (List.append_inj_left' h2 rfl)
    exact List.pairwise_filter.1 this
  refine (List.Pairwise.and_mem.1 hst).imp ?_
  rintro r r' ⟨hr, hr', h1⟩ q h2 h3
  rcases gb_rule h hr' with ⟨y, hy, rfl⟩ | ⟨hcb, hci, _, p, hp, h4⟩
  · rcases gb_rule h hr with ⟨x, hx, rfl⟩ | ⟨hcb, hci, _, p, hp, h4⟩
    · exact (h1 rfl rfl q h2 h3).elim
    · left
      refine ⟨hcb, ?_⟩
      have e1 : within false r.pat q = true := by simpa [covers, hci] using h2
      have e2 : within false (starLine y).pat q = true := h3
      rw [exactly_within e1, exactly_within e2, ← Arena.within_length e1, ← Arena.within_length e2]
      exact Nat.le_refl _
  · right
    rw [single_covers hci hp] at h3
    subst h3
    exact ⟨hcb, gb_listed_end h h4⟩

/-! ### Which codes have a callback rule -/

/-- Some callback rule is for the beginning of the code. -/
def Starred (code : List Nat) : Prop := ∃ x ∈ stars, x.1 <+: code

theorem starred_ab : ∀ a ∈ List.range 126, ∀ b ∈ List.range 10, (stars.any fun x => x.1 == [0x81 + a] || x.1 == [0x81 + a, 0x30 + b]) = true ∨
    (a = 1 ∧ (b = 5 ∨ b = 7 ∨ b = 8 ∨ b = 9)) ∨
    ∀ r ∈ gbBlocks, gbStart r + (r.2.1 - r.1) < (a * 10 + b) * 1260 ∨ (a * 10 + b) * 1260 + 1259 < gbStart r := by
  decide +kernel

theorem gb_block_at {cp a b c d : Nat} (h : GbCode cp a b c d) : ∃ r ∈ gbBlocks, (r.1 ≤ cp ∧ cp ≤ r.2.1) ∧
    ((a - 0x81) * 10 + (b - 0x30)) * 1260 + (c - 0x81) * 10 + (d - 0x30) = gbStart r + (cp - r.1) := by
  obtain ⟨_, r, hr, hin, hix⟩ := h
  refine ⟨r, hr, hin, ?_⟩
  have : gbIndex a b c d = gbStart r + (cp - r.1) := hix
  rw [← this]
  unfold gbIndex
  omega

/-- Blocks around the codes 82 35 .. and 82 37 .. - 82 39 ..: only one reaches into them. -/
theorem gb_82 : ∀ r ∈ gbBlocks, r = (0x9FA6, 0xD7FF, (0x82, 0x35, 0x8F, 0x33)) ∨ gbStart r + (r.2.1 - r.1) < 15 * 1260 ∨
    20 * 1260 ≤ gbStart r := by decide +kernel

theorem gb_gap_code {cp b c d : Nat} (h : GbCode cp 0x82 b c d) (hb : b = 0x35 ∨ b = 0x37 ∨ b = 0x38 ∨ b = 0x39) :
    (b = 0x35 ∧ c = 0x8F) ∨ GbGap cp ∧ ¬ (b = 0x35 ∧ c ≤ 0x8F) := by
  have hl := h.1
  unfold GbLegal at hl
  obtain ⟨r, hr, hin, hix⟩ := gb_block_at h
  rcases gb_82 r hr with rfl | h1 | h1
  · have e : gbStart (0x9FA6, 0xD7FF, (0x82, 0x35, 0x8F, 0x33)) = 19043 := by decide +kernel
    rw [e] at hix
    simp only at hin hix
    unfold GbGap
    omega
  · omega
  · omega

/-- The computed codes without a callback rule are those of the gap. -/
theorem starred_iff {cp a b c d : Nat} (h : GbCode cp a b c d) : Starred [a, b, c, d] ↔ ¬ GbGap cp := by
  have hl := h.1
  unfold GbLegal at hl
  have hsp : ∀ b, (b = 0x35 ∨ b = 0x37 ∨ b = 0x38 ∨ b = 0x39) → ∀ x ∈ stars, x.1 ≠ [0x82] ∧ x.1 ≠ [0x82, b] ∧
      (∀ c, x.1 = [0x82, b, c] → b = 0x35 ∧ c = 0x8F) := by
    intro b hb x hx
    have key : ∀ x ∈ stars, x.1 ≠ [0x82] ∧ (x.1.take 2 = [0x82, 0x35] → x.1 = [0x82, 0x35, 0x8F]) ∧ x.1.take 2 ≠ [0x82, 0x37] ∧
      x.1.take 2 ≠ [0x82, 0x38] ∧ x.1.take 2 ≠ [0x82, 0x39] := by decide +kernel
    obtain ⟨k1, k2, k3, k4, k5⟩ := key x hx
    refine ⟨k1, ?_, ?_⟩
    · intro e
      rw [e] at k2 k3 k4 k5
      rcases hb with rfl | rfl | rfl | rfl
      · simp at k2
      · simp at k3
      · simp at k4
      · simp at k5
    · intro c e
      rw [e] at k2 k3 k4 k5
      rcases hb with rfl | rfl | rfl | rfl
      · simp at k2; exact ⟨rfl, k2⟩
      · simp at k3
      · simp at k4
      · simp at k5
  rcases starred_ab (a - 0x81) (List.mem_range.2 (by omega)) (b - 0x30) (List.mem_range.2 (by omega)) with h1 | ⟨ha, hb⟩ | h1
  · rw [show 0x81 + (a - 0x81) = a by omega, show 0x30 + (b - 0x30) = b by omega] at h1
    simp only [List.any_eq_true, Bool.or_eq_true, beq_iff_eq] at h1
    obtain ⟨x, hx, h2⟩ := h1
    refine ⟨fun _ => ?_, fun _ => ⟨x, hx, ?_⟩⟩
    · intro hg
      have : a = 0x82 ∧ (b = 0x35 ∨ b = 0x37 ∨ b = 0x38 ∨ b = 0x39) := by
        obtain ⟨r, hr, hin, hix⟩ := gb_block_at h
        have hblk : ∀ r ∈ gbBlocks, r = (0x9FA6, 0xD7FF, (0x82, 0x35, 0x8F, 0x33)) ∨ r.2.1 < 0x9FAD ∨ 0xB7B2 < r.1 := by decide
        unfold GbGap at hg
        rcases hblk r hr with rfl | h1 | h1
        · have e : gbStart (0x9FA6, 0xD7FF, (0x82, 0x35, 0x8F, 0x33)) = 19043 := by decide +kernel
          rw [e] at hix
          simp only at hin hix
          omega
        · omega
        · omega
      obtain ⟨rfl, hb⟩ := this
      rcases h2 with h2 | h2
      · exact (hsp b hb x hx).1 h2
      · exact (hsp b hb x hx).2.1 h2
    · rcases h2 with h2 | h2
      · rw [h2]; exact ⟨[b, c, d], rfl⟩
      · rw [h2]; exact ⟨[c, d], rfl⟩
  · obtain rfl : a = 0x82 := by omega
    have hb' : b = 0x35 ∨ b = 0x37 ∨ b = 0x38 ∨ b = 0x39 := by omega
    have hg := gb_gap_code h hb'
    constructor
    · rintro ⟨x, hx, hpre⟩ hgap
      have hf := (stars_facts x hx).1
      obtain ⟨k1, k2, k3⟩ := hsp b hb' x hx
      obtain ⟨t, ht⟩ := hpre
      match hx1 : x.1 with
      | [] => exact hf.1 hx1
      | [a'] => rw [hx1] at ht; simp at ht; exact k1 (by rw [hx1, ht.1])
      | [a', b'] => rw [hx1] at ht; simp at ht; exact k2 (by rw [hx1, ht.1, ht.2.1])
      | [a', b', c'] =>
        rw [hx1] at ht; simp at ht
        have := k3 c (by rw [hx1, ht.1, ht.2.1, ht.2.2.1])
        obtain ⟨rfl, rfl⟩ := this
        obtain ⟨r, hr, hin, hix⟩ := gb_block_at h
        rcases gb_82 r hr with rfl | h1 | h1
        · have e : gbStart (0x9FA6, 0xD7FF, (0x82, 0x35, 0x8F, 0x33)) = 19043 := by decide +kernel
          rw [e] at hix
          simp only at hin hix
          unfold GbGap at hgap
          omega
        · omega
        · omega
      | _ :: _ :: _ :: _ :: _ => rw [hx1] at hf; simp at hf
    · intro hgap
      rcases hg with ⟨rfl, rfl⟩ | hg
      · exact ⟨([0x82, 0x35, 0x8F], [0x82, 0x35, 0x8F]), by decide +kernel, ⟨[d], rfl⟩⟩
      · exact absurd hg.1 hgap
  · exfalso
    obtain ⟨r, hr, hin, hix⟩ := gb_block_at h
    rcases h1 r hr with h1 | h1
    · omega
    · omega

/-! ### Reading a code -/

theorem shortest_star {code : List Nat} (h : Starred code) : ∃ x ∈ stars, x.1 <+: code ∧ ∀ y ∈ stars, y.1 <+: code → x.1.length ≤ y.1.length := by
  obtain ⟨x, hx, hp⟩ := h
  generalize hn : x.1.length = n
  induction n using Nat.strongRecOn generalizing x with
  | _ n ih =>
    by_cases hall : ∀ y ∈ stars, y.1 <+: code → x.1.length ≤ y.1.length
    · exact ⟨x, hx, hp, hall⟩
    · simp only [Classical.not_forall, Nat.not_le] at hall
      obtain ⟨y, hy, hyp, hlt⟩ := hall
      exact ih _ (by omega) y hy hyp rfl

theorem star_unique {x y : List Nat × List Nat} (hx : x ∈ stars) (hy : y ∈ stars) (h : x.1 = y.1) : x = y := by
  have key : ∀ l : List (List Nat × List Nat), (l.Pairwise fun x y => x.1 ≠ y.1) → x ∈ l → y ∈ l → x = y := by
    intro l hl hx' hy'
    clear hx hy
    induction l with
    | nil => simp at hx'
    | cons z l ih =>
      rw [List.pairwise_cons] at hl
      rcases List.mem_cons.1 hx' with rfl | hx
      · rcases List.mem_cons.1 hy' with rfl | hy
        · rfl
        · exact absurd h (hl.1 y hy)
      · rcases List.mem_cons.1 hy' with rfl | hy
        · exact absurd h.symm (hl.1 x hx)
        · exact ih hl.2 hx hy
  exact key stars stars_distinct hx hy

theorem prefix_take {p q l : List Nat} (h : p <+: l) (hq : q <+: p) : q = l.take q.length :=
  List.prefix_iff_eq_take.1 (hq.trans h)

/-- What the file says about the beginnings of a computed code with a callback rule: the shortest rule counts. -/
theorem gb_meaning (h : GbFile rs) {cp a b c d : Nat} (hcode : GbCode cp a b c d) {x : List Nat × List Nat} (hx : x ∈ stars)
    (hpre : x.1 <+: [a, b, c, d]) (hmin : ∀ y ∈ stars, y.1 <+: [a, b, c, d] → x.1.length ≤ y.1.length) :
    (∀ q, q ≠ [] → q <+: x.1 → meaning rs q = some (.cont, [])) ∧
    ∃ st, (st = .subroutine ∨ st = .submatchSubroutine) ∧ meaning rs ([a, b, c, d].take (x.1.length + 1)) = some (st, x.2) := by
  have hl := hcode.1
  unfold GbLegal at hl
  have hlen : x.1.length ≤ 3 := (stars_facts x hx).1.2.1
  have hlisted : ∀ q, q <+: [a, b, c, d] → ∀ r ∈ rs, r.cb = false → covers r q = false := by
    intro q hq r hr hcb
    rw [← Bool.not_eq_true]
    intro hc
    rcases gb_rule h hr with ⟨y, _, rfl⟩ | ⟨_, h2, _, p, hp, h4⟩
    · simp [starLine] at hcb
    · rw [single_covers h2 hp] at hc
      subst hc
      obtain ⟨t, ht⟩ := hq
      rcases h4 with ⟨a', b', rfl, h5⟩ | ⟨a', b', c', d', rfl, h5, h6⟩
      · simp at ht; omega
      · simp at ht
        obtain ⟨rfl, rfl, rfl, rfl, _⟩ := ht
        exact h6 cp hcode
  have hci : ∀ r ∈ rs, r.ci = false := by
    intro r hr
    rcases gb_rule h hr with ⟨y, _, rfl⟩ | ⟨_, h2, _⟩
    · rfl
    · exact h2
  have hplain : ∀ q, q <+: [a, b, c, d] → (rs.find? fun r => covers r q && !r.cb) = none := by
    intro q hq
    rw [List.find?_eq_none]
    intro r hr
    cases hcb : r.cb with
    | true => simp
    | false => simp [hlisted q hq r hr hcb]
  constructor
  · intro q hq hqx
    have hqc := hqx.trans hpre
    have hb : best rs q = none := by
      rw [C50_first rs hci, hplain q hqc, Option.none_or, List.find?_eq_none]
      intro r hr hc
      rcases gb_rule h hr with ⟨y, hy, rfl⟩ | ⟨hcb, _⟩
      · rw [star_covers] at hc
        obtain ⟨b', _, rfl⟩ := hc
        have h1 := hmin y hy ((List.prefix_append _ _).trans hqc)
        have h2 := hqx.length_le
        simp at h2; omega
      · rw [hlisted q hqc r hr hcb] at hc; simp at hc
    have he : rs.any (begins · q) = true := by
      rw [List.any_eq_true]
      exact ⟨_, gb_star_mem h hx, (star_begins x q).2 hqx⟩
    unfold meaning
    rw [hb, he]
  · have htk : [a, b, c, d].take (x.1.length + 1) = x.1 ++ [[a, b, c, d].getD x.1.length 0] := by
      have e := List.prefix_iff_eq_take.1 hpre
      have hlt : x.1.length < [a, b, c, d].length := by simp; omega
      conv => rhs; arg 1; rw [e]
      rw [List.take_add_one, List.getD_eq_getElem?_getD, List.getElem?_eq_getElem hlt]
      rfl
    have hbyte : [a, b, c, d].getD x.1.length 0 ≤ 256 := by
      have : x.1.length = 0 ∨ x.1.length = 1 ∨ x.1.length = 2 ∨ x.1.length = 3 := by omega
      rcases this with e | e | e | e <;> rw [e] <;> simp <;> omega
    have hcov : covers (starLine x) ([a, b, c, d].take (x.1.length + 1)) = true := by
      rw [star_covers, htk]
      exact ⟨_, hbyte, rfl⟩
    have hb : best rs ([a, b, c, d].take (x.1.length + 1)) = some (starLine x) := by
      rw [C50_first rs hci, hplain _ (List.take_prefix _ _), Option.none_or]
      cases hf : rs.find? (covers · ([a, b, c, d].take (x.1.length + 1))) with
      | none => exact absurd hcov (List.find?_eq_none.1 hf _ (gb_star_mem h hx))
      | some r =>
        have hc := List.find?_some hf
        have hr := List.mem_of_find?_eq_some hf
        rcases gb_rule h hr with ⟨y, hy, rfl⟩ | ⟨hcb, _⟩
        · rw [star_covers, htk] at hc
          obtain ⟨b', _, hc⟩ := hc
          rw [star_unique hy hx (List.append_inj_left' hc rfl).symm]
        · rw [hlisted _ (List.take_prefix _ _) r hr hcb] at hc; simp at hc
    unfold meaning
    rw [hb]
    simp only [starLine]
    cases rs.any (begins · ([a, b, c, d].take (x.1.length + 1))) with
    | false => exact ⟨_, .inl rfl, rfl⟩
    | true => exact ⟨_, .inr rfl, rfl⟩

/-- Reading a computed code with a callback rule: the callback sees the bytes of the rule's data and the rest of the code. -/
theorem gb_reads (h : GbFile rs) {cp a b c d : Nat} (hcode : GbCode cp a b c d) {x : List Nat × List Nat}
    (hx : x ∈ stars) (hpre : x.1 <+: [a, b, c, d]) (hmin : ∀ y ∈ stars, y.1 <+: [a, b, c, d] → x.1.length ≤ y.1.length) {cp' a' b' c' d' : Nat}
    (hdat : x.2 ++ [a, b, c, d].drop x.1.length = [a', b', c', d']) (hcode' : GbCode cp' a' b' c' d') :
    TableReads (compiled Gb18030.Priv rs) [a, b, c, d] [uniDatum cp'] := by
  obtain ⟨hf1, hf2, _⟩ := stars_facts x hx
  obtain ⟨m1, st, hst, m2⟩ := gb_meaning h hcode hx hpre hmin
  have key := C50_lookup (π := Gb18030.Priv) rs (gb_plain h) (gb_noClash h) (gb_size h) (gb_dat h)
  have hlt : x.1.length < [a, b, c, d].length := by simp; omega
  have hx1 := List.prefix_iff_eq_take.1 hpre
  have hcut : [a, b, c, d] = x.1 ++ [a, b, c, d][x.1.length] :: [a, b, c, d].drop (x.1.length + 1) := by
    rw [← List.drop_eq_getElem_cons hlt]
    conv => rhs; arg 1; rw [hx1]
    exact (List.take_append_drop _ _).symm
  have htk : [a, b, c, d].take (x.1.length + 1) = x.1 ++ [[a, b, c, d][x.1.length]] := by
    conv => rhs; arg 1; rw [hx1]
    rw [List.take_add_one, List.getElem?_eq_getElem hlt]
    rfl
  have k := key ([a, b, c, d].take (x.1.length + 1)) (by rw [htk]; simp)
  rw [m2] at k
  obtain ⟨o, o1, o2, o3⟩ := k
  have hne : x.2 ≠ [] := by
    intro e; rw [e] at hf1; simp only [List.length_nil] at hf1; exact hf1.1 (List.eq_nil_of_length_eq_zero hf1.2.2)
  have hd : datums x.2 = [x.2] := by
    have := datums_symbols [x.2] (by simp [hne]; exact hf2.2)
    simpa only [symbols] using this
  refine ⟨x.1, [a, b, c, d][x.1.length], [a, b, c, d].drop (x.1.length + 1), o, hcut, ?_, by rw [← htk]; exact o1, by rw [o2]; exact hst, ?_⟩
  · intro q hq hqx
    have k := key q hq
    rw [m1 q hq hqx] at k
    obtain ⟨o', k1, k2, _⟩ := k
    exact ⟨o', k1, k2⟩
  · intro t rest ht
    rw [o3, hd, List.headD_cons, ← List.drop_eq_getElem_cons hlt]
    obtain ⟨t', h1, h2⟩ := C26_decode t ht x.2 ([a, b, c, d].drop x.1.length) rest (by omega) hdat cp' hcode'
    refine ⟨t', ?_, h2⟩
    rw [h1]
    congr 1
    have : x.1.length = x.2.length := hf1.2.2
    simp only [List.length_drop, List.length_cons, List.length_nil] at hlt ⊢
    omega

/-! ### C68 -/

/-- C68, the codes it holds for: every computed code outside the gap and with another lead byte than D9 is read, and gives
its code point.  Missing: the gap and the lead byte D9, see below; texts, because of C60. -/
theorem C68_decode_partial (h : GbFile rs) {cp a b c d : Nat} (hcode : GbCode cp a b c d)
    (hgap : ¬ GbGap cp) (hlead : a ≠ 0xD9) : TableReads (compiled Gb18030.Priv rs) [a, b, c, d] [uniDatum cp] := by
  obtain ⟨x, hx, hpre, hmin⟩ := shortest_star ((starred_iff hcode).2 hgap)
  refine gb_reads h hcode hx hpre hmin (cp' := cp) (a' := a) (b' := b) (c' := c) (d' := d) ?_ hcode
  have hx2 : x.2 = x.1 := by
    rcases (stars_facts x hx).2.2.1 with ⟨e, _⟩ | ⟨_, e⟩
    · rw [e] at hpre
      obtain ⟨t, ht⟩ := hpre
      simp at ht
      exact absurd ht.1.symm hlead
    · exact e
  rw [hx2]
  conv => lhs; arg 1; rw [List.prefix_iff_eq_take.1 hpre]
  exact List.take_append_drop _ _

/-- C68 violated: the encoder writes codes for the code points of the gap, for which the file has no rule: the table gives
up at the second or third byte. -/
theorem C68_gap_violated (h : GbFile rs) {cp : Nat} (hcp : GbGap cp) :
    ∃ a b c d, Gb18030.encode (uniDatum cp) = some (some [[a, b, c, d]]) ∧ walk (compiled Gb18030.Priv rs) 0 [a, b, c] = none := by
  have hcomp : GbComputed cp := ⟨(0x9FA6, 0xD7FF, (0x82, 0x35, 0x8F, 0x33)), by decide, by unfold GbGap at hcp; simp only; omega⟩
  obtain ⟨a, b, c, d, henc⟩ := C26_total cp hcomp
  refine ⟨a, b, c, d, henc, ?_⟩
  have hcode := (C26_encode _ _ _ _ _).1 henc
  have hns : ¬ Starred [a, b, c, d] := by rw [starred_iff hcode]; simp [hcp]
  have hl := hcode.1
  unfold GbLegal at hl
  have key := C50_lookup (π := Gb18030.Priv) rs (gb_plain h) (gb_noClash h) (gb_size h) (gb_dat h) [a, b, c] (by simp)
  have hm : meaning rs [a, b, c] = none := by
    have hcov : ∀ r ∈ rs, covers r [a, b, c] = false ∧ begins r [a, b, c] = false := by
      intro r hr
      refine ⟨?_, ?_⟩ <;> rw [← Bool.not_eq_true] <;> intro hc
      · rcases gb_rule h hr with ⟨y, hy, rfl⟩ | ⟨_, h2, _, p, hp, h4⟩
        · rw [star_covers] at hc
          obtain ⟨b', _, hc⟩ := hc
          refine hns ⟨y, hy, ?_⟩
          exact (List.prefix_append y.1 [b']).trans (by rw [← hc]; exact ⟨[d], rfl⟩)
        · rw [single_covers h2 hp] at hc
          rcases h4 with ⟨_, _, rfl, _⟩ | ⟨_, _, _, _, rfl, _⟩ <;> simp at hc
      · rcases gb_rule h hr with ⟨y, hy, rfl⟩ | ⟨_, h2, _, p, hp, h4⟩
        · rw [star_begins] at hc
          have hf := (stars_facts y hy).1
          have e : [a, b, c] = y.1 := hc.eq_of_length_le (by simp; omega)
          exact hns ⟨y, hy, by rw [← e]; exact ⟨[d], rfl⟩⟩
        · rw [single_begins h2 hp] at hc
          rcases h4 with ⟨_, _, rfl, _⟩ | ⟨a', b', c', d', rfl, h5, h6⟩
          · have := hc.1.length_le; simp at this
          · obtain ⟨⟨t, ht⟩, _⟩ := hc
            simp at ht
            obtain ⟨rfl, rfl, rfl, _⟩ := ht
            -- the listed code would be a computed one
            unfold GbLegal at h5
            obtain ⟨r, hr, hin, hix⟩ := gb_block_at hcode
            have hblk : ∀ r ∈ gbBlocks, r = (0x9FA6, 0xD7FF, (0x82, 0x35, 0x8F, 0x33)) ∨ r.2.1 < 0x9FAD ∨ 0xB7B2 < r.1 := by decide
            have hcp' := hcp
            unfold GbGap at hcp
            rcases hblk r hr with rfl | h1 | h1
            · have e : gbStart (0x9FA6, 0xD7FF, (0x82, 0x35, 0x8F, 0x33)) = 19043 := by decide +kernel
              rw [e] at hix
              simp only at hin hix
              refine h6 (cp - (d - 0x30) + (d' - 0x30)) ⟨by unfold GbLegal; omega, _, hr, by simp only; omega, ?_⟩
              show _ = gbStart (0x9FA6, 0xD7FF, (0x82, 0x35, 0x8F, 0x33)) + _
              rw [e]
              unfold gbIndex
              simp only
              omega
            · omega
            · omega
    have hb : best rs [a, b, c] = none := by
      cases hf : best rs [a, b, c] with
      | none => rfl
      | some r =>
        obtain ⟨h1, h2⟩ := Arena.best_mem hf
        rw [(hcov r h1).1] at h2; simp at h2
    have he : rs.any (begins · [a, b, c]) = false := by
      rw [List.any_eq_false]
      intro r hr
      simp [(hcov r hr).2]
    unfold meaning
    rw [hb, he]
  rw [hm] at key
  exact key

/-- C68 violated: the rule `D9* ?D0` makes every code with the lead byte D9 the character 113400 code points before the
one it stands for. -/
theorem C68_typo_violated (h : GbFile rs) {cp b c d : Nat} (hcode : GbCode cp 0xD9 b c d) :
    TableReads (compiled Gb18030.Priv rs) [0xD9, b, c, d] [uniDatum (cp - 113400)] ∧ 113400 < cp ∧
    Gb18030.encode (uniDatum cp) = some (some [[0xD9, b, c, d]]) := by
  have hl := hcode.1
  unfold GbLegal at hl
  obtain ⟨r, hr, hin, hix⟩ := gb_block_at hcode
  have hblk : ∀ r ∈ gbBlocks, r = (0x10000, 0x10FFFF, (0x90, 0x30, 0x81, 0x30)) ∨ gbStart r + (r.2.1 - r.1) < 880 * 1260 := by decide +kernel
  rcases hblk r hr with rfl | h1
  · have e : gbStart (0x10000, 0x10FFFF, (0x90, 0x30, 0x81, 0x30)) = 189000 := by decide +kernel
    rw [e] at hix
    simp only at hin hix
    refine ⟨?_, by omega, (C26_encode _ _ _ _ _).2 hcode⟩
    have hx : (([0xD9], [0xD0]) : List Nat × List Nat) ∈ stars := by decide +kernel
    have hmin : ∀ y ∈ stars, y.1 <+: [0xD9, b, c, d] → 1 ≤ y.1.length := by
      intro y hy _
      have := (stars_facts y hy).1.1
      exact List.length_pos_iff.2 this
    refine gb_reads h hcode hx ⟨[b, c, d], rfl⟩ hmin (cp' := cp - 113400) (a' := 0xD0) (b' := b) (c' := c) (d' := d) rfl ?_
    refine ⟨by unfold GbLegal; omega, _, hr, by simp only; omega, ?_⟩
    show _ = gbStart (0x10000, 0x10FFFF, (0x90, 0x30, 0x81, 0x30)) + _
    rw [e]
    unfold gbIndex
    simp only
    omega
  · omega

/-! ### Cases -/

/-- A file with the callback rules, a rule for a two-byte code and one for a listed four-byte code. -/
def gbSmall : List Rule := Gb18030.stars.map starLine ++
  [{ pat := [(0x81, 0x81), (0x40, 0x40)], dat := [0x01, 0x4E, 0x02] },
   { pat := [(0x81, 0x81), (0x30, 0x30), (0x81, 0x81), (0x30, 0x30)], dat := [0x01, 0x80] }]

theorem gbSmall_file : GbFile gbSmall := by
  refine ⟨by decide +kernel, by decide +kernel, ?_⟩
  intro r hr hcb
  unfold gbSmall at hr
  rw [List.mem_append] at hr
  rcases hr with hr | hr
  · obtain ⟨x, _, rfl⟩ := List.mem_map.1 hr
    simp [starLine] at hcb
  · simp only [List.mem_cons, List.not_mem_nil, or_false] at hr
    rcases hr with rfl | rfl
    · exact ⟨rfl, by decide, .inl ⟨_, _, rfl, by decide, by decide, by decide⟩⟩
    · refine ⟨rfl, by decide, .inr ⟨_, _, _, _, rfl, by decide, ?_⟩⟩
      rintro cp ⟨_, r, hr, h1, h2⟩
      have hb : ∀ r ∈ gbBlocks, 0 < gbIndex r.2.2.1 r.2.2.2.1 r.2.2.2.2.1 r.2.2.2.2.2 := by decide +kernel
      have e : gbIndex 0x81 0x30 0x81 0x30 = 0 := by decide
      have := hb r hr
      omega

example : GbCode 0x1F600 0x94 0x39 0xFC 0x36 ∧ ¬ GbGap 0x1F600 ∧ GbCode 0x1D000 0x94 0x32 0xA1 0x38 := by decide +kernel

example : TableReads (compiled Gb18030.Priv gbSmall) [0x94, 0x39, 0xFC, 0x36] [uniDatum 0x1F600] :=
  C68_decode_partial gbSmall_file (by decide +kernel) (by decide) (by decide)

example : GbGap 0xA000 ∧ GbGap 0xB000 := by decide

example : GbCode 0xF08F8 0xD9 0x30 0x81 0x30 := by decide +kernel

end Verif.Props
