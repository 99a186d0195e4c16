import Verif.Proofs.Str
import Verif.Spec.Util
/-
C43: hex arguments; C47: index arithmetic; C54: codec argument lists.
-/
namespace Verif.Props
open Verif Verif.Spec Verif.Util

theorem spec_join_eq (d : Char) : ∀ ts, join d ts = Conv.joinWith d ts
  | [] => rfl
  | [t] => rfl
  | t :: a :: as => by simp [join, Conv.joinWith, spec_join_eq d (a :: as)]

/-! ### C43 -/

theorem hexv_lt {c : Char} {n : Nat} (h : hexv c = some n) : n < 16 := by
  unfold hexv at h
  simp only at h
  split at h
  · cases h; omega
  · split at h
    · cases h; omega
    · split at h
      · cases h; omega
      · cases h

/-- The model's digit table is the specification's. -/
theorem hexv_spec (c : Char) (n : Nat) : hexv c = some n ↔ HexDigit c n := by
  constructor
  · intro h
    have hc : c = Char.ofNat c.toNat := by simp
    have hn : c.toNat < 128 := by
      unfold hexv at h; simp only at h
      split at h
      · omega
      · split at h
        · omega
        · split at h
          · omega
          · cases h
    generalize hm : c.toNat = m at *
    subst hc
    have key : ∀ m < 128, ∀ n < 16, hexv (Char.ofNat m) = some n →
        ("0123456789ABCDEF".toList[n]? = some (Char.ofNat m) ∨ "0123456789abcdef".toList[n]? = some (Char.ofNat m)) := by
      decide +kernel
    exact key m hn n (hexv_lt h) h
  · intro h
    have hn : n < 16 := by
      rcases h with h | h
      · exact (List.getElem?_eq_some_iff.1 h).1
      · exact (List.getElem?_eq_some_iff.1 h).1
    have k1 : ∀ n (h : n < 16), hexv ("0123456789ABCDEF".toList[n]'h) = some n := by decide +kernel
    have k2 : ∀ n (h : n < 16), hexv ("0123456789abcdef".toList[n]'h) = some n := by decide +kernel
    rcases h with h | h
    · obtain ⟨h1, h2⟩ := List.getElem?_eq_some_iff.1 h
      rw [← h2]; exact k1 n h1
    · obtain ⟨h1, h2⟩ := List.getElem?_eq_some_iff.1 h
      rw [← h2]; exact k2 n h1

theorem hexText_length {s : Str} {bs : List Nat} (h : HexText s bs) : s.length = 2 * bs.length := by
  induction h with
  | nil => rfl
  | cons _ _ _ ih => simp; omega

theorem hexLoop_text {s : Str} {bs : List Nat} (h : HexText s bs) (cap : Nat) (acc : List Nat)
    (hc : acc.length + bs.length ≤ cap) : hexLoop cap s false acc 0 = .ok (acc ++ bs) := by
  induction h generalizing acc with
  | nil => simp [hexLoop]
  | @cons a b x y s bs ha hb _ ih =>
    have hx := (hexv_spec a x).2 ha
    have hy := (hexv_spec b y).2 hb
    have hx16 := hexv_lt hx
    have hy16 := hexv_lt hy
    simp only [List.length_cons] at hc
    simp only [hexLoop, hx, hy]
    rw [if_pos trivial, if_pos (by omega), if_neg (by simp), ih (acc ++ [(x * 16 + y) % 256]) (by simp; omega)]
    rw [List.append_assoc]
    congr 2
    simp only [List.cons_append, List.nil_append]
    congr 1
    omega

theorem hexLoop_bad (cap : Nat) : ∀ (s : Str) (f : Bool) (acc : List Nat) (cur : Nat),
    (∃ c ∈ s, ∀ n, ¬ HexDigit c n) → acc.length + (s.length + (if f then 1 else 0)) / 2 ≤ cap →
    hexLoop cap s f acc cur = .einval
  | [], _, _, _, h, _ => by simp at h
  | c :: cs, f, acc, cur, h, hc => by
    unfold hexLoop
    cases hx : hexv c with
    | none => rfl
    | some v =>
      have hcs : ∃ c ∈ cs, ∀ n, ¬ HexDigit c n := by
        obtain ⟨y, hy, hb⟩ := h
        rcases List.mem_cons.1 hy with rfl | hy
        · exact absurd ((hexv_spec y v).1 hx) (hb v)
        · exact ⟨y, hy, hb⟩
      have hlen : 1 ≤ cs.length := by
        obtain ⟨y, hy, _⟩ := hcs; exact List.length_pos_of_mem hy
      simp only
      cases f with
      | false =>
        simp only [List.length_cons, Bool.false_eq_true, if_false] at hc
        rw [if_pos rfl, if_pos (by omega)]
        apply hexLoop_bad cap cs true acc v hcs
        simp; omega
      | true =>
        simp only [List.length_cons, if_true] at hc
        rw [if_neg (by simp)]
        apply hexLoop_bad cap cs false _ 0 hcs
        simp; omega

/-- C43 (part): for every text of digit pairs `str2datum` returns exactly the denoted bytes and stays inside
its buffer; a text with any other character is refused, also without leaving the buffer.
Missing: texts of an odd number of digits, see `C43_odd_violated`. -/
theorem C43_str2datum_partial (s : Str) :
    (∀ bs, HexText s bs → str2datum (some s) = .ok bs) ∧
    ((∃ c ∈ s, ∀ n, ¬ HexDigit c n) → str2datum (some s) = .einval) := by
  constructor
  · intro bs h
    have := hexText_length h
    show hexLoop _ s false [] 0 = _
    rw [hexLoop_text h _ [] (by simp; omega)]
    rfl
  · intro h
    exact hexLoop_bad _ s false [] 0 h (by simp)

example : HexText "4e0A".toList [0x4e, 0x0a] :=
  .cons (x := 4) (y := 14) (by left; decide +kernel) (by right; decide +kernel)
    (.cons (x := 0) (y := 10) (by left; decide +kernel) (by left; decide +kernel) .nil)
example : HexText "fF".toList [255] :=
  .cons (x := 15) (y := 15) (by right; decide +kernel) (by left; decide +kernel) .nil

/-- C43 (part): `str2data` on dot-separated texts of digit pairs returns the data they denote, in order, and
a text with any other character (besides the dots) is not accepted. -/
theorem C43_str2data_partial :
    (∀ (ts : List Str) (bss : List (List Nat)), HexTexts ts bss → join '.' ts ≠ [] →
      str2data (some (join '.' ts)) = .ok bss) ∧
    (∀ s : Str, (∃ c ∈ s, c ≠ '.' ∧ ∀ n, ¬ HexDigit c n) → ∀ r, str2data (some s) ≠ .ok r) := by
  have nodot : ∀ {t bs}, HexText t bs → '.' ∉ t := by
    intro t bs h
    induction h with
    | nil => simp
    | @cons a b x y s bs ha hb _ ih =>
      simp only [List.mem_cons, not_or]
      have hd : hexv '.' = none := by decide
      refine ⟨fun e => ?_, fun e => ?_, ih⟩
      · rw [← hexv_spec, ← e, hd] at ha; cases ha
      · rw [← hexv_spec, ← e, hd] at hb; cases hb
  constructor
  · intro ts bss h hne
    have htn : ts ≠ [] := by rintro rfl; exact hne rfl
    have hfree : ∀ t ∈ ts, '.' ∉ t := by
      clear hne htn
      induction h with
      | nil => simp
      | cons h1 _ ih =>
        intro t ht
        rcases List.mem_cons.1 ht with rfl | ht
        · exact nodot h1
        · exact ih t ht
    have htok : tokens '.' (join '.' ts) = ts := by
      rw [tokens_eq, spec_join_eq, split_join '.' ts htn hfree]
    have : str2data (some (join '.' ts)) = dataLoop ts := by
      unfold str2data
      split
      · rename_i h; cases h
      · rename_i h; simp only [Option.some.injEq] at h; exact absurd h hne
      · rename_i h; cases h; rw [htok]
    rw [this]
    clear this htok hfree htn hne
    induction h with
    | nil => rfl
    | cons h1 _ ih =>
      have h1l := hexText_length h1
      unfold dataLoop
      rw [hexLoop_text h1 _ [] (by simp; omega), ih]
      rfl
  · rintro s ⟨c, hc, hcd, hbad⟩ r
    have hs : s ≠ [] := by rintro rfl; simp at hc
    have : str2data (some s) = dataLoop (tokens '.' s) := by
      unfold str2data
      split
      · rename_i h; cases h
      · rename_i h; simp only [Option.some.injEq] at h; exact absurd h hs
      · rename_i h; cases h; rfl
    rw [this, tokens_eq]
    have hin : ∃ t ∈ splitC '.' s, c ∈ t := by
      have hj := join_split '.' s
      have gen : ∀ ts : List Str, c ∈ Conv.joinWith '.' ts → ∃ t ∈ ts, c ∈ t := by
        intro ts
        induction ts with
        | nil => intro h; simp [Conv.joinWith] at h
        | cons t ts ih =>
          intro h
          cases ts with
          | nil => exact ⟨t, by simp, h⟩
          | cons a as =>
            rw [joinWith_cons _ _ _ (by simp)] at h
            rcases List.mem_append.1 h with h | h
            · exact ⟨t, by simp, h⟩
            · rcases List.mem_cons.1 h with h | h
              · exact absurd h hcd
              · obtain ⟨x, hx, hxc⟩ := ih h
                exact ⟨x, List.mem_cons_of_mem _ hx, hxc⟩
      exact gen _ (by rw [hj]; exact hc)
    obtain ⟨t, ht, hct⟩ := hin
    have bad : ∀ ts : List Str, t ∈ ts → ∀ r, dataLoop ts ≠ .ok r := by
      intro ts
      induction ts with
      | nil => intro h; simp at h
      | cons a as ih =>
        intro h r
        unfold dataLoop
        rcases List.mem_cons.1 h with rfl | h
        · rw [hexLoop_bad _ t false [] 0 ⟨c, hct, hbad⟩ (by simp)]
          simp [Out.bind]
        · cases hexLoop (a.length / 2) a false [] 0 with
          | einval => simp [Out.bind]
          | ub => simp [Out.bind]
          | ok d =>
            simp only [Out.bind]
            cases hd : dataLoop as with
            | einval => simp
            | ub => simp
            | ok ds => exact absurd hd (ih h ds)
    exact bad _ ht r

example : str2data (some "0141.0142.".toList) = .ok [[1, 0x41], [1, 0x42], []] := by decide +kernel

/-- C43 is false of the code for every text of an odd number of hex digits: the last digit is written one
byte past the buffer of `strlen/2` bytes. -/
theorem C43_odd_violated (s : Str) (hd : ∀ c ∈ s, ∃ n, HexDigit c n) (ho : s.length % 2 = 1) :
    str2datum (some s) = .ub := by
  have key : ∀ (n : Nat) (s : Str) (acc : List Nat) (cap : Nat), s.length = 2 * n + 1 →
      (∀ c ∈ s, ∃ n, HexDigit c n) → cap = acc.length + n → hexLoop cap s false acc 0 = .ub := by
    intro n
    induction n with
    | zero =>
      intro s acc cap hl hd hc
      obtain ⟨c, rfl⟩ : ∃ c, s = [c] := by
        cases s with
        | nil => simp at hl
        | cons c cs => cases cs with
          | nil => exact ⟨c, rfl⟩
          | cons _ _ => simp at hl
      obtain ⟨v, hv⟩ := hd c (by simp)
      have := (hexv_spec c v).2 hv
      simp only [hexLoop, this]
      rw [if_pos trivial, if_neg (by omega)]
    | succ n ih =>
      intro s acc cap hl hd hc
      match s, hl with
      | a :: b :: cs, hl =>
        obtain ⟨x, hx⟩ := hd a (by simp)
        obtain ⟨y, hy⟩ := hd b (by simp)
        have hx := (hexv_spec a x).2 hx
        have hy := (hexv_spec b y).2 hy
        simp only [hexLoop, hx, hy]
        rw [if_pos trivial, if_pos (by omega), if_neg (by simp)]
        apply ih cs _ cap (by simp at hl; omega) (fun c h => hd c (by simp [h]))
        simp; omega
  exact key (s.length / 2) s [] _ (by omega) hd (by simp)

example : str2datum (some "1".toList) = .ub := by decide +kernel

/-! ### C47 -/

/-- C47 (part): for indices from `-len` on, `get_phase_index` resolves like a Python index (real indices are
one-based), and anything past the end means "after the last".
Missing: indices below `-len`, see `C47_range_violated`. -/
theorem C47_phase_index_partial (len : Nat) (n : Int) (hlen : 0 < len) (hn : -(len : Int) ≤ n) :
    (∀ i, pyIndex len n = some i → phaseIndex len n = i + 1) ∧
    (n ≥ len → phaseIndex len n = len + 1) ∧
    1 ≤ phaseIndex len n ∧ phaseIndex len n ≤ len + 1 := by
  have hmod : n < len → phaseIndex len n = (if 0 ≤ n then n else n + len) + 1 := by
    intro h
    unfold phaseIndex
    rw [if_neg (by omega), Int.tmod_eq_emod_of_nonneg (by omega)]
    split
    · rw [Int.add_emod_right, Int.emod_eq_of_lt (by omega) h]
    · rw [Int.emod_eq_of_lt (by omega) (by omega)]
  refine ⟨?_, ?_, ?_⟩
  · intro i hi
    unfold pyIndex at hi
    split at hi
    · split at hi
      · cases hi; rw [hmod (by assumption)]; simp; omega
      · cases hi
    · cases hi; rw [hmod (by omega), if_neg (by assumption)]; omega
  · intro h; unfold phaseIndex; rw [if_pos h]
  · by_cases h : n < len
    · rw [hmod h]; split <;> omega
    · unfold phaseIndex; rw [if_pos (by omega)]; omega

/-- C47 (part): the same for codec indices of an existing phase. -/
theorem C47_codec_index_partial (len : Nat) (codecs : Nat → Nat) (ph n : Int) (i : Nat)
    (hi : pyIndex len ph = some i) (hk : 0 < codecs (i + 1)) (hn : -(codecs (i + 1) : Int) ≤ n) :
    ∃ j : Nat, codecIndex len codecs ph n = some (j : Int) ∧ j ≤ codecs (i + 1) ∧
      (∀ j', pyIndex (codecs (i + 1)) n = some j' → j = j') ∧ (n ≥ codecs (i + 1) → j = codecs (i + 1)) := by
  have hil : i < len := by
    unfold pyIndex at hi
    split at hi <;> split at hi <;> cases hi <;> omega
  have hph : -(len : Int) ≤ ph := by
    unfold pyIndex at hi
    split at hi <;> split at hi <;> first | omega | cases hi
  have hp := (C47_phase_index_partial len ph (by omega) hph).1 i hi
  unfold codecIndex
  simp only [hp]
  rw [if_pos (by omega)]
  have hto : ((i : Int) + 1).toNat = i + 1 := by omega
  rw [hto]
  generalize hk' : codecs (i + 1) = k at *
  have hc := C47_phase_index_partial k n hk hn
  have he : phaseIndex k n = (if n ≥ k then (k : Int) else Int.tmod (n + k) k) + 1 := by
    unfold phaseIndex; split <;> rfl
  rw [he] at hc
  have h0 : 0 ≤ (if n ≥ k then (k : Int) else Int.tmod (n + k) k) := by omega
  refine ⟨(if n ≥ k then (k : Int) else Int.tmod (n + k) k).toNat, ?_, ?_, ?_, ?_⟩
  · rw [Int.toNat_of_nonneg h0]
  · omega
  · intro j' hj'; have := hc.1 j' hj'; omega
  · intro h; rw [if_pos h]; simp

example : phaseIndex 3 (-1) = 3 ∧ phaseIndex 3 0 = 1 ∧ phaseIndex 3 7 = 4 := by decide

/-- C47 is false of the code: every index in `-2·len < n < -len` is mapped to a position before the first
phase. -/
theorem C47_range_violated (len : Nat) (n : Int) (h1 : -(2 * len : Int) < n) (h2 : n < -(len : Int)) :
    phaseIndex len n < 1 := by
  unfold phaseIndex
  rw [if_neg (by omega)]
  have hneg : n + len = -(-(n + len)) := by omega
  rw [hneg, Int.neg_tmod, Int.tmod_eq_emod_of_nonneg (by omega), Int.emod_eq_of_lt (by omega) (by omega)]
  omega

example : phaseIndex 3 (-4) = 0 := by decide

/-- C47 is false of the code: the codec lookup of a phase past the end reads outside the phase array. -/
theorem C47_codec_phase_violated (len : Nat) (codecs : Nat → Nat) (ph n : Int) (h : ph ≥ len) :
    codecIndex len codecs ph n = none := by
  unfold codecIndex phaseIndex
  simp only
  rw [if_pos h, if_neg (by omega)]

/-! ### C54 -/

/-- C54: a written argument list (keys without `=` and `&`, values without `&`) is parsed back to exactly
that list, in order; only the first `=` separates. -/
theorem C54_parse_show (args : List (Str × Option Str))
    (hk : ∀ a ∈ args, '=' ∉ a.1 ∧ '&' ∉ a.1) (hv : ∀ a ∈ args, ∀ v, a.2 = some v → '&' ∉ v)
    (hne : join '&' (args.map showArg) ≠ []) :
    parseArgs (some (join '&' (args.map showArg))) = args := by
  have htn : args.map showArg ≠ [] := by
    intro h; rw [h] at hne; exact hne rfl
  have hfree : ∀ t ∈ args.map showArg, '&' ∉ t := by
    intro t ht
    obtain ⟨⟨k, v⟩, ha, rfl⟩ := List.mem_map.1 ht
    cases v with
    | none => exact (hk _ ha).2
    | some v =>
      simp only [showArg, List.mem_append, List.mem_singleton, not_or]
      exact ⟨⟨(hk _ ha).2, by decide⟩, hv _ ha v rfl⟩
  have : parseArgs (some (join '&' (args.map showArg))) = (args.map showArg).map argEntry := by
    have hp : ∀ s : Str, s ≠ [] → parseArgs (some s) = (tokens '&' s).map argEntry := by
      intro s hs
      cases s with
      | nil => exact absurd rfl hs
      | cons _ _ => rfl
    rw [hp _ hne, tokens_eq, spec_join_eq, split_join '&' _ htn hfree]
  rw [this, List.map_map]
  conv => rhs; rw [← List.map_id args]
  apply List.map_congr_left
  rintro ⟨k, v⟩ ha
  cases v with
  | none =>
    simp only [Function.comp, showArg, argEntry]
    rw [strchr_none.2 (hk _ ha).1]; rfl
  | some v =>
    simp only [Function.comp, showArg, argEntry]
    rw [List.append_assoc, List.singleton_append, strchr_append v (hk _ ha).1]; rfl

/-- C54: nothing of an argument string is lost: writing the parsed list gives the string back, and keys
contain neither separator, values no `&`. -/
theorem C54_show_parse (s : Str) :
    join '&' ((parseArgs (some s)).map showArg) = s ∧
    ∀ a ∈ parseArgs (some s), '=' ∉ a.1 ∧ '&' ∉ a.1 ∧ ∀ v, a.2 = some v → '&' ∉ v := by
  cases hs : s with
  | nil => exact ⟨rfl, by simp [parseArgs]⟩
  | cons c cs =>
    have : parseArgs (some (c :: cs)) = (splitC '&' (c :: cs)).map argEntry := by
      rw [← tokens_eq]; rfl
    rw [this]
    have hent : ∀ t, showArg (argEntry t) = t := by
      intro t
      unfold argEntry
      cases h : strchr '=' t with
      | none => rfl
      | some p =>
        obtain ⟨a, b⟩ := p
        have := strchr_some h
        simp only [showArg]
        rw [this.1]; simp
    constructor
    · rw [List.map_map, spec_join_eq, show (showArg ∘ argEntry) = id from funext hent, List.map_id, join_split]
    · intro a ha
      obtain ⟨t, ht, rfl⟩ := List.mem_map.1 ha
      have hf := split_mem_free '&' _ t ht
      unfold argEntry
      cases h : strchr '=' t with
      | none => exact ⟨strchr_none.1 h, hf, by simp⟩
      | some p =>
        obtain ⟨x, y⟩ := p
        have hx := strchr_some h
        rw [hx.1] at hf
        simp only [List.mem_append, List.mem_cons, not_or] at hf
        refine ⟨hx.2, hf.1, ?_⟩
        intro v hv; cases hv; exact hf.2.2

example : parseArgs (some "FOR=CJK,X&MIN=2=3&Q".toList) =
    [("FOR".toList, some "CJK,X".toList), ("MIN".toList, some "2=3".toList), ("Q".toList, none)] := by
  decide +kernel
end Verif.Props
