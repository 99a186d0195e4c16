import Verif.Model.Load
import Verif.Props.Listing
import Verif.Props.Range
import Verif.Model.Escape

/-! C94: which filter a name loads. -/

namespace Verif.Props
open Verif.Spec
open Verif.Engine hiding Datum step
open Verif.Listing (moduleCheck)
open Verif.Load
open Verif.Solve (lit rowsOf filterAliases filterRows Looked)

variable {π : Type}

theorem loads_unique {check : List Nat → Bool} {look : List Nat → Option (List Nat) → Prop} (hl : ∀ n, (∀ b ∈ n, b < 256) → ∀ r r', look n r → look n r' → r = r')
    (hb : ∀ n c, (∀ b ∈ n, b < 256) → look n (some c) → ∀ b ∈ c, b < 256)
    {n : List Nat} {r : Option (List Nat)} (h : Loads check look n r) : (∀ b ∈ n, b < 256) → ∀ r', Loads check look n r' → r' = r := by
  induction h with
  | here hc =>
    intro _ r' h'
    cases h' with
    | here => rfl
    | unknown k => rw [hc] at k; cases k
    | again k => rw [hc] at k; cases k
    | alias k => rw [hc] at k; cases k
  | unknown hc hn =>
    intro hb' r' h'
    cases h' with
    | here k => rw [hc] at k; cases k
    | unknown => rfl
    | again => rfl
    | alias _ k => exact absurd (hl _ hb' _ _ hn k) (by simp)
  | again hc hn =>
    intro hb' r' h'
    cases h' with
    | here k => rw [hc] at k; cases k
    | unknown => rfl
    | again => rfl
    | alias _ k k' => have := hl _ hb' _ _ hn k; simp at this; exact absurd this.symm k'
  | alias hc hn hne _ ih =>
    intro hb' r' h'
    cases h' with
    | here k => rw [hc] at k; cases k
    | unknown _ k => exact absurd (hl _ hb' _ _ hn k) (by simp)
    | again _ k => have := hl _ hb' _ _ hn k; simp at this; exact absurd this hne
    | alias _ k _ k' =>
      have := hl _ hb' _ _ hn k
      simp at this
      subst this
      exact ih (hb _ _ hb' hn) r' k'

/-- A definition of a filter alias, or several, is no alias. -/
theorem defs_unknown {s t : List Nat} (h : Resolves filterRows s t) (ht : t ≠ []) : ∀ u, ¬ Resolves filterRows t u := by
  have hd : ∀ r ∈ filterRows, ∃ b, r.2.head? = some b ∧ 65 ≤ b := by decide +kernel
  have ha : ∀ r ∈ filterRows, ∃ b, r.1.head? = some b ∧ b < 65 := by decide +kernel
  intro u hu
  cases h with
  | nil => exact ht rfl
  | @cons a d s t h1 h2 _ _ =>
    obtain ⟨b, b1, b2⟩ := hd _ h1
    cases d with
    | nil => simp at b1
    | cons x d =>
      generalize he : (x :: d) ++ t = w at hu
      cases hu with
      | nil => simp at he
      | @cons a' d' s' t' k1 k2 _ _ =>
        obtain ⟨c, c1, c2⟩ := ha _ k1
        cases a' with
        | nil => simp at c1
        | cons y a' =>
          simp at he b1 c1
          omega

theorem upper_idem (s : List Nat) : upperBytes (upperBytes s) = upperBytes s := by
  unfold upperBytes
  rw [List.map_map]
  refine List.map_congr_left ?_
  intro b _
  simp only [Function.comp]
  split
  · rw [if_neg (by omega)]
  · rfl

theorem resolved_ascii {rows : Solve.Rows} (hr : AsciiRows rows) {s t : List Nat} (h : Resolves rows s t) : ∀ b ∈ t, 1 ≤ b ∧ b < 128 := by
  induction h with
  | nil => simp
  | cons h1 _ _ _ ih =>
    intro b hb
    rcases List.mem_append.1 hb with hb | hb
    · exact (hr _ h1).2.2 b (by simp [hb])
    · exact ih b hb

theorem resolved_upper {s t : List Nat} (h : Resolves filterRows s t) : upperBytes t = t := by
  have hu : ∀ r ∈ filterRows, upperBytes r.2 = r.2 := by decide +kernel
  induction h with
  | nil => rfl
  | cons h1 _ _ _ ih =>
    rw [show ∀ x y, upperBytes (x ++ y) = upperBytes x ++ upperBytes y from fun x y => List.map_append, ih, hu _ h1]

/-- C94.  For every name, and whatever modules there are: the loop ends, in one way.  It ends with the module of that name (in upper case) if there is one; else with the
definition of the alias of that name if that is a module; else with nothing. -/
theorem C94_filter {st : Nat → Static π} {ip : Nat → Nat → π → π} {ins : Ins π} {e : Lens π Nat} (h : AliasLookup st ip ins e (rowsOf filterAliases) none)
    (check : List Nat → Bool) (name : List Nat) (hb : ∀ b ∈ name, b < 256) :
    ∃ r, Loads check (Looked st ip ins (errCount e)) (upperBytes name) r ∧ (∀ r', Loads check (Looked st ip ins (errCount e)) (upperBytes name) r' → r' = r) ∧
      ∀ m, r = some m ↔ if check (upperBytes name) then m = upperBytes name else Resolves filterRows (asciiPart (upperBytes name)) m ∧ check m = true := by
  have hrows : rowsOf filterAliases ++ (none : Option (List Nat × List Nat)).toList = filterRows := List.append_nil _
  have look : ∀ n : List Nat, (∀ b ∈ n, b < 256) → ∃ res, Looked st ip ins (errCount e) n res ∧ (∀ res', Looked st ip ins (errCount e) n res' → res' = res) ∧
      ∀ t, res = some t ↔ Resolves filterRows (asciiPart (upperBytes n)) t := by
    intro n hn
    have := C86_lookup h (by rw [hrows]; exact filterRows_ok.1) (by rw [hrows]; exact filterRows_ok.2) n hn
    rwa [hrows] at this
  have hun : ∀ b ∈ upperBytes name, b < 256 := by
    intro b hb'
    obtain ⟨c, hc, rfl⟩ := List.mem_map.1 hb'
    have := hb c hc
    split <;> omega
  have huq : ∀ {r}, Loads check (Looked st ip ins (errCount e)) (upperBytes name) r → ∀ r', Loads check (Looked st ip ins (errCount e)) (upperBytes name) r' → r' = r := by
    intro r hr
    refine loads_unique ?_ ?_ hr hun
    · intro n hn r r' h1 h2
      obtain ⟨res, _, g, _⟩ := look n hn
      rw [g _ h1, g _ h2]
    · intro n c hn hc
      obtain ⟨res, _, g, g'⟩ := look n hn
      have := (g' c).1 (g _ hc).symm
      intro b hb
      have := (resolved_ascii filterRows_ok.1 this b hb).2
      omega
  by_cases hc : check (upperBytes name) = true
  · refine ⟨_, .here hc, huq (.here hc), ?_⟩
    intro m
    rw [if_pos hc]
    simp [eq_comm]
  have hc : check (upperBytes name) = false := by simpa using hc
  have pack : ∀ r, Loads check (Looked st ip ins (errCount e)) (upperBytes name) r →
      (∀ m, r = some m ↔ Resolves filterRows (asciiPart (upperBytes name)) m ∧ check m = true) → _ := fun r hr hm =>
    (⟨r, hr, huq hr, fun m => by rw [if_neg (by simp [hc])]; exact hm m⟩ :
      ∃ r, Loads check (Looked st ip ins (errCount e)) (upperBytes name) r ∧ (∀ r', Loads check (Looked st ip ins (errCount e)) (upperBytes name) r' → r' = r) ∧
      ∀ m, r = some m ↔ if check (upperBytes name) then m = upperBytes name else Resolves filterRows (asciiPart (upperBytes name)) m ∧ check m = true)
  obtain ⟨res, g1, g2, g3⟩ := look _ hun
  rw [upper_idem] at g3
  cases res with
  | none =>
    refine pack none (.unknown hc g1) ?_
    intro m
    constructor
    · simp
    · rintro ⟨k, _⟩; exact absurd ((g3 m).2 k) (by simp)
  | some c =>
    have hres := (g3 c).1 rfl
    have only : ∀ m, Resolves filterRows (asciiPart (upperBytes name)) m → m = c := by
      intro m hm
      have := (g3 m).2 hm
      simpa using this.symm
    have hcb : ∀ b ∈ c, b < 256 := fun b hb => by have := (resolved_ascii filterRows_ok.1 hres b hb).2; omega
    by_cases hcn : c = upperBytes name
    · refine pack none (.again hc (hcn ▸ g1)) ?_
      intro m
      constructor
      · simp
      · rintro ⟨k, k'⟩
        have := only m k
        rw [this, hcn, hc] at k'; cases k'
    · by_cases hcc : check c = true
      · refine pack (some c) (.alias hc g1 hcn (.here hcc)) ?_
        intro m
        constructor
        · rintro ⟨⟩; exact ⟨hres, hcc⟩
        · rintro ⟨k, _⟩; rw [only m k]
      · have hcc : check c = false := by simpa using hcc
        have rest : Loads check (Looked st ip ins (errCount e)) c none := by
          obtain ⟨res', k1, k2, k3⟩ := look c hcb
          rw [resolved_upper hres, show asciiPart c = c from List.filter_eq_self.2 (fun b hb => by simpa using resolved_ascii filterRows_ok.1 hres b hb)] at k3
          by_cases hnil : c = []
          · subst hnil
            have := (k3 []).2 .nil
            subst this
            exact .again hcc k1
          · cases res' with
            | none => exact .unknown hcc k1
            | some u => exact absurd ((k3 u).1 rfl) (defs_unknown hres hnil u)
        refine pack none (.alias hc g1 hcn rest) ?_
        intro m
        constructor
        · simp
        · rintro ⟨k, k'⟩
          rw [only m k, hcc] at k'; cases k'

/-- C94.  Each filter of the directory is loaded by its name in any mixture of cases, and each alias of /repo/modules/filter/alias loads the filter it stands for. -/
theorem C94_names {st : Nat → Static π} {ip : Nat → Nat → π → π} {ins : Ins π} {e : Lens π Nat} (h : AliasLookup st ip ins e (rowsOf filterAliases) none)
    (dir : List (List Nat)) (name : List Nat) (hb : ∀ b ∈ name, b < 256) :
    (upperBytes name ++ lit ".so" ∈ dir → Loads (moduleCheck true dir) (Looked st ip ins (errCount e)) (upperBytes name) (some (upperBytes name))) ∧
    ∀ r ∈ filterAliases, upperBytes name = lit r.1 → lit r.1 ++ lit ".so" ∉ dir → lit r.2 ++ lit ".so" ∈ dir →
      Loads (moduleCheck true dir) (Looked st ip ins (errCount e)) (upperBytes name) (some (lit r.2)) := by
  have hc : ∀ n, upperBytes n = n → (moduleCheck true dir n = true ↔ n ++ lit ".so" ∈ dir) := by
    intro n hn
    simp only [moduleCheck, if_true, hn, List.contains_iff_mem]
    rfl
  constructor
  · intro hm
    exact .here ((hc _ (upper_idem name)).2 hm)
  · intro r hr hn hno hyes
    obtain ⟨res, g1, _, g3⟩ := C94_filter h (moduleCheck true dir) name hb
    have hno' : moduleCheck true dir (upperBytes name) = false := by
      have := mt (hc _ (upper_idem name)).1 (by rw [hn]; exact hno)
      simpa using this
    have hmem : (lit r.1, lit r.2) ∈ filterRows := List.mem_map.2 ⟨r, hr, rfl⟩
    have hu : upperBytes (lit r.2) = lit r.2 := (by decide +kernel : ∀ r ∈ filterAliases, upperBytes (lit r.2) = lit r.2) r hr
    have hA := filterRows_ok.1 _ hmem
    have := (g3 (lit r.2)).2 (by
      rw [if_neg (by simp [hno'])]
      refine ⟨?_, (hc _ hu).2 hyes⟩
      rw [hn, show asciiPart (lit r.1) = lit r.1 from List.filter_eq_self.2 (fun b hb => by simpa using hA.2.2 b (by simp [hb]))]
      have := Resolves.cons hmem hA.1 (fun r' _ hp => by simpa using hp.length_le) Resolves.nil
      simpa using this)
    rwa [this] at g1

/-- A type number in hexadecimal digits, with or without a zero in front. -/
def typeNumerals (ty : Nat) : List (List Nat) :=
  if ty < 16 then [[Escape.hexDigit ty], [48, Escape.hexDigit ty]] else [[Escape.hexDigit (ty / 16), Escape.hexDigit (ty % 16)]]

/-- C94.  The number of a type of data names the filter that accepts exactly the data of that type. -/
theorem C94_types {st : Nat → Static π} {ip : Nat → Nat → π → π} {ins : Ins π} {e : Lens π Nat} (h : AliasLookup st ip ins e (rowsOf filterAliases) none)
    (dir : List (List Nat)) (name : List Nat) (hb : ∀ b ∈ name, b < 256) :
    ∀ r ∈ typeFilters, upperBytes name ∈ typeNumerals r.2 → upperBytes name ++ lit ".so" ∉ dir → lit r.1 ++ lit ".so" ∈ dir →
      Loads (moduleCheck true dir) (Looked st ip ins (errCount e)) (upperBytes name) (some (lit r.1)) ∧
      ∀ d, Range.typefilter r.2 d = true ↔ d.head? = some r.2 := by
  have key : ∀ r ∈ typeFilters, ∀ n ∈ typeNumerals r.2, ∃ a ∈ filterAliases, n = lit a.1 ∧ a.2 = r.1 := by decide +kernel
  intro r hr hn hno hyes
  obtain ⟨a, ha, e1, e2⟩ := key r hr _ hn
  refine ⟨?_, C39_type r.2⟩
  rw [← e2] at hyes ⊢
  exact (C94_names h dir name hb).2 a ha e1 (by rwa [e1] at hno) hyes

/-- C94.  A scorer is loaded by its own name only. -/
theorem C94_scorer (dir : List (List Nat)) (name : List Nat) (r : Option (List Nat)) :
    Loads (moduleCheck true dir) noAlias (upperBytes name) r ↔ r = if upperBytes name ++ lit ".so" ∈ dir then some (upperBytes name) else none := by
  have hc : moduleCheck true dir (upperBytes name) = true ↔ upperBytes name ++ lit ".so" ∈ dir := by
    simp only [moduleCheck, if_true, upper_idem, List.contains_iff_mem]
    rfl
  constructor
  · intro h
    cases h with
    | here k => rw [if_pos (hc.1 k)]
    | unknown k => rw [if_neg (fun h => by rw [hc.2 h] at k; cases k)]
    | again _ k => exact absurd k (by simp [noAlias])
    | alias _ k => exact absurd k (by simp [noAlias])
  · rintro rfl
    split
    · rename_i h; exact .here (hc.2 h)
    · rename_i h
      exact .unknown (by simpa using mt hc.1 h) rfl

/-- C94 is false of the code in that a name no filter and no alias has can load a filter: the byte FF and `1` load UNICODE. -/
theorem C94_junk_violated {st : Nat → Static π} {ip : Nat → Nat → π → π} {ins : Ins π} {e : Lens π Nat} (h : AliasLookup st ip ins e (rowsOf filterAliases) none) :
    Loads (moduleCheck true [lit "UNICODE.so"]) (Looked st ip ins (errCount e)) (upperBytes [0xFF, 0x31]) (some (lit "UNICODE")) := by
  obtain ⟨res, g1, _, g3⟩ := C94_filter h (moduleCheck true [lit "UNICODE.so"]) [0xFF, 0x31] (by decide)
  have := (g3 (lit "UNICODE")).2 (by
    rw [if_neg (by decide)]
    refine ⟨?_, by decide⟩
    have := Resolves.cons (T := filterRows) (a := lit "1") (d := lit "UNICODE") (s := []) (t := []) (by decide +kernel) (by decide) (by decide +kernel) .nil
    exact this)
  rwa [this] at g1

/-- With the automaton made of /repo/modules/filter/alias: `1b` loads ANSI. -/
example : Loads (moduleCheck true [lit ".", lit "CJK.so", lit "ANSI.so"])
    (Looked (aliasSt (trieCodec (symbolRules (Solve.aliasRules filterRows)))) (fun _ _ x => x) aliasIns (errCount (Lens.self Nat))) (upperBytes (lit "1b")) (some (lit "ANSI")) :=
  (C94_names filterLookup_exists _ (lit "1b") (by decide)).2 ("1B", "ANSI") (by decide +kernel) (by decide) (by decide) (by decide)

end Verif.Props
