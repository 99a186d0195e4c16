import Verif.Spec.Listing
import Verif.Model.Listing
import Verif.Props.Solve

/-! C92: the list of codecs. -/

namespace Verif.Props
open Verif.Spec
open Verif.Listing
open Verif.Solve (lit rowsOf)

theorem strcmp_iff : ∀ a b : List Nat, strcmpLe a b = true ↔ ¬ b < a
  | [], b => by simp [strcmpLe]
  | a :: s, [] => by simp [strcmpLe]
  | a :: s, b :: t => by
    simp only [strcmpLe, List.cons_lt_cons_iff]
    have ih := strcmp_iff s t
    split
    · rename_i h; subst h
      rw [ih]; simp
    · rename_i h
      simp only [decide_eq_true_eq]
      omega

theorem strcmp_trans : ∀ a b c : List Nat, strcmpLe a b = true → strcmpLe b c = true → strcmpLe a c = true := by
  intro a b c h1 h2
  rw [strcmp_iff] at *
  rw [List.not_lt] at *
  exact List.le_trans h1 h2

theorem strcmp_total (a b : List Nat) : (strcmpLe a b || strcmpLe b a) = true := by
  rw [Bool.or_eq_true, strcmp_iff, strcmp_iff, List.not_lt, List.not_lt]
  exact List.le_total a b

theorem strcmp_antisymm (a b : List Nat) (h1 : strcmpLe a b = true) (h2 : strcmpLe b a = true) : a = b := by
  rw [strcmp_iff, List.not_lt] at *
  exact List.le_antisymm h1 h2

/-- Every store so far was inside, and there is no more than what was stored. -/
structure Arr.Ok (a : Arr) : Prop where
  safe : a.safe = true
  fits : a.items.length ≤ a.size

theorem ok_new : Arr.Ok Arr.new := ⟨rfl, by simp [Arr.new]⟩

theorem ok_room {a : Arr} (h : Arr.Ok a) : a.room.safe = true ∧ a.room.items = a.items ∧ a.items.length < a.room.size := by
  unfold Arr.room
  split
  · exact ⟨h.safe, rfl, by have := h.fits; show _ < a.size + 8; omega⟩
  · exact ⟨h.safe, rfl, by omega⟩

theorem ok_push {a : Arr} (h : Arr.Ok a) (s : List Nat) : Arr.Ok (a.push s) ∧ (a.push s).items = a.items ++ [s] := by
  obtain ⟨h1, h2, h3⟩ := ok_room h
  refine ⟨⟨?_, ?_⟩, ?_⟩
  · simp only [Arr.push, h1, h2]; simpa using h3
  · simp only [Arr.push, h2, List.length_append, List.length_cons, List.length_nil]; omega
  · simp only [Arr.push, h2]

theorem ok_close {a : Arr} (h : Arr.Ok a) : a.close.safe = true ∧ a.close.items = a.items := by
  obtain ⟨h1, h2, h3⟩ := ok_room h
  refine ⟨?_, h2⟩
  simp only [Arr.close, h1, h2]; simpa using h3

theorem strstr_iff (n : List Nat) : ∀ s : List Nat, (strstr s n).isSome = true ↔ n <:+: s
  | [] => by
    unfold strstr
    split
    · rename_i h; subst h; simp
    · rename_i h; simp [h]
  | b :: s => by
    unfold strstr
    split
    · rename_i h
      simp only [Option.isSome_some, true_iff]
      exact (List.isPrefixOf_iff_prefix.1 h).isInfix
    · rename_i h
      rw [Option.isSome_map, strstr_iff n s, List.infix_cons_iff]
      have : ¬ n <+: b :: s := fun k => h (List.isPrefixOf_iff_prefix.2 k)
      simp [this]

theorem ok_codecs (ds : List (List Nat)) : ∀ {a : Arr}, Arr.Ok a → Arr.Ok (addCodecs a ds) ∧ (addCodecs a ds).items = a.items ++ ds.filter isCodecFile := by
  induction ds with
  | nil => intro a h; exact ⟨h, by simp [addCodecs]⟩
  | cons d ds ih =>
    intro a h
    have e : ((strstr d [46]).isSome || d == [97, 108, 105, 97, 115]) = !isCodecFile d := by
      have k : (strstr d [46]).isSome = d.contains 46 := by
        rw [Bool.eq_iff_iff, strstr_iff, List.contains_iff_mem]
        constructor
        · intro ⟨x, y, e⟩; rw [← e]; simp
        · intro hm
          obtain ⟨x, y, rfl⟩ := List.append_of_mem hm
          exact ⟨x, y, by simp⟩
      simp [isCodecFile, k, Bool.not_and, bne]
    unfold addCodecs
    rw [e]
    by_cases hd : isCodecFile d = true
    · rw [if_neg (by simp [hd])]
      obtain ⟨p1, p2⟩ := ok_push h d
      obtain ⟨i1, i2⟩ := ih p1
      refine ⟨i1, ?_⟩
      rw [i2, p2, List.filter_cons, if_pos hd]
      simp
    · rw [if_pos (by simpa using hd)]
      obtain ⟨i1, i2⟩ := ih h
      refine ⟨i1, ?_⟩
      rw [i2, List.filter_cons, if_neg hd]

theorem ok_filters (fs : List FilterFile) (hf : ∀ f ∈ fs, f.Valid) : ∀ {a : Arr}, Arr.Ok a →
    Arr.Ok (addFilters a (fs.map FilterFile.bytes)) ∧ (addFilters a (fs.map FilterFile.bytes)).items = a.items ++ fs.filterMap FilterFile.name := by
  induction fs with
  | nil => intro a h; exact ⟨h, by simp [addFilters]⟩
  | cons f fs ih =>
    intro a h
    have hv := hf f (by simp)
    have ih := fun {a} => ih (fun x hx => hf x (by simp [hx])) (a := a)
    rw [List.map_cons]
    unfold addFilters
    cases f with
    | other d =>
      have : (strstr d [46, 115, 111]).isNone = true := by
        rw [Option.isNone_iff_eq_none]
        have := mt (strstr_iff _ d).1 hv
        simpa using this
      simp only [FilterFile.bytes, this, Bool.true_or, if_true]
      obtain ⟨i1, i2⟩ := ih h
      exact ⟨i1, by rw [i2]; rfl⟩
    | object n =>
      have k1 : (strstr (n ++ [46, 115, 111]) [46, 115, 111]).isNone = false := by
        have := (strstr_iff [46, 115, 111] (n ++ [46, 115, 111])).2 (List.suffix_append _ _).isInfix
        rw [Option.isNone_eq_false_iff]; exact this
      have k2 : ((n ++ [46, 115, 111] : List Nat) == [97, 108, 105, 97, 115]) = false := by
        rw [beq_eq_false_iff_ne]
        intro e
        have : 46 ∈ n ++ [46, 115, 111] := by simp
        rw [e] at this; revert this; decide
      have k3 : upTo 46 (n ++ [46, 115, 111]) = n := by
        unfold upTo
        rw [List.takeWhile_append_of_pos]
        · simp
        · intro x hx
          have : x ≠ 46 := fun e => hv (e ▸ hx)
          simpa using this
      simp only [FilterFile.bytes, k1, k2, k3, Bool.or_false, Bool.false_eq_true, if_false]
      obtain ⟨p1, p2⟩ := ok_push h n
      obtain ⟨i1, i2⟩ := ih p1
      exact ⟨i1, by rw [i2, p2, List.filterMap_cons]; simp [FilterFile.name]⟩

theorem fgets_line (t rest : List Nat) (ht : ∀ b ∈ t, b ≠ 10) : ∀ (n : Nat), t.length < n → fgets n (t ++ 10 :: rest) = (t ++ [10], rest) := by
  induction t with
  | nil => intro n h; cases n with
    | zero => simp at h
    | succ n => simp [fgets]
  | cons b t ih =>
    intro n h
    cases n with
    | zero => simp at h
    | succ n =>
      simp only [List.cons_append, fgets]
      rw [if_neg (ht b (by simp)), ih (fun x hx => ht x (by simp [hx])) n (by simpa using h)]

theorem fgets_cut (t rest : List Nat) (ht : ∀ b ∈ t, b ≠ 10) : fgets t.length (t ++ rest) = (t, rest) := by
  induction t with
  | nil => simp [fgets]
  | cons b t ih =>
    simp only [List.length_cons, List.cons_append, fgets]
    rw [if_neg (ht b (by simp)), ih (fun x hx => ht x (by simp [hx]))]

theorem name_line {n d : List Nat} (h : (AliasLine.row n d).Valid) : upTo 9 (upTo 0 (n ++ 9 :: d ++ [10])) = n := by
  obtain ⟨h1, _, _⟩ := h
  have e : upTo 0 (n ++ 9 :: d ++ [10]) = n ++ 9 :: upTo 0 (d ++ [10]) := by
    unfold upTo
    rw [List.append_assoc, List.takeWhile_append_of_pos (by intro x hx; simpa using (h1 x hx).1)]
    simp
  rw [e]
  unfold upTo
  rw [List.takeWhile_append_of_pos (by intro x hx; simpa using (h1 x hx).2.1)]
  simp

theorem ok_aliases (ls : List AliasLine) (hl : ∀ x ∈ ls, x.Valid ∧ x.bytes.length ≤ 255) : ∀ {a : Arr}, Arr.Ok a →
    Arr.Ok (addAliases a (ls.flatMap AliasLine.bytes)) ∧ (addAliases a (ls.flatMap AliasLine.bytes)).items = a.items ++ ls.filterMap AliasLine.name := by
  induction ls with
  | nil => intro a h; unfold addAliases; exact ⟨h, by simp⟩
  | cons x ls ih =>
    intro a h
    obtain ⟨hv, hn⟩ := hl x (by simp)
    have ih := fun {a} => ih (fun x hx => hl x (by simp [hx])) (a := a)
    rw [List.flatMap_cons]
    cases x with
    | row n d =>
      have hr := fgets_line (n ++ 9 :: d) (ls.flatMap AliasLine.bytes) (by
        intro b hb
        rcases List.mem_append.1 hb with hb | hb
        · exact (hv.1 b hb).2.2
        · rcases List.mem_cons.1 hb with rfl | hb
          · decide
          · exact hv.2.2 b hb) 255 (by simp only [AliasLine.bytes, List.length_append, List.length_cons, List.length_nil] at hn ⊢; omega)
      have e : AliasLine.bytes (.row n d) ++ ls.flatMap AliasLine.bytes = (n ++ 9 :: d) ++ 10 :: ls.flatMap AliasLine.bytes := by simp [AliasLine.bytes]
      rw [e]
      unfold addAliases
      rw [dif_neg (by simp), hr]
      have hh : ((n ++ 9 :: d) ++ [10]).head? ≠ some 35 := by
        have := hv.2.1
        cases n with
        | nil => simp
        | cons c n => simpa using this
      simp only [if_neg hh]
      rw [name_line hv]
      obtain ⟨p1, p2⟩ := ok_push h n
      obtain ⟨i1, i2⟩ := ih p1
      exact ⟨i1, by rw [i2, p2, List.filterMap_cons]; simp [AliasLine.name]⟩
    | comment t =>
      have hr := fgets_line (35 :: t) (ls.flatMap AliasLine.bytes) (by
        intro b hb
        rcases List.mem_cons.1 hb with rfl | hb
        · decide
        · exact hv b hb) 255 (by simp only [AliasLine.bytes, List.length_append, List.length_cons, List.length_nil] at hn ⊢; omega)
      have e : AliasLine.bytes (.comment t) ++ ls.flatMap AliasLine.bytes = (35 :: t) ++ 10 :: ls.flatMap AliasLine.bytes := by simp [AliasLine.bytes]
      rw [e]
      unfold addAliases
      rw [dif_neg (by simp), hr]
      simp only [List.cons_append, List.head?_cons, if_true]
      obtain ⟨i1, i2⟩ := ih h
      exact ⟨i1, by rw [i2]; rfl⟩

/-- There is one list, whatever the sorting is like. -/
theorem lists_unique {f : Bool} {dir : Option (List (List Nat))} {file : Option (List Nat)} (hs : (gathered f dir file).safe = true) :
    ∃ l, Lists f dir file l ∧ (∀ l', Lists f dir file l' → l' = l) ∧ Alphabetical l ∧ l.Perm (gathered f dir file).items := by
  refine ⟨(gathered f dir file).items.mergeSort strcmpLe, ⟨hs, List.mergeSort_perm _ _, List.pairwise_mergeSort strcmp_trans strcmp_total _⟩, ?_, ?_, List.mergeSort_perm _ _⟩
  · rintro l' ⟨_, h1, h2⟩
    exact List.Perm.eq_of_pairwise (fun a b _ _ => strcmp_antisymm a b) h2 (List.pairwise_mergeSort strcmp_trans strcmp_total _) (h1.trans (List.mergeSort_perm _ _).symm)
  · refine (List.pairwise_mergeSort strcmp_trans strcmp_total _).imp ?_
    intro a b h
    exact (strcmp_iff a b).1 h

theorem ok_anyFilters (ds : List (List Nat)) : ∀ {a : Arr}, Arr.Ok a → Arr.Ok (addFilters a ds) := by
  induction ds with
  | nil => exact fun h => h
  | cons d ds ih =>
    intro a h
    unfold addFilters
    split
    · exact ih h
    · exact ih (ok_push h _).1

theorem ok_anyAliases : ∀ (n : Nat) (t : List Nat), t.length ≤ n → ∀ {a : Arr}, Arr.Ok a → Arr.Ok (addAliases a t) := by
  intro n
  induction n with
  | zero =>
    intro t ht a h
    have : t = [] := List.eq_nil_of_length_eq_zero (by omega)
    subst this; unfold addAliases; simpa using h
  | succ n ih =>
    intro t ht a h
    unfold addAliases
    split
    · exact h
    · rename_i hne
      have := fgets_lt 254 t hne
      have hle : (fgets 255 t).2.length ≤ n := by have : (fgets 255 t).2.length < t.length := this; omega
      simp only
      split
      · exact ih _ hle h
      · exact ih _ hle (ok_push h _).1

/-- C92.  For every directory and every alias file, whatever is in them, the array is never overrun, and there is one list, in order. -/
theorem C92_safe (f : Bool) (dir : Option (List (List Nat))) (file : Option (List Nat)) :
    ∃ l, Lists f dir file l ∧ (∀ l', Lists f dir file l' → l' = l) ∧ Alphabetical l := by
  have h1 : ∀ {a}, Arr.Ok a → Arr.Ok (match file with | none => a | some t => addAliases a t) := by
    intro a h
    cases file with
    | none => exact h
    | some t => exact ok_anyAliases _ t (Nat.le_refl _) h
  have h2 : Arr.Ok (match dir with | none => Arr.new | some ds => if f then addFilters Arr.new ds else addCodecs Arr.new ds) := by
    cases dir with
    | none => exact ok_new
    | some ds =>
      simp only
      split
      · exact ok_anyFilters ds ok_new
      · exact (ok_codecs ds ok_new).1
  obtain ⟨l, a, b, c, _⟩ := lists_unique (f := f) (dir := dir) (file := file) (ok_close (h1 h2)).1
  exact ⟨l, a, b, c⟩

/-- C92.  The list of the codecs of a kind, for every directory and every alias file whose lines have at most 255 bytes: the array is never overrun, and the list is one list,
whatever the order of the directory: the codecs in the directory and the names in the alias file, in order. -/
theorem C92_codecs (ds : List (List Nat)) (ls : List AliasLine) (hl : ∀ x ∈ ls, x.Valid ∧ x.bytes.length ≤ 255) :
    ∃ l, Lists false (some ds) (some (ls.flatMap AliasLine.bytes)) l ∧ (∀ l', Lists false (some ds) (some (ls.flatMap AliasLine.bytes)) l' → l' = l) ∧
      Alphabetical l ∧ l.Perm (ds.filter isCodecFile ++ ls.filterMap AliasLine.name) := by
  obtain ⟨a1, a2⟩ := ok_codecs ds ok_new
  obtain ⟨b1, b2⟩ := ok_aliases ls hl a1
  obtain ⟨c1, c2⟩ := ok_close b1
  have e : (gathered false (some ds) (some (ls.flatMap AliasLine.bytes))).items = ds.filter isCodecFile ++ ls.filterMap AliasLine.name := by
    refine c2.trans ?_
    rw [b2, a2]; rfl
  rw [← e]
  exact lists_unique c1

/-- C92.  The same for filters and scorers: the files `NAME.so`. -/
theorem C92_filters (fs : List FilterFile) (hf : ∀ f ∈ fs, f.Valid) (ls : List AliasLine) (hl : ∀ x ∈ ls, x.Valid ∧ x.bytes.length ≤ 255) :
    ∃ l, Lists true (some (fs.map FilterFile.bytes)) (some (ls.flatMap AliasLine.bytes)) l ∧
      (∀ l', Lists true (some (fs.map FilterFile.bytes)) (some (ls.flatMap AliasLine.bytes)) l' → l' = l) ∧
      Alphabetical l ∧ l.Perm (fs.filterMap FilterFile.name ++ ls.filterMap AliasLine.name) := by
  obtain ⟨a1, a2⟩ := ok_filters fs hf ok_new
  obtain ⟨b1, b2⟩ := ok_aliases ls hl a1
  obtain ⟨c1, c2⟩ := ok_close b1
  have e : (gathered true (some (fs.map FilterFile.bytes)) (some (ls.flatMap AliasLine.bytes))).items = fs.filterMap FilterFile.name ++ ls.filterMap AliasLine.name := by
    refine c2.trans ?_
    rw [b2, a2]; rfl
  rw [← e]
  exact lists_unique c1

/-- C92.  The order in which the directory is read does not matter. -/
theorem C92_order {ds ds' : List (List Nat)} (hp : ds.Perm ds') (ls : List AliasLine) (hl : ∀ x ∈ ls, x.Valid ∧ x.bytes.length ≤ 255) (l : List (List Nat)) :
    Lists false (some ds) (some (ls.flatMap AliasLine.bytes)) l ↔ Lists false (some ds') (some (ls.flatMap AliasLine.bytes)) l := by
  obtain ⟨m, a1, a2, a3, a4⟩ := C92_codecs ds ls hl
  obtain ⟨m', b1, b2, b3, b4⟩ := C92_codecs ds' ls hl
  have : m = m' := by
    refine List.Perm.eq_of_pairwise (le := fun a b => strcmpLe a b = true) (fun a b _ _ => strcmp_antisymm a b) a1.2.2 b1.2.2 ?_
    exact a4.trans (((hp.filter _).append_right _).trans b4.symm)
  subst this
  constructor
  · intro h; rw [a2 _ h]; exact b1
  · intro h; rw [b2 _ h]; exact a1

/-- C92.  A name is in the list exactly if it is the name of a module, as the check for modules sees it, or of an alias, where the files of the directory are in
upper case. -/
theorem C92_check (ds : List (List Nat)) (ls : List AliasLine) (hl : ∀ x ∈ ls, x.Valid ∧ x.bytes.length ≤ 255)
    (l : List (List Nat)) (h : Lists false (some ds) (some (ls.flatMap AliasLine.bytes)) l) (n : List Nat) (hn : isCodecFile n = true) (hun : upperBytes n = n) :
    n ∈ l ↔ moduleCheck false ds n = true ∨ some n ∈ ls.map AliasLine.name := by
  obtain ⟨m, a1, a2, a3, a4⟩ := C92_codecs ds ls hl
  rw [a2 _ h, a4.mem_iff, List.mem_append, List.mem_filter, List.mem_filterMap, List.mem_map]
  simp [moduleCheck, hun, hn]

/-- C92.  The check finds a module, or a file NAME.so for filters and scorers, under its name in any mixture of cases, and nothing else. -/
theorem C92_check_case (ds : List (List Nat)) (name : List Nat) :
    (moduleCheck false ds name = true ↔ ∃ f ∈ ds, f = upperBytes name) ∧
    (moduleCheck true ds name = true ↔ ∃ f ∈ ds, ∃ n, f = n ++ ".so".toList.map Char.toNat ∧ n = upperBytes name) := by
  have e : ".so".toList.map Char.toNat = [46, 115, 111] := by decide
  simp only [moduleCheck, e]
  constructor <;> simp

/-- The lines of an alias file with these rows. -/
def rowLines (rows : List (List Nat × List Nat)) : List AliasLine := rows.map fun r => .row r.1 r.2

/-- Can these rows be lines? -/
def rowsFit (rows : List (List Nat × List Nat)) : Bool :=
  rows.all fun r => r.1.all (fun b => b != 0 && b != 9 && b != 10) && r.1.head? != some 35 && r.2.all (fun b => b != 10) && decide (r.1.length + r.2.length ≤ 253)

theorem rows_fit {rows : List (List Nat × List Nat)} (h : rowsFit rows = true) : ∀ x ∈ rowLines rows, x.Valid ∧ x.bytes.length ≤ 255 := by
  intro x hx
  obtain ⟨r, hr, rfl⟩ := List.mem_map.1 hx
  have := List.all_eq_true.1 h r hr
  simp only [Bool.and_eq_true, List.all_eq_true, decide_eq_true_eq, bne_iff_ne] at this
  obtain ⟨⟨⟨k1, k2⟩, k3⟩, k4⟩ := this
  refine ⟨⟨fun b hb => ⟨(k1 b hb).1.1, (k1 b hb).1.2, (k1 b hb).2⟩, k2, k3⟩, ?_⟩
  simp only [AliasLine.bytes, List.length_append, List.length_cons, List.length_nil]
  omega

theorem row_names (rows : List (List Nat × List Nat)) : (rowLines rows).filterMap AliasLine.name = rows.map (·.1) := by
  induction rows with
  | nil => rfl
  | cons r rows ih => simpa [rowLines, AliasLine.name] using ih

/-- C92.  With the alias files of the distribution (comments left out): the list has the codecs of the directory and the aliases, nothing else. -/
theorem C92_shipped (T : List (String × String)) (hT : T ∈ [Conv.fromAliases, Conv.interAliases, Conv.toAliases]) (ds : List (List Nat)) (l : List (List Nat))
    (h : Lists false (some ds) (some ((rowLines (rowsOf T)).flatMap AliasLine.bytes)) l) (n : List Nat) :
    n ∈ l ↔ (n ∈ ds ∧ isCodecFile n = true) ∨ ∃ r ∈ T, n = lit r.1 := by
  have hf : ∀ T ∈ [Conv.fromAliases, Conv.interAliases, Conv.toAliases], rowsFit (rowsOf T) = true := by decide +kernel
  obtain ⟨m, a1, a2, a3, a4⟩ := C92_codecs ds _ (rows_fit (hf T hT))
  rw [a2 _ h, a4.mem_iff, List.mem_append, List.mem_filter, row_names]
  simp only [rowsOf, List.map_map, List.mem_map, Function.comp]
  constructor
  · rintro (k | ⟨r, hr, e⟩)
    · exact .inl k
    · exact .inr ⟨r, hr, e.symm⟩
  · rintro (k | ⟨r, hr, e⟩)
    · exact .inl k
    · exact .inr ⟨r, hr, e.symm⟩

/-- C92 is false of the code in that LOCALE, which is found as an alias (`C86_from`), is not in the list (nor UNICODE in that of INTER, `C86_inter`). -/
theorem C92_locale_violated (ds : List (List Nat)) (l : List (List Nat)) (h : Lists false (some ds) (some ((rowLines (rowsOf Conv.fromAliases)).flatMap AliasLine.bytes)) l)
    (hd : lit "LOCALE" ∉ ds) : lit "LOCALE" ∉ l := by
  rw [C92_shipped _ (by simp) ds l h]
  rintro (k | ⟨r, hr, e⟩)
  · exact hd k.1
  · revert r; decide +kernel

theorem C92_unicode_violated (ds : List (List Nat)) (l : List (List Nat)) (h : Lists false (some ds) (some ((rowLines (rowsOf Conv.interAliases)).flatMap AliasLine.bytes)) l)
    (hd : lit "UNICODE" ∉ ds) : lit "UNICODE" ∉ l := by
  rw [C92_shipped _ (by simp) ds l h]
  rintro (k | ⟨r, hr, e⟩)
  · exact hd k.1
  · revert r; decide +kernel

/-- C92 is false of the code in that of a line with more than 255 bytes the rest is taken for another line: the list has the end of the definition as a name. -/
theorem C92_long_violated (n d d' : List Nat) (hv : (AliasLine.row n (d ++ d')).Valid) (hlen : n.length + 1 + d.length = 255) (hd' : d' ≠ []) (h9 : ∀ b ∈ d', b ≠ 0 ∧ b ≠ 9)
    (h35 : d'.head? ≠ some 35) (hs : d'.length < 255) (ds : List (List Nat)) (l : List (List Nat))
    (h : Lists false (some ds) (some (AliasLine.bytes (.row n (d ++ d')))) l) : d' ++ [10] ∈ l := by
  obtain ⟨_, hp, _⟩ := h
  rw [hp.mem_iff]
  obtain ⟨a1, a2⟩ := ok_codecs ds ok_new
  have e : AliasLine.bytes (.row n (d ++ d')) = (n ++ 9 :: d) ++ (d' ++ [10]) := by simp [AliasLine.bytes]
  have hn10 : ∀ b ∈ n ++ 9 :: d, b ≠ 10 := by
    intro b hb
    rcases List.mem_append.1 hb with hb | hb
    · exact (hv.1 b hb).2.2
    · rcases List.mem_cons.1 hb with rfl | hb
      · decide
      · exact hv.2.2 b (by simp [hb])
  have c1 := fgets_cut (n ++ 9 :: d) (d' ++ [10]) hn10
  rw [show (n ++ 9 :: d).length = 255 by simp only [List.length_append, List.length_cons]; omega] at c1
  have c2 := fgets_line d' [] (fun b hb => hv.2.2 b (by simp [hb])) 255 hs
  have hh : (n ++ 9 :: d).head? ≠ some 35 := by
    have := hv.2.1
    cases n with
    | nil => simp
    | cons c n => simpa using this
  have hh' : (d' ++ [10]).head? ≠ some 35 := by
    cases d' with
    | nil => exact absurd rfl hd'
    | cons c d' => simpa using h35
  have ht : upTo 9 (upTo 0 (d' ++ [10])) = d' ++ [10] := by
    unfold upTo
    have k : ∀ x, x ≠ 10 → (∀ b ∈ d', b ≠ x) → (d' ++ [10]).takeWhile (fun y => decide (y ≠ x)) = d' ++ [10] := by
      intro x hx hb
      rw [List.takeWhile_append_of_pos (by intro b hb'; simpa using hb b hb')]
      simp [Ne.symm hx]
    rw [k 0 (by decide) (fun b hb => (h9 b hb).1), k 9 (by decide) (fun b hb => (h9 b hb).2)]
  have k1 : addAliases (addCodecs Arr.new ds) (AliasLine.bytes (.row n (d ++ d'))) =
      ((addCodecs Arr.new ds).push (upTo 9 (upTo 0 (n ++ 9 :: d)))).push (d' ++ [10]) := by
    rw [e]
    unfold addAliases
    rw [dif_neg (by simp), c1]
    simp only [if_neg hh]
    unfold addAliases
    rw [dif_neg (by simp), c2]
    simp only [if_neg hh', ht]
    unfold addAliases
    simp
  show d' ++ [10] ∈ (Arr.close _).items
  have o1 := ok_push a1 (upTo 9 (upTo 0 (n ++ 9 :: d)))
  have o2 := ok_push o1.1 (d' ++ [10])
  have : (gathered false (some ds) (some (AliasLine.bytes (.row n (d ++ d'))))) =
      ((((addCodecs Arr.new ds).push (upTo 9 (upTo 0 (n ++ 9 :: d)))).push (d' ++ [10])).close) := by
    rw [← k1]; rfl
  have := congrArg Arr.items this
  rw [(ok_close o2.1).2, o2.2] at this
  rw [show (Arr.close _).items = _ from this]
  simp

/-- A directory read in some order. -/
example : ∃ l, Lists false (some [lit ".", lit "UTF-8", lit "..", lit "alias", lit "_UTF-8", lit "ASCII", lit "ASCII.man"])
      (some (([AliasLine.comment (lit "x"), .row (lit "B") (lit "ASCII")]).flatMap AliasLine.bytes)) l ∧
    l = [lit "ASCII", lit "B", lit "UTF-8", lit "_UTF-8"] := by
  obtain ⟨m, a1, _, _, a4⟩ := C92_codecs [lit ".", lit "UTF-8", lit "..", lit "alias", lit "_UTF-8", lit "ASCII", lit "ASCII.man"]
    [AliasLine.comment (lit "x"), .row (lit "B") (lit "ASCII")] (by simp [AliasLine.Valid, AliasLine.bytes]; decide)
  refine ⟨m, a1, List.Perm.eq_of_pairwise (le := fun a b => strcmpLe a b = true) (fun a b _ _ => strcmp_antisymm a b) a1.2.2 (by decide) ?_⟩
  exact a4.trans (List.isPerm_iff.1 (by decide))

end Verif.Props
