import Verif.Model.MkText
import Verif.Spec.MkText
import Verif.Props.MkTable

/-!
Property C65: a rule file is read as the rules its text denotes, and compiled to a table for exactly these.
-/

namespace Verif.Props
open Verif.Spec
open Verif.Engine hiding Datum step
open Verif.MkTable
open Verif.Spec.Table

variable {π : Type}

theorem digit_value {a h : Nat} (d : Digit a h) : hexTable a = h := by
  cases d with
  | dec n h => unfold hexTable; rw [if_pos (by omega)]; omega
  | lower n h => unfold hexTable; rw [if_neg (by omega), if_pos (by omega)]; omega
  | upper n h => unfold hexTable; rw [if_neg (by omega), if_neg (by omega), if_pos (by omega)]; omega

theorem digit_char {a h : Nat} (d : Digit a h) : 0x30 ≤ a ∧ a ≤ 0x39 ∨ 0x61 ≤ a ∧ a ≤ 0x66 ∨ 0x41 ≤ a ∧ a ≤ 0x46 := by
  cases d <;> omega

theorem readPattern_cons {c : Nat} (t : List Nat) : (c = 0x2A → readPattern (c :: t) = (readPattern t).map ((0, 256) :: ·)) ∧
    (c = 0x2C → readPattern (c :: t) = (readPattern t).map ((256, 256) :: ·)) := by
  constructor
  · rintro rfl
    cases t <;> simp [readPattern]
  · rintro rfl
    cases t <;> simp [readPattern]

theorem readPattern_text {f : List Nat} {p : List (Nat × Nat)} (h : PatternText f p) : readPattern f = some p := by
  induction h with
  | nil => rfl
  | byte ha hb _ ih =>
    have h1 := digit_char ha
    simp only [readPattern]
    rw [if_neg (by omega), if_neg (by omega), ih, digit_value ha, digit_value hb]
    rfl
  | border _ ih => rw [(readPattern_cons _).2 rfl, ih]; rfl
  | any _ ih => rw [(readPattern_cons _).1 rfl, ih]; rfl

theorem pattern_chars {f : List Nat} {p : List (Nat × Nat)} (h : PatternText f p) :
    ∀ c ∈ f, c ≠ 9 ∧ c ≠ 10 ∧ c ≠ 0x20 ∧ c ≠ 0x23 ∧ c ≠ 0x21 := by
  induction h with
  | nil => simp
  | byte ha hb _ ih =>
    have h1 := digit_char ha
    have h2 := digit_char hb
    intro c hc
    simp only [List.mem_cons] at hc
    rcases hc with rfl | rfl | hc
    · omega
    · omega
    · exact ih c hc
  | border _ ih =>
    intro c hc
    rcases List.mem_cons.1 hc with rfl | hc
    · omega
    · exact ih c hc
  | any _ ih =>
    intro c hc
    rcases List.mem_cons.1 hc with rfl | hc
    · omega
    · exact ih c hc

theorem readData_text {t d : List Nat} (h : DataText t d) : readData' none t = d := by
  induction h with
  | nil => rfl
  | byte ha hb _ ih =>
    have h1 := digit_char ha
    have h2 := digit_char hb
    simp only [readData']
    rw [if_neg (by omega), if_neg (by omega), ih, digit_value ha, digit_value hb]
  | comma _ ih => simp only [readData', if_true]; rw [ih]

theorem data_chars {t d : List Nat} (h : DataText t d) :
    ∀ c ∈ t, c ≠ 9 ∧ c ≠ 10 ∧ c ≠ 0x20 ∧ c ≠ 0x23 ∧ c ≠ 13 ∧ c ≠ 0x3F := by
  induction h with
  | nil => simp
  | byte ha hb _ ih =>
    have h1 := digit_char ha
    have h2 := digit_char hb
    intro c hc
    simp only [List.mem_cons] at hc
    rcases hc with rfl | rfl | hc
    · omega
    · omega
    · exact ih c hc
  | comma _ ih =>
    intro c hc
    rcases List.mem_cons.1 hc with rfl | hc
    · omega
    · exact ih c hc

theorem takeWhile_stop {P : Nat → Bool} {a b : List Nat} (ha : ∀ c ∈ a, P c = true) (hb : ∃ c cs, b = c :: cs ∧ P c = false) :
    (a ++ b).takeWhile P = a ∧ (a ++ b).dropWhile P = b := by
  obtain ⟨c, cs, rfl, hc⟩ := hb
  induction a with
  | nil => simp [hc]
  | cons x a ih =>
    have := ih (fun y hy => ha y (by simp [hy]))
    simp [ha x (by simp), this]

/-- A line is read as it is written. -/
theorem readLine_text {l : List Nat} {r : Rule} (h : LineText l r) : readLine (l ++ [10]) = some r := by
  cases h with
  | @mk ci cb f p blanks t d tail hf hfne hbl hblne ht htne htail =>
    obtain ⟨b, bs, rfl⟩ : ∃ b bs, blanks = b :: bs := by
      cases blanks with
      | nil => exact absurd rfl hblne
      | cons b bs => exact ⟨b, bs, rfl⟩
    let ff := (if ci then [0x21] else []) ++ f
    let tt := (if cb then [0x3F] else []) ++ t
    let rest := tail ++ [10]
    have e : (if ci then [0x21] else []) ++ f ++ (b :: bs) ++ (if cb then [0x3F] else []) ++ t ++ tail ++ [10] = ff ++ (b :: (bs ++ (tt ++ rest))) := by
      simp [ff, tt, rest]
    rw [e]
    have hffc : ∀ c ∈ ff, c ≠ 9 ∧ c ≠ 0x20 := by
      intro c hc
      simp only [ff, List.mem_append] at hc
      rcases hc with hc | hc
      · cases ci <;> simp at hc
        subst hc; omega
      · have := pattern_chars hf c hc; omega
    have httc : ∀ c ∈ tt, c ≠ 9 ∧ c ≠ 13 ∧ c ≠ 10 ∧ c ≠ 0x23 ∧ c ≠ 0x20 := by
      intro c hc
      simp only [tt, List.mem_append] at hc
      rcases hc with hc | hc
      · cases cb <;> simp at hc
        subst hc; omega
      · have := data_chars ht c hc; omega
    have hb0 := hbl b (by simp)
    -- what follows the data
    have hrest : ∃ c cs, rest = c :: cs ∧ (c = 9 ∨ c = 13 ∨ c = 10 ∨ c = 0x23 ∨ c = 0x20) := by
      rcases htail.2 with e | ⟨c, cs, e, hc⟩
      · exact ⟨10, [], by simp [rest, e], by omega⟩
      · exact ⟨c, cs ++ [10], by simp [rest, e], by omega⟩
    unfold readLine
    obtain ⟨k1, k2⟩ := takeWhile_stop (P := fun c => decide (¬ (c = 9 ∨ c = 0x20))) (a := ff) (b := b :: (bs ++ (tt ++ rest)))
      (by intro c hc; have := hffc c hc; simp; omega) ⟨b, _, rfl, by simp; omega⟩
    simp only [k1, k2]
    -- skip blanks
    have hskip : ∃ c cs, (bs ++ (tt ++ rest)).dropWhile (fun c => decide (c = 9 ∨ c = 0x20)) = c :: cs ∧
        (c :: cs).takeWhile (fun c => decide (¬ (c = 9 ∨ c = 13 ∨ c = 10 ∨ c = 0x23 ∨ c = 0x20))) = tt := by
      have hdw : (bs ++ (tt ++ rest)).dropWhile (fun c => decide (c = 9 ∨ c = 0x20)) =
          (tt ++ rest).dropWhile (fun c => decide (c = 9 ∨ c = 0x20)) := by
        rw [List.dropWhile_append]
        have : bs.dropWhile (fun c => decide (c = 9 ∨ c = 0x20)) = [] := by
          have hbs : ∀ c ∈ bs, c = 9 ∨ c = 0x20 := fun c hc => hbl c (by simp [hc])
          clear hbl hblne e k1 k2
          induction bs with
          | nil => rfl
          | cons x bs ih =>
            rw [List.dropWhile_cons_of_pos (by simpa using hbs x (by simp))]
            exact ih (fun c hc => hbs c (by simp [hc]))
        rw [this]; rfl
      rw [hdw]
      cases htt : tt with
      | cons c cs =>
        have hc := httc c (by rw [htt]; simp)
        refine ⟨c, cs ++ rest, ?_, ?_⟩
        · rw [List.cons_append, List.dropWhile_cons_of_neg (by simp; omega)]
        · rw [← List.cons_append, ← htt]
          obtain ⟨x, xs, e1, e2⟩ := hrest
          refine (takeWhile_stop ?_ ⟨x, xs, e1, by simp; omega⟩).1
          intro y hy
          have := httc y hy
          simp; omega
      | nil =>
        exfalso
        simp only [tt, List.append_eq_nil_iff] at htt
        rcases htne with h | h
        · exact h htt.2
        · rw [h] at htt; simp at htt
    obtain ⟨c, cs, e1, e2⟩ := hskip
    simp only [e1, e2]
    have hci : (ff.head? = some 0x21) ↔ ci = true := by
      cases ci with
      | true => simp [ff]
      | false =>
        cases f with
        | nil => exact absurd rfl hfne
        | cons x f =>
          have := pattern_chars hf x (by simp)
          simp [ff]; omega
    have hcb : (tt.head? = some 0x3F) ↔ cb = true := by
      cases cb with
      | true => simp [tt]
      | false =>
        cases t with
        | nil => simp [tt]
        | cons x t =>
          have := data_chars ht x (by simp)
          simp [tt]; omega
    have hp : readPattern (if ff.head? = some 0x21 then ff.drop 1 else ff) = some p := by
      rw [← readPattern_text hf]
      cases ci with
      | true => rw [if_pos (hci.2 rfl)]; simp [ff]
      | false => rw [if_neg (fun h => by simpa using hci.1 h)]; simp [ff]
    have hd : readData' none (if tt.head? = some 0x3F then tt.drop 1 else tt) = d := by
      rw [← readData_text ht]
      cases cb with
      | true => rw [if_pos (hcb.2 rfl)]; simp [tt]
      | false => rw [if_neg (fun h => by simpa using hcb.1 h)]; simp [tt]
    simp only [decide_eq_true_eq, hp, hd, Option.map_some]
    congr 1
    cases ci <;> cases cb <;> simp_all

theorem line_start {l : List Nat} {r : Rule} (h : LineText l r) : 10 ∉ l ∧ l.head? ≠ some 0x23 := by
  cases h with
  | @mk ci cb f p blanks t d tail hf hfne hbl hblne ht htne htail =>
    constructor
    · intro h
      simp only [List.mem_append] at h
      rcases h with ((((h | h) | h) | h) | h) | h
      · cases ci <;> simp at h
      · have := pattern_chars hf 10 h; omega
      · have := hbl 10 h; omega
      · cases cb <;> simp at h
      · have := data_chars ht 10 h; omega
      · exact htail.1 h
    · cases ci with
      | true => simp
      | false =>
        cases f with
        | nil => exact absurd rfl hfne
        | cons x f =>
          have := pattern_chars hf x (by simp)
          simp; omega

theorem cutLines_line {l : List Nat} (h : 10 ∉ l) (s : List Nat) : ∀ room, l.length < room →
    cutLines room (l ++ 10 :: s) = (l ++ [10]) :: cutLines 1023 s := by
  induction l with
  | nil => intro room _; simp [cutLines]
  | cons c l ih =>
    intro room hr
    simp only [List.mem_cons, not_or] at h
    simp only [List.length_cons] at hr
    simp only [List.cons_append, cutLines]
    rw [if_neg (by omega), ih h.2 (room - 1) (by omega)]

/-- C65.  A rule file is read as the list of rules its text denotes; comments are skipped. -/
theorem C65_file {text : List Nat} {rs : List Rule} (h : FileText text rs) : readFile text = some rs := by
  unfold readFile
  induction h with
  | nil => rfl
  | rule hl hlen _ ih =>
    obtain ⟨h1, h2⟩ := line_start hl
    rw [cutLines_line h1 _ _ hlen]
    have hh : ∀ l : List Nat, l.head? ≠ some 0x23 → (l ++ [10]).head? ≠ some 0x23 := by
      intro l hl
      cases l <;> simp_all
    rw [List.filter_cons_of_pos (by simpa using hh _ h2), List.mapM_cons, readLine_text hl, ih]
    rfl
  | comment hl hlen _ ih =>
    rw [cutLines_line (l := 0x23 :: _) (by simp; exact hl) _ _ (by simp; omega)]
    rw [List.filter_cons_of_neg (by simp)]
    exact ih

/-- C65 with C50: from the text of a rule file to what a look-up in its compiled image finds. -/
theorem C65_compiled {text : List Nat} {rs : List Rule} (h : FileText text rs) (hp : ∀ r ∈ rs, Plain r) (hcl : NoClash rs)
    (hsz : imageSize rs < 2 ^ 32) (hd : ∀ r ∈ rs, (datums r.dat).length ≤ 1024) (q : List Nat) (hq : q ≠ []) :
    ∃ rs', readFile text = some rs' ∧
    match meaning rs q with
    | none => walk (compiled π rs') 0 q = none
    | some (st, d) => ∃ o, walk (compiled π rs') 0 q = some o ∧ (compiled π rs').status o = st ∧ (compiled π rs').data o = datums d :=
  ⟨rs, C65_file h, C50_lookup rs hp hcl hsz hd q hq⟩

/-- `# x`, `!61* 0141,0142 # y`, `8130 ?` -/
example : readFile [0x23, 0x20, 0x78, 10, 0x21, 0x36, 0x31, 0x2A, 9, 0x30, 0x31, 0x34, 0x31, 0x2C, 0x30, 0x31, 0x34, 0x32, 0x20, 0x23, 0x20, 0x79, 10,
      0x38, 0x31, 0x33, 0x30, 9, 0x3F, 10] =
    some [{ ci := true, pat := [(0x61, 0x61), (0, 256)], dat := [1, 0x41, 256, 1, 0x42] },
      { pat := [(0x81, 0x81), (0x30, 0x30)], cb := true, dat := [] }] := by
  refine C65_file (.comment (l := [0x20, 0x78]) (by decide) (by decide) (.rule (l := [0x21, 0x36, 0x31, 0x2A, 9, 0x30, 0x31, 0x34, 0x31, 0x2C,
      0x30, 0x31, 0x34, 0x32, 0x20, 0x23, 0x20, 0x79]) ?_ (by decide) (.rule (l := [0x38, 0x31, 0x33, 0x30, 9, 0x3F]) ?_ (by decide) .nil)))
  · exact .mk (ci := true) (cb := false) (f := [0x36, 0x31, 0x2A]) (blanks := [9]) (t := [0x30, 0x31, 0x34, 0x31, 0x2C, 0x30, 0x31, 0x34, 0x32])
      (tail := [0x20, 0x23, 0x20, 0x79])
      (.byte (.dec 6 (by omega)) (.dec 1 (by omega)) (.any .nil)) (by simp) (by intro c hc; simp at hc; omega) (by simp)
      (.byte (.dec 0 (by omega)) (.dec 1 (by omega)) (.byte (.dec 4 (by omega)) (.dec 1 (by omega)) (.comma
        (.byte (.dec 0 (by omega)) (.dec 1 (by omega)) (.byte (.dec 4 (by omega)) (.dec 2 (by omega)) .nil))))) (.inl (by simp))
      ⟨by decide, .inr ⟨0x20, _, rfl, by omega⟩⟩
  · exact .mk (ci := false) (cb := true) (f := [0x38, 0x31, 0x33, 0x30]) (blanks := [9]) (t := []) (tail := [])
      (.byte (.dec 8 (by omega)) (.dec 1 (by omega)) (.byte (.dec 3 (by omega)) (.dec 0 (by omega)) .nil)) (by simp)
      (by intro c hc; simp at hc; omega) (by simp) .nil (.inr rfl) ⟨by decide, .inl rfl⟩

/-- C65 violated: an empty line, and a line with a pattern only, are not skipped or reported: the reader follows a NULL
pointer. -/
theorem C65_empty_line_violated : readFile [10] = none ∧ readFile [0x34, 0x31, 10] = none := by decide +kernel

/-- C65 violated: in a last line with blanks but without data and newline, blanks are looked for beyond the end of the line. -/
theorem C65_no_data_violated : readFile [0x34, 0x31, 0x20] = none := by decide +kernel

/-- C65 violated: after an odd number of digits the reader steps over the end of the pattern. -/
theorem C65_odd_violated : readFile [0x34, 0x20, 0x30, 10] = none := by decide +kernel

/-- C65, shipped files: the first line of /repo/modules/inter/_NFD.txt, _NFC-MAP.txt, LOWER.txt and others is meant as a comment but does not
start with `#`; it is read as a rule, past the end of its pattern `Source:`, which has an odd number of characters. -/
theorem C65_shipped_violated :
    readLine ("Source: ftp://ftp.unicode.org/Public/13.0.0/ucd/UnicodeData.txt\n".toList.map Char.toNat) = none ∧
    readLine ("#ource: ftp://ftp.unicode.org/Public/13.0.0/ucd/UnicodeData.txt\n".toList.map Char.toNat) = none ∧
    readFile ("#ource: ftp://ftp.unicode.org/Public/13.0.0/ucd/UnicodeData.txt\n".toList.map Char.toNat) = some [] ∧
    readFile ("Source: ftp://ftp.unicode.org/Public/13.0.0/ucd/UnicodeData.txt\n".toList.map Char.toNat) = none := by decide +kernel

/-- C65 violated: characters that are no digits count as 0: `4X` is read as `40`. -/
theorem C65_bad_digit_violated : readFile [0x34, 0x58, 9, 0x37, 0x58, 10] = some [{ pat := [(0x40, 0x40)], dat := [0x70] }] := by decide +kernel

end Verif.Props
