import Verif.Model.Newline
import Verif.Spec.Newline
import Verif.Props.Inter
/-
C38: newline normalisation.
-/
namespace Verif.Props
open Verif.Spec
open Verif.Engine hiding Datum step
open Verif.Newline

variable {π : Type}

/-- The three conventions: table and how it writes the end of a line. -/
inductive Convention : Rules Datum (List Datum) → List Datum → Prop
  | unix : Convention unix [LF]
  | win : Convention win [CR, LF]
  | mac : Convention mac [CR]

/-- Every sequence of data reads as a text, in exactly one way. -/
theorem C38_text (ds : List Datum) : ∃ xs, Text ds xs ∧ ∀ ys, Text ds ys → ys = xs := by
  have hcl : CR ≠ LF := by decide
  have key : ∀ n (ds : List Datum), ds.length ≤ n → ∃ xs, Text ds xs ∧ ∀ ys, Text ds ys → ys = xs := by
    intro n
    induction n with
    | zero =>
      intro ds h
      have : ds = [] := by simpa using h
      subst this
      exact ⟨[], .nil, fun ys hy => by cases hy; rfl⟩
    | succ n ih =>
      intro ds h
      match ds with
      | [] => exact ⟨[], .nil, fun ys hy => by cases hy; rfl⟩
      | d :: ds =>
        have hl : ds.length ≤ n := by simpa using h
        by_cases h1 : d = CR
        · subst h1
          by_cases h2 : ∃ r, ds = LF :: r
          · obtain ⟨r, rfl⟩ := h2
            obtain ⟨xs, a, b⟩ := ih r (by simp at hl; omega)
            refine ⟨none :: xs, .crlf a, ?_⟩
            intro ys hy
            cases hy with
            | crlf hy => rw [b _ hy]
            | cr hy hn => exact absurd rfl (hn r)
            | other hn _ _ => exact absurd rfl hn
          · obtain ⟨xs, a, b⟩ := ih ds hl
            refine ⟨none :: xs, .cr a (fun r hr => h2 ⟨r, hr⟩), ?_⟩
            intro ys hy
            cases hy with
            | crlf hy => exact absurd ⟨_, rfl⟩ h2
            | cr hy hn => rw [b _ hy]
            | other hn _ _ => exact absurd rfl hn
        · obtain ⟨xs, a, b⟩ := ih ds hl
          by_cases h2 : d = LF
          · subst h2
            refine ⟨none :: xs, .lf a, ?_⟩
            intro ys hy
            cases hy with
            | lf hy => rw [b _ hy]
            | other _ hn _ => exact absurd rfl hn
          · refine ⟨some d :: xs, .other h1 h2 a, ?_⟩
            intro ys hy
            cases hy with
            | crlf hy => exact absurd rfl h1
            | lf hy => exact absurd rfl h2
            | cr hy hn => exact absurd rfl h1
            | other _ _ hy => rw [b _ hy]
  exact key _ ds (Nat.le_refl _)

/-- Patterns of a convention. -/
theorem conv_lookup {R : Rules Datum (List Datum)} {nl : List Datum} (h : Convention R nl) (p : List Datum) :
    lookup R p = if p = [CR, LF] ∨ p = [LF] ∨ p = [CR] then some nl else none := by
  cases h <;>
    (simp only [lookup, unix, win, mac, CR, LF, eq_comm (b := p)]
     by_cases h1 : p = [[1, 0x0D], [1, 0x0A]]
     · simp [h1]
     · by_cases h2 : p = [[1, 0x0A]]
       · simp [h2]
       · by_cases h3 : p = [[1, 0x0D]]
         · simp [h3]
         · simp [h1, h2, h3])

theorem conv_longestUpTo {R : Rules Datum (List Datum)} {nl : List Datum} (h : Convention R nl) (s : List Datum) (n : Nat)
    (hn : 2 ≤ n) (hs : n ≤ s.length) : longestUpTo R s n = longestUpTo R s 2 := by
  induction n with
  | zero => omega
  | succ n ih =>
    by_cases h2 : n + 1 = 2
    · rw [h2]
    · rw [longestUpTo, conv_lookup h, if_neg]
      · exact ih (by omega) (by omega)
      · intro hc
        have hl : (s.take (n + 1)).length = n + 1 := by rw [List.length_take]; omega
        rcases hc with hc | hc | hc <;> (rw [hc] at hl; simp at hl; omega)

/-- What a convention's table matches at a position. -/
theorem conv_longest {R : Rules Datum (List Datum)} {nl : List Datum} (h : Convention R nl) (d : Datum) (ds : List Datum) :
    longest R (d :: ds) =
      if d = CR ∧ ds.head? = some LF then some (2, nl) else if d = CR ∨ d = LF then some (1, nl) else none := by
  have hcl : CR ≠ LF := by decide
  have one : longestUpTo R (d :: ds) 1 = if d = CR ∨ d = LF then some (1, nl) else none := by
    simp only [longestUpTo, conv_lookup h, List.take_succ_cons, List.take_zero, List.cons.injEq, and_true, reduceCtorEq,
      and_false, false_or]
    by_cases h1 : d = CR
    · simp [h1]
    · by_cases h2 : d = LF <;> simp [h1, h2]
  unfold longest
  cases ds with
  | nil =>
    simp only [List.length_cons, List.length_nil, Nat.zero_add, List.head?_nil, reduceCtorEq, and_false, if_false]
    exact one
  | cons c ds =>
    rw [conv_longestUpTo h _ _ (by simp) (Nat.le_refl _), longestUpTo, conv_lookup h, one]
    by_cases h1 : d = CR ∧ c = LF
    · simp [h1.1, h1.2]
    · have h3 : ¬ (List.take (1 + 1) (d :: c :: ds) = [CR, LF] ∨ List.take (1 + 1) (d :: c :: ds) = [LF] ∨
          List.take (1 + 1) (d :: c :: ds) = [CR]) := by simpa using h1
      rw [if_neg h3]
      have h4 : ¬ (d = CR ∧ (c :: ds).head? = some LF) := by simpa using h1
      rw [if_neg h4]

/-- The table phase of a convention rewrites every text. -/
theorem conv_out {R : Rules Datum (List Datum)} {nl : List Datum} (h : Convention R nl) {ds : List Datum}
    {xs : List (Option Datum)} (ht : Text ds xs) : passMisses (tokens [R] ds) = written nl xs := by
  have hcl : CR ≠ LF := by decide
  induction ht with
  | nil => simp [tokens, passMisses, written]
  | crlf _ ih =>
    rw [tokens]
    simp only [firstMatch, conv_longest h, List.head?_cons, and_self, if_true, Nat.add_one_sub_one, List.drop_succ_cons,
      List.drop_zero, passMisses, written, ih]
  | lf _ ih =>
    rw [tokens]
    simp only [firstMatch, conv_longest h, hcl.symm, false_and, if_false, or_true, if_true, Nat.sub_self, List.drop_zero,
      passMisses, written, ih]
  | @cr ds xs _ hn ih =>
    rw [tokens]
    have : ¬ ds.head? = some LF := by
      intro hh
      cases ds with
      | nil => simp at hh
      | cons a r => simp at hh; exact hn r (by rw [hh])
    simp only [firstMatch, conv_longest h, this, and_false, if_false, true_or, if_true, Nat.sub_self, List.drop_zero,
      passMisses, written, ih]
  | other h1 h2 _ ih =>
    rw [tokens]
    simp only [firstMatch, conv_longest h, h1, h2, false_and, or_self, if_false, passMisses, written, ih]

theorem text_head {ds : List Datum} {xs : List (Option Datum)} (h : Text ds xs) {r : List Datum} (hr : ds = LF :: r) :
    ∃ ys, xs = none :: ys := by
  cases h with
  | nil => cases hr
  | crlf _ => exact ⟨_, rfl⟩
  | lf _ => exact ⟨_, rfl⟩
  | cr _ _ => exact ⟨_, rfl⟩
  | other _ h2 _ => injection hr with h _; exact absurd h h2

/-- What is written in a convention reads as the same text. -/
theorem C38_reads {R : Rules Datum (List Datum)} {nl : List Datum} (h : Convention R nl) {ds : List Datum}
    {xs : List (Option Datum)} (ht : Text ds xs) : Text (written nl xs) xs := by
  have hcl : CR ≠ LF := by decide
  have nolf : ∀ {ds : List Datum} {xs : List (Option Datum)}, Text ds xs → ∀ r, written [CR] xs ≠ LF :: r := by
    intro ds xs ht r hr
    cases ht with
    | nil => cases hr
    | crlf _ => simp only [written, List.singleton_append, List.cons.injEq] at hr; exact hcl hr.1
    | lf _ => simp only [written, List.singleton_append, List.cons.injEq] at hr; exact hcl hr.1
    | cr _ _ => simp only [written, List.singleton_append, List.cons.injEq] at hr; exact hcl hr.1
    | other _ h2 _ => simp only [written, List.cons.injEq] at hr; exact h2 hr.1
  have eol : ∀ {ds : List Datum} {xs : List (Option Datum)}, Text ds xs → Text (written nl xs) xs →
      Text (written nl (none :: xs)) (none :: xs) := by
    intro ds xs ht ih
    cases h with
    | unix => exact .lf ih
    | win => exact .crlf ih
    | mac => exact .cr ih (nolf ht)
  induction ht with
  | nil => exact .nil
  | crlf ht ih => exact eol ht ih
  | lf ht ih => exact eol ht ih
  | cr ht _ ih => exact eol ht ih
  | other h1 h2 _ ih => exact .other h1 h2 ih

/-- The processor of a newline phase, in terms of texts. -/
def newlineProc (π : Type) (R : Rules Datum (List Datum)) : Proc π := (Phase.rewrite [R]).proc π

/-- C38.  A phase `UNIX` (`WIN`, `MAC`) in any conversion writes every end of line — CR LF, a lone LF, a lone CR — as LF
(CR LF, CR), passes everything else on unchanged, and counts no errors. -/
theorem C38_newlines {st : Nat → Static π} {ip : Nat → Nat → π → π} {ins : Ins π} {pre post : List (Proc π)}
    {s : Static π} (h : Placed st ip ins pre s post) {R : Rules Datum (List Datum)} {nl : List Datum}
    (hc : Convention R nl) (hs : PhaseTables s (.rewrite [R])) :
    ∃ P : Proc π, (∀ ds xs, Text (nonEmpty ds) xs → P.out ds = written nl xs) ∧ P.dec = false ∧
      (∀ ds, P.inErrors ds = 0) ∧ (∀ ds, P.outErrors ds = 0) ∧ (∀ ds, P.ok ds) ∧
      Converts st ip ins (pre ++ P :: post) := by
  refine ⟨newlineProc π R, ?_, rfl, fun _ => rfl, fun _ => rfl, fun _ => trivial, ?_⟩
  · intro ds xs ht
    exact conv_out hc ht
  · exact placed_converts h (table_realises hs _) rfl

/-- C38.  The last of several normalisations decides; in particular each is idempotent. -/
theorem C38_last {R1 R2 : Rules Datum (List Datum)} {nl1 nl2 : List Datum} (h1 : Convention R1 nl1) (h2 : Convention R2 nl2)
    (ds : List Datum) : (Phase.rewrite [R2]).out ((Phase.rewrite [R1]).out ds) = (Phase.rewrite [R2]).out ds := by
  obtain ⟨xs, ht, _⟩ := C38_text (nonEmpty ds)
  have hne : ∀ d ∈ nonEmpty ds, d ≠ [] := by
    intro d hd
    have := (List.mem_filter.1 hd).2
    simpa using this
  have hw : nonEmpty (written nl1 xs) = written nl1 xs := by
    have hn1 : nonEmpty nl1 = nl1 := by cases h1 <;> rfl
    have : ∀ {ds xs}, Text ds xs → (∀ d ∈ ds, d ≠ []) → nonEmpty (written nl1 xs) = written nl1 xs := by
      intro ds xs ht
      induction ht with
      | nil => intro _; rfl
      | crlf _ ih => intro h; simp only [written, nonEmpty_append, hn1]; rw [ih (fun d hd => h d (by simp [hd]))]
      | lf _ ih => intro h; simp only [written, nonEmpty_append, hn1]; rw [ih (fun d hd => h d (by simp [hd]))]
      | cr _ _ ih => intro h; simp only [written, nonEmpty_append, hn1]; rw [ih (fun d hd => h d (by simp [hd]))]
      | @other d ds xs _ _ _ ih =>
        intro h
        have h3 := ih (fun d hd => h d (by simp [hd]))
        have h4 := h d (by simp)
        cases d with
        | nil => exact absurd rfl h4
        | cons a b => simp only [written]; unfold nonEmpty at h3 ⊢; rw [List.filter_cons, if_pos (by rfl), h3]
    exact this ht hne
  simp only [Phase.out, conv_out h1 ht, conv_out h2 ht, hw]
  exact conv_out h2 (C38_reads h1 ht)

/-- A text with all kinds of line ends, among them a CR at the very end. -/
example : Text [[1, 0x61], CR, LF, LF, CR, CR, LF, [1, 0x62], CR] [some [1, 0x61], none, none, none, none, some [1, 0x62], none] :=
  .other (by decide) (by decide) (.crlf (.lf (.cr (.crlf (.other (by decide) (by decide) (.cr .nil (by simp)))) (by simp [CR, LF]))))

/-- The engine on `a CR | LF b CR`, cut inside a CR LF. -/
example : ∃ ds ins', Session (mkAll [.rewrite [win]]) ((mkIns [.rewrite [win]]).init (mkAll [.rewrite [win]]) (fun _ _ x => x))
    ([⟨some [1, 0x0D], false, .hold⟩] ++ [⟨some [1, 0x0A], true, .hold⟩]) ds ins' ∧
    nonEmpty ins'.pending = [CR, LF] := by
  have hpl : Placed (mkAll [.rewrite [win]]) (fun _ _ x => x) (mkIns [.rewrite [win]]) [] (mkAll [.rewrite [win]] 1) [] :=
    ⟨by intro k h; simp at h, rfl, by intro k h; simp at h, by intro k h; simp at h, by intro k h; simp at h, rfl⟩
  have hwf : WfPhase (.rewrite [win]) := by
    refine ⟨by simp, ?_⟩
    intro R hR r hr
    simp only [List.mem_singleton] at hR
    subst hR
    simp only [win, List.mem_cons, List.not_mem_nil, or_false] at hr
    rcases hr with rfl | rfl | rfl <;>
      (refine ⟨by simp, ?_, ?_⟩
       · intro d hd
         simp at hd
         rcases hd with rfl | rfl <;> (refine ⟨by simp, ?_⟩; intro b hb; simp at hb; omega)
       · simp only [GoodData]; decide)
  obtain ⟨P, h1, h2, h3, _, h4, h5⟩ := C38_newlines hpl .win (mkStatic_tables hwf)
  obtain ⟨ds, ins', a, _, b, _⟩ := h5 [⟨some [1, 0x0D], false, .hold⟩] ⟨some [1, 0x0A], true, .hold⟩ (by simp) rfl (by simp)
    (by intro x hx c hc; simp at hx; rcases hx with rfl | rfl <;>
          (simp at hc; subst hc; intro b hb; simp at hb; omega)) [CR, LF] rfl
    ⟨.inl (h3 _), h4 _, trivial⟩
  refine ⟨ds, ins', a, ?_⟩
  rw [b (by simp)]
  show nonEmpty (P.out [CR, LF]) = _
  rw [h1 _ [none] (by exact .crlf .nil)]
  rfl

end Verif.Props
