import Verif.Model.Whitespace
import Verif.Props.Inter
/-
C31 and C66: WHITESPACE-DERAIL and WHITESPACE-RERAIL.
-/
namespace Verif.Props
open Verif.Spec
open Verif.Engine (IsBytes)
open Verif.Whitespace

/-- A white space datum: unicode, tabulator, line feed, carriage return or space. -/
def Space (d : Datum) : Prop := ∃ bs, d = 1 :: bs ∧ beNat bs % 2 ^ 32 ∈ [0x09, 0x0A, 0x0D, 0x20]

instance (d : Datum) : Decidable (Space d) :=
  match d with
  | [] => isFalse (by rintro ⟨_, h, _⟩; simp at h)
  | b :: bs =>
    if h : b = 1 ∧ beNat bs % 2 ^ 32 ∈ [0x09, 0x0A, 0x0D, 0x20] then isTrue ⟨bs, by rw [h.1], h.2⟩
    else isFalse (by
      rintro ⟨cs, e, k⟩
      simp only [List.cons.injEq] at e
      exact h ⟨e.1, e.2 ▸ k⟩)

theorem isSpace_iff {d : Datum} (hd : IsBytes d) : isSpace d = true ↔ Space d := by
  constructor
  · intro h
    cases d with
    | nil => simp [isSpace] at h
    | cons b bs =>
      by_cases hb : b = 1
      · subst hb
        refine ⟨bs, rfl, ?_⟩
        rw [← ucs_beNat bs (fun x hx => hd x (List.mem_cons_of_mem _ hx))]
        simp only [isSpace, Bool.or_eq_true, beq_iff_eq] at h
        simp only [List.mem_cons, List.not_mem_nil, or_false]
        rcases h with ((h | h) | h) | h <;> simp [h]
      · rw [isSpace] at h
        · simp at h
        · rintro cs e; simp at e; exact hb e.1
  · rintro ⟨bs, rfl, h⟩
    rw [← ucs_beNat bs (fun x hx => hd x (List.mem_cons_of_mem _ hx))] at h
    simp only [List.mem_cons, List.not_mem_nil, or_false] at h
    simp only [isSpace, Bool.or_eq_true, beq_iff_eq]
    rcases h with h | h | h | h <;> simp [h]

/-- A possible history of the two phases for the input `inp`, when `way` is on its way: DERAIL sees the input in
order; the phases in between let the data through in order, as late as they like, having turned each datum `x` into the
data `f x`; the end of the input reaches RERAIL only when nothing is on its way. -/
inductive WsHistory (f : Datum → List Datum) : (way : List Datum) → List Event → (inp : List Datum) → Prop
  | nil : WsHistory f [] [] []
  | derail {way es inp d} : WsHistory f (way ++ if Space d then [] else [d]) es inp → WsHistory f way (.derail d :: es) (d :: inp)
  | rerail {x way es inp} : WsHistory f way es inp → WsHistory f (x :: way) (.rerail (f x) :: es) inp
  | flush {es inp} : WsHistory f [] es inp → WsHistory f [] (.flush :: es) inp

/-! ### The queue -/

theorem drain_eq (off : Nat) : ∀ (q : List (Datum × Nat)) (last : Nat), last = q.length →
    drain off q last = (q.dropWhile (fun x => decide (x.2 ≤ off)), (q.dropWhile (fun x => decide (x.2 ≤ off))).length,
      (q.takeWhile (fun x => decide (x.2 ≤ off))).map Prod.fst)
  | [], last, h => by subst h; rfl
  | (d, n) :: q, last, h => by
    subst h
    rw [drain]
    by_cases hn : n ≤ off
    · have e : (if ((d, n) :: q).length = 1 then 0 else ((d, n) :: q).length - 1) = q.length := by
        simp only [List.length_cons]; split <;> omega
      rw [if_pos hn, e, drain_eq off q _ rfl]
      simp [hn]
    · rw [if_neg hn]
      simp [hn]

/-- What comes out of RERAIL when the data `way` reach it one by one, `b` having reached it before. -/
def weave (g : Datum → Datum) (b : Nat) : List Datum → List (Datum × Nat) → List Datum
  | [], q => q.map Prod.fst
  | x :: way, q =>
    (q.takeWhile (fun x => decide (x.2 ≤ b))).map Prod.fst ++ g x :: weave g (b + 1) way (q.dropWhile (fun x => decide (x.2 ≤ b)))

theorem weave_split (g : Datum → Datum) (b : Nat) (way : List Datum) (q : List (Datum × Nat)) :
    weave g b way q = (q.takeWhile (fun x => decide (x.2 ≤ b))).map Prod.fst ++ weave g b way (q.dropWhile (fun x => decide (x.2 ≤ b))) := by
  have hd : ∀ q : List (Datum × Nat), (q.dropWhile (fun x => decide (x.2 ≤ b))).takeWhile (fun x => decide (x.2 ≤ b)) = [] ∧
      (q.dropWhile (fun x => decide (x.2 ≤ b))).dropWhile (fun x => decide (x.2 ≤ b)) = q.dropWhile (fun x => decide (x.2 ≤ b)) := by
    intro q
    induction q with
    | nil => simp
    | cons x q ih =>
      by_cases hx : x.2 ≤ b
      · simp only [List.dropWhile_cons, hx, decide_true, if_true]; exact ih
      · simp [hx]
  cases way with
  | nil => simp only [weave, ← List.map_append, List.takeWhile_append_dropWhile]
  | cons x way => simp only [weave, (hd q).1, (hd q).2]; simp

theorem takeDrop_all {p : Datum × Nat → Bool} {q : List (Datum × Nat)} (h : ∀ x ∈ q, p x = true) :
    q.takeWhile p = q ∧ q.dropWhile p = [] := by
  induction q with
  | nil => simp
  | cons x q ih =>
    have hx := h x (by simp)
    have := ih (fun y hy => h y (List.mem_cons_of_mem _ hy))
    simp [hx, this]

theorem takeDrop_snoc {p : Datum × Nat → Bool} {y : Datum × Nat} (hy : p y = false) (q : List (Datum × Nat)) :
    (q ++ [y]).takeWhile p = q.takeWhile p ∧ (q ++ [y]).dropWhile p = q.dropWhile p ++ [y] := by
  induction q with
  | nil => simp [hy]
  | cons x q ih =>
    by_cases hx : p x = true
    · simp [hx, ih]
    · simp [hx]

theorem mem_dropWhile {p : Datum × Nat → Bool} {q : List (Datum × Nat)} {x : Datum × Nat} (h : x ∈ q.dropWhile p) : x ∈ q :=
  (List.dropWhile_sublist p).subset h

theorem weave_space (g : Datum → Datum) (d : Datum) : ∀ (way : List Datum) (b : Nat) (q : List (Datum × Nat)),
    weave g b way (q ++ [(d, b + way.length)]) = weave g b way q ++ [d]
  | [], b, q => by simp [weave]
  | x :: way, b, q => by
    have h : (fun x : Datum × Nat => decide (x.2 ≤ b)) (d, b + (x :: way).length) = false := by simp
    simp only [weave]
    rw [(takeDrop_snoc h q).1, (takeDrop_snoc h q).2]
    have e : b + (x :: way).length = (b + 1) + way.length := by simp; omega
    rw [e, weave_space g d way]
    simp

theorem weave_other (g : Datum → Datum) (d : Datum) : ∀ (way : List Datum) (b : Nat) (q : List (Datum × Nat)),
    (∀ x ∈ q, x.2 ≤ b + way.length) → weave g b (way ++ [d]) q = weave g b way q ++ [g d]
  | [], b, q, h => by
    have := takeDrop_all (p := fun x : Datum × Nat => decide (x.2 ≤ b)) (q := q) (by intro x hx; simpa using h x hx)
    simp [weave, this.1, this.2]
  | x :: way, b, q, h => by
    simp only [List.cons_append, weave]
    rw [weave_other g d way (b + 1) _ (by
      intro y hy
      have := h y (mem_dropWhile hy)
      simp at this; omega)]
    simp

/-! ### C31 -/

/-- What holds at all times. -/
structure Good (s : Sys) : Prop where
  last : s.t.last = s.t.queue.length
  small : ∀ x ∈ s.t.queue, x.2 ≤ s.t.offsetA
  flags : s.t.fMatch = s.t.fPending
  pend : s.way = [] → s.t.queue ≠ [] → s.t.fPending = true

theorem rerail_eq {t : Shared} (h : t.last = t.queue.length) (d : Datum) :
    rerail t d =
      ({ t with
          queue := (t.queue.dropWhile (fun x => decide (x.2 ≤ t.offsetB))).dropWhile (fun x => decide (x.2 ≤ t.offsetB + 1))
          last := ((t.queue.dropWhile (fun x => decide (x.2 ≤ t.offsetB))).dropWhile (fun x => decide (x.2 ≤ t.offsetB + 1))).length
          offsetB := t.offsetB + 1
          fMatch := false
          fPending := false },
        (t.queue.takeWhile (fun x => decide (x.2 ≤ t.offsetB))).map Prod.fst ++
          d :: ((t.queue.dropWhile (fun x => decide (x.2 ≤ t.offsetB))).takeWhile (fun x => decide (x.2 ≤ t.offsetB + 1))).map Prod.fst) := by
  simp only [rerail, drain_eq _ _ _ h, drain_eq _ _ _ rfl]

theorem derail_space {t : Shared} (h : t.last = t.queue.length) {d : Datum} (hd : IsBytes d) (hs : Space d) :
    derail t d = ({ t with queue := t.queue ++ [(d, t.offsetA)], last := t.queue.length + 1, fMatch := true, fPending := true }, []) := by
  rw [derail, if_pos ((isSpace_iff hd).2 hs), h, List.take_length]

theorem derail_other {t : Shared} {d : Datum} (hd : IsBytes d) (hs : ¬ Space d) :
    derail t d = ({ t with offsetA := t.offsetA + 1 }, [d]) := by
  rw [derail, if_neg (fun k => hs ((isSpace_iff hd).1 k))]

theorem flush_eq {s : Sys} (h : Good s) (hw : s.way = []) :
    (s.step .flush) = { s with t := { s.t with queue := [], last := 0, fMatch := false, fPending := false }, out := s.out ++ s.t.queue.map Prod.fst } := by
  obtain ⟨⟨q, la, a, b, fm, fp⟩, w, o⟩ := s
  obtain ⟨h1, h2, h3, h4⟩ := h
  simp only at h1 h2 h3 h4 hw
  subst h1 h3 hw
  simp only [Sys.step, flush, cbflush]
  cases fm with
  | true =>
    cases q with
    | nil => simp
    | cons x q => simp
  | false =>
    cases q with
    | nil => simp
    | cons x q => exact absurd (h4 rfl (by simp)) (by simp)

theorem run_cons (s : Sys) (e : Event) (es : List Event) : s.run (e :: es) = (s.step e).run es := rfl

/-- C31.  Whatever lies between the two phases, as long as it turns each datum into one datum — in particular if there
is nothing, or only phases that leave the data alone — and however late it does so, what comes out after the end of
the input is the input with every white space where it was. -/
theorem C31_rerail (g : Datum → Datum) (es : List Event) (inp : List Datum) (hb : ∀ d ∈ inp, IsBytes d)
    (h : WsHistory (fun d => [g d]) [] es inp) :
    (Sys.run {} (es ++ [.flush])).out = inp.map (fun d => if Space d then d else g d) ∧
    (Sys.run {} (es ++ [.flush])).way = [] := by
  have key : ∀ (s : Sys) (way : List Datum) (es : List Event) (inp : List Datum), WsHistory (fun d => [g d]) way es inp →
      (∀ d ∈ inp, IsBytes d) → s.way = way → Good s → s.t.offsetA = s.t.offsetB + way.length →
      (s.run (es ++ [.flush])).out =
        s.out ++ weave g s.t.offsetB way s.t.queue ++ inp.map (fun d => if Space d then d else g d) ∧
      (s.run (es ++ [.flush])).way = [] := by
    intro s way es inp h
    induction h generalizing s with
    | nil =>
      intro _ hw hg _
      rw [List.nil_append, run_cons, flush_eq hg hw]
      simp [Sys.run, weave, hw]
    | @derail way es inp d _ ih =>
      intro hb hw hg ho
      have hd := hb d (by simp)
      have hb' : ∀ x ∈ inp, IsBytes x := fun x hx => hb x (List.mem_cons_of_mem _ hx)
      rw [List.cons_append, run_cons]
      by_cases hs : Space d
      · have e : s.step (.derail d) = { s with t := { s.t with queue := s.t.queue ++ [(d, s.t.offsetA)], last := s.t.queue.length + 1, fMatch := true, fPending := true } } := by
          simp only [Sys.step, derail_space hg.last hd hs]; simp
        obtain ⟨k1, k2⟩ := ih (s.step (.derail d)) hb' (by rw [e, if_pos hs, List.append_nil]; exact hw) (by
          rw [e]
          refine ⟨by simp, ?_, rfl, fun _ _ => rfl⟩
          intro x hx
          simp only [List.mem_append, List.mem_singleton] at hx
          rcases hx with hx | rfl
          · exact hg.small x hx
          · exact Nat.le_refl _) (by rw [e, if_pos hs, List.append_nil]; exact ho)
        refine ⟨?_, k2⟩
        rw [k1, e, if_pos hs, List.append_nil]
        simp only [ho]
        rw [weave_space]
        simp [hs]
      · have e : s.step (.derail d) = { s with t := { s.t with offsetA := s.t.offsetA + 1 }, way := s.way ++ [d] } := by
          simp only [Sys.step, derail_other hd hs]
        obtain ⟨k1, k2⟩ := ih (s.step (.derail d)) hb' (by rw [e, if_neg hs, ← hw]) (by
          rw [e]
          refine ⟨hg.last, ?_, hg.flags, ?_⟩
          · intro x hx; exact Nat.le_succ_of_le (hg.small x hx)
          · intro k; simp at k) (by rw [e, if_neg hs]; simp only [List.length_append, List.length_singleton]; omega)
        refine ⟨?_, k2⟩
        rw [k1, e, if_neg hs]
        simp only
        rw [weave_other g d way _ _ (by intro x hx; have := hg.small x hx; omega)]
        simp [hs]
    | @rerail x way es inp _ ih =>
      intro hb hw hg ho
      rw [List.cons_append, run_cons]
      have e : s.step (.rerail [g x]) = { s with
          t := (rerail s.t (g x)).1, way := way, out := s.out ++ (rerail s.t (g x)).2 } := by
        simp only [Sys.step, rerailAll, hw]; simp
      have he := rerail_eq hg.last (g x)
      obtain ⟨k1, k2⟩ := ih (s.step (.rerail [g x])) hb (by rw [e]) (by
          rw [e, he]
          refine ⟨rfl, ?_, rfl, ?_⟩
          · intro y hy; exact hg.small y (mem_dropWhile (mem_dropWhile hy))
          · intro kw kq
            exfalso
            apply kq
            simp only at kw ⊢
            subst kw
            simp only [List.length_singleton] at ho
            exact (takeDrop_all (by
              intro y hy
              have := hg.small y (mem_dropWhile hy)
              simp; omega)).2) (by rw [e, he]; simp at ho ⊢; omega)
      refine ⟨?_, k2⟩
      rw [k1, e, he]
      simp only [weave]
      rw [weave_split g (s.t.offsetB + 1) way (s.t.queue.dropWhile _)]
      simp only [List.append_assoc, List.cons_append]
    | @flush es inp _ ih =>
      intro hb hw hg ho
      have e := flush_eq hg hw
      rw [List.cons_append, run_cons]
      obtain ⟨k1, k2⟩ := ih (s.step .flush) hb (by rw [e]; exact hw) (by
        rw [e]
        refine ⟨rfl, ?_, rfl, ?_⟩
        · intro x hx; simp at hx
        · intro _ k; simp at k) (by rw [e]; exact ho)
      refine ⟨?_, k2⟩
      rw [k1, e]
      simp [weave]
  have := key {} [] es inp h hb rfl ⟨rfl, by simp [init], rfl, by simp [init]⟩ rfl
  simpa [weave, init] using this

/-- C31, plain form: with nothing in between the input is restored. -/
theorem C31_lossless (es : List Event) (inp : List Datum) (hb : ∀ d ∈ inp, IsBytes d)
    (h : WsHistory (fun d => [d]) [] es inp) : (Sys.run {} (es ++ [.flush])).out = inp := by
  have := (C31_rerail id es inp hb h).1
  simpa using this

/-- A history in which RERAIL lags behind by one datum: A, space, B, tabulator. -/
def lagging : List Event :=
  [.derail [1, 0x41], .derail [1, 0x20], .derail [1, 0x42], .rerail [[1, 0x41]], .derail [1, 0x09], .rerail [[1, 0x42]]]

theorem lagging_history : WsHistory (fun d => [d]) [] lagging [[1, 0x41], [1, 0x20], [1, 0x42], [1, 0x09]] := by
  refine .derail ?_
  rw [show ([] ++ if Space [1, 0x41] then [] else [[1, 0x41]]) = [[1, 0x41]] by decide]
  refine .derail ?_
  rw [show ([[1, 0x41]] ++ if Space [1, 0x20] then [] else [[1, 0x20]]) = [[1, 0x41]] by decide]
  refine .derail ?_
  rw [show ([[1, 0x41]] ++ if Space [1, 0x42] then [] else [[1, 0x42]]) = [[1, 0x41], [1, 0x42]] by decide]
  refine .rerail (.derail ?_)
  rw [show ([[1, 0x42]] ++ if Space [1, 0x09] then [] else [[1, 0x09]]) = [[1, 0x42]] by decide]
  exact .rerail .nil

example : (Sys.run {} (lagging ++ [.flush])).out = [[1, 0x41], [1, 0x20], [1, 0x42], [1, 0x09]] :=
  C31_lossless lagging _ (by decide) lagging_history

/-! ### C66 -/

theorem rerailAll_perm (ds : List Datum) : ∀ (t : Shared), t.last = t.queue.length →
    (rerailAll t ds).1.last = (rerailAll t ds).1.queue.length ∧ (rerailAll t ds).1.offsetA = t.offsetA ∧
    (rerailAll t ds).1.offsetB = t.offsetB + ds.length ∧ (∀ x ∈ (rerailAll t ds).1.queue, x ∈ t.queue) ∧
    (ds ≠ [] → (∀ x ∈ t.queue, x.2 ≤ t.offsetB + ds.length) → (rerailAll t ds).1.queue = []) ∧
    ((rerailAll t ds).1.fMatch = (rerailAll t ds).1.fPending ∨ ds = []) ∧
    ((rerailAll t ds).2 ++ (rerailAll t ds).1.queue.map Prod.fst).Perm (ds ++ t.queue.map Prod.fst) := by
  induction ds with
  | nil => intro t h; simp [rerailAll, h]
  | cons d ds ih =>
    intro t h
    have he := rerail_eq h d
    obtain ⟨a1, a2, a3, a4, a5, a6, a7⟩ := ih (rerail t d).1 (by rw [he])
    simp only [rerailAll]
    refine ⟨a1, by rw [a2, he], by rw [a3, he]; simp; omega, ?_, ?_, .inl ?_, ?_⟩
    · intro x hx
      have := a4 x hx
      rw [he] at this
      exact mem_dropWhile (mem_dropWhile this)
    · intro _ hx
      cases ds with
      | nil =>
        simp only [rerailAll]
        rw [he]
        exact (takeDrop_all (by
          intro y hy
          have := hx y (mem_dropWhile hy)
          simpa using this)).2
      | cons d' ds =>
        refine a5 (by simp) ?_
        rw [he]
        intro y hy
        have := hx y (mem_dropWhile (mem_dropWhile hy))
        simp at this ⊢; omega
    · rcases a6 with a6 | a6
      · exact a6
      · subst a6; rw [rerailAll, he]
    · rw [List.append_assoc]
      refine (List.Perm.append_left _ a7).trans ?_
      rw [he]
      simp only
      have e1 := List.takeWhile_append_dropWhile (p := fun x : Datum × Nat => decide (x.2 ≤ t.offsetB)) (l := t.queue)
      have e2 := List.takeWhile_append_dropWhile (p := fun x : Datum × Nat => decide (x.2 ≤ t.offsetB + 1)) (l := t.queue.dropWhile (fun x => decide (x.2 ≤ t.offsetB)))
      generalize t.queue.takeWhile (fun x => decide (x.2 ≤ t.offsetB)) = A at e1 ⊢
      generalize t.queue.dropWhile (fun x => decide (x.2 ≤ t.offsetB)) = B at e1 e2 ⊢
      generalize B.takeWhile (fun x => decide (x.2 ≤ t.offsetB + 1)) = C at e2 ⊢
      generalize B.dropWhile (fun x => decide (x.2 ≤ t.offsetB + 1)) = D at e2 ⊢
      subst e2
      rw [← e1]
      simp only [List.map_append, List.append_assoc, List.cons_append]
      generalize A.map Prod.fst = a
      generalize C.map Prod.fst = c
      generalize D.map Prod.fst = e
      refine List.perm_middle.trans (List.Perm.cons _ ?_)
      rw [← List.append_assoc c, ← List.append_assoc a, ← List.append_assoc ds, ← List.append_assoc]
      have h1 : (a ++ (c ++ ds)).Perm (ds ++ (a ++ c)) := by
        rw [← List.append_assoc]; exact List.perm_append_comm
      have := List.Perm.append_right e h1
      simpa only [List.append_assoc] using this

/-- C66, for phases in between that never throw a datum away: nothing is lost, neither a white space nor anything the
phases in between made of the other data. -/
theorem C66_kept_partial (f : Datum → List Datum) (hf : ∀ d, f d ≠ []) (es : List Event) (inp : List Datum)
    (hb : ∀ d ∈ inp, IsBytes d) (h : WsHistory f [] es inp) :
    (Sys.run {} (es ++ [.flush])).out.Perm (inp.flatMap fun d => if Space d then [d] else f d) := by
  have key : ∀ (s : Sys) (way : List Datum) (es : List Event) (inp : List Datum), WsHistory f way es inp →
      (∀ d ∈ inp, IsBytes d) → s.way = way → Good s → s.t.offsetA ≤ s.t.offsetB + way.length →
      (s.run (es ++ [.flush])).out.Perm
        (s.out ++ (s.t.queue.map Prod.fst ++ (way.flatMap f ++ inp.flatMap fun d => if Space d then [d] else f d))) := by
    intro s way es inp h
    induction h generalizing s with
    | nil =>
      intro _ hw hg _
      rw [List.nil_append, run_cons, flush_eq hg hw]
      simp [Sys.run]
    | @derail way es inp d _ ih =>
      intro hb hw hg ho
      have hd := hb d (by simp)
      have hb' : ∀ x ∈ inp, IsBytes x := fun x hx => hb x (List.mem_cons_of_mem _ hx)
      rw [List.cons_append, run_cons]
      by_cases hs : Space d
      · have e : s.step (.derail d) = { s with t := { s.t with queue := s.t.queue ++ [(d, s.t.offsetA)], last := s.t.queue.length + 1, fMatch := true, fPending := true } } := by
          simp only [Sys.step, derail_space hg.last hd hs]; simp
        have k1 := ih (s.step (.derail d)) hb' (by rw [e, if_pos hs, List.append_nil]; exact hw) (by
          rw [e]
          refine ⟨by simp, ?_, rfl, fun _ _ => rfl⟩
          intro x hx
          simp only [List.mem_append, List.mem_singleton] at hx
          rcases hx with hx | rfl
          · exact hg.small x hx
          · exact Nat.le_refl _) (by rw [e, if_pos hs, List.append_nil]; exact ho)
        refine k1.trans ?_
        rw [e, if_pos hs, List.append_nil]
        simp only [List.flatMap_cons, if_pos hs, List.map_append, List.map_cons, List.map_nil]
        refine List.Perm.append_left _ ?_
        rw [List.append_assoc]
        refine List.Perm.append_left _ ?_
        rw [← List.append_assoc, ← List.append_assoc]
        exact List.Perm.append_right _ List.perm_append_comm
      · have e : s.step (.derail d) = { s with t := { s.t with offsetA := s.t.offsetA + 1 }, way := s.way ++ [d] } := by
          simp only [Sys.step, derail_other hd hs]
        have k1 := ih (s.step (.derail d)) hb' (by rw [e, if_neg hs, ← hw]) (by
          rw [e]
          refine ⟨hg.last, ?_, hg.flags, ?_⟩
          · intro x hx; exact Nat.le_succ_of_le (hg.small x hx)
          · intro k; simp at k) (by rw [e, if_neg hs]; simp only [List.length_append, List.length_singleton]; omega)
        refine k1.trans ?_
        rw [e, if_neg hs]
        simp [hs]
    | @rerail x way es inp _ ih =>
      intro hb hw hg ho
      rw [List.cons_append, run_cons]
      have e : s.step (.rerail (f x)) = { s with
          t := (rerailAll s.t (f x)).1, way := way, out := s.out ++ (rerailAll s.t (f x)).2 } := by
        simp only [Sys.step, hw]; simp
      obtain ⟨a1, a2, a3, a4, a5, a6, a7⟩ := rerailAll_perm (f x) s.t hg.last
      have hl : 0 < (f x).length := List.length_pos_iff.2 (hf x)
      have k1 := ih (s.step (.rerail (f x))) hb (by rw [e]) (by
          rw [e]
          refine ⟨a1, ?_, ?_, ?_⟩
          · intro y hy
            simp only at hy ⊢
            rw [a2]; exact hg.small y (a4 y hy)
          · rcases a6 with a6 | a6
            · exact a6
            · exact absurd a6 (hf x)
          · intro kw kq
            exfalso
            apply kq
            simp only at kw ⊢
            subst kw
            refine a5 (hf x) ?_
            intro y hy
            have := hg.small y hy
            simp only [List.length_singleton] at ho
            omega) (by rw [e]; simp only [a2, a3, List.length_cons] at ho ⊢; omega)
      refine k1.trans ?_
      rw [e]
      simp only [List.flatMap_cons, List.append_assoc]
      refine List.Perm.append_left _ ?_
      have h1 := List.Perm.append_right (way.flatMap f ++ inp.flatMap fun d => if Space d then [d] else f d) (a7.trans List.perm_append_comm)
      simpa only [List.append_assoc] using h1
    | @flush es inp _ ih =>
      intro hb hw hg ho
      have e := flush_eq hg hw
      rw [List.cons_append, run_cons]
      have k1 := ih (s.step .flush) hb (by rw [e]; exact hw) (by
        rw [e]
        refine ⟨rfl, ?_, rfl, ?_⟩
        · intro x hx; simp at hx
        · intro _ k; simp at k) (by rw [e]; exact ho)
      refine k1.trans ?_
      rw [e]
      simp
  have := key {} [] es inp h hb rfl ⟨rfl, by simp [init], rfl, by simp [init]⟩ (by simp [init])
  simpa [init] using this

/-- C66 is false in general: when the phases in between throw two data away, a space that follows them is set aside and
never put out, because the engine clears the flags RERAIL sets in its `cbconv`
(/repo/modules/inter/WHITESPACE-RERAIL.c:100-105, /repo/src/libbsdconv.c:834-842). -/
theorem C66_violated :
    ∃ (f : Datum → List Datum) (es : List Event),
      WsHistory f [] es [[1, 0x41], [1, 0x41], [1, 0x20], [1, 0x42]] ∧
      (Sys.run {} (es ++ [.flush])).out = [[1, 0x42]] := by
  refine ⟨fun d => if d = [1, 0x41] then [] else [d],
    [.derail [1, 0x41], .rerail [], .derail [1, 0x41], .rerail [], .derail [1, 0x20], .derail [1, 0x42], .rerail [[1, 0x42]]], ?_, by decide⟩
  refine .derail ?_
  rw [show ([] ++ if Space [1, 0x41] then [] else [[1, 0x41]]) = [[1, 0x41]] by decide]
  refine .rerail (.derail ?_)
  rw [show ([] ++ if Space [1, 0x41] then [] else [[1, 0x41]]) = [[1, 0x41]] by decide]
  refine .rerail (.derail ?_)
  rw [show ([] ++ if Space [1, 0x20] then [] else [[1, 0x20]]) = [] by decide]
  refine .derail ?_
  rw [show ([] ++ if Space [1, 0x42] then [] else [[1, 0x42]]) = [[1, 0x42]] by decide]
  exact .rerail .nil

/-- Non-vacuity of `C66_kept_partial`: a phase in between that doubles every datum. -/
example : (Sys.run {} ([.derail [1, 0x41], .derail [1, 0x20], .rerail [[1, 0x41], [1, 0x41]], .derail [1, 0x09]] ++ [.flush])).out.Perm
    [[1, 0x41], [1, 0x41], [1, 0x20], [1, 0x09]] := by
  refine C66_kept_partial (fun d => [d, d]) (by simp) _ [[1, 0x41], [1, 0x20], [1, 0x09]] (by decide) (.derail ?_)
  rw [show ([] ++ if Space [1, 0x41] then [] else [[1, 0x41]]) = [[1, 0x41]] by decide]
  refine .derail ?_
  rw [show ([[1, 0x41]] ++ if Space [1, 0x20] then [] else [[1, 0x20]]) = [[1, 0x41]] by decide]
  refine .rerail (.derail ?_)
  rw [show ([] ++ if Space [1, 0x09] then [] else [[1, 0x09]]) = [] by decide]
  exact .nil

end Verif.Props
