import Verif.Model.Man
import Verif.Model.ManPages
import Verif.Props.Load

/-! C95: bsdconv-man. -/

namespace Verif.Props
open Verif.Spec
open Verif.Man
open Verif.Solve (lit)

theorem slash_unique {p c p' c' : List Nat} (h : 47 ∉ p) (h' : 47 ∉ p') (e : p ++ 47 :: c = p' ++ 47 :: c') : p = p' ∧ c = c' := by
  induction p generalizing p' with
  | nil =>
    cases p' with
    | nil => simpa using e
    | cons b p' => simp at e; exact absurd (by simp [← e.1]) h'
  | cons a p ih =>
    cases p' with
    | nil => simp at e; exact absurd (by simp [e.1]) h
    | cons b p' =>
      simp only [List.cons_append, List.cons.injEq] at e
      obtain ⟨i1, i2⟩ := ih (by intro k; exact h (by simp [k])) (by intro k; exact h' (by simp [k])) e.2
      exact ⟨by rw [e.1, i1], i2⟩

theorem slash_cut {pc : List Nat} (h : 47 ∈ pc) : ∃ p c, 47 ∉ p ∧ pc = p ++ 47 :: c := by
  induction pc with
  | nil => simp at h
  | cons b pc ih =>
    by_cases hb : b = 47
    · exact ⟨[], pc, by simp, by rw [hb]; rfl⟩
    · obtain ⟨p, c, h1, rfl⟩ := ih (by simpa [Ne.symm hb] using h)
      exact ⟨b :: p, c, by simpa [Ne.symm hb] using h1, rfl⟩

/-- What `man` does with a phase type, by cases. -/
theorem man_cases {W : World} {ph c : List Nat} (hp : 47 ∉ ph) {o : Outcome} :
    Man W (ph ++ 47 :: c) o ↔ match dirOf (upperBytes ph) with
      | none => o = .badFree
      | some d => match W.page d (upperBytes c) with
        | some f => match scan (lit ".redirect") f with
          | .word w => if w.length < bufsiz then Man W w o else o = .overrun
          | .ended => o = .unset
          | .mismatch => o = .shown (header (upperBytes ph) (upperBytes c) ++ f)
        | none => match W.look d (upperBytes c) with
          | some a => o = .shown (header (upperBytes ph) (upperBytes c) ++ lit "Alias to " ++ a ++ lit "\n")
          | none => o = .shown (if W.check d (upperBytes c) then lit "No man page for such codec\n" else lit "No such codec\n") := by
  constructor
  · intro h
    generalize hg : ph ++ 47 :: c = pc at h
    cases h with
    | noSlash k => exact absurd (by rw [← hg]; simp) k
    | badType k1 k2 => obtain ⟨rfl, rfl⟩ := slash_unique hp k1 hg; simp [k2]
    | redirect k1 k2 k3 k4 k5 k6 => obtain ⟨rfl, rfl⟩ := slash_unique hp k1 hg; simp [k2, k3, k4, k5, k6]
    | tooLong k1 k2 k3 k4 k5 => obtain ⟨rfl, rfl⟩ := slash_unique hp k1 hg; simp [k2, k3, k4, Nat.not_lt.2 k5]
    | ended k1 k2 k3 k4 => obtain ⟨rfl, rfl⟩ := slash_unique hp k1 hg; simp [k2, k3, k4]
    | page k1 k2 k3 k4 => obtain ⟨rfl, rfl⟩ := slash_unique hp k1 hg; simp [k2, k3, k4]
    | alias k1 k2 k3 k4 => obtain ⟨rfl, rfl⟩ := slash_unique hp k1 hg; simp [k2, k3, k4]
    | noPage k1 k2 k3 k4 k5 => obtain ⟨rfl, rfl⟩ := slash_unique hp k1 hg; simp [k2, k3, k4, k5]
    | noCodec k1 k2 k3 k4 k5 => obtain ⟨rfl, rfl⟩ := slash_unique hp k1 hg; simp [k2, k3, k4, k5]
  · intro h
    cases hd : dirOf (upperBytes ph) with
    | none => rw [hd] at h; subst h; exact .badType hp hd
    | some d =>
      rw [hd] at h
      simp only at h
      cases hf : W.page d (upperBytes c) with
      | some f =>
        rw [hf] at h
        simp only at h
        cases hs : scan (lit ".redirect") f with
        | word w =>
          rw [hs] at h
          simp only at h
          split at h
          · exact .redirect hp hd hf hs (by assumption) h
          · subst h; exact .tooLong hp hd hf hs (by omega)
        | ended => rw [hs] at h; subst h; exact .ended hp hd hf hs
        | mismatch => rw [hs] at h; subst h; exact .page hp hd hf hs
      | none =>
        rw [hf] at h
        simp only at h
        cases ha : W.look d (upperBytes c) with
        | some a => rw [ha] at h; subst h; exact .alias hp hd hf ha
        | none =>
          rw [ha] at h
          simp only at h
          subst h
          cases hc : W.check d (upperBytes c) with
          | true => exact .noPage hp hd hf ha hc
          | false => exact .noCodec hp hd hf ha hc

theorem man_unique {W : World} {pc : List Nat} {o : Outcome} (h : Man W pc o) : ∀ o', Man W pc o' → o' = o := by
  induction h with
  | noSlash k =>
    intro o' h'
    cases h' with
    | noSlash => rfl
    | _ => simp at k
  | redirect k1 k2 k3 k4 k5 _ ih => intro o' h'; rw [man_cases k1] at h'; simp [k2, k3, k4, k5] at h'; exact ih o' h'
  | badType k1 k2 => intro o' h'; rw [man_cases k1] at h'; simpa [k2] using h'
  | tooLong k1 k2 k3 k4 k5 => intro o' h'; rw [man_cases k1] at h'; simpa [k2, k3, k4, Nat.not_lt.2 k5] using h'
  | ended k1 k2 k3 k4 => intro o' h'; rw [man_cases k1] at h'; simpa [k2, k3, k4] using h'
  | page k1 k2 k3 k4 => intro o' h'; rw [man_cases k1] at h'; simpa [k2, k3, k4] using h'
  | alias k1 k2 k3 k4 => intro o' h'; rw [man_cases k1] at h'; simpa [k2, k3, k4] using h'
  | noPage k1 k2 k3 k4 k5 => intro o' h'; rw [man_cases k1] at h'; simpa [k2, k3, k4, k5] using h'
  | noCodec k1 k2 k3 k4 k5 => intro o' h'; rw [man_cases k1] at h'; simpa [k2, k3, k4, k5] using h'

/-- A page that does not begin with a point is no redirection. -/
theorem scan_page {b : Nat} {s : List Nat} (h : b ≠ 46) : scan (lit ".redirect") (b :: s) = .mismatch := by
  show scan (46 :: _) (b :: s) = _
  simp [scan, Ne.symm h]

/-- A redirection. -/
theorem scan_redirect {w : List Nat} (hw : w ≠ []) (hs : ∀ b ∈ w, space b = false) : scan (lit ".redirect") (lit ".redirect " ++ w ++ [10]) = .word w := by
  cases w with
  | nil => exact absurd rfl hw
  | cons b w =>
    have hb := hs b (by simp)
    have : scan (lit ".redirect") (lit ".redirect " ++ (b :: w) ++ [10]) = scan [] (32 :: (b :: w) ++ [10]) := by rfl
    rw [this]
    have e1 : (32 :: (b :: w) ++ [10]).dropWhile space = (b :: w) ++ [10] := by
      simp [List.dropWhile, hb, show space 32 = true by decide]
    unfold scan
    rw [e1]
    simp only [List.cons_append]
    congr 1
    have : (b :: (w ++ [10])).takeWhile (fun x => !space x) = b :: w := by
      rw [← List.cons_append, List.takeWhile_append_of_pos (by intro x hx; simp [hs x hx])]
      simp [show space 10 = true by decide]
    exact this

/-- Tab, line feed, vertical tab, form feed, carriage return, space. -/
def whites : List Nat := [9, 10, 11, 12, 13, 32]

theorem space_whites (b : Nat) : space b = true ↔ b ∈ whites := by
  simp only [space, whites, Bool.or_eq_true, Bool.and_eq_true, decide_eq_true_eq, beq_iff_eq, List.mem_cons, List.not_mem_nil, or_false]
  omega

/-- A redirection, with any white space. -/
theorem scan_redirect_any {v w u : List Nat} (hv : ∀ b ∈ v, b ∈ whites) (hw : w ≠ []) (hs : ∀ b ∈ w, b ∉ whites) (hu : ∀ b ∈ u.head?, b ∈ whites) :
    scan (lit ".redirect") (lit ".redirect" ++ v ++ w ++ u) = .word w := by
  have e0 : scan (lit ".redirect") (lit ".redirect" ++ v ++ w ++ u) = scan [] (v ++ (w ++ u)) := by
    rw [List.append_assoc, List.append_assoc]; rfl
  have hs' : ∀ b ∈ w, space b = false := fun b hb => by
    rw [← Bool.not_eq_true, space_whites]; exact hs b hb
  have e1 : ∀ (v : List Nat), (∀ b ∈ v, b ∈ whites) → (v ++ (w ++ u)).dropWhile space = w ++ u := by
    intro v
    induction v with
    | nil =>
      intro _
      cases w with
      | nil => exact absurd rfl hw
      | cons b w => simp [List.dropWhile, hs' b (by simp)]
    | cons b v ih =>
      intro h
      rw [List.cons_append, List.dropWhile_cons, if_pos ((space_whites b).2 (h b (by simp)))]
      exact ih fun x hx => h x (by simp [hx])
  have e2 : (w ++ u).takeWhile (fun x => !space x) = w := by
    rw [List.takeWhile_append_of_pos (by intro x hx; simp [hs' x hx])]
    cases u with
    | nil => simp
    | cons b u => simp [(space_whites b).2 (hu b (by simp))]
  rw [e0, scan, e1 v hv]
  cases w with
  | nil => exact absurd rfl hw
  | cons b w => simp only [List.cons_append] at e2 ⊢; rw [e2]

/-- The names of the phase types, in any mixture of cases. -/
def PhaseName (ph : List Nat) (d : String) : Prop := (upperBytes ph, d) ∈ [(lit "FROM", "from"), (lit "INTER", "inter"), (lit "TO", "to"), (lit "FILTER", "filter")]

instance (ph : List Nat) (d : String) : Decidable (PhaseName ph d) := by unfold PhaseName; infer_instance

theorem phase_dir {ph : List Nat} {d : String} : PhaseName ph d ↔ dirOf (upperBytes ph) = some d := by
  have n1 : lit "FROM" ≠ lit "INTER" := by decide
  have n2 : lit "FROM" ≠ lit "TO" := by decide
  have n3 : lit "FROM" ≠ lit "FILTER" := by decide
  have n4 : lit "INTER" ≠ lit "TO" := by decide
  have n5 : lit "INTER" ≠ lit "FILTER" := by decide
  have n6 : lit "TO" ≠ lit "FILTER" := by decide
  unfold PhaseName dirOf
  simp only [List.mem_cons, List.not_mem_nil, or_false, Prod.mk.injEq]
  constructor
  · rintro (⟨e, rfl⟩ | ⟨e, rfl⟩ | ⟨e, rfl⟩ | ⟨e, rfl⟩) <;> rw [e] <;> simp [n1.symm, n2.symm, n3.symm, n4.symm, n5.symm, n6.symm]
  · intro h
    split at h
    · simp at h; exact .inl ⟨by assumption, h.symm⟩
    · split at h
      · simp at h; exact .inr (.inl ⟨by assumption, h.symm⟩)
      · split at h
        · simp at h; exact .inr (.inr (.inl ⟨by assumption, h.symm⟩))
        · split at h
          · simp at h; exact .inr (.inr (.inr ⟨by assumption, h.symm⟩))
          · simp at h

theorem phase_slash {ph : List Nat} {d : String} (h : PhaseName ph d) : 47 ∉ ph := by
  intro hm
  have : 47 ∈ upperBytes ph := List.mem_map.2 ⟨47, hm, by decide⟩
  unfold PhaseName at h
  simp only [List.mem_cons, List.not_mem_nil, or_false, Prod.mk.injEq] at h
  rcases h with ⟨e, _⟩ | ⟨e, _⟩ | ⟨e, _⟩ | ⟨e, _⟩ <;> rw [e] at this <;> revert this <;> decide

/-- C95.  A codec with a page (that is not empty and does not begin with a point): exactly its name and the page are shown, whatever the cases typed. -/
theorem C95_page (W : World) {ph c : List Nat} {d : String} (hp : PhaseName ph d) {b : Nat} {s : List Nat} (hb : b ≠ 46) (hf : W.page d (upperBytes c) = some (b :: s)) (o : Outcome) :
    Man W (ph ++ 47 :: c) o ↔ o = .shown (upperBytes ph ++ lit "/" ++ upperBytes c ++ lit ":\n" ++ b :: s) := by
  rw [man_cases (phase_slash hp), phase_dir.1 hp]
  simp only [hf, scan_page hb]
  rfl

/-- C95.  A page `.redirect W` is as good as the page of W. -/
theorem C95_redirect (W : World) {ph c w : List Nat} {d : String} (hp : PhaseName ph d) (hw : w ≠ []) (hs : ∀ b ∈ w, space b = false) (hlen : w.length < 8192)
    (hf : W.page d (upperBytes c) = some (lit ".redirect " ++ w ++ [10])) (o : Outcome) : Man W (ph ++ 47 :: c) o ↔ Man W w o := by
  rw [man_cases (phase_slash hp), phase_dir.1 hp]
  simp only [hf, scan_redirect hw hs]
  rw [if_pos (show w.length < bufsiz from hlen)]

/-- C95.  The same whatever white space is in front of W, and behind it if anything is. -/
theorem C95_redirect_any (W : World) {ph c v w u : List Nat} {d : String} (hp : PhaseName ph d) (hv : ∀ b ∈ v, b ∈ whites) (hw : w ≠ []) (hs : ∀ b ∈ w, b ∉ whites)
    (hu : ∀ b ∈ u.head?, b ∈ whites) (hlen : w.length < 8192) (hf : W.page d (upperBytes c) = some (lit ".redirect" ++ v ++ w ++ u)) (o : Outcome) :
    Man W (ph ++ 47 :: c) o ↔ Man W w o := by
  rw [man_cases (phase_slash hp), phase_dir.1 hp]
  simp only [hf, scan_redirect_any hv hw hs hu]
  rw [if_pos (show w.length < bufsiz from hlen)]

/-- C95.  A codec without a page: its definition if it is an alias; else whether there is such a codec. -/
theorem C95_without (W : World) {ph c : List Nat} {d : String} (hp : PhaseName ph d) (hf : W.page d (upperBytes c) = none) (o : Outcome) :
    Man W (ph ++ 47 :: c) o ↔ o = .shown (match W.look d (upperBytes c) with
      | some a => upperBytes ph ++ lit "/" ++ upperBytes c ++ lit ":\n" ++ lit "Alias to " ++ a ++ lit "\n"
      | none => if W.check d (upperBytes c) then lit "No man page for such codec\n" else lit "No such codec\n") := by
  rw [man_cases (phase_slash hp), phase_dir.1 hp]
  simp only [hf]
  split <;> rfl

/-- The pages of the distribution: redirections as they are, the others any text that does not begin with a point. -/
def ShippedPages (W : World) : Prop := ∀ d c, match manPages.find? (fun r => r.1 == d && lit r.2.1 == c) with
  | some (_, _, some w) => W.page d c = some (lit ".redirect " ++ lit w ++ [10])
  | some (_, _, none) => ∃ b s, b ≠ 46 ∧ W.page d c = some (b :: s)
  | none => W.page d c = none

/-- A redirection of the distribution leads to a page that is none. -/
def redirectOk (r : String × String × Option String) : Bool := match r.2.2 with
  | none => true
  | some w => decide ((lit w).length < 8192) && decide (lit w ≠ []) && (lit w).all (fun b => !space b) && manPages.any fun r' =>
      (["from", "FROM", "to", "inter"].any fun p => decide (lit w = lit p ++ 47 :: lit r'.2.1) && decide (PhaseName (lit p) r'.1) && decide (upperBytes (lit r'.2.1) = lit r'.2.1) && r'.2.2.isNone) &&
      decide (manPages.find? (fun x => x.1 == r'.1 && lit x.2.1 == lit r'.2.1) = some r')

theorem redirects_ok : manPages.all redirectOk = true := by decide +kernel

/-- C95.  With the pages of the distribution, for every argument and every set of codecs and aliases: the program returns, in one way; and for every codec with a page, of whatever
phase type, a page is shown. -/
theorem C95_shipped (W : World) (h : ShippedPages W) (pc : List Nat) :
    (∃ o, Man W pc o ∧ ∀ o', Man W pc o' → o' = o) ∧
    ∀ ph c d, PhaseName ph d → pc = ph ++ 47 :: c → W.page d (upperBytes c) ≠ none → ∃ d' c' f t, W.page d' c' = some f ∧ Man W pc (.shown (t ++ f)) := by
  -- a page that is no redirection
  have last : ∀ {ph c d}, PhaseName ph d → (∃ b s, b ≠ 46 ∧ W.page d (upperBytes c) = some (b :: s)) → ∃ f t, W.page d (upperBytes c) = some f ∧ Man W (ph ++ 47 :: c) (.shown (t ++ f)) := by
    rintro ph c d hp ⟨b, s, hb, hf⟩
    exact ⟨b :: s, _, hf, (C95_page W hp hb hf _).2 rfl⟩
  have page : ∀ {ph c d}, PhaseName ph d → W.page d (upperBytes c) ≠ none → ∃ d' c' f t, W.page d' c' = some f ∧ Man W (ph ++ 47 :: c) (.shown (t ++ f)) := by
    intro ph c d hp hne
    have hh := h d (upperBytes c)
    cases hfi : manPages.find? (fun r => r.1 == d && lit r.2.1 == upperBytes c) with
    | none => rw [hfi] at hh; exact absurd hh hne
    | some r =>
      rw [hfi] at hh
      obtain ⟨r1, r2, r3⟩ := r
      cases r3 with
      | none =>
        obtain ⟨f, t, h1, h2⟩ := last hp hh
        exact ⟨_, _, f, t, h1, h2⟩
      | some w =>
        have hg := List.all_eq_true.1 redirects_ok _ (List.mem_of_find?_eq_some hfi)
        simp only [redirectOk, Bool.and_eq_true, decide_eq_true_eq, List.any_eq_true, List.all_eq_true] at hg
        obtain ⟨⟨⟨g1, g2⟩, g3⟩, r', g4, ⟨p, g5, ⟨⟨⟨g6, g7⟩, g8⟩, g9⟩⟩, g10⟩ := hg
        have hr := h r'.1 (lit r'.2.1)
        rw [g10] at hr
        obtain ⟨a1, a2, a3⟩ := r'
        simp only [Option.isNone_iff_eq_none] at g9
        subst g9
        obtain ⟨f, t, h1, h2⟩ := last (ph := lit p) (c := lit a2) (d := a1) g7 (by rw [g8]; exact hr)
        refine ⟨_, _, f, t, h1, ?_⟩
        rw [C95_redirect W hp g2 (by intro b hb; simpa using g3 b hb) g1 hh, g6]
        exact h2
  refine ⟨?_, ?_⟩
  · have : ∃ o, Man W pc o := by
      by_cases hs : 47 ∈ pc
      · obtain ⟨ph, c, h1, rfl⟩ := slash_cut hs
        cases hd : dirOf (upperBytes ph) with
        | none => exact ⟨_, .badType h1 hd⟩
        | some d =>
          have hp := phase_dir.2 hd
          cases hf : W.page d (upperBytes c) with
          | none => exact ⟨_, (C95_without W hp hf _).2 rfl⟩
          | some f =>
            obtain ⟨_, _, f', t, _, h2⟩ := page hp (c := c) (by rw [hf]; simp)
            exact ⟨_, h2⟩
      · exact ⟨_, .noSlash hs⟩
    obtain ⟨o, ho⟩ := this
    exact ⟨o, ho, man_unique ho⟩
  · rintro ph c d hp rfl hne
    exact page hp hne

/-- C95 is false of the code for every other phase type: a pointer into the middle of a block is given to `free`, where the usage should be printed. -/
theorem C95_type_violated (W : World) {ph c : List Nat} (hp : 47 ∉ ph) (hn : ∀ d, ¬ PhaseName ph d) (o : Outcome) : Man W (ph ++ 47 :: c) o ↔ o = .badFree := by
  have : dirOf (upperBytes ph) = none := by
    cases h : dirOf (upperBytes ph) with
    | none => rfl
    | some d => exact absurd (phase_dir.2 h) (hn d)
  rw [man_cases hp, this]

/-- C95 is false of the code for empty pages: a buffer that was never set is taken for the name of another page. -/
theorem C95_empty_violated (W : World) {ph c : List Nat} {d : String} (hp : PhaseName ph d) (hf : W.page d (upperBytes c) = some []) (o : Outcome) :
    Man W (ph ++ 47 :: c) o ↔ o = .unset := by
  rw [man_cases (phase_slash hp), phase_dir.1 hp]
  simp only [hf]
  rfl

/-- C95 is false of the code for long redirections: the buffer is overrun. -/
theorem C95_long_violated (W : World) {ph c w : List Nat} {d : String} (hp : PhaseName ph d) (hs : ∀ b ∈ w, space b = false) (hlen : 8192 ≤ w.length)
    (hf : W.page d (upperBytes c) = some (lit ".redirect " ++ w ++ [10])) (o : Outcome) : Man W (ph ++ 47 :: c) o ↔ o = .overrun := by
  have hw : w ≠ [] := by rintro rfl; simp at hlen
  rw [man_cases (phase_slash hp), phase_dir.1 hp]
  simp only [hf, scan_redirect hw hs]
  rw [if_neg (by simpa [bufsiz] using hlen)]

/-- C95 is false of the code for pages that redirect to themselves, or to each other: the program does not return. -/
theorem C95_cycle_violated (W : World) (S : List Nat → Prop)
    (hS : ∀ pc, S pc → ∃ ph c d w, pc = ph ++ 47 :: c ∧ PhaseName ph d ∧ W.page d (upperBytes c) = some (lit ".redirect " ++ w ++ [10]) ∧ w ≠ [] ∧ (∀ b ∈ w, space b = false) ∧
      w.length < 8192 ∧ S w) (pc : List Nat) (h : S pc) (o : Outcome) : ¬ Man W pc o := by
  intro hm
  have key : ∀ {ph c : List Nat}, 47 ∉ ph → S (ph ++ 47 :: c) → ∃ d w, dirOf (upperBytes ph) = some d ∧ (∀ f, W.page d (upperBytes c) = some f → scan (lit ".redirect") f = .word w) ∧
      W.page d (upperBytes c) ≠ none ∧ w.length < 8192 ∧ S w := by
    intro ph c k1 hs
    obtain ⟨ph', c', d, w, e, g1, g2, g3, g4, g6, g5⟩ := hS _ hs
    obtain ⟨rfl, rfl⟩ := slash_unique k1 (phase_slash g1) e
    refine ⟨d, w, phase_dir.1 g1, ?_, by rw [g2]; simp, g6, g5⟩
    intro f hf
    rw [g2] at hf
    cases hf
    exact scan_redirect g3 g4
  induction hm with
  | noSlash k =>
    obtain ⟨ph', c', d, w, e, _⟩ := hS _ h
    exact k (by rw [e]; simp)
  | redirect k1 k2 k3 k4 _ _ ih =>
    obtain ⟨d, w, g1, g2, g3, g4, g5⟩ := key k1 h
    rw [g1] at k2; cases k2
    rw [g2 _ k3] at k4; cases k4
    exact ih g5
  | badType k1 k2 =>
    obtain ⟨d, w, g1, _⟩ := key k1 h
    rw [g1] at k2; cases k2
  | tooLong k1 k2 k3 k4 k5 =>
    obtain ⟨d, w, g1, g2, g3, g4, g5⟩ := key k1 h
    rw [g1] at k2; cases k2
    rw [g2 _ k3] at k4; cases k4
    have : bufsiz = 8192 := rfl
    omega
  | ended k1 k2 k3 k4 =>
    obtain ⟨d, w, g1, g2, g3, g4, g5⟩ := key k1 h
    rw [g1] at k2; cases k2
    rw [g2 _ k3] at k4; cases k4
  | page k1 k2 k3 k4 =>
    obtain ⟨d, w, g1, g2, g3, g4, g5⟩ := key k1 h
    rw [g1] at k2; cases k2
    rw [g2 _ k3] at k4; cases k4
  | alias k1 k2 k3 _ =>
    obtain ⟨d, w, g1, g2, g3, g4, g5⟩ := key k1 h
    rw [g1] at k2; cases k2
    exact g3 k3
  | noPage k1 k2 k3 _ _ =>
    obtain ⟨d, w, g1, g2, g3, g4, g5⟩ := key k1 h
    rw [g1] at k2; cases k2
    exact g3 k3
  | noCodec k1 k2 k3 _ _ =>
    obtain ⟨d, w, g1, g2, g3, g4, g5⟩ := key k1 h
    rw [g1] at k2; cases k2
    exact g3 k3

/-- A world with the pages of the distribution, `x` standing for the texts. -/
def shippedWorld : World where
  page := fun d c => match manPages.find? (fun r => r.1 == d && lit r.2.1 == c) with
    | some (_, _, some w) => some (lit ".redirect " ++ lit w ++ [10])
    | some (_, _, none) => some (lit "x\n")
    | none => none
  look := fun _ _ => none
  check := fun _ _ => true

theorem shippedWorld_pages : ShippedPages shippedWorld := by
  intro d c
  simp only [shippedWorld]
  split
  · rfl
  · exact ⟨120, [10], by decide, rfl⟩
  · rfl

/-- `bsdconv-man to utf-16le` shows the page of FROM/UTF-16BE. -/
example : argument [lit "to", lit "utf-16le"] = some (lit "to/utf-16le") ∧ Man shippedWorld (lit "to/utf-16le") (.shown (lit "FROM/UTF-16BE:\nx\n")) := by
  refine ⟨rfl, ?_⟩
  refine Man.redirect (ph := lit "to") (c := lit "utf-16le") (w := lit "from/UTF-16BE") (d := "to") (f := lit ".redirect from/UTF-16BE\n") (by decide) (by decide) (by decide +kernel) (by rfl) (by decide) ?_
  exact Man.page (ph := lit "from") (c := lit "UTF-16BE") (d := "from") (f := lit "x\n") (by decide) (by decide) (by decide +kernel) (by rfl)

/-- One that redirects to itself. -/
example (o : Outcome) : ¬ Man { page := fun _ _ => some (lit ".redirect " ++ lit "from/A" ++ [10]), look := fun _ _ => none, check := fun _ _ => false } (lit "from/A") o := by
  refine C95_cycle_violated _ (fun pc => pc = lit "from/A") ?_ _ rfl o
  rintro _ rfl
  exact ⟨lit "from", lit "A", "from", lit "from/A", rfl, by decide, rfl, by decide, by decide, by decide, rfl⟩

end Verif.Props
