import Verif.Model.Score
import Verif.Props.Inter
import Verif.Props.Html
/-
C88: training and using a score file.
-/
namespace Verif.Props
open Verif.Spec
open Verif.Engine hiding Datum step
open Verif.Inter (plain)
open Verif.Score

variable {π : Type}

theorem ucsOf_value (bs : List Nat) (hb : IsBytes bs) : ucsOf bs = (bs.foldl (fun n b => n * 256 + b) 0) % 2 ^ 32 := by
  have := ucs_beNat bs hb
  unfold Range.ucs at this
  unfold ucsOf
  rw [this]
  rfl

theorem score_write (file : List Nat) (n v m : Nat) : scoreOf (writeAt file n v) m = if m = n then v else scoreOf file m := by
  unfold scoreOf writeAt
  split
  · rename_i h
    simp only [List.getD_eq_getElem?_getD, List.getElem?_set]
    by_cases hm : n = m
    · subst hm; simp [h]
    · have : m ≠ n := fun e => hm e.symm
      simp [hm, this]
  · rename_i h
    simp only [List.getD_eq_getElem?_getD]
    by_cases hm : m = n
    · subst hm
      rw [List.getElem?_append_right (by simp; omega)]
      simp [show m - (file.length + (m - file.length)) = 0 by omega]
    · rw [if_neg hm]
      by_cases h1 : m < file.length
      · rw [List.getElem?_append_left (by simp; omega), List.getElem?_append_left h1]
      · rw [List.getElem?_eq_none (l := file) (by omega)]
        by_cases h2 : m < n
        · rw [List.getElem?_append_left (by simp; omega), List.getElem?_append_right (by omega)]
          simp [List.getElem?_replicate]
          split <;> rfl
        · rw [List.getElem?_eq_none (by simp; omega)]

theorem write_length (file : List Nat) (n v : Nat) : file.length ≤ (writeAt file n v).length ∧ n < (writeAt file n v).length := by
  unfold writeAt
  split
  · simp; omega
  · simp; omega

theorem read_score (file : List Nat) (n : Nat) : (readAt file n).getD 0 = scoreOf file n := by
  simp [readAt, scoreOf, List.getD_eq_getElem?_getD]

/-- Training on a list of code points. -/
def lessons (t : Trainer) (codes : List Nat) : Trainer := codes.foldl learn t

theorem learn_score (t : Trainer) (n m : Nat) : scoreOf (learn t n).score m =
    if m = n ∧ scoreOf t.score n < 3 then scoreOf t.score n + 1 else scoreOf t.score m := by
  unfold learn
  simp only [read_score]
  have e : (if scoreOf t.score n = 0 then { t with list := t.list.map (· ++ be32 n) } else t).score = t.score := by split <;> rfl
  split
  · rename_i h
    simp only [score_write, e, h, and_true]
  · rename_i h
    simp only [e, h, and_false, if_false]

theorem learn_list (t : Trainer) (n : Nat) : (learn t n).list = t.list.map (· ++ if scoreOf t.score n = 0 then be32 n else []) := by
  unfold learn
  simp only [read_score]
  split
  · split
    · rename_i h; rfl
    · simp
  · split
    · rename_i h; simp only
    · simp

theorem learn_length (t : Trainer) (n : Nat) : t.score.length ≤ (learn t n).score.length ∧ (scoreOf t.score n < 3 → n < (learn t n).score.length) := by
  unfold learn
  simp only [read_score]
  have e : (if scoreOf t.score n = 0 then { t with list := t.list.map (· ++ be32 n) } else t).score = t.score := by split <;> rfl
  split
  · rename_i h
    simp only [e]
    exact ⟨(write_length _ _ _).1, fun _ => (write_length _ _ _).2⟩
  · rename_i h
    simp only [e]
    exact ⟨Nat.le_refl _, fun h' => absurd h' h⟩

/-- C88.  What a lesson does to a score: below 3 it counts the meetings, up to 3. -/
theorem lessons_score (t : Trainer) (codes : List Nat) (m : Nat) : scoreOf (lessons t codes).score m =
    max (scoreOf t.score m) (min 3 (scoreOf t.score m + codes.count m)) := by
  induction codes generalizing t with
  | nil => simp [lessons]; omega
  | cons c codes ih =>
    have : lessons t (c :: codes) = lessons (learn t c) codes := rfl
    rw [this, ih, learn_score, List.count_cons]
    by_cases h : m = c
    · subst h
      simp only [true_and, beq_self_eq_true, if_true]
      split <;> omega
    · have h' : ¬ c = m := fun e => h e.symm
      simp [h, h']

theorem lessons_list (t : Trainer) (codes : List Nat) : (lessons t codes).list =
    t.list.map (· ++ (newCodes t.score codes).flatMap be32) := by
  induction codes generalizing t with
  | nil => simp [lessons, newCodes]
  | cons c codes ih =>
    have : lessons t (c :: codes) = lessons (learn t c) codes := rfl
    rw [this, ih, learn_list, Option.map_map]
    congr 1
    funext l
    simp only [Function.comp, List.append_assoc]
    congr 1
    by_cases h : scoreOf t.score c = 0
    · have e : newCodes t.score (c :: codes) = c :: newCodes (learn t c).score codes := by
        unfold newCodes
        rw [List.filter_cons_of_pos (by simp [h]), List.eraseDups_cons, List.filter_filter]
        congr 2
        refine List.filter_congr fun x _ => ?_
        rw [learn_score]
        by_cases hx : x = c
        · subst hx; simp [h]
        · simp [hx]
      rw [e, if_pos h]
      simp
    · have e : newCodes t.score (c :: codes) = newCodes (learn t c).score codes := by
        unfold newCodes
        rw [List.filter_cons_of_neg (by simp [h])]
        congr 1
        refine List.filter_congr fun x _ => ?_
        rw [learn_score]
        by_cases hx : x = c
        · subst hx; simp [h]
          split <;> simp [h]
        · simp [hx]
      rw [e, if_neg h]
      simp

theorem lessons_length (t : Trainer) (codes : List Nat) : t.score.length ≤ (lessons t codes).score.length := by
  induction codes generalizing t with
  | nil => exact Nat.le_refl _
  | cons c codes ih => exact Nat.le_trans (learn_length t c).1 (ih (learn t c))

/-- After training, every code point met is inside the file. -/
theorem lessons_inside (t : Trainer) (codes : List Nat) : ∀ c ∈ codes, c < (lessons t codes).score.length := by
  intro c hc
  have h := lessons_score t codes c
  have h1 : 1 ≤ codes.count c := List.count_pos_iff.2 hc
  have h2 : 1 ≤ scoreOf (lessons t codes).score c := by omega
  unfold scoreOf at h2
  rw [List.getD_eq_getElem?_getD] at h2
  apply Decidable.byContradiction
  intro hn
  rw [List.getElem?_eq_none (by omega)] at h2
  simp at h2

theorem train_fold (ds : List Datum) (hb : AllBytes ds) (t : Trainer) :
    ds.foldl (fun t d => match d with | 1 :: bs => learn t (ucsOf bs) | _ => t) t = lessons t (charCodes ds) := by
  induction ds generalizing t with
  | nil => rfl
  | cons d ds ih =>
    have hb' : AllBytes ds := fun x hx => hb x (by simp [hx])
    rw [List.foldl_cons, ih hb']
    match d with
    | 1 :: bs =>
      have hbb : IsBytes bs := fun x hx => hb _ (List.mem_cons_self ..) x (by simp [hx])
      have e : charCodes ((1 :: bs) :: ds) = ucsOf bs :: charCodes ds := by rw [ucsOf_value bs hbb]; rfl
      rw [e]
      rfl
    | [] => rfl
    | 0 :: bs => rfl
    | (n + 2) :: bs => rfl

section
variable {st : Nat → Static π} {ip : Nat → Nat → π → π} {ins : Ins π} {pre post : List (Proc π)} {s : Static π}

/-- C88, training.  A phase `SCORE-TRAIN` anywhere in a conversion passes its data through unchanged.  The score of a code point grows by the
number of times the character is met, as long as it is below 3 and never beyond; no other byte of the file changes.  The list file, if there is
one, gets the code points that had no score, each once and in the order met. -/
theorem C88_train (h : Placed st ip ins pre s post) {e : Lens π Trainer} (hs : Only s .inter (plain e train)) (hi : ∀ x, ip (pre.length + 1) 0 x = x)
    {old : Trainer} (ho : e.get ((ins.ph (pre.length + 1)).priv 0) = old) :
    Converts st ip ins (pre ++ {
      out := nonEmpty
      fin := fun ds q => (∀ cp, scoreOf (e.get (q 0)).score cp =
            if 3 ≤ scoreOf old.score cp then scoreOf old.score cp else min 3 (scoreOf old.score cp + (charCodes (nonEmpty ds)).count cp)) ∧
          (e.get (q 0)).list = old.list.map (· ++ (newCodes old.score (charCodes (nonEmpty ds))).flatMap fourBytes) ∧
          ∀ cp ∈ charCodes (nonEmpty ds), cp < (e.get (q 0)).score.length } :: post) := by
  refine mapper h (single_plain hs (by simp) (fun _ => rfl)) (fun t d => match d with | 1 :: bs => learn t (ucsOf bs) | _ => t) (fun d => [d])
    (fun _ _ => rfl) (fun d hd => bytes_single d hd) (fun _ => rfl)
    (initPriv_get (placed_le h) (by omega) e id (fun x => by rw [hi]; rfl)) rfl ?_
  intro ds hds _
  refine ⟨rfl, (flatMap_single _).symm, rfl, ?_⟩
  intro q hq
  have hq' : e.get (q 0) = lessons old (charCodes (nonEmpty ds)) := by
    rw [hq, ← train_fold (nonEmpty ds) (fun d hd => hds d (List.mem_filter.1 hd).1)]
    simp only [id, ho]
  simp only
  rw [hq']
  refine ⟨?_, lessons_list _ _, lessons_inside _ _⟩
  intro cp
  rw [lessons_score]
  split <;> omega

/-- The sum of the scores of some code points. -/
def totalScore (file : List Nat) (codes : List Nat) : Nat := (codes.map (scoreOf file)).sum

theorem rate_fold (file : List Nat) (ds : List Datum) (hb : AllBytes ds) (hl : ∀ cp ∈ charCodes ds, cp < file.length) (t : Scorer) (ht : t.file = some file) :
    (ds.foldl (fun (t : Scorer) d => match t.file, d with
      | some file, 1 :: bs => { t with counter := t.counter + (readAt file (ucsOf bs)).getD (t.junk 0), junk := fun k => t.junk (k + 1) }
      | _, _ => t) t).counter = t.counter + totalScore file (charCodes ds) := by
  induction ds generalizing t with
  | nil => rfl
  | cons d ds ih =>
    have hb' : AllBytes ds := fun x hx => hb x (by simp [hx])
    rw [List.foldl_cons]
    match d with
    | 1 :: bs =>
      have hbb : IsBytes bs := fun x hx => hb _ (List.mem_cons_self ..) x (by simp [hx])
      have e : charCodes ((1 :: bs) :: ds) = ucsOf bs :: charCodes ds := by rw [ucsOf_value bs hbb]; rfl
      rw [e] at hl ⊢
      have hin := hl (ucsOf bs) (by simp)
      simp only [ht]
      rw [ih hb' (fun cp hc => hl cp (by simp [hc])) _ rfl]
      have : (readAt file (ucsOf bs)).getD (t.junk 0) = scoreOf file (ucsOf bs) := by
        simp [readAt, scoreOf, List.getD_eq_getElem?_getD, List.getElem?_eq_getElem hin]
      simp only [this, totalScore, List.map_cons, List.sum_cons]
      omega
    | [] => 
      simp only [ht]
      exact ih hb' hl t ht
    | 0 :: bs =>
      simp only [ht]
      exact ih hb' hl t ht
    | (n + 2) :: bs =>
      simp only [ht]
      exact ih hb' hl t ht

/-- C88, scoring.  A phase `SCORE#WITH=TRAINED` anywhere in a conversion passes its data through unchanged, and its counter grows by the sum of
the scores of the characters met, provided all their code points are inside the file. -/
theorem C88_score_partial (h : Placed st ip ins pre s post) {e : Lens π Scorer} (hs : Only s .inter (plain e rate)) (hi : ∀ x, ip (pre.length + 1) 0 x = x)
    {old : Scorer} (ho : e.get ((ins.ph (pre.length + 1)).priv 0) = old) {file : List Nat} (hf : old.file = some file) :
    Converts st ip ins (pre ++ {
      out := nonEmpty
      ok := fun ds => ∀ cp ∈ charCodes (nonEmpty ds), cp < file.length
      fin := fun ds q => (e.get (q 0)).counter = old.counter + totalScore file (charCodes (nonEmpty ds)) } :: post) := by
  refine mapper h (single_plain hs (by simp) (fun _ => rfl)) (fun (t : Scorer) d => match t.file, d with
      | some file, 1 :: bs => { t with counter := t.counter + (readAt file (ucsOf bs)).getD (t.junk 0), junk := fun k => t.junk (k + 1) }
      | _, _ => t) (fun d => [d])
    (fun _ _ => rfl) (fun d hd => bytes_single d hd) (fun _ => rfl)
    (initPriv_get (placed_le h) (by omega) e id (fun x => by rw [hi]; rfl)) rfl ?_
  intro ds hds hok
  refine ⟨rfl, (flatMap_single _).symm, rfl, ?_⟩
  intro q hq
  simp only
  rw [hq, id, ho]
  exact rate_fold file _ (fun d hd => hds d (List.mem_filter.1 hd).1) hok old hf

end

/-! ### Training and scoring texts -/

/-- A text read by the first phase, then a second phase and further ones. -/
theorem text_through {st : Nat → Static π} {ip : Nat → Nat → π → π} {ins : Ins π} {T cps : List Nat} {post : List (Proc π)}
    (ha : ReadsAs (st 1) (initPriv st ip ins 1) T cps) (hpl : ∀ D, Realises (st 1) (fun q => q = initPriv st ip ins 1) D → Placed st ip ins [D] (st 2) post)
    {P : Proc π} (hP : ∀ D, Placed st ip ins [D] (st 2) post → Converts st ip ins ([D] ++ P :: post))
    (hok : OkRest (P :: post) (textData cps))
    (as : List Arg) (l : Arg) (h1 : ∀ x ∈ as, x.flush = false) (h2 : l.flush = true) (h3 : ∀ x ∈ as ++ [l], x.mode ≠ .null)
    (h4 : ((as ++ [l]).filterMap (fun x => x.input)).flatten = T) :
    ∃ ds ins', Session st (ins.init st ip) (as ++ [l]) ds ins' ∧ P.fin (textData cps) (ins'.ph 2).priv := by
  obtain ⟨hT, D, hD1, hD2⟩ := ha
  obtain ⟨f1, f2, f3, f4⟩ := hD2 _ h4
  have hb : ∀ x ∈ as ++ [l], ∀ c ∈ x.input, IsBytes c := by
    intro x hx c hc y hy
    refine hT y ?_
    rw [← h4]
    exact List.mem_flatten.2 ⟨c, List.mem_filterMap.2 ⟨x, hx, hc⟩, hy⟩
  obtain ⟨ds, ins', k1, _, _, _, _, k6⟩ := hP D (hpl D hD1) as l h1 h2 h3 hb _ rfl ⟨.inl f2, f4, by rw [f1]; exact hok⟩
  refine ⟨ds, ins', k1, ?_⟩
  have := k6 1 (by simp)
  simpa only [List.cons_append, List.nil_append, List.take_succ_cons, List.take_zero, runProcs, f1, List.getElem_cons_succ, List.getElem_cons_zero] using this

theorem text_codes {cps : List Nat} (h : ∀ cp ∈ cps, Scalar cp) : charCodes (nonEmpty (textData cps)) = cps := by
  rw [html_nonEmpty]
  induction cps with
  | nil => rfl
  | cons c cps ih =>
    have e : charCodes (textData (c :: cps)) = (beBytes c).foldl (fun n b => n * 256 + b) 0 % 2 ^ 32 :: charCodes (textData cps) := rfl
    rw [e, ih (fun x hx => h x (by simp [hx])), beBytes_value, Nat.mod_eq_of_lt (by have := (h c (by simp)).2.1; omega)]

/-- C88.  Train on a text and score a text with the file that leaves: whatever the encodings, the chunks and the phases behind, scoring a text
`cps'` made of characters of the text `cps` adds for each of its characters the number of times it was met (at most 3), if training began with an
empty file. -/
theorem C88_trained {ρ : Type} {st : Nat → Static π} {ip : Nat → Nat → π → π} {ins : Ins π} {T cps : List Nat} {post : List (Proc π)} {e : Lens π Trainer}
    (ha : ReadsAs (st 1) (initPriv st ip ins 1) T cps) (hpl : ∀ D, Realises (st 1) (fun q => q = initPriv st ip ins 1) D → Placed st ip ins [D] (st 2) post)
    (hs : Only (st 2) .inter (plain e train)) (hi : ∀ x, ip 2 0 x = x) (hc : ∀ cp ∈ cps, Scalar cp) (hok : OkRest post (textData cps))
    (ho : (e.get ((ins.ph 2).priv 0)).score = [])
    (as : List Arg) (l : Arg) (h1 : ∀ x ∈ as, x.flush = false) (h2 : l.flush = true) (h3 : ∀ x ∈ as ++ [l], x.mode ≠ .null)
    (h4 : ((as ++ [l]).filterMap (fun x => x.input)).flatten = T)
    {st' : Nat → Static ρ} {ip' : Nat → Nat → ρ → ρ} {T' cps' : List Nat} {post' : List (Proc ρ)} {e' : Lens ρ Scorer}
    (hs' : Only (st' 2) .inter (plain e' rate)) (hi' : ∀ x, ip' 2 0 x = x) (hsub : ∀ cp ∈ cps', cp ∈ cps) (hok' : OkRest post' (textData cps'))
    (as' : List Arg) (l' : Arg) (h1' : ∀ x ∈ as', x.flush = false) (h2' : l'.flush = true) (h3' : ∀ x ∈ as' ++ [l'], x.mode ≠ .null)
    (h4' : ((as' ++ [l']).filterMap (fun x => x.input)).flatten = T') :
    ∃ ds ins1, Session st (ins.init st ip) (as ++ [l]) ds ins1 ∧
      ∀ ins' : Ins ρ, ReadsAs (st' 1) (initPriv st' ip' ins' 1) T' cps' →
        (∀ D, Realises (st' 1) (fun q => q = initPriv st' ip' ins' 1) D → Placed st' ip' ins' [D] (st' 2) post') →
        (e'.get ((ins'.ph 2).priv 0)).file = some (e.get ((ins1.ph 2).priv 0)).score →
        ∃ ds' ins2, Session st' (ins'.init st' ip') (as' ++ [l']) ds' ins2 ∧
          (e'.get ((ins2.ph 2).priv 0)).counter = (e'.get ((ins'.ph 2).priv 0)).counter + (cps'.map fun cp => min 3 (cps.count cp)).sum := by
  have hne : ∀ cps : List Nat, nonEmpty (textData cps) = textData cps := html_nonEmpty
  obtain ⟨ds, ins1, k1, k2, _, k4⟩ := text_through (P := {
      out := nonEmpty
      fin := fun ds q => (∀ cp, scoreOf (e.get (q 0)).score cp =
            if 3 ≤ scoreOf (e.get ((ins.ph 2).priv 0)).score cp then scoreOf (e.get ((ins.ph 2).priv 0)).score cp
            else min 3 (scoreOf (e.get ((ins.ph 2).priv 0)).score cp + (charCodes (nonEmpty ds)).count cp)) ∧
          (e.get (q 0)).list = (e.get ((ins.ph 2).priv 0)).list.map
            (· ++ (newCodes (e.get ((ins.ph 2).priv 0)).score (charCodes (nonEmpty ds))).flatMap fourBytes) ∧
          ∀ cp ∈ charCodes (nonEmpty ds), cp < (e.get (q 0)).score.length }) ha hpl (fun D hp => C88_train hp hs hi rfl)
    ⟨rfl, trivial, by simp only; rw [hne]; exact hok⟩ as l h1 h2 h3 h4
  rw [text_codes hc] at k2 k4
  refine ⟨ds, ins1, k1, ?_⟩
  intro ins' ha' hpl' hf'
  have hc' : ∀ cp ∈ cps', Scalar cp := fun cp h => hc cp (hsub cp h)
  obtain ⟨ds', ins2, m1, m2⟩ := text_through (P := {
      out := nonEmpty
      ok := fun ds => ∀ cp ∈ charCodes (nonEmpty ds), cp < (e.get ((ins1.ph 2).priv 0)).score.length
      fin := fun ds q => (e'.get (q 0)).counter = (e'.get ((ins'.ph 2).priv 0)).counter +
        totalScore (e.get ((ins1.ph 2).priv 0)).score (charCodes (nonEmpty ds)) }) ha' hpl' (fun D hp => C88_score_partial hp hs' hi' rfl hf')
    ⟨rfl, by simp only; rw [text_codes hc']; exact fun cp h => k4 cp (hsub cp h), by simp only; rw [hne]; exact hok'⟩ as' l' h1' h2' h3' h4'
  refine ⟨ds', ins2, m1, m2.trans ?_⟩
  rw [text_codes hc', totalScore]
  congr 2
  refine List.map_congr_left fun cp _ => ?_
  rw [k2, ho]
  simp [scoreOf]

/-! ### Cases -/

/-- Training on A twice: it is listed once. -/
example : ∃ ds ins', Session (fun _ => onePhase .inter (plain (Lens.self Trainer) train))
      ((solo ⟨[], some []⟩).init (fun _ => onePhase .inter (plain (Lens.self Trainer) train)) (fun _ _ x => x)) (twoCalls [1, 0x41] [1, 0x41]) ds ins' ∧
    nonEmpty ins'.pending = [[1, 0x41], [1, 0x41]] ∧ scoreOf ((ins'.ph 1).priv 0).score 0x41 = 2 ∧ ((ins'.ph 1).priv 0).list = some [0, 0, 0, 0x41] := by
  obtain ⟨ds, ins', a, b, c, _⟩ := two_calls (C88_train (placed_solo _ (fun _ _ x => x) (⟨[], some []⟩ : Trainer)) (only_one _ (plain (Lens.self Trainer) train)) (fun _ => rfl) rfl)
      (x := [1, 0x41]) (y := [1, 0x41]) (by decide) (by decide) ⟨rfl, trivial⟩
  refine ⟨ds, ins', a, b, (c.1 0x41).trans ?_, c.2.1.trans ?_⟩ <;> decide +kernel

/-- Scoring with a file that has 2 for the code point 1 and 3 for 2. -/
example : ∃ ds ins', Session (fun _ => onePhase .inter (plain (Lens.self Scorer) rate))
      ((solo ⟨some [0, 2, 3], 5, fun _ => 9⟩).init (fun _ => onePhase .inter (plain (Lens.self Scorer) rate)) (fun _ _ x => x)) (twoCalls [1, 1] [1, 2]) ds ins' ∧
    nonEmpty ins'.pending = [[1, 1], [1, 2]] ∧ ((ins'.ph 1).priv 0).counter = 10 := by
  obtain ⟨ds, ins', a, b, c, _⟩ := two_calls (C88_score_partial (placed_solo _ (fun _ _ x => x) (⟨some [0, 2, 3], 5, fun _ => 9⟩ : Scorer)) (only_one _ (plain (Lens.self Scorer) rate)) (fun _ => rfl) rfl rfl)
      (x := [1, 1]) (y := [1, 2]) (by decide) (by decide) ⟨rfl, by decide⟩
  exact ⟨ds, ins', a, b, c.trans (by decide +kernel)⟩

/-- What `rate` does to its private data. -/
theorem rate_counts (t : Scorer) : Converts (fun _ => onePhase .inter (plain (Lens.self Scorer) rate)) (fun _ _ x => x) (solo t) [{
    out := nonEmpty
    fin := fun ds q => q 0 = (nonEmpty ds).foldl (fun (t : Scorer) d => match t.file, d with
      | some file, 1 :: bs => { t with counter := t.counter + (readAt file (ucsOf bs)).getD (t.junk 0), junk := fun k => t.junk (k + 1) }
      | _, _ => t) t }] :=
  mapper (placed_solo _ (fun _ _ x => x) t) (single_plain (only_one _ _) (by simp) (fun _ => rfl)) (fun (t : Scorer) d => match t.file, d with
      | some file, 1 :: bs => { t with counter := t.counter + (readAt file (ucsOf bs)).getD (t.junk 0), junk := fun k => t.junk (k + 1) }
      | _, _ => t) (fun d => [d]) (fun _ _ => rfl) (fun d hd => bytes_single d hd) (fun _ => rfl) rfl rfl
    (fun ds _ _ => ⟨rfl, (flatMap_single _).symm, rfl, fun q hq => hq⟩)

/-- C88 fails for code points behind the end of the score file: the counter grows by whatever the uninitialised variable holds, for every value
it may hold. -/
theorem C88_score_violated (v : Nat) :
    ∃ ds ins', Session (fun _ => onePhase .inter (plain (Lens.self Scorer) rate))
      ((solo ⟨some [0, 2, 3], 0, fun _ => v⟩).init (fun _ => onePhase .inter (plain (Lens.self Scorer) rate)) (fun _ _ x => x)) (twoCalls [1, 0x41] [3, 0x41]) ds ins' ∧
    ((ins'.ph 1).priv 0).counter = v ∧ totalScore [0, 2, 3] (charCodes [[1, 0x41], [3, 0x41]]) = 0 := by
  obtain ⟨ds, ins', a, b, c, _⟩ := two_calls (rate_counts ⟨some [0, 2, 3], 0, fun _ => v⟩)
      (x := [1, 0x41]) (y := [3, 0x41]) (by decide) (by decide) ⟨rfl, trivial⟩
  refine ⟨ds, ins', a, ?_, by decide +kernel⟩
  have c' : (ins'.ph 1).priv 0 = _ := c
  rw [c']
  exact Nat.zero_add v

/-- Private data of a decoder and of another codec. -/
def oneLens (σ : Type) : Lens (Utf8.Priv × σ) Utf8.Priv := ⟨Prod.fst, fun t x => (t, x.2), fun _ _ => rfl, fun _ => rfl⟩
def otherLens (σ : Type) : Lens (Utf8.Priv × σ) σ := ⟨Prod.snd, fun t x => (x.1, t), fun _ _ => rfl, fun _ => rfl⟩

/-- UTF-8 input, then one codec. -/
def utf8Then {σ : Type} (ty : PType) (c : Codec (Utf8.Priv × σ)) (k : Nat) : Static (Utf8.Priv × σ) :=
  if k = 1 then ⟨.from_, fun j => if j = 0 then trieCodec Ascii.fromRules else anyByte ((Utf8.machine {}).on (oneLens σ)).conv, 1⟩
  else ⟨ty, fun _ => c, 0⟩

def startIns {σ : Type} (t : σ) : Ins (Utf8.Priv × σ) := { ph := fun _ => { priv := fun _ => (.zero, t) }, phasen := 2 }

theorem utf8Then_source {σ : Type} (ty : PType) (c : Codec (Utf8.Priv × σ)) (p : Nat → Utf8.Priv × σ) (hp : (p 1).1 = .zero) :
    Source.utf8.Is (utf8Then ty c 1) p := by
  refine .utf8 (oneLens σ) ⟨rfl, rfl, ?_, ⟨_, rfl⟩⟩ hp
  refine represents_trie _ ?_
  intro r hr
  obtain ⟨c, _, _, rfl⟩ := fromAscii_mem hr
  simp

/-- Training on "A€A" and scoring "€A". -/
example : ∃ ds ins1, Session (utf8Then .inter (plain (otherLens Trainer) train)) ((startIns (⟨[], none⟩ : Trainer)).init
      (utf8Then .inter (plain (otherLens Trainer) train)) (fun _ _ x => x)) ([⟨some [0x41, 0xE2], false, .file⟩] ++ [⟨some [0x82, 0xAC, 0x41], true, .file⟩]) ds ins1 ∧
    ∃ ds' ins2, Session (utf8Then .inter (plain (otherLens Scorer) rate)) ((startIns (⟨some ((ins1.ph 2).priv 0).2.score, 4, fun _ => 7⟩ : Scorer)).init
      (utf8Then .inter (plain (otherLens Scorer) rate)) (fun _ _ x => x)) ([] ++ [⟨some [0xE2, 0x82, 0xAC, 0x41], true, .file⟩]) ds' ins2 ∧
      ((ins2.ph 2).priv 0).2.counter = 4 + 3 := by
  obtain ⟨ds, ins1, k1, k2⟩ := C88_trained (ρ := Utf8.Priv × Scorer) (st := utf8Then .inter (plain (otherLens Trainer) train)) (ip := fun _ _ x => x)
    (ins := startIns (⟨[], none⟩ : Trainer))
    (e := otherLens Trainer) (post := []) (source_readsAs (utf8Then_source _ _ _ rfl) (cps := [0x41, 0x20AC, 0x41]) (by unfold Source.Has Scalar; decide))
    (fun D hD => placed_behind rfl hD) ⟨rfl, rfl, rfl⟩ (fun _ => rfl) (by unfold Scalar; decide) trivial rfl
    [⟨some [0x41, 0xE2], false, .file⟩] ⟨some [0x82, 0xAC, 0x41], true, .file⟩ (by decide) rfl (by decide) (by decide)
    (st' := utf8Then .inter (plain (otherLens Scorer) rate)) (ip' := fun _ _ x => x) (e' := otherLens Scorer) (post' := []) (cps' := [0x20AC, 0x41])
    ⟨rfl, rfl, rfl⟩ (fun _ => rfl) (by decide) trivial [] ⟨some [0xE2, 0x82, 0xAC, 0x41], true, .file⟩ (by decide) rfl (by decide) rfl
  refine ⟨ds, ins1, k1, ?_⟩
  obtain ⟨ds', ins2, m1, m2⟩ := k2 (startIns (⟨some ((ins1.ph 2).priv 0).2.score, 4, fun _ => 7⟩ : Scorer))
    (by
      have := source_readsAs (utf8Then_source .inter (plain (otherLens Scorer) rate)
        (initPriv (utf8Then .inter (plain (otherLens Scorer) rate)) (fun _ _ x => x) (startIns (⟨some ((ins1.ph 2).priv 0).2.score, 4, fun _ => 7⟩ : Scorer)) 1) rfl)
        (cps := [0x20AC, 0x41]) (by unfold Source.Has Scalar; decide)
      exact this)
    (fun D hD => placed_behind rfl hD) rfl
  exact ⟨ds', ins2, m1, m2.trans (by simp [startIns, otherLens])⟩

end Verif.Props
