import Verif.Proofs.MkTree3

namespace Verif.MkTable
open Verif.Engine (Status Datum Codec)
namespace Arena

/-- How well a string fits a pattern: the number of symbols that fit without regard to case folding; `none` if it does not fit. -/
def score (ci : Bool) : List (Nat × Nat) → List Nat → Option Nat
  | [], [] => some 0
  | b :: bs, c :: cs =>
    if c ≤ 256 then (hit ci b.1 b.2 c).bind fun v => (score ci bs cs).map fun n => v + n else none
  | _, _ => none

theorem score_length {ci : Bool} {bs : List (Nat × Nat)} {p : List Nat} {n : Nat} (h : score ci bs p = some n) : p.length = bs.length := by
  induction bs generalizing p n with
  | nil =>
    cases p with
    | nil => rfl
    | cons c cs => simp [score] at h
  | cons b bs ih =>
    cases p with
    | nil => simp [score] at h
    | cons c cs =>
      simp only [score] at h
      split at h
      · cases hh : hit ci b.1 b.2 c with
        | none => simp [hh] at h
        | some v =>
          cases hs : score ci bs cs with
          | none => simp [hh, hs] at h
          | some k => simp [ih hs]
      · simp at h

theorem score_snoc {ci : Bool} {bs : List (Nat × Nat)} {b : Nat × Nat} {p : List Nat} {c : Nat} (hl : p.length = bs.length) (hc : c ≤ 256) :
    score ci (bs ++ [b]) (p ++ [c]) = (score ci bs p).bind fun n => (hit ci b.1 b.2 c).map fun v => n + v := by
  induction bs generalizing p with
  | nil =>
    cases p with
    | nil => simp [score, hc]
    | cons => simp at hl
  | cons d bs ih =>
    cases p with
    | nil => simp at hl
    | cons x p =>
      have := ih (p := p) (by simpa using hl)
      simp only [List.cons_append, score, this]
      split
      · cases hit ci d.1 d.2 x with
        | none => rfl
        | some v =>
          simp only [Option.bind_some]
          cases score ci bs p with
          | none => rfl
          | some n =>
            simp only [Option.bind_some, Option.map_some]
            cases hit ci b.1 b.2 c <;> simp [Nat.add_assoc]
      · rfl

theorem score_bound {ci : Bool} {bs : List (Nat × Nat)} {p : List Nat} {n : Nat} (h : score ci bs p = some n) : ∀ c ∈ p, c ≤ 256 := by
  induction bs generalizing p n with
  | nil =>
    cases p with
    | nil => simp
    | cons c cs => simp [score] at h
  | cons b bs ih =>
    cases p with
    | nil => simp
    | cons c cs =>
      simp only [score] at h
      split at h
      · rename_i hc
        cases hh : hit ci b.1 b.2 c with
        | none => simp [hh] at h
        | some v =>
          cases hs : score ci bs cs with
          | none => simp [hh, hs] at h
          | some k =>
            intro x hx
            rcases List.mem_cons.1 hx with rfl | hx
            · exact hc
            · exact ih hs x hx
      · simp at h

/-- A job, with the string that reaches its node. -/
abbrev Job := List Nat × Nat × Nat × Nat

def Job.target (j : Job) : List Nat := j.1 ++ [j.2.2.1]

/-- The job can be done in `A`. -/
structure Doable (A : Arena) (m : Nat) (j : Job) : Prop where
  find : A.find j.1 = some j.2.1
  status : (A.node j.2.1).status ≠ .subroutine
  le : j.2.2.1 ≤ 256
  len : j.1.length = m

theorem status_of_see {A B : Arena} {p : List Nat} {k : Nat} (h : A.see p = B.see p) (ha : A.find p = some k) (hb : B.find p = some k) :
    (A.node k).status = (B.node k).status := by
  rw [see_some ha, see_some hb] at h
  have := congrArg (fun x => x.map Content.status) h
  simpa [content] using this

theorem extendAll_spec (lo hi m : Nat) (J : List Job) : ∀ (A : Arena), Good A → (∀ j ∈ J, Doable A m j) → (J.map Job.target).Nodup →
    Good (extendAll A lo hi (J.map Prod.snd)).1 ∧
    (∀ q, q ∉ J.map Job.target → (extendAll A lo hi (J.map Prod.snd)).1.find q = A.find q ∧
      (extendAll A lo hi (J.map Prod.snd)).1.see q = A.see q) ∧
    (∀ q, q ∈ J.map Job.target → (extendAll A lo hi (J.map Prod.snd)).1.see q = some (ext (A.see q))) ∧
    ∃ L : List (List Nat × Item), L.map Prod.snd = (extendAll A lo hi (J.map Prod.snd)).2 ∧ L.map Prod.fst = J.map Job.target ∧
      ∀ x ∈ L, (extendAll A lo hi (J.map Prod.snd)).1.find x.1 = some x.2.state ∧
        ((extendAll A lo hi (J.map Prod.snd)).1.node x.2.state).status ≠ .subroutine ∧ x.2.lower = lo ∧ x.2.upper = hi ∧
        ∃ j ∈ J, x.1 = j.target ∧ x.2.level = j.2.2.2 := by
  induction J with
  | nil =>
    intro A hA _ _
    exact ⟨hA, fun _ _ => ⟨rfl, rfl⟩, by simp, [], rfl, rfl, by simp⟩
  | cons j J ih =>
    intro A hA hd hnd
    obtain ⟨p, s, c, v⟩ := j
    have hj := hd (p, s, c, v) (by simp)
    obtain ⟨g1, f1, s1, t1⟩ := extend_spec hA hj.find hj.status hj.le
    simp only at g1 f1 s1 t1
    simp only [List.map_cons, List.nodup_cons] at hnd
    obtain ⟨hnot, hnd⟩ := hnd
    have hJ : ∀ j ∈ J, Doable (A.extend s c).1 m j := by
      intro j' hj'
      have hx := hd j' (by simp [hj'])
      have hne : j'.1 ≠ p ++ [c] := by
        intro e
        have := congrArg List.length e
        have h2 := hj.len
        simp only at h2
        rw [hx.len] at this; simp at this; omega
      have e1 : (A.extend s c).1.find j'.1 = some j'.2.1 := by rw [f1, if_neg hne]; exact hx.find
      have e2 : (A.extend s c).1.see j'.1 = A.see j'.1 := by rw [s1, if_neg hne]
      exact ⟨e1, by rw [status_of_see e2 e1 hx.find]; exact hx.status, hx.le, hx.len⟩
    obtain ⟨k1, k2, k3, L, k4, k5, k6⟩ := ih _ g1 hJ hnd
    have hself := k2 _ hnot
    simp only [Job.target] at hself
    have hf0 : (extendAll (A.extend s c).1 lo hi (J.map Prod.snd)).1.find (p ++ [c]) = some (A.extend s c).2 := by
      rw [hself.1, f1, if_pos rfl]
    simp only [List.map_cons, extendAll]
    refine ⟨k1, ?_, ?_, (p ++ [c], ⟨(A.extend s c).2, lo, hi, v⟩) :: L, ?_, ?_, ?_⟩
    · intro q hq
      simp only [List.mem_cons, not_or, Job.target] at hq
      rw [(k2 q hq.2).1, (k2 q hq.2).2, f1, s1, if_neg hq.1, if_neg hq.1]
      exact ⟨rfl, rfl⟩
    · intro q hq
      simp only [List.mem_cons] at hq
      by_cases e : q ∈ J.map Job.target
      · rw [k3 q e, s1, if_neg]
        rintro rfl; exact hnot e
      · rcases hq with rfl | hq
        · simp only [Job.target]
          rw [hself.2, s1, if_pos rfl]
        · exact absurd hq e
    · simp [k4]
    · simp [k5, Job.target]
    · intro x hx
      rcases List.mem_cons.1 hx with rfl | hx
      · refine ⟨hf0, ?_, rfl, rfl, (p, s, c, v), by simp, rfl, rfl⟩
        rw [status_of_see hself.2 hf0 (by rw [f1, if_pos rfl])]
        exact t1
      · obtain ⟨a1, a2, a3, a4, j', a5, a6, a7⟩ := k6 x hx
        exact ⟨a1, a2, a3, a4, j', by simp [a5], a6, a7⟩

theorem finishAll_spec (cb : Bool) (dat : List Nat) (m : Nat) (J : List Job) : ∀ (A : Arena), Good A → (∀ j ∈ J, Doable A m j) →
    (J.map Job.target).Nodup →
    (∀ q ∈ J.map Job.target, ∀ x, A.see q = some x → isCb x.status = true → cb = false) →
    Good ((J.map Prod.snd).foldl (fun A j => A.finish cb dat j.1 j.2.1 j.2.2) A) ∧
    (∀ q, q ∉ J.map Job.target → ((J.map Prod.snd).foldl (fun A j => A.finish cb dat j.1 j.2.1 j.2.2) A).see q = A.see q) ∧
    (∀ j ∈ J, ((J.map Prod.snd).foldl (fun A j => A.finish cb dat j.1 j.2.1 j.2.2) A).see j.target = some (fin cb dat j.2.2.2 (A.see j.target))) := by
  induction J with
  | nil =>
    intro A hA _ _ _
    exact ⟨hA, fun _ _ => rfl, by simp⟩
  | cons j J ih =>
    intro A hA hd hnd hcb
    obtain ⟨p, s, c, v⟩ := j
    have hj := hd (p, s, c, v) (by simp)
    obtain ⟨g1, f1, s1⟩ := finish_spec hA hj.find hj.status hj.le cb dat v (hcb (p ++ [c]) (by simp [Job.target]))
    simp only at g1 f1 s1
    simp only [List.map_cons, List.nodup_cons] at hnd
    obtain ⟨hnot, hnd⟩ := hnd
    have hJ : ∀ j ∈ J, Doable (A.finish cb dat s c v) m j := by
      intro j' hj'
      have hx := hd j' (by simp [hj'])
      have hne : j'.1 ≠ p ++ [c] := by
        intro e
        have := congrArg List.length e
        have h2 := hj.len
        simp only at h2
        rw [hx.len] at this; simp at this; omega
      have e1 : (A.finish cb dat s c v).find j'.1 = some j'.2.1 := by rw [f1 _ hne]; exact hx.find
      have e2 : (A.finish cb dat s c v).see j'.1 = A.see j'.1 := by rw [s1, if_neg hne]
      exact ⟨e1, by rw [status_of_see e2 e1 hx.find]; exact hx.status, hx.le, hx.len⟩
    have hcb' : ∀ q ∈ J.map Job.target, ∀ x, (A.finish cb dat s c v).see q = some x → isCb x.status = true → cb = false := by
      intro q hq x
      rw [s1, if_neg (by rintro rfl; exact hnot hq)]
      exact hcb q (by simp only [List.map_cons, List.mem_cons]; exact .inr hq) x
    obtain ⟨k1, k2, k3⟩ := ih _ g1 hJ hnd hcb'
    simp only [List.map_cons, List.foldl_cons]
    refine ⟨k1, ?_, ?_⟩
    · intro q hq
      simp only [List.mem_cons, not_or, Job.target] at hq
      rw [k2 q hq.2, s1, if_neg hq.1]
    · intro j' hj'
      rcases List.mem_cons.1 hj' with rfl | hj'
      · simp only [Job.target]
        simp only [Job.target] at hnot
        rw [k2 _ hnot, s1, if_pos rfl]
      · rw [k3 j' hj', s1, if_neg]
        intro e
        exact hnot (by simp only [Job.target]; rw [← e]; exact List.mem_map_of_mem hj')

/-! ### One rule -/

/-- The jobs of a todo list whose strings are known. -/
def jobsOf (ci : Bool) (L : List (List Nat × Item)) : List Job :=
  L.flatMap fun x => (List.range 257).filterMap fun c =>
    (hit ci x.2.lower x.2.upper c).map fun v => (x.1, x.2.state, c, x.2.level + v)

theorem jobsOf_jobs (ci : Bool) (L : List (List Nat × Item)) : (jobsOf ci L).map Prod.snd = jobs ci (L.map Prod.snd) := by
  unfold jobsOf jobs
  rw [List.map_flatMap, List.flatMap_map]
  congr 1
  funext x
  rw [List.map_filterMap]
  congr 1
  funext c
  cases hit ci x.2.lower x.2.upper c <;> rfl

theorem mem_jobsOf {ci : Bool} {L : List (List Nat × Item)} {j : Job} : j ∈ jobsOf ci L ↔
    ∃ x ∈ L, ∃ c, c ≤ 256 ∧ ∃ v, hit ci x.2.lower x.2.upper c = some v ∧ j = (x.1, x.2.state, c, x.2.level + v) := by
  simp only [jobsOf, List.mem_flatMap, List.mem_filterMap, List.mem_range, Option.map_eq_some_iff]
  constructor
  · rintro ⟨x, hx, c, hc, v, hv, rfl⟩
    exact ⟨x, hx, c, by omega, v, hv, rfl⟩
  · rintro ⟨x, hx, c, hc, v, hv, rfl⟩
    exact ⟨x, hx, c, by omega, v, hv, rfl⟩

theorem nodup_filterMap_range (n : Nat) (p : List Nat) (f : Nat → Option Job) (hf : ∀ c j, f c = some j → j.target = p ++ [c]) :
    (((List.range n).filterMap f).map Job.target).Nodup := by
  induction n with
  | zero => simp
  | succ n ih =>
    rw [List.range_succ, List.filterMap_append, List.map_append, List.nodup_append]
    refine ⟨ih, ?_, ?_⟩
    · simp only [List.filterMap_cons, List.filterMap_nil]
      cases f n <;> simp
    · intro a ha b hb
      simp only [List.mem_map, List.mem_filterMap, List.mem_range] at ha
      obtain ⟨j, ⟨c, hc, hj⟩, rfl⟩ := ha
      simp only [List.filterMap_cons, List.filterMap_nil] at hb
      cases hfn : f n with
      | none => rw [hfn] at hb; simp at hb
      | some j' =>
        rw [hfn] at hb
        simp only [List.map_cons, List.map_nil, List.mem_singleton] at hb
        subst hb
        rw [hf c j hj, hf n j' hfn]
        intro e
        have := (append_single.1 e).2
        omega

theorem jobsOf_nodup {ci : Bool} {L : List (List Nat × Item)} (h : (L.map Prod.fst).Nodup) : ((jobsOf ci L).map Job.target).Nodup := by
  induction L with
  | nil => simp [jobsOf]
  | cons x L ih =>
    simp only [List.map_cons, List.nodup_cons] at h
    have e : jobsOf ci (x :: L) = ((List.range 257).filterMap fun c =>
        (hit ci x.2.lower x.2.upper c).map fun v => ((x.1, x.2.state, c, x.2.level + v) : Job)) ++ jobsOf ci L := by
      simp [jobsOf]
    rw [e, List.map_append, List.nodup_append]
    refine ⟨?_, ih h.2, ?_⟩
    · apply nodup_filterMap_range _ x.1
      intro c j hj
      simp only [Option.map_eq_some_iff] at hj
      obtain ⟨v, _, rfl⟩ := hj
      rfl
    · intro a ha b hb
      simp only [List.mem_map, List.mem_filterMap, List.mem_range, Option.map_eq_some_iff] at ha
      obtain ⟨j, ⟨c, hc, v, hv, rfl⟩, rfl⟩ := ha
      obtain ⟨j', hj', rfl⟩ := List.mem_map.1 hb
      obtain ⟨y, hy, c', _, v', _, rfl⟩ := mem_jobsOf.1 hj'
      intro e
      simp only [Job.target] at e
      have := (append_single.1 e).1
      exact h.1 (by rw [this]; exact List.mem_map_of_mem hy)

/-- The todo list after the bounds `ds`, to be extended within `b`. -/
structure Todo (A : Arena) (ci : Bool) (ds : List (Nat × Nat)) (b : Nat × Nat) (L : List (List Nat × Item)) : Prop where
  item : ∀ x ∈ L, A.find x.1 = some x.2.state ∧ (A.node x.2.state).status ≠ .subroutine ∧ x.2.lower = b.1 ∧ x.2.upper = b.2 ∧
    ∃ n, score ci ds x.1 = some n ∧ x.2.level = 1 + n
  nodup : (L.map Prod.fst).Nodup
  all : ∀ p, (score ci ds p).isSome → p ∈ L.map Prod.fst

theorem Todo.target {A : Arena} {ci : Bool} {ds : List (Nat × Nat)} {b : Nat × Nat} {L : List (List Nat × Item)} (h : Todo A ci ds b L)
    (q : List Nat) : q ∈ (jobsOf ci L).map Job.target ↔ (score ci (ds ++ [b]) q).isSome := by
  constructor
  · intro hq
    obtain ⟨j, hj, rfl⟩ := List.mem_map.1 hq
    obtain ⟨x, hx, c, hc, v, hv, rfl⟩ := mem_jobsOf.1 hj
    obtain ⟨_, _, h3, h4, n, h5, _⟩ := h.item x hx
    simp only [Job.target]
    rw [score_snoc (score_length h5) hc, h5, ← h3, ← h4, hv]; rfl
  · intro hq
    obtain ⟨n, hn⟩ := Option.isSome_iff_exists.1 hq
    have hl := score_length hn
    induction q using snocInd with
    | nil => simp at hl
    | snoc p c _ =>
      have hc := score_bound hn c (by simp)
      have hl' : p.length = ds.length := by simpa using hl
      rw [score_snoc hl' hc] at hn
      cases hs : score ci ds p with
      | none => simp [hs] at hn
      | some k =>
        cases hh : hit ci b.1 b.2 c with
        | none => simp [hs, hh] at hn
        | some v =>
          have := h.all p (by simp [hs])
          obtain ⟨x, hx, rfl⟩ := List.mem_map.1 this
          obtain ⟨_, _, h3, h4, _⟩ := h.item x hx
          exact List.mem_map.2 ⟨(x.1, x.2.state, c, x.2.level + v), mem_jobsOf.2 ⟨x, hx, c, hc, v, by rw [h3, h4]; exact hh, rfl⟩, rfl⟩

theorem Todo.doable {A : Arena} {ci : Bool} {ds : List (Nat × Nat)} {b : Nat × Nat} {L : List (List Nat × Item)} (h : Todo A ci ds b L) :
    ∀ j ∈ jobsOf ci L, Doable A ds.length j := by
  intro j hj
  obtain ⟨x, hx, c, hc, v, hv, rfl⟩ := mem_jobsOf.1 hj
  obtain ⟨h1, h2, _, _, n, h5, _⟩ := h.item x hx
  exact ⟨h1, h2, hc, score_length h5⟩

theorem Todo.level {A : Arena} {ci : Bool} {ds : List (Nat × Nat)} {b : Nat × Nat} {L : List (List Nat × Item)} (h : Todo A ci ds b L)
    {j : Job} (hj : j ∈ jobsOf ci L) : ∃ n, score ci (ds ++ [b]) j.target = some n ∧ j.2.2.2 = 1 + n := by
  obtain ⟨x, hx, c, hc, v, hv, rfl⟩ := mem_jobsOf.1 hj
  obtain ⟨h1, h2, h3, h4, n, h5, h6⟩ := h.item x hx
  refine ⟨n + v, ?_, by simp only; rw [h6]; omega⟩
  simp only [Job.target]
  rw [score_snoc (score_length h5) hc, h5, ← h3, ← h4, hv]; rfl

/-- What a rule does to the content of a string. -/
def ruleSee (r : Rule) (v : List Nat → Option Content) (q : List Nat) : Option Content :=
  if q = [] then v q
  else if q.length < r.pat.length then
    if (score r.ci (r.pat.take q.length) q).isSome then some (ext (v q)) else v q
  else match score r.ci r.pat q with
    | some n => some (fin r.cb r.dat (1 + n) (v q))
    | none => v q

theorem addFrom_spec (r : Rule) : ∀ (bs : List (Nat × Nat)) (A : Arena) (ds : List (Nat × Nat)) (b : Nat × Nat) (L : List (List Nat × Item)),
    Good A → Todo A r.ci ds b L → r.pat = ds ++ b :: bs →
    (∀ q x, (score r.ci r.pat q).isSome → A.see q = some x → isCb x.status = true → r.cb = false) →
    Good (addFrom A r (L.map Prod.snd) bs) ∧
    ∀ q, (addFrom A r (L.map Prod.snd) bs).see q = if q.length ≤ ds.length then A.see q else ruleSee r A.see q := by
  intro bs
  induction bs with
  | nil =>
    intro A ds b L hA hT hpat hcb
    simp only [addFrom]
    rw [← jobsOf_jobs]
    obtain ⟨k1, k2, k3⟩ := finishAll_spec r.cb r.dat ds.length (jobsOf r.ci L) A hA hT.doable (jobsOf_nodup hT.nodup)
      (by intro q hq x; rw [hT.target, ← hpat] at hq; exact hcb q x hq)
    refine ⟨k1, ?_⟩
    intro q
    have hlen : r.pat.length = ds.length + 1 := by rw [hpat]; simp
    by_cases hq : q ∈ (jobsOf r.ci L).map Job.target
    · obtain ⟨j, hj, rfl⟩ := List.mem_map.1 hq
      rw [k3 j hj]
      obtain ⟨n, h1, h2⟩ := hT.level hj
      have hl := score_length h1
      rw [List.length_append, List.length_singleton] at hl
      rw [if_neg (by omega), ruleSee, if_neg (by intro e; rw [e] at hl; simp at hl), if_neg (by omega), hpat, h1, h2]
    · rw [k2 q hq]
      rw [hT.target, ← hpat] at hq
      split
      · rfl
      · rename_i hle
        rw [ruleSee]
        split
        · rfl
        · rw [if_neg (by omega)]
          cases hs : score r.ci r.pat q with
          | none => rfl
          | some n => rw [hs] at hq; simp at hq
  | cons b' bs ih =>
    intro A ds b L hA hT hpat hcb
    simp only [addFrom]
    rw [← jobsOf_jobs]
    obtain ⟨k1, k2, k3, L', k4, k5, k6⟩ := extendAll_spec b'.1 b'.2 ds.length (jobsOf r.ci L) A hA hT.doable (jobsOf_nodup hT.nodup)
    have hlen : r.pat.length = ds.length + 1 + (bs.length + 1) := by rw [hpat]; simp; omega
    have hT' : Todo (extendAll A b'.1 b'.2 ((jobsOf r.ci L).map Prod.snd)).1 r.ci (ds ++ [b]) b' L' := by
      refine ⟨?_, by rw [k5]; exact jobsOf_nodup hT.nodup, by intro p hp; rw [k5, hT.target]; exact hp⟩
      intro x hx
      obtain ⟨a1, a2, a3, a4, j, a5, a6, a7⟩ := k6 x hx
      obtain ⟨n, h1, h2⟩ := hT.level a5
      exact ⟨a1, a2, a3, a4, n, by rw [a6]; exact h1, by rw [a7, h2]⟩
    have hcb' : ∀ q x, (score r.ci r.pat q).isSome → (extendAll A b'.1 b'.2 ((jobsOf r.ci L).map Prod.snd)).1.see q = some x →
        isCb x.status = true → r.cb = false := by
      intro q x hq
      have hl : q.length = r.pat.length := by obtain ⟨n, hn⟩ := Option.isSome_iff_exists.1 hq; exact score_length hn
      rw [(k2 q ?_).2]
      · exact hcb q x hq
      · intro e
        rw [hT.target] at e
        obtain ⟨n, hn⟩ := Option.isSome_iff_exists.1 e
        have := score_length hn
        simp at this; omega
    obtain ⟨m1, m2⟩ := ih _ (ds ++ [b]) b' L' k1 hT' (by rw [hpat]; simp) hcb'
    rw [k4] at m1 m2
    refine ⟨m1, ?_⟩
    intro q
    rw [m2]
    simp only [List.length_append, List.length_singleton]
    have htake : r.pat.take (ds.length + 1) = ds ++ [b] := by
      rw [hpat, show ds ++ b :: b' :: bs = (ds ++ [b]) ++ (b' :: bs) by simp]
      rw [List.take_append_of_le_length (by simp), List.take_of_length_le (by simp)]
    by_cases hq : q ∈ (jobsOf r.ci L).map Job.target
    · have hsc := hq
      rw [hT.target] at hsc
      obtain ⟨n, hn⟩ := Option.isSome_iff_exists.1 hsc
      have hl := score_length hn
      rw [List.length_append, List.length_singleton] at hl
      rw [if_pos (by omega), if_neg (by omega), k3 q hq, ruleSee, if_neg (by intro e; rw [e] at hl; simp at hl),
        if_pos (by omega), hl, htake, if_pos hsc]
    · have hs2 := (k2 q hq).2
      rw [hT.target] at hq
      by_cases h1 : q.length ≤ ds.length
      · rw [if_pos (by omega), if_pos h1, hs2]
      · rw [if_neg h1]
        by_cases h2 : q.length ≤ ds.length + 1
        · rw [if_pos h2, hs2, ruleSee, if_neg (by intro e; rw [e] at h1; simp at h1), if_pos (by omega),
            show q.length = ds.length + 1 by omega, htake, if_neg hq]
        · rw [if_neg h2]
          unfold ruleSee
          simp only [hs2]

/-- One rule with a non-empty pattern. -/
theorem addRule_spec {A : Arena} (hA : Good A) (r : Rule) (hne : r.pat ≠ [])
    (hcb : ∀ q x, (score r.ci r.pat q).isSome → A.see q = some x → isCb x.status = true → r.cb = false) :
    Good (addRule A r) ∧ ∀ q, (addRule A r).see q = ruleSee r A.see q := by
  unfold addRule
  cases hp : r.pat with
  | nil => exact absurd hp hne
  | cons b bs =>
    simp only
    have hT : Todo A r.ci [] b [([], ⟨0, b.1, b.2, 1⟩)] := by
      refine ⟨?_, by simp, ?_⟩
      · intro x hx
        simp only [List.mem_singleton] at hx
        subst hx
        exact ⟨rfl, by simp only; rw [hA.root]; simp, rfl, rfl, 0, rfl, rfl⟩
      · intro p h
        cases p with
        | nil => simp
        | cons c cs => simp [score] at h
    obtain ⟨h1, h2⟩ := addFrom_spec r bs A [] b _ hA hT (by rw [hp]; rfl) hcb
    refine ⟨h1, ?_⟩
    intro q
    have := h2 q
    simp only [List.map_cons, List.map_nil] at this
    rw [this]
    split
    · rename_i e
      have : q = [] := List.eq_nil_of_length_eq_zero (by simpa using e)
      subst this
      simp [ruleSee]
    · rfl

end Arena
end Verif.MkTable
