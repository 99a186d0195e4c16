import Verif.Props.Family
import Verif.Props.Big5
import Verif.Model.HkscsTable
import Verif.Model.FamilyTable
/-
C105 for the shipped files of the Big5 family.
-/
namespace Verif.Props
open Verif.Spec
open Verif.Engine hiding Datum step
open Charsets

variable {π : Type}

namespace Family

/-- One run: every code goes to the same character in the tree, or is in `ex`. -/
noncomputable def sameRun (t : CTree) (ex : List Nat) (vs : List Nat) : Nat → Bool :=
  List.rec (motive := fun _ => Nat → Bool) (fun _ => true)
    (fun v _ ih k => pick2 (Nat.beq (t.get k) v) (ih (Nat.succ k)) (pick2 (ex.any (Nat.beq k)) (ih (Nat.succ k)) false)) vs

/-- Every pair of `a` but those for `ex` is in `b`. -/
noncomputable def sameIn (a b : Chart) (ex : List Nat) : Bool :=
  (fun t => allRuns (fun r => sameRun t ex r.2 r.1) a) (CTree.build 12 b)

/-- No code of `a` is one of `b`. -/
noncomputable def apartRun (t : CTree) (vs : List Nat) : Nat → Bool :=
  List.rec (motive := fun _ => Nat → Bool) (fun _ => true) (fun _ _ ih k => pick2 (Nat.beq (t.get k) 0) (ih (Nat.succ k)) false) vs

noncomputable def apart (a b : Chart) : Bool := (fun t => allRuns (fun r => apartRun t r.2 r.1) a) (CTree.build 12 b)

theorem sameRun_all {t : CTree} {ex : List Nat} : ∀ {k : Nat} {vs : List Nat}, sameRun t ex vs k = true →
    ∀ r ∈ Chart.run k vs, t.get r.1 = r.2 ∨ r.1 ∈ ex
  | _, [], _, r, hr => by simp [Chart.run] at hr
  | k, v :: vs, h, r, hr => by
    have h : pick2 (Nat.beq (t.get k) v) (sameRun t ex vs (k + 1)) (pick2 (ex.any (Nat.beq k)) (sameRun t ex vs (k + 1)) false) = true := h
    rw [pick2_eq, pick2_eq] at h
    rw [Chart.run, List.mem_cons] at hr
    have key : (t.get k = v ∨ k ∈ ex) ∧ sameRun t ex vs (k + 1) = true := by
      cases h1 : Nat.beq (t.get k) v with
      | true => rw [h1, cond_true] at h; exact ⟨.inl (Nat.eq_of_beq_eq_true h1), h⟩
      | false =>
        rw [h1, cond_false] at h
        cases h2 : ex.any (Nat.beq k) with
        | false => rw [h2] at h; simp at h
        | true =>
          rw [h2, cond_true] at h
          obtain ⟨m, hm, e⟩ := List.any_eq_true.1 h2
          have := Nat.eq_of_beq_eq_true e
          subst this
          exact ⟨.inr hm, h⟩
    rcases hr with rfl | hr
    · exact key.1
    · exact sameRun_all key.2 r hr

theorem apartRun_all {t : CTree} : ∀ {k : Nat} {vs : List Nat}, apartRun t vs k = true → ∀ r ∈ Chart.run k vs, t.get r.1 = 0
  | _, [], _, r, hr => by simp [Chart.run] at hr
  | k, v :: vs, h, r, hr => by
    have h : pick2 (Nat.beq (t.get k) 0) (apartRun t vs (k + 1)) false = true := h
    rw [pick2_eq] at h
    rw [Chart.run, List.mem_cons] at hr
    cases h1 : Nat.beq (t.get k) 0 with
    | false => rw [h1] at h; simp at h
    | true =>
      rw [h1, cond_true] at h
      rcases hr with rfl | hr
      · exact Nat.eq_of_beq_eq_true h1
      · exact apartRun_all h r hr

/-- Every code of `a` is one of `b`. -/
noncomputable def grownRun (t : CTree) (vs : List Nat) : Nat → Bool :=
  List.rec (motive := fun _ => Nat → Bool) (fun _ => true) (fun _ _ ih k => pick2 (Nat.beq (t.get k) 0) false (ih (Nat.succ k))) vs

noncomputable def grown (a b : Chart) : Bool := (fun t => allRuns (fun r => grownRun t r.2 r.1) a) (CTree.build 12 b)

theorem grownRun_all {t : CTree} : ∀ {k : Nat} {vs : List Nat}, grownRun t vs k = true → ∀ r ∈ Chart.run k vs, t.get r.1 ≠ 0
  | _, [], _, r, hr => by simp [Chart.run] at hr
  | k, v :: vs, h, r, hr => by
    have h : pick2 (Nat.beq (t.get k) 0) false (grownRun t vs (k + 1)) = true := h
    rw [pick2_eq] at h
    rw [Chart.run, List.mem_cons] at hr
    cases h1 : Nat.beq (t.get k) 0 with
    | true => rw [h1] at h; simp at h
    | false =>
      rw [h1, cond_false] at h
      rcases hr with rfl | hr
      · exact Nat.ne_of_beq_eq_false h1
      · exact grownRun_all h r hr

theorem grown_char {x y : Charset} (hy : y.fine = true) (h : grown x.reads y.reads = true) (c : Nat) (hc : (x.char c).isSome) : (y.char c).isSome := by
  unfold Charset.char at hc ⊢
  split
  · rfl
  · rename_i hr
    rw [if_neg hr] at hc
    obtain ⟨u, hu⟩ := Option.isSome_iff_exists.1 hc
    obtain ⟨q, hq, hr'⟩ := List.mem_flatMap.1 (Chart.find_mem hu)
    have h1 := grownRun_all (allRuns_mem h q hq) _ hr'
    simp only at h1
    rw [Chart.mem_find (Charset.fine_iff hy).reads (build_mem h1 rfl)]
    rfl

/-- What the check says: the codes of `x` stand for the same characters in `y`, but for those in `ex`. -/
theorem same_char {x y : Charset} (hx : x.fine = true) (hy : y.fine = true) {ex : List Nat} (h : sameIn x.reads y.reads ex = true) :
    ∀ c u, x.char c = some u → c ∉ ex → y.char c = some u := by
  intro c u hc hn
  unfold Charset.char at hc ⊢
  split
  · rename_i hr; rw [if_pos hr] at hc; exact hc
  · rename_i hr
    rw [if_neg hr] at hc
    have hm := Chart.find_mem hc
    obtain ⟨q, hq, hr'⟩ := List.mem_flatMap.1 hm
    rcases sameRun_all (allRuns_mem h q hq) _ hr' with h1 | h1
    · have h0 := ((Charset.fine_iff hx).codes _ hm).2.2.1
      simp only at h0 h1
      exact Chart.mem_find (Charset.fine_iff hy).reads (build_mem (by omega) h1)
    · exact absurd h1 hn

/-- No code is in both. -/
theorem apart_find {x y : Charset} (hy : y.fine = true) (h : apart x.reads y.reads = true) :
    ∀ c u, x.reads.find c = some u → y.reads.find c = none := by
  intro c u hc
  have hm := Chart.find_mem hc
  obtain ⟨q, hq, hr'⟩ := List.mem_flatMap.1 hm
  have h1 := apartRun_all (allRuns_mem h q hq) _ hr'
  cases hf : y.reads.find c with
  | none => rfl
  | some v =>
    have hv := Chart.find_mem hf
    unfold Charset.fine at hy
    have hy0 := Charset.fine_iff hy
    simp only [Bool.and_eq_true] at hy
    rcases build_find (d := 12) (rising_runs hy.1.1.1.1.1).1 hv with k | k
    · have := (hy0.codes _ hv).2.2.1
      simp only at this h1
      omega
    · obtain ⟨q, hq, _⟩ := List.mem_flatMap.1 hv
      have h5 := congrArg List.length k.1
      have h6 := List.length_pos_of_mem hq
      simp at h5
      omega

theorem fine_hkscs : (cp950r.fine && Charset.wide cp950r && Charset.small cp950r && (hkscs1999.fine && Charset.wide hkscs1999 && Charset.small hkscs1999) &&
    (hkscs2001.fine && Charset.wide hkscs2001 && Charset.small hkscs2001) && (hkscs2004.fine && Charset.wide hkscs2004 && Charset.small hkscs2004)) = true := by
  decide +kernel

theorem fine_2003 : (big52003.fine && Charset.wide big52003 && Charset.small big52003) = true := by decide +kernel
theorem fine_eten : (big5Eten.fine && Charset.wide big5Eten && Charset.small big5Eten) = true := by decide +kernel
theorem fine_e : (big5e.fine && Charset.wide big5e && Charset.small big5e) = true := by decide +kernel
theorem fine_uao : (uao241.fine && Charset.wide uao241 && Charset.small uao241) = true := by decide +kernel

/-- The files. -/
theorem sets : ∀ x ∈ [cp950r, hkscs1999, hkscs2001, hkscs2004, big52003, big5Eten, big5e, uao241],
    x.fine = true ∧ Charset.wide x = true ∧ Charset.small x = true := by
  have h1 := fine_hkscs
  have h2 := fine_2003
  have h3 := fine_eten
  have h4 := fine_e
  have h5 := fine_uao
  simp only [Bool.and_eq_true] at h1 h2 h3 h4 h5
  intro x hx
  simp only [List.mem_cons, List.not_mem_nil, or_false] at hx
  rcases hx with rfl | rfl | rfl | rfl | rfl | rfl | rfl | rfl
  · exact ⟨h1.1.1.1.1.1, h1.1.1.1.1.2, h1.1.1.1.2⟩
  · exact ⟨h1.1.1.2.1.1, h1.1.1.2.1.2, h1.1.1.2.2⟩
  · exact ⟨h1.1.2.1.1, h1.1.2.1.2, h1.1.2.2⟩
  · exact ⟨h1.2.1.1, h1.2.1.2, h1.2.2⟩
  · exact ⟨h2.1.1, h2.1.2, h2.2⟩
  · exact ⟨h3.1.1, h3.1.2, h3.2⟩
  · exact ⟨h4.1.1, h4.1.2, h4.2⟩
  · exact ⟨h5.1.1, h5.1.2, h5.2⟩

end Family

/-- The codecs of the aliases (/repo/modules/from/alias) behind `ASCII`. -/
def bigFamily : List (List Charset) :=
  [[cp950r], [cp950r, hkscs1999], [cp950r, hkscs2001], [cp950r, hkscs2004], [big52003], [big5Eten], [big5e], [uao241]]

/-- C105.  All of them are read as their files say: what C105_reads and C105_transcode ask for. -/
theorem C105_family : ∀ xs ∈ bigFamily, ∀ x ∈ xs, x.fine = true ∧ Charset.wide x = true ∧ Charset.small x = true := by
  intro xs hxs x hx
  refine Family.sets x ?_
  simp only [bigFamily, List.mem_cons, List.not_mem_nil, or_false] at hxs
  rcases hxs with rfl | rfl | rfl | rfl | rfl | rfl | rfl | rfl <;>
    · simp only [List.mem_cons, List.not_mem_nil, or_false] at hx ⊢
      rcases hx with rfl | rfl <;> simp

/-- The code points that CP950 and the other Big5 sets disagree about. -/
def eten : List Nat := [0xA2CC, 0xA2CD, 0xA2CE, 0xC255]

/-- C105.  Each code of CP950 stands for the same character in Big5-ETEN and Big5E but for four codes (and the euro sign in Big5E), in Big5-2003 but
for fourteen, in UAO 2.41 and 2.50 without exception. -/
theorem C105_cp950 :
    (∀ c u, cp950r.char c = some u → c ∉ eten → big5Eten.char c = some u) ∧
    (∀ c u, cp950r.char c = some u → c ∉ 0xA3E1 :: eten → big5e.char c = some u) ∧
    (∀ c u, cp950r.char c = some u → c ∉ [0xA156, 0xA1C2, 0xA2A4, 0xA2A5, 0xA2A6, 0xA2A7, 0xF9FA, 0xF9FB, 0xF9FC, 0xF9FD] ++ eten → big52003.char c = some u) ∧
    (∀ c u, cp950r.char c = some u → uao241.char c = some u) ∧ (∀ c u, cp950r.char c = some u → big5.char c = some u) := by
  have key : (Family.sameIn cp950r.reads big5Eten.reads eten && Family.sameIn cp950r.reads big5e.reads (0xA3E1 :: eten) &&
      Family.sameIn cp950r.reads big52003.reads ([0xA156, 0xA1C2, 0xA2A4, 0xA2A5, 0xA2A6, 0xA2A7, 0xF9FA, 0xF9FB, 0xF9FC, 0xF9FD] ++ eten) &&
      Family.sameIn cp950r.reads uao241.reads [] && Family.sameIn cp950r.reads big5.reads []) = true := by decide +kernel
  simp only [Bool.and_eq_true] at key
  have f := fun x h => (Family.sets x h).1
  have f0 := f cp950r (by simp)
  exact ⟨Family.same_char f0 (f big5Eten (by simp)) key.1.1.1.1, Family.same_char f0 (f big5e (by simp)) key.1.1.1.2,
    Family.same_char f0 (f big52003 (by simp)) key.1.1.2, fun c u h => Family.same_char f0 (f uao241 (by simp)) key.1.2 c u h (by simp),
    fun c u h => Family.same_char f0 big5_fine.1 key.2 c u h (by simp)⟩

/-- C105 violated.  For these codes it does not. -/
theorem C105_cp950_violated : (∀ c ∈ eten, ∃ u v, cp950r.char c = some u ∧ big5Eten.char c = some v ∧ big5e.char c = some v ∧ big52003.char c = some v ∧ u ≠ v) ∧
    (cp950r.char 0xA3E1 = some 0x20AC ∧ big5e.char 0xA3E1 = none) ∧ cp950r.char 0xA156 = some 0x2013 ∧ big52003.char 0xA156 = some 0x2015 := by
  refine ⟨?_, by decide +kernel, by decide +kernel, by decide +kernel⟩
  have h : (eten.map fun c => (cp950r.char c, big5Eten.char c, big5e.char c, big52003.char c)) =
      [(some 0x5341, some 0x3038, some 0x3038, some 0x3038), (some 0x5344, some 0x3039, some 0x3039, some 0x3039),
       (some 0x5345, some 0x303A, some 0x303A, some 0x303A), (some 0x5F5D, some 0x5F5E, some 0x5F5E, some 0x5F5E)] := by decide +kernel
  intro c hc
  have hm : (cp950r.char c, big5Eten.char c, big5e.char c, big52003.char c) ∈ eten.map fun c => (cp950r.char c, big5Eten.char c, big5e.char c, big52003.char c) :=
    List.mem_map_of_mem hc
  rw [h] at hm
  simp only [List.mem_cons, List.not_mem_nil, or_false, Prod.mk.injEq] at hm
  rcases hm with ⟨k1, k2, k3, k4⟩ | ⟨k1, k2, k3, k4⟩ | ⟨k1, k2, k3, k4⟩ | ⟨k1, k2, k3, k4⟩ <;> exact ⟨_, _, k1, k2, k3, k4, by decide⟩

/-- C105.  The supplements have no code of CP950, so the order of the files does not matter, and a text in HKSCS reads as it would in CP950 as long as
CP950 has its codes. -/
theorem C105_hkscs : ∀ x ∈ [hkscs1999, hkscs2001, hkscs2004], ∀ c, charIn [cp950r, x] c = charIn [x, cp950r] c ∧
    (∀ u, cp950r.char c = some u → charIn [cp950r, x] c = some u) ∧ ∀ u, x.char c = some u → charIn [cp950r, x] c = some u := by
  have key : (Family.apart hkscs1999.reads cp950r.reads && Family.apart hkscs2001.reads cp950r.reads && Family.apart hkscs2004.reads cp950r.reads) = true := by
    decide +kernel
  simp only [Bool.and_eq_true] at key
  have f0 := (Family.sets cp950r (by simp)).1
  intro x hx c
  have ha : ∀ c u, x.reads.find c = some u → cp950r.reads.find c = none := by
    simp only [List.mem_cons, List.not_mem_nil, or_false] at hx
    rcases hx with rfl | rfl | rfl
    · exact Family.apart_find f0 key.1.1
    · exact Family.apart_find f0 key.1.2
    · exact Family.apart_find f0 key.2
  unfold charIn Charset.char
  by_cases hr : 1 ≤ c ∧ c < 0x80
  · simp [hr]
  · simp only [if_neg hr, List.findSome?_cons, List.findSome?_nil]
    cases h1 : x.reads.find c with
    | none => cases h2 : cp950r.reads.find c <;> simp
    | some v => simp [ha c v h1]

/-- C105.  HKSCS 2001 has every code of HKSCS 1999. -/
theorem C105_grows : ∀ c, (hkscs1999.char c).isSome → (hkscs2001.char c).isSome := by
  have key : Family.grown hkscs1999.reads hkscs2001.reads = true := by decide +kernel
  exact Family.grown_char (Family.sets hkscs2001 (by simp)).1 key

/-- C105.  The compiled files make such phases. -/
theorem C105_compiled : ∀ x ∈ [cp950r, hkscs1999, hkscs2001, hkscs2004, big52003, big5Eten, big5e, uao241],
    Represents (Verif.MkTable.compiled π (Verif.MkTable.lines x.fromRules)) x.fromRules := by
  intro x hx
  obtain ⟨h1, _, h2⟩ := Family.sets x hx
  exact (C76_compiled h1 h2).1

/-- `HKSCS2004:UTF-16BE` with compiled files. -/
def hkscsConv (k : Nat) : Static Unit :=
  if k = 1 then ⟨.from_, fun j => if j = 0 then trieCodec Ascii.fromRules else if j = 1 then Verif.MkTable.compiled _ (Verif.MkTable.lines cp950r.fromRules)
    else Verif.MkTable.compiled _ (Verif.MkTable.lines hkscs2004.fromRules), 2⟩
  else ⟨.to_, fun _ => uniPrefix (encodeConv (Utf16.encode16 false)), 0⟩

theorem hkscsConv_reads : ReadsFamily (hkscsConv 1) [cp950r, hkscs2004] := by
  refine ⟨rfl, rfl, trieAscii, ?_⟩
  intro j hj
  match j with
  | 0 => exact C105_compiled cp950r (by simp)
  | 1 => exact C105_compiled hkscs2004 (by simp)
  | j + 2 => exact absurd hj (by simp)

-- "A", a character of Big5 and one of the supplement beyond U+FFFF, cut inside both.
example : ∃ ds ins', Session hkscsConv (({ ph := fun _ => { priv := fun _ => () }, phasen := 2 } : Ins Unit).init hkscsConv (fun _ _ t => t))
      ([⟨some [0x41, 0xA4], false, .file⟩, ⟨some [0xA4, 0x9E], false, .file⟩] ++ [⟨some [0xE5], true, .file⟩]) ds ins' ∧
    (ds.map (fun d => d.bytes)).flatten ++ ins'.pending.flatten = [0x00, 0x41, 0x4E, 0x2D, 0xD8, 0x5F, 0xDF, 0x2E] ∧ ins'.ierr = 0 ∧ ins'.oerr = 0 := by
  obtain ⟨ds, ins', k1, k2, k3, k4⟩ := C105_transcode (xs := [cp950r, hkscs2004]) (fun x hx => by
      have := C105_family [cp950r, hkscs2004] (by simp [bigFamily]) x hx
      exact ⟨this.1, this.2.1⟩) (st := hkscsConv) (ip := fun _ _ t => t) (b := .utf16 false)
    (ins := { ph := fun _ => { priv := fun _ => () }, phasen := 2 }) rfl hkscsConv_reads (.utf16 false ⟨rfl, rfl, rfl⟩)
    [0x41, 0xA4A4, 0x9EE5] [0x41, 0x4E2D, 0x27F2E] (by decide +kernel)
    [⟨some [0x41, 0xA4], false, .file⟩, ⟨some [0xA4, 0x9E], false, .file⟩] ⟨some [0xE5], true, .file⟩ (by simp) rfl (by simp) (by simp [codeBytes, be1, be2])
  exact ⟨ds, ins', k1, by rw [k2]; decide +kernel, k3, k4⟩

end Verif.Props
