import Verif.Proofs.HandlerPair
import Verif.Proofs.MkStatic
import Verif.Model.Inter
import Verif.Spec.Inter
import Verif.Props.Range
import Verif.Props.Engine
/-
C32-C36 and C61: the intermediate codecs that look at one datum at a time, in any conversion.

`Placed st ip ins pre s post` : phase `s` sits between phases behaving as `pre` and `post`.
`Only s ty c`                 : the phase consists of the codec `c`.
`Converts st ip ins L`        : every conversion (any chunking, any output modes) computes the chain `L`; the
                                processor in the middle is written out in each theorem.
-/
namespace Verif.Props
open Verif.Spec
open Verif.Engine hiding Datum step
open Verif.Inter

variable {π σ : Type}

/-! ### Tables -/

theorem ucs_beNat (bs : List Nat) (hb : IsBytes bs) : Range.ucs bs = beNat bs % 2 ^ 32 := by
  have key : ∀ (bs : List Nat) (n m : Nat), IsBytes bs → n = m % 2 ^ 32 →
      bs.foldl (fun u b => (u <<< 8) % 2 ^ 32 ||| b) n = (bs.foldl (fun n b => n * 256 + b) m) % 2 ^ 32 := by
    intro bs
    induction bs with
    | nil => intro n m _ h; exact h
    | cons b bs ih =>
      intro n m hb h
      simp only [List.foldl_cons]
      refine ih _ _ (fun x hx => hb x (by simp [hx])) ?_
      have hb0 : b < 2 ^ 8 := hb b (by simp)
      subst h
      have e : (m % 2 ^ 32) <<< 8 % 2 ^ 32 = (m * 256 % 2 ^ 32 / 2 ^ 8) <<< 8 := by
        simp only [Nat.shiftLeft_eq]; omega
      rw [e, Nat.shiftLeft_add_eq_or_of_lt hb0 _ |>.symm, Nat.shiftLeft_eq]
      omega
  exact key bs 0 0 hb rfl

theorem row_valueIn {t : List Range.Row} (ht : Ordered t ∧ t ≠ []) {d : Datum} (hd : IsBytes d) :
    row t d = valueIn t d := by
  unfold row Range.lookup valueIn
  match d with
  | [] => rfl
  | h :: p =>
    by_cases h1 : h = 1
    · subst h1
      simp only [ne_eq, not_true_eq_false, if_false, char?, Option.bind_some]
      rw [ucs_beNat p (fun x hx => hd x (by simp [hx]))]
      obtain ⟨o, ho, hr⟩ := find_spec ht.1 ht.2 (beNat p % 2 ^ 32)
      rw [ho]
      simp only [Option.map_some, Option.getD_some]
      congr 1
      cases hf : t.find? fun r => decide (In (beNat p % 2 ^ 32) r) with
      | none =>
        cases ho' : o with
        | none => rfl
        | some r =>
          obtain ⟨a, b⟩ := (hr r).1 ho'
          have := List.find?_eq_none.1 hf r a
          simp [b] at this
      | some r =>
        exact (hr r).2 ⟨List.mem_of_find?_eq_some hf, by simpa using List.find?_some hf⟩
    · simp only [ne_eq, h1, not_false_eq_true, if_true, Option.getD_some]
      have : char? (h :: p) = none := by
        unfold char?
        split
        · rename_i heq; simp only [List.cons.injEq] at heq; exact absurd heq.1 h1
        · rfl
      rw [this]; rfl

/-! ### Single codecs -/

theorem single_plain {s : Static π} {ty : PType} {e : Lens π σ} {h : Handler σ} (hs : Only s ty (plain e h))
    (ht : ty ≠ .from_) (hf : ∀ t, h.flush t = (t, [])) : Single s e h :=
  ⟨hs.type ▸ ht, hs.one, .inr ⟨hs.codec, hf⟩⟩

theorem single_flushing {s : Static π} {ty : PType} {e : Lens π σ} {h : Handler σ} (hs : Only s ty (flushing e h))
    (ht : ty ≠ .from_) : Single s e h := ⟨hs.type ▸ ht, hs.one, .inl hs.codec⟩

theorem passes_inter {s : Static π} {c : Codec π} (hs : Only s .inter c) : passes s = true := by
  simp [passes, hs.type]

theorem passes_to {s : Static π} {c : Codec π} (hs : Only s .to_ c) : passes s = false := by
  simp [passes, hs.type]

/-- A codec that never refuses, never waits and keeps its output bytes. -/
theorem sound_of {h : Handler σ} (f : σ → Datum → σ × List Datum) (ha : ∀ t d, h.act t d = some ((f t d).1, (f t d).2, false))
    (hb : ∀ t d, IsBytes d → ∀ x ∈ (f t d).2, IsBytes x) (hf : ∀ t, h.flush t = (t, [])) : Sound h (fun _ => True) where
  act := by
    intro t d _ _ hd t' out b h'
    rw [ha] at h'
    simp only [Option.some.injEq, Prod.mk.injEq] at h'
    obtain ⟨rfl, rfl, rfl⟩ := h'
    exact ⟨trivial, hb t d hd, by simp⟩
  flush := by intro t _; rw [hf]; exact ⟨trivial, by simp⟩

theorem run_map {h : Handler σ} {pass : Bool} (f : σ → Datum → σ) (g : Datum → List Datum)
    (ha : ∀ t d, h.act t d = some (f t d, g d, false)) (t : σ) (ds : List Datum) :
    h.run pass false t ds = ⟨ds.flatMap g, 0, ds.foldl f t⟩ := by
  induction ds generalizing t with
  | nil => rfl
  | cons d ds ih => simp only [Handler.run, ha, ih, Out.after, List.flatMap_cons, List.foldl_cons]

theorem flatMap_single (ds : List Datum) : ds.flatMap (fun d => [d]) = ds := by
  induction ds with
  | nil => rfl
  | cons d ds ih => rw [List.flatMap_cons, ih]; rfl

theorem foldl_count (f : Filter) (ds : List Datum) (c : Nat) :
    ds.foldl (fun c d => if admits f d then c + 1 else c) c = c + ds.countP (fun d => admits f d) := by
  induction ds generalizing c with
  | nil => rfl
  | cons d ds ih =>
    rw [List.foldl_cons, ih, List.countP_cons]
    split <;> omega

variable {st : Nat → Static π} {ip : Nat → Nat → π → π} {ins : Ins π} {pre post : List (Proc π)} {s : Static π}

theorem placed_le (h : Placed st ip ins pre s post) : pre.length + 1 ≤ ins.phasen := by have := h.phasen; omega

/-- C34.  A phase `COUNT` (with any filter) anywhere in a conversion passes its data through unchanged, and the
counter grows by exactly the number of data the filter admits. -/
theorem C34_count (h : Placed st ip ins pre s post) {e : Lens π Nat} {f : Filter}
    (hs : Only s .inter (plain e (count f))) (hi : ∀ x, ip (pre.length + 1) 0 x = x) :
    Converts st ip ins (pre ++ {
      out := nonEmpty
      fin := fun ds q => e.get (q 0) = e.get ((ins.ph (pre.length + 1)).priv 0) + (nonEmpty ds).countP (fun d => admits f d)
      } :: post) := by
  have hr := run_map (h := count f) (pass := passes s) (fun c d => if admits f d then c + 1 else c) (fun d => [d])
    (fun _ _ => rfl)
  refine single_converts h (single_plain hs (by simp) (fun _ => rfl))
    (sound_of (fun c d => (if admits f d then c + 1 else c, [d])) (fun _ _ => rfl)
      (by intro t d hd x hx; simp at hx; exact hx ▸ hd) (fun _ => rfl))
    (initPriv_get (placed_le h) (by omega) e id (fun x => by rw [hi]; rfl)) trivial rfl ?_
  intro ds _ _
  rw [passes_inter hs] at hr ⊢
  rw [hr]
  refine ⟨rfl, (flatMap_single _).symm, rfl, ?_⟩
  intro q hq
  simp only [hq, foldl_count]
  rfl

/-- A codec that takes every datum at once: output per datum `g`, private data folded with `f`. -/
theorem mapper (h : Placed st ip ins pre s post) {e : Lens π σ} {c : Handler σ} (hs : Single s e c) (f : σ → Datum → σ)
    (g : Datum → List Datum) (ha : ∀ t d, c.act t d = some (f t d, g d, false)) (hb : ∀ d, IsBytes d → ∀ x ∈ g d, IsBytes x)
    (hf : ∀ t, c.flush t = (t, [])) {t : σ} (ht : e.get (initPriv st ip ins (pre.length + 1) 0) = t) {P : Proc π}
    (hd : P.dec = false)
    (hP : ∀ ds, AllBytes ds → P.ok ds → P.inErrors ds = 0 ∧ P.out ds = (nonEmpty ds).flatMap g ∧ P.outErrors ds = 0 ∧
      ∀ q, e.get (q 0) = (nonEmpty ds).foldl f t → P.fin ds q) : Converts st ip ins (pre ++ P :: post) := by
  refine single_converts h hs (sound_of (fun t d => (f t d, g d)) ha (fun _ => hb) hf) ht trivial hd ?_
  intro ds hds hok
  rw [run_map f g ha]
  obtain ⟨a, b, c, d⟩ := hP ds hds hok
  exact ⟨a, b, by rw [c]; simp, d⟩

theorem bytes_single (d : Datum) (hd : IsBytes d) : ∀ x ∈ [d], IsBytes x := by
  intro x hx; simp only [List.mem_cons, List.not_mem_nil, or_false] at hx; exact hx ▸ hd

/-- The number of data with the value `v` in a table. -/
def having (t : List Range.Row) (v : Int) (ds : List Datum) : Nat := ds.countP fun d => valueIn t d == some v

theorem foldl_widths (ds : List Datum) (hb : AllBytes ds) (c : Widths) :
    ds.foldl (fun c d => c.add (row Range.widthTable d)) c =
      ⟨c.full + having Range.widthTable 2 ds, c.half + having Range.widthTable 1 ds,
        c.ambi + having Range.widthTable (-1) ds⟩ := by
  induction ds generalizing c with
  | nil => rfl
  | cons d ds ih =>
    rw [List.foldl_cons, ih (fun x hx => hb x (by simp [hx])), row_valueIn width_ordered (hb d (by simp))]
    simp only [having, List.countP_cons]
    unfold Widths.add
    split
    · rename_i h; simp only [h, Widths.mk.injEq]; refine ⟨?_, ?_, ?_⟩ <;> simp <;> omega
    · rename_i h; simp only [h, Widths.mk.injEq]; refine ⟨?_, ?_, ?_⟩ <;> simp <;> omega
    · rename_i h; simp only [h, Widths.mk.injEq]; refine ⟨?_, ?_, ?_⟩ <;> simp <;> omega
    · rename_i h1 h2 h3
      have e : ∀ v, (v = 2 ∨ v = 1 ∨ v = -1) → (valueIn Range.widthTable d == some v) = false := by
        intro v hv
        simp only [beq_eq_false_iff_ne, ne_eq]
        rcases hv with rfl | rfl | rfl <;> assumption
      simp [e]

/-- C34.  A phase `WIDTH` passes its data through unchanged, and its counters grow by the number of data whose
character the width table calls full, half and ambiguous. -/
theorem C34_width (h : Placed st ip ins pre s post) {e : Lens π Widths}
    (hs : Only s .inter (plain e width)) (hi : ∀ x, ip (pre.length + 1) 0 x = x) :
    Converts st ip ins (pre ++ {
      out := nonEmpty
      fin := fun ds q =>
        (e.get (q 0)).full = (e.get ((ins.ph (pre.length + 1)).priv 0)).full + having Range.widthTable 2 (nonEmpty ds) ∧
        (e.get (q 0)).half = (e.get ((ins.ph (pre.length + 1)).priv 0)).half + having Range.widthTable 1 (nonEmpty ds) ∧
        (e.get (q 0)).ambi = (e.get ((ins.ph (pre.length + 1)).priv 0)).ambi + having Range.widthTable (-1) (nonEmpty ds)
      } :: post) := by
  refine mapper h (single_plain hs (by simp) (fun _ => rfl)) _ _ (fun _ _ => rfl) bytes_single (fun _ => rfl)
    (initPriv_get (placed_le h) (by omega) e id (fun x => by rw [hi]; rfl)) rfl ?_
  intro ds hb _
  refine ⟨rfl, (flatMap_single _).symm, rfl, ?_⟩
  intro q hq
  rw [foldl_widths _ (nonEmpty_bytes hb).1] at hq
  simp only [hq, id_eq, and_self]

theorem sound_score (f : Datum → Nat) : Sound (score f) (fun _ => True) where
  act := by
    intro t d _ _ hd t' out b h'
    simp only [score] at h'
    split at h'
    · simp at h'
    · simp only [Option.some.injEq, Prod.mk.injEq] at h'
      obtain ⟨rfl, rfl, rfl⟩ := h'
      exact ⟨trivial, bytes_single d hd, by simp⟩
  flush := by intro t _; exact ⟨trivial, by simp [score]⟩

/-- C34.  A phase `SCORE` passes its data through unchanged, and its counter grows by the sum of their scores. -/
theorem C34_score (h : Placed st ip ins pre s post) {e : Lens π Nat} {f : Datum → Nat}
    (hs : Only s .inter (plain e (score f))) (hi : ∀ x, ip (pre.length + 1) 0 x = x) :
    Converts st ip ins (pre ++ {
      out := nonEmpty
      fin := fun ds q => e.get (q 0) = e.get ((ins.ph (pre.length + 1)).priv 0) + total f (nonEmpty ds) } :: post) := by
  have run : ∀ (ds : List Datum) (t : Nat), ((score f).run true false t ds).out = ds ∧
      ((score f).run true false t ds).priv = t + total f ds := by
    intro ds
    induction ds with
    | nil => intro t; exact ⟨rfl, rfl⟩
    | cons d ds ih =>
      intro t
      rw [Handler.run]
      by_cases h0 : f d = 0
      · have he : (score f).act t d = none := by simp [score, h0]
        obtain ⟨a, b⟩ := ih t
        rw [he]
        simp only [Out.after, if_true, a, b, total, List.map_cons, List.sum_cons, h0]
        exact ⟨rfl, by omega⟩
      · have he : (score f).act t d = some (t + f d, [d], false) := by simp [score, h0]
        obtain ⟨a, b⟩ := ih (t + f d)
        rw [he]
        simp only [Out.after, a, b, total, List.map_cons, List.sum_cons]
        exact ⟨rfl, by omega⟩
  refine single_converts h (single_plain hs (by simp) (fun _ => rfl)) (sound_score f)
    (initPriv_get (placed_le h) (by omega) e id (fun x => by rw [hi]; rfl)) trivial rfl ?_
  intro ds _ _
  rw [passes_inter hs]
  obtain ⟨a, b⟩ := run (nonEmpty ds) (e.get ((ins.ph (pre.length + 1)).priv 0))
  exact ⟨rfl, a.symm, by simp, fun q hq => hq.trans b⟩

/-! ### Data plumbing -/

/-- C35.  inter `PASS` without arguments changes nothing. -/
theorem C35_pass (h : Placed st ip ins pre s post) {e : Lens π Int} (hs : Only s .inter (plain e (pass none 0))) :
    Converts st ip ins (pre ++ { out := nonEmpty } :: post) := by
  refine mapper h (single_plain hs (by simp) (fun _ => rfl)) (fun t _ => t) _ (fun _ _ => rfl) bytes_single (fun _ => rfl)
    rfl rfl ?_
  intro ds hb _
  exact ⟨rfl, (flatMap_single _).symm, rfl, fun _ _ => trivial⟩

/-- C35.  `NULL` delivers nothing and counts nothing, between phases or at the end. -/
theorem C35_null (h : Placed st ip ins pre s post) {ty : PType} (hty : ty ≠ .from_) {e : Lens π Unit}
    (hs : Only s ty (plain e null)) : Converts st ip ins (pre ++ { out := fun _ => [] } :: post) := by
  refine mapper h (single_plain hs hty (fun _ => rfl)) (fun t _ => t) _ (fun _ _ => rfl) (by intro d _ x hx; simp at hx)
    (fun _ => rfl) rfl rfl ?_
  intro ds hb _
  exact ⟨rfl, by induction (nonEmpty ds) with | nil => rfl | cons _ _ ih => simp, rfl, fun _ _ => trivial⟩

/-- C35.  `INSERT` puts its `before` and `after` data around each datum. -/
theorem C35_insert (h : Placed st ip ins pre s post) {e : Lens π Unit} {before after : List Datum}
    (hb : AllBytes before) (ha : AllBytes after) (hs : Only s .inter (plain e (Inter.insert before after))) :
    Converts st ip ins (pre ++ { out := fun ds => (nonEmpty ds).flatMap fun d => before ++ d :: after } :: post) := by
  refine mapper h (single_plain hs (by simp) (fun _ => rfl)) (fun t _ => t) (fun d => before ++ d :: after)
    (fun _ _ => by simp [Inter.insert]) ?_ (fun _ => rfl) rfl rfl ?_
  · intro d hd x hx
    simp only [List.mem_append, List.mem_cons] at hx
    rcases hx with hx | rfl | hx
    · exact hb _ hx
    · exact hd
    · exact ha _ hx
  · intro ds hb _
    exact ⟨rfl, rfl, rfl, fun _ _ => trivial⟩

/-- C35.  `RAW` strips exactly the type byte. -/
theorem C35_raw (h : Placed st ip ins pre s post) {e : Lens π Unit} (hs : Only s .to_ (plain e raw)) :
    Converts st ip ins (pre ++ { out := fun ds => (nonEmpty ds).map List.tail } :: post) := by
  refine mapper h (single_plain hs (by simp) (fun _ => rfl)) (fun t _ => t) (fun d => [d.tail])
    (fun _ d => by simp [raw]) ?_ (fun _ => rfl) rfl rfl ?_
  · intro d hd x hx
    simp only [List.mem_cons, List.not_mem_nil, or_false] at hx
    subst hx
    exact fun b hb => hd b (List.mem_of_mem_tail hb)
  · intro ds hb _
    refine ⟨rfl, ?_, rfl, fun _ _ => trivial⟩
    show (nonEmpty ds).map List.tail = _
    induction (nonEmpty ds) with
    | nil => rfl
    | cons d ds ih => simp only [List.map_cons, List.flatMap_cons, ih]; rfl

theorem run_toPass (f : Filter) (t : Unit) (ds : List Datum) : (toPass f).run false false t ds =
    ⟨ds.filter (fun d => admits f d), ds.countP (fun d => !admits f d), ()⟩ := by
  induction ds generalizing t with
  | nil => rfl
  | cons d ds ih =>
    rw [Handler.run]
    simp only [toPass] at ih ⊢
    cases hf : admits f d <;> simp only [Bool.false_eq_true, if_false, if_true, ih, Out.after] <;> simp [hf]

theorem sound_toPass (f : Filter) : Sound (toPass f) (fun _ => True) where
  act := by
    intro t d _ _ hd t' out b h'
    simp only [toPass] at h'
    split at h'
    · simp only [Option.some.injEq, Prod.mk.injEq] at h'
      obtain ⟨_, rfl, rfl⟩ := h'
      exact ⟨trivial, bytes_single d hd, by simp⟩
    · simp at h'
  flush := by intro t _; exact ⟨trivial, by simp [toPass]⟩

/-- C35.  As an output codec, `PASS#FOR=…` delivers exactly the data the filter admits; the others are counted as
output errors. -/
theorem C35_to_pass (h : Placed st ip ins pre s post) {e : Lens π Unit} {f : Filter}
    (hs : Only s .to_ (plain e (toPass f))) :
    Converts st ip ins (pre ++ {
      out := fun ds => (nonEmpty ds).filter fun d => admits f d
      outErrors := fun ds => (nonEmpty ds).countP fun d => !admits f d } :: post) := by
  refine single_converts h (single_plain hs (by simp) (fun _ => rfl)) (sound_toPass f) rfl trivial rfl ?_
  intro ds _ _
  rw [passes_to hs, run_toPass]
  exact ⟨rfl, rfl, rfl, fun _ _ => trivial⟩

theorem sound_pass (f : Filter) (n : Int) : Sound (pass f n) (fun _ => True) where
  act := by
    intro t d _ _ hd t' out b h'
    simp only [pass] at h'
    split at h'
    · split at h'
      · split at h'
        · simp only [Option.some.injEq, Prod.mk.injEq] at h'
          obtain ⟨rfl, rfl, rfl⟩ := h'
          exact ⟨trivial, bytes_single d hd, by simp⟩
        · simp at h'
      · simp only [Option.some.injEq, Prod.mk.injEq] at h'
        obtain ⟨rfl, rfl, rfl⟩ := h'
        exact ⟨trivial, bytes_single d hd, by simp⟩
    · simp at h'
  flush := by intro t _; exact ⟨trivial, by simp [pass]⟩

theorem noHold_pass (f : Filter) (n : Int) : NoHold (pass f n) := by
  intro t d t' o b h'
  simp only [pass] at h'
  split at h'
  · split at h'
    · split at h'
      · simp only [Option.some.injEq, Prod.mk.injEq] at h'; exact h'.2.2.symm
      · simp at h'
    · simp only [Option.some.injEq, Prod.mk.injEq] at h'; exact h'.2.2.symm
  · simp at h'

theorem sound_null : Sound null (fun _ => True) :=
  sound_of (fun t _ => (t, [])) (fun _ _ => rfl) (by intro _ _ _ x hx; simp at hx) (fun _ => rfl)

theorem noHold_of {c : Handler σ} (f : σ → Datum → σ) (g : σ → Datum → List Datum)
    (ha : ∀ t d, c.act t d = some (f t d, g t d, false)) : NoHold c := by
  intro t d t' o b h
  rw [ha] at h
  simp only [Option.some.injEq, Prod.mk.injEq] at h
  exact h.2.2.symm

/-- The phase has the codecs `c` and `d`. -/
structure Both (s : Static π) (ty : PType) (c d : Codec π) : Prop where
  type : s.type = ty
  two : s.codecn = 1
  first : s.codecs 0 = c
  second : s.codecs 1 = d

theorem member_plain {s : Static π} (hn : s.type ≠ .from_) {e : Lens π σ} {h : Handler σ} {j : Nat}
    (h0 : s.codecs j = plain e h) (hf : ∀ t, h.flush t = (t, [])) : Member s j (h.on e) :=
  any_member hn h0 (.inr ⟨rfl, fun x => by simp only [Handler.on, hf, e.put_get]⟩)

theorem run_pass_null (f : Filter) (n : Int) (hn : 0 ≤ n) (ps : Bool) (t : Int) (ht : 0 ≤ t ∧ t ≤ n) (ds : List Datum) :
    (((pass f n).either null).run ps false (t, ()) ds).out =
      (if n = 0 then ds.filter (fun d => admits f d) else (ds.filter (fun d => admits f d)).take (n - t).toNat) ∧
    (((pass f n).either null).run ps false (t, ()) ds).refused = 0 := by
  induction ds generalizing t with
  | nil => simp [Handler.run]
  | cons d ds ih =>
    rw [Handler.run]
    cases hf : admits f d
    · have he : ((pass f n).either null).act (t, ()) d = some ((t, ()), [], false) := by
        simp [Handler.either, pass, null, hf]
      rw [he]
      obtain ⟨a, b⟩ := ih t ht
      simp only [Out.after, List.nil_append]
      exact ⟨by rw [a]; simp [hf], b⟩
    · by_cases h0 : n = 0
      · have he : ((pass f n).either null).act (t, ()) d = some ((t, ()), [d], false) := by
          simp [Handler.either, pass, hf, h0]
        rw [he]
        obtain ⟨a, b⟩ := ih t ht
        simp only [Out.after, a, b]
        simp [hf, h0]
      · by_cases hl : t < n
        · have he : ((pass f n).either null).act (t, ()) d = some ((t + 1, ()), [d], false) := by
            simp [Handler.either, pass, hf, h0, hl]
          rw [he]
          obtain ⟨a, b⟩ := ih (t + 1) (by omega)
          simp only [Out.after]
          refine ⟨?_, b⟩
          rw [a]
          obtain ⟨m, hm⟩ : ∃ m, (n - t).toNat = m + 1 := ⟨(n - (t + 1)).toNat, by omega⟩
          have hm2 : (n - (t + 1)).toNat = m := by omega
          simp [h0, hf, hm, hm2]
        · have he : ((pass f n).either null).act (t, ()) d = some ((t, ()), [], false) := by
            simp [Handler.either, pass, null, hf, h0, hl]
          rw [he]
          obtain ⟨a, b⟩ := ih t ht
          simp only [Out.after, List.nil_append]
          refine ⟨?_, b⟩
          rw [a]
          have hz : (n - t).toNat = 0 := by omega
          simp [hz, h0]

/-- C35.  inter `PASS#FOR=…&LIMIT=n,NULL`: exactly the first `n` data the filter admits (all of them without a
limit). -/
theorem C35_pass_null (h : Placed st ip ins pre s post) {e : Lens π Int} {e1 : Lens π Unit} {f : Filter} {n : Nat}
    (hs : Both s .inter (plain e (pass f n)) (plain e1 null)) (hi : ∀ x, e.get (ip (pre.length + 1) 0 x) = 0) :
    Converts st ip ins (pre ++ {
      out := fun ds => if n = 0 then (nonEmpty ds).filter (fun d => admits f d)
        else ((nonEmpty ds).filter fun d => admits f d).take n } :: post) := by
  have hn : s.type ≠ .from_ := by rw [hs.type]; simp
  refine pair_converts (e1 := e1) h ⟨hn, hs.two, member_plain hn hs.first (fun _ => rfl), member_plain hn hs.second (fun _ => rfl),
    noHold_pass f n, noHold_of (fun t _ => t) (fun _ _ => []) (fun _ _ => rfl)⟩ (sound_pass f n) sound_null
    (initPriv_get (placed_le h) (by omega) e (fun _ => 0) hi) rfl trivial trivial rfl ?_
  intro ds _ _
  obtain ⟨a, b⟩ := run_pass_null f n (by omega) (passes s) 0 (by omega) (nonEmpty ds)
  refine ⟨rfl, ?_, ?_, fun _ _ => trivial⟩
  · rw [a]; simp only [Int.natCast_eq_zero, Int.sub_zero, Int.toNat_natCast]
  · rw [b]; simp

/-! ### ANY as last codec -/

/-- Data the first codec refuses on its way through a list. -/
def refusals (c : Handler σ) (t : σ) : List Datum → List (Option (List Datum))
  | [] => []
  | d :: ds => match c.act t d with
    | some (t', o, _) => some o :: refusals c t' ds
    | none => none :: refusals c t ds

theorem run_any (c : Handler σ) (data : List Datum) (cnt : Bool) (ps : Bool) (t : σ) (u : Nat) (ds : List Datum) :
    ((c.either (any data cnt)).run ps false (t, u) ds).out = (refusals c t ds).flatMap (fun o => o.getD data) ∧
    ((c.either (any data cnt)).run ps false (t, u) ds).refused = 0 ∧
    ((c.either (any data cnt)).run ps false (t, u) ds).priv.2 =
      u + if cnt then (refusals c t ds).countP (fun o => o == none) else 0 := by
  induction ds generalizing t u with
  | nil => simp [Handler.run, refusals]
  | cons d ds ih =>
    rw [Handler.run]
    cases ha : c.act t d with
    | some r =>
      obtain ⟨t', o, b⟩ := r
      have he : (c.either (any data cnt)).act (t, u) d = some ((t', u), o, false) := by simp only [Handler.either, ha]
      rw [he]
      obtain ⟨x, y, z⟩ := ih t' u
      simp only [Out.after, x, y, z, refusals, ha]
      simp
    | none =>
      have he : (c.either (any data cnt)).act (t, u) d = some ((t, if cnt then u + 1 else u), data, false) := by
        simp only [Handler.either, ha, any, Option.map_some]
      rw [he]
      obtain ⟨x, y, z⟩ := ih t (if cnt then u + 1 else u)
      simp only [Out.after, x, y, z, refusals, ha]
      cases cnt <;> simp <;> omega

/-- C61.  With `ANY#data&ERROR=counter` as the last output codec, no datum is left to the engine's error handling:
each datum the codec before it refuses comes out as `data`, in place, the counter grows by the number of those
data, and no further output errors are counted. -/
theorem C61_any (h : Placed st ip ins pre s post) {e : Lens π σ} {e1 : Lens π Nat} {c : Handler σ} {data : List Datum}
    {cnt : Bool} (ht : s.type = .to_) (h2 : s.codecn = 1) (hm : Member s 0 (c.on e)) (hn : NoHold c) {I : σ → Prop}
    (hI : Sound c I) (hda : AllBytes data)
    (hs : s.codecs 1 = plain e1 (any data cnt)) {t : σ} (hi : e.get (initPriv st ip ins (pre.length + 1) 0) = t) (hit : I t)
    {u : Nat} (hu : e1.get (initPriv st ip ins (pre.length + 1) 1) = u) :
    Converts st ip ins (pre ++ {
      out := fun ds => (refusals c t (nonEmpty ds)).flatMap fun o => o.getD data
      outErrors := fun _ => 0
      fin := fun ds q => cnt = true → e1.get (q 1) = u + (refusals c t (nonEmpty ds)).countP (fun o => o == none) } :: post) := by
  have hnf : s.type ≠ .from_ := by rw [ht]; simp
  refine pair_converts h ⟨hnf, h2, hm, member_plain hnf hs (fun _ => rfl),
    hn, noHold_of (fun c _ => if cnt then c + 1 else c) (fun _ _ => data) (fun _ _ => rfl)⟩ hI
    (sound_of (fun c _ => (if cnt then c + 1 else c, data)) (fun _ _ => rfl) (fun _ _ _ => hda) (fun _ => rfl))
    hi hu hit trivial rfl ?_
  intro ds _ _
  obtain ⟨a, b, c⟩ := run_any c data cnt (passes s) t u (nonEmpty ds)
  refine ⟨rfl, a.symm, by rw [b]; simp, ?_⟩
  intro q hq hc
  have := congrArg Prod.snd hq
  simp only at this
  rw [this, c, if_pos hc]

/-! ### TRIM-WIDTH -/

/-- Display width of a datum: full 2, half 1, ambiguous `ambi`, others 0. -/
def displayWidth (ambi : Nat) (d : Datum) : Nat :=
  match valueIn Range.widthTable d with
  | some 2 => 2
  | some 1 => 1
  | some (-1) => ambi
  | _ => 0

theorem widthOf_eq (ambi : Nat) {d : Datum} (hd : IsBytes d) : widthOf ambi d = displayWidth ambi d := by
  simp only [widthOf, displayWidth, row_valueIn width_ordered hd, Widths.add]
  generalize valueIn Range.widthTable d = v
  split <;> simp_all

theorem run_trim (ambi : Nat) (ps : Bool) (n : Int) (ds : List Datum) (hb : AllBytes ds) :
    ((trim ambi).run ps false n ds).out = longestFit (displayWidth ambi) n ds ∧
    ((trim ambi).run ps false n ds).refused = 0 := by
  have stuck : ∀ (ds : List Datum), ((trim ambi).run ps false (-1) ds).out = [] ∧
      ((trim ambi).run ps false (-1) ds).refused = 0 := by
    intro ds
    induction ds with
    | nil => exact ⟨rfl, rfl⟩
    | cons d ds ih =>
      rw [Handler.run]
      simp only [trim, ge_iff_le, show ¬ ((widthOf ambi d : Int) ≤ -1) by omega, if_false] at ih ⊢
      exact ⟨by simpa [Out.after] using ih.1, ih.2⟩
  induction ds generalizing n with
  | nil => exact ⟨rfl, rfl⟩
  | cons d ds ih =>
    rw [Handler.run]
    simp only [trim, ge_iff_le, widthOf_eq ambi (hb d (by simp))] at ih stuck ⊢
    simp only [longestFit]
    by_cases hle : (displayWidth ambi d : Int) ≤ n
    · simp only [hle, if_true, Out.after]
      obtain ⟨a, b⟩ := ih (n - displayWidth ambi d) (fun x hx => hb x (by simp [hx]))
      exact ⟨by rw [a]; rfl, b⟩
    · simp only [hle, if_false, Out.after, List.nil_append]
      exact stuck ds

theorem sound_trim (ambi : Nat) : Sound (trim ambi) (fun _ => True) where
  act := by
    intro t d _ _ hd t' out b h'
    simp only [trim] at h'
    split at h'
    · simp only [Option.some.injEq, Prod.mk.injEq] at h'
      obtain ⟨rfl, rfl, rfl⟩ := h'
      exact ⟨trivial, bytes_single d hd, by simp⟩
    · simp only [Option.some.injEq, Prod.mk.injEq] at h'
      obtain ⟨rfl, rfl, rfl⟩ := h'
      exact ⟨trivial, by simp, by simp⟩
  flush := by intro t _; exact ⟨trivial, by simp [trim]⟩

/-- C33.  `TRIM-WIDTH#n` lets through the longest prefix of its data whose display width is at most `n`
(`longestFit_prefix`, `longestFit_fits`, `longestFit_longest` in Spec/Inter.lean say that `longestFit` is that). -/
theorem C33_trim (h : Placed st ip ins pre s post) {e : Lens π Int} {ambi : Nat} {n : Int}
    (hs : Only s .inter (plain e (trim ambi))) (hi : ∀ x, e.get (ip (pre.length + 1) 0 x) = n) :
    Converts st ip ins (pre ++ { out := fun ds => longestFit (displayWidth ambi) n (nonEmpty ds) } :: post) := by
  refine single_converts h (single_plain hs (by simp) (fun _ => rfl)) (sound_trim ambi)
    (initPriv_get (placed_le h) (by omega) e (fun _ => n) hi) trivial rfl ?_
  intro ds hb _
  obtain ⟨a, b⟩ := run_trim ambi (passes s) n (nonEmpty ds) (nonEmpty_bytes hb).1
  exact ⟨rfl, a.symm, by rw [b]; simp, fun _ _ => trivial⟩

/-- C33.  The output is a prefix, fits, and no longer prefix fits. -/
theorem C33_longest (ambi : Nat) (n : Int) (hn : 0 ≤ n) (ds p : List Datum) :
    p = longestFit (displayWidth ambi) n ds ↔
      (p <+: ds ∧ (total (displayWidth ambi) p : Int) ≤ n ∧
        ∀ q, q <+: ds → (total (displayWidth ambi) q : Int) ≤ n → q <+: p) := by
  constructor
  · rintro rfl
    exact ⟨longestFit_prefix _ _ _, longestFit_fits _ _ hn _, fun q hq hf => longestFit_longest _ _ _ _ hq hf⟩
  · rintro ⟨a, b, c⟩
    have h1 := longestFit_longest (displayWidth ambi) n ds p a b
    have h2 := c _ (longestFit_prefix _ _ _) (longestFit_fits _ _ hn _)
    exact h1.eq_of_length (Nat.le_antisymm h1.length_le h2.length_le)

/-! ### STRINGS -/

/-- The runs of data admitted that are long enough, with `before` and `after` around each. -/
def longRuns (f : Datum → Bool) (n : Nat) (before after : List Datum) (ds : List Datum) : List Datum :=
  ((runs f ds).filter fun r => decide (n ≤ r.length)).flatMap fun r => before ++ r ++ after

theorem strings_flush (n : Nat) (before after : List Datum) (t : Strings) (ha : t.acc = t.queue.length)
    (hd : t.dangling = true → t.queue = [] ∧ 0 < n) :
    (t.flush n before after).2 =
        (((if t.queue = [] then [] else [t.queue]).filter fun r => decide (n ≤ r.length)).flatMap
          fun r => before ++ r ++ after) ∧
    (t.flush n before after).1.queue = [] ∧ (t.flush n before after).1.acc = 0 ∧
    ((t.flush n before after).1.dangling = true → 0 < n) := by
  unfold Strings.flush
  by_cases hq : t.queue = []
  · cases hdn : t.dangling with
    | false => simp [hq, hdn, ha]
    | true =>
      have := (hd hdn).2
      have h0 : ¬ (t.acc ≥ n) := by rw [ha, hq]; simp; omega
      simp [hq, h0, this]
  · by_cases hl : t.acc ≥ n
    · have hl' : n ≤ t.queue.length := by omega
      simp [hq, hl, hl']
    · have hl' : ¬ (n ≤ t.queue.length) := by omega
      simp [hq, hl, hl']
      omega

theorem run_strings (f : Datum → Bool) (n : Nat) (before after : List Datum) (ps : Bool) (ds : List Datum) :
    ∀ (w : Bool) (t : Strings), t.acc = t.queue.length → (t.dangling = true → t.queue = [] ∧ 0 < n) →
      (w = false → t.queue = []) →
      ((strings f n before after).run ps w t ds).out =
        ((runsFrom f t.queue ds).filter fun r => decide (n ≤ r.length)).flatMap (fun r => before ++ r ++ after) ∧
      ((strings f n before after).run ps w t ds).refused = 0 := by
  induction ds with
  | nil =>
    intro w t ha hd hw
    cases w with
    | false => simp [Handler.run, runsFrom, hw rfl]
    | true =>
      obtain ⟨a, _⟩ := strings_flush n before after t ha hd
      simp only [Handler.run, strings, runsFrom]
      exact ⟨a, trivial⟩
  | cons d ds ih =>
    intro w t ha hd hw
    rw [Handler.run, runsFrom]
    cases hf : f d with
    | true =>
      have he : (strings f n before after).act t d = some (⟨t.queue ++ [d], t.acc + 1, false, t.bad⟩, [], true) := by
        simp only [strings, hf, if_true]
      rw [he]
      simp only [Out.after, List.nil_append, if_true]
      exact ih true _ (by simp [ha]) (by simp) (by simp)
    | false =>
      have he : (strings f n before after).act t d = some ((t.flush n before after).1, (t.flush n before after).2, false) := by
        simp only [strings, hf, Bool.false_eq_true, if_false]
      rw [he]
      obtain ⟨a, b, c, e⟩ := strings_flush n before after t ha hd
      obtain ⟨x, y⟩ := ih false (t.flush n before after).1 (by rw [b, c]; rfl) (fun h => ⟨b, e h⟩) (fun _ => b)
      simp only [Out.after, x, y, a, b, Bool.false_eq_true, if_false, List.filter_append, List.flatMap_append, and_self]

theorem flush_bytes {n : Nat} {before after : List Datum} (hb : AllBytes before) (ha : AllBytes after) {t : Strings}
    (ht : AllBytes t.queue) : AllBytes (t.flush n before after).1.queue ∧ AllBytes (t.flush n before after).2 := by
  unfold Strings.flush
  split
  · exact ⟨ht, by intro x hx; simp at hx⟩
  · split
    · refine ⟨by intro x hx; simp at hx, ?_⟩
      intro x hx
      simp only [List.mem_append] at hx
      rcases hx with (hx | hx) | hx
      · exact hb x hx
      · exact ht x hx
      · exact ha x hx
    · exact ⟨by intro x hx; simp at hx, by intro x hx; simp at hx⟩

theorem sound_strings {f : Datum → Bool} {n : Nat} {before after : List Datum} (hb : AllBytes before)
    (ha : AllBytes after) : Sound (strings f n before after) (fun t => AllBytes t.queue) where
  act := by
    intro t d ht _ hd t' out b h'
    simp only [strings] at h'
    split at h'
    · simp only [Option.some.injEq, Prod.mk.injEq] at h'
      obtain ⟨rfl, rfl, rfl⟩ := h'
      refine ⟨?_, by simp, ?_⟩
      · intro x hx
        simp only [List.mem_append, List.mem_cons, List.not_mem_nil, or_false] at hx
        rcases hx with hx | rfl
        · exact ht x hx
        · exact hd
      · intro _ d' _ _
        simp only [strings]
        split <;> simp
    · simp only [Option.some.injEq, Prod.mk.injEq] at h'
      obtain ⟨rfl, rfl, rfl⟩ := h'
      obtain ⟨x, y⟩ := flush_bytes hb ha (n := n) ht
      exact ⟨x, y, by simp⟩
  flush := by
    intro t ht
    exact flush_bytes hb ha ht

/-- The state after a conversion, from which the next `bsdconv_init` starts. -/
def stringsAfter (f : Datum → Bool) (n : Nat) (before after : List Datum) (ds : List Datum) : Strings :=
  ((strings f n before after).run true false ⟨[], 0, false, false⟩ ds).priv

/-- C36 (partial: for inputs on which the codec does not give the same memory back twice, i.e. `bad` stays clear;
the full claim is for all inputs).  `STRINGS#n` delivers exactly the maximal runs of at least `n` admitted data. -/
theorem C36_strings_partial (h : Placed st ip ins pre s post) {e : Lens π Strings} {f : Datum → Bool} {n : Nat}
    {before after : List Datum} (hb : AllBytes before) (ha : AllBytes after)
    (hs : Only s .inter (flushing e (strings f n before after)))
    (hi : ∀ x, e.get (ip (pre.length + 1) 0 x) = (e.get x).init)
    (hg : (e.get ((ins.ph (pre.length + 1)).priv 0)).init = ⟨[], 0, false, false⟩) :
    Converts st ip ins (pre ++ {
      out := fun ds => longRuns f n before after (nonEmpty ds)
      ok := fun ds => (stringsAfter f n before after (nonEmpty ds)).bad = false
      fin := fun ds q => e.get (q 0) = stringsAfter f n before after (nonEmpty ds) } :: post) := by
  refine single_converts h (single_flushing hs (by simp)) (sound_strings hb ha)
    ((initPriv_get (placed_le h) (by omega) e Strings.init hi).trans hg) (by intro x hx; simp at hx) rfl ?_
  intro ds _ _
  rw [passes_inter hs]
  obtain ⟨a, b⟩ := run_strings f n before after true (nonEmpty ds) false ⟨[], 0, false, false⟩ rfl (by simp) (by simp)
  exact ⟨rfl, a.symm, by rw [b]; simp, fun q hq => hq⟩

/-- C36.  When every run is long enough nothing is ever given back twice, neither in this conversion nor by the next
`bsdconv_init`. -/
theorem C36_safe (f : Datum → Bool) (n : Nat) (before after : List Datum) (ds : List Datum)
    (h : ∀ r ∈ runs f ds, n ≤ r.length) :
    (stringsAfter f n before after ds).bad = false ∧ (stringsAfter f n before after ds).init.bad = false := by
  have key : ∀ (ds : List Datum) (w : Bool) (t : Strings), t.acc = t.queue.length → t.dangling = false → t.bad = false →
      (∀ r ∈ runsFrom f t.queue ds, n ≤ r.length) →
      ((strings f n before after).run true w t ds).priv.bad = false ∧
      ((strings f n before after).run true w t ds).priv.dangling = false := by
    have flush : ∀ t : Strings, t.acc = t.queue.length → t.dangling = false → t.bad = false →
        (t.queue ≠ [] → n ≤ t.queue.length) →
        (t.flush n before after).1.bad = false ∧ (t.flush n before after).1.dangling = false ∧
        (t.flush n before after).1.acc = 0 ∧ (t.flush n before after).1.queue = [] := by
      intro t ha hd hb hr
      unfold Strings.flush
      by_cases hq : t.queue = []
      · simp [hq, hd, hb, ha]
      · have := hr hq
        have hl : t.acc ≥ n := by omega
        simp [hq, hd, hb, hl]
    intro ds
    induction ds with
    | nil =>
      intro w t ha hd hb hr
      cases w with
      | false => exact ⟨hb, hd⟩
      | true =>
        obtain ⟨a, b, _⟩ := flush t ha hd hb (fun hq => hr t.queue (by simp [runsFrom, hq]))
        exact ⟨a, b⟩
    | cons d ds ih =>
      intro w t ha hd hb hr
      rw [Handler.run]
      rw [runsFrom] at hr
      cases hf : f d with
      | true =>
        have he : (strings f n before after).act t d = some (⟨t.queue ++ [d], t.acc + 1, false, t.bad⟩, [], true) := by
          simp only [strings, hf, if_true]
        rw [he]
        simp only [hf, if_true] at hr
        exact ih true _ (by simp [ha]) rfl hb hr
      | false =>
        have he : (strings f n before after).act t d = some ((t.flush n before after).1, (t.flush n before after).2, false) := by
          simp only [strings, hf, Bool.false_eq_true, if_false]
        rw [he]
        simp only [hf, Bool.false_eq_true, if_false] at hr
        obtain ⟨a, b, c, e⟩ := flush t ha hd hb (fun hq => hr t.queue (by simp [hq]))
        refine ih false _ (by rw [c, e]; rfl) b a ?_
        intro r hr'
        rw [e] at hr'
        exact hr r (by simp [hr'])
  obtain ⟨a, b⟩ := key ds false ⟨[], 0, false, false⟩ rfl rfl rfl h
  exact ⟨a, by simp only [stringsAfter, Strings.init] at a ⊢; simp [a, b]⟩

/-- C36 fails: a run that is too short at the end of a conversion is given back, and given back again by the next
`bsdconv_init` (or `bsdconv_destroy`); one followed by two other data is given back twice within the conversion. -/
theorem C36_violated :
    (stringsAfter (fun d => d == [1, 0x41]) 2 [] [] [[1, 0x41]]).init.bad = true ∧
    (stringsAfter (fun d => d == [1, 0x41]) 2 [] [] [[1, 0x41], [3, 0x00], [3, 0x00]]).bad = true := by decide

/-! ### Padding of ambiguous characters -/

/-- A datum whose character is listed as of ambiguous width. -/
def isAmbiguous (d : Datum) : Bool := (valueIn Range.ambiguous d).isSome

/-- No-break space. -/
def nbsp : Datum := [1, 0xA0]

/-- A no-break space after each ambiguous character. -/
def padded (ds : List Datum) : List Datum := ds.flatMap fun d => if isAmbiguous d then [d, nbsp] else [d]

/-- Unicode data: a byte 1 and at least one byte of payload. -/
def isUni : Datum → Bool
  | 1 :: _ :: _ => true
  | _ => false

theorem run_pad (ps : Bool) : ∀ ds, AllBytes ds → pad.run ps false true ds = ⟨padded ds, 0, true⟩ := by
  intro ds hb
  induction ds with
  | nil => rfl
  | cons d ds ih =>
    rw [Handler.run]
    simp only [pad] at ih ⊢
    rw [ih (fun x hx => hb x (by simp [hx])), row_valueIn ambiguous_ordered (hb d (by simp))]
    simp only [Out.after, padded, List.flatMap_cons, isAmbiguous, Bool.and_true]
    rfl

theorem sound_pad : Sound pad (fun _ => True) := by
  refine sound_of (fun t d => (t, if (row Range.ambiguous d).isSome && t then [d, [1, 0xA0]] else [d])) (fun _ _ => rfl) ?_ (fun _ => rfl)
  intro t d hd x hx
  simp only at hx
  split at hx
  · simp only [List.mem_cons, List.not_mem_nil, or_false] at hx
    rcases hx with rfl | rfl
    · exact hd
    · decide
  · exact bytes_single d hd x hx

/-- C32.  `AMBIGUOUS-PAD` puts a no-break space after each ambiguous character and nothing else. -/
theorem C32_pad (h : Placed st ip ins pre s post) {e : Lens π Bool} (hs : Only s .inter (plain e pad))
    (hi : ∀ x, e.get (ip (pre.length + 1) 0 x) = true) :
    Converts st ip ins (pre ++ { out := fun ds => padded (nonEmpty ds) } :: post) := by
  refine single_converts h (single_plain hs (by simp) (fun _ => rfl)) sound_pad
    (initPriv_get (placed_le h) (by omega) e (fun _ => true) hi) trivial rfl ?_
  intro ds hb _
  rw [run_pad _ _ (nonEmpty_bytes hb).1]
  exact ⟨rfl, rfl, by simp, fun _ _ => trivial⟩

theorem unpad_padded (ps : Bool) (ds : List Datum) (hb : AllBytes ds) (hu : ∀ d ∈ ds, isUni d = true) :
    unpad.run ps false ⟨false, true⟩ (padded ds) = ⟨ds, 0, ⟨false, true⟩⟩ := by
  induction ds with
  | nil => rfl
  | cons d ds ih =>
    have ih := ih (fun x hx => hb x (by simp [hx])) (fun x hx => hu x (by simp [hx]))
    have hd := hb d (by simp)
    have hud := hu d (by simp)
    simp only [padded, List.flatMap_cons] at ih ⊢
    match d, hud with
    | 1 :: b :: r, _ =>
      cases ha : isAmbiguous (1 :: b :: r) with
      | false =>
        have e : unpad.act ⟨false, true⟩ (1 :: b :: r) = some (⟨false, true⟩, [1 :: b :: r], false) := by
          simp only [unpad, row_valueIn ambiguous_ordered hd]
          simp only [isAmbiguous] at ha
          simp [ha]
        simp only [Bool.false_eq_true, if_false, List.cons_append, List.nil_append]
        rw [Handler.run_some e, ih]
        rfl
      | true =>
        have e : unpad.act ⟨false, true⟩ (1 :: b :: r) = some (⟨true, true⟩, [1 :: b :: r], false) := by
          simp only [unpad, row_valueIn ambiguous_ordered hd]
          simp only [isAmbiguous] at ha
          simp [ha]
        have e2 : unpad.act ⟨true, true⟩ nbsp = some (⟨false, true⟩, [], false) := by
          simp [unpad, nbsp]
        simp only [if_true, List.cons_append, List.nil_append]
        rw [Handler.run_some e, Handler.run_some e2, ih]
        rfl

theorem sound_unpad : Sound unpad (fun _ => True) where
  act := by
    intro t d _ _ hd t' out b h'
    simp only [unpad] at h'
    split at h'
    · split at h'
      · simp only [Option.some.injEq, Prod.mk.injEq] at h'
        obtain ⟨rfl, rfl, rfl⟩ := h'
        exact ⟨trivial, by simp, by simp⟩
      · simp only [Option.some.injEq, Prod.mk.injEq] at h'
        obtain ⟨rfl, rfl, rfl⟩ := h'
        exact ⟨trivial, bytes_single _ hd, by simp⟩
    · simp only [Option.some.injEq, Prod.mk.injEq] at h'
      obtain ⟨rfl, rfl, rfl⟩ := h'
      exact ⟨trivial, by simp, by simp⟩
  flush := by intro t _; exact ⟨trivial, by simp [unpad]⟩

/-- C32 (partial: for streams of unicode data; the full claim is for all data).  `AMBIGUOUS-UNPAD` takes out what
`AMBIGUOUS-PAD` put in: fed with padded text, it delivers the text. -/
theorem C32_unpad_partial (h : Placed st ip ins pre s post) {e : Lens π Unpad} (hs : Only s .inter (plain e unpad))
    (hi : ∀ x, e.get (ip (pre.length + 1) 0 x) = ⟨false, true⟩) (text : List Datum) (hb : AllBytes text)
    (hu : ∀ d ∈ text, isUni d = true) :
    Converts st ip ins (pre ++ { out := fun _ => text, ok := fun ds => nonEmpty ds = padded text } :: post) := by
  refine single_converts h (single_plain hs (by simp) (fun _ => rfl)) sound_unpad
    (initPriv_get (placed_le h) (by omega) e (fun _ => ⟨false, true⟩) hi) trivial rfl ?_
  intro ds _ hk
  have hk' : nonEmpty ds = padded text := hk
  rw [hk', unpad_padded _ _ hb hu]
  exact ⟨rfl, rfl, by simp, fun _ _ => trivial⟩

theorem padded_nonEmpty (ds : List Datum) : nonEmpty (padded (nonEmpty ds)) = padded (nonEmpty ds) := by
  rw [nonEmpty, List.filter_eq_self]
  intro d hd
  simp only [padded, List.mem_flatMap] at hd
  obtain ⟨x, hx, hd⟩ := hd
  have hx := (List.mem_filter.1 hx).2
  split at hd <;> simp only [List.mem_cons, List.not_mem_nil, or_false] at hd
  · rcases hd with rfl | rfl
    · exact hx
    · rfl
  · exact hd ▸ hx

/-- C32 (partial: for streams of unicode data; the full claim is for all data).  `AMBIGUOUS-PAD` followed by
`AMBIGUOUS-UNPAD` anywhere in a conversion: what leaves the second phase is what entered the first. -/
theorem C32_round_trip_partial {s1 s2 : Static π} (h : Placed2 st ip ins pre s1 s2 post) {e1 : Lens π Bool}
    {e2 : Lens π Unpad} (hs1 : Only s1 .inter (plain e1 pad)) (hs2 : Only s2 .inter (plain e2 unpad))
    (hi1 : ∀ x, e1.get (ip (pre.length + 1) 0 x) = true) (hi2 : ∀ x, e2.get (ip (pre.length + 2) 0 x) = ⟨false, true⟩)
    (text : List Datum) (hb : AllBytes text) (hu : ∀ d ∈ text, isUni d = true) :
    Converts st ip ins (pre ++ { out := fun ds => padded (nonEmpty ds), ok := fun ds => nonEmpty ds = text } ::
      { out := fun _ => text, ok := fun ds => nonEmpty ds = padded text } :: post) ∧
    nonEmpty (padded (nonEmpty text)) = padded text := by
  have hlen : pre.length + 2 ≤ ins.phasen := by have := h.phasen; omega
  have hnt : nonEmpty text = text := by
    rw [nonEmpty, List.filter_eq_self]
    intro d hd
    match d, hu d hd with
    | 1 :: _ :: _, _ => rfl
  have r2 : Realises s2 (fun q => q = initPriv st ip ins (pre.length + 2))
      { out := fun _ => text, ok := fun ds => nonEmpty ds = padded text } := by
    refine single_real (single_plain hs2 (by simp) (fun _ => rfl)) sound_unpad
      (initPriv_get hlen (by omega) e2 (fun _ => ⟨false, true⟩) hi2) trivial rfl ?_
    intro ds _ hk
    have hk' : nonEmpty ds = padded text := hk
    rw [hk', unpad_padded _ _ hb hu]
    exact ⟨rfl, rfl, by simp, fun _ _ => trivial⟩
  have hp := h.first r2 rfl
  refine ⟨?_, by rw [padded_nonEmpty, hnt]⟩
  have run : ∀ ds, AllBytes ds → pad.run (passes s1) false true ds = ⟨padded ds, 0, true⟩ := run_pad _
  refine single_converts hp (single_plain hs1 (by simp) (fun _ => rfl)) sound_pad
    (initPriv_get (placed_le hp) (by omega) e1 (fun _ => true) hi1) trivial rfl ?_
  intro ds hb _
  rw [run _ (nonEmpty_bytes hb).1]
  exact ⟨rfl, rfl, by simp, fun _ _ => trivial⟩

/-- C32 fails for other data: what is not unicode data does not survive unpadding; and unpadding takes away a
no-break space of the text that follows an ambiguous character with ordinary characters in between (text that was
not padded). -/
theorem C32_violated :
    (unpad.run true false ⟨false, true⟩ (padded [[3, 0x41]])).out = [] ∧
    isAmbiguous [1, 0x03, 0xB1] = true ∧
    (unpad.run true false ⟨false, true⟩ [[1, 0x03, 0xB1], [1, 0x41], [1, 0xA0]]).out = [[1, 0x03, 0xB1], [1, 0x41]] := by
  refine ⟨by decide +kernel, by decide +kernel, by decide +kernel⟩

/-! Non-vacuity: conversions consisting of one phase, fed in two chunks. -/

instance (ds : List Datum) : Decidable (AllBytes ds) := inferInstanceAs (Decidable (∀ d ∈ ds, IsBytes d))

/-- An instance with one phase. -/
def solo (x : π) : Ins π := { ph := fun _ => { priv := fun _ => x }, phasen := 1 }

theorem placed_solo (s : Static π) (ip : Nat → Nat → π → π) (x : π) : Placed (fun _ => s) ip (solo x) [] s [] where
  before := by intro k h; simp at h
  here := rfl
  behind := by intro k h; simp at h
  alt := by intro k h; simp at h
  altPost := by intro k h; simp at h
  phasen := rfl

/-- One phase with one codec. -/
def onePhase (ty : PType) (c : Codec π) : Static π := ⟨ty, fun _ => c, 0⟩

theorem only_one (ty : PType) (c : Codec π) : Only (onePhase ty c) ty c := ⟨rfl, rfl, rfl⟩

/-- Two chunks, everything held back. -/
def twoCalls (x y : Datum) : List Arg := [⟨some x, false, .hold⟩] ++ [⟨some y, true, .hold⟩]

/-- What a one-phase conversion of two non-empty chunks leaves pending. -/
theorem two_calls {P : Proc π} {s : Static π} {ip : Nat → Nat → π → π} {t : π} (h : Converts (fun _ => s) ip (solo t) [P])
    {x y : Datum} (hx : IsBytes x) (hy : IsBytes y) (hok : P.inErrors [x, y] = 0 ∧ P.ok [x, y]) :
    ∃ ds ins', Session (fun _ => s) ((solo t).init (fun _ => s) ip) (twoCalls x y) ds ins' ∧
      nonEmpty ins'.pending = nonEmpty (P.out [x, y]) ∧ P.fin [x, y] (ins'.ph 1).priv ∧
      ins'.oerr = P.outErrors [x, y] := by
  obtain ⟨ds, ins', a, _, b, _, d, c⟩ := h [⟨some x, false, .hold⟩] ⟨some y, true, .hold⟩ (by simp) rfl (by simp)
    (by simp only [List.cons_append, List.nil_append, List.mem_cons, List.not_mem_nil, or_false]
        rintro _ (rfl | rfl) c hc
        · simp only [Option.mem_def, Option.some.injEq] at hc; exact hc ▸ hx
        · simp only [Option.mem_def, Option.some.injEq] at hc; exact hc ▸ hy) [x, y] rfl
    ⟨.inl hok.1, hok.2, trivial⟩
  refine ⟨ds, ins', a, b (by simp), c 0 (by simp), ?_⟩
  rw [d]; simp [solo, runOut]

/-- `COUNT` with the filter for unicode data: two data, one of them unicode. -/
example : ∃ ds ins', Session (fun _ => onePhase .inter (plain (Lens.self Nat) (count (some (Range.typefilter 1)))))
      ((solo 5).init (fun _ => onePhase .inter (plain (Lens.self Nat) (count (some (Range.typefilter 1))))) (fun _ _ x => x))
      (twoCalls [1, 0x41] [3, 0xFF]) ds ins' ∧
    nonEmpty ins'.pending = [[1, 0x41], [3, 0xFF]] ∧ (ins'.ph 1).priv 0 = 6 := by
  obtain ⟨ds, ins', a, b, c, _⟩ := two_calls (C34_count (placed_solo _ (fun _ _ x => x) 5) (only_one _ _) (fun _ => rfl))
    (x := [1, 0x41]) (y := [3, 0xFF]) (by decide) (by decide) ⟨rfl, trivial⟩
  exact ⟨ds, ins', a, b, c⟩

/-- `WIDTH`: a full-width, a half-width character and an earlier count. -/
example : ∃ ds ins', Session (fun _ => onePhase .inter (plain (Lens.self Widths) width))
      ((solo ⟨0, 7, 0⟩).init (fun _ => onePhase .inter (plain (Lens.self Widths) width)) (fun _ _ x => x))
      (twoCalls [1, 0x4E, 0x00] [1, 0x41]) ds ins' ∧
    nonEmpty ins'.pending = [[1, 0x4E, 0x00], [1, 0x41]] ∧ (ins'.ph 1).priv 0 = ⟨1, 8, 0⟩ := by
  obtain ⟨ds, ins', a, b, c, _⟩ := two_calls (C34_width (placed_solo (π := Widths) _ (fun _ _ x => x) ⟨0, 7, 0⟩) (only_one .inter (plain (Lens.self Widths) width)) (fun _ => rfl))
    (x := [1, 0x4E, 0x00]) (y := [1, 0x41]) (by decide) (by decide) ⟨rfl, trivial⟩
  refine ⟨ds, ins', a, b, ?_⟩
  have h2 : having Range.widthTable 2 (nonEmpty [[1, 0x4E, 0x00], [1, 0x41]]) = 1 := by decide +kernel
  have h1 : having Range.widthTable 1 (nonEmpty [[1, 0x4E, 0x00], [1, 0x41]]) = 1 := by decide +kernel
  have h0 : having Range.widthTable (-1) (nonEmpty [[1, 0x4E, 0x00], [1, 0x41]]) = 0 := by decide +kernel
  simp only [h0, h1, h2] at c
  obtain ⟨x, y, z⟩ := c
  show (ins'.ph 1).priv 0 = _
  generalize (ins'.ph 1).priv 0 = w at x y z ⊢
  cases w
  simp only [Lens.self, id_eq, solo] at x y z
  simp [x, y, z]

/-- The sub-instance `WIDTH` that TRIM-WIDTH asks for the width of one datum (/repo/modules/inter/TRIM-WIDTH.c:63-70)
hands the datum back and leaves in its counters what `widthOf` computes. -/
theorem trim_sub (ambi : Nat) {d : Datum} (hd : IsBytes d) (hne : d ≠ []) :
    ∃ ds ins', Session (fun _ => onePhase .inter (plain (Lens.self Widths) width))
        ((solo ⟨0, 0, 0⟩).init (fun _ => onePhase .inter (plain (Lens.self Widths) width)) (fun _ _ x => x))
        [⟨some d, true, .hold⟩] ds ins' ∧
      nonEmpty ins'.pending = [d] ∧
      ((ins'.ph 1).priv 0).full * 2 + ((ins'.ph 1).priv 0).half + ((ins'.ph 1).priv 0).ambi * ambi = widthOf ambi d := by
  have h : Converts (fun _ => onePhase .inter (plain (Lens.self Widths) width)) (fun _ _ x => x) (solo ⟨0, 0, 0⟩)
      [{ out := nonEmpty, fin := fun ds q => q 0 = (nonEmpty ds).foldl (fun c d => c.add (row Range.widthTable d)) ⟨0, 0, 0⟩ }] := by
    refine mapper (placed_solo (π := Widths) _ (fun _ _ x => x) ⟨0, 0, 0⟩)
      (single_plain (only_one .inter (plain (Lens.self Widths) width)) (by simp) (fun _ => rfl)) _ _
      (fun _ _ => rfl) bytes_single (fun _ => rfl)
      (initPriv_get (placed_le (placed_solo (onePhase .inter (plain (Lens.self Widths) width)) (fun _ _ x => x) ⟨0, 0, 0⟩)) (by simp) _ id (fun x => rfl)) rfl ?_
    intro ds hb _
    exact ⟨rfl, (flatMap_single _).symm, rfl, fun q hq => hq⟩
  obtain ⟨ds, ins', a, _, b, _, _, c⟩ := h [] ⟨some d, true, .hold⟩ (by simp) rfl (by simp)
    (by simp only [List.nil_append, List.mem_cons, List.not_mem_nil, or_false]
        rintro _ rfl c hc
        simp only [Option.mem_def, Option.some.injEq] at hc; exact hc ▸ hd) [d] rfl
    ⟨.inl rfl, trivial, trivial⟩
  have hn : nonEmpty [d] = [d] := by
    cases d with
    | nil => exact absurd rfl hne
    | cons _ _ => rfl
  refine ⟨ds, ins', a, ?_, ?_⟩
  · rw [b (by simp)]
    show nonEmpty (nonEmpty [d]) = [d]
    rw [hn, hn]
  · have := c 0 (by simp)
    simp only [List.getElem_cons_zero, List.take_zero, runProcs, hn, List.foldl_cons, List.foldl_nil] at this
    rw [this]
    rfl

/-- `TRIM-WIDTH#3`: after a full-width character another does not fit, and nothing follows. -/
example : ∃ ds ins', Session (fun _ => onePhase .inter (plain (Lens.self Int) (trim 1)))
      ((solo 0).init (fun _ => onePhase .inter (plain (Lens.self Int) (trim 1))) (fun _ _ _ => 3))
      (twoCalls [1, 0x4E, 0x00] [1, 0x4E, 0x00]) ds ins' ∧ nonEmpty ins'.pending = [[1, 0x4E, 0x00]] := by
  obtain ⟨ds, ins', a, b, _⟩ := two_calls (C33_trim (n := 3) (placed_solo (π := Int) _ (fun _ _ _ => 3) 0)
    (only_one .inter (plain (Lens.self Int) (trim 1))) (fun _ => rfl))
    (x := [1, 0x4E, 0x00]) (y := [1, 0x4E, 0x00]) (by decide) (by decide) ⟨rfl, trivial⟩
  exact ⟨ds, ins', a, b.trans (by decide +kernel)⟩

/-- `INSERT`, `RAW`, `PASS`, `NULL` on two data. -/
example : (∃ ds ins', Session (fun _ => onePhase .inter (plain (Lens.self Unit) (Inter.insert [[1, 0x5B]] [[1, 0x5D]])))
      ((solo ()).init (fun _ => onePhase .inter (plain (Lens.self Unit) (Inter.insert [[1, 0x5B]] [[1, 0x5D]]))) (fun _ _ x => x))
      (twoCalls [1, 0x41] [3, 0x42]) ds ins' ∧
      nonEmpty ins'.pending = [[1, 0x5B], [1, 0x41], [1, 0x5D], [1, 0x5B], [3, 0x42], [1, 0x5D]]) ∧
    (∃ ds ins', Session (fun _ => onePhase .to_ (plain (Lens.self Unit) raw))
      ((solo ()).init (fun _ => onePhase .to_ (plain (Lens.self Unit) raw)) (fun _ _ x => x))
      (twoCalls [1, 0x41] [3, 0x42]) ds ins' ∧ nonEmpty ins'.pending = [[0x41], [0x42]]) ∧
    (∃ ds ins', Session (fun _ => onePhase .inter (plain (Lens.self Int) (pass none 0)))
      ((solo 0).init (fun _ => onePhase .inter (plain (Lens.self Int) (pass none 0))) (fun _ _ x => x))
      (twoCalls [1, 0x41] [3, 0x42]) ds ins' ∧ nonEmpty ins'.pending = [[1, 0x41], [3, 0x42]]) ∧
    (∃ ds ins', Session (fun _ => onePhase .inter (plain (Lens.self Unit) null))
      ((solo ()).init (fun _ => onePhase .inter (plain (Lens.self Unit) null)) (fun _ _ x => x))
      (twoCalls [1, 0x41] [3, 0x42]) ds ins' ∧ nonEmpty ins'.pending = []) := by
  refine ⟨?_, ?_, ?_, ?_⟩
  · obtain ⟨ds, ins', a, b, _⟩ := two_calls (C35_insert (before := [[1, 0x5B]]) (after := [[1, 0x5D]]) (placed_solo _ (fun _ _ x => x) ())
      (by decide) (by decide) (only_one .inter _))
      (x := [1, 0x41]) (y := [3, 0x42]) (by decide) (by decide) ⟨rfl, trivial⟩
    exact ⟨ds, ins', a, b⟩
  · obtain ⟨ds, ins', a, b, _⟩ := two_calls (C35_raw (placed_solo _ (fun _ _ x => x) ()) (only_one _ _))
      (x := [1, 0x41]) (y := [3, 0x42]) (by decide) (by decide) ⟨rfl, trivial⟩
    exact ⟨ds, ins', a, b⟩
  · obtain ⟨ds, ins', a, b, _⟩ := two_calls (C35_pass (placed_solo (π := Int) _ (fun _ _ x => x) 0) (only_one .inter _))
      (x := [1, 0x41]) (y := [3, 0x42]) (by decide) (by decide) ⟨rfl, trivial⟩
    exact ⟨ds, ins', a, b⟩
  · obtain ⟨ds, ins', a, b, _⟩ := two_calls (C35_null (placed_solo _ (fun _ _ x => x) ()) (by simp) (only_one .inter _))
      (x := [1, 0x41]) (y := [3, 0x42]) (by decide) (by decide) ⟨rfl, trivial⟩
    exact ⟨ds, ins', a, b⟩

/-- Output `PASS#FOR=UNICODE`: one datum delivered, one error. -/
example : ∃ ds ins', Session (fun _ => onePhase .to_ (plain (Lens.self Unit) (toPass (some (Range.typefilter 1)))))
      ((solo ()).init (fun _ => onePhase .to_ (plain (Lens.self Unit) (toPass (some (Range.typefilter 1))))) (fun _ _ x => x))
      (twoCalls [1, 0x41] [3, 0x42]) ds ins' ∧ nonEmpty ins'.pending = [[1, 0x41]] ∧ ins'.oerr = 1 := by
  obtain ⟨ds, ins', a, b, _, c⟩ := two_calls (C35_to_pass (placed_solo _ (fun _ _ x => x) ()) (only_one _ _))
      (x := [1, 0x41]) (y := [3, 0x42]) (by decide) (by decide) ⟨rfl, trivial⟩
  exact ⟨ds, ins', a, b, c⟩

/-- C35 fails for inter `PASS#FOR=UNICODE` by itself, contrary to its manual page ("Filtered according to
arguments"): what it refuses is passed on by the engine. -/
theorem C35_filter_violated :
    ∃ ds ins', Session (fun _ => onePhase .inter (plain (Lens.self Int) (pass (some (Range.typefilter 1)) 0)))
      ((solo 0).init (fun _ => onePhase .inter (plain (Lens.self Int) (pass (some (Range.typefilter 1)) 0))) (fun _ _ x => x))
      (twoCalls [1, 0x41] [3, 0x42]) ds ins' ∧ nonEmpty ins'.pending = [[1, 0x41], [3, 0x42]] ∧
      Range.typefilter 1 [3, 0x42] = false := by
  have h : Converts (fun _ => onePhase .inter (plain (Lens.self Int) (pass (some (Range.typefilter 1)) 0))) (fun _ _ x => x)
      (solo 0) [{ out := fun ds => ((pass (some (Range.typefilter 1)) 0).run true false 0 (nonEmpty ds)).out }] :=
    single_converts (placed_solo _ (fun _ _ x => x) 0) (single_plain (only_one _ _) (by simp) (fun _ => rfl))
      (sound_pass _ _) (t := 0) rfl trivial rfl (fun ds _ _ => ⟨rfl, rfl, rfl, fun _ _ => trivial⟩)
  obtain ⟨ds, ins', a, b, _⟩ := two_calls h (x := [1, 0x41]) (y := [3, 0x42]) (by decide) (by decide) ⟨rfl, trivial⟩
  exact ⟨ds, ins', a, b, rfl⟩

/-- One phase with two codecs. -/
def bothPhase (ty : PType) (c d : Codec π) : Static π := ⟨ty, fun j => if j = 0 then c else d, 1⟩

theorem both_one (ty : PType) (c d : Codec π) : Both (bothPhase ty c d) ty c d := ⟨rfl, rfl, rfl, rfl⟩

/-- Private data of two kinds. -/
def sumLens : Lens (Int × Nat) Int := ⟨Prod.fst, fun t x => (t, x.2), fun _ _ => rfl, fun _ => rfl⟩
def sndLens : Lens (Int × Nat) Nat := ⟨Prod.snd, fun t x => (x.1, t), fun _ _ => rfl, fun _ => rfl⟩

/-- `PASS#FOR=UNICODE&LIMIT=1,NULL` on two unicode data: the first only. -/
example : ∃ ds ins', Session (fun _ => bothPhase .inter (plain sumLens (pass (some (Range.typefilter 1)) (1 : Nat))) (plain (Lens.unit _) null))
      ((solo (0, 0)).init (fun _ => bothPhase .inter (plain sumLens (pass (some (Range.typefilter 1)) (1 : Nat))) (plain (Lens.unit _) null))
        (fun _ j x => if j = 0 then (0, x.2) else x))
      (twoCalls [1, 0x41] [1, 0x42]) ds ins' ∧ nonEmpty ins'.pending = [[1, 0x41]] := by
  obtain ⟨ds, ins', a, b, _⟩ := two_calls (C35_pass_null (n := 1)
      (placed_solo (π := Int × Nat) _ (fun _ j x => if j = 0 then (0, x.2) else x) (0, 0))
      (both_one .inter (plain sumLens (pass (some (Range.typefilter 1)) (1 : Nat))) (plain (Lens.unit _) null)) (fun _ => rfl))
      (x := [1, 0x41]) (y := [1, 0x42]) (by decide) (by decide) ⟨rfl, trivial⟩
  exact ⟨ds, ins', a, b⟩

/-- `PASS#FOR=UNICODE,ANY#3F&ERROR=E`: the byte datum comes out as `?` and is counted in `E` only. -/
example : ∃ ds ins', Session (fun _ => bothPhase .to_ (plain (Lens.unit _) (toPass (some (Range.typefilter 1)))) (plain sndLens (any [[0x3F]] true)))
      ((solo (0, 4)).init (fun _ => bothPhase .to_ (plain (Lens.unit _) (toPass (some (Range.typefilter 1)))) (plain sndLens (any [[0x3F]] true)))
        (fun _ _ x => x))
      (twoCalls [3, 0x42] [1, 0x41]) ds ins' ∧ nonEmpty ins'.pending = [[0x3F], [1, 0x41]] ∧ ins'.oerr = 0 ∧
      ((ins'.ph 1).priv 1).2 = 5 := by
  have hs := both_one .to_ (plain (Lens.unit (Int × Nat)) (toPass (some (Range.typefilter 1)))) (plain sndLens (any [[0x3F]] true))
  obtain ⟨ds, ins', a, b, c, d⟩ := two_calls (C61_any
      (placed_solo _ (fun _ _ x => x) (0, 4)) rfl rfl
      (member_plain (by simp [bothPhase]) hs.first (fun _ => rfl))
      (by intro t d t' o b h
          simp only [toPass] at h
          split at h
          · simp only [Option.some.injEq, Prod.mk.injEq] at h; exact h.2.2.symm
          · simp at h)
      (sound_toPass _) (by decide) hs.second rfl trivial (u := 4) rfl)
      (x := [3, 0x42]) (y := [1, 0x41]) (by decide) (by decide) ⟨rfl, trivial⟩
  exact ⟨ds, ins', a, b, d, c rfl⟩

/-- `STRINGS#1` with brackets on two data: one run. -/
example : ∃ ds ins', Session (fun _ => onePhase .inter (flushing (Lens.self Strings) (strings (fun d => d == [1, 0x41]) 1 [[1, 0x5B]] [[1, 0x5D]])))
      ((solo ⟨[], 0, false, false⟩).init (fun _ => onePhase .inter (flushing (Lens.self Strings) (strings (fun d => d == [1, 0x41]) 1 [[1, 0x5B]] [[1, 0x5D]])))
        (fun _ _ x => x.init))
      (twoCalls [3, 0x42] [1, 0x41]) ds ins' ∧ nonEmpty ins'.pending = [[1, 0x5B], [1, 0x41], [1, 0x5D]] := by
  obtain ⟨ds, ins', a, b, _⟩ := two_calls (C36_strings_partial (before := [[1, 0x5B]]) (after := [[1, 0x5D]])
      (placed_solo (π := Strings) _ (fun _ _ x => x.init) ⟨[], 0, false, false⟩) (by decide) (by decide)
      (only_one .inter (flushing (Lens.self Strings) (strings (fun d => d == [1, 0x41]) 1 [[1, 0x5B]] [[1, 0x5D]]))) (fun _ => rfl) rfl)
      (x := [3, 0x42]) (y := [1, 0x41]) (by decide) (by decide) ⟨rfl, by decide⟩
  exact ⟨ds, ins', a, b⟩

/-- `AMBIGUOUS-PAD` and the round trip: hypotheses met by a conversion of two phases and a text with an ambiguous
and an ordinary character. -/
example : Placed2 (fun k => if k = 1 then onePhase .inter (plain (⟨Prod.fst, fun t x => (t, x.2), fun _ _ => rfl, fun _ => rfl⟩ : Lens (Bool × Unpad) Bool) pad)
      else onePhase .inter (plain (⟨Prod.snd, fun t x => (x.1, t), fun _ _ => rfl, fun _ => rfl⟩ : Lens (Bool × Unpad) Unpad) unpad))
    (fun _ _ _ => (true, ⟨false, true⟩)) { ph := fun _ => { priv := fun _ => (true, ⟨false, true⟩) }, phasen := 2 } []
    (onePhase .inter (plain (⟨Prod.fst, fun t x => (t, x.2), fun _ _ => rfl, fun _ => rfl⟩ : Lens (Bool × Unpad) Bool) pad))
    (onePhase .inter (plain (⟨Prod.snd, fun t x => (x.1, t), fun _ _ => rfl, fun _ => rfl⟩ : Lens (Bool × Unpad) Unpad) unpad)) [] ∧
    (∀ d ∈ [[1, 0x03, 0xB1], [1, 0x41]], isUni d = true) ∧
    padded [[1, 0x03, 0xB1], [1, 0x41]] = [[1, 0x03, 0xB1], [1, 0xA0], [1, 0x41]] :=
  ⟨⟨by intro k h; simp at h, rfl, rfl, by intro k h; simp at h, by intro k h; simp at h, by intro k h; simp at h, rfl⟩,
    by decide, by decide +kernel⟩

/-- `SCORE` with a score of 3 for unicode data. -/
example : ∃ ds ins', Session (fun _ => onePhase .inter (plain (Lens.self Nat) (score fun d => if d.head? = some 1 then 3 else 0)))
      ((solo 5).init (fun _ => onePhase .inter (plain (Lens.self Nat) (score fun d => if d.head? = some 1 then 3 else 0))) (fun _ _ x => x))
      (twoCalls [1, 0x41] [3, 0xFF]) ds ins' ∧
    nonEmpty ins'.pending = [[1, 0x41], [3, 0xFF]] ∧ (ins'.ph 1).priv 0 = 8 := by
  obtain ⟨ds, ins', a, b, c, _⟩ := two_calls (C34_score (placed_solo _ (fun _ _ x => x) 5) (only_one _ _) (fun _ => rfl))
    (x := [1, 0x41]) (y := [3, 0xFF]) (by decide) (by decide) ⟨rfl, trivial⟩
  exact ⟨ds, ins', a, b, c⟩

end Verif.Props
