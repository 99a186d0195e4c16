import Verif.Spec.Defrag
import Verif.Model.Defrag
import Verif.Props.Inter

/-! C91: `BIG5-DEFRAG`. -/

namespace Verif.Props
open Verif.Spec
open Verif.Engine hiding Datum step
open Verif.Inter (plain)
open Verif.Defrag

variable {π : Type}

theorem lead_eq (d : Datum) : lead d = isLead d := by
  match d with
  | [] => rfl
  | [a] => unfold lead isLead; split <;> simp_all
  | a :: b :: r =>
    by_cases h : a = 3
    · subst h; simp [lead, isLead]
    · simp only [lead]
      rw [show (a == 3) = false by simpa using h]
      unfold isLead
      split
      · rename_i e; simp at e; exact absurd e.1 h
      · rfl

/-- The data held are bytes. -/
def HeldBytes : Held → Prop
  | none => True
  | some (p, q) => IsBytes p ∧ ∀ x ∈ q, IsBytes x

theorem defrag_sound : Sound defrag HeldBytes where
  act := by
    intro t d ht _ hb t' out b h
    have hn : ∀ t d', defrag.act t d' ≠ none := by
      intro t d'
      simp only [defrag]
      split <;> split <;> simp
    refine ⟨?_, ?_, fun _ d' _ _ => hn t' d'⟩ <;> simp only [defrag] at h <;> split at h <;> split at h <;> cases h
    · exact ⟨hb, by simp⟩
    · trivial
    · refine ⟨ht.1, ?_⟩
      intro x hx
      rcases List.mem_append.1 hx with hx | hx
      · exact ht.2 x hx
      · simp at hx; exact hx ▸ hb
    · trivial
    · simp
    · intro x hx; simp at hx; exact hx ▸ hb
    · simp
    · intro x hx
      simp only [List.mem_cons] at hx
      rcases hx with rfl | rfl | hx
      · exact ht.1
      · exact hb
      · exact ht.2 x hx
  flush := fun t ht => ⟨ht, by simp [defrag]⟩

theorem run_single {d : Datum} (h : isLead d = false) (w : Bool) (ds : List Datum) :
    defrag.run true w none (d :: ds) = (defrag.run true false none ds).after [d] := by
  rw [Handler.run_some (t' := none) (o := [d]) (hold := false)]
  simp [defrag, lead_eq, h]

theorem run_queue {p : Datum} (b : List Datum) (hb : ∀ s ∈ b, isSequence s = true) {t : Datum} (ht : isSequence t = false) (ds : List Datum) :
    ∀ (q : List Datum) (w : Bool), defrag.run true w (some (p, q)) (b ++ t :: ds) = (defrag.run true false none ds).after (p :: t :: (q ++ b)) := by
  induction b with
  | nil =>
    intro q w
    rw [List.nil_append, Handler.run_some (t' := none) (o := p :: t :: q) (hold := false)]
    · simp
    · have : ¬ t.head? = some 0x1b := by simpa [isSequence] using ht
      simp [defrag, this]
  | cons s b ih =>
    intro q w
    rw [List.cons_append, Handler.run_some (t' := some (p, q ++ [s])) (o := []) (hold := true), ih (fun x hx => hb x (by simp [hx]))]
    · simp [Out.after]
    · have : s.head? = some 0x1b := by simpa [isSequence] using hb s (by simp)
      simp [defrag, this]

/-- What the codec does to a stream of characters. -/
theorem run_fragments (fs : List Fragment) (h : ∀ f ∈ fs, f.Valid) (w : Bool) (rest : List Datum) :
    ∃ w', defrag.run true w none (fs.flatMap Fragment.broken ++ rest) = (defrag.run true w' none rest).after (fs.flatMap Fragment.mended) ∧ (fs = [] → w' = w) ∧
      (fs ≠ [] → w' = false) := by
  induction fs generalizing w with
  | nil => exact ⟨w, by simp [Out.after], fun _ => rfl, fun h => absurd rfl h⟩
  | cons f fs ih =>
    obtain ⟨w', h1, h2, h3⟩ := ih (fun x hx => h x (by simp [hx])) false
    refine ⟨w', ?_, by simp, fun _ => ?_⟩
    · have hf := h f (by simp)
      cases f with
      | single d =>
        simp only [List.flatMap_cons, Fragment.broken, Fragment.mended, List.cons_append, List.nil_append]
        rw [run_single hf.2, h1]
        rfl
      | double l b t =>
        obtain ⟨k1, k2, _, k4⟩ := hf
        simp only [List.flatMap_cons, Fragment.broken, Fragment.mended, List.cons_append, List.append_assoc, List.nil_append]
        rw [Handler.run_some (t' := some (l, [])) (o := []) (hold := true) (by simp [defrag, lead_eq, k1]), run_queue b k2 k4, h1]
        simp [Out.after]
    · by_cases hfs : fs = []
      · exact h2 hfs
      · exact h3 hfs

section
variable {st : Nat → Static π} {ip : Nat → Nat → π → π} {ins : Ins π} {pre post : List (Proc π)} {s : Static π}

/-- The codec in any conversion, started with nothing held. -/
theorem defrag_converts (h : Placed st ip ins pre s post) {e : Lens π Held} (hs : Only s .inter (plain e defrag)) (hi : ∀ x, e.get (ip (pre.length + 1) 0 x) = none) :
    Converts st ip ins (pre ++ {
      out := fun ds => (defrag.run true false none (nonEmpty ds)).out
      fin := fun ds q => e.get (q 0) = (defrag.run true false none (nonEmpty ds)).priv } :: post) := by
  refine single_converts h (single_plain hs (by simp) (fun _ => rfl)) defrag_sound
    (initPriv_get (placed_le h) (by omega) e (fun _ => none) (fun x => hi x)) trivial rfl ?_
  intro ds _ _
  rw [passes_inter hs]
  exact ⟨rfl, rfl, rfl, fun q hq => hq⟩

/-- C91.  `BIG5-DEFRAG` as any phase of a conversion, after any earlier use of the instance: in a stream of single data and two-byte characters
with any number of control sequences between their bytes, each such character comes out in one piece with the sequences behind it, everything else is as it was,
and nothing is held afterwards. -/
theorem C91_mends (h : Placed st ip ins pre s post) {e : Lens π Held} (hs : Only s .inter (plain e defrag)) (hi : ∀ x, e.get (ip (pre.length + 1) 0 x) = none)
    (fs : List Fragment) (hf : ∀ f ∈ fs, f.Valid) :
    Converts st ip ins (pre ++ {
      out := fun _ => fs.flatMap Fragment.mended
      ok := fun ds => nonEmpty ds = fs.flatMap Fragment.broken
      fin := fun _ q => e.get (q 0) = none } :: post) := by
  refine single_converts h (single_plain hs (by simp) (fun _ => rfl)) defrag_sound
    (initPriv_get (placed_le h) (by omega) e (fun _ => none) (fun x => hi x)) trivial rfl ?_
  intro ds _ hok
  rw [passes_inter hs, show nonEmpty ds = _ from hok]
  obtain ⟨w', h1, h2, h3⟩ := run_fragments fs hf false []
  rw [List.append_nil] at h1
  have hw : w' = false := by
    by_cases hfs : fs = []
    · exact h2 hfs
    · exact h3 hfs
  subst hw
  rw [h1]
  refine ⟨rfl, ?_, rfl, fun q hq => ?_⟩
  · simp [Handler.run, Out.after]
  · exact hq

/-- C91, at the end.  If the input ends inside a character, its first byte and the sequences behind it never come out: they are still held when the last call has
returned, and no error is counted. -/
theorem C91_end_violated (h : Placed st ip ins pre s post) {e : Lens π Held} (hs : Only s .inter (plain e defrag)) (hi : ∀ x, e.get (ip (pre.length + 1) 0 x) = none)
    (fs : List Fragment) (hf : ∀ f ∈ fs, f.Valid) (l : Datum) (b : List Datum) (hl : isLead l = true) (hb : ∀ x ∈ b, isSequence x = true) :
    Converts st ip ins (pre ++ {
      out := fun _ => fs.flatMap Fragment.mended
      ok := fun ds => nonEmpty ds = fs.flatMap Fragment.broken ++ l :: b
      fin := fun _ q => e.get (q 0) = some (l, b) } :: post) := by
  have hq : ∀ (b : List Datum), (∀ x ∈ b, isSequence x = true) → ∀ (q : List Datum) (w : Bool), (defrag.run true w (some (l, q)) b).out = [] ∧
      (defrag.run true w (some (l, q)) b).priv = some (l, q ++ b) := by
    intro b
    induction b with
    | nil => intro _ q w; cases w <;> simp [Handler.run, defrag]
    | cons x b ih =>
      intro hb q w
      have hx : x.head? = some 0x1b := by simpa [isSequence] using hb x (by simp)
      rw [Handler.run_some (t' := some (l, q ++ [x])) (o := []) (hold := true) (by simp [defrag, hx])]
      obtain ⟨i1, i2⟩ := ih (fun y hy => hb y (by simp [hy])) (q ++ [x]) true
      refine ⟨by simpa [Out.after] using i1, ?_⟩
      rw [show ∀ (o : Out Held) x, (o.after x).priv = o.priv from fun _ _ => rfl, i2]
      simp
  refine single_converts h (single_plain hs (by simp) (fun _ => rfl)) defrag_sound
    (initPriv_get (placed_le h) (by omega) e (fun _ => none) (fun x => hi x)) trivial rfl ?_
  intro ds _ hok
  rw [passes_inter hs, show nonEmpty ds = _ from hok]
  obtain ⟨w', h1, _⟩ := run_fragments fs hf false (l :: b)
  rw [h1, Handler.run_some (t' := some (l, [])) (o := []) (hold := true) (by simp [defrag, lead_eq, hl])]
  obtain ⟨i1, i2⟩ := hq b hb [] true
  refine ⟨rfl, ?_, rfl, fun q hq => ?_⟩
  · simp [Out.after, i1]
  · exact hq.trans i2

end

/-- Every stream is one of the two kinds. -/
theorem C91_kinds (ds : List Datum) (hd : ∀ d ∈ ds, d ≠ []) :
    ∃ fs : List Fragment, (∀ f ∈ fs, f.Valid) ∧ (ds = fs.flatMap Fragment.broken ∨
      ∃ l b, isLead l = true ∧ (∀ x ∈ b, isSequence x = true) ∧ ds = fs.flatMap Fragment.broken ++ l :: b) := by
  have key : ∀ (ds : List Datum), (∀ d ∈ ds, d ≠ []) →
      (∃ fs : List Fragment, (∀ f ∈ fs, f.Valid) ∧ (ds = fs.flatMap Fragment.broken ∨
        ∃ l b, isLead l = true ∧ (∀ x ∈ b, isSequence x = true) ∧ ds = fs.flatMap Fragment.broken ++ l :: b)) ∧
      (∀ l, isLead l = true → ∀ q : List Datum, (∀ x ∈ q, isSequence x = true) →
        ∃ fs : List Fragment, (∀ f ∈ fs, f.Valid) ∧ (l :: q ++ ds = fs.flatMap Fragment.broken ∨
          ∃ l' b, isLead l' = true ∧ (∀ x ∈ b, isSequence x = true) ∧ l :: q ++ ds = fs.flatMap Fragment.broken ++ l' :: b)) := by
    intro ds
    induction ds with
    | nil =>
      intro _
      refine ⟨⟨[], by simp, .inl rfl⟩, fun l hl q hq => ⟨[], by simp, .inr ⟨l, q, hl, hq, by simp⟩⟩⟩
    | cons d ds ih =>
      intro hd
      obtain ⟨i1, i2⟩ := ih (fun x hx => hd x (by simp [hx]))
      have hd0 := hd d (by simp)
      refine ⟨?_, ?_⟩
      · by_cases hl : isLead d = true
        · exact i2 d hl [] (by simp)
        · obtain ⟨fs, f1, f2⟩ := i1
          refine ⟨.single d :: fs, ?_, ?_⟩
          · intro f hf
            rcases List.mem_cons.1 hf with rfl | hf
            · exact ⟨hd0, by simpa using hl⟩
            · exact f1 f hf
          · rcases f2 with rfl | ⟨l, b, b1, b2, rfl⟩
            · exact .inl rfl
            · exact .inr ⟨l, b, b1, b2, rfl⟩
      · intro l hl q hq
        by_cases hs : isSequence d = true
        · obtain ⟨fs, f1, f2⟩ := i2 l hl (q ++ [d]) (by
            intro x hx
            rcases List.mem_append.1 hx with hx | hx
            · exact hq x hx
            · simp at hx; exact hx ▸ hs)
          exact ⟨fs, f1, by simpa using f2⟩
        · obtain ⟨fs, f1, f2⟩ := i1
          refine ⟨.double l q d :: fs, ?_, ?_⟩
          · intro f hf
            rcases List.mem_cons.1 hf with rfl | hf
            · exact ⟨hl, hq, hd0, by simpa using hs⟩
            · exact f1 f hf
          · rcases f2 with rfl | ⟨l', b, b1, b2, rfl⟩
            · exact .inl (by simp [Fragment.broken])
            · exact .inr ⟨l', b, b1, b2, by simp [Fragment.broken]⟩
  exact (key ds hd).1

/-- What mending keeps: the sequences in their order, and everything else in its order. -/
theorem C91_order (fs : List Fragment) (hf : ∀ f ∈ fs, f.Valid) :
    (fs.flatMap Fragment.mended).filter isSequence = (fs.flatMap Fragment.broken).filter isSequence ∧
    (fs.flatMap Fragment.mended).filter (fun d => !isSequence d) = (fs.flatMap Fragment.broken).filter (fun d => !isSequence d) := by
  induction fs with
  | nil => exact ⟨rfl, rfl⟩
  | cons f fs ih =>
    obtain ⟨i1, i2⟩ := ih (fun x hx => hf x (by simp [hx]))
    simp only [List.flatMap_cons, List.filter_append, i1, i2]
    have hv := hf f (by simp)
    cases f with
    | single d => exact ⟨rfl, rfl⟩
    | double l b t =>
      obtain ⟨k1, k2, k3, k4⟩ := hv
      have hl : isSequence l = false := by
        unfold isLead at k1
        split at k1
        · rfl
        · simp at k1
      have e1 : b.filter isSequence = b := List.filter_eq_self.2 k2
      have e2 : b.filter (fun d => !isSequence d) = [] := by
        refine List.filter_eq_nil_iff.2 ?_
        intro x hx
        simp [k2 x hx]
      simp [Fragment.mended, Fragment.broken, hl, k4, e1, e2]

/-- A phase with this codec. -/
def defragStatic : Static Held := onePhase .inter (plain (Lens.self Held) defrag)

/-- Sessions with this codec alone. -/
theorem defragSolo (fs : List Fragment) (hf : ∀ f ∈ fs, f.Valid) :
    Converts (fun _ => defragStatic) (fun _ _ _ => none) (solo none) [{
      out := fun _ => fs.flatMap Fragment.mended
      ok := fun ds => nonEmpty ds = fs.flatMap Fragment.broken
      fin := fun _ q => q 0 = none }] :=
  C91_mends (placed_solo defragStatic (fun _ _ _ => none) none) (e := Lens.self Held) (only_one _ _) (fun _ => rfl) fs hf

/-- The character AFE0 with the sequence `ESC [ 1 m` between its bytes. -/
def brokenWall : List Fragment := [.single [3, 0x41], .double [3, 0xAF] [[0x1B, 0x5B, 0x31, 0x6D], [0x1B, 0x5B, 0x30, 0x6D]] [3, 0xE0]]

theorem brokenWall_valid : (∀ f ∈ brokenWall, f.Valid) ∧
    brokenWall.flatMap Fragment.broken = [[3, 0x41], [3, 0xAF], [0x1B, 0x5B, 0x31, 0x6D], [0x1B, 0x5B, 0x30, 0x6D], [3, 0xE0]] ∧
    brokenWall.flatMap Fragment.mended = [[3, 0x41], [3, 0xAF], [3, 0xE0], [0x1B, 0x5B, 0x31, 0x6D], [0x1B, 0x5B, 0x30, 0x6D]] := by
  refine ⟨?_, by decide, by decide⟩
  intro f hf
  simp only [brokenWall, List.mem_cons, List.not_mem_nil, or_false] at hf
  rcases hf with rfl | rfl <;> simp [Fragment.Valid] <;> decide

/-- Its five data, held back until the end. -/
example : ∃ ds ins', Session (fun _ => defragStatic) ((solo none).init (fun _ => defragStatic) (fun _ _ _ => none))
      ([⟨some [3, 0x41], false, .hold⟩, ⟨some [3, 0xAF], false, .hold⟩, ⟨some [0x1B, 0x5B, 0x31, 0x6D], false, .hold⟩, ⟨some [0x1B, 0x5B, 0x30, 0x6D], false, .hold⟩] ++
        [⟨some [3, 0xE0], true, .hold⟩]) ds ins' ∧
    nonEmpty ins'.pending = [[3, 0x41], [3, 0xAF], [3, 0xE0], [0x1B, 0x5B, 0x31, 0x6D], [0x1B, 0x5B, 0x30, 0x6D]] ∧ (ins'.ph 1).priv 0 = none := by
  obtain ⟨ds, ins', a, _, b, _, _, c⟩ := defragSolo brokenWall brokenWall_valid.1
    [⟨some [3, 0x41], false, .hold⟩, ⟨some [3, 0xAF], false, .hold⟩, ⟨some [0x1B, 0x5B, 0x31, 0x6D], false, .hold⟩, ⟨some [0x1B, 0x5B, 0x30, 0x6D], false, .hold⟩]
    ⟨some [3, 0xE0], true, .hold⟩ (by simp) rfl (by simp) (by simp; decide) _ rfl ⟨.inl rfl, by show _ = _; decide, trivial⟩
  exact ⟨ds, ins', a, (b (by simp)).trans (by simp only [runProcs]; decide), c 0 (by simp)⟩

end Verif.Props
