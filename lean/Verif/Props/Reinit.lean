import Verif.Proofs.Reinit
import Verif.Proofs.MkCompiled
import Verif.Proofs.Transcode
import Verif.Model.Utf8
import Verif.Model.Utf16
import Verif.Model.Escape
import Verif.Model.Gb18030
import Verif.Model.Cp950
import Verif.Model.Inter
import Verif.Model.Normal
import Verif.Props.Engine

/-!
Property C07: `bsdconv_init` makes an instance reusable.

`Ins.init st ip` is `bsdconv_init`; `ip k j` is the `cbinit` of codec `j` of phase `k` acting on its private data (the
identity if it has none).  After it, an instance with any past and a newly created one behave alike, provided that no
codec can tell apart what its own `cbinit` leaves of different private data (`Resettable`).  That holds for the codecs
with a `cbinit` modelled here, and fails for the three that have none.
-/

namespace Verif.Props
open Verif.Spec
open Verif.Engine hiding Datum

variable {π σ : Type}

/-- What the codec does after its private data went through `init` does not depend on what they were before: some
relation holds between all results of `init` and is respected by both callbacks, which also do not look at the error
counters. -/
def Resettable (c : Codec π) (init : π → π) : Prop :=
  ∃ R : π → π → Prop, (∀ t, R t t) ∧ (∀ t t', R (init t) (init t')) ∧
    ∀ (E : Nat → π → π → Prop) j, E j = R → Clean E j c

/-- Two instances of the same conversion.  The conditions other than `phasen` concern parts of the type `Ins` that the
program does not have: the parse state of the input record, phases and codecs behind the last. -/
structure SameFrame (st : Nat → Static π) (a b : Ins π) : Prop where
  phasen : b.phasen = a.phasen
  index : (b.ph 0).index = (a.ph 0).index
  state : (b.ph 0).st = (a.ph 0).st
  status : (b.ph 0).status = (a.ph 0).status
  curr : (b.ph 0).curr = (a.ph 0).curr
  priv0 : (b.ph 0).priv = (a.ph 0).priv
  priv : ∀ k j, (st k).codecn < j → (b.ph k).priv j = (a.ph k).priv j
  behind : ∀ k, a.phasen < k → b.ph k = a.ph k

/-- C07: after `bsdconv_init`, every sequence of calls with any modes on an instance with any past delivers what it
delivers on any other instance of the conversion after `bsdconv_init` - in particular a new one -, leaves the same data
pending and adds the same to the error counters. -/
theorem C07_reusable {st : Nat → Static π} {ip : Nat → Nat → π → π}
    (hs : ∀ k j, Resettable ((st k).codecs j) (ip k j)) {used fresh : Ins π} (hf : SameFrame st used fresh)
    {as : List Arg} {ds : List Delivery} {fresh' : Ins π} (h : Session st (fresh.init st ip) as ds fresh') :
    ∃ used', Session st (used.init st ip) as ds used' ∧ used'.pending = fresh'.pending ∧
      used'.ierr + fresh.ierr = fresh'.ierr + used.ierr ∧ used'.oerr + fresh.oerr = fresh'.oerr + used.oerr := by
  obtain ⟨F, hF⟩ := Classical.axiomOfChoice (fun (k : Nat × Nat) => hs k.1 k.2)
  let G : Nat → Nat → π → π → Prop := fun k j => F (k, j)
  have hr : ∀ k j t, G k j t t := fun k j t => (hF (k, j)).1 t
  have hc : ∀ k j, Clean (G k) j ((st k).codecs j) := fun k j => (hF (k, j)).2.2 (G k) j rfl
  have hg : Ghosts st G fresh used :=
    { index := hf.index.symm, state := hf.state.symm, status := hf.status.symm, curr := hf.curr.symm
      priv0 := fun j => by rw [hf.priv0]; exact hr 0 j _
      priv := fun k j hj => by rw [hf.priv k j hj]; exact hr k j _
      behind := fun k hk => by
        rw [hf.behind k (by rw [hf.phasen] at hk; exact hk)]
        exact ⟨_, _, _, fun _ => rfl, fun _ => rfl, fun j => hr k j _, rfl⟩ }
  have hi := init_sim (ip := ip) (F := G) hf.phasen.symm hg (fun k j t t' _ _ _ => (hF (k, j)).2.1 t t')
  -- both start like the same instance with its counters reset
  have h1 : ISim G (fresh.init st ip).ierr (fresh.init st ip).oerr (fresh.init st ip).zero (fresh.init st ip) :=
    ISim.ofZero hr _
  have h2 : ISim G (used.init st ip).ierr (used.init st ip).oerr (fresh.init st ip).zero (used.init st ip) :=
    ⟨hi, hf.phasen.symm, hf.phasen.symm, rfl, by simp [Ins.zero], by simp [Ins.zero]⟩
  have back : ∀ {x y : Nat} {as : List Arg} {ds : List Delivery} {a b b' : Ins π}, ISim G x y a b →
      Session st b as ds b' → ∃ a', Session st a as ds a' ∧ ISim G x y a' b' := by
    intro x y as
    induction as with
    | nil => intro ds a b b' hab hs; cases hs; exact ⟨a, .nil a, hab⟩
    | cons g gs ih =>
      intro ds a b b' hab hs
      cases hs with
      | cons hcall hrest =>
        obtain ⟨a1, ha1, hab1⟩ := call_sim_back hc hab hcall
        obtain ⟨a2, ha2, hab2⟩ := ih hab1 hrest
        exact ⟨a2, .cons ha1 ha2, hab2⟩
  obtain ⟨z, hz, hzf⟩ := back h1 h
  obtain ⟨u, hu, hzu⟩ := session_sim hc hz h2
  refine ⟨u, hu, ?_, ?_, ?_⟩
  · obtain ⟨_, e1, _, _⟩ := h1.same hc hz h
    obtain ⟨_, e2, _, _⟩ := h2.same hc hz hu
    rw [e1, e2]
  · have e1 := hzf.ierr
    have e2 := hzu.ierr
    have e3 : (fresh.init st ip).ierr = fresh.ierr := rfl
    have e4 : (used.init st ip).ierr = used.ierr := rfl
    omega
  · have e1 := hzf.oerr
    have e2 := hzu.oerr
    have e3 : (fresh.init st ip).oerr = fresh.oerr := rfl
    have e4 : (used.init st ip).oerr = used.oerr := rfl
    omega

/-! ### Every history -/

/-- Every phase's selected codec exists. -/
def Selects (st : Nat → Static π) (a : Ins π) : Prop := ∀ k, 1 ≤ k → k ≤ a.phasen → (a.ph k).index ≤ (st k).codecn

theorem frame_step {st : Nat → Static π} (hs : ∀ k j, Tidy ((st k).codecs j)) {z : Ins π} {c : Ins π × PC}
    (hf : SameFrame st z c.1) (hi : Selects st c.1) (hl : c.2.isLocal = true → 1 ≤ c.1.pidx ∧ c.1.pidx ≤ c.1.phasen) :
    SameFrame st z (step st c).1 ∧ Selects st (step st c).1 ∧
      ((step st c).2.isLocal = true → 1 ≤ (step st c).1.pidx ∧ (step st c).1.pidx ≤ (step st c).1.phasen) := by
  have h0 := step_inside st c hl
  refine ⟨?_, ?_, h0.2⟩ <;> obtain ⟨ins, pc⟩ := c <;> simp only [] at hf hi hl h0 <;> by_cases hp : pc.isLocal = true
  · have h1 := hl hp
    have hk := local_kept (hs ins.pidx) pc (l := ins.loc) (p := (ins.ph ins.pidx).priv)
      ⟨hi _ h1.1 h1.2, fun _ _ => rfl⟩
    rw [step_local st ins pc hp]
    generalize localStep (st ins.pidx) pc ins.loc = r at hk
    obtain ⟨l, ct⟩ := r
    have key : SameFrame st z (ins.putLoc l) := by
      have e0 : (0 : Nat) ≠ ins.pidx := by omega
      refine ⟨hf.phasen, ?_, ?_, ?_, ?_, ?_, ?_, ?_⟩
      · by_cases h2 : 0 + 1 = ins.pidx <;> simp only [Ins.putLoc, e0, h2, if_true, if_false] <;> exact hf.index
      · by_cases h2 : 0 + 1 = ins.pidx <;> simp only [Ins.putLoc, e0, h2, if_true, if_false] <;> exact hf.state
      · by_cases h2 : 0 + 1 = ins.pidx <;> simp only [Ins.putLoc, e0, h2, if_true, if_false] <;> exact hf.status
      · by_cases h2 : 0 + 1 = ins.pidx <;> simp only [Ins.putLoc, e0, h2, if_true, if_false] <;> exact hf.curr
      · by_cases h2 : 0 + 1 = ins.pidx <;> simp only [Ins.putLoc, e0, h2, if_true, if_false] <;> exact hf.priv0
      · intro k j hj
        simp only [Ins.putLoc]
        by_cases h2 : k = ins.pidx
        · subst h2
          simp only [if_true]
          rw [hk.2 j hj]
          exact hf.priv _ j hj
        · simp only [h2, if_false]
          by_cases h3 : k + 1 = ins.pidx
          · simp only [h3, if_true]; exact hf.priv k j hj
          · simp only [h3, if_false]; exact hf.priv k j hj
      · intro k hk'
        have h2 : k ≠ ins.pidx := by have := hf.phasen; omega
        have h3 : k + 1 ≠ ins.pidx := by have := hf.phasen; omega
        simp only [Ins.putLoc, h2, h3, if_false]
        exact hf.behind k hk'
    cases ct with
    | goto pc' => exact key
    | nextBegin => exact ⟨key.1, key.2, key.3, key.4, key.5, key.6, key.7, key.8⟩
  · have keep : ∀ k, (step st (ins, pc)).1.ph k = ins.ph k := by
      intro k
      cases pc <;> simp only [PC.isLocal, not_true] at hp <;> simp only [step] <;> try rfl
      · split <;> rfl
      · split <;> rfl
      · split
        · split <;> rfl
        · rfl
    have e : (step st (ins, pc)).1.ph = ins.ph := funext keep
    refine ⟨h0.1.trans hf.phasen, ?_, ?_, ?_, ?_, ?_, ?_, ?_⟩ <;> rw [e]
    · exact hf.index
    · exact hf.state
    · exact hf.status
    · exact hf.curr
    · exact hf.priv0
    · exact hf.priv
    · exact hf.behind
  · have h1 := hl hp
    have hk := local_kept (hs ins.pidx) pc (l := ins.loc) (p := (ins.ph ins.pidx).priv)
      ⟨hi _ h1.1 h1.2, fun _ _ => rfl⟩
    rw [step_local st ins pc hp]
    generalize localStep (st ins.pidx) pc ins.loc = r at hk
    obtain ⟨l, ct⟩ := r
    have key : Selects st (ins.putLoc l) := by
      intro k h2 h3
      simp only [Ins.putLoc]
      by_cases h4 : k = ins.pidx
      · subst h4; simp only [if_true]; exact hk.1
      · simp only [h4, if_false]
        by_cases h5 : k + 1 = ins.pidx
        · simp only [h5, if_true]; exact hi k h2 h3
        · simp only [h5, if_false]; exact hi k h2 h3
    cases ct with
    | goto pc' => exact key
    | nextBegin => exact key
  · have keep : ∀ k, (step st (ins, pc)).1.ph k = ins.ph k := by
      intro k
      cases pc <;> simp only [PC.isLocal, not_true] at hp <;> simp only [step] <;> try rfl
      · split <;> rfl
      · split <;> rfl
      · split
        · split <;> rfl
        · rfl
    intro k h1 h2
    rw [keep k]
    exact hi k h1 (by rw [← h0.1]; exact h2)

theorem frame_session {st : Nat → Static π} (hs : ∀ k j, Tidy ((st k).codecs j)) {z a a' : Ins π} {as : List Arg}
    {ds : List Delivery} (h : Session st a as ds a') (hn : 1 ≤ z.phasen) (hf : SameFrame st z a) (hi : Selects st a) :
    SameFrame st z a' ∧ Selects st a' := by
  have hrun : ∀ n (c : Ins π × PC), SameFrame st z c.1 → Selects st c.1 →
      (c.2.isLocal = true → 1 ≤ c.1.pidx ∧ c.1.pidx ≤ c.1.phasen) →
      SameFrame st z (run st n c).1 ∧ Selects st (run st n c).1 := by
    intro n
    induction n with
    | zero => intro c h1 h2 _; exact ⟨h1, h2⟩
    | succ n ih =>
      intro c h1 h2 h3
      obtain ⟨e1, e2, e3⟩ := frame_step hs h1 h2 h3
      exact ih _ e1 e2 e3
  induction h with
  | nil => exact ⟨hf, hi⟩
  | cons hc _ ih =>
    rename_i x1 x2 x3 g gs d ds' hrest
    apply ih
    · obtain ⟨m, y, h1, h2, h3⟩ := hc
      have h4 := hrun m (x1.start (g.input.map (fun x => (x, []))) g.flush) (by
        cases hg : g.input with
        | none => exact ⟨hf.1, hf.2, hf.3, hf.4, hf.5, hf.6, hf.7, hf.8⟩
        | some c =>
          refine ⟨hf.1, hf.2, hf.3, hf.4, hf.5, hf.6, ?_, ?_⟩
          · intro k j hj
            simp only [Ins.start, Option.map_some, Ins.feed]
            by_cases hk : k = 0
            · subst hk; exact hf.7 0 j hj
            · simp only [hk, if_false]; exact hf.7 k j hj
          · intro k hk
            have h0 : k ≠ 0 := by omega
            simp only [Ins.start, Option.map_some, Ins.feed, h0, if_false]
            exact hf.8 k hk) (by
        intro k h5 h6
        have h0 : k ≠ 0 := by omega
        cases hg : g.input with
        | none => rw [hg] at h6; exact hi k h5 h6
        | some c =>
          rw [hg] at h6
          simp only [Ins.start, Option.map_some, Ins.feed, h0, if_false]
          exact hi k h5 h6) (by intro h; simp [Ins.start, PC.isLocal] at h)
      rw [h1] at h4
      obtain ⟨h4, _⟩ := h4
      subst h3
      have hz : y.phasen ≠ 0 := by rw [h4.phasen]; omega
      refine ⟨h4.1, ?_, ?_, ?_, ?_, ?_, ?_, ?_⟩
      · simp only [Ins.setLast, hz.symm, if_false]; exact h4.2
      · simp only [Ins.setLast, hz.symm, if_false]; exact h4.3
      · simp only [Ins.setLast, hz.symm, if_false]; exact h4.4
      · simp only [Ins.setLast, hz.symm, if_false]; exact h4.5
      · simp only [Ins.setLast, hz.symm, if_false]; exact h4.6
      · intro k j hj
        simp only [Ins.setLast]
        by_cases hk : k = y.phasen
        · simp only [hk, if_true]; exact h4.7 _ j (by rw [← hk]; exact hj)
        · simp only [hk, if_false]; exact h4.7 k j hj
      · intro k hk
        have : k ≠ y.phasen := by rw [h4.phasen]; omega
        simp only [Ins.setLast, this, if_false]
        exact h4.8 k hk
    · obtain ⟨m, y, h1, h2, h3⟩ := hc
      have h4 := hrun m (x1.start (g.input.map (fun x => (x, []))) g.flush) (by
        cases hg : g.input with
        | none => exact ⟨hf.1, hf.2, hf.3, hf.4, hf.5, hf.6, hf.7, hf.8⟩
        | some c =>
          refine ⟨hf.1, hf.2, hf.3, hf.4, hf.5, hf.6, ?_, ?_⟩
          · intro k j hj
            simp only [Ins.start, Option.map_some, Ins.feed]
            by_cases hk : k = 0
            · subst hk; exact hf.7 0 j hj
            · simp only [hk, if_false]; exact hf.7 k j hj
          · intro k hk
            have h0 : k ≠ 0 := by omega
            simp only [Ins.start, Option.map_some, Ins.feed, h0, if_false]
            exact hf.8 k hk) (by
        intro k h5 h6
        have h0 : k ≠ 0 := by omega
        cases hg : g.input with
        | none => rw [hg] at h6; exact hi k h5 h6
        | some c =>
          rw [hg] at h6
          simp only [Ins.start, Option.map_some, Ins.feed, h0, if_false]
          exact hi k h5 h6) (by intro h; simp [Ins.start, PC.isLocal] at h)
      rw [h1] at h4
      obtain ⟨_, h4⟩ := h4
      subst h3
      intro k h5 h6
      simp only [Ins.setLast]
      by_cases hk : k = y.phasen
      · subst hk; simp only [if_true]; exact h4 _ h5 (Nat.le_refl _)
      · simp only [hk, if_false]; exact h4 k h5 h6

/-- C07 for every history: create an instance, call `bsdconv_init`, make any calls whatsoever (also leaving input
unflushed and output unread), call `bsdconv_init` again; from here on everything is as it would have been after the
first `bsdconv_init`. -/
theorem C07_history {st : Nat → Static π} {ip : Nat → Nat → π → π}
    (hs : ∀ k j, Resettable ((st k).codecs j) (ip k j)) (ht : ∀ k j, Tidy ((st k).codecs j))
    {new used : Ins π} (hn : 1 ≤ new.phasen) {past as : List Arg} {pd ds : List Delivery} {new' : Ins π}
    (hp : Session st (new.init st ip) past pd used) (h : Session st (new.init st ip) as ds new') :
    ∃ used', Session st (used.init st ip) as ds used' ∧ used'.pending = new'.pending ∧
      used'.ierr + new.ierr = new'.ierr + used.ierr ∧ used'.oerr + new.oerr = new'.oerr + used.oerr := by
  have h0 : SameFrame st new (new.init st ip) := by
    refine ⟨rfl, by simp [Ins.init], by simp [Ins.init], by simp [Ins.init], by simp [Ins.init], by simp [Ins.init], ?_, ?_⟩
    · intro k j hj
      simp only [Ins.init]
      have hj' : ¬ j ≤ (st k).codecn := by omega
      by_cases hk : k ≤ new.phasen
      · simp only [hk, if_true]
        by_cases h1 : k = 0
        · subst h1; simp
        · simp [h1, Ph.reset, hj']
      · simp [hk]
    · intro k hk
      have : ¬ k ≤ new.phasen := by omega
      simp [Ins.init, this]
  have h1 : Selects st (new.init st ip) := by
    intro k h1 h2
    have h3 : k ≤ new.phasen := h2
    have h4 : k ≠ 0 := by omega
    simp [Ins.init, h3, h4, Ph.reset]
  obtain ⟨hf, _⟩ := frame_session ht hp hn h0 h1
  exact C07_reusable hs (used := used) (fresh := new)
    ⟨hf.1.symm, hf.2.symm, hf.3.symm, hf.4.symm, hf.5.symm, hf.6.symm, fun k j hj => (hf.7 k j hj).symm,
      fun k hk => (hf.8 k (by rw [← hf.1]; exact hk)).symm⟩ h

/-! ### Which codecs are resettable -/

/-- Table codecs (no callbacks): always. -/
theorem resettable_table {c : Codec π} (h1 : c.conv = id) (h2 : c.flush = none) (init : π → π) : Resettable c init :=
  ⟨fun _ _ => True, fun _ => trivial, fun _ _ => trivial, fun _ _ _ => clean_same h1 h2⟩

/-- The automaton of any rule file. -/
theorem C07_compiled (rs : List MkTable.Rule) (init : π → π) : Resettable (MkTable.compiled π rs) init :=
  resettable_table rfl rfl init

/-- Encoders without private data. -/
theorem C07_encoder (f : Spec.Datum → Option (List Spec.Datum)) (init : π → π) : Resettable (uniPrefix (encodeConv f)) init :=
  ⟨fun _ _ => True, fun _ => trivial, fun _ _ => trivial, fun _ _ _ => clean_encode f⟩

/-- Decoders reading byte by byte, with their private data in place `e` and `cbinit` = `init`. -/
def MResets (m : Machine σ) (init : σ → σ) : Prop :=
  ∃ R : σ → σ → Prop, (∀ t, R t t) ∧ (∀ t t', R (init t) (init t')) ∧ m.Blind R

theorem MResets.codec {m : Machine σ} {init : σ → σ} (h : MResets m init) (e : Lens π σ) :
    Resettable (anyByte (m.on e).conv) (fun x => e.put (init (e.get x)) x) := by
  obtain ⟨R, h1, h2, h3⟩ := h
  refine ⟨fun x x' => R (e.get x) (e.get x'), fun _ => h1 _, fun t t' => by
    simp only [e.get_put]; exact h2 _ _, ?_⟩
  intro E j hE
  exact clean_machine (by rw [hE]; exact h3.on e) (by intro f hf; simp at hf)

/-- Codecs working datum by datum. -/
def HResets (h : Handler σ) (init : σ → σ) : Prop :=
  ∃ R : σ → σ → Prop, (∀ t, R t t) ∧ (∀ t t', R (init t) (init t')) ∧ h.Blind R

theorem HResets.flushing {h : Handler σ} {init : σ → σ} (hh : HResets h init) (e : Lens π σ) :
    Resettable (Inter.flushing e h) (fun x => e.put (init (e.get x)) x) := by
  obtain ⟨R, h1, h2, h3⟩ := hh
  refine ⟨fun x x' => R (e.get x) (e.get x'), fun _ => h1 _, fun t t' => by
    simp only [e.get_put]; exact h2 _ _, ?_⟩
  intro E j hE
  exact clean_handler (by rw [hE]; exact h3.on e) (.inr rfl)

theorem HResets.plain {h : Handler σ} {init : σ → σ} (hh : HResets h init) (e : Lens π σ) :
    Resettable (Inter.plain e h) (fun x => e.put (init (e.get x)) x) := by
  obtain ⟨R, h1, h2, h3⟩ := hh
  refine ⟨fun x x' => R (e.get x) (e.get x'), fun _ => h1 _, fun t t' => by
    simp only [e.get_put]; exact h2 _ _, ?_⟩
  intro E j hE
  exact clean_handler (by rw [hE]; exact h3.on e) (.inl rfl)

/-- A `cbinit` that sets everything. -/
theorem hresets_const (h : Handler σ) (z : σ) : HResets h (fun _ => z) := by
  refine ⟨Eq, fun _ => rfl, fun _ _ => rfl, ⟨?_, ?_⟩⟩
  · rintro t _ d rfl
    cases ha : h.act t d with
    | none => exact .inl ⟨rfl, rfl⟩
    | some r => exact .inr ⟨r.1, r.1, r.2, rfl, rfl, rfl⟩
  · rintro t _ rfl
    exact ⟨rfl, rfl⟩

/-- /repo/modules/from/_UTF-8.c:43-48 sets everything, with every option. -/
theorem C07_utf8 (o : Utf8.Opts) : Resettable (Utf8.codec o) (fun _ => Utf8.Priv.zero) := by
  refine ⟨Eq, fun _ => rfl, fun _ _ => rfl, ?_⟩
  intro E j hE
  refine clean_machine (by rw [hE]; rintro t _ b rfl; exact ⟨rfl, rfl⟩) ?_
  rintro f hf x y l m hj ⟨b, p, hb, hp, rfl⟩
  obtain rfl := Option.some.inj hf
  have e : l.ph.priv l.ph.index = p l.ph.index := by
    have := hp l.ph.index
    rw [hj, hE] at this
    rw [hj]; exact this
  simp only [e]
  refine ⟨b, _, hb, ?_, rfl⟩
  intro k
  simp only []
  by_cases hk : k = l.ph.index
  · simp only [hk, if_true]; rw [hj, hE]
  · simp only [hk, if_false]; exact hp k

/-- /repo/modules/from/UTF-16BE.c, UTF-16LE.c: `cbinit` only resets the position, the buffer keeps its bytes. -/
theorem C07_utf16 (le : Bool) : MResets (Utf16.machine16 le) (fun t => { t with status := 0 }) := by
  refine ⟨fun t t' => t.status = t'.status ∧ (1 ≤ t.status → if le then t.b1 = t'.b1 else t.b0 = t'.b0) ∧
    (2 ≤ t.status → t.b0 = t'.b0 ∧ t.b1 = t'.b1) ∧ (3 ≤ t.status → if le then t.b3 = t'.b3 else t.b2 = t'.b2), ?_, ?_, ?_⟩
  · intro t; cases le <;> simp
  · intro t t'; simp
  · rintro ⟨s, a0, a1, a2, a3⟩ ⟨s', c0, c1, c2, c3⟩ b ⟨h1, h2, h3, h4⟩
    simp only [] at h1 h2 h3 h4
    subst h1
    match s with
    | 0 => cases le <;> simp [Utf16.machine16, Utf16.step16]
    | 1 =>
      have h2 := h2 (by omega)
      cases le
      · simp only [Bool.false_eq_true, if_false] at h2
        subst h2
        simp only [Utf16.machine16, Utf16.step16, Bool.false_eq_true, if_false]
        by_cases hc : (a0 &&& 0xfc == 0xd8) = true
        · simp [hc]
        · simp [hc]
      · simp only [if_true] at h2
        subst h2
        simp only [Utf16.machine16, Utf16.step16, if_true]
        by_cases hc : (b &&& 0xfc == 0xd8) = true
        · simp [hc]
        · simp [hc]
    | 2 =>
      obtain ⟨rfl, rfl⟩ := h3 (by omega)
      cases le <;> simp [Utf16.machine16, Utf16.step16]
    | n + 3 =>
      obtain ⟨rfl, rfl⟩ := h3 (by omega)
      have h4 := h4 (by omega)
      cases le
      · simp only [Bool.false_eq_true, if_false] at h4
        subst h4
        simp only [Utf16.machine16, Utf16.step16, Bool.false_eq_true, if_false]
        by_cases hc : (a2 &&& 0xfc == 0xdc) = true
        · simp [hc]
        · simp [hc]
      · simp only [if_true] at h4
        subst h4
        simp only [Utf16.machine16, Utf16.step16, if_true]
        by_cases hc : (b &&& 0xfc == 0xdc) = true
        · simp [hc]
        · simp [hc]

/-- /repo/modules/from/UTF-32BE.c, UTF-32LE.c -/
theorem C07_utf32 (le : Bool) : MResets (Utf16.machine32 le) (fun t => { t with status := 0 }) := by
  refine ⟨fun t t' => t.status = t'.status ∧ (1 ≤ t.status → if le then t.b3 = t'.b3 else t.b0 = t'.b0) ∧
    (2 ≤ t.status → if le then t.b2 = t'.b2 else t.b1 = t'.b1) ∧
    (3 ≤ t.status → if le then t.b1 = t'.b1 else t.b2 = t'.b2), ?_, ?_, ?_⟩
  · intro t; cases le <;> simp
  · intro t t'; simp
  · rintro ⟨s, a0, a1, a2, a3⟩ ⟨s', c0, c1, c2, c3⟩ b ⟨h1, h2, h3, h4⟩
    simp only [] at h1 h2 h3 h4
    subst h1
    match s with
    | 0 => cases le <;> simp [Utf16.machine32, Utf16.step32]
    | 1 => cases le <;> simp_all [Utf16.machine32, Utf16.step32]
    | 2 => cases le <;> simp_all [Utf16.machine32, Utf16.step32]
    | n + 3 =>
      have k2 := h2 (by omega)
      have k3 := h3 (by omega)
      have k4 := h4 (by omega)
      clear h2 h3 h4
      cases le <;> simp only [Bool.false_eq_true, if_false, if_true] at k2 k3 k4 <;> subst k2 <;> subst k3 <;> subst k4 <;>
        simp [Utf16.machine32, Utf16.step32]

/-- /repo/modules/from/ESCAPE.c -/
theorem C07_escape : MResets Escape.machine (fun t => { t with status := 0 }) := by
  refine ⟨fun t t' => t.status = t'.status ∧ (20 < t.status ∧ t.status ≠ 40 → t.b0 = t'.b0) ∧
    (t.status = 43 → t.b1 = t'.b1), fun _ => ⟨rfl, fun _ => rfl, fun _ => rfl⟩, fun _ _ => by simp, ?_⟩
  rintro ⟨s, a0, a1⟩ ⟨s', c0, c1⟩ b ⟨h1, h2, h3⟩
  simp only [] at h1 h2 h3
  subst h1
  simp only [Escape.machine]
  by_cases hs : s = 0 ∨ s = 10 ∨ s = 11 ∨ s = 20 ∨ s = 40
  · rcases hs with rfl | rfl | rfl | rfl | rfl <;> simp only [Escape.step, Escape.dead]
    · by_cases c1 : b = 37
      · simp [c1]
      · by_cases c2 : b = 92
        · simp [c2]
        · simp [c1, c2]
    · by_cases c1 : b = 117
      · simp [c1]
      · cases hx : Escape.hexb b <;> simp [c1]
    · by_cases c1 : b = 117
      · simp [c1]
      · by_cases c2 : b = 120
        · simp [c2]
        · cases hx : Escape.octb b <;> simp [c1, c2]
    · cases hx : Escape.hexb b <;> simp
    · cases hx : Escape.hexb b <;> simp
  by_cases hs2 : s = 21 ∨ s = 31 ∨ s = 32 ∨ s = 41 ∨ s = 42 ∨ s = 43
  · have h2 := h2 (by omega)
    subst h2
    rcases hs2 with rfl | rfl | rfl | rfl | rfl | rfl <;> simp only [Escape.step, Escape.dead]
    · cases hx : Escape.hexb b <;> simp
    · cases hx : Escape.octb b <;> simp
    · cases hx : Escape.octb b with
      | none => simp
      | some o =>
        simp only []
        by_cases hc : 377 < a0 * 8 + o
        · simp [hc]
        · simp [hc]
    · cases hx : Escape.hexb b <;> simp
    · cases hx : Escape.hexb b <;> simp
    · have h3 := h3 rfl
      subst h3
      cases hx : Escape.hexb b <;> simp
  · have e : ∀ t : Escape.Priv, t.status = s → Escape.step t b = (t, [], none) := by
      rintro ⟨t, x, y⟩ rfl
      unfold Escape.step
      simp only []
      split <;> simp_all
    rw [e _ rfl, e _ rfl]
    exact ⟨rfl, rfl, h2, h3⟩

/-- /repo/modules/from/ASCII-NUMERIC-HTML-ENTITY.c -/
theorem C07_entity : MResets Escape.emachine (fun t => { t with status := 0 }) := by
  refine ⟨fun t t' => t.status = t'.status ∧ (t.status ≠ 0 → t.hex = t'.hex ∧ t.val = t'.val),
    fun _ => ⟨rfl, fun _ => ⟨rfl, rfl⟩⟩, fun _ _ => by simp, ?_⟩
  rintro ⟨s, a0, a1⟩ ⟨s', c0, c1⟩ b ⟨h1, h2⟩
  simp only [] at h1 h2
  subst h1
  simp only [Escape.emachine, Escape.estep]
  by_cases hs : s = 0
  · subst hs
    simp only [ne_eq, not_true, and_false, if_false]
    by_cases c1 : b = 120
    · simp [c1]
    · cases hx : Escape.decb b <;> simp [c1]
  · obtain ⟨rfl, rfl⟩ := h2 hs
    by_cases c1 : b = 59
    · simp [c1, hs]
    · cases hx : Escape.etbl a0 b <;> simp [c1, hs, hx]

/-- /repo/modules/from/_GB18030.c, whatever bytes the table has matched before. -/
theorem C07_gb18030 (c : List Nat) : MResets (Gb18030.machine c) (fun t => { t with status := 0 }) := by
  have hacc : ∀ (t t' : Gb18030.Priv) b, t.status = t'.status → (t.status ≠ 0 → t.ucs = t'.ucs) →
      (Gb18030.accept t b).status = (Gb18030.accept t' b).status ∧ (Gb18030.accept t b).ucs = (Gb18030.accept t' b).ucs := by
    rintro ⟨s, u⟩ ⟨s', u'⟩ b h1 h2
    simp only [] at h1 h2
    subst h1
    match s with
    | 0 => exact ⟨rfl, rfl⟩
    | 1 => have := h2 (by omega); subst this; exact ⟨rfl, rfl⟩
    | 2 => have := h2 (by omega); subst this; exact ⟨rfl, rfl⟩
    | n + 3 => have := h2 (by omega); subst this; exact ⟨rfl, rfl⟩
  have hcu : ∀ (n : Nat) (t t' : Gb18030.Priv), 3 - t.status ≤ n → t.status = t'.status → (t.status ≠ 0 → t.ucs = t'.ucs) →
      (Gb18030.catchUp c t).status = (Gb18030.catchUp c t').status ∧
        ((Gb18030.catchUp c t).status ≠ 0 → (Gb18030.catchUp c t).ucs = (Gb18030.catchUp c t').ucs) := by
    intro n
    induction n with
    | zero =>
      intro t t' hn h1 h2
      have e : ∀ t : Gb18030.Priv, 3 ≤ t.status → Gb18030.catchUp c t = t := by
        intro t ht
        rw [Gb18030.catchUp, if_neg (by omega)]
      rw [e t (by omega), e t' (by omega)]
      exact ⟨h1, h2⟩
    | succ n ih =>
      intro t t' hn h1 h2
      rw [Gb18030.catchUp.eq_1 c t, Gb18030.catchUp.eq_1 c t']
      by_cases hc : t.status < c.length ∧ t.status < 3
      · rw [if_pos hc, if_pos (by rw [← h1]; exact hc), ← h1]
        obtain ⟨e1, e2⟩ := hacc t t' (c.getD t.status 0) h1 h2
        refine ih _ _ ?_ e1 (fun _ => e2)
        have : (Gb18030.accept t (c.getD t.status 0)).status = t.status + 1 := by
          obtain ⟨s, u⟩ := t
          simp only [] at hc ⊢
          match s, hc with
          | 0, _ => rfl
          | 1, _ => rfl
          | 2, _ => rfl
        omega
      · rw [if_neg hc, if_neg (by rw [← h1]; exact hc)]
        exact ⟨h1, h2⟩
  refine ⟨fun t t' => t.status = t'.status ∧ (t.status ≠ 0 → t.ucs = t'.ucs), fun _ => ⟨rfl, fun _ => rfl⟩,
    fun _ _ => by simp, ?_⟩
  rintro t t' b ⟨h1, h2⟩
  obtain ⟨e1, e2⟩ := hcu _ t t' (Nat.le_refl _) h1 h2
  obtain ⟨e3, e4⟩ := hacc _ _ b e1 e2
  simp only [Gb18030.machine, Gb18030.step]
  rw [e1] at *
  generalize Gb18030.accept (Gb18030.catchUp c t) b = q at e3 e4
  generalize Gb18030.accept (Gb18030.catchUp c t') b = q' at e3 e4
  have hq : q = q' := by
    obtain ⟨a, b⟩ := q
    obtain ⟨a', b'⟩ := q'
    simp only [] at e3 e4
    rw [e3, e4]
  subst hq
  exact ⟨rfl, rfl, fun _ => rfl⟩

/-- /repo/modules/inter/_NF-HANGUL-COMPOSITION.c -/
theorem C07_hangul : HResets Inter.hangulCompose (fun t => { t with status := 0 }) := by
  have hfl : ∀ t t' : Inter.Hangul, t.status = t'.status → (t.status ≠ 0 → t.pending = t'.pending) →
      t.flush.2 = t'.flush.2 ∧ t.flush.1.status = 0 ∧ t'.flush.1.status = 0 := by
    rintro ⟨s, p⟩ ⟨s', p'⟩ h1 h2
    simp only [] at h1 h2
    subst h1
    by_cases hs : s = 0
    · simp [Inter.Hangul.flush, hs]
    · have := h2 hs
      subst this
      simp [Inter.Hangul.flush, hs]
  have hre : ∀ (t t' : Inter.Hangul) (u : Nat) (d : Spec.Datum), t.status = t'.status →
      (t.status ≠ 0 → t.pending = t'.pending) → 
      ∃ v v' r, t.restart u d = some (v, r) ∧ t'.restart u d = some (v', r) ∧ v.status = v'.status ∧
        (v.status ≠ 0 → v.pending = v'.pending) := by
    intro t t' u d h1 h2
    obtain ⟨e1, e2, e3⟩ := hfl t t' h1 h2
    unfold Inter.Hangul.restart
    cases Inter.index u 0x1100 19 with
    | some i => exact ⟨_, _, _, rfl, by rw [e1], rfl, fun _ => rfl⟩
    | none => exact ⟨_, _, _, rfl, by rw [e1], by rw [e2, e3], fun h => absurd e2 h⟩
  refine ⟨fun t t' => t.status = t'.status ∧ (t.status ≠ 0 → t.pending = t'.pending),
    fun _ => ⟨rfl, fun _ => rfl⟩, fun _ _ => by simp, ⟨?_, ?_⟩⟩
  · rintro ⟨s, p⟩ ⟨s', p'⟩ d ⟨h1, h2⟩
    simp only [] at h1 h2
    subst h1
    have other : ∀ d : Spec.Datum, ∃ u u' r, 
        some ((Inter.Hangul.mk s p).flush.1, (Inter.Hangul.mk s p).flush.2 ++ [d], false) = some (u, r) ∧
        some ((Inter.Hangul.mk s p').flush.1, (Inter.Hangul.mk s p').flush.2 ++ [d], false) = some (u', r) ∧
        u.status = u'.status ∧ (u.status ≠ 0 → u.pending = u'.pending) := by
      intro d
      obtain ⟨e1, e2, e3⟩ := hfl ⟨s, p⟩ ⟨s, p'⟩ rfl h2
      exact ⟨_, _, _, rfl, by rw [e1], by rw [e2, e3], fun h => absurd e2 h⟩
    match d with
    | [] => exact .inr (other [])
    | b :: r =>
      by_cases hb : b = 1
      · subst hb
        simp only [Inter.hangulCompose]
        by_cases hs : s = 0
        · subst hs
          simp only [if_true]
          cases Inter.index (Range.ucs r) 0x1100 19 with
          | none => exact .inl ⟨rfl, rfl⟩
          | some i => exact .inr ⟨_, _, _, rfl, rfl, rfl, fun _ => rfl⟩
        · have := h2 hs
          subst this
          right
          have same : ∀ {o : Option (Inter.Hangul × List Spec.Datum × Bool)}, o ≠ none → ∃ u u' r, o = some (u, r) ∧
              o = some (u', r) ∧ u.status = u'.status ∧ (u.status ≠ 0 → u.pending = u'.pending) := by
            intro o ho
            cases o with
            | none => exact absurd rfl ho
            | some q => exact ⟨q.1, q.1, q.2, rfl, rfl, rfl, fun _ => rfl⟩
          apply same
          have hn : ∀ (t : Inter.Hangul) (u : Nat) (d : Spec.Datum), t.restart u d ≠ none := by
            intro t u d
            unfold Inter.Hangul.restart
            split <;> simp
          simp only [hs, if_false]
          split
          · split
            · split
              · simp
              · exact hn _ _ _
            · exact hn _ _ _
          · split
            · split
              · simp
              · exact hn _ _ _
            · exact hn _ _ _
      · have e : ∀ t, Inter.hangulCompose.act t (b :: r) = some (t.flush.1, t.flush.2 ++ [b :: r], false) := by
          intro t
          simp only [Inter.hangulCompose]
          split
          · rename_i h; simp at h; exact absurd h.1 hb
          · rfl
        rw [e, e]
        exact .inr (other (b :: r))
  · rintro t t' ⟨h1, h2⟩
    obtain ⟨e1, e2, e3⟩ := hfl t t' h1 h2
    exact ⟨e1, by show t.flush.1.status = t'.flush.1.status; rw [e2, e3], fun h => absurd e2 h⟩

/-- INTER codecs whose `cbinit` sets everything: PASS (`passed=0`), TRIM-WIDTH (`remain=width`), AMBIGUOUS-PAD
(`dopad=1`), AMBIGUOUS-UNPAD (`s=0, dopad=1`), STRINGS as far as the queue is concerned (what is wrong with its `cbinit`
is C36). -/
theorem C07_inter (e1 : Lens π Int) (e2 : Lens π Bool) (e3 : Lens π Inter.Unpad) (f : Inter.Filter) (limit width : Int)
    (ambi : Nat) :
    Resettable (Inter.plain e1 (Inter.pass f limit)) (fun x => e1.put 0 x) ∧
    Resettable (Inter.plain e1 (Inter.trim ambi)) (fun x => e1.put width x) ∧
    Resettable (Inter.plain e2 Inter.pad) (fun x => e2.put true x) ∧
    Resettable (Inter.plain e3 Inter.unpad) (fun x => e3.put ⟨false, true⟩ x) :=
  ⟨(hresets_const _ _).plain e1, (hresets_const _ _).plain e1, (hresets_const _ _).plain e2, (hresets_const _ _).plain e3⟩

/-! Callbacks keep to their own private data. -/

theorem tidy_table {c : Codec π} (h1 : c.conv = id) (h2 : c.flush = none) : Tidy c :=
  ⟨fun l => by rw [h1]; exact ⟨rfl, fun _ _ => rfl⟩, fun f h => by rw [h2] at h; simp at h⟩

theorem tidy_encoder (f : Spec.Datum → Option (List Spec.Datum)) : Tidy (uniPrefix (π := π) (encodeConv f)) := by
  refine ⟨fun l => ?_, fun f h => by simp [uniPrefix] at h⟩
  simp only [uniPrefix, encodeConv]
  split <;> exact ⟨rfl, fun _ _ => rfl⟩

theorem tidy_machine (m : Machine π) : Tidy (anyByte m.conv) := by
  refine ⟨fun l => ?_, fun f h => by simp [anyByte] at h⟩
  simp only [anyByte, Machine.conv]
  split <;> exact ⟨rfl, fun j hj => by simp [hj]⟩

theorem tidy_conv (h : Handler π) (l : Loc π) : (h.conv l).ph.index = l.ph.index ∧
    ∀ j, j ≠ l.ph.index → (h.conv l).ph.priv j = l.ph.priv j := by
  simp only [Handler.conv]
  split
  · exact ⟨rfl, fun _ _ => rfl⟩
  · exact ⟨rfl, fun j hj => by simp [setPriv, hj]⟩

theorem tidy_flushing (e : Lens π σ) (h : Handler σ) : Tidy (Inter.flushing e h) := by
  refine ⟨tidy_conv _, ?_⟩
  intro f hf l
  obtain rfl := Option.some.inj hf
  exact ⟨rfl, fun j hj => by simp [Handler.cbflush, setPriv, hj]⟩

theorem tidy_plain (e : Lens π σ) (h : Handler σ) : Tidy (Inter.plain e h) :=
  ⟨tidy_conv _, fun f hf => by simp [Inter.plain, anyByte] at hf⟩

/-! A conversion to which C07 applies: `UTF-16LE:_NF-HANGUL-COMPOSITION:UTF-8` (the last without ASCII). -/

/-- Its private data. -/
abbrev ReP := Utf16.Priv × Inter.Hangul

def reL1 : Lens ReP Utf16.Priv := ⟨Prod.fst, fun t x => (t, x.2), fun _ _ => rfl, fun _ => rfl⟩
def reL2 : Lens ReP Inter.Hangul := ⟨Prod.snd, fun t x => (x.1, t), fun _ _ => rfl, fun _ => rfl⟩

def reSt : Nat → Static ReP
  | 1 => ⟨.from_, fun _ => anyByte ((Utf16.machine16 true).on reL1).conv, 0⟩
  | 2 => ⟨.inter, fun _ => Inter.flushing reL2 Inter.hangulCompose, 0⟩
  | _ => ⟨.to_, fun _ => Utf8.toCodec, 0⟩

def reIp : Nat → Nat → ReP → ReP
  | 1, _, x => reL1.put { reL1.get x with status := 0 } x
  | 2, _, x => reL2.put { reL2.get x with status := 0 } x
  | _, _, x => x

theorem re_resets : ∀ k j, Resettable ((reSt k).codecs j) (reIp k j) ∧ Tidy ((reSt k).codecs j) := by
  intro k j
  match k with
  | 0 => exact ⟨C07_encoder _ _, tidy_encoder _⟩
  | 1 => exact ⟨(C07_utf16 true).codec reL1, tidy_machine _⟩
  | 2 => exact ⟨C07_hangul.flushing reL2, tidy_flushing _ _⟩
  | n + 3 => exact ⟨C07_encoder _ _, tidy_encoder _⟩

/-- A newly created instance, with junk in its buffers. -/
def reNew : Ins ReP := { ph := fun _ => { priv := fun _ => (⟨7, 1, 2, 3, 4⟩, ⟨9, 5⟩) }, phasen := 3 }

/-- The hypotheses of C07_history are met with a past that leaves half a code unit and a pending consonant, and the
conversion is not trivial. -/
example : ∃ past pd used ds new', Session reSt (reNew.init reSt reIp) past pd used ∧
    ((used.ph 1).priv 0).1.status = 1 ∧ ((used.ph 2).priv 0).2.status = 1 ∧
    Session reSt (reNew.init reSt reIp) [⟨some [0x61, 0x11, 0xE9, 0x00], true, .automalloc 0⟩] ds new' ∧
    ds.map (·.bytes) = [[0xE1, 0x85, 0xA1, 0xC3, 0xA9]] :=
  ⟨[⟨some [0x00, 0x11, 0x61], false, .automalloc 0⟩], _, _, _, _,
    .cons (call_eval 60 (by decide +kernel)) (.nil _), by decide +kernel, by decide +kernel,
    .cons (call_eval 60 (by decide +kernel)) (.nil _), by decide +kernel⟩

/-! ### Codecs without `cbinit` -/

/-- A decoder of two letters, and _NF-ORDER (/repo/modules/inter/_NF-ORDER.c has no `cbinit`). -/
def noSt : Nat → Static (List (Int × Spec.Datum))
  | 1 => ⟨.from_, fun _ => trieCodec [([97], [[1, 97]]), ([109], [[1, 3, 1]])], 0⟩
  | _ => ⟨.inter, fun _ => Inter.flushing (Lens.self _) Inter.order, 0⟩

def noNew : Ins (List (Int × Spec.Datum)) := { ph := fun _ => { priv := fun _ => [] }, phasen := 2 }

/-- C07 fails for _NF-ORDER: a combining character of an abandoned conversion appears at the head of the next one. -/
theorem C07_nf_order_violated : ∃ past pd used ds new' ds' used',
    Session noSt (noNew.init noSt fun _ _ t => t) past pd used ∧
    Session noSt (noNew.init noSt fun _ _ t => t) [⟨some [97], true, .automalloc 0⟩] ds new' ∧
    Session noSt (used.init noSt fun _ _ t => t) [⟨some [97], true, .automalloc 0⟩] ds' used' ∧
    ds.map (·.bytes) = [[1, 97]] ∧ ds'.map (·.bytes) = [[1, 3, 1, 1, 97]] :=
  ⟨[⟨some [109], false, .automalloc 0⟩], _, _, _, _, _, _,
    .cons (call_eval 60 (by decide +kernel)) (.nil _), 
    .cons (call_eval 60 (by decide +kernel)) (.nil _), 
    .cons (call_eval 60 (by decide +kernel)) (.nil _), by decide +kernel, by decide +kernel⟩

/-- CP950-UDA (/repo/modules/from/CP950-UDA.c has no `cbinit`). -/
def cpSt : Nat → Static Cp950.Priv := fun _ => ⟨.from_, fun _ => Cp950.codec, 0⟩

def cpNew : Ins Cp950.Priv := { ph := fun _ => { priv := fun _ => ⟨0, 0, 0⟩ }, phasen := 1 }

/-- C07 fails for CP950-UDA: a lead byte of an abandoned conversion combines with the first byte of the next one,
which alone is an error. -/
theorem C07_cp950_uda_violated : ∃ past pd used ds new' ds' used',
    Session cpSt (cpNew.init cpSt fun _ _ t => t) past pd used ∧
    Session cpSt (cpNew.init cpSt fun _ _ t => t) [⟨some [0x41], true, .automalloc 0⟩] ds new' ∧
    Session cpSt (used.init cpSt fun _ _ t => t) [⟨some [0x41], true, .automalloc 0⟩] ds' used' ∧
    ds.map (·.bytes) = [[]] ∧ new'.ierr = 1 ∧ ds'.map (·.bytes) = [[1, 0xE0, 1]] ∧ used'.ierr = 0 :=
  ⟨[⟨some [0xFA], false, .automalloc 0⟩], _, _, _, _, _, _,
    .cons (call_eval 60 (by decide +kernel)) (.nil _), 
    .cons (call_eval 60 (by decide +kernel)) (.nil _), 
    .cons (call_eval 60 (by decide +kernel)) (.nil _), by decide +kernel, by decide +kernel, by decide +kernel,
    by decide +kernel⟩

end Verif.Props
