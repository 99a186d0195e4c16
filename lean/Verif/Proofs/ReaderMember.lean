import Verif.Proofs.EngineReader2
import Verif.Proofs.HandlerTable
import Verif.Model.Machine
import Verif.Spec.Codec

/-! Decoders that run a loop over bytes, and prefix-free tables, as members of reader phases. -/

namespace Verif.Engine
open Verif.Spec

variable {π σ : Type}

/-- The decoder `m` with its private data in its place. -/
def Machine.on (e : Lens π σ) (m : Machine σ) : Machine π where
  step := fun x d => let r := m.step (e.get x) d; (e.put r.1 x, r.2.1, r.2.2)

/-- The decoder `m` as a reader. -/
def Machine.reader (m : Machine π) : Reader π where
  step := fun x _ b =>
    let r := m.step x b
    match r.2.2 with
    | some .nextphase => .done r.1 r.2.1
    | some .deadend => .dead r.1
    | _ => .more r.1

/-- A decoder that puts out data only when it returns NEXTPHASE, and returns nothing but CONTINUE, NEXTPHASE and DEADEND. -/
def Machine.Plain (m : Machine σ) (J : σ → Prop) : Prop :=
  ∀ t b, J t → b < 256 → J (m.step t b).1 ∧ (match (m.step t b).2.2 with
    | none => (m.step t b).2.1 = []
    | some .cont => (m.step t b).2.1 = []
    | some .deadend => (m.step t b).2.1 = []
    | some .nextphase => ∀ x ∈ (m.step t b).2.1, IsBytes x
    | _ => False)

theorem Machine.Plain.on {m : Machine σ} {J : σ → Prop} (h : m.Plain J) (e : Lens π σ) : (m.on e).Plain (fun x => J (e.get x)) := by
  intro x b hx hb
  have := h (e.get x) b hx hb
  simp only [Machine.on, e.get_put]
  exact this

/-- What the loop does, as reading. -/
def FedIs (r : Reader π) (x : π) (u bs : List Nat) : Fed π → Prop
  | .more x' out => out = [] ∧ r.read x u bs = .ended x'
  | .ret k x' out st => 1 ≤ k ∧ k ≤ bs.length ∧ match st with
    | .cont => out = [] ∧ r.read x u (bs.take k) = .ended x'
    | .deadend => out = [] ∧ r.read x u (bs.take k) = .dead x'
    | .nextphase => r.read x u (bs.take k) = .done [] x' out
    | _ => False

theorem feed_read {m : Machine π} {J : π → Prop} (hm : m.Plain J) (bs : List Nat) (hb : ∀ b ∈ bs, b < 256) :
    ∀ (x : π) (u : List Nat), J x → FedIs m.reader x u bs (m.feed x bs) := by
  induction bs with
  | nil => intro x u _; exact ⟨rfl, rfl⟩
  | cons b bs ih =>
    intro x u hx
    obtain ⟨h1, h2⟩ := hm x b hx (hb b (by simp))
    rw [Machine.feed]
    obtain ⟨⟨x1, out, st⟩, hs⟩ : ∃ a, m.step x b = a := ⟨_, rfl⟩
    rw [hs] at h1 h2 ⊢
    have hrs : ∀ w, m.reader.step x w b = (match (generalizing := false) st with
        | some .nextphase => .done x1 out
        | some .deadend => .dead x1
        | _ => .more x1) := by
      intro w; simp only [Machine.reader, hs]
    cases st with
    | some st =>
      simp only at h2 ⊢
      refine ⟨by omega, by simp, ?_⟩
      simp only [List.take_succ_cons, List.take_zero, Reader.read, hrs]
      cases st <;> simp_all
    | none =>
      simp only at h2 ⊢
      subst h2
      have := ih (fun c hc => hb c (by simp [hc])) x1 (u ++ [b]) h1
      cases hf : m.feed x1 bs with
      | more x2 o =>
        rw [hf] at this
        simp only [FedIs] at this ⊢
        simp only [Reader.read, hrs]
        exact ⟨by rw [this.1]; rfl, this.2⟩
      | ret k x2 o st =>
        rw [hf] at this
        obtain ⟨a, b', c⟩ := this
        refine ⟨by omega, by simp; omega, ?_⟩
        simp only [List.take_succ_cons, Reader.read, hrs, List.nil_append]
        exact c

/-- Where the automaton of the table `* ?` is after the bytes `u`. -/
def AtAny (u : List Nat) (p : Ph π) : Prop :=
  (u = [] ∧ p.st = 0 ∧ p.fLoop = false) ∨ (u ≠ [] ∧ p.st = 1 ∧ p.offset = 1 ∧ p.fLoop = true)

theorem pushAll_nil (q : Queue) : q.pushAll [] = q := rfl

/-- A decoder with the table `* ?`. -/
theorem machine_member {s : Static π} {j : Nat} {m : Machine π} {J : π → Prop} (hm : m.Plain J) {fl : Option (Loc π → Loc π)}
    (hc : s.codecs j = anyByte m.conv fl) : RMember s j m.reader J AtAny where
  start := fun _ _ h2 h3 => .inl ⟨rfl, h2, h3⟩
  same := by
    rintro u p p' h h1 h2 h3 h4
    rcases h with ⟨a, b, c⟩ | ⟨a, b, c, d⟩
    · exact .inl ⟨a, h2.trans b, h4.trans c⟩
    · exact .inr ⟨a, h2.trans b, h3.trans c, h4.trans d⟩
  sound := by
    intro t u b ht hb
    obtain ⟨h1, h2⟩ := hm t b ht hb
    simp only [Machine.reader]
    obtain ⟨⟨x1, out, st⟩, hs⟩ : ∃ a, m.step t b = a := ⟨_, rfl⟩
    rw [hs] at h1 h2 ⊢
    cases st with
    | none => exact h1
    | some st => cases st <;> simp_all
  step := by
    intro l u hat hidx hfm hcur hI hb hlt
    subst hidx
    have hcb : (l.prev.get l.ph.curr)[l.ph.i] < 256 := hb _ (List.getElem_mem hlt)
    have hadv : l.ph.advance s ((l.prev.get l.ph.curr)[l.ph.i]) = { l.ph with offset := 1, st := 1, status := .subroutine } := by
      rcases hat with ⟨_, h1, h2⟩ | ⟨_, h1, h2, h3⟩
      · simp [Ph.advance, Static.codec, hc, anyByte, h1, Nat.le_of_lt hcb]
      · simp [Ph.advance, Static.codec, hc, anyByte, h1, h2, h3]
    have hin : localStep s .fromInner l = ({ l with ph := { l.ph with offset := 1, st := 1, status := .subroutine } }, .goto .fromSw) := by
      have : ¬ l.ph.curr = 0 := by omega
      simp only [localStep, fromInner, if_neg this, dif_pos hlt, hadv]
    have hsw : localStep s .fromSw { l with ph := { l.ph with offset := 1, st := 1, status := .subroutine } } =
        (let l1 := m.conv { l with ph := { l.ph with offset := 1, st := 1, status := .subroutine } }
         ({ l1 with ph := { l1.ph with fLoop := true } }, .goto .fromSw)) := by
      simp only [localStep, fromSw, Static.codec, hc, anyByte]
    have hbd : ∀ b ∈ (l.prev.get l.ph.curr).drop l.ph.i, b < 256 := fun b h => hb b (List.mem_of_mem_drop h)
    have hfeed := feed_read hm _ hbd (l.ph.priv l.ph.index) u hI
    have hreach : ∀ {l' ctl}, LReach s .fromSw (let l1 := m.conv { l with ph := { l.ph with offset := 1, st := 1, status := .subroutine } }
         ({ l1 with ph := { l1.ph with fLoop := true } } : Loc π)) l' ctl → LReach s .fromInner l l' ctl :=
      fun h => .cons rfl hin (.cons rfl hsw h)
    generalize hbs : (l.prev.get l.ph.curr).drop l.ph.i = bs at hfeed
    have hne : bs ≠ [] := by
      rw [← hbs]; intro h
      have := congrArg List.length h
      simp at this; omega
    simp only [Machine.conv, hbs] at hreach
    cases hf : m.feed (l.ph.priv l.ph.index) bs with
    | more t out =>
      rw [hf] at hfeed
      obtain ⟨rfl, hrd⟩ := hfeed
      simp only [hf] at hreach
      refine ⟨bs, [], by simp, hne, ?_⟩
      rw [hrd]
      refine ⟨_, hreach (.one rfl (by simp only [localStep, fromSw]; rfl)), ?_⟩
      refine ⟨⟨rfl, rfl, rfl, rfl, rfl, rfl, rfl, hfm, rfl, ?_⟩, rfl, ?_, .inr ⟨by simp [hne], rfl, rfl, rfl⟩⟩
      · rfl
      · simp
    | ret k t out st =>
      rw [hf] at hfeed
      obtain ⟨hk1, hk2, hrd⟩ := hfeed
      simp only [hf] at hreach
      have htk : bs.take k ≠ [] := by
        intro h
        have := congrArg List.length h
        rw [List.length_take, List.length_nil] at this
        have := List.length_pos_iff.2 hne
        omega
      have hdrop : (l.prev.get l.ph.curr).drop (l.ph.i + (k - 1) + 1) = bs.drop k := by
        rw [← hbs, List.drop_drop]
        congr 1; omega
      refine ⟨bs.take k, bs.drop k, (List.take_append_drop _ _).symm, htk, ?_⟩
      cases st with
      | cont =>
        obtain ⟨rfl, hrd⟩ := hrd
        rw [hrd]
        refine ⟨_, hreach (.one rfl (by simp only [localStep, fromSw]; rfl)), ?_⟩
        refine ⟨⟨rfl, rfl, rfl, rfl, rfl, rfl, rfl, hfm, rfl, rfl⟩, rfl, hdrop,
          .inr ⟨by simp only [ne_eq, List.append_eq_nil_iff, htk, and_false, not_false_eq_true], rfl, rfl, rfl⟩⟩
      | deadend =>
        obtain ⟨rfl, hrd⟩ := hrd
        rw [hrd]
        refine ⟨_, hreach (.one rfl (by simp only [localStep, fromSw]; rfl)), ?_⟩
        exact ⟨rfl, rfl, rfl, rfl, rfl, rfl, rfl, hfm, rfl, rfl⟩
      | nextphase =>
        simp only at hrd
        rw [hrd]
        refine ⟨_, hreach (.one rfl (by simp only [localStep, fromSw]; rfl)), ?_⟩
        exact ⟨rfl, rfl, rfl, rfl, rfl, rfl, rfl, rfl, rfl, rfl, by rw [List.nil_append]; exact hdrop, rfl, rfl⟩
      | _ => exact absurd hrd (by simp)

/-- Where the automaton of a table is after the bytes `u`. -/
def AtTable (c : Codec π) (u : List Nat) (p : Ph π) : Prop := walk c 0 u = some p.st ∧ p.fLoop = false

/-- No pattern is a proper prefix of another. -/
def PrefixFree (R : Rules Nat (List Datum)) : Prop := ∀ p b, lookup R p = some b → extendable R p = false

/-- A table none of whose patterns is a proper prefix of another. -/
theorem table_reader {s : Static π} {j : Nat} {R : Rules Nat (List Datum)} (hrep : Represents (s.codecs j) R) (hpf : PrefixFree R)
    (hdat : ∀ p b, lookup R p = some b → ∀ x ∈ b, IsBytes x) (I : π → Prop) :
    RMember s j (Reader.table R) I (AtTable (s.codecs j)) where
  start := fun _ _ h2 h3 => ⟨by simp [walk, h2], h3⟩
  same := by
    rintro u p p' ⟨a, b⟩ h1 h2 h3 h4
    exact ⟨by rw [h2]; exact a, h4.trans b⟩
  sound := by
    intro t u b ht hb
    simp only [Reader.table]
    cases hl : lookup R (u ++ [b]) with
    | some out => exact ⟨ht, hdat _ _ hl⟩
    | none =>
      simp only
      by_cases h : R.any (fun r => (u ++ [b]).isPrefixOf r.1) = true
      · rw [if_pos h]; exact ht
      · rw [if_neg h]; exact ht
  step := by
    intro l u hat hidx hfm hcur hI hb hlt
    subst hidx
    obtain ⟨hw, hloop⟩ := hat
    generalize hbb : (l.prev.get l.ph.curr)[l.ph.i] = b
    have hdr : (l.prev.get l.ph.curr).drop l.ph.i = [b] ++ (l.prev.get l.ph.curr).drop (l.ph.i + 1) := by
      rw [List.drop_eq_getElem_cons hlt, hbb]; rfl
    refine ⟨[b], _, hdr, by simp, ?_⟩
    have hc0 : ¬ l.ph.curr = 0 := by omega
    have hin : localStep s .fromInner l = ({ l with ph := l.ph.advance s b }, .goto .fromSw) := by
      simp only [localStep, fromInner, if_neg hc0, dif_pos hlt, hbb]
    have hsn := walk_snoc hw b
    have hsp : setPriv l.ph.priv l.ph.index (l.ph.priv l.ph.index) = l.ph.priv := by
      funext k; simp only [setPriv]; split
      · rename_i h; rw [h]
      · rfl
    have hpath := hrep.path (u ++ [b]) (by simp)
    have hany : R.any (fun r => (u ++ [b]).isPrefixOf r.1) = true ↔ ∃ r ∈ R, u ++ [b] <+: r.1 := by
      simp [List.any_eq_true]
    by_cases hnx : (s.codecs l.ph.index).next l.ph.st b = 0
    · rw [if_pos hnx] at hsn
      have hno : ¬ ∃ r ∈ R, u ++ [b] <+: r.1 := by
        rw [← hpath, hsn]; simp
      have hlk : lookup R (u ++ [b]) = none := by
        cases hl : lookup R (u ++ [b]) with
        | none => rfl
        | some o =>
          obtain ⟨r, hr, e, _⟩ := single_lookup_none.lookup_some_mem hl
          exact absurd ⟨r, hr, by rw [e]; exact List.prefix_refl _⟩ hno
      have hadv : l.ph.advance s b = { l.ph with offset := 0, st := 0, status := .deadend } := by
        simp [Ph.advance, Static.codec, hnx, hloop, hrep.root]
      rw [hadv] at hin
      have hany' : R.any (fun r => (u ++ [b]).isPrefixOf r.1) = false := by
        rw [← Bool.not_eq_true, hany]; exact hno
      simp only [Reader.read, Reader.table, hlk, hany', Bool.false_eq_true, if_false]
      refine ⟨_, .cons rfl hin (.one rfl (by simp only [localStep, fromSw]; rfl)), ?_⟩
      exact ⟨rfl, rfl, rfl, rfl, rfl, rfl, rfl, hfm, rfl, hsp.symm⟩
    · rw [if_neg hnx] at hsn
      have hadv : l.ph.advance s b = { l.ph with
          offset := (s.codecs l.ph.index).next l.ph.st b
          st := (s.codecs l.ph.index).next l.ph.st b
          status := nodeStatus R (u ++ [b]) } := by
        have hst := hrep.status _ _ (by simp) hsn
        simp [Ph.advance, Static.codec, hnx, hst]
      cases hl : lookup R (u ++ [b]) with
      | some out =>
        have hns : nodeStatus R (u ++ [b]) = .match_ := by
          simp [nodeStatus, hl, hpf _ _ hl]
        rw [hadv, hns] at hin
        have hd := hrep.data _ _ _ hsn hl
        simp only [Reader.read, Reader.table, hl]
        refine ⟨_, .cons rfl hin (.one rfl (by simp only [localStep, fromSw, Static.codec, hd]; rfl)), ?_⟩
        exact ⟨rfl, rfl, rfl, rfl, rfl, rfl, rfl, rfl, rfl, rfl, rfl, rfl, hsp.symm⟩
      | none =>
        have hns : nodeStatus R (u ++ [b]) = .cont := by simp [nodeStatus, hl]
        rw [hadv, hns] at hin
        have hany' : R.any (fun r => (u ++ [b]).isPrefixOf r.1) = true := by
          rw [hany, ← hpath, hsn]; rfl
        simp only [Reader.read, Reader.table, hl, hany', if_true]
        refine ⟨_, .cons rfl hin (.one rfl (by simp only [localStep, fromSw]; rfl)), ?_⟩
        exact ⟨⟨rfl, rfl, rfl, rfl, rfl, rfl, rfl, hfm, rfl, hsp.symm⟩, rfl, rfl, hsn, hloop⟩

end Verif.Engine
