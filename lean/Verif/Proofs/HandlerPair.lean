import Verif.Proofs.Placed

/-! Phases with two codecs that never wait for another datum. -/

namespace Verif.Engine
open Verif.Spec

variable {π σ τ : Type}

instance (d : Datum) : Decidable (IsBytes d) := inferInstanceAs (Decidable (∀ b ∈ d, b < 256))

/-- Never waits. -/
def NoHold (h : Handler σ) : Prop := ∀ t d t' o b, h.act t d = some (t', o, b) → b = false

theorem handle_pair (pass : Bool) (e0 : Lens π σ) (h : Handler σ) (e1 : Lens π τ) (g : Handler τ)
    {hs : Nat → Handler π} (h0 : hs 0 = h.on e0) (h1 : hs 1 = g.on e1) (hn : NoHold h) (gn : NoHold g)
    (p : Nat → π) (ds : List Datum) :
    (handle pass hs 1 none p ds).out = ((h.either g).run pass false (e0.get (p 0), e1.get (p 1)) ds).out ∧
    (handle pass hs 1 none p ds).refused = ((h.either g).run pass false (e0.get (p 0), e1.get (p 1)) ds).refused ∧
    (e0.get ((handle pass hs 1 none p ds).priv 0), e1.get ((handle pass hs 1 none p ds).priv 1))
      = ((h.either g).run pass false (e0.get (p 0), e1.get (p 1)) ds).priv := by
  induction ds generalizing p with
  | nil => exact ⟨rfl, rfl, rfl⟩
  | cons d ds ih =>
    rw [handle_cons]
    cases ha : h.act (e0.get (p 0)) d with
    | some r =>
      obtain ⟨t', o, b⟩ := r
      obtain rfl := hn _ _ _ _ _ ha
      have hc : choose hs 1 p d none = some (0, e0.put t' (p 0), o, false) := by
        simp only [choose, attempt, h0, Handler.on, ha, Option.map_some]
      have he : (h.either g).act (e0.get (p 0), e1.get (p 1)) d = some ((t', e1.get (p 1)), o, false) := by
        simp only [Handler.either, ha]
      rw [hc, Handler.run, he]
      obtain ⟨a, b, c⟩ := ih (setPriv p 0 (e0.put t' (p 0)))
      have x0 : setPriv p 0 (e0.put t' (p 0)) 0 = e0.put t' (p 0) := by simp [setPriv]
      have x1 : setPriv p 0 (e0.put t' (p 0)) 1 = p 1 := by simp [setPriv]
      rw [x0, x1, e0.get_put] at a b c
      simp only [Bool.false_eq_true, if_false, Out.after, a, b, c, and_self]
    | none =>
      cases hg : g.act (e1.get (p 1)) d with
      | some r =>
        obtain ⟨t', o, b⟩ := r
        obtain rfl := gn _ _ _ _ _ hg
        have hc : choose hs 1 p d none = some (1, e1.put t' (p 1), o, false) := by
          simp only [choose, attempt, h0, h1, Handler.on, ha, hg, Option.map_some, Option.map_none]
        have he : (h.either g).act (e0.get (p 0), e1.get (p 1)) d = some ((e0.get (p 0), t'), o, false) := by
          simp only [Handler.either, ha, hg, Option.map_some]
        rw [hc, Handler.run, he]
        obtain ⟨a, b, c⟩ := ih (setPriv p 1 (e1.put t' (p 1)))
        have x0 : setPriv p 1 (e1.put t' (p 1)) 1 = e1.put t' (p 1) := by simp [setPriv]
        have x1 : setPriv p 1 (e1.put t' (p 1)) 0 = p 0 := by simp [setPriv]
        rw [x0, x1, e1.get_put] at a b c
        simp only [Bool.false_eq_true, if_false, Out.after, a, b, c, and_self]
      | none =>
        have hc : choose hs 1 p d none = none := by
          simp only [choose, attempt, h0, h1, Handler.on, ha, hg, Option.map_none]
        have he : (h.either g).act (e0.get (p 0), e1.get (p 1)) d = none := by
          simp only [Handler.either, ha, hg, Option.map_none]
        rw [hc, Handler.run, he]
        obtain ⟨a, b, c⟩ := ih p
        simp only [Out.after, a, b, c, and_self]

/-- A phase of two codecs that never wait. -/
structure Pair (s : Static π) (e0 : Lens π σ) (h : Handler σ) (e1 : Lens π τ) (g : Handler τ) : Prop where
  notFrom : s.type ≠ .from_
  two : s.codecn = 1
  first : Member s 0 (h.on e0)
  second : Member s 1 (g.on e1)
  hold0 : NoHold h
  hold1 : NoHold g

theorem pair_handlers {s : Static π} {e0 : Lens π σ} {h : Handler σ} {e1 : Lens π τ} {g : Handler τ}
    (hs : Pair s e0 h e1 g) {I : σ → Prop} {J : τ → Prop} (hI : Sound h I) (hJ : Sound g J) :
    Handlers s (fun j => if j = 0 then h.on e0 else if j = 1 then g.on e1 else Handler.never)
      (fun j x => (j = 0 → I (e0.get x)) ∧ (j = 1 → J (e1.get x))) where
  notFrom := hs.notFrom
  member := by
    intro j hj
    rw [hs.two] at hj
    obtain rfl | rfl : j = 0 ∨ j = 1 := by omega
    · exact hs.first
    · exact hs.second
  act := by
    intro j x d hx hd hb x' out b ha
    by_cases hj : j = 0
    · subst hj
      simp only [if_true] at ha ⊢
      obtain ⟨a, b, c⟩ := (hI.on e0).act x d (hx.1 rfl) hd hb _ _ _ ha
      exact ⟨⟨fun _ => a, by simp⟩, b, c⟩
    · by_cases hj1 : j = 1
      · subst hj1
        simp only [if_true, one_ne_zero', if_false] at ha ⊢
        obtain ⟨a, b, c⟩ := (hJ.on e1).act x d (hx.2 rfl) hd hb _ _ _ ha
        exact ⟨⟨by simp, fun _ => a⟩, b, c⟩
      · simp only [hj, hj1, if_false, Handler.never] at ha; simp at ha
  flush := by
    intro j x hx
    by_cases hj : j = 0
    · subst hj
      simp only [if_true]
      obtain ⟨a, b⟩ := (hI.on e0).flush x (hx.1 rfl)
      exact ⟨⟨fun _ => a, by simp⟩, b⟩
    · by_cases hj1 : j = 1
      · subst hj1
        simp only [if_true, one_ne_zero', if_false]
        obtain ⟨a, b⟩ := (hJ.on e1).flush x (hx.2 rfl)
        exact ⟨⟨by simp, fun _ => a⟩, b⟩
      · simp only [hj, hj1, if_false]
        exact ⟨⟨fun h => h.elim, fun h => h.elim⟩, by simp [Handler.never]⟩
where
  one_ne_zero' : (1 = 0) = False := by simp

/-- Such a phase among others. -/
theorem pair_converts {st : Nat → Static π} {ip : Nat → Nat → π → π} {ins : Ins π} {pre post : List (Proc π)}
    {s : Static π} (h : Placed st ip ins pre s post) {e0 : Lens π σ} {c0 : Handler σ} {e1 : Lens π τ} {c1 : Handler τ}
    (hs : Pair s e0 c0 e1 c1) {I : σ → Prop} {J : τ → Prop} (hI : Sound c0 I) (hJ : Sound c1 J) {t : σ} {u : τ}
    (ht : e0.get (initPriv st ip ins (pre.length + 1) 0) = t) (hu : e1.get (initPriv st ip ins (pre.length + 1) 1) = u)
    (hit : I t) (hju : J u) {P : Proc π} (hd : P.dec = false)
    (hP : ∀ ds, AllBytes ds → P.ok ds → P.inErrors ds = 0 ∧
      P.out ds = ((c0.either c1).run (passes s) false (t, u) (nonEmpty ds)).out ∧
      (P.outErrors ds = if passes s then 0 else ((c0.either c1).run (passes s) false (t, u) (nonEmpty ds)).refused) ∧
      ∀ q, (e0.get (q 0), e1.get (q 1)) = ((c0.either c1).run (passes s) false (t, u) (nonEmpty ds)).priv → P.fin ds q) :
    Converts st ip ins (pre ++ P :: post) := by
  subst ht hu
  refine placed_converts h ?_ hd
  have key := handler_realises (pair_handlers hs hI hJ) (p := initPriv st ip ins (pre.length + 1))
    (by intro j; exact ⟨by rintro rfl; exact hit, by rintro rfl; exact hju⟩)
  refine key.as hd.symm (fun _ _ _ => trivial) ?_
  intro ds hb hk
  obtain ⟨a, b, c, d⟩ := hP ds hb hk
  obtain ⟨x, y, z⟩ := handle_pair (passes s) e0 c0 e1 c1
    (hs := fun j => if j = 0 then c0.on e0 else if j = 1 then c1.on e1 else Handler.never) rfl rfl hs.hold0 hs.hold1
    (initPriv st ip ins (pre.length + 1)) (nonEmpty ds)
  simp only [handlerProc, hs.two]
  refine ⟨x.trans b.symm, a.symm, by rw [c, ← y], ?_⟩
  rintro q rfl
  exact d _ z

end Verif.Engine
