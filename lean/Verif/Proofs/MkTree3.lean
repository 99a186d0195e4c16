import Verif.Proofs.MkTree2

namespace Verif.MkTable
open Verif.Engine (Status Datum Codec)
namespace Arena

/-- What walking through a string does to its content. -/
def ext : Option Content → Content
  | none => ⟨.cont, [], 0⟩
  | some x =>
    match x.status with
    | .subroutine => ⟨.submatchSubroutine, x.data, 0⟩
    | .match_ => ⟨.submatch, x.data, x.level⟩
    | _ => x

/-- What a rule does to the content of a string it is for. -/
def fin (cb : Bool) (dat : List Nat) (v : Nat) : Option Content → Content
  | none => if cb then ⟨.subroutine, dat, 0⟩ else ⟨.match_, dat, v⟩
  | some x =>
    if (x.status = .match_ ∨ x.status = .submatch) ∧ v ≤ x.level then x
    else if x.status = .cont then (if cb then ⟨.submatchSubroutine, dat, 0⟩ else ⟨.submatch, dat, v⟩)
    else if cb then ⟨x.status, dat, v⟩
    else ⟨.match_, dat, v⟩

theorem see_some {A : Arena} {p : List Nat} {k : Nat} (h : A.find p = some k) : A.see p = some (content (A.node k)) := by
  simp [see, h]

theorem kid_find {A : Arena} {p : List Nat} {s c : Nat} (hp : A.find p = some s) : A.find (p ++ [c]) = (A.node s).kids c := by
  rw [find_snoc, hp]; rfl

theorem extend_spec {A : Arena} (h : Good A) {p : List Nat} {s c : Nat} (hp : A.find p = some s) (hs : (A.node s).status ≠ .subroutine)
    (hc : c ≤ 256) :
    Good (A.extend s c).1 ∧ (∀ q, (A.extend s c).1.find q = if q = p ++ [c] then some (A.extend s c).2 else A.find q) ∧
    (∀ q, (A.extend s c).1.see q = if q = p ++ [c] then some (ext (A.see (p ++ [c]))) else A.see q) ∧
    ((A.extend s c).1.node (A.extend s c).2).status ≠ .subroutine := by
  have hsc := h.lt hp
  unfold extend
  cases hk : (A.node s).kids c with
  | none =>
    simp only
    have hpc : A.find (p ++ [c]) = none := by rw [kid_find hp, hk]
    refine ⟨good_new h hsc hs hc (by simp) (by simp) rfl rfl, ?_, ?_, ?_⟩
    · exact new_find h hp hs (by simp) (by intro k x e; rw [hk] at e; simp at e)
    · intro q
      rw [new_see h hp hs (by simp) (by intro k x e; rw [hk] at e; simp at e)]
      simp [see, hpc, ext, content, isCb]
    · rw [edge_node, if_neg (by omega), new_node, if_pos rfl]; simp
  | some k =>
    have hpc : A.find (p ++ [c]) = some k := by rw [kid_find hp, hk]
    have hk0 := (h.range _ _ _ hk).2.1
    simp only
    cases hst : (A.node k).status with
    | subroutine =>
      simp only
      have hl : ∀ k' x, (A.node s).kids c = some k' → (A.node k').kids x = none := by
        intro k' x e; rw [hk] at e; rw [← Option.some.inj e]; exact h.leaf _ _ hst
      refine ⟨good_new h hsc hs hc (by simp) (by simp) rfl rfl, ?_, ?_, ?_⟩
      · exact new_find h hp hs (by simp) hl
      · intro q
        rw [new_see h hp hs (by simp) hl]
        simp [see, hpc, ext, content, hst, isCb]
      · rw [edge_node, if_neg (by omega), new_node, if_pos rfl]; simp
    | match_ =>
      simp only
      have hne : (A.node k).status ≠ .subroutine := by rw [hst]; simp
      have hput := good_put h hk0 hne (st := .submatch) (d := (A.node k).data) (v := (A.node k).level) (by simp) (by simp)
      have hsame : (A.put k { A.node k with status := .submatch }) =
          A.put k { A.node k with status := .submatch, data := (A.node k).data, level := (A.node k).level } := rfl
      rw [hsame]
      refine ⟨good_bound hput s hc, ?_, ?_, ?_⟩
      · intro q
        rw [bound_find, put_find]
        split
        · rename_i e; rw [e, hpc]
        · rfl
      · intro q
        rw [bound_see, put_see h hne _ _ _ hpc]
        simp [see, hpc, ext, content, hst, isCb]
      · rw [bound_status, put_node, if_pos rfl]; simp
    | _ =>
      simp only
      refine ⟨good_bound h s hc, ?_, ?_, ?_⟩
      · intro q
        rw [bound_find]
        split
        · rename_i e; rw [e, hpc]
        · rfl
      · intro q
        rw [bound_see]
        split
        · rename_i e; rw [e]; simp [see, hpc, ext, content, hst, isCb]
        · rfl
      · rw [bound_status, hst]; simp

theorem find_cbs (X : Arena) (f : List Nat → Option Nat) (q : List Nat) : ({ X with cbs := f } : Arena).find q = X.find q :=
  find_same (A := X) (B := { X with cbs := f }) (fun _ => rfl) q

theorem finish_spec {A : Arena} (h : Good A) {p : List Nat} {s c : Nat} (hp : A.find p = some s) (hs : (A.node s).status ≠ .subroutine)
    (hc : c ≤ 256) (cb : Bool) (dat : List Nat) (v : Nat)
    (hcb : ∀ x, A.see (p ++ [c]) = some x → isCb x.status = true → cb = false) :
    Good (A.finish cb dat s c v) ∧
    (∀ q, q ≠ p ++ [c] → (A.finish cb dat s c v).find q = A.find q) ∧
    (∀ q, (A.finish cb dat s c v).see q = if q = p ++ [c] then some (fin cb dat v (A.see (p ++ [c]))) else A.see q) := by
  unfold finish
  simp only
  have hB := good_bound h s hc
  have hfB := bound_find A s c
  have hsB := bound_see A s c
  have hpB : (A.bound s c).find p = some s := by rw [hfB]; exact hp
  have hstB : ((A.bound s c).node s).status ≠ .subroutine := by rw [bound_status]; exact hs
  rw [← hsB] at hcb ⊢
  have e1 : ∀ q, A.find q = (A.bound s c).find q := fun q => (hfB q).symm
  have e2 : ∀ q, A.see q = (A.bound s c).see q := fun q => (hsB q).symm
  simp only [e1, e2]
  clear e1 e2 hsB hfB hp hs h
  generalize A.bound s c = B at *
  have hsc := hB.lt hpB
  cases hk : (B.node s).kids c with
  | none =>
    simp only
    have hpc : B.find (p ++ [c]) = none := by rw [kid_find hpB, hk]
    have hl : ∀ k x, (B.node s).kids c = some k → (B.node k).kids x = none := by intro k x e; rw [hk] at e; simp at e
    cases hcb' : cb with
    | true =>
      simp only [if_true]
      cases hcbs : B.cbs dat with
      | some k =>
        simp only
        have := fun q => share_see hB (v := v) hpB hstB hcbs hk q
        refine ⟨good_share hB hsc hstB hc hcbs, ?_, ?_⟩
        · intro q hq; rw [(this q).1, if_neg hq]
        · intro q; rw [(this q).2]; simp [see, hpc, fin]
      | none =>
        simp only
        have hnew := good_new hB hsc hstB hc (n := { status := .subroutine, data := dat, level := v }) (by simp) (by simp) rfl rfl
        refine ⟨?_, ?_, ?_⟩
        · constructor
          · exact hnew.pos
          · exact hnew.range
          · exact hnew.bounds
          · exact hnew.fin
          · exact hnew.tree
          · exact hnew.leaf
          · intro d k hd
            simp only at hd
            split at hd
            · rename_i e
              simp only [Option.some.injEq] at hd
              subst e hd
              have := hB.pos
              refine ⟨this, by simp, ?_, ?_⟩ <;> simp only <;> rw [edge_node, if_neg (by omega), new_node, if_pos rfl]
            · exact hnew.cbs d k (by simpa using hd)
          · exact hnew.root
          · exact hnew.other
          · exact hnew.nobase
          · exact hnew.small
        · intro q hq
          have := new_find hB hpB hstB (n := { status := .subroutine, data := dat, level := v }) (by simp) hl q
          rw [if_neg hq] at this
          rw [← this]
          exact find_cbs _ _ q
        · intro q
          have := new_see hB hpB hstB (n := { status := .subroutine, data := dat, level := v }) (by simp) hl q
          have e : ∀ X : Arena, ∀ f, ({ X with cbs := f } : Arena).see q = X.see q := by
            intro X f; unfold see; rw [find_cbs]
          rw [e, this]
          simp [see, hpc, fin, content, isCb]
    | false =>
      simp only [Bool.false_eq_true, if_false]
      refine ⟨good_new hB hsc hstB hc (by simp) (by simp) rfl rfl, ?_, ?_⟩
      · intro q hq
        rw [new_find hB hpB hstB (by simp) hl, if_neg hq]
      · intro q
        rw [new_see hB hpB hstB (by simp) hl]
        simp [see, hpc, fin, content, isCb]
  | some k =>
    simp only
    have hpc : B.find (p ++ [c]) = some k := by rw [kid_find hpB, hk]
    have hk0 := (hB.range _ _ _ hk).2.1
    have hko := hB.other _ _ _ hk
    have hsee := see_some hpc
    have hcb2 := hcb _ hsee
    have hsub : (B.node k).status = .subroutine → cb = false := by
      intro e; apply hcb2; simp [content, e, isCb]
    have hl : (B.node k).status = .subroutine → ∀ k' x, (B.node s).kids c = some k' → (B.node k').kids x = none := by
      intro hst k' x e; rw [hk] at e; rw [← Option.some.inj e]; exact hB.leaf _ _ hst
    have hdrop : drops (B.node k) cb v = decide (((B.node k).status = .match_ ∨ (B.node k).status = .submatch) ∧ v ≤ (B.node k).level) := by
      unfold drops
      cases hst : (B.node k).status <;> simp
      · have := hsub hst; simp [this]
      · have : cb = false := hcb2 (by simp [content, hst, isCb])
        simp [this]
    rw [hdrop]
    have hput : ∀ st d w, (B.node k).status ≠ .subroutine → st ≠ .subroutine → st ≠ .deadend →
        Good (B.put k { B.node k with status := st, data := d, level := w }) ∧
        (∀ q, q ≠ p ++ [c] → (B.put k { B.node k with status := st, data := d, level := w }).find q = B.find q) ∧
        (∀ q, (B.put k { B.node k with status := st, data := d, level := w }).see q =
          if q = p ++ [c] then some ⟨st, d, if isCb st then 0 else w⟩ else B.see q) := by
      intro st d w a1 a2 a3
      exact ⟨good_put hB hk0 a1 a2 a3, fun q _ => put_find _ _ _ _ _ q, fun q => put_see hB a1 _ _ _ hpc q⟩
    by_cases hd : ((B.node k).status = .match_ ∨ (B.node k).status = .submatch) ∧ v ≤ (B.node k).level
    · rw [if_pos (by simpa using hd)]
      refine ⟨hB, fun _ _ => rfl, ?_⟩
      intro q
      split
      · rename_i e; rw [e, hsee, fin]
        rw [if_pos]
        refine ⟨hd.1, ?_⟩
        simp only [content]
        rcases hd.1 with e | e <;> rw [e] <;> simpa [isCb] using hd.2
      · rfl
    · rw [if_neg (by simpa using hd)]
      have hd' : ¬ (((content (B.node k)).status = .match_ ∨ (content (B.node k)).status = .submatch) ∧ v ≤ (content (B.node k)).level) := by
        intro hh
        apply hd
        refine ⟨hh.1, ?_⟩
        have h2 := hh.2
        simp only [content] at h2
        rcases hh.1 with e | e <;> simp only [content] at e <;> rw [e] at h2 <;> simpa [isCb] using h2
      rw [hsee, fin, if_neg hd']
      have hce : (content (B.node k)).status = (B.node k).status := rfl
      rw [hce]
      by_cases hcont : (B.node k).status = .cont
      · rw [if_pos hcont, if_pos hcont]
        have := hput (if cb then .submatchSubroutine else .submatch) dat v (by rw [hcont]; simp) (by split <;> simp) (by split <;> simp)
        refine ⟨this.1, this.2.1, ?_⟩
        intro q; rw [this.2.2]
        cases cb <;> simp [isCb]
      · rw [if_neg hcont, if_neg hcont]
        cases hcbv : cb with
        | true =>
          have hnsub : (B.node k).status ≠ .subroutine := by intro e; rw [hsub e] at hcbv; simp at hcbv
          simp only [if_true]
          have hncb : isCb (B.node k).status = false := by
            cases hi : isCb (B.node k).status with
            | false => rfl
            | true => have := hcb2 (by simpa [content] using hi); rw [this] at hcbv; simp at hcbv
          have := hput (B.node k).status dat v hnsub hnsub hko
          refine ⟨this.1, this.2.1, ?_⟩
          intro q; rw [this.2.2, hncb]; simp
        | false =>
          simp only [Bool.false_eq_true, if_false]
          by_cases hsubr : (B.node k).status = .subroutine
          · rw [if_pos hsubr]
            refine ⟨good_new hB hsc hstB hc (by simp) (by simp) rfl rfl, ?_, ?_⟩
            · intro q hq; rw [new_find hB hpB hstB (by simp) (hl hsubr), if_neg hq]
            · intro q; rw [new_see hB hpB hstB (by simp) (hl hsubr)]; simp [content, isCb]
          · rw [if_neg hsubr]
            have := hput .match_ dat v hsubr (by simp) (by simp)
            refine ⟨this.1, this.2.1, ?_⟩
            intro q; rw [this.2.2]; simp [isCb]

end Arena
end Verif.MkTable
