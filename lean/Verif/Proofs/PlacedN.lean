import Verif.Proofs.Placed

/-! Several phases of interest in a row among arbitrary others. -/

namespace Verif.Engine
open Verif.Spec

variable {π : Type}

/-- Phases `pre.length + 1`, … of the instance are `ss`; the phases before them behave as `pre`, those after them as `post`. -/
structure PlacedN (st : Nat → Static π) (ip : Nat → Nat → π → π) (ins : Ins π) (pre : List (Proc π)) (ss : List (Static π))
    (post : List (Proc π)) : Prop where
  before : ∀ k (h : k < pre.length), Realises (st (k + 1)) (fun p => p = initPriv st ip ins (k + 1)) pre[k]
  here : ∀ k (h : k < ss.length), st (pre.length + 1 + k) = ss[k]
  behind : ∀ k (h : k < post.length),
    Realises (st (pre.length + ss.length + k + 1)) (fun p => p = initPriv st ip ins (pre.length + ss.length + k + 1)) post[k]
  alt : ∀ k (h : k + 1 < pre.length), pre[k].dec = true → pre[k + 1].dec = false
  altPost : ∀ k (h : k + 1 < post.length), post[k].dec = true → post[k + 1].dec = false
  phasen : ins.phasen = pre.length + ss.length + post.length

/-- Phases of data in a row, each behaving as described, make the chain of the descriptions. -/
theorem placedN_converts {st : Nat → Static π} {ip : Nat → Nat → π → π} {ins : Ins π} {pre post : List (Proc π)}
    {ss : List (Static π)} (h : PlacedN st ip ins pre ss post) {G : List (Proc π)} (hl : G.length = ss.length) (hne : ss ≠ [])
    (hG : ∀ k (h1 : k < G.length) (h2 : k < ss.length), Realises ss[k] (fun p => p = initPriv st ip ins (pre.length + 1 + k)) G[k])
    (hd : ∀ P ∈ G, P.dec = false) : Converts st ip ins (pre ++ G ++ post) := by
  have hpos : 0 < ss.length := List.length_pos_iff.2 hne
  refine chain_converts ⟨?_, ?_, ?_⟩ (by simp [h.phasen, hl]; omega)
  · intro e
    simp only [List.append_eq_nil_iff] at e
    rw [e.1.2] at hl
    simp at hl
    omega
  · intro k hk
    by_cases h1 : k < pre.length
    · rw [List.getElem_append_left (by simp; omega), List.getElem_append_left h1]
      exact h.before k h1
    · by_cases h2 : k < pre.length + G.length
      · rw [List.getElem_append_left (by simp; omega), List.getElem_append_right (by omega)]
        have h3 : k - pre.length < G.length := by omega
        have := hG (k - pre.length) h3 (by omega)
        rw [← h.here (k - pre.length) (by omega)] at this
        have e : pre.length + 1 + (k - pre.length) = k + 1 := by omega
        rw [e] at this
        exact this
      · simp only [List.length_append] at hk
        rw [List.getElem_append_right (by simp; omega)]
        have := h.behind (k - (pre ++ G).length) (by simp; omega)
        have e : pre.length + ss.length + (k - (pre ++ G).length) + 1 = k + 1 := by simp; omega
        rw [e] at this
        exact this
  · intro k hk
    simp only [List.length_append] at hk
    by_cases h1 : k + 1 < pre.length
    · rw [List.getElem_append_left (as := pre ++ G) (by simp; omega), List.getElem_append_left (as := pre ++ G) (by simp; omega),
        List.getElem_append_left (as := pre) (by omega), List.getElem_append_left h1]
      exact h.alt k h1
    · by_cases h2 : k + 1 < pre.length + G.length
      · intro _
        rw [List.getElem_append_left (by simp; omega), List.getElem_append_right (by omega)]
        exact hd _ (List.getElem_mem _)
      · by_cases h3 : k < pre.length + G.length
        · rw [List.getElem_append_left (as := pre ++ G) (by simp; omega), List.getElem_append_right (as := pre) (by omega)]
          intro hh
          rw [hd _ (List.getElem_mem _)] at hh
          simp at hh
        · rw [List.getElem_append_right (as := pre ++ G) (by simp; omega), List.getElem_append_right (as := pre ++ G) (by simp; omega)]
          have := h.altPost (k - (pre ++ G).length) (by simp; omega)
          have e : k + 1 - (pre ++ G).length = k - (pre ++ G).length + 1 := by simp; omega
          simp only [e]
          exact this

/-- The phases between `pre` and `post` do `f` to every sequence of data that satisfies `ok`, in any conversion (see `Converts`),
without errors. -/
def Does (st : Nat → Static π) (ip : Nat → Nat → π → π) (ins : Ins π) (pre : List (Proc π)) (ok : List Datum → Prop)
    (f : List Datum → List Datum) (post : List (Proc π)) : Prop :=
  ∃ G : List (Proc π), Converts st ip ins (pre ++ G ++ post) ∧
    ∀ ds, ok ds → OkRest G ds ∧ runProcs G ds = f ds ∧ runIn G ds = 0 ∧ runOut G ds = 0

/-- An instance that has only these phases. -/
theorem Does.alone {st : Nat → Static π} {ip : Nat → Nat → π → π} {ins : Ins π} {ok : List Datum → Prop} {f : List Datum → List Datum}
    (h : Does st ip ins [] ok f []) (as : List Arg) (a : Arg) (h1 : ∀ x ∈ as, x.flush = false) (h2 : a.flush = true)
    (h3 : ∀ x ∈ as ++ [a], x.mode ≠ .null) (h4 : ∀ x ∈ as ++ [a], ∀ c ∈ x.input, IsBytes c) (h5 : ok ((as ++ [a]).filterMap (fun x => x.input))) :
    ∃ ds ins', Session st (ins.init st ip) (as ++ [a]) ds ins' ∧
      (ds.map (fun d => d.bytes)).flatten ++ ins'.pending.flatten = (f ((as ++ [a]).filterMap (fun x => x.input))).flatten ∧
      ((∀ x ∈ as ++ [a], x.mode = .hold) → nonEmpty ins'.pending = nonEmpty (f ((as ++ [a]).filterMap (fun x => x.input)))) ∧
      ins'.ierr = ins.ierr ∧ ins'.oerr = ins.oerr := by
  obtain ⟨G, hc, hG⟩ := h
  obtain ⟨g1, g2, g3, g4⟩ := hG _ h5
  have hok : OkAll G ((as ++ [a]).filterMap (fun x => x.input)) := by
    cases G with
    | nil => trivial
    | cons P G => exact ⟨.inl g1.1, g1.2⟩
  simp only [List.nil_append, List.append_nil] at hc
  obtain ⟨ds, ins', a1, a2, a3, a4, a5, _⟩ := hc as a h1 h2 h3 h4 _ rfl hok
  rw [g2] at a2 a3
  exact ⟨ds, ins', a1, a2, a3, by rw [a4, g3, Nat.add_zero], by rw [a5, g4, Nat.add_zero]⟩

end Verif.Engine
