import Verif.Proofs.SimpleTrie
import Verif.Proofs.EngineSession

/-! Concrete instances implementing any well-formed chain of phases. -/

namespace Verif.Engine
open Verif.Spec

/-- Well-formed rule sets of a phase. -/
def WfPhase : Phase → Prop
  | .decode Rs => Rs ≠ [] ∧ ∀ R ∈ Rs, ∀ r ∈ R, r.1 ≠ [] ∧ GoodData r.2
  | .rewrite Rs => Rs ≠ [] ∧ ∀ R ∈ Rs, ∀ r ∈ R, r.1 ≠ [] ∧ (∀ d ∈ r.1, d ≠ [] ∧ IsBytes d) ∧ GoodData r.2
  | .encode Rs => Rs ≠ [] ∧ ∀ R ∈ Rs, ∀ r ∈ R, r.1 ≠ [] ∧ (∀ d ∈ r.1, d ≠ [] ∧ IsBytes d) ∧ GoodData r.2

/-- Build a phase out of tries. -/
def mkStatic : Phase → Static Unit
  | .decode Rs => ⟨.from_, fun j => trieCodec (Rs.getD j []), Rs.length - 1⟩
  | .rewrite Rs => ⟨.inter, fun j => trieCodec (symbolRules (Rs.getD j [])), Rs.length - 1⟩
  | .encode Rs => ⟨.to_, fun j => trieCodec (symbolRules (Rs.getD j [])), Rs.length - 1⟩

/-- Build all phases. -/
def mkAll (L : List Phase) (k : Nat) : Static Unit := mkStatic (nth L k)

/-- A created instance before `bsdconv_init`. -/
def mkIns (L : List Phase) : Ins Unit := { ph := fun _ => { priv := fun _ => () }, phasen := L.length }

theorem symbols_ne {ds : List Datum} (h : ds ≠ []) (hd : ∀ d ∈ ds, d ≠ []) : symbols ds ≠ [] := by
  match ds with
  | [] => exact absurd rfl h
  | [d] => simpa [symbols] using hd d (by simp)
  | d :: e :: ds => simp [symbols]

theorem mkStatic_tables {p : Phase} (h : WfPhase p) : PhaseTables (mkStatic p) p := by
  have key : ∀ {α : Type} {Rs : List α}, Rs ≠ [] → Rs.length = Rs.length - 1 + 1 := by
    intro α Rs h
    have := List.length_pos_iff.2 h
    omega
  have sym : ∀ {Rs : List (Rules Datum (List Datum))} (h : ∀ R ∈ Rs, ∀ r ∈ R, r.1 ≠ [] ∧
      (∀ d ∈ r.1, d ≠ [] ∧ IsBytes d) ∧ GoodData r.2) (j : Nat) (hj : j < Rs.length),
      Represents (trieCodec (symbolRules (Rs.getD j [])) : Codec Unit) (symbolRules Rs[j]) := by
    intro Rs h j hj
    rw [List.getD_eq_getElem?_getD, List.getElem?_eq_getElem hj]
    refine represents_trie _ ?_
    intro r hr
    obtain ⟨r0, h0, rfl⟩ := List.mem_map.1 hr
    obtain ⟨a, b, _⟩ := h _ (List.getElem_mem hj) r0 h0
    exact symbols_ne a (fun d hd => (b d hd).1)
  cases p with
  | decode Rs =>
    refine ⟨rfl, key h.1, ?_, h.2⟩
    intro j hj
    simp only [mkStatic]
    rw [List.getD_eq_getElem?_getD, List.getElem?_eq_getElem hj]
    exact represents_trie _ (fun r hr => (h.2 _ (List.getElem_mem hj) r hr).1)
  | rewrite Rs => exact ⟨rfl, key h.1, fun j hj => sym h.2 j hj, h.2⟩
  | encode Rs => exact ⟨rfl, key h.1, fun j hj => sym h.2 j hj, h.2⟩

theorem mkAll_implements {L : List Phase} (hne : L ≠ []) (h : ∀ p ∈ L, WfPhase p)
    (halt : ∀ k (h : k + 1 < L.length), isDecode L[k] = true → isDecode L[k + 1] = false) :
    Implements (mkAll L) L := by
  refine ⟨hne, ?_, halt⟩
  intro k hk
  unfold mkAll
  rw [nth_eq hk]
  exact mkStatic_tables (h _ (List.getElem_mem hk))

/-! ### A small conversion used in examples -/

/-- Decoder: `a`, `b`, and the two-byte code `a c`. -/
def exDecode : Phase := .decode [[([97], [[1, 97]]), ([98], [[1, 98]]), ([97, 99], [[1, 233]])]]

/-- Rewriter: `a b` becomes one symbol. -/
def exRewrite : Phase := .rewrite [[([[1, 97], [1, 98]], [[1, 66]])]]

/-- Encoder for three symbols. -/
def exEncode : Phase := .encode [[([[1, 97]], [[97]]), ([[1, 66]], [[66]]), ([[1, 233]], [[195, 169]])]]

theorem exDecode_wf : WfPhase exDecode := by
  refine ⟨by simp, ?_⟩
  intro R hR r hr
  simp only [List.mem_cons, List.not_mem_nil, or_false] at hR
  subst hR
  simp only [List.mem_cons, List.not_mem_nil, or_false] at hr
  rcases hr with rfl | rfl | rfl <;> (refine ⟨by simp, by simp, ?_⟩; intro d hd; simp at hd; subst hd
                                      exact ⟨by simp, by intro b hb; simp at hb; omega⟩)

theorem exRewrite_wf : WfPhase exRewrite := by
  refine ⟨by simp, ?_⟩
  intro R hR r hr
  simp only [List.mem_cons, List.not_mem_nil, or_false] at hR
  subst hR
  simp only [List.mem_cons, List.not_mem_nil, or_false] at hr
  subst hr
  refine ⟨by simp, ?_, by simp, ?_⟩ <;> intro d hd <;> simp at hd
  · rcases hd with rfl | rfl <;> exact ⟨by simp, by intro b hb; simp at hb; omega⟩
  · subst hd; exact ⟨by simp, by intro b hb; simp at hb; omega⟩

theorem exEncode_wf : WfPhase exEncode := by
  refine ⟨by simp, ?_⟩
  intro R hR r hr
  simp only [List.mem_cons, List.not_mem_nil, or_false] at hR
  subst hR
  simp only [List.mem_cons, List.not_mem_nil, or_false] at hr
  rcases hr with rfl | rfl | rfl <;>
    (refine ⟨by simp, ?_, by simp, ?_⟩ <;> intro d hd <;> simp at hd <;> subst hd <;>
      exact ⟨by simp, by intro b hb; simp at hb; omega⟩)

end Verif.Engine
