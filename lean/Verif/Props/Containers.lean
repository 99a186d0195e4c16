import Verif.Proofs.Counter
import Verif.Proofs.Hash
/-
C41: counters; C42: the instance hash.
-/
namespace Verif.Props
open Verif.Spec

namespace CounterP
open Verif.Counter

/-- The API operation behind a by-name user operation. -/
def api : CounterOp → Op
  | .get k => .get k
  | .set k v => .set k v
  | .reset k => .reset (some k)
  | .resetAll => .reset none

end CounterP
open CounterP

/-- C41: after any history of by-name operations on a fresh instance, the cell `bsdconv_counter` returns
for a name (in any spelling) exists and holds the value the abstract case-insensitive map has for it. -/
theorem C41_map (ops : List CounterOp) (k : Str) :
    let s := Counter.run [] (ops.map api)
    let r := Counter.counter s k
    Counter.load r.1 r.2 = some (ops.foldl Counters.step (fun _ => 0) (canon k)) := by
  have main : ∀ (ops : List CounterOp) (s : Counter.State) (m : Counters),
      (Counter.keys s).Nodup → (∀ n, Counter.value s n = m n) →
      (Counter.keys (Counter.run s (ops.map api))).Nodup ∧
      ∀ n, Counter.value (Counter.run s (ops.map api)) n = ops.foldl Counters.step m n := by
    intro ops
    induction ops with
    | nil => intro s m h1 h2; exact ⟨h1, h2⟩
    | cons o os ih =>
      intro s m h1 h2
      have hs : (Counter.keys (Counter.step s (api o))).Nodup := (Counter.step_keys s (api o)).2 h1
      apply ih (Counter.step s (api o)) (Counters.step m o) hs
      intro n
      cases o with
      | get k => simp only [api, Counter.step, Counter.counter, Counters.step]; rw [Counter.value_find h1, h2]
      | set k v =>
        simp only [api, Counter.step, Counter.counter, Counters.step]
        rw [Counter.value_store h1, Counter.strtoupper_eq]
        split <;> simp [h2]
      | reset k =>
        simp only [api, Counter.step, Counter.reset, Counter.counter, Counters.step]
        rw [Counter.value_store h1, Counter.strtoupper_eq]
        split <;> simp [h2]
      | resetAll =>
        simp only [api, Counter.step, Counter.reset, Counters.step]
        rw [Counter.value_resetAll h1]
  obtain ⟨h1, h2⟩ := main ops [] (fun _ => 0) (by simp [Counter.keys])
    (fun n => Counter.value_of_not_mem (by simp [Counter.keys]))
  intro s r
  have h3 := h2 (canon k)
  obtain ⟨_, w, hw⟩ := Counter.find_idx (strtoupper k) s
  rw [← h3]
  unfold Counter.value
  rw [← Counter.strtoupper_eq]
  show Counter.load (Counter.find (strtoupper k) s).1 (Counter.find (strtoupper k) s).2 = _
  unfold Counter.load
  rw [hw]
  rfl

/-- C41: a pointer obtained for `k` stays, through every later history (including writes through any
pointers), the pointer of exactly the names equal to `k` up to case, and it stays readable. -/
theorem C41_pointers (ops₁ ops₂ : List Counter.Op) (k k' : Str) :
    let s := Counter.run [] ops₁
    let r := Counter.counter s k
    let s₂ := Counter.run r.1 ops₂
    ((Counter.counter s₂ k').2 = r.2 ↔ canon k' = canon k) ∧ (Counter.load s₂ r.2).isSome ∧
    ∀ v, Counter.step s₂ (.put r.2 v) = Counter.step s₂ (.set k v) := by
  intro s r s₂
  have h0 : (Counter.keys s).Nodup := (Counter.run_keys ops₁ []).2 (by simp [Counter.keys])
  have h1 : (Counter.keys r.1).Nodup := Counter.find_nodup _ _ h0
  have h2 := Counter.run_keys ops₂ r.1
  have hnd : (Counter.keys s₂).Nodup := h2.2 h1
  obtain ⟨hlt, w, hw⟩ := Counter.find_idx (strtoupper k) s
  have hk : (Counter.keys r.1)[r.2]? = some (canon k) := by
    rw [← Counter.strtoupper_eq]
    show ((Counter.find (strtoupper k) s).1.map _)[(Counter.find (strtoupper k) s).2]? = _
    rw [List.getElem?_map, hw]; rfl
  have hk2 : (Counter.keys s₂)[r.2]? = some (canon k) := by
    obtain ⟨t, ht⟩ := h2.1
    rw [show Counter.keys s₂ = Counter.keys r.1 ++ t from ht.symm,
      List.getElem?_append_left (List.getElem?_eq_some_iff.1 hk).1, hk]
  obtain ⟨w2, hw2⟩ : ∃ w2, s₂[r.2]? = some (canon k, w2) := by
    unfold Counter.keys at hk2
    rw [List.getElem?_map] at hk2
    cases hx : s₂[r.2]? with
    | none => rw [hx] at hk2; cases hk2
    | some e =>
      rw [hx] at hk2
      simp only [Option.map_some, Option.some.injEq] at hk2
      exact ⟨e.2, by rw [← hk2]⟩
  have hself : (Counter.find (canon k) s₂).2 = r.2 := (Counter.value_of_mem hnd hw2).2
  have hin : (Counter.find (canon k) s₂).1 = s₂ :=
    (Counter.find_keys _ _).1 (Counter.mem_keys_iff.2 ⟨_, _, hw2⟩)
  refine ⟨⟨fun h => ?_, fun h => ?_⟩, by simp [Counter.load, hw2], fun v => ?_⟩
  · obtain ⟨hl, w3, hw3⟩ := Counter.find_idx (strtoupper k') s₂
    have h' : (Counter.find (strtoupper k') s₂).2 = r.2 := h
    rw [h'] at hw3
    have hp := Counter.find_prefix (strtoupper k') s₂
    obtain ⟨t, ht⟩ := hp
    have : (Counter.keys (Counter.find (strtoupper k') s₂).1)[r.2]? = some (canon k) := by
      rw [← ht, List.getElem?_append_left (List.getElem?_eq_some_iff.1 hk2).1, hk2]
    unfold Counter.keys at this
    rw [List.getElem?_map, hw3] at this
    simp only [Option.map_some, Option.some.injEq] at this
    rw [← this, Counter.strtoupper_eq]
  · show (Counter.find (strtoupper k') s₂).2 = r.2
    rw [Counter.strtoupper_eq, h, hself]
  · simp only [Counter.step, Counter.counter]
    rw [Counter.strtoupper_eq, hin, hself]

example : (let s := Counter.run [] [.set "ierr".toList 3, .get "Oerr".toList, .set "IERR".toList 5]
    (Counter.load s 0, Counter.load s 1, s.length)) = (some 5, some 0, 2) := by decide

/-- C42 (part): for every history of set/has/get/del on a fresh hash in which each get and del of a
present key addresses the key used last, nothing undefined happens and every result is the map's.
Missing: get and del of other keys, where the code is wrong (see the two theorems below). -/
theorem C42_hash_partial (ops : List Hash.Op) (h : HashMap.Polite (fun _ => none) none ops) :
    ∃ s, Hash.run [] ops = some (s, HashMap.results (fun _ => none) ops) :=
  Hash.run_polite ops ⟨Hash.good_nil, rfl, by simp⟩ h

/-- A polite history with several keys, a repeated set and a deletion. -/
example : HashMap.Polite (fun _ => none) none
    [.set "a".toList 1, .set "b".toList 2, .has "a".toList, .get "a".toList, .del "a".toList,
     .has "a".toList, .set "b".toList 7, .get "b".toList] := by
  simp [HashMap.Polite, HashMap.step, HashMap.last, HashMap.upd]

/-- C42: histories of set and has alone are always polite, so they behave like a map. -/
theorem C42_set_has_partial (ops : List Hash.Op)
    (h : ∀ o ∈ ops, (∃ k v, o = .set k v) ∨ ∃ k, o = .has k) :
    ∃ s, Hash.run [] ops = some (s, HashMap.results (fun _ => none) ops) := by
  apply C42_hash_partial
  have : ∀ (ops : List Hash.Op), (∀ o ∈ ops, (∃ k v, o = Hash.Op.set k v) ∨ ∃ k, o = Hash.Op.has k) →
      ∀ m l, HashMap.Polite m l ops := by
    intro ops
    induction ops with
    | nil => intro _ m l; trivial
    | cons o os ih =>
      intro h m l
      refine ⟨?_, ih (fun o ho => h o (by simp [ho])) _ _⟩
      rcases h o (by simp) with ⟨k, v, rfl⟩ | ⟨k, rfl⟩ <;> trivial
  exact this ops h _ _

/-- C42 is false of the code: after set a 1, set b 2, `get a` returns b's value. -/
theorem C42_get_violated :
    (Hash.run [] [.set "a".toList 1, .set "b".toList 2, .get "a".toList]).map (·.2) = some [0, 0, 2] ∧
    HashMap.results (fun _ => none) [.set "a".toList 1, .set "b".toList 2, .get "a".toList] = [0, 0, 1] := by
  decide

/-- C42 is false of the code: deleting a key that is not in front leaves a freed cell in the list, and
the next search reads it (undefined behaviour). -/
theorem C42_del_violated :
    Hash.run [] [.set "a".toList 1, .set "b".toList 2, .del "a".toList, .has "c".toList] = none := by
  decide

/-- How wrong `get` is, for every state reached by set/get/has: for a present key it returns the value
of the key used last. -/
theorem C42_get_returns_last {s : Hash.State} {m : HashMap} {l k : Str} (r : Hash.Rel s m (some l))
    (hk : m k ≠ none) : ∃ s' w, Hash.get s k = some (s', w) ∧ m l = some w := by
  obtain ⟨s', w, h1, _, _, h2⟩ := Hash.get_rel r k
  exact ⟨s', w, h1, h2 hk l rfl⟩

end Verif.Props
