import Verif.Model.Fmalloc
import Verif.Spec.Alloc
/-
C53: the file-backed allocator.
-/
namespace Verif.Props
open Verif.Spec Verif.Fmalloc

/-- The mapped regions of the pools. -/
def regions (st : St) : List Nat := st.pools.map (·.z)

/-- What the system promises: a new mapping shares no byte with the other mappings and the live heap blocks, a new heap
block (which has an address of its own even if it is empty) none with the mappings and the live heap blocks. -/
structure Honest (sys : Sys) (st : St) (live : List Block) (s : Nat) : Prop where
  mmap : ∀ m, sys.mmap = some m → (∀ z ∈ regions st, Apart m poolSize z poolSize) ∧
    ∀ b ∈ live, b.heap = true → Apart m poolSize b.addr (max b.size 1)
  malloc : ∀ p, sys.malloc = some p → (∀ z ∈ regions st, Apart p (max s 1) z poolSize) ∧
    ∀ b ∈ live, b.heap = true → Apart p (max s 1) b.addr (max b.size 1)

/-- The caller's view of the result of an allocation. -/
def given (g : Got) (s : Nat) : List Block :=
  match g with
  | .heap none => []
  | .heap (some p) => [⟨p, s, true⟩]
  | .pool p => [⟨p, s, false⟩]

/-- All histories of the allocator whose requests satisfy `Req`: the state and the blocks in the hands of the caller. -/
inductive History (Req : Nat → Prop) : St → List Block → Prop
  | init : History Req {} []
  | alloc {st live sys s} : History Req st live → Honest sys st live s → Req s →
      History Req (fmalloc sys st s).1 (given (fmalloc sys st s).2 s ++ live)
  | free {st live b} : History Req st live → b ∈ live → History Req st (live.erase b)
  | cleanup {st live} : History Req st live → History Req (cleanup st) (live.filter (·.heap))

/-- What holds at every moment. -/
structure Sound (st : St) (live : List Block) : Prop where
  pools : st.pools.Pairwise fun a b => Apart a.z poolSize b.z poolSize
  bound : ∀ p ∈ st.pools, p.offset ≤ poolSize
  inside : ∀ b ∈ live, b.heap = false → ∃ p ∈ st.pools, p.z ≤ b.addr ∧ b.addr + b.size ≤ p.z + p.offset
  heap : ∀ b ∈ live, b.heap = true → ∀ p ∈ st.pools, Apart b.addr (max b.size 1) p.z poolSize
  apart : AllApart live

theorem apart_symm {a n b m : Nat} (h : Apart a n b m) : Apart b m a n := fun x hx => h x ⟨hx.2.2.1, hx.2.2.2, hx.1, hx.2.1⟩

theorem apart_mono {a n b m a' n' b' m' : Nat} (h : Apart a n b m) (h1 : a ≤ a') (h2 : a' + n' ≤ a + n)
    (h3 : b ≤ b') (h4 : b' + m' ≤ b + m) : Apart a' n' b' m' :=
  fun x hx => h x ⟨by omega, by omega, by omega, by omega⟩

theorem allApart_erase {l : List Block} (h : AllApart l) (b : Block) : AllApart (l.erase b) := by
  induction l with
  | nil => exact h
  | cons c l ih =>
    rw [List.erase_cons]
    split
    · exact h.2
    · exact ⟨fun x hx => h.1 x (List.mem_of_mem_erase hx), ih h.2⟩

theorem allApart_filter {l : List Block} (h : AllApart l) (f : Block → Bool) : AllApart (l.filter f) := by
  induction l with
  | nil => exact h
  | cons c l ih =>
    rw [List.filter_cons]
    split
    · exact ⟨fun x hx => h.1 x (List.mem_filter.1 hx).1, ih h.2⟩
    · exact ih h.2

/-- Allocation in the newest pool, if it has room. -/
theorem take_sound {st : St} {live : List Block} {p : Pool} {ps : List Pool} {s : Nat} (h : Sound st live)
    (hp : st.pools = p :: ps) (hs : p.offset + s ≤ poolSize) :
    Sound (take st s).1 (given (take st s).2 s ++ live) := by
  have hmod : (p.offset + s) % sizeMod = p.offset + s := Nat.mod_eq_of_lt (by unfold sizeMod; unfold poolSize at hs; omega)
  have hb := h.bound p (by rw [hp]; simp)
  have hpair := h.pools
  rw [hp, List.pairwise_cons] at hpair
  have ht : take st s = ({ st with pools := ⟨p.z, p.offset + s⟩ :: ps }, .pool (p.z + p.offset)) := by
    unfold take; rw [hp]; simp [hmod]
  rw [ht]
  simp only [given, List.singleton_append]
  refine ⟨?_, ?_, ?_, ?_, ?_, h.apart⟩
  · exact List.pairwise_cons.2 ⟨hpair.1, hpair.2⟩
  · intro q hq
    rcases List.mem_cons.1 hq with rfl | hq
    · exact hs
    · exact h.bound q (by rw [hp]; simp [hq])
  · intro b hbm hh
    rcases List.mem_cons.1 hbm with rfl | hbm
    · exact ⟨_, List.mem_cons_self, by simp, by simp; omega⟩
    · obtain ⟨q, hq, h1, h2⟩ := h.inside b hbm hh
      rw [hp] at hq
      rcases List.mem_cons.1 hq with rfl | hq
      · exact ⟨_, List.mem_cons_self, h1, by simp; omega⟩
      · exact ⟨q, by simp [hq], h1, h2⟩
  · intro b hbm hh q hq
    rcases List.mem_cons.1 hbm with rfl | hbm
    · simp at hh
    · rcases List.mem_cons.1 hq with rfl | hq
      · exact h.heap b hbm hh p (by rw [hp]; simp)
      · exact h.heap b hbm hh q (by rw [hp]; simp [hq])
  · intro c hc x hx
    simp only at hx
    cases hh : c.heap with
    | true => exact h.heap c hc hh p (by rw [hp]; simp) x ⟨hx.2.2.1, by omega, by omega, by omega⟩
    | false =>
      obtain ⟨q, hq, h1, h2⟩ := h.inside c hc hh
      rw [hp] at hq
      rcases List.mem_cons.1 hq with rfl | hq
      · omega
      · have := h.bound q (by rw [hp]; simp [hq])
        exact hpair.1 q hq x ⟨by omega, by omega, by omega, by omega⟩

/-- Allocation from the heap. -/
theorem heap_sound {st : St} {live : List Block} {sys : Sys} {s : Nat} (h : Sound st live) (hh : Honest sys st live s) :
    Sound st (given (.heap sys.malloc) s ++ live) := by
  cases hm : sys.malloc with
  | none => exact h
  | some p =>
    obtain ⟨h1, h2⟩ := hh.malloc p hm
    simp only [given, List.singleton_append]
    refine ⟨h.pools, h.bound, ?_, ?_, ?_, h.apart⟩
    · intro b hb hf
      rcases List.mem_cons.1 hb with rfl | hb
      · simp at hf
      · exact h.inside b hb hf
    · intro b hb hf q hq
      rcases List.mem_cons.1 hb with rfl | hb
      · exact h1 _ (List.mem_map.2 ⟨q, hq, rfl⟩)
      · exact h.heap b hb hf q hq
    · intro c hc
      cases hf : c.heap with
      | true => exact apart_mono (h2 c hc hf) (Nat.le_refl _) (by simp; omega) (Nat.le_refl _) (by omega)
      | false =>
        obtain ⟨q, hq, g1, g2⟩ := h.inside c hc hf
        have := h.bound q hq
        exact apart_mono (h1 q.z (List.mem_map.2 ⟨q, hq, rfl⟩)) (Nat.le_refl _) (by simp; omega) g1 (by omega)

theorem history_sound {st : St} {live : List Block} (h : History (· ≤ poolSize) st live) : Sound st live := by
  induction h with
  | init => exact ⟨.nil, by simp, by simp, by simp, trivial⟩
  | @alloc st live sys s hist hon hs ih =>
    unfold fmalloc
    split
    · rename_i hn
      split
      · split
        · cases hm : sys.mmap with
          | none => exact heap_sound ih hon
          | some m =>
            simp only
            obtain ⟨g1, g2⟩ := hon.mmap m hm
            refine take_sound (p := ⟨m, 0⟩) (ps := st.pools) ?_ rfl (by simpa using hs)
            refine ⟨?_, ?_, ?_, ?_, ih.apart⟩
            · exact List.pairwise_cons.2 ⟨fun q hq => g1 _ (List.mem_map.2 ⟨q, hq, rfl⟩), ih.pools⟩
            · intro q hq
              rcases List.mem_cons.1 hq with rfl | hq
              · simp
              · exact ih.bound q hq
            · intro b hb hf
              obtain ⟨q, hq, h1⟩ := ih.inside b hb hf
              exact ⟨q, by simp [hq], h1⟩
            · intro b hb hf q hq
              rcases List.mem_cons.1 hq with rfl | hq
              · exact apart_symm (g2 b hb hf)
              · exact ih.heap b hb hf q hq
        · exact heap_sound ih hon
      · exact heap_sound ih hon
    · rename_i hn
      cases hp : st.pools with
      | nil => simp [needPool, hp] at hn
      | cons p ps =>
        have hb := ih.bound p (by rw [hp]; simp)
        refine take_sound ih hp ?_
        simp only [needPool, hp, decide_eq_true_eq, Nat.not_lt] at hn
        rwa [Nat.mod_eq_of_lt (by unfold sizeMod; unfold poolSize at hs hb; omega)] at hn
  | free _ _ ih =>
    exact ⟨ih.pools, ih.bound, fun b hb => ih.inside b (List.mem_of_mem_erase hb),
      fun b hb => ih.heap b (List.mem_of_mem_erase hb), allApart_erase ih.apart _⟩
  | cleanup _ ih =>
    refine ⟨.nil, by simp [cleanup], ?_, by simp [cleanup], allApart_filter ih.apart _⟩
    intro b hb hf
    have := (List.mem_filter.1 hb).2
    rw [hf] at this; cases this

/-- C53 (part): as long as no request exceeds the size of a pool, after every history of allocations, releases and
cleanups the live blocks are disjoint and every block taken from a pool lies within the mapped memory of that pool.
Missing: larger requests, see `C53_large_violated`. -/
theorem C53_disjoint_partial {st : St} {live : List Block} (h : History (· ≤ poolSize) st live) :
    AllApart live ∧ ∀ b ∈ live, b.heap = false → ∃ z ∈ regions st, z ≤ b.addr ∧ b.addr + b.size ≤ z + poolSize := by
  have hs := history_sound h
  refine ⟨hs.apart, fun b hb hf => ?_⟩
  obtain ⟨p, hp, h1, h2⟩ := hs.inside b hb hf
  have := hs.bound p hp
  exact ⟨p.z, List.mem_map.2 ⟨p, hp, rfl⟩, h1, by omega⟩

/-- C53 (part): releasing a block calls `free` exactly if the block came from `malloc`.
Missing: empty blocks of a pool, see `C53_empty_violated`. -/
theorem C53_free_partial {st : St} {live : List Block} (h : History (· ≤ poolSize) st live) {b : Block} (hb : b ∈ live)
    (h0 : b.heap = false → b.size ≠ 0) : frees st b.addr = b.heap := by
  have hs := history_sound h
  unfold frees
  cases hf : b.heap with
  | true =>
    rw [Bool.not_eq_true', List.any_eq_false]
    intro p hp hc
    simp only [Bool.and_eq_true, decide_eq_true_eq] at hc
    have := hs.bound p hp
    exact hs.heap b hb hf p hp b.addr ⟨by omega, by omega, by omega, by omega⟩
  | false =>
    obtain ⟨p, hp, h1, h2⟩ := hs.inside b hb hf
    rw [Bool.not_eq_false', List.any_eq_true]
    have := h0 hf
    exact ⟨p, hp, by simp; omega⟩

/-- A history with two pool blocks, a heap block after `mkstemp` failed, and a release. -/
example : ∃ st live, History (· ≤ poolSize) st live ∧ live = [⟨0, 5, true⟩, ⟨0x100000064, poolSize - 100, false⟩] := by
  refine ⟨_, _, .free (b := ⟨0x100000000, 100, false⟩)
    (.alloc (sys := ⟨false, none, some 0⟩) (s := 5)
      (.alloc (sys := ⟨false, none, none⟩) (s := poolSize - 100)
        (.alloc (sys := ⟨true, some 0x100000000, none⟩) (s := 100) .init ⟨?_, ?_⟩ ?_) ⟨?_, ?_⟩ ?_) ⟨?_, ?_⟩ ?_) ?_, ?_⟩
  · intro m _; simp [regions]
  · intro m h; simp at h
  · decide
  · intro m h; simp at h
  · intro m h; simp at h
  · decide
  · intro m h; simp at h
  · intro p h
    simp only [Option.some.injEq] at h
    subst h
    refine ⟨?_, ?_⟩
    · intro z hz x hx
      have : z = 0x100000000 := by
        have : z ∈ [0x100000000] := by
          have e : regions (fmalloc ⟨false, none, none⟩ (fmalloc ⟨true, some 0x100000000, none⟩ {} 100).1 (poolSize - 100)).1
            = [0x100000000] := by decide +kernel
          rw [← e]; exact hz
        simpa using this
      omega
    · intro b hb hf
      have e : given (fmalloc ⟨false, none, none⟩ (fmalloc ⟨true, some 0x100000000, none⟩ {} 100).1 (poolSize - 100)).2
          (poolSize - 100) ++ (given (fmalloc ⟨true, some 0x100000000, none⟩ {} 100).2 100 ++ []) =
          [⟨0x100000064, poolSize - 100, false⟩, ⟨0x100000000, 100, false⟩] := by decide +kernel
      rw [e] at hb
      simp at hb
      rcases hb with rfl | rfl <;> cases hf
  · decide
  · decide +kernel
  · decide +kernel

/-- Where C53 fails: the first request for more than a pool holds is given out of a pool nevertheless and reaches
beyond its mapping. -/
theorem C53_large_violated (m s : Nat) (h : poolSize < s) (hs : s < sizeMod) :
    fmalloc ⟨true, some m, none⟩ {} s = (⟨[⟨m, s⟩], 1⟩, .pool m) ∧ m + s > m + poolSize := by
  refine ⟨?_, by omega⟩
  simp [fmalloc, needPool, maxPools, take, Nat.mod_eq_of_lt hs]

/-- … and the next pool may then be mapped into the block: two live blocks overlap. -/
theorem C53_overlap_violated (m : Nat) :
    ∃ st live, History (fun _ => True) st live ∧ ¬ AllApart live := by
  refine ⟨_, _, .alloc (sys := ⟨true, some (m + poolSize), none⟩) (s := 1)
    (.alloc (sys := ⟨true, some m, none⟩) (s := poolSize + 1) .init ⟨?_, ?_⟩ trivial) ⟨?_, ?_⟩ trivial, ?_⟩
  · intro _ _; simp [regions]
  · intro _ h; simp at h
  · intro m' h
    simp only [Option.some.injEq] at h
    subst h
    refine ⟨?_, ?_⟩
    · intro z hz x hx
      have : z = m := by simpa [regions, fmalloc, needPool, maxPools, take] using hz
      omega
    · intro b hb hf
      simp [fmalloc, needPool, maxPools, take, given] at hb
      subst hb; cases hf
  · intro _ h; simp at h
  · have e1 : fmalloc ⟨true, some m, none⟩ {} (poolSize + 1) = (⟨[⟨m, poolSize + 1⟩], 1⟩, .pool m) :=
      (C53_large_violated m (poolSize + 1) (by omega) (by decide)).1
    have e2 : fmalloc ⟨true, some (m + poolSize), none⟩ ⟨[⟨m, poolSize + 1⟩], 1⟩ 1 =
        (⟨[⟨m + poolSize, 1⟩, ⟨m, poolSize + 1⟩], 2⟩, .pool (m + poolSize)) := by
      simp [fmalloc, needPool, maxPools, take, poolSize, sizeMod]
    rw [e1, e2]
    intro h
    have := h.1 ⟨m, poolSize + 1, false⟩ (by simp [given]) (m + poolSize)
    simp only [given] at this
    omega

/-- Where C53 fails: an empty block at the end of what is used of a pool is handed to `free`. -/
theorem C53_empty_violated (m : Nat) :
    (fmalloc ⟨true, some m, none⟩ {} 0).2 = .pool m ∧ frees (fmalloc ⟨true, some m, none⟩ {} 0).1 m = true := by
  simp [fmalloc, needPool, maxPools, take, frees]

end Verif.Props
