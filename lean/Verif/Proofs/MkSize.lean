import Verif.Proofs.MkTree
import Verif.Spec.MkTable

/-! A bound on the size of a compiled file. -/

namespace Verif.MkTable
open Verif.Engine (Status)
open Verif.Spec.Table

/-- The number of symbols a pattern element is for. -/
def width (ci : Bool) (b : Nat × Nat) : Nat := ((List.range 257).filterMap fun c => hit ci b.1 b.2 c).length

/-- The number of strings that begin a string the pattern is for (its states, at most). -/
def ruleNodes (ci : Bool) : List (Nat × Nat) → Nat
  | [] => 0
  | b :: bs => width ci b * (1 + ruleNodes ci bs)

/-- The number of states of a file, at most. -/
def fileNodes (rs : List Rule) : Nat := 1 + (rs.map fun r => ruleNodes r.ci r.pat).sum

namespace Arena

/-- What the size depends on. -/
structure Room (A : Arena) (D : Nat) : Prop where
  fin : ∀ k, (A.node k).fin ≤ 257
  data : ∀ k, (A.node k).data.length ≤ D

theorem Room.put {A : Arena} {D : Nat} (h : Room A D) {k : Nat} {n : Node} (h1 : n.fin ≤ 257) (h2 : n.data.length ≤ D) : Room (A.put k n) D := by
  constructor <;> intro i <;> simp only [Arena.put] <;> split
  · exact h1
  · exact h.fin i
  · exact h2
  · exact h.data i

theorem Room.new {A : Arena} {D : Nat} (h : Room A D) {n : Node} (h1 : n.fin ≤ 257) (h2 : n.data.length ≤ D) : Room (A.new n) D := by
  constructor <;> intro i <;> simp only [Arena.new] <;> split
  · exact h1
  · exact h.fin i
  · exact h2
  · exact h.data i

theorem Room.bound {A : Arena} {D : Nat} (h : Room A D) (s : Nat) {c : Nat} (hc : c ≤ 256) : Room (A.bound s c) D := by
  unfold Arena.bound
  refine h.put ?_ (h.data s)
  have := h.fin s
  simp only
  split <;> omega

theorem Room.edge {A : Arena} {D : Nat} (h : Room A D) (s k : Nat) {c : Nat} (hc : c ≤ 256) : Room (A.edge s c k) D :=
  (h.bound s hc).put ((h.bound s hc).fin s) ((h.bound s hc).data s)

theorem Room.cbs {A : Arena} {D : Nat} (h : Room A D) (f : List Nat → Option Nat) : Room { A with cbs := f } D := ⟨h.fin, h.data⟩

theorem extend_room {A : Arena} {D : Nat} (h : Room A D) (s : Nat) {c : Nat} (hc : c ≤ 256) :
    Room (A.extend s c).1 D ∧ (A.extend s c).1.count ≤ A.count + 1 := by
  unfold extend
  split
  · rename_i k _
    split
    · exact ⟨Room.edge (Room.new h (n := { status := .submatchSubroutine, data := (A.node k).data, level := (A.node k).level }) (by simp) (h.data k)) s _ hc, Nat.le_refl _⟩
    · exact ⟨Room.bound (Room.put h (k := k) (n := { A.node k with status := .submatch }) (h.fin k) (h.data k)) s hc, Nat.le_succ _⟩
    · exact ⟨h.bound s hc, Nat.le_succ _⟩
  · exact ⟨Room.edge (Room.new h (n := { status := .cont }) (by simp) (by simp)) s _ hc, Nat.le_refl _⟩

theorem finish_room {A : Arena} {D : Nat} (h : Room A D) (cb : Bool) {dat : List Nat} (hd : dat.length ≤ D) (s : Nat) {c : Nat} (hc : c ≤ 256) (v : Nat) :
    Room (A.finish cb dat s c v) D ∧ (A.finish cb dat s c v).count ≤ A.count + 1 := by
  unfold finish
  have hb := h.bound s hc
  simp only
  split
  · rename_i k _
    split
    · exact ⟨hb, Nat.le_succ _⟩
    · split
      · exact ⟨Room.put hb (n := { (A.bound s c).node k with data := dat, level := v, status := _ }) (hb.fin k) hd, Nat.le_succ _⟩
      · split
        · exact ⟨Room.put hb (n := { (A.bound s c).node k with data := dat, level := v, status := _ }) (hb.fin k) hd, Nat.le_succ _⟩
        · split
          · exact ⟨Room.edge (Room.new hb (n := { status := .match_, data := dat, level := v }) (by simp) hd) s _ hc, Nat.le_refl _⟩
          · exact ⟨Room.put hb (n := { (A.bound s c).node k with data := dat, level := v, status := _ }) (hb.fin k) hd, Nat.le_succ _⟩
  · split
    · split
      · rename_i k _
        exact ⟨Room.edge (Room.put hb (k := k) (n := { (A.bound s c).node k with data := dat, level := v }) (hb.fin k) hd) s _ hc, Nat.le_succ _⟩
      · exact ⟨Room.cbs (Room.edge (Room.new hb (n := { status := .subroutine, data := dat, level := v }) (by simp) hd) s _ hc) _, Nat.le_refl _⟩
    · exact ⟨Room.edge (Room.new hb (n := { status := .match_, data := dat, level := v }) (by simp) hd) s _ hc, Nat.le_refl _⟩

theorem extendAll_room {D : Nat} (lo hi : Nat) (js : List (Nat × Nat × Nat)) (hj : ∀ j ∈ js, j.2.1 ≤ 256) : ∀ {A : Arena}, Room A D →
    Room (extendAll A lo hi js).1 D ∧ (extendAll A lo hi js).1.count ≤ A.count + js.length ∧
    (extendAll A lo hi js).2.length = js.length ∧ ∀ it ∈ (extendAll A lo hi js).2, it.lower = lo ∧ it.upper = hi := by
  induction js with
  | nil => intro A h; exact ⟨h, Nat.le_refl _, rfl, by simp [extendAll]⟩
  | cons j js ih =>
    intro A h
    obtain ⟨s, c, v⟩ := j
    obtain ⟨h1, h2⟩ := extend_room h s (hj (s, c, v) (by simp))
    obtain ⟨k1, k2, k3, k4⟩ := ih (fun j hj' => hj j (by simp [hj'])) h1
    simp only [extendAll]
    refine ⟨k1, Nat.le_trans k2 (by simp only [List.length_cons] at *; omega), by simp [k3], ?_⟩
    intro it hit
    rcases List.mem_cons.1 hit with rfl | hit
    · exact ⟨rfl, rfl⟩
    · exact k4 it hit

theorem finishAll_room {D : Nat} (cb : Bool) {dat : List Nat} (hd : dat.length ≤ D) (js : List (Nat × Nat × Nat)) (hj : ∀ j ∈ js, j.2.1 ≤ 256) :
    ∀ {A : Arena}, Room A D → Room (js.foldl (fun A j => A.finish cb dat j.1 j.2.1 j.2.2) A) D ∧
      (js.foldl (fun A j => A.finish cb dat j.1 j.2.1 j.2.2) A).count ≤ A.count + js.length := by
  induction js with
  | nil => intro A h; exact ⟨h, Nat.le_refl _⟩
  | cons j js ih =>
    intro A h
    obtain ⟨h1, h2⟩ := finish_room h cb hd j.1 (hj j (by simp)) j.2.2
    obtain ⟨k1, k2⟩ := ih (fun j hj' => hj j (by simp [hj'])) h1
    exact ⟨k1, by simp only [List.foldl_cons, List.length_cons]; omega⟩

end Arena

theorem jobs_bound (ci : Bool) (todo : List Item) : ∀ j ∈ jobs ci todo, j.2.1 ≤ 256 := by
  intro j hj
  simp only [jobs, List.mem_flatMap, List.mem_filterMap, List.mem_range, Option.map_eq_some_iff] at hj
  obtain ⟨it, _, c, hc, v, _, rfl⟩ := hj
  simp only; omega

theorem jobs_length (ci : Bool) (b : Nat × Nat) (todo : List Item) (h : ∀ it ∈ todo, it.lower = b.1 ∧ it.upper = b.2) :
    (jobs ci todo).length = todo.length * width ci b := by
  induction todo with
  | nil => simp [jobs]
  | cons it todo ih =>
    have ih := ih (fun x hx => h x (by simp [hx]))
    have e : jobs ci (it :: todo) = ((List.range 257).filterMap fun c => (hit ci it.lower it.upper c).map fun v => (it.state, c, it.level + v)) ++ jobs ci todo := rfl
    rw [e, List.length_append, ih]
    have hw : ((List.range 257).filterMap fun c => (hit ci it.lower it.upper c).map fun v => (it.state, c, it.level + v)).length = width ci b := by
      rw [(h it (by simp)).1, (h it (by simp)).2]
      unfold width
      generalize List.range 257 = l
      induction l with
      | nil => rfl
      | cons c l ih =>
        simp only [List.filterMap_cons]
        cases hit ci b.1 b.2 c <;> simp [ih]
    rw [hw, List.length_cons, Nat.succ_mul]
    omega

open Arena in
theorem addFrom_room {D : Nat} (r : Rule) (hd : r.dat.length ≤ D) (bs : List (Nat × Nat)) : ∀ (b : Nat × Nat) (todo : List Item) {A : Arena}, Room A D →
    (∀ it ∈ todo, it.lower = b.1 ∧ it.upper = b.2) →
    Room (addFrom A r todo bs) D ∧ (addFrom A r todo bs).count ≤ A.count + todo.length * ruleNodes r.ci (b :: bs) := by
  induction bs with
  | nil =>
    intro b todo A h ht
    obtain ⟨k1, k2⟩ := finishAll_room r.cb hd _ (jobs_bound r.ci todo) h
    rw [jobs_length r.ci b todo ht] at k2
    exact ⟨k1, by simpa [addFrom, ruleNodes] using k2⟩
  | cons b' bs ih =>
    intro b todo A h ht
    obtain ⟨k1, k2, k3, k4⟩ := extendAll_room b'.1 b'.2 _ (jobs_bound r.ci todo) h
    obtain ⟨m1, m2⟩ := ih b' _ k1 k4
    rw [k3] at m2
    rw [jobs_length r.ci b todo ht] at k2 m2
    refine ⟨m1, ?_⟩
    have e : todo.length * ruleNodes r.ci (b :: b' :: bs) = todo.length * width r.ci b + todo.length * width r.ci b * ruleNodes r.ci (b' :: bs) := by
      rw [ruleNodes, Nat.mul_add, Nat.mul_one, Nat.mul_add, Nat.mul_assoc]
    rw [e]
    exact Nat.le_trans m2 (by omega)

open Arena in
theorem addRule_room {D : Nat} {A : Arena} (h : Room A D) (r : Rule) (hd : r.dat.length ≤ D) :
    Room (addRule A r) D ∧ (addRule A r).count ≤ A.count + ruleNodes r.ci r.pat := by
  unfold addRule
  split
  · by_cases hdr : drops (A.node 0) r.cb 1 = true
    · simp only [hdr, if_true]; exact ⟨h, Nat.le_add_right _ _⟩
    · simp only [hdr]
      exact ⟨Room.put h (k := 0) (n := { A.node 0 with status := _, data := r.dat, level := 1 }) (h.fin 0) hd, Nat.le_add_right _ _⟩
  · rename_i b bs hp
    obtain ⟨k1, k2⟩ := addFrom_room r hd bs b [⟨0, b.1, b.2, 1⟩] h (by simp)
    exact ⟨k1, by rw [hp]; simpa using k2⟩

open Arena in
theorem build_room {D : Nat} (rs : List Rule) (hd : ∀ r ∈ rs, r.dat.length ≤ D) : Room (build rs) D ∧ (build rs).count ≤ fileNodes rs := by
  have key : ∀ (rs : List Rule) (A : Arena), Room A D → (∀ r ∈ rs, r.dat.length ≤ D) →
      Room (rs.foldl addRule A) D ∧ (rs.foldl addRule A).count ≤ A.count + (rs.map fun r => ruleNodes r.ci r.pat).sum := by
    intro rs
    induction rs with
    | nil => intro A h _; exact ⟨h, Nat.le_refl _⟩
    | cons r rs ih =>
      intro A h hd
      obtain ⟨h1, h2⟩ := addRule_room h r (hd r (by simp))
      obtain ⟨k1, k2⟩ := ih _ h1 (fun x hx => hd x (by simp [hx]))
      refine ⟨k1, ?_⟩
      simp only [List.foldl_cons, List.map_cons, List.sum_cons]
      omega
  exact key rs Arena.init ⟨fun _ => by simp [Arena.init], fun _ => by simp [Arena.init]⟩ hd

/-! ### Writing -/

theorem close_same (s : Scan) : s.close.offset = s.offset ∧ s.close.cells.map Cell.suffix = s.cells.map Cell.suffix := by
  unfold Scan.close
  split
  · refine ⟨rfl, ?_⟩
    simp only
    cases s.cells <;> rfl
  · exact ⟨rfl, rfl⟩

theorem start_size (s : Scan) (p : List Nat) : (s.start p).offset ≤ s.offset + 12 ∧
    ((s.start p).cells.map Cell.suffix = s.cells.map Cell.suffix ∨ (s.start p).cells.map Cell.suffix = p :: s.cells.map Cell.suffix) := by
  have hmap : ∀ (q : List Nat) (x : Nat) (cs : List Cell), (cs.map fun (c : Cell) => if c.suffix = q then { c with next := x } else c).map Cell.suffix = cs.map Cell.suffix := by
    intro q x cs
    rw [List.map_map]
    apply List.map_congr_left
    intro c _
    simp only [Function.comp]
    split <;> rfl
  unfold Scan.start
  simp only
  by_cases h : cellOffset s.cells p = 0
  · rw [if_pos h]
    cases hq : s.dq with
    | none => simp only [hq]; exact ⟨Nat.le_refl _, .inr rfl⟩
    | some q => simp only [hq, hmap]; exact ⟨Nat.le_refl _, .inr rfl⟩
  · rw [if_neg h]
    cases hq : s.dq with
    | none => simp only [hq]; exact ⟨Nat.le_add_right _ _, by simp⟩
    | some q => simp only [hq, hmap]; exact ⟨Nat.le_add_right _ _, by simp⟩

theorem run_size (p : List Nat) : ∀ s : Scan, (s.run p).offset ≤ s.offset + 12 * p.length ∧ (s.run p).cells.length ≤ s.cells.length + p.length ∧
    ∀ D, p.length ≤ D → (∀ c ∈ s.cells, c.suffix.length ≤ D) → ∀ c ∈ (s.run p).cells, c.suffix.length ≤ D := by
  have hlen : ∀ (A B : List Cell), A.map Cell.suffix = B.map Cell.suffix → A.length = B.length := by
    intro A B h; simpa using congrArg List.length h
  have hall : ∀ (A B : List Cell) (D : Nat), A.map Cell.suffix = B.map Cell.suffix → (∀ c ∈ B, c.suffix.length ≤ D) → ∀ c ∈ A, c.suffix.length ≤ D := by
    intro A B D h hB c hc
    have : c.suffix ∈ B.map Cell.suffix := h ▸ List.mem_map.2 ⟨c, hc, rfl⟩
    obtain ⟨d, hd, e⟩ := List.mem_map.1 this
    rw [← e]; exact hB d hd
  induction p with
  | nil =>
    intro s
    obtain ⟨h1, h2⟩ := close_same s
    simp only [Scan.run, List.length_nil]
    exact ⟨by omega, by rw [hlen _ _ h2]; omega, fun D _ hD => hall _ _ D h2 hD⟩
  | cons c cs ih =>
    intro s
    rw [Scan.run]
    -- the cell
    have h1 : ∃ s1, (if s.k then s.start (c :: cs) else s) = s1 ∧ s1.offset ≤ s.offset + 12 ∧ s1.cells.length ≤ s.cells.length + 1 ∧
        ∀ D, (c :: cs).length ≤ D → (∀ c ∈ s.cells, c.suffix.length ≤ D) → ∀ c ∈ s1.cells, c.suffix.length ≤ D := by
      refine ⟨_, rfl, ?_⟩
      split
      · obtain ⟨k1, k2⟩ := start_size s (c :: cs)
        refine ⟨k1, ?_, ?_⟩
        · rcases k2 with k2 | k2
          · rw [hlen _ _ k2]; omega
          · have := congrArg List.length k2
            simp at this; omega
        · intro D hD hs x hx
          have hx' : x.suffix ∈ (s.start (c :: cs)).cells.map Cell.suffix := List.mem_map.2 ⟨x, hx, rfl⟩
          rcases k2 with k2 | k2
          · exact hall _ _ D k2 hs x hx
          · rw [k2] at hx'
            rcases List.mem_cons.1 hx' with e | e
            · rw [e]; exact hD
            · obtain ⟨d, hd, e⟩ := List.mem_map.1 e
              rw [← e]; exact hs d hd
      · exact ⟨by omega, by omega, fun D _ hs => hs⟩
    obtain ⟨s1, hs1, a1, a2, a3⟩ := h1
    simp only [hs1]
    have h2 : ∃ s2, (if c = 256 then { s1.close with k := true, l := 0 } else { s1 with l := s1.l + 1 }) = s2 ∧ s2.offset = s1.offset ∧
        s2.cells.map Cell.suffix = s1.cells.map Cell.suffix := by
      refine ⟨_, rfl, ?_⟩
      obtain ⟨k1, k2⟩ := close_same s1
      split
      · exact ⟨k1, k2⟩
      · exact ⟨rfl, rfl⟩
    obtain ⟨s2, hs2, b1, b2⟩ := h2
    rw [hs2]
    obtain ⟨m1, m2, m3⟩ := ih s2
    have := hlen _ _ b2
    refine ⟨by simp only [List.length_cons]; omega, by simp only [List.length_cons]; omega, ?_⟩
    intro D hD hs
    exact m3 D (by simp only [List.length_cons] at hD; omega) (hall _ _ D b2 (a3 D hD hs))

/-- The size after some states. -/
structure Sized (D n start : Nat) (w : Out) : Prop where
  offset : w.offset ≤ start + n * (1028 + 12 * D)
  cells : w.cells.length ≤ n * D
  suffix : ∀ c ∈ w.cells, c.suffix.length ≤ D

theorem writeState_size {D n start : Nat} {w : Out} (h : Sized D n start w) (i : Nat) (x : Node) (h1 : x.fin ≤ 257) (h2 : x.data.length ≤ D) :
    Sized D (n + 1) start (writeState w i x) := by
  obtain ⟨k1, k2, k3⟩ := run_size x.data { offset := w.offset, cells := w.cells }
  simp only at k1 k2 k3
  obtain ⟨o1, o2, o3⟩ := h
  have hD : 12 * x.data.length ≤ 12 * D := by omega
  have e1 : (n + 1) * (1028 + 12 * D) = n * (1028 + 12 * D) + (1028 + 12 * D) := Nat.succ_mul _ _
  have e2 : (n + 1) * D = n * D + D := Nat.succ_mul _ _
  unfold writeState
  simp only
  split
  · refine ⟨?_, ?_, k3 D h2 o3⟩
    · rw [e1]; simp only; omega
    · rw [e2]; simp only; omega
  · refine ⟨?_, ?_, k3 D h2 o3⟩
    · rw [e1]; simp only; omega
    · rw [e2]; simp only; omega

theorem writeStates_size {A : Arena} {D : Nat} (h : A.Room D) : Sized D A.count (16 * A.count) (writeStates A) := by
  have key : ∀ n, Sized D n (16 * A.count) ((List.range n).foldl (fun w i => writeState w i (A.node i)) { offset := 16 * A.count }) := by
    intro n
    induction n with
    | zero => exact ⟨by simp, by simp, by simp⟩
    | succ n ih =>
      rw [List.range_succ, List.foldl_append]
      exact writeState_size ih n _ (h.fin n) (h.data n)
  exact key A.count

theorem firstDatum_length (p : List Nat) : (firstDatum p).length ≤ p.length := (List.takeWhile_prefix _).length_le

theorem heads_mem (bs : List (List Nat)) (s h : List Nat) (e : heads bs s = some h) : h ∈ bs := by
  have key : ∀ (bs : List (List Nat)) (f : List Nat → Option (List Nat)), (bs.foldl setHead f) s = some h → f s = some h ∨ h ∈ bs := by
    intro bs
    induction bs with
    | nil => intro f e; exact .inl e
    | cons b bs ih =>
      intro f e
      rcases ih _ e with e | e
      · unfold setHead at e
        split at e
        · simp only at e
          split at e
          · simp only [Option.some.injEq] at e; subst e; exact .inr (by simp)
          · exact .inl e
        · exact .inl e
      · exact .inr (by simp [e])
  rcases key bs _ e with e | e
  · simp at e
  · exact e

theorem emit_size {A : Arena} {D : Nat} (h : A.Room D) : (emit A).offset ≤ A.count * (1044 + 12 * D + D * D) := by
  obtain ⟨h1, h2, h3⟩ := writeStates_size h
  unfold emit writeCells
  simp only
  generalize hcs : (writeStates A).cells.reverse = cs
  have hc : ∀ c ∈ cs, c.suffix.length ≤ D := by rw [← hcs]; intro c hc; exact h3 c (List.mem_reverse.1 hc)
  have hl : cs.length ≤ A.count * D := by rw [← hcs, List.length_reverse]; exact h2
  have hh : ∀ b, ((heads (cs.map fun c => firstDatum c.suffix) b).getD []).length ≤ D := by
    intro b
    cases e : heads (cs.map fun c => firstDatum c.suffix) b with
    | none => simp
    | some x =>
      obtain ⟨c, hc', rfl⟩ := List.mem_map.1 (heads_mem _ _ _ e)
      have := hc c hc'
      have := firstDatum_length c.suffix
      simp only [Option.getD_some]; omega
  have key : ∀ (l : List Cell) (w : Bytes), (l.foldl (writeCell (heads (cs.map fun c => firstDatum c.suffix))) w).offset ≤ w.offset + l.length * D := by
    intro l
    induction l with
    | nil => intro w; simp
    | cons c l ih =>
      intro w
      have := ih (writeCell (heads (cs.map fun c => firstDatum c.suffix)) w c)
      have hw : (writeCell (heads (cs.map fun c => firstDatum c.suffix)) w c).offset ≤ w.offset + D := by
        unfold writeCell
        simp only
        split
        · have := hh (firstDatum c.suffix); simp only; omega
        · simp
      simp only [List.foldl_cons, List.length_cons, Nat.succ_mul]
      omega
  have k := key cs { offset := (writeStates A).offset, writes := (writeStates A).writes }
  simp only at k
  have hm : cs.length * D ≤ A.count * (D * D) := by
    rw [← Nat.mul_assoc]; exact Nat.mul_le_mul_right D hl
  have e : A.count * (1044 + 12 * D + D * D) = 16 * A.count + A.count * (1028 + 12 * D) + A.count * (D * D) := by
    rw [Nat.mul_add, show 1044 + 12 * D = 16 + (1028 + 12 * D) by omega, Nat.mul_add, Nat.mul_comm 16]
  omega

/-- The size of a compiled file. -/
theorem image_size (rs : List Rule) (D : Nat) (hd : ∀ r ∈ rs, r.dat.length ≤ D) :
    (emit (build rs)).offset ≤ fileNodes rs * (1044 + 12 * D + D * D) := by
  obtain ⟨h1, h2⟩ := build_room rs hd
  exact Nat.le_trans (emit_size h1) (Nat.mul_le_mul_right _ h2)

/-- A pattern element for one symbol. -/
theorem width_one (c : Nat) : width false (c, c) ≤ 1 := by
  have key : ∀ n, ((List.range n).filterMap fun x => hit false c c x).length ≤ 1 ∧ (n ≤ c → ((List.range n).filterMap fun x => hit false c c x) = []) := by
    intro n
    induction n with
    | zero => simp
    | succ n ih =>
      rw [List.range_succ, List.filterMap_append]
      by_cases e : n = c
      · subst e
        have := ih.2 (Nat.le_refl _)
        refine ⟨?_, fun h => by omega⟩
        rw [this]
        simp only [List.nil_append, List.filterMap_cons, List.filterMap_nil]
        cases hit false n n n <;> simp
      · have hn : hit false c c n = none := by
          unfold hit
          rw [if_neg (by omega), if_neg (by simp)]
        simp only [List.filterMap_cons, List.filterMap_nil, hn, List.append_nil]
        exact ⟨ih.1, fun h => ih.2 (by omega)⟩
  exact (key 257).1

theorem ruleNodes_single (p : List Nat) : ruleNodes false (p.map fun c => (c, c)) ≤ p.length := by
  induction p with
  | nil => simp [ruleNodes]
  | cons c p ih =>
    simp only [List.map_cons, ruleNodes, List.length_cons]
    have := Nat.mul_le_mul (width_one c) (Nat.add_le_add_left ih 1)
    omega

theorem width_all (ci : Bool) (b : Nat × Nat) : width ci b ≤ 257 := by
  unfold width
  exact Nat.le_trans (List.length_filterMap_le _ _) (by simp)

end Verif.MkTable
