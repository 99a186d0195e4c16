import Verif.Spec.Hash
namespace Verif.Hash
open Verif.Spec

/-- The map a list of cells stands for. -/
def abs (s : State) : HashMap := fun k => (s.find? (fun c => c.key = k)).map (·.ptr)

structure Good (s : State) : Prop where
  live : ∀ c ∈ s, c.live = true
  nodup : (s.map (·.key)).Nodup

theorem good_nil : Good [] := ⟨by simp, by simp⟩

theorem search_none {k : Str} : ∀ {s : State}, (∀ c ∈ s, c.live = true) → (∀ c ∈ s, c.key ≠ k) →
    search k s = some none
  | [], _, _ => rfl
  | c :: cs, hl, hk => by
    unfold search
    rw [if_neg (by simp [hl c (by simp)]), if_neg (hk c (by simp)),
      search_none (fun x hx => hl x (by simp [hx])) (fun x hx => hk x (by simp [hx]))]
    rfl

theorem search_some {k : Str} : ∀ {l1 : State} {c : Cell} {l2 : State},
    (∀ x ∈ l1 ++ c :: l2, x.live = true) → (∀ x ∈ l1, x.key ≠ k) → c.key = k →
    search k (l1 ++ c :: l2) = some (some l1.length)
  | [], c, l2, hl, hk, hc => by
    simp only [List.nil_append, search]
    rw [if_neg (by simp [hl c (by simp)]), if_pos hc]; rfl
  | a :: l1, c, l2, hl, hk, hc => by
    simp only [List.cons_append, search]
    rw [if_neg (by simp [hl a (by simp)]), if_neg (hk a (by simp)),
      search_some (fun x hx => hl x (by simp at hx ⊢; exact Or.inr hx)) (fun x hx => hk x (by simp [hx])) hc]
    rfl

/-- Either no cell has the key, or the list splits at the only one. -/
theorem split_key {s : State} (g : Good s) (k : Str) :
    ((∀ c ∈ s, c.key ≠ k) ∧ abs s k = none) ∨
    ∃ l1 c l2, s = l1 ++ c :: l2 ∧ c.key = k ∧ (∀ x ∈ l1, x.key ≠ k) ∧ (∀ x ∈ l2, x.key ≠ k) ∧
      abs s k = some c.ptr := by
  by_cases h : ∃ c ∈ s, c.key = k
  · right
    obtain ⟨c, hc, hk⟩ := h
    obtain ⟨l1, l2, rfl⟩ := List.append_of_mem hc
    have hn := g.nodup
    simp only [List.map_append, List.map_cons] at hn
    rw [List.nodup_append] at hn
    obtain ⟨h1, h2, h3⟩ := hn
    rw [List.nodup_cons] at h2
    have hl1 : ∀ x ∈ l1, x.key ≠ k := by
      intro x hx hxk
      exact h3 x.key (List.mem_map.2 ⟨x, hx, rfl⟩) c.key (by simp) (by rw [hxk, hk])
    refine ⟨l1, c, l2, rfl, hk, hl1, ?_, ?_⟩
    · intro x hx hxk
      exact h2.1 (List.mem_map.2 ⟨x, hx, by rw [hxk, hk]⟩)
    · unfold abs
      rw [List.find?_append, List.find?_eq_none.2 (by simpa using hl1)]
      simp [hk]
  · left
    have h' : ∀ c ∈ s, c.key ≠ k := fun c hc hk => h ⟨c, hc, hk⟩
    refine ⟨h', ?_⟩
    unfold abs
    rw [List.find?_eq_none.2 (by simpa using h')]; rfl

theorem exchange_head (h : Cell) (t : State) (k : Str) (v : Nat) :
    exchange (h :: t) 0 k v = { h with key := k, ptr := v } :: t := by
  simp [exchange]

theorem exchange_tail (h : Cell) (l1 : State) (c : Cell) (l2 : State) (k : Str) (v : Nat) :
    exchange (h :: (l1 ++ c :: l2)) (l1.length + 1) k v =
      { h with key := k, ptr := v } :: (l1 ++ { c with key := h.key, ptr := h.ptr } :: l2) := by
  have hm : ∀ (l1 : State) (f : Cell → Cell), List.modify (l1 ++ c :: l2) l1.length f = l1 ++ f c :: l2 := by
    intro l1 f
    induction l1 with
    | nil => rfl
    | cons a l ih => simp [ih]
  simp only [exchange]
  rw [List.modify_succ_cons, hm]
  simp

theorem abs_cons (c : Cell) (t : State) (x : Str) :
    abs (c :: t) x = if x = c.key then some c.ptr else abs t x := by
  unfold abs
  by_cases h : c.key = x
  · simp [h]
  · simp [h, Ne.symm h]

theorem abs_append (a b : State) (x : Str) : abs (a ++ b) x = (abs a x).or (abs b x) := by
  unfold abs
  rw [List.find?_append]
  cases a.find? (fun c => c.key = x) <;> simp

theorem abs_none_of {s : State} {x : Str} (h : ∀ c ∈ s, c.key ≠ x) : abs s x = none := by
  unfold abs; rw [List.find?_eq_none.2 (by simpa using h)]; rfl

/-- The exchange puts the key in front with the given value and keeps everything else. -/
theorem exchange_spec {s : State} (g : Good s) {k : Str} {p : Nat} (hp : search k s = some (some p)) (v : Nat) :
    Good (exchange s p k v) ∧ abs (exchange s p k v) = (abs s).upd k (some v) ∧
      (exchange s p k v).head?.map (·.key) = some k ∧
      (∃ c, s[p]? = some c ∧ abs s k = some c.ptr) ∧
      (exchange s p k v)[p]?.map (·.ptr) = if p = 0 then some v else s.head?.map (·.ptr) := by
  rcases split_key g k with ⟨hno, _⟩ | ⟨l1, c, l2, hs, hck, hl1, hl2, habs⟩
  · rw [search_none g.live hno] at hp; cases hp
  · have hp' : p = l1.length := by
      rw [hs, search_some (by rw [← hs]; exact g.live) hl1 hck] at hp
      cases hp; rfl
    subst hp'
    cases l1 with
    | nil =>
      simp only [List.nil_append] at hs
      subst hs
      simp only [List.length_nil]
      rw [exchange_head]
      refine ⟨⟨?_, ?_⟩, ?_, by simp, ⟨c, by simp, habs⟩, by simp⟩
      · intro x hx
        rcases List.mem_cons.1 hx with rfl | hx
        · exact g.live c (by simp)
        · exact g.live x (by simp [hx])
      · have := g.nodup; simp only [List.map_cons] at this ⊢; rw [hck] at this; exact this
      · funext x
        rw [abs_cons]
        unfold HashMap.upd
        rw [abs_cons, hck]
        by_cases hx : x = k <;> simp [hx]
    | cons h l1 =>
      simp only [List.cons_append] at hs
      subst hs
      simp only [List.length_cons]
      rw [exchange_tail]
      have hhk : h.key ≠ k := hl1 h (by simp)
      have hn := g.nodup
      refine ⟨⟨?_, ?_⟩, ?_, by simp, ⟨c, by simp, habs⟩, by simp⟩
      · intro x hx
        simp only [List.mem_cons, List.mem_append] at hx
        rcases hx with rfl | hx | rfl | hx
        · exact g.live h (by simp)
        · exact g.live x (by simp [hx])
        · exact g.live c (by simp)
        · exact g.live x (by simp [hx])
      · simp only [List.map_cons, List.map_append] at hn ⊢
        rw [hck] at hn
        have hperm : List.Perm (k :: (l1.map (·.key) ++ h.key :: l2.map (·.key)))
            (h.key :: (l1.map (·.key) ++ k :: l2.map (·.key))) := by
          refine List.Perm.trans (List.Perm.cons k List.perm_middle) ?_
          refine List.Perm.trans (List.Perm.swap _ _ _) ?_
          exact List.Perm.cons _ List.perm_middle.symm
        exact hperm.nodup_iff.2 hn
      · simp only [List.map_cons, List.map_append] at hn
        rw [List.nodup_cons] at hn
        have hnh : ∀ x ∈ l1 ++ c :: l2, x.key ≠ h.key := by
          intro x hx hxk
          apply hn.1
          have := List.mem_map.2 (⟨x, hx, hxk⟩ : ∃ a ∈ l1 ++ c :: l2, Cell.key a = h.key)
          simpa using this
        funext x
        rw [abs_cons]
        unfold HashMap.upd
        by_cases hx : x = k
        · simp [hx]
        · simp only [hx, if_false]
          rw [abs_cons, abs_append, abs_append, abs_cons, abs_cons]
          by_cases hxh : x = h.key
          · subst hxh
            rw [abs_none_of (s := l1) (fun y hy => hnh y (by simp [hy]))]
            simp
          · simp [hxh, hck, hx]

/-- The concrete state against the abstract one; `l` is the key known to be in front. -/
structure Rel (s : State) (m : HashMap) (l : Option Str) : Prop where
  good : Good s
  abs : abs s = m
  head : ∀ k, l = some k → s.head?.map (·.key) = some k

theorem set_rel {s m l} (r : Rel s m l) (k : Str) (v : Nat) :
    ∃ s', set s k v = some s' ∧ Rel s' (m.upd k (some v)) (some k) := by
  unfold set
  rcases split_key r.good k with ⟨hno, _⟩ | ⟨l1, c, l2, hs, hck, hl1, hl2, habs⟩
  · rw [search_none r.good.live hno]
    refine ⟨_, rfl, ⟨⟨?_, ?_⟩, ?_, by simp⟩⟩
    · intro x hx
      rcases List.mem_cons.1 hx with rfl | hx
      · rfl
      · exact r.good.live x hx
    · simp only [List.map_cons, List.nodup_cons]
      refine ⟨?_, r.good.nodup⟩
      intro h
      obtain ⟨x, hx, hk⟩ := List.mem_map.1 h
      exact hno x hx hk
    · funext x
      rw [abs_cons, r.abs]
      rfl
  · have hp : search k s = some (some l1.length) := by
      rw [hs]; exact search_some (by rw [← hs]; exact r.good.live) hl1 hck
    rw [hp]
    have e := exchange_spec r.good hp v
    exact ⟨_, rfl, ⟨e.1, by rw [e.2.1, r.abs], fun x hx => by cases hx; exact e.2.2.1⟩⟩

theorem upd_self {m : HashMap} {k : Str} {v : Nat} (h : m k = some v) : m.upd k (some v) = m := by
  funext x; unfold HashMap.upd; split
  · subst_vars; exact h.symm
  · rfl

theorem has_rel {s m l} (r : Rel s m l) (k : Str) :
    ∃ s', has s k = some (s', (m k).isSome) ∧ Rel s' m (if (m k).isSome then some k else l) := by
  unfold has
  rcases split_key r.good k with ⟨hno, ha⟩ | ⟨l1, c, l2, hs, hck, hl1, hl2, habs⟩
  · rw [search_none r.good.live hno]
    rw [r.abs] at ha
    rw [ha]
    exact ⟨s, rfl, by simpa using r⟩
  · have hp : search k s = some (some l1.length) := by
      rw [hs]; exact search_some (by rw [← hs]; exact r.good.live) hl1 hck
    rw [hp]
    obtain ⟨c', hc', ha'⟩ := (exchange_spec r.good hp 0).2.2.2.1
    simp only [hc']
    have e := exchange_spec r.good hp c'.ptr
    rw [r.abs] at ha'
    rw [ha']
    refine ⟨_, rfl, ⟨e.1, ?_, fun x hx => ?_⟩⟩
    · rw [e.2.1, r.abs, upd_self ha']
    · simp at hx; subst hx; exact e.2.2.1

theorem get_rel {s m l} (r : Rel s m l) (k : Str) :
    ∃ s' w, get s k = some (s', w) ∧ Rel s' m (if (m k).isSome then some k else l) ∧
      (m k = none → w = 0) ∧
      (m k ≠ none → ∀ h, l = some h → m h = some w) := by
  unfold get
  rcases split_key r.good k with ⟨hno, ha⟩ | ⟨l1, c, l2, hs, hck, hl1, hl2, habs⟩
  · rw [search_none r.good.live hno]
    rw [r.abs] at ha
    rw [ha]
    exact ⟨s, 0, rfl, by simpa using r, fun _ => rfl, fun h => absurd rfl h⟩
  · have hp : search k s = some (some l1.length) := by
      rw [hs]; exact search_some (by rw [← hs]; exact r.good.live) hl1 hck
    rw [hp]
    obtain ⟨c', hc', ha'⟩ := (exchange_spec r.good hp 0).2.2.2.1
    simp only [hc']
    have e := exchange_spec r.good hp c'.ptr
    rw [r.abs] at ha'
    rw [ha']
    refine ⟨_, _, rfl, ⟨e.1, ?_, fun x hx => ?_⟩, by simp, fun _ h hl => ?_⟩
    · rw [e.2.1, r.abs, upd_self ha']
    · simp at hx; subst hx; exact e.2.2.1
    · rw [e.2.2.2.2]
      have hh := r.head h hl
      cases s with
      | nil => simp at hh
      | cons a t =>
        simp only [List.head?_cons, Option.map_some, Option.some.injEq] at hh
        by_cases hp0 : l1.length = 0
        · rw [if_pos hp0]
          rw [hp0] at hc'
          simp at hc'
          subst hc'
          cases l1 with
          | nil =>
            simp only [List.nil_append, List.cons.injEq] at hs
            rw [← hh, show a.key = k from by rw [hs.1, hck]]; simpa using ha'
          | cons _ _ => simp at hp0
        · rw [if_neg hp0]
          rw [← r.abs, abs_cons, if_pos hh.symm]
          simp

theorem del_rel {s m l} (r : Rel s m l) (k : Str) (hk : m k = none ∨ l = some k) :
    ∃ s', del s k = some s' ∧ Rel s' (m.upd k none) (if (m k).isSome then none else l) := by
  unfold del
  rcases split_key r.good k with ⟨hno, ha⟩ | ⟨l1, c, l2, hs, hck, hl1, hl2, habs⟩
  · rw [search_none r.good.live hno]
    rw [r.abs] at ha
    rw [ha]
    refine ⟨s, rfl, ⟨r.good, ?_, by simpa using r.head⟩⟩
    rw [r.abs]; funext x; unfold HashMap.upd; split
    · subst_vars; exact ha
    · rfl
  · have hp : search k s = some (some l1.length) := by
      rw [hs]; exact search_some (by rw [← hs]; exact r.good.live) hl1 hck
    rw [hp]
    rw [r.abs] at habs
    rcases hk with hk | hk
    · rw [hk] at habs; cases habs
    · have hh := r.head k hk
      cases l1 with
      | cons a l1 =>
        exfalso
        subst hs
        simp at hh
        exact hl1 a (by simp) hh
      | nil =>
        simp only [List.nil_append] at hs
        subst hs
        rw [habs]
        refine ⟨l2, rfl, ⟨⟨fun x hx => r.good.live x (by simp [hx]), ?_⟩, ?_, by simp⟩⟩
        · have := r.good.nodup; simp only [List.map_cons, List.nodup_cons] at this; exact this.2
        · funext x
          unfold HashMap.upd
          by_cases hx : x = k
          · subst hx; rw [if_pos rfl]; exact abs_none_of hl2
          · rw [if_neg hx, ← r.abs, abs_cons, hck, if_neg hx]

theorem run_polite : ∀ (ops : List Op) {s m l}, Rel s m l → HashMap.Polite m l ops →
    ∃ s', run s ops = some (s', HashMap.results m ops)
  | [], s, m, l, _, _ => ⟨s, rfl⟩
  | o :: os, s, m, l, r, hp => by
    unfold HashMap.Polite at hp
    unfold run HashMap.results
    cases o with
    | set k v =>
      obtain ⟨s1, h1, r1⟩ := set_rel r k v
      obtain ⟨s2, h2⟩ := run_polite os r1 hp.2
      exact ⟨s2, by simp [step, h1, h2, HashMap.step]⟩
    | has k =>
      obtain ⟨s1, h1, r1⟩ := has_rel r k
      obtain ⟨s2, h2⟩ := run_polite os r1 hp.2
      exact ⟨s2, by simp [step, h1, h2, HashMap.step]⟩
    | get k =>
      obtain ⟨s1, w, h1, r1, hw0, hw1⟩ := get_rel r k
      obtain ⟨s2, h2⟩ := run_polite os r1 hp.2
      refine ⟨s2, ?_⟩
      have hw : w = (m k).getD 0 := by
        rcases hp.1 with h | h
        · rw [hw0 h, h]; rfl
        · by_cases hn : m k = none
          · rw [hw0 hn, hn]; rfl
          · rw [hw1 hn k h]; rfl
      simp [step, h1, h2, HashMap.step, hw]
    | del k =>
      obtain ⟨s1, h1, r1⟩ := del_rel r k hp.1
      obtain ⟨s2, h2⟩ := run_polite os r1 hp.2
      exact ⟨s2, by simp [step, h1, h2, HashMap.step]⟩

end Verif.Hash
