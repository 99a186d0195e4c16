import Verif.Model.Bonus
import Verif.Proofs.Placed
import Verif.Proofs.HandlerTable

/-! A table in which every row calls back: a row takes every datum that *begins* with its pattern, because the
engine stays at the node of the row for the rest of the datum. -/

namespace Verif.Engine
open Verif.Spec

variable {π : Type}

/-- No pattern begins with another. -/
def PatternsApart (S : Rules Nat (List Datum)) : Prop := ∀ r ∈ S, ∀ r' ∈ S, r.1 <+: r'.1 → r = r'

/-- What a table with callbacks does to a datum: the row whose pattern the datum begins with is taken. -/
def bonusHandler (S : Rules Nat (List Datum)) : Handler Nat where
  act := fun t d => (S.find? fun r => r.1.isPrefixOf d).map fun r => (t + (r.2.headD []).headD 0, r.2.tail, false)

variable {e : Lens π Nat} {t : Codec π} {S : Rules Nat (List Datum)} {s : Static π}

theorem bonus_next : (Bonus.codec e t).next = t.next := rfl
theorem bonus_status (o : Nat) : (Bonus.codec e t).status o = Bonus.called (t.status o) := rfl

/-- The status of a node. -/
theorem node_cont (hrep : Represents t S) {u : List Nat} {o : Nat} (hu : u ≠ []) (hw : walk t 0 u = some o)
    (hno : ∀ r ∈ S, ¬ r.1 <+: u) : t.status o = .cont := by
  rw [hrep.status u o hu hw, nodeStatus]
  cases hl : lookup S u with
  | none => rfl
  | some b =>
    obtain ⟨r, hr, e1, _⟩ := single_lookup_none.lookup_some_mem hl
    exact absurd (e1 ▸ List.prefix_refl _) (hno r hr)

theorem lookup_mem_some {S : Rules Nat (List Datum)} {r : List Nat × List Datum} (hr : r ∈ S) : ∃ b, lookup S r.1 = some b := by
  induction S with
  | nil => simp at hr
  | cons x S ih =>
    simp only [lookup]
    split
    · exact ⟨_, rfl⟩
    · rename_i h
      rcases List.mem_cons.1 hr with rfl | hr
      · exact absurd rfl h
      · exact ih hr

theorem node_leaf (hpf : PatternsApart S) (hrep : Represents t S) {r : List Nat × List Datum} (hr : r ∈ S) (hne : r.1 ≠ []) {o : Nat}
    (hw : walk t 0 r.1 = some o) : t.status o = .match_ ∧ t.data o = r.2 := by
  obtain ⟨b, hb⟩ := lookup_mem_some hr
  obtain ⟨r', hr', e1, e2⟩ := single_lookup_none.lookup_some_mem hb
  obtain rfl : r' = r := hpf r' hr' r hr (e1 ▸ List.prefix_refl _)
  refine ⟨?_, (hrep.data _ _ _ hw hb).trans e2.symm⟩
  rw [hrep.status _ o hne hw, nodeStatus, hb]
  have hx : extendable S r'.1 = false := by
    unfold extendable
    rw [List.any_eq_false]
    intro r'' hr''
    simp only [Bool.and_eq_true, List.isPrefixOf_iff_prefix, not_and]
    intro hp
    have := hpf r' hr r'' hr'' hp
    subst this
    simp
  rw [hx]; rfl

/-- Staying at the node of a row. -/
theorem scan_stay (d : Datum) : ∀ (p : Ph π), s.codecs p.index = Bonus.codec e t → (∀ c ∈ d, t.next p.st c = 0) → p.offset = p.st →
    p.fLoop = true → p.status = .subroutine → t.status p.st = .match_ → p.scan s d = (false, { p with i := p.i + d.length }) := by
  induction d with
  | nil => intro p _ _ _ _ _ _; rfl
  | cons c cs ih =>
    intro p h0 h1 h2 h3 h4 h5
    have ha : p.advance s c = p := by
      simp only [Ph.advance, Static.codec, h0, bonus_next, bonus_status, h1 c (by simp), h3, h2]
      simp only [ne_eq, not_true_eq_false, if_false, if_true, h5, Bonus.called]
      cases p; simp_all
    simp only [Ph.scan, ha, h4]
    rw [ih _ (by exact h0) (by exact fun x hx => h1 x (by simp [hx])) (by exact h2) rfl rfl (by exact h5)]
    cases p; simp_all; omega

/-- Nothing leads on from a leaf. -/
theorem leaf_end (hpf : PatternsApart S) (hrep : Represents t S) {r : List Nat × List Datum} (hr : r ∈ S) {o : Nat}
    (hw : walk t 0 r.1 = some o) (c : Nat) : t.next o c = 0 := by
  cases hn : t.next o c with
  | zero => rfl
  | succ n =>
    exfalso
    have hsn := walk_snoc hw c
    rw [if_neg (by omega)] at hsn
    obtain ⟨r', hr', hp⟩ := (hrep.path (r.1 ++ [c]) (by simp)).1 (by rw [hsn]; rfl)
    have := hpf r hr r' hr' ((List.prefix_append _ _).trans hp)
    subst this
    have := hp.length_le
    simp at this
    omega

/-- Scanning a datum. -/
theorem scan_bonus (hpf : PatternsApart S) (hrep : Represents t S) (hne : ∀ r ∈ S, r.1 ≠ []) (d : Datum) :
    ∀ (u : List Nat) (p : Ph π), s.codecs p.index = Bonus.codec e t → walk t 0 u = some p.st → p.fLoop = false → (∀ r ∈ S, ¬ r.1 <+: u) →
      u ++ d ≠ [] → (u ≠ [] → p.status = .cont) →
      (∃ r ∈ S, r.1 <+: u ++ d ∧ ∃ o i, walk t 0 r.1 = some o ∧
        p.scan s d = (false, { p with offset := o, st := o, status := .subroutine, fLoop := true, i := i })) ∨
      ((∀ r ∈ S, ¬ r.1 <+: u ++ d) ∧ ((∃ i, p.scan s d = (true, { p with offset := 0, st := 0, status := .deadend, i := i })) ∨
        ∃ off o i, walk t 0 (u ++ d) = some o ∧ p.scan s d = (false, { p with offset := off, st := o, status := .cont, i := i }))) := by
  induction d with
  | nil =>
    intro u p h0 hw hl hno hnn hst
    rw [List.append_nil] at hnn ⊢
    refine .inr ⟨hno, .inr ⟨p.offset, p.st, p.i, hw, ?_⟩⟩
    simp only [Ph.scan]
    have := hst hnn
    cases p; simp_all
  | cons c cs ih =>
    intro u p h0 hw hl hno hnn hst
    have hsn := walk_snoc hw c
    by_cases hz : t.next p.st c = 0
    · rw [if_pos hz] at hsn
      refine .inr ⟨?_, .inl ⟨p.i, ?_⟩⟩
      · intro r hr hp
        have hlen : u.length < r.1.length := by
          rcases Nat.lt_or_ge u.length r.1.length with h | h
          · exact h
          · exact absurd (List.prefix_of_prefix_length_le hp (List.prefix_append u _) h) (hno r hr)
        have hpre : u ++ [c] <+: r.1 := by
          refine List.prefix_of_prefix_length_le (l₃ := u ++ c :: cs) ?_ hp (by simp; omega)
          exact ⟨cs, by simp⟩
        have := (hrep.path (u ++ [c]) (by simp)).2 ⟨r, hr, hpre⟩
        rw [hsn] at this; simp at this
      · simp only [Ph.scan, Ph.advance, Static.codec, h0, bonus_next, bonus_status, hz, hl]
        simp [hrep.root, Bonus.called]
    · rw [if_neg hz] at hsn
      by_cases hm : ∃ r ∈ S, r.1 <+: u ++ [c]
      · obtain ⟨r, hr, hp⟩ := hm
        have heq : r.1 = u ++ [c] := by
          rcases Nat.lt_or_ge u.length r.1.length with h | h
          · exact hp.eq_of_length (by have := hp.length_le; simp at this ⊢; omega)
          · exact absurd (List.prefix_of_prefix_length_le hp (List.prefix_append u _) h) (hno r hr)
        obtain ⟨k1, k2⟩ := node_leaf hpf hrep hr (hne r hr) (by rw [heq]; exact hsn)
        have hend := leaf_end hpf hrep hr (by rw [heq]; exact hsn)
        have ha : p.advance s c = { p with offset := t.next p.st c, st := t.next p.st c, status := .subroutine } := by
          simp only [Ph.advance, Static.codec, h0, bonus_next, bonus_status]
          simp only [ne_eq, hz, not_false_eq_true, if_true, k1, Bonus.called]
        refine .inl ⟨r, hr, ?_, t.next p.st c, p.i + 1 + cs.length, by rw [heq]; exact hsn, ?_⟩
        · rw [heq]; exact ⟨cs, by simp⟩
        · simp only [Ph.scan, ha]
          rw [scan_stay (e := e) (t := t) cs _ (by exact h0) (by exact fun x _ => hend x) rfl rfl rfl (by exact k1)]
      · have hm' : ∀ r ∈ S, ¬ r.1 <+: u ++ [c] := fun r hr hp => hm ⟨r, hr, hp⟩
        have k1 := node_cont hrep (by simp) hsn hm'
        have ha : p.advance s c = { p with offset := t.next p.st c, st := t.next p.st c, status := .cont } := by
          simp only [Ph.advance, Static.codec, h0, bonus_next, bonus_status]
          simp only [ne_eq, hz, not_false_eq_true, if_true, k1, Bonus.called]
        have key := ih (u ++ [c]) { p.advance s c with i := p.i + 1 } (by rw [ha]; exact h0) (by rw [ha]; exact hsn) (by rw [ha]; exact hl) hm' (by simp)
          (by intro _; rw [ha])
        have hsc : p.scan s (c :: cs) = Ph.scan s { p.advance s c with i := p.i + 1 } cs := by
          simp only [Ph.scan, ha]
        rw [hsc]
        simp only [List.append_assoc, List.singleton_append] at key
        rcases key with ⟨r, hr, hp, o, i, h1, h2⟩ | ⟨hn, ⟨i, h2⟩ | ⟨off, o, i, h1, h2⟩⟩
        · exact .inl ⟨r, hr, hp, o, i, h1, by rw [h2, ha]⟩
        · exact .inr ⟨hn, .inl ⟨i, by rw [h2, ha]⟩⟩
        · exact .inr ⟨hn, .inr ⟨off, o, i, h1, by rw [h2, ha]⟩⟩

/-- The row found. -/
theorem find_row (hpf : PatternsApart S) {d : Datum} {r : List Nat × List Datum} (hr : r ∈ S) (hp : r.1 <+: d) :
    S.find? (fun r => r.1.isPrefixOf d) = some r := by
  cases hf : S.find? (fun r => r.1.isPrefixOf d) with
  | none =>
    have := List.find?_eq_none.1 hf r hr
    simp [List.isPrefixOf_iff_prefix, hp] at this
  | some r' =>
    have h1 := List.mem_of_find?_eq_some hf
    have h2 := List.find?_some hf
    simp only [List.isPrefixOf_iff_prefix] at h2
    rcases Nat.le_total r.1.length r'.1.length with h | h
    · rw [hpf r hr r' h1 (List.prefix_of_prefix_length_le hp h2 h)]
    · rw [hpf r' h1 r hr (List.prefix_of_prefix_length_le h2 hp h)]

theorem find_no_row {d : Datum} (h : ∀ r ∈ S, ¬ r.1 <+: d) : S.find? (fun r => r.1.isPrefixOf d) = none := by
  rw [List.find?_eq_none]
  intro r hr
  simpa [List.isPrefixOf_iff_prefix] using h r hr

/-- Member: a table with callbacks whose patterns are single data. -/
theorem bonus_member (hn : s.type ≠ .from_) {j : Nat} (h0 : s.codecs j = Bonus.codec e t) (hpf : PatternsApart S) (hrep : Represents t S)
    (hne : ∀ r ∈ S, r.1 ≠ []) (hb : ∀ r ∈ S, IsBytes r.1) : Member s j ((bonusHandler S).on e) where
  fresh := by
    intro l hst hp hby hc hned _
    have ee := hst.index; subst ee
    have hh : l.prev.hasNext l.ph.curr = true := by simp [Queue.hasNext, hc]
    have hout := it_outer_eq s l hn
    simp only [itOuter, hh, if_true, get_succ hc] at hout
    have hg := get_succ hc
    generalize hdd : l.prev.items[l.ph.curr] = d at hned hout hg ⊢
    have hnil : ∀ r ∈ S, ¬ r.1 <+: [] := by
      intro r hr hp
      exact hne r hr (List.prefix_nil.1 hp)
    rcases scan_bonus (s := s) hpf hrep hne d [] { l.ph with curr := l.ph.curr + 1, status := .nomatch, i := 0 } h0 (by simp [walk, hst.st]) hst.loop hnil
        (by simpa using hned) (by simp) with ⟨r, hr, hpre, o, i, h1, h2⟩ | ⟨hno, ⟨i, h2⟩ | ⟨off, o, i, h1, h2⟩⟩
    · rw [List.nil_append] at hpre
      rw [h2] at hout
      simp only [Bool.false_eq_true, if_false] at hout
      have hact : ((bonusHandler S).on e).act (l.ph.priv l.ph.index) d =
          some (e.put (e.get (l.ph.priv l.ph.index) + (r.2.headD []).headD 0) (l.ph.priv l.ph.index), r.2.tail, false) := by
        simp only [Handler.on, bonusHandler, find_row hpf hr hpre, Option.map_some]
      rw [hact]
      have hdata := (node_leaf hpf hrep hr (hne r hr) h1).2
      have hty : s.type.sw = if s.type = .inter then .interSw else .toSw := by
        cases ht : s.type with
        | from_ => exact absurd ht hn
        | inter => rfl
        | to_ => rfl
      have hsw : ∀ m : Loc π, m.ph.index = l.ph.index → m.ph.status = .subroutine →
          localStep s s.type.sw m = (Bonus.cbconv e t.data m, .goto s.type.sw) := by
        intro m e1 e2
        have hc : s.codec m.ph = Bonus.codec e t := by rw [Static.codec, e1]; exact h0
        cases ht : s.type with
        | from_ => exact absurd ht hn
        | inter => simp only [PType.sw, localStep, interSw, e2, hc]; rfl
        | to_ => simp only [PType.sw, localStep, toSw, e2, hc]; rfl
      have hr' : LReach s s.type.outer l _ (.goto s.type.sw) := .cons (PType.outer_local _) hout (.one (PType.sw_local _) (hsw _ rfl rfl))
      rw [hty] at hr'
      obtain ⟨l', k1, k2⟩ := sw_next (s := s) hn (t := e.put (e.get (l.ph.priv l.ph.index) + (r.2.headD []).headD 0) (l.ph.priv l.ph.index))
        (out := r.2.tail) (l := l)
        (l1 := Bonus.cbconv e t.data { l with ph := { l.ph with
          curr := l.ph.curr + 1, offset := o, st := o, status := .subroutine, fLoop := true, i := i } }) hp hc
        (by constructor <;> rfl) rfl
        (by simp only [Bonus.cbconv, hdata]) (by simp only [Bonus.cbconv, hdata]) rfl rfl
      exact ⟨l', _, hr'.trans k1, .inr (.inr rfl), k2⟩
    · rw [List.nil_append] at hno
      rw [h2] at hout
      have hact : ((bonusHandler S).on e).act (l.ph.priv l.ph.index) d = none := by
        simp only [Handler.on, bonusHandler, find_no_row hno, Option.map_none]
      rw [hact]
      simp only [if_true] at hout
      exact ⟨_, .one (PType.outer_local _) hout, ⟨⟨rfl, rfl, rfl, rfl⟩, rfl, rfl, rfl, rfl, rfl, hst.fmatch⟩⟩
    · rw [List.nil_append] at hno h1
      rw [h2] at hout
      simp only [Bool.false_eq_true, if_false] at hout
      have hact : ((bonusHandler S).on e).act (l.ph.priv l.ph.index) d = none := by
        simp only [Handler.on, bonusHandler, find_no_row hno, Option.map_none]
      rw [hact]
      have hend : t.next o 256 = 0 := by
        cases hx : t.next o 256 with
        | zero => rfl
        | succ n =>
          exfalso
          have hsn := walk_snoc h1 256
          rw [if_neg (by omega)] at hsn
          obtain ⟨r, hr, hp⟩ := (hrep.path (d ++ [256]) (by simp)).1 (by rw [hsn]; rfl)
          have := hb r hr 256 (hp.subset (by simp))
          omega
      have hsep : ∀ m : Loc π, m.ph.index = l.ph.index → m.ph.st = o → m.ph.fLoop = false →
          itSep s m s.type.outer s.type.dead = ({ m with ph := { m.ph with offset := 0, st := 0, status := .deadend } }, .goto s.type.dead) := by
        intro m e1 e2 e3
        have hc : s.codec m.ph = Bonus.codec e t := by rw [Static.codec, e1]; exact h0
        simp [itSep, Ph.advance, hc, bonus_next, bonus_status, e2, e3, hend, hrep.root, Bonus.called]
      obtain ⟨m, hsw, hm⟩ : ∃ m, localStep s s.type.sw { l with ph := { l.ph with curr := l.ph.curr + 1, offset := off, st := o, status := .cont, i := i } } =
          (m, .goto s.type.dead) ∧ Refused l m := by
        cases ht : s.type with
        | from_ => exact absurd ht hn
        | inter =>
          have := hsep { l with ph := { l.ph with curr := l.ph.curr + 1, offset := off, st := o, status := .cont, i := i, fPending := true } } rfl rfl hst.loop
          rw [ht] at this
          exact ⟨_, this, ⟨⟨rfl, rfl, rfl, rfl⟩, rfl, rfl, rfl, rfl, rfl, hst.fmatch⟩⟩
        | to_ =>
          have := hsep { l with ph := { l.ph with
            curr := l.ph.curr + 1, offset := off, st := o, status := .cont, i := i, fPending := true, fLoop := false } } rfl rfl rfl
          rw [ht] at this
          exact ⟨_, this, ⟨⟨rfl, rfl, rfl, rfl⟩, rfl, rfl, rfl, rfl, rfl, hst.fmatch⟩⟩
      exact ⟨_, .cons (PType.outer_local _) hout (.one (PType.sw_local _) hsw), hm⟩
  held := by
    rintro ⟨t, d, t', o, hh⟩
    simp [Handler.on, bonusHandler] at hh
  flush := by
    rintro ⟨t, d, t', o, hh⟩
    simp [Handler.on, bonusHandler] at hh

/-! ### A phase with one member -/

/-- The phase `s` has just one codec, which does what `h` does. -/
structure Lone {σ : Type} (s : Static π) (e : Lens π σ) (h : Handler σ) : Prop where
  notFrom : s.type ≠ .from_
  one : s.codecn = 0
  member : Member s 0 (h.on e)

theorem lone_handlers {σ : Type} {s : Static π} {e : Lens π σ} {h : Handler σ} (hs : Lone s e h) {I : σ → Prop} (hI : Sound h I) :
    Handlers s (fun j => if j = 0 then h.on e else Handler.never) (fun j x => j = 0 → I (e.get x)) where
  notFrom := hs.notFrom
  member := by
    intro j hj
    rw [hs.one] at hj
    obtain rfl : j = 0 := by omega
    rw [if_pos rfl]
    exact hs.member
  act := by
    intro j x d hx hd hb x' out b ha
    by_cases hj : j = 0
    · subst hj
      rw [if_pos rfl] at ha ⊢
      obtain ⟨a, b, c⟩ := (hI.on e).act x d (hx rfl) hd hb _ _ _ ha
      exact ⟨fun _ => a, b, c⟩
    · rw [if_neg hj] at ha; simp [Handler.never] at ha
  flush := by
    intro j x hx
    by_cases hj : j = 0
    · subst hj
      rw [if_pos rfl]
      obtain ⟨a, b⟩ := (hI.on e).flush x (hx rfl)
      exact ⟨fun _ => a, b⟩
    · rw [if_neg hj]; exact ⟨fun h => absurd h hj, by simp [Handler.never]⟩

/-- A phase with one codec does to its input what the codec does. -/
theorem lone_real {σ : Type} {s : Static π} {e : Lens π σ} {h : Handler σ} (hs : Lone s e h) {I : σ → Prop}
    (hI : Sound h I) {p : Nat → π} {t : σ} (ht : e.get (p 0) = t) (hit : I t) {P : Proc π} (hd : P.dec = false)
    (hP : ∀ ds, AllBytes ds → P.ok ds → P.inErrors ds = 0 ∧ P.out ds = (h.run (passes s) false t (nonEmpty ds)).out ∧
      (P.outErrors ds = if passes s then 0 else (h.run (passes s) false t (nonEmpty ds)).refused) ∧
      ∀ q, e.get (q 0) = (h.run (passes s) false t (nonEmpty ds)).priv → P.fin ds q) :
    Realises s (fun q => q = p) P := by
  subst ht
  have key := handler_realises (lone_handlers hs hI) (p := p) (by rintro j rfl; exact hit)
  have hh := fun ds => handle_single (passes s) e h
    (hs := fun j => if j = 0 then h.on e else Handler.never) (if_pos rfl) false p ds
  simp only [Bool.false_eq_true, if_false] at hh
  refine key.as hd.symm (fun _ _ _ => trivial) ?_
  intro ds hb hk
  obtain ⟨a, b, c, d⟩ := hP ds hb hk
  refine ⟨?_, a.symm, ?_, ?_⟩
  · simp only [handlerProc, hs.one]
    exact (hh _).1.trans b.symm
  · simp only [handlerProc, hs.one, (hh _).2.1]
    exact c.symm
  · intro q hq
    simp only [handlerProc, hs.one] at hq
    refine d q ?_
    rw [hq]
    exact (hh _).2.2

end Verif.Engine
