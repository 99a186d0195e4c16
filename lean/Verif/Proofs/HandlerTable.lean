import Verif.Proofs.HandlerMember

/-! Tables whose patterns are single data, and codecs with the table `01* ?`, as members of handler phases. -/

namespace Verif.Engine
open Verif.Spec

variable {π : Type}

theorem get_succ {l : Loc π} (hc : l.ph.curr < l.prev.items.length) :
    l.prev.get (l.ph.curr + 1) = l.prev.items[l.ph.curr] := by
  simp [Queue.get, List.getD_eq_getElem?_getD, List.getElem?_eq_getElem hc]

theorem single_lookup_none {c : Codec π} {R : Rules Datum (List Datum)} (hrep : Represents c (symbolRules R)) (hR : GoodRules R)
    {d x : Datum} (hd : Good [d]) (hx : x ≠ []) (hpre : x <+: d) (hw : walk c 0 x = none) : lookup R [d] = none := by
  cases hl : lookup R [d] with
  | none => rfl
  | some b =>
    exfalso
    have h2 := lookup_symbolRules hR hd
    rw [hl] at h2
    obtain ⟨r, hr, e1, e2⟩ := lookup_some_mem h2
    have := (hrep.path x hx).2 ⟨r, hr, by rw [e1]; simpa [symbols] using hpre⟩
    rw [hw] at this; simp at this
where
  lookup_some_mem {S : Rules Nat (List Datum)} {p : List Nat} {b : List Datum} (h : lookup S p = some b) :
      ∃ r ∈ S, r.1 = p ∧ r.2 = b := by
    induction S with
    | nil => simp [lookup] at h
    | cons r S ih =>
      simp only [lookup] at h
      split at h
      · rename_i e; exact ⟨r, by simp, e, by simpa using h⟩
      · obtain ⟨r', h1, h2⟩ := ih h
        exact ⟨r', by simp [h1], h2⟩

/-- The separator after a datum leads nowhere. -/
theorem single_sep {s : Static π} {R : Rules Datum (List Datum)} {t : PType} {m : Loc π} {d : Datum}
    (hrep : Represents (s.codecs m.ph.index) (symbolRules R)) (hR : GoodRules R) (hs : ∀ r ∈ R, r.1.length ≤ 1)
    (hw : walk (s.codecs m.ph.index) 0 d = some m.ph.st) (hl : m.ph.fLoop = false) :
    itSep s m t.outer t.dead = ({ m with ph := { m.ph with offset := 0, st := 0, status := .deadend } }, .goto t.dead) := by
  have hnx : (s.codecs m.ph.index).next m.ph.st 256 = 0 := by
    cases hn : (s.codecs m.ph.index).next m.ph.st 256 with
    | zero => rfl
    | succ n =>
      exfalso
      have hsn := walk_snoc hw 256
      rw [if_neg (by omega)] at hsn
      exact walk_multi hrep hR (u := [d]) (by simp) (o := n + 1) (by simpa [syms, hn] using hsn) hs
  simp [itSep, Ph.advance, Static.codec, hnx, hl, hrep.root]

/-- Member: a table of single data. -/
theorem table_member {s : Static π} (hn : s.type ≠ .from_) {R : Rules Datum (List Datum)} {j : Nat}
    (hrep : Represents (s.codecs j) (symbolRules R)) (hR : GoodRules R) (hs : ∀ r ∈ R, r.1.length ≤ 1) :
    Member s j (Handler.table R) where
  fresh := by
    intro l hst hp hb hc hne _
    have e := hst.index; subst e
    have hd : Good [l.prev.items[l.ph.curr]] := by
      intro d hd; simp at hd; subst hd; exact ⟨hne, hb _ (List.getElem_mem hc)⟩
    have hh : l.prev.hasNext l.ph.curr = true := by simp [Queue.hasNext, hc]
    have hout := it_outer_eq s l hn
    simp only [itOuter, hh, if_true, get_succ hc] at hout
    have hlk := lookup_symbolRules hR hd
    rcases scan_spec (s := s) { l.ph with curr := l.ph.curr + 1, status := .nomatch, i := 0 } [] l.prev.items[l.ph.curr]
        hrep hst.loop (by simp [walk, hst.st]) with ⟨x, off, st, status, i, hx, hpre, hw, hsc⟩ | ⟨off, st, status, i, hw, hstat, _, hsc⟩
    · rw [hsc] at hout
      have hno : lookup R [l.prev.items[l.ph.curr]] = none := single_lookup_none hrep hR hd hx hpre (by simpa using hw)
      simp only [Handler.table, hno, Option.map_none]
      simp only [if_true] at hout
      exact ⟨_, .one (PType.outer_local _) hout, ⟨⟨rfl, rfl, rfl, rfl⟩, rfl, rfl, rfl, rfl, rfl, hst.fmatch⟩⟩
    · have hns := hstat hne
      rw [List.nil_append] at hw hns
      rw [hsc] at hout
      simp only [Bool.false_eq_true, if_false] at hout
      have hwd : walk (s.codecs l.ph.index) 0 l.prev.items[l.ph.curr] = some st := hw
      have hsw := interSw_eq s { l with ph := { l.ph with
        curr := l.ph.curr + 1, offset := off, st := st, status := status, i := i } } hst.loop hn
      simp only [symbols] at hlk
      rw [nodeStatus, hlk] at hns
      cases hl : lookup R [l.prev.items[l.ph.curr]] with
      | none =>
        rw [hl] at hns
        simp only at hns
        subst hns
        simp only at hsw
        rw [single_sep (by exact hrep) hR hs (by exact hwd) (by exact hst.loop)] at hsw
        simp only [Handler.table, hl, Option.map_none]
        exact ⟨_, .cons (PType.outer_local _) hout (.one (PType.sw_local _) hsw),
          ⟨⟨rfl, rfl, rfl, rfl⟩, rfl, rfl, rfl, rfl, rfl, hst.fmatch⟩⟩
      | some b =>
        rw [hl] at hns hlk
        have hdata : (s.codecs l.ph.index).data st = b := hrep.data _ _ _ hwd hlk
        have hbne : b ≠ [] := by
          obtain ⟨r, hr, _, e2⟩ := single_lookup_none.lookup_some_mem hlk
          obtain ⟨r', hr', rfl⟩ := List.mem_map.1 hr
          rw [← e2]; exact (hR r' hr').2.2.1
        simp only at hns
        simp only [Handler.table, hl, Option.map_some]
        split at hns
        · -- SUBMATCH, then dead at the separator
          subst hns
          simp only at hsw
          obtain ⟨m, hm⟩ : ∃ m, m = itSubmatch s { l with ph := { l.ph with
            curr := l.ph.curr + 1, offset := off, st := st, status := .submatch, i := i } } := ⟨_, rfl⟩
          rw [← hm] at hsw
          have hmp : m.ph.index = l.ph.index ∧ m.ph.st = st ∧ m.ph.fLoop = false ∧ m.ph.fMatch = true ∧ m.ph.matchData = b ∧
              m.ph.q = l.ph.q ∧ m.ph.priv = l.ph.priv ∧ m.ph.consumed = l.ph.consumed ∧ m.ierr = l.ierr ∧ m.oerr = l.oerr ∧
              m.prevHeadLen = l.prevHeadLen ∧ m.ph.bak = l.ph.curr + 2 ∧ m.prev.Ok ∧
              (m.prev.items = l.prev.items ∨ m.prev.items = l.prev.items ++ [[]]) := by
            rw [hm]
            simp only [itSubmatch]
            split
            · exact ⟨rfl, rfl, hst.loop, rfl, hdata, rfl, rfl, rfl, rfl, rfl, rfl, rfl, hp, .inl rfl⟩
            · rename_i hlast
              have hlen : l.ph.curr + 1 = l.prev.items.length := by
                simp [Queue.hasNext] at hlast; omega
              have htail : l.prev.tail = l.prev.items.length := hp
              refine ⟨rfl, rfl, hst.loop, rfl, hdata, rfl, rfl, rfl, rfl, rfl, rfl, ?_, (Queue.push_ok hp []).1, .inr (Queue.push_ok hp []).2⟩
              simp only; omega
          obtain ⟨m1, m2, m3, m4, m5, m6, m7, m8, m9, m10, m11, m12, m13, m14⟩ := hmp
          rw [single_sep (by rw [m1]; exact hrep) hR hs (by rw [m1, m2]; exact hwd) m3] at hsw
          have hfree := Queue.listFree_ok m13 m.ph.bak
          have hitems : (m.prev.listFree m.ph.bak).items = l.prev.items.drop (l.ph.curr + 1) ∨
              (m.prev.listFree m.ph.bak).items = l.prev.items.drop (l.ph.curr + 1) ++ [[]] := by
            rw [hfree.2, m12]
            rcases m14 with e | e
            · left; rw [e]; rfl
            · right
              rw [e]
              rw [show l.ph.curr + 2 - 1 = l.ph.curr + 1 by omega, List.drop_append_of_le_length (by omega)]
          have hE : ∀ m' : Loc π, m'.ph.matchData = b → emitMatch s m' false = { m' with
              prev := m'.prev.listFree m'.ph.bak
              ph := { m'.ph with q := m'.ph.q.pushAll b, curr := 0, fMatch := false }.reset s } := by
            intro m' hb'
            simp only [emitMatch]
            rw [if_pos (by rw [hb']; exact hbne), hb']; rfl
          refine ⟨{ m with
            prev := m.prev.listFree m.ph.bak
            ph := { m.ph with
              offset := 0, st := 0, status := .deadend, fPending := false, fLoop := false
              q := m.ph.q.pushAll b, curr := 0, fMatch := false }.reset s },
            if s.type = .inter then .goto .begin else .nextBegin,
            .cons (PType.outer_local _) hout (.cons (PType.sw_local _) hsw (.one (PType.dead_local _) ?_)), ?_, ?_⟩
          · cases ht : s.type with
            | from_ => exact absurd ht hn
            | inter =>
              simp only [PType.dead, localStep, interDead, m4, if_true]
              rw [hE _ (by exact m5)]
            | to_ =>
              simp only [PType.dead, localStep, toDead, m4, if_true]
              rw [hE _ (by exact m5), if_neg (by simp)]
          · split
            · exact .inl rfl
            · exact .inr (.inr rfl)
          · refine ⟨⟨m9, m10, m11, m8⟩, hfree.1, ?_, ?_, ?_, ?_, ?_, rfl, ⟨rfl, rfl, rfl, rfl, rfl⟩⟩
            · simp only
              rcases hitems with e | e
              · rw [e]
              · rw [e, nonEmpty_append]; simp [nonEmpty]
            · intro x hx
              simp only at hx
              rcases hitems with e | e
              · rw [e] at hx; exact .inl (List.mem_of_mem_drop hx)
              · rw [e] at hx
                rcases List.mem_append.1 hx with h1 | h1
                · exact .inl (List.mem_of_mem_drop h1)
                · exact .inr (by simpa using h1)
            · simp only
              have := empties_drop_le l.prev.items (l.ph.curr + 1)
              rcases hitems with e | e
              · rw [e]; omega
              · rw [e, empties_append]; simp [empties]; omega
            · simp only [Ph.reset]; rw [m6]
            · simp only [Ph.reset]; rw [m7, setPriv_self]
        · -- MATCH
          subst hns
          simp only at hsw
          have hfree := Queue.listFree_ok hp (l.ph.curr + 1 + 1)
          refine ⟨_, _, .cons (PType.outer_local _) hout (.one (PType.sw_local _) hsw), .inr (.inr rfl),
            ⟨⟨rfl, rfl, rfl, rfl⟩, hfree.1, ?_, ?_, ?_, ?_, ?_, rfl, ⟨rfl, rfl, rfl, rfl, rfl⟩⟩⟩
          · simp only [hfree.2]; rfl
          · intro x hx; simp only [hfree.2] at hx; exact .inl (List.mem_of_mem_drop hx)
          · simp only [hfree.2]
            have := empties_drop_le l.prev.items (l.ph.curr + 1 + 1 - 1); omega
          · simp only [Ph.reset, Static.codec]; rw [hdata]
          · simp only [Ph.reset]; rw [setPriv_self]
  held := by
    rintro ⟨t, d, t', o, h⟩
    simp [Handler.table] at h
  flush := by
    rintro ⟨t, d, t', o, h⟩
    simp [Handler.table] at h

/-- Scanning with the table `01* ?`. -/
theorem scan_uni_loop {s : Static π} {conv : Loc π → Loc π} (d : Datum) :
    ∀ (p : Ph π), s.codecs p.index = uniPrefix conv → p.st = 2 → p.offset = 2 → p.fLoop = true → p.status = .subroutine →
      p.scan s d = (false, { p with i := p.i + d.length }) := by
  induction d with
  | nil => intro p _ _ _ _ _; rfl
  | cons c cs ih =>
    intro p h0 h1 h2 h3 h4
    have ha : p.advance s c = p := by
      simp only [Ph.advance, Static.codec, h0, uniPrefix, h1, h2, h3]
      cases p; simp_all
    simp only [Ph.scan, ha, h4]
    rw [ih _ (by exact h0) (by exact h1) (by exact h2) rfl rfl]
    cases p; simp_all; omega

/-- Member: a codec with the table `01* ?` that never waits, for data other than the single byte 01. -/
theorem uni_member {s : Static π} (hn : s.type ≠ .from_) {h : Handler π} {j : Nat}
    (h0 : s.codecs j = uniPrefix h.conv) (hnh : ¬ Holds h) : Member s j h.uni (fun d => d ≠ [1]) where
  fresh := by
    intro l hst hp hb hc hne hD
    have e := hst.index; subst e
    have hh : l.prev.hasNext l.ph.curr = true := by simp [Queue.hasNext, hc]
    have hout := it_outer_eq s l hn
    simp only [itOuter, hh, if_true, get_succ hc] at hout
    have hby := hb _ (List.getElem_mem hc)
    have hg := get_succ hc
    generalize hdd : l.prev.items[l.ph.curr] = d at hne hby hout hg hD ⊢
    match d, hne with
    | c :: cs, _ =>
      by_cases hc1 : c = 1
      · subst hc1
        cases cs with
        | nil => exact absurd rfl hD
        | cons c2 cs =>
          have hc2 : c2 < 256 := hby c2 (by simp)
          have hsc : Ph.scan s { l.ph with curr := l.ph.curr + 1, status := .nomatch, i := 0 } (1 :: c2 :: cs) =
              (false, { l.ph with
                curr := l.ph.curr + 1, offset := 2, st := 2, status := .subroutine, fLoop := true, i := 2 + cs.length }) := by
            have a1 : Ph.advance s { l.ph with curr := l.ph.curr + 1, status := .nomatch, i := 0 } 1 =
                { l.ph with curr := l.ph.curr + 1, offset := 1, st := 1, status := .cont, i := 0 } := by
              simp [Ph.advance, Static.codec, h0, uniPrefix, hst.st]
            have a2 : Ph.advance s { l.ph with curr := l.ph.curr + 1, offset := 1, st := 1, status := .cont, i := 0 + 1 } c2 =
                { l.ph with curr := l.ph.curr + 1, offset := 2, st := 2, status := .subroutine, i := 0 + 1 } := by
              simp [Ph.advance, Static.codec, h0, uniPrefix, Nat.le_of_lt hc2]
            rw [Ph.scan]; simp only [a1]
            rw [Ph.scan]; simp only [a2]
            rw [scan_uni_loop cs _ (by exact h0) rfl rfl rfl rfl]
          rw [hsc] at hout
          simp only [Bool.false_eq_true, if_false] at hout
          have hsw : localStep s s.type.sw { l with ph := { l.ph with
              curr := l.ph.curr + 1, offset := 2, st := 2, status := .subroutine, fLoop := true, i := 2 + cs.length } } =
              (h.conv { l with ph := { l.ph with
                curr := l.ph.curr + 1, offset := 2, st := 2, status := .subroutine, fLoop := true, i := 2 + cs.length } },
                .goto s.type.sw) := by
            cases ht : s.type with
            | from_ => exact absurd ht hn
            | inter => simp [PType.sw, localStep, interSw, Static.codec, h0, uniPrefix]
            | to_ => simp [PType.sw, localStep, toSw, Static.codec, h0, uniPrefix]
          have hr : LReach s s.type.outer l _ (.goto s.type.sw) := .cons (PType.outer_local _) hout (.one (PType.sw_local _) hsw)
          have hty : s.type.sw = if s.type = .inter then .interSw else .toSw := by
            cases ht : s.type with
            | from_ => exact absurd ht hn
            | inter => rfl
            | to_ => rfl
          rw [hty] at hr
          simp only [Handler.uni]
          cases ha : h.act (l.ph.priv l.ph.index) (1 :: c2 :: cs) with
          | none =>
            refine ⟨_, hr.trans (sw_dead hn ?_), ⟨⟨?_, ?_, ?_, ?_⟩, ?_, ?_, ?_, ?_, ?_, ?_⟩⟩ <;>
              simp [Handler.conv, hg, ha, hst.fmatch]
          | some r =>
            obtain ⟨t, out, b⟩ := r
            cases b with
            | true => exact absurd ⟨_, _, _, _, ha⟩ hnh
            | false =>
              obtain ⟨l', k1, k2⟩ := sw_next (s := s) hn (t := t) (out := out) (l := l)
                (l1 := h.conv { l with ph := { l.ph with
                  curr := l.ph.curr + 1, offset := 2, st := 2, status := .subroutine, fLoop := true
                  i := 2 + cs.length } }) hp hc
                (by constructor <;> simp [Handler.conv, hg, ha])
                (by simp [Handler.conv, hg, ha]) (by simp [Handler.conv, hg, ha]) (by simp [Handler.conv, hg, ha])
                (by simp [Handler.conv, hg, ha]) (by simp [Handler.conv, hg, ha])
              exact ⟨l', _, hr.trans k1, .inr (.inr rfl), k2⟩
      · have hsc : Ph.scan s { l.ph with curr := l.ph.curr + 1, status := .nomatch, i := 0 } (c :: cs) =
            (true, { l.ph with curr := l.ph.curr + 1, offset := 0, st := 0, status := .deadend, i := 0 }) := by
          simp [Ph.scan, Ph.advance, Static.codec, h0, uniPrefix, hst.st, hst.loop, hc1]
        rw [hsc] at hout
        have hno : h.uni.act (l.ph.priv l.ph.index) (c :: cs) = none := by
          simp only [Handler.uni]
          split
          · rename_i e; simp at e; omega
          · rfl
        rw [hno]
        simp only [if_true] at hout
        exact ⟨_, .one (PType.outer_local _) hout, ⟨⟨rfl, rfl, rfl, rfl⟩, rfl, rfl, rfl, rfl, rfl, hst.fmatch⟩⟩
  held := by
    rintro ⟨t, d, t', o, hh⟩
    simp only [Handler.uni] at hh
    split at hh
    · exact absurd ⟨_, _, _, _, hh⟩ hnh
    · simp at hh
  flush := by
    rintro ⟨t, d, t', o, hh⟩
    simp only [Handler.uni] at hh
    split at hh
    · exact absurd ⟨_, _, _, _, hh⟩ hnh
    · simp at hh

end Verif.Engine
