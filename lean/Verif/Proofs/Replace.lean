import Verif.Proofs.Placed
import Verif.Model.Replace
import Verif.Spec.Replace

/-! inter/REPLACE as a kind of phase. -/

namespace Verif.Engine
open Verif.Spec

variable {π : Type}

theorem replaceAll_nil (pat to : List Datum) : replaceAll pat to [] = [] := by rw [replaceAll]

theorem replaceAll_hit {pat to : List Datum} (hp : pat ≠ []) (ds : List Datum) :
    replaceAll pat to (pat ++ ds) = to ++ replaceAll pat to ds := by
  cases hd : pat ++ ds with
  | nil => simp at hd; exact absurd hd.1 hp
  | cons x xs =>
    rw [replaceAll, if_pos ⟨hp, by rw [← hd]; exact List.prefix_append _ _⟩, ← hd, List.drop_left]

theorem replaceAll_miss {pat to : List Datum} {d : Datum} {ds : List Datum} (h : ¬ pat <+: d :: ds) :
    replaceAll pat to (d :: ds) = d :: replaceAll pat to ds := by
  rw [replaceAll, if_neg (fun k => h k.2)]

theorem replaceAll_without {pat to : List Datum} {x : Datum} (hx : x ∈ pat) :
    ∀ ds : List Datum, x ∉ ds → replaceAll pat to ds = ds
  | [], _ => replaceAll_nil _ _
  | d :: ds, h => by
    rw [replaceAll_miss, replaceAll_without hx ds (fun k => h (List.mem_cons_of_mem _ k))]
    intro hp
    exact h (hp.subset hx)

theorem replaceAll_replaced {pat to : List Datum} (hp : pat ≠ []) (ds : List Datum) :
    Replaced pat to ds (replaceAll pat to ds) := by
  generalize hn : ds.length = n
  induction n using Nat.strongRecOn generalizing ds with
  | ind n ih =>
    cases ds with
    | nil => rw [replaceAll_nil]; exact .nil
    | cons d ds =>
      by_cases h : pat <+: d :: ds
      · obtain ⟨r, hr⟩ := h
        rw [← hr, replaceAll_hit hp]
        refine .hit (ih _ ?_ r rfl)
        have := congrArg List.length hr
        have hl : 0 < pat.length := List.length_pos_iff.2 hp
        simp at this hn; omega
      · rw [replaceAll_miss h]
        exact .miss h (ih _ (by simp at hn; omega) ds rfl)

theorem replaced_eq {pat to : List Datum} (hp : pat ≠ []) {ds out : List Datum} (h : Replaced pat to ds out) :
    out = replaceAll pat to ds := by
  induction h with
  | nil => rw [replaceAll_nil]
  | hit _ ih => rw [replaceAll_hit hp, ih]
  | miss h _ ih => rw [replaceAll_miss h, ih]

/-- What a REPLACE phase will do. -/
def rplbeh (pat to : List Datum) : Beh π where
  out := fun ds => replaceAll pat to (nonEmpty ds)
  inE := fun _ => 0
  outE := fun _ => 0
  toks := fun ds => (1 + empties to) * (nonEmpty ds).length
  fin := fun _ _ => True
  congr := by intro a b h; simp only [h, true_and]

/-- The invariant. -/
structure RplInv (s : Static π) (e : Lens π (List Datum)) (pat to : List Datum) (F : Beh π) (l : Loc π)
    (rem fut : List Datum) : Prop where
  beh : F = rplbeh pat to
  qOk : l.ph.q.Ok
  prevOk : l.prev.Ok
  bytes : ∀ d ∈ l.prev.items, IsBytes d
  currle : l.ph.curr ≤ l.prev.items.length
  remEq : nonEmpty rem = nonEmpty l.prev.items
  idx : l.ph.index = 0
  fmatch : l.ph.fMatch = false
  st : (nonEmpty (l.prev.items.take l.ph.curr) = [] ∧ l.ph.st = 0 ∧ l.ph.fLoop = false ∧ l.ph.fPending = false) ∨
    (nonEmpty (l.prev.items.take l.ph.curr) ≠ [] ∧ l.ph.st = 1 ∧ l.ph.offset = 1 ∧ l.ph.fLoop = true ∧ l.ph.fPending = true)
  cur : e.get (l.ph.priv 0) ≠ []
  mode : (pat = nonEmpty (l.prev.items.take l.ph.curr) ++ e.get (l.ph.priv 0) ∧
      ReplaceOk pat (nonEmpty rem ++ nonEmpty fut)) ∨
    (nonEmpty fut = [] ∧ ∃ x, pat.getLast? = some x ∧ (e.get (l.ph.priv 0)).getLast? = some x ∧ x ∉ nonEmpty rem)

/-- The phase. -/
structure RPhase (s : Static π) (e : Lens π (List Datum)) (pat to : List Datum) : Prop where
  type : s.type = .inter
  one : s.codecn = 0
  codec : s.codecs 0 = replaceCodec e pat to
  ne : pat ≠ []
  bytes : ∀ d ∈ to, IsBytes d

def rrank (l : Loc π) : Nat := l.prev.items.length - l.ph.curr

variable {s : Static π} {e : Lens π (List Datum)} {pat to : List Datum} {F : Beh π} {l : Loc π} {rem fut : List Datum}

abbrev RplQuiet (s : Static π) (e : Lens π (List Datum)) (pat to : List Datum) (F : Beh π) (l l' : Loc π) (rem fut : List Datum) : Prop :=
  Quiet (RplInv s e pat to) false hpads rrank F l l' rem fut

abbrev RplDecide (s : Static π) (e : Lens π (List Datum)) (pat to : List Datum) (F : Beh π) (l l' : Loc π) (rem fut : List Datum)
    (F' : Beh π) (rem' em : List Datum) : Prop :=
  Decide (RplInv s e pat to) false hpads F l l' rem fut F' rem' em

theorem replaceOk_suffix {pat a b : List Datum} (h : ReplaceOk pat a) (hs : b <:+ a) : ReplaceOk pat b := by
  rcases h with h | h
  · exact .inl h
  · exact .inr fun k h1 h2 h3 => h k h1 h2 (h3.trans hs)

theorem nonEmpty_head {x : Datum} {xs : List Datum} : nonEmpty (x :: xs) = nonEmpty xs ∧ x = [] ∨ nonEmpty (x :: xs) = x :: nonEmpty xs ∧ x ≠ [] := by
  by_cases h : x = []
  · subst h; exact .inl ⟨nonEmpty_cons_nil _, rfl⟩
  · exact .inr ⟨nonEmpty_cons h _, h⟩

/-- Letting the first datum pass. -/
theorem r_pop (hR : RPhase s e pat to) (hF : F = rplbeh pat to) (hq : l.ph.q.Ok) (hp : l.prev.Ok) (hb : ∀ d ∈ l.prev.items, IsBytes d)
    (hrem : nonEmpty rem = nonEmpty l.prev.items) (hi : l.ph.index = 0) (hf : l.ph.fMatch = false)
    (hne : l.prev.items ≠ []) {pv : Nat → π} (hpv : pv = l.ph.priv) (hcur : e.get (pv 0) ≠ [])
    (hmiss : ¬ pat <+: nonEmpty rem ++ nonEmpty fut)
    (hmode : (pat = e.get (pv 0) ∧ ReplaceOk pat (nonEmpty rem ++ nonEmpty fut)) ∨
      (nonEmpty fut = [] ∧ ∃ x, pat.getLast? = some x ∧ (e.get (pv 0)).getLast? = some x ∧ x ∉ nonEmpty rem)) :
    ∃ l' rem' em, LReach s s.type.dead l l' .nextBegin ∧
      RplDecide s e pat to F l l' rem fut (rplbeh pat to) rem' em := by
  subst hpv
  cases hit : l.prev.items with
  | nil => exact absurd hit hne
  | cons x xs =>
    have htail : l.prev.tail = xs.length + 1 := by have := hp; rw [Queue.Ok, hit] at this; simpa using this
    refine ⟨{ l with prev := ⟨xs, l.prev.tail - 1⟩, ph := ({ l.ph with fPending := false, fLoop := false, curr := 0, q := l.ph.q.push x }).reset s },
      xs, [x], .one (by rw [hR.type]; rfl) ?_, ?_⟩
    · rw [hR.type]
      simp only [PType.dead, localStep, interDead, hf, hi, hR.one, Nat.lt_irrefl, if_false, Bool.false_eq_true, hit]
    have hsuf : nonEmpty xs ++ nonEmpty fut <:+ nonEmpty rem ++ nonEmpty fut := by
      rw [hrem, hit]
      rcases nonEmpty_head (x := x) (xs := xs) with ⟨h, _⟩ | ⟨h, _⟩ <;> rw [h]
      · exact List.suffix_refl _
      · exact List.suffix_cons _ _
    have hsub : ∀ y, y ∈ nonEmpty xs → y ∈ nonEmpty rem := by
      intro y hy
      rw [hrem, hit]
      rcases nonEmpty_head (x := x) (xs := xs) with ⟨h, _⟩ | ⟨h, _⟩ <;> rw [h]
      · exact hy
      · exact List.mem_cons_of_mem _ hy
    have hinv : RplInv s e pat to (rplbeh pat to) { l with prev := ⟨xs, l.prev.tail - 1⟩, ph := ({ l.ph with fPending := false, fLoop := false, curr := 0, q := l.ph.q.push x }).reset s } xs fut := by
      refine ⟨rfl, (Queue.pushAll_ok hq [x]).1, ?_, ?_, Nat.zero_le _, rfl, rfl, hf, .inl ⟨rfl, rfl, rfl, rfl⟩, hcur, ?_⟩
      · simp only [Queue.Ok]; rw [htail]; rfl
      · intro d hd; exact hb d (by rw [hit]; exact List.mem_cons_of_mem _ hd)
      · rcases hmode with ⟨h1, h2⟩ | ⟨h1, y, h2, h3, h4⟩
        · exact .inl ⟨h1, replaceOk_suffix h2 hsuf⟩
        · exact .inr ⟨h1, y, h2, h3, fun k => h4 (hsub y k)⟩
    refine ⟨hinv, rfl, ?_, rfl, fun _ => rfl, fun h => absurd h (by simp), ?_, ?_, ?_, ?_, ?_, ?_⟩
    · intro d hd; simp at hd; subst hd; exact hb _ (by rw [hit]; simp)
    · rw [hF]; exact Nat.le_refl _
    · rw [hF]; simp only [rplbeh]
      rw [nonEmpty_append, nonEmpty_append, hrem, hit]
      rcases nonEmpty_head (x := x) (xs := xs) with ⟨h, h'⟩ | ⟨h, h'⟩ <;> rw [h]
      · subst h'; simp [nonEmpty]
      · rw [List.cons_append, replaceAll_miss, nonEmpty_cons h' _, nonEmpty_cons h' _]; rfl
        rw [hrem, hit, h] at hmiss; exact hmiss
    · rw [hF]; rfl
    · rw [hF]; rfl
    · rw [hF]; rfl
    · rw [hF]; simp only [rplbeh, hpads]
      rw [nonEmpty_append, nonEmpty_append, hrem, hit]
      rcases nonEmpty_head (x := x) (xs := xs) with ⟨h, h'⟩ | ⟨h, h'⟩ <;> rw [h]
      · subst h'
        right
        refine ⟨rfl, ?_, ?_⟩ <;> simp [empties] <;> omega
      · left
        refine ⟨?_, ?_⟩
        · simp only [List.cons_append, List.length_cons, empties, if_neg h', Nat.mul_add]
          omega
        · simp [empties, h']

theorem r_empty (hR : RPhase s e pat to) (h : RplInv s e pat to F l rem fut) (hc : l.ph.curr < l.prev.items.length)
    (he : l.prev.items[l.ph.curr] = []) :
    ∃ l', LReach s s.type.outer l l' .nextBegin ∧ RplQuiet s e pat to F l l' rem fut ∧ rrank l' < rrank l := by
  obtain ⟨ctl, h1, h2⟩ := it_empty (s := s) (by rw [hR.type]; simp) hc he
  have hh : l.prev.hasNext l.ph.curr = true := by simp [Queue.hasNext, hc]
  have htk : nonEmpty (l.prev.items.take (l.ph.curr + 1)) = nonEmpty (l.prev.items.take l.ph.curr) := by
    rw [take_succ' hc, nonEmpty_append, he]; simp [nonEmpty]
  have hg : l.prev.get (l.ph.curr + 1) = [] := by
    simp [Queue.get, List.getD_eq_getElem?_getD, List.getElem?_eq_getElem hc, he]
  refine ⟨{ l with ph := { l.ph with curr := l.ph.curr + 1, status := .nomatch, i := 0 } },
    .cons (pc1 := .interSw) (l1 := { l with ph := { l.ph with curr := l.ph.curr + 1, status := .nomatch, i := 0 } })
      (by rw [hR.type]; rfl) ?_ (.one rfl ?_), ⟨⟨h.beh, h.qOk, h.prevOk, h.bytes, by simp only; omega, h.remEq, h.idx, h.fmatch, ?_, h.cur, ?_⟩, rfl, rfl, rfl, rfl,
        fun _ => rfl, fun _ => Nat.le_refl _, Nat.le_refl _, ?_⟩, ?_⟩
  · simp [hR.type, PType.outer, localStep, itOuter, hh, hg, Ph.scan]
  · simp [localStep, interSw]
  · simp only [htk]; exact h.st
  · simp only [htk]; exact h.mode
  · simp only [rrank]; omega
  · simp only [rrank]; omega

/-- Reading a datum. -/
theorem r_read (hR : RPhase s e pat to) (h : RplInv s e pat to F l rem fut) (hc : l.ph.curr < l.prev.items.length)
    (hne : l.prev.items[l.ph.curr] ≠ []) :
    (∃ l', LReach s s.type.outer l l' (.goto s.type.outer) ∧ RplQuiet s e pat to F l l' rem fut ∧ rrank l' < rrank l) ∨
    (∃ l' ctl F' rem' em, LReach s s.type.outer l l' ctl ∧ DCtl s.type ctl ∧
      RplDecide s e pat to F l l' rem fut F' rem' em) := by
  have hb := h.bytes _ (List.getElem_mem hc)
  have hcd : s.codecs l.ph.index = anyByte (replaceConv e pat to) := by rw [h.idx, hR.codec]; rfl
  have hr := any_read (s := s) (by rw [hR.type]; simp) hcd (by
    rcases h.st with ⟨_, k, _⟩ | ⟨_, k1, k2, k3, _⟩
    · exact .inl k
    · exact .inr ⟨k1, k2, k3⟩) hc hne hb
  have hg : l.prev.get (l.ph.curr + 1) = l.prev.items[l.ph.curr] := by
    simp [Queue.get, List.getD_eq_getElem?_getD, List.getElem?_eq_getElem hc]
  have hsplit : nonEmpty rem = nonEmpty (l.prev.items.take l.ph.curr) ++ l.prev.items[l.ph.curr] :: nonEmpty (l.prev.items.drop (l.ph.curr + 1)) := by
    rw [h.remEq, nonEmpty_take_drop l.prev.items l.ph.curr, drop_cons hc, nonEmpty_cons hne]; rfl
  have htk : nonEmpty (l.prev.items.take (l.ph.curr + 1)) = nonEmpty (l.prev.items.take l.ph.curr) ++ [l.prev.items[l.ph.curr]] := by
    rw [take_succ' hc, nonEmpty_append, nonEmpty_cons hne]; rfl
  have hty : (if s.type = PType.inter then PC.interSw else PC.toSw) = .interSw := by rw [hR.type]; rfl
  rw [hty] at hr
  cases hcur : e.get (l.ph.priv 0) with
  | nil => exact absurd hcur h.cur
  | cons x rest =>
    by_cases hx : l.prev.items[l.ph.curr] = x
    · cases rest with
      | nil =>
        right
        have hpat : pat = nonEmpty (l.prev.items.take l.ph.curr) ++ [x] ∧ ReplaceOk pat (nonEmpty rem ++ nonEmpty fut) := by
          rcases h.mode with ⟨h1, h2⟩ | ⟨h1, y, h2, h3, h4⟩
          · rw [hcur] at h1; exact ⟨h1, h2⟩
          · rw [hcur] at h3
            simp at h3
            subst h3
            exact absurd (by rw [hsplit, hx]; simp) h4
        have hin : nonEmpty rem ++ nonEmpty fut = pat ++ (nonEmpty (l.prev.items.drop (l.ph.curr + 1)) ++ nonEmpty fut) := by
          rw [hsplit, hpat.1, hx]; simp
        have hfree := Queue.listFree_ok h.prevOk (l.ph.curr + 1 + 1)
        have hfi : (l.prev.listFree (l.ph.curr + 1 + 1)).items = l.prev.items.drop (l.ph.curr + 1) := hfree.2
        refine ⟨{ l with
            prev := l.prev.listFree (l.ph.curr + 1 + 1)
            ph := { l.ph with
              curr := 0, index := 0, offset := 0, st := 0, status := (s.codecs 0).status 0, fLoop := false, fMatch := false, fPending := false, matchData := []
              i := l.prev.items[l.ph.curr].length
              bak := l.ph.curr + 1 + 1
              priv := setPriv l.ph.priv l.ph.index (e.put pat (l.ph.priv l.ph.index))
              q := l.ph.q.pushAll to } },
          _, rplbeh pat to, l.prev.items.drop (l.ph.curr + 1), to, hr.trans (.one rfl ?_), .inr (.inr rfl), ?_⟩
        · simp [localStep, interSw, replaceConv, h.idx, hcur, hg, hx, Ph.reset]
        refine ⟨⟨rfl, (Queue.pushAll_ok h.qOk to).1, hfree.1, ?_, Nat.zero_le _, by simp only; rw [hfi], rfl, rfl, .inl ⟨rfl, rfl, rfl, rfl⟩, ?_, .inl ⟨?_, ?_⟩⟩,
          rfl, hR.bytes, rfl, fun _ => rfl, fun k => absurd k (by simp), ?_, ?_, ?_, ?_, ?_, .inl ⟨?_, ?_⟩⟩
        · intro d hd; simp only at hd; rw [hfi] at hd; exact h.bytes d (List.mem_of_mem_drop hd)
        · simp [setPriv, h.idx, e.get_put, hR.ne]
        · simp [setPriv, h.idx, e.get_put, nonEmpty]
        · exact replaceOk_suffix hpat.2 (by rw [hin]; exact List.suffix_append _ _)
        · rw [h.beh]; exact Nat.le_refl _
        · rw [h.beh]; simp only [rplbeh]
          rw [nonEmpty_append, hin, replaceAll_hit hR.ne, nonEmpty_append, nonEmpty_append]
        · rw [h.beh]; rfl
        · rw [h.beh]; rfl
        · rw [h.beh]; rfl
        · rw [h.beh]; simp only [rplbeh]
          rw [nonEmpty_append, nonEmpty_append, hin]
          have hl : 0 < pat.length := List.length_pos_iff.2 hR.ne
          obtain ⟨m, hm⟩ : ∃ m, pat.length = m + 1 := ⟨pat.length - 1, by omega⟩
          rw [List.length_append (as := pat), hm, Nat.mul_add, Nat.mul_add]
          omega
        · simp only [hpads]; rw [hfi]
          have := empties_drop_le l.prev.items (l.ph.curr + 1); omega
      | cons y ys =>
        left
        refine ⟨{ l with
            ph := { l.ph with
              curr := l.ph.curr + 1, offset := 1, st := 1, status := .subroutine, fLoop := true, fPending := true
              i := l.prev.items[l.ph.curr].length
              priv := setPriv l.ph.priv l.ph.index (e.put (y :: ys) (l.ph.priv l.ph.index)) } },
          hr.trans (.one rfl ?_), ?_⟩
        · have ho : s.type.outer = .interOuter := by rw [hR.type]; rfl
          rw [ho]
          simp [localStep, interSw, replaceConv, h.idx, hcur, hg, hx, itSep, Ph.advance, Static.codec, hR.codec, replaceCodec, anyByte]
        refine ⟨⟨⟨h.beh, h.qOk, h.prevOk, h.bytes, by simp only; omega, h.remEq, h.idx, h.fmatch, .inr ⟨?_, rfl, rfl, rfl, rfl⟩, ?_, ?_⟩, rfl, rfl, rfl, rfl,
          fun _ => rfl, fun _ => Nat.le_refl _, Nat.le_refl _, ?_⟩, ?_⟩
        · simp only [htk]; simp
        · simp [setPriv, h.idx, e.get_put]
        · simp only [setPriv, h.idx, if_true, e.get_put, htk]
          rcases h.mode with ⟨h1, h2⟩ | ⟨h1, z, h2, h3, h4⟩
          · left
            rw [hcur] at h1
            refine ⟨?_, h2⟩
            rw [h1, hx]; simp
          · right
            refine ⟨h1, z, h2, ?_, h4⟩
            rw [hcur] at h3
            rw [← h3]; simp
        · simp only [rrank]; omega
        · simp only [rrank]; omega
    · right
      obtain ⟨l', rem', em, k1, k2⟩ := r_pop (s := s) (e := e) (pat := pat) (to := to) (F := F) (rem := rem) (fut := fut)
        (l := { l with ph := { l.ph with
          curr := l.ph.curr + 1, offset := 1, st := 1, status := .deadend, fLoop := true
          i := l.prev.items[l.ph.curr].length
          priv := setPriv l.ph.priv l.ph.index (e.put pat (l.ph.priv l.ph.index)) } }) hR h.beh h.qOk h.prevOk h.bytes h.remEq h.idx h.fmatch
        (by intro k; simp only at k; rw [k] at hc; simp at hc) rfl (by simp [setPriv, h.idx, e.get_put, hR.ne]) (by
          rcases h.mode with ⟨h1, h2⟩ | ⟨h1, z, h2, h3, h4⟩
          · rw [hsplit, h1, hcur]
            rintro ⟨t, ht⟩
            simp only [List.append_assoc, List.cons_append] at ht
            have := List.append_cancel_left ht
            simp only [List.cons.injEq] at this
            exact hx this.1.symm
          · rw [h1, List.append_nil]
            intro k
            exact h4 (k.subset (List.mem_of_getLast? h2))) (by
          simp only [setPriv, h.idx, if_true, e.get_put]
          rcases h.mode with ⟨h1, h2⟩ | ⟨h1, z, h2, h3, h4⟩
          · exact .inl ⟨trivial, h2⟩
          · exact .inr ⟨h1, z, h2, h2, h4⟩)
      refine ⟨l', _, rplbeh pat to, rem', em, hr.trans (.trans (.one rfl ?_) k1), .inr (.inr rfl), ?_⟩
      · have ho : s.type.dead = .interDead := by rw [hR.type]; rfl
        rw [ho]
        simp [localStep, interSw, replaceConv, h.idx, hcur, hg, hx]
      · exact ⟨k2.inv, k2.q, k2.bytes, k2.head, k2.consumed, fun k => absurd k (by simp), k2.inErr_le, k2.out, k2.ierr, k2.oerr, k2.fin, k2.measure⟩

theorem rpl_visit (hR : RPhase s e pat to) (h : RplInv s e pat to F l rem fut) :
    (∃ l' ctl, LReach s s.type.outer l l' ctl ∧ (ctl = .goto .leave ∨ ctl = .nextBegin) ∧
      RplQuiet s e pat to F l l' rem fut ∧ (l.ph.curr < l.prev.items.length → rrank l' < rrank l) ∧
      (ctl = .nextBegin → l.ph.curr < l.prev.items.length)) ∨
    (∃ l' ctl F' rem' em, LReach s s.type.outer l l' ctl ∧ DCtl s.type ctl ∧
      RplDecide s e pat to F l l' rem fut F' rem' em) := by
  generalize hr : rrank l = r
  induction r using Nat.strongRecOn generalizing l with
  | ind r ih =>
    by_cases hc : l.ph.curr < l.prev.items.length
    · by_cases he : l.prev.items[l.ph.curr] = []
      · left
        obtain ⟨l', h1, h2, h3⟩ := r_empty hR h hc he
        exact ⟨l', _, h1, .inr rfl, h2, fun _ => by omega, fun _ => hc⟩
      · rcases r_read hR h hc he with ⟨l1, h1, h3, h4⟩ | h1
        · rcases ih (rrank l1) (by omega) h3.inv rfl with ⟨l', ctl, k1, k2, k3, k4, k5⟩ | ⟨l', ctl, F', rem', em, k1, k2, k3⟩
          · left
            refine ⟨l', ctl, h1.trans k1, k2, ⟨k3.inv, k3.q.trans h3.q, k3.ierr.trans h3.ierr, k3.oerr.trans h3.oerr, k3.head.trans h3.head,
              fun e => (k3.consumed e).trans (h3.consumed e), fun e => absurd e (by simp), Nat.le_trans k3.pads h3.pads,
              Nat.le_trans k3.rank h3.rank⟩, fun _ => ?_, fun _ => hc⟩
            have := k3.rank; omega
          · right
            refine ⟨l', ctl, F', rem', em, h1.trans k1, k2, ⟨k3.inv, by rw [k3.q, h3.q], k3.bytes, k3.head.trans h3.head, fun e => (k3.consumed e).trans (h3.consumed e),
              fun e => absurd e (by simp), k3.inErr_le, k3.out, by rw [k3.ierr, h3.ierr], by rw [k3.oerr, h3.oerr], k3.fin, ?_⟩⟩
            have := h3.pads
            rcases k3.measure with ⟨m1, m2⟩ | ⟨m1, m2, m3⟩
            · exact .inl ⟨m1, by omega⟩
            · exact .inr ⟨m1, by omega, m3⟩
        · exact .inr h1
    · left
      have hh : l.prev.hasNext l.ph.curr = false := by simp [Queue.hasNext, hc]
      refine ⟨l, .goto .leave, ?_, .inl rfl, ⟨h, rfl, rfl, rfl, rfl, fun _ => rfl, fun _ => Nat.le_refl _, Nat.le_refl _, Nat.le_refl _⟩,
        fun e => absurd e hc, fun e => by simp at e⟩
      rw [hR.type]
      exact .one rfl (by simp [PType.outer, localStep, itOuter, hh])

theorem rpl_flush (hR : RPhase s e pat to) (h : RplInv s e pat to F l rem fut) (hf : nonEmpty fut = [])
    (hc : l.ph.curr = l.prev.items.length) (hp : l.ph.fPending = true) :
    ∃ l' ctl F' rem' em, LReach s s.type.dead l l' ctl ∧ DCtl s.type ctl ∧
      RplDecide s e pat to F l l' rem fut F' rem' em := by
  have hseen : nonEmpty l.prev.items ≠ [] := by
    rcases h.st with ⟨_, _, _, k⟩ | ⟨k, _⟩
    · rw [k] at hp; simp at hp
    · rw [hc, List.take_length] at k; exact k
  have hmode : nonEmpty fut = [] ∧ ∃ x, pat.getLast? = some x ∧ (e.get (l.ph.priv 0)).getLast? = some x ∧ x ∉ nonEmpty rem := by
    rcases h.mode with ⟨h1, h2⟩ | h1
    · refine ⟨hf, ?_⟩
      rw [hc, List.take_length] at h1
      have hcur := h.cur
      generalize hC : e.get (l.ph.priv 0) = c at h1 hcur
      rcases h2 with h2 | h2
      · have hla : pat.getLast? = c.getLast? := by
          rw [h1, List.getLast?_append]
          cases hcl : c.getLast? with
          | none => exact absurd (List.getLast?_eq_none_iff.1 hcl) hcur
          | some z => rfl
        refine ⟨pat.getLast hR.ne, List.getLast?_eq_some_getLast hR.ne, by rw [← hla]; exact List.getLast?_eq_some_getLast hR.ne, ?_⟩
        intro k
        refine h2 hR.ne ?_
        have : pat.dropLast = nonEmpty l.prev.items ++ c.dropLast := by
          rw [h1, List.dropLast_append_of_ne_nil hcur]
        rw [this]
        rw [h.remEq] at k
        exact List.mem_append_left _ k
      · exfalso
        refine h2 (nonEmpty l.prev.items).length (List.length_pos_iff.2 hseen) ?_ ?_
        · rw [h1, List.length_append]
          have := List.length_pos_iff.2 hcur; omega
        · rw [hf, List.append_nil, h.remEq]
          conv => lhs; rw [h1]
          rw [List.take_left]
          exact List.suffix_refl _
    · exact h1
  obtain ⟨_, x, m1, m2, m3⟩ := hmode
  obtain ⟨l', rem', em, k1, k2⟩ := r_pop (s := s) (e := e) (pat := pat) (to := to) (F := F) (rem := rem) (fut := fut) hR h.beh h.qOk h.prevOk h.bytes h.remEq h.idx h.fmatch
    (by intro k; rw [k] at hseen; exact hseen rfl) rfl h.cur (by
      rw [hf, List.append_nil]
      intro k
      exact m3 (k.subset (List.mem_of_getLast? m1))) (.inr ⟨hf, x, m1, m2, m3⟩)
  exact ⟨l', _, _, rem', em, k1, .inr (.inr rfl), k2⟩

/-- REPLACE phases are a kind of phase. -/
def replaceKind (hR : RPhase s e pat to) : Kind s where
  Inv := RplInv s e pat to
  dec := false
  pads := hpads
  rank := rrank
  qok := fun h => ⟨h.qOk, h.prevOk, h.currle⟩
  visit := fun h => rpl_visit hR h
  flush := fun h h1 h2 h3 => .inr (rpl_flush hR h h1 h2 h3)
  append := by
    intro F l l' rem fut em fut' h h1 h2 h3 _ h5 _
    have hit : l'.prev.items = l.prev.items ++ em := by rw [h2, (Queue.pushAll_ok h.prevOk em).2]
    have htk : l'.prev.items.take l'.ph.curr = l.prev.items.take l.ph.curr := by
      rw [h3, hit, List.take_append_of_le_length h.currle]
    refine ⟨h.beh, by rw [h3]; exact h.qOk, by rw [h2]; exact (Queue.pushAll_ok h.prevOk em).1, ?_, ?_, ?_,
      by rw [h3]; exact h.idx, by rw [h3]; exact h.fmatch, by rw [htk, h3]; exact h.st, by rw [h3]; exact h.cur, ?_⟩
    · intro d hd
      rw [hit] at hd
      rcases List.mem_append.1 hd with h6 | h6
      · exact h.bytes d h6
      · exact h5 d h6
    · rw [h3, hit]
      have := h.currle
      simp only [List.length_append]; omega
    · rw [hit, nonEmpty_append, nonEmpty_append, h.remEq]
    · rw [htk, h3]
      rcases h.mode with ⟨k1, k2⟩ | ⟨k1, k2⟩
      · refine .inl ⟨k1, ?_⟩
        rw [nonEmpty_append, List.append_assoc, ← h1]; exact k2
      · rw [k1] at h1
        have h6 := (List.append_eq_nil_iff.1 h1.symm)
        refine .inr ⟨h6.2, ?_⟩
        rw [nonEmpty_append, h6.1, List.append_nil]; exact k2
  frame := by
    intro F l l' rem fut h h1 h2 h3 _
    exact ⟨h.beh, h2, by rw [h1]; exact h.prevOk, by rw [h1]; exact h.bytes, by rw [h1, h3]; exact h.currle,
      by rw [h1]; exact h.remEq, by rw [h3]; exact h.idx, by rw [h3]; exact h.fmatch, by rw [h1, h3]; exact h.st, by rw [h3]; exact h.cur,
      by rw [h1, h3]; exact h.mode⟩
  rank_frame := by intro l l' h1 h2; simp only [rrank]; rw [h1, h2]
  pads_frame := by intro l l' h1 h2; simp only [hpads]; rw [h1]
  pads_append := by
    intro F l l' rem fut em h h1 h2
    simp only [hpads]; rw [h1, (Queue.pushAll_ok h.prevOk em).2, empties_append]; omega
  idle := by
    intro F l rem fut h h1 h2 h3
    have hseen : nonEmpty l.prev.items = [] := by
      rcases h.st with ⟨k, _⟩ | ⟨_, _, _, _, k⟩
      · rw [List.take_of_length_le (by omega)] at k; exact k
      · rw [k] at h2; simp at h2
    rw [h.beh]
    simp only [rplbeh]
    rw [nonEmpty_append, h.remEq, hseen, h3]
    simp [replaceAll_nil, nonEmpty]
  noIn := by
    intro _ F l rem fut h
    rw [h.beh]; rfl

theorem replaceAll_bytes {pat to : List Datum} (ht : AllBytes to) (ds : List Datum) (hd : AllBytes ds) :
    AllBytes (replaceAll pat to ds) := by
  generalize hn : ds.length = n
  induction n using Nat.strongRecOn generalizing ds with
  | ind n ih =>
    cases ds with
    | nil => rw [replaceAll_nil]; exact hd
    | cons d ds =>
      rw [replaceAll]
      split
      · rename_i h
        intro x hx
        rcases List.mem_append.1 hx with k | k
        · exact ht x k
        · refine ih _ ?_ _ ?_ rfl x k
          · have : 0 < pat.length := List.length_pos_iff.2 h.1
            simp only [List.length_drop, List.length_cons] at *; omega
          · intro y hy; exact hd y (List.mem_of_mem_drop hy)
      · intro x hx
        rcases List.mem_cons.1 hx with k | k
        · subst k; exact hd _ (by simp)
        · exact ih _ (by simp at hn; omega) ds (fun y hy => hd y (List.mem_cons_of_mem _ hy)) rfl x k

/-- A REPLACE phase replaces. -/
theorem replace_realises (hR : RPhase s e pat to) {p : Nat → π} (hp : e.get (p 0) = pat) :
    Realises s (fun q => q = p)
      { out := fun ds => replaceAll pat to (nonEmpty ds)
        ok := fun ds => ReplaceOk pat (nonEmpty ds) } := by
  refine ⟨replaceKind hR, rplbeh pat to, rfl, ?_, ?_⟩
  · intro ds hb _
    exact ⟨rfl, rfl, rfl, fun _ _ => trivial, replaceAll_bytes hR.bytes _ (nonEmpty_bytes hb).1⟩
  intro l fut _ hl hpr hok
  subst hpr
  have hn : nonEmpty l.prev.items = [] := by rw [hl.prev]; rfl
  refine ⟨rfl, by rw [hl.q]; rfl, by rw [hl.prev]; rfl, by rw [hl.prev]; simp [Queue.empty], by rw [hl.curr]; omega, hn.symm,
    hl.index, hl.fMatch, .inl ⟨by rw [hl.curr]; rfl, hl.st, hl.fLoop, hl.fPending⟩, by rw [hp]; exact hR.ne, .inl ⟨by rw [hl.curr, hp]; rfl, hok⟩⟩

end Verif.Engine
