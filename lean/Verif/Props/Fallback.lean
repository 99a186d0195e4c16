import Verif.Spec.Fallback
import Verif.Model.Any
import Verif.Props.Utf8Errors
/-
C82: `.., ANY#data` as the last codec of a decoding phase.
-/
namespace Verif.Props
open Verif.Spec
open Verif.Engine hiding Datum step

variable {π : Type}

/-- The codecs `rs` and then ANY. -/
def thenAny (rs : Nat → Reader π) (n : Nat) (e : Lens π Nat) (sub : List Datum) (counted : Bool) (j : Nat) : Reader π :=
  if j ≤ n then rs j else ((Any.machine sub counted).on e).reader

theorem any_plain {sub : List Datum} (hs : ∀ d ∈ sub, IsBytes d) (counted : Bool) : (Any.machine sub counted).Plain (fun _ => True) :=
  fun _ _ _ _ => ⟨trivial, hs⟩

theorem resume_untouched {rs : Nat → Reader π} {m : Nat} : ∀ (k j : Nat) (p : Nat → π) (u s : List Nat), j + k < m → (resume rs k j p u s).1 m = p m
  | 0, j, p, u, s, h => by
    rw [resume_eq]
    cases (rs j).read (p j) u s <;> simp only [retry, setPriv] <;> rw [if_neg (by omega)]
  | k + 1, j, p, u, s, h => by
    rw [resume_eq]
    cases (rs j).read (p j) u s with
    | done rest t out => simp only [setPriv]; rw [if_neg (by omega)]
    | dead t =>
      simp only [retry]
      rw [resume_untouched k (j + 1) _ _ _ (by omega)]
      simp only [setPriv]
      rw [if_neg (by omega)]
    | ended t =>
      simp only [retry]
      rw [resume_untouched k (j + 1) _ _ _ (by omega)]
      simp only [setPriv]
      rw [if_neg (by omega)]

/-- ANY reads any byte. -/
theorem any_read (e : Lens π Nat) (sub : List Datum) (counted : Bool) (x : π) (u : List Nat) (b : Nat) (s : List Nat) :
    (((Any.machine sub counted).on e).reader).read x u (b :: s) = .done s (e.put (if counted then e.get x + 1 else e.get x) x) sub := rfl

/-- What the codecs with ANY do at one place. -/
theorem resume_any {rs : Nat → Reader π} {e : Lens π Nat} {sub : List Datum} {counted : Bool} {n : Nat} : ∀ (k j : Nat) (p q : Nat → π) (u s : List Nat),
    j + k = n → (∀ i, i ≤ n → q i = p i) → u ++ s ≠ [] →
    ∃ q', (∀ i, i ≤ n → q' i = (resume rs k j p u s).1 i) ∧
      match (resume rs k j p u s).2 with
      | some r => resume (thenAny rs n e sub counted) (k + 1) j q u s = (q', some r) ∧ q' (n + 1) = q (n + 1)
      | none => resume (thenAny rs n e sub counted) (k + 1) j q u s = (q', some ((u ++ s).tail, sub)) ∧
          q' (n + 1) = e.put (if counted then e.get (q (n + 1)) + 1 else e.get (q (n + 1))) (q (n + 1))
  | k, j, p, q, u, s, hk, hq, hne => by
    have hj : thenAny rs n e sub counted j = rs j := by rw [thenAny, if_pos (by omega)]
    rw [resume_eq rs, resume_eq (thenAny rs n e sub counted), hj, hq j (by omega)]
    have hset : ∀ t i, i ≤ n → setPriv q j t i = setPriv p j t i := by
      intro t i hi
      simp only [setPriv]
      split
      · rfl
      · exact hq i hi
    have hset' : ∀ t, setPriv q j t (n + 1) = q (n + 1) := by
      intro t
      simp only [setPriv]
      rw [if_neg (by omega)]
    have fail : ∀ t, ∃ q', (∀ i, i ≤ n → q' i = (retry rs k j (setPriv p j t) (u ++ s)).1 i) ∧
        match (retry rs k j (setPriv p j t) (u ++ s)).2 with
        | some r => retry (thenAny rs n e sub counted) (k + 1) j (setPriv q j t) (u ++ s) = (q', some r) ∧ q' (n + 1) = q (n + 1)
        | none => retry (thenAny rs n e sub counted) (k + 1) j (setPriv q j t) (u ++ s) = (q', some ((u ++ s).tail, sub)) ∧
            q' (n + 1) = e.put (if counted then e.get (q (n + 1)) + 1 else e.get (q (n + 1))) (q (n + 1)) := by
      intro t
      cases k with
      | zero =>
        obtain ⟨b, w, hw⟩ := List.exists_cons_of_ne_nil hne
        have hA : thenAny rs n e sub counted (j + 1) = ((Any.machine sub counted).on e).reader := by rw [thenAny, if_neg (by omega)]
        obtain rfl : j = n := by omega
        refine ⟨setPriv (setPriv q j t) (j + 1) (e.put (if counted then e.get (q (j + 1)) + 1 else e.get (q (j + 1))) (q (j + 1))), ?_, ?_⟩
        · intro i hi
          simp only [retry]
          rw [← hset t i hi]
          simp only [setPriv]
          rw [if_neg (by omega)]
        · simp only [retry]
          rw [resume_eq, hA, hw, any_read, hset' t]
          simp [setPriv]
      | succ k =>
        simp only [retry]
        have := resume_any (rs := rs) (e := e) (sub := sub) (counted := counted) k (j + 1) (setPriv p j t) (setPriv q j t) [] (u ++ s) (by omega) (hset t)
          (by simpa using hne)
        rw [hset' t] at this
        exact this
    cases (rs j).read (p j) u s with
    | done rest t out => exact ⟨setPriv q j t, hset t, rfl, hset' t⟩
    | dead t => exact fail t
    | ended t => exact fail t
termination_by k => k

/-- C82.  For every choice of codecs before ANY, every input and all contents of their private data: no errors are left; the output is the output of the
other codecs with `sub` in place of every byte they cannot read; the counter goes up by the number of those. -/
theorem C82_decode {rs : Nat → Reader π} {e : Lens π Nat} {sub : List Datum} {counted : Bool} {n : Nat} : ∀ (s : List Nat) (p q : Nat → π),
    (∀ i, i ≤ n → q i = p i) →
    (decode (thenAny rs n e sub counted) (n + 1) q s).errors = 0 ∧
    (decode (thenAny rs n e sub counted) (n + 1) q s).out = (decodeSub rs n sub p s).1 ∧
    (decodeSub rs n sub p s).2 = (decode rs n p s).errors ∧
    e.get ((decode (thenAny rs n e sub counted) (n + 1) q s).priv (n + 1)) = (if counted then e.get (q (n + 1)) + (decode rs n p s).errors else e.get (q (n + 1))) := by
  intro s
  induction hl : s.length using Nat.strongRecOn generalizing s with
  | _ m ih =>
    intro p q hq
    subst hl
    cases s with
    | nil =>
      rw [decode_nil, decode_nil, decodeSub]
      refine ⟨rfl, rfl, rfl, ?_⟩
      simp
    | cons b s =>
      obtain ⟨q', h1, h2⟩ := resume_any (rs := rs) (e := e) (sub := sub) (counted := counted) n 0 p q [] (b :: s) (by omega) hq (by simp)
      obtain ⟨⟨p', o⟩, hr⟩ : ∃ a, resume rs n 0 p [] (b :: s) = a := ⟨_, rfl⟩
      rw [hr] at h1 h2
      cases o with
      | some r =>
        obtain ⟨rest, out⟩ := r
        simp only at h1 h2
        have hlt := resume_lt rs n 0 p [] (b :: s) hr
        obtain ⟨i1, i2, i3, i4⟩ := ih rest.length (by simpa using hlt) rest rfl p' q' h1
        rw [(decode_some (by simp) h2.1).1, (decode_some (by simp) hr).1]
        have hsub : decodeSub rs n sub p (b :: s) = (out ++ (decodeSub rs n sub p' rest).1, (decodeSub rs n sub p' rest).2) := by
          rw [decodeSub]
          split
          · rename_i q r o hq'
            rw [hr] at hq'
            simp only [Prod.mk.injEq, Option.some.injEq] at hq'
            obtain ⟨rfl, rfl, rfl⟩ := hq'
            rfl
          · rename_i q hq'; rw [hr] at hq'; simp at hq'
        rw [hsub]
        simp only [i1, i2, i3, true_and]
        rw [h2.2] at i4
        exact i4
      | none =>
        simp only at h1 h2
        obtain ⟨i1, i2, i3, i4⟩ := ih s.length (by simp) s rfl p' q' h1
        rw [(decode_some (by simp) h2.1).1, (decode_none hr).1]
        have hsub : decodeSub rs n sub p (b :: s) = (sub ++ (decodeSub rs n sub p' s).1, (decodeSub rs n sub p' s).2 + 1) := by
          rw [decodeSub]
          split
          · rename_i q r o hq'; rw [hr] at hq'; simp at hq'
          · rename_i q hq'
            rw [hr] at hq'
            simp only [Prod.mk.injEq, and_true] at hq'
            subst hq'
            rfl
        rw [hsub]
        simp only [List.nil_append, List.tail_cons]
        refine ⟨i1, by rw [i2], by rw [i3], ?_⟩
        rw [i4, h2.2, e.get_put]
        cases counted <;> simp only [if_true, if_false, Bool.false_eq_true]
        omega

theorem decodeSub_some {rs : Nat → Reader π} {n : Nat} {sub : List Datum} {p p' : Nat → π} {s rest : List Nat} {out : List Datum} (hs : s ≠ [])
    (hr : resume rs n 0 p [] s = (p', some (rest, out))) :
    decodeSub rs n sub p s = (out ++ (decodeSub rs n sub p' rest).1, (decodeSub rs n sub p' rest).2) := by
  obtain ⟨b, s, rfl⟩ := List.exists_cons_of_ne_nil hs
  rw [decodeSub]
  split
  · rename_i q r o hq'
    rw [hr] at hq'
    simp only [Prod.mk.injEq, Option.some.injEq] at hq'
    obtain ⟨rfl, rfl, rfl⟩ := hq'
    rfl
  · rename_i q hq'; rw [hr] at hq'; simp at hq'

theorem decodeSub_none {rs : Nat → Reader π} {n : Nat} {sub : List Datum} {p p' : Nat → π} {b : Nat} {s : List Nat}
    (hr : resume rs n 0 p [] (b :: s) = (p', none)) :
    decodeSub rs n sub p (b :: s) = (sub ++ (decodeSub rs n sub p' s).1, (decodeSub rs n sub p' s).2 + 1) := by
  rw [decodeSub]
  split
  · rename_i q r o hq'; rw [hr] at hq'; simp at hq'
  · rename_i q hq'
    rw [hr] at hq'
    simp only [Prod.mk.injEq, and_true] at hq'
    subst hq'
    rfl

/-- C82.  `ANY#DROP&ERROR=x`: the output is as without ANY, and what would have been an error is counted in x instead. -/
theorem C82_drop {rs : Nat → Reader π} {n : Nat} : ∀ (s : List Nat) (p : Nat → π), (decodeSub rs n [] p s).1 = (decode rs n p s).out := by
  intro s
  induction hl : s.length using Nat.strongRecOn generalizing s with
  | _ m ih =>
    intro p
    subst hl
    cases s with
    | nil => rw [decode_nil, decodeSub]
    | cons b s =>
      obtain ⟨⟨p', o⟩, hr⟩ : ∃ a, resume rs n 0 p [] (b :: s) = a := ⟨_, rfl⟩
      cases o with
      | some r =>
        obtain ⟨rest, out⟩ := r
        have hlt := resume_lt rs n 0 p [] (b :: s) hr
        rw [decodeSub_some (by simp) hr, (decode_some (by simp) hr).1]
        simp only [ih rest.length (by simpa using hlt) rest rfl p']
      | none =>
        rw [decodeSub_none hr, (decode_none hr).1]
        simp only [ih s.length (by simp) s rfl p', List.nil_append]

/-- The phase has the codecs `rs` and then ANY. -/
structure EndsInAny (s : Static π) (rs : Nat → Reader π) (I : Nat → π → Prop) (At : Nat → List Nat → Ph π → Prop) (n : Nat) (e : Lens π Nat)
    (sub : List Datum) (counted : Bool) : Prop where
  isFrom : s.type = .from_
  codecs : s.codecn = n + 1
  member : ∀ j, j ≤ n → RMember s j (rs j) (I j) (At j)
  any : ∃ fl, s.codecs (n + 1) = anyByte ((Any.machine sub counted).on e).conv fl
  data : ∀ d ∈ sub, IsBytes d

theorem any_real {s : Static π} {rs : Nat → Reader π} {I : Nat → π → Prop} {At : Nat → List Nat → Ph π → Prop} {n : Nat} {e : Lens π Nat}
    {sub : List Datum} {counted : Bool} (h : EndsInAny s rs I At n e sub counted) {p : Nat → π} (hp : ∀ j, j ≤ n → I j (p j)) :
    Realises s (fun q => q = p) (decoderProc (thenAny rs n e sub counted) (n + 1) p) := by
  have hR : Readers s (thenAny rs n e sub counted) (fun j x => j ≤ n → I j x) (fun j => if j ≤ n then At j else AtAny) := by
    refine ⟨h.isFrom, ?_⟩
    intro j hj
    rw [h.codecs] at hj
    by_cases hjn : j ≤ n
    · have := h.member j hjn
      simp only [thenAny, if_pos hjn, hjn, true_implies]
      exact this
    · obtain rfl : j = n + 1 := by omega
      obtain ⟨fl, hc⟩ := h.any
      have := machine_member ((any_plain h.data counted).on e) hc
      simp only [thenAny, if_neg hjn, hjn, false_implies]
      exact this
  have := reader_realises hR (p := p) (fun j hj => hp j hj)
  rw [h.codecs] at this
  exact this

/-- C82.  Whatever the codecs before ANY, whatever the phases after it, any input cut in any way: no errors are counted in the first phase; it hands on the
output of its other codecs with `sub` for every byte they cannot read. -/
theorem C82_session {st : Nat → Static π} {ip : Nat → Nat → π → π} {ins : Ins π} {rs : Nat → Reader π} {I : Nat → π → Prop}
    {At : Nat → List Nat → Ph π → Prop} {n : Nat} {e : Lens π Nat} {sub : List Datum} {counted : Bool} {mid : List (Proc π)}
    (hn : ins.phasen = mid.length + 1) (h : EndsInAny (st 1) rs I At n e sub counted) (hp : ∀ j, j ≤ n → I j (initPriv st ip ins 1 j))
    (hm : ∀ k (h : k < mid.length), Realises (st (k + 2)) (fun p => p = initPriv st ip ins (k + 2)) mid[k]) (hmd : ∀ P ∈ mid, P.dec = false)
    (bs : List Nat) (hbs : IsBytes bs) (hok : OkRest mid (decodeSub rs n sub (initPriv st ip ins 1) bs).1)
    (as : List Arg) (l : Arg) (h1 : ∀ x ∈ as, x.flush = false) (h2 : l.flush = true) (h3 : ∀ x ∈ as ++ [l], x.mode ≠ .null)
    (h4 : ((as ++ [l]).filterMap (fun x => x.input)).flatten = bs) :
    ∃ ds ins', Session st (ins.init st ip) (as ++ [l]) ds ins' ∧
      (ds.map (fun d => d.bytes)).flatten ++ ins'.pending.flatten = (runProcs mid (decodeSub rs n sub (initPriv st ip ins 1) bs).1).flatten ∧
      ins'.ierr = ins.ierr + runIn mid (decodeSub rs n sub (initPriv st ip ins 1) bs).1 ∧
      ins'.oerr = ins.oerr + runOut mid (decodeSub rs n sub (initPriv st ip ins 1) bs).1 ∧
      (counted = true → e.get ((ins'.ph 1).priv (n + 1)) = e.get (initPriv st ip ins 1 (n + 1)) + (decodeSub rs n sub (initPriv st ip ins 1) bs).2) := by
  obtain ⟨d1, d2, d3, d4⟩ := C82_decode (rs := rs) (e := e) (sub := sub) (counted := counted) (n := n) bs (initPriv st ip ins 1) (initPriv st ip ins 1)
    (fun _ _ => rfl)
  have hch : Converts st ip ins (decoderProc (thenAny rs n e sub counted) (n + 1) (initPriv st ip ins 1) :: mid) := by
    refine chain_converts ⟨by simp, ?_, ?_⟩ (by simp [hn])
    · intro k hk
      cases k with
      | zero => exact any_real h hp
      | succ k =>
        simp only [List.getElem_cons_succ]
        exact hm k (by simpa using hk)
    · intro k hk _
      simp only [List.getElem_cons_succ]
      exact hmd _ (List.getElem_mem _)
  have e1 : ∀ ds : List Datum, ds.flatten = bs → (decoderProc (thenAny rs n e sub counted) (n + 1) (initPriv st ip ins 1)).out ds =
      (decodeSub rs n sub (initPriv st ip ins 1) bs).1 ∧
      (decoderProc (thenAny rs n e sub counted) (n + 1) (initPriv st ip ins 1)).inErrors ds = 0 := by
    intro ds hds
    simp only [decoderProc, hds, d1, d2, and_self]
  obtain ⟨f1, f2⟩ := e1 _ h4
  have hb : ∀ x ∈ as ++ [l], ∀ c ∈ x.input, IsBytes c := by
    intro x hx c hc y hy
    refine hbs y ?_
    rw [← h4]
    exact List.mem_flatten.2 ⟨c, List.mem_filterMap.2 ⟨x, hx, hc⟩, hy⟩
  obtain ⟨ds, ins', k1, k2, _, k4, k5, k6⟩ := hch as l h1 h2 h3 hb _ rfl ⟨.inl f2, trivial, by rw [f1]; exact hok⟩
  refine ⟨ds, ins', k1, ?_, ?_, ?_, ?_⟩
  · rw [k2]
    simp only [runProcs, f1]
  · rw [k4]
    simp only [runIn, f1, f2, Nat.zero_add]
  · rw [k5]
    simp only [runOut, f1]
    simp [decoderProc]
  · intro hc
    have := k6 0 (by simp)
    simp only [List.getElem_cons_zero, List.take_zero, runProcs, decoderProc, h4] at this
    rw [this, d4, d3, if_pos hc]

/-- What a decoder with a replacement does where the other codecs are known character by character. -/
theorem repaired_decode {rs : Nat → Reader π} {n : Nat} {inv : (Nat → π) → Prop} {enc : Nat → List Nat} {valid range : Nat → Prop} {sub : List Nat}
    (hb : ∀ cp, valid cp → enc cp ≠ [])
    (hc : ∀ p cp rest, inv p → valid cp → IsBytes (enc cp ++ rest) →
      ∃ p', inv p' ∧ resume rs n 0 p [] (enc cp ++ rest) = (p', some (rest, [uniDatum cp])))
    (hx : ∀ p b rest, inv p → (∀ cp, valid cp → ¬enc cp <+: b :: rest) → ¬Unfinished enc range (b :: rest) → IsBytes (b :: rest) →
      ∃ p', inv p' ∧ resume rs n 0 p [] (b :: rest) = (p', none))
    {bs cps : List Nat} {k : Nat} (hm : Repaired enc valid range sub bs cps k) (hbs : IsBytes bs) (p : Nat → π) (hp : inv p) :
    decodeSub rs n (textData sub) p bs = (textData cps, k) := by
  induction hm generalizing p with
  | nil => rw [decodeSub]; rfl
  | @char cp rest cps k h1 _ ih =>
    obtain ⟨p', i1, i2⟩ := hc p cp rest hp h1 hbs
    rw [decodeSub_some (by simp [hb cp h1]) i2, ih (fun x h => hbs x (by simp [h])) p' i1]
    simp [textData]
  | @skip b rest cps k h1 h2 _ ih =>
    obtain ⟨p', i1, i2⟩ := hx p b rest hp h1 h2 hbs
    rw [decodeSub_none i2, ih (fun x h => hbs x (by simp [h])) p' i1]
    simp [textData]

/-- The phase is `ASCII,_UTF-8,ANY#sub`. -/
structure Utf8Any (s : Static π) (p : Nat → π) (e : Lens π Utf8.Priv) (ea : Lens π Nat) (sub : List Nat) (counted : Bool) : Prop where
  isFrom : s.type = .from_
  three : s.codecn = 2
  table : Represents (s.codecs 0) Ascii.fromRules
  codec : ∃ fl, s.codecs 1 = anyByte ((Utf8.machine {}).on e).conv fl
  any : ∃ fl, s.codecs 2 = anyByte ((Any.machine (textData sub) counted).on ea).conv fl
  fresh : e.get (p 1) = .zero

/-- Every byte sequence that does not end inside a character can be read with replacements. -/
theorem C82_total {sub bs : List Nat} (h : ∀ u s, bs = u ++ s → s ≠ [] → ¬Unfinished Spec.utf8 Utf8Range s) :
    ∃ cps n, Repaired Spec.utf8 Utf8Char Utf8Range sub bs cps n := by
  obtain ⟨cps, n, hm⟩ := C70_total bs h
  clear h
  induction hm with
  | nil => exact ⟨_, _, .nil⟩
  | char h1 _ ih => obtain ⟨c, n, h⟩ := ih; exact ⟨_, _, .char h1 h⟩
  | skip h1 h2 _ ih => obtain ⟨c, n, h⟩ := ih; exact ⟨_, _, .skip h1 h2 h⟩

/-- C82.  `ASCII,_UTF-8,ANY#sub` into any encoding of C63: any bytes that do not end inside a character, cut in any way (even inside a broken sequence):
the characters found and `sub` for each byte that belongs to none come out, in the order of the input; no decoding error is counted, and the counter of ANY
goes up by the number of those bytes. -/
theorem C82_utf8 {st : Nat → Static π} {ip : Nat → Nat → π → π} {ins : Ins π} {b : Target} {e : Lens π Utf8.Priv} {ea : Lens π Nat} {sub : List Nat}
    {counted : Bool} (hn : ins.phasen = 2) (ha : Utf8Any (st 1) (initPriv st ip ins 1) e ea sub counted) (hb : b.Is (st 2))
    (bs : List Nat) (hbs : IsBytes bs) (cps : List Nat) (n : Nat) (hm : Repaired Spec.utf8 Utf8Char Utf8Range sub bs cps n)
    (hc : ∀ cp ∈ sub ++ cps, Scalar cp)
    (as : List Arg) (l : Arg) (h1 : ∀ x ∈ as, x.flush = false) (h2 : l.flush = true) (h3 : ∀ x ∈ as ++ [l], x.mode ≠ .null)
    (h4 : ((as ++ [l]).filterMap (fun x => x.input)).flatten = bs) :
    ∃ ds ins', Session st (ins.init st ip) (as ++ [l]) ds ins' ∧
      (ds.map (fun d => d.bytes)).flatten ++ ins'.pending.flatten = (cps.filter b.takes).flatMap b.enc ∧
      ins'.ierr = ins.ierr ∧ ins'.oerr = ins.oerr + (cps.filter fun cp => !b.takes cp).length ∧
      (counted = true → ea.get ((ins'.ph 1).priv 2) = ea.get (initPriv st ip ins 1 2) + n) := by
  obtain ⟨E, hE1, hE2⟩ := target_encodes hb (initPriv st ip ins 2)
  have hs : ∀ cp ∈ cps, Scalar cp := fun cp h => hc cp (by simp [h])
  obtain ⟨e1, e2, e3, e4⟩ := hE2.text cps hs
  have hend : EndsInAny (st 1) (tableThen Ascii.fromRules e (Utf8.machine {})) (fun j x => j = 1 → Utf8Inv (e.get x))
      (fun j => if j = 0 then AtTable ((st 1).codecs 0) else AtAny) 1 ea (textData sub) counted := by
    refine ⟨ha.isFrom, ha.three, ?_, ha.any, ?_⟩
    · intro j hj
      obtain rfl | rfl : j = 0 ∨ j = 1 := by omega
      · exact table_reader ha.table fromAscii_prefixFree fromAscii_bytes _
      · obtain ⟨fl, hc⟩ := ha.codec
        have := machine_member (utf8_plain.on e) hc
        simp only [true_implies]
        exact this
    · intro d hd
      obtain ⟨c, hcc, rfl⟩ := List.mem_map.1 hd
      intro y hy
      rcases List.mem_cons.1 hy with rfl | hy
      · decide
      · exact Verif.Engine.beBytes_bytes c y hy
  have hd := repaired_decode (rs := tableThen Ascii.fromRules e (Utf8.machine {})) (n := 1) (inv := fun p => e.get (p 1) = .zero)
      (fun cp h => (utf8_bytes h.2.1).2) (fun p cp rest h1 h2 h3 => utf8_resume_char h1 h2 h3) (fun p b rest h1 h2 h3 h4 => utf8_resume_skip h1 h2 h3 h4)
      hm hbs (initPriv st ip ins 1) ha.fresh
  obtain ⟨ds, ins', k1, k2, k3, k4, k5⟩ := C82_session (ins := ins) (mid := [E]) (by simp [hn]) hend (by rintro j _ rfl; rw [ha.fresh]; exact utf8Inv_zero)
    (by intro k hk; obtain rfl : k = 0 := by simpa using hk
        exact hE1) (by simpa using hE2.dec) bs hbs (by rw [hd]; exact ⟨e2, e4, trivial⟩) as l h1 h2 h3 h4
  rw [hd] at k2 k3 k4 k5
  refine ⟨ds, ins', k1, ?_, ?_, ?_, k5⟩
  · rw [k2]
    simp only [runProcs, e1, List.flatMap_def]
  · rw [k3]
    simp only [runIn, e2, Nat.add_zero]
  · rw [k4]
    simp only [runOut, e3, Nat.add_zero]

/-- The conversion `ASCII,_UTF-8,ANY#01FFFD&ERROR=x:UTF-16LE`; the private data are those of _UTF-8 and the counter. -/
def utf8AnyTo16 (k : Nat) : Static (Utf8.Priv × Nat) :=
  if k = 1 then ⟨.from_, fun j => if j = 0 then trieCodec Ascii.fromRules else
      if j = 1 then anyByte ((Utf8.machine {}).on ⟨Prod.fst, fun t x => (t, x.2), fun _ _ => rfl, fun _ => rfl⟩).conv
      else anyByte ((Any.machine (textData [0xFFFD]) true).on ⟨Prod.snd, fun t x => (x.1, t), fun _ _ => rfl, fun _ => rfl⟩).conv, 2⟩
  else ⟨.to_, fun _ => uniPrefix (encodeConv (Utf16.encode16 true)), 0⟩

theorem utf8AnyTo16_is (p : Nat → Utf8.Priv × Nat) (hp : (p 1).1 = .zero) :
    Utf8Any (utf8AnyTo16 1) p ⟨Prod.fst, fun t x => (t, x.2), fun _ _ => rfl, fun _ => rfl⟩ ⟨Prod.snd, fun t x => (x.1, t), fun _ _ => rfl, fun _ => rfl⟩
      [0xFFFD] true := by
  refine ⟨rfl, rfl, ?_, ⟨_, rfl⟩, ⟨_, rfl⟩, hp⟩
  refine represents_trie _ ?_
  intro r hr
  obtain ⟨c, _, _, rfl⟩ := fromAscii_mem hr
  simp

theorem repaired_example :
    Repaired Spec.utf8 Utf8Char Utf8Range [0xFFFD] [0x41, 0xFF, 0xC3, 0x41, 0xED, 0xA0, 0x80, 0x42]
      [0x41, 0xFFFD, 0xFFFD, 0x41, 0xFFFD, 0xFFFD, 0xFFFD, 0x42] 5 := by
  have ch : ∀ {c : Nat} {rest cps : List Nat} {n : Nat}, 1 ≤ c → c < 0x80 → Repaired Spec.utf8 Utf8Char Utf8Range [0xFFFD] rest cps n →
      Repaired Spec.utf8 Utf8Char Utf8Range [0xFFFD] (c :: rest) (c :: cps) n := by
    intro c rest cps n h1 h2 h
    have := Repaired.char (enc := Spec.utf8) (valid := Utf8Char) (range := Utf8Range) (cp := c) ⟨h1, by omega, by unfold Surrogate; omega⟩ h
    simpa [Spec.utf8, h2] using this
  have sk : ∀ {b : Nat} {rest cps : List Nat} {n : Nat}, (∀ cp, Utf8Char cp → ¬Spec.utf8 cp <+: b :: rest) → ¬Unfinished Spec.utf8 Utf8Range (b :: rest) →
      Repaired Spec.utf8 Utf8Char Utf8Range [0xFFFD] rest cps n → Repaired Spec.utf8 Utf8Char Utf8Range [0xFFFD] (b :: rest) (0xFFFD :: cps) (n + 1) :=
    fun h1 h2 h => .skip h1 h2 h
  refine ch (by omega) (by omega) (sk ?_ ?_ (sk ?_ ?_ (ch (by omega) (by omega) (sk ?_ ?_ (sk ?_ ?_ (sk ?_ ?_ (ch (by omega) (by omega) .nil)))))))
  all_goals first
    | (rintro cp ⟨h1, h2, h3⟩ ⟨t, hp⟩
       unfold Surrogate at h3
       unfold Spec.utf8 utf8Form at hp
       (repeat' split at hp) <;> simp [utf8Tail] at hp <;> omega)
    | (rintro ⟨cp, tl, ⟨h1, h2⟩, h4, hp⟩
       unfold Spec.utf8 utf8Form at hp
       (repeat' split at hp) <;> simp [utf8Tail] at hp <;> omega)

-- Broken UTF-8 cut inside a broken sequence: U+FFFD for each of the five bytes, which the counter of ANY (at 7 before) counts.
example : ∃ ds ins', Session utf8AnyTo16
      (Ins.init utf8AnyTo16 (fun _ j t => if j = 1 then (.zero, t.2) else t) { ph := fun _ => { priv := fun _ => (.zero, 7) }, phasen := 2 })
      ([⟨some [0x41, 0xFF, 0xC3], false, .file⟩] ++ [⟨some [0x41, 0xED, 0xA0, 0x80, 0x42], true, .file⟩]) ds ins' ∧
    (ds.map (fun d => d.bytes)).flatten ++ ins'.pending.flatten =
      [0x41, 0x00, 0xFD, 0xFF, 0xFD, 0xFF, 0x41, 0x00, 0xFD, 0xFF, 0xFD, 0xFF, 0xFD, 0xFF, 0x42, 0x00] ∧ ins'.ierr = 0 ∧ ins'.oerr = 0 ∧
    ((ins'.ph 1).priv 2).2 = 12 := by
  obtain ⟨ds, ins', k1, k2, k3, k4, k5⟩ := C82_utf8 (st := utf8AnyTo16) (ip := fun _ j t => if j = 1 then (.zero, t.2) else t)
    (ins := { ph := fun _ => { priv := fun _ => (.zero, 7) }, phasen := 2 }) (b := .utf16 true) rfl
    (utf8AnyTo16_is _ rfl) (.utf16 true ⟨rfl, rfl, rfl⟩) _ (by decide) _ _ repaired_example (by unfold Scalar; decide)
    [⟨some [0x41, 0xFF, 0xC3], false, .file⟩] ⟨some [0x41, 0xED, 0xA0, 0x80, 0x42], true, .file⟩ (by decide) rfl (by decide) rfl
  exact ⟨ds, ins', k1, k2.trans (by decide), k3, k4, k5 rfl⟩

end Verif.Props
