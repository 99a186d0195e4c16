import Verif.Spec.Bytes
import Verif.Model.Bytes
import Verif.Props.Lex
import Verif.Props.Fallback

/-! C98: the codecs BYTE and HEX. -/

namespace Verif.Props
open Verif.Spec
open Verif.Engine hiding Datum step

variable {π : Type}

namespace Keep
open Verif.Bytes

/-! ### Tables -/

theorem byteFrom_mem {r : List Nat × List Datum} (h : r ∈ byteFrom) : ∃ b, b < 256 ∧ r = ([b], [[3, b]]) := by
  obtain ⟨b, hb, rfl⟩ := List.mem_map.1 h
  exact ⟨b, List.mem_range.1 hb, rfl⟩

theorem byteFrom_lookup {b : Nat} (h : b < 256) : lookup byteFrom [b] = some [[3, b]] := by
  refine MkTable.lookup_unique (List.mem_map.2 ⟨b, List.mem_range.2 h, rfl⟩) ?_
  intro d hd
  obtain ⟨c, _, k⟩ := byteFrom_mem hd
  simp only [Prod.mk.injEq, List.cons.injEq, and_true] at k
  rw [k.2, k.1]

theorem byteFrom_data : ∀ r ∈ byteFrom, r.2 ≠ [] ∧ ∀ d ∈ r.2, IsBytes d := by
  intro r hr
  obtain ⟨b, hb, rfl⟩ := byteFrom_mem hr
  refine ⟨by simp, ?_⟩
  intro d hd y hy
  simp only [List.mem_singleton] at hd
  subst hd
  simp only [List.mem_cons, List.not_mem_nil, or_false] at hy
  omega

/-- Tables of patterns of one length are prefix free. -/
theorem oneLength_prefixFree {R : Rules Nat (List Datum)} {k : Nat} (h : ∀ r ∈ R, r.1.length = k) : PrefixFree R := by
  intro p b hl
  obtain ⟨r, hr, e, _⟩ := single_lookup_none.lookup_some_mem hl
  rw [extendable, List.any_eq_false]
  intro r' hr'
  simp only [Bool.and_eq_true, bne_iff_ne, ne_eq, not_and, Decidable.not_not, List.isPrefixOf_iff_prefix]
  intro hp
  exact (hp.eq_of_length (by rw [← e, h r hr, h r' hr'])).symm

theorem byteFrom_prefixFree : PrefixFree byteFrom := oneLength_prefixFree (k := 1) fun r hr => by
  obtain ⟨b, _, rfl⟩ := byteFrom_mem hr
  rfl

theorem byteTo_mem {r : List Datum × List Datum} (h : r ∈ byteTo) : ∃ b, b < 256 ∧ r = ([[3, b]], [[b]]) := by
  obtain ⟨b, hb, rfl⟩ := List.mem_map.1 h
  exact ⟨b, List.mem_range.1 hb, rfl⟩

theorem byteTo_lookup {b : Nat} (h : b < 256) : lookup byteTo [[3, b]] = some [[b]] := by
  refine MkTable.lookup_unique (List.mem_map.2 ⟨b, List.mem_range.2 h, rfl⟩) ?_
  intro d hd
  obtain ⟨c, _, k⟩ := byteTo_mem hd
  simp only [Prod.mk.injEq, List.cons.injEq, and_true, true_and] at k
  rw [k.2, k.1]

theorem byteTo_none {cp : Nat} : lookup byteTo [uniDatum cp] = none := by
  cases hl : lookup byteTo [uniDatum cp] with
  | none => rfl
  | some d =>
    obtain ⟨c, _, k⟩ := byteTo_mem (Verif.Spec.lookup_mem hl)
    simp [uniDatum] at k

theorem byteTo_good : GoodRules byteTo ∧ ∀ r ∈ byteTo, r.1.length ≤ 1 := by
  constructor
  · intro r hr
    obtain ⟨b, hb, rfl⟩ := byteTo_mem hr
    refine ⟨by simp, ?_, by simp, ?_⟩
    · intro d hd
      simp only [List.mem_singleton] at hd
      subst hd
      exact ⟨by simp, by intro y hy; simp only [List.mem_cons, List.not_mem_nil, or_false] at hy; omega⟩
    · intro d hd
      simp only [List.mem_singleton] at hd
      subst hd
      exact ⟨by simp, by intro y hy; simp only [List.mem_cons, List.not_mem_nil, or_false] at hy; omega⟩
  · intro r hr
    obtain ⟨b, hb, rfl⟩ := byteTo_mem hr
    exact Nat.le_refl _

/-- A table for characters has no line for a byte. -/
theorem uni_none {R : Rules Datum (List Datum)} {b : Nat} (h : ∀ r ∈ R, ∀ d, r.1 = [d] → ∃ t, d = 1 :: t) : lookup R [[3, b]] = none := by
  cases hl : lookup R [[3, b]] with
  | none => rfl
  | some o =>
    obtain ⟨t, ht⟩ := h _ (Verif.Spec.lookup_mem hl) _ rfl
    simp at ht

theorem ascii_uni : ∀ r ∈ Ascii.toRules, ∀ d, r.1 = [d] → ∃ t, d = 1 :: t := by
  intro r hr d hd
  unfold Ascii.toRules at hr
  rcases List.mem_append.1 hr with h | h
  · obtain ⟨k, _, rfl⟩ := List.mem_map.1 h
    simp only [List.cons.injEq, and_true] at hd
    exact ⟨_, hd.symm⟩
  · simp only [List.mem_singleton] at h
    subst h
    simp only [List.cons.injEq, and_true] at hd
    exact ⟨_, hd.symm⟩

theorem charset_uni (x : Charset) : ∀ r ∈ x.toRules, ∀ d, r.1 = [d] → ∃ t, d = 1 :: t := by
  intro r hr d hd
  rcases List.mem_append.1 hr with h | h
  · obtain ⟨k, _, rfl⟩ := List.mem_map.1 h
    simp only [List.cons.injEq, and_true] at hd
    exact ⟨_, hd.symm⟩
  · obtain ⟨k, _, rfl⟩ := List.mem_map.1 h
    simp only [List.cons.injEq, and_true] at hd
    exact ⟨_, hd.symm⟩

/-! ### Sessions -/

/-- Data each of which an output phase writes as some bytes. -/
theorem items_session {st : Nat → Static π} {ip : Nat → Nat → π → π} {ins : Ins π} (hn : ins.phasen = 2) {D : Proc π}
    (hD : Realises (st 1) (fun q => q = initPriv st ip ins 1) D) {m : Nat} {fs : Nat → Datum → Option (List Datum)} (hE : EncoderPhase (st 2) .to_ m fs)
    {T : List Nat} (hT : IsBytes T) {l : List (Datum × List Nat)}
    (h : ∀ ds, ds.flatten = T → D.out ds = l.map Prod.fst ∧ D.inErrors ds = 0 ∧ D.outErrors ds = 0 ∧ D.ok ds)
    (hl : ∀ i ∈ l, i.1 ≠ [] ∧ i.1 ≠ [1] ∧ firstOf fs i.1 0 (m + 1) = some [i.2])
    (as : List Arg) (a : Arg) (h1 : ∀ x ∈ as, x.flush = false) (h2 : a.flush = true) (h3 : ∀ x ∈ as ++ [a], x.mode ≠ .null)
    (h4 : ((as ++ [a]).filterMap (fun x => x.input)).flatten = T) :
    ∃ ds ins', Session st (ins.init st ip) (as ++ [a]) ds ins' ∧
      (ds.map (fun d => d.bytes)).flatten ++ ins'.pending.flatten = l.flatMap Prod.snd ∧ ins'.ierr = ins.ierr ∧ ins'.oerr = ins.oerr := by
  have hch : Converts st ip ins [D, encoderProc π false (fun d => firstOf fs d 0 (m + 1))] := by
    refine chain_converts ⟨by simp, ?_, ?_⟩ (by simp [hn])
    · intro k hk
      match k, hk with
      | 0, _ => exact hD
      | 1, _ => exact encoder_real hE _
    · intro k hk _
      match k, hk with
      | 0, _ => rfl
  have hb : ∀ x ∈ as ++ [a], ∀ c ∈ x.input, IsBytes c := by
    intro x hx c hc y hy
    refine hT y ?_
    rw [← h4]
    exact List.mem_flatten.2 ⟨c, List.mem_filterMap.2 ⟨x, hx, hc⟩, hy⟩
  obtain ⟨f1, f2, f3, f4⟩ := h _ h4
  have hne : nonEmpty (l.map Prod.fst) = l.map Prod.fst := by
    refine List.filter_eq_self.2 ?_
    intro d hd
    obtain ⟨i, hi, rfl⟩ := List.mem_map.1 hd
    have := (hl i hi).1
    cases e : i.1 with
    | nil => exact absurd e this
    | cons _ _ => rfl
  obtain ⟨ds, ins', k1, k2, _, k4, k5, _⟩ := hch as a h1 h2 h3 hb _ rfl ⟨.inl f2, f4, rfl, by
    rw [f1]
    simp only [encoderProc, hne]
    intro d hd
    obtain ⟨i, hi, rfl⟩ := List.mem_map.1 hd
    exact (hl i hi).2.1, trivial⟩
  refine ⟨ds, ins', k1, ?_, ?_, ?_⟩
  · rw [k2]
    simp only [runProcs, f1]
    simp only [encoderProc, hne]
    clear h f1 hne
    induction l with
    | nil => rfl
    | cons i l ih =>
      rw [List.map_cons, List.flatMap_cons, List.flatten_append, ih fun j hj => hl j (by simp [hj]), (hl i (by simp)).2.2]
      simp
  · rw [k4]
    simp only [runIn, f2, Nat.zero_add]
    simp [encoderProc]
  · rw [k5]
    simp only [runOut, f1, f3, Nat.zero_add, Nat.add_zero]
    simp only [encoderProc, hne, Bool.false_eq_true, if_false]
    have : ((l.map Prod.fst).filter fun d => (firstOf fs d 0 (m + 1)).isNone) = [] := by
      rw [List.filter_eq_nil_iff]
      intro d hd
      obtain ⟨i, hi, rfl⟩ := List.mem_map.1 hd
      simp [(hl i hi).2.2]
    rw [this]
    rfl

/-! ### Tables that read everything -/

theorem lookup_isSome {R : Rules Nat (List Datum)} {r : List Nat × List Datum} (h : r ∈ R) : ∃ o, lookup R r.1 = some o := by
  induction R with
  | nil => simp at h
  | cons q R ih =>
    rw [lookup]
    split
    · exact ⟨_, rfl⟩
    · rename_i hq
      rcases List.mem_cons.1 h with rfl | h
      · exact absurd rfl hq
      · exact ih h

/-- If the last table has a line for every byte, everything can be read. -/
theorem pieces_total {Rs : Nat → Rules Nat (List Datum)} {n : Nat} (hd : ∀ j, j ≤ n → ∀ r ∈ Rs j, r.1 ≠ [] ∧ r.2.length = 1)
    (hb : ∀ b, b < 256 → (lookup (Rs n) [b]).isSome) : ∀ (T : List Nat), IsBytes T → ∃ l, Pieces Rs n T l := by
  intro T
  induction hk : T.length using Nat.strongRecOn generalizing T with
  | _ k ih =>
    intro hT
    cases T with
    | nil => exact ⟨[], .nil⟩
    | cons b s =>
      have first : ∀ m, (∃ j, j < m ∧ j ≤ n ∧ ∃ r ∈ Rs j, r.1 <+: b :: s) →
          ∃ j, j ≤ n ∧ (∃ r ∈ Rs j, r.1 <+: b :: s) ∧ ∀ i, i < j → ∀ r ∈ Rs i, ¬ r.1 <+: b :: s := by
        intro m
        induction m with
        | zero => rintro ⟨j, h, _⟩; omega
        | succ m ihm =>
          rintro ⟨j, h1, h2, h3⟩
          by_cases hx : ∃ j, j < m ∧ j ≤ n ∧ ∃ r ∈ Rs j, r.1 <+: b :: s
          · exact ihm hx
          · refine ⟨j, h2, h3, ?_⟩
            intro i hi r hr hp
            exact hx ⟨i, by omega, by omega, r, hr, hp⟩
      obtain ⟨j, h1, ⟨r, hr, t, ht⟩, h3⟩ := first (n + 1) ⟨n, by omega, Nat.le_refl _, by
        have := hb b (hT b (by simp))
        obtain ⟨o, ho⟩ := Option.isSome_iff_exists.1 this
        obtain ⟨r, hr, e, _⟩ := single_lookup_none.lookup_some_mem ho
        exact ⟨r, hr, by rw [e]; exact ⟨s, rfl⟩⟩⟩
      have hne := (hd j h1 r hr).1
      obtain ⟨l, hl⟩ := ih t.length (by
        subst hk
        rw [← ht, List.length_append]
        have := List.length_pos_iff.2 hne
        omega) t rfl (fun y hy => hT y (by rw [← ht]; simp [hy]))
      obtain ⟨o, ho⟩ := lookup_isSome hr
      obtain ⟨r', hr', _, e'⟩ := single_lookup_none.lookup_some_mem ho
      have hlen := (hd j h1 r' hr').2
      rw [e'] at hlen
      obtain ⟨d, rfl⟩ := List.length_eq_one_iff.1 hlen
      rw [← ht]
      exact ⟨_, .cons h1 hne ho (by rw [ht]; exact h3) hl⟩

/-- Every piece is of one of the tables. -/
theorem pieces_mem {Rs : Nat → Rules Nat (List Datum)} {n : Nat} {T : List Nat} {l : List (List Nat × Datum)} (h : Pieces Rs n T l) :
    l.flatMap Prod.fst = T ∧ ∀ x ∈ l, ∃ j, j ≤ n ∧ lookup (Rs j) x.1 = some [x.2] := by
  induction h with
  | nil => exact ⟨rfl, by simp⟩
  | @cons j q s d l hj hq hl _ _ ih =>
    refine ⟨by rw [List.flatMap_cons, ih.1], ?_⟩
    intro x hx
    rcases List.mem_cons.1 hx with rfl | hx
    · exact ⟨j, hj, hl⟩
    · exact ih.2 x hx

/-! ### UTF-8, then BYTE -/

/-- The readers `rs 0`, …, `rs n`, then `L`. -/
def thenLast (rs : Nat → Reader π) (n : Nat) (L : Reader π) (j : Nat) : Reader π := if j ≤ n then rs j else L

theorem resume_last {rs : Nat → Reader π} {L : Reader π} {out : Nat → List Datum} (hL : ∀ x b s, b < 256 → L.read x [] (b :: s) = .done s x (out b)) {n : Nat} :
    ∀ (k j : Nat) (p q : Nat → π) (b : Nat) (s : List Nat), b < 256 → j + k = n → (∀ i, i ≤ n → q i = p i) →
    ∃ q', (∀ i, i ≤ n → q' i = (resume rs k j p [] (b :: s)).1 i) ∧
      resume (thenLast rs n L) (k + 1) j q [] (b :: s) = (q', some ((resume rs k j p [] (b :: s)).2.getD (s, out b)))
  | k, j, p, q, b, s, hb, hk, hq => by
    have hj : thenLast rs n L j = rs j := by rw [thenLast, if_pos (by omega)]
    rw [resume_eq rs, resume_eq (thenLast rs n L), hj, hq j (by omega)]
    have hset : ∀ t i, i ≤ n → setPriv q j t i = setPriv p j t i := by
      intro t i hi
      simp only [setPriv]
      split
      · rfl
      · exact hq i hi
    have fail : ∀ t, ∃ q', (∀ i, i ≤ n → q' i = (retry rs k j (setPriv p j t) (b :: s)).1 i) ∧
        retry (thenLast rs n L) (k + 1) j (setPriv q j t) (b :: s) = (q', some ((retry rs k j (setPriv p j t) (b :: s)).2.getD (s, out b))) := by
      intro t
      cases k with
      | zero =>
        have hA : thenLast rs n L (j + 1) = L := by rw [thenLast, if_neg (by omega)]
        refine ⟨setPriv (setPriv q j t) (j + 1) (setPriv q j t (j + 1)), ?_, ?_⟩
        · intro i hi
          simp only [retry]
          rw [← hset t i hi]
          simp only [setPriv]
          split
          · rename_i h; omega
          · rfl
        · simp only [retry]
          rw [resume_eq, hA, hL _ _ _ hb]
          rfl
      | succ k =>
        simp only [retry]
        exact resume_last hL k (j + 1) (setPriv p j t) (setPriv q j t) b s hb (by omega) (hset t)
    cases (rs j).read (p j) [] (b :: s) with
    | done rest t o => exact ⟨setPriv q j t, hset t, rfl⟩
    | dead t => exact fail t
    | ended t => exact fail t
termination_by k => k

/-- The data a text with broken places gives, with the bytes they stand for: characters and single bytes. -/
theorem kept_decode {rs : Nat → Reader π} {L : Reader π} (hL : ∀ x b s, b < 256 → L.read x [] (b :: s) = .done s x [[3, b]]) {n : Nat}
    {inv : (Nat → π) → Prop} (hinv : ∀ p q, inv p → (∀ i, i ≤ n → q i = p i) → inv q) {enc : Nat → List Nat} {valid range : Nat → Prop}
    (hb : ∀ cp, valid cp → enc cp ≠ [])
    (hc : ∀ p cp rest, inv p → valid cp → IsBytes (enc cp ++ rest) →
      ∃ p', inv p' ∧ resume rs n 0 p [] (enc cp ++ rest) = (p', some (rest, [uniDatum cp])))
    (hx : ∀ p b rest, inv p → (∀ cp, valid cp → ¬enc cp <+: b :: rest) → ¬Unfinished enc range (b :: rest) → IsBytes (b :: rest) →
      ∃ p', inv p' ∧ resume rs n 0 p [] (b :: rest) = (p', none))
    {bs cps : List Nat} {k : Nat} (hm : Mended enc valid range bs cps k) (hbs : IsBytes bs) (p : Nat → π) (hp : inv p) :
    ∃ l : List (Datum × List Nat), (decode (thenLast rs n L) (n + 1) p bs).out = l.map Prod.fst ∧ (decode (thenLast rs n L) (n + 1) p bs).errors = 0 ∧
      l.flatMap Prod.snd = bs ∧ ∀ i ∈ l, (∃ cp, valid cp ∧ i = (uniDatum cp, enc cp)) ∨ ∃ b, b < 256 ∧ i = ([3, b], [b]) := by
  induction hm generalizing p with
  | nil => exact ⟨[], by rw [decode_nil]; rfl, by rw [decode_nil], rfl, by simp⟩
  | @char cp rest cps k h1 _ ih =>
    obtain ⟨b, w, e⟩ := List.exists_cons_of_ne_nil (hb cp h1)
    obtain ⟨p', i1, i2⟩ := hc p cp rest hp h1 hbs
    obtain ⟨q', j1, j2⟩ := resume_last (L := L) (n := n) (out := fun b => [[3, b]]) hL n 0 p p b (w ++ rest) (hbs b (by rw [e]; simp)) (by omega) (fun _ _ => rfl)
    rw [e, List.cons_append] at i2 ⊢
    rw [i2] at j1 j2
    have hq := hinv p' q' i1 j1
    obtain ⟨l, l1, l2, l3, l4⟩ := ih (fun x h => hbs x (by simp [h])) q' hq
    have hd := (decode_some (by simp) j2).1
    rw [hd]
    refine ⟨(uniDatum cp, enc cp) :: l, by simp [l1], l2, by rw [List.flatMap_cons, l3, e]; rfl, ?_⟩
    intro i hi
    rcases List.mem_cons.1 hi with rfl | hi
    · exact .inl ⟨cp, h1, rfl⟩
    · exact l4 i hi
  | @skip b rest cps k h1 h2 _ ih =>
    obtain ⟨p', i1, i2⟩ := hx p b rest hp h1 h2 hbs
    obtain ⟨q', j1, j2⟩ := resume_last (L := L) (n := n) (out := fun b => [[3, b]]) hL n 0 p p b rest (hbs b (by simp)) (by omega) (fun _ _ => rfl)
    rw [i2] at j1 j2
    have hq := hinv p' q' i1 j1
    obtain ⟨l, l1, l2, l3, l4⟩ := ih (fun x h => hbs x (by simp [h])) q' hq
    have hd := (decode_some (by simp) j2).1
    rw [hd]
    refine ⟨([3, b], [b]) :: l, by simp [l1], l2, by rw [List.flatMap_cons, l3]; rfl, ?_⟩
    intro i hi
    rcases List.mem_cons.1 hi with rfl | hi
    · exact .inr ⟨b, hbs b (by simp), rfl⟩
    · exact l4 i hi

/-- `ASCII,_UTF-8,BYTE` -/
structure ReadsUtf8Byte (s : Static π) (p : Nat → π) (e : Lens π Utf8.Priv) : Prop where
  isFrom : s.type = .from_
  three : s.codecn = 2
  table : Represents (s.codecs 0) Ascii.fromRules
  codec : ∃ fl, s.codecs 1 = anyByte ((Utf8.machine {}).on e).conv fl
  byte : Represents (s.codecs 2) byteFrom
  fresh : e.get (p 1) = .zero

/-- `_UTF-8,ASCII,BYTE` -/
structure WritesUtf8Byte (s : Static π) : Prop where
  isTo : s.type = .to_
  three : s.codecn = 2
  codec : s.codecs 0 = Utf8.toCodec
  table : Represents (s.codecs 1) (symbolRules Ascii.toRules)
  byte : Represents (s.codecs 2) (symbolRules byteTo)

/-- `ASCII,_X,BYTE` -/
structure ReadsByte (s : Static π) (x : Charset) : Prop where
  isFrom : s.type = .from_
  three : s.codecn = 2
  ascii : Represents (s.codecs 0) Ascii.fromRules
  table : Represents (s.codecs 1) x.fromRules
  byte : Represents (s.codecs 2) byteFrom

/-- `_X,ASCII,BYTE` -/
structure WritesByte (s : Static π) (x : Charset) : Prop where
  isTo : s.type = .to_
  three : s.codecn = 2
  table : Represents (s.codecs 0) (symbolRules x.toRules)
  ascii : Represents (s.codecs 1) (symbolRules Ascii.toRules)
  byte : Represents (s.codecs 2) (symbolRules byteTo)

theorem uniDatum_ne (cp : Nat) : uniDatum cp ≠ [] ∧ uniDatum cp ≠ [1] := by
  have := Verif.Engine.beBytes_ne cp
  exact ⟨by simp [uniDatum], by simpa [uniDatum] using this⟩

theorem first3 {α : Type} (f : Nat → Option α) : (List.range (2 + 1)).findSome? f = (f 0).or ((f 1).or (f 2)) := by
  have e : List.range (2 + 1) = [0, 1, 2] := rfl
  rw [e]
  simp only [List.findSome?_cons, List.findSome?_nil]
  cases f 0 <;> cases f 1 <;> cases f 2 <;> rfl

end Keep
open Keep
open Verif.Bytes

/-- C98, UTF-8.  `UTF-8,BYTE:UTF-8,BYTE`, any bytes that do not end inside a character, cut in any way: they come out as they were, without errors. -/
theorem C98_utf8 {st : Nat → Static π} {ip : Nat → Nat → π → π} {ins : Ins π} {e : Lens π Utf8.Priv} (hn : ins.phasen = 2)
    (ha : ReadsUtf8Byte (st 1) (initPriv st ip ins 1) e) (hb : WritesUtf8Byte (st 2)) (bs : List Nat) (hbs : IsBytes bs)
    (hu : ∀ u s, bs = u ++ s → s ≠ [] → ¬Unfinished Spec.utf8 Utf8Range s)
    (as : List Arg) (l : Arg) (h1 : ∀ x ∈ as, x.flush = false) (h2 : l.flush = true) (h3 : ∀ x ∈ as ++ [l], x.mode ≠ .null)
    (h4 : ((as ++ [l]).filterMap (fun x => x.input)).flatten = bs) :
    ∃ ds ins', Session st (ins.init st ip) (as ++ [l]) ds ins' ∧
      (ds.map (fun d => d.bytes)).flatten ++ ins'.pending.flatten = bs ∧ ins'.ierr = ins.ierr ∧ ins'.oerr = ins.oerr := by
  obtain ⟨cps, k, hm⟩ := C70_total bs hu
  have hR : Readers (st 1) (thenLast (tableThen Ascii.fromRules e (Utf8.machine {})) 1 (Reader.table byteFrom)) (fun j x => j = 1 → Utf8Inv (e.get x))
      (fun j => if j = 1 then AtAny else AtTable ((st 1).codecs j)) := by
    refine ⟨ha.isFrom, ?_⟩
    intro j hj
    rw [ha.three] at hj
    obtain rfl | rfl | rfl : j = 0 ∨ j = 1 ∨ j = 2 := by omega
    · exact table_reader ha.table fromAscii_prefixFree fromAscii_bytes _
    · obtain ⟨fl, hc⟩ := ha.codec
      have := machine_member (utf8_plain.on e) hc
      simp only [true_implies]
      exact this
    · refine table_reader ha.byte byteFrom_prefixFree ?_ _
      intro p b hl
      obtain ⟨r, hr, _, e⟩ := single_lookup_none.lookup_some_mem hl
      rw [← e]; exact (byteFrom_data r hr).2
  have hD := reader_realises hR (p := initPriv st ip ins 1) (by rintro j rfl; rw [ha.fresh]; exact utf8Inv_zero)
  rw [ha.three] at hD
  obtain ⟨its, i1, i2, i3, i4⟩ := kept_decode (rs := tableThen Ascii.fromRules e (Utf8.machine {})) (n := 1) (inv := fun p => e.get (p 1) = .zero)
    (L := Reader.table byteFrom) (fun x b s hb => by
      have := table_hit (π := π) byteFrom_prefixFree (byteFrom_lookup hb) (by simp) x s
      simpa using this)
    (fun p q h h' => by rw [h' 1 (Nat.le_refl _)]; exact h)
    (fun cp h => (utf8_bytes h.2.1).2) (fun p cp rest h1 h2 h3 => utf8_resume_char h1 h2 h3) (fun p b rest h1 h2 h3 h4 => utf8_resume_skip h1 h2 h3 h4)
    hm hbs (initPriv st ip ins 1) ha.fresh
  have hE : EncoderPhase (st 2) .to_ 2 (fun j => if j = 0 then uniEnc Utf8.encode else if j = 1 then fun d => lookup Ascii.toRules [d] else fun d => lookup byteTo [d]) := by
    refine ⟨hb.isTo, by simp, hb.three, ?_⟩
    intro j hj
    obtain rfl | rfl | rfl : j = 0 ∨ j = 1 ∨ j = 2 := by omega
    · exact .call _ hb.codec utf8Encode_bytes
    · exact .table _ hb.table toAscii_good.1 toAscii_good.2
    · exact .table _ hb.byte byteTo_good.1 byteTo_good.2
  have := items_session hn hD hE hbs (l := its) (by
    intro ds hds
    simp only [decoderProc, hds]
    exact ⟨i1, i2, trivial, trivial⟩) (by
    intro i hi
    rcases i4 i hi with ⟨cp, ⟨c1, c2, c3⟩, rfl⟩ | ⟨b, hb, rfl⟩
    · refine ⟨(uniDatum_ne cp).1, (uniDatum_ne cp).2, ?_⟩
      rw [firstOf_range, first3]
      simp only [if_true, Nat.one_ne_zero, if_false, uniEnc_uni]
      by_cases hc : cp < 0x80
      · rw [C14_refuses cp (.inl hc)]
        have e2 : uniDatum cp = [1, cp] := by rw [uniDatum, be1 (by omega)]
        rw [e2, toAscii_lookup cp c1 hc]
        simp [Spec.utf8, hc]
      · rw [C14_encode cp (by omega) c2]
        rfl
    · refine ⟨by simp, by simp, ?_⟩
      rw [firstOf_range, first3]
      simp only [if_true, Nat.one_ne_zero, if_false, show (2 : Nat) ≠ 0 by decide, show (2 : Nat) ≠ 1 by decide]
      rw [uni_none ascii_uni, byteTo_lookup hb]
      rfl) as l h1 h2 h3 h4
  rw [i3] at this
  exact this

/-- C98, character sets.  `X,BYTE:X,BYTE` for a character set of C76 each of whose codes is written as it was read: all bytes, cut in any way, come out as
they were, without errors. -/
theorem C98_charset {st : Nat → Static π} {ip : Nat → Nat → π → π} {ins : Ins π} {x : Charset} (hx : CharsetOk x []) (hn : ins.phasen = 2)
    (ha : ReadsByte (st 1) x) (hb : WritesByte (st 2) x) (bs : List Nat) (hbs : IsBytes bs)
    (as : List Arg) (l : Arg) (h1 : ∀ x ∈ as, x.flush = false) (h2 : l.flush = true) (h3 : ∀ x ∈ as ++ [l], x.mode ≠ .null)
    (h4 : ((as ++ [l]).filterMap (fun x => x.input)).flatten = bs) :
    ∃ ds ins', Session st (ins.init st ip) (as ++ [l]) ds ins' ∧
      (ds.map (fun d => d.bytes)).flatten ++ ins'.pending.flatten = bs ∧ ins'.ierr = ins.ierr ∧ ins'.oerr = ins.oerr := by
  have hf := Charset.fine_iff hx.fine
  have xdata : ∀ r ∈ x.fromRules, ∃ c cp, (c, cp) ∈ x.reads.pairs ∧ r = (beBytes c, [uniDatum cp]) := by
    intro r hr
    obtain ⟨a, ha, rfl⟩ := List.mem_map.1 hr
    exact ⟨a.1, a.2, ha, rfl⟩
  let Rs : Nat → Rules Nat (List Datum) := fun j => if j = 0 then Ascii.fromRules else if j = 1 then x.fromRules else byteFrom
  obtain ⟨ps, hps⟩ := pieces_total (Rs := Rs) (n := 2) (by
    intro j hj r hr
    obtain rfl | rfl | rfl : j = 0 ∨ j = 1 ∨ j = 2 := by omega
    · obtain ⟨c, _, _, rfl⟩ := fromAscii_mem hr
      simp
    · obtain ⟨c, cp, hm, rfl⟩ := xdata r hr
      exact ⟨(code_length (hf.codes _ hm).2.1).2, rfl⟩
    · obtain ⟨b, _, rfl⟩ := byteFrom_mem hr
      simp) (by
    intro b hb
    show (lookup byteFrom [b]).isSome
    rw [byteFrom_lookup hb]; rfl) bs hbs
  obtain ⟨m1, m2⟩ := pieces_mem hps
  obtain ⟨D, hD, d1⟩ := tables_pieces (s := st 1) (Rs := Rs) ha.isFrom (by
    intro j hj
    rw [ha.three] at hj
    obtain rfl | rfl | rfl : j = 0 ∨ j = 1 ∨ j = 2 := by omega
    · exact ⟨ha.ascii, fromAscii_prefixFree, ascii_data⟩
    · refine ⟨ha.table, fromRules_prefixFree hf, ?_⟩
      intro r hr
      obtain ⟨c, cp, _, rfl⟩ := xdata r hr
      refine ⟨by simp, ?_⟩
      intro d hd
      simp only [List.mem_singleton] at hd
      subst hd
      exact uniDatum_bytes _
    · exact ⟨ha.byte, byteFrom_prefixFree, byteFrom_data⟩) (initPriv st ip ins 1) (by rw [ha.three]; exact hps)
  have hE : EncoderPhase (st 2) .to_ 2 (fun j d => lookup (if j = 0 then x.toRules else if j = 1 then Ascii.toRules else byteTo) [d]) := by
    refine ⟨hb.isTo, by simp, hb.three, ?_⟩
    intro j hj
    obtain rfl | rfl | rfl : j = 0 ∨ j = 1 ∨ j = 2 := by omega
    · exact .table _ hb.table (toRules_good hf).1 (toRules_good hf).2
    · exact .table _ hb.ascii toAscii_good.1 toAscii_good.2
    · exact .table _ hb.byte byteTo_good.1 byteTo_good.2
  have code : ∀ c cp, x.char c = some cp → Scalar cp → firstOf (fun j d => lookup (if j = 0 then x.toRules else if j = 1 then Ascii.toRules else byteTo) [d]) (uniDatum cp) 0 (2 + 1)
      = some [beBytes c] := by
    intro c cp h hs
    rw [firstOf_range, first3]
    simp only [if_true, Nat.one_ne_zero, if_false, show (2 : Nat) ≠ 0 by decide, show (2 : Nat) ≠ 1 by decide]
    have hc := charset_lookup hf hs
    simp only [List.findSome?_cons, List.findSome?_nil] at hc
    rw [hx.exact c cp (by simp) h, Option.map_some] at hc
    cases h0 : lookup x.toRules [uniDatum cp] with
    | some o => rw [h0] at hc; simpa using hc
    | none =>
      rw [h0] at hc
      cases h1 : lookup Ascii.toRules [uniDatum cp] with
      | some o => rw [h1] at hc; simpa using hc
      | none => rw [h1] at hc; simp at hc
  have := items_session hn hD hE hbs (l := ps.map fun q => (q.2, q.1)) (by
    intro ds hds
    rw [List.map_map]
    exact d1 ds hds) (by
    intro i hi
    obtain ⟨q, hq, rfl⟩ := List.mem_map.1 hi
    obtain ⟨j, hj, hl⟩ := m2 q hq
    obtain rfl | rfl | rfl : j = 0 ∨ j = 1 ∨ j = 2 := by omega
    · obtain ⟨c, c1, c2, e1, e2⟩ := (fromAscii_lookup _ _).1 hl
      simp only [List.cons.injEq, and_true] at e2
      have e3 : uniDatum c = [1, c] := by rw [uniDatum, be1 (by omega)]
      have := code c c (by unfold Charset.char; rw [if_pos ⟨c1, c2⟩]) (by unfold Scalar Surrogate; omega)
      rw [be1 (by omega)] at this
      simp only [e1, e2, ← e3]
      exact ⟨(uniDatum_ne c).1, (uniDatum_ne c).2, this⟩
    · obtain ⟨r, hr, e1, e2⟩ := single_lookup_none.lookup_some_mem hl
      obtain ⟨c, cp, hm, rfl⟩ := xdata r hr
      simp only [List.cons.injEq, and_true] at e1 e2
      have hh := high_pairs hx.high hm
      have hk := (hf.codes _ hm)
      simp only at hh hk
      have := code c cp (by
        unfold Charset.char
        rw [if_neg (by omega), Chart.mem_find hf.reads hm]) hk.2.2
      simp only [← e1, ← e2]
      exact ⟨(uniDatum_ne cp).1, (uniDatum_ne cp).2, this⟩
    · obtain ⟨r, hr, e1, e2⟩ := single_lookup_none.lookup_some_mem hl
      obtain ⟨b, hb, rfl⟩ := byteFrom_mem hr
      simp only [List.cons.injEq, and_true] at e1 e2
      simp only [← e1, ← e2]
      refine ⟨by simp, by simp, ?_⟩
      rw [firstOf_range, first3]
      simp only [if_true, Nat.one_ne_zero, if_false, show (2 : Nat) ≠ 0 by decide, show (2 : Nat) ≠ 1 by decide]
      rw [uni_none (charset_uni x), uni_none ascii_uni, byteTo_lookup hb]
      rfl) as l h1 h2 h3 h4
  rw [List.flatMap_map, m1] at this
  exact this

/-! ### HEX -/

theorem hexDigits_mem {x : Nat × Nat} (h : x ∈ hexDigits) : hexValue x.1 = some x.2 ∧ x.1 < 128 ∧ x.2 < 16 := by
  have : (hexDigits.all fun x => decide (hexValue x.1 = some x.2 ∧ x.1 < 128 ∧ x.2 < 16)) = true := by decide +kernel
  exact of_decide_eq_true (List.all_eq_true.1 this x h)

theorem hexDigits_value {c v : Nat} (h : hexValue c = some v) : (c, v) ∈ hexDigits := by
  have hc : c < 128 := by
    unfold hexValue at h
    have e1 : '9'.toNat = 57 := rfl
    have e2 : 'F'.toNat = 70 := rfl
    have e3 : 'f'.toNat = 102 := rfl
    rw [e1, e2, e3] at h
    split at h
    · omega
    · split at h
      · omega
      · split at h
        · omega
        · cases h
  have : ((List.range 128).all fun c => match hexValue c with | some v => hexDigits.contains (c, v) | none => true) = true := by decide +kernel
  have := List.all_eq_true.1 this c (List.mem_range.2 hc)
  rw [h] at this
  simpa using this

theorem hexFrom_mem {r : List Nat × List Datum} (h : r ∈ hexFrom) : ∃ c d v w, hexValue c = some v ∧ hexValue d = some w ∧ r = ([c, d], [[3, 16 * v + w]]) := by
  obtain ⟨x, hx, h⟩ := List.mem_flatMap.1 h
  obtain ⟨y, hy, rfl⟩ := List.mem_map.1 h
  exact ⟨x.1, y.1, x.2, y.2, (hexDigits_mem hx).1, (hexDigits_mem hy).1, rfl⟩

theorem hexValue_lt {c v : Nat} (h : hexValue c = some v) : v < 16 ∧ c < 128 := ⟨(hexDigits_mem (hexDigits_value h)).2.2, (hexDigits_mem (hexDigits_value h)).2.1⟩

theorem hexFrom_lookup {c d v w : Nat} (h1 : hexValue c = some v) (h2 : hexValue d = some w) : lookup hexFrom [c, d] = some [[3, 16 * v + w]] := by
  refine MkTable.lookup_unique (List.mem_flatMap.2 ⟨(c, v), hexDigits_value h1, List.mem_map.2 ⟨(d, w), hexDigits_value h2, rfl⟩⟩) ?_
  intro o ho
  obtain ⟨c', d', v', w', k1, k2, k⟩ := hexFrom_mem ho
  simp only [Prod.mk.injEq, List.cons.injEq, and_true] at k
  obtain ⟨⟨rfl, rfl⟩, rfl⟩ := k
  rw [h1] at k1
  rw [h2] at k2
  cases k1
  cases k2
  rfl

theorem hexFrom_ok : PrefixFree hexFrom ∧ ∀ r ∈ hexFrom, r.2 ≠ [] ∧ ∀ d ∈ r.2, IsBytes d := by
  refine ⟨oneLength_prefixFree (k := 2) ?_, ?_⟩
  · intro r hr
    obtain ⟨c, d, v, w, _, _, rfl⟩ := hexFrom_mem hr
    rfl
  · intro r hr
    obtain ⟨c, d, v, w, k1, k2, rfl⟩ := hexFrom_mem hr
    refine ⟨by simp, ?_⟩
    intro x hx y hy
    simp only [List.mem_singleton] at hx
    subst hx
    have := hexValue_lt k1
    have := hexValue_lt k2
    simp only [List.mem_cons, List.not_mem_nil, or_false] at hy
    omega

theorem capital_ok {v : Nat} (h : v < 16) : hexValue (capital v) = some v ∧ capital v < 'a'.toNat := by
  have : ((List.range 16).all fun v => decide (hexValue (capital v) = some v ∧ capital v < 'a'.toNat)) = true := by decide +kernel
  exact of_decide_eq_true (List.all_eq_true.1 this v (List.mem_range.2 h))

theorem hexTo_mem {r : List Datum × List Datum} (h : r ∈ hexTo) : ∃ b, b < 256 ∧ r = ([[3, b]], [[capital (b / 16), capital (b % 16)]]) := by
  obtain ⟨b, hb, rfl⟩ := List.mem_map.1 h
  exact ⟨b, List.mem_range.1 hb, rfl⟩

theorem hexTo_lookup {b : Nat} (h : b < 256) : lookup hexTo [[3, b]] = some [[capital (b / 16), capital (b % 16)]] := by
  refine MkTable.lookup_unique (List.mem_map.2 ⟨b, List.mem_range.2 h, rfl⟩) ?_
  intro d hd
  obtain ⟨c, _, k⟩ := hexTo_mem hd
  simp only [Prod.mk.injEq, List.cons.injEq, and_true, true_and] at k
  rw [k.2, k.1]

theorem hexTo_good : GoodRules hexTo ∧ ∀ r ∈ hexTo, r.1.length ≤ 1 := by
  constructor
  · intro r hr
    obtain ⟨b, hb, rfl⟩ := hexTo_mem hr
    refine ⟨by simp, ?_, by simp, ?_⟩
    · intro d hd
      simp only [List.mem_singleton] at hd
      subst hd
      exact ⟨by simp, by intro y hy; simp only [List.mem_cons, List.not_mem_nil, or_false] at hy; omega⟩
    · intro d hd
      simp only [List.mem_singleton] at hd
      subst hd
      refine ⟨by simp, ?_⟩
      intro y hy
      have k1 := (hexValue_lt (capital_ok (v := b / 16) (by omega)).1).2
      have k2 := (hexValue_lt (capital_ok (v := b % 16) (by omega)).1).2
      simp only [List.mem_cons, List.not_mem_nil, or_false] at hy
      rcases hy with rfl | rfl <;> omega
  · intro r hr
    obtain ⟨b, hb, rfl⟩ := hexTo_mem hr
    exact Nat.le_refl _

/-- A phase with one table. -/
structure Tab (s : Static π) (ty : PType) (R : Rules Nat (List Datum)) : Prop where
  type : s.type = ty
  one : s.codecn = 0
  table : Represents (s.codecs 0) R

/-- C98, to digits.  `BYTE:HEX`: the bytes come out as pairs of digits, capital letters only, without errors. -/
theorem C98_hex {st : Nat → Static π} {ip : Nat → Nat → π → π} {ins : Ins π} (hn : ins.phasen = 2)
    (ha : Tab (st 1) .from_ byteFrom) (hb : Tab (st 2) .to_ (symbolRules hexTo)) (bs : List Nat) (hbs : IsBytes bs)
    (as : List Arg) (l : Arg) (h1 : ∀ x ∈ as, x.flush = false) (h2 : l.flush = true) (h3 : ∀ x ∈ as ++ [l], x.mode ≠ .null)
    (h4 : ((as ++ [l]).filterMap (fun x => x.input)).flatten = bs) :
    ∃ ds ins' t, Session st (ins.init st ip) (as ++ [l]) ds ins' ∧
      (ds.map (fun d => d.bytes)).flatten ++ ins'.pending.flatten = t ∧ HexPairs t bs ∧ Capitals t ∧ ins'.ierr = ins.ierr ∧ ins'.oerr = ins.oerr := by
  have hps : Pieces (fun _ => byteFrom) 0 bs (bs.map fun b => ([b], [3, b])) := by
    clear h4
    induction bs with
    | nil => exact .nil
    | cons b bs ih =>
      exact .cons (j := 0) (q := [b]) (Nat.le_refl _) (by simp) (byteFrom_lookup (hbs b (by simp))) (fun i hi => absurd hi (by omega))
        (ih fun y hy => hbs y (by simp [hy]))
  obtain ⟨D, hD, d1⟩ := tables_pieces (s := st 1) (Rs := fun _ => byteFrom) ha.type (by
    intro j hj
    rw [ha.one] at hj
    obtain rfl : j = 0 := by omega
    exact ⟨ha.table, byteFrom_prefixFree, byteFrom_data⟩) (initPriv st ip ins 1) (by rw [ha.one]; exact hps)
  have hE : EncoderPhase (st 2) .to_ 0 (fun _ d => lookup hexTo [d]) := by
    refine ⟨hb.type, by simp, hb.one, ?_⟩
    intro j hj
    obtain rfl : j = 0 := by omega
    exact .table _ hb.table hexTo_good.1 hexTo_good.2
  obtain ⟨ds, ins', k1, k2, k3, k4⟩ := items_session hn hD hE hbs (l := bs.map fun b => ([3, b], [capital (b / 16), capital (b % 16)])) (by
    intro ds hds
    rw [List.map_map]
    have := d1 ds hds
    rw [List.map_map] at this
    exact this) (by
    intro i hi
    obtain ⟨b, hb, rfl⟩ := List.mem_map.1 hi
    refine ⟨by simp, by simp, ?_⟩
    simp only [firstOf]
    rw [hexTo_lookup (hbs b hb)]) as l h1 h2 h3 h4
  refine ⟨ds, ins', _, k1, k2, ?_, ?_, k3, k4⟩
  · clear h4 k2 hps d1
    rw [List.flatMap_map]
    induction bs with
    | nil => exact .nil
    | cons b bs ih =>
      have hb' := hbs b (by simp)
      have := HexPairs.cons (capital_ok (v := b / 16) (by omega)).1 (capital_ok (v := b % 16) (by omega)).1 (ih fun y hy => hbs y (by simp [hy]))
      rw [show 16 * (b / 16) + b % 16 = b by omega] at this
      exact this
  · intro c hc
    obtain ⟨i, hi, hc⟩ := List.mem_flatMap.1 hc
    obtain ⟨b, hb, rfl⟩ := List.mem_map.1 hi
    have hb' := hbs b hb
    simp only [List.mem_cons, List.not_mem_nil, or_false] at hc
    rcases hc with rfl | rfl
    · exact (capital_ok (by omega)).2
    · exact (capital_ok (by omega)).2

/-- C98, from digits.  `HEX:BYTE`: pairs of digits, in any mixture of cases, come out as the bytes they stand for, without errors. -/
theorem C98_unhex {st : Nat → Static π} {ip : Nat → Nat → π → π} {ins : Ins π} (hn : ins.phasen = 2)
    (ha : Tab (st 1) .from_ hexFrom) (hb : Tab (st 2) .to_ (symbolRules byteTo)) (t bs : List Nat) (ht : HexPairs t bs)
    (as : List Arg) (l : Arg) (h1 : ∀ x ∈ as, x.flush = false) (h2 : l.flush = true) (h3 : ∀ x ∈ as ++ [l], x.mode ≠ .null)
    (h4 : ((as ++ [l]).filterMap (fun x => x.input)).flatten = t) :
    ∃ ds ins', Session st (ins.init st ip) (as ++ [l]) ds ins' ∧
      (ds.map (fun d => d.bytes)).flatten ++ ins'.pending.flatten = bs ∧ ins'.ierr = ins.ierr ∧ ins'.oerr = ins.oerr := by
  obtain ⟨ps, hps, e, hT, hbs⟩ : ∃ ps, Pieces (fun _ => hexFrom) 0 t ps ∧ ps.map Prod.snd = bs.map (fun b => [3, b]) ∧ IsBytes t ∧ IsBytes bs := by
    clear h4
    induction ht with
    | nil => exact ⟨[], .nil, rfl, by simp [IsBytes], by simp [IsBytes]⟩
    | @cons c d v w s bs k1 k2 _ ih =>
      obtain ⟨ps, i1, i2, i3, i4⟩ := ih
      have g1 := hexValue_lt k1
      have g2 := hexValue_lt k2
      refine ⟨_, .cons (j := 0) (q := [c, d]) (Nat.le_refl _) (by simp) (hexFrom_lookup k1 k2) (fun i hi => absurd hi (by omega)) i1, by simp [i2], ?_, ?_⟩
      · intro y hy
        rcases List.mem_cons.1 hy with rfl | hy
        · omega
        · rcases List.mem_cons.1 hy with rfl | hy
          · omega
          · exact i3 y hy
      · intro y hy
        rcases List.mem_cons.1 hy with rfl | hy
        · omega
        · exact i4 y hy
  obtain ⟨D, hD, d1⟩ := tables_pieces (s := st 1) (Rs := fun _ => hexFrom) ha.type (by
    intro j hj
    rw [ha.one] at hj
    obtain rfl : j = 0 := by omega
    exact ⟨ha.table, hexFrom_ok⟩) (initPriv st ip ins 1) (by rw [ha.one]; exact hps)
  have hE : EncoderPhase (st 2) .to_ 0 (fun _ d => lookup byteTo [d]) := by
    refine ⟨hb.type, by simp, hb.one, ?_⟩
    intro j hj
    obtain rfl : j = 0 := by omega
    exact .table _ hb.table byteTo_good.1 byteTo_good.2
  have := items_session hn hD hE hT (l := bs.map fun b => ([3, b], [b])) (by
    intro ds hds
    rw [List.map_map]
    have := d1 ds hds
    rw [e] at this
    exact this) (by
    intro i hi
    obtain ⟨b, hb, rfl⟩ := List.mem_map.1 hi
    refine ⟨by simp, by simp, ?_⟩
    simp only [firstOf]
    rw [byteTo_lookup (hbs b hb)]) as l h1 h2 h3 h4
  rw [List.flatMap_map] at this
  have e2 : (bs.flatMap fun b => [b]) = bs := by
    clear ht h4 e hbs this
    induction bs with
    | nil => rfl
    | cons b bs ih => rw [List.flatMap_cons, ih]; rfl
  rw [e2] at this
  exact this

/-! ### Conversions -/

/-- `UTF-8,BYTE:UTF-8,BYTE` -/
def keepConv (k : Nat) : Static Utf8.Priv :=
  if k = 1 then ⟨.from_, fun j => if j = 0 then trieCodec Ascii.fromRules else if j = 1 then anyByte ((Utf8.machine {}).on (Lens.self _)).conv else trieCodec byteFrom, 2⟩
  else ⟨.to_, fun j => if j = 0 then Utf8.toCodec else if j = 1 then trieCodec (symbolRules Ascii.toRules) else trieCodec (symbolRules byteTo), 2⟩

theorem trieByte : Represents (trieCodec byteFrom : Codec π) byteFrom := by
  refine represents_trie _ ?_
  intro r hr
  obtain ⟨b, _, rfl⟩ := byteFrom_mem hr
  simp

theorem trieToByte : Represents (trieCodec (symbolRules byteTo) : Codec π) (symbolRules byteTo) := by
  refine represents_trie _ ?_
  intro r hr
  obtain ⟨q, hq, rfl⟩ := List.mem_map.1 hr
  obtain ⟨b, _, rfl⟩ := byteTo_mem hq
  simp [symbols]

theorem keepConv_is (p : Nat → Utf8.Priv) (hp : p 1 = .zero) : ReadsUtf8Byte (keepConv 1) p (Lens.self _) ∧ WritesUtf8Byte (keepConv 2) :=
  ⟨⟨rfl, rfl, trieAscii, ⟨_, rfl⟩, trieByte, hp⟩, ⟨rfl, rfl, rfl, trieToAscii, trieToByte⟩⟩

/-- C98 is false for input that ends inside a character: of E4 B8 `UTF-8,BYTE:UTF-8,BYTE` makes E4 E4 B8 B8. -/
theorem C98_unfinished_violated : ∃ d ins', Call keepConv (({ ph := fun _ => { priv := fun _ => .zero }, phasen := 2 } : Ins Utf8.Priv).init keepConv (fun _ _ _ => .zero))
      ⟨some [0xE4, 0xB8], true, .file⟩ d ins' ∧ d.bytes = [0xE4, 0xE4, 0xB8, 0xB8] ∧ ins'.ierr = 0 ∧ ins'.oerr = 0 :=
  ⟨_, _, call_eval 200 (by decide +kernel), by decide +kernel, by decide +kernel, by decide +kernel⟩

-- Broken input that does not end inside a character, cut inside one: it comes out as it was.
example : ∃ ds ins', Session keepConv (({ ph := fun _ => { priv := fun _ => .zero }, phasen := 2 } : Ins Utf8.Priv).init keepConv (fun _ _ _ => .zero))
      ([⟨some [0x41, 0xE4, 0xB8], false, .file⟩] ++ [⟨some [0x41, 0x00, 0xFF], true, .file⟩]) ds ins' ∧
    (ds.map (fun d => d.bytes)).flatten ++ ins'.pending.flatten = [0x41, 0xE4, 0xB8, 0x41, 0x00, 0xFF] ∧ ins'.ierr = 0 ∧ ins'.oerr = 0 := by
  refine C98_utf8 (st := keepConv) (ip := fun _ _ _ => .zero) (ins := { ph := fun _ => { priv := fun _ => .zero }, phasen := 2 }) rfl (keepConv_is _ rfl).1 (keepConv_is (fun _ => .zero) rfl).2
    _ (by intro y hy; simp only [List.mem_cons, List.not_mem_nil, or_false] at hy; omega) ?_ [⟨some [0x41, 0xE4, 0xB8], false, .file⟩] ⟨some [0x41, 0x00, 0xFF], true, .file⟩
    (by simp) rfl (by simp) rfl
  rintro u s h hs ⟨cp, tl, hcp, htl, e⟩
  -- the last byte of `s` is FF, which is in no character
  have hm : 0xFF ∈ Spec.utf8 cp := by
    rw [e]
    have : s.getLast? = some 0xFF := by
      have := congrArg List.getLast? h
      rw [List.getLast?_append] at this
      cases hl : s.getLast? with
      | none => exact absurd (List.getLast?_eq_none_iff.1 hl) hs
      | some y => rw [hl] at this; simpa using this.symm
    exact List.mem_append_left _ (List.mem_of_getLast? this)
  have := hcp.2
  unfold Spec.utf8 at hm
  (repeat' split at hm) <;>
    simp only [utf8Form, utf8Tail, Nat.reduceSub, Nat.reducePow, Nat.pow_one, Nat.pow_zero, Nat.div_one, List.mem_cons, List.not_mem_nil, or_false] at hm <;> omega

/-- `ISO-8859-1,BYTE:ISO-8859-1,BYTE` and so on, with the compiled files. -/
def keepCharset (x : Charset) (k : Nat) : Static Unit :=
  if k = 1 then ⟨.from_, fun j => if j = 0 then trieCodec Ascii.fromRules else if j = 1 then Verif.MkTable.compiled _ (Verif.MkTable.lines x.fromRules) else trieCodec byteFrom, 2⟩
  else ⟨.to_, fun j => if j = 0 then Verif.MkTable.compiled _ (Verif.MkTable.lines (symbolRules x.toRules)) else if j = 1 then trieCodec (symbolRules Ascii.toRules)
    else trieCodec (symbolRules byteTo), 2⟩

theorem keepCharset_is {x : Charset} (h : CharsetOk x []) : ReadsByte (keepCharset x 1) x ∧ WritesByte (keepCharset x 2) x :=
  ⟨⟨rfl, rfl, trieAscii, (C76_compiled h.fine h.small).1, trieByte⟩, ⟨rfl, rfl, (C76_compiled h.fine h.small).2, trieToAscii, trieToByte⟩⟩

-- Bytes of which CP1252 lacks some (00, 81 and 9D).
example : ∃ ds ins', Session (keepCharset Charsets.cp1252) (({ ph := fun _ => { priv := fun _ => () }, phasen := 2 } : Ins Unit).init (keepCharset Charsets.cp1252) (fun _ _ t => t))
      ([⟨some [0x80, 0x81], false, .file⟩] ++ [⟨some [0x00, 0x41, 0x9D], true, .file⟩]) ds ins' ∧
    (ds.map (fun d => d.bytes)).flatten ++ ins'.pending.flatten = [0x80, 0x81, 0x00, 0x41, 0x9D] ∧ ins'.ierr = 0 ∧ ins'.oerr = 0 :=
  C98_charset (st := keepCharset Charsets.cp1252) (ip := fun _ _ t => t) (ins := { ph := fun _ => { priv := fun _ => () }, phasen := 2 }) C76_cp1252 rfl
    (keepCharset_is C76_cp1252).1 (keepCharset_is C76_cp1252).2 _ (by intro y hy; simp only [List.mem_cons, List.not_mem_nil, or_false] at hy; omega)
    [⟨some [0x80, 0x81], false, .file⟩] ⟨some [0x00, 0x41, 0x9D], true, .file⟩ (by simp) rfl (by simp) rfl

/-- `HEX:BYTE` -/
def unhexConv (k : Nat) : Static Unit :=
  if k = 1 then ⟨.from_, fun _ => trieCodec hexFrom, 0⟩ else ⟨.to_, fun _ => trieCodec (symbolRules byteTo), 0⟩

-- `c3A9`, cut inside a pair, is C3 A9.
example : ∃ ds ins', Session unhexConv (({ ph := fun _ => { priv := fun _ => () }, phasen := 2 } : Ins Unit).init unhexConv (fun _ _ t => t))
      ([⟨some [0x63], false, .file⟩] ++ [⟨some [0x33, 0x41, 0x39], true, .file⟩]) ds ins' ∧
    (ds.map (fun d => d.bytes)).flatten ++ ins'.pending.flatten = [0xC3, 0xA9] ∧ ins'.ierr = 0 ∧ ins'.oerr = 0 := by
  refine C98_unhex (st := unhexConv) (ip := fun _ _ t => t) (ins := { ph := fun _ => { priv := fun _ => () }, phasen := 2 }) rfl ⟨rfl, rfl, represents_trie _ ?_⟩
    ⟨rfl, rfl, trieToByte⟩ [0x63, 0x33, 0x41, 0x39] _ (HexPairs.cons (v := 12) (w := 3) (by decide) (by decide) (HexPairs.cons (v := 10) (w := 9) (by decide) (by decide) .nil))
    [⟨some [0x63], false, .file⟩] ⟨some [0x33, 0x41, 0x39], true, .file⟩ (by simp) rfl (by simp) rfl
  intro r hr
  obtain ⟨c, d, v, w, _, _, rfl⟩ := hexFrom_mem hr
  simp

/-- `BYTE:HEX` -/
def hexConv (k : Nat) : Static Unit :=
  if k = 1 then ⟨.from_, fun _ => trieCodec byteFrom, 0⟩ else ⟨.to_, fun _ => trieCodec (symbolRules hexTo), 0⟩

-- 00 and FF are `00FF`.
example : ∃ d ins', Call hexConv (({ ph := fun _ => { priv := fun _ => () }, phasen := 2 } : Ins Unit).init hexConv (fun _ _ t => t))
      ⟨some [0x00, 0xFF], true, .file⟩ d ins' ∧ d.bytes = [0x30, 0x30, 0x46, 0x46] :=
  ⟨_, _, call_eval 200 (by decide +kernel), by decide +kernel⟩

-- and the hypotheses of `C98_hex` hold of it
example : Tab (hexConv 1) .from_ byteFrom ∧ Tab (hexConv 2) .to_ (symbolRules hexTo) := by
  refine ⟨⟨rfl, rfl, trieByte⟩, ⟨rfl, rfl, represents_trie _ ?_⟩⟩
  intro r hr
  obtain ⟨q, hq, rfl⟩ := List.mem_map.1 hr
  obtain ⟨b, _, rfl⟩ := hexTo_mem hq
  simp [symbols]

end Verif.Props
